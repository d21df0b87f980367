import Verif.Props.BladeDistributions
import Verif.Props.BladeSensitivity
import Verif.Props.Units

/-! # C145: small changes of a prescribed thickness -/

namespace BladeX

open Spec Profile
noncomputable section

/-- Two points of one vertical of a section. -/
theorem placed_vertical (refl : Bool) (r c p k s : ℝ) (ref : Pt) (x y y' : ℝ) :
    dist2 (placed refl r c p k s ref (x, y)) (placed refl r c p k s ref (x, y')) = |c| * |y - y'| := by
  set φ := Real.arctan (p / (2 * Real.pi * r)) with hφ
  obtain ⟨σ, hσ, hσ2⟩ : ∃ σ : ℝ, (if refl then -c else c) = σ * c ∧ σ ^ 2 = 1 := by
    cases refl
    · exact ⟨1, by simp, by norm_num⟩
    · exact ⟨-1, by simp, by norm_num⟩
  rw [← abs_mul, ← Real.sqrt_sq_eq_abs]
  unfold dist2 placed
  simp only [hσ, ← hφ]
  congr 1
  have h1 := Real.sin_sq_add_cos_sq φ
  linear_combination (c ^ 2 * (y - y') ^ 2) * σ ^ 2 * h1 + (c ^ 2 * (y - y') ^ 2) * hσ2

/-- **C145** When a blade with a thickness array (sections on common abscissae, no camber array) goes through: at least one section, no radius
zero, every section with a reference point, as many points on all sections, and an entry of the array for every section. The values of the array,
of the chords and of the other distributions do not matter. -/
theorem C145_defined (b : Blade) (refl : Bool) (hW : b.WellFormed) (T : Arr) (ht : b.thickness = some T) (hf : b.camber = none)
    (hX : ∀ P ∈ b.sections, P.SameX) :
    (∃ b', b.applyTransformations refl = (b', .ok ())) ↔
      b.sections ≠ [] ∧ (∀ r ∈ b.radii, r ≠ 0) ∧ (∀ P ∈ b.sections, ∃ ref, P.referencePoint = .ok ref) ∧
      (∀ P ∈ b.sections, ∀ Q ∈ b.sections, P.upper.length = Q.upper.length) ∧ b.sections.length ≤ T.length := by
  obtain ⟨w1, w2, w3, w4, w5⟩ := id hW
  have hU : ∀ P ∈ b.sections, P.Uniform := fun P hP => Blade.sameX_uniform (hX P hP)
  constructor
  · rintro ⟨b', h⟩
    obtain ⟨S, hSl, hS, hrun⟩ := C131_thickness b b' refl hW T ht hf h
    have look : ∀ (i : Nat) (hi : i < b.sections.length), ∃ ref ρ, (b.sections[i]).referencePoint = .ok ref ∧
        S[i]? = some ((b.sections[i]).thickened ref.2 ρ) := by
      intro i hi
      obtain ⟨ref, ρ, τ, g1, -, g3, -⟩ := hS i b.sections[i] (b.chord[i]'(by omega)) (List.getElem?_eq_getElem hi) (List.getElem?_eq_getElem _)
      exact ⟨ref, ρ, g1, g3⟩
    have hWS : ({ b with thickness := none, sections := S } : Blade).WellFormed := by
      simp only [Blade.WellFormed, hSl]; exact hW
    have hUS : ∀ Q ∈ S, Q.Uniform := by
      intro Q hQ
      obtain ⟨j, hj, rfl⟩ := List.mem_iff_getElem.1 hQ
      have hjs : j < b.sections.length := by omega
      obtain ⟨rj, ρj, -, m3⟩ := look j hjs
      rw [List.getElem?_eq_getElem hj] at m3
      rw [Option.some.inj m3]
      have := hU _ (List.getElem_mem hjs)
      simpa [Profile.Uniform, Profile.thickened] using this
    obtain ⟨d1, d2, d3, d4⟩ := (C46_defined _ refl hWS rfl hf hUS).1 ⟨_, hrun⟩
    refine ⟨?_, d2, ?_, ?_, ?_⟩
    · intro h0
      rw [h0] at hSl
      exact d1 (List.length_eq_zero_iff.1 hSl)
    · intro P hP
      obtain ⟨i, hi, rfl⟩ := List.mem_iff_getElem.1 hP
      obtain ⟨ref, _, g, _⟩ := look i hi
      exact ⟨ref, g⟩
    · intro P hP Q hQ
      obtain ⟨i, hi, rfl⟩ := List.mem_iff_getElem.1 hP
      obtain ⟨j, hj, rfl⟩ := List.mem_iff_getElem.1 hQ
      obtain ⟨r1, ρ1, _, g1⟩ := look i hi
      obtain ⟨r2, ρ2, _, g2⟩ := look j hj
      have := d4 _ (List.mem_of_getElem? g1) _ (List.mem_of_getElem? g2)
      simpa [Profile.upper, Profile.thickened] using this
    · by_contra hlt
      exact (C44_short_thickness b refl hW T ht (by omega)).1 (by rw [h])
  · rintro ⟨h1, h2, h3, h4, h5⟩
    obtain ⟨P0, hP0⟩ := List.exists_mem_of_ne_nil _ h1
    refine Blade.applies_of_sections hW h1 P0.xup.length ?_
    intro i hi
    have hPm : b.sections[i] ∈ b.sections := List.getElem_mem hi
    set P := b.sections[i] with hP
    clear_value P
    obtain ⟨ref, href⟩ := h3 P hPm
    obtain ⟨c, hc⟩ : ∃ c, b.chord[i]? = some c := ⟨_, List.getElem?_eq_getElem (by omega)⟩
    obtain ⟨r, hr⟩ : ∃ c, b.radii[i]? = some c := ⟨_, List.getElem?_eq_getElem (by omega)⟩
    obtain ⟨p, hp⟩ : ∃ c, b.pitch[i]? = some c := ⟨_, List.getElem?_eq_getElem (by omega)⟩
    obtain ⟨k, hk⟩ : ∃ c, b.rake[i]? = some c := ⟨_, List.getElem?_eq_getElem (by omega)⟩
    obtain ⟨s, hs⟩ : ∃ c, b.skew[i]? = some c := ⟨_, List.getElem?_eq_getElem (by omega)⟩
    obtain ⟨τ, hτ⟩ : ∃ c, T[i]? = some c := ⟨_, List.getElem?_eq_getElem (by omega)⟩
    have hr0 := h2 r (List.mem_of_getElem? hr)
    obtain ⟨x1, x2, x3, x4⟩ := hX P hPm
    set R := (P.translate (-ref)).mulAll c with hR
    have hRX : R.SameX := by
      refine ⟨?_, ?_, ?_, ?_⟩
      · simp [hR, Profile.mulAll, Profile.translate, x1]
      · simp [hR, Profile.mulAll, Profile.translate, x2]
      · simp [hR, Profile.mulAll, Profile.translate, x3]
      · simpa [hR, Profile.mulAll, Profile.translate] using x4
    obtain ⟨m, hm, -⟩ := C09_max_thickness R hRX
    obtain ⟨R', hR', hRU, hRl⟩ : ∃ R', R.setThicknessMax τ = .ok R' ∧ R'.Uniform ∧ R'.xup.length = P.xup.length := by
      refine ⟨_, by unfold Profile.setThicknessMax; simp only [hm, bind, Except.bind, pure, Except.pure]; rfl, ?_, ?_⟩
      · have := Blade.sameX_uniform hRX
        simpa [Profile.Uniform] using this
      · simp [hR, Profile.mulAll, Profile.translate]
    obtain ⟨Q, q1, -, -, q2, q3⟩ := (Blade.tail_ok (refl := refl) hr hp hk hs hRU).2 hr0
    refine ⟨Q, ?_, ?_, q2, ?_⟩
    · rw [Blade.runSteps_ok, Blade.steps_split, (Blade.head_ok (refl := refl) hc).2 ref href]
      have gτ := Blade.getIdx_ok.2 hτ
      have hmid : ((List.take 2 (List.drop 2 (Blade.sectionSteps b refl i))).foldlM (fun P f => f P) R : Res Profile) = .ok R' := by
        simp [Blade.sectionSteps, ht, hf, bind, Except.bind, pure, Except.pure, gτ, hR']
      simp only [bind, Except.bind]
      rw [← hR, hmid]
      exact q1
    · rw [List.getD_eq_getElem?_getD, hr]; exact hr0
    · rw [q3, hRl]
      have := h4 P hPm P0 hP0
      obtain ⟨z1, z2, z3, z4⟩ := hX P0 hP0
      simpa [Profile.upper, x2, z2] using this

/-- **C145** Two blades which differ in their thickness arrays only: corresponding points, numbered as in the given section, are at most
`|τ - τ'| / m * |y - y₀|` apart, `m` being the largest thickness of the given section and `y - y₀` the height of the point over the
reference point. The chord does not enter. -/
theorem C145_sensitivity (b b' b₂ b₂' : Blade) (refl : Bool) (hW : b.WellFormed) (T T' : Arr) (ht : b.thickness = some T) (hf : b.camber = none)
    (hX : ∀ P ∈ b.sections, P.SameX) (h : b.applyTransformations refl = (b', .ok ()))
    (hb₂ : b₂ = { b with thickness := some T' }) (h₂ : b₂.applyTransformations refl = (b₂', .ok ()))
    (i : Nat) (P : Profile) (r c τ τ' m : ℝ) (hP : b.sections[i]? = some P) (hr : b.radii[i]? = some r) (hpos : 0 < r)
    (hc : b.chord[i]? = some c) (hc0 : c ≠ 0) (hτ : T[i]? = some τ) (hτ' : T'[i]? = some τ') (hm : P.maxThickness none = .ok m) (hm0 : 0 < m)
    (ref : Pt) (href : P.referencePoint = .ok ref) :
    ∃ up down up₂ down₂, b'.coordsUp[b.sections.length - 1 - i]? = some up ∧ b'.coordsDown[b.sections.length - 1 - i]? = some down ∧
      b₂'.coordsUp[b.sections.length - 1 - i]? = some up₂ ∧ b₂'.coordsDown[b.sections.length - 1 - i]? = some down₂ ∧
      up.length = P.upper.length ∧ up₂.length = P.upper.length ∧ down.length = P.lower.length ∧ down₂.length = P.lower.length ∧
      (∀ (j : Nat) q a a', P.upper[j]? = some q → up[j]? = some a → up₂[j]? = some a' →
        Real.sqrt (distSq3 a a') ≤ |τ - τ'| / m * |q.2 - ref.2|) ∧
      (∀ (j : Nat) q a a', P.lower[j]? = some q → down[j]? = some a → down₂[j]? = some a' →
        Real.sqrt (distSq3 a a') ≤ |τ - τ'| / m * |q.2 - ref.2|) := by
  subst hb₂
  obtain ⟨w1, w2, w3, w4, w5⟩ := id hW
  have hi : i < b.sections.length := (List.getElem?_eq_some_iff.1 hP).1
  have hU : ∀ P ∈ b.sections, P.Uniform := fun P hP => Blade.sameX_uniform (hX P hP)
  obtain ⟨p, hp⟩ : ∃ c, b.pitch[i]? = some c := ⟨_, List.getElem?_eq_getElem (by omega)⟩
  obtain ⟨k, hk⟩ : ∃ c, b.rake[i]? = some c := ⟨_, List.getElem?_eq_getElem (by omega)⟩
  obtain ⟨s, hs⟩ : ∃ c, b.skew[i]? = some c := ⟨_, List.getElem?_eq_getElem (by omega)⟩
  obtain ⟨ref1, ρ, a1, a2, a3, a4⟩ := C131_points b b' refl hW T ht hf hU h i P r c p k s τ hP hr hc hp hk hs hτ
  obtain ⟨ref2, ρ', e1, e2, e3, e4⟩ := C131_points { b with thickness := some T' } b₂' refl hW T' rfl hf hU h₂ i P r c p k s τ' hP hr hc hp hk hs hτ'
  obtain rfl := Except.ok.inj (href.symm.trans a1)
  obtain rfl := Except.ok.inj (href.symm.trans e1)
  have hx := (hX P (List.mem_of_getElem? hP)).1.symm
  obtain ⟨m1, g1, hρ⟩ := a4 hx
  obtain ⟨m2, g2, hρ'⟩ := e4 hx
  obtain rfl := Except.ok.inj (hm.symm.trans g1)
  obtain rfl := Except.ok.inj (hm.symm.trans g2)
  have hcp : 0 < |c| := abs_pos.2 hc0
  rw [if_neg (by positivity)] at hρ hρ'
  have est : ∀ q : Pt, Real.sqrt (distSq3 (wrap r (placed refl r c p k s ref (q.1, ref.2 + ρ * (q.2 - ref.2))))
      (wrap r (placed refl r c p k s ref (q.1, ref.2 + ρ' * (q.2 - ref.2))))) ≤ |τ - τ'| / m * |q.2 - ref.2| := by
    intro q
    refine (wrap_shift hpos _ _).trans (le_of_eq ?_)
    rw [placed_vertical, show ref.2 + ρ * (q.2 - ref.2) - (ref.2 + ρ' * (q.2 - ref.2)) = (τ - τ') / (|c| * m) * (q.2 - ref.2) by
      rw [hρ, hρ']; ring, abs_mul, abs_div, abs_of_pos (mul_pos hcp hm0)]
    field_simp
  refine ⟨_, _, _, _, a2, a3, e2, e3, by simp, by simp, by simp, by simp, ?_, ?_⟩
  · intro j q a a' hq ha ha'
    rw [List.getElem?_map, hq] at ha ha'
    rw [← Option.some.inj ha, ← Option.some.inj ha']
    exact est q
  · intro j q a a' hq ha ha'
    rw [List.getElem?_map, hq] at ha ha'
    rw [← Option.some.inj ha, ← Option.some.inj ha']
    exact est q

/-- **C145** With the reference point between the two surfaces no point moves further than the change of the thickness. -/
theorem C145_between (b b' b₂ b₂' : Blade) (refl : Bool) (hW : b.WellFormed) (T T' : Arr) (ht : b.thickness = some T) (hf : b.camber = none)
    (hX : ∀ P ∈ b.sections, P.SameX) (h : b.applyTransformations refl = (b', .ok ()))
    (hb₂ : b₂ = { b with thickness := some T' }) (h₂ : b₂.applyTransformations refl = (b₂', .ok ()))
    (i : Nat) (P : Profile) (r c τ τ' m : ℝ) (hP : b.sections[i]? = some P) (hr : b.radii[i]? = some r) (hpos : 0 < r)
    (hc : b.chord[i]? = some c) (hc0 : c ≠ 0) (hτ : T[i]? = some τ) (hτ' : T'[i]? = some τ') (hm : P.maxThickness none = .ok m) (hm0 : 0 < m)
    (ref : Pt) (href : P.referencePoint = .ok ref)
    (hin : ∀ (j : Nat) (u d : ℝ), P.yup[j]? = some u → P.ydown[j]? = some d → d ≤ ref.2 ∧ ref.2 ≤ u) :
    ∃ up down up₂ down₂, b'.coordsUp[b.sections.length - 1 - i]? = some up ∧ b'.coordsDown[b.sections.length - 1 - i]? = some down ∧
      b₂'.coordsUp[b.sections.length - 1 - i]? = some up₂ ∧ b₂'.coordsDown[b.sections.length - 1 - i]? = some down₂ ∧
      List.Forall₂ (fun p q => Real.sqrt (distSq3 p q) ≤ |τ - τ'|) up up₂ ∧
      List.Forall₂ (fun p q => Real.sqrt (distSq3 p q) ≤ |τ - τ'|) down down₂ := by
  obtain ⟨up, down, up₂, down₂, k1, k2, k3, k4, l1, l2, l3, l4, k5, k6⟩ :=
    C145_sensitivity b b' b₂ b₂' refl hW T T' ht hf hX h hb₂ h₂ i P r c τ τ' m hP hr hpos hc hc0 hτ hτ' hm hm0 ref href
  obtain ⟨x1, x2, x3, x4⟩ := hX P (List.mem_of_getElem? hP)
  obtain ⟨m', hm', -, hle⟩ := C09_max_thickness P ⟨x1, x2, x3, x4⟩
  obtain rfl := Except.ok.inj (hm.symm.trans hm')
  have small : ∀ (v : ℝ), |v| ≤ m → |τ - τ'| / m * |v| ≤ |τ - τ'| := by
    intro v hv
    rw [div_mul_eq_mul_div, div_le_iff₀ hm0]
    exact mul_le_mul_of_nonneg_left hv (abs_nonneg _)
  refine ⟨up, down, up₂, down₂, k1, k2, k3, k4, ?_, ?_⟩
  · refine List.forall₂_iff_get.2 ⟨by omega, ?_⟩
    intro j hj hj'
    have hjq : j < P.upper.length := by omega
    have hq := List.getElem?_eq_getElem hjq
    refine (k5 j _ _ _ hq (List.getElem?_eq_getElem hj) (List.getElem?_eq_getElem hj')).trans (small _ ?_)
    have hju : j < P.yup.length := by simp only [Profile.upper, List.length_zip] at hjq; omega
    have hjd : j < P.ydown.length := by omega
    have e : (P.upper[j]).2 = P.yup[j] := by simp [Profile.upper]
    rw [e]
    have b1 := hle j _ _ (List.getElem?_eq_getElem hju) (List.getElem?_eq_getElem hjd)
    obtain ⟨b2, b3⟩ := hin j _ _ (List.getElem?_eq_getElem hju) (List.getElem?_eq_getElem hjd)
    rw [abs_of_nonneg (by linarith)] at b1 ⊢
    linarith
  · refine List.forall₂_iff_get.2 ⟨by omega, ?_⟩
    intro j hj hj'
    have hjq : j < P.lower.length := by omega
    have hq := List.getElem?_eq_getElem hjq
    refine (k6 j _ _ _ hq (List.getElem?_eq_getElem hj) (List.getElem?_eq_getElem hj')).trans (small _ ?_)
    have hjd : j < P.ydown.length := by simp only [Profile.lower, List.length_zip] at hjq; omega
    have hju : j < P.yup.length := by omega
    have e : (P.lower[j]).2 = P.ydown[j] := by simp [Profile.lower]
    rw [e]
    have b1 := hle j _ _ (List.getElem?_eq_getElem hju) (List.getElem?_eq_getElem hjd)
    obtain ⟨b2, b3⟩ := hin j _ _ (List.getElem?_eq_getElem hju) (List.getElem?_eq_getElem hjd)
    rw [abs_of_nonneg (by linarith)] at b1
    rw [abs_of_nonpos (by linarith)]
    linarith

/-! ### Non-vacuity -/

/-- The sample blade with thickness 1/2 and with thickness 3/5: all points of the outer section are within 1/10. -/
example : ∃ b' b₂' up up₂, (Sample.trioBlade (some [1/2, 1/2]) none).applyTransformations true = (b', .ok ()) ∧
    (Sample.trioBlade (some [3/5, 3/5]) none).applyTransformations true = (b₂', .ok ()) ∧
    b'.coordsUp[0]? = some up ∧ b₂'.coordsUp[0]? = some up₂ ∧ List.Forall₂ (fun p q => Real.sqrt (distSq3 p q) ≤ 1/10) up up₂ := by
  have hX : ∀ P ∈ (Sample.trioBlade (some [1/2, 1/2]) none).sections, P.SameX := by
    simp [Sample.trioBlade, Sample.trio, Profile.SameX]
  have href := C06_reference_is_midpoint _ Sample.trio_ref.updateEdges
  have def1 : ∀ t : ℝ, ∃ b', (Sample.trioBlade (some [t, t]) none).applyTransformations true = (b', .ok ()) := by
    intro t
    refine (C145_defined (Sample.trioBlade (some [t, t]) none) true (by simp [Sample.trioBlade, Blade.WellFormed]) _ rfl rfl hX).2
      ⟨by simp [Sample.trioBlade], by simp [Sample.trioBlade], ?_, by simp [Sample.trioBlade], by simp [Sample.trioBlade]⟩
    intro P hP
    have : P = Sample.trio := by simpa [Sample.trioBlade] using hP
    subst this
    exact ⟨_, href⟩
  obtain ⟨b', hb⟩ := def1 (1/2)
  obtain ⟨b₂', hb₂⟩ := def1 (3/5)
  have hth : Sample.trio.maxThickness none = .ok (3/10) := Sample.thickness_of rfl rfl rfl
  obtain ⟨up, -, up₂, -, k1, -, k2, -, k3, -⟩ := C145_between _ b' _ b₂' true (by simp [Sample.trioBlade, Blade.WellFormed]) _ [3/5, 3/5] rfl rfl hX hb
    rfl hb₂ 1 Sample.trio 2 1 (1/2) (3/5) (3/10) rfl rfl (by norm_num) rfl (by norm_num) rfl rfl hth (by norm_num) _ href (by
      intro j u d hu hd
      match j with
      | 0 => simp_all [Sample.trio, mid]
      | 1 => simp_all [Sample.trio, mid]; subst hu hd; norm_num
      | 2 => simp_all [Sample.trio, mid]
      | n + 3 => simp [Sample.trio] at hu)
  refine ⟨b', b₂', up, up₂, hb, hb₂, k1, k2, k3.imp fun p q h => h.trans (le_of_eq ?_)⟩
  norm_num [abs_of_nonneg, abs_of_neg, abs_of_nonpos]

end
end BladeX
