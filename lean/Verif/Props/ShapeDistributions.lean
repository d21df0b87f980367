import Verif.Props.ThicknessSensitivity

/-! # C149: thickness and camber distributions together -/

namespace BladeX

open Spec Profile
noncomputable section
open Classical

/-- A foil in reference position, its thickness multiplied, moved along the chord and scaled. -/
private theorem ref_scaled {P : Profile} {x0 x1 u : ℝ} (h : P.RefPosition x0 x1 u) (ρ c a : ℝ) (hc : c ≠ 0) :
    (((P.thickened 0 ρ).translate (-(a, 0))).mulAll c).RefPosition (c * (x0 - a)) (c * (x1 - a)) (c * ρ * u) := by
  obtain ⟨k1, k2, k3, k4, k5, k6, k7, k8⟩ := h.heads
  have hne : ∀ x y : ℝ, (x + -a) * c = (y + -a) * c → x = y := fun x y hxy => by
    have := mul_right_cancel₀ hc hxy; linarith
  refine ⟨by simpa [Profile.Shaped, Profile.thickened, Profile.translate, Profile.mulAll] using h.shaped,
    by simpa [Profile.thickened, Profile.translate, Profile.mulAll] using h.len, ⟨?_, ?_, ?_, ?_⟩, ?_, ?_, ?_⟩
  · refine zip_head?_of ?_ ?_ <;> simp [Profile.thickened, Profile.translate, Profile.mulAll, k1, k5] <;> ring
  · refine zip_getLast?_of (by simpa [Profile.thickened, Profile.translate, Profile.mulAll] using h.shaped.1) ?_ ?_ <;>
      simp [Profile.thickened, Profile.translate, Profile.mulAll, k2, k6] <;> ring
  · refine zip_head?_of ?_ ?_ <;> simp [Profile.thickened, Profile.translate, Profile.mulAll, k3, k7] <;> ring
  · refine zip_getLast?_of (by simpa [Profile.thickened, Profile.translate, Profile.mulAll] using h.shaped.2) ?_ ?_ <;>
      simp [Profile.thickened, Profile.translate, Profile.mulAll, k4, k8] <;> ring
  · intro e
    have := mul_left_cancel₀ hc e
    exact h.chord (by linarith)
  · simp only [Profile.thickened, Profile.translate, Profile.mulAll, List.map_map]
    exact h.nodupUp.map fun x y hxy => hne x y (by simpa using hxy)
  · simp only [Profile.thickened, Profile.translate, Profile.mulAll, List.map_map]
    exact h.nodupDown.map fun x y hxy => hne x y (by simpa using hxy)

private theorem interpW_mul_left {r : ℝ} {X : List ℝ} {y : Arr} (hy : y.length = X.length) (a x : ℝ) :
    interpW r X (y.map fun v => a * v) x = a * interpW r X y x := by
  have := interpW_linear (r := r) hy hy a 0 x
  simp only [zero_mul, add_zero] at this
  rw [← this]
  congr 1
  rw [List.zipWith_self]

/-- Multiplying the thickness of a section multiplies its `max_camber`. -/
private theorem camber_thickened {P : Profile} {x0 x1 u : ℝ} (h : P.RefPosition x0 x1 u) (ρ c a : ℝ) (hc : c ≠ 0) :
    ∃ old R₀ R₁, (((P.thickened 0 ρ).translate (-(a, 0))).mulAll c).maxCamber = .ok (ρ * old, R₁) ∧
      ((P.translate (-(a, 0))).mulAll c).maxCamber = .ok (old, R₀) := by
  obtain ⟨K, hK⟩ : ∃ K : Nat, (K : Int) = 500 := ⟨500, rfl⟩
  have h1 := ref_scaled h ρ c a hc
  have h2 := ref_scaled h 1 c a hc
  have e1 : P.thickened 0 1 = P := by simp [Profile.thickened]
  rw [e1] at h2
  obtain ⟨c1, m1⟩ := h1.maxCamber' (n := K) (by omega)
  obtain ⟨c2, m2⟩ := h2.maxCamber' (n := K) (by omega)
  rw [hK] at m1 m2
  refine ⟨_, _, { ((P.thickened 0 ρ).translate (-(a, 0))).mulAll c with chordLine := c1, camberLine := some (linspaceN (c * (x0 - a)) (c * (x1 - a)) K,
    (linspaceN (c * (x0 - a)) (c * (x1 - a)) K).map (((P.thickened 0 ρ).translate (-(a, 0))).mulAll c).meanInterp) }, ?_, m2⟩
  rw [m1]
  congr 2
  rw [← peak_smul, List.map_map]
  congr 1
  refine List.map_congr_left fun x _ => ?_
  simp only [Function.comp, Profile.meanInterp]
  have key : ∀ (X y : Arr), X.length = y.length →
      interpW 1 (X.map (· + -a) |>.map (· * c)) (((y.map fun v => 0 + ρ * (v - 0)).map (· + -0)).map (· * c)) x =
        ρ * interpW 1 (X.map (· + -a) |>.map (· * c)) ((y.map (· + -0)).map (· * c)) x := by
    intro X y hXy
    rw [← interpW_mul_left (by simp [hXy])]
    congr 1
    simp only [List.map_map]
    refine List.map_congr_left fun v _ => ?_
    simp only [Function.comp]; ring
  have a1 := key P.xup P.yup h.shaped.1
  have a2 := key P.xdown P.ydown h.shaped.2
  simp only [Profile.thickened, Profile.translate, Profile.mulAll, Prod.fst_neg, Prod.snd_neg] at a1 a2 ⊢
  rw [a1, a2]; ring

/-- **C149** A blade with both arrays, a section (not the last) in reference position on common abscissae: the mean line of the section depends on the
camber array only, and half its thickness on the thickness array only, the share of each point in the largest thickness `m` being kept. `old` is
what `max_camber` finds on the section scaled to the chord, before its thickness is set. -/
theorem C149_shape (b b' : Blade) (refl : Bool) (hW : b.WellFormed) (T F : Arr) (ht : b.thickness = some T) (hf : b.camber = some F)
    (h : b.applyTransformations refl = (b', .ok ())) (i : Nat) (hi : i + 1 < b.sections.length)
    (P : Profile) (r c p k s f τ m : ℝ) (hP : b.sections[i]? = some P) (hr : b.radii[i]? = some r) (hc : b.chord[i]? = some c)
    (hp : b.pitch[i]? = some p) (hk : b.rake[i]? = some k) (hs : b.skew[i]? = some s) (hF : F[i]? = some f) (hT : T[i]? = some τ)
    (hm : P.maxThickness none = .ok m) (x0 x1 u : ℝ) (hR : P.RefPosition x0 x1 u) (hx : P.xup = P.xdown) :
    ∃ (old : ℝ) (R₀ : Profile) (up down : List Pt3),
      ((P.translate (-((x0 + x1) / 2, 0))).mulAll c).maxCamber = .ok (old, R₀) ∧ old ≠ 0 ∧ c ≠ 0 ∧ τ ≠ 0 ∧ 0 < m ∧
      b'.coordsUp[b.sections.length - 1 - i]? = some up ∧ b'.coordsDown[b.sections.length - 1 - i]? = some down ∧
      up.length = P.xup.length ∧ down.length = P.xup.length ∧
      ∀ (j : Nat) (x yu yd : ℝ), P.upper[j]? = some (x, yu) → P.lower[j]? = some (x, yd) →
        up[j]? = some (wrap r (placed refl r 1 p k s (0, 0) (c * (x - (x0 + x1) / 2),
          f / old * (c * ((yu + yd) / 2)) + |τ| * |yu - yd| / (2 * m)))) ∧
        down[j]? = some (wrap r (placed refl r 1 p k s (0, 0) (c * (x - (x0 + x1) / 2),
          f / old * (c * ((yu + yd) / 2)) - |τ| * |yu - yd| / (2 * m)))) := by
  have hU : P.Uniform := ⟨hR.shaped.1, hR.len.symm, hR.shaped.2⟩
  obtain ⟨ref, ρ, oldρ, R₁, up, down, g1, -, g2, g3, g4, g5, g6, g7, g8, g9⟩ :=
    C131_camber b b' refl hW F hf h i hi P r c p k s f hP hr hc hp hk hs hF hU hx
  have href := C06_reference_is_midpoint _ hR.updateEdges
  rw [g1] at href
  obtain rfl : ref = ((x0 + x1) / 2, 0) := by rw [Except.ok.inj href]; simp [mid]
  obtain ⟨τ', m', t1, t2, t3⟩ := g2 T ht
  obtain rfl : τ' = τ := Option.some.inj (t1.symm.trans hT)
  obtain rfl : m' = m := Except.ok.inj (t2.symm.trans hm)
  have hc0 : c ≠ 0 := by
    rintro rfl
    unfold Profile.maxCamber at g3
    rw [bndA] at g3
    obtain ⟨P1, z1, -⟩ := g3
    unfold Profile.computeChordLine at z1
    rw [bndA] at z1
    obtain ⟨e, z2, z1⟩ := z1
    obtain ⟨xu0, xd0, xu1, xd1, yu0, yu1, yd1, y1, y2, y3, y4, y5, y6, y7, -, -, rfl⟩ := Profile.updateEdges_ok z2
    have zero : ∀ v ∈ (((P.thickened 0 ρ).translate (-((x0 + x1) / 2, 0))).mulAll 0).xup, v = 0 := by
      intro v hv
      simp only [Profile.mulAll, List.mem_map] at hv
      obtain ⟨w, -, rfl⟩ := hv
      simp
    have b1 := zero _ (List.mem_of_mem_head? y1)
    have b2 := zero _ (List.mem_of_mem_getLast? y3)
    rw [if_pos (by simp [b1, b2])] at z1
    cases z1
  obtain ⟨old, R₀, R₂, q1, q2⟩ := camber_thickened hR ρ c ((x0 + x1) / 2) hc0
  simp only at g3
  obtain ⟨rfl, -⟩ := Prod.mk.inj (Except.ok.inj (g3.symm.trans q1))
  have hρ0 : ρ ≠ 0 := left_ne_zero_of_mul g4
  have ho0 : old ≠ 0 := right_ne_zero_of_mul g4
  have hcm : |c| * m' ≠ 0 := by
    intro h0
    rw [if_pos h0] at t3
    exact hρ0 t3
  rw [if_neg hcm] at t3
  have hτ0 : τ' ≠ 0 := by rintro rfl; simp at t3; exact hρ0 t3
  have hm0 : 0 < m' := by
    obtain ⟨m₂, e1, ⟨i', a1, a2, -, -, e2⟩, -⟩ := C09_max_thickness P (hR.sameX hx)
    obtain rfl := Except.ok.inj (e1.symm.trans hm)
    exact lt_of_le_of_ne (by rw [← e2]; exact abs_nonneg _) (Ne.symm (right_ne_zero_of_mul hcm))
  refine ⟨old, R₀, up, down, q2, ho0, hc0, hτ0, hm0, g5, g6, g7, g8, ?_⟩
  intro j x yu yd hu hd
  obtain ⟨f1, f2⟩ := g9 j x yu yd hu hd
  have hcp : 0 < |c| := abs_pos.2 hc0
  have e1 : f / (ρ * old) * (c * ρ * ((yu + yd) / 2 - 0)) = f / old * (c * ((yu + yd) / 2)) := by field_simp; ring
  have e2 : |c * ρ * (yu - yd)| / 2 = |τ'| * |yu - yd| / (2 * m') := by
    rw [abs_mul, abs_mul, t3, abs_div, abs_of_pos (mul_pos hcp hm0)]
    field_simp
  simp only [e1, e2] at f1 f2
  exact ⟨f1, f2⟩

/-- **C149** Two blades which differ in their thickness and camber arrays only: corresponding points of a section (not the last) in reference position
on common abscissae are at most `|f - f'| / |old| * |c (yu + yd) / 2| + |τ - τ'| |yu - yd| / (2 m)` apart. -/
theorem C149_sensitivity (b b' b₂ b₂' : Blade) (refl : Bool) (hW : b.WellFormed) (T F T' F' : Arr) (ht : b.thickness = some T) (hf : b.camber = some F)
    (h : b.applyTransformations refl = (b', .ok ())) (hb₂ : b₂ = { b with thickness := some T', camber := some F' })
    (h₂ : b₂.applyTransformations refl = (b₂', .ok ())) (i : Nat) (hi : i + 1 < b.sections.length)
    (P : Profile) (r c f τ f' τ' m : ℝ) (hP : b.sections[i]? = some P) (hr : b.radii[i]? = some r) (hr0 : 0 < r) (hc : b.chord[i]? = some c)
    (hF : F[i]? = some f) (hT : T[i]? = some τ) (hF' : F'[i]? = some f') (hT' : T'[i]? = some τ')
    (hm : P.maxThickness none = .ok m) (x0 x1 u : ℝ) (hR : P.RefPosition x0 x1 u) (hx : P.xup = P.xdown) :
    ∃ (old : ℝ) (R₀ : Profile) (up down up₂ down₂ : List Pt3),
      ((P.translate (-((x0 + x1) / 2, 0))).mulAll c).maxCamber = .ok (old, R₀) ∧ old ≠ 0 ∧
      b'.coordsUp[b.sections.length - 1 - i]? = some up ∧ b'.coordsDown[b.sections.length - 1 - i]? = some down ∧
      b₂'.coordsUp[b.sections.length - 1 - i]? = some up₂ ∧ b₂'.coordsDown[b.sections.length - 1 - i]? = some down₂ ∧
      up.length = P.xup.length ∧ up₂.length = P.xup.length ∧ down.length = P.xup.length ∧ down₂.length = P.xup.length ∧
      ∀ (j : Nat) (x yu yd : ℝ) (a a' d d' : Pt3), P.upper[j]? = some (x, yu) → P.lower[j]? = some (x, yd) →
        up[j]? = some a → up₂[j]? = some a' → down[j]? = some d → down₂[j]? = some d' →
        Real.sqrt (distSq3 a a') ≤ |f - f'| / |old| * |c * ((yu + yd) / 2)| + |τ - τ'| * |yu - yd| / (2 * m) ∧
        Real.sqrt (distSq3 d d') ≤ |f - f'| / |old| * |c * ((yu + yd) / 2)| + |τ - τ'| * |yu - yd| / (2 * m) := by
  subst hb₂
  obtain ⟨w1, w2, w3, w4, w5⟩ := id hW
  obtain ⟨p, hp⟩ : ∃ c, b.pitch[i]? = some c := ⟨_, List.getElem?_eq_getElem (by omega)⟩
  obtain ⟨k, hk⟩ : ∃ c, b.rake[i]? = some c := ⟨_, List.getElem?_eq_getElem (by omega)⟩
  obtain ⟨s, hs⟩ : ∃ c, b.skew[i]? = some c := ⟨_, List.getElem?_eq_getElem (by omega)⟩
  obtain ⟨old, R₀, up, down, a1, a2, a3, a4, a5, a6, a7, a8, a9, a10⟩ :=
    C149_shape b b' refl hW T F ht hf h i hi P r c p k s f τ m hP hr hc hp hk hs hF hT hm x0 x1 u hR hx
  obtain ⟨old', R₀', up₂, down₂, b1, b2, b3, b4, b5, b6, b7, b8, b9, b10⟩ :=
    C149_shape { b with thickness := some T', camber := some F' } b₂' refl hW T' F' rfl rfl h₂ i hi P r c p k s f' τ' m hP hr hc hp hk hs hF' hT' hm
      x0 x1 u hR hx
  obtain ⟨rfl, -⟩ := Prod.mk.inj (Except.ok.inj (b1.symm.trans a1))
  refine ⟨old', R₀, up, down, up₂, down₂, a1, a2, a6, a7, b6, b7, a8, b8, a9, b9, ?_⟩
  intro j x yu yd a a' d d' hu hd ha ha' hd1 hd2
  obtain ⟨u1, u2⟩ := a10 j x yu yd hu hd
  obtain ⟨v1, v2⟩ := b10 j x yu yd hu hd
  obtain rfl := Option.some.inj (ha.symm.trans u1)
  obtain rfl := Option.some.inj (ha'.symm.trans v1)
  obtain rfl := Option.some.inj (hd1.symm.trans u2)
  obtain rfl := Option.some.inj (hd2.symm.trans v2)
  have e1 : |f / old' * (c * ((yu + yd) / 2)) - f' / old' * (c * ((yu + yd) / 2))| = |f - f'| / |old'| * |c * ((yu + yd) / 2)| := by
    rw [← abs_div, ← abs_mul]; congr 1; ring
  have e2 : |(|τ| * |yu - yd| / (2 * m) - |τ'| * |yu - yd| / (2 * m))| ≤ |τ - τ'| * |yu - yd| / (2 * m) := by
    rw [show |τ| * |yu - yd| / (2 * m) - |τ'| * |yu - yd| / (2 * m) = (|τ| - |τ'|) * (|yu - yd| / (2 * m)) by ring, abs_mul,
      abs_of_nonneg (show 0 ≤ |yu - yd| / (2 * m) by positivity), mul_div_assoc]
    exact mul_le_mul_of_nonneg_right (abs_abs_sub_abs_le _ _) (by positivity)
  constructor
  · refine (wrap_shift hr0 _ _).trans ?_
    rw [placed_vertical, abs_one, one_mul]
    refine (le_of_eq ?_).trans ((abs_add_le _ _).trans (add_le_add e1.le e2))
    congr 1; ring
  · refine (wrap_shift hr0 _ _).trans ?_
    rw [placed_vertical, abs_one, one_mul, ← e1]
    refine le_trans (le_of_eq ?_) ((abs_sub _ _).trans (add_le_add le_rfl e2))
    congr 1; ring

/-- **C149** When a blade with both arrays goes through, all sections being in reference position on common abscissae: at least one section, no radius
zero, as many points on all sections, an entry of the thickness array for every section and of the camber array for every section but the last, and on
these sections: chord and prescribed thickness not zero, some thickness, and some camber of the section scaled to the chord. -/
theorem C149_defined (b : Blade) (refl : Bool) (hW : b.WellFormed) (T F : Arr) (ht : b.thickness = some T) (hf : b.camber = some F)
    (hR : ∀ P ∈ b.sections, P.xup = P.xdown ∧ ∃ x0 x1 u, P.RefPosition x0 x1 u) :
    (∃ b', b.applyTransformations refl = (b', .ok ())) ↔
      b.sections ≠ [] ∧ (∀ r ∈ b.radii, r ≠ 0) ∧ (∀ P ∈ b.sections, ∀ Q ∈ b.sections, P.xup.length = Q.xup.length) ∧ b.sections.length ≤ T.length ∧
      ∀ (i : Nat) (P : Profile) (c x0 x1 u : ℝ), i + 1 < b.sections.length → b.sections[i]? = some P → b.chord[i]? = some c → P.RefPosition x0 x1 u →
        c ≠ 0 ∧ (∃ τ, T[i]? = some τ ∧ τ ≠ 0) ∧ (∃ f, F[i]? = some f) ∧ (∃ m, P.maxThickness none = .ok m ∧ 0 < m) ∧
        ∃ old R₀, ((P.translate (-((x0 + x1) / 2, 0))).mulAll c).maxCamber = .ok (old, R₀) ∧ old ≠ 0 := by
  obtain ⟨w1, w2, w3, w4, w5⟩ := id hW
  have hU : ∀ P ∈ b.sections, P.Uniform := fun P hP => by
    obtain ⟨-, x0, x1, u, h⟩ := hR P hP
    exact ⟨h.shaped.1, h.len.symm, h.shaped.2⟩
  constructor
  · rintro ⟨b', h⟩
    obtain ⟨p1, p2⟩ := C97_points b b' refl hW F hf hU h
    have hTl : b.sections.length ≤ T.length := by
      by_contra hlt
      exact (C44_short_thickness b refl hW T ht (by omega)).1 (by rw [h])
    obtain ⟨ss, up, down, h1, h2, rfl⟩ := (Blade.apply_ok hW.1).1 h
    obtain ⟨hl, hall⟩ := (Blade.sectionLoop_ok _ _ _).1 h1
    obtain ⟨c1, c2, c3, -⟩ := (Blade.cylindrical_ok (by rw [hW.1]; exact hl.symm)).1 h2
    refine ⟨?_, ?_, ?_, hTl, ?_⟩
    · intro h0
      rw [h0] at hl
      exact c1 (List.length_eq_zero_iff.1 hl)
    · intro r hr
      obtain ⟨i, hi, rfl⟩ := List.mem_iff_getElem.1 hr
      exact (c2 i (ss[i]'(by omega)) _ (List.getElem?_eq_getElem _) (List.getElem?_eq_getElem hi)).1
    · intro P hP Q hQ
      have up : ∀ P ∈ b.sections, ∃ S ∈ ss, S.upper.length = P.xup.length := by
        intro P hP
        obtain ⟨i, hi, rfl⟩ := List.mem_iff_getElem.1 hP
        obtain ⟨S, s1, -, -, s2⟩ := p2 i _ (List.getElem?_eq_getElem hi)
        refine ⟨S, List.mem_of_getElem? s1, ?_⟩
        rw [s2 (Or.inl (hR _ hP).1)]
        have := (hU _ hP).1
        simp only [Profile.upper, List.length_zip]; omega
      obtain ⟨S, s1, s2⟩ := up P hP
      obtain ⟨S', s1', s2'⟩ := up Q hQ
      rw [← s2, ← s2']
      exact (c3 S s1 S' s1').1
    · intro i P c x0 x1 u hi hP hc hRP
      have hx := (hR P (List.mem_of_getElem? hP)).1
      have hi' : i < ss.length := by omega
      have hF : ∃ f, F[i]? = some f := by
        have hrun := hall i P ss[i] hP (List.getElem?_eq_getElem hi')
        rw [Nat.zero_add, Blade.runSteps_ok, Blade.steps_split, bndA] at hrun
        obtain ⟨R, -, hrun⟩ := hrun
        rw [bndA] at hrun
        obtain ⟨S, t2, -⟩ := hrun
        simp only [Blade.sectionSteps, List.drop_succ_cons, List.drop_zero, List.take_succ_cons, List.take_zero, List.foldlM_cons, List.foldlM_nil, hf,
          if_pos hi] at t2
        rw [bndA] at t2
        obtain ⟨V, -, t2⟩ := t2
        rw [bndA] at t2
        obtain ⟨S', v2, -⟩ := t2
        rw [bndA] at v2
        obtain ⟨f, gf, -⟩ := v2
        exact ⟨f, Blade.getIdx_ok.1 gf⟩
      obtain ⟨f, hF⟩ := hF
      obtain ⟨m, hm, -⟩ := C09_max_thickness P (hRP.sameX hx)
      obtain ⟨τ, hτ⟩ : ∃ c, T[i]? = some c := ⟨_, List.getElem?_eq_getElem (by omega)⟩
      obtain ⟨r, hr⟩ : ∃ c, b.radii[i]? = some c := ⟨_, List.getElem?_eq_getElem (by omega)⟩
      obtain ⟨p, hp⟩ : ∃ c, b.pitch[i]? = some c := ⟨_, List.getElem?_eq_getElem (by omega)⟩
      obtain ⟨k, hk⟩ : ∃ c, b.rake[i]? = some c := ⟨_, List.getElem?_eq_getElem (by omega)⟩
      obtain ⟨s, hs⟩ : ∃ c, b.skew[i]? = some c := ⟨_, List.getElem?_eq_getElem (by omega)⟩
      obtain ⟨old, R₀, -, -, a1, a2, a3, a4, a5, -⟩ :=
        C149_shape b _ refl hW T F ht hf h i hi P r c p k s f τ m hP hr hc hp hk hs hF hτ hm x0 x1 u hRP hx
      exact ⟨a3, ⟨τ, hτ, a4⟩, ⟨f, hF⟩, ⟨m, hm, a5⟩, old, R₀, a1, a2⟩
  · rintro ⟨h1, h2, h3, h4, h5⟩
    obtain ⟨P0, hP0⟩ := List.exists_mem_of_ne_nil _ h1
    refine Blade.applies_of_sections hW h1 P0.xup.length ?_
    intro i hi
    have hPm : b.sections[i] ∈ b.sections := List.getElem_mem hi
    have hPi : b.sections[i]? = some b.sections[i] := List.getElem?_eq_getElem hi
    set P := b.sections[i] with hP
    clear_value P
    obtain ⟨hx, x0, x1, u, hRP⟩ := hR P hPm
    have href : P.referencePoint = .ok ((x0 + x1) / 2, 0) := by
      rw [C06_reference_is_midpoint _ hRP.updateEdges]; simp [mid]
    obtain ⟨c, hc⟩ : ∃ c, b.chord[i]? = some c := ⟨_, List.getElem?_eq_getElem (by omega)⟩
    obtain ⟨r, hr⟩ : ∃ c, b.radii[i]? = some c := ⟨_, List.getElem?_eq_getElem (by omega)⟩
    obtain ⟨p, hp⟩ : ∃ c, b.pitch[i]? = some c := ⟨_, List.getElem?_eq_getElem (by omega)⟩
    obtain ⟨k, hk⟩ : ∃ c, b.rake[i]? = some c := ⟨_, List.getElem?_eq_getElem (by omega)⟩
    obtain ⟨s, hs⟩ : ∃ c, b.skew[i]? = some c := ⟨_, List.getElem?_eq_getElem (by omega)⟩
    obtain ⟨τ, hτ⟩ : ∃ c, T[i]? = some c := ⟨_, List.getElem?_eq_getElem (by omega)⟩
    have hr0 := h2 r (List.mem_of_getElem? hr)
    set R := (P.translate (-((x0 + x1) / 2, 0))).mulAll c with hRdef
    have hRx : R.xup = R.xdown := by simp [hRdef, Profile.mulAll, Profile.translate, hx]
    have hPX := hRP.sameX hx
    have hRX : R.SameX := by
      obtain ⟨z1, z2, z3, z4⟩ := hPX
      refine ⟨hRx.symm, ?_, ?_, ?_⟩
      · simp [hRdef, Profile.mulAll, Profile.translate, z2]
      · simp [hRdef, Profile.mulAll, Profile.translate, z3]
      · simpa [hRdef, Profile.mulAll, Profile.translate] using z4
    obtain ⟨mR, hmR, -⟩ := C09_max_thickness R hRX
    -- the thickness statement
    set ρ := (if mR ≠ 0 then τ / mR else 0) with hρ
    set R' := ((P.thickened 0 ρ).translate (-((x0 + x1) / 2, 0))).mulAll c with hR'def
    have hR' : R.setThicknessMax τ = .ok R' := by
      unfold Profile.setThicknessMax
      simp only [hmR, bind, Except.bind, pure, Except.pure]
      congr 1
      simp only [hRdef, hR'def, Profile.thickened, Profile.translate, Profile.mulAll, List.map_map, Profile.mk.injEq, true_and, and_true, Prod.snd_neg, ← hρ]
      constructor <;> refine List.map_congr_left fun x _ => ?_ <;> simp only [Function.comp] <;> ring
    have hR'U : R'.Uniform := by
      have := hU P hPm
      simpa [hR'def, Profile.Uniform, Profile.mulAll, Profile.translate, Profile.thickened] using this
    have hR'l : R'.xup.length = P.xup.length := by simp [hR'def, Profile.mulAll, Profile.translate, Profile.thickened]
    -- both
    obtain ⟨S, hS, hSU, hSl⟩ : ∃ S, ((List.take 2 (List.drop 2 (Blade.sectionSteps b refl i))).foldlM (fun P f => f P) R : Res Profile) = .ok S ∧
        S.Uniform ∧ S.xup.length = P.xup.length := by
      have gτ := Blade.getIdx_ok.2 hτ
      by_cases hlast : i + 1 < b.sections.length
      · obtain ⟨hc0, ⟨τ', hτ', hτ0⟩, ⟨f, hF⟩, ⟨m, hm, hm0⟩, old, R₀, ho, ho0⟩ := h5 i P c x0 x1 u hlast hPi hc hRP
        obtain rfl := Option.some.inj (hτ.symm.trans hτ')
        obtain ⟨old', R₁, R₂, q1, q2⟩ := camber_thickened hRP ρ c ((x0 + x1) / 2) hc0
        obtain ⟨rfl, -⟩ := Prod.mk.inj (Except.ok.inj (q2.symm.trans ho))
        have hmP : (P.translate (-((x0 + x1) / 2, 0))).maxThickness none = .ok m := by
          have hnone : ∀ R : Profile, R.xup = R.xdown → R.maxThickness none = (bzip (fun a b => |a - b|) R.yup R.ydown >>= npMax) := by
            intro R hR
            unfold Profile.maxThickness
            rw [Profile.effectiveN_same hR none (by simp)]
            rfl
          rw [hnone _ hx] at hm
          rw [hnone _ (by simp [Profile.translate, hx])]
          simpa [Profile.translate] using hm
        have hmm := Profile.maxThickness_mulAll c (P := P.translate (-((x0 + x1) / 2, 0))) (by simp [Profile.translate, hx]) hmP
        obtain rfl := Except.ok.inj (hmR.symm.trans hmm)
        have hmR0 : |c| * m ≠ 0 := mul_ne_zero (abs_ne_zero.2 hc0) hm0.ne'
        have hρ0 : ρ ≠ 0 := by rw [hρ, if_pos hmR0]; exact div_ne_zero hτ0 hmR0
        obtain ⟨S, -, hS, -, -⟩ := C12_set_camber R' R₂ (ref_scaled hRP ρ c _ hc0) q1 (mul_ne_zero hρ0 ho0) f
        have hpts := (Profile.setCamber_points hR'U hS).1 (by simp [hR'def, Profile.mulAll, Profile.translate, Profile.thickened, hx])
        have gf := Blade.getIdx_ok.2 hF
        refine ⟨S, ?_, hpts.1, hpts.2.trans hR'l⟩
        simp [Blade.sectionSteps, ht, hf, bind, Except.bind, pure, Except.pure, gτ, hR', hlast, gf, hS]
      · refine ⟨R', ?_, hR'U, hR'l⟩
        simp [Blade.sectionSteps, ht, hf, bind, Except.bind, pure, Except.pure, gτ, hR', hlast]
    obtain ⟨Q, q1, -, -, q2, q3⟩ := (Blade.tail_ok (refl := refl) hr hp hk hs hSU).2 hr0
    refine ⟨Q, ?_, ?_, q2, ?_⟩
    · rw [Blade.runSteps_ok, Blade.steps_split, (Blade.head_ok (refl := refl) hc).2 _ href]
      simp only [bind, Except.bind]
      rw [← hRdef, hS]
      exact q1
    · rw [List.getD_eq_getElem?_getD, hr]; exact hr0
    · rw [q3, hSl]; exact h3 P hPm P0 hP0

/-- **C149** If on the nodes the mean line of the scaled section is nowhere higher than the camber `max_camber` finds, the points move by at most the
change of the camber plus half the change of the thickness. -/
theorem C149_within (b b' b₂ b₂' : Blade) (refl : Bool) (hW : b.WellFormed) (T F T' F' : Arr) (ht : b.thickness = some T) (hf : b.camber = some F)
    (h : b.applyTransformations refl = (b', .ok ())) (hb₂ : b₂ = { b with thickness := some T', camber := some F' })
    (h₂ : b₂.applyTransformations refl = (b₂', .ok ())) (i : Nat) (hi : i + 1 < b.sections.length)
    (P R₀ : Profile) (r c f τ f' τ' old : ℝ) (hP : b.sections[i]? = some P) (hr : b.radii[i]? = some r) (hr0 : 0 < r) (hc : b.chord[i]? = some c)
    (hF : F[i]? = some f) (hT : T[i]? = some τ) (hF' : F'[i]? = some f') (hT' : T'[i]? = some τ')
    (x0 x1 u : ℝ) (hR : P.RefPosition x0 x1 u) (hx : P.xup = P.xdown)
    (hold : ((P.translate (-((x0 + x1) / 2, 0))).mulAll c).maxCamber = .ok (old, R₀))
    (hin : ∀ (j : Nat) (yu yd : ℝ), P.yup[j]? = some yu → P.ydown[j]? = some yd → |c * ((yu + yd) / 2)| ≤ |old|) :
    ∃ (up down up₂ down₂ : List Pt3),
      b'.coordsUp[b.sections.length - 1 - i]? = some up ∧ b'.coordsDown[b.sections.length - 1 - i]? = some down ∧
      b₂'.coordsUp[b.sections.length - 1 - i]? = some up₂ ∧ b₂'.coordsDown[b.sections.length - 1 - i]? = some down₂ ∧
      List.Forall₂ (fun p q => Real.sqrt (distSq3 p q) ≤ |f - f'| + |τ - τ'| / 2) up up₂ ∧
      List.Forall₂ (fun p q => Real.sqrt (distSq3 p q) ≤ |f - f'| + |τ - τ'| / 2) down down₂ := by
  obtain ⟨m, hm, -, hle⟩ := C09_max_thickness P (hR.sameX hx)
  obtain ⟨old', R₀', up, down, up₂, down₂, a1, a2, a3, a4, a5, a6, l1, l2, l3, l4, a7⟩ :=
    C149_sensitivity b b' b₂ b₂' refl hW T F T' F' ht hf h hb₂ h₂ i hi P r c f τ f' τ' m hP hr hr0 hc hF hT hF' hT' hm x0 x1 u hR hx
  obtain ⟨rfl, -⟩ := Prod.mk.inj (Except.ok.inj (a1.symm.trans hold))
  obtain ⟨z1, z2, z3, -⟩ := hR.sameX hx
  have hop : 0 < |old'| := abs_pos.2 a2
  have step : ∀ (j : Nat) (hj : j < P.xup.length) (hju : j < up.length) (hju₂ : j < up₂.length) (hjd : j < down.length) (hjd₂ : j < down₂.length),
      Real.sqrt (distSq3 up[j] up₂[j]) ≤ |f - f'| + |τ - τ'| / 2 ∧ Real.sqrt (distSq3 down[j] down₂[j]) ≤ |f - f'| + |τ - τ'| / 2 := by
    intro j hj hju hju₂ hjd hjd₂
    have y1 : P.yup[j]? = some (P.yup[j]'(by omega)) := List.getElem?_eq_getElem _
    have y2 : P.ydown[j]? = some (P.ydown[j]'(by omega)) := List.getElem?_eq_getElem _
    have x1' : P.xup[j]? = some (P.xup[j]'(by omega)) := List.getElem?_eq_getElem _
    obtain ⟨b1, b2⟩ := a7 j _ _ _ _ _ _ _
      (show P.upper[j]? = some (P.xup[j], P.yup[j]'(by omega)) by simp only [Profile.upper, List.getElem?_zip_eq_some]; exact ⟨x1', y1⟩)
      (show P.lower[j]? = some (P.xup[j], P.ydown[j]'(by omega)) by
        simp only [Profile.lower, List.getElem?_zip_eq_some]; exact ⟨by rw [z1]; exact x1', y2⟩)
      (List.getElem?_eq_getElem hju) (List.getElem?_eq_getElem hju₂) (List.getElem?_eq_getElem hjd) (List.getElem?_eq_getElem hjd₂)
    have e1 : |f - f'| / |old'| * |c * ((P.yup[j]'(by omega) + P.ydown[j]'(by omega)) / 2)| ≤ |f - f'| := by
      rw [div_mul_eq_mul_div, div_le_iff₀ hop]
      exact mul_le_mul_of_nonneg_left (hin j _ _ y1 y2) (abs_nonneg _)
    have e2 : |τ - τ'| * |P.yup[j]'(by omega) - P.ydown[j]'(by omega)| / (2 * m) ≤ |τ - τ'| / 2 := by
      have hm0 : 0 ≤ m := (abs_nonneg _).trans (hle j _ _ y1 y2)
      rcases hm0.eq_or_lt with h0 | h0
      · rw [← h0, mul_zero, div_zero]; positivity
      · rw [div_le_div_iff₀ (by positivity) (by norm_num)]
        have := mul_le_mul_of_nonneg_left (hle j _ _ y1 y2) (abs_nonneg (τ - τ'))
        linarith
    exact ⟨b1.trans (add_le_add e1 e2), b2.trans (add_le_add e1 e2)⟩
  refine ⟨up, down, up₂, down₂, a3, a4, a5, a6, ?_, ?_⟩
  · exact List.forall₂_iff_get.2 ⟨by omega, fun j hj hj' => (step j (by omega) hj hj' (by omega) (by omega)).1⟩
  · exact List.forall₂_iff_get.2 ⟨by omega, fun j hj hj' => (step j (by omega) (by omega) (by omega) hj hj').2⟩

/-! ### The hypotheses are met -/

private theorem trio_both (τ f τ₁ f₁ : ℝ) (hτ : τ ≠ 0) :
    ∃ b', (Sample.trioBlade (some [τ, τ₁]) (some [f, f₁])).applyTransformations true = (b', .ok ()) := by
  refine (C149_defined (Sample.trioBlade (some [τ, τ₁]) (some [f, f₁])) true (by simp [Sample.trioBlade, Blade.WellFormed]) _ _ rfl rfl ?_).2
    ⟨by simp [Sample.trioBlade], by simp [Sample.trioBlade], by simp [Sample.trioBlade], by simp [Sample.trioBlade], ?_⟩
  · intro P hP
    have : P = Sample.trio := by simpa [Sample.trioBlade] using hP
    subst this
    exact ⟨rfl, _, _, _, Sample.trio_ref⟩
  · intro i P c x0 x1 u hi hP hc hR
    have hi0 : i = 0 := by simp [Sample.trioBlade] at hi; omega
    subst hi0
    obtain rfl : Sample.trio = P := by simpa [Sample.trioBlade] using hP
    obtain rfl : (1 : ℝ) = c := by simpa [Sample.trioBlade] using hc
    obtain ⟨k1, k2, -⟩ := hR.heads
    obtain rfl : (0 : ℝ) = x0 := by simpa [Sample.trio] using k1
    obtain rfl : (2 : ℝ) = x1 := by simpa [Sample.trio] using k2
    obtain ⟨old, Q₀, h1, h2⟩ := Sample.trio0_camber
    refine ⟨one_ne_zero, ⟨τ, rfl, hτ⟩, ⟨f, rfl⟩, ⟨3 / 10, Sample.thickness_of rfl rfl rfl, by norm_num⟩, old, Q₀, ?_, h2⟩
    have : (Sample.trio.translate (-((0 + 2) / 2, 0))).mulAll 1 = Sample.trio0 := by
      simp only [Sample.trio, Sample.trio0, Profile.translate, Profile.mulAll, Profile.mk.injEq]
      norm_num
    rw [this]
    exact h1

/-- The middle points of the first section of the sample blade, with two thickness and two camber arrays. -/
example : ∃ b' b₂' old up up₂, (Sample.trioBlade (some [1/2, 1/2]) (some [1/10, 0])).applyTransformations true = (b', .ok ()) ∧
    (Sample.trioBlade (some [3/5, 3/5]) (some [1/5, 0])).applyTransformations true = (b₂', .ok ()) ∧ old ≠ 0 ∧
    b'.coordsUp[1]? = some up ∧ b₂'.coordsUp[1]? = some up₂ ∧
    ∀ a a', up[1]? = some a → up₂[1]? = some a' → Real.sqrt (distSq3 a a') ≤ 1/10 / |old| * (1/20) + 1/20 := by
  obtain ⟨b', hb⟩ := trio_both (1/2) (1/10) (1/2) 0 (by norm_num)
  obtain ⟨b₂', hb₂⟩ := trio_both (3/5) (1/5) (3/5) 0 (by norm_num)
  obtain ⟨old, R₀, up, down, up₂, down₂, -, a2, a3, -, a5, -, l1, l2, l3, l4, a7⟩ :=
    C149_sensitivity _ b' _ b₂' true (by simp [Sample.trioBlade, Blade.WellFormed]) _ _ [3/5, 3/5] [1/5, 0] rfl rfl hb rfl hb₂ 0 (by simp [Sample.trioBlade])
      Sample.trio 1 1 (1/10) (1/2) (1/5) (3/5) (3/10) rfl rfl one_pos rfl rfl rfl rfl rfl (Sample.thickness_of rfl rfl rfl) 0 2 0 Sample.trio_ref rfl
  refine ⟨b', b₂', old, up, up₂, hb, hb₂, a2, a3, a5, fun a a' ha ha' => ?_⟩
  have hd : 1 < down.length := by rw [l3]; simp [Sample.trio]
  have hd₂ : 1 < down₂.length := by rw [l4]; simp [Sample.trio]
  have := (a7 1 1 (1/5) (-1/10) a a' _ _ (by simp [Sample.trio, Profile.upper]) (by simp [Sample.trio, Profile.lower]) ha ha'
    (List.getElem?_eq_getElem hd) (List.getElem?_eq_getElem hd₂)).1
  refine this.trans (le_of_eq ?_)
  rw [show |(1 / 10 : ℝ) - 1 / 5| = 1 / 10 by norm_num [abs_of_neg], show |(1 : ℝ) * ((1 / 5 + -1 / 10) / 2)| = 1 / 20 by norm_num [abs_of_pos],
    show |(1 / 2 : ℝ) - 3 / 5| = 1 / 10 by norm_num [abs_of_neg], show |(1 / 5 : ℝ) - -1 / 10| = 3 / 10 by norm_num [abs_of_pos]]
  norm_num

/-- The camber `max_camber` finds on the centred foil, one of whose nodes is a station of the sampling, is no smaller than the camber at that node. -/
private theorem centred_camber_ge : ∃ old Q₀, Sample.centred.maxCamber = .ok (old, Q₀) ∧ 1 / 20 ≤ |old| := by
  have hR := Sample.centred_ref
  obtain ⟨v, Q, c, t, hm, -, -, ht, -, hc, -, -, -, hmax⟩ := C12_max_camber_spec _ hR
  refine ⟨v, Q, hm, ?_⟩
  obtain ⟨K, hK⟩ : ∃ K : Nat, (K : Int) = 500 := ⟨500, rfl⟩
  have hi := hR.interp (n := K) (by omega)
  rw [hK, ht] at hi
  have e := Except.ok.inj hi
  have hmem : (100 / 499 - 1/2 : ℝ) ∈ linspaceN (-1/2) (1/2) K := by
    have h100 : 100 < (linspaceN (-1/2) (1/2) K).length := by rw [linspaceN_length]; omega
    have := linspaceN_getElem (-1/2) (1/2) K 100 h100
    have hKr : (K : ℝ) = 500 := by exact_mod_cast hK
    have h2 : (linspaceN (-1/2) (1/2) K)[100] = 100 / 499 - 1/2 := by rw [this, hKr]; norm_num
    rw [← h2]; exact List.getElem_mem _
  have h1 : interpW 1 Sample.centred.xup Sample.centred.yup (100/499 - 1/2) = 1/5 :=
    interpW_node (i := 1) (X := Sample.centred.xup) (y := Sample.centred.yup) rfl one_pos hR.nodupUp
      (by simp [Sample.centred]) (by simp [Sample.centred])
  have h2 : interpW 1 Sample.centred.xdown Sample.centred.ydown (100/499 - 1/2) = -1/10 :=
    interpW_node (i := 1) (X := Sample.centred.xdown) (y := Sample.centred.ydown) rfl one_pos hR.nodupDown
      (by simp [Sample.centred]) (by simp [Sample.centred])
  have := hmax ((1/5 + -1/10) / 2) (by
    rw [hc, e]
    simp only [zipWith_map_same]
    exact List.mem_map.2 ⟨100/499 - 1/2, hmem, by rw [h1, h2]⟩)
  refine le_trans (le_of_eq ?_) this
  norm_num [abs_of_pos]

private theorem onStation_centred : (Sample.onStation.translate (-((0 + 1) / 2, 0))).mulAll 1 = Sample.centred := by
  simp only [Profile.mulAll, Profile.translate, Sample.onStation, Sample.centred]
  norm_num

/-- The blade `bladeTF` with thickness 3/10 and camber 1/10, and with 2/5 and 1/5: the points of its first section are within 1/10 + 1/20. -/
example : ∃ b' b₂' up up₂, Sample.bladeTF.applyTransformations true = (b', .ok ()) ∧
    ({ Sample.bladeTF with thickness := some [2/5, 2/5], camber := some [1/5, 0] } : Blade).applyTransformations true = (b₂', .ok ()) ∧
    b'.coordsUp[1]? = some up ∧ b₂'.coordsUp[1]? = some up₂ ∧ List.Forall₂ (fun p q => Real.sqrt (distSq3 p q) ≤ 3/20) up up₂ := by
  obtain ⟨old, Q₀, hold, hge⟩ := centred_camber_ge
  have hold0 : old ≠ 0 := by rintro rfl; norm_num at hge
  obtain ⟨b', hb⟩ := Sample.bladeTF_applies true
  obtain ⟨b₂', hb₂⟩ : ∃ b₂', ({ Sample.bladeTF with thickness := some [2/5, 2/5], camber := some [1/5, 0] } : Blade).applyTransformations true = (b₂', .ok ()) := by
    refine (C149_defined _ true (by simp [Sample.bladeTF, Blade.WellFormed]) _ _ rfl rfl ?_).2
      ⟨by simp [Sample.bladeTF], by simp [Sample.bladeTF], by simp [Sample.bladeTF], by simp [Sample.bladeTF], ?_⟩
    · intro P hP
      have : P = Sample.onStation := by simpa [Sample.bladeTF] using hP
      subst this
      exact ⟨rfl, _, _, _, Sample.onStation_ref⟩
    · intro i P c x0 x1 u hi hP hc hR
      have hi0 : i = 0 := by simp [Sample.bladeTF] at hi; omega
      subst hi0
      obtain rfl : Sample.onStation = P := by simpa [Sample.bladeTF] using hP
      obtain rfl : (1 : ℝ) = c := by simpa [Sample.bladeTF] using hc
      obtain ⟨k1, k2, -⟩ := hR.heads
      obtain rfl : (0 : ℝ) = x0 := by simpa [Sample.onStation] using k1
      obtain rfl : (1 : ℝ) = x1 := by simpa [Sample.onStation] using k2
      exact ⟨one_ne_zero, ⟨2/5, rfl, by norm_num⟩, ⟨1/5, rfl⟩, ⟨3 / 10, Sample.thickness_of rfl rfl rfl, by norm_num⟩, old, Q₀,
        by rw [onStation_centred]; exact hold, hold0⟩
  obtain ⟨up, -, up₂, -, k1, -, k2, -, k3, -⟩ := C149_within _ b' _ b₂' true (by simp [Sample.bladeTF, Blade.WellFormed]) _ _ [2/5, 2/5] [1/5, 0] rfl rfl hb rfl hb₂
    0 (by simp [Sample.bladeTF]) Sample.onStation Q₀ 1 1 (1/10) (3/10) (1/5) (2/5) old rfl rfl one_pos rfl rfl rfl rfl rfl 0 1 0 Sample.onStation_ref rfl
    (by rw [onStation_centred]; exact hold) (by
      intro j yu yd hu hd
      refine le_trans ?_ hge
      match j with
      | 0 => simp [Sample.onStation] at hu hd; subst hu hd; norm_num
      | 1 => simp [Sample.onStation] at hu hd; subst hu hd; norm_num [abs_of_pos]
      | 2 => simp [Sample.onStation] at hu hd; subst hu hd; norm_num
      | n + 3 => simp [Sample.onStation] at hu)
  refine ⟨b', b₂', up, up₂, hb, hb₂, k1, k2, k3.imp fun p q h => h.trans (le_of_eq ?_)⟩
  norm_num [abs_of_neg, abs_of_nonpos]

end
end BladeX
