import Verif.Props.Blade
import Verif.Props.ProfileMeasure

/-! # C46 with prescribed thickness and camber -/

namespace BladeX
noncomputable section
open Spec Classical

namespace Blade

theorem mulAll_ref {P : Profile} {x0 x1 u c : ℝ} {v : ℝ} (h : P.RefPosition x0 x1 u) (hc : c ≠ 0) :
    ((P.translate (v, 0)).mulAll c).RefPosition (c * (x0 + v)) (c * (x1 + v)) (c * u) := by
  have inj : Function.Injective (fun x : ℝ => (x + v) * c) := by
    intro x y hxy
    have := mul_right_cancel₀ hc hxy
    linarith
  obtain ⟨a, b, e, d, n1, n2⟩ := h
  have e' := Profile.Ends.map e (fun p => (c * (p.1 + v), c * p.2)) (Q := (P.translate (v, 0)).mulAll c)
    (by rw [Profile.mulAll_upper, Profile.translate_upper, List.map_map]; congr 1; funext p; simp)
    (by rw [Profile.mulAll_lower, Profile.translate_lower, List.map_map]; congr 1; funext p; simp)
  refine ⟨Profile.mulAll_shaped _ (Profile.translate_shaped _ a), by simpa [Profile.mulAll, Profile.translate] using b, ?_, ?_, ?_, ?_⟩
  · simpa using e'
  · intro hxy
    have := mul_left_cancel₀ hc hxy
    exact d (by linarith)
  · simp only [Profile.mulAll, Profile.translate, List.map_map]
    exact n1.map inj
  · simp only [Profile.mulAll, Profile.translate, List.map_map]
    exact n2.map inj

theorem scaleY_ref {P : Profile} {x0 x1 u : ℝ} (h : P.RefPosition x0 x1 u) (q : ℝ) :
    ({ P with yup := P.yup.map (· * q), ydown := P.ydown.map (· * q) } : Profile).RefPosition x0 x1 (q * u) := by
  obtain ⟨a, b, e, d, n1, n2⟩ := h
  have e' := Profile.Ends.map e (fun p => (p.1, q * p.2))
    (Q := { P with yup := P.yup.map (· * q), ydown := P.ydown.map (· * q) })
    (by simp only [Profile.upper, List.zip_map_right]; congr 1; funext p; ext <;> simp [mul_comm])
    (by simp only [Profile.lower, List.zip_map_right]; congr 1; funext p; ext <;> simp [mul_comm])
  refine ⟨by simpa [Profile.Shaped] using a, b, by simpa using e', d, n1, n2⟩

theorem deform_thickness {P : Profile} (h : P.SameX) {p m : ℝ} (hm : P.maxThickness none = .ok m) {Q : Profile}
    (hQ : P.deformCamberLine p none = .ok Q) : Q.maxThickness none = .ok m ∧ Q.SameX ∧ Q.xup = P.xup := by
  obtain ⟨Q', hQ', hS, hxu, hxd, hpt⟩ := C11_deform_camber P h p
  obtain rfl : Q' = Q := by rw [hQ] at hQ'; exact (Except.ok.inj hQ').symm
  refine ⟨?_, hS, hxu⟩
  obtain ⟨m', hm', ⟨i, u, d, h1, h2, h3⟩, h4⟩ := C09_max_thickness P h
  obtain rfl : m' = m := by rw [hm] at hm'; exact (Except.ok.inj hm').symm
  obtain ⟨m2, hm2, ⟨j, u2, d2, k1, k2, k3⟩, k4⟩ := C09_max_thickness Q' hS
  rw [hm2]
  congr 1
  obtain ⟨_, hu, hd, _⟩ := h
  obtain ⟨_, hu', hd', _⟩ := hS
  apply le_antisymm
  · have hj : j < P.xup.length := by rw [← hxu, ← hu']; exact (List.getElem?_eq_some_iff.1 k1).1
    have g1 : P.yup[j]? = some (P.yup[j]'(by omega)) := List.getElem?_eq_getElem _
    have g2 : P.ydown[j]? = some (P.ydown[j]'(by omega)) := List.getElem?_eq_getElem _
    obtain ⟨u', d', e1, e2, _, e3, _⟩ := hpt j _ _ g1 g2
    rw [k1] at e1; rw [k2] at e2
    obtain rfl := Option.some.inj e1
    obtain rfl := Option.some.inj e2
    rw [← k3, e3]
    exact h4 j _ _ g1 g2
  · obtain ⟨u', d', e1, e2, _, e3, _⟩ := hpt i u d h1 h2
    rw [← h3, ← e3]
    exact k4 i u' d' e1 e2

theorem sameX_uniform {P : Profile} (h : P.SameX) : P.Uniform := by
  obtain ⟨a, b, c, _⟩ := h
  exact ⟨b.symm, by rw [a], by rw [a, c]⟩

end Blade

/-- **C46** with thickness and camber distributions: when `apply_transformations` has succeeded, the section `i` (given in reference
position over common abscissae, with non-zero thickness and chord) is the rigid image - by the placement of the specification with
chord 1 and the origin as reference point - of a profile `R` over the stations of the section centred at its reference point and
multiplied by the chord, whose maximum thickness is the prescribed one and whose maximum camber is the prescribed one, the latter
except for the last section. -/
theorem C46_thickness_camber (b b' : Blade) (refl : Bool) (hW : b.WellFormed) (T F : Arr) (ht : b.thickness = some T)
    (hf : b.camber = some F) (h : b.applyTransformations refl = (b', .ok ())) (i : Nat) (P : Profile) (r c p k s x0 x1 u m : ℝ)
    (hP : b.sections[i]? = some P) (hr : b.radii[i]? = some r) (hc : b.chord[i]? = some c) (hp : b.pitch[i]? = some p)
    (hk : b.rake[i]? = some k) (hs : b.skew[i]? = some s) (hR : P.RefPosition x0 x1 u) (hX : P.xdown = P.xup) (hc0 : c ≠ 0)
    (hm : P.maxThickness none = .ok m) (hm0 : m ≠ 0) :
    ∃ (R Q : Profile) (τ : ℝ), b'.sections[i]? = some Q ∧
      Q.upper = R.upper.map (placed refl r 1 p k s (0, 0)) ∧ Q.lower = R.lower.map (placed refl r 1 p k s (0, 0)) ∧
      R.xup = P.xup.map (fun x => c * (x - (x0 + x1) / 2)) ∧ R.xdown = R.xup ∧
      T[i]? = some τ ∧ R.maxThickness none = .ok |τ| ∧
      (i + 1 < b.sections.length → ∃ κ Q', F[i]? = some κ ∧ R.maxCamber = .ok (κ, Q')) := by
  obtain ⟨ss, up, down, h1, h2, rfl⟩ := (Blade.apply_ok hW.1).1 h
  obtain ⟨hl, hall⟩ := (Blade.sectionLoop_ok _ _ _).1 h1
  have hi : i < ss.length := by rw [hl]; exact (List.getElem?_eq_some_iff.1 hP).1
  have hrun := hall i P ss[i] hP (List.getElem?_eq_getElem hi)
  rw [Nat.zero_add, Blade.runSteps_ok, Blade.steps_split] at hrun
  have href : P.referencePoint = .ok ((x0 + x1) / 2, 0) := by
    rw [C06_reference_is_midpoint P hR.updateEdges]; simp [mid]
  have hhead := (Blade.head_ok (refl := refl) hc (P := P)).2 _ href
  rw [show (-(((x0 + x1) / 2, 0) : Pt)) = (-((x0 + x1) / 2), 0) by ext <;> simp] at hhead
  set R0 := (P.translate (-((x0 + x1) / 2), 0)).mulAll c with hR0
  have hR0ref : R0.RefPosition _ _ _ := Blade.mulAll_ref hR hc0
  have hR0X : R0.xup = R0.xdown := by simp [hR0, Profile.mulAll, Profile.translate, hX]
  have hR0x : R0.xup = P.xup.map (fun x => c * (x - (x0 + x1) / 2)) := by
    simp only [hR0, Profile.mulAll, Profile.translate, List.map_map]
    congr 1; funext x; simp only [Function.comp]; ring
  have hPS : P.SameX := hR.sameX hX.symm
  have hR0m : R0.maxThickness none = .ok (m * |c|) := by
    have e1 := (C09_thickness_motion P hPS m hm (-((x0 + x1) / 2), 0) c).1
    have hS1 : (P.translate (-((x0 + x1) / 2), 0)).SameX := by
      obtain ⟨a1, a2, a3, a4⟩ := hPS
      exact ⟨by simp [Profile.translate, a1], by simp [Profile.translate, a2], by simp [Profile.translate, a3],
        by simpa [Profile.translate] using a4⟩
    exact (C09_thickness_motion _ hS1 m e1 (0, 0) c).2 false R0 (by simp [Profile.scale, pure, Except.pure, hR0])
  have hmc : m * |c| ≠ 0 := mul_ne_zero hm0 (abs_ne_zero.2 hc0)
  rw [hhead] at hrun
  simp only [bind, Except.bind] at hrun
  -- the middle statements
  rcases hT : T[i]? with _ | τ
  · exfalso
    have g : getIdx T i = .error .indexError := by unfold getIdx; rw [hT]
    simp [Blade.sectionSteps, ht, g, bind, Except.bind] at hrun
  obtain ⟨R1, hR1, hR1m, hx1, hx2, hy1, hy2⟩ := C10_set_thickness R0 (m * |c|) τ hR0m hmc
  have hR1ref : ∃ u1, R1.RefPosition (c * (x0 + -((x0 + x1) / 2))) (c * (x1 + -((x0 + x1) / 2))) u1 := by
    refine ⟨_, (Blade.scaleY_ref hR0ref (τ / (m * |c|))).congr hx1 hx2 ?_ ?_⟩
    · rw [hy1]; congr 1; funext y; ring
    · rw [hy2]; congr 1; funext y; ring
  obtain ⟨u1, hR1ref⟩ := hR1ref
  have hR1X : R1.SameX := hR1ref.sameX (by rw [hx1, hx2, hR0X])
  have gT : getIdx T i = .ok τ := Blade.getIdx_ok.2 hT
  by_cases hlast : i + 1 < b.sections.length
  · rcases hF : F[i]? with _ | κ
    · exfalso
      have g : getIdx F i = .error .indexError := by unfold getIdx; rw [hF]
      simp [Blade.sectionSteps, ht, hf, gT, g, bind, Except.bind, hR1, hlast] at hrun
    have gF : getIdx F i = .ok κ := Blade.getIdx_ok.2 hF
    rcases hmcam : R1.maxCamber with e | ⟨old, Q0⟩
    · exfalso
      have g : R1.setCamberLineMax κ = .error e := by simp [Profile.setCamberLineMax, hmcam, bind, Except.bind]
      simp [Blade.sectionSteps, ht, hf, gT, gF, bind, Except.bind, hR1, hlast, g] at hrun
    have hold : old ≠ 0 := by
      rintro rfl
      have g := C12_zero_camber R1 Q0 hmcam κ
      simp [Blade.sectionSteps, ht, hf, gT, gF, bind, Except.bind, hR1, hlast, g] at hrun
    obtain ⟨R2, Q', hR2, _, hR2c⟩ := C12_set_camber R1 Q0 hR1ref hmcam hold κ
    -- the thickness is kept
    have hQ0 : Q0.SameX ∧ Q0.maxThickness none = .ok |τ| ∧ Q0.xup = R1.xup := by
      obtain ⟨_, Q0', _, _, e1, _, ⟨s1, s2, s3, s4⟩, _⟩ := C12_max_camber_spec R1 hR1ref
      rw [hmcam] at e1
      obtain ⟨_, rfl⟩ := Prod.mk.inj (Except.ok.inj e1)
      obtain ⟨a1, a2, a3, a4⟩ := hR1X
      refine ⟨⟨by rw [s1, s2, a1], by rw [s1, s3, a2], by rw [s1, s4, a3], by rw [s1]; exact a4⟩, ?_, s1⟩
      rw [← hR1m]
      unfold Profile.maxThickness
      rw [Profile.effectiveN_congr s1 s2, Profile.effectiveN_same a1.symm none (by simp)]
      simp only [bind, Except.bind, s3, s4]
    have hdef : Q0.deformCamberLine (100 * (κ - old) / old) none = .ok R2 := by
      have := hR2
      unfold Profile.setCamberLineMax at this
      simpa [hmcam, bind, Except.bind, hold] using this
    obtain ⟨hR2m, hR2X, hR2x⟩ := Blade.deform_thickness hQ0.1 hQ0.2.1 hdef
    have hmid : ((List.take 2 (List.drop 2 (Blade.sectionSteps b refl i))).foldlM (fun P f => f P) R0 : Res Profile) = .ok R2 := by
      simp [Blade.sectionSteps, ht, hf, gT, gF, bind, Except.bind, pure, Except.pure, hR1, hlast, hR2]
    rw [hmid] at hrun
    simp only at hrun
    have hr0 : r ≠ 0 := by
      intro h0
      exact (Blade.tail_ok hr hp hk hs (Blade.sameX_uniform hR2X)).1 h0 _ hrun
    obtain ⟨Q, hQ, q1, q2, _⟩ := (Blade.tail_ok (refl := refl) hr hp hk hs (Blade.sameX_uniform hR2X)).2 hr0
    obtain rfl : ss[i] = Q := by rw [hrun] at hQ; exact Except.ok.inj hQ
    exact ⟨R2, ss[i], τ, List.getElem?_eq_getElem hi, q1, q2, by rw [hR2x, hQ0.2.2, hx1, hR0x], hR2X.1, rfl, hR2m,
      fun _ => ⟨κ, Q', rfl, hR2c⟩⟩
  · have hmid : ((List.take 2 (List.drop 2 (Blade.sectionSteps b refl i))).foldlM (fun P f => f P) R0 : Res Profile) = .ok R1 := by
      simp [Blade.sectionSteps, ht, hf, gT, bind, Except.bind, pure, Except.pure, hR1, hlast]
    rw [hmid] at hrun
    simp only at hrun
    have hr0 : r ≠ 0 := by
      intro h0
      exact (Blade.tail_ok hr hp hk hs (Blade.sameX_uniform hR1X)).1 h0 _ hrun
    obtain ⟨Q, hQ, q1, q2, _⟩ := (Blade.tail_ok (refl := refl) hr hp hk hs (Blade.sameX_uniform hR1X)).2 hr0
    obtain rfl : ss[i] = Q := by rw [hrun] at hQ; exact Except.ok.inj hQ
    exact ⟨R1, ss[i], τ, List.getElem?_eq_getElem hi, q1, q2, by rw [hx1, hR0x], hR1X.1, rfl, hR1m, fun h => absurd h hlast⟩

/-! Non-vacuity: a blade with two sections, both distributions given, on which everything succeeds. -/

namespace Sample

/-- The foil `onStation`, centred. -/
def centred : Profile where
  xup := [-1/2, 100/499 - 1/2, 1/2]
  xdown := [-1/2, 100/499 - 1/2, 1/2]
  yup := [0, 1/5, 0]
  ydown := [0, -1/10, 0]

theorem onStation_ref : onStation.RefPosition 0 1 0 := by
  refine ⟨?_, rfl, ?_, by norm_num, ?_, ?_⟩
  · simp [Sample.onStation, Profile.Shaped]
  · simp [Sample.onStation, Profile.Ends, Profile.upper, Profile.lower]
  · norm_num [Sample.onStation]
  · norm_num [Sample.onStation]

theorem centred_ref : centred.RefPosition (-1/2) (1/2) 0 := by
  refine ⟨?_, rfl, ?_, by norm_num, ?_, ?_⟩
  · simp [centred, Profile.Shaped]
  · simp [centred, Profile.Ends, Profile.upper, Profile.lower]
  · norm_num [centred]
  · norm_num [centred]

theorem thickness_of {P : Profile} (h1 : P.xup = P.xdown) (h2 : P.yup = [0, 1/5, 0]) (h3 : P.ydown = [0, -1/10, 0]) :
    P.maxThickness none = .ok (3/10) := by
  unfold Profile.maxThickness
  rw [Profile.effectiveN_same h1 none (by simp)]
  simp only [bind, Except.bind, h2, h3]
  norm_num [bzip, npMax]

theorem centred_camber : ∃ old Q₀, centred.maxCamber = .ok (old, Q₀) ∧ old ≠ 0 := by
  have hR := centred_ref
  obtain ⟨v, Q, c, t, hm, -, -, ht, -, hc, -, -, -, hmax⟩ := C12_max_camber_spec _ hR
  refine ⟨v, Q, hm, ?_⟩
  rintro rfl
  obtain ⟨K, hK⟩ : ∃ K : Nat, (K : Int) = 500 := ⟨500, rfl⟩
  have hi := hR.interp (n := K) (by omega)
  rw [hK, ht] at hi
  have e := Except.ok.inj hi
  have hmem : (100 / 499 - 1/2 : ℝ) ∈ linspaceN (-1/2) (1/2) K := by
    have h100 : 100 < (linspaceN (-1/2) (1/2) K).length := by rw [linspaceN_length]; omega
    have := linspaceN_getElem (-1/2) (1/2) K 100 h100
    have hKr : (K : ℝ) = 500 := by exact_mod_cast hK
    have h2 : (linspaceN (-1/2) (1/2) K)[100] = 100 / 499 - 1/2 := by rw [this, hKr]; norm_num
    rw [← h2]; exact List.getElem_mem _
  have h1 : interpW 1 centred.xup centred.yup (100/499 - 1/2) = 1/5 :=
    interpW_node (i := 1) (X := centred.xup) (y := centred.yup) rfl one_pos hR.nodupUp
      (by simp [centred]) (by simp [centred])
  have h2 : interpW 1 centred.xdown centred.ydown (100/499 - 1/2) = -1/10 :=
    interpW_node (i := 1) (X := centred.xdown) (y := centred.ydown) rfl one_pos hR.nodupDown
      (by simp [centred]) (by simp [centred])
  have := hmax ((1/5 + -1/10) / 2) (by
    rw [hc, e]
    simp only [zipWith_map_same]
    exact List.mem_map.2 ⟨100/499 - 1/2, hmem, by rw [h1, h2]⟩)
  norm_num at this

/-- Two sections, thickness and camber prescribed. -/
def bladeTF : Blade where
  sections := [onStation, onStation]
  radii := [1, 2]
  chord := [1, 1]
  pitch := [2, 4]
  rake := [0, 1]
  skew := [0, 10]
  thickness := some [3/10, 3/10]
  camber := some [1/10, 0]
  coordsUp := []
  coordsDown := []
  upper := none
  lower := none
  tip := none
  root := none

theorem bladeTF_applies (refl : Bool) : ∃ b', bladeTF.applyTransformations refl = (b', .ok ()) := by
  have href : onStation.referencePoint = .ok (1/2, 0) := by
    rw [C06_reference_is_midpoint _ onStation_ref.updateEdges]; simp [mid]
  have hcen : (onStation.translate (-(1/2, 0))).mulAll 1 = centred := by
    simp only [Profile.mulAll, Profile.translate, onStation, centred]
    norm_num
  have hth : centred.maxThickness none = .ok (3/10) := thickness_of rfl rfl rfl
  have hset : centred.setThicknessMax (3/10) = .ok centred := by
    unfold Profile.setThicknessMax
    simp only [hth, bind, Except.bind, pure, Except.pure]
    norm_num [centred]
  obtain ⟨old, Q0, hcam, hold⟩ := centred_camber
  obtain ⟨R2, Q', hR2, ⟨u', hR2ref⟩, _⟩ := C12_set_camber centred Q0 centred_ref hcam hold (1/10)
  have hdef : Q0.deformCamberLine (100 * (1/10 - old) / old) none = .ok R2 := by
    have := hR2
    unfold Profile.setCamberLineMax at this
    simpa [hcam, bind, Except.bind, hold] using this
  have hcX : centred.SameX := centred_ref.sameX rfl
  have hQ0 : Q0.SameX ∧ Q0.xup = centred.xup := by
    obtain ⟨_, Q0', _, _, e1, _, ⟨s1, s2, s3, s4⟩, _⟩ := C12_max_camber_spec centred centred_ref
    rw [hcam] at e1
    obtain ⟨_, rfl⟩ := Prod.mk.inj (Except.ok.inj e1)
    obtain ⟨a1, a2, a3, a4⟩ := hcX
    exact ⟨⟨by rw [s1, s2, a1], by rw [s1, s3, a2], by rw [s1, s4, a3], by rw [s1]; exact a4⟩, s1⟩
  obtain ⟨m0, hm0, _⟩ := C09_max_thickness Q0 hQ0.1
  obtain ⟨_, hR2X, hR2x⟩ := Blade.deform_thickness hQ0.1 hm0 hdef
  have hh : ∀ i, i < 2 → ((List.take 2 (Blade.sectionSteps bladeTF refl i)).foldlM (fun P f => f P) onStation : Res Profile) =
      .ok centred := by
    intro i hi
    have hc : bladeTF.chord[i]? = some 1 := by interval_cases i <;> rfl
    rw [(Blade.head_ok hc).2 _ href, hcen]
  have hm0' : ((List.take 2 (List.drop 2 (Blade.sectionSteps bladeTF refl 0))).foldlM (fun P f => f P) centred : Res Profile) =
      .ok R2 := by
    simp [Blade.sectionSteps, bladeTF, getIdx, bind, Except.bind, pure, Except.pure, hset, hR2, -one_div]
  have hm1' : ((List.take 2 (List.drop 2 (Blade.sectionSteps bladeTF refl 1))).foldlM (fun P f => f P) centred : Res Profile) =
      .ok centred := by
    simp [Blade.sectionSteps, bladeTF, getIdx, bind, Except.bind, pure, Except.pure, hset, -one_div]
  have hR2U := Blade.sameX_uniform hR2X
  have hcU := Blade.sameX_uniform hcX
  obtain ⟨Q1, hQ1, a1, a2, a3, _⟩ := (Blade.tail_ok (b := bladeTF) (refl := refl) (i := 0) (r := 1) (p := 2) (k := 0) (s := 0)
    rfl rfl rfl rfl hR2U).2 (by norm_num)
  obtain ⟨Q2, hQ2, b1, b2, b3, _⟩ := (Blade.tail_ok (b := bladeTF) (refl := refl) (i := 1) (r := 2) (p := 4) (k := 1) (s := 10)
    rfl rfl rfl rfl hcU).2 (by norm_num)
  have run0 : Blade.runSteps (Blade.sectionSteps bladeTF refl 0) onStation = (Q1, .ok ()) := by
    rw [Blade.runSteps_ok, Blade.steps_split, hh 0 (by norm_num)]
    simp only [bind, Except.bind, hm0']
    exact hQ1
  have run1 : Blade.runSteps (Blade.sectionSteps bladeTF refl 1) onStation = (Q2, .ok ()) := by
    rw [Blade.runSteps_ok, Blade.steps_split, hh 1 (by norm_num)]
    simp only [bind, Except.bind, hm1']
    exact hQ2
  have hloop : Blade.sectionLoop bladeTF refl 0 bladeTF.sections = ([Q1, Q2], .ok ()) := by
    simp only [show bladeTF.sections = [onStation, onStation] from rfl, Blade.sectionLoop, run0, run1]
  have hlen : R2.xup.length = 3 := by rw [hR2x, hQ0.2]; rfl
  have hlu : Q1.upper.length = 3 ∧ Q1.lower.length = 3 ∧ Q2.upper.length = 3 ∧ Q2.lower.length = 3 := by
    refine ⟨?_, ?_, ?_, ?_⟩
    · rw [a1]; simp [Profile.upper, ← hR2U.1, hlen]
    · rw [a2]; simp [Profile.lower, ← hR2U.2.2, hR2U.2.1, hlen]
    · rw [b1]; simp [Profile.upper, centred]
    · rw [b2]; simp [Profile.lower, centred]
  refine ⟨_, (Blade.apply_ok rfl).2 ⟨_, _, _, hloop, (Blade.cylindrical_ok (by rfl)).2 ⟨by simp, ?_, ?_, rfl, rfl⟩, rfl⟩⟩
  · intro i P r hP hr
    match i, hP, hr with
    | 0, hP, hr =>
      simp [bladeTF] at hP hr
      subst hP hr
      exact ⟨by norm_num, a3.1, a3.2.2⟩
    | 1, hP, hr =>
      simp [bladeTF] at hP hr
      subst hP hr
      exact ⟨by norm_num, b3.1, b3.2.2⟩
    | (i + 2), hP, hr => simp at hP
  · intro P hP Q hQ
    simp only [List.mem_cons, List.not_mem_nil, or_false] at hP hQ
    obtain ⟨e1, e2, e3, e4⟩ := hlu
    rcases hP with rfl | rfl <;> rcases hQ with rfl | rfl <;> simp [e1, e2, e3, e4]

/-- All hypotheses of `C46_thickness_camber` hold for the first section of this blade. -/
example : ∃ b', bladeTF.WellFormed ∧ bladeTF.applyTransformations true = (b', .ok ()) ∧ bladeTF.sections[0]? = some onStation ∧
    onStation.RefPosition 0 1 0 ∧ onStation.xdown = onStation.xup ∧ onStation.maxThickness none = .ok (3/10) := by
  obtain ⟨b', hb⟩ := bladeTF_applies true
  exact ⟨b', by simp [bladeTF, Blade.WellFormed], hb, rfl, onStation_ref, rfl, thickness_of rfl rfl rfl⟩

/-- The hypotheses of `C44_short_thickness` can be met: two sections, one thickness value. -/
example : ∃ (b b₁ : Blade) (t : Arr) (P : Profile) (ref : Pt) (c : ℝ), b.WellFormed ∧ b.thickness = some t ∧ t.length < b.sections.length ∧
    b.camber = none ∧ (b.first t.length).applyTransformations false = (b₁, .ok ()) ∧ b.sections[t.length]? = some P ∧
    P.referencePoint = .ok ref ∧ b.chord[t.length]? = some c := by
  have href : onStation.referencePoint = .ok (1/2, 0) := by
    rw [C06_reference_is_midpoint _ onStation_ref.updateEdges]; simp [mid]
  have hcen : (onStation.translate (-(1/2, 0))).mulAll 1 = centred := by
    simp only [Profile.mulAll, Profile.translate, onStation, centred]
    norm_num
  have hth : centred.maxThickness none = .ok (3/10) := thickness_of rfl rfl rfl
  have hset : centred.setThicknessMax (3/10) = .ok centred := by
    unfold Profile.setThicknessMax
    simp only [hth, bind, Except.bind, pure, Except.pure]
    norm_num [centred]
  have hcU := Blade.sameX_uniform (centred_ref.sameX rfl)
  let b : Blade := { bladeTF with thickness := some [3/10], camber := none }
  obtain ⟨Q1, hQ1, a1, a2, a3, _⟩ := (Blade.tail_ok (b := b.first 1) (refl := false) (i := 0) (r := 1) (p := 2) (k := 0) (s := 0)
    rfl rfl rfl rfl hcU).2 (by norm_num)
  have hh : ((List.take 2 (Blade.sectionSteps (b.first 1) false 0)).foldlM (fun P f => f P) onStation : Res Profile) = .ok centred := by
    have hc : (b.first 1).chord[0]? = some 1 := rfl
    rw [(Blade.head_ok hc).2 _ href, hcen]
  have hm : ((List.take 2 (List.drop 2 (Blade.sectionSteps (b.first 1) false 0))).foldlM (fun P f => f P) centred : Res Profile) =
      .ok centred := by
    simp [Blade.sectionSteps, b, Blade.first, getIdx, bind, Except.bind, pure, Except.pure, hset]
  have run0 : Blade.runSteps (Blade.sectionSteps (b.first 1) false 0) onStation = (Q1, .ok ()) := by
    rw [Blade.runSteps_ok, Blade.steps_split, hh]
    simp only [bind, Except.bind, hm]
    exact hQ1
  have hloop : Blade.sectionLoop (b.first 1) false 0 (b.first 1).sections = ([Q1], .ok ()) := by
    simp only [show (b.first 1).sections = [onStation] from rfl, Blade.sectionLoop, run0]
  refine ⟨b, _, [3/10], onStation, _, _, by simp [b, bladeTF, Blade.WellFormed], rfl, by simp [b, bladeTF], rfl,
    (Blade.apply_ok rfl).2 ⟨_, _, _, hloop, (Blade.cylindrical_ok (by rfl)).2 ⟨by simp, ?_, by simp, rfl, rfl⟩, rfl⟩, rfl, href, rfl⟩
  intro i P r hP hr
  match i, hP, hr with
  | 0, hP, hr =>
    simp [b, bladeTF, Blade.first] at hP hr
    subst hP hr
    exact ⟨by norm_num, a3.1, a3.2.2⟩
  | (i + 1), hP, hr => simp at hP

end Sample

end
end BladeX
