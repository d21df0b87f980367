import Verif.Spec.ReverseMotion
import Verif.Props.ReverseShape
import Verif.Props.ReverseMore
import Verif.Lemmas.American

/-! # A blade moved before it is measured (C107) -/

namespace BladeX
noncomputable section
open Classical Spec Reverse

/-! ### Lemmas -/

namespace Reverse

/-- A similarity of the plane without rotation. -/
def sim (a u w : ℝ) (p : Pt) : Pt := (a * p.1 + u, a * p.2 + w)

theorem atan2_pos_mul {a : ℝ} (ha : 0 < a) (y x : ℝ) : atan2 (a * y) (a * x) = atan2 y x := by
  unfold atan2
  rw [← Complex.arg_real_mul (⟨x, y⟩ : ℂ) ha]
  congr 1
  apply Complex.ext <;> simp

theorem len_sim {a : ℝ} (ha : 0 < a) (u w : ℝ) (le te : Pt) : len (sim a u w le) (sim a u w te) = a * len le te := by
  unfold len sim
  conv_rhs => rw [← abs_of_pos ha, ← Real.sqrt_sq_eq_abs, ← Real.sqrt_mul (sq_nonneg a)]
  congr 1
  simp only
  ring

theorem frame_sim {a : ℝ} (ha : 0 < a) (u w : ℝ) {le te : Pt} (h : le.2 ≠ te.2) (p : Pt) :
    frame (sim a u w le) (sim a u w te) (sim a u w p) = frame le te p := by
  have hl := len_pos h
  unfold frame
  rw [len_sim ha]
  apply Prod.ext <;> simp only [sim] <;> field_simp <;> ring

theorem map_frame_sim {a : ℝ} (ha : 0 < a) (u w : ℝ) {le te : Pt} (h : le.2 ≠ te.2) (l : List Pt) :
    (l.map (sim a u w)).map (frame (sim a u w le) (sim a u w te)) = l.map (frame le te) := by
  rw [List.map_map]
  exact List.map_congr_left fun p _ => frame_sim ha u w h p

theorem sim_snd {a : ℝ} (ha : 0 < a) (u w : ℝ) {le te : Pt} : (sim a u w le).2 ≠ (sim a u w te).2 ↔ le.2 ≠ te.2 := by
  simp [sim, ha.ne']

/-- What one section of the BladeX class gives, from the unrolled points. -/
def CoreX (interp : List Pt → Res (ℝ → ℝ)) (n : Nat) (R : ℝ) (le te : Pt) (cam top bot : List Pt) (S : Section) : Prop :=
  2 ≤ n ∧ n ≤ 500 ∧ R ≠ 0 ∧ le.2 ≠ te.2 ∧
    (∃ c f, setEnds (cam.map (frame le te)) = .ok c ∧ interp (c.mergeSort lexLe2) = .ok f) ∧
    ∃ t b yup ydown, oriented (top.map (frame le te)) (bot.map (frame le te)) = .ok (t, b) ∧
      resample interp n t = .ok yup ∧ resample interp n b = .ok ydown ∧
      S = { stored := {
              pitchAngle := atan2 (le.2 - te.2) (le.1 - te.1),
              pitch := |2 * Real.pi * R * ((le.1 - te.1) / (le.2 - te.2))| / 1000,
              skewAngle := -((le.2 + te.2) / 2 / R) * 180 / Real.pi,
              skew := (le.2 + te.2) / 2 / 1000,
              rake := -((le.1 + te.1) / 2 - (le.2 + te.2) / 2 * ((le.1 - te.1) / (le.2 - te.2))) / 1000,
              chord := len le te / 1000 },
            xup := linspaceN 0 1 n, xdown := linspaceN 0 1 n, yup := yup, ydown := ydown }

theorem sectionBladeX_core {interp : List Pt → Res (ℝ → ℝ)} {n : Nat} {R : ℝ} {G : SectionGeom} {S : Section} :
    sectionBladeX interp n R G = .ok S ↔ CoreX interp n R (unrolled R G.leading) (unrolled R G.trailing)
      ((List.range n).map fun i => unrolledPos R (G.camber i)) ((List.range n).map fun i : Nat => unrolled R (G.top ((i : ℝ) / ((n : ℝ) - 1))))
      ((List.range n).map fun i : Nat => unrolled R (G.bottom ((i : ℝ) / ((n : ℝ) - 1)))) S := sectionBladeX_ok

/-- The same for the generic class. -/
def CoreG (interp : List Pt → Res (ℝ → ℝ)) (n : Nat) (R : ℝ) (le te : Pt) (cam foil : List Pt) (S : Section) : Prop :=
  R ≠ 0 ∧ le.2 ≠ te.2 ∧ ∃ c f yup ydown, setEnds (cam.map (frame le te)) = .ok c ∧ interp (c.mergeSort lexLe2) = .ok f ∧
    resample interp n (splitFoil f (ex le te foil c)).1 = .ok yup ∧ resample interp n (splitFoil f (ex le te foil c)).2 = .ok ydown ∧
    S = { stored := {
            pitchAngle := atan2 (le.2 - te.2) (le.1 - te.1),
            pitch := |2 * Real.pi * R * ((le.1 - te.1) / (le.2 - te.2))| / 1000,
            skewAngle := ((le.2 + te.2) / 2 / R - Real.pi) * 180 / Real.pi,
            skew := ((le.2 + te.2) / 2 - Real.pi * R) / 1000,
            rake := -((le.1 + te.1) / 2 - ((le.2 + te.2) / 2 - Real.pi * R) * ((le.1 - te.1) / (le.2 - te.2))) / 1000,
            chord := len le te / 1000 },
          xup := linspaceN 0 1 n, xdown := linspaceN 0 1 n, yup := yup, ydown := ydown }

theorem sectionGeneric_core {interp : List Pt → Res (ℝ → ℝ)} {n : Nat} {R : ℝ} {G : SectionGeom} {S : Section} :
    sectionGeneric interp n R G = .ok S ↔ CoreG interp n R (unrolledPos R G.leading) (unrolledPos R G.trailing)
      ((List.range 500).map fun i => unrolledPos R (G.camber i)) ((List.range 1000).map fun i : Nat => unrolledPos R (G.whole ((i : ℝ) / 999))) S :=
  sectionGeneric_ok

/-- The stored values after the similarity; `σ`: the sign with which the class counts skew angles. -/
def resim (σ a u w R : ℝ) (s : Stored) : Stored :=
  { pitchAngle := s.pitchAngle, pitch := a * s.pitch, skewAngle := s.skewAngle + σ * (w / (a * R) * 180 / Real.pi), skew := a * s.skew + w / 1000,
    rake := a * s.rake - (u - w * (Real.cos s.pitchAngle / Real.sin s.pitchAngle)) / 1000, chord := a * s.chord }

theorem cot_pitch {le te : Pt} (h : le.2 ≠ te.2) :
    Real.cos (atan2 (le.2 - te.2) (le.1 - te.1)) / Real.sin (atan2 (le.2 - te.2) (le.1 - te.1)) = (le.1 - te.1) / (le.2 - te.2) := by
  have hd : le.2 - te.2 ≠ 0 := sub_ne_zero.2 h
  rw [cos_atan2 (Or.inr hd), sin_atan2]
  have : 0 < Real.sqrt ((le.1 - te.1) ^ 2 + (le.2 - te.2) ^ 2) := len_pos h
  field_simp

theorem pitchAngle_sim {a : ℝ} (ha : 0 < a) (u w : ℝ) (le te : Pt) :
    atan2 ((sim a u w le).2 - (sim a u w te).2) ((sim a u w le).1 - (sim a u w te).1) = atan2 (le.2 - te.2) (le.1 - te.1) := by
  rw [← atan2_pos_mul ha (le.2 - te.2)]
  simp only [sim]
  congr 1 <;> ring

theorem slope_sim {a : ℝ} (ha : 0 < a) (u w : ℝ) (le te : Pt) :
    ((sim a u w le).1 - (sim a u w te).1) / ((sim a u w le).2 - (sim a u w te).2) = (le.1 - te.1) / (le.2 - te.2) := by
  simp only [sim]
  rw [show a * le.1 + u - (a * te.1 + u) = a * (le.1 - te.1) by ring, show a * le.2 + w - (a * te.2 + w) = a * (le.2 - te.2) by ring,
    mul_div_mul_left _ _ ha.ne']

theorem coreX_sim {interp : List Pt → Res (ℝ → ℝ)} {n : Nat} {R a : ℝ} (ha : 0 < a) (u w : ℝ) {le te : Pt} {cam top bot : List Pt} {S : Section}
    (h : CoreX interp n R le te cam top bot S) :
    CoreX interp n (a * R) (sim a u w le) (sim a u w te) (cam.map (sim a u w)) (top.map (sim a u w)) (bot.map (sim a u w))
      { S with stored := resim (-1) a u w R S.stored } := by
  obtain ⟨h1, h2, hR, hd, hc, t, b, yu, yd, ho, hu, hdn, rfl⟩ := h
  refine ⟨h1, h2, mul_ne_zero ha.ne' hR, (sim_snd ha u w).2 hd, ?_, t, b, yu, yd, ?_, hu, hdn, ?_⟩
  · rw [map_frame_sim ha u w hd]; exact hc
  · rw [map_frame_sim ha u w hd, map_frame_sim ha u w hd]; exact ho
  · rw [pitchAngle_sim ha, slope_sim ha, len_sim ha]
    simp only [resim]
    rw [cot_pitch hd]
    congr 2
    · rw [show 2 * Real.pi * (a * R) * ((le.1 - te.1) / (le.2 - te.2)) = a * (2 * Real.pi * R * ((le.1 - te.1) / (le.2 - te.2))) by ring,
        abs_mul a, abs_of_pos ha]
      ring
    · simp only [sim]; field_simp; ring
    · simp only [sim]; ring
    · simp only [sim]; ring
    · ring

theorem splitFoil_sim {a : ℝ} (ha : 0 < a) (u w : ℝ) {le te : Pt} (h : le.2 ≠ te.2) (f : ℝ → ℝ) (foil c : List Pt) :
    splitFoil f (ex (sim a u w le) (sim a u w te) (foil.map (sim a u w)) c) = splitFoil f (ex le te foil c) := by
  have e := map_frame_sim ha u w h foil
  unfold splitFoil ex
  simp only [e]

theorem coreG_sim {interp : List Pt → Res (ℝ → ℝ)} {n : Nat} {R a : ℝ} (ha : 0 < a) (u w : ℝ) {le te : Pt} {cam foil : List Pt} {S : Section}
    (h : CoreG interp n R le te cam foil S) :
    CoreG interp n (a * R) (sim a u w le) (sim a u w te) (cam.map (sim a u w)) (foil.map (sim a u w))
      { S with stored := resim 1 a u w R S.stored } := by
  obtain ⟨hR, hd, c, f, yu, yd, hc, hf, hu, hdn, rfl⟩ := h
  refine ⟨mul_ne_zero ha.ne' hR, (sim_snd ha u w).2 hd, c, f, yu, yd, ?_, hf, ?_, ?_, ?_⟩
  · rw [map_frame_sim ha u w hd]; exact hc
  · rw [splitFoil_sim ha u w hd]; exact hu
  · rw [splitFoil_sim ha u w hd]; exact hdn
  · rw [pitchAngle_sim ha, slope_sim ha, len_sim ha]
    simp only [resim]
    rw [cot_pitch hd]
    congr 2
    · rw [show 2 * Real.pi * (a * R) * ((le.1 - te.1) / (le.2 - te.2)) = a * (2 * Real.pi * R * ((le.1 - te.1) / (le.2 - te.2))) by ring,
        abs_mul a, abs_of_pos ha]
      ring
    · simp only [sim]; field_simp; ring
    · simp only [sim]; ring
    · simp only [sim]; ring
    · ring

/-- The camber line only decides whether an exception is raised. -/
theorem coreX_unique {interp : List Pt → Res (ℝ → ℝ)} {n : Nat} {R : ℝ} {le te : Pt} {cam cam' top bot : List Pt} {S S' : Section}
    (h : CoreX interp n R le te cam top bot S) (h' : CoreX interp n R le te cam' top bot S') : S = S' := by
  obtain ⟨_, _, _, _, _, t, b, yu, yd, ho, hu, hd, rfl⟩ := h
  obtain ⟨_, _, _, _, _, t', b', yu', yd', ho', hu', hd', rfl⟩ := h'
  have := ho.symm.trans ho'
  simp only [Except.ok.injEq, Prod.mk.injEq] at this
  obtain ⟨rfl, rfl⟩ := this
  rw [Except.ok.inj (hu.symm.trans hu'), Except.ok.inj (hd.symm.trans hd')]

theorem unrolled_along (R v : ℝ) (p : Pt3) : unrolled R (shiftX v p) = sim 1 v 0 (unrolled R p) := by
  simp [unrolled, shiftX, sim]

theorem unrolledPos_along (R v : ℝ) (p : Pt3) : unrolledPos R (shiftX v p) = sim 1 v 0 (unrolledPos R p) := by
  refine Prod.ext ?_ ?_
  · simp [unrolledPos, shiftX, sim]
  · simp only [sim, one_mul, add_zero]
    rfl

theorem unrolled_enlarged {f : ℝ} (hf : 0 < f) (R : ℝ) (p : Pt3) : unrolled (f * R) (dilate f p) = sim f 0 0 (unrolled R p) := by
  simp only [unrolled, dilate, sim, atan2_pos_mul hf]
  simp [mul_assoc]

theorem unrolledPos_enlarged {f : ℝ} (hf : 0 < f) (R : ℝ) (p : Pt3) : unrolledPos (f * R) (dilate f p) = sim f 0 0 (unrolledPos R p) := by
  simp only [unrolledPos, dilate, sim, atan2_pos_mul hf]
  simp [mul_assoc]

theorem rotX_polar (t ρ θ x : ℝ) : rotX t (x, ρ * Real.sin θ, ρ * Real.cos θ) = (x, ρ * Real.sin (θ - t), ρ * Real.cos (θ - t)) := by
  simp only [rotX, Real.sin_sub, Real.cos_sub]
  refine Prod.ext rfl (Prod.ext ?_ ?_) <;> simp only <;> ring

theorem unrolled_turned (R : ℝ) {t : ℝ} {p : Pt3} (h : TurnsWithin t p) : unrolled R (rotX t p) = sim 1 0 (-(R * t)) (unrolled R p) := by
  obtain ⟨x, y⟩ := p
  obtain ⟨ρ, θ, hρ, e, h1, h2⟩ := h
  obtain rfl : y = _ := e
  rw [rotX_polar]
  simp only [unrolled, sim, atan2_polar hρ h1, atan2_polar hρ h2]
  apply Prod.ext <;> simp only <;> ring

theorem unrolledPos_turned (R : ℝ) {t : ℝ} {p : Pt3} (h : TurnsWithinPos t p) : unrolledPos R (rotX t p) = sim 1 0 (-(R * t)) (unrolledPos R p) := by
  obtain ⟨x, y⟩ := p
  obtain ⟨ρ, θ, hρ, e, h1, h2⟩ := h
  obtain rfl : y = _ := e
  rw [rotX_polar]
  simp only [unrolledPos, sim, atan2_pos hρ h1, atan2_pos hρ h2]
  apply Prod.ext <;> simp only <;> ring

theorem moved_list {α : Type} (l : List α) {f : α → Pt} {g : α → Pt} {a u w : ℝ} (h : ∀ i ∈ l, f i = sim a u w (g i)) :
    l.map f = (l.map g).map (sim a u w) := by
  rw [List.map_map]
  exact List.map_congr_left h

theorem sim_inv {a : ℝ} (ha : 0 < a) (u w : ℝ) (p : Pt) : sim a⁻¹ (-(u / a)) (-(w / a)) (sim a u w p) = p := by
  apply Prod.ext <;> simp only [sim] <;> field_simp <;> ring

/-- The sign with which the class counts skew angles. -/
def sgn : Kind → ℝ
  | .bladeX => -1
  | .generic => 1

theorem list_inv {a : ℝ} (ha : 0 < a) (u w : ℝ) (l : List Pt) : (l.map (sim a u w)).map (sim a⁻¹ (-(u / a)) (-(w / a))) = l := by
  rw [List.map_map]
  conv_rhs => rw [← List.map_id l]
  exact List.map_congr_left fun p _ => sim_inv ha u w p

theorem section_sim {interp : List Pt → Res (ℝ → ℝ)} (kind : Kind) (n : Nat) {R a : ℝ} (ha : 0 < a) (u w : ℝ) (F : Pt3 → Pt3) (G : SectionGeom)
    (h1 : ∀ p, unrolled (a * R) (F p) = sim a u w (unrolled R p)) (h2 : ∀ p, unrolledPos (a * R) (F p) = sim a u w (unrolledPos R p)) (S' : Section) :
    section' kind interp n (a * R) (G.moved F) = .ok S' ↔
      ∃ S, section' kind interp n R G = .ok S ∧ S' = { S with stored := resim (sgn kind) a u w R S.stored } := by
  have hi : a⁻¹ * (a * R) = R := by field_simp
  cases kind with
  | bladeX =>
    have key : ∀ S, sectionBladeX interp n R G = .ok S → sectionBladeX interp n (a * R) (G.moved F) = .ok { S with stored := resim (-1) a u w R S.stored } := by
      intro S h
      have := coreX_sim ha u w (sectionBladeX_core.1 h)
      rw [← moved_list _ (fun i _ => h2 (G.camber i)), ← moved_list _ (fun (i : Nat) _ => h1 (G.top ((i : ℝ) / ((n : ℝ) - 1)))),
        ← moved_list _ (fun (i : Nat) _ => h1 (G.bottom ((i : ℝ) / ((n : ℝ) - 1)))), ← h1, ← h1] at this
      exact sectionBladeX_core.2 this
    constructor
    · intro h
      have h' := sectionBladeX_core.1 (show sectionBladeX interp n (a * R) (G.moved F) = .ok S' from h)
      simp only [SectionGeom.moved, h1, h2] at h'
      have e := coreX_sim (inv_pos.2 ha) (-(u / a)) (-(w / a)) h'
      rw [moved_list (List.range n) (fun i _ => (rfl : sim a u w (unrolledPos R (G.camber i)) = _)),
        moved_list (List.range n) (fun (i : Nat) _ => (rfl : sim a u w (unrolled R (G.top ((i : ℝ) / ((n : ℝ) - 1)))) = _)),
        moved_list (List.range n) (fun (i : Nat) _ => (rfl : sim a u w (unrolled R (G.bottom ((i : ℝ) / ((n : ℝ) - 1)))) = _)),
        list_inv ha, list_inv ha, list_inv ha, sim_inv ha, sim_inv ha, hi] at e
      have hs := sectionBladeX_core.2 e
      exact ⟨_, hs, Except.ok.inj (h.symm.trans (key _ hs))⟩
    · rintro ⟨S, h, rfl⟩
      exact key S h
  | generic =>
    have key : ∀ S, sectionGeneric interp n R G = .ok S → sectionGeneric interp n (a * R) (G.moved F) = .ok { S with stored := resim 1 a u w R S.stored } := by
      intro S h
      have := coreG_sim ha u w (sectionGeneric_core.1 h)
      rw [← moved_list _ (fun i _ => h2 (G.camber i)), ← moved_list _ (fun (i : Nat) _ => h2 (G.whole ((i : ℝ) / 999))), ← h2, ← h2] at this
      exact sectionGeneric_core.2 this
    constructor
    · intro h
      have h' := sectionGeneric_core.1 (show sectionGeneric interp n (a * R) (G.moved F) = .ok S' from h)
      simp only [SectionGeom.moved, h2] at h'
      have e := coreG_sim (inv_pos.2 ha) (-(u / a)) (-(w / a)) h'
      rw [moved_list (List.range 500) (fun i _ => (rfl : sim a u w (unrolledPos R (G.camber i)) = _)),
        moved_list (List.range 1000) (fun (i : Nat) _ => (rfl : sim a u w (unrolledPos R (G.whole ((i : ℝ) / 999))) = _)),
        list_inv ha, list_inv ha, sim_inv ha, sim_inv ha, hi] at e
      have hs := sectionGeneric_core.2 e
      exact ⟨_, hs, Except.ok.inj (h.symm.trans (key _ hs))⟩
    · rintro ⟨S, h, rfl⟩
      exact key S h

/-- From the sections to the object. -/
theorem new_moved {interp : List Pt → Res (ℝ → ℝ)} (kind : Kind) (geom geom' : ℝ → Res SectionGeom) (upd : Section → Section) (a : ℝ) (radii : Arr) (n : Int)
    (h : ∀ R ∈ radii, ∀ S', (do section' kind interp n.toNat (a * R) (← geom' (a * R))) = .ok S' ↔
      ∃ S, (do section' kind interp n.toNat R (← geom R)) = .ok S ∧ S' = upd S) (p' : ReversePropeller) :
    ReversePropeller.new kind interp geom' (radii.map (a * ·)) n = .ok p' ↔
      ∃ p, ReversePropeller.new kind interp geom radii n = .ok p ∧ p' = { p with radii := p.radii.map (a * ·), sections := p.sections.map upd } := by
  have key : ∀ l : Arr, (∀ R ∈ l, R ∈ radii) → ∀ ss', (l.map (a * ·)).mapM (fun r => do section' kind interp n.toNat r (← geom' r)) = .ok ss' ↔
      ∃ ss, l.mapM (fun r => do section' kind interp n.toNat r (← geom r)) = .ok ss ∧ ss' = ss.map upd := by
    intro l
    induction l with
    | nil =>
      intro _ ss'
      constructor
      · intro e
        obtain rfl := Except.ok.inj (show Except.ok [] = Except.ok ss' from e)
        exact ⟨[], rfl, rfl⟩
      · rintro ⟨ss, e, rfl⟩
        obtain rfl := Except.ok.inj (show Except.ok [] = Except.ok ss from e)
        rfl
    | cons R l ih =>
      intro hl ss'
      have hR := h R (hl R (by simp))
      have ih' := ih fun x hx => hl x (by simp [hx])
      rw [List.map_cons, List.mapM_cons, List.mapM_cons]
      rw [Profile.bndA]
      constructor
      · rintro ⟨S', e1, e2⟩
        rw [Profile.bndA] at e2
        obtain ⟨t', e2, e3⟩ := e2
        obtain rfl := Except.ok.inj (show Except.ok (S' :: t') = Except.ok ss' from e3)
        obtain ⟨S, f1, rfl⟩ := (hR S').1 e1
        obtain ⟨ss, f2, rfl⟩ := (ih' t').1 e2
        refine ⟨S :: ss, ?_, rfl⟩
        rw [Profile.bndA]
        refine ⟨S, f1, ?_⟩
        rw [Profile.bndA]
        exact ⟨ss, f2, rfl⟩
      · rintro ⟨ss, e, rfl⟩
        rw [Profile.bndA] at e
        obtain ⟨S, f1, e⟩ := e
        rw [Profile.bndA] at e
        obtain ⟨t, f2, e⟩ := e
        obtain rfl := Except.ok.inj (show Except.ok (S :: t) = Except.ok ss from e)
        refine ⟨upd S, (hR _).2 ⟨S, f1, rfl⟩, ?_⟩
        rw [Profile.bndA]
        exact ⟨t.map upd, (ih' _).2 ⟨t, f2, rfl⟩, rfl⟩
  have k := key radii fun _ h => h
  by_cases hn : n < 0
  · simp [ReversePropeller.new, hn, bind, Except.bind, throw, throwThe, MonadExceptOf.throw]
  · have e : ∀ g l, ReversePropeller.new kind interp g l n = (l.mapM (fun r => do section' kind interp n.toNat r (← g r)) >>= fun ss =>
        Except.ok ⟨kind, l, n.toNat, ss⟩) := by
      intro g l
      rw [ReversePropeller.new, if_neg hn]
      rfl
    rw [e]
    constructor
    · intro h1
      obtain ⟨ss', e1, e2⟩ := Profile.bndA.1 h1
      obtain rfl := Except.ok.inj (show Except.ok _ = Except.ok p' from e2)
      obtain ⟨ss, f1, rfl⟩ := (k ss').1 e1
      refine ⟨⟨kind, radii, n.toNat, ss⟩, ?_, rfl⟩
      rw [e]
      exact Profile.bndA.2 ⟨ss, f1, rfl⟩
    · rintro ⟨p, h1, rfl⟩
      rw [e] at h1
      obtain ⟨ss, e1, e2⟩ := Profile.bndA.1 h1
      obtain rfl := Except.ok.inj (show Except.ok _ = Except.ok p from e2)
      exact Profile.bndA.2 ⟨ss.map upd, (k _).2 ⟨ss, e1, rfl⟩, rfl⟩

theorem bind_section {kind : Kind} {interp : List Pt → Res (ℝ → ℝ)} {n : Nat} {R : ℝ} {g : Res SectionGeom} {S : Section} :
    (do section' kind interp n R (← g)) = .ok S ↔ ∃ G, g = .ok G ∧ section' kind interp n R G = .ok S := Profile.bndA

end Reverse

/-! ### Translation along the axis -/

/-- **C107.** A blade moved by `v` (millimetres) along its axis: a section is accepted if and only if it was; of what is stored only the
rake changes, by `-v` (in metres). -/
theorem C107_translated (kind : Kind) (interp : List Pt → Res (ℝ → ℝ)) (n : Nat) (R v : ℝ) (G : SectionGeom) (S' : Section) :
    section' kind interp n R (G.moved (shiftX v)) = .ok S' ↔
      ∃ S, section' kind interp n R G = .ok S ∧ S' = { S with stored := { S.stored with rake := S.stored.rake - v / 1000 } } := by
  have := section_sim (interp := interp) kind n (R := R) one_pos v 0 (shiftX v) G (by intro p; rw [one_mul]; exact unrolled_along R v p)
    (by intro p; rw [one_mul]; exact unrolledPos_along R v p) S'
  rw [one_mul] at this
  simpa [resim] using this

/-- **C107.** The whole object: every section of the translated blade. -/
theorem C107_translated_propeller (kind : Kind) (interp : List Pt → Res (ℝ → ℝ)) (geom geom' : ℝ → Res SectionGeom) (radii : Arr) (n : Int) (v : ℝ)
    (hg : ∀ R ∈ radii, geom' R = (geom R).map (·.moved (shiftX v))) (p' : ReversePropeller) :
    ReversePropeller.new kind interp geom' radii n = .ok p' ↔
      ∃ p, ReversePropeller.new kind interp geom radii n = .ok p ∧
        p' = { p with sections := p.sections.map fun S => { S with stored := { S.stored with rake := S.stored.rake - v / 1000 } } } := by
  have := new_moved (interp := interp) kind geom geom' (fun S => { S with stored := { S.stored with rake := S.stored.rake - v / 1000 } }) 1 radii n (by
    intro R hR S'
    rw [one_mul, bind_section, hg R hR]
    constructor
    · rintro ⟨G', e, h⟩
      cases hG : geom R with
      | error e' => rw [hG] at e; cases e
      | ok G =>
        rw [hG] at e
        obtain rfl := Except.ok.inj (show Except.ok _ = Except.ok G' from e)
        obtain ⟨S, h1, h2⟩ := (C107_translated kind interp _ R v G S').1 h
        exact ⟨S, h1, h2⟩
    · rintro ⟨S, h, rfl⟩
      obtain ⟨G, hG, h⟩ := bind_section.1 h
      exact ⟨G.moved (shiftX v), by rw [hG]; rfl, (C107_translated kind interp _ R v G _).2 ⟨S, h, rfl⟩⟩) p'
  simpa using this

/-! ### Enlargement -/

/-- **C107.** An enlarged blade, cut at the enlarged radius: lengths (pitch, skew, rake, chord) are multiplied by the factor, angles and the
section (in chords) stay. -/
theorem C107_enlarged (kind : Kind) (interp : List Pt → Res (ℝ → ℝ)) (n : Nat) (R f : ℝ) (hf : 0 < f) (G : SectionGeom) (S' : Section) :
    section' kind interp n (f * R) (G.moved (dilate f)) = .ok S' ↔
      ∃ S, section' kind interp n R G = .ok S ∧ S' = { S with stored := {
        pitchAngle := S.stored.pitchAngle, pitch := f * S.stored.pitch, skewAngle := S.stored.skewAngle, skew := f * S.stored.skew,
        rake := f * S.stored.rake, chord := f * S.stored.chord } } := by
  have := section_sim (interp := interp) kind n (R := R) hf 0 0 (dilate f) G (unrolled_enlarged hf R) (unrolledPos_enlarged hf R) S'
  simpa [resim] using this

/-- **C107.** The whole object. -/
theorem C107_enlarged_propeller (kind : Kind) (interp : List Pt → Res (ℝ → ℝ)) (geom geom' : ℝ → Res SectionGeom) (radii : Arr) (n : Int) (f : ℝ)
    (hf : 0 < f) (hg : ∀ R ∈ radii, geom' (f * R) = (geom R).map (·.moved (dilate f))) (p' : ReversePropeller) :
    ReversePropeller.new kind interp geom' (radii.map (f * ·)) n = .ok p' ↔
      ∃ p, ReversePropeller.new kind interp geom radii n = .ok p ∧
        p' = { p with radii := p.radii.map (f * ·), sections := p.sections.map fun S => { S with stored := {
          pitchAngle := S.stored.pitchAngle, pitch := f * S.stored.pitch, skewAngle := S.stored.skewAngle, skew := f * S.stored.skew,
          rake := f * S.stored.rake, chord := f * S.stored.chord } } } := by
  refine new_moved (interp := interp) kind geom geom' _ f radii n ?_ p'
  intro R hR S'
  rw [bind_section, hg R hR]
  constructor
  · rintro ⟨G', e, h⟩
    cases hG : geom R with
    | error e' => rw [hG] at e; cases e
    | ok G =>
      rw [hG] at e
      obtain rfl := Except.ok.inj (show Except.ok _ = Except.ok G' from e)
      obtain ⟨S, h1, h2⟩ := (C107_enlarged kind interp _ R f hf G S').1 h
      exact ⟨S, h1, h2⟩
  · rintro ⟨S, h, rfl⟩
    obtain ⟨G, hG, h⟩ := bind_section.1 h
    exact ⟨G.moved (dilate f), by rw [hG]; rfl, (C107_enlarged kind interp _ R f hf G _).2 ⟨S, h, rfl⟩⟩

/-! ### Rotation about the axis -/

/-- **C107.** BladeX class, blade turned by `t` about its axis with no point passing the half plane behind it: pitch, chord and shape stay, the
skew angle grows by `t`, the arc of the skew by `-R t`, and the rake by what the skew does not induce any more. -/
theorem C107_turned (interp : List Pt → Res (ℝ → ℝ)) (n : Nat) (R t : ℝ) (G : SectionGeom) (S S' : Section)
    (hle : TurnsWithin t G.leading) (hte : TurnsWithin t G.trailing) (htop : ∀ x, TurnsWithin t (G.top x)) (hbot : ∀ x, TurnsWithin t (G.bottom x))
    (h : sectionBladeX interp n R G = .ok S) (h' : sectionBladeX interp n R (G.moved (rotX t)) = .ok S') :
    S' = { S with stored := { S.stored with
      skewAngle := S.stored.skewAngle + t * 180 / Real.pi, skew := S.stored.skew - R * t / 1000,
      rake := S.stored.rake - R * t * (Real.cos S.stored.pitchAngle / Real.sin S.stored.pitchAngle) / 1000 } } := by
  have hR : R ≠ 0 := (sectionBladeX_core.1 h).2.2.1
  have k := coreX_sim one_pos 0 (-(R * t)) (sectionBladeX_core.1 h)
  rw [← moved_list _ (fun (i : Nat) _ => unrolled_turned R (htop ((i : ℝ) / ((n : ℝ) - 1)))),
    ← moved_list _ (fun (i : Nat) _ => unrolled_turned R (hbot ((i : ℝ) / ((n : ℝ) - 1)))), ← unrolled_turned R hle, ← unrolled_turned R hte, one_mul] at k
  rw [coreX_unique (sectionBladeX_core.1 h') k]
  simp only [resim]
  congr 2
  · ring
  · field_simp
  · ring
  · ring
  · ring

/-- **C107.** ... and the turned section is accepted too, if the interpolation accepts all data. -/
theorem C107_turned_accepted (interp : List Pt → Res (ℝ → ℝ)) (hi : ∀ l, ∃ f, interp l = .ok f) (n : Nat) (R t : ℝ) (G : SectionGeom) (S : Section)
    (hle : TurnsWithin t G.leading) (hte : TurnsWithin t G.trailing) (h : sectionBladeX interp n R G = .ok S) :
    ∃ S', sectionBladeX interp n R (G.moved (rotX t)) = .ok S' := by
  obtain ⟨h1, h2, hR, hd, _⟩ := sectionBladeX_core.1 h
  refine sectionBladeX_total hi h1 h2 hR ?_
  show (unrolled R (rotX t G.leading)).2 ≠ (unrolled R (rotX t G.trailing)).2
  rw [unrolled_turned R hle, unrolled_turned R hte]
  exact (sim_snd one_pos _ _).2 hd

/-- **C107.** Generic class, the angles from 0 to 360 degrees: here the skew angle falls by `t`. -/
theorem C107_turned_generic (interp : List Pt → Res (ℝ → ℝ)) (n : Nat) (R t : ℝ) (G : SectionGeom) (S : Section)
    (hle : TurnsWithinPos t G.leading) (hte : TurnsWithinPos t G.trailing) (hw : ∀ x, TurnsWithinPos t (G.whole x))
    (hc : ∀ i, TurnsWithinPos t (G.camber i)) (h : sectionGeneric interp n R G = .ok S) :
    sectionGeneric interp n R (G.moved (rotX t)) = .ok { S with stored := { S.stored with
      skewAngle := S.stored.skewAngle - t * 180 / Real.pi, skew := S.stored.skew - R * t / 1000,
      rake := S.stored.rake - R * t * (Real.cos S.stored.pitchAngle / Real.sin S.stored.pitchAngle) / 1000 } } := by
  have hR : R ≠ 0 := (sectionGeneric_core.1 h).1
  have k := coreG_sim one_pos 0 (-(R * t)) (sectionGeneric_core.1 h)
  rw [← moved_list _ (fun i _ => unrolledPos_turned R (hc i)), ← moved_list _ (fun (i : Nat) _ => unrolledPos_turned R (hw ((i : ℝ) / 999))),
    ← unrolledPos_turned R hle, ← unrolledPos_turned R hte, one_mul] at k
  refine (sectionGeneric_core.2 k).trans ?_
  simp only [resim]
  congr 3
  · ring
  · field_simp
    ring
  · ring
  · ring
  · ring

/-! ### The mirrored blade -/

namespace Reverse

theorem frame_flip (le te p : Pt) : frame (flipY le) (flipY te) (flipY p) = flipY (frame le te p) := by
  have : len (flipY le) (flipY te) = len le te := by
    unfold len flipY
    congr 1
    simp only
    ring
  unfold frame
  rw [this]
  apply Prod.ext <;> simp only [flipY] <;> ring

theorem flipY_flipY (p : Pt) : flipY (flipY p) = p := by simp [flipY]

theorem oriented_mirror {top bot : List Pt} {p : Pt} (hp : getIdx top (argmax (top.map fun p => |p.2|)) = .ok p) (h0 : p.2 ≠ 0) :
    oriented (top.map flipY) (bot.map flipY) = oriented top bot := by
  have e1 : (top.map flipY).map (fun p => |p.2|) = top.map fun p => |p.2| := by
    rw [List.map_map]
    exact List.map_congr_left fun q _ => by simp [flipY]
  have e2 : ∀ l : List Pt, (l.map flipY).map flipY = l := by
    intro l
    rw [List.map_map]
    conv_rhs => rw [← List.map_id l]
    exact List.map_congr_left fun q _ => flipY_flipY q
  unfold oriented
  rw [e1, getIdx_map, hp]
  simp only [Except.map, bind, Except.bind, pure, Except.pure, e2]
  rcases lt_or_gt_of_ne h0 with h | h
  · rw [if_neg (by simp only [flipY]; linarith), if_pos h]
  · rw [if_pos (by simp only [flipY]; linarith), if_neg (by linarith)]

theorem argmax_abs {top : List Pt} {p : Pt} (hp : getIdx top (argmax (top.map fun p => |p.2|)) = .ok p) : ∀ q ∈ top, |q.2| ≤ |p.2| := by
  intro q hq
  have hne : top.map (fun p => |p.2|) ≠ [] := List.ne_nil_of_mem (List.mem_map_of_mem hq)
  obtain ⟨m, hm⟩ := npMax_exists hne
  have hspec := argmax_spec hm
  obtain ⟨_, hmax⟩ := npMax_ok_iff.1 hm
  have : |p.2| = m := by
    unfold getIdx at hp
    rw [List.getElem?_map] at hspec
    cases hx : top[argmax (top.map fun p => |p.2|)]? with
    | none => rw [hx] at hp; cases hp
    | some y =>
      rw [hx] at hp hspec
      obtain rfl := Except.ok.inj (show Except.ok y = Except.ok p from hp)
      simpa using hspec
  rw [this]
  exact hmax _ (List.mem_map_of_mem hq)

theorem unrolled_mirror (R : ℝ) {p : Pt3} (h : p.2.1 ≠ 0 ∨ 0 ≤ p.2.2) : unrolled R (mirrorY p) = flipY (unrolled R p) := by
  have : atan2 (-p.2.1) p.2.2 = -atan2 p.2.1 p.2.2 := by
    unfold atan2
    have hc : (⟨p.2.2, -p.2.1⟩ : ℂ) = (starRingEnd ℂ) ⟨p.2.2, p.2.1⟩ := by apply Complex.ext <;> simp
    rw [hc, Complex.arg_conj, if_neg]
    intro hπ
    rw [Complex.arg_eq_pi_iff] at hπ
    rcases h with h | h
    · exact h hπ.2
    · exact absurd hπ.1 (not_lt.2 h)
  simp only [unrolled, mirrorY, flipY, this]
  apply Prod.ext <;> simp only
  ring

end Reverse

/-- **C107.** BladeX class, the blade mirrored in the plane of the axis and the reference line (a propeller of the other hand), no point behind
the axis, upper side not on the chord: pitch, chord, rake and the shape stay; the skew changes its sign. -/
theorem C107_mirrored (interp : List Pt → Res (ℝ → ℝ)) (n : Nat) (R : ℝ) (G : SectionGeom) (S S' : Section)
    (hle : G.leading.2.1 ≠ 0 ∨ 0 ≤ G.leading.2.2) (hte : G.trailing.2.1 ≠ 0 ∨ 0 ≤ G.trailing.2.2)
    (htop : ∀ x, (G.top x).2.1 ≠ 0 ∨ 0 ≤ (G.top x).2.2) (hbot : ∀ x, (G.bottom x).2.1 ≠ 0 ∨ 0 ≤ (G.bottom x).2.2)
    (hoff : ∃ i : Nat, i < n ∧ ∀ x, unrolled R (G.top ((i : ℝ) / ((n : ℝ) - 1))) ≠ chordFrame (unrolled R G.leading) (unrolled R G.trailing) (x, 0))
    (h : sectionBladeX interp n R G = .ok S) (h' : sectionBladeX interp n R (G.moved mirrorY) = .ok S') :
    S' = { S with stored := { S.stored with
      pitchAngle := -S.stored.pitchAngle, skewAngle := -S.stored.skewAngle, skew := -S.stored.skew } } := by
  obtain ⟨_, _, hR, hd, _, t, b, yu, yd, ho, hu, hdn, rfl⟩ := sectionBladeX_core.1 h
  obtain ⟨_, _, _, hd', _, t', b', yu', yd', ho', hu', hdn', rfl⟩ := sectionBladeX_core.1 h'
  set le := unrolled R G.leading with hle'
  set te := unrolled R G.trailing with hte'
  have l1 : unrolled R (G.moved mirrorY).leading = flipY le := unrolled_mirror R hle
  have l2 : unrolled R (G.moved mirrorY).trailing = flipY te := unrolled_mirror R hte
  have l3 : ((List.range n).map fun i : Nat => unrolled R ((G.moved mirrorY).top ((i : ℝ) / ((n : ℝ) - 1)))) =
      ((List.range n).map fun i : Nat => unrolled R (G.top ((i : ℝ) / ((n : ℝ) - 1)))).map flipY := by
    rw [List.map_map]
    exact List.map_congr_left fun i _ => unrolled_mirror R (htop _)
  have l4 : ((List.range n).map fun i : Nat => unrolled R ((G.moved mirrorY).bottom ((i : ℝ) / ((n : ℝ) - 1)))) =
      ((List.range n).map fun i : Nat => unrolled R (G.bottom ((i : ℝ) / ((n : ℝ) - 1)))).map flipY := by
    rw [List.map_map]
    exact List.map_congr_left fun i _ => unrolled_mirror R (hbot _)
  have l5 : ∀ l : List Pt, (l.map flipY).map (frame (flipY le) (flipY te)) = (l.map (frame le te)).map flipY := by
    intro l
    rw [List.map_map, List.map_map]
    exact List.map_congr_left fun p _ => frame_flip le te p
  rw [l1, l2, l3, l4, l5, l5] at ho'
  set top := ((List.range n).map fun i : Nat => unrolled R (G.top ((i : ℝ) / ((n : ℝ) - 1)))).map (frame le te) with htop'
  obtain ⟨p, hp⟩ : ∃ p, getIdx top (argmax (top.map fun p => |p.2|)) = .ok p := by
    cases hg : getIdx top (argmax (top.map fun p => |p.2|)) with
    | ok p => exact ⟨p, rfl⟩
    | error e =>
      unfold oriented at ho
      rw [hg] at ho
      cases ho
  have h0 : p.2 ≠ 0 := by
    obtain ⟨i, hi, hx⟩ := hoff
    intro hz
    have hmem : frame le te (unrolled R (G.top ((i : ℝ) / ((n : ℝ) - 1)))) ∈ top := by
      rw [htop']
      exact List.mem_map_of_mem (List.mem_map.2 ⟨i, List.mem_range.2 hi, rfl⟩)
    have hmax := argmax_abs hp _ hmem
    rw [hz, abs_zero] at hmax
    apply hx (frame le te (unrolled R (G.top ((i : ℝ) / ((n : ℝ) - 1))))).1
    rw [← abs_nonpos_iff.1 hmax]
    exact (chordFrame_frame hd _).symm
  rw [oriented_mirror hp h0, ho] at ho'
  simp only [Except.ok.injEq, Prod.mk.injEq] at ho'
  obtain ⟨rfl, rfl⟩ := ho'
  obtain rfl := Except.ok.inj (hu.symm.trans hu')
  obtain rfl := Except.ok.inj (hdn.symm.trans hdn')
  rw [l1, l2]
  have hsl : ((flipY le).1 - (flipY te).1) / ((flipY le).2 - (flipY te).2) = -((le.1 - te.1) / (le.2 - te.2)) := by
    simp only [flipY]
    rw [show -le.2 - -te.2 = -(le.2 - te.2) by ring, div_neg]
  have hang : atan2 ((flipY le).2 - (flipY te).2) ((flipY le).1 - (flipY te).1) = -atan2 (le.2 - te.2) (le.1 - te.1) := by
    have hdd : le.2 - te.2 ≠ 0 := sub_ne_zero.2 hd
    unfold atan2
    have hc : (⟨(flipY le).1 - (flipY te).1, (flipY le).2 - (flipY te).2⟩ : ℂ) = (starRingEnd ℂ) ⟨le.1 - te.1, le.2 - te.2⟩ := by
      apply Complex.ext <;> simp [flipY]
      ring
    rw [hc, Complex.arg_conj, if_neg]
    intro hπ
    rw [Complex.arg_eq_pi_iff] at hπ
    exact hdd hπ.2
  have hlen : len (flipY le) (flipY te) = len le te := by
    unfold len flipY
    congr 1
    simp only
    ring
  rw [hsl, hang, hlen]
  congr 2
  · rw [mul_neg, abs_neg]
  · simp only [flipY]; ring
  · simp only [flipY]; ring
  · simp only [flipY]; ring

/-! ### Non-vacuity -/

/-- A point at the angle `θ` on the cylinder of radius 1. -/
def Sample.onUnit (x θ : ℝ) : Pt3 := (x, 1 * Real.sin θ, 1 * Real.cos θ)

/-- A slanted section on the cylinder of radius 1, at angles from 1 to 2 (radians). -/
def Sample.slantedCut : SectionGeom :=
  ⟨Sample.onUnit 1 2, Sample.onUnit 0 1, fun _ => Sample.onUnit 1 1, fun _ => Sample.onUnit 1 1, fun _ => Sample.onUnit 0 2, fun _ => Sample.onUnit 1 1⟩

theorem Sample.onUnit_turns (x : ℝ) {θ : ℝ} (h : 1 ≤ θ ∧ θ ≤ 2) :
    TurnsWithin (1 / 2) (Sample.onUnit x θ) ∧ TurnsWithinPos (1 / 2) (Sample.onUnit x θ) ∧ (Sample.onUnit x θ).2.1 ≠ 0 ∧
      unrolled 1 (Sample.onUnit x θ) = (x, θ) ∧ unrolledPos 1 (Sample.onUnit x θ) = (x, θ) := by
  have hpi := Real.pi_gt_three
  have h1 : -Real.pi < θ ∧ θ ≤ Real.pi := ⟨by linarith [h.1], by linarith [h.2]⟩
  have h2 : 0 ≤ θ ∧ θ < 2 * Real.pi := ⟨by linarith [h.1], by linarith [h.2]⟩
  refine ⟨⟨1, θ, one_pos, rfl, h1, by linarith [h.1], by linarith [h.2]⟩, ⟨1, θ, one_pos, rfl, h2, by linarith [h.1], by linarith [h.2]⟩, ?_, ?_, ?_⟩
  · show 1 * Real.sin θ ≠ 0
    rw [one_mul]
    exact (Real.sin_pos_of_pos_of_lt_pi (by linarith [h.1]) (by linarith [h.2])).ne'
  · simp only [unrolled, Sample.onUnit]
    rw [atan2_polar one_pos h1, one_mul]
  · have := atan2_pos one_pos h2
    show (x, 1 * _) = (x, θ)
    rw [one_mul]
    exact congrArg (Prod.mk x) this

/-- The hypotheses of the theorems hold for this section, turned by half a radian. -/
example : ∃ S S' S'' T, let i : List Pt → Res (ℝ → ℝ) := fun _ => .ok fun _ => 0
    sectionBladeX i 3 1 Sample.slantedCut = .ok S ∧ sectionBladeX i 3 1 (Sample.slantedCut.moved (rotX (1 / 2))) = .ok S' ∧
    sectionBladeX i 3 1 (Sample.slantedCut.moved mirrorY) = .ok S'' ∧ sectionGeneric i 3 1 Sample.slantedCut = .ok T ∧
    (TurnsWithin (1 / 2) Sample.slantedCut.leading ∧ TurnsWithin (1 / 2) Sample.slantedCut.trailing ∧ (∀ x, TurnsWithin (1 / 2) (Sample.slantedCut.top x)) ∧
      (∀ x, TurnsWithin (1 / 2) (Sample.slantedCut.bottom x))) ∧
    (TurnsWithinPos (1 / 2) Sample.slantedCut.leading ∧ TurnsWithinPos (1 / 2) Sample.slantedCut.trailing ∧
      (∀ x, TurnsWithinPos (1 / 2) (Sample.slantedCut.whole x)) ∧ ∀ i, TurnsWithinPos (1 / 2) (Sample.slantedCut.camber i)) ∧
    (Sample.slantedCut.leading.2.1 ≠ 0 ∧ Sample.slantedCut.trailing.2.1 ≠ 0 ∧ (∀ x, (Sample.slantedCut.top x).2.1 ≠ 0) ∧ ∀ x, (Sample.slantedCut.bottom x).2.1 ≠ 0) ∧
    (∀ x, unrolled 1 (Sample.slantedCut.top 0) ≠ chordFrame (unrolled 1 Sample.slantedCut.leading) (unrolled 1 Sample.slantedCut.trailing) (x, 0)) ∧
    S.stored.skew = 3 / 2 / 1000 ∧ S'.stored.skew = 1 / 1000 ∧ S''.stored.skew = -(3 / 2 / 1000) := by
  have a1 := fun x => Sample.onUnit_turns x (θ := 1) ⟨by norm_num, by norm_num⟩
  have a2 := fun x => Sample.onUnit_turns x (θ := 2) ⟨by norm_num, by norm_num⟩
  have hi : ∀ l : List Pt, ∃ f, (fun _ => Except.ok fun _ => 0 : List Pt → Res (ℝ → ℝ)) l = .ok f := fun l => ⟨_, rfl⟩
  have l1 : unrolled 1 Sample.slantedCut.leading = (1, 2) := (a2 1).2.2.2.1
  have l2 : unrolled 1 Sample.slantedCut.trailing = (0, 1) := (a1 0).2.2.2.1
  have l3 : unrolledPos 1 Sample.slantedCut.leading = (1, 2) := (a2 1).2.2.2.2
  have l4 : unrolledPos 1 Sample.slantedCut.trailing = (0, 1) := (a1 0).2.2.2.2
  obtain ⟨S, hS⟩ := sectionBladeX_total hi (n := 3) (by norm_num) (by norm_num) (R := 1) one_ne_zero (G := Sample.slantedCut) (by rw [l1, l2]; norm_num)
  obtain ⟨S', hS'⟩ := C107_turned_accepted _ hi 3 1 (1 / 2) Sample.slantedCut S (a2 1).1 (a1 0).1 hS
  have m1 : unrolled 1 (Sample.slantedCut.moved mirrorY).leading = flipY (1, 2) := by rw [← l1]; exact unrolled_mirror 1 (Or.inl (a2 1).2.2.1)
  have m2 : unrolled 1 (Sample.slantedCut.moved mirrorY).trailing = flipY (0, 1) := by rw [← l2]; exact unrolled_mirror 1 (Or.inl (a1 0).2.2.1)
  obtain ⟨S'', hS''⟩ := sectionBladeX_total hi (n := 3) (by norm_num) (by norm_num) (R := 1) one_ne_zero (G := Sample.slantedCut.moved mirrorY)
    (by rw [m1, m2]; norm_num [flipY])
  obtain ⟨T, hT⟩ := sectionGeneric_total hi (n := 3) (by norm_num) (R := 1) one_ne_zero (G := Sample.slantedCut) (by rw [l3, l4]; norm_num)
  have off : ∀ x, unrolled 1 (Sample.slantedCut.top 0) ≠ chordFrame (unrolled 1 Sample.slantedCut.leading) (unrolled 1 Sample.slantedCut.trailing) (x, 0) := by
    intro x h
    rw [l1, l2, show unrolled 1 (Sample.slantedCut.top 0) = (1, 1) from (a1 1).2.2.2.1] at h
    simp only [chordFrame, Prod.mk.injEq] at h
    linarith [h.1, h.2]
  have hskew : S.stored.skew = 3 / 2 / 1000 := by
    obtain ⟨_, _, _, _, _, t, b, yu, yd, _, _, _, rfl⟩ := sectionBladeX_core.1 hS
    simp only [l1, l2]
    norm_num
  refine ⟨S, S', S'', T, hS, hS', hS'', hT, ⟨(a2 1).1, (a1 0).1, fun _ => (a1 1).1, fun _ => (a2 0).1⟩,
    ⟨(a2 1).2.1, (a1 0).2.1, fun _ => (a1 1).2.1, fun _ => (a1 1).2.1⟩, ⟨(a2 1).2.2.1, (a1 0).2.2.1, fun _ => (a1 1).2.2.1, fun _ => (a2 0).2.2.1⟩, off,
    hskew, ?_, ?_⟩
  · rw [C107_turned _ 3 1 (1 / 2) Sample.slantedCut S S' (a2 1).1 (a1 0).1 (fun _ => (a1 1).1) (fun _ => (a2 0).1) hS hS']
    simp only [hskew]
    norm_num
  · rw [C107_mirrored _ 3 1 Sample.slantedCut S S'' (Or.inl (a2 1).2.2.1) (Or.inl (a1 0).2.2.1) (fun _ => Or.inl (a1 1).2.2.1) (fun _ => Or.inl (a2 0).2.2.1)
      ⟨0, by norm_num, off⟩ hS hS'']
    simp only [hskew]

end
end BladeX
