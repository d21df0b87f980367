import Verif.Lemmas.BladeMotion
import Verif.Props.BladeCylinder

/-! # C49 - C51, C54: moving a blade -/

namespace BladeX
noncomputable section
open Spec Classical

/-- **C49** `rotate` on a built blade, with exactly one angle and the axis x, y or z, succeeds and rotates all stored coordinates: about the
`x` and the `z` axis counter-clockwise (seen from the tip of the axis), about the `y` axis clockwise. Nothing but coordinates and faces
changes. -/
theorem C49_rotate (b : Blade) (deg rad : Option ℝ) (t : ℝ) (hc : b.HasCoords) (hF : b.HasFaces) (ha : Blade.angleOf deg rad = some t) :
    (∃ b', b.rotate deg rad c!"x" = (b', .ok ()) ∧ b.coordsMoved (rotX t) b' ∧ b.facesMoved (rotX t) b' ∧ b'.sections = b.sections) ∧
    (∃ b', b.rotate deg rad c!"y" = (b', .ok ()) ∧ b.coordsMoved (rotY (-t)) b' ∧ b.facesMoved (rotY t) b' ∧ b'.sections = b.sections) ∧
    (∃ b', b.rotate deg rad c!"z" = (b', .ok ()) ∧ b.coordsMoved (rotZ t) b' ∧ b.facesMoved (rotZ t) b' ∧ b'.sections = b.sections) := by
  obtain ⟨m1, m2, m3⟩ := Blade.c_ne'
  refine ⟨?_, ?_, ?_⟩
  · rw [Blade.rotate_ok hc ha (Or.inl rfl), Blade.onFaces_ok (by exact hF)]
    simp only [Blade.coordRot, Blade.faceRot, if_true]
    exact ⟨_, rfl, ⟨rfl, rfl⟩, ⟨rfl, rfl, rfl, rfl⟩, rfl⟩
  · rw [Blade.rotate_ok hc ha (Or.inr (Or.inl rfl)), Blade.onFaces_ok (by exact hF)]
    simp only [Blade.coordRot, Blade.faceRot, if_true, m1, if_false]
    exact ⟨_, rfl, ⟨rfl, rfl⟩, ⟨rfl, rfl, rfl, rfl⟩, rfl⟩
  · rw [Blade.rotate_ok hc ha (Or.inr (Or.inr rfl)), Blade.onFaces_ok (by exact hF)]
    simp only [Blade.coordRot, Blade.faceRot, m2, m3, if_false]
    exact ⟨_, rfl, ⟨rfl, rfl⟩, ⟨rfl, rfl, rfl, rfl⟩, rfl⟩

/-- **C49** the three rotations preserve all distances and the coordinate along the axis, compose by adding angles, and are undone by the
opposite angle. -/
theorem C49_rotations (s t : ℝ) (p q : Pt3) :
    (distSq3 (rotX t p) (rotX t q) = distSq3 p q ∧ (rotX t p).1 = p.1 ∧ rotX t (rotX s p) = rotX (s + t) p ∧ rotX (-t) (rotX t p) = p) ∧
    (distSq3 (rotY t p) (rotY t q) = distSq3 p q ∧ (rotY t p).2.1 = p.2.1 ∧ rotY t (rotY s p) = rotY (s + t) p ∧ rotY (-t) (rotY t p) = p) ∧
    (distSq3 (rotZ t p) (rotZ t q) = distSq3 p q ∧ (rotZ t p).2.2 = p.2.2 ∧ rotZ t (rotZ s p) = rotZ (s + t) p ∧
      rotZ (-t) (rotZ t p) = p) := by
  refine ⟨⟨Blade.dist_rot (Or.inl rfl) t p q, rfl, Blade.rot_add (Or.inl rfl) s t p, ?_⟩,
    ⟨Blade.dist_rot (Or.inr (Or.inl rfl)) t p q, rfl, Blade.rot_add (Or.inr (Or.inl rfl)) s t p, ?_⟩,
    ⟨Blade.dist_rot (Or.inr (Or.inr rfl)) t p q, rfl, Blade.rot_add (Or.inr (Or.inr rfl)) s t p, ?_⟩⟩
  · rw [Blade.rot_add (Or.inl rfl), add_neg_cancel, Blade.rot_zero (Or.inl rfl)]
  · rw [Blade.rot_add (Or.inr (Or.inl rfl)), add_neg_cancel, Blade.rot_zero (Or.inr (Or.inl rfl))]
  · rw [Blade.rot_add (Or.inr (Or.inr rfl)), add_neg_cancel, Blade.rot_zero (Or.inr (Or.inr rfl))]

/-- **C49** on a built blade, rotating by `s` and then by `t` about the same axis is rotating by `s + t`, whatever the axis, for coordinates
and faces; rotating back restores the blade. -/
theorem C49_compose (b b' : Blade) (s t : ℝ) (axis : Str) (hc : b.HasCoords) (hF : b.HasFaces)
    (h : b.rotate none (some s) axis = (b', .ok ())) :
    b'.rotate none (some t) axis = b.rotate none (some (s + t)) axis ∧ b'.rotate none (some (-s)) axis = (b, .ok ()) := by
  have hx : axis = c!"x" ∨ axis = c!"y" ∨ axis = c!"z" := by
    by_contra hx
    rw [Blade.rotate_error (Or.inr (Or.inr hx))] at h
    simp at h
  rw [Blade.rotate_ok (t := s) hc rfl hx, Blade.onFaces_ok (by exact hF)] at h
  obtain rfl := (Prod.mk.inj h).1
  have hcr : ∀ u v p, Blade.coordRot axis v (Blade.coordRot axis u p) = Blade.coordRot axis (u + v) p := by
    intro u v p
    rcases hx with rfl | rfl | rfl
    · simp [Blade.coordRot, Blade.rot_add (Or.inl rfl)]
    · simp [Blade.coordRot, Blade.rot_add (R := rotY) (Or.inr (Or.inl rfl)), add_comm]
    · simp [Blade.coordRot, Blade.rot_add (R := rotZ) (Or.inr (Or.inr rfl))]
  have hfr : ∀ u v p, Blade.faceRot axis v (Blade.faceRot axis u p) = Blade.faceRot axis (u + v) p := by
    intro u v p
    rcases hx with rfl | rfl | rfl
    · simp [Blade.faceRot, Blade.rot_add (Or.inl rfl)]
    · simp [Blade.faceRot, Blade.rot_add (R := rotY) (Or.inr (Or.inl rfl))]
    · simp [Blade.faceRot, Blade.rot_add (R := rotZ) (Or.inr (Or.inr rfl))]
  have hz1 : ∀ p, Blade.coordRot axis 0 p = p := by
    intro p
    rcases hx with rfl | rfl | rfl
    · simp [Blade.coordRot, Blade.rot_zero (Or.inl rfl)]
    · simp [Blade.coordRot, Blade.rot_zero (R := rotY) (Or.inr (Or.inl rfl))]
    · simp [Blade.coordRot, Blade.rot_zero (R := rotZ) (Or.inr (Or.inr rfl))]
  have hz2 : ∀ p, Blade.faceRot axis 0 p = p := by
    intro p
    rcases hx with rfl | rfl | rfl
    · simp [Blade.faceRot, Blade.rot_zero (Or.inl rfl)]
    · simp [Blade.faceRot, Blade.rot_zero (R := rotY) (Or.inr (Or.inl rfl))]
    · simp [Blade.faceRot, Blade.rot_zero (R := rotZ) (Or.inr (Or.inr rfl))]
  have main : ∀ t, Blade.rotate none (some t) axis { b with coordsUp := mapPts (Blade.coordRot axis s) b.coordsUp, coordsDown := mapPts (Blade.coordRot axis s) b.coordsDown, upper := b.upper.map (mapPts (Blade.faceRot axis s)), lower := b.lower.map (mapPts (Blade.faceRot axis s)), tip := b.tip.map (mapPts (Blade.faceRot axis s)), root := b.root.map (mapPts (Blade.faceRot axis s)) } = b.rotate none (some (s + t)) axis := by
    intro t
    rw [Blade.rotate_ok (t := t) ?_ rfl hx, Blade.rotate_ok (t := s + t) hc rfl hx, Blade.onFaces_ok ?_, Blade.onFaces_ok (by exact hF)]
    · have e : ∀ F : Option Face, (F.map (mapPts (Blade.faceRot axis s))).map (mapPts (Blade.faceRot axis t)) =
          F.map (mapPts (Blade.faceRot axis (s + t))) := by
        intro F
        cases F with
        | none => rfl
        | some F => simp [Blade.mapPts_comp, hfr]
      simp only [Blade.mapPts_comp, hcr, e]
    · obtain ⟨h1, h2, h3, h4⟩ := hF
      exact ⟨by simpa using h1, by simpa using h2, by simpa using h3, by simpa using h4⟩
    · intro h0
      exact hc (Blade.mapPts_eq_nil.1 h0)
  refine ⟨main t, ?_⟩
  refine Eq.trans (main (-s)) ?_
  rw [add_neg_cancel, Blade.rotate_ok (t := 0) hc rfl hx, Blade.onFaces_ok (by exact hF)]
  have e : ∀ F : Option Face, F.map (mapPts (Blade.faceRot axis 0)) = F := by
    intro F
    cases F with
    | none => rfl
    | some F => simp [Blade.mapPts_id hz2]
  simp only [e, Blade.mapPts_id hz1]

/-- **C49, C54** when `rotate` is refused: `ValueError`, with the blade untouched, exactly when there are no coordinates, not exactly one
angle is given, or the axis is not x, y, z. -/
theorem C49_refused (b : Blade) (deg rad : Option ℝ) (axis : Str) :
    ((b.rotate deg rad axis).2 = .error .valueError ↔
      ¬ b.HasCoords ∨ deg.isSome = rad.isSome ∨ ¬ (axis = c!"x" ∨ axis = c!"y" ∨ axis = c!"z")) ∧
    ((b.rotate deg rad axis).2 = .error .valueError → (b.rotate deg rad axis).1 = b) := by
  have hang : Blade.angleOf deg rad = none ↔ deg.isSome = rad.isSome := by
    cases deg <;> cases rad <;> simp [Blade.angleOf]
  have hfwd : (b.rotate deg rad axis).2 = .error .valueError →
      ¬ b.HasCoords ∨ deg.isSome = rad.isSome ∨ ¬ (axis = c!"x" ∨ axis = c!"y" ∨ axis = c!"z") := by
    intro h
    by_contra hn
    push Not at hn
    obtain ⟨h1, h2, h3⟩ := hn
    rcases ha : Blade.angleOf deg rad with _ | t
    · exact h2 (hang.1 ha)
    rw [Blade.rotate_ok h1 ha h3] at h
    by_cases hF : b.HasFaces
    · rw [Blade.onFaces_ok (by exact hF)] at h
      cases h
    · rw [(Blade.onFaces_error (by exact hF)).1] at h
      cases h
  have hbwd : (¬ b.HasCoords ∨ deg.isSome = rad.isSome ∨ ¬ (axis = c!"x" ∨ axis = c!"y" ∨ axis = c!"z")) →
      b.rotate deg rad axis = (b, .error .valueError) := by
    intro h
    rw [Blade.rotate_error]
    rcases h with h | h | h
    · exact Or.inl h
    · exact Or.inr (Or.inl (hang.2 h))
    · exact Or.inr (Or.inr h)
  exact ⟨⟨hfwd, fun h => by rw [hbwd h]⟩, fun h => by rw [hbwd (hfwd h)]⟩

/-- **C54** before coordinates are generated, and after `reset`, `rotate` and `mirror` raise `ValueError` and leave the blade as it is,
whatever the arguments. -/
theorem C54_no_coordinates (b : Blade) (hc : ¬ b.HasCoords) (deg rad : Option ℝ) (axis : Str) (args : List Pt3)
    (kwargs : List (Str × Pt3)) :
    b.rotate deg rad axis = (b, .error .valueError) ∧ b.mirror args kwargs = (b, .error .valueError) := by
  refine ⟨Blade.rotate_error (Or.inl hc), ?_⟩
  unfold Blade.HasCoords at hc
  push Not at hc
  simp [Blade.mirror, hc]

/-- **C54** a new blade and a reset blade have no coordinates, no faces. -/
theorem C54_initially (S : List Profile) (r c p k s : Arr) (t f : Option Arr) (b : Blade) :
    (∀ b₀, Blade.new S r c p k s t f = .ok b₀ → ¬ b₀.HasCoords ∧ ¬ b₀.HasFaces) ∧ ¬ b.reset.HasCoords ∧ ¬ b.reset.HasFaces := by
  refine ⟨?_, by simp [Blade.reset, Blade.HasCoords], by simp [Blade.reset, Blade.HasFaces]⟩
  intro b₀ h
  have := ((C44_constructor S r c p k s t f).2.2 b₀ h).2
  simp [Blade.HasCoords, Blade.HasFaces, this]

/-- **C54** on a blade with coordinates but without faces (after `apply_transformations` alone) an accepted `rotate` raises `TypeError`
but has rotated the coordinates. -/
theorem C54_rotate_without_faces (b : Blade) (hc : b.HasCoords) (hF : ¬ b.HasFaces) (deg rad : Option ℝ) (t : ℝ)
    (ha : Blade.angleOf deg rad = some t) :
    (b.rotate deg rad c!"x").2 = .error .typeError ∧ b.coordsMoved (rotX t) (b.rotate deg rad c!"x").1 ∧
    (b.rotate deg rad c!"y").2 = .error .typeError ∧ b.coordsMoved (rotY (-t)) (b.rotate deg rad c!"y").1 ∧
    (b.rotate deg rad c!"z").2 = .error .typeError ∧ b.coordsMoved (rotZ t) (b.rotate deg rad c!"z").1 := by
  obtain ⟨m1, m2, m3⟩ := Blade.c_ne'
  have key : ∀ axis (_ : axis = c!"x" ∨ axis = c!"y" ∨ axis = c!"z"), (b.rotate deg rad axis).2 = .error .typeError ∧
      b.coordsMoved (Blade.coordRot axis t) (b.rotate deg rad axis).1 := by
    intro axis hx
    rw [Blade.rotate_ok hc ha hx]
    exact ⟨(Blade.onFaces_error (by exact hF)).1, (Blade.onFaces_error (by exact hF)).2.1, (Blade.onFaces_error (by exact hF)).2.2⟩
  obtain ⟨x1, x2⟩ := key c!"x" (Or.inl rfl)
  obtain ⟨y1, y2⟩ := key c!"y" (Or.inr (Or.inl rfl))
  obtain ⟨z1, z2⟩ := key c!"z" (Or.inr (Or.inr rfl))
  simp only [Blade.coordRot, if_true, m1, m2, m3, if_false] at x2 y2 z2
  exact ⟨x1, x2, y1, y2, z1, z2⟩

/-- Such blades exist: the sample blade after `apply_transformations`. -/
example : ∃ b : Blade, b.HasCoords ∧ ¬ b.HasFaces := by
  obtain ⟨b', h⟩ := Sample.blade2_applies false
  have hW : Sample.blade2.WellFormed := by simp [Sample.blade2, Blade.WellFormed]
  obtain ⟨l1, _, _⟩ := C48_reversed Sample.blade2 b' false hW h
  refine ⟨b', ?_, ?_⟩
  · intro h0; rw [h0] at l1; simp [Sample.blade2] at l1
  · obtain ⟨ss, up, down, _, _, rfl⟩ := (Blade.apply_ok hW.1).1 h
    simp [Blade.HasFaces, Sample.blade2]

/-- ... and built blades exist, so that the hypotheses of the rotation theorems can be met. -/
example : ∃ b : Blade, b.HasCoords ∧ b.HasFaces := by
  obtain ⟨b', _, h1, h2⟩ := Sample.blade2_builds true
  exact ⟨b', h2, h1⟩

/-! ## C50: histories -/

/-- A call of one of the methods that move a blade. -/
inductive Blade.Op
  | rotate (deg rad : Option ℝ) (axis : Str)
  | scale (factor : ℝ)
  | mirror (args : List Pt3) (kwargs : List (Str × Pt3))

/-- The effect of a call. -/
def Blade.Op.run : Blade.Op → Blade.Call
  | .rotate deg rad axis => Blade.rotate deg rad axis
  | .scale f => Blade.scale f
  | .mirror args kwargs => Blade.mirror args kwargs

/-- A history of calls; a call that raises may have been caught by the caller. -/
def Blade.history (ops : List Blade.Op) (b : Blade) : Blade := ops.foldl (fun b op => (op.run b).1) b

/-- Calls that keep faces and coordinates in step: no rotation about `y`, no mirroring, no scaling by zero. -/
def Blade.Op.InStep : Blade.Op → Prop
  | .rotate _ _ axis => axis ≠ c!"y"
  | .scale f => f ≠ 0
  | .mirror _ _ => False

/-- What a call is meant to do to the points of a blade: the rotation about the named axis by the given angle, the multiplication of all
coordinates by the factor, nothing if the arguments are refused. -/
def Blade.Op.motion : Blade.Op → Pt3 → Pt3
  | .rotate deg rad axis => fun p =>
    match Blade.angleOf deg rad with
    | none => p
    | some t => if axis = c!"x" then rotX t p else if axis = c!"z" then rotZ t p else p
  | .scale f => fun p => (p.1 * f, p.2.1 * f, p.2.2 * f)
  | .mirror _ _ => id

/-- The composition of the motions of a history, first call first. -/
def Blade.motionOf : List Blade.Op → Pt3 → Pt3
  | [], p => p
  | op :: ops, p => Blade.motionOf ops (op.motion p)

/-- The motions commute with multiplication by numbers. -/
theorem Blade.motion_scale (op : Blade.Op) (k : ℝ) (p : Pt3) : op.motion (Blade.scalePt k p) = Blade.scalePt k (op.motion p) := by
  cases op with
  | mirror args kwargs => rfl
  | scale f => ext <;> simp [Blade.Op.motion, Blade.scalePt] <;> ring
  | rotate deg rad axis =>
    simp only [Blade.Op.motion]
    cases Blade.angleOf deg rad with
    | none => rfl
    | some t =>
      simp only
      split_ifs
      · ext <;> simp [Blade.scalePt, rotX] <;> ring
      · ext <;> simp [Blade.scalePt, rotZ] <;> ring
      · rfl

theorem Blade.motionOf_scale (ops : List Blade.Op) (k : ℝ) (p : Pt3) :
    Blade.motionOf ops (Blade.scalePt k p) = Blade.scalePt k (Blade.motionOf ops p) := by
  induction ops generalizing p with
  | nil => rfl
  | cons op ops ih => simp only [Blade.motionOf, Blade.motion_scale, ih]

/-- One call. -/
theorem Blade.step_in_step (op : Blade.Op) (hop : op.InStep) (b : Blade) (hc : b.HasCoords) (hF : b.HasFaces) :
    b.coordsMoved op.motion (op.run b).1 ∧
      b.facesMoved op.motion (op.run b).1 ∧ (op.run b).1.HasCoords ∧ (op.run b).1.HasFaces := by
  have idCase : ∀ f : Pt3 → Pt3, f = id → b.coordsMoved f b ∧
      b.facesMoved f b ∧ b.HasCoords ∧ b.HasFaces := by
    rintro f rfl
    exact ⟨by simp [Blade.coordsMoved], by simp [Blade.facesMoved], hc, hF⟩
  have hasF : ∀ (f : Pt3 → Pt3) (b' : Blade), b.facesMoved f b' → b'.HasFaces := by
    intro f b' ⟨h1, h2, h3, h4⟩
    obtain ⟨k1, k2, k3, k4⟩ := hF
    exact ⟨by rw [h1]; simpa using k1, by rw [h2]; simpa using k2, by rw [h3]; simpa using k3, by rw [h4]; simpa using k4⟩
  have hasC : ∀ (f : Pt3 → Pt3) (b' : Blade), b.coordsMoved f b' → b'.HasCoords := by
    intro f b' ⟨h1, _⟩ h0
    rw [h1] at h0
    exact hc (by simpa using h0)
  have finish : ∀ (f g : Pt3 → Pt3) (b' : Blade), f = g → b.coordsMoved g b' →
      b.facesMoved g b' → b.coordsMoved f b' ∧
      b.facesMoved f b' ∧ b'.HasCoords ∧ b'.HasFaces := by
    rintro f g b' rfl h2 h3
    exact ⟨h2, h3, hasC f b' h2, hasF f b' h3⟩
  cases op with
  | mirror args kwargs => exact absurd hop id
  | scale f =>
    have hf : f ≠ 0 := hop
    have e : (Blade.Op.scale f).run b = _ := rfl
    simp only [Blade.Op.run, Blade.scale, hf, if_false] at e ⊢
    rw [Blade.onFaces_ok (by exact hF)]
    exact finish _ (Blade.scalePt f) _ rfl ⟨rfl, rfl⟩ ⟨rfl, rfl, rfl, rfl⟩
  | rotate deg rad axis =>
    have hy : axis ≠ c!"y" := hop
    simp only [Blade.Op.run]
    rcases ha : Blade.angleOf deg rad with _ | t
    · rw [Blade.rotate_error (Or.inr (Or.inl ha))]
      exact idCase _ (by funext p; simp [Blade.Op.motion, ha])
    by_cases hx : axis = c!"x"
    · subst hx
      obtain ⟨b', h1, h2, h3, _⟩ := (C49_rotate b deg rad t hc hF ha).1
      rw [h1]
      exact finish _ _ b' (by funext p; simp [Blade.Op.motion, ha]) h2 h3
    by_cases hz : axis = c!"z"
    · subst hz
      obtain ⟨b', h1, h2, h3, _⟩ := (C49_rotate b deg rad t hc hF ha).2.2
      rw [h1]
      exact finish _ _ b' (by funext p; simp [Blade.Op.motion, ha]) h2 h3
    · rw [Blade.rotate_error (Or.inr (Or.inr (by push Not; exact ⟨hx, hy, hz⟩)))]
      exact idCase _ (by funext p; simp [Blade.Op.motion, ha, hx, hz])

/-- **C50** after any history of rotations about `x` or `z` and scalings (accepted or refused, by any angles and non-zero factors) of a
blade with coordinates and faces, the composition of the motions that were asked for has been applied to all coordinates and to all faces. -/
theorem C50_in_step (ops : List Blade.Op) (hops : ∀ op ∈ ops, op.InStep) (b : Blade) (hc : b.HasCoords) (hF : b.HasFaces) :
    b.coordsMoved (Blade.motionOf ops) (b.history ops) ∧ b.facesMoved (Blade.motionOf ops) (b.history ops) := by
  induction ops generalizing b with
  | nil =>
    have e : Blade.motionOf [] = id := rfl
    rw [e]
    exact ⟨by simp [Blade.coordsMoved, Blade.history], by simp [Blade.facesMoved, Blade.history]⟩
  | cons op ops ih =>
    obtain ⟨hm1, hm2, hc', hF'⟩ := Blade.step_in_step op (hops op (by simp)) b hc hF
    obtain ⟨hn1, hn2⟩ := ih (fun o ho => hops o (by simp [ho])) _ hc' hF'
    have e : b.history (op :: ops) = (op.run b).1.history ops := rfl
    have e' : Blade.motionOf (op :: ops) = fun p => Blade.motionOf ops (op.motion p) := rfl
    rw [e, e']
    constructor
    · refine ⟨?_, ?_⟩
      · rw [hn1.1, hm1.1]; simp [Function.comp_def]
      · rw [hn1.2, hm1.2]; simp [Function.comp_def]
    · refine ⟨?_, ?_, ?_, ?_⟩
      · rw [hn2.1, hm2.1]; simp [Function.comp_def]
      · rw [hn2.2.1, hm2.2.1]; simp [Function.comp_def]
      · rw [hn2.2.2.1, hm2.2.2.1]; simp [Function.comp_def]
      · rw [hn2.2.2.2, hm2.2.2.2]; simp [Function.comp_def]

/-- **C50** hence the faces of a blade that has been built and then moved by such a history still pass through the stored coordinates
times 1000. -/
theorem C50_faces_match (occ : Face → Bool) (b₀ b : Blade) (refl : Bool) (hW : b₀.WellFormed) (hb : b₀.build occ refl = (b, .ok ()))
    (ops : List Blade.Op) (hops : ∀ op ∈ ops, op.InStep) :
    (b.history ops).upper = some ((b.history ops).coordsUp.map (·.map (Blade.scalePt 1000))) ∧
    (b.history ops).lower = some ((b.history ops).coordsDown.map (·.map (Blade.scalePt 1000))) := by
  obtain ⟨e1, e2, _⟩ := C48_faces occ b₀ b refl hW hb
  obtain ⟨hc, hF⟩ := Blade.build_has hb
  obtain ⟨hm1, hm2⟩ := C50_in_step ops hops b hc hF
  have hf := Blade.motionOf_scale ops
  constructor
  · rw [hm2.1, hm1.1, e1]
    simp only [Option.map_some, List.map_map]
    congr 2; funext l
    simp only [Function.comp, List.map_map]
    congr 1; funext p
    exact hf 1000 p
  · rw [hm2.2.1, hm1.2, e2]
    simp only [Option.map_some, List.map_map]
    congr 2; funext l
    simp only [Function.comp, List.map_map]
    congr 1; funext p
    exact hf 1000 p

/-- **C50 fails** for the axis `y` (a quarter turn takes coordinates and faces to opposite sides) and for `mirror` (the coordinates stay). -/
theorem C50_out_of_step :
    (∃ b : Blade, b.HasCoords ∧ b.HasFaces ∧ b.upper = some b.coordsUp ∧
      ∃ b', b.rotate (some 90) none c!"y" = (b', .ok ()) ∧ b'.coordsUp = [[(0, 0, 1)]] ∧ b'.upper = some [[(0, 0, -1)]]) ∧
    (∃ b : Blade, b.HasCoords ∧ b.HasFaces ∧ b.upper = some b.coordsUp ∧
      ∃ b', b.mirror [(0, 0, 0), (1, 0, 0)] [] = (b', .ok ()) ∧ b'.coordsUp = [[(1, 0, 0)]] ∧ b'.upper = some [[(-1, 0, 0)]]) := by
  let b : Blade := { Sample.blade2 with coordsUp := [[(1, 0, 0)]], coordsDown := [[(1, 0, 0)]], upper := some [[(1, 0, 0)]], lower := some [[(1, 0, 0)]], tip := some [], root := some [] }
  have hc : b.HasCoords := by simp [b, Blade.HasCoords]
  have hF : b.HasFaces := by simp [b, Blade.HasFaces]
  constructor
  · refine ⟨b, hc, hF, rfl, ?_⟩
    obtain ⟨b', h1, h2, h3, _⟩ := (C49_rotate b (some 90) none (Real.pi * 90 / 180) hc hF rfl).2.1
    refine ⟨b', h1, ?_, ?_⟩
    · rw [h2.1]
      have e : Real.pi * 90 / 180 = Real.pi / 2 := by ring
      simp [b, rotY, e]
    · rw [h3.1]
      have e : Real.pi * 90 / 180 = Real.pi / 2 := by ring
      simp [b, rotY, e]
  · refine ⟨b, hc, hF, rfl, ?_⟩
    have hp : Blade.mirrorPlane [(0, 0, 0), (1, 0, 0)] [] = .ok ((0, 0, 0), (1, 0, 0)) := by
      simp [Blade.mirrorPlane, Blade.unit, Blade.dot3, bind, Except.bind, pure, Except.pure]
    refine ⟨{ b with upper := some [[(-1, 0, 0)]], lower := some [[(-1, 0, 0)]] }, ?_, rfl, rfl⟩
    · unfold Blade.mirror
      rw [if_neg hc, hp]
      have e : Blade.occMirror (0, 0, 0) (1, 0, 0) (1, 0, 0) = (-1, 0, 0) := by
        simp only [Blade.occMirror, Blade.dot3, Blade.sub3]; norm_num
      simp only [b, Blade.onFaces, mapPts, List.map_cons, List.map_nil, e]

end
end BladeX
