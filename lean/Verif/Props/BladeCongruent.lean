import Verif.Props.BladeMirror
import Verif.Props.BladeMotion
import Verif.Lemmas.American

/-! # C144: the shape of a blade over every history of motions -/

namespace BladeX
open Spec

namespace Spec

/-- Six times the signed volume of a tetrahedron: its sign tells the hand of the four points. -/
def volume6 (a b c d : Pt3) : ℝ :=
  (b.1 - a.1) * ((c.2.1 - a.2.1) * (d.2.2 - a.2.2) - (c.2.2 - a.2.2) * (d.2.1 - a.2.1)) -
  (b.2.1 - a.2.1) * ((c.1 - a.1) * (d.2.2 - a.2.2) - (c.2.2 - a.2.2) * (d.1 - a.1)) +
  (b.2.2 - a.2.2) * ((c.1 - a.1) * (d.2.1 - a.2.1) - (c.2.1 - a.2.1) * (d.1 - a.1))

/-- A map of space that multiplies all distances by `|k|` and all signed volumes by `k ^ 3` times the sign `ε`. -/
def Similar3 (k ε : ℝ) (A : Pt3 → Pt3) : Prop :=
  (∀ p q, distSq3 (A p) (A q) = k ^ 2 * distSq3 p q) ∧ ∀ a b c d, volume6 (A a) (A b) (A c) (A d) = ε * k ^ 3 * volume6 a b c d

theorem Similar3.id : Similar3 1 1 (fun p => p) := ⟨fun p q => by ring, fun a b c d => by ring⟩

theorem Similar3.comp {k l ε δ : ℝ} {A B : Pt3 → Pt3} (hA : Similar3 k ε A) (hB : Similar3 l δ B) :
    Similar3 (k * l) (ε * δ) (fun p => B (A p)) :=
  ⟨fun p q => by rw [hB.1, hA.1]; ring, fun a b c d => by rw [hB.2, hA.2]; ring⟩

theorem Similar3.rot (t : ℝ) : Similar3 1 1 (rotX t) ∧ Similar3 1 1 (rotY t) ∧ Similar3 1 1 (rotZ t) := by
  have hs := Real.sin_sq_add_cos_sq t
  refine ⟨⟨fun p q => by rw [Blade.dist_rot (Or.inl rfl)]; ring, fun a b c d => ?_⟩,
    ⟨fun p q => by rw [Blade.dist_rot (Or.inr (Or.inl rfl))]; ring, fun a b c d => ?_⟩,
    ⟨fun p q => by rw [Blade.dist_rot (Or.inr (Or.inr rfl))]; ring, fun a b c d => ?_⟩⟩
  · simp only [volume6, rotX]
    linear_combination ((b.1 - a.1) * ((c.2.1 - a.2.1) * (d.2.2 - a.2.2) - (c.2.2 - a.2.2) * (d.2.1 - a.2.1)) -
      (c.1 - a.1) * ((b.2.1 - a.2.1) * (d.2.2 - a.2.2) - (b.2.2 - a.2.2) * (d.2.1 - a.2.1)) +
      (d.1 - a.1) * ((b.2.1 - a.2.1) * (c.2.2 - a.2.2) - (b.2.2 - a.2.2) * (c.2.1 - a.2.1))) * hs
  · simp only [volume6, rotY]
    linear_combination ((b.1 - a.1) * ((c.2.1 - a.2.1) * (d.2.2 - a.2.2) - (c.2.2 - a.2.2) * (d.2.1 - a.2.1)) -
      (b.2.1 - a.2.1) * ((c.1 - a.1) * (d.2.2 - a.2.2) - (c.2.2 - a.2.2) * (d.1 - a.1)) +
      (b.2.2 - a.2.2) * ((c.1 - a.1) * (d.2.1 - a.2.1) - (c.2.1 - a.2.1) * (d.1 - a.1))) * hs
  · simp only [volume6, rotZ]
    linear_combination ((b.1 - a.1) * ((c.2.1 - a.2.1) * (d.2.2 - a.2.2) - (c.2.2 - a.2.2) * (d.2.1 - a.2.1)) -
      (b.2.1 - a.2.1) * ((c.1 - a.1) * (d.2.2 - a.2.2) - (c.2.2 - a.2.2) * (d.1 - a.1)) +
      (b.2.2 - a.2.2) * ((c.1 - a.1) * (d.2.1 - a.2.1) - (c.2.1 - a.2.1) * (d.1 - a.1))) * hs

theorem Similar3.scale (k : ℝ) : Similar3 k 1 (Blade.scalePt k) :=
  ⟨fun p q => by simp only [distSq3, Blade.scalePt]; ring, fun a b c d => by simp only [volume6, Blade.scalePt]; ring⟩

theorem Similar3.mirror {a n : Pt3} (hn : Blade.dot3 n n = 1) : Similar3 1 (-1) (Blade.occMirror a n) := by
  have e : n.1 * n.1 + n.2.1 * n.2.1 + n.2.2 * n.2.2 = 1 := hn
  constructor
  · intro p q
    simp only [distSq3, Blade.occMirror, Blade.dot3, Blade.sub3]
    linear_combination 4 * ((p.1 - q.1) * n.1 + (p.2.1 - q.2.1) * n.2.1 + (p.2.2 - q.2.2) * n.2.2) ^ 2 * e
  · intro p q r s
    have key : volume6 (Blade.occMirror a n p) (Blade.occMirror a n q) (Blade.occMirror a n r) (Blade.occMirror a n s) =
        (1 - 2 * (n.1 * n.1 + n.2.1 * n.2.1 + n.2.2 * n.2.2)) * volume6 p q r s := by
      simp only [volume6, Blade.occMirror, Blade.dot3, Blade.sub3]
      ring
    rw [key, e]; ring

end Spec

namespace Blade

/-- The product of the scale factors of a history. -/
noncomputable def totalScale : List Op → ℝ
  | [] => 1
  | .scale f :: ops => f * totalScale ops
  | _ :: ops => totalScale ops

open Classical in
/-- The number of `mirror` calls of a history that did not raise. -/
noncomputable def mirrorsDone : List Op → Blade → Nat
  | [], _ => 0
  | .mirror args kwargs :: ops, b =>
    (if (b.mirror args kwargs).2 = .ok () then 1 else 0) + mirrorsDone ops (b.mirror args kwargs).1
  | op :: ops, b => mirrorsDone ops (op.run b).1

theorem unit_norm {v n : Pt3} (h : unit v = .ok n) : dot3 n n = 1 := by
  unfold unit at h
  split_ifs at h with hv
  obtain rfl := Except.ok.inj h
  have hpos := dot_pos hv
  have hs0 : Real.sqrt (dot3 v v) ≠ 0 := (Real.sqrt_pos.2 hpos).ne'
  have hss : Real.sqrt (dot3 v v) * Real.sqrt (dot3 v v) = dot3 v v := Real.mul_self_sqrt hpos.le
  set s := Real.sqrt (dot3 v v)
  simp only [dot3] at hss ⊢
  field_simp
  nlinarith [hss]

theorem mirrorPlane_unit {args : List Pt3} {kwargs : List (Str × Pt3)} {p n : Pt3} (h : mirrorPlane args kwargs = .ok (p, n)) :
    dot3 n n = 1 := by
  have key : ∀ (a v : Pt3), (do return (a, ← unit v) : Res (Pt3 × Pt3)) = .ok (p, n) → dot3 n n = 1 := by
    intro a v hu
    rcases hv : unit v with e | m
    · rw [hv] at hu; cases hu
    · rw [hv] at hu
      obtain ⟨_, rfl⟩ := Prod.mk.inj (Except.ok.inj hu)
      exact unit_norm hv
  unfold mirrorPlane at h
  simp only [bind, Except.bind, pure, Except.pure, throw, throwThe, MonadExceptOf.throw] at h
  split at h
  · cases h
  split at h
  · cases h
  split at h
  · exact key _ _ h
  · exact key _ _ h
  · exact key _ _ h
  · split at h
    · exact key _ _ h
    · cases h
  · split at h
    · exact key _ _ h
    · split at h
      · exact key _ _ h
      · cases h
  · cases h

theorem has_of_moved {b b' : Blade} {f g : Pt3 → Pt3} (hc : b.HasCoords) (hF : b.HasFaces) (h1 : b.coordsMoved f b') (h2 : b.facesMoved g b') :
    b'.HasCoords ∧ b'.HasFaces := by
  obtain ⟨k1, k2, k3, k4⟩ := hF
  obtain ⟨m1, m2, m3, m4⟩ := h2
  refine ⟨?_, by rw [m1]; simpa using k1, by rw [m2]; simpa using k2, by rw [m3]; simpa using k3, by rw [m4]; simpa using k4⟩
  intro h0
  rw [h1.1] at h0
  exact hc (by simpa using h0)

theorem moved_comp {b b' b'' : Blade} {f g f' g' : Pt3 → Pt3} (h1 : b.coordsMoved f b') (h2 : b.facesMoved g b')
    (h3 : b'.coordsMoved f' b'') (h4 : b'.facesMoved g' b'') :
    b.coordsMoved (fun p => f' (f p)) b'' ∧ b.facesMoved (fun p => g' (g p)) b'' := by
  constructor
  · refine ⟨?_, ?_⟩
    · rw [h3.1, h1.1]; simp [Function.comp_def]
    · rw [h3.2, h1.2]; simp [Function.comp_def]
  · refine ⟨?_, ?_, ?_, ?_⟩
    · rw [h4.1, h2.1]; simp [Function.comp_def]
    · rw [h4.2.1, h2.2.1]; simp [Function.comp_def]
    · rw [h4.2.2.1, h2.2.2.1]; simp [Function.comp_def]
    · rw [h4.2.2.2, h2.2.2.2]; simp [Function.comp_def]

theorem moved_id (b : Blade) : b.coordsMoved (fun p => p) b ∧ b.facesMoved (fun p => p) b := by
  simp [coordsMoved, facesMoved]

/-- One rotation or mirroring. -/
theorem rotate_similar {b : Blade} (hc : b.HasCoords) (hF : b.HasFaces) (deg rad : Option ℝ) (axis : Str) :
    ∃ A B, b.coordsMoved A (b.rotate deg rad axis).1 ∧ b.facesMoved B (b.rotate deg rad axis).1 ∧ Similar3 1 1 A ∧ Similar3 1 1 B := by
  by_cases hx : axis = c!"x" ∨ axis = c!"y" ∨ axis = c!"z"
  swap
  · rw [rotate_error (Or.inr (Or.inr hx))]
    exact ⟨_, _, (moved_id b).1, (moved_id b).2, Similar3.id, Similar3.id⟩
  rcases ha : angleOf deg rad with _ | t
  · rw [rotate_error (Or.inr (Or.inl ha))]
    exact ⟨_, _, (moved_id b).1, (moved_id b).2, Similar3.id, Similar3.id⟩
  obtain ⟨⟨b1, h1, c1, f1, _⟩, ⟨b2, h2, c2, f2, _⟩, ⟨b3, h3, c3, f3, _⟩⟩ := C49_rotate b deg rad t hc hF ha
  rcases hx with rfl | rfl | rfl
  · rw [h1]; exact ⟨_, _, c1, f1, (Similar3.rot t).1, (Similar3.rot t).1⟩
  · rw [h2]; exact ⟨_, _, c2, f2, (Similar3.rot (-t)).2.1, (Similar3.rot t).2.1⟩
  · rw [h3]; exact ⟨_, _, c3, f3, (Similar3.rot t).2.2, (Similar3.rot t).2.2⟩

open Classical in
theorem mirror_similar {b : Blade} (hc : b.HasCoords) (hF : b.HasFaces) (args : List Pt3) (kwargs : List (Str × Pt3)) :
    ∃ B, b.coordsMoved (fun p => p) (b.mirror args kwargs).1 ∧ b.facesMoved B (b.mirror args kwargs).1 ∧
      Similar3 1 ((-1) ^ (if (b.mirror args kwargs).2 = .ok () then 1 else 0)) B := by
  rcases hp : mirrorPlane args kwargs with e | ⟨p, n⟩
  · have hm : b.mirror args kwargs = (b, .error e) := by unfold mirror; rw [if_neg hc, hp]
    simp only [hm]
    refine ⟨_, (moved_id b).1, (moved_id b).2, ?_⟩
    simpa using Similar3.id
  · have hm : b.mirror args kwargs = ({ b with upper := b.upper.map (mapPts (occMirror p n)), lower := b.lower.map (mapPts (occMirror p n)), tip := b.tip.map (mapPts (occMirror p n)), root := b.root.map (mapPts (occMirror p n)) }, .ok ()) := by
      unfold mirror; rw [if_neg hc, hp]; simp only; rw [onFaces_ok hF]
    simp only [hm]
    refine ⟨occMirror p n, by simp [coordsMoved], ⟨rfl, rfl, rfl, rfl⟩, ?_⟩
    simpa using Similar3.mirror (a := p) (mirrorPlane_unit hp)

end Blade

/-- **C144** after any history of rotations about any axis, mirrorings and scalings (any arguments, calls that raise being
caught, factors not zero) of a blade with coordinates and faces: the coordinates and the faces have each been moved by a
similarity of space with the same ratio, the product of the scale factors. They may have gone to different places (C50),
but they never differ in shape; the coordinates keep their hand (up to the sign of the product), the faces change theirs
with every successful mirroring. -/
theorem C144_similar (ops : List Blade.Op) (hs : ∀ f, Blade.Op.scale f ∈ ops → f ≠ 0) (b : Blade) (hc : b.HasCoords) (hF : b.HasFaces) :
    ∃ A B : Pt3 → Pt3, b.coordsMoved A (b.history ops) ∧ b.facesMoved B (b.history ops) ∧
      Similar3 (Blade.totalScale ops) 1 A ∧ Similar3 (Blade.totalScale ops) ((-1) ^ Blade.mirrorsDone ops b) B := by
  induction ops generalizing b with
  | nil =>
    refine ⟨_, _, (Blade.moved_id b).1, (Blade.moved_id b).2, by simpa [Blade.totalScale] using Similar3.id, ?_⟩
    simpa [Blade.mirrorsDone, Blade.totalScale] using Similar3.id
  | cons op ops ih =>
    have hs' : ∀ f, Blade.Op.scale f ∈ ops → f ≠ 0 := fun f hf => hs f (by simp [hf])
    have e : b.history (op :: ops) = (op.run b).1.history ops := rfl
    rw [e]
    cases op with
    | rotate deg rad axis =>
      obtain ⟨A, B, h1, h2, sA, sB⟩ := Blade.rotate_similar hc hF deg rad axis
      obtain ⟨hc', hF'⟩ := Blade.has_of_moved hc hF h1 h2
      obtain ⟨A', B', h3, h4, sA', sB'⟩ := ih hs' _ hc' hF'
      obtain ⟨m1, m2⟩ := Blade.moved_comp h1 h2 h3 h4
      refine ⟨_, _, m1, m2, ?_, ?_⟩
      · have := sA.comp sA'; simpa [Blade.totalScale] using this
      · have := sB.comp sB'; simpa [Blade.totalScale, Blade.mirrorsDone, Blade.Op.run] using this
    | scale f =>
      have hf : f ≠ 0 := hs f (by simp)
      have hr : ((Blade.Op.scale f).run b).1 = (b.scale f).1 := rfl
      have h12 : b.coordsMoved (Blade.scalePt f) ((Blade.Op.scale f).run b).1 ∧ b.facesMoved (Blade.scalePt f) ((Blade.Op.scale f).run b).1 := by
        simp only [Blade.Op.run, Blade.scale, hf, if_false]
        rw [Blade.onFaces_ok (by exact hF)]
        exact ⟨⟨rfl, rfl⟩, ⟨rfl, rfl, rfl, rfl⟩⟩
      obtain ⟨h1, h2⟩ := h12
      obtain ⟨hc', hF'⟩ := Blade.has_of_moved hc hF h1 h2
      obtain ⟨A', B', h3, h4, sA', sB'⟩ := ih hs' _ hc' hF'
      obtain ⟨m1, m2⟩ := Blade.moved_comp h1 h2 h3 h4
      refine ⟨_, _, m1, m2, ?_, ?_⟩
      · have := (Similar3.scale f).comp sA'; simpa [Blade.totalScale] using this
      · have := (Similar3.scale f).comp sB'; simpa [Blade.totalScale, Blade.mirrorsDone, Blade.Op.run] using this
    | mirror args kwargs =>
      obtain ⟨B, h1, h2, sB⟩ := Blade.mirror_similar hc hF args kwargs
      obtain ⟨hc', hF'⟩ := Blade.has_of_moved hc hF h1 h2
      obtain ⟨A', B', h3, h4, sA', sB'⟩ := ih hs' _ hc' hF'
      obtain ⟨m1, m2⟩ := Blade.moved_comp h1 h2 h3 h4
      refine ⟨_, _, m1, m2, ?_, ?_⟩
      · have := Similar3.id.comp sA'; simpa [Blade.totalScale] using this
      · have := sB.comp sB'
        rw [one_mul, ← pow_add] at this
        exact this

/-- **C144** so the faces of a blade that was built and then moved in any way are still an enlargement of the stored
coordinates by 1000, point by point: the upper (lower) face is spanned by points `B p` and the coordinates are the points
`A p`, `p` running through the coordinates just after the build, with all distances between the former 1000 times those
between the latter, whatever happened in between. -/
theorem C144_faces_congruent (occ : Face → Bool) (b₀ b : Blade) (refl : Bool) (hW : b₀.WellFormed) (hb : b₀.build occ refl = (b, .ok ()))
    (ops : List Blade.Op) (hs : ∀ f, Blade.Op.scale f ∈ ops → f ≠ 0) :
    ∃ A B : Pt3 → Pt3, (b.history ops).coordsUp = b.coordsUp.map (·.map A) ∧ (b.history ops).coordsDown = b.coordsDown.map (·.map A) ∧
      (b.history ops).upper = some (b.coordsUp.map (·.map B)) ∧ (b.history ops).lower = some (b.coordsDown.map (·.map B)) ∧
      (∀ p q, distSq3 (B p) (B q) = 1000 ^ 2 * distSq3 (A p) (A q)) ∧
      ∀ p q r s, volume6 (B p) (B q) (B r) (B s) = (-1) ^ Blade.mirrorsDone ops b * 1000 ^ 3 * volume6 (A p) (A q) (A r) (A s) := by
  obtain ⟨e1, e2, _⟩ := C48_faces occ b₀ b refl hW hb
  obtain ⟨hc, hF⟩ := Blade.build_has hb
  obtain ⟨A, B, hA, hB, sA, sB⟩ := C144_similar ops hs b hc hF
  have s1000 := (Similar3.scale 1000).comp sB
  refine ⟨A, fun p => B (Blade.scalePt 1000 p), hA.1, hA.2, ?_, ?_, ?_, ?_⟩
  · rw [hB.1, e1]; simp [Function.comp_def, Blade.scalePt]
  · rw [hB.2.1, e2]; simp [Function.comp_def, Blade.scalePt]
  · intro p q
    rw [s1000.1, sA.1]; ring
  · intro p q r s
    rw [s1000.2, sA.2]; ring

/-- The hypotheses are met, with a mirroring that succeeds: the faces of the sample blade end up of the other hand. -/
example : ∃ (b : Blade) (ops : List Blade.Op), b.HasCoords ∧ b.HasFaces ∧ (∀ f, Blade.Op.scale f ∈ ops → f ≠ 0) ∧
    Blade.mirrorsDone ops b = 1 ∧ Blade.totalScale ops = 2 := by
  obtain ⟨b, _, h1, h2⟩ := Sample.blade2_builds true
  refine ⟨b, [.mirror [(0, 0, 0), (1, 0, 0)] [], .scale 2], h2, h1, ?_, ?_, ?_⟩
  · intro f hf
    simp only [List.mem_cons, Blade.Op.scale.injEq, List.not_mem_nil, or_false, reduceCtorEq, false_or] at hf
    rw [hf]; norm_num
  · obtain ⟨M, b', _, hM, _⟩ := (C51_point_normal b h2 h1 (0, 0, 0) (1, 0, 0) [(0, 0, 0), (1, 0, 0)] [] (Or.inl ⟨rfl, rfl⟩)).1 (by simp)
    simp [Blade.mirrorsDone, hM]
  · simp [Blade.totalScale]

end BladeX
