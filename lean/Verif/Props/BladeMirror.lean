import Verif.Props.BladeMotion

/-! # C51: mirroring -/

namespace BladeX
noncomputable section
open Spec Classical

/-- Inner product of two vectors. -/
def Spec.inner3 (u v : Pt3) : ℝ := u.1 * v.1 + u.2.1 * v.2.1 + u.2.2 * v.2.2

/-- Difference of two points. -/
def Spec.diff3 (p q : Pt3) : Pt3 := (p.1 - q.1, p.2.1 - q.2.1, p.2.2 - q.2.2)

/-- Three points lie on one line: their difference vectors have vanishing cross product. -/
def Spec.Collinear3 (a b c : Pt3) : Prop :=
  (b.2.1 - a.2.1) * (c.2.2 - a.2.2) = (b.2.2 - a.2.2) * (c.2.1 - a.2.1) ∧
  (b.2.2 - a.2.2) * (c.1 - a.1) = (b.1 - a.1) * (c.2.2 - a.2.2) ∧
  (b.1 - a.1) * (c.2.1 - a.2.1) = (b.2.1 - a.2.1) * (c.1 - a.1)

/-- `M` is the reflection through the plane through `a` orthogonal to `n`: points move along `n`, by twice their distance to the plane. -/
def Spec.IsReflection (a n : Pt3) (M : Pt3 → Pt3) : Prop :=
  ∀ q, (∃ l : ℝ, diff3 (M q) q = (l * n.1, l * n.2.1, l * n.2.2)) ∧
    inner3 (diff3 (M q) a) n = -inner3 (diff3 q a) n

/-- A reflection is unique, fixes exactly the points of the plane, is an involution and preserves distances (that is, the specification
says what it should). -/
theorem C51_reflection_spec (a n : Pt3) (hn : n ≠ (0, 0, 0)) (M : Pt3 → Pt3) (hM : IsReflection a n M) :
    (∀ M', IsReflection a n M' → M' = M) ∧ (∀ q, M q = q ↔ inner3 (diff3 q a) n = 0) ∧ (∀ q, M (M q) = q) ∧
    ∀ p q, distSq3 (M p) (M q) = distSq3 p q := by
  have hnn : inner3 n n ≠ 0 := by
    intro h
    apply hn
    unfold inner3 at h
    have h1 : n.1 = 0 := by nlinarith [sq_nonneg n.1, sq_nonneg n.2.1, sq_nonneg n.2.2]
    have h2 : n.2.1 = 0 := by nlinarith [sq_nonneg n.1, sq_nonneg n.2.1, sq_nonneg n.2.2]
    have h3 : n.2.2 = 0 := by nlinarith [sq_nonneg n.1, sq_nonneg n.2.1, sq_nonneg n.2.2]
    ext <;> simp [h1, h2, h3]
  have form : ∀ (N : Pt3 → Pt3), IsReflection a n N → ∀ q, N q = (q.1 - 2 * (inner3 (diff3 q a) n / inner3 n n) * n.1,
      q.2.1 - 2 * (inner3 (diff3 q a) n / inner3 n n) * n.2.1, q.2.2 - 2 * (inner3 (diff3 q a) n / inner3 n n) * n.2.2) := by
    intro N hN q
    obtain ⟨⟨l, hl⟩, h2⟩ := hN q
    simp only [diff3, Prod.mk.injEq] at hl
    obtain ⟨l1, l2, l3⟩ := hl
    have e1 : (N q).1 = q.1 + l * n.1 := by linarith
    have e2 : (N q).2.1 = q.2.1 + l * n.2.1 := by linarith
    have e3 : (N q).2.2 = q.2.2 + l * n.2.2 := by linarith
    have hl' : l = -2 * (inner3 (diff3 q a) n / inner3 n n) := by
      have : l * inner3 n n = -2 * inner3 (diff3 q a) n := by
        simp only [inner3, diff3, e1, e2, e3] at h2 ⊢
        linear_combination h2
      field_simp
      linarith
    ext
    · simp only [e1, hl']; ring
    · simp only [e2, hl']; ring
    · simp only [e3, hl']; ring
  refine ⟨?_, ?_, ?_, ?_⟩
  · intro M' hM'
    funext q
    rw [form M hM q, form M' hM' q]
  · intro q
    constructor
    · intro h
      have h2 := (hM q).2
      rw [h] at h2
      linarith
    · intro h
      rw [form M hM q, h]; simp
  · intro q
    have h2 := (hM q).2
    rw [form M hM (M q), h2, form M hM q]
    ext <;> simp only <;> ring
  · intro p q
    rw [form M hM p, form M hM q]
    set P := inner3 (diff3 p a) n / inner3 n n with hP
    set Q := inner3 (diff3 q a) n / inner3 n n with hQ
    have hPQ : (P - Q) * inner3 n n = inner3 (diff3 p q) n := by
      rw [hP, hQ, ← sub_div, div_mul_cancel₀ _ hnn]
      simp only [inner3, diff3]; ring
    simp only [distSq3]
    simp only [inner3, diff3] at hPQ
    linear_combination 4 * (P - Q) * hPQ

namespace Blade

theorem dot_pos {v : Pt3} (h : v ≠ (0, 0, 0)) : 0 < dot3 v v := by
  by_contra hn
  push Not at hn
  apply h
  unfold dot3 at hn
  have h1 : v.1 = 0 := by nlinarith [sq_nonneg v.1, sq_nonneg v.2.1, sq_nonneg v.2.2]
  have h2 : v.2.1 = 0 := by nlinarith [sq_nonneg v.1, sq_nonneg v.2.1, sq_nonneg v.2.2]
  have h3 : v.2.2 = 0 := by nlinarith [sq_nonneg v.1, sq_nonneg v.2.1, sq_nonneg v.2.2]
  ext <;> simp [h1, h2, h3]

/-- The kernel's mirror through a plane given by a point and a non-zero vector. -/
theorem occMirror_spec {a v n : Pt3} (hv : v ≠ (0, 0, 0)) (hn : unit v = .ok n) : IsReflection a v (occMirror a n) := by
  have hpos := dot_pos hv
  unfold unit at hn
  rw [if_neg hv] at hn
  obtain rfl := Except.ok.inj hn
  set s := Real.sqrt (dot3 v v) with hs
  have hs0 : s ≠ 0 := (Real.sqrt_pos.2 hpos).ne'
  have hss : s * s = dot3 v v := Real.mul_self_sqrt hpos.le
  intro q
  refine ⟨⟨-2 * dot3 (sub3 q a) v / (s * s), ?_⟩, ?_⟩
  · simp only [diff3, occMirror, dot3, sub3]
    ext <;> simp only <;> field_simp <;> ring
  · have key : inner3 (diff3 (occMirror a (v.1 / s, v.2.1 / s, v.2.2 / s) q) a) v = inner3 (diff3 q a) v -
        2 * dot3 (sub3 q a) v / (s * s) * dot3 v v := by
      simp only [inner3, diff3, occMirror, dot3, sub3]
      field_simp
      ring
    rw [key, ← hss]
    simp only [inner3, diff3, dot3, sub3]
    field_simp
    ring

theorem cross_zero {a b c : Pt3} : cross3 (sub3 b a) (sub3 c b) = (0, 0, 0) ↔ Collinear3 a b c := by
  simp only [cross3, sub3, Collinear3, Prod.mk.injEq]
  constructor
  · rintro ⟨h1, h2, h3⟩
    refine ⟨?_, ?_, ?_⟩ <;> linarith
  · rintro ⟨h1, h2, h3⟩
    refine ⟨?_, ?_, ?_⟩ <;> linarith

theorem unit_ok {v : Pt3} (h : v ≠ (0, 0, 0)) : ∃ n, unit v = .ok n := by
  unfold unit
  rw [if_neg h]
  exact ⟨_, rfl⟩

theorem mirror_of_plane {b : Blade} {args : List Pt3} {kwargs : List (Str × Pt3)} {a v : Pt3} (hc : b.HasCoords) (hF : b.HasFaces)
    (hv : v ≠ (0, 0, 0)) (hp : mirrorPlane args kwargs = (do return (a, ← unit v))) :
    ∃ M b', IsReflection a v M ∧ b.mirror args kwargs = (b', .ok ()) ∧ b.facesMoved M b' ∧ b.coordsMoved id b' ∧
      b'.sections = b.sections := by
  obtain ⟨n, hn⟩ := unit_ok hv
  rw [hn] at hp
  simp only [bind, Except.bind, pure, Except.pure] at hp
  refine ⟨occMirror a n, { b with upper := b.upper.map (mapPts (occMirror a n)), lower := b.lower.map (mapPts (occMirror a n)), tip := b.tip.map (mapPts (occMirror a n)), root := b.root.map (mapPts (occMirror a n)) }, occMirror_spec hv hn, ?_, ⟨rfl, rfl, rfl, rfl⟩, by simp [coordsMoved], rfl⟩
  unfold mirror
  rw [if_neg hc, hp]
  simp only
  rw [onFaces_ok hF]

theorem mirror_null {b : Blade} {args : List Pt3} {kwargs : List (Str × Pt3)} {a : Pt3} (hc : b.HasCoords)
    (hp : mirrorPlane args kwargs = (do return (a, ← unit (0, 0, 0)))) : b.mirror args kwargs = (b, .error .runtimeError) := by
  simp only [unit, if_true, bind, Except.bind] at hp
  unfold mirror
  rw [if_neg hc, hp]

end Blade

/-- **C51** `mirror` with three positional points, or with the keywords `point1`, `point2`, `point3` in this order: if the points are not on
one line, all faces are reflected through their plane - which fixes the three points -; the coordinates stay as they are. Points on one line
are refused with the blade untouched. -/
theorem C51_three_points (b : Blade) (hc : b.HasCoords) (hF : b.HasFaces) (p q r : Pt3) (args : List Pt3) (kwargs : List (Str × Pt3))
    (hargs : (args = [p, q, r] ∧ kwargs = []) ∨ (args = [] ∧ kwargs = [(c!"point1", p), (c!"point2", q), (c!"point3", r)])) :
    (¬ Collinear3 p q r → ∃ n M b', n ≠ (0, 0, 0) ∧ inner3 (diff3 q p) n = 0 ∧ inner3 (diff3 r p) n = 0 ∧ IsReflection p n M ∧
      M p = p ∧ M q = q ∧ M r = r ∧
      b.mirror args kwargs = (b', .ok ()) ∧ b.facesMoved M b' ∧ b.coordsMoved id b' ∧ b'.sections = b.sections) ∧
    (Collinear3 p q r → b.mirror args kwargs = (b, .error .runtimeError)) := by
  have hp : Blade.mirrorPlane args kwargs = (do return (p, ← Blade.unit (Blade.cross3 (Blade.sub3 q p) (Blade.sub3 r q)))) := by
    rcases hargs with ⟨rfl, rfl⟩ | ⟨rfl, rfl⟩
    · simp [Blade.mirrorPlane, bind, Except.bind, pure, Except.pure]
    · simp [Blade.mirrorPlane, bind, Except.bind, pure, Except.pure]
  constructor
  · intro hcol
    have hv := mt Blade.cross_zero.1 hcol
    obtain ⟨M, b', hM, h1, h2, h3, h4⟩ := Blade.mirror_of_plane hc hF hv hp
    have o1 : inner3 (diff3 q p) (Blade.cross3 (Blade.sub3 q p) (Blade.sub3 r q)) = 0 := by
      simp only [inner3, diff3, Blade.cross3, Blade.sub3]; ring
    have o2 : inner3 (diff3 r p) (Blade.cross3 (Blade.sub3 q p) (Blade.sub3 r q)) = 0 := by
      simp only [inner3, diff3, Blade.cross3, Blade.sub3]; ring
    have o0 : inner3 (diff3 p p) (Blade.cross3 (Blade.sub3 q p) (Blade.sub3 r q)) = 0 := by
      simp only [inner3, diff3]; ring
    have hfix := (C51_reflection_spec p _ hv M hM).2.1
    exact ⟨_, M, b', hv, o1, o2, hM, (hfix p).2 o0, (hfix q).2 o1, (hfix r).2 o2, h1, h2, h3, h4⟩
  · intro hcol
    rw [Blade.cross_zero.2 hcol] at hp
    exact Blade.mirror_null hc hp

/-- **C51** `mirror` with a point and a normal vector, positional or by keyword in either order: reflection of the faces through that plane; a
null normal is refused. -/
theorem C51_point_normal (b : Blade) (hc : b.HasCoords) (hF : b.HasFaces) (p n : Pt3) (args : List Pt3) (kwargs : List (Str × Pt3))
    (hargs : (args = [p, n] ∧ kwargs = []) ∨ (args = [] ∧ kwargs = [(c!"point", p), (c!"normal", n)]) ∨
      (args = [] ∧ kwargs = [(c!"normal", n), (c!"point", p)])) :
    (n ≠ (0, 0, 0) → ∃ M b', IsReflection p n M ∧ b.mirror args kwargs = (b', .ok ()) ∧ b.facesMoved M b' ∧ b.coordsMoved id b' ∧
      b'.sections = b.sections) ∧
    (n = (0, 0, 0) → b.mirror args kwargs = (b, .error .runtimeError)) := by
  have hp : Blade.mirrorPlane args kwargs = (do return (p, ← Blade.unit n)) := by
    rcases hargs with ⟨rfl, rfl⟩ | ⟨rfl, rfl⟩ | ⟨rfl, rfl⟩
    · simp [Blade.mirrorPlane, bind, Except.bind, pure, Except.pure]
    · simp [Blade.mirrorPlane, bind, Except.bind, pure, Except.pure]
    · simp [Blade.mirrorPlane, bind, Except.bind, pure, Except.pure]
  constructor
  · intro hn
    exact Blade.mirror_of_plane hc hF hn hp
  · rintro rfl
    exact Blade.mirror_null hc hp

/-- **C51** the shapes of arguments that are refused with `ValueError` (blade untouched): a total number other than two or three, a keyword
that is not one of the five, the three points by keyword in another order. -/
theorem C51_refused (b : Blade) (args : List Pt3) (kwargs : List (Str × Pt3))
    (h : (args.length + kwargs.length ≠ 2 ∧ args.length + kwargs.length ≠ 3) ∨
      (∃ k ∈ kwargs, k.1 ≠ c!"point1" ∧ k.1 ≠ c!"point2" ∧ k.1 ≠ c!"point3" ∧ k.1 ≠ c!"point" ∧ k.1 ≠ c!"normal") ∨
      (args = [] ∧ kwargs.length = 3 ∧ kwargs.map Prod.fst ≠ [c!"point1", c!"point2", c!"point3"]) ∨
      (args = [] ∧ kwargs.length = 2 ∧ kwargs.map Prod.fst ≠ [c!"point", c!"normal"] ∧ kwargs.map Prod.fst ≠ [c!"normal", c!"point"])) :
    b.mirror args kwargs = (b, .error .valueError) := by
  have hp : Blade.mirrorPlane args kwargs = .error .valueError := by
    unfold Blade.mirrorPlane
    by_cases h1 : args.length + kwargs.length = 2 ∨ args.length + kwargs.length = 3
    swap
    · simp [h1, bind, Except.bind, throw, throwThe, MonadExceptOf.throw]
    by_cases h2 : ∃ k ∈ kwargs, k.1 ∉ [c!"point1", c!"point2", c!"point3", c!"point", c!"normal"]
    · simp only [h1, h2, not_true_eq_false, if_false, if_true, bind, Except.bind, pure, Except.pure, throw, throwThe, MonadExceptOf.throw]
    simp only [h1, h2, not_true_eq_false, if_false, bind, Except.bind, pure, Except.pure, throw, throwThe, MonadExceptOf.throw]
    rcases h with h | h | h | h
    · exact absurd h1 (by push Not; exact h)
    · exfalso
      apply h2
      obtain ⟨k, hk, hh⟩ := h
      exact ⟨k, hk, by simpa using hh⟩
    · obtain ⟨rfl, hl, hne⟩ := h
      match kwargs, hl, hne with
      | [(k1, a), (k2, b), (k3, c)], _, hne =>
        simp only [List.map_cons, List.map_nil] at hne
        simp only
        rw [if_neg]
        rintro ⟨rfl, rfl, rfl⟩
        exact hne rfl
    · obtain ⟨rfl, hl, hne1, hne2⟩ := h
      match kwargs, hl, hne1, hne2 with
      | [(k1, a), (k2, b)], _, hne1, hne2 =>
        simp only [List.map_cons, List.map_nil] at hne1 hne2
        simp only
        rw [if_neg, if_neg]
        · rintro ⟨rfl, rfl⟩
          exact hne2 rfl
        · rintro ⟨rfl, rfl⟩
          exact hne1 rfl
  unfold Blade.mirror
  split
  · rfl
  · rw [hp]

/-- **C51** shapes that are accepted although they make no sense: two positional points and any permitted keyword are taken as point and
normal, ignoring the keyword; one positional point beside the keywords `point` and `normal` is ignored. -/
theorem C51_wrongly_accepted (b : Blade) (hc : b.HasCoords) (hF : b.HasFaces) (p q r : Pt3) (hq : q ≠ (0, 0, 0)) :
    (∃ M b', IsReflection p q M ∧ b.mirror [p, q] [(c!"point3", r)] = (b', .ok ()) ∧ b.facesMoved M b') ∧
    (∃ M b', IsReflection p q M ∧ b.mirror [r] [(c!"point", p), (c!"normal", q)] = (b', .ok ()) ∧ b.facesMoved M b') := by
  constructor
  · obtain ⟨M, b', h1, h2, h3, _⟩ := Blade.mirror_of_plane (a := p) (args := [p, q]) (kwargs := [(c!"point3", r)]) hc hF hq (by
      simp [Blade.mirrorPlane, bind, Except.bind, pure, Except.pure])
    exact ⟨M, b', h1, h2, h3⟩
  · obtain ⟨M, b', h1, h2, h3, _⟩ := Blade.mirror_of_plane (a := p) (args := [r]) (kwargs := [(c!"point", p), (c!"normal", q)]) hc hF hq (by
      simp [Blade.mirrorPlane, bind, Except.bind, pure, Except.pure])
    exact ⟨M, b', h1, h2, h3⟩

/-- The arguments of `mirror` that are understood in some way: three positional ones; the three points by keyword in their order; two
positional ones and at most one permitted keyword; the keywords `point` and `normal` in either order, and at most one positional argument. -/
def MirrorShape (args : List Pt3) (names : List Str) : Prop :=
  (args.length = 3 ∧ names = []) ∨ (args = [] ∧ names = [c!"point1", c!"point2", c!"point3"]) ∨
  (args.length = 2 ∧ (names = [] ∨ ∃ k, names = [k] ∧ k ∈ [c!"point1", c!"point2", c!"point3", c!"point", c!"normal"])) ∨
  (args.length ≤ 1 ∧ (names = [c!"point", c!"normal"] ∨ names = [c!"normal", c!"point"]))

/-- **C51** all shapes of arguments: on a blade with coordinates `mirror` raises `ValueError` exactly when the arguments have none of the
understood shapes (and then leaves the blade untouched). -/
theorem C51_refused_iff (b : Blade) (hc : b.HasCoords) (args : List Pt3) (kwargs : List (Str × Pt3)) :
    (¬ MirrorShape args (kwargs.map Prod.fst) → b.mirror args kwargs = (b, .error .valueError)) ∧
    (MirrorShape args (kwargs.map Prod.fst) → (b.mirror args kwargs).2 ≠ .error .valueError) := by
  have hun : ∀ v : Pt3, Blade.unit v ≠ .error .valueError := by
    intro v; unfold Blade.unit; split_ifs <;> simp
  have hface : ∀ f, (Blade.onFaces f b).2 ≠ .error .valueError := by
    intro f
    by_cases hF : b.HasFaces
    · rw [Blade.onFaces_ok (by exact hF)]; simp
    · rw [(Blade.onFaces_error (by exact hF)).1]; simp
  have hmir : Blade.mirrorPlane args kwargs ≠ .error .valueError → (b.mirror args kwargs).2 ≠ .error .valueError := by
    intro h
    unfold Blade.mirror
    rw [if_neg hc]
    cases hp : Blade.mirrorPlane args kwargs with
    | error e => simp only; intro he; rw [hp] at h; exact h (by rw [Except.error.inj he])
    | ok q => simp only; exact hface _
  have hmir' : Blade.mirrorPlane args kwargs = .error .valueError → b.mirror args kwargs = (b, .error .valueError) := by
    intro h
    unfold Blade.mirror
    rw [if_neg hc, h]
  have key : ∀ (x : Res Pt3) (a : Pt3), x ≠ .error .valueError → (x >>= fun n => (pure (a, n) : Res (Pt3 × Pt3))) ≠ .error .valueError := by
    intro x a hx; cases x with
    | error e => intro h; exact hx (by simpa [bind, Except.bind] using h)
    | ok v => simp [bind, Except.bind, pure, Except.pure]
  by_cases h1 : args.length + kwargs.length = 2 ∨ args.length + kwargs.length = 3
  swap
  · refine ⟨fun _ => C51_refused b args kwargs (Or.inl (by push Not at h1; exact h1)), fun hs => ?_⟩
    exfalso; apply h1
    have hl : kwargs.length = (kwargs.map Prod.fst).length := by simp
    rcases hs with ⟨a, n⟩ | ⟨a, n⟩ | ⟨a, n | ⟨k, n, _⟩⟩ | ⟨a, n | n⟩ <;>
      have n' := congrArg List.length n <;> (try have a' := congrArg List.length a) <;>
      simp only [List.length_cons, List.length_nil, List.length_map] at * <;> omega
  by_cases h2 : ∃ k ∈ kwargs, k.1 ∉ [c!"point1", c!"point2", c!"point3", c!"point", c!"normal"]
  · refine ⟨fun _ => C51_refused b args kwargs (Or.inr (Or.inl ?_)), fun hs => ?_⟩
    · obtain ⟨k, hk, hh⟩ := h2
      exact ⟨k, hk, by simpa using hh⟩
    · exfalso
      obtain ⟨k, hk, hh⟩ := h2
      have hk' : k.1 ∈ kwargs.map Prod.fst := List.mem_map_of_mem hk
      rcases hs with ⟨a, n⟩ | ⟨a, n⟩ | ⟨a, n | ⟨k', n, hk''⟩⟩ | ⟨a, n | n⟩ <;> rw [n] at hk' <;> simp at hk' hh <;> grind
  have hplane : Blade.mirrorPlane args kwargs = .error .valueError ↔ ¬ MirrorShape args (kwargs.map Prod.fst) := by
    unfold Blade.mirrorPlane
    rw [if_neg (not_not.2 h1), if_neg h2]
    have hcase : (∃ a b c, args = [a, b, c] ∧ kwargs = []) ∨ (∃ a b, args = [a, b] ∧ kwargs = []) ∨
        (∃ a b k v, args = [a, b] ∧ kwargs = [(k, v)]) ∨ (∃ x k v, args = [x] ∧ kwargs = [(k, v)]) ∨
        (∃ k1 k2 k3 a b c, args = [] ∧ kwargs = [(k1, a), (k2, b), (k3, c)]) ∨
        (∃ k1 k2 a b, args.length ≤ 1 ∧ kwargs = [(k1, a), (k2, b)]) := by
      rcases args with _ | ⟨x, _ | ⟨y, _ | ⟨z, _ | ⟨w, args⟩⟩⟩⟩ <;> rcases kwargs with _ | ⟨⟨k, u⟩, _ | ⟨⟨l, v⟩, _ | ⟨⟨m, w⟩, _ | ⟨o, kwargs⟩⟩⟩⟩ <;>
        simp at h1 ⊢ <;> omega
    clear h1
    rcases hcase with ⟨a, b, c, rfl, rfl⟩ | ⟨a, b, rfl, rfl⟩ | ⟨a, b, k, v, rfl, rfl⟩ | ⟨x, k, v, rfl, rfl⟩ |
      ⟨k1, k2, k3, a, b, c, rfl, rfl⟩ | ⟨k1, k2, a, b, hl, rfl⟩
    · exact ⟨fun h => absurd h (key _ _ (hun _)), fun h => absurd (Or.inl ⟨rfl, rfl⟩) h⟩
    · exact ⟨fun h => absurd h (key _ _ (hun _)), fun h => absurd (Or.inr (Or.inr (Or.inl ⟨rfl, Or.inl rfl⟩))) h⟩
    · refine ⟨fun h => absurd h (key _ _ (hun _)), fun h => absurd (Or.inr (Or.inr (Or.inl ⟨rfl, Or.inr ⟨k, rfl, ?_⟩⟩))) h⟩
      by_contra hk
      exact h2 ⟨_, List.mem_cons_self .., hk⟩
    · refine ⟨fun _ => ?_, fun _ => rfl⟩
      simp [MirrorShape]
    · by_cases hk : k1 = c!"point1" ∧ k2 = c!"point2" ∧ k3 = c!"point3"
      · obtain ⟨rfl, rfl, rfl⟩ := hk
        exact ⟨fun h => absurd h (key _ _ (hun _)), fun h => absurd (Or.inr (Or.inl ⟨rfl, rfl⟩)) h⟩
      · refine ⟨fun _ => ?_, fun _ => ?_⟩
        · simp only [MirrorShape, List.map_cons, List.map_nil]
          rintro (⟨h, _⟩ | ⟨_, h⟩ | ⟨h, _⟩ | ⟨_, h | h⟩)
          · simp at h
          · simp only [List.cons.injEq, and_true] at h; exact hk h
          · simp at h
          · simp at h
          · simp at h
        · simp only [hk, if_false]; rfl
    · by_cases hk : k1 = c!"point" ∧ k2 = c!"normal"
      · obtain ⟨rfl, rfl⟩ := hk
        refine ⟨fun h => ?_, fun h => absurd (Or.inr (Or.inr (Or.inr ⟨hl, Or.inl rfl⟩))) h⟩
        rcases args with _ | ⟨x, _ | ⟨y, args⟩⟩
        · exact absurd h (key _ _ (hun _))
        · exact absurd h (key _ _ (hun _))
        · simp at hl
      by_cases hk' : k1 = c!"normal" ∧ k2 = c!"point"
      · obtain ⟨rfl, rfl⟩ := hk'
        refine ⟨fun h => ?_, fun h => absurd (Or.inr (Or.inr (Or.inr ⟨hl, Or.inr rfl⟩))) h⟩
        rcases args with _ | ⟨x, _ | ⟨y, args⟩⟩
        · exact absurd h (key _ _ (hun _))
        · exact absurd h (key _ _ (hun _))
        · simp at hl
      refine ⟨fun _ => ?_, fun _ => ?_⟩
      · simp only [MirrorShape, List.map_cons, List.map_nil]
        rintro (⟨_, h⟩ | ⟨_, h⟩ | ⟨_, h | ⟨k, h, _⟩⟩ | ⟨_, h | h⟩)
        · simp at h
        · simp at h
        · simp at h
        · simp at h
        · simp only [List.cons.injEq, and_true] at h; exact hk h
        · simp only [List.cons.injEq, and_true] at h; exact hk' h
      · rcases args with _ | ⟨x, _ | ⟨y, args⟩⟩
        · simp only [hk, hk', if_false]; rfl
        · simp only [hk, hk', if_false]; rfl
        · simp at hl
  exact ⟨fun h => hmir' (hplane.2 h), fun h => hmir (fun h' => hplane.1 h' h)⟩

example : ¬ Collinear3 (0, 0, 0) (1, 0, 0) (0, 1, 0) := by
  norm_num [Collinear3]

example : ∃ b : Blade, b.HasCoords ∧ b.HasFaces ∧ b.mirror [] [(c!"point2", (0, 0, 0)), (c!"point1", (1, 0, 0)), (c!"point3", (0, 1, 0))] =
    (b, .error .valueError) := by
  obtain ⟨b', _, h1, h2⟩ := Sample.blade2_builds true
  exact ⟨b', h2, h1, C51_refused b' _ _ (Or.inr (Or.inr (Or.inl ⟨rfl, rfl, by decide⟩)))⟩

example : MirrorShape [(0, 0, 0), (1, 0, 0)] [c!"normal"] ∧ ¬ MirrorShape [(0, 0, 0)] [c!"point2", c!"point3"] := by
  constructor
  · right; right; left; exact ⟨rfl, Or.inr ⟨_, rfl, by simp⟩⟩
  · simp [MirrorShape]

end
end BladeX
