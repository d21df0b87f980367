import Verif.Props.Deform

/-! # C36, C39, C69: `compute_all` and `export_param_file` -/

namespace BladeX
noncomputable section
open Spec BSpline Classical
namespace Deform

/-- The computation for one parameter: control points, deformed control points, spline, deformed values. -/
def Steps (s : Deform) (rbf : Option Int) (tol : ℝ) (p : PName) (D : List Pt × List Pt × Arr) : Prop :=
  ∃ cp, optimum s.radii (s.parameters p) (s.degree p) (s.nbasis p) rbf = .ok cp ∧
    cp.length = (s.deformations p).length ∧
    D.1 = List.zipWith (fun (q : Pt) d => (q.1, q.2 + d)) cp (s.deformations p) ∧
    scipyBspline D.1 (s.npoints p) (s.degree p) = .ok D.2.1 ∧
    deformLoop D.2.1 tol s.radii 0 (s.deformed p) = (D.2.2, .ok ())

/-- The object after the computation for some parameters. -/
def result (s : Deform) (l : List PName) (D : PName → List Pt × List Pt × Arr) : Deform where
  radii := s.radii
  parameters := s.parameters
  nbasis := s.nbasis
  degree := s.degree
  npoints := s.npoints
  deformations := s.deformations
  deformed := fun p => if p ∈ l then (D p).2.2 else s.deformed p
  controlPoints := fun p => if p ∈ l then some (D p).1 else s.controlPoints p
  spline := fun p => if p ∈ l then some (D p).2.1 else s.spline p

theorem seq_cons {c : Call} {cs : List Call} {s s' : Deform} :
    seq (c :: cs) s = (s', .ok ()) ↔ ∃ s1, c s = (s1, .ok ()) ∧ seq cs s1 = (s', .ok ()) := by
  simp only [seq]
  rcases hc : c s with ⟨s1, (e | ⟨⟩)⟩
  · simp
  · simp

private theorem one_step (s s' : Deform) (rbf : Option Int) (tol : ℝ) (p : PName) :
    seq [computeControlPoints p.str rbf, updateControlPoints p.str, generateSpline p.str, computeDeformed p.str tol] s = (s', .ok ()) ↔
      ∃ D, Steps s rbf tol p D ∧ s' = result s [p] fun _ => D := by
  constructor
  · intro h
    obtain ⟨s1, h1, h⟩ := seq_cons.1 h
    obtain ⟨s2, h2, h⟩ := seq_cons.1 h
    obtain ⟨s3, h3, h⟩ := seq_cons.1 h
    obtain ⟨s4, h4, h⟩ := seq_cons.1 h
    simp only [seq, Prod.mk.injEq, and_true] at h
    subst h
    simp only [computeControlPoints, nameOf_str] at h1
    split at h1
    · simp at h1
    rename_i cp hcp
    simp only [Prod.mk.injEq, and_true] at h1
    subst h1
    simp only [updateControlPoints, nameOf_str] at h2
    rw [show set s.controlPoints p (some cp) p = some cp by simp [set]] at h2
    simp only at h2
    split at h2
    · simp at h2
    rename_i hlen
    simp only [Prod.mk.injEq, and_true] at h2
    subst h2
    simp only [generateSpline, nameOf_str] at h3
    rw [show ∀ x, set (set s.controlPoints p (some cp)) p (some x) p = some x by intro x; simp [set]] at h3
    simp only at h3
    split at h3
    · simp at h3
    rename_i sp hsp
    simp only [Prod.mk.injEq, and_true] at h3
    subst h3
    simp only [computeDeformed, nameOf_str] at h4
    rw [show set s.spline p (some sp) p = some sp by simp [set]] at h4
    simp only at h4
    rcases hd : deformLoop sp tol s.radii 0 (s.deformed p) with ⟨d, r⟩
    rw [hd] at h4
    simp only [Prod.mk.injEq] at h4
    obtain ⟨rfl, rfl⟩ := h4
    refine ⟨(_, sp, d), ⟨cp, hcp, not_not.1 hlen, rfl, hsp, hd⟩, ?_⟩
    simp only [result, List.mem_singleton, mk.injEq, true_and]
    refine ⟨?_, ?_, ?_⟩ <;> (funext q; by_cases hq : q = p <;> simp [set, hq])
  · rintro ⟨⟨c', sp, d⟩, ⟨cp, hcp, hlen, hc', hsp, hd⟩, rfl⟩
    simp only at hc' hsp hd
    subst hc'
    rw [seq_cons]
    refine ⟨{ s with controlPoints := set s.controlPoints p (some cp) }, by simp only [computeControlPoints, nameOf_str, hcp], ?_⟩
    rw [seq_cons]
    set z := List.zipWith (fun (q : Pt) d => (q.1, q.2 + d)) cp (s.deformations p) with hz
    refine ⟨{ s with controlPoints := Deform.set (Deform.set s.controlPoints p (some cp)) p (some z) }, ?_, ?_⟩
    · simp only [updateControlPoints, nameOf_str]
      rw [show set s.controlPoints p (some cp) p = some cp by simp [set]]
      simp [hlen, hz]
    rw [seq_cons]
    refine ⟨{ s with controlPoints := Deform.set (Deform.set s.controlPoints p (some cp)) p (some z), spline := Deform.set s.spline p (some sp) }, ?_, ?_⟩
    · simp only [generateSpline, nameOf_str]
      rw [show ∀ x, set (set s.controlPoints p (some cp)) p (some x) p = some x by intro x; simp [set]]
      simp only [hsp]
    rw [seq_cons]
    refine ⟨_, ?_, rfl⟩
    simp only [computeDeformed, nameOf_str]
    rw [show set s.spline p (some sp) p = some sp by simp [set]]
    simp only [hd, Prod.mk.injEq, and_true, result, mk.injEq, List.mem_singleton, true_and]
    refine ⟨?_, ?_, ?_⟩ <;> (funext q; by_cases hq : q = p <;> simp [set, hq])

private theorem many_steps (rbf : Option Int) (tol : PName → ℝ) : ∀ (l : List PName) (s s' : Deform), l.Nodup →
    (seq (l.map fun p => seq [computeControlPoints p.str rbf, updateControlPoints p.str, generateSpline p.str,
      computeDeformed p.str (tol p)]) s = (s', .ok ()) ↔
      ∃ D, (∀ p ∈ l, Steps s rbf (tol p) p (D p)) ∧ s' = result s l D) := by
  intro l
  induction l with
  | nil =>
    intro s s' _
    simp only [List.map_nil, seq, Prod.mk.injEq, and_true, List.not_mem_nil, false_imp_iff, implies_true, true_and]
    constructor
    · rintro rfl
      exact ⟨fun _ => ([], [], []), by simp [result]⟩
    · rintro ⟨D, rfl⟩; simp [result]
  | cons p l ih =>
    intro s s' hn
    rw [List.nodup_cons] at hn
    rw [List.map_cons, seq_cons]
    have hother : ∀ D q, q ∈ l → ∀ E, (Steps (result s [p] fun _ => D) rbf (tol q) q E ↔ Steps s rbf (tol q) q E) := by
      intro D q hq E
      have hne : q ≠ p := by rintro rfl; exact hn.1 hq
      simp only [Steps, result, List.mem_singleton, hne, if_false]
    constructor
    · rintro ⟨s1, h1, h2⟩
      obtain ⟨D0, hD0, rfl⟩ := (one_step ..).1 h1
      obtain ⟨D, hD, rfl⟩ := (ih _ _ hn.2).1 h2
      refine ⟨fun q => if q = p then D0 else D q, ?_, ?_⟩
      · intro q hq
        rcases List.mem_cons.1 hq with rfl | hq
        · simpa using hD0
        · have hne : q ≠ p := fun e => hn.1 (e ▸ hq)
          simp only [hne, if_false]
          exact (hother D0 q hq _).1 (hD q hq)
      · simp only [result, mk.injEq, true_and]
        refine ⟨?_, ?_, ?_⟩ <;>
        · funext q
          by_cases hq : q = p
          · subst hq; simp [hn.1]
          · simp [hq]
    · rintro ⟨D, hD, rfl⟩
      refine ⟨result s [p] fun _ => D p, (one_step ..).2 ⟨D p, hD p (by simp), rfl⟩, (ih _ _ hn.2).2 ⟨D, ?_, ?_⟩⟩
      · intro q hq
        exact (hother (D p) q hq _).2 (hD q (by simp [hq]))
      · simp only [result, mk.injEq, true_and]
        refine ⟨?_, ?_, ?_⟩ <;>
        · funext q
          by_cases hq : q = p
          · subst hq; simp [hn.1]
          · simp [hq]

theorem computeAll_iff (s s' : Deform) (rbf : Option Int) (tol : PName → ℝ) :
    computeAll rbf tol s = (s', .ok ()) ↔ ∃ D, (∀ p, Steps s rbf (tol p) p (D p)) ∧ s' = result s PName.all D := by
  have hall : ∀ p, p ∈ PName.all := by intro p; cases p <;> simp [PName.all]
  unfold computeAll
  rw [many_steps rbf tol PName.all s s' (by decide)]
  simp [hall]

/-- The values stored by the loop do not depend on what was stored before. -/
theorem loop_overwrites {sp : List Pt} {tol : ℝ} {rs : List ℝ} {d d' : Arr} (h : deformLoop sp tol rs 0 d = (d', .ok ()))
    (hl : d.length = rs.length) : deformLoop sp tol rs 0 d' = (d', .ok ()) := by
  have gen : ∀ (rs : List ℝ) (i : Nat) (d d' e : Arr), deformLoop sp tol rs i d = (d', .ok ()) → e.length = d.length →
      (∀ j, i + rs.length ≤ j → e[j]? = d'[j]?) → (∀ j, j < i → e[j]? = d'[j]?) → deformLoop sp tol rs i e = (d', .ok ()) := by
    intro rs
    induction rs with
    | nil =>
      intro i d d' e h hl h1 h2
      simp only [deformLoop, Prod.mk.injEq, and_true] at h ⊢
      subst h
      apply List.ext_getElem?
      intro j
      rcases lt_or_ge j i with hj | hj
      · exact h2 j hj
      · exact h1 j (by simpa using hj)
    | cons r rs ih =>
      intro i d d' e h hl h1 h2
      simp only [deformLoop] at h ⊢
      rcases hf : sp.find? (fun q => decide (|q.1 - r| < tol)) with _ | q
      · rw [hf] at h; simp at h
      · simp only [hf] at h ⊢
        by_cases hi : i < d.length
        · rw [if_pos hi] at h
          rw [if_pos (by omega)]
          apply ih (i + 1) (d.set i q.2) d' (e.set i q.2) h (by simp [hl])
          · intro j hj
            rw [List.getElem?_set, if_neg (by omega)]
            exact h1 j (by simp; omega)
          · intro j hj
            rw [List.getElem?_set]
            by_cases hij : i = j
            · subst hij
              simp only [if_true, show i < e.length by omega]
              have keep : ∀ (rs : List ℝ) (m : Nat) (d d' : Arr), deformLoop sp tol rs m d = (d', .ok ()) →
                  ∀ j, j < m → d'[j]? = d[j]? := by
                intro rs
                induction rs with
                | nil =>
                  intro m d d' h j _
                  simp only [deformLoop, Prod.mk.injEq, and_true] at h
                  rw [h]
                | cons r rs ih =>
                  intro m d d' h j hj
                  simp only [deformLoop] at h
                  split at h
                  · simp at h
                  · split at h
                    · rw [ih (m + 1) _ _ h j (by omega), List.getElem?_set, if_neg (by omega)]
                    · simp at h
              rw [keep rs (i + 1) _ _ h i (by omega), List.getElem?_set]
              simp [hi]
            · rw [if_neg hij]
              exact h2 j (by omega)
        · rw [if_neg hi] at h; simp at h
  have len : ∀ (rs : List ℝ) (i : Nat) (d d' : Arr), deformLoop sp tol rs i d = (d', .ok ()) → d'.length = d.length := by
    intro rs
    induction rs with
    | nil =>
      intro i d d' h
      simp only [deformLoop, Prod.mk.injEq, and_true] at h
      rw [h]
    | cons r rs ih =>
      intro i d d' h
      simp only [deformLoop] at h
      split at h
      · simp at h
      · split at h
        · rw [ih _ _ _ h, List.length_set]
        · simp at h
  exact gen rs 0 d d' d' h (len _ _ _ _ h) (fun j _ => rfl) (fun j _ => rfl)

/-- **C36**: `compute_all` starts from the parameters each time: a second `compute_all` succeeds and changes nothing, so
deformations do not accumulate through it. -/
theorem C36_compute_all_idempotent (s s' : Deform) (rbf : Option Int) (tol : PName → ℝ)
    (hl : ∀ p, (s.deformed p).length = s.radii.length) (h : computeAll rbf tol s = (s', .ok ())) :
    computeAll rbf tol s' = (s', .ok ()) := by
  have hall : ∀ p, p ∈ PName.all := by intro p; cases p <;> simp [PName.all]
  obtain ⟨D, hD, rfl⟩ := (computeAll_iff ..).1 h
  refine (computeAll_iff ..).2 ⟨D, ?_, ?_⟩
  · intro p
    obtain ⟨cp, h1, h2, h3, h4, h5⟩ := hD p
    refine ⟨cp, h1, h2, h3, h4, ?_⟩
    simp only [result, hall, if_true]
    exact loop_overwrites h5 (hl p)
  · simp [result, hall]

/-- **C36**: `compute_all` keeps the original distributions, radii and settings, whatever its outcome. -/
theorem C36_compute_all_keeps_input (s : Deform) (o : Op) :
    (o.call s).1.radii = s.radii ∧ (o.call s).1.parameters = s.parameters ∧ (o.call s).1.deformations = s.deformations ∧
      (o.call s).1.nbasis = s.nbasis ∧ (o.call s).1.degree = s.degree ∧ (o.call s).1.npoints = s.npoints := by
  let Same (a b : Deform) : Prop := a.radii = b.radii ∧ a.parameters = b.parameters ∧ a.deformations = b.deformations ∧
    a.nbasis = b.nbasis ∧ a.degree = b.degree ∧ a.npoints = b.npoints
  have refl : ∀ a, Same a a := fun a => ⟨rfl, rfl, rfl, rfl, rfl, rfl⟩
  have trans : ∀ a b c, Same a b → Same b c → Same a c := fun a b c h h' =>
    ⟨h.1.trans h'.1, h.2.1.trans h'.2.1, h.2.2.1.trans h'.2.2.1, h.2.2.2.1.trans h'.2.2.2.1, h.2.2.2.2.1.trans h'.2.2.2.2.1,
      h.2.2.2.2.2.trans h'.2.2.2.2.2⟩
  have a1 : ∀ n r s, Same (computeControlPoints n r s).1 s := by
    intro n r s; simp only [computeControlPoints]; repeat' split
    all_goals exact ⟨rfl, rfl, rfl, rfl, rfl, rfl⟩
  have a2 : ∀ n s, Same (updateControlPoints n s).1 s := by
    intro n s; simp only [updateControlPoints]; repeat' split
    all_goals exact ⟨rfl, rfl, rfl, rfl, rfl, rfl⟩
  have a3 : ∀ n s, Same (generateSpline n s).1 s := by
    intro n s; simp only [generateSpline]; repeat' split
    all_goals exact ⟨rfl, rfl, rfl, rfl, rfl, rfl⟩
  have a4 : ∀ n t s, Same (computeDeformed n t s).1 s := by
    intro n t s; simp only [computeDeformed]; repeat' split
    all_goals exact ⟨rfl, rfl, rfl, rfl, rfl, rfl⟩
  have many : ∀ (cs : List Call), (∀ c ∈ cs, ∀ s : Deform, Same (c s).1 s) → ∀ s : Deform, Same (seq cs s).1 s := by
    intro cs
    induction cs with
    | nil => intro _ s; exact refl s
    | cons c cs ih =>
      intro h s
      have hc := h c (by simp) s
      simp only [seq]
      rcases he : c s with ⟨s', (e | u)⟩
      · rw [he] at hc; exact hc
      · rw [he] at hc
        exact trans _ _ _ (ih (fun x hx => h x (by simp [hx])) s') hc
  cases o with
  | controlPoints n r => exact a1 n r s
  | update n => exact a2 n s
  | spline n => exact a3 n s
  | deformed n t => exact a4 n t s
  | all r t =>
    apply many
    intro c hc
    obtain ⟨q, _, rfl⟩ := List.mem_map.1 hc
    apply many
    intro c hc
    simp only [List.mem_cons, List.not_mem_nil, or_false] at hc
    rcases hc with rfl | rfl | rfl | rfl
    · exact a1 _ _
    · exact a2 _
    · exact a3 _
    · exact a4 _ _

/-! ## C69: the innermost section -/

theorem first_point {cv : List Pt} {n : Int} {k : Int} {sp : List Pt} (h : scipyBspline cv n k = .ok sp) :
    sp = [] ∨ sp.head? = cv.head? := by
  have hk : ¬ (k < 0 ∨ 5 < k) := by
    intro hk
    simp [scipyBspline, hk, bind, Except.bind, throw, throwThe, MonadExceptOf.throw] at h
  have hn : ¬ n < 0 := by
    intro hn
    simp [scipyBspline, hk, hn, linspace, bind, Except.bind, throw, throwThe, MonadExceptOf.throw] at h
  have hc : ¬ cv.length ≤ k.toNat := by
    intro hc
    simp [scipyBspline, hk, hn, hc, linspace, bind, Except.bind, throw, throwThe, MonadExceptOf.throw] at h
  obtain ⟨k, rfl⟩ : ∃ m : Nat, k = m := ⟨k.toNat, by omega⟩
  obtain ⟨n, rfl⟩ : ∃ m : Nat, n = m := ⟨n.toNat, by omega⟩
  simp only [Int.toNat_natCast, not_le] at hc
  have h5 : k ≤ 5 := by omega
  rw [bspline_curve hc h5] at h
  obtain rfl := Except.ok.inj h
  rcases Nat.eq_zero_or_pos n with rfl | hpos
  · left; rfl
  · right
    have h2 := (C34_end_points cv 2 k le_rfl hc h5 _ (bspline_curve hc h5)).1
    rw [List.head?_map, linspaceN_head (by omega)] at h2
    rw [List.head?_map, linspaceN_head hpos]
    exact h2

/-- **C69**: after `compute_all` has succeeded with positive tolerances on an object with at least one radius, the deformed
value of the innermost section of every parameter is exactly the original value plus the first deformation, with or without
radial basis functions. -/
theorem C69_first_section (s s' : Deform) (rbf : Option Int) (tol : PName → ℝ) (ht : ∀ p, 0 < tol p)
    (h : computeAll rbf tol s = (s', .ok ())) (hr : s.radii ≠ []) (p : PName) :
    ∃ y d, (s.parameters p).head? = some y ∧ (s.deformations p).head? = some d ∧ (s'.deformed p).head? = some (y + d) := by
  have hall : ∀ p, p ∈ PName.all := by intro p; cases p <;> simp [PName.all]
  obtain ⟨D, hD, rfl⟩ := (computeAll_iff ..).1 h
  obtain ⟨cp, h1, h2, h3, h4, h5⟩ := hD p
  obtain ⟨X', Y', hd, hlen, ⟨x0, y0, xl, yl, e1, e2, e3, e4, e5, e6⟩, _⟩ := C68_optimal _ _ _ _ _ _ h1
  obtain ⟨r0, rs, hrad⟩ := List.exists_cons_of_ne_nil hr
  -- the first data point is the first section
  have hfirst : x0 = r0 ∧ (s.parameters p).head? = some y0 := by
    rcases hd with ⟨_, rfl, rfl⟩ | ⟨hpos, b0, bl, c1, c2, rfl, c4⟩
    · rw [hrad] at e1
      exact ⟨by simpa using e1.symm, e2⟩
    · rw [hrad] at c1
      obtain rfl : r0 = b0 := by simpa using c1
      rw [linspaceN_head (by omega)] at e1
      obtain rfl : r0 = x0 := by simpa using e1
      refine ⟨rfl, ?_⟩
      obtain ⟨d1, d2, rfl⟩ := (reconstruct_wendland_iff (by norm_num) _ _).1 c4
      rw [List.head?_map, linspaceN_head (by omega), Option.map_some] at e2
      have hy : (s.parameters p) ≠ [] := by
        intro e; rw [e, hrad] at d1; cases d1
      obtain ⟨w, ws, hw⟩ := List.exists_cons_of_ne_nil hy
      have := interpW_node (r := 2) (X := s.radii) (y := s.parameters p) d1 (by norm_num) d2 (i := 0) (x := r0) (v := w)
        (by rw [hrad]; rfl) (by rw [hw]; rfl)
      simp only [Option.some.injEq] at e2
      rw [hw, List.head?_cons, ← e2, ← this, hw]
  obtain ⟨rfl, hy⟩ := hfirst
  -- the first deformed control point
  rcases hcp : cp with _ | ⟨q, cps⟩
  · rw [hcp] at e5; cases e5
  obtain rfl : q = (x0, y0) := by rw [hcp] at e5; simpa using e5
  rcases hdef : s.deformations p with _ | ⟨d, ds⟩
  · rw [hcp, hdef] at h2; cases h2
  have hD1 : (D p).1.head? = some (x0, y0 + d) := by rw [h3, hcp, hdef]; rfl
  -- the first spline point
  have hsp : (D p).2.1.head? = some (x0, y0 + d) := by
    rcases first_point h4 with he | he
    · rw [he, hrad] at h5; simp [deformLoop] at h5
    · rw [he, hD1]
  obtain ⟨sp', hsp'⟩ : ∃ t, (D p).2.1 = (x0, y0 + d) :: t := by
    cases hx : (D p).2.1 with
    | nil => rw [hx] at hsp; cases hsp
    | cons a t =>
      rw [hx] at hsp
      obtain rfl : a = (x0, y0 + d) := by simpa using hsp
      exact ⟨t, rfl⟩
  refine ⟨y0, d, hy, rfl, ?_⟩
  simp only [result, hall, if_true]
  rw [hrad, hsp'] at h5
  simp only [deformLoop] at h5
  rw [List.find?_cons_of_pos (by simp [ht p])] at h5
  simp only at h5
  split at h5
  · rename_i hlen
    have keep : ∀ (rs : List ℝ) (m : Nat) (sp : List Pt) (t : ℝ) (d d' : Arr), deformLoop sp t rs m d = (d', .ok ()) →
        ∀ j, j < m → d'[j]? = d[j]? := by
      intro rs
      induction rs with
      | nil =>
        intro m sp t d d' h j _
        simp only [deformLoop, Prod.mk.injEq, and_true] at h
        rw [h]
      | cons r rs ih =>
        intro m sp t d d' h j hj
        simp only [deformLoop] at h
        split at h
        · simp at h
        · split at h
          · rw [ih (m + 1) _ _ _ _ h j (by omega), List.getElem?_set, if_neg (by omega)]
          · simp at h
    have := keep _ _ _ _ _ _ h5 0 (by omega)
    rw [List.head?_eq_getElem?, this, List.getElem?_set]
    simp [hlen]
  · simp at h5

end Deform
end
end BladeX
