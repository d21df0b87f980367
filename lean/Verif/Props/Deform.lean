import Verif.Props.DeformFit
import Verif.Props.ParamFile

/-! # C35 - C39, C69: deforming radial distributions -/

namespace BladeX
noncomputable section
open Spec BSpline Classical
namespace Deform

theorem nameOf_str (p : PName) : nameOf p.str = some p := by cases p <;> decide

theorem nameOf_some {s : Str} {p : PName} (h : nameOf s = some p) : s = p.str := by
  unfold nameOf at h
  have := List.find?_some h
  simpa using (of_decide_eq_true this).symm

/-! ## C35: the order of the steps -/

/-- A call made by the user. -/
inductive Op
  | controlPoints (name : Str) (rbf : Option Int)
  | update (name : Str)
  | spline (name : Str)
  | deformed (name : Str) (tol : ℝ)
  | all (rbf : Option Int) (tol : PName → ℝ)

/-- The method behind a call. -/
def Op.call : Op → Call
  | .controlPoints n r => computeControlPoints n r
  | .update n => updateControlPoints n
  | .spline n => generateSpline n
  | .deformed n t => computeDeformed n t
  | .all r t => computeAll r t

/-- The name given with a call. -/
def Op.name : Op → Option Str
  | .controlPoints n _ => some n
  | .update n => some n
  | .spline n => some n
  | .deformed n _ => some n
  | .all _ _ => none

/-- The object after a history of calls (exceptions being caught by the user). -/
def after (s : Deform) : List Op → Deform
  | [] => s
  | o :: os => after (o.call s).1 os

/-- **C35**: a name that is not one of the five parameters raises `ValueError` in every method, and nothing changes. -/
theorem C35_unknown_name (s : Deform) (o : Op) (n : Str) (hn : o.name = some n)
    (h : n ∉ [c!"chord", c!"pitch", c!"rake", c!"skew", c!"camber"]) : o.call s = (s, .error .valueError) := by
  have hno : nameOf n = none := by
    rcases hx : nameOf n with _ | p
    · rfl
    · have := nameOf_some hx
      subst this
      exact absurd (by cases p <;> decide) h
  cases o <;> simp only [Op.name, Option.some.injEq, reduceCtorEq] at hn
  all_goals subst hn
  · simp only [Op.call, computeControlPoints, hno]
  · simp only [Op.call, updateControlPoints, hno]
  · simp only [Op.call, generateSpline, hno]
  · simp only [Op.call, computeDeformed, hno]

private theorem set_ne {α : Type*} {f : PName → α} {p q : PName} {v : α} (h : q ≠ p) : set f p v q = f q := by simp [set, h]

/-- A step other than the named ones leaves control points and spline of `p` alone. -/
private theorem keep_cp {s : Deform} {p : PName} (hc : s.controlPoints p = none) : ∀ o : Op,
    (∀ r, o ≠ .controlPoints p.str r) → (∀ r t, o ≠ .all r t) → (o.call s).1.controlPoints p = none := by
  intro o h1 h2
  cases o with
  | controlPoints n r =>
    simp only [Op.call, computeControlPoints]
    rcases hn : nameOf n with _ | q
    · exact hc
    · have hq : p ≠ q := by rintro rfl; exact h1 r (by rw [nameOf_some hn])
      simp only
      split
      · exact hc
      · simp only [set_ne hq]; exact hc
  | update n =>
    simp only [Op.call, updateControlPoints]
    rcases hn : nameOf n with _ | q
    · exact hc
    · simp only
      rcases hq : s.controlPoints q with _ | cp
      · exact hc
      · have hpq : p ≠ q := by rintro rfl; rw [hc] at hq; cases hq
        simp only
        split
        · exact hc
        · simp only [set_ne hpq]; exact hc
  | spline n =>
    simp only [Op.call, generateSpline]
    repeat' split
    all_goals exact hc
  | deformed n t =>
    simp only [Op.call, computeDeformed]
    repeat' split
    all_goals exact hc
  | all r t => exact absurd rfl (h2 r t)

private theorem keep_cp' (p : PName) : ∀ (os : List Op) (s : Deform), s.controlPoints p = none →
    (∀ o ∈ os, (∀ r, o ≠ .controlPoints p.str r) ∧ ∀ r t, o ≠ .all r t) → (after s os).controlPoints p = none := by
  intro os
  induction os with
  | nil => intro s h _; exact h
  | cons o os ih =>
    intro s h ho
    exact ih _ (keep_cp h o (ho o (by simp)).1 (ho o (by simp)).2) fun x hx => ho x (by simp [hx])

private theorem keep_sp {s : Deform} {p : PName} (hc : s.spline p = none) : ∀ o : Op,
    o ≠ .spline p.str → (∀ r t, o ≠ .all r t) → (o.call s).1.spline p = none := by
  intro o h1 h2
  cases o with
  | controlPoints n r =>
    simp only [Op.call, computeControlPoints]
    repeat' split
    all_goals exact hc
  | update n =>
    simp only [Op.call, updateControlPoints]
    repeat' split
    all_goals exact hc
  | spline n =>
    simp only [Op.call, generateSpline]
    rcases hn : nameOf n with _ | q
    · exact hc
    · have hq : p ≠ q := by rintro rfl; exact h1 (by rw [nameOf_some hn])
      simp only
      split
      · exact hc
      · split
        · exact hc
        · simp only [set_ne hq]; exact hc
  | deformed n t =>
    simp only [Op.call, computeDeformed]
    repeat' split
    all_goals exact hc
  | all r t => exact absurd rfl (h2 r t)

private theorem keep_sp' (p : PName) : ∀ (os : List Op) (s : Deform), s.spline p = none →
    (∀ o ∈ os, o ≠ .spline p.str ∧ ∀ r t, o ≠ .all r t) → (after s os).spline p = none := by
  intro os
  induction os with
  | nil => intro s h _; exact h
  | cons o os ih =>
    intro s h ho
    exact ih _ (keep_sp h o (ho o (by simp)).1 (ho o (by simp)).2) fun x hx => ho x (by simp [hx])

/-- **C35**: after any history on a new object without `compute_control_points` for the parameter (and without
`compute_all`), updating its control points or generating its spline raises `ValueError` and changes nothing. -/
theorem C35_control_points_first (pf : ParamFile) (os : List Op) (p : PName)
    (h : ∀ o ∈ os, (∀ r, o ≠ .controlPoints p.str r) ∧ ∀ r t, o ≠ .all r t) :
    updateControlPoints p.str (after (ofParam pf) os) = (after (ofParam pf) os, .error .valueError) ∧
    generateSpline p.str (after (ofParam pf) os) = (after (ofParam pf) os, .error .valueError) := by
  have := keep_cp' p os (ofParam pf) rfl h
  simp only [updateControlPoints, generateSpline, nameOf_str, this, and_self]

/-- **C35**: after any history on a new object without `generate_spline` for the parameter (and without `compute_all`),
computing its deformed values raises `ValueError` and changes nothing. -/
theorem C35_spline_first (pf : ParamFile) (os : List Op) (p : PName) (tol : ℝ)
    (h : ∀ o ∈ os, o ≠ .spline p.str ∧ ∀ r t, o ≠ .all r t) :
    computeDeformed p.str tol (after (ofParam pf) os) = (after (ofParam pf) os, .error .valueError) := by
  have := keep_sp' p os (ofParam pf) rfl h
  simp only [computeDeformed, nameOf_str, this]

/-- **C35**: and once a step has succeeded, no history takes it back: control points and splines never disappear. -/
theorem C35_never_forgotten (s : Deform) (os : List Op) (p : PName) :
    (s.controlPoints p ≠ none → (after s os).controlPoints p ≠ none) ∧ (s.spline p ≠ none → (after s os).spline p ≠ none) := by
  have hset : ∀ {α : Type} (f : PName → Option α) (q : PName) (v : α), f p ≠ none → set f q (some v) p ≠ none := by
    intro α f q v h
    unfold set
    split <;> simp_all
  have one : ∀ (c : Call), (∃ n r, c = computeControlPoints n r) ∨ (∃ n, c = updateControlPoints n) ∨
      (∃ n, c = generateSpline n) ∨ (∃ n t, c = computeDeformed n t) → ∀ s : Deform,
      (s.controlPoints p ≠ none → (c s).1.controlPoints p ≠ none) ∧ (s.spline p ≠ none → (c s).1.spline p ≠ none) := by
    rintro c (⟨n, r, rfl⟩ | ⟨n, rfl⟩ | ⟨n, rfl⟩ | ⟨n, t, rfl⟩) s
    · simp only [computeControlPoints]
      repeat' split
      all_goals first | exact ⟨id, id⟩ | exact ⟨hset _ _ _, id⟩
    · simp only [updateControlPoints]
      repeat' split
      all_goals first | exact ⟨id, id⟩ | exact ⟨hset _ _ _, id⟩
    · simp only [generateSpline]
      repeat' split
      all_goals first | exact ⟨id, id⟩ | exact ⟨id, hset _ _ _⟩
    · simp only [computeDeformed]
      repeat' split
      all_goals exact ⟨id, id⟩
  have many : ∀ (cs : List Call), (∀ c ∈ cs, ∀ s : Deform,
      (s.controlPoints p ≠ none → (c s).1.controlPoints p ≠ none) ∧ (s.spline p ≠ none → (c s).1.spline p ≠ none)) →
      ∀ s : Deform, (s.controlPoints p ≠ none → (seq cs s).1.controlPoints p ≠ none) ∧
        (s.spline p ≠ none → (seq cs s).1.spline p ≠ none) := by
    intro cs
    induction cs with
    | nil => intro _ s; exact ⟨id, id⟩
    | cons c cs ih =>
      intro h s
      have hc := h c (by simp) s
      have hi := ih (fun x hx => h x (by simp [hx]))
      simp only [seq]
      rcases he : c s with ⟨s', (e | u)⟩
      · rw [he] at hc; exact hc
      · rw [he] at hc
        exact ⟨fun a => (hi s').1 (hc.1 a), fun a => (hi s').2 (hc.2 a)⟩
  induction os generalizing s with
  | nil => exact ⟨id, id⟩
  | cons o os ih =>
    have ho : (s.controlPoints p ≠ none → (o.call s).1.controlPoints p ≠ none) ∧
        (s.spline p ≠ none → (o.call s).1.spline p ≠ none) := by
      cases o with
      | controlPoints n r => exact one _ (Or.inl ⟨n, r, rfl⟩) s
      | update n => exact one _ (Or.inr (Or.inl ⟨n, rfl⟩)) s
      | spline n => exact one _ (Or.inr (Or.inr (Or.inl ⟨n, rfl⟩))) s
      | deformed n t => exact one _ (Or.inr (Or.inr (Or.inr ⟨n, t, rfl⟩))) s
      | all r t =>
        apply many
        intro c hc
        obtain ⟨q, _, rfl⟩ := List.mem_map.1 hc
        apply many
        intro c hc
        simp only [List.mem_cons, List.not_mem_nil, or_false] at hc
        rcases hc with rfl | rfl | rfl | rfl
        · exact one _ (Or.inl ⟨_, _, rfl⟩)
        · exact one _ (Or.inr (Or.inl ⟨_, rfl⟩))
        · exact one _ (Or.inr (Or.inr (Or.inl ⟨_, rfl⟩)))
        · exact one _ (Or.inr (Or.inr (Or.inr ⟨_, _, rfl⟩)))
    exact ⟨fun a => (ih _).1 (ho.1 a), fun a => (ih _).2 (ho.2 a)⟩

/-! ## C36: updating the control points -/

/-- **C36**: with control points and as many deformations, the update succeeds, adds the `i`-th deformation to the ordinate of
the `i`-th control point of this parameter, keeps its abscissa, and changes nothing else. -/
theorem C36_update (s : Deform) (p : PName) (cp : List Pt) (hc : s.controlPoints p = some cp)
    (hl : cp.length = (s.deformations p).length) :
    ∃ s' cp', updateControlPoints p.str s = (s', .ok ()) ∧ s'.controlPoints p = some cp' ∧ cp'.length = cp.length ∧
      (∀ i (h : i < cp.length) (h' : i < cp'.length) (hd : i < (s.deformations p).length),
        cp'[i] = (cp[i].1, cp[i].2 + (s.deformations p)[i])) ∧
      (∀ q, q ≠ p → s'.controlPoints q = s.controlPoints q) ∧
      s' = { s with controlPoints := s'.controlPoints } := by
  simp only [updateControlPoints, nameOf_str, hc, hl, ne_eq, not_true_eq_false, if_false]
  refine ⟨_, List.zipWith (fun (q : Pt) d => (q.1, q.2 + d)) cp (s.deformations p), rfl, by simp [set], by simp [hl], ?_, ?_, rfl⟩
  · intro i h h' hd; simp
  · intro q hq; simp [set, hq]

/-- **C36**: `k` updates add `k` times the deformations. -/
theorem C36_repeated (k : Nat) (s : Deform) (p : PName) (cp : List Pt) (hc : s.controlPoints p = some cp)
    (hl : cp.length = (s.deformations p).length) :
    (after s (List.replicate k (.update p.str))).controlPoints p =
      some (List.zipWith (fun (q : Pt) d => (q.1, q.2 + k * d)) cp (s.deformations p)) := by
  induction k generalizing s cp with
  | zero =>
    simp only [List.replicate_zero, after, hc, Nat.cast_zero, zero_mul, add_zero]
    congr 1
    symm
    apply List.ext_getElem
    · simp [hl]
    · intro i h1 h2; simp
  | succ k ih =>
    rw [List.replicate_succ]
    obtain ⟨s', cp', h1, h2, h3, h4, _, h6⟩ := C36_update s p cp hc hl
    have hd : s'.deformations = s.deformations := by rw [h6]
    have e : (Op.call (.update p.str) s).1 = s' := by simp only [Op.call, h1]
    rw [after, e, ih s' cp' h2 (by rw [h3, hd, hl]), hd]
    congr 1
    apply List.ext_getElem
    · simp [h3]
    · intro i a b
      simp only [List.length_zipWith] at a b
      rw [List.getElem_zipWith, List.getElem_zipWith, h4 i (by omega) (by omega) (by omega)]
      simp only [Nat.cast_succ]
      ext
      · rfl
      · simp only; ring

/-- **C36**: a deformation vector of another length is refused, and nothing changes. -/
theorem C36_length (s : Deform) (p : PName) (cp : List Pt) (hc : s.controlPoints p = some cp)
    (hl : cp.length ≠ (s.deformations p).length) : updateControlPoints p.str s = (s, .error .valueError) := by
  simp [updateControlPoints, nameOf_str, hc, hl]

/-! ## C37: taking the deformed values from the spline -/

/-- What the loop does on success. -/
theorem loop_ok {sp : List Pt} {tol : ℝ} : ∀ (rs : List ℝ) (i : Nat) (d d' : Arr),
    deformLoop sp tol rs i d = (d', .ok ()) → d'.length = d.length ∧ (rs ≠ [] → i + rs.length ≤ d.length) ∧
      (∀ j, j < i ∨ i + rs.length ≤ j → d'[j]? = d[j]?) ∧
      ∀ j (hj : j < rs.length), ∃ q, sp.find? (fun q => decide (|q.1 - rs[j]| < tol)) = some q ∧ d'[i + j]? = some q.2 := by
  intro rs
  induction rs with
  | nil =>
    intro i d d' h
    simp only [deformLoop, Prod.mk.injEq, and_true] at h
    subst h
    exact ⟨rfl, by simp, fun _ _ => rfl, by simp⟩
  | cons r rs ih =>
    intro i d d' h
    simp only [deformLoop] at h
    split at h
    · simp at h
    · rename_i q hq
      split at h
      · rename_i hi
        obtain ⟨a, b, c, e⟩ := ih _ _ _ h
        rw [List.length_set] at a b
        refine ⟨a, fun _ => ?_, ?_, ?_⟩
        · by_cases hne : rs = []
          · subst hne; simp; omega
          · have := b hne; simp; omega
        · intro j hj
          rw [c j (by simp at hj; omega), List.getElem?_set]
          rw [if_neg]
          simp at hj; omega
        · intro j hj
          cases j with
          | zero =>
            refine ⟨q, hq, ?_⟩
            rw [c (i + 0) (by omega), List.getElem?_set]
            simp [hi]
          | succ j =>
            obtain ⟨q', e1, e2⟩ := e j (by simpa using hj)
            exact ⟨q', e1, by rw [← e2]; congr 1; omega⟩
      · simp at h

/-- **C37**: on success every deformed value is the ordinate of the first spline point whose abscissa is within the tolerance
of the radius, and nothing else changes. -/
theorem C37_values (s s' : Deform) (p : PName) (tol : ℝ) (sp : List Pt) (hs : s.spline p = some sp)
    (hl : (s.deformed p).length = s.radii.length) (h : computeDeformed p.str tol s = (s', .ok ())) :
    (s'.deformed p).length = s.radii.length ∧
    (∀ i (hi : i < s.radii.length) (hi' : i < (s'.deformed p).length), ∃ k, ∃ hk : k < sp.length,
      |sp[k].1 - s.radii[i]| < tol ∧ (∀ m (hm : m < k), tol ≤ |(sp[m]'(hm.trans hk)).1 - s.radii[i]|) ∧
      (s'.deformed p)[i] = sp[k].2) ∧
    (∀ q, q ≠ p → s'.deformed q = s.deformed q) ∧ s' = { s with deformed := s'.deformed } := by
  simp only [computeDeformed, nameOf_str, hs] at h
  rcases hd : deformLoop sp tol s.radii 0 (s.deformed p) with ⟨d, r⟩
  rw [hd] at h
  simp only [Prod.mk.injEq] at h
  obtain ⟨rfl, rfl⟩ := h
  obtain ⟨a, _, _, e⟩ := loop_ok _ _ _ _ hd
  have hset : ({ s with deformed := set s.deformed p d } : Deform).deformed p = d := by simp [set]
  refine ⟨by rw [hset, a, hl], ?_, fun q hq => by simp [set, hq], rfl⟩
  intro i hi hi'
  obtain ⟨q, hq, hv⟩ := e i hi
  rw [List.find?_eq_some_iff_getElem] at hq
  obtain ⟨hq1, k, hk, rfl, hq3⟩ := hq
  refine ⟨k, hk, by simpa using hq1, ?_, ?_⟩
  · intro m hm
    have := hq3 m hm
    simpa using this
  · have h2 : d[i]? = some sp[k].2 := by rw [← hv]; simp
    have h3 : i < d.length := by rw [a, hl]; exact hi
    rw [List.getElem?_eq_getElem h3] at h2
    have := Option.some.inj h2
    simpa [set] using this

/-- What the loop does on failure. -/
private theorem loop_fail {sp : List Pt} {tol : ℝ} : ∀ (rs : List ℝ) (i : Nat) (d : Arr), i + rs.length ≤ d.length →
    (∃ r ∈ rs, ∀ q ∈ sp, tol ≤ |q.1 - r|) →
    ∃ k, ∃ hk : k < rs.length, (∀ q ∈ sp, tol ≤ |q.1 - rs[k]|) ∧ (∀ j (hj : j < k), ∃ q ∈ sp, |q.1 - rs[j]| < tol) ∧
      ∃ d', deformLoop sp tol rs i d = (d', .error .valueError) ∧ deformLoop sp tol (rs.take k) i d = (d', .ok ()) := by
  intro rs
  induction rs with
  | nil => intro i d _ h; simp at h
  | cons r rs ih =>
    intro i d hl h
    rcases hf : sp.find? (fun q => decide (|q.1 - r| < tol)) with _ | q
    · refine ⟨0, by simp, ?_, by simp, d, by simp only [deformLoop, hf], by simp [deformLoop]⟩
      intro q hq
      have := List.find?_eq_none.1 hf q hq
      simpa using this
    · have hq1 := List.find?_some hf
      have hq2 := List.mem_of_find?_eq_some hf
      have hq3 : |q.1 - r| < tol := of_decide_eq_true hq1
      have h' : ∃ r ∈ rs, ∀ q ∈ sp, tol ≤ |q.1 - r| := by
        obtain ⟨r', hr', hall⟩ := h
        rcases List.mem_cons.1 hr' with rfl | hr'
        · exact absurd (hall q hq2) (not_le.2 hq3)
        · exact ⟨r', hr', hall⟩
      simp only [List.length_cons] at hl
      have hi : i < d.length := by omega
      obtain ⟨k, hk, a, b, d', c1, c2⟩ := ih (i + 1) (d.set i q.2) (by rw [List.length_set]; omega) h'
      refine ⟨k + 1, by simp; omega, by simpa using a, ?_, d', ?_, ?_⟩
      · intro j hj
        cases j with
        | zero => exact ⟨q, hq2, by simpa using hq3⟩
        | succ j => simpa using b j (by omega)
      · simp only [deformLoop, hf, hi, if_true]; exact c1
      · simp only [List.take_succ_cons, deformLoop, hf, hi, if_true]; exact c2

theorem loop_all {sp : List Pt} {tol : ℝ} : ∀ (rs : List ℝ) (i : Nat) (d : Arr), i + rs.length ≤ d.length →
    (∀ r ∈ rs, ∃ q ∈ sp, |q.1 - r| < tol) → ∃ d', deformLoop sp tol rs i d = (d', .ok ()) := by
  intro rs
  induction rs with
  | nil => intro i d _ _; exact ⟨d, rfl⟩
  | cons r rs ih =>
    intro i d hl h
    rcases hf : sp.find? (fun q => decide (|q.1 - r| < tol)) with _ | q
    · obtain ⟨q, hq, hlt⟩ := h r (by simp)
      have := List.find?_eq_none.1 hf q hq
      simp [hlt] at this
    · simp only [List.length_cons] at hl
      obtain ⟨d', hd⟩ := ih (i + 1) (d.set i q.2) (by rw [List.length_set]; omega) fun r' hr' => h r' (by simp [hr'])
      exact ⟨d', by simp only [deformLoop, hf, show i < d.length by omega, if_true]; exact hd⟩

/-- **C37**: with a spline and one deformed value per radius, the call succeeds iff every radius has a spline point within the
tolerance. -/
theorem C37_succeeds_iff (s : Deform) (p : PName) (tol : ℝ) (sp : List Pt) (hs : s.spline p = some sp)
    (hl : (s.deformed p).length = s.radii.length) :
    (computeDeformed p.str tol s).2 = .ok () ↔ ∀ r ∈ s.radii, ∃ q ∈ sp, |q.1 - r| < tol := by
  simp only [computeDeformed, nameOf_str, hs]
  constructor
  · intro h r hr
    by_contra hno
    push Not at hno
    obtain ⟨_, _, _, _, d', h1, _⟩ := loop_fail (sp := sp) (tol := tol) s.radii 0 (s.deformed p) (by omega) ⟨r, hr, hno⟩
    rw [h1] at h
    cases h
  · intro h
    obtain ⟨d', hd⟩ := loop_all s.radii 0 (s.deformed p) (by omega) h
    rw [hd]

/-- **C37**: otherwise it raises `ValueError` after overwriting exactly the values of the radii before the first one without
a spline point. -/
theorem C37_failure (s : Deform) (p : PName) (tol : ℝ) (sp : List Pt) (hs : s.spline p = some sp)
    (hl : (s.deformed p).length = s.radii.length) (h : ∃ r ∈ s.radii, ∀ q ∈ sp, tol ≤ |q.1 - r|) :
    ∃ s' k, ∃ hk : k < s.radii.length, computeDeformed p.str tol s = (s', .error .valueError) ∧
      (∀ q ∈ sp, tol ≤ |q.1 - s.radii[k]|) ∧ (∀ j (hj : j < k), ∃ q ∈ sp, |q.1 - s.radii[j]| < tol) ∧
      (∀ j (hj : j < k), ∃ q, sp.find? (fun q => decide (|q.1 - s.radii[j]| < tol)) = some q ∧ (s'.deformed p)[j]? = some q.2) ∧
      (∀ j, k ≤ j → (s'.deformed p)[j]? = (s.deformed p)[j]?) := by
  obtain ⟨k, hk, a, b, d', h1, h2⟩ := loop_fail (sp := sp) (tol := tol) s.radii 0 (s.deformed p) (by omega) h
  obtain ⟨_, _, c3, c4⟩ := loop_ok _ _ _ _ h2
  refine ⟨{ s with deformed := set s.deformed p d' }, k, hk, ?_, a, b, ?_, ?_⟩
  · simp only [computeDeformed, nameOf_str, hs, h1]
  · intro j hj
    obtain ⟨q, e1, e2⟩ := c4 j (by simp; omega)
    refine ⟨q, by simpa using e1, ?_⟩
    rw [← e2]; simp [set]
  · intro j hj
    have := c3 j (Or.inr (by simp; omega))
    simpa [set] using this

/-! ## C38: the check for deformed values -/

/-- **C38**: plotting the deformed values of an otherwise computed parameter raises `ValueError` iff one of the values is
zero. -/
theorem C38_plot_zero (s : Deform) (p : PName) (cp sp : Bool) (hc : s.controlPoints p ≠ none) (hs : s.spline p ≠ none) :
    plotChecks s p.str cp sp true = (if (0 : ℝ) ∈ s.deformed p then .error .valueError else .ok ()) := by
  unfold plotChecks checkDeformed
  simp only [nameOf_str, hc, hs, and_false, if_false, bind, Except.bind, pure, Except.pure, if_true]
  by_cases h : (0 : ℝ) ∈ s.deformed p
  · rw [if_pos h, if_pos]
    rw [List.all_eq_false]
    exact ⟨0, h, by simp⟩
  · rw [if_neg h, if_neg]
    rw [Bool.not_eq_false, List.all_eq_true]
    intro x hx
    simp only [ne_eq, decide_eq_true_eq]
    rintro rfl; exact h hx

/-- An object with computed values, one of which happens to be zero. -/
def zeroRake : Deform where
  radii := [0.5, 1]
  parameters := fun _ => [0, 1]
  nbasis := fun _ => 2
  degree := fun _ => 1
  npoints := fun _ => 3
  deformations := fun _ => [0, 1]
  deformed := fun _ => [0, 2]
  controlPoints := fun _ => some [(0.5, 0), (1, 2)]
  spline := fun _ => some [(0.5, 0), (0.75, 1), (1, 2)]

/-- **C38**: so values that have been computed are reported as not computed when one of them is zero. -/
theorem C38_computed_zero : computeDeformed PName.rake.str 0.001 zeroRake = (zeroRake, .ok ()) ∧
    plotChecks zeroRake PName.rake.str true true true = .error .valueError := by
  constructor
  · have f1 : ([(0.5, 0), (0.75, 1), (1, 2)] : List Pt).find? (fun q => decide (|q.1 - 0.5| < 0.001)) = some (0.5, 0) := by
      rw [List.find?_cons_of_pos]; norm_num
    have f2 : ([(0.5, 0), (0.75, 1), (1, 2)] : List Pt).find? (fun q => decide (|q.1 - 1| < 0.001)) = some (1, 2) := by
      rw [List.find?_cons_of_neg, List.find?_cons_of_neg, List.find?_cons_of_pos]
      · norm_num
      · norm_num [abs_lt]
      · norm_num [abs_lt]
    simp only [computeDeformed, nameOf_str, zeroRake, deformLoop, f1, f2]
    simp only [List.length_cons, List.length_nil, List.set]
    norm_num
    funext q
    simp [set]
  · rw [C38_plot_zero _ _ _ _ (by simp [zeroRake]) (by simp [zeroRake])]
    simp [zeroRake]

end Deform
end
end BladeX
