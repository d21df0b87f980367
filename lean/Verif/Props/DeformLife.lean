import Verif.Props.DeformExport
import Verif.Props.DeformLinear

/-! # Every history of calls on one `Deformation` (C110) -/

namespace BladeX
noncomputable section
open Spec BSpline Classical
namespace Deform

/-! ### What is claimed -/

/-- Points with their ordinates raised by `k` times the deformations. -/
def raised (k : Nat) (d : Arr) (fit : List Pt) : List Pt := fit.mapIdx fun i q => (q.1, q.2 + k * d.getD i 0)

/-- `rbf` was the number of points of some call in the history that fits control points of the parameter. -/
def FittedIn (os : List Op) (p : PName) (rbf : Option Int) : Prop := .controlPoints p.str rbf ∈ os ∨ ∃ t, .all rbf t ∈ os

/-- `tol` was the tolerance of some call in the history that computes deformed values of the parameter. -/
def TolIn (os : List Op) (p : PName) (tol : ℝ) : Prop := .deformed p.str tol ∈ os ∨ ∃ r t, .all r t ∈ os ∧ t p = tol

/-- The points are control points fitted to the given distribution, with a number of points in `R`, and raised by a multiple of the
deformations. -/
def Made (s : Deform) (p : PName) (R : Option Int → Prop) (cp : List Pt) : Prop :=
  ∃ rbf fit k, R rbf ∧ optimum s.radii (s.parameters p) (s.degree p) (s.nbasis p) rbf = .ok fit ∧
    (0 < k → fit.length = (s.deformations p).length) ∧ cp = raised k (s.deformations p) fit

/-- The points are the spline of such control points. -/
def MadeSpline (s : Deform) (p : PName) (R : Option Int → Prop) (sp : List Pt) : Prop :=
  ∃ cp, Made s p R cp ∧ scipyBspline cp (s.npoints p) (s.degree p) = .ok sp

/-- The call says something about the parameter. -/
def Op.concerns (p : PName) : Op → Bool
  | .all _ _ => true
  | .controlPoints n _ => decide (n = p.str)
  | .update n => decide (n = p.str)
  | .spline n => decide (n = p.str)
  | .deformed n _ => decide (n = p.str)

/-- The two objects agree in control points, spline and deformed values of the parameter. -/
def SameFor (p : PName) (s t : Deform) : Prop :=
  s.controlPoints p = t.controlPoints p ∧ s.spline p = t.spline p ∧ s.deformed p = t.deformed p

/-- The two objects were made from the same parameter file. -/
def SameInput (s t : Deform) : Prop :=
  s.radii = t.radii ∧ s.parameters = t.parameters ∧ s.deformations = t.deformations ∧
    s.nbasis = t.nbasis ∧ s.degree = t.degree ∧ s.npoints = t.npoints

/-- One deformed value per section. -/
def Sized (s : Deform) : Prop := ∀ p, (s.deformed p).length = s.radii.length

/-! ### Lemmas -/

theorem raised_zero (d : Arr) (fit : List Pt) : raised 0 d fit = fit := by
  apply List.ext_getElem
  · simp [raised]
  · intro i h1 h2; simp [raised]

theorem raised_length (k : Nat) (d : Arr) (fit : List Pt) : (raised k d fit).length = fit.length := by simp [raised]

theorem raised_succ {k : Nat} {d : Arr} {fit : List Pt} (h : fit.length = d.length) :
    List.zipWith (fun (q : Pt) e => (q.1, q.2 + e)) (raised k d fit) d = raised (k + 1) d fit := by
  apply List.ext_getElem
  · simp [raised, h]
  · intro i h1 h2
    have hi : i < d.length := by simp [raised, h] at h1; omega
    simp only [raised, List.getElem_zipWith, List.getElem_mapIdx, List.getD_eq_getElem?_getD, List.getElem?_eq_getElem hi, Option.getD_some]
    push_cast
    ext <;> simp
    ring

theorem SameInput.refl (s : Deform) : SameInput s s := ⟨rfl, rfl, rfl, rfl, rfl, rfl⟩

theorem SameInput.symm {s t : Deform} (h : SameInput s t) : SameInput t s :=
  ⟨h.1.symm, h.2.1.symm, h.2.2.1.symm, h.2.2.2.1.symm, h.2.2.2.2.1.symm, h.2.2.2.2.2.symm⟩

theorem SameInput.trans {s t u : Deform} (h : SameInput s t) (h' : SameInput t u) : SameInput s u :=
  ⟨h.1.trans h'.1, h.2.1.trans h'.2.1, h.2.2.1.trans h'.2.2.1, h.2.2.2.1.trans h'.2.2.2.1, h.2.2.2.2.1.trans h'.2.2.2.2.1,
    h.2.2.2.2.2.trans h'.2.2.2.2.2⟩

theorem call_input (s : Deform) (o : Op) : SameInput (o.call s).1 s := C36_compute_all_keeps_input s o

theorem call_sized {s : Deform} (h : Sized s) (o : Op) : Sized (o.call s).1 := by
  intro p
  rw [call_length, h p, (call_input s o).1]

/-- Whether the loop over the radii succeeds does not depend on the values stored before. -/
theorem loop_outcome {sp : List Pt} {tol : ℝ} : ∀ (rs : List ℝ) (i : Nat) (d d' : Arr), d.length = d'.length →
    (deformLoop sp tol rs i d).2 = (deformLoop sp tol rs i d').2 := by
  intro rs
  induction rs with
  | nil => intro i d d' _; rfl
  | cons r rs ih =>
    intro i d d' h
    simp only [deformLoop]
    split
    · rfl
    · by_cases hi : i < d.length
      · rw [if_pos hi, if_pos (by omega)]
        exact ih _ _ _ (by simp [h])
      · rw [if_neg hi, if_neg (by omega)]

/-- The four steps of `compute_all` for one parameter. -/
def block (rbf : Option Int) (tol : ℝ) (q : PName) : Call :=
  seq [computeControlPoints q.str rbf, updateControlPoints q.str, generateSpline q.str, computeDeformed q.str tol]

private theorem set_same {α : Type*} {f : PName → α} {p : PName} {v : α} : set f p v p = v := by simp [set]

private theorem set_other {α : Type*} {f : PName → α} {p q : PName} {v : α} (h : q ≠ p) : set f p v q = f q := by simp [set, h]

private theorem set_twice {α : Type*} {f : PName → α} {p : PName} {v w : α} : set (set f p v) p w = set f p w := by
  funext q; by_cases h : q = p <;> simp [set, h]

theorem block_eq (rbf : Option Int) (tol : ℝ) (q : PName) (s : Deform) : block rbf tol q s =
    match optimum s.radii (s.parameters q) (s.degree q) (s.nbasis q) rbf with
    | .error e => (s, .error e)
    | .ok cp =>
      if cp.length ≠ (s.deformations q).length then ({ s with controlPoints := set s.controlPoints q (some cp) }, .error .valueError)
      else
        match scipyBspline (List.zipWith (fun (q : Pt) d => (q.1, q.2 + d)) cp (s.deformations q)) (s.npoints q) (s.degree q) with
        | .error e => ({ s with controlPoints := set s.controlPoints q (some (List.zipWith (fun (q : Pt) d => (q.1, q.2 + d)) cp (s.deformations q))) }, .error e)
        | .ok sp =>
          ({ s with controlPoints := set s.controlPoints q (some (List.zipWith (fun (q : Pt) d => (q.1, q.2 + d)) cp (s.deformations q))),
                    spline := set s.spline q (some sp), deformed := set s.deformed q (deformLoop sp tol s.radii 0 (s.deformed q)).1 },
            (deformLoop sp tol s.radii 0 (s.deformed q)).2) := by
  simp only [block, seq, computeControlPoints, nameOf_str]
  rcases h1 : optimum s.radii (s.parameters q) (s.degree q) (s.nbasis q) rbf with e | cp
  · rfl
  simp only [updateControlPoints, nameOf_str, set_same]
  by_cases h2 : cp.length = (s.deformations q).length
  swap
  · rw [if_pos h2, if_pos h2]
  rw [if_neg (not_not.2 h2), if_neg (not_not.2 h2)]
  simp only [generateSpline, nameOf_str, set_same, set_twice]
  rcases h3 : scipyBspline (List.zipWith (fun (q : Pt) d => (q.1, q.2 + d)) cp (s.deformations q)) (s.npoints q) (s.degree q) with e | sp
  · rfl
  simp only [computeDeformed, nameOf_str, set_same]
  rcases h4 : deformLoop sp tol s.radii 0 (s.deformed q) with ⟨d, e | ⟨⟩⟩
  · rfl
  · rfl

/-- A block leaves the other parameters alone. -/
theorem block_other {rbf : Option Int} {tol : ℝ} {p q : PName} (h : p ≠ q) (s : Deform) : SameFor p (block rbf tol q s).1 s := by
  rw [block_eq]
  repeat' split
  all_goals simp [SameFor, set_other h]

/-- Whether a block succeeds depends on the parameter file only. -/
theorem block_outcome {rbf : Option Int} {tol : ℝ} {q : PName} {s t : Deform} (h : SameInput s t) (hs : Sized s) (ht : Sized t) :
    (block rbf tol q s).2 = (block rbf tol q t).2 := by
  obtain ⟨h1, h2, h3, h4, h5, h6⟩ := h
  rw [block_eq, block_eq, h1, h2, h3, h4, h5, h6]
  repeat' split
  all_goals first | rfl | skip
  exact loop_outcome _ _ _ _ (by rw [hs, ht, h1])

theorem block_same {rbf : Option Int} {tol : ℝ} {p : PName} {s t : Deform} (h : SameInput s t) (hp : SameFor p s t) :
    SameFor p (block rbf tol p s).1 (block rbf tol p t).1 := by
  obtain ⟨h1, h2, h3, h4, h5, h6⟩ := h
  obtain ⟨k1, k2, k3⟩ := hp
  rw [block_eq, block_eq, h1, h2, h3, h4, h5, h6, k3]
  repeat' split
  all_goals simp [SameFor, set_same, k1, k2, k3]

theorem block_input {rbf : Option Int} {tol : ℝ} {q : PName} (s : Deform) : SameInput (block rbf tol q s).1 s := by
  rw [block_eq]
  repeat' split
  all_goals exact ⟨rfl, rfl, rfl, rfl, rfl, rfl⟩

private theorem loop_length {sp : List Pt} {tol : ℝ} : ∀ (rs : List ℝ) (i : Nat) (d : Arr), (deformLoop sp tol rs i d).1.length = d.length := by
  intro rs
  induction rs with
  | nil => intro i d; rfl
  | cons r rs ih =>
    intro i d
    simp only [deformLoop]
    split
    · rfl
    · split
      · rw [ih, List.length_set]
      · rfl

theorem block_sized {rbf : Option Int} {tol : ℝ} {q : PName} {s : Deform} (h : Sized s) : Sized (block rbf tol q s).1 := by
  intro p
  rw [(block_input s).1, ← h p]
  rw [block_eq]
  repeat' split
  all_goals first | rfl | skip
  simp only [set]
  split
  · rename_i e; rw [loop_length, e]
  · rfl

/-- Blocks one after the other. -/
theorem blocks_same {rbf : Option Int} {tol : PName → ℝ} {p : PName} : ∀ (l : List PName) (s t : Deform), SameInput s t → Sized s → Sized t →
    SameFor p s t → SameFor p (seq (l.map fun q => block rbf (tol q) q) s).1 (seq (l.map fun q => block rbf (tol q) q) t).1 := by
  intro l
  induction l with
  | nil => intro s t _ _ _ h; exact h
  | cons q l ih =>
    intro s t hi hs ht hp
    have ho := block_outcome (rbf := rbf) (tol := tol q) (q := q) hi hs ht
    have hi' : SameInput (block rbf (tol q) q s).1 (block rbf (tol q) q t).1 := (block_input s).trans (hi.trans (block_input t).symm)
    have hs' : Sized (block rbf (tol q) q s).1 := block_sized hs
    have ht' : Sized (block rbf (tol q) q t).1 := block_sized ht
    have hp' : SameFor p (block rbf (tol q) q s).1 (block rbf (tol q) q t).1 := by
      by_cases hq : p = q
      · subst hq; exact block_same hi hp
      · obtain ⟨a1, a2, a3⟩ := block_other (rbf := rbf) (tol := tol q) hq s
        obtain ⟨b1, b2, b3⟩ := block_other (rbf := rbf) (tol := tol q) hq t
        exact ⟨a1.trans (hp.1.trans b1.symm), a2.trans (hp.2.1.trans b2.symm), a3.trans (hp.2.2.trans b3.symm)⟩
    simp only [List.map_cons, seq]
    rcases e1 : block rbf (tol q) q s with ⟨s1, r1⟩
    rcases e2 : block rbf (tol q) q t with ⟨t1, r2⟩
    rw [e1, e2] at ho hi' hp'
    rw [e1] at hs'
    rw [e2] at ht'
    simp only at ho hi' hp' hs' ht'
    subst ho
    cases r1 with
    | error e => exact hp'
    | ok u => exact ih _ _ hi' hs' ht' hp'

theorem concerns_name {p : PName} {n : Str} : nameOf n = some p ↔ n = p.str :=
  ⟨nameOf_some, fun h => h ▸ nameOf_str p⟩

/-- A call that does not concern the parameter does nothing to it. -/
theorem call_other {p : PName} {o : Op} (h : o.concerns p = false) (s : Deform) : SameFor p (o.call s).1 s := by
  cases o with
  | all r t => simp [Op.concerns] at h
  | controlPoints n r =>
    simp only [Op.concerns, decide_eq_false_iff_not] at h
    simp only [Op.call, computeControlPoints]
    rcases hn : nameOf n with _ | q
    · exact ⟨rfl, rfl, rfl⟩
    · have hq : p ≠ q := by rintro rfl; exact h (nameOf_some hn)
      simp only
      split <;> simp [SameFor, set_other hq]
  | update n =>
    simp only [Op.concerns, decide_eq_false_iff_not] at h
    simp only [Op.call, updateControlPoints]
    rcases hn : nameOf n with _ | q
    · exact ⟨rfl, rfl, rfl⟩
    · have hq : p ≠ q := by rintro rfl; exact h (nameOf_some hn)
      simp only
      repeat' split
      all_goals simp [SameFor, set_other hq]
  | spline n =>
    simp only [Op.concerns, decide_eq_false_iff_not] at h
    simp only [Op.call, generateSpline]
    rcases hn : nameOf n with _ | q
    · exact ⟨rfl, rfl, rfl⟩
    · have hq : p ≠ q := by rintro rfl; exact h (nameOf_some hn)
      simp only
      repeat' split
      all_goals simp [SameFor, set_other hq]
  | deformed n tol =>
    simp only [Op.concerns, decide_eq_false_iff_not] at h
    simp only [Op.call, computeDeformed]
    rcases hn : nameOf n with _ | q
    · exact ⟨rfl, rfl, rfl⟩
    · have hq : p ≠ q := by rintro rfl; exact h (nameOf_some hn)
      simp only
      repeat' split
      all_goals simp [SameFor, set_other hq]

/-- A call that concerns the parameter does the same to objects that agree in it. -/
theorem call_same {p : PName} {o : Op} (h : o.concerns p = true) {s t : Deform} (hi : SameInput s t) (hs : Sized s) (ht : Sized t)
    (hp : SameFor p s t) : SameFor p (o.call s).1 (o.call t).1 := by
  cases o with
  | all r tol => exact blocks_same PName.all s t hi hs ht hp
  | controlPoints n r =>
    simp only [Op.concerns, decide_eq_true_eq] at h
    subst h
    obtain ⟨h1, h2, h3, h4, h5, h6⟩ := hi
    obtain ⟨k1, k2, k3⟩ := hp
    simp only [Op.call, computeControlPoints, nameOf_str, h1, h2, h4, h5]
    repeat' split
    all_goals simp [SameFor, set_same, k1, k2, k3]
  | update n =>
    simp only [Op.concerns, decide_eq_true_eq] at h
    subst h
    obtain ⟨h1, h2, h3, h4, h5, h6⟩ := hi
    obtain ⟨k1, k2, k3⟩ := hp
    simp only [Op.call, updateControlPoints, nameOf_str, h3, k1]
    repeat' split
    all_goals simp_all [SameFor, set_same]
  | spline n =>
    simp only [Op.concerns, decide_eq_true_eq] at h
    subst h
    obtain ⟨h1, h2, h3, h4, h5, h6⟩ := hi
    obtain ⟨k1, k2, k3⟩ := hp
    simp only [Op.call, generateSpline, nameOf_str, h5, h6, k1]
    repeat' split
    all_goals simp_all [SameFor, set_same]
  | deformed n tol =>
    simp only [Op.concerns, decide_eq_true_eq] at h
    subst h
    obtain ⟨h1, h2, h3, h4, h5, h6⟩ := hi
    obtain ⟨k1, k2, k3⟩ := hp
    simp only [Op.call, computeDeformed, nameOf_str, h1, k2, k3]
    repeat' split
    all_goals simp_all [SameFor, set_same]

private theorem after_filter {p : PName} : ∀ (os : List Op) (s t : Deform), SameInput s t → Sized s → Sized t → SameFor p s t →
    SameFor p (after s os) (after t (os.filter (·.concerns p))) := by
  intro os
  induction os with
  | nil => intro s t _ _ _ h; exact h
  | cons o os ih =>
    intro s t hi hs ht hp
    rcases ho : o.concerns p with _ | _
    · rw [List.filter_cons_of_neg (by simp [ho])]
      obtain ⟨a1, a2, a3⟩ := call_other ho s
      exact ih _ _ ((call_input s o).trans hi) (call_sized hs o) ht ⟨a1.trans hp.1, a2.trans hp.2.1, a3.trans hp.2.2⟩
    · rw [List.filter_cons_of_pos (by simp [ho])]
      exact ih _ _ ((call_input s o).trans (hi.trans (call_input t o).symm)) (call_sized hs o) (call_sized ht o)
        (call_same ho hi hs ht hp)

theorem ofParam_sized (pf : ParamFile) : Sized (ofParam pf) := by intro p; simp [ofParam]

theorem after_sized {s : Deform} (h : Sized s) (os : List Op) : Sized (after s os) := by
  intro p
  obtain ⟨h1, -, -, -, -, -, h7⟩ := after_keeps os s
  rw [h7, h1, h p]

theorem after_input (s : Deform) (os : List Op) : SameInput (after s os) s := by
  obtain ⟨h1, h2, h3, h4, h5, h6, -⟩ := after_keeps os s
  exact ⟨h1, h2, h3, h4, h5, h6⟩

/-! ### The property -/

/-- **C110** the parameters do not interfere: what a history leaves for a parameter is determined by those of its calls that name the
parameter and by the calls of `compute_all`, in their order - calls for other parameters may be added, dropped or moved, and may fail. -/
theorem C110_separate (pf : ParamFile) (os os' : List Op) (p : PName) (h : os.filter (·.concerns p) = os'.filter (·.concerns p)) :
    (after (ofParam pf) os).controlPoints p = (after (ofParam pf) os').controlPoints p ∧
    (after (ofParam pf) os).spline p = (after (ofParam pf) os').spline p ∧
    (after (ofParam pf) os).deformed p = (after (ofParam pf) os').deformed p := by
  have hz := ofParam_sized pf
  obtain ⟨a1, a2, a3⟩ := after_filter (p := p) os _ _ (SameInput.refl (ofParam pf)) hz hz ⟨rfl, rfl, rfl⟩
  obtain ⟨b1, b2, b3⟩ := after_filter (p := p) os' _ _ (SameInput.refl (ofParam pf)) hz hz ⟨rfl, rfl, rfl⟩
  rw [← h] at b1 b2 b3
  exact ⟨a1.trans b1.symm, a2.trans b2.symm, a3.trans b3.symm⟩

/-- **C110** `compute_all` forgets the history: after any history it succeeds iff it succeeds on the new object, and then leaves the same
object. -/
theorem C110_fresh_start (pf : ParamFile) (os : List Op) (rbf : Option Int) (tol : PName → ℝ) (s' : Deform) :
    computeAll rbf tol (after (ofParam pf) os) = (s', .ok ()) ↔ computeAll rbf tol (ofParam pf) = (s', .ok ()) := by
  have hall : ∀ p, p ∈ PName.all := by intro p; cases p <;> simp [PName.all]
  have key : ∀ s t : Deform, SameInput s t → Sized s → Sized t → computeAll rbf tol s = (s', .ok ()) → computeAll rbf tol t = (s', .ok ()) := by
    intro s t hi hs ht h
    obtain ⟨D, hD, rfl⟩ := (computeAll_iff ..).1 h
    obtain ⟨i1, i2, i3, i4, i5, i6⟩ := hi
    refine (computeAll_iff ..).2 ⟨D, ?_, ?_⟩
    · intro p
      obtain ⟨cp, h1, h2, h3, h4, h5⟩ := hD p
      refine ⟨cp, by rw [← i1, ← i2, ← i4, ← i5]; exact h1, by rw [← i3]; exact h2, by rw [← i3]; exact h3, by rw [← i5, ← i6]; exact h4, ?_⟩
      rw [← i1]
      exact (loop_values (by rw [ht, i1])).2 ((loop_values (hs p)).1 h5)
    · simp [result, hall, i1, i2, i3, i4, i5, i6]
  have hz := ofParam_sized pf
  exact ⟨key _ _ (after_input _ os) (after_sized hz os) hz, key _ _ (after_input _ os).symm hz (after_sized hz os)⟩

/-- The history so far, as an invariant. -/
private structure Sound (s₀ : Deform) (R : PName → Option Int → Prop) (T : PName → ℝ → Prop) (s : Deform) : Prop where
  input : SameInput s s₀
  cp : ∀ p cp, s.controlPoints p = some cp → Made s₀ p (R p) cp
  sp : ∀ p sp, s.spline p = some sp → MadeSpline s₀ p (R p) sp
  val : ∀ (p : PName) (j : Nat) (v : ℝ), (s.deformed p)[j]? = some v → v = 0 ∨ ∃ sp tol r q, MadeSpline s₀ p (R p) sp ∧ T p tol ∧ s₀.radii[j]? = some r ∧
    sp.find? (fun q => decide (|q.1 - r| < tol)) = some q ∧ v = q.2

private theorem sound_cp {s₀ s : Deform} {R : PName → Option Int → Prop} {T : PName → ℝ → Prop} (h : Sound s₀ R T s) (n : Str) (rbf : Option Int)
    (hR : ∀ p : PName, n = p.str → R p rbf) : Sound s₀ R T (computeControlPoints n rbf s).1 := by
  simp only [computeControlPoints]
  rcases hn : nameOf n with _ | q
  · exact h
  simp only
  split
  · exact h
  rename_i cp hcp
  obtain ⟨i1, i2, i3, i4, i5, i6⟩ := h.input
  refine ⟨⟨i1, i2, i3, i4, i5, i6⟩, ?_, h.sp, h.val⟩
  intro p c hc
  by_cases hq : p = q
  · subst hq
    simp only [set_same, Option.some.injEq] at hc
    subst hc
    exact ⟨rbf, cp, 0, hR _ (nameOf_some hn), by rw [← i1, ← i2, ← i4, ← i5]; exact hcp, by simp, (raised_zero _ _).symm⟩
  · simp only [set_other hq] at hc
    exact h.cp p c hc

private theorem sound_up {s₀ s : Deform} {R : PName → Option Int → Prop} {T : PName → ℝ → Prop} (h : Sound s₀ R T s) (n : Str) :
    Sound s₀ R T (updateControlPoints n s).1 := by
  simp only [updateControlPoints]
  rcases hn : nameOf n with _ | q
  · exact h
  simp only
  rcases hc0 : s.controlPoints q with _ | cp
  · exact h
  simp only
  obtain ⟨i1, i2, i3, i4, i5, i6⟩ := h.input
  by_cases hl : cp.length = (s.deformations q).length
  swap
  · rw [if_pos hl]; exact h
  rw [if_neg (not_not.2 hl)]
  refine ⟨⟨i1, i2, i3, i4, i5, i6⟩, ?_, h.sp, h.val⟩
  intro p c hc
  by_cases hq : p = q
  · subst hq
    simp only [set_same, Option.some.injEq] at hc
    subst hc
    obtain ⟨rbf, fit, k, h1, h2, h3, rfl⟩ := h.cp p cp hc0
    rw [i3] at hl ⊢
    have hfit : fit.length = (s₀.deformations p).length := by rwa [raised_length] at hl
    exact ⟨rbf, fit, k + 1, h1, h2, fun _ => hfit, raised_succ hfit⟩
  · simp only [set_other hq] at hc
    exact h.cp p c hc

private theorem sound_sp {s₀ s : Deform} {R : PName → Option Int → Prop} {T : PName → ℝ → Prop} (h : Sound s₀ R T s) (n : Str) :
    Sound s₀ R T (generateSpline n s).1 := by
  simp only [generateSpline]
  rcases hn : nameOf n with _ | q
  · exact h
  simp only
  rcases hc0 : s.controlPoints q with _ | cp
  · exact h
  simp only
  obtain ⟨i1, i2, i3, i4, i5, i6⟩ := h.input
  split
  · exact h
  rename_i sp hsp
  refine ⟨⟨i1, i2, i3, i4, i5, i6⟩, h.cp, ?_, h.val⟩
  intro p c hc
  by_cases hq : p = q
  · subst hq
    simp only [set_same, Option.some.injEq] at hc
    subst hc
    exact ⟨cp, h.cp p cp hc0, by rw [← i5, ← i6]; exact hsp⟩
  · simp only [set_other hq] at hc
    exact h.sp p c hc

/-- What the loop leaves, whether it succeeds or not. -/
private theorem loop_entries {sp : List Pt} {tol : ℝ} : ∀ (rs : List ℝ) (i : Nat) (d : Arr) (j : Nat) (v : ℝ),
    (deformLoop sp tol rs i d).1[j]? = some v →
    d[j]? = some v ∨ ∃ r q, i ≤ j ∧ rs[j - i]? = some r ∧ sp.find? (fun q => decide (|q.1 - r| < tol)) = some q ∧ v = q.2 := by
  intro rs
  induction rs with
  | nil => intro i d j v h; exact Or.inl h
  | cons r rs ih =>
    intro i d j v h
    simp only [deformLoop] at h
    split at h
    · exact Or.inl h
    · rename_i q hq
      split at h
      · rename_i hi
        rcases ih _ _ _ _ h with h | ⟨r', q', h1, h2, h3, h4⟩
        · rw [List.getElem?_set] at h
          by_cases hij : i = j
          · subst hij
            rw [if_pos rfl, if_pos hi] at h
            exact Or.inr ⟨r, q, le_rfl, by simp, hq, (Option.some.inj h).symm⟩
          · rw [if_neg hij] at h
            exact Or.inl h
        · refine Or.inr ⟨r', q', by omega, ?_, h3, h4⟩
          rw [show j - i = (j - (i + 1)) + 1 by omega, List.getElem?_cons_succ]
          exact h2
      · exact Or.inl h

private theorem sound_de {s₀ s : Deform} {R : PName → Option Int → Prop} {T : PName → ℝ → Prop} (h : Sound s₀ R T s) (n : Str) (tol : ℝ)
    (hT : ∀ p : PName, n = p.str → T p tol) : Sound s₀ R T (computeDeformed n tol s).1 := by
  simp only [computeDeformed]
  rcases hn : nameOf n with _ | q
  · exact h
  simp only
  rcases hc0 : s.spline q with _ | sp
  · exact h
  simp only
  obtain ⟨i1, i2, i3, i4, i5, i6⟩ := h.input
  refine ⟨⟨i1, i2, i3, i4, i5, i6⟩, h.cp, h.sp, ?_⟩
  intro p j v hv
  by_cases hq : p = q
  · subst hq
    simp only [set_same] at hv
    rcases loop_entries _ _ _ _ _ hv with hv | ⟨r, q', -, h2, h3, h4⟩
    · exact h.val p j v hv
    · exact Or.inr ⟨sp, tol, r, q', h.sp p sp hc0, hT _ (nameOf_some hn), by rw [← i1]; exact h2, h3, h4⟩
  · simp only [set_other hq] at hv
    exact h.val p j v hv

private theorem sound_seq {s₀ : Deform} {R : PName → Option Int → Prop} {T : PName → ℝ → Prop} : ∀ (cs : List Call),
    (∀ c ∈ cs, ∀ s, Sound s₀ R T s → Sound s₀ R T (c s).1) → ∀ s, Sound s₀ R T s → Sound s₀ R T (seq cs s).1 := by
  intro cs
  induction cs with
  | nil => intro _ s h; exact h
  | cons c cs ih =>
    intro hc s h
    have h1 := hc c (by simp) s h
    simp only [seq]
    rcases e : c s with ⟨s1, er | u⟩
    · rw [e] at h1; exact h1
    · rw [e] at h1
      exact ih (fun x hx => hc x (by simp [hx])) s1 h1

private theorem sound_call {s₀ s : Deform} {R : PName → Option Int → Prop} {T : PName → ℝ → Prop} (h : Sound s₀ R T s) (o : Op)
    (hR : ∀ p rbf, FittedIn [o] p rbf → R p rbf) (hT : ∀ p tol, TolIn [o] p tol → T p tol) : Sound s₀ R T (o.call s).1 := by
  cases o with
  | controlPoints n r => exact sound_cp h n r fun p hp => hR p r (Or.inl (by simp [hp]))
  | update n => exact sound_up h n
  | spline n => exact sound_sp h n
  | deformed n t => exact sound_de h n t fun p hp => hT p t (Or.inl (by simp [hp]))
  | all r t =>
    have strs : ∀ p q : PName, p.str = q.str → p = q := by
      intro p q e
      have := nameOf_str p
      rw [e, nameOf_str] at this
      exact (Option.some.inj this).symm
    refine sound_seq _ ?_ s h
    intro c hc
    obtain ⟨q, -, rfl⟩ := List.mem_map.1 hc
    refine sound_seq _ ?_
    intro c hc s hs
    simp only [List.mem_cons, List.not_mem_nil, or_false] at hc
    rcases hc with rfl | rfl | rfl | rfl
    · exact sound_cp hs _ _ fun p _ => hR p r (Or.inr ⟨t, by simp⟩)
    · exact sound_up hs _
    · exact sound_sp hs _
    · exact sound_de hs _ _ fun p hp => hT p (t q) (Or.inr ⟨r, t, by simp, by rw [strs _ _ hp]⟩)

private theorem sound_after {s₀ : Deform} {R : PName → Option Int → Prop} {T : PName → ℝ → Prop} : ∀ (os : List Op) (s : Deform),
    (∀ p rbf, FittedIn os p rbf → R p rbf) → (∀ p tol, TolIn os p tol → T p tol) → Sound s₀ R T s → Sound s₀ R T (after s os) := by
  intro os
  induction os with
  | nil => intro s _ _ h; exact h
  | cons o os ih =>
    intro s hR hT h
    refine ih _ ?_ ?_ (sound_call h o ?_ ?_)
    · rintro p rbf (h | ⟨t, h⟩)
      · exact hR p rbf (Or.inl (by simp [h]))
      · exact hR p rbf (Or.inr ⟨t, by simp [h]⟩)
    · rintro p tol (h | ⟨r, t, h, e⟩)
      · exact hT p tol (Or.inl (by simp [h]))
      · exact hT p tol (Or.inr ⟨r, t, by simp [h], e⟩)
    · rintro p rbf (h | ⟨t, h⟩)
      · exact hR p rbf (Or.inl (by simp at h; simp [h]))
      · exact hR p rbf (Or.inr ⟨t, by simp at h; simp [h]⟩)
    · rintro p tol (h | ⟨r, t, h, e⟩)
      · exact hT p tol (Or.inl (by simp at h; simp [h]))
      · exact hT p tol (Or.inr ⟨r, t, by simp at h; simp [h], e⟩)

/-- **C110** where the stored data come from, after any history of calls on a new object (whichever raised): control points are a fit of the
given distribution made by one of the calls, raised by some multiple of the deformations; a spline is the spline of such control
points; a deformed value is zero (never computed) or the ordinate of the first point of such a spline within the tolerance of one of
the calls of the radius of its section. -/
theorem C110_provenance (pf : ParamFile) (os : List Op) (p : PName) :
    (∀ cp, (after (ofParam pf) os).controlPoints p = some cp → Made (ofParam pf) p (FittedIn os p) cp) ∧
    (∀ sp, (after (ofParam pf) os).spline p = some sp → MadeSpline (ofParam pf) p (FittedIn os p) sp) ∧
    (∀ (j : Nat) (v : ℝ), ((after (ofParam pf) os).deformed p)[j]? = some v →
      v = 0 ∨ ∃ sp tol r q, MadeSpline (ofParam pf) p (FittedIn os p) sp ∧ TolIn os p tol ∧ (ofParam pf).radii[j]? = some r ∧
        sp.find? (fun q => decide (|q.1 - r| < tol)) = some q ∧ v = q.2) := by
  have h := sound_after (s₀ := ofParam pf) (R := FittedIn os) (T := TolIn os) os (ofParam pf) (fun _ _ h => h) (fun _ _ h => h)
    ⟨SameInput.refl _, by intro p cp h; simp [ofParam] at h, by intro p cp h; simp [ofParam] at h, by
      intro p j v h
      simp only [ofParam, List.getElem?_replicate] at h
      split at h
      · exact Or.inl (Option.some.inj h).symm
      · cases h⟩
  exact ⟨h.cp p, h.sp p, h.val p⟩

/-- **C110** exactly which multiple: from a fit on, as long as the parameter is not fitted again, its control points are the fit raised by the
deformations times the number of calls of `update_control_points` for it - provided there are as many deformations as control
points; otherwise every such call raises and they stay as they were fitted. -/
theorem C110_counted (pf : ParamFile) (os₁ os₂ : List Op) (p : PName) (rbf : Option Int) (fit : List Pt)
    (hf : optimum (ofParam pf).radii ((ofParam pf).parameters p) ((ofParam pf).degree p) ((ofParam pf).nbasis p) rbf = .ok fit)
    (h : ∀ o ∈ os₂, (∀ r, o ≠ .controlPoints p.str r) ∧ ∀ r t, o ≠ .all r t) :
    (after (ofParam pf) (os₁ ++ .controlPoints p.str rbf :: os₂)).controlPoints p =
      some (if fit.length = ((ofParam pf).deformations p).length then
        raised (os₂.countP fun o => decide (o = .update p.str)) ((ofParam pf).deformations p) fit else fit) := by
  have split : ∀ (a b : List Op) (s : Deform), after s (a ++ b) = after (after s a) b := by
    intro a
    induction a with
    | nil => intro b s; rfl
    | cons o a ih => intro b s; exact ih b _
  set d := (ofParam pf).deformations p with hd
  have one : ∀ (o : Op) (s : Deform) (cp : List Pt), SameInput s (ofParam pf) → s.controlPoints p = some cp →
      (∀ r, o ≠ .controlPoints p.str r) → (∀ r t, o ≠ .all r t) →
      (o.call s).1.controlPoints p = some (if o = .update p.str ∧ cp.length = d.length then
        List.zipWith (fun (q : Pt) e => (q.1, q.2 + e)) cp d else cp) := by
    intro o s cp hi hc h1 h2
    rcases ho : o.concerns p with _ | _
    · rw [(call_other ho s).1, hc, if_neg]
      rintro ⟨rfl, -⟩
      simp [Op.concerns] at ho
    · cases o with
      | all r t => exact absurd rfl (h2 r t)
      | controlPoints n r =>
        simp only [Op.concerns, decide_eq_true_eq] at ho
        exact absurd (by rw [ho]) (h1 r)
      | spline n =>
        rw [if_neg (by simp)]
        simp only [Op.call, generateSpline]
        repeat' split
        all_goals exact hc
      | deformed n t =>
        rw [if_neg (by simp)]
        simp only [Op.call, computeDeformed]
        repeat' split
        all_goals exact hc
      | update n =>
        simp only [Op.concerns, decide_eq_true_eq] at ho
        subst ho
        simp only [Op.call, updateControlPoints, nameOf_str, hc, true_and, hi.2.2.1, ← hd]
        by_cases hl : cp.length = d.length
        · rw [if_neg (not_not.2 hl), if_pos hl]; simp [set_same]
        · rw [if_pos hl, if_neg hl]; exact hc
  have many : ∀ (os : List Op) (s : Deform) (k : Nat), SameInput s (ofParam pf) →
      s.controlPoints p = some (if fit.length = d.length then raised k d fit else fit) →
      (∀ o ∈ os, (∀ r, o ≠ .controlPoints p.str r) ∧ ∀ r t, o ≠ .all r t) →
      (after s os).controlPoints p = some (if fit.length = d.length then raised (k + os.countP fun o => decide (o = .update p.str)) d fit
        else fit) := by
    intro os
    induction os with
    | nil => intro s k _ hc _; simpa [after] using hc
    | cons o os ih =>
      intro s k hi hc ho
      have hone := one o s _ hi hc (ho o (by simp)).1 (ho o (by simp)).2
      have hi' := (call_input s o).trans hi
      by_cases hu : o = .update p.str
      · rw [List.countP_cons_of_pos (by simp [hu]), show k + (os.countP (fun o => decide (o = .update p.str)) + 1) =
          (k + 1) + os.countP (fun o => decide (o = .update p.str)) by omega]
        refine ih _ (k + 1) hi' ?_ fun x hx => ho x (by simp [hx])
        rw [hone]
        by_cases hl : fit.length = d.length
        · rw [if_pos hl, if_pos hl, if_pos ⟨hu, by rw [raised_length]; exact hl⟩, raised_succ hl]
        · rw [if_neg hl, if_neg hl, if_neg (by tauto)]
      · rw [List.countP_cons_of_neg (by simp [hu])]
        refine ih _ k hi' ?_ fun x hx => ho x (by simp [hx])
        rw [hone, if_neg (by tauto)]
  rw [split]
  have hi := after_input (ofParam pf) os₁
  have := many os₂ ((Op.controlPoints p.str rbf).call (after (ofParam pf) os₁)).1 0 ((call_input _ _).trans hi) (by
    obtain ⟨i1, i2, i3, i4, i5, i6⟩ := hi
    simp only [Op.call, computeControlPoints, nameOf_str, i1, i2, i4, i5, hf, set_same, raised_zero, ite_self]) h
  rw [Nat.zero_add] at this
  exact this

/-- **C110** a stale spline: whatever is called after `generate_spline` for a parameter, if it is neither called again nor `compute_all`,
`compute_deformed_parameters` behaves as if called at once - new fits and updates of the control points have no effect on it - and on
success it stores the same values. -/
theorem C110_stale (s : Deform) (hs : Sized s) (os : List Op) (p : PName) (tol : ℝ) (h : ∀ o ∈ os, o ≠ .spline p.str ∧ ∀ r t, o ≠ .all r t) :
    (after s os).spline p = s.spline p ∧
    (computeDeformed p.str tol (after s os)).2 = (computeDeformed p.str tol s).2 ∧
    ((computeDeformed p.str tol s).2 = .ok () →
      (computeDeformed p.str tol (after s os)).1.deformed p = (computeDeformed p.str tol s).1.deformed p) := by
  have keep : ∀ (os : List Op) (s : Deform), (∀ o ∈ os, o ≠ .spline p.str ∧ ∀ r t, o ≠ .all r t) → (after s os).spline p = s.spline p := by
    intro os
    induction os with
    | nil => intro s _; rfl
    | cons o os ih =>
      intro s ho
      refine (ih _ fun x hx => ho x (by simp [hx])).trans ?_
      obtain ⟨h1, h2⟩ := ho o (by simp)
      rcases hc : o.concerns p with _ | _
      · exact (call_other hc s).2.1
      · cases o with
        | all r t => exact absurd rfl (h2 r t)
        | spline n =>
          simp only [Op.concerns, decide_eq_true_eq] at hc
          exact absurd (by rw [hc]) h1
        | controlPoints n r =>
          simp only [Op.call, computeControlPoints]
          repeat' split
          all_goals rfl
        | update n =>
          simp only [Op.call, updateControlPoints]
          repeat' split
          all_goals rfl
        | deformed n t =>
          simp only [Op.call, computeDeformed]
          repeat' split
          all_goals rfl
  have hk := keep os s h
  have hz := after_sized hs os
  have hi := after_input s os
  refine ⟨hk, ?_, ?_⟩
  · simp only [computeDeformed, nameOf_str, hk]
    split
    · rfl
    · simp only [hi.1]
      exact loop_outcome _ _ _ _ (by rw [hz, hs, hi.1])
  · simp only [computeDeformed, nameOf_str, hk]
    split
    · simp
    · rename_i sp hsp
      simp only [set_same, hi.1]
      intro hok
      rcases e1 : deformLoop sp tol s.radii 0 (s.deformed p) with ⟨d, r⟩
      rw [e1] at hok
      simp only at hok
      subst hok
      have := (loop_values (d := (after s os).deformed p) (by rw [hz, hi.1])).2 ((loop_values (hs p)).1 e1)
      rw [this]

/-! ### Non-vacuity -/

/-- Calls for other parameters in between, one of them failing. -/
example : (after lineObj [.controlPoints PName.chord.str none, .spline PName.skew.str, .update PName.chord.str]).controlPoints .chord =
    (after lineObj [.controlPoints PName.pitch.str (some 7), .controlPoints PName.chord.str none, .update PName.chord.str]).controlPoints .chord :=
  (C110_separate lineFile.filled [.controlPoints PName.chord.str none, .spline PName.skew.str, .update PName.chord.str]
    [.controlPoints PName.pitch.str (some 7), .controlPoints PName.chord.str none, .update PName.chord.str] .chord (by
      have h1 : PName.skew.str ≠ PName.chord.str := by decide
      have h2 : PName.pitch.str ≠ PName.chord.str := by decide
      simp [Op.concerns, h1, h2])).1

/-- The fit of the sample object. -/
theorem lineObj_fit : optimum lineObj.radii (lineObj.parameters .chord) (lineObj.degree .chord) (lineObj.nbasis .chord) none =
    .ok [(0.5, 0.3), (1, 0.4)] := by
  obtain ⟨v1, v2, v3, v4⟩ := lineObj_values
  obtain ⟨cp, h1, h2, h3, -, -⟩ := line_steps { lineObj with deformations := fun _ => [0, 0] } .chord 0.3 0.4 0 0 v1 (by simp [v2])
    (v3 .chord).1 (v3 .chord).2.1 (v3 .chord).2.2.1 (v3 .chord).2.2.2 rfl
  simp only [List.length_cons, List.length_nil, add_zero] at h2 h3
  match cp, h2 with
  | [a, b], _ =>
    simp only [List.zipWith_cons_cons, List.zipWith_nil_left, add_zero, List.cons.injEq, and_true, Prod.mk.eta] at h3
    rw [← h3.1, ← h3.2] at h1
    exact h1

/-- Two updates, with other calls in between: twice the deformations. -/
example : (after lineObj ([.spline PName.rake.str] ++ .controlPoints PName.chord.str none ::
    [.update PName.chord.str, .deformed PName.chord.str 1, .update PName.pitch.str, .update PName.chord.str])).controlPoints .chord =
      some [(0.5, 0.3 + 2 * 0.1), (1, 0.4 + 2 * -0.2)] := by
  refine (C110_counted lineFile.filled [.spline PName.rake.str]
    [.update PName.chord.str, .deformed PName.chord.str 1, .update PName.pitch.str, .update PName.chord.str] .chord none _ lineObj_fit ?_).trans ?_
  · intro o ho
    simp only [List.mem_cons, List.not_mem_nil, or_false] at ho
    rcases ho with rfl | rfl | rfl | rfl <;> simp
  · have e : (ofParam lineFile.filled).deformations .chord = [0.1, -0.2] := rfl
    have e2 : ([.update PName.chord.str, .deformed PName.chord.str 1, .update PName.pitch.str, .update PName.chord.str] : List Op).countP
        (fun o => decide (o = .update PName.chord.str)) = 2 := by
      have : PName.pitch.str ≠ PName.chord.str := by decide
      simp [List.countP_cons, this]
    rw [e, e2]
    simp [raised]

/-- The history in which the deformations are added too late. -/
example : ∃ s, after lineObj [.controlPoints PName.chord.str none, .spline PName.chord.str] = s ∧ Sized s ∧
    (computeDeformed PName.chord.str 0.001 (after s [.update PName.chord.str])).2 = (computeDeformed PName.chord.str 0.001 s).2 :=
  ⟨_, rfl, after_sized (ofParam_sized _) _, (C110_stale _ (after_sized (ofParam_sized _) _) [.update PName.chord.str] .chord 0.001 (by simp)).2.1⟩

/-- `compute_all` after such a history succeeds as it does on the new object, and its data are those described. -/
example : ∃ s', computeAll none (fun _ => 0.001) (after lineObj [.controlPoints PName.chord.str (some 3), .update PName.chord.str]) = (s', .ok ()) ∧
    s'.deformed .chord = [0.4, 0.2] := by
  obtain ⟨s', h, h1, -⟩ := lineObj_all
  exact ⟨s', (C110_fresh_start lineFile.filled _ none _ s').2 h, h1⟩

example : ∃ cp, (after lineObj [.all none fun _ => 0.001]).controlPoints .chord = some cp ∧
    Made lineObj .chord (FittedIn [.all none fun _ => 0.001] .chord) cp := by
  obtain ⟨s', h, -⟩ := lineObj_all
  obtain ⟨D, -, hs⟩ := (computeAll_iff ..).1 h
  have e : (after lineObj [.all none fun _ => 0.001]).controlPoints .chord = some (D .chord).1 := by
    show (computeAll none (fun _ => 0.001) lineObj).1.controlPoints .chord = _
    rw [h, hs]
    simp [result, PName.all]
  exact ⟨_, e, (C110_provenance lineFile.filled _ .chord).1 _ e⟩

end Deform
end
end BladeX
