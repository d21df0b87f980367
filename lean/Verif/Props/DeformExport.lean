import Verif.Props.DeformAll
import Verif.Props.DeformFit
import Verif.Props.ParamFile

/-! # C39: `export_param_file`, and a complete computation -/

namespace BladeX
noncomputable section
open Spec BSpline Classical
namespace Deform

/-- No call changes the number of deformed values. -/
theorem call_length (s : Deform) (o : Op) (p : PName) : ((o.call s).1.deformed p).length = (s.deformed p).length := by
  have loop : ∀ (sp : List Pt) (tol : ℝ) (rs : List ℝ) (i : Nat) (d : Arr), (deformLoop sp tol rs i d).1.length = d.length := by
    intro sp tol rs
    induction rs with
    | nil => intro i d; rfl
    | cons r rs ih =>
      intro i d
      simp only [deformLoop]
      split
      · rfl
      · split
        · rw [ih, List.length_set]
        · rfl
  have a1 : ∀ n r s, ((computeControlPoints n r s).1.deformed p).length = (s.deformed p).length := by
    intro n r s; simp only [computeControlPoints]; repeat' split
    all_goals rfl
  have a2 : ∀ n s, ((updateControlPoints n s).1.deformed p).length = (s.deformed p).length := by
    intro n s; simp only [updateControlPoints]; repeat' split
    all_goals rfl
  have a3 : ∀ n s, ((generateSpline n s).1.deformed p).length = (s.deformed p).length := by
    intro n s; simp only [generateSpline]; repeat' split
    all_goals rfl
  have a4 : ∀ n t s, ((computeDeformed n t s).1.deformed p).length = (s.deformed p).length := by
    intro n t s; simp only [computeDeformed]
    split
    · rfl
    · split
      · rfl
      · simp only [Deform.set]
        split
        · rename_i h; rw [loop, h]
        · rfl
  have many : ∀ (cs : List Call), (∀ c ∈ cs, ∀ s : Deform, ((c s).1.deformed p).length = (s.deformed p).length) →
      ∀ s : Deform, ((seq cs s).1.deformed p).length = (s.deformed p).length := by
    intro cs
    induction cs with
    | nil => intro _ s; rfl
    | cons c cs ih =>
      intro h s
      have hc := h c (by simp) s
      simp only [seq]
      rcases he : c s with ⟨s', (e | u)⟩
      · rw [he] at hc; exact hc
      · rw [he] at hc
        exact (ih (fun x hx => h x (by simp [hx])) s').trans hc
  cases o with
  | controlPoints n r => exact a1 n r s
  | update n => exact a2 n s
  | spline n => exact a3 n s
  | deformed n t => exact a4 n t s
  | all r t =>
    apply many
    intro c hc
    obtain ⟨q, _, rfl⟩ := List.mem_map.1 hc
    apply many
    intro c hc
    simp only [List.mem_cons, List.not_mem_nil, or_false] at hc
    rcases hc with rfl | rfl | rfl | rfl
    · exact a1 _ _
    · exact a2 _
    · exact a3 _
    · exact a4 _ _

/-- A history keeps the input and the number of deformed values. -/
theorem after_keeps (os : List Op) (s : Deform) :
    (after s os).radii = s.radii ∧ (after s os).parameters = s.parameters ∧ (after s os).deformations = s.deformations ∧
      (after s os).nbasis = s.nbasis ∧ (after s os).degree = s.degree ∧ (after s os).npoints = s.npoints ∧
      ∀ p, ((after s os).deformed p).length = (s.deformed p).length := by
  induction os generalizing s with
  | nil => simp [after]
  | cons o os ih =>
    obtain ⟨h1, h2, h3, h4, h5, h6, h7⟩ := ih (o.call s).1
    obtain ⟨k1, k2, k3, k4, k5, k6⟩ := C36_compute_all_keeps_input s o
    exact ⟨h1.trans k1, h2.trans k2, h3.trans k3, h4.trans k4, h5.trans k5, h6.trans k6,
      fun p => (h7 p).trans (call_length s o p)⟩

/-- What the constructor guarantees. -/
theorem new_wf {C : Codec} {fs fs0 : ParamFile.FS} {path : Str} {s : Deform} (h : new C fs path = (fs0, .ok s)) :
    s.radii ≠ [] ∧ (∀ p, (s.parameters p).length = s.radii.length) ∧ (∀ p, (s.deformed p).length = s.radii.length) ∧
      ∀ p, s.nbasis p = ((s.deformations p).length : Int) ∧ s.deformations p ≠ [] := by
  unfold new at h
  rcases hr : ParamFile.readParameters C fs path ParamFile.init with ⟨fs', r⟩
  rw [hr] at h
  simp only [Prod.mk.injEq] at h
  rcases r with e | pf
  · simp [Except.map] at h
  obtain rfl := Except.ok.inj h.2
  obtain ⟨t, ht⟩ : ∃ t, ParamFile.readText C t = .ok pf := by
    unfold ParamFile.readParameters at hr
    split at hr
    · exact ⟨_, (Prod.mk.inj hr).2⟩
    · split at hr
      · simp at hr
      · have := (Prod.mk.inj hr).2
        split at this
        · exact ⟨_, this⟩
        · cases this
  obtain ⟨r, e1, e2, e3, e4⟩ := ParamFile.C41_consistent C t pf ht
  refine ⟨by simpa [ofParam, e1] using e2, ?_, ?_, ?_⟩
  · intro p
    obtain ⟨v, hv, hl⟩ := e3 p
    simp [ofParam, hv, hl, e1]
  · intro p; simp [ofParam]
  · intro p; exact e4 p

/-- **C39**: after any history of calls on an object built from a file, exporting succeeds, leaves the other files alone, and
an object built from the exported file has the same radii, numbers of control points and numbers of points, the original
distribution for the parameters whose deformations are all zero and the computed values for the others, and only zero
deformations; but the degree of each of its splines is the number of control points. -/
theorem C39_export (C : Codec) (hC : C.Lawful) (fs fs0 : ParamFile.FS) (path0 path : Str) (s0 : Deform)
    (hnew : new C fs path0 = (fs0, .ok s0)) (os : List Op) (h0 : C.rep 0) (hr : ∀ x ∈ s0.radii, C.rep x)
    (hp : ∀ p, ∀ x ∈ s0.parameters p, C.rep x) (hd : ∀ p, ∀ x ∈ (after s0 os).deformed p, C.rep x) :
    ∃ fs' s1, exportParamFile C fs0 path (after s0 os) = (fs', .ok ()) ∧ (∀ q, q ≠ path → fs' q = fs0 q) ∧
      new C fs' path = (fs', .ok s1) ∧ s1.radii = s0.radii ∧
      (∀ p, (∀ x ∈ s0.deformations p, x = 0) → s1.parameters p = s0.parameters p) ∧
      (∀ p, (∃ x ∈ s0.deformations p, x ≠ 0) → s1.parameters p = (after s0 os).deformed p) ∧
      s1.nbasis = s0.nbasis ∧ s1.npoints = s0.npoints ∧ (∀ p, ∀ x ∈ s1.deformations p, x = 0) ∧ s1.degree = s0.nbasis := by
  obtain ⟨w1, w2, w3, w4⟩ := new_wf hnew
  obtain ⟨k1, k2, k3, k4, k5, k6, k7⟩ := after_keeps os s0
  set s := after s0 os with hs
  have hlen : ∀ p v, s.exported.parameters p = some v → v.length = s0.radii.length ∧ ∀ x ∈ v, C.rep x := by
    intro p v hv
    simp only [exported] at hv
    split at hv
    · obtain rfl := Option.some.inj hv
      rw [k2]; exact ⟨w2 p, hp p⟩
    · obtain rfl := Option.some.inj hv
      exact ⟨(k7 p).trans (w3 p), hd p⟩
  have hnb : ∀ p, 0 < s.nbasis p := by
    intro p
    rw [k4, (w4 p).1]
    have := List.length_pos_iff.2 (w4 p).2
    omega
  have hc : s.exported.Consistent := by
    refine ⟨⟨s0.radii, by simp [exported, k1], fun p v hv => (hlen p v hv).1⟩, ?_⟩
    intro p
    have := hnb p
    simp only [exported, List.length_replicate]
    omega
  have hne : s.exported.NonEmpty := by
    refine ⟨by simpa [exported, k1] using w1, ?_⟩
    intro p
    have := hnb p
    simp only [exported, ne_eq, List.replicate_eq_nil_iff]
    omega
  have hrep : s.exported.Representable C := by
    refine ⟨?_, fun p v hv => (hlen p v hv).2, ?_, h0⟩
    · intro r hr'
      obtain rfl := Option.some.inj hr'
      rw [k1]; exact hr
    · intro p x hx
      simp only [exported] at hx
      rw [List.eq_of_mem_replicate hx]; exact h0
  obtain ⟨fs', pf', h1, h2, rfl, h3⟩ := ParamFile.C40_round_trip C hC fs0 path s.exported hc hne hrep
  have he : exportParamFile C fs0 path s = (fs', .ok ()) := by
    unfold exportParamFile
    rw [if_neg, h1]
    rintro ⟨p, _, hp'⟩
    have := hnb p
    omega
  have hnew' : new C fs' path = (fs', .ok (ofParam s.exported.filled)) := by
    unfold new
    rw [h3]
    rfl
  refine ⟨fs', ofParam s.exported.filled, he, h2, hnew', ?_, ?_, ?_, ?_, ?_, ?_, ?_⟩
  · simp [ofParam, ParamFile.filled, exported, k1]
  · intro p hz
    rw [← k3] at hz
    simp only [ofParam, ParamFile.filled, exported, if_pos hz, k2, Option.getD_some]
  · intro p hz
    rw [← k3] at hz
    have : ¬ ∀ x ∈ s.deformations p, x = 0 := by push Not; exact hz
    simp only [ofParam, ParamFile.filled, exported, if_neg this, Option.getD_some]
  · simp [ofParam, ParamFile.filled, exported, k4]
  · simp [ofParam, ParamFile.filled, exported, k6]
  · intro p x hx
    simp only [ofParam, ParamFile.filled, exported] at hx
    exact List.eq_of_mem_replicate hx
  · simp [ofParam, ParamFile.filled, exported, k4]

/-- **C39**: exporting an object in whatever state it is: it succeeds exactly when no number of control points is negative and every distribution
written (the original one where all deformations are zero, the computed one elsewhere) has as many values as there are radii. Otherwise it raises
`ValueError`, and no file is touched. -/
theorem C39_outcome (C : Codec) (fs : ParamFile.FS) (path : Str) (s : Deform) :
    ((∃ fs', exportParamFile C fs path s = (fs', .ok ())) ↔
      ∀ p, 0 ≤ s.nbasis p ∧ ((∀ x ∈ s.deformations p, x = 0) → (s.parameters p).length = s.radii.length) ∧
        ((∃ x ∈ s.deformations p, x ≠ 0) → (s.deformed p).length = s.radii.length)) ∧
    ((∃ fs', exportParamFile C fs path s = (fs', .ok ())) ∨ exportParamFile C fs path s = (fs, .error .valueError)) := by
  have hcons : (∀ p, 0 ≤ s.nbasis p) → (s.exported.Consistent ↔
      ∀ p, 0 ≤ s.nbasis p ∧ ((∀ x ∈ s.deformations p, x = 0) → (s.parameters p).length = s.radii.length) ∧
        ((∃ x ∈ s.deformations p, x ≠ 0) → (s.deformed p).length = s.radii.length)) := by
    intro h0
    constructor
    · rintro ⟨⟨r, hr, h1⟩, h2⟩ p
      obtain rfl : s.radii = r := Option.some.inj hr
      refine ⟨h0 p, fun hz => ?_, fun hz => ?_⟩
      · exact h1 p _ (by simp only [exported]; rw [if_pos hz])
      · exact h1 p _ (by simp only [exported]; rw [if_neg (by push Not; exact hz)])
    · intro h
      refine ⟨⟨s.radii, rfl, ?_⟩, ?_⟩
      · intro p v hv
        simp only [exported] at hv
        split_ifs at hv with hz
        · obtain rfl := Option.some.inj hv; exact (h p).2.1 hz
        · obtain rfl := Option.some.inj hv
          push Not at hz
          exact (h p).2.2 hz
      · intro p
        have := h0 p
        simp [exported, this]
  by_cases hneg : ∃ p ∈ PName.all, s.nbasis p < 0
  · have he : exportParamFile C fs path s = (fs, .error .valueError) := by rw [exportParamFile, if_pos hneg]
    refine ⟨⟨?_, fun h => ?_⟩, Or.inr he⟩
    · rintro ⟨fs', h⟩; rw [he] at h; cases h
    · obtain ⟨p, _, hp⟩ := hneg
      have := (h p).1
      omega
  · have h0 : ∀ p, 0 ≤ s.nbasis p := by
      intro p
      by_contra hc
      exact hneg ⟨p, by cases p <;> simp [PName.all], by omega⟩
    by_cases hC : s.exported.Consistent
    · have he : ∃ fs', exportParamFile C fs path s = (fs', .ok ()) := by
        rw [exportParamFile, if_neg hneg, ParamFile.write, ParamFile.C42_accepts _ hC]
        exact ⟨_, rfl⟩
      exact ⟨⟨fun _ => (hcons h0).1 hC, fun _ => he⟩, Or.inl he⟩
    · have he : exportParamFile C fs path s = (fs, .error .valueError) := by
        rw [exportParamFile, if_neg hneg, ParamFile.write, ParamFile.C42_rejects _ hC]
        rfl
      refine ⟨⟨?_, fun h => absurd ((hcons h0).2 h) hC⟩, Or.inr he⟩
      rintro ⟨fs', h⟩; rw [he] at h; cases h

/-- Both outcomes occur. -/
example (C : Codec) (fs : ParamFile.FS) (path : Str) :
    (∃ fs', exportParamFile C fs path (ofParam { ParamFile.init with radii := some [], parameters := fun _ => some [] }) = (fs', .ok ())) ∧
    exportParamFile C fs path (ofParam { ParamFile.init with radii := some [1], parameters := fun _ => some [] }) = (fs, .error .valueError) := by
  refine ⟨(C39_outcome _ _ _ _).1.2 ?_, ?_⟩
  · intro p; simp [ofParam, ParamFile.init]
  · refine (C39_outcome _ _ _ _).2.resolve_left fun h => ?_
    have := ((C39_outcome _ _ _ _).1.1 h .chord).2.1 (by simp [ofParam, ParamFile.init])
    simp [ofParam, ParamFile.init] at this

/-- **C39**: so with more than five control points (ten by default) the exported file cannot be deformed again: computing the
control points always raises `ValueError`. -/
theorem C39_degree_lost (C : Codec) (hC : C.Lawful) (fs fs0 : ParamFile.FS) (path0 path : Str) (s0 : Deform)
    (hnew : new C fs path0 = (fs0, .ok s0)) (os : List Op) (h0 : C.rep 0) (hr : ∀ x ∈ s0.radii, C.rep x)
    (hp : ∀ p, ∀ x ∈ s0.parameters p, C.rep x) (hd : ∀ p, ∀ x ∈ (after s0 os).deformed p, C.rep x) (p : PName)
    (hn : 5 < s0.nbasis p) :
    ∃ fs' s1, exportParamFile C fs0 path (after s0 os) = (fs', .ok ()) ∧ new C fs' path = (fs', .ok s1) ∧
      ∀ rbf, ∃ e, computeControlPoints p.str rbf s1 = (s1, .error e) := by
  obtain ⟨fs', s1, a, _, b, _, _, _, c, _, _, d⟩ := C39_export C hC fs fs0 path0 path s0 hnew os h0 hr hp hd
  refine ⟨fs', s1, a, b, ?_⟩
  intro rbf
  simp only [computeControlPoints, nameOf_str, d]
  rcases ho : optimum s1.radii (s1.parameters p) (s0.nbasis p) (s1.nbasis p) rbf with e | cv
  · exact ⟨e, rfl⟩
  · have := (C68_defined ..).1 ⟨cv, ho⟩
    omega


/-! ## A complete computation -/

/-- Two radii, a chord distribution, straight splines with two control points. -/
def lineFile : ParamFile where
  radii := some [0.5, 1]
  parameters := fun p => if p = .chord then some [0.3, 0.4] else none
  nbasis := fun _ => 2
  degree := fun _ => 1
  npoints := fun _ => 2
  deformations := fun p => if p = .skew then [0, 0] else [0.1, -0.2]

theorem lineFile_consistent : lineFile.Consistent := by
  refine ⟨⟨_, rfl, ?_⟩, ?_⟩
  · intro p v hv
    simp only [lineFile] at hv
    split at hv
    · obtain rfl := Option.some.inj hv; rfl
    · cases hv
  · intro p; cases p <;> simp [lineFile]

theorem lineFile_nonEmpty : lineFile.NonEmpty :=
  ⟨by simp [lineFile], by intro p; cases p <;> simp [lineFile]⟩

private theorem tenth_reps : ∀ x ∈ ([0.5, 1, 0.3, 0.4, 0.1, -0.2, 0, 0.2] : Arr), ParamFile.tenths.rep x := by
  intro x hx
  simp only [List.mem_cons, List.not_mem_nil, or_false] at hx
  rcases hx with rfl | rfl | rfl | rfl | rfl | rfl | rfl | rfl
  · exact ⟨5, by norm_num⟩
  · exact ⟨10, by norm_num⟩
  · exact ⟨3, by norm_num⟩
  · exact ⟨4, by norm_num⟩
  · exact ⟨1, by norm_num⟩
  · exact ⟨-2, by norm_num⟩
  · exact ⟨0, by norm_num⟩
  · exact ⟨2, by norm_num⟩

theorem lineFile_rep : lineFile.Representable ParamFile.tenths := by
  have h := tenth_reps
  refine ⟨?_, ?_, ?_, h 0 (by simp)⟩
  · intro r hr x hx
    obtain rfl := Option.some.inj hr
    apply h; revert hx; simp only [List.mem_cons, List.not_mem_nil, or_false]; tauto
  · intro p v hv x hx
    simp only [lineFile] at hv
    split at hv
    · obtain rfl := Option.some.inj hv
      apply h; revert hx; simp only [List.mem_cons, List.not_mem_nil, or_false]; tauto
    · cases hv
  · intro p x hx
    simp only [lineFile] at hx
    split at hx <;> (apply h; revert hx; simp only [List.mem_cons, List.not_mem_nil, or_false]; tauto)

/-- The object built from that file. -/
def lineObj : Deform := ofParam lineFile.filled

theorem lineObj_values : lineObj.radii = [0.5, 1] ∧ (∀ p, lineObj.parameters p = if p = .chord then [0.3, 0.4] else [0, 0]) ∧
    (∀ p, lineObj.nbasis p = 2 ∧ lineObj.degree p = 1 ∧ lineObj.npoints p = 2 ∧ lineObj.deformed p = [0, 0]) ∧
    ∀ p, lineObj.deformations p = if p = .skew then [0, 0] else [0.1, -0.2] := by
  refine ⟨rfl, ?_, ?_, fun p => rfl⟩
  · intro p; cases p <;> rfl
  · intro p; cases p <;> exact ⟨rfl, rfl, rfl, rfl⟩

/-- With two control points of degree one, the fit is the data and the spline, at two points, is the control points. -/
theorem line_steps (s : Deform) (p : PName) (a b d e : ℝ) (hr : s.radii = [0.5, 1]) (hp : s.parameters p = [a, b])
    (h1 : s.nbasis p = 2) (h2 : s.degree p = 1) (h3 : s.npoints p = 2) (h4 : s.deformed p = [0, 0])
    (h5 : s.deformations p = [d, e]) :
    Steps s none 0.001 p ([(0.5, a + d), (1, b + e)], [(0.5, a + d), (1, b + e)], [a + d, b + e]) := by
  have two : ∀ {l : List Pt} {x y : Pt}, l.length = 2 → l.head? = some x → l.getLast? = some y → l = [x, y] := by
    intro l x y hl hx hy
    match l, hl with
    | [u, v], _ =>
      simp only [List.head?_cons, Option.some.injEq] at hx
      simp only [List.getLast?_cons_cons, List.getLast?_singleton, Option.some.injEq] at hy
      rw [hx, hy]
  obtain ⟨cp, hcp⟩ := (C68_defined [0.5, 1] [a, b] 1 2 none).2 (by simp)
  obtain ⟨X', Y', hd, hlen, ⟨x0, y0, xl, yl, e1, e2, e3, e4, e5, e6⟩, _⟩ := C68_optimal _ _ _ _ _ _ hcp
  rcases hd with ⟨_, rfl, rfl⟩ | ⟨hpos, _⟩
  swap
  · simp at hpos
  simp only [List.head?_cons, Option.some.injEq] at e1 e2
  simp only [List.getLast?_cons_cons, List.getLast?_singleton, Option.some.injEq] at e3 e4
  subst e1 e2 e3 e4
  have hcp2 : cp = [(0.5, a), (1, b)] := two (by omega) e5 e6
  refine ⟨cp, by rw [hr, hp, h1, h2]; exact hcp, by rw [h5, hcp2]; rfl, by rw [h5, hcp2]; rfl, ?_, ?_⟩
  · simp only [h2, h3]
    have hb := bspline_curve (cv := [(0.5, a + d), (1, b + e)]) (n := 2) (k := 1) (by simp) (by norm_num)
    have hends := C34_end_points [(0.5, a + d), (1, b + e)] 2 1 le_rfl (by simp) (by norm_num) _ hb
    rw [two (by simp [linspaceN_length]) hends.1 hends.2] at hb
    exact hb
  · have f1 : ([(0.5, a + d), (1, b + e)] : List Pt).find? (fun q => decide (|q.1 - 0.5| < 0.001)) = some (0.5, a + d) := by
      rw [List.find?_cons_of_pos]; norm_num
    have f2 : ([(0.5, a + d), (1, b + e)] : List Pt).find? (fun q => decide (|q.1 - 1| < 0.001)) = some (1, b + e) := by
      rw [List.find?_cons_of_neg, List.find?_cons_of_pos]
      · norm_num
      · norm_num [abs_lt]
    simp only [hr, h4, deformLoop, f1, f2]
    simp

/-- The whole computation on it succeeds and adds the deformations to the distributions. -/
theorem lineObj_all : ∃ s', computeAll none (fun _ => 0.001) lineObj = (s', .ok ()) ∧ s'.deformed .chord = [0.4, 0.2] ∧
    s'.deformed .skew = [0, 0] ∧ (∀ p, ∀ x ∈ s'.deformed p, ParamFile.tenths.rep x) := by
  obtain ⟨v1, v2, v3, v4⟩ := lineObj_values
  let A : PName → ℝ × ℝ := fun p => if p = .chord then (0.3, 0.4) else (0, 0)
  let E : PName → ℝ × ℝ := fun p => if p = .skew then (0, 0) else (0.1, -0.2)
  let D : PName → List Pt × List Pt × Arr := fun p =>
    ([(0.5, (A p).1 + (E p).1), (1, (A p).2 + (E p).2)], [(0.5, (A p).1 + (E p).1), (1, (A p).2 + (E p).2)],
      [(A p).1 + (E p).1, (A p).2 + (E p).2])
  have hall : ∀ p, p ∈ PName.all := by intro p; cases p <;> simp [PName.all]
  refine ⟨result lineObj PName.all D, (computeAll_iff ..).2 ⟨D, ?_, rfl⟩, ?_, ?_, ?_⟩
  · intro p
    apply line_steps lineObj p (A p).1 (A p).2 (E p).1 (E p).2 v1
    · rw [v2]; cases p <;> simp [A]
    · exact (v3 p).1
    · exact (v3 p).2.1
    · exact (v3 p).2.2.1
    · exact (v3 p).2.2.2
    · rw [v4]; cases p <;> simp [E]
  · simp only [result, hall, if_true, D, A, E, reduceCtorEq, if_false]
    norm_num
  · simp only [result, hall, if_true, D, A, E, reduceCtorEq, if_false]
    norm_num
  · intro p x hx
    simp only [result, hall, if_true, D] at hx
    have key : ∃ n : Int, x = n / 10 := by
      cases p
      all_goals
        simp only [A, E, reduceCtorEq, if_true, if_false, List.mem_cons, List.not_mem_nil, or_false] at hx
        rcases hx with rfl | rfl
      · exact ⟨4, by norm_num⟩
      · exact ⟨2, by norm_num⟩
      · exact ⟨1, by norm_num⟩
      · exact ⟨-2, by norm_num⟩
      · exact ⟨1, by norm_num⟩
      · exact ⟨-2, by norm_num⟩
      · exact ⟨0, by norm_num⟩
      · exact ⟨0, by norm_num⟩
      · exact ⟨1, by norm_num⟩
      · exact ⟨-2, by norm_num⟩
    exact key

/-- C36: repeating the computation on this object changes nothing. -/
example : ∃ s', computeAll none (fun _ => 0.001) lineObj = (s', .ok ()) ∧ computeAll none (fun _ => 0.001) s' = (s', .ok ()) ∧
    s'.deformed .chord = [0.4, 0.2] := by
  obtain ⟨s', h, h', _⟩ := lineObj_all
  refine ⟨s', h, C36_compute_all_idempotent _ _ _ _ ?_ h, h'⟩
  intro p; rw [(lineObj_values.2.2.1 p).2.2.2, lineObj_values.1]; rfl

/-- C69 on this object: `0.3 + 0.1`. -/
example : ∃ s', computeAll none (fun _ => 0.001) lineObj = (s', .ok ()) ∧
    ∃ y d, (lineObj.parameters .chord).head? = some y ∧ (lineObj.deformations .chord).head? = some d ∧
      (s'.deformed .chord).head? = some (y + d) := by
  obtain ⟨s', h, _⟩ := lineObj_all
  exact ⟨s', h, C69_first_section _ _ _ _ (fun _ => by norm_num) h (by rw [lineObj_values.1]; simp) _⟩

/-- C39 on this object, after a complete computation: the chord is exported deformed, the skew as it was. -/
example (fs : ParamFile.FS) (path0 path : Str) : ∃ fs0 fs' s0 s1, new ParamFile.tenths fs0 path0 = (fs0, .ok s0) ∧
    exportParamFile ParamFile.tenths fs0 path (after s0 [.all none fun _ => 0.001]) = (fs', .ok ()) ∧
    new ParamFile.tenths fs' path = (fs', .ok s1) ∧ s1.parameters .chord = [0.4, 0.2] ∧ s1.parameters .skew = [0, 0] := by
  obtain ⟨fs0, pf', h1, _, rfl, h3⟩ := ParamFile.C40_round_trip ParamFile.tenths ParamFile.tenths_lawful fs path0 lineFile
    lineFile_consistent lineFile_nonEmpty lineFile_rep
  have hnew : new ParamFile.tenths fs0 path0 = (fs0, .ok lineObj) := by unfold new; rw [h3]; rfl
  obtain ⟨s', h, hc, hk, hrep⟩ := lineObj_all
  obtain ⟨v1, v2, v3, v4⟩ := lineObj_values
  have ha : after lineObj [.all none fun _ => 0.001] = s' := by simp only [after, Op.call, h]
  obtain ⟨fs', s1, a, _, b, _, c, d, _⟩ := C39_export ParamFile.tenths ParamFile.tenths_lawful fs0 fs0 path0 path lineObj hnew
    [.all none fun _ => 0.001] (tenth_reps 0 (by simp))
    (by rw [v1]; intro x hx; apply tenth_reps; revert hx; simp only [List.mem_cons, List.not_mem_nil, or_false]; tauto)
    (by intro p x hx; rw [v2] at hx; split at hx <;>
          (apply tenth_reps; revert hx; simp only [List.mem_cons, List.not_mem_nil, or_false]; tauto))
    (by rw [ha]; exact hrep)
  refine ⟨fs0, fs', lineObj, s1, hnew, a, b, ?_, ?_⟩
  · rw [d .chord (by rw [v4]; exact ⟨0.1, by simp, by norm_num⟩), ha, hc]
  · rw [c .skew (by rw [v4]; simp), v2]; simp

/-- C36: updating three times adds the deformation three times. -/
example : (after zeroRake (List.replicate 3 (.update PName.rake.str))).controlPoints .rake = some [(0.5, 0), (1, 5)] := by
  rw [C36_repeated 3 zeroRake .rake [(0.5, 0), (1, 2)] rfl rfl]
  simp [zeroRake]
  norm_num

end Deform
end
end BladeX
