import Verif.Lemmas.ReverseEdges
import Verif.Lemmas.Reverse
import Verif.Props.Inside
import Mathlib.Analysis.SpecialFunctions.Trigonometric.Deriv

/-! # C75: the edges found by `ReversePropeller`; C76: its camber points; C77: the cutting cylinder and the chord of `ReversePropellerBladeX` -/

namespace BladeX
noncomputable section
open Classical Spec Reverse

/-- **C75** The point taken at the first end of the camber line: the last vertex of the section within 0.25% of the length of the camber line
from its end; if there is none, the first among the nearest of the points proposed by the distance algorithm, unless they are farther than 1e8. -/
def Spec.FirstEnd (G : EdgeGeom) (q : Pt3) : Prop :=
  LastWithin G.first (G.length * 0.0025) G.vertices q ∨
    (∀ v ∈ G.vertices, G.length * 0.0025 ≤ distance3 G.first v) ∧ FirstNearest G.first 1e8 G.nearFirst q

/-- **C75** `ReversePropeller` finds its edges exactly when there is a point at the first end as above and a point proposed by the distance
algorithm for the other end: these two points are the edges, the leading edge being the one with the larger axial coordinate. In all other
cases `AttributeError`. -/
theorem C75_edges (G : EdgeGeom) :
    (∀ A B, FirstEnd G A → FirstNearest G.last 1e8 G.nearLast B → findEdges G = .ok (if B.1 > A.1 then (B, A) else (A, B))) ∧
    ((¬ (∃ A, FirstEnd G A) ∨ ¬ (∃ B, FirstNearest G.last 1e8 G.nearLast B)) → findEdges G = .error .attributeError) ∧
    (∀ l t, findEdges G = .ok (l, t) → t.1 ≤ l.1) := by
  have e0 : (2.5e-3 : ℝ) = 0.0025 := by norm_num
  obtain ⟨s1, s2⟩ := searchVertices_spec G.first (G.length * 2.5e-3) G.vertices none false
  set r1 := searchVertices G.first (G.length * 2.5e-3) G.vertices none false with hr1
  -- the leading point
  set ld := if r1.2.2 = false then nearestSolution G.first G.nearFirst 1e8 r1.2.1 else r1.2.1 with hld
  set tr := nearestSolution G.last G.nearLast 1e8 none with htr
  have hlead : (∃ A, FirstEnd G A ∧ ld = some A) ∨ ((¬ ∃ A, FirstEnd G A) ∧ ld = none) := by
    rcases s2 with ⟨q, hq, h2⟩ | ⟨ha, h2⟩
    · refine .inl ⟨q, .inl (by rw [← e0]; exact hq), ?_⟩
      rw [hld, h2]; simp
    · rw [e0] at ha
      have hno : ∀ q, ¬ LastWithin G.first (G.length * 0.0025) G.vertices q := by
        rintro q ⟨i, hi, hd, _⟩
        exact absurd hd (not_lt.2 (ha q (List.mem_of_getElem? hi)))
      have hl' : ld = nearestSolution G.first G.nearFirst 1e8 none := by rw [hld, h2]; simp
      rcases nearestSolution_spec G.first G.nearFirst 1e8 none with ⟨q, hq, h3⟩ | ⟨hb, h3⟩
      · exact .inl ⟨q, .inr ⟨ha, hq⟩, by rw [hl', h3]⟩
      · refine .inr ⟨?_, by rw [hl', h3]⟩
        rintro ⟨A, hA | ⟨_, i, hi, hd, _⟩⟩
        · exact hno A hA
        · exact absurd hd (not_lt.2 (hb A (List.mem_of_getElem? hi)))
  have htrail : (∃ B, FirstNearest G.last 1e8 G.nearLast B ∧ tr = some B) ∨ ((¬ ∃ B, FirstNearest G.last 1e8 G.nearLast B) ∧ tr = none) := by
    rcases nearestSolution_spec G.last G.nearLast 1e8 none with ⟨q, hq, h3⟩ | ⟨hb, h3⟩
    · exact .inl ⟨q, hq, h3⟩
    · refine .inr ⟨?_, h3⟩
      rintro ⟨B, i, hi, hd, _⟩
      exact absurd hd (not_lt.2 (hb B (List.mem_of_getElem? hi)))
  have hfe : findEdges G = orderEdges tr ld := by
    unfold findEdges
    simp only [← hr1, s1, searchVertices, if_true, ← htr, ← hld]
  have uniqA : ∀ A A', FirstEnd G A → FirstEnd G A' → A = A' := by
    rintro A A' (h | ⟨ha, h⟩) (h' | ⟨ha', h'⟩)
    · exact lastWithin_unique h h'
    · obtain ⟨i, hi, hd, _⟩ := h
      exact absurd hd (not_lt.2 (ha' A (List.mem_of_getElem? hi)))
    · obtain ⟨i, hi, hd, _⟩ := h'
      exact absurd hd (not_lt.2 (ha A' (List.mem_of_getElem? hi)))
    · exact firstNearest_unique h h'
  refine ⟨?_, ?_, ?_⟩
  · intro A B hA hB
    rcases hlead with ⟨A', hA', e1⟩ | ⟨hn, _⟩
    swap
    · exact absurd ⟨A, hA⟩ hn
    rcases htrail with ⟨B', hB', e2⟩ | ⟨hn, _⟩
    swap
    · exact absurd ⟨B, hB⟩ hn
    obtain rfl := uniqA A A' hA hA'
    obtain rfl := firstNearest_unique hB hB'
    rw [hfe, e1, e2]
    simp only [orderEdges]
    split_ifs <;> rfl
  · intro h
    rw [hfe]
    rcases hlead with ⟨A, hA, e1⟩ | ⟨hn, e1⟩
    · rcases htrail with ⟨B, hB, e2⟩ | ⟨hn', e2⟩
      · rcases h with h | h
        · exact absurd ⟨A, hA⟩ h
        · exact absurd ⟨B, hB⟩ h
      · rw [e1, e2]; rfl
    · rcases htrail with ⟨B, hB, e2⟩ | ⟨hn', e2⟩ <;> rw [e1, e2] <;> rfl
  · intro l t h
    rw [hfe] at h
    clear_value ld tr
    rcases ld with _ | a <;> rcases tr with _ | b <;> simp only [orderEdges, reduceCtorEq] at h
    split_ifs at h with hc
    · simp only [Except.ok.injEq, Prod.mk.injEq] at h
      rw [← h.1, ← h.2]; exact hc.le
    · simp only [Except.ok.injEq, Prod.mk.injEq] at h
      rw [← h.1, ← h.2]; exact not_lt.1 hc

/-- What `findEdges` does when no vertex is close to the first end. -/
theorem findEdges_far (G : EdgeGeom) (h : ∀ v ∈ G.vertices, G.length * 0.0025 ≤ distance3 G.first v) :
    findEdges G = orderEdges (nearestSolution G.last G.nearLast 1e8 none) (nearestSolution G.first G.nearFirst 1e8 none) := by
  have e0 : (2.5e-3 : ℝ) = 0.0025 := by norm_num
  obtain ⟨s1, s2⟩ := searchVertices_spec G.first (G.length * 2.5e-3) G.vertices none false
  have s3 : (searchVertices G.first (G.length * 2.5e-3) G.vertices none false).2 = (none, false) := by
    rcases s2 with ⟨q, ⟨i, hi, hd, _⟩, _⟩ | ⟨_, h2⟩
    · rw [e0] at hd
      exact absurd hd (not_lt.2 (h q (List.mem_of_getElem? hi)))
    · exact h2
  unfold findEdges
  simp only [s1, s3, searchVertices, if_true]

/-- **C75 fails** at the other end: the vertices of the section are never looked at there (the search continues an exhausted explorer), so that
a vertex exactly at the end of the camber line is passed over. -/
theorem C75_vertex_ignored :
    (∀ (G : EdgeGeom) (vs : List Pt3), (∀ v ∈ G.vertices, G.length * 0.0025 ≤ distance3 G.first v) →
      (∀ v ∈ vs, G.length * 0.0025 ≤ distance3 G.first v) → findEdges { G with vertices := vs } = findEdges G) ∧
    (∃ (G : EdgeGeom), G.last ∈ G.vertices ∧ 0 < G.length ∧ findEdges G = .ok ((3, 0, 0), (0, 0, 0)) ∧ G.last = (2, 0, 0)) := by
  constructor
  · intro G vs h h'
    rw [findEdges_far G h, findEdges_far { G with vertices := vs } h']
  · refine ⟨{ first := (0, 0, 0), last := (2, 0, 0), length := 2, vertices := [(0, 0, 0), (2, 0, 0)], nearFirst := [], nearLast := [(3, 0, 0)] },
      by simp, by norm_num, ?_, rfl⟩
    rw [(C75_edges _).1 (0, 0, 0) (3, 0, 0) ?_ ?_]
    · norm_num
    · left
      refine ⟨0, rfl, by norm_num [distance3, distSq3], ?_⟩
      rintro (_ | _ | j) v hj hv
      · omega
      · simp only [zero_add, List.getElem?_cons_succ, List.getElem?_cons_zero, Option.some.injEq] at hv
        subst hv
        have : (2 : ℝ) = Real.sqrt ((0 - 2) ^ 2 + (0 - 0) ^ 2 + (0 - 0) ^ 2) := by
          rw [show ((0 : ℝ) - 2) ^ 2 + (0 - 0) ^ 2 + (0 - 0) ^ 2 = 2 ^ 2 by norm_num, Real.sqrt_sq (by norm_num)]
        simp only [distance3, distSq3]
        rw [← this]; norm_num
      · simp at hv
    · have hd : distance3 (2, 0, 0) (3, 0, 0) = 1 := by norm_num [distance3, distSq3]
      refine ⟨0, rfl, by rw [hd]; norm_num, ?_, by omega⟩
      rintro (_ | j) v hv
      · simp only [List.getElem?_cons_zero, Option.some.injEq] at hv; subst hv; exact le_refl _
      · simp at hv

/-- **C75** Since the leading edge has the larger axial coordinate, the reported pitch angle always lies between -90 and 90 degrees. -/
theorem C75_pitch_angle (interp : List Pt → Res (ℝ → ℝ)) (n : Nat) (R : ℝ) (G : SectionGeom) (E : EdgeGeom) (S : Section)
    (hE : findEdges E = .ok (G.leading, G.trailing)) (h : section' .generic interp n R G = .ok S) :
    -(Real.pi / 2) ≤ S.stored.pitchAngle ∧ S.stored.pitchAngle ≤ Real.pi / 2 := by
  have hx := (C75_edges E).2.2 _ _ hE
  obtain ⟨_, _, _, _, _, _, _, _, _, _, rfl⟩ := sectionGeneric_ok.1 h
  have := Complex.abs_arg_le_pi_div_two_iff (z := ⟨(unrolledPos R G.leading).1 - (unrolledPos R G.trailing).1,
    (unrolledPos R G.leading).2 - (unrolledPos R G.trailing).2⟩)
  have h2 := this.2 (by simp only [unrolledPos]; linarith)
  exact abs_le.1 h2

/-- The hypotheses of `C75_pitch_angle` are met. -/
example : ∃ (G : SectionGeom) (E : EdgeGeom) (S : Section), findEdges E = .ok (G.leading, G.trailing) ∧ G.leading = (3, 0, 1) ∧
    G.trailing = (0, 1, 0) ∧ section' .generic (fun _ => .ok fun _ => 0) 9 1 G = .ok S := by
  let G : SectionGeom := ⟨(3, 0, 1), (0, 1, 0), fun _ => 0, fun _ => 0, fun _ => 0, fun _ => 0⟩
  have h0 : unrolledPos 1 (3, 0, 1) = (3, 0) := by
    have := atan2_pos one_pos (t := 0) ⟨le_rfl, by positivity⟩
    simp only [Real.sin_zero, Real.cos_zero, mul_zero, mul_one] at this
    simp only [unrolledPos, this, mul_zero]
  have h1 : unrolledPos 1 (0, 1, 0) = (0, Real.pi / 2) := by
    have := atan2_pos one_pos (t := Real.pi / 2) ⟨by positivity, by linarith [Real.pi_pos]⟩
    simp only [Real.sin_pi_div_two, Real.cos_pi_div_two, mul_zero, mul_one] at this
    simp only [unrolledPos, this, one_mul]
  obtain ⟨S, hS⟩ := sectionGeneric_total (interp := fun _ => .ok fun _ => 0) (fun _ => ⟨_, rfl⟩) (n := 9) (by norm_num) one_ne_zero (G := G)
    (by simp only [G, h0, h1]; exact Real.pi_div_two_pos.ne)
  refine ⟨G, { first := (0, 1, 0), last := (3, 0, 1), length := 0, vertices := [], nearFirst := [(0, 1, 0)], nearLast := [(3, 0, 1)] }, S, ?_, rfl, rfl, hS⟩
  rw [findEdges_far _ (by simp)]
  norm_num [nearestSolution, dist3, orderEdges, G]

/-! ## C76 -/

namespace Reverse

theorem voronoiInside_ok {poly : List Pt} (hp : poly ≠ []) : ∀ vs : List Pt,
    voronoiInside poly vs = .ok (vs.filter fun p => decide (OnBoundary p poly ∨ Odd (crossings p poly)))
  | [] => rfl
  | p :: ps => by
    have h : Polygon.pointInsidePolygon p.1 p.2 poly true = .ok (decide (OnBoundary p poly ∨ Odd (crossings p poly))) := by
      obtain ⟨_, h1, h2⟩ := C63_parity p.1 p.2 poly true
      by_cases hb : OnBoundary p poly
      · rw [h1 hp hb]; simp [hb]
      · rw [h2 hp hb]; simp [hb]
    simp only [voronoiInside, h, voronoiInside_ok hp ps, bind, Except.bind, pure, Except.pure, List.filter_cons]

end Reverse

/-- **C76** The camber points of `ReversePropeller`: of the vertices of the Voronoi diagram of the sampled section, exactly those on the polygon
of the samples or seen from which the ray to the right meets an odd number of its edges, each as often as the diagram lists it, by increasing
axial coordinate, ties in the order of the diagram. -/
theorem C76_voronoi (voronoi : List Pt → Res (List Pt)) (poly vs : List Pt) (hp : poly ≠ []) (h : voronoi poly = .ok vs) :
    ∃ l, voronoiPoints voronoi poly = .ok l ∧ l.Perm (vs.filter fun p => decide (OnBoundary p poly ∨ Odd (crossings p poly))) ∧
      l.Pairwise (fun p q => p.1 ≤ q.1) ∧
      ∀ u : ℝ, l.filter (fun p => decide (p.1 = u)) =
        vs.filter fun p => decide (p.1 = u) && decide (OnBoundary p poly ∨ Odd (crossings p poly)) := by
  have tr : ∀ a b c : Pt, decide (a.1 ≤ b.1) = true → decide (b.1 ≤ c.1) = true → decide (a.1 ≤ c.1) = true := by
    intro a b c h1 h2
    rw [decide_eq_true_eq] at *
    exact h1.trans h2
  have tot : ∀ a b : Pt, (decide (a.1 ≤ b.1) || decide (b.1 ≤ a.1)) = true := by
    intro a b
    rcases le_total a.1 b.1 with h | h <;> simp [h]
  refine ⟨(vs.filter fun p => decide (OnBoundary p poly ∨ Odd (crossings p poly))).mergeSort fun p q => decide (p.1 ≤ q.1), ?_,
    List.mergeSort_perm _ _, ?_, ?_⟩
  · simp only [voronoiPoints, h, voronoiInside_ok hp, bind, Except.bind, pure, Except.pure]
  · have := List.pairwise_mergeSort tr tot (vs.filter fun p => decide (OnBoundary p poly ∨ Odd (crossings p poly)))
    exact this.imp fun h => by simpa using h
  · intro u
    set l := vs.filter fun p => decide (OnBoundary p poly ∨ Odd (crossings p poly)) with hl
    have hs : (l.filter fun p => decide (p.1 = u)).Sublist (l.mergeSort fun p q => decide (p.1 ≤ q.1)) := by
      refine List.sublist_mergeSort tr tot ?_ List.filter_sublist
      refine List.Pairwise.imp_of_mem ?_ (List.pairwise_of_forall (R := fun _ _ => True) (by simp))
      intro a b ha hb _
      simp only [List.mem_filter, decide_eq_true_eq] at ha hb
      simp [ha.2, hb.2]
    have hs' := hs.filter fun p => decide (p.1 = u)
    rw [List.filter_filter] at hs'
    simp only [Bool.and_self] at hs'
    have hlen : (l.filter fun p => decide (p.1 = u)).length = ((l.mergeSort fun p q => decide (p.1 ≤ q.1)).filter fun p => decide (p.1 = u)).length :=
      ((List.mergeSort_perm l _).filter _).length_eq.symm
    rw [← hs'.eq_of_length hlen, hl, List.filter_filter]

/-- **C76** Without samples (`poly` empty) nothing can be inside: any vertex leads to `IndexError`. -/
theorem C76_empty (voronoi : List Pt → Res (List Pt)) (p : Pt) (vs : List Pt) (h : voronoi [] = .ok (p :: vs)) :
    voronoiPoints voronoi [] = .error .indexError := by
  simp only [voronoiPoints, h, voronoiInside, (C63_parity p.1 p.2 [] true).1 rfl, bind, Except.bind]

/-- **C76** The section is sampled at 1200 points, at equal steps of arc length starting at its beginning; the end of the curve is not among
them: the last sample is one step before it. -/
theorem C76_samples (R total : ℝ) (curve : ℝ → Pt3) :
    (sectionPoints R total curve).length = 1200 ∧
    (∀ i : Nat, i < 1200 → (sectionPoints R total curve)[i]? = some (unrolledPos R (curve (total / 1200 * i)))) ∧
    (0 < total → ∀ i : Nat, i < 1200 → total / 1200 * i ≤ total - total / 1200) := by
  refine ⟨by rw [sectionPoints, List.length_map, List.length_range], ?_, ?_⟩
  · intro i hi
    rw [sectionPoints, List.getElem?_map, List.getElem?_range hi]
    simp only [Option.map_some]
    congr 3; ring
  · intro ht i hi
    have : (i : ℝ) ≤ 1199 := by exact_mod_cast Nat.le_of_lt_succ hi
    have := mul_le_mul_of_nonneg_left this (by positivity : 0 ≤ total / 1200)
    linarith

/-- **C76** A camber point is put back on the cylinder of the section at the place it came from: unrolling gives the point of the plane again,
if its ordinate is at most one turn. -/
theorem C76_rolled (R : ℝ) (p : Pt) (hR : 0 < R) : ∃ q, rolled R p = .ok q ∧ OnCylinder R q ∧ q.1 = p.1 ∧
    (0 ≤ p.2 → p.2 < 2 * Real.pi * R → unrolledPos R q = p) := by
  refine ⟨_, by rw [rolled, if_neg hR.ne'], ?_, rfl, ?_⟩
  · simp only [OnCylinder]
    have := Real.sin_sq_add_cos_sq (p.2 / R)
    nlinarith
  · intro h0 h1
    unfold unrolledPos
    simp only
    rw [atan2_pos hR ⟨by positivity, by rw [div_lt_iff₀ hR]; exact h1⟩]
    apply Prod.ext
    · rfl
    · simp only; field_simp

example : ∃ l, voronoiPoints (fun _ => .ok [(1, 1), (7, 1), (0.5, 1)]) [(0, 0), (4, 0), (0, 4)] = .ok l ∧ l.Perm [(1, 1), (0.5, 1)] := by
  obtain ⟨l, h, hp, _⟩ := C76_voronoi (fun _ => .ok [(1, 1), (7, 1), (0.5, 1)]) [(0, 0), (4, 0), (0, 4)] _ (by simp) rfl
  have hin : ∀ x : ℝ, 0 < x → x < 3 → Polygon.pointInsidePolygon x 1 [(0, 0), (4, 0), (0, 4)] true = .ok true := by
    intro x h0 h3
    norm_num [Polygon.pointInsidePolygon, Polygon.edgeLoop, Polygon.edgeStep, h0.le, h3, h0.ne', h3.ne, not_lt.2 h0.le]
  have hout : Polygon.pointInsidePolygon 7 1 [(0, 0), (4, 0), (0, 4)] true = .ok false := by
    norm_num [Polygon.pointInsidePolygon, Polygon.edgeLoop, Polygon.edgeStep]
  refine ⟨l, h, ?_⟩
  have h' := h
  simp only [voronoiPoints, voronoiInside, bind, Except.bind, pure, Except.pure, hin 1 (by norm_num) (by norm_num),
    hin 0.5 (by norm_num) (by norm_num), hout, if_true, Bool.false_eq_true, if_false, Except.ok.injEq] at h'
  rw [← h']
  exact List.mergeSort_perm _ _

/-! ## C77 -/

/-- **C77** The cutting cylinder always begins at or below the blade; it reaches its other end exactly when the axial extent of the blade is at
least the distance of its lower end from the origin. A blade without axial extent is refused. -/
theorem C77_extent (xmin xmax : ℝ) :
    (xmax ≤ xmin → cylinderExtent xmin xmax = .error .runtimeError) ∧
    (xmin < xmax → ∃ a b, cylinderExtent xmin xmax = .ok (a, b) ∧ a ≤ xmin ∧ b - a = 1.2 * (xmax - xmin) ∧
      (xmax ≤ b ↔ |xmin| ≤ xmax - xmin) ∧ (xmin ≤ 0 → 0 ≤ xmax → xmax ≤ b)) := by
  constructor
  · intro h
    rw [cylinderExtent, if_pos (by linarith)]
  · intro h
    refine ⟨_, _, by rw [cylinderExtent, if_neg (by linarith)], by linarith [abs_nonneg xmin], by ring, ?_, ?_⟩
    · constructor <;> intro h <;> linarith
    · intro h0 h1
      rw [abs_of_nonpos h0]; linarith

/-- **C77 fails** A blade between 10 and 15 is cut off at 14. -/
theorem C77_cut_off : cylinderExtent 10 15 = .ok (8, 14) := by
  norm_num [cylinderExtent]

/-- **C77** The chord from the leading to the trailing edge of a section of `ReversePropellerBladeX` lies on the cylinder, its axial coordinate
grows in proportion to the parameter from the one edge to the other, and the vector normal to the cutting planes is its velocity. -/
theorem C77_chord (R : ℝ) (le te : Pt3) (s : ℝ) :
    OnCylinder R (chordPoint R le te s) ∧ (chordPoint R le te s).1 = (1 - s) * le.1 + s * te.1 ∧
    HasDerivAt (fun s => (chordPoint R le te s).1) (chordTangent R le te s).1 s ∧
    HasDerivAt (fun s => (chordPoint R le te s).2.1) (chordTangent R le te s).2.1 s ∧
    HasDerivAt (fun s => (chordPoint R le te s).2.2) (chordTangent R le te s).2.2 s := by
  have hl : ∀ a b : ℝ, HasDerivAt (fun s : ℝ => a * s + b) a s := fun a b => by
    simpa using ((hasDerivAt_id s).const_mul a).add_const b
  refine ⟨?_, ?_, hl _ _, ?_, ?_⟩
  · simp only [OnCylinder, chordPoint]
    rw [mul_pow, mul_pow, ← mul_add, Real.sin_sq_add_cos_sq, mul_one]
  · simp only [chordPoint]; ring
  · have := ((hl (Real.arcsin (te.2.1 / R) - Real.arcsin (le.2.1 / R)) (Real.arcsin (le.2.1 / R))).sin).const_mul R
    simp only [chordPoint, chordTangent]
    refine this.congr_deriv ?_
    ring
  · have := ((hl (Real.arcsin (te.2.1 / R) - Real.arcsin (le.2.1 / R)) (Real.arcsin (le.2.1 / R))).cos).const_mul R
    simp only [chordPoint, chordTangent]
    refine this.congr_deriv ?_
    ring

/-- The point of the cylinder reached by the arc sine. -/
theorem Reverse.arcsin_point {R : ℝ} {p : Pt3} (hR : 0 < R) (hp : OnCylinder R p) :
    R * Real.sin (Real.arcsin (p.2.1 / R)) = p.2.1 ∧ R * Real.cos (Real.arcsin (p.2.1 / R)) = |p.2.2| := by
  simp only [OnCylinder] at hp
  have h2 : p.2.1 ^ 2 ≤ R ^ 2 := by nlinarith [sq_nonneg p.2.2]
  have h3 := abs_le_of_sq_le_sq' h2 hR.le
  constructor
  · rw [Real.sin_arcsin (by rw [le_div_iff₀ hR]; linarith) (by rw [div_le_iff₀ hR]; linarith)]
    field_simp
  · rw [Real.cos_arcsin, ← Real.sqrt_sq_eq_abs, ← Real.sqrt_sq hR.le, ← Real.sqrt_mul (by positivity), Real.sqrt_sq hR.le]
    congr 1
    have : R ^ 2 * (1 - (p.2.1 / R) ^ 2) = R ^ 2 - p.2.1 ^ 2 := by field_simp
    rw [this]; linarith

/-- **C77** The chord starts at the leading and ends at the trailing edge whenever these lie on the cylinder with `z ≥ 0`; an edge with `z < 0`
is replaced by its mirror image `(x, y, -z)`. -/
theorem C77_chord_ends (R : ℝ) (le te : Pt3) (hR : 0 < R) (hl : OnCylinder R le) (ht : OnCylinder R te) :
    chordPoint R le te 0 = (le.1, le.2.1, |le.2.2|) ∧ chordPoint R le te 1 = (te.1, te.2.1, |te.2.2|) ∧
    (0 ≤ le.2.2 → chordPoint R le te 0 = le) ∧ (0 ≤ te.2.2 → chordPoint R le te 1 = te) ∧ (le.2.2 < 0 → chordPoint R le te 0 ≠ le) := by
  obtain ⟨a1, a2⟩ := Reverse.arcsin_point hR hl
  obtain ⟨b1, b2⟩ := Reverse.arcsin_point hR ht
  have e0 : chordPoint R le te 0 = (le.1, le.2.1, |le.2.2|) := by
    simp only [chordPoint, mul_zero, zero_add, a1, a2]
  have e1 : chordPoint R le te 1 = (te.1, te.2.1, |te.2.2|) := by
    simp only [chordPoint, mul_one, sub_add_cancel, b1, b2]
  refine ⟨e0, e1, ?_, ?_, ?_⟩
  · intro h; rw [e0, abs_of_nonneg h]
  · intro h; rw [e1, abs_of_nonneg h]
  · intro h hc
    rw [e0] at hc
    have := congrArg (fun p : Pt3 => p.2.2) hc
    simp only at this
    have := abs_nonneg le.2.2
    linarith

/-- **C77** The camber points are 500: the two edges themselves at the ends, in between what the kernel finds at equal steps of the parameter. -/
theorem C77_camber (le te : Pt3) (cut : ℝ → Pt3) :
    (camberPoints le te cut).length = 500 ∧ (camberPoints le te cut)[0]? = some le ∧ (camberPoints le te cut)[499]? = some te ∧
    ∀ i : Nat, 0 < i → i < 499 → (camberPoints le te cut)[i]? = some (cut (i / 499)) := by
  have hg : ∀ i : Nat, i < 500 → (camberPoints le te cut)[i]? = some (if i = 0 then le else if i = 499 then te else cut (i / 499)) := by
    intro i hi
    rw [camberPoints, List.getElem?_mapIdx, linspaceN_get hi]
    norm_num
  refine ⟨?_, ?_, ?_, ?_⟩
  · rw [camberPoints, List.length_mapIdx, linspaceN, List.length_map, List.length_range]
  · rw [hg 0 (by norm_num), if_pos rfl]
  · rw [hg 499 (by norm_num)]; norm_num
  · intro i h0 h1
    rw [hg i (by omega), if_neg (by omega), if_neg (by omega)]

/-- **C77 fails** With fewer than 500 points per side the camber line of `ReversePropellerBladeX` does not reach the trailing edge: the first
`n` of the 500 camber points are taken, and only the abscissa of the last is set to 1. -/
theorem C77_truncated (interp : List Pt → Res (ℝ → ℝ)) (n : Nat) (R : ℝ) (G G' : SectionGeom)
    (h : ∀ i, i < n → G'.camber i = G.camber i)
    (hG : G'.leading = G.leading ∧ G'.trailing = G.trailing ∧ G'.whole = G.whole ∧ G'.top = G.top ∧ G'.bottom = G.bottom) :
    section' .bladeX interp n R G' = section' .bladeX interp n R G := by
  obtain ⟨h1, h2, h3, h4, h5⟩ := hG
  have hc : (List.range n).map (fun i => unrolledPos R (G'.camber i)) = (List.range n).map fun i => unrolledPos R (G.camber i) := by
    apply List.map_congr_left
    intro i hi
    rw [h i (List.mem_range.1 hi)]
  simp only [section', sectionBladeX, h1, h2, h3, h4, h5, hc]

example : OnCylinder 2 ((1 : ℝ), (1 : ℝ), Real.sqrt 3) ∧ OnCylinder 2 ((4 : ℝ), (0 : ℝ), (2 : ℝ)) := by
  constructor
  · simp only [OnCylinder]; rw [Real.sq_sqrt (by norm_num)]; norm_num
  · norm_num [OnCylinder]

end
end BladeX
