import Verif.Lemmas.FoilPolygon
import Verif.Props.ReverseEdges

/-! # C121: `point_inside_polygon` on the outline of a section -/

namespace BladeX
noncomputable section
open Spec Classical Polygon

/-- **C121** The answer does not depend on the position of polygon and point in the plane: turning, shifting, mirroring, stretching or shearing both by one regular affine
map leaves it unchanged, provided that the point is on the boundary or at the height of no vertex, before and after. -/
theorem C121_position (M : Affine) (hM : M.Regular) (p : Pt) (poly : List Pt) (ie : Bool)
    (h : OnBoundary p poly ∨ ((∀ v ∈ poly, v.2 ≠ p.2) ∧ ∀ v ∈ poly, (M.app v).2 ≠ (M.app p).2)) :
    pointInsidePolygon (M.app p).1 (M.app p).2 (poly.map M.app) ie = pointInsidePolygon p.1 p.2 poly ie := by
  obtain ⟨a0, a1, a2⟩ := C63_parity (M.app p).1 (M.app p).2 (poly.map M.app) ie
  obtain ⟨b0, b1, b2⟩ := C63_parity p.1 p.2 poly ie
  by_cases hn : poly = []
  · rw [a0 (by simp [hn]), b0 hn]
  have hn' : poly.map M.app ≠ [] := by simpa using hn
  by_cases hb : OnBoundary p poly
  · rw [a1 hn' ((app_boundary hM p poly).2 hb), b1 hn hb]
  · obtain ⟨h1, h2⟩ := h.resolve_left hb
    rw [a2 hn' (mt (app_boundary hM p poly).1 hb), b2 hn hb]
    congr 1
    exact decide_eq_decide.2 (app_parity hM p poly h1 h2 hb)

namespace Polygon

/-- Vertical shear. -/
def shear (k : ℝ) : Affine := ⟨1, 0, k, 1, (0, 0)⟩

theorem shear_regular (k : ℝ) : (shear k).Regular := by simp [shear, Affine.Regular]

theorem shear_app (k : ℝ) (p : Pt) : (shear k).app p = (p.1, p.2 + k * p.1) := by
  simp only [shear, Affine.app, Prod.mk.injEq]
  constructor <;> ring

theorem zip_tail_map (f : Pt → Pt) (l : List Pt) : (l.map f).zip (l.map f).tail = (l.zip l.tail).map fun e => (f e.1, f e.2) := by
  rw [← List.map_tail, List.zip_map]
  rfl

theorem below_shear (k : ℝ) (p : Pt) (l : List Pt) : BelowLine ((shear k).app p) (l.map (shear k).app) ↔ BelowLine p l := by
  simp only [BelowLine, zip_tail_map, List.mem_map]
  constructor
  · rintro ⟨_, ⟨e, he, rfl⟩, h, ho, hlt⟩
    refine ⟨e, he, h - k * p.1, ?_, by rw [shear_app] at hlt; simp only at hlt; linarith⟩
    rw [← app_onEdge (shear_regular k), shear_app k (p.1, h - k * p.1)]
    rw [shear_app k p] at ho
    simpa using ho
  · rintro ⟨e, he, h, ho, hlt⟩
    refine ⟨_, ⟨e, he, rfl⟩, h + k * p.1, ?_, by rw [shear_app]; simp only; linarith⟩
    rw [← app_onEdge (shear_regular k), shear_app k (p.1, h)] at ho
    rw [shear_app k p]
    exact ho

theorem above_shear (k : ℝ) (p : Pt) (l : List Pt) : AboveLine ((shear k).app p) (l.map (shear k).app) ↔ AboveLine p l := by
  simp only [AboveLine, zip_tail_map, List.mem_map]
  constructor
  · rintro ⟨_, ⟨e, he, rfl⟩, h, ho, hlt⟩
    refine ⟨e, he, h - k * p.1, ?_, by rw [shear_app] at hlt; simp only at hlt; linarith⟩
    rw [← app_onEdge (shear_regular k), shear_app k (p.1, h - k * p.1)]
    rw [shear_app k p] at ho
    simpa using ho
  · rintro ⟨e, he, h, ho, hlt⟩
    refine ⟨_, ⟨e, he, rfl⟩, h + k * p.1, ?_, by rw [shear_app]; simp only; linarith⟩
    rw [← app_onEdge (shear_regular k), shear_app k (p.1, h)] at ho
    rw [shear_app k p]
    exact ho

theorem outline_shear {U L : List Pt} (k : ℝ) (h : FoilOutline U L) : FoilOutline (U.map (shear k).app) (L.map (shear k).app) := by
  have hch : ∀ l, Chain l → Chain (l.map (shear k).app) := by
    intro l hl
    refine List.pairwise_map.2 (hl.imp ?_)
    intro a b hab
    rw [shear_app, shear_app]; exact hab
  have hfst : (Prod.fst ∘ (shear k).app : Pt → ℝ) = Prod.fst := by funext q; simp [shear_app]
  obtain ⟨h1, h2, x₀, x₁, h3, h4, h5, h6, h7⟩ := h
  refine ⟨hch _ h1, hch _ h2, x₀, x₁, h3, ?_, ?_, ?_, ?_⟩ <;>
    simp only [List.head?_map, List.getLast?_map, Option.map_map, hfst] <;> assumption

/-- The parity for a foil outline in any position. -/
theorem placed_parity {U L : List Pt} (hf : FoilOutline U L) {M : Affine} (hM : M.Regular) {p : Pt}
    (hb : ¬ OnBoundary (M.app p) ((U ++ L.reverse).map M.app)) (hy : ∀ v ∈ U ++ L.reverse, (M.app v).2 ≠ (M.app p).2) :
    Odd (crossings (M.app p) ((U ++ L.reverse).map M.app)) ↔ StrictlyBetween p U L := by
  rw [app_boundary hM] at hb
  have hne : ∀ v ∈ U ++ L.reverse, v ≠ p := fun v hv e => hy v hv (by rw [e])
  obtain ⟨k, hk⟩ := Infinite.exists_notMem_finset ((U ++ L.reverse).map fun v => -(v.2 - p.2) / (v.1 - p.1)).toFinset
  simp only [List.mem_toFinset, List.mem_map, not_exists, not_and] at hk
  have hyS : ∀ v ∈ U ++ L.reverse, ((shear k).app v).2 ≠ ((shear k).app p).2 := by
    intro v hv h
    rw [shear_app, shear_app] at h
    simp only at h
    by_cases hv1 : v.1 - p.1 = 0
    · have e1 : v.1 = p.1 := sub_eq_zero.1 hv1
      rw [e1] at h
      exact hne v hv (Prod.ext e1 (by linarith))
    · refine hk v hv ?_
      rw [div_eq_iff hv1]; linarith
  have hmap : (U ++ L.reverse).map (shear k).app = U.map (shear k).app ++ (L.map (shear k).app).reverse := by simp
  have hbS : ¬ OnBoundary ((shear k).app p) ((U ++ L.reverse).map (shear k).app) := mt (app_boundary (shear_regular k) p _).1 hb
  have h1 := outline_parity (x := ((shear k).app p).1) (y := ((shear k).app p).2) (outline_shear k hf) (by rw [← hmap]; exact hbS)
    (by rw [← hmap]; intro v hv; obtain ⟨w, hw, rfl⟩ := List.mem_map.1 hv; exact hyS w hw)
  rw [← hmap] at h1
  obtain ⟨N, hN⟩ : ∃ N : Affine, N = ⟨M.a - M.b * k, M.b, M.c - M.d * k, M.d, M.v⟩ := ⟨_, rfl⟩
  have hNr : N.Regular := by
    intro h; apply hM; rw [hN] at h; simp only at h; linarith
  have hNS : ∀ q, N.app ((shear k).app q) = M.app q := by
    intro q
    rw [hN, shear_app]
    simp only [Affine.app, Prod.mk.injEq]
    constructor <;> ring
  have h2 := app_parity hNr ((shear k).app p) ((U ++ L.reverse).map (shear k).app)
    (by intro v hv; obtain ⟨w, hw, rfl⟩ := List.mem_map.1 hv; exact hyS w hw)
    (by intro v hv; obtain ⟨w, hw, rfl⟩ := List.mem_map.1 hv; rw [hNS, hNS]; exact hy w hw) hbS
  rw [hNS, List.map_map, show N.app ∘ (shear k).app = M.app from funext hNS] at h2
  rw [h2]
  refine h1.trans ?_
  simp only [StrictlyBetween]
  rw [show (((shear k).app p).1, ((shear k).app p).2) = (shear k).app p from rfl, below_shear, below_shear, above_shear, above_shear]

theorem inside_rotate (x y : ℝ) (ie : Bool) : ∀ (k : Nat) (poly : List Pt), pointInsidePolygon x y (poly.rotate k) ie = pointInsidePolygon x y poly ie := by
  intro k
  induction k with
  | zero => intro poly; simp
  | succ k ih =>
    intro poly
    cases poly with
    | nil => simp
    | cons p l => rw [List.rotate_cons_succ, ih, C63_rotate]

theorem boundary_rotate (q : Pt) : ∀ (k : Nat) (poly : List Pt), OnBoundary q (poly.rotate k) ↔ OnBoundary q poly := by
  intro k
  induction k with
  | zero => intro poly; simp
  | succ k ih =>
    intro poly
    cases poly with
    | nil => simp
    | cons p l =>
      rw [List.rotate_cons_succ, ih]
      simp only [OnBoundary, (edges_rotate p l).mem_iff]

end Polygon

/-- **C121** On the outline of a foil (two surfaces over increasing abscissae) the answer is right, wherever the outline starts, in whatever direction it runs and however
it lies in the plane: a point off the boundary, at the height of no vertex, is declared inside exactly if it lies strictly between the two surfaces. -/
theorem C121_outline (U L : List Pt) (hf : FoilOutline U L) (M : Affine) (hM : M.Regular) (k : Nat) (poly : List Pt)
    (hpoly : poly = ((U ++ L.reverse).map M.app).rotate k ∨ poly = ((U ++ L.reverse).map M.app).reverse.rotate k) (p : Pt) (ie : Bool)
    (hb : ¬ OnBoundary (M.app p) poly) (hy : ∀ v ∈ poly, v.2 ≠ (M.app p).2) :
    pointInsidePolygon (M.app p).1 (M.app p).2 poly ie = .ok (decide (StrictlyBetween p U L)) := by
  have hne : ((U ++ L.reverse).map M.app) ≠ [] := by
    obtain ⟨-, -, x₀, x₁, -, h, -⟩ := hf
    rintro h0
    cases U with
    | nil => simp at h
    | cons u U => simp at h0
  have hmem : ∀ v ∈ U ++ L.reverse, M.app v ∈ poly := by
    intro v hv
    have := List.mem_map_of_mem (f := M.app) hv
    rcases hpoly with rfl | rfl
    · exact List.mem_rotate.2 this
    · exact List.mem_rotate.2 (List.mem_reverse.2 this)
  have hin : pointInsidePolygon (M.app p).1 (M.app p).2 poly ie = pointInsidePolygon (M.app p).1 (M.app p).2 ((U ++ L.reverse).map M.app) ie := by
    rcases hpoly with rfl | rfl
    · exact inside_rotate _ _ _ _ _
    · rw [inside_rotate, C63_reverse]
  have hb' : ¬ OnBoundary (M.app p) ((U ++ L.reverse).map M.app) := by
    intro h
    apply hb
    rcases hpoly with rfl | rfl
    · exact (boundary_rotate _ _ _).2 h
    · rw [boundary_rotate]
      obtain ⟨e, he, ho⟩ := h
      exact ⟨e.swap, (edges_reverse _).mem_iff.2 (List.mem_map_of_mem he), (onEdge_swap _ _ _).2 ho⟩
  rw [hin, (C63_parity (M.app p).1 (M.app p).2 _ ie).2.2 hne hb']
  congr 1
  exact decide_eq_decide.2 (placed_parity hf hM hb' fun v hv => hy _ (hmem v hv))

/-- **C121** So the camber points of `ReversePropeller` are the vertices of the Voronoi diagram inside the section: if the samples of the section are the outline of a foil
somewhere in the unrolled plane and no vertex of the diagram that is off the outline has the height of a sample, exactly the vertices on the outline and strictly between
the surfaces are kept, by increasing axial coordinate. -/
theorem C121_camber (U L : List Pt) (hf : FoilOutline U L) (M : Affine) (hM : M.Regular) (k : Nat) (poly : List Pt)
    (hpoly : poly = ((U ++ L.reverse).map M.app).rotate k ∨ poly = ((U ++ L.reverse).map M.app).reverse.rotate k)
    (voronoi : List Pt → Res (List Pt)) (vs : List Pt) (hv : voronoi poly = .ok vs)
    (hy : ∀ q ∈ vs, OnBoundary q poly ∨ ∀ v ∈ poly, v.2 ≠ q.2) :
    ∃ l, Reverse.voronoiPoints voronoi poly = .ok l ∧ l.Pairwise (fun p q => p.1 ≤ q.1) ∧
      l.Perm (vs.filter fun q => decide (OnBoundary q poly ∨ ∃ p, M.app p = q ∧ StrictlyBetween p U L)) := by
  have hne : poly ≠ [] := by
    obtain ⟨-, -, x₀, x₁, -, h, -⟩ := hf
    cases U with
    | nil => simp at h
    | cons u U => rcases hpoly with rfl | rfl <;> simp [List.rotate_eq_nil_iff]
  obtain ⟨l, h1, h2, h3, -⟩ := C76_voronoi voronoi poly vs hne hv
  refine ⟨l, h1, h3, h2.trans (List.Perm.of_eq (List.filter_congr fun q hq => ?_))⟩
  refine decide_eq_decide.2 ?_
  by_cases hb : OnBoundary q poly
  · simp [hb]
  · have hyq := (hy q hq).resolve_left hb
    obtain ⟨p, hp⟩ : ∃ p, M.app p = q := by
      have hd : M.a * M.d - M.b * M.c ≠ 0 := hM
      refine ⟨((M.d * (q.1 - M.v.1) - M.b * (q.2 - M.v.2)) / (M.a * M.d - M.b * M.c), (M.a * (q.2 - M.v.2) - M.c * (q.1 - M.v.1)) / (M.a * M.d - M.b * M.c)), ?_⟩
      simp only [Affine.app]
      refine Prod.ext ?_ ?_ <;> simp only <;> rw [mul_div_assoc', mul_div_assoc', ← add_div, div_add' _ _ _ hd, div_eq_iff hd] <;> ring
    subst hp
    have e1 := C121_outline U L hf M hM k poly hpoly p true hb hyq
    rw [(C63_parity (M.app p).1 (M.app p).2 poly true).2.2 hne hb] at e1
    have e2 := decide_eq_decide.1 (Except.ok.inj e1)
    have e3 : Odd (crossings (M.app p) poly) ↔ StrictlyBetween p U L := e2
    rw [e3]
    constructor
    · rintro (h | h)
      · exact Or.inl h
      · exact Or.inr ⟨p, rfl, h⟩
    · rintro (h | ⟨p', hp', h⟩)
      · exact Or.inl h
      · exact Or.inr (app_inj hM hp' ▸ h)

/-- A cambered outline, turned, with a point between its surfaces and one below them. -/
example : ∃ (U L : List Pt) (M : Affine), FoilOutline U L ∧ M.Regular ∧ M.b ≠ 0 ∧
    pointInsidePolygon (M.app (1, 1/4)).1 (M.app (1, 1/4)).2 ((U ++ L.reverse).map M.app) false = .ok true := by
  have hf : FoilOutline [(0, 0), (1, 1), (3, 0)] [(0, 0), (2, -1), (3, 0)] := by
    refine ⟨by norm_num [Chain], by norm_num [Chain], 0, 3, by norm_num, by simp, by simp, by simp, by simp⟩
  have hM : Affine.Regular ⟨3/5, -4/5, 4/5, 3/5, (0, 7)⟩ := by norm_num [Affine.Regular]
  refine ⟨_, _, _, hf, hM, by norm_num, ?_⟩
  have hy : ∀ v ∈ [((0 : ℝ), (0 : ℝ)), (1, 1), (3, 0)] ++ [((0 : ℝ), (0 : ℝ)), (2, -1), (3, 0)].reverse,
      ((⟨3/5, -4/5, 4/5, 3/5, (0, 7)⟩ : Affine).app v).2 ≠ ((⟨3/5, -4/5, 4/5, 3/5, (0, 7)⟩ : Affine).app (1, 1/4)).2 := by
    intro v hv
    simp only [List.reverse_cons, List.reverse_nil, List.nil_append, List.cons_append, List.mem_cons, List.not_mem_nil, or_false] at hv
    rcases hv with rfl | rfl | rfl | rfl | rfl | rfl <;> norm_num [Affine.app]
  rw [C121_outline _ _ hf _ hM 0 _ (Or.inl (List.rotate_zero _).symm) (1, 1/4) false ?_ ?_]
  · rw [decide_eq_true]
    left
    refine ⟨⟨((0, 0), (1, 1)), by simp, 1, ⟨1, by norm_num, by norm_num, by simp [onSegment]⟩, by norm_num⟩,
      ⟨((0, 0), (2, -1)), by simp, -1/2, ⟨1/2, by norm_num, by norm_num, by simp only [onSegment, Prod.mk.injEq]; norm_num⟩, by norm_num⟩⟩
  · rw [app_boundary hM]
    rintro ⟨e, he, t, h0, h1, h⟩
    simp only [edges, List.reverse_cons, List.reverse_nil, List.nil_append, List.cons_append, List.zip_cons_cons, List.zip_nil_left, List.zip_nil_right, List.mem_cons,
      List.not_mem_nil, or_false] at he
    rcases he with rfl | rfl | rfl | rfl | rfl | rfl <;> simp only [onSegment, Prod.mk.injEq] at h <;> obtain ⟨h2, h3⟩ := h <;> linarith
  · intro v hv
    obtain ⟨w, hw, rfl⟩ := List.mem_map.1 hv
    exact hy w hw

end
end BladeX
