import Verif.Lemmas.Obj
import Mathlib.Tactic.NormNum

/-! # C57 (second part): the data of the OBJ export -/

namespace BladeX
noncomputable section
open Spec Classical

namespace Obj

theorem appendCells_vertices {mapping : List Nat} {m : Mat} {name : Str} {o o' : Obj} (h : appendCells mapping m name o = .ok o') :
    o'.vertices = o.vertices := by
  unfold appendCells at h
  rcases hx : cellsToNp mapping m with e | n
  · rw [hx] at h; cases h
  · rw [hx] at h
    simp only [bind, Except.bind, pure, Except.pure, throw, throwThe, MonadExceptOf.throw] at h
    split_ifs at h <;> first | cases h; rfl | cases h

theorem generate_vertices {selector : Str} {kwargs : Str → Option Str} {shaft blades : Mesh} {o : Obj}
    (h : generate selector kwargs shaft blades = .ok o) : o.vertices = (npUnique (shaft.points ++ blades.points)).1 := by
  unfold generate at h
  simp only [bind, Except.bind, pure, Except.pure, throw, throwThe, MonadExceptOf.throw] at h
  rcases h1 : asArray shaft.cells with e | sc
  · rw [h1] at h; cases h
  rcases h2 : asArray blades.cells with e | bc
  · rw [h1, h2] at h; cases h
  rw [h1, h2] at h
  simp only at h
  split_ifs at h with hs hs'
  · split at h
    · cases h
    · rename_i o1 h3
      split at h
      · cases h
      · rename_i o2 h4
        cases h
        exact (appendCells_vertices h4).trans (appendCells_vertices h3)
  · split at h
    · cases h
    split at h
    · cases h
    split at h
    · cases h
    split at h
    · cases h
    rename_i o1 h3
    split at h
    · cases h
    rename_i o2 h4
    split at h
    · cases h
    rename_i o3 h5
    cases h
    exact (appendCells_vertices h5).trans ((appendCells_vertices h4).trans (appendCells_vertices h3))

end Obj

/-- **C57** the vertices written are the points of the two meshes, each once, in lexicographic order. -/
theorem C57_vertices (selector : Str) (kwargs : Str → Option Str) (shaft blades : Mesh) (o : Obj)
    (h : Obj.generate selector kwargs shaft blades = .ok o) :
    o.vertices.Nodup ∧ (∀ p, p ∈ o.vertices ↔ p ∈ shaft.points ∨ p ∈ blades.points) ∧
    o.vertices.Pairwise fun p q => p.1 < q.1 ∨ p.1 = q.1 ∧ (p.2.1 < q.2.1 ∨ p.2.1 = q.2.1 ∧ p.2.2 < q.2.2) := by
  rw [Obj.generate_vertices h]
  have hn := Obj.npUnique_nodup (shaft.points ++ blades.points)
  refine ⟨hn, fun p => by rw [Obj.npUnique_mem, List.mem_append], ?_⟩
  refine (List.Pairwise.and hn (Obj.npUnique_sorted _)).imp ?_
  rintro p q ⟨hne, hl⟩
  simp only [Obj.lexLe, decide_eq_true_eq] at hl
  rcases hl with hl | ⟨h1, hl | ⟨h2, h3⟩⟩
  · exact .inl hl
  · exact .inr ⟨h1, .inl hl⟩
  · refine .inr ⟨h1, .inr ⟨h2, lt_of_le_of_ne h3 fun h3 => hne ?_⟩⟩
    exact Prod.ext h1 (Prod.ext h2 h3)

/-- **C57** with the selector `blades_and_stem`, meshes of triangles are always accepted, and the file has two regions with the given names:
the facets of the blades, then those of the shaft, none lost, each corner being the vertex with the coordinates of that corner. -/
theorem C57_blades_and_stem (kwargs : Str → Option Str) (shaft blades : Mesh) (hs : shaft.Valid) (hb : blades.Valid) :
    ∃ o, Obj.generate c!"blades_and_stem" kwargs shaft blades = .ok o ∧
      o.regionList = some [((kwargs c!"blades_name").getD c!"blades", blades.facets), ((kwargs c!"shaft_name").getD c!"shaft", shaft.facets)] ∧
      blades.facets.length = blades.cells.length ∧ shaft.facets.length = shaft.cells.length := by
  have fs := Obj.facets_valid hs
  have fb := Obj.facets_valid hb
  have rs : ∀ c ∈ shaft.cells, ∀ i ∈ c, i < (shaft.points ++ blades.points).length := by
    intro c hc i hi
    have := (hs.2 c hc).2 i hi
    simp; omega
  have rb : ∀ c ∈ blades.cells.map (·.map (· + shaft.points.length)), ∀ i ∈ c, i < (shaft.points ++ blades.points).length := by
    intro c hc i hi
    obtain ⟨d, hd, rfl⟩ := List.mem_map.1 hc
    obtain ⟨j, hj, rfl⟩ := List.mem_map.1 hi
    have := (hb.2 d hd).2 j hj
    simp; omega
  refine ⟨Obj.built (shaft.points ++ blades.points)
    [((kwargs c!"blades_name").getD c!"blades", blades.cells.map (·.map (· + shaft.points.length))),
     ((kwargs c!"shaft_name").getD c!"shaft", shaft.cells)], ?_, ?_, by simp [fb], by simp [fs]⟩
  · unfold Obj.generate
    rw [Obj.asArray_ok hs, Obj.asArray_ok hb]
    simp only [bind, Except.bind, if_true]
    rw [Obj.appendCells_ok _ _ 3 _ _ rfl (by norm_num) rb (.inl rfl)]
    simp only
    rw [Obj.appendCells_ok _ _ 3 _ _ rfl (by norm_num) rs (.inr rfl)]
    simp [Obj.oneBased, Obj.start, Obj.Mat.shift, Obj.built, Obj.kwarg, pure, Except.pure, List.range_succ]
  · rw [Obj.built_regionList]
    · simp only [List.map_cons, List.map_nil, fs, fb]
      rw [List.map_map]
      simp only [Function.comp_def, Obj.getD_append_right]
      rw [List.map_congr_left fun c hc => Obj.getD_append_left shaft.points blades.points c (hs.2 c hc).2]
    · intro g hg
      simp only [List.mem_cons, List.not_mem_nil, or_false] at hg
      rcases hg with rfl | rfl
      · exact rb
      · exact rs

/-- **C57** with the selector `by_coords` the file has three regions: the facets of the shaft all of whose corners belong to the head, the
other facets of the shaft, and the facets of the blades. -/
theorem C57_by_coords (kwargs : Str → Option Str) (shaft blades : Mesh) (hs : shaft.Valid) (hb : blades.Valid) :
    ∃ o, Obj.generate c!"by_coords" kwargs shaft blades = .ok o ∧
      o.regionList = some
        [((kwargs c!"shafthead_name").getD c!"shaftHead",
            shaft.facets.filter fun f => decide (∀ p ∈ f, inHead shaft.points blades.points p)),
         ((kwargs c!"shafttail_name").getD c!"shaftTail",
            shaft.facets.filter fun f => decide (¬ ∀ p ∈ f, inHead shaft.points blades.points p)),
         ((kwargs c!"blades_name").getD c!"blades", blades.facets)] ∧
      blades.facets.length = blades.cells.length ∧ shaft.facets.length = shaft.cells.length := by
  have fs := Obj.facets_valid hs
  have fb := Obj.facets_valid hb
  have rs : ∀ c ∈ shaft.cells, ∀ i ∈ c, i < (shaft.points ++ blades.points).length := by
    intro c hc i hi
    have := (hs.2 c hc).2 i hi
    simp; omega
  have rb : ∀ c ∈ blades.cells.map (·.map (· + shaft.points.length)), ∀ i ∈ c, i < (shaft.points ++ blades.points).length := by
    intro c hc i hi
    obtain ⟨d, hd, rfl⟩ := List.mem_map.1 hc
    obtain ⟨j, hj, rfl⟩ := List.mem_map.1 hi
    have := (hb.2 d hd).2 j hj
    simp; omega
  have hne : blades.points.map Prod.fst ≠ [] := by
    obtain ⟨hc, hb2⟩ := hb
    obtain ⟨c, hc⟩ := List.exists_mem_of_ne_nil _ hc
    obtain ⟨h3, hi⟩ := hb2 c hc
    have hcne : c ≠ [] := by rintro rfl; simp at h3
    obtain ⟨i, hi'⟩ := List.exists_mem_of_ne_nil _ hcne
    have := hi i hi'
    intro h
    rw [List.map_eq_nil_iff] at h
    rw [h] at this
    simp at this
  obtain ⟨mn, hmn⟩ := npMin_exists hne
  obtain ⟨mx, hmx⟩ := npMax_exists hne
  set H : List Nat → Bool := fun c => decide (∀ p ∈ c.map fun i => shaft.points.getD i (0, 0, 0), inHead shaft.points blades.points p) with hH
  refine ⟨Obj.built (shaft.points ++ blades.points)
    [((kwargs c!"shafthead_name").getD c!"shaftHead", shaft.cells.filter H),
     ((kwargs c!"shafttail_name").getD c!"shaftTail", shaft.cells.filter fun c => !H c),
     ((kwargs c!"blades_name").getD c!"blades", blades.cells.map (·.map (· + shaft.points.length)))], ?_, ?_, by simp [fb], by simp [fs]⟩
  · unfold Obj.generate
    rw [Obj.asArray_ok hs, Obj.asArray_ok hb, hmn, hmx]
    simp only [bind, Except.bind]
    rw [if_neg (by decide), if_pos trivial]
    rw [Obj.headPoints_eq _ _ (npMin_ok_iff.1 hmn) (npMax_ok_iff.1 hmx), Obj.headCells_ok _ _ _ 3 rfl (by norm_num) fun c hc => (hs.2 c hc).2]
    simp only
    rw [List.map_map, Obj.select_map _ H]
    have e : Obj.Mat.select { width := some 3, rows := shaft.cells } (shaft.cells.map ((fun x => !x) ∘ H)) =
        { width := some 3, rows := shaft.cells.filter fun c => !H c } := Obj.select_map { width := some 3, rows := shaft.cells } fun c => !H c
    rw [e]
    rw [Obj.appendCells_ok _ _ 3 _ _ rfl (by norm_num) (fun c hc => rs c (List.mem_filter.1 hc).1) (.inl rfl)]
    simp only
    rw [Obj.appendCells_ok _ _ 3 _ _ rfl (by norm_num) (fun c hc => rs c (List.mem_filter.1 hc).1) (.inr rfl)]
    simp only
    rw [Obj.appendCells_ok _ _ 3 _ _ rfl (by norm_num) rb (.inr rfl)]
    simp [Obj.oneBased, Obj.start, Obj.Mat.shift, Obj.built, Obj.kwarg, pure, Except.pure, List.range_succ]
  · rw [Obj.built_regionList]
    · simp only [List.map_cons, List.map_nil, fs, fb]
      rw [List.map_map]
      simp only [Function.comp_def, Obj.getD_append_right]
      rw [List.map_congr_left fun c hc => Obj.getD_append_left shaft.points blades.points c (hs.2 c (List.mem_filter.1 hc).1).2,
        List.map_congr_left fun c hc => Obj.getD_append_left shaft.points blades.points c (hs.2 c (List.mem_filter.1 hc).1).2,
        List.filter_map, List.filter_map]
      simp only [Function.comp_def, hH, decide_not]
    · intro g hg
      simp only [List.mem_cons, List.not_mem_nil, or_false] at hg
      rcases hg with rfl | rfl | rfl
      · exact fun c hc => rs c (List.mem_filter.1 hc).1
      · exact fun c hc => rs c (List.mem_filter.1 hc).1
      · exact rb

/-- **C57** the export of the blades alone: one region with every facet, on the distinct points. -/
theorem C57_blades_only (blades : Mesh) (hb : blades.Valid) :
    ∃ o, Obj.generateBlades blades = .ok o ∧ o.regionList = some [(c!"blades", blades.facets)] ∧ o.vertices.Nodup ∧
      (∀ p, p ∈ o.vertices ↔ p ∈ blades.points) ∧ blades.facets.length = blades.cells.length := by
  have fb := Obj.facets_valid hb
  have rb : ∀ c ∈ blades.cells, ∀ i ∈ c, i < blades.points.length := fun c hc => (hb.2 c hc).2
  refine ⟨Obj.built blades.points [(c!"blades", blades.cells)], ?_, ?_, Obj.npUnique_nodup _, Obj.npUnique_mem _, by simp [fb]⟩
  · unfold Obj.generateBlades
    rw [Obj.asArray_ok hb]
    simp only [bind, Except.bind]
    rw [Obj.appendCells_ok _ _ 3 _ _ rfl (by norm_num) rb (.inl rfl)]
    simp [Obj.oneBased, Obj.start, Obj.built, pure, Except.pure, List.range_succ]
  · rw [Obj.built_regionList _ _ (by simpa using rb)]
    simp [fb]

/-- **C57** any other selector is refused with `ValueError`. -/
theorem C57_other_selector (selector : Str) (kwargs : Str → Option Str) (shaft blades : Mesh) (hs : shaft.Valid) (hb : blades.Valid)
    (h1 : selector ≠ c!"blades_and_stem") (h2 : selector ≠ c!"by_coords") :
    Obj.generate selector kwargs shaft blades = .error .valueError := by
  unfold Obj.generate
  rw [Obj.asArray_ok hs, Obj.asArray_ok hb]
  simp only [bind, Except.bind]
  rw [if_neg h1, if_neg h2]
  rfl

/-- **C57** a mesh without facets is refused with `IndexError`: the array of its facets has no second dimension. -/
theorem C57_no_facets (kwargs : Str → Option Str) (shaft blades : Mesh) (hs : shaft.Valid) (hb : blades.Valid) (points : List Pt3) :
    Obj.generateBlades ⟨points, []⟩ = .error .indexError ∧
    Obj.generate c!"blades_and_stem" kwargs shaft ⟨points, []⟩ = .error .indexError ∧
    Obj.generate c!"blades_and_stem" kwargs ⟨points, []⟩ blades = .error .indexError := by
  refine ⟨rfl, ?_, ?_⟩
  · unfold Obj.generate
    rw [Obj.asArray_ok hs]
    simp only [Obj.asArray, bind, Except.bind]
    rw [if_pos trivial]
    rfl
  · unfold Obj.generate
    rw [Obj.asArray_ok hb]
    simp only [Obj.asArray, bind, Except.bind]
    rw [if_pos trivial]
    have rb : ∀ c ∈ blades.cells.map (·.map (· + points.length)), ∀ i ∈ c, i < (points ++ blades.points).length := by
      intro c hc i hi
      obtain ⟨d, hd, rfl⟩ := List.mem_map.1 hc
      obtain ⟨j, hj, rfl⟩ := List.mem_map.1 hi
      have := (hb.2 d hd).2 j hj
      simp; omega
    rw [Obj.appendCells_ok _ _ 3 _ _ rfl (by norm_num) (by simpa [Obj.Mat.shift] using rb) (.inl rfl)]
    rfl

/-- A tetrahedron-like mesh with a point listed twice. -/
def Sample.mesh (x : ℝ) : Mesh := { points := [(x, 0, 0), (x, 1, 0), (x + 1, 0, 1), (x, 0, 0)], cells := [[0, 1, 2], [3, 2, 1]] }

example (x : ℝ) : (Sample.mesh x).Valid := by
  refine ⟨by simp [Sample.mesh], ?_⟩
  intro c hc
  simp only [Sample.mesh, List.mem_cons, List.not_mem_nil, or_false] at hc
  rcases hc with rfl | rfl <;> simp [Sample.mesh]

/-- The two facets of the sample have the same corners in a different order. -/
example (x : ℝ) : (Sample.mesh x).facets = [[(x, 0, 0), (x, 1, 0), (x + 1, 0, 1)], [(x, 0, 0), (x + 1, 0, 1), (x, 1, 0)]] := rfl

end
end BladeX
