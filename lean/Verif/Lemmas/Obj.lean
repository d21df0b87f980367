import Verif.Spec.Obj
import Verif.Lemmas.Lists
import Mathlib.Data.List.Sort
import Mathlib.Algebra.BigOperators.Group.List.Lemmas

namespace BladeX
noncomputable section
open Classical
namespace Obj

theorem mapM_getIdx {α : Type} (d : α) (a : List α) (c : List Nat) (h : ∀ i ∈ c, i < a.length) :
    c.mapM (getIdx a) = .ok (c.map fun i => a.getD i d) := by
  induction c with
  | nil => rfl
  | cons i c ih =>
    have hi := h i (by simp)
    rw [List.mapM_cons, ih fun j hj => h j (by simp [hj])]
    simp [getIdx, hi, bind, Except.bind, pure, Except.pure]

theorem mapM_rows {α : Type} (d : α) (a : List α) (rows : List (List Nat)) (h : ∀ c ∈ rows, ∀ i ∈ c, i < a.length) :
    rows.mapM (fun c => c.mapM (getIdx a)) = .ok (rows.map fun c => c.map fun i => a.getD i d) := by
  induction rows with
  | nil => rfl
  | cons c rows ih =>
    rw [List.mapM_cons, ih fun e he => h e (by simp [he]), mapM_getIdx d a c (h c (by simp))]
    simp [bind, Except.bind, pure, Except.pure]

theorem mapM_some {α β : Type} {f : α → Option β} {g : α → β} (l : List α) (h : ∀ x ∈ l, f x = some (g x)) :
    l.mapM f = some (l.map g) := by
  induction l with
  | nil => rfl
  | cons x l ih => rw [List.mapM_cons, h x (by simp), ih fun y hy => h y (by simp [hy])]; rfl

theorem lexLe_trans (a b c : Pt3) (h1 : lexLe a b = true) (h2 : lexLe b c = true) : lexLe a c = true := by
  simp only [lexLe, decide_eq_true_eq] at *
  rcases h1 with h1 | ⟨h1, h1' | ⟨h1', h1''⟩⟩ <;> rcases h2 with h2 | ⟨h2, h2' | ⟨h2', h2''⟩⟩
  · left; linarith
  · left; linarith
  · left; linarith
  · left; linarith
  · right; exact ⟨by linarith, Or.inl (by linarith)⟩
  · right; exact ⟨by linarith, Or.inl (by linarith)⟩
  · left; linarith
  · right; exact ⟨by linarith, Or.inl (by linarith)⟩
  · right; exact ⟨by linarith, Or.inr ⟨by linarith, by linarith⟩⟩

theorem lexLe_total (a b : Pt3) : (lexLe a b || lexLe b a) = true := by
  simp only [lexLe, Bool.or_eq_true, decide_eq_true_eq]
  rcases lt_trichotomy a.1 b.1 with h | h | h
  · exact .inl (.inl h)
  · rcases lt_trichotomy a.2.1 b.2.1 with h' | h' | h'
    · exact .inl (.inr ⟨h, .inl h'⟩)
    · rcases le_total a.2.2 b.2.2 with h'' | h''
      · exact .inl (.inr ⟨h, .inr ⟨h', h''⟩⟩)
      · exact .inr (.inr ⟨h.symm, .inr ⟨h'.symm, h''⟩⟩)
    · exact .inr (.inr ⟨h.symm, .inl h'⟩)
  · exact .inr (.inl h)

theorem npUnique_mem (pts : List Pt3) (p : Pt3) : p ∈ (npUnique pts).1 ↔ p ∈ pts := by
  simp [npUnique, List.mem_mergeSort]

theorem npUnique_nodup (pts : List Pt3) : (npUnique pts).1.Nodup :=
  (List.mergeSort_perm _ _).nodup_iff.2 (List.nodup_dedup _)

theorem npUnique_sorted (pts : List Pt3) : (npUnique pts).1.Pairwise fun p q => lexLe p q = true :=
  List.pairwise_mergeSort lexLe_trans lexLe_total _

theorem npUnique_length (pts : List Pt3) : (npUnique pts).2.length = pts.length := by simp [npUnique]

/-- The number of the vertex that is the point `i`. -/
def num (pts : List Pt3) (i : Nat) : Nat := (npUnique pts).2.getD i 0

theorem num_vertex (pts : List Pt3) (i : Nat) (h : i < pts.length) : (npUnique pts).1[num pts i]? = some (pts.getD i (0, 0, 0)) := by
  have e : num pts i = (npUnique pts).1.idxOf pts[i] := by simp [num, npUnique, h]
  have hm : pts[i] ∈ (npUnique pts).1 := (npUnique_mem pts _).2 (List.getElem_mem h)
  rw [e, List.getElem?_eq_getElem (List.idxOf_lt_length_of_mem hm), List.getElem_idxOf]
  simp [h]

theorem corners_num (pts : List Pt3) (c : List Nat) (h : ∀ i ∈ c, i < pts.length) :
    corners (npUnique pts).1 ((c.map (num pts)).map (· + 1)) = some (c.map fun i => pts.getD i (0, 0, 0)) := by
  unfold corners
  rw [List.map_map, List.mapM_map, mapM_some (g := fun i => pts.getD i (0, 0, 0))]
  intro i hi
  simp only [Function.comp_apply, Nat.add_eq_zero_iff, one_ne_zero, and_false, if_false, Nat.add_sub_cancel]
  exact num_vertex pts i (h i hi)

theorem corners_rows (pts : List Pt3) (rows : List (List Nat)) (h : ∀ c ∈ rows, ∀ i ∈ c, i < pts.length) :
    (rows.map fun c => (c.map (num pts)).map (· + 1)).mapM (corners (npUnique pts).1) =
      some (rows.map fun c => c.map fun i => pts.getD i (0, 0, 0)) := by
  rw [List.mapM_map]
  exact mapM_some _ fun c hc => corners_num pts c (h c hc)

theorem cellsToNp_ok (pts : List Pt3) (m : Mat) (w : Nat) (hw : m.width = some w) (h0 : w ≠ 0)
    (h : ∀ c ∈ m.rows, ∀ i ∈ c, i < pts.length) :
    cellsToNp (npUnique pts).2 m = .ok { width := some w, rows := m.rows.map fun c => c.map (num pts) } := by
  unfold cellsToNp
  rw [mapM_rows 0 _ _ (by rwa [npUnique_length])]
  simp only [hw, bind, Except.bind]
  rw [if_neg h0]
  rfl

theorem appendCells_ok (pts : List Pt3) (m : Mat) (w : Nat) (name : Str) (o : Obj) (hw : m.width = some w) (h0 : w ≠ 0)
    (h : ∀ c ∈ m.rows, ∀ i ∈ c, i < pts.length) (ho : o.polygons.rows = [] ∨ o.polygons.width = some w) :
    appendCells (npUnique pts).2 m name o = .ok
      { vertices := o.vertices, changes := o.changes ++ [(o.polygons.rows.length, o.regions.length)], regions := o.regions ++ [name], polygons := { width := some w, rows := o.polygons.rows ++ m.rows.map fun c => c.map (num pts) } } := by
  unfold appendCells
  rw [cellsToNp_ok pts m w hw h0 h]
  simp only [bind, Except.bind]
  rcases ho with ho | ho
  · simp [ho, pure, Except.pure]
  · by_cases hl : o.polygons.rows.length = 0
    · have : o.polygons.rows = [] := List.length_eq_zero_iff.1 hl
      simp [this, pure, Except.pure]
    · simp [hl, ho, pure, Except.pure]

theorem asArray_ok {m : Mesh} (h : m.Valid) : asArray m.cells = .ok { width := some 3, rows := m.cells } := by
  obtain ⟨hne, hc⟩ := h
  rcases hm : m.cells with _ | ⟨c, cs⟩
  · exact absurd hm hne
  · rw [hm] at hc
    unfold asArray
    have h3 := (hc c (by simp)).1
    have h4 : ∀ d ∈ cs, d.length = c.length := fun d hd => ((hc d (by simp [hd])).1).trans h3.symm
    have h5 : ∀ d ∈ cs, d.length = 3 := fun d hd => (hc d (by simp [hd])).1
    simp only [h3, if_pos h5]

theorem facets_valid {m : Mesh} (h : m.Valid) : m.facets = m.cells.map fun c => c.map fun i => m.points.getD i (0, 0, 0) := by
  have h2 := h.2
  unfold Mesh.facets
  generalize m.cells = cs at h2
  induction cs with
  | nil => rfl
  | cons c cs ih =>
    rw [List.filterMap_cons, mapM_some (g := fun i => m.points.getD i (0, 0, 0)), ih fun d hd => h2 d (by simp [hd])]
    · rfl
    · intro i hi
      have := (h2 c (by simp)).2 i hi
      simp [this]

theorem headPoints_eq (shaft blades : List Pt3) {mn mx : ℝ} (hmn : Spec.MinOf (blades.map Prod.fst) mn) (hmx : Spec.MaxOf (blades.map Prod.fst) mx) :
    headPoints shaft mn mx = shaft.map fun p => decide (Spec.inHead shaft blades p) := by
  obtain ⟨hmx1, hmx2⟩ := hmx
  obtain ⟨hmn1, hmn2⟩ := hmn
  obtain ⟨pm, hpm, rfl⟩ := List.mem_map.1 hmx1
  obtain ⟨pn, hpn, rfl⟩ := List.mem_map.1 hmn1
  have hx : ∀ q ∈ blades, q.1 ≤ pm.1 := fun q hq => hmx2 _ (List.mem_map_of_mem hq)
  have hn : ∀ q ∈ blades, pn.1 ≤ q.1 := fun q hq => hmn2 _ (List.mem_map_of_mem hq)
  unfold headPoints Spec.inHead
  by_cases hc : (shaft.filter fun p => decide (p.1 < pm.1)).length ≤ (shaft.filter fun p => decide (pm.1 < p.1)).length
  · rw [if_pos hc]
    refine List.map_congr_left fun p _ => ?_
    rw [if_pos ⟨pm, hpm, hx, hc⟩]
    simp only [decide_eq_decide]
    exact ⟨fun h => ⟨pm, hpm, h⟩, fun ⟨q, hq, h⟩ => h.trans (hx q hq)⟩
  · rw [if_neg hc]
    refine List.map_congr_left fun p _ => ?_
    rw [if_neg]
    · simp only [decide_eq_decide]
      exact ⟨fun h => ⟨pn, hpn, h⟩, fun ⟨q, hq, h⟩ => (hn q hq).trans h⟩
    · rintro ⟨q, hq, h1, h2⟩
      have : q.1 = pm.1 := le_antisymm (hx q hq) (h1 pm hpm)
      rw [this] at h2
      exact hc h2

theorem select_map (m : Mat) (f : List Nat → Bool) : Mat.select m (m.rows.map f) = { m with rows := m.rows.filter f } := by
  unfold Mat.select
  congr 1
  generalize m.rows = rows
  induction rows with
  | nil => rfl
  | cons c rows ih =>
    simp only [List.map_cons, List.zip_cons_cons, List.filter_cons]
    by_cases h : f c
    · simp [h, ih]
    · simp [h, ih]

theorem headCells_ok (P : Pt3 → Prop) (pts : List Pt3) (m : Mat) (w : Nat) (hw : m.width = some w) (h0 : w ≠ 0)
    (h : ∀ c ∈ m.rows, ∀ i ∈ c, i < pts.length) :
    headCells (pts.map fun p => decide (P p)) m =
      .ok (m.rows.map fun c => decide (∀ p ∈ c.map fun i => pts.getD i (0, 0, 0), P p)) := by
  unfold headCells
  rw [mapM_rows false _ _ (by simpa using h)]
  simp only [hw, bind, Except.bind]
  rw [if_neg h0]
  simp only [pure, Except.pure, List.map_map]
  congr 1
  refine List.map_congr_left fun c hc => ?_
  rw [Bool.eq_iff_iff]
  simp only [Function.comp_apply, List.all_eq_true, List.mem_map, forall_exists_index, and_imp, forall_apply_eq_imp_iff₂, decide_eq_true_eq]
  refine forall₂_congr fun i hi => ?_
  simp [h c hc i hi]

/-- The object made from named groups of facets. -/
def built (pts : List Pt3) (G : List (Str × List (List Nat))) : Obj where
  vertices := (npUnique pts).1
  polygons := { width := some 3, rows := (G.map fun g => g.2.map fun c => (c.map (num pts)).map (· + 1)).flatten }
  regions := G.map Prod.fst
  changes := (List.range G.length).map fun k => (((G.map fun g => g.2.length).take k).sum, k)

theorem built_regionList (pts : List Pt3) (G : List (Str × List (List Nat))) (h : ∀ g ∈ G, ∀ c ∈ g.2, ∀ i ∈ c, i < pts.length) :
    (built pts G).regionList = some (G.map fun g => (g.1, g.2.map fun c => c.map fun i => pts.getD i (0, 0, 0))) := by
  have hlen : (built pts G).changes.length = G.length := by simp [built]
  unfold regionList
  rw [hlen]
  rw [mapM_some (g := fun k => ((G.getD k ([], [])).1, (G.getD k ([], [])).2.map fun c => c.map fun i => pts.getD i (0, 0, 0)))]
  · congr 1
    refine List.ext_getElem (by simp) fun k h1 h2 => ?_
    have hk : k < G.length := by simpa using h1
    simp [hk]
  · intro k hk
    have hk : k < G.length := by simpa using hk
    have hc : (built pts G).changes[k]? = some (((G.map fun g => g.2.length).take k).sum, k) := by simp [built, hk]
    have hr : (built pts G).regions[k]? = some (G[k].1) := by simp [built, hk]
    set L := G.map fun g => g.2.map fun c => (c.map (num pts)).map (· + 1) with hL
    have hLl : L.map List.length = G.map fun g => g.2.length := by simp [hL, Function.comp_def]
    have hrows : (built pts G).polygons.rows = L.flatten := rfl
    have hstop : ((built pts G).changes[k + 1]?.map Prod.fst).getD (built pts G).polygons.rows.length = ((G.map fun g => g.2.length).take (k + 1)).sum := by
      by_cases hk1 : k + 1 < G.length
      · have : (built pts G).changes[k + 1]? = some (((G.map fun g => g.2.length).take (k + 1)).sum, k + 1) := by simp [built, hk1]
        rw [this]; rfl
      · have : (built pts G).changes[k + 1]? = none := by
          rw [List.getElem?_eq_none_iff, hlen]; omega
        rw [this, Option.map_none, Option.getD_none, hrows, List.take_of_length_le (by simp; omega), List.length_flatten, hLl]
    unfold region
    rw [hc]
    simp only [bind, Option.bind, hr, hstop]
    rw [hrows]
    have hd := List.drop_take_succ_flatten_eq_getElem L k (by simp [hL, hk])
    rw [hLl, List.drop_take] at hd
    rw [hd]
    have : L[k]'(by simp [hL, hk]) = G[k].2.map fun c => (c.map (num pts)).map (· + 1) := by simp [hL]
    rw [this]
    have hv : (built pts G).vertices = (npUnique pts).1 := rfl
    rw [hv, corners_rows pts _ (h _ (List.getElem_mem hk))]
    simp [hk, pure]

theorem getD_append_left (a b : List Pt3) (c : List Nat) (h : ∀ i ∈ c, i < a.length) :
    (c.map fun i => (a ++ b).getD i (0, 0, 0)) = c.map fun i => a.getD i (0, 0, 0) := by
  refine List.map_congr_left fun i hi => ?_
  simp [List.getD, List.getElem?_append_left (h i hi)]

theorem getD_append_right (a b : List Pt3) (c : List Nat) :
    ((c.map (· + a.length)).map fun i => (a ++ b).getD i (0, 0, 0)) = c.map fun i => b.getD i (0, 0, 0) := by
  rw [List.map_map]
  refine List.map_congr_left fun i _ => ?_
  simp [List.getD, List.getElem?_append_right]

end Obj
end
end BladeX
