import Verif.Spec.RbfRows
import Verif.Lemmas.Rbf
import Mathlib.Analysis.InnerProductSpace.PiL2
import Mathlib.Data.List.GetD

namespace BladeX
namespace RbfRows

/-! ## The loops, for any way of adding to an entry -/

section Gen
variable {β : Type} (mk : List β → NdArr) (add : β → Val → β) (good : β → Prop) (okv : Val → Prop)

theorem inner_gen (hs : ∀ a i x v, a[i]? = some x → good x → okv v → addAt (mk a) i v = .ok (mk (a.set i (add x v))))
    (hg : ∀ x v, good x → okv v → good (add x v)) (i : Nat) (t : Nat → Val) :
    ∀ (js : List Nat) (a : List β) (x : β), a[i]? = some x → good x → (∀ j ∈ js, okv (t j)) →
      inner i t js (mk a) = (mk (a.set i (js.foldl (fun acc j => add acc (t j)) x)), .ok ()) := by
  intro js
  induction js with
  | nil =>
    intro a x hx _ _
    have : a.set i x = a := by
      obtain ⟨hi, rfl⟩ := List.getElem?_eq_some_iff.1 hx
      exact List.set_getElem_self hi
    simp [inner, this]
  | cons j js ih =>
    intro a x hx gx hj
    have hi := (List.getElem?_eq_some_iff.1 hx).1
    rw [inner, hs a i x _ hx gx (hj j (by simp))]
    simp only
    rw [ih (a.set i (add x (t j))) (add x (t j)) (by simp [hi]) (hg _ _ gx (hj j (by simp))) fun j' h => hj j' (by simp [h])]
    simp [List.set_set]

theorem outer_gen (hs : ∀ a i x v, a[i]? = some x → good x → okv v → addAt (mk a) i v = .ok (mk (a.set i (add x v))))
    (hg : ∀ x v, good x → okv v → good (add x v)) (n : Nat) (t : Nat → Nat → Val) (ht : ∀ i j, j < n → okv (t i j)) :
    ∀ (m s : Nat) (a : List β), (∀ x ∈ a, good x) → s + m ≤ a.length →
      outer n t (List.range' s m) (mk a) = (mk (a.mapIdx fun i x => if s ≤ i ∧ i < s + m then
        (List.range n).foldl (fun acc j => add acc (t i j)) x else x), .ok ()) := by
  intro m
  induction m with
  | zero =>
    intro s a _ _
    have : (a.mapIdx fun i x => if s ≤ i ∧ i < s + 0 then (List.range n).foldl (fun acc j => add acc (t i j)) x else x) = a := by
      apply List.ext_getElem (by simp)
      intro i h1 h2
      rw [List.getElem_mapIdx, if_neg (by omega)]
    rw [this]; rfl
  | succ m ih =>
    intro s a ga hl
    have hsl : s < a.length := by omega
    have hx : a[s]? = some a[s] := List.getElem?_eq_getElem hsl
    rw [List.range'_succ, outer, inner_gen mk add good okv hs hg s (t s) _ a a[s] hx (ga _ (List.getElem_mem hsl))
      (fun j hj => ht s j (List.mem_range.1 hj))]
    simp only
    have hfold : ∀ (js : List Nat) (x : β), good x → (∀ j ∈ js, okv (t s j)) → good (js.foldl (fun acc j => add acc (t s j)) x) := by
      intro js
      induction js with
      | nil => intro x gx _; exact gx
      | cons j js ihj => intro x gx hj; exact ihj _ (hg _ _ gx (hj j (by simp))) fun j' h => hj j' (by simp [h])
    have gset : ∀ x ∈ a.set s ((List.range n).foldl (fun acc j => add acc (t s j)) a[s]), good x := by
      intro x hxm
      rcases List.mem_or_eq_of_mem_set hxm with h | h
      · exact ga x h
      · rw [h]; exact hfold _ _ (ga _ (List.getElem_mem hsl)) fun j hj => ht s j (List.mem_range.1 hj)
    rw [ih (s + 1) _ gset (by simp; omega)]
    congr 2
    apply List.ext_getElem (by simp)
    intro i h1 h2
    simp only [List.getElem_mapIdx, List.getElem_set]
    rcases eq_or_ne s i with h | h
    · subst h
      rw [if_neg (by omega), if_pos rfl, if_pos (by omega)]
    · rw [if_neg h]
      by_cases h' : s + 1 ≤ i ∧ i < s + 1 + m
      · rw [if_pos h', if_pos (by omega)]
      · rw [if_neg h', if_neg (by omega)]

/-- An output that is too short: its entries are all updated, then the index is out of range. -/
theorem outer_short (hs : ∀ a i x v, a[i]? = some x → good x → okv v → addAt (mk a) i v = .ok (mk (a.set i (add x v))))
    (hg : ∀ x v, good x → okv v → good (add x v)) (hn : ∀ a i v, a[i]? = none → addAt (mk a) i v = .error .indexError)
    (n : Nat) (hn0 : 0 < n) (t : Nat → Nat → Val) (ht : ∀ i j, j < n → okv (t i j)) :
    ∀ (m s : Nat) (a : List β), (∀ x ∈ a, good x) → s ≤ a.length → a.length < s + m →
      outer n t (List.range' s m) (mk a) = (mk (a.mapIdx fun i x => if s ≤ i then
        (List.range n).foldl (fun acc j => add acc (t i j)) x else x), .error .indexError) := by
  intro m
  induction m with
  | zero => intro s a _ h1 h2; omega
  | succ m ih =>
    intro s a ga h1 h2
    rcases Nat.lt_or_ge s a.length with hsl | hsl
    · have hx : a[s]? = some a[s] := List.getElem?_eq_getElem hsl
      rw [List.range'_succ, outer, inner_gen mk add good okv hs hg s (t s) _ a a[s] hx (ga _ (List.getElem_mem hsl))
        (fun j hj => ht s j (List.mem_range.1 hj))]
      simp only
      have hfold : ∀ (js : List Nat) (x : β), good x → (∀ j ∈ js, okv (t s j)) → good (js.foldl (fun acc j => add acc (t s j)) x) := by
        intro js
        induction js with
        | nil => intro x gx _; exact gx
        | cons j js ihj => intro x gx hj; exact ihj _ (hg _ _ gx (hj j (by simp))) fun j' h => hj j' (by simp [h])
      have gset : ∀ x ∈ a.set s ((List.range n).foldl (fun acc j => add acc (t s j)) a[s]), good x := by
        intro x hxm
        rcases List.mem_or_eq_of_mem_set hxm with h | h
        · exact ga x h
        · rw [h]; exact hfold _ _ (ga _ (List.getElem_mem hsl)) fun j hj => ht s j (List.mem_range.1 hj)
      rw [ih (s + 1) _ gset (by simp; omega) (by simp; omega)]
      congr 2
      apply List.ext_getElem (by simp)
      intro i h3 h4
      simp only [List.getElem_mapIdx, List.getElem_set]
      rcases eq_or_ne s i with h | h
      · subst h
        rw [if_neg (by omega), if_pos rfl, if_pos (by omega)]
      · rw [if_neg h]
        by_cases h' : s + 1 ≤ i
        · rw [if_pos h', if_pos (by omega)]
        · rw [if_neg h', if_neg (by omega)]
    · have hnone : a[s]? = none := List.getElem?_eq_none hsl
      obtain ⟨k, rfl⟩ : ∃ k, n = k + 1 := ⟨n - 1, by omega⟩
      rw [List.range'_succ, outer, List.range_eq_range', List.range'_succ, inner, hn a s _ hnone]
      simp only
      congr 2
      symm
      apply List.ext_getElem (by simp)
      intro i h3 h4
      simp only [List.length_mapIdx] at h3
      rw [List.getElem_mapIdx, if_neg (by omega)]

end Gen

/-! ## The five ways of adding -/

/-- What `+=` does to a number. -/
def addNum (x : ℝ) : Val → ℝ
  | .scalar s => x + s
  | .row r => x + r.getD 0 0

/-- What `+=` does to a row. -/
def addRow (x : Arr) : Val → Arr
  | .scalar s => x.map (· + s)
  | .row r => if r.length = x.length then List.zipWith (· + ·) x r else x.map (· + r.getD 0 0)

/-- Values that fit a number. -/
def FitsNum : Val → Prop
  | .scalar _ => True
  | .row r => r.length = 1

/-- Values that fit a row of `w` numbers. -/
def FitsRow (w : Nat) : Val → Prop
  | .scalar _ => True
  | .row r => r.length = w ∨ r.length = 1

theorem addAt_vec (a : List ℝ) (i : Nat) (x : ℝ) (v : Val) (hx : a[i]? = some x) (_ : True) (hv : FitsNum v) :
    addAt (.vec a) i v = .ok (.vec (a.set i (addNum x v))) := by
  simp only [addAt, hx]
  cases v with
  | scalar s => rfl
  | row r =>
    obtain ⟨s, rfl⟩ := List.length_eq_one_iff.1 hv
    rfl

theorem addAt_vec_none (a : List ℝ) (i : Nat) (v : Val) (hx : a[i]? = none) : addAt (.vec a) i v = .error .indexError := by
  simp [addAt, hx]

theorem addAt_mat (w : Nat) (a : List Arr) (i : Nat) (x : Arr) (v : Val) (hx : a[i]? = some x) (gx : x.length = w) (hv : FitsRow w v) :
    addAt (.mat w a) i v = .ok (.mat w (a.set i (addRow x v))) := by
  simp only [addAt, hx]
  cases v with
  | scalar s => rfl
  | row r =>
    simp only [addRow, gx]
    by_cases h : r.length = w
    · simp [h]
    · obtain ⟨s, rfl⟩ := List.length_eq_one_iff.1 (hv.resolve_left h)
      simp only [h, if_false]
      rfl

theorem addAt_mat_none (w : Nat) (a : List Arr) (i : Nat) (v : Val) (hx : a[i]? = none) : addAt (.mat w a) i v = .error .indexError := by
  simp [addAt, hx]

theorem addRow_length (w : Nat) (x : Arr) (v : Val) (gx : x.length = w) (_ : FitsRow w v) : (addRow x v).length = w := by
  cases v with
  | scalar s => simp [addRow, gx]
  | row r =>
    simp only [addRow]
    split_ifs with h <;> simp [gx, h]

/-- The entry of a row in column `c` after adding. -/
theorem addRow_getD (w c : Nat) (x : Arr) (r : Arr) (gx : x.length = w) (hr : r.length = w) (hc : c < w) :
    (addRow x (.row r)).getD c 0 = x.getD c 0 + r.getD c 0 := by
  simp only [addRow, if_pos (hr.trans gx.symm)]
  rw [List.getD_eq_getElem _ _ (by simp [gx, hr, hc]), List.getD_eq_getElem _ _ (by omega), List.getD_eq_getElem _ _ (by omega)]
  simp

theorem addRow_fold (w c : Nat) (hc : c < w) (t : Nat → Arr) : ∀ (js : List Nat) (x : Arr), x.length = w → (∀ j ∈ js, (t j).length = w) →
    (js.foldl (fun acc j => addRow acc (.row (t j))) x).getD c 0 = js.foldl (fun acc j => acc + (t j).getD c 0) (x.getD c 0) ∧
    (js.foldl (fun acc j => addRow acc (.row (t j))) x).length = w := by
  intro js
  induction js with
  | nil => intro x gx _; exact ⟨rfl, gx⟩
  | cons j js ih =>
    intro x gx hj
    have h1 := addRow_length w x (.row (t j)) gx (Or.inl (hj j (by simp)))
    obtain ⟨h2, h3⟩ := ih (addRow x (.row (t j))) h1 fun j' h => hj j' (by simp [h])
    refine ⟨?_, h3⟩
    rw [List.foldl_cons, h2, addRow_getD w c x _ gx (hj j (by simp)) hc]
    rfl

theorem addRow_fold_scalar (t : Nat → ℝ) : ∀ (js : List Nat) (x : Arr),
    js.foldl (fun acc j => addRow acc (.scalar (t j))) x = x.map fun v => js.foldl (fun acc j => acc + t j) v := by
  intro js
  induction js with
  | nil => intro x; simp
  | cons j js ih => intro x; rw [List.foldl_cons, ih]; simp [addRow]

/-! ## Points and distances -/

open Spec (pt)

theorem rowDist_eq (d : Nat) (p q : Arr) (hp : p.length = d) (hq : q.length = d) : rowDist p q = dist (pt d p) (pt d q) := by
  have hz : List.zipWith (fun a b : ℝ => (a - b) ^ 2) p q = List.ofFn fun i : Fin d => (p.getD i 0 - q.getD i 0) ^ 2 := by
    apply List.ext_getElem (by simp [hp, hq])
    intro i h1 h2
    simp only [List.length_ofFn] at h2
    rw [List.getElem_zipWith, List.getElem_ofFn]
    rw [List.getD_eq_getElem _ _ (by simpa [hp] using h2), List.getD_eq_getElem _ _ (by simpa [hq] using h2)]
  rw [rowDist, hz, List.sum_ofFn, EuclideanSpace.dist_eq]
  congr 1
  refine Finset.sum_congr rfl fun i _ => ?_
  rw [Real.dist_eq, sq_abs]
  rfl

theorem points_mat (d : Nat) (rows : List Arr) (h : ∀ p ∈ rows, p.length = d) (hne : rows ≠ []) : (NdArr.mat d rows).points = (d, rows) := by
  have hpos : 0 < rows.length := List.length_pos_iff.2 hne
  simp only [NdArr.points]
  split_ifs with hd
  · have hd1 : d = 1 := Nat.eq_of_mul_eq_mul_right hpos (by omega)
    subst hd1
    have : ∀ l : List Arr, (∀ p ∈ l, p.length = 1) → l.flatten.map (fun x => [x]) = l := by
      intro l
      induction l with
      | nil => intro _; rfl
      | cons p l ih =>
        intro hl
        obtain ⟨x, rfl⟩ := List.length_eq_one_iff.1 (hl p (by simp))
        rw [List.flatten_cons, List.map_append, ih fun q hq => hl q (by simp [hq])]
        rfl
    rw [this rows h]
  · rfl

theorem getD_map_map (A : List Arr) (B : List Arr) (f : Arr → Arr → ℝ) (i j : Nat) (hi : i < A.length) (hj : j < B.length) :
    (((A.map fun p => B.map fun q => f p q).getD i []).getD j 0) = f A[i] B[j] := by
  have h1 : (A.map fun p => B.map fun q => f p q).getD i [] = B.map fun q => f A[i] q := by
    rw [List.getD_eq_getElem _ _ (by simpa using hi), List.getElem_map]
  rw [h1, List.getD_eq_getElem _ _ (by rw [List.length_map]; exact hj), List.getElem_map]

/-- The matrix of the system is the weight matrix of the points. -/
theorem square_eq (b : Basis) (r : ℝ) (d : Nat) (Xs : List Arr) (hX : ∀ p ∈ Xs, p.length = d) :
    square (Xs.map (pt d)).length (Xs.map fun p => Xs.map fun q => b.fn (rowDist p q) r) = weightsMatrix b r (Xs.map (pt d)) (Xs.map (pt d)) := by
  ext i j
  have hi : i.1 < Xs.length := by simpa using i.2
  have hj : j.1 < Xs.length := by simpa using j.2
  rw [square, Matrix.of_apply, getD_map_map Xs Xs (fun p q => b.fn (rowDist p q) r) i j hi hj,
    rowDist_eq d _ _ (hX _ (List.getElem_mem hi)) (hX _ (List.getElem_mem hj)), weightsMatrix]
  simp


/-! ## Columns -/

open Spec (Shaped col cols Fits shape)

/-- What column `c` receives of a value added to an entry. -/
def valAt (v : Val) (c : Nat) : ℝ :=
  match v with
  | .scalar s => s
  | .row r => r.getD (if r.length = 1 then 0 else c) 0

theorem addNum_at (x : ℝ) (v : Val) (hv : FitsNum v) : addNum x v = x + valAt v 0 := by
  cases v with
  | scalar s => rfl
  | row r =>
    have hr : r.length = 1 := hv
    simp [addNum, valAt, hr]

theorem addRow_at (w c : Nat) (x : Arr) (v : Val) (gx : x.length = w) (hv : FitsRow w v) (hc : c < w) :
    (addRow x v).getD c 0 = x.getD c 0 + valAt v c := by
  have hm : ∀ s : ℝ, (x.map (· + s)).getD c 0 = x.getD c 0 + s := by
    intro s
    rw [List.getD_eq_getElem _ _ (by simp [gx, hc]), List.getD_eq_getElem _ _ (by omega), List.getElem_map]
  cases v with
  | scalar s => exact hm s
  | row r =>
    by_cases h : r.length = w
    · rw [addRow_getD w c x r gx h hc]
      congr 1
      simp only [valAt]
      split_ifs with h1
      · have : c = 0 := by omega
        rw [this]
      · rfl
    · have h1 : r.length = 1 := hv.resolve_left h
      simp only [addRow, valAt, if_neg (by omega : ¬ r.length = x.length), if_pos h1]
      exact hm _

theorem fold_at (w c : Nat) (hc : c < w) (t : Nat → Val) : ∀ (js : List Nat) (x : Arr), x.length = w → (∀ j ∈ js, FitsRow w (t j)) →
    (js.foldl (fun acc j => addRow acc (t j)) x).getD c 0 = x.getD c 0 + (js.map fun j => valAt (t j) c).sum ∧
    (js.foldl (fun acc j => addRow acc (t j)) x).length = w := by
  intro js
  induction js with
  | nil => intro x gx _; simp [gx]
  | cons j js ih =>
    intro x gx hj
    obtain ⟨h2, h3⟩ := ih (addRow x (t j)) (addRow_length w x _ gx (hj j (by simp))) fun j' h => hj j' (by simp [h])
    refine ⟨?_, h3⟩
    rw [List.foldl_cons, h2, addRow_at w c x _ gx (hj j (by simp)) hc, List.map_cons, List.sum_cons]
    ring

theorem fold_length (w : Nat) (t : Nat → Val) : ∀ (js : List Nat) (x : Arr), x.length = w → (∀ j ∈ js, FitsRow w (t j)) →
    (js.foldl (fun acc j => addRow acc (t j)) x).length = w := by
  intro js
  induction js with
  | nil => intro x gx _; exact gx
  | cons j js ih => intro x gx hj; exact ih _ (addRow_length w x _ gx (hj j (by simp))) fun j' h => hj j' (by simp [h])

theorem fold_num (t : Nat → Val) : ∀ (js : List Nat) (x : ℝ), (∀ j ∈ js, FitsNum (t j)) →
    js.foldl (fun acc j => addNum acc (t j)) x = x + (js.map fun j => valAt (t j) 0).sum := by
  intro js
  induction js with
  | nil => intro x _; simp
  | cons j js ih =>
    intro x hj
    rw [List.foldl_cons, ih _ fun j' h => hj j' (by simp [h]), addNum_at x _ (hj j (by simp)), List.map_cons, List.sum_cons]
    ring

theorem getD_row_length (w : Nat) (rows : List Arr) (h : ∀ p ∈ rows, p.length = w) (j : Nat) (hj : j < rows.length) : (rows.getD j []).length = w := by
  rw [List.getD_eq_getElem _ _ hj]; exact h _ (List.getElem_mem hj)

/-- A term of the loops fits the output when the coefficients do. -/
theorem term_fits_row (w : NdArr) (k : Nat) (rows : List Arr) (hw : Shaped w) (hf : Fits w (.mat k rows)) (W : List Arr) (i j : Nat) (hj : j < w.len) :
    FitsRow k (term w W i j) := by
  cases w with
  | vec v => exact trivial
  | mat m rs =>
    simp only [term, FitsRow, List.length_map]
    rw [getD_row_length m rs hw j hj]
    exact hf

theorem term_fits_num (w : NdArr) (o : List ℝ) (hw : Shaped w) (hf : Fits w (.vec o)) (W : List Arr) (i j : Nat) (hj : j < w.len) :
    FitsNum (term w W i j) := by
  cases w with
  | vec v => exact trivial
  | mat m rs =>
    simp only [term, FitsNum, List.length_map]
    rw [getD_row_length m rs hw j hj]
    exact hf

theorem term_at (w : NdArr) (hw : Shaped w) (W : List Arr) (i j c : Nat) (hj : j < w.len) :
    valAt (term w W i j) c = (col w c).getD j 0 * (W.getD i []).getD j 0 := by
  cases w with
  | vec v => rfl
  | mat m rs =>
    have hl := getD_row_length m rs hw j hj
    have hjl : j < rs.length := hj
    simp only [term, valAt, List.length_map, hl, col]
    rw [List.getD_eq_getElem (rs.map _) _ (by rw [List.length_map]; exact hjl), List.getElem_map, List.getD_eq_getElem rs _ hjl]
    obtain ⟨q, hq⟩ : ∃ q, (if m = 1 then 0 else c) = q := ⟨_, rfl⟩
    rw [hq]
    by_cases h : q < (rs[j]).length
    · rw [List.getD_eq_getElem _ _ (by simpa using h), List.getElem_map, List.getD_eq_getElem _ _ h]
    · rw [List.getD_eq_default _ _ (by simpa using h), List.getD_eq_default _ _ (by omega), zero_mul]

/-- `np.linalg.solve`: every column is solved on its own. -/
theorem solve_cols (b : Basis) (r : ℝ) (d : Nat) (Xs : List Arr) (hX : ∀ p ∈ Xs, p.length = d) (Y O : NdArr) (hY : Shaped Y) (hf : Fits Y O)
    (n : Nat) (hn : n = (Xs.map (pt d)).length) :
    (∃ w, solve n (Xs.map fun p => Xs.map fun q => b.fn (rowDist p q) r) Y = .ok w ∧ Shaped w ∧ w.len = n ∧ Fits w O ∧ shape w = shape Y ∧
      ∀ c < cols O, npSolve (weightsMatrix b r (Xs.map (pt d)) (Xs.map (pt d))) (col Y c) = .ok fun j => (col w c).getD j 0) ∨
    ∃ e, solve n (Xs.map fun p => Xs.map fun q => b.fn (rowDist p q) r) Y = .error e ∧
      ∀ c < cols O, npSolve (weightsMatrix b r (Xs.map (pt d)) (Xs.map (pt d))) (col Y c) = .error e := by
  subst hn
  cases Y with
  | vec y =>
    simp only [solve, square_eq b r d Xs hX, col]
    rcases hs : npSolve (weightsMatrix b r (Xs.map (pt d)) (Xs.map (pt d))) y with e | w
    · exact Or.inr ⟨e, rfl, fun _ _ => rfl⟩
    · obtain ⟨hyl, _⟩ := npSolve_spec hs
      refine Or.inl ⟨.vec (List.ofFn w), rfl, trivial, by simp [NdArr.len], trivial, by simp only [shape, List.length_ofFn, hyl], fun c _ => ?_⟩
      congr 1
      funext j
      rw [List.getD_eq_getElem _ _ (by rw [List.length_ofFn]; exact j.2), List.getElem_ofFn]
  | mat k rows =>
    simp only [solve, square_eq b r d Xs hX]
    have hcl : ∀ c, (col (.mat k rows) c).length = rows.length := fun c => by simp [col]
    by_cases hl : rows.length = (Xs.map (pt d)).length
    · by_cases hd : (weightsMatrix b r (Xs.map (pt d)) (Xs.map (pt d))).det = 0
      · right
        refine ⟨.linAlgError, by simp [hl, hd], fun c _ => ?_⟩
        rw [npSolve, dif_pos ((hcl c).trans hl), if_pos hd]
      · left
        refine ⟨_, by rw [if_neg (by simpa using hl), if_neg hd], ?_, by simp [NdArr.len], ?_, by simp only [shape, List.length_ofFn, hl], fun c hc => ?_⟩
        · intro p hp
          obtain ⟨i, rfl⟩ := (List.mem_ofFn).1 hp
          simp
        · cases O <;> exact hf
        · rw [npSolve_ok ((hcl c).trans hl) hd]
          congr 1
          funext i
          have hq : (if k = 1 then 0 else c) < k := by
            split_ifs with h
            · omega
            · cases O with
              | vec o => exact absurd hf h
              | mat m os => rcases hf with h2 | h2 <;> simp [cols] at hc <;> omega
          simp only [col]
          rw [List.getD_eq_getElem _ _ (lt_of_lt_of_eq i.2 ((List.length_map _).trans List.length_ofFn).symm), List.getElem_map, List.getElem_ofFn, List.getD_eq_getElem _ _ (by simpa using hq),
            List.getElem_ofFn]
          congr 1
          funext j
          have hj : j.1 < rows.length := by rw [hl]; exact j.2
          simp [hj]
    · right
      refine ⟨.valueError, by rw [if_pos hl], fun c _ => ?_⟩
      rw [npSolve, dif_neg]
      rw [hcl c]; exact hl

/-- Closed form of a call of `reconstruct_f` on numbers, also at a zero radius when the basis allows it. -/
theorem reconstructF_form {α : Type*} [PseudoMetricSpace α] {name : String} {b : Basis} (hb : Basis.ofName name = .ok b)
    {r : ℝ} (hr : ¬ (r = 0 ∧ b ≠ .multiQuadratic)) {X : List α} {y : Arr} {xs : List α} {out : Arr} (hl : xs.length ≤ out.length) :
    reconstructF name r X y xs out =
      (npSolve (weightsMatrix b r X X) y).map fun w =>
        out.mapIdx fun i v => match xs[i]? with
          | some x => v + rbfEval b r X w x
          | none => v := by
  unfold reconstructF
  rw [hb]
  simp only [bind, Except.bind, pure, Except.pure, throw, throwThe, MonadExceptOf.throw]
  rw [if_neg hr]
  rcases npSolve (weightsMatrix b r X X) y with e | w
  · simp [Except.map]
  · simp only [Except.map]
    rw [if_neg (by rintro ⟨h, _⟩; omega)]
    congr 2
    funext i v
    split_ifs with h
    · rw [List.getElem?_eq_getElem h, foldl_add_eq_sum]
      rfl
    · rw [List.getElem?_eq_none (by omega)]

theorem sum_range_fin (n : Nat) (f : Nat → ℝ) : ((List.range n).map f).sum = ∑ j : Fin n, f j := by
  rw [← List.sum_ofFn, List.ofFn_eq_map, ← List.map_coe_finRange_eq_range, List.map_map]
  rfl

/-- The sum the loops add to an entry is the value of the interpolant. -/
theorem loop_sum (b : Basis) (r : ℝ) (d : Nat) (Xs Zs : List Arr) (hX : ∀ p ∈ Xs, p.length = d) (hZ : ∀ p ∈ Zs, p.length = d) (w : NdArr)
    (hw : Shaped w) (hl : w.len = Xs.length) (c i : Nat) (hi : i < Zs.length) :
    ((List.range Xs.length).map fun j => valAt (term w (Zs.map fun p => Xs.map fun q => b.fn (rowDist p q) r) i j) c).sum =
      rbfEval b r (Xs.map (pt d)) (fun j => (col w c).getD j 0) (pt d Zs[i]) := by
  rw [sum_range_fin, rbfEval]
  refine Fintype.sum_equiv (finCongr (by simp)) _ _ fun j => ?_
  have hj : j.1 < Xs.length := j.2
  rw [term_at w hw _ i j c (by omega), getD_map_map Zs Xs (fun p q => b.fn (rowDist p q) r) i j hi hj,
    rowDist_eq d _ _ (hZ _ (List.getElem_mem hi)) (hX _ (List.getElem_mem hj))]
  simp

end RbfRows
end BladeX
