import Verif.Lemmas.RbfRows
import Verif.Props.Rbf
import Mathlib.Tactic.IntervalCases

/-! # C112: `reconstruct_f` on arrays of one or two dimensions -/

namespace BladeX
namespace RbfRows
open Spec (Shaped col cols Fits shape pt)
open Classical

theorem weights_mat (b : Basis) (r : ℝ) (d : Nat) (Ps Qs : List Arr) (hP : ∀ p ∈ Ps, p.length = d) (hQ : ∀ p ∈ Qs, p.length = d) (hPn : Ps ≠ [])
    (hQn : Qs ≠ []) : weights b r (.mat d Ps) (.mat d Qs) = .ok (Ps.map fun p => Qs.map fun q => b.fn (rowDist p q) r) := by
  rw [weights, points_mat d Ps hP hPn, points_mat d Qs hQ hQn]
  simp

/-- The loops of a call whose preparation succeeds. -/
theorem loops_eq (b : Basis) (r : ℝ) (d : Nat) (Xs Zs : List Arr) (hX : ∀ p ∈ Xs, p.length = d) (hZ : ∀ p ∈ Zs, p.length = d) (w O : NdArr)
    (hw : Shaped w) (hO : Shaped O) (hl : w.len = Xs.length) (hf : Fits w O) (hlen : Zs.length ≤ O.len) :
    ∃ O', outer Xs.length (term w (Zs.map fun p => Xs.map fun q => b.fn (rowDist p q) r)) (List.range Zs.length) O = (O', .ok ()) ∧
      Shaped O' ∧ shape O' = shape O ∧ ∀ c < cols O, col O' c = (col O c).mapIdx fun i v => match (Zs.map (pt d))[i]? with
          | some x => v + rbfEval b r (Xs.map (pt d)) (fun j => (col w c).getD j 0) x
          | none => v := by
  set W := Zs.map fun p => Xs.map fun q => b.fn (rowDist p q) r with hW
  have hsum : ∀ c i (hi : i < Zs.length), ((List.range Xs.length).map fun j => valAt (term w W i j) c).sum =
      rbfEval b r (Xs.map (pt d)) (fun j => (col w c).getD j 0) (pt d Zs[i]) := fun c i hi => loop_sum b r d Xs Zs hX hZ w hw hl c i hi
  clear_value W
  rw [List.range_eq_range']
  cases O with
  | vec o =>
    have hlen' : 0 + Zs.length ≤ o.length := by simpa [NdArr.len] using hlen
    have ht : ∀ i j, j < Xs.length → FitsNum (term w W i j) := fun i j hj => term_fits_num w o hw hf W i j (by omega)
    rw [outer_gen NdArr.vec addNum (fun _ => True) FitsNum addAt_vec (fun _ _ _ _ => trivial) Xs.length _ ht Zs.length 0 o (fun _ _ => trivial) hlen']
    refine ⟨_, rfl, trivial, by simp [shape], fun c hc => ?_⟩
    obtain rfl : c = 0 := by simp [cols] at hc; exact hc
    rw [show ∀ v, col (.vec v) 0 = v from fun _ => rfl, show ∀ v, col (.vec v) 0 = v from fun _ => rfl]
    apply List.ext_getElem (by simp)
    intro i h1 h2
    rw [List.getElem_mapIdx, List.getElem_mapIdx]
    by_cases hi : i < Zs.length
    · rw [if_pos (by omega), fold_num _ _ _ fun j hj => ht i j (List.mem_range.1 hj), hsum 0 i hi,
        List.getElem?_eq_getElem (by simpa using hi)]
      simp
    · rw [if_neg (by omega), List.getElem?_eq_none (by simpa using hi)]
  | mat k rows =>
    have hlen' : 0 + Zs.length ≤ rows.length := by simpa [NdArr.len] using hlen
    have ht : ∀ i j, j < Xs.length → FitsRow k (term w W i j) := fun i j hj => term_fits_row w k rows hw hf W i j (by omega)
    rw [outer_gen (NdArr.mat k) addRow (fun x => x.length = k) (FitsRow k) (addAt_mat k) (addRow_length k) Xs.length _ ht Zs.length 0 rows hO hlen']
    refine ⟨_, rfl, ?_, by simp [shape], fun c hc => ?_⟩
    · intro p hp
      obtain ⟨i, hi, rfl⟩ := List.mem_iff_getElem.1 hp
      simp only [List.length_mapIdx] at hi
      rw [List.getElem_mapIdx]
      split_ifs
      · exact fold_length k _ _ _ (hO _ (List.getElem_mem hi)) fun j hj => ht i j (List.mem_range.1 hj)
      · exact hO _ (List.getElem_mem hi)
    · have hc' : c < k := hc
      have hq : (if k = 1 then 0 else c) = c := by split_ifs <;> omega
      have hcm : ∀ rs : List Arr, col (.mat k rs) c = rs.map fun p => p.getD c 0 := fun rs => by simp only [col, hq]
      rw [hcm, hcm]
      apply List.ext_getElem (by simp)
      intro i h1 h2
      simp only [List.length_map, List.length_mapIdx] at h1
      rw [List.getElem_map, List.getElem_mapIdx, List.getElem_mapIdx, List.getElem_map]
      by_cases hi : i < Zs.length
      · rw [if_pos (by omega), (fold_at k c hc' _ _ _ (hO _ (List.getElem_mem h1)) fun j hj => ht i j (List.mem_range.1 hj)).1, hsum c i hi,
          List.getElem?_eq_getElem (by simpa using hi)]
        simp
      · rw [if_neg (by omega), List.getElem?_eq_none (by simpa using hi)]

/-- **C112** `reconstruct_f` on a table of points in `d` dimensions, with any data that can be broadcast into the output: every column of the
output ends as the one-dimensional call with that column of the data would leave it, and the shape is kept; or no column can be computed, the
call fails with the error every one-dimensional call would give, and the output is untouched. -/
theorem C112_columns (name : String) (r : ℝ) (d : Nat) (Xs Zs : List Arr) (hX : ∀ p ∈ Xs, p.length = d) (hZ : ∀ p ∈ Zs, p.length = d)
    (hXn : Xs ≠ []) (hZn : Zs ≠ []) (Y O : NdArr) (hY : Shaped Y) (hO : Shaped O) (hf : Fits Y O) (hlen : Zs.length ≤ O.len) :
    (∃ O', reconstruct name r (.mat d Xs) Y (.mat d Zs) O = (O', .ok ()) ∧ Shaped O' ∧ shape O' = shape O ∧
      ∀ c < cols O, reconstructF name r (Xs.map (pt d)) (col Y c) (Zs.map (pt d)) (col O c) = .ok (col O' c)) ∨
    ∃ e, reconstruct name r (.mat d Xs) Y (.mat d Zs) O = (O, .error e) ∧
      ∀ c < cols O, reconstructF name r (Xs.map (pt d)) (col Y c) (Zs.map (pt d)) (col O c) = .error e := by
  rcases hb : Basis.ofName name with e | b
  · right
    refine ⟨e, ?_, fun c _ => ?_⟩
    · rw [reconstruct, prepare, hb]; rfl
    · rw [reconstructF, hb]; rfl
  by_cases hr : r = 0 ∧ b ≠ .multiQuadratic
  · right
    refine ⟨.nonFinite, ?_, fun c _ => ?_⟩
    · rw [reconstruct, prepare, hb]
      simp only [bind, Except.bind, throw, throwThe, MonadExceptOf.throw]
      rw [if_pos hr]
    · rw [reconstructF, hb]
      simp only [bind, Except.bind, throw, throwThe, MonadExceptOf.throw]
      rw [if_pos hr]
  have hprep : prepare name r (.mat d Xs) Y (.mat d Zs) = (solve Xs.length (Xs.map fun p => Xs.map fun q => b.fn (rowDist p q) r) Y).map fun w =>
      (w, Zs.map fun p => Xs.map fun q => b.fn (rowDist p q) r) := by
    rw [prepare, hb]
    simp only [bind, Except.bind, throw, throwThe, MonadExceptOf.throw, pure, Except.pure]
    rw [if_neg hr, weights_mat b r d Xs Xs hX hX hXn hXn, weights_mat b r d Zs Xs hZ hX hZn hXn]
    simp only [NdArr.len]
    rcases solve Xs.length (Xs.map fun p => Xs.map fun q => b.fn (rowDist p q) r) Y with e | w <;> rfl
  have hOl : ∀ c, (col O c).length = O.len := by intro c; cases O <;> simp [col, NdArr.len]
  rcases solve_cols b r d Xs hX Y O hY hf Xs.length (by simp) with ⟨w, hs, hw, hwl, hwf, _, hcol⟩ | ⟨e, hs, hcol⟩
  · left
    obtain ⟨O', h1, h2, h3, h4⟩ := loops_eq b r d Xs Zs hX hZ w O hw hO hwl hwf hlen
    refine ⟨O', ?_, h2, h3, fun c hc => ?_⟩
    · rw [reconstruct, hprep, hs]
      exact h1
    · rw [reconstructF_form hb hr (by rw [hOl]; simpa using hlen), hcol c hc, h4 c hc]
      simp only [Except.map]
      congr 2
      funext i v
      rcases (Zs.map (pt d))[i]? with _ | x <;> rfl
  · right
    refine ⟨e, ?_, fun c hc => ?_⟩
    · rw [reconstruct, hprep, hs]; rfl
    · rw [reconstructF_form hb hr (by rw [hOl]; simpa using hlen), hcol c hc]
      rfl


/-- The table with one column that an array of one dimension stands for. -/
def asColumn : NdArr → NdArr
  | .vec v => .mat 1 (v.map fun x => [x])
  | a => a

/-- **C112** points given as an array of one dimension are points with one coordinate. -/
theorem C112_one_column (name : String) (r : ℝ) (X Y Z O : NdArr) :
    reconstruct name r X Y Z O = reconstruct name r (asColumn X) Y (asColumn Z) O := by
  have hp : ∀ A : NdArr, (asColumn A).points = A.points := by
    intro A
    cases A with
    | vec v =>
      have : ∀ v : List ℝ, (v.map fun x => [x]).flatten = v := by
        intro v; induction v with
        | nil => rfl
        | cons a v ih => simpa using ih
      simp [asColumn, NdArr.points, this]
    | mat w rows => rfl
  have hl : ∀ A : NdArr, (asColumn A).len = A.len := by
    intro A; cases A <;> simp [asColumn, NdArr.len]
  simp only [reconstruct, prepare, weights, hp, hl]

/-- **C112** with a zeroed output, every requested point that is a data point receives its data row exactly. -/
theorem C112_interpolates (name : String) (b : Basis) (hb : Basis.ofName name = .ok b) (r : ℝ) (hr : 0 < r) (d k : Nat) (hk : 0 < k)
    (Xs Ys Zs : List Arr) (hX : ∀ p ∈ Xs, p.length = d) (hY : ∀ p ∈ Ys, p.length = k) (hZ : ∀ p ∈ Zs, p.length = d) (hXn : Xs ≠ []) (hZn : Zs ≠ [])
    (hl : Ys.length = Xs.length) (hdet : (weightsMatrix b r (Xs.map (pt d)) (Xs.map (pt d))).det ≠ 0) :
    ∃ Os, reconstruct name r (.mat d Xs) (.mat k Ys) (.mat d Zs) (.mat k (List.replicate Zs.length (List.replicate k 0))) = (.mat k Os, .ok ()) ∧
      Os.length = Zs.length ∧ ∀ i j (hi : i < Zs.length) (hj : j < Xs.length) (ho : i < Os.length) (hy : j < Ys.length),
        Zs[i] = Xs[j] → Os[i] = Ys[j] := by
  have hO : Shaped (.mat k (List.replicate Zs.length (List.replicate k 0))) := by
    intro p hp
    rw [List.eq_of_mem_replicate hp, List.length_replicate]
  have hzero : ∀ c < k, col (.mat k (List.replicate Zs.length (List.replicate k 0))) c = List.replicate (Zs.map (pt d)).length 0 := by
    intro c hc
    have hq : (if k = 1 then 0 else c) < k := by split_ifs <;> omega
    simp only [col, List.map_replicate, List.length_map]
    rw [List.getD_eq_getElem _ _ (by simpa using hq), List.getElem_replicate]
  have hscal : ∀ c < k, ∃ out, reconstructF name r (Xs.map (pt d)) (col (.mat k Ys) c) (Zs.map (pt d))
      (col (.mat k (List.replicate Zs.length (List.replicate k 0))) c) = .ok out ∧ out.length = (Zs.map (pt d)).length ∧
      ∀ i j (hi : i < (Zs.map (pt d)).length) (hj : j < (Xs.map (pt d)).length) (ho : i < out.length) (hy : j < (col (.mat k Ys) c).length),
        (Zs.map (pt d))[i] = (Xs.map (pt d))[j] → out[i] = (col (.mat k Ys) c)[j] := by
    intro c hc
    rw [hzero c hc]
    refine C29_interpolates name b hb r hr _ _ ?_ hdet _
    simp [col, hl]
  rcases C112_columns name r d Xs Zs hX hZ hXn hZn (.mat k Ys) _ hY hO (Or.inl rfl) (by simp [NdArr.len]) with ⟨O', h1, h2, h3, h4⟩ | ⟨e, h1, h2⟩
  · cases O' with
    | vec v => simp [shape] at h3
    | mat k' Os =>
      simp only [shape, List.length_replicate, List.cons.injEq, and_true] at h3
      obtain ⟨h3, rfl⟩ := h3
      refine ⟨Os, h1, h3, ?_⟩
      intro i j hi hj ho hy hij
      have e1 := h2 _ (List.getElem_mem ho)
      have e2 := hY _ (List.getElem_mem hy)
      apply List.ext_getElem (by omega)
      intro c hc1 hc2
      have hc : c < k' := by omega
      have hq : (if k' = 1 then 0 else c) = c := by split_ifs <;> omega
      obtain ⟨out, ho1, ho2, ho3⟩ := hscal c hc
      obtain rfl := Except.ok.inj (ho1.symm.trans (h4 c hc))
      have hv := ho3 i j (by simpa using hi) (by simpa using hj) (by simpa [col] using ho) (by simpa [col] using hy) (by simp [hij])
      simp only [col, hq, List.getElem_map] at hv
      rwa [List.getD_eq_getElem _ _ hc1, List.getD_eq_getElem _ _ hc2] at hv
  · obtain ⟨out, ho, _⟩ := hscal 0 hk
    rw [h2 0 hk] at ho
    cases ho

/-- What is computed before the loops, for tables of points. -/
theorem prepare_mat (name : String) (b : Basis) (hb : Basis.ofName name = .ok b) (r : ℝ) (hr : ¬ (r = 0 ∧ b ≠ .multiQuadratic)) (d : Nat) (Xs : List Arr)
    (hX : ∀ p ∈ Xs, p.length = d) (hXn : Xs ≠ []) (Y : NdArr) (hY : Shaped Y) (hl : Y.len = Xs.length)
    (hdet : (weightsMatrix b r (Xs.map (pt d)) (Xs.map (pt d))).det ≠ 0) :
    ∃ w, Shaped w ∧ shape w = shape Y ∧ ∀ Z, prepare name r (.mat d Xs) Y Z = (weights b r Z (.mat d Xs)).map fun W => (w, W) := by
  have hf : Fits Y Y := by cases Y <;> simp [Fits]
  rcases solve_cols b r d Xs hX Y Y hY hf Xs.length (by simp) with ⟨w, hs, hw, hwl, hwf, hsh, hcol⟩ | ⟨e, hs, hcol⟩
  · refine ⟨w, hw, hsh, fun Z => ?_⟩
    rw [prepare, hb]
    simp only [bind, Except.bind, throw, throwThe, MonadExceptOf.throw, pure, Except.pure]
    rw [if_neg hr, weights_mat b r d Xs Xs hX hX hXn hXn]
    simp only [NdArr.len]
    rw [hs]
    rcases weights b r Z (.mat d Xs) with e | W <;> rfl
  · exfalso
    cases Y with
    | vec y =>
      have h := hcol 0 (by simp [cols])
      rw [npSolve_ok (by simpa [col, NdArr.len] using hl) hdet] at h
      cases h
    | mat k Ys =>
      simp only [solve] at hs
      rw [if_neg (by simpa [NdArr.len] using hl)] at hs
      have e1 : (square Xs.length (Xs.map fun p => Xs.map fun q => b.fn (rowDist p q) r)).det ≠ 0 := by
        have : ∀ n, n = (Xs.map (pt d)).length → (square n (Xs.map fun p => Xs.map fun q => b.fn (rowDist p q) r)).det ≠ 0 := by
          rintro n rfl
          rw [square_eq b r d Xs hX]; exact hdet
        exact this _ (by simp)
      rw [if_neg e1] at hs
      cases hs

/-- **C112** arrays that do not match are refused: requested points of another dimension, and data rows that cannot be broadcast into the output,
raise `ValueError` and leave the output untouched. An empty table of requested points counts as having one coordinate, so it is refused like any
other table of another dimension. -/
theorem C112_refused (name : String) (b : Basis) (hb : Basis.ofName name = .ok b) (r : ℝ) (hr : ¬ (r = 0 ∧ b ≠ .multiQuadratic)) (d : Nat) (Xs : List Arr)
    (hX : ∀ p ∈ Xs, p.length = d) (hXn : Xs ≠ []) (Y : NdArr) (hY : Shaped Y) (hl : Y.len = Xs.length)
    (hdet : (weightsMatrix b r (Xs.map (pt d)) (Xs.map (pt d))).det ≠ 0) (O : NdArr) :
    (∀ d' Zs, (∀ p ∈ Zs, p.length = d') → Zs ≠ [] → d' ≠ d → reconstruct name r (.mat d Xs) Y (.mat d' Zs) O = (O, .error .valueError)) ∧
    (∀ d', d ≠ 1 → reconstruct name r (.mat d Xs) Y (.mat d' []) O = (O, .error .valueError)) ∧
    (∀ d', d = 1 → reconstruct name r (.mat d Xs) Y (.mat d' []) O = (O, .ok ())) ∧
    (∀ Zs, (∀ p ∈ Zs, p.length = d) → Zs ≠ [] → 0 < O.len → ¬ Fits Y O → reconstruct name r (.mat d Xs) Y (.mat d Zs) O = (O, .error .valueError)) := by
  obtain ⟨w, hw, hsh, hprep⟩ := prepare_mat name b hb r hr d Xs hX hXn Y hY hl hdet
  have hxp := points_mat d Xs hX hXn
  have hemp : ∀ d', (NdArr.mat d' []).points = (1, []) := by intro d'; simp [NdArr.points]
  refine ⟨?_, ?_, ?_, ?_⟩
  · intro d' Zs hZ hZn hd
    rw [reconstruct, hprep, weights, points_mat d' Zs hZ hZn, hxp, if_pos hd]
    rfl
  · intro d' hd
    rw [reconstruct, hprep, weights, hemp, hxp, if_pos (Ne.symm hd)]
    rfl
  · intro d' hd
    rw [reconstruct, hprep, weights, hemp, hxp, if_neg (by simp [hd])]
    rfl
  · intro Zs hZ hZn hO hf
    rw [reconstruct, hprep, weights_mat b r d Zs Xs hZ hX hZn hXn]
    obtain ⟨z, Zs, rfl⟩ := List.exists_cons_of_ne_nil hZn
    obtain ⟨x, Xs, rfl⟩ := List.exists_cons_of_ne_nil hXn
    obtain ⟨W, hW⟩ : ∃ W, ((z :: Zs).map fun p => (x :: Xs).map fun q => b.fn (rowDist p q) r) = W := ⟨_, rfl⟩
    rw [hW]
    have hfail : addAt O 0 (term w W 0 0) = .error .valueError := by
      cases Y with
      | vec y => exact absurd trivial hf
      | mat k Ys =>
        cases w with
        | vec v => simp [shape] at hsh
        | mat k' ws =>
          simp only [shape, List.cons.injEq, and_true] at hsh
          obtain ⟨hsl, rfl⟩ := hsh
          have hrl : ((ws.getD 0 []).map (· * (W.getD 0 []).getD 0 0)).length = k' := by
            rw [List.length_map]
            exact getD_row_length k' ws hw 0 (by rw [hsl]; simp only [NdArr.len] at hl; rw [hl]; simp)
          simp only [term]
          obtain ⟨rw', hrw⟩ : ∃ q, (ws.getD 0 []).map (· * (W.getD 0 []).getD 0 0) = q := ⟨_, rfl⟩
          rw [hrw] at hrl ⊢
          cases O with
          | vec o =>
            have hk : k' ≠ 1 := fun h => hf h
            have : o[0]? = some o[0] := List.getElem?_eq_getElem hO
            simp only [addAt, this]
            split
            · rename_i h; simp at h
            · rename_i s h
              cases h
              simp at hrl; omega
            · rfl
          | mat m os =>
            have hk : ¬ (k' = m ∨ k' = 1) := fun h => hf h
            have : os[0]? = some os[0] := List.getElem?_eq_getElem hO
            simp only [addAt, this]
            rw [if_neg (by rw [hrl]; exact fun h => hk (Or.inl h))]
            split
            · simp at hrl; omega
            · rfl
    show outer (Xs.length + 1) (term w W) (List.range (Zs.length + 1)) O = _
    rw [List.range_succ_eq_map, outer, List.range_succ_eq_map, inner, hfail]

/-- **C112** an output with fewer entries than requested points: the entries there are updated exactly as a call asking for those points only would
do, then `IndexError` is raised. -/
theorem C112_short_output (name : String) (b : Basis) (hb : Basis.ofName name = .ok b) (r : ℝ) (hr : ¬ (r = 0 ∧ b ≠ .multiQuadratic)) (d : Nat)
    (Xs Zs : List Arr) (hX : ∀ p ∈ Xs, p.length = d) (hZ : ∀ p ∈ Zs, p.length = d) (hXn : Xs ≠ []) (Y O : NdArr) (hY : Shaped Y) (hO : Shaped O)
    (hf : Fits Y O) (hl : Y.len = Xs.length) (hdet : (weightsMatrix b r (Xs.map (pt d)) (Xs.map (pt d))).det ≠ 0) (hs : O.len < Zs.length) :
    reconstruct name r (.mat d Xs) Y (.mat d Zs) O =
      ((reconstruct name r (.mat d Xs) Y (.mat d (Zs.take O.len)) O).1, .error .indexError) := by
  obtain ⟨w, hw, hsh, hprep⟩ := prepare_mat name b hb r hr d Xs hX hXn Y hY hl hdet
  have hwf : Fits w O := by
    cases Y with
    | vec y => cases w with
      | vec v => exact trivial
      | mat k ws => simp [shape] at hsh
    | mat k ys => cases w with
      | vec v => exact trivial
      | mat k' ws =>
        simp only [shape, List.cons.injEq, and_true] at hsh
        obtain ⟨_, rfl⟩ := hsh
        cases O <;> exact hf
  have hwl : w.len = Xs.length := by
    rw [← hl]
    cases Y <;> cases w <;> simp [shape] at hsh <;> simp [NdArr.len, hsh]
  have hZn : Zs ≠ [] := by rintro rfl; simp at hs
  have hxpos : 0 < Xs.length := List.length_pos_iff.2 hXn
  obtain ⟨W, hW⟩ : ∃ W, (Zs.map fun p => Xs.map fun q => b.fn (rowDist p q) r) = W := ⟨_, rfl⟩
  have hfull : reconstruct name r (.mat d Xs) Y (.mat d Zs) O = outer Xs.length (term w W) (List.range Zs.length) O := by
    rw [reconstruct, hprep, weights_mat b r d Zs Xs hZ hX hZn hXn, hW]; rfl
  have hcut : (reconstruct name r (.mat d Xs) Y (.mat d (Zs.take O.len)) O).1 = (outer Xs.length (term w (W.take O.len)) (List.range O.len) O).1 := by
    rcases Nat.eq_zero_or_pos O.len with h0 | h0
    · rw [h0, List.take_zero]
      have hemp : (NdArr.mat d []).points = (1, []) := by simp [NdArr.points]
      rw [reconstruct, hprep, weights, hemp, points_mat d Xs hX hXn]
      by_cases hd : (1 : Nat) ≠ d
      · rw [if_pos hd]; rfl
      · rw [if_neg hd]; rfl
    · have hne : Zs.take O.len ≠ [] := by
        intro h
        rcases List.take_eq_nil_iff.1 h with h | h
        · omega
        · exact hZn h
      rw [reconstruct, hprep, weights_mat b r d _ Xs (fun p hp => hZ p (List.mem_of_mem_take hp)) hX hne hXn, List.map_take, hW]
      show (outer Xs.length (term w (W.take O.len)) (List.range (Zs.take O.len).length) O).1 = _
      rw [List.length_take, Nat.min_eq_left hs.le]
  have hterm : ∀ i j, i < O.len → term w (W.take O.len) i j = term w W i j := by
    intro i j hi
    have : (W.take O.len).getD i [] = W.getD i [] := by simp [List.getD, List.getElem?_take, hi]
    simp only [term, this]
  rw [hfull, hcut, List.range_eq_range', List.range_eq_range']
  cases O with
  | vec o =>
    have ht : ∀ V i j, j < Xs.length → FitsNum (term w V i j) := fun V i j hj => term_fits_num w o hw hwf V i j (by omega)
    have hs' : o.length < 0 + Zs.length := by simpa [NdArr.len] using hs
    rw [outer_short NdArr.vec addNum (fun _ => True) FitsNum addAt_vec (fun _ _ _ _ => trivial) addAt_vec_none Xs.length hxpos _ (ht W) Zs.length 0 o
      (fun _ _ => trivial) (Nat.zero_le _) hs',
      outer_gen NdArr.vec addNum (fun _ => True) FitsNum addAt_vec (fun _ _ _ _ => trivial) Xs.length _ (ht _) _ 0 o (fun _ _ => trivial)
        (by simp [NdArr.len])]
    congr 2
    apply List.ext_getElem (by simp)
    intro i h1 h2
    simp only [List.length_mapIdx] at h1
    rw [List.getElem_mapIdx, List.getElem_mapIdx, if_pos (Nat.zero_le _), if_pos (by simp only [NdArr.len]; omega)]
    congr 1
    funext acc j
    rw [hterm i j h1]
  | mat k rows =>
    have ht : ∀ V i j, j < Xs.length → FitsRow k (term w V i j) := fun V i j hj => term_fits_row w k rows hw hwf V i j (by omega)
    have hs' : rows.length < 0 + Zs.length := by simpa [NdArr.len] using hs
    rw [outer_short (NdArr.mat k) addRow (fun x => x.length = k) (FitsRow k) (addAt_mat k) (addRow_length k) (addAt_mat_none k) Xs.length hxpos _ (ht W)
      Zs.length 0 rows hO (Nat.zero_le _) hs',
      outer_gen (NdArr.mat k) addRow (fun x => x.length = k) (FitsRow k) (addAt_mat k) (addRow_length k) Xs.length _ (ht _) _ 0 rows hO
        (by simp [NdArr.len])]
    congr 2
    apply List.ext_getElem (by simp)
    intro i h1 h2
    simp only [List.length_mapIdx] at h1
    rw [List.getElem_mapIdx, List.getElem_mapIdx, if_pos (Nat.zero_le _), if_pos (by simp only [NdArr.len]; omega)]
    congr 1
    funext acc j
    rw [hterm i j h1]


namespace Sample

/-- Two points of the plane at distance 5. -/
noncomputable def nodes : List Arr := [[0, 0], [3, 4]]

theorem nodes_det : (weightsMatrix .wendland 5 (nodes.map (pt 2)) (nodes.map (pt 2))).det ≠ 0 := by
  have h01 : dist (pt 2 [0, 0]) (pt 2 [3, 4]) = 5 := by
    rw [← rowDist_eq 2 _ _ rfl rfl]
    have : ((List.zipWith (fun a b : ℝ => (a - b) ^ 2) [0, 0] [3, 4]).sum) = 5 ^ 2 := by norm_num
    rw [rowDist, this, Real.sqrt_sq (by norm_num)]
  have h10 : dist (pt 2 [3, 4]) (pt 2 [0, 0]) = 5 := by rw [dist_comm, h01]
  have e0 : Basis.fn .wendland 0 5 = 1 := by norm_num [Basis.fn, wendlandC2]
  have e5 : Basis.fn .wendland 5 5 = 0 := by norm_num [Basis.fn, wendlandC2]
  have hn : (nodes.map (pt 2)).length = 2 := rfl
  have : weightsMatrix .wendland 5 (nodes.map (pt 2)) (nodes.map (pt 2)) = 1 := by
    ext i j
    have hi := i.2
    have hj := j.2
    rcases i with ⟨i, hi'⟩
    rcases j with ⟨j, hj'⟩
    simp only [hn] at hi hj
    interval_cases i <;> interval_cases j <;> simp [weightsMatrix, nodes, h01, h10, e0, e5, Matrix.one_apply]
  rw [this, Matrix.det_one]
  exact one_ne_zero

/-- The hypotheses of the theorems above, and what they say: the plane data `(1, 2)`, `(3, 4)` are returned at the nodes. -/
example : ∃ Os, reconstruct "beckert_wendland_c2_basis" 5 (.mat 2 nodes) (.mat 2 [[1, 2], [3, 4]]) (.mat 2 [[3, 4], [1, 1]])
      (.mat 2 [[0, 0], [0, 0]]) = (.mat 2 Os, .ok ()) ∧ Os.length = 2 ∧ ∀ h : 0 < Os.length, Os[0] = [3, 4] := by
  obtain ⟨Os, h1, h2, h3⟩ := C112_interpolates _ .wendland wendland_name 5 (by norm_num) 2 2 (by norm_num) nodes [[1, 2], [3, 4]] [[3, 4], [1, 1]]
    (by simp [nodes]) (by simp) (by simp) (by simp [nodes]) (by simp) rfl nodes_det
  exact ⟨Os, h1, h2, fun h => h3 0 1 (by norm_num) (by simp [nodes]) h (by norm_num) rfl⟩

/-- Numbers as data for an output of two columns: both columns receive them. -/
example : Fits (.vec [1, 2]) (.mat 2 [[0, 0], [0, 0]]) ∧ col (.vec [1, 2]) 1 = [1, 2] := ⟨trivial, rfl⟩

/-- Data of one column are broadcast, data of three columns are refused by an output of two. -/
example : reconstruct "beckert_wendland_c2_basis" 5 (.mat 2 nodes) (.mat 3 [[1, 2, 3], [4, 5, 6]]) (.mat 2 [[3, 4]]) (.mat 2 [[7, 7]]) =
    (.mat 2 [[7, 7]], .error .valueError) :=
  (C112_refused _ .wendland wendland_name 5 (by norm_num) 2 nodes (by simp [nodes]) (by simp [nodes]) (.mat 3 [[1, 2, 3], [4, 5, 6]])
    (by intro p hp; simp at hp; rcases hp with rfl | rfl <;> rfl) rfl nodes_det (.mat 2 [[7, 7]])).2.2.2 [[3, 4]] (by simp) (by simp) (by simp [NdArr.len])
    (by simp [Fits])

/-- An output of one row for two requested points. -/
example : reconstruct "beckert_wendland_c2_basis" 5 (.mat 2 nodes) (.mat 2 [[1, 2], [3, 4]]) (.mat 2 [[3, 4], [1, 1]]) (.mat 2 [[0, 0]]) =
    ((reconstruct "beckert_wendland_c2_basis" 5 (.mat 2 nodes) (.mat 2 [[1, 2], [3, 4]]) (.mat 2 [[3, 4]]) (.mat 2 [[0, 0]])).1, .error .indexError) :=
  C112_short_output _ .wendland wendland_name 5 (by norm_num) 2 nodes [[3, 4], [1, 1]] (by simp [nodes]) (by simp) (by simp [nodes])
    (.mat 2 [[1, 2], [3, 4]]) (.mat 2 [[0, 0]]) (by intro p hp; simp at hp; rcases hp with rfl | rfl <;> rfl) (by intro p hp; simp at hp; rw [hp]; rfl)
    (Or.inl rfl) rfl nodes_det (by simp [NdArr.len])

end Sample
end RbfRows
end BladeX
