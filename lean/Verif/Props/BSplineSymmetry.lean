import Verif.Lemmas.BSplineZeros
import Verif.Props.BSplineShape

/-! # C148: direction, refinement and range of influence of the spline curve -/

namespace BladeX

open Spec BSpline
noncomputable section
open Classical

/-- The knots read backwards. -/
private theorem knot_symm {c k : Nat} (hk : k < c) {i : Nat} (hi : i ≤ c + k) : clampedKnot c k (c + k - i) = (c : ℝ) - k - clampedKnot c k i := by
  rcases Nat.lt_or_ge k i with h1 | h1
  · rcases Nat.lt_or_ge i c with h2 | h2
    · rw [clampedKnot_mid (by omega) (by omega), clampedKnot_mid (by omega) (by omega), Nat.cast_sub hi]
      push_cast; ring
    · rw [clampedKnot_le (by omega), clampedKnot_ge hk h2]; ring
  · rw [clampedKnot_le h1, clampedKnot_ge hk (by omega)]; ring

/-- The pieces of the B-splines read backwards. -/
private theorem loc_symm {t : Nat → ℝ} {N l : Nat} {T : ℝ} (ht : ∀ i ≤ N, t (N - i) = T - t i) (hl : l < N) (x : ℝ) :
    ∀ j i, i + j + 1 ≤ N → loc t (N - 1 - l) j (N - i - j - 1) (T - x) = loc t l j i x := by
  intro j
  induction j with
  | zero =>
    intro i hi
    rw [loc, loc]
    by_cases h : i = l
    · rw [if_pos (by omega), if_pos h]
    · rw [if_neg (by omega), if_neg h]
  | succ j ih =>
    intro i hi
    rw [loc, loc]
    have e1 := ih i (by omega)
    have e2 := ih (i + 1) (by omega)
    rw [show N - i - j - 1 = N - i - (j + 1) - 1 + 1 by omega] at e1
    rw [show N - (i + 1) - j - 1 = N - i - (j + 1) - 1 by omega] at e2
    rw [e1, e2]
    have k1 : t (N - i - (j + 1) - 1) = T - t (i + j + 2) := by rw [← ht _ (by omega)]; congr 1; omega
    have k2 : t (N - i - (j + 1) - 1 + j + 1) = T - t (i + 1) := by rw [← ht _ (by omega)]; congr 1; omega
    have k3 : t (N - i - (j + 1) - 1 + j + 2) = T - t i := by rw [← ht _ (by omega)]; congr 1; omega
    have k4 : t (N - i - (j + 1) - 1 + 1) = T - t (i + j + 1) := by rw [← ht _ (by omega)]; congr 1; omega
    rw [k1, k2, k3, k4]
    rw [show T - x - (T - t (i + j + 2)) = t (i + j + 2) - x by ring, show T - t (i + 1) - (T - t (i + j + 2)) = t (i + j + 2) - t (i + 1) by ring,
      show T - t i - (T - x) = x - t i by ring, show T - t i - (T - t (i + j + 1)) = t (i + j + 1) - t i by ring]
    ring

/-- The interval of a parameter. -/
private theorem interval_of {m : Nat} (hm : 0 < m) {x : ℝ} (h0 : 0 ≤ x) (h1 : x ≤ m) : ∃ e : Nat, e < m ∧ (e : ℝ) ≤ x ∧ x ≤ e + 1 := by
  rcases lt_or_eq_of_le h1 with h | h
  · exact ⟨⌊x⌋₊, (Nat.floor_lt h0).2 h, Nat.floor_le h0, (Nat.lt_floor_add_one x).le⟩
  · refine ⟨m - 1, by omega, ?_, ?_⟩ <;> rw [h, Nat.cast_sub (by omega)] <;> push_cast <;> linarith

/-- One coordinate of the curve. -/
private theorem curve_symm {c k : Nat} (hk : k < c) (hk1 : 1 ≤ k) (a : Nat → ℝ) {x : ℝ} (h0 : 0 ≤ x) (h1 : x ≤ (c : ℝ) - k) :
    ∑ i ∈ Finset.range c, coxDeBoor (clampedKnot c k) c k i ((c : ℝ) - k - x) * a (c - 1 - i) =
      ∑ i ∈ Finset.range c, coxDeBoor (clampedKnot c k) c k i x * a i := by
  have hT : ((c - k : Nat) : ℝ) = (c : ℝ) - k := by rw [Nat.cast_sub hk.le]
  obtain ⟨e, he, e1, e2⟩ := interval_of (m := c - k) (by omega) h0 (by rw [hT]; exact h1)
  have p1 := curveD_piece_closed (a := a) hk he (i := 0) (by omega) e1 e2
  have he' : ((c - k - 1 - e : Nat) : ℝ) = (c : ℝ) - k - 1 - e := by
    rw [Nat.cast_sub (by omega), Nat.cast_sub (by omega), hT]; push_cast; ring
  have p2 := curveD_piece_closed (a := fun i => a (c - 1 - i)) hk (e := c - k - 1 - e) (by omega) (i := 0) (by omega) (x := (c : ℝ) - k - x)
    (by rw [he']; linarith) (by rw [he']; linarith)
  simp only [curveD, pieceD, der, Nat.sub_zero, locSum] at p1 p2
  rw [p1, p2, ← Finset.sum_range_reflect]
  refine Finset.sum_congr rfl fun i hi => ?_
  have hi' := Finset.mem_range.1 hi
  have := loc_symm (t := clampedKnot c k) (N := c + k) (l := k + e) (T := (c : ℝ) - k) (fun i hi => knot_symm hk hi) (by omega) x k i (by omega)
  rw [show c + k - 1 - (k + e) = k + (c - k - 1 - e) by omega, show c + k - i - k - 1 = c - 1 - i by omega] at this
  rw [this, show c - 1 - (c - 1 - i) = i by omega]

/-- **C148** Control points in the opposite order give the same curve, run through backwards, for every degree from one on and at least two points. -/
theorem C148_reversed (cv : List Pt) (n k : Nat) (hn : 2 ≤ n) (hk : k < cv.length) (h1 : 1 ≤ k) (h5 : k ≤ 5) (out : List Pt)
    (h : scipyBspline cv n k = .ok out) : scipyBspline cv.reverse n k = .ok out.reverse := by
  obtain ⟨out', h', hl', -⟩ := C34_curve cv.reverse n k (by simpa using hk) h5
  obtain ⟨o1, o2⟩ := coords_of hk h5 h
  obtain ⟨o3, o4⟩ := coords_of (by simpa using hk) h5 h'
  have hl : out.length = n := by simpa using congrArg List.length o1
  have key : ∀ (v : List ℝ), v.length = cv.length → ∀ j < n, coordAt v.reverse k n j = coordAt v k n (n - 1 - j) := by
    intro v hv j hj
    unfold coordAt
    rw [List.length_reverse, hv]
    obtain ⟨m1, m2⟩ := paramAt_mem (c := cv.length) hk (show n - 1 - j < n by omega)
    rw [← curve_symm hk h1 _ m1 m2]
    refine Finset.sum_congr rfl fun i hi => ?_
    have hi' := Finset.mem_range.1 hi
    have hp : paramAt cv.length k n j = (cv.length : ℝ) - k - paramAt cv.length k n (n - 1 - j) := by
      unfold paramAt
      have hn' : (n : ℝ) - 1 ≠ 0 := by
        have : (2 : ℝ) ≤ n := by exact_mod_cast hn
        linarith
      rw [Nat.cast_sub (by omega), Nat.cast_sub (by omega)]
      field_simp
      push_cast
      ring
    rw [hp]
    congr 1
    rw [List.getD_eq_getElem?_getD, List.getD_eq_getElem?_getD, List.getElem?_reverse (by omega), hv]
  rw [h']
  congr 1
  refine List.ext_getElem (by rw [List.length_reverse, hl, hl']) fun j j1 j2 => ?_
  have hj : j < n := by omega
  rw [List.getElem_reverse]
  have a1 : ∀ (j : Nat) (hj : j < out.length), out[j].1 = coordAt (cv.map Prod.fst) k n j := by
    intro j hj
    have := congrArg (·[j]?) o1
    simpa [List.getElem?_eq_getElem hj, List.getElem?_range (show j < n by omega)] using this
  have a2 : ∀ (j : Nat) (hj : j < out.length), out[j].2 = coordAt (cv.map Prod.snd) k n j := by
    intro j hj
    have := congrArg (·[j]?) o2
    simpa [List.getElem?_eq_getElem hj, List.getElem?_range (show j < n by omega)] using this
  have a3 : out'[j].1 = coordAt (cv.map Prod.fst).reverse k n j := by
    have := congrArg (·[j]?) o3
    simpa [List.getElem?_eq_getElem j1, List.getElem?_range hj, List.map_reverse] using this
  have a4 : out'[j].2 = coordAt (cv.map Prod.snd).reverse k n j := by
    have := congrArg (·[j]?) o4
    simpa [List.getElem?_eq_getElem j1, List.getElem?_range hj, List.map_reverse] using this
  refine Prod.ext ?_ ?_
  · rw [a3, a1, key _ (by simp) j hj, hl]
  · rw [a4, a2, key _ (by simp) j hj, hl]

/-- **C148** A finer sampling contains the coarser one: with `q` times as many steps every `q`-th point is a point of the coarse curve. -/
theorem C148_refined (cv : List Pt) (m q k : Nat) (hm : 1 ≤ m) (hq : 1 ≤ q) (hk : k < cv.length) (h5 : k ≤ 5) (out fine : List Pt)
    (h : scipyBspline cv ((m + 1 : Nat) : Int) k = .ok out) (h' : scipyBspline cv ((q * m + 1 : Nat) : Int) k = .ok fine) :
    ∀ j ≤ m, fine[q * j]? = out[j]? ∧ (out[j]?).isSome := by
  obtain ⟨o, ho, hl, hg⟩ := C34_curve cv (m + 1) k hk h5
  obtain ⟨o', ho', hl', hg'⟩ := C34_curve cv (q * m + 1) k hk h5
  rw [h] at ho
  rw [h'] at ho'
  obtain rfl := Except.ok.inj ho
  obtain rfl := Except.ok.inj ho'
  intro j hj
  have hj' : q * j ≤ q * m := Nat.mul_le_mul_left q hj
  rw [List.getElem?_eq_getElem (by omega), List.getElem?_eq_getElem (by omega), hg, hg']
  refine ⟨?_, rfl⟩
  congr 2
  have hm' : (m : ℝ) ≠ 0 := by exact_mod_cast (show m ≠ 0 by omega)
  have hq' : (q : ℝ) ≠ 0 := by exact_mod_cast (show q ≠ 0 by omega)
  simp only [Nat.cast_add, Nat.cast_mul, Nat.cast_one, add_sub_cancel_right]
  field_simp

/-- **C148** A control point moves the curve only nearby: if two lists of control points differ in number `m` only, the curves (degree at least one)
have the same points at all parameters below `m - k` and above `m + 1`; the parameter of point `j` is `j (c - k) / (n - 1)`. -/
theorem C148_local (cv cv' : List Pt) (n k m : Nat) (hk : k < cv.length) (h1 : 1 ≤ k) (h5 : k ≤ 5) (hl : cv'.length = cv.length)
    (hd : ∀ i, i ≠ m → cv'[i]? = cv[i]?) (out out' : List Pt) (h : scipyBspline cv n k = .ok out) (h' : scipyBspline cv' n k = .ok out') (j : Nat)
    (hj : (j : ℝ) * (((cv.length : ℝ) - k) / (n - 1)) < (m : ℝ) - k ∨ (m : ℝ) + 1 < j * (((cv.length : ℝ) - k) / (n - 1))) :
    out'[j]? = out[j]? := by
  obtain ⟨o1, o2⟩ := coords_of hk h5 h
  obtain ⟨o3, o4⟩ := coords_of (by omega) h5 h'
  have l1 : out.length = n := by simpa using congrArg List.length o1
  have l2 : out'.length = n := by simpa using congrArg List.length o3
  by_cases hjn : j < n
  swap
  · rw [List.getElem?_eq_none (by omega), List.getElem?_eq_none (by omega)]
  have key : ∀ (v v' : List ℝ), v.length = cv.length → v'.length = cv.length → (∀ i, i ≠ m → v'[i]? = v[i]?) → coordAt v' k n j = coordAt v k n j := by
    intro v v' hv hv' hvd
    obtain ⟨m1, m2⟩ := paramAt_mem (c := cv.length) hk hjn
    have hT : ((cv.length - k : Nat) : ℝ) = (cv.length : ℝ) - k := by rw [Nat.cast_sub hk.le]
    obtain ⟨e, he, e1, e2⟩ := interval_of (m := cv.length - k) (by omega) m1 (by rw [hT]; exact m2)
    unfold coordAt
    rw [hv, hv']
    have p1 := curveD_piece_closed (a := fun i => v.getD i 0) hk he (i := 0) (by omega) e1 e2
    have p2 := curveD_piece_closed (a := fun i => v'.getD i 0) hk he (i := 0) (by omega) e1 e2
    simp only [curveD, pieceD, der, Nat.sub_zero, locSum] at p1 p2
    rw [p1, p2]
    refine Finset.sum_congr rfl fun i hi => ?_
    by_cases him : i = m
    · suffices hz : loc (clampedKnot cv.length k) (k + e) k i (paramAt cv.length k n j) = 0 by rw [hz, zero_mul, zero_mul]
      refine loc_zero _ _ _ k i ?_
      subst him
      rcases hj with hj | hj
      · left
        have : (e : ℝ) < (i : ℝ) - k := lt_of_le_of_lt e1 hj
        have : (e : ℝ) + k < i := by linarith
        have : e + k < i := by exact_mod_cast this
        omega
      · right
        have : (i : ℝ) + 1 < e + 1 := lt_of_lt_of_le hj e2
        have : i < e := by
          have : (i : ℝ) < e := by linarith
          exact_mod_cast this
        omega
    · rw [List.getD_eq_getElem?_getD, List.getD_eq_getElem?_getD, hvd i him]
  have a1 : out[j]? = some (coordAt (cv.map Prod.fst) k n j, coordAt (cv.map Prod.snd) k n j) := by
    rw [List.getElem?_eq_getElem (by omega)]
    have z1 := congrArg (·[j]?) o1
    have z2 := congrArg (·[j]?) o2
    simp only [List.getElem?_map, List.getElem?_range hjn, List.getElem?_eq_getElem (show j < out.length by omega), Option.map_some, Option.some.injEq] at z1 z2
    rw [← z1, ← z2]
  have a2 : out'[j]? = some (coordAt (cv'.map Prod.fst) k n j, coordAt (cv'.map Prod.snd) k n j) := by
    rw [List.getElem?_eq_getElem (by omega)]
    have z1 := congrArg (·[j]?) o3
    have z2 := congrArg (·[j]?) o4
    simp only [List.getElem?_map, List.getElem?_range hjn, List.getElem?_eq_getElem (show j < out'.length by omega), Option.map_some, Option.some.injEq] at z1 z2
    rw [← z1, ← z2]
  rw [a1, a2, key (cv.map Prod.fst) (cv'.map Prod.fst) (by simp) (by simp [hl]) (fun i hi => by simp [hd i hi]),
    key (cv.map Prod.snd) (cv'.map Prod.snd) (by simp) (by simp [hl]) (fun i hi => by simp [hd i hi])]

/-- **C148** Degree zero is direction dependent: a parameter on a knot takes the control point after the knot. Two points sampled three times give
`p, q, q`, and the reversed list gives `q, p, p`, not `q, q, p`. -/
theorem C148_degree_zero : ∃ out out' : List Pt, scipyBspline [(0, 0), (1, 0)] (3 : Nat) (0 : Nat) = .ok out ∧
    scipyBspline [(0, 0), (1, 0)].reverse (3 : Nat) (0 : Nat) = .ok out' ∧ out' ≠ out.reverse := by
  obtain ⟨o, ho, hl, hg⟩ := C34_curve [(0, 0), (1, 0)] 3 0 (by simp) (by omega)
  obtain ⟨o', ho', hl', hg'⟩ := C34_curve [(0, 0), (1, 0)].reverse 3 0 (by simp) (by omega)
  refine ⟨o, o', ho, ho', fun h => ?_⟩
  have e1 : o[1].1 = 1 := by
    rw [hg]
    change (∑ i : Fin 2, coxDeBoor (clampedKnot 2 0) 2 0 i _ * (([(0, 0), (1, 0)] : List Pt)[i]).1) = 1
    rw [Fin.sum_univ_two]
    norm_num [coxDeBoor, clampedKnot]
  have e2 : o'[1].1 = 0 := by
    rw [hg']
    change (∑ i : Fin 2, coxDeBoor (clampedKnot 2 0) 2 0 i _ * (([(1, 0), (0, 0)] : List Pt)[i]).1) = 0
    rw [Fin.sum_univ_two]
    norm_num [coxDeBoor, clampedKnot]
  have e3 : o'[1] = o[1] := by
    have := congrArg (·[1]?) h
    simp only [List.getElem?_eq_getElem (show 1 < o'.length by omega), List.getElem?_reverse (show 1 < o.length by omega), hl] at this
    rw [List.getElem?_eq_getElem (by omega)] at this
    exact Option.some.inj this
  rw [e3, e1] at e2
  exact one_ne_zero e2

/-! ### The hypotheses are met: a quadratic curve of five control points -/

private def five : List Pt := [(0, 0), (1, 2), (2, 2), (3, 1), (4, 0)]

example : ∃ out : List Pt, scipyBspline five (100 : Nat) (2 : Nat) = .ok out ∧ scipyBspline five.reverse (100 : Nat) (2 : Nat) = .ok out.reverse := by
  obtain ⟨o, ho, -⟩ := C34_curve five 100 2 (by simp [five]) (by omega)
  exact ⟨o, ho, C148_reversed five 100 2 (by omega) (by simp [five]) (by omega) (by omega) o ho⟩

example : ∃ out fine : List Pt, scipyBspline five ((50 + 1 : Nat) : Int) (2 : Nat) = .ok out ∧ scipyBspline five ((4 * 50 + 1 : Nat) : Int) (2 : Nat) = .ok fine ∧
    fine[28]? = out[7]? := by
  obtain ⟨o, ho, -⟩ := C34_curve five (50 + 1) 2 (by simp [five]) (by omega)
  obtain ⟨o', ho', -⟩ := C34_curve five (4 * 50 + 1) 2 (by simp [five]) (by omega)
  exact ⟨o, o', ho, ho', (C148_refined five 50 4 2 (by omega) (by omega) (by simp [five]) (by omega) o o' ho ho' 7 (by omega)).1⟩

/-- The last of five points moved: the first two thirds of the curve stay (parameter below 2 of 3). -/
example : ∃ out out' : List Pt, scipyBspline five (100 : Nat) (2 : Nat) = .ok out ∧ scipyBspline (five.set 4 (9, 9)) (100 : Nat) (2 : Nat) = .ok out' ∧
    ∀ j < 66, out'[j]? = out[j]? := by
  obtain ⟨o, ho, -⟩ := C34_curve five 100 2 (by simp [five]) (by omega)
  obtain ⟨o', ho', -⟩ := C34_curve (five.set 4 (9, 9)) 100 2 (by simp [five]) (by omega)
  refine ⟨o, o', ho, ho', fun j hj => C148_local five (five.set 4 (9, 9)) 100 2 4 (by simp [five]) (by omega) (by omega) (by simp)
    (fun i hi => by rw [List.getElem?_set_ne (Ne.symm hi)]) o o' ho ho' j (Or.inl ?_)⟩
  have : (j : ℝ) < 66 := by exact_mod_cast hj
  norm_num [five]
  linarith

end
end BladeX
