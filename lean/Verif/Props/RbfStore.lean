import Verif.Model.RbfStore
import Verif.Props.Rbf

/-! # C136: `reconstruct_f` and the element type of the output array -/

namespace BladeX
noncomputable section
open scoped BigOperators
open Classical

theorem asInt_zero : asInt 0 = 0 := by simp [asInt]

theorem asInt_int (x : ℝ) : ∃ m : ℤ, asInt x = m := by
  unfold asInt; split_ifs
  · exact ⟨_, rfl⟩
  · exact ⟨_, rfl⟩

theorem asInt_near (x : ℝ) : |asInt x - x| < 1 := by
  unfold asInt
  rw [abs_lt]
  split_ifs with h
  · have h1 := Int.floor_le x
    have h2 := Int.lt_floor_add_one x
    constructor <;> linarith
  · have h1 := Int.le_ceil x
    have h2 := Int.ceil_lt_add_one x
    constructor <;> linarith

theorem asInt_small {x : ℝ} (h : |x| < 1) : asInt x = 0 := by
  rw [abs_lt] at h
  unfold asInt
  split_ifs with h0
  · rw [Int.floor_eq_zero_iff.2 ⟨h0, h.2⟩]; simp
  · rw [Int.ceil_eq_zero_iff.2 ⟨h.1, by linarith⟩]; simp

theorem asInt_of_int (m : ℤ) : asInt m = m := by
  unfold asInt; split_ifs <;> simp

theorem stored_eq {α : Type*} [PseudoMetricSpace α] {prod store : ℝ → ℝ} {name : String} {r : ℝ} {X : List α} {y : Arr} {xs : List α} {init : Arr} :
    (∀ e, reconstructStored prod store name r X y xs init = .error e ↔ reconstructF name r X y xs init = .error e) ∧
    ∀ out, reconstructF name r X y xs init = .ok out → ∃ b w, Basis.ofName name = .ok b ∧ npSolve (weightsMatrix b r X X) y = .ok w ∧ ∃ out',
      reconstructStored prod store name r X y xs init = .ok out' ∧ out.length = init.length ∧ out'.length = init.length ∧
      (∀ (i : Nat) (v : ℝ), init[i]? = some v → xs.length ≤ i → out[i]? = some v ∧ out'[i]? = some v) ∧
      ∀ (i : Nat) (v : ℝ) (x : α), init[i]? = some v → xs[i]? = some x →
        out[i]? = some ((List.finRange X.length).foldl (fun acc j => acc + w j * b.fn (dist x X[j]) r) v) ∧
        out'[i]? = some ((List.finRange X.length).foldl (fun acc j => store (acc + prod (w j * b.fn (dist x X[j]) r))) v) := by
  unfold reconstructStored reconstructF
  rcases hb : Basis.ofName name with e | b
  · simp [bind, Except.bind]
  simp only [bind, Except.bind, pure, Except.pure, throw, throwThe, MonadExceptOf.throw]
  by_cases hr : r = 0 ∧ b ≠ .multiQuadratic
  · simp [hr]
  simp only [hr, if_false]
  rcases hw : npSolve (weightsMatrix b r X X) y with e | w
  · simp
  simp only
  by_cases hs : init.length < xs.length ∧ X ≠ []
  · simp [hs]
  simp only [hs, if_false, reduceCtorEq, implies_true, true_and, Except.ok.injEq]
  rintro out rfl
  refine ⟨b, w, rfl, hw, _, rfl, by simp, by simp, ?_, ?_⟩
  · intro i v hv hi
    simp [List.getElem?_mapIdx, hv, Nat.not_lt.2 hi]
  · intro i v x hv hx
    obtain ⟨hi, rfl⟩ := List.getElem?_eq_some_iff.1 hx
    simp [List.getElem?_mapIdx, hv, hi, weightsMatrix]

/-- The error of the inner loop when every step is off by a fraction. -/
theorem fold_relative {n : Nat} {prod store : ℝ → ℝ} {u v : ℝ} (hu : 0 ≤ u) (hv : 0 ≤ v) (hp : ∀ x, |prod x - x| ≤ v * |x|) (hs : ∀ x, |store x - x| ≤ u * |x|)
    (t : Fin n → ℝ) : ∀ (l : List (Fin n)) (k : Nat) (a a' S : ℝ), |a| ≤ S → |a' - a| ≤ ((1 + u) ^ k * (1 + v) - 1) * S →
      |l.foldl (fun acc j => store (acc + prod (t j))) a' - l.foldl (fun acc j => acc + t j) a| ≤
        ((1 + u) ^ (k + l.length) * (1 + v) - 1) * (S + (l.map fun j => |t j|).sum) := by
  intro l
  induction l with
  | nil => intro k a a' S _ h; simpa using h
  | cons j l ih =>
    intro k a a' S hS h
    simp only [List.foldl_cons, List.length_cons, List.map_cons, List.sum_cons]
    rw [show k + (l.length + 1) = (k + 1) + l.length by omega, ← add_assoc]
    set E := (1 + u) ^ k * (1 + v) - 1 with hE
    have hE0 : v ≤ E := by
      have : (1:ℝ) ≤ (1 + u) ^ k := one_le_pow₀ (by linarith)
      nlinarith
    have hpow : (1 + u) ^ (k + 1) * (1 + v) - 1 = (1 + u) * (1 + E) - 1 := by rw [hE, pow_succ]; ring
    apply ih
    · exact (abs_add_le _ _).trans (by linarith)
    · rw [hpow]
      have h1 := hs (a' + prod (t j))
      have h2 := hp (t j)
      have h3 : |a' + prod (t j) - (a + t j)| ≤ E * (S + |t j|) := by
        calc |a' + prod (t j) - (a + t j)| = |(a' - a) + (prod (t j) - t j)| := by congr 1; ring
          _ ≤ |a' - a| + |prod (t j) - t j| := abs_add_le _ _
          _ ≤ E * S + v * |t j| := by linarith
          _ ≤ E * (S + |t j|) := by nlinarith [abs_nonneg (t j)]
      have h4 : |a + t j| ≤ S + |t j| := (abs_add_le _ _).trans (by linarith)
      have h5 : |a' + prod (t j)| ≤ |a' + prod (t j) - (a + t j)| + |a + t j| := by
        calc |a' + prod (t j)| = |(a' + prod (t j) - (a + t j)) + (a + t j)| := by congr 1; ring
          _ ≤ _ := abs_add_le _ _
      calc |store (a' + prod (t j)) - (a + t j)| = |(store (a' + prod (t j)) - (a' + prod (t j))) + (a' + prod (t j) - (a + t j))| := by congr 1; ring
        _ ≤ |store (a' + prod (t j)) - (a' + prod (t j))| + |a' + prod (t j) - (a + t j)| := abs_add_le _ _
        _ ≤ u * (|a' + prod (t j) - (a + t j)| + |a + t j|) + |a' + prod (t j) - (a + t j)| := by nlinarith
        _ ≤ ((1 + u) * (1 + E) - 1) * (S + |t j|) := by nlinarith

/-- The error of the inner loop when every step is off by less than one. -/
theorem fold_int {n : Nat} (t : Fin n → ℝ) : ∀ (l : List (Fin n)) (a a' : ℝ),
    (l = [] → l.foldl (fun acc j => asInt (acc + t j)) a' - l.foldl (fun acc j => acc + t j) a = a' - a) ∧
    (l ≠ [] → |l.foldl (fun acc j => asInt (acc + t j)) a' - l.foldl (fun acc j => acc + t j) a| < |a' - a| + l.length) := by
  intro l
  induction l with
  | nil => intro a a'; simp
  | cons j l ih =>
    intro a a'
    refine ⟨by simp, fun _ => ?_⟩
    simp only [List.foldl_cons, List.length_cons]
    have h1 := asInt_near (a' + t j)
    have h2 : |asInt (a' + t j) - (a + t j)| < |a' - a| + 1 := by
      calc |asInt (a' + t j) - (a + t j)| = |(asInt (a' + t j) - (a' + t j)) + (a' - a)| := by congr 1; ring
        _ ≤ |asInt (a' + t j) - (a' + t j)| + |a' - a| := abs_add_le _ _
        _ < _ := by linarith
    rcases Classical.em (l = []) with hl | hl
    · subst hl; simpa using h2
    · have := (ih (a + t j) (asInt (a' + t j))).2 hl
      push_cast
      linarith

/-- **C136** With exact arithmetic and an array that stores real numbers this is the function of C29-C32. -/
theorem C136_float_output {α : Type*} [PseudoMetricSpace α] (name : String) (r : ℝ) (X : List α) (y : Arr) (xs : List α) (init : Arr) :
    reconstructStored id id name r X y xs init = reconstructF name r X y xs init := rfl

/-- **C136** The element type decides about the values, not about success: a call fails for every type or for none, with the same exception. -/
theorem C136_same_failures {α : Type*} [PseudoMetricSpace α] (prod store : ℝ → ℝ) (name : String) (r : ℝ) (X : List α) (y : Arr) (xs : List α) (init : Arr)
    (e : PyErr) : reconstructStored prod store name r X y xs init = .error e ↔ reconstructF name r X y xs init = .error e :=
  stored_eq.1 e

example : reconstructStored id asInt "thin_plate" 1 [(0:ℝ), 1] [1, 2] [0] [0] = .error .nameError := by
  rw [C136_same_failures]; rfl

/-- **C136** Rounded sums: when the product is off by at most the fraction `v` and the stored sum by at most the fraction `u` (a float32 array, say), every
value of `N` nodes is off by at most `((1+u)^N (1+v) - 1)` times the sum of the absolute values of what is added up: the former entry and the `N` terms
`c_j φ(|x - x_j|)`, where `c` are the coefficients of the interpolant. -/
theorem C136_rounded {α : Type*} [PseudoMetricSpace α] (prod store : ℝ → ℝ) (u v : ℝ) (hu : 0 ≤ u) (hv : 0 ≤ v) (hp : ∀ x, |prod x - x| ≤ v * |x|)
    (hs : ∀ x, |store x - x| ≤ u * |x|) (name : String) (b : Basis) (hb : Basis.ofName name = .ok b) (r : ℝ) (X : List α) (y : Arr)
    (xs : List α) (init out : Arr) (h : reconstructF name r X y xs init = .ok out) (c : Fin X.length → ℝ)
    (hc : ∀ i : Fin X.length, y[(i : Nat)]? = some (∑ j, c j * b.fn (dist X[i] X[j]) r)) :
    ∃ out', reconstructStored prod store name r X y xs init = .ok out' ∧ out'.length = init.length ∧
      (∀ (i : Nat), xs.length ≤ i → out'[i]? = init[i]?) ∧
      ∀ (i : Nat) (a o o' : ℝ) (x : α), init[i]? = some a → xs[i]? = some x → out[i]? = some o → out'[i]? = some o' →
        |o' - o| ≤ ((1 + u) ^ X.length * (1 + v) - 1) * (|a| + ∑ j, |c j * b.fn (dist x X[j]) r|) := by
  obtain ⟨b', w, hb', hw, out', h1, _, h2, h3, h4⟩ := (stored_eq (prod := prod) (store := store)).2 out h
  rw [hb] at hb'
  obtain rfl := Except.ok.inj hb'
  obtain ⟨hl, hd, hsol⟩ := npSolve_spec hw
  have hcw : c = w := by
    have : (weightsMatrix b r X X).mulVec c = (weightsMatrix b r X X).mulVec w := by
      rw [hsol]
      funext i
      have h := hc i
      rw [List.getElem?_eq_getElem (by omega)] at h
      have := Option.some.inj h
      simp only [Matrix.mulVec, dotProduct, weightsMatrix]
      show _ = y[i.1]
      rw [this]
      exact Finset.sum_congr rfl fun k _ => mul_comm _ _
    exact Matrix.mulVec_injective_of_isUnit ((Matrix.isUnit_iff_isUnit_det _).2 (isUnit_iff_ne_zero.2 hd)) this
  subst hcw
  refine ⟨out', h1, h2, ?_, ?_⟩
  · intro i hi
    rcases ha : init[i]? with _ | a
    · rw [List.getElem?_eq_none_iff] at ha ⊢
      omega
    · exact (h3 i a ha hi).2
  · intro i a o o' x ha hx ho ho'
    obtain ⟨g1, g2⟩ := h4 i a x ha hx
    rw [g1] at ho
    rw [g2] at ho'
    obtain rfl := Option.some.inj ho
    obtain rfl := Option.some.inj ho'
    have := fold_relative hu hv hp hs (fun j : Fin X.length => c j * b.fn (dist x X[j]) r) (List.finRange X.length) 0 a a |a| le_rfl
      (by simpa using mul_nonneg hv (abs_nonneg a))
    simp only [zero_add, List.length_finRange] at this
    rwa [← List.ofFn_eq_map, List.sum_ofFn] at this

/-- The hypotheses are met: two nodes, an array that stores everything half a percent too large. -/
example : ∃ out out', reconstructF "beckert_wendland_c2_basis" 1 [(0:ℝ), 1] [3, 4] [1/2] [5] = .ok out ∧
    reconstructStored id (fun x => x * 1.005) "beckert_wendland_c2_basis" 1 [(0:ℝ), 1] [3, 4] [1/2] [5] = .ok out' ∧
    ∀ o o', out[0]? = some o → out'[0]? = some o' → |o' - o| ≤ ((1 + 0.005) ^ 2 * (1 + 0) - 1) * (|5| + ∑ j : Fin 2, |![3, 4] j * wendlandC2 (1/2) 1|) := by
  have s1 : ∀ i j : Fin ([0, 1] : List ℝ).length, i ≠ j → (1 : ℝ) ≤ |([0, 1] : List ℝ)[i] - ([0, 1] : List ℝ)[j]| := by
    intro i j h
    fin_cases i <;> fin_cases j <;> simp at h ⊢
  obtain ⟨out, h, _⟩ := C31_separated_nodes 1 one_pos [(0:ℝ), 1] [3, 4] rfl s1 [1/2]
  have h' := C30_accumulates "beckert_wendland_c2_basis" 1 one_pos [(0:ℝ), 1] [3, 4] [1/2] [5] out rfl h
  obtain ⟨out', h1, _, _, h2⟩ := C136_rounded id (fun x => x * 1.005) 0.005 0 (by norm_num) le_rfl (by simp)
    (fun x => by
      show |x * 1.005 - x| ≤ 0.005 * |x|
      rw [show x * 1.005 - x = 0.005 * x by ring, abs_mul]
      norm_num [abs_of_nonneg])
    "beckert_wendland_c2_basis" .wendland wendland_name 1 [(0:ℝ), 1] [3, 4] [1/2] [5] _ h' ![3, 4] (by
      obtain ⟨_, h0, _, _, hz⟩ := C27_wendland_shape 1 one_pos
      have e0 : Basis.wendland.fn 0 1 = 1 := h0
      have e1 : Basis.wendland.fn 1 1 = 0 := (hz 1 zero_le_one).2 le_rfl
      have : ∀ i : Fin 2, ([3, 4] : Arr)[(i : Nat)]? = some (∑ j : Fin 2, ![3, 4] j * Basis.wendland.fn (dist ([(0:ℝ), 1][i]) ([(0:ℝ), 1][j])) 1) := by
        intro i
        fin_cases i <;> simp [Fin.sum_univ_two, e0, e1, Real.dist_eq]
      exact this)
  refine ⟨_, out', h', h1, ?_⟩
  intro o o' ho ho'
  have := h2 0 5 o o' (1/2) rfl rfl ho ho'
  have hd : ∀ j : Fin 2, dist (1/2:ℝ) ([(0:ℝ), 1][j]) = 1/2 := by
    intro j
    fin_cases j <;> simp [Real.dist_eq, abs_of_nonneg] <;> norm_num [abs_of_nonpos, abs_of_nonneg]
  have e : (∑ j : Fin 2, |![(3:ℝ), 4] j * wendlandC2 (1/2) 1|) = ∑ j : Fin 2, |![(3:ℝ), 4] j * Basis.wendland.fn (dist (1/2:ℝ) ([(0:ℝ), 1][j])) 1| := by
    refine Finset.sum_congr rfl fun j _ => ?_
    rw [hd j]; rfl
  rw [e]
  exact this

/-- **C136** An integer array receives integers, and the fraction is dropped after each of the `N` additions: a value is off by less than `N`. -/
theorem C136_integer {α : Type*} [PseudoMetricSpace α] (name : String) (r : ℝ) (X : List α) (hX : X ≠ []) (y : Arr) (xs : List α) (init out : Arr)
    (hi : ∀ a ∈ init, ∃ m : ℤ, a = m) (h : reconstructF name r X y xs init = .ok out) :
    ∃ out', reconstructStored id asInt name r X y xs init = .ok out' ∧ out'.length = init.length ∧ (∀ a ∈ out', ∃ m : ℤ, a = m) ∧
      ∀ (i : Nat) (o o' : ℝ), out[i]? = some o → out'[i]? = some o' → |o' - o| < X.length := by
  obtain ⟨b, w, _, hw, out', h1, h0, h2, h3, h4⟩ := (stored_eq (prod := id) (store := asInt)).2 out h
  have hpos : 0 < X.length := List.length_pos_of_ne_nil hX
  have hne : List.finRange X.length ≠ [] := by
    intro e
    have := congrArg List.length e
    simp at this
    exact hX this
  refine ⟨out', h1, h2, ?_, ?_⟩
  · intro a ha
    obtain ⟨i, hia⟩ := List.getElem?_of_mem ha
    have hlt := (List.getElem?_eq_some_iff.1 hia).1
    have hv := List.getElem?_eq_getElem (l := init) (i := i) (by omega)
    rcases lt_or_ge i xs.length with hx | hx
    · obtain ⟨_, g⟩ := h4 i _ _ hv (List.getElem?_eq_getElem hx)
      rw [g] at hia
      obtain rfl := Option.some.inj hia
      have : ∀ (l : List (Fin X.length)) (f : Fin X.length → ℝ) (v : ℝ), (∃ m : ℤ, v = m) →
          ∃ m : ℤ, l.foldl (fun acc j => asInt (acc + id (f j))) v = m := by
        intro l f
        induction l with
        | nil => intro v hv; exact hv
        | cons j l ih => intro v _; exact ih _ (asInt_int _)
      exact this _ (fun j => w j * b.fn (dist xs[i] X[j]) r) _ (hi _ (List.getElem_mem _))
    · obtain ⟨_, g⟩ := h3 i _ hv hx
      rw [g] at hia
      obtain rfl := Option.some.inj hia
      exact hi _ (List.getElem_mem _)
  · intro i o o' ho ho'
    have hlt := (List.getElem?_eq_some_iff.1 ho').1
    have hv := List.getElem?_eq_getElem (l := init) (i := i) (by omega)
    rcases lt_or_ge i xs.length with hx | hx
    · obtain ⟨g1, g2⟩ := h4 i _ _ hv (List.getElem?_eq_getElem hx)
      rw [g1] at ho
      rw [g2] at ho'
      obtain rfl := Option.some.inj ho
      obtain rfl := Option.some.inj ho'
      simpa using (fold_int (fun j : Fin X.length => w j * b.fn (dist xs[i] X[j]) r) (List.finRange X.length) init[i] init[i]).2 hne
    · obtain ⟨g1, g2⟩ := h3 i _ hv hx
      rw [g1] at ho
      rw [g2] at ho'
      obtain rfl := Option.some.inj ho
      obtain rfl := Option.some.inj ho'
      simpa using hpos

/-- The hypotheses are met: three nodes, an integer array. -/
example : ∃ out out', reconstructF "beckert_wendland_c2_basis" 1 [(0:ℝ), 1, 2] [1/2, -3/2, 5/2] [0, 1/2, 3] [0, 0, 0] = .ok out ∧
    reconstructStored id asInt "beckert_wendland_c2_basis" 1 [(0:ℝ), 1, 2] [1/2, -3/2, 5/2] [0, 1/2, 3] [0, 0, 0] = .ok out' ∧
    ∀ (i : Nat) (o o' : ℝ), out[i]? = some o → out'[i]? = some o' → |o' - o| < 3 := by
  obtain ⟨out, h, _⟩ := C31_separated_nodes 1 one_pos [(0:ℝ), 1, 2] [1/2, -3/2, 5/2] rfl
    (by intro i j h; fin_cases i <;> fin_cases j <;> simp at h ⊢ <;> norm_num) [0, 1/2, 3]
  obtain ⟨out', h1, _, _, h2⟩ := C136_integer "beckert_wendland_c2_basis" 1 [(0:ℝ), 1, 2] (by simp) [1/2, -3/2, 5/2] [0, 1/2, 3] [0, 0, 0] out
    (by intro a ha; simp at ha; exact ⟨0, by simpa using ha⟩) h
  exact ⟨out, out', h, h1, fun i o o' a b => by simpa using h2 i o o' a b⟩

/-- **C136** (violation) Interpolation is lost: with nodes at least the cut-off radius apart (Wendland basis) a zeroed integer array receives at every node the
datum without its fraction; and when all data are smaller than one in absolute value, it stays zero at every point, however many nodes contribute. -/
theorem C136_data_lost (r : ℝ) (hr : 0 < r) (X : List ℝ) (y : Arr) (hl : y.length = X.length)
    (hsep : ∀ i j : Fin X.length, i ≠ j → r ≤ |X[i] - X[j]|) (xs : List ℝ) :
    ∃ out', reconstructStored id asInt "beckert_wendland_c2_basis" r X y xs (List.replicate xs.length 0) = .ok out' ∧ out'.length = xs.length ∧
      (∀ (i j : Nat) (x d o' : ℝ), xs[i]? = some x → X[j]? = some x → y[j]? = some d → out'[i]? = some o' → o' = asInt d) ∧
      ((∀ d ∈ y, |d| < 1) → ∀ o' ∈ out', o' = 0) := by
  obtain ⟨_, h0, hbd, _, hzero⟩ := C27_wendland_shape r hr
  obtain ⟨out, hout, _⟩ := C31_separated_nodes r hr X y hl hsep xs
  obtain ⟨b, w, hb, hw, out', h1, _, h2, _, h4⟩ := (stored_eq (prod := id) (store := asInt)).2 out hout
  rw [wendland_name] at hb
  obtain rfl := Except.ok.inj hb
  have hI : weightsMatrix .wendland r X X = 1 := by
    ext i j
    by_cases h : i = j
    · subst h; simp [weightsMatrix, Basis.fn, h0]
    · rw [Matrix.one_apply_ne h]
      exact (hzero _ dist_nonneg).2 (by rw [Real.dist_eq]; exact hsep i j h)
  obtain ⟨_, _, hsol⟩ := npSolve_spec hw
  rw [hI, Matrix.one_mulVec] at hsol
  subst hsol
  refine ⟨out', h1, by simpa using h2, ?_, ?_⟩
  · intro i j x d o' hx hX hy ho'
    have hi := (List.getElem?_eq_some_iff.1 hx).1
    obtain ⟨hj, hjx⟩ := List.getElem?_eq_some_iff.1 hX
    obtain ⟨hj', rfl⟩ := List.getElem?_eq_some_iff.1 hy
    obtain ⟨_, g⟩ := h4 i 0 x (by rw [List.getElem?_replicate, if_pos hi]) hx
    rw [g] at ho'
    obtain rfl := Option.some.inj ho'
    -- only the term of node `j` is not zero
    have key : ∀ (l : List (Fin X.length)), l.Nodup → ∀ a : ℝ, (∃ m : ℤ, a = m) → (⟨j, hj⟩ ∈ l → a = 0) →
        l.foldl (fun acc k => asInt (acc + id (y[k.1] * Basis.wendland.fn (dist x X[k]) r))) a = if ⟨j, hj⟩ ∈ l then asInt y[j] else a := by
      intro l
      induction l with
      | nil => intro _ a _ _; simp
      | cons k l ih =>
        intro hnd a ha h0a
        have hnd' := List.nodup_cons.1 hnd
        clear hnd
        obtain ⟨hk, hnd⟩ := hnd'
        simp only [List.foldl_cons]
        by_cases hkj : k = ⟨j, hj⟩
        · subst hkj
          have e : Basis.wendland.fn (dist x X[j]) r = 1 := by rw [hjx, dist_self]; exact h0
          rw [h0a (by simp)]
          have := ih hnd (asInt (0 + id (y[j] * Basis.wendland.fn (dist x X[j]) r))) (asInt_int _) (fun h => absurd h hk)
          refine this.trans ?_
          rw [if_neg hk, if_pos (by simp), e]
          simp
        · have e : Basis.wendland.fn (dist x X[k]) r = 0 := by
            refine (hzero _ dist_nonneg).2 ?_
            rw [Real.dist_eq, ← hjx]
            exact hsep ⟨j, hj⟩ k (fun h => hkj h.symm)
          obtain ⟨m, rfl⟩ := ha
          have e2 : asInt (↑m + id (y[k.1] * Basis.wendland.fn (dist x X[k]) r)) = m := by
            rw [e]; simp [asInt_of_int]
          refine (congrArg (fun z => List.foldl _ z l) e2).trans ?_
          rw [ih hnd _ ⟨m, rfl⟩ (fun h => h0a (List.mem_cons_of_mem _ h))]
          have : (⟨j, hj⟩ : Fin X.length) ∈ k :: l ↔ ⟨j, hj⟩ ∈ l := by
            simp only [List.mem_cons]
            constructor
            · rintro (h | h)
              · exact absurd h.symm hkj
              · exact h
            · exact Or.inr
          simp only [this]
    have := key (List.finRange X.length) (List.nodup_finRange _) 0 ⟨0, by simp⟩ (fun _ => rfl)
    rw [if_pos (List.mem_finRange _)] at this
    exact this
  · intro hsmall o' ho'
    obtain ⟨i, hi⟩ := List.getElem?_of_mem ho'
    have hlt := (List.getElem?_eq_some_iff.1 hi).1
    have hx : i < xs.length := by rw [h2, List.length_replicate] at hlt; exact hlt
    obtain ⟨_, g⟩ := h4 i 0 xs[i] (by rw [List.getElem?_replicate, if_pos hx]) (List.getElem?_eq_getElem hx)
    rw [g] at hi
    obtain rfl := Option.some.inj hi
    have : ∀ l : List (Fin X.length), l.foldl (fun acc k => asInt (acc + id (y[k.1] * Basis.wendland.fn (dist xs[i] X[k]) r))) 0 = 0 := by
      intro l
      induction l with
      | nil => rfl
      | cons k l ih =>
        simp only [List.foldl_cons]
        have e : asInt (0 + id (y[k.1] * Basis.wendland.fn (dist xs[i] X[k]) r)) = 0 := by
          apply asInt_small
          obtain ⟨p1, p2⟩ := hbd (dist xs[i] X[k]) dist_nonneg
          have hd := hsmall y[k.1] (List.getElem_mem _)
          simp only [zero_add, id, abs_mul]
          show |y[k.1]| * |wendlandC2 (dist xs[i] X[k]) r| < 1
          rw [abs_of_nonneg p1]
          nlinarith [abs_nonneg y[k.1]]
        exact (congrArg (fun z => List.foldl _ z l) e).trans ih
    exact this _

/-- The hypotheses are met: the datum 5/2 becomes 2. -/
example : ∃ o', reconstructStored id asInt "beckert_wendland_c2_basis" 1 [(0:ℝ), 1] [1/2, 5/2] [1] [0] = .ok [o'] ∧ o' = asInt (5/2) := by
  obtain ⟨out', h1, h2, h3, _⟩ := C136_data_lost 1 one_pos [(0:ℝ), 1] [1/2, 5/2] rfl
    (by intro i j h; fin_cases i <;> fin_cases j <;> simp at h ⊢) [1]
  match out', h2, h1, h3 with
  | [o'], _, h1, h3 => exact ⟨o', h1, h3 0 1 1 (5/2) o' rfl rfl rfl rfl⟩

theorem stored_separated (r : ℝ) (hr : 0 < r) (X : List ℝ) (y : Arr) (hl : y.length = X.length)
    (hsep : ∀ i j : Fin X.length, i ≠ j → r ≤ |X[i] - X[j]|) (x : ℝ) :
    reconstructStored id asInt "beckert_wendland_c2_basis" r X y [x] [0] =
      .ok [(List.finRange X.length).foldl (fun acc k => asInt (acc + y[k.1]'(by omega) * wendlandC2 |x - X[k]| r)) 0] := by
  obtain ⟨_, h0, _, _, hzero⟩ := C27_wendland_shape r hr
  obtain ⟨out, hout, _⟩ := C31_separated_nodes r hr X y hl hsep [x]
  obtain ⟨b, w, hb, hw, out', h1, _, h2, _, h4⟩ := (stored_eq (prod := id) (store := asInt)).2 out hout
  rw [wendland_name] at hb
  obtain rfl := Except.ok.inj hb
  have hI : weightsMatrix .wendland r X X = 1 := by
    ext i j
    by_cases h : i = j
    · subst h; simp [weightsMatrix, Basis.fn, h0]
    · rw [Matrix.one_apply_ne h]
      exact (hzero _ dist_nonneg).2 (by rw [Real.dist_eq]; exact hsep i j h)
  obtain ⟨_, _, hsol⟩ := npSolve_spec hw
  rw [hI, Matrix.one_mulVec] at hsol
  subst hsol
  obtain ⟨_, g⟩ := h4 0 0 x rfl rfl
  refine h1.trans ?_
  congr 1
  match out', h2, g with
  | [o], _, g =>
    have := Option.some.inj g
    simp only [id, Real.dist_eq, Basis.fn] at this
    rw [show o = _ from this]
    rfl

/-- **C136** (violation) The result depends on the order in which the nodes are listed: the data -8/3 at 0 and 8 at 2 give, at 1, the integer 1 or 0. With a float
array both orders give 1. -/
theorem C136_order_matters :
    reconstructStored id asInt "beckert_wendland_c2_basis" 2 [(0:ℝ), 2] [-8/3, 8] [1] [0] = .ok [1] ∧
    reconstructStored id asInt "beckert_wendland_c2_basis" 2 [(2:ℝ), 0] [8, -8/3] [1] [0] = .ok [0] ∧
    reconstructF "beckert_wendland_c2_basis" 2 [(0:ℝ), 2] [-8/3, 8] [1] [0] = .ok [1] ∧
    reconstructF "beckert_wendland_c2_basis" 2 [(2:ℝ), 0] [8, -8/3] [1] [0] = .ok [1] := by
  have s1 : ∀ i j : Fin ([0, 2] : List ℝ).length, i ≠ j → (2 : ℝ) ≤ |([0, 2] : List ℝ)[i] - ([0, 2] : List ℝ)[j]| := by
    intro i j h
    fin_cases i <;> fin_cases j <;> simp at h ⊢
  have s2 : ∀ i j : Fin ([2, 0] : List ℝ).length, i ≠ j → (2 : ℝ) ≤ |([2, 0] : List ℝ)[i] - ([2, 0] : List ℝ)[j]| := by
    intro i j h
    fin_cases i <;> fin_cases j <;> simp at h ⊢
  have w1 : wendlandC2 1 2 = 3 / 16 := by unfold wendlandC2; norm_num
  have a1 : asInt (-8/3 * (3/16)) = 0 := asInt_small (by rw [abs_lt]; constructor <;> norm_num)
  have a2 : asInt (8 * (3/16)) = 1 := by
    unfold asInt; rw [if_pos (by norm_num), show (⌊(8:ℝ) * (3/16)⌋) = 1 from Int.floor_eq_iff.2 (by norm_num)]; simp
  have a3 : asInt (1 + -8/3 * (3/16)) = 0 := asInt_small (by rw [abs_lt]; constructor <;> norm_num)
  have d1 : |(1:ℝ) - 0| = 1 := by norm_num
  have d2 : |(1:ℝ) - 2| = 1 := by norm_num
  refine ⟨?_, ?_, ?_, ?_⟩
  · rw [stored_separated 2 two_pos [0, 2] [-8/3, 8] rfl s1]
    have : (List.finRange ([(0:ℝ), 2]).length) = [⟨0, by decide⟩, ⟨1, by decide⟩] := by decide
    rw [this]
    simp only [List.foldl_cons, List.foldl_nil, Fin.getElem_fin, List.getElem_cons_zero, List.getElem_cons_succ, d1, d2, w1, zero_add, a1, a2]
  · rw [stored_separated 2 two_pos [2, 0] [8, -8/3] rfl s2]
    have : (List.finRange ([(2:ℝ), 0]).length) = [⟨0, by decide⟩, ⟨1, by decide⟩] := by decide
    rw [this]
    simp only [List.foldl_cons, List.foldl_nil, Fin.getElem_fin, List.getElem_cons_zero, List.getElem_cons_succ, d1, d2, w1, zero_add, a2, a3]
  · obtain ⟨out, h1, h2, _⟩ := C31_separated_nodes 2 two_pos [(0:ℝ), 2] [-8/3, 8] rfl s1 [1]
    refine (show _ = Except.ok out from h1).trans ?_
    rw [h2]
    simp only [List.map_cons, List.map_nil, Fin.getElem_fin]
    erw [Fin.sum_univ_two]
    simp only [Fin.val_zero, Fin.val_one, List.getElem_cons_zero, List.getElem_cons_succ, d1, d2, w1]
    norm_num
  · obtain ⟨out, h1, h2, _⟩ := C31_separated_nodes 2 two_pos [(2:ℝ), 0] [8, -8/3] rfl s2 [1]
    refine (show _ = Except.ok out from h1).trans ?_
    rw [h2]
    simp only [List.map_cons, List.map_nil, Fin.getElem_fin]
    erw [Fin.sum_univ_two]
    simp only [Fin.val_zero, Fin.val_one, List.getElem_cons_zero, List.getElem_cons_succ, d1, d2, w1]
    norm_num

end
end BladeX
