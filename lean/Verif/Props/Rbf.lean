import Verif.Lemmas.Rbf
import Mathlib.Analysis.SpecialFunctions.Pow.Real

/-! # C27 - C31: radial basis functions and `reconstruct_f` -/

namespace BladeX
open Classical

/-- **C27** the Wendland C2 basis is `(1 - X/r)_+^4 (4 X/r + 1)`: 1 at 0, between 0 and 1, decreasing, and zero exactly
from the cut-off radius on. -/
theorem C27_wendland_shape (r : ℝ) (hr : 0 < r) :
    (∀ X, wendlandC2 X r = (max (1 - X / r) 0) ^ 4 * (4 * (X / r) + 1)) ∧
    wendlandC2 0 r = 1 ∧
    (∀ X, 0 ≤ X → 0 ≤ wendlandC2 X r ∧ wendlandC2 X r ≤ 1) ∧
    (∀ X Y, 0 ≤ X → X ≤ Y → wendlandC2 Y r ≤ wendlandC2 X r) ∧
    (∀ X, 0 ≤ X → (wendlandC2 X r = 0 ↔ r ≤ X)) := by
  have form : ∀ X, wendlandC2 X r = (max (1 - X / r) 0) ^ 4 * (4 * (X / r) + 1) := by
    intro X
    unfold wendlandC2
    simp only
    split_ifs with h
    · rw [max_eq_left h.le]
    · rw [max_eq_right (not_lt.1 h)]; norm_num
  have zero : wendlandC2 0 r = 1 := by rw [form]; norm_num
  have key : ∀ a b : ℝ, 0 ≤ a → a ≤ b → b ≤ 1 →
      (1 - b) ^ 4 * (4 * b + 1) ≤ (1 - a) ^ 4 * (4 * a + 1) := by
    intro a b ha hab hb
    have h1 : 0 ≤ 1 - b := by linarith
    set u := 1 - b with hu
    set d := b - a with hd
    have hd0 : 0 ≤ d := by linarith
    have e1 : 1 - a = u + d := by simp [hu, hd]
    have e2 : b = 1 - u := by simp [hu]
    have e3 : a = 1 - u - d := by rw [← e2]; simp [hd]
    rw [e1, e3, e2]
    have hsum : 0 ≤ 1 - u - d := by rw [← e3]; exact ha
    have : (u + d) ^ 4 * (4 * (1 - u - d) + 1) - u ^ 4 * (4 * (1 - u) + 1)
        = 4 * (1 - u - d) * (4 * u ^ 3 * d + 6 * u ^ 2 * d ^ 2 + 4 * u * d ^ 3 + d ^ 4)
          + 4 * u ^ 3 * d * ((1 - u - d) + d) + 6 * u ^ 2 * d ^ 2 + 4 * u * d ^ 3 + d ^ 4 := by ring
    have pos : 0 ≤ 4 * (1 - u - d) * (4 * u ^ 3 * d + 6 * u ^ 2 * d ^ 2 + 4 * u * d ^ 3 + d ^ 4)
          + 4 * u ^ 3 * d * ((1 - u - d) + d) + 6 * u ^ 2 * d ^ 2 + 4 * u * d ^ 3 + d ^ 4 := by positivity
    linarith
  have anti : ∀ X Y, 0 ≤ X → X ≤ Y → wendlandC2 Y r ≤ wendlandC2 X r := by
    intro X Y hX hXY
    rw [form, form]
    have hx : 0 ≤ X / r := div_nonneg hX hr.le
    have hxy : X / r ≤ Y / r := by gcongr
    rcases le_or_gt (Y / r) 1 with h | h
    · rw [max_eq_left (by linarith), max_eq_left (by linarith)]
      exact key _ _ hx hxy h
    · rw [max_eq_right (by linarith : 1 - Y / r ≤ 0)]
      norm_num
      have : 0 ≤ max (1 - X / r) 0 := le_max_right _ _
      positivity
  refine ⟨form, zero, ?_, anti, ?_⟩
  · intro X hX
    constructor
    · rw [form]
      have hx : 0 ≤ X / r := div_nonneg hX hr.le
      have : 0 ≤ max (1 - X / r) 0 := le_max_right _ _
      positivity
    · rw [← zero]; exact anti 0 X le_rfl hX
  · intro X hX
    rw [form]
    have hx : 0 ≤ X / r := div_nonneg hX hr.le
    have h4 : 4 * (X / r) + 1 ≠ 0 := by positivity
    rw [mul_eq_zero, or_iff_left h4, pow_eq_zero_iff (by norm_num), max_eq_right_iff, sub_nonpos, le_div_iff₀ hr, one_mul]

/-- **C27** the gaussian and inverse multi-quadratic bases are positive, maximal at 0 and decreasing; the
multi-quadratic basis starts at `r` and increases. -/
theorem C27_other_bases (r : ℝ) (hr : 0 < r) :
    (gaussianSpline 0 r = 1 ∧ ∀ X Y, 0 ≤ X → X < Y → 0 < gaussianSpline Y r ∧ gaussianSpline Y r < gaussianSpline X r) ∧
    (invMultiQuadraticSpline 0 r = 1 / r ∧ ∀ X Y, 0 ≤ X → X < Y →
      0 < invMultiQuadraticSpline Y r ∧ invMultiQuadraticSpline Y r < invMultiQuadraticSpline X r) ∧
    (multiQuadraticSpline 0 r = r ∧ ∀ X Y, 0 ≤ X → X < Y → multiQuadraticSpline X r < multiQuadraticSpline Y r) := by
  have hsq : ∀ X Y : ℝ, 0 ≤ X → X < Y → X * X < Y * Y := fun X Y h0 h => mul_self_lt_mul_self h0 h
  have hrr : 0 < r * r := mul_pos hr hr
  refine ⟨⟨by simp [gaussianSpline], ?_⟩, ⟨?_, ?_⟩, ?_, ?_⟩
  · intro X Y h0 h
    refine ⟨Real.exp_pos _, Real.exp_lt_exp.2 ?_⟩
    have := hsq X Y h0 h
    exact div_lt_div_of_pos_right (by linarith) hrr
  · simp [invMultiQuadraticSpline, Real.sqrt_mul_self hr.le]
  · intro X Y h0 h
    have := hsq X Y h0 h
    have hx : 0 < Real.sqrt (X * X + r * r) := Real.sqrt_pos.2 (by nlinarith)
    refine ⟨one_div_pos.2 (Real.sqrt_pos.2 (by nlinarith)), ?_⟩
    apply one_div_lt_one_div_of_lt hx
    exact Real.sqrt_lt_sqrt (by nlinarith) (by linarith)
  · simp [multiQuadraticSpline, Real.sqrt_mul_self hr.le]
  · intro X Y h0 h
    exact Real.sqrt_lt_sqrt (by nlinarith) (by linarith [hsq X Y h0 h])

/-- **C27** the thin plate spline is `(X/r)^2 log(X/r)`, vanishes at 0 and at the radius, is negative in between and
positive beyond. -/
theorem C27_thin_plate (r : ℝ) (hr : 0 < r) :
    thinPlateSpline 0 r = 0 ∧ thinPlateSpline r r = 0 ∧
    (∀ X, 0 < X → thinPlateSpline X r = (X / r) ^ 2 * Real.log (X / r)) ∧
    (∀ X, 0 < X → X < r → thinPlateSpline X r < 0) ∧ (∀ X, r < X → 0 < thinPlateSpline X r) := by
  have form : ∀ X, 0 < X → thinPlateSpline X r = (X / r) ^ 2 * Real.log (X / r) := by
    intro X hX
    have : 0 < X / r := div_pos hX hr
    simp [thinPlateSpline, this, sq]
  refine ⟨by simp [thinPlateSpline], ?_, form, ?_, ?_⟩
  · rw [form r hr, div_self hr.ne']; simp
  · intro X hX hXr
    rw [form X hX]
    have : 0 < X / r := div_pos hX hr
    exact mul_neg_of_pos_of_neg (by positivity) (Real.log_neg this ((div_lt_one hr).2 hXr))
  · intro X hX
    rw [form X (hr.trans hX)]
    have : 0 < X / r := div_pos (hr.trans hX) hr
    exact mul_pos (by positivity) (Real.log_pos ((one_lt_div hr).2 hX))

/-- **C27** each of the five names selects its own function, for distances `X ≥ 0` and radius `r > 0`; any other name raises
`NameError`. -/
theorem C27_names (X r : ℝ) (hX : 0 ≤ X) (hr : 0 < r) :
    (∃ b, Basis.ofName "gaussian_spline" = .ok b ∧ b.fn X r = Real.exp (-(X / r) ^ 2)) ∧
    (∃ b, Basis.ofName "multi_quadratic_biharmonic_spline" = .ok b ∧ b.fn X r = Real.sqrt (X ^ 2 + r ^ 2)) ∧
    (∃ b, Basis.ofName "inv_multi_quadratic_biharmonic_spline" = .ok b ∧ b.fn X r = (Real.sqrt (X ^ 2 + r ^ 2))⁻¹) ∧
    (∃ b, Basis.ofName "thin_plate_spline" = .ok b ∧ b.fn X r = (X / r) ^ 2 * Real.log (X / r)) ∧
    (∃ b, Basis.ofName "beckert_wendland_c2_basis" = .ok b ∧ b.fn X r = (max (1 - X / r) 0) ^ 4 * (4 * (X / r) + 1)) ∧
    (∀ s, s ∉ ["gaussian_spline", "multi_quadratic_biharmonic_spline", "inv_multi_quadratic_biharmonic_spline", "thin_plate_spline",
      "beckert_wendland_c2_basis"] → Basis.ofName s = .error .nameError) := by
  refine ⟨⟨_, rfl, ?_⟩, ⟨_, rfl, ?_⟩, ⟨_, rfl, ?_⟩, ⟨_, rfl, ?_⟩, ⟨_, rfl, ?_⟩, ?_⟩
  · simp only [Basis.fn, gaussianSpline]
    congr 1
    rw [div_pow]; ring
  · simp only [Basis.fn, multiQuadraticSpline, sq]
  · simp only [Basis.fn, invMultiQuadraticSpline, sq, one_div]
  · simp only [Basis.fn]
    rcases hX.eq_or_lt with rfl | h
    · simp [thinPlateSpline]
    · exact (C27_thin_plate r hr).2.2.1 X h
  · simp only [Basis.fn]
    exact (C27_wendland_shape r hr).1 X
  · intro s hs
    simp only [List.mem_cons, List.not_mem_nil, or_false, not_or] at hs
    simp [Basis.ofName, hs]

/-- **C27** the basis is looked up by exactly five names; every other name raises `NameError`. -/
theorem C27_basis_names (s : String) :
    (Basis.ofName s = .error .nameError ↔
      s ∉ ["gaussian_spline", "multi_quadratic_biharmonic_spline", "inv_multi_quadratic_biharmonic_spline",
        "thin_plate_spline", "beckert_wendland_c2_basis"]) ∧
    (∀ e, Basis.ofName s = .error e → e = .nameError) := by
  unfold Basis.ofName
  constructor
  · split_ifs <;> simp_all
  · intro e
    split_ifs <;> simp [eq_comm]

/-- **C28** entry `(i, j)` of the weight matrix is the basis function of the distance of point `i` of the first and
point `j` of the second list; swapping the lists transposes it. -/
theorem C28_weights_matrix {α : Type*} [PseudoMetricSpace α] (b : Basis) (r : ℝ) (X Y : List α) :
    (∀ (i : Fin X.length) (j : Fin Y.length), weightsMatrix b r X Y i j = b.fn (dist X[i] Y[j]) r) ∧
    weightsMatrix b r Y X = (weightsMatrix b r X Y).transpose ∧
    (weightsMatrix b r X X).IsSymm := by
  have ht : ∀ X Y : List α, weightsMatrix b r Y X = (weightsMatrix b r X Y).transpose := by
    intro X Y
    ext i j
    simp [weightsMatrix, dist_comm]
  refine ⟨fun _ _ => rfl, ht X Y, (ht X X).symm⟩

/-- **C28** for 1-D data the distance is `|x - y|`; the diagonal of the Wendland matrix is 1 and its entries lie in
`[0, 1]`. -/
theorem C28_wendland_matrix (r : ℝ) (hr : 0 < r) (X : List ℝ) (i j : Fin X.length) :
    weightsMatrix .wendland r X X i j = wendlandC2 |X[i] - X[j]| r ∧
    weightsMatrix .wendland r X X i i = 1 ∧
    0 ≤ weightsMatrix .wendland r X X i j ∧ weightsMatrix .wendland r X X i j ≤ 1 := by
  obtain ⟨_, h0, h01, _, _⟩ := C27_wendland_shape r hr
  refine ⟨by simp [weightsMatrix, Basis.fn, Real.dist_eq], ?_, ?_⟩
  · simp [weightsMatrix, Basis.fn, h0]
  · exact h01 _ dist_nonneg

/-- **C29** exact interpolation: with a non-singular system, whatever points are asked for, the value written at a
position whose point is a node is the datum of that node. -/
theorem C29_interpolates {α : Type*} [PseudoMetricSpace α] (name : String) (b : Basis) (hb : Basis.ofName name = .ok b)
    (r : ℝ) (hr : 0 < r) (X : List α) (y : Arr) (hl : y.length = X.length)
    (hdet : (weightsMatrix b r X X).det ≠ 0) (xs : List α) :
    ∃ out, reconstructF name r X y xs (List.replicate xs.length 0) = .ok out ∧ out.length = xs.length ∧
      ∀ i j (hi : i < xs.length) (hj : j < X.length) (ho : i < out.length) (hy : j < y.length),
        xs[i] = X[j] → out[i] = y[j] := by
  rw [reconstructF_zero hb hr.ne', npSolve_ok hl hdet]
  refine ⟨_, rfl, by simp, ?_⟩
  intro i j hi hj ho hy hx
  simp only [List.getElem_map, hx]
  exact rbfEval_node (npSolve_ok hl hdet) ⟨j, hj⟩ hy

/-- **C29** in particular, evaluating at the nodes returns the data. -/
theorem C29_interpolates_nodes {α : Type*} [PseudoMetricSpace α] (name : String) (b : Basis)
    (hb : Basis.ofName name = .ok b)
    (r : ℝ) (hr : 0 < r) (X : List α) (y : Arr) (hl : y.length = X.length)
    (hdet : (weightsMatrix b r X X).det ≠ 0) :
    reconstructF name r X y X (List.replicate X.length 0) = .ok y := by
  obtain ⟨out, ho, hlen, hval⟩ := C29_interpolates name b hb r hr X y hl hdet X
  rw [ho]
  congr 1
  apply List.ext_getElem (by omega)
  intro i h1 h2
  exact hval i i (by omega) (by omega) h1 h2 rfl

/-- Non-vacuity: two nodes at distance 1 with radius 1 give a non-singular Wendland system. -/
example : (weightsMatrix .wendland 1 [(0 : ℝ), 1] [0, 1]).det ≠ 0 := by
  rw [Matrix.det_fin_two]
  norm_num [weightsMatrix, Basis.fn, wendlandC2, Real.dist_eq]

/-- **C30** the result is *added* to what the output array held before. -/
theorem C30_accumulates {α : Type*} [PseudoMetricSpace α] (name : String) (r : ℝ) (hr : 0 < r)
    (X : List α) (y : Arr) (xs : List α) (init out : Arr) (hinit : init.length = xs.length)
    (h : reconstructF name r X y xs (List.replicate xs.length 0) = .ok out) :
    reconstructF name r X y xs init = .ok (List.zipWith (· + ·) init out) := by
  rcases hb : Basis.ofName name with e | b
  · simp [reconstructF, hb, bind, Except.bind] at h
  rw [reconstructF_zero hb hr.ne'] at h
  rw [reconstructF_eq hb hr.ne' hinit.ge]
  rcases hw : npSolve (weightsMatrix b r X X) y with e | w
  · rw [hw] at h; simp [Except.map] at h
  · rw [hw] at h
    simp only [Except.map, Except.ok.injEq] at h ⊢
    subst h
    apply List.ext_getElem (by simp [hinit])
    intro i h1 h2
    simp only [List.length_mapIdx] at h1
    simp [List.getElem_mapIdx, List.getElem_zipWith, List.getElem?_eq_getElem (by omega : i < xs.length)]

/-- **C30** calling it twice on the same output array doubles the values. -/
theorem C30_second_call_doubles {α : Type*} [PseudoMetricSpace α] (name : String) (r : ℝ) (hr : 0 < r)
    (X : List α) (y : Arr) (xs : List α) (out : Arr)
    (h : reconstructF name r X y xs (List.replicate xs.length 0) = .ok out) :
    reconstructF name r X y xs out = .ok (out.map (2 * ·)) := by
  have hlen : out.length = xs.length := by
    rcases hb : Basis.ofName name with e | b
    · simp [reconstructF, hb, bind, Except.bind] at h
    rw [reconstructF_zero hb hr.ne'] at h
    rcases hw : npSolve (weightsMatrix b r X X) y with e | w
    · rw [hw] at h; simp [Except.map] at h
    · rw [hw] at h; simp only [Except.map, Except.ok.injEq] at h; subst h; simp
  rw [C30_accumulates name r hr X y xs out out hlen h]
  congr 1
  apply List.ext_getElem (by simp)
  intro i h1 h2
  simp [two_mul]

/-- **C30** reconstruction is linear in the data. -/
theorem C30_linear {α : Type*} [PseudoMetricSpace α] (name : String) (r : ℝ) (hr : 0 < r)
    (X : List α) (y z : Arr) (xs : List α) (oy oz : Arr) (a c : ℝ)
    (hy : reconstructF name r X y xs (List.replicate xs.length 0) = .ok oy)
    (hz : reconstructF name r X z xs (List.replicate xs.length 0) = .ok oz) :
    reconstructF name r X (List.zipWith (fun u v => a * u + c * v) y z) xs (List.replicate xs.length 0) =
      .ok (List.zipWith (fun u v => a * u + c * v) oy oz) := by
  rcases hb : Basis.ofName name with e | b
  · simp [reconstructF, hb, bind, Except.bind] at hy
  rw [reconstructF_zero hb hr.ne'] at hy hz ⊢
  rcases hw : npSolve (weightsMatrix b r X X) y with e | w
  · rw [hw] at hy; simp [Except.map] at hy
  rcases hv : npSolve (weightsMatrix b r X X) z with e | v
  · rw [hv] at hz; simp [Except.map] at hz
  obtain ⟨ly, hd, _⟩ := npSolve_spec hw
  obtain ⟨lz, _, _⟩ := npSolve_spec hv
  rw [hw] at hy; rw [hv] at hz
  rw [npSolve_ok ly hd] at hw
  rw [npSolve_ok lz hd] at hv
  simp only [Except.map, Except.ok.injEq] at hy hz hw hv
  have hlen : (List.zipWith (fun u v => a * u + c * v) y z).length = X.length := by simp [ly, lz]
  rw [npSolve_ok hlen hd]
  simp only [Except.map, Except.ok.injEq]
  subst hy hz
  have hvec : ((weightsMatrix b r X X)⁻¹.mulVec fun i => (List.zipWith (fun u v => a * u + c * v) y z)[i])
      = a • w + c • v := by
    rw [← hw, ← hv, ← Matrix.mulVec_smul, ← Matrix.mulVec_smul, ← Matrix.mulVec_add]
    congr 1
    funext i
    simp
  rw [hvec]
  apply List.ext_getElem (by simp)
  intro i h1 h2
  simp only [List.getElem_map, List.getElem_zipWith, rbfEval, Pi.add_apply, Pi.smul_apply, smul_eq_mul,
    Finset.mul_sum, ← Finset.sum_add_distrib]
  exact Finset.sum_congr rfl fun j _ => by ring

/-- **C30** a repeated node makes the system singular: `LinAlgError`, whatever the basis and the data. -/
theorem C30_duplicate_node {α : Type*} [PseudoMetricSpace α] (name : String) (b : Basis) (hb : Basis.ofName name = .ok b)
    (r : ℝ) (hr : 0 < r) (X : List α) (y : Arr) (hl : y.length = X.length) (xs : List α) (out : Arr)
    (i j : Fin X.length) (hij : i ≠ j) (hX : X[i] = X[j]) :
    reconstructF name r X y xs out = .error .linAlgError := by
  have hdet : (weightsMatrix b r X X).det = 0 := by
    apply Matrix.det_zero_of_row_eq hij
    funext k
    have : X[i.1] = X[j.1] := hX
    simp [weightsMatrix, this]
  have hs : npSolve (weightsMatrix b r X X) y = .error .linAlgError := by simp [npSolve, hl, hdet]
  unfold reconstructF
  simp [hb, hs, hr.ne', bind, Except.bind, pure, Except.pure]

example : ([0, 1/2, 0] : List ℝ)[(0 : Fin 3)] = ([0, 1/2, 0] : List ℝ)[(2 : Fin 3)] := rfl

/-- **C31** nodes pairwise at least the cut-off radius apart: the weight matrix is the identity, so the system always
solves, and the value at a point is `Σ y_j φ(|x - x_j|)`; it is 0 at points farther than the radius from all nodes. -/
theorem C31_separated_nodes (r : ℝ) (hr : 0 < r) (X : List ℝ) (y : Arr) (hl : y.length = X.length)
    (hsep : ∀ i j : Fin X.length, i ≠ j → r ≤ |X[i] - X[j]|) (xs : List ℝ) :
    ∃ out, reconstructF "beckert_wendland_c2_basis" r X y xs (List.replicate xs.length 0) = .ok out ∧
      out = xs.map (fun x => ∑ j : Fin X.length, (y[j]'(by omega)) * wendlandC2 |x - X[j]| r) ∧
      ∀ i (h : i < xs.length) (ho : i < out.length), (∀ p ∈ X, r ≤ |xs[i] - p|) → out[i] = 0 := by
  obtain ⟨_, h0, _, _, hzero⟩ := C27_wendland_shape r hr
  have hI : weightsMatrix .wendland r X X = 1 := by
    ext i j
    by_cases h : i = j
    · subst h; simp [weightsMatrix, Basis.fn, h0]
    · rw [Matrix.one_apply_ne h]
      exact (hzero _ dist_nonneg).2 (by rw [Real.dist_eq]; exact hsep i j h)
  have hout : reconstructF "beckert_wendland_c2_basis" r X y xs (List.replicate xs.length 0) =
      .ok (xs.map (fun x => ∑ j : Fin X.length, (y[j]'(by omega)) * wendlandC2 |x - X[j]| r)) := by
    rw [reconstructF_zero wendland_name hr.ne', npSolve_ok hl (by rw [hI]; simp)]
    simp only [hI, Except.map, inv_one, Matrix.one_mulVec]
    rfl
  refine ⟨_, hout, rfl, ?_⟩
  intro i h ho hp
  simp only [List.getElem_map]
  apply Finset.sum_eq_zero
  intro j _
  have := (hzero |xs[i] - X[j]| (abs_nonneg _)).2 (hp _ (List.getElem_mem j.2))
  rw [this, mul_zero]

example : ∀ i j : Fin ([0, 1, 2] : List ℝ).length, i ≠ j → (1 : ℝ) ≤ |([0, 1, 2] : List ℝ)[i] - ([0, 1, 2] : List ℝ)[j]| := by
  intro i j h
  fin_cases i <;> fin_cases j <;> simp at h ⊢ <;> norm_num

end BladeX
