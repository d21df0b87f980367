import Verif.Lemmas.RbfKernels
import Verif.Lemmas.Rbf

/-! # C91: which radial bases always interpolate -/

namespace BladeX
open scoped BigOperators

/-- Points of `ℝ^d` with the Euclidean distance: the rows of an `n × d` array. -/
abbrev Point (d : ℕ) := EuclideanSpace ℝ (Fin d)

private theorem dist_sq {d : ℕ} (a b : Point d) : dist a b * dist a b = Kernel.sq (fun k => a k) (fun k => b k) := by
  rw [EuclideanSpace.dist_eq, Real.mul_self_sqrt (Finset.sum_nonneg fun _ _ => sq_nonneg _)]
  unfold Kernel.sq
  exact Finset.sum_congr rfl fun k _ => by rw [Real.dist_eq, sq_abs]

private theorem zero_eq {α : Type*} [PseudoMetricSpace α] {name : String} {b : Basis} (hb : Basis.ofName name = .ok b)
    {r : ℝ} (hr : ¬ (r = 0 ∧ b ≠ .multiQuadratic)) {X : List α} {y : Arr} {xs : List α} :
    reconstructF name r X y xs (List.replicate xs.length 0) =
      (npSolve (weightsMatrix b r X X) y).map fun w => xs.map (rbfEval b r X w) := by
  by_cases h : r = 0
  · have hbm : b = .multiQuadratic := by by_contra e; exact hr ⟨h, e⟩
    unfold reconstructF
    rw [hb]
    simp only [bind, Except.bind, pure, Except.pure, throw, throwThe, MonadExceptOf.throw, hr, if_false]
    rcases npSolve (weightsMatrix b r X X) y with e | w
    · simp [Except.map]
    · simp only [Except.map]
      rw [if_neg (by simp)]
      congr 1
      apply List.ext_getElem (by simp)
      intro i h1 h2
      simp only [List.getElem_mapIdx, List.getElem_replicate, List.getElem_map, foldl_add_eq_sum, zero_add]
      rw [dif_pos (by simpa using h2)]
      rfl
  · exact reconstructF_zero hb h

private theorem nodup_inj {α : Type*} {X : List α} : X.Nodup ↔ Function.Injective fun i : Fin X.length => X[i] := by
  rw [List.nodup_iff_injective_get]
  rfl

private theorem det_dup {α : Type*} [PseudoMetricSpace α] {b : Basis} {r : ℝ} {X : List α} (h : ¬ X.Nodup) :
    (weightsMatrix b r X X).det = 0 := by
  rw [nodup_inj] at h
  simp only [Function.Injective, not_forall] at h
  obtain ⟨i, j, e, hij⟩ := h
  apply Matrix.det_zero_of_row_eq hij
  funext k
  simp only [weightsMatrix, Basis.fn] at e ⊢
  rw [e]

private theorem solve_iff {α : Type*} [PseudoMetricSpace α] {name : String} {b : Basis} (hb : Basis.ofName name = .ok b)
    {r : ℝ} (hr : ¬ (r = 0 ∧ b ≠ .multiQuadratic)) {X : List α} {y : Arr} (hl : y.length = X.length) (xs : List α) :
    ((∃ out, reconstructF name r X y xs (List.replicate xs.length 0) = .ok out) ↔ (weightsMatrix b r X X).det ≠ 0) ∧
    ((weightsMatrix b r X X).det = 0 → reconstructF name r X y xs (List.replicate xs.length 0) = .error .linAlgError) ∧
    ((weightsMatrix b r X X).det ≠ 0 → reconstructF name r X y X (List.replicate X.length 0) = .ok y) := by
  rw [zero_eq hb hr, zero_eq hb hr]
  by_cases hd : (weightsMatrix b r X X).det = 0
  · have : npSolve (weightsMatrix b r X X) y = .error .linAlgError := by simp [npSolve, hl, hd]
    rw [this]
    simp [Except.map, hd]
  · have hs := npSolve_ok hl hd
    refine ⟨⟨fun _ => hd, fun _ => ⟨_, by rw [hs]; rfl⟩⟩, fun h => absurd h hd, fun _ => ?_⟩
    rw [hs]
    simp only [Except.map]
    congr 1
    apply List.ext_getElem (by simp [hl])
    intro i h1 h2
    rw [List.getElem_map]
    exact rbfEval_node hs ⟨i, by simpa using h1⟩ h2

private theorem coords_inj {d : ℕ} {X : List (Point d)} (h : X.Nodup) :
    Function.Injective fun (i : Fin X.length) (k : Fin d) => X[i] k := by
  intro i j e
  apply nodup_inj.1 h
  apply PiLp.ext
  intro k
  exact congrFun e k

private theorem form_eq {d : ℕ} (X : List (Point d)) (b : Basis) (r : ℝ) (g : ℝ → ℝ)
    (hg : ∀ x y : Point d, b.fn (dist x y) r = g (dist x y * dist x y)) (c : Fin X.length → ℝ) :
    ∑ i, ∑ j, c i * c j * weightsMatrix b r X X i j =
      ∑ i, ∑ j, c i * c j * g (Kernel.sq (fun k => X[i] k) (fun k => X[j] k)) := by
  refine Finset.sum_congr rfl fun i _ => Finset.sum_congr rfl fun j _ => ?_
  rw [weightsMatrix, hg, dist_sq]

private theorem gauss_det {d : ℕ} {X : List (Point d)} (h : X.Nodup) {r : ℝ} (hr : r ≠ 0) :
    (weightsMatrix .gaussian r X X).det ≠ 0 := by
  apply Kernel.det_ne_zero_of_pos
  intro c hc
  have hs : 0 < 1 / (r * r) := one_div_pos.2 (mul_self_pos.2 hr)
  rw [form_eq X .gaussian r (fun u => Real.exp (-(1 / (r * r) * u)))
    (fun x y => by simp only [Basis.fn, gaussianSpline]; congr 1; ring)]
  exact Kernel.gauss_form_pos _ (coords_inj h) c hc hs

private theorem inv_det {d : ℕ} {X : List (Point d)} (h : X.Nodup) {r : ℝ} (hr : r ≠ 0) :
    (weightsMatrix .invMultiQuadratic r X X).det ≠ 0 := by
  apply Kernel.det_ne_zero_of_pos
  intro c hc
  have hs : 0 < r * r := mul_self_pos.2 hr
  rw [form_eq X .invMultiQuadratic r (fun u => (1 / (r * r + u)) ^ (1 / 2 : ℝ))
    (fun x y => by
      simp only [Basis.fn, invMultiQuadraticSpline]
      rw [add_comm (r * r), ← Real.sqrt_eq_rpow, one_div (_ + _), Real.sqrt_inv, one_div])]
  exact Kernel.inv_form_pos _ (coords_inj h) c hc (by norm_num) hs

private theorem multi_det {d : ℕ} {X : List (Point d)} (h : X.Nodup) {r : ℝ} (hr : r ≠ 0 ∨ X.length ≠ 1) :
    (weightsMatrix .multiQuadratic r X X).det ≠ 0 := by
  apply Kernel.det_ne_zero_of_neg
  · intro i j
    simp [weightsMatrix, dist_comm]
  · intro c hc h0
    rw [form_eq X .multiQuadratic r (fun u => Real.sqrt (r * r + u))
      (fun x y => by simp only [Basis.fn, multiQuadraticSpline]; rw [add_comm])]
    exact Kernel.sqrt_form_neg _ (coords_inj h) c hc h0 (mul_self_nonneg r)
  · rcases Nat.eq_zero_or_pos X.length with h0 | h0
    · exact Or.inl h0
    right
    have nn : ∀ i j, 0 ≤ weightsMatrix .multiQuadratic r X X i j := fun i j => Real.sqrt_nonneg _
    have hw : ∃ i j, 0 < weightsMatrix .multiQuadratic r X X i j := by
      by_cases hz : r = 0
      · have h2 : 1 < X.length := by rcases hr with e | e <;> [exact absurd hz e; omega]
        refine ⟨⟨0, by omega⟩, ⟨1, h2⟩, Real.sqrt_pos.2 ?_⟩
        have hne : X[(⟨0, by omega⟩ : Fin X.length)] ≠ X[(⟨1, h2⟩ : Fin X.length)] := fun e => by
          have := nodup_inj.1 h e
          simp at this
        have hd := dist_pos.2 hne
        rw [hz, mul_zero, add_zero]
        exact mul_pos hd hd
      · refine ⟨⟨0, h0⟩, ⟨0, h0⟩, Real.sqrt_pos.2 ?_⟩
        rw [dist_self, mul_zero, zero_add]
        exact mul_self_pos.2 hz
    obtain ⟨i, j, hij⟩ := hw
    refine ⟨fun _ => 1, ?_⟩
    have h1 : ∀ i, 0 ≤ ∑ j, (1 : ℝ) * 1 * weightsMatrix .multiQuadratic r X X i j :=
      fun i => Finset.sum_nonneg fun j _ => by rw [one_mul, one_mul]; exact nn i j
    refine lt_of_lt_of_le ?_ (Finset.single_le_sum (fun i _ => h1 i) (Finset.mem_univ i))
    refine lt_of_lt_of_le hij ?_
    have := Finset.single_le_sum (f := fun j => (1 : ℝ) * 1 * weightsMatrix .multiQuadratic r X X i j)
      (fun j _ => by rw [one_mul, one_mul]; exact nn i j) (Finset.mem_univ j)
    simpa using this

/-- **C91** With the Gaussian, the inverse multiquadric or the multiquadric basis and a radius other than zero,
interpolation of data at points of any dimension succeeds exactly when the points are pairwise distinct, and fails with
`LinAlgError` otherwise; when it succeeds the interpolant takes the given values at the points. -/
theorem C91_distinct_points {d : ℕ} (name : String)
    (hn : name = "gaussian_spline" ∨ name = "inv_multi_quadratic_biharmonic_spline" ∨ name = "multi_quadratic_biharmonic_spline")
    (r : ℝ) (hr : r ≠ 0) (X : List (Point d)) (y : Arr) (hl : y.length = X.length) (xs : List (Point d)) :
    ((∃ out, reconstructF name r X y xs (List.replicate xs.length 0) = .ok out) ↔ X.Nodup) ∧
    (¬ X.Nodup → reconstructF name r X y xs (List.replicate xs.length 0) = .error .linAlgError) ∧
    (X.Nodup → reconstructF name r X y X (List.replicate X.length 0) = .ok y) := by
  obtain ⟨b, hb, hd⟩ : ∃ b, Basis.ofName name = .ok b ∧ (X.Nodup → (weightsMatrix b r X X).det ≠ 0) := by
    rcases hn with rfl | rfl | rfl
    · exact ⟨.gaussian, by decide, fun h => gauss_det h hr⟩
    · exact ⟨.invMultiQuadratic, by decide, fun h => inv_det h hr⟩
    · exact ⟨.multiQuadratic, by decide, fun h => multi_det h (Or.inl hr)⟩
  obtain ⟨h1, h2, h3⟩ := solve_iff hb (r := r) (by simp [hr]) hl xs
  refine ⟨h1.trans ⟨fun h => ?_, hd⟩, fun h => h2 (det_dup h), fun h => h3 (hd h)⟩
  by_contra e
  exact h (det_dup e)

/-- **C91** The multiquadric basis with radius zero (the distance itself) interpolates at any number of distinct points
except a single one. -/
theorem C91_distance_basis {d : ℕ} (X : List (Point d)) (y : Arr) (hl : y.length = X.length) (xs : List (Point d)) :
    ((∃ out, reconstructF "multi_quadratic_biharmonic_spline" 0 X y xs (List.replicate xs.length 0) = .ok out) ↔
      X.Nodup ∧ X.length ≠ 1) ∧
    (X.length = 1 → reconstructF "multi_quadratic_biharmonic_spline" 0 X y xs (List.replicate xs.length 0) =
      .error .linAlgError) := by
  obtain ⟨h1, h2, _⟩ := solve_iff (name := "multi_quadratic_biharmonic_spline") (b := .multiQuadratic) (by decide) (r := 0)
    (by simp) hl xs
  have one : X.length = 1 → (weightsMatrix .multiQuadratic 0 X X).det = 0 := by
    intro h
    obtain ⟨p, rfl⟩ := List.length_eq_one_iff.1 h
    simp [weightsMatrix, Basis.fn, multiQuadraticSpline]
  refine ⟨h1.trans ⟨fun h => ⟨?_, fun e => h (one e)⟩, fun h => multi_det h.1 (Or.inr h.2)⟩, fun h => h2 (one h)⟩
  by_contra e
  exact h (det_dup e)

/-- **C91** The same for data on the line (1-D arrays). -/
theorem C91_distinct_numbers (name : String)
    (hn : name = "gaussian_spline" ∨ name = "inv_multi_quadratic_biharmonic_spline" ∨ name = "multi_quadratic_biharmonic_spline")
    (r : ℝ) (hr : r ≠ 0) (X : List ℝ) (y : Arr) (hl : y.length = X.length) (xs : List ℝ) :
    ((∃ out, reconstructF name r X y xs (List.replicate xs.length 0) = .ok out) ↔ X.Nodup) ∧
    (¬ X.Nodup → reconstructF name r X y xs (List.replicate xs.length 0) = .error .linAlgError) ∧
    (X.Nodup → reconstructF name r X y X (List.replicate X.length 0) = .ok y) := by
  set e : ℝ → Point 1 := fun x => WithLp.toLp 2 fun _ => x with he
  have hdist : ∀ a b : ℝ, dist (e a) (e b) = dist a b := by
    intro a b
    rw [EuclideanSpace.dist_eq]
    simp [he, Real.sqrt_sq_eq_abs, Real.dist_eq]
  have hinj : Function.Injective e := by
    intro a b h
    have := hdist a b
    rw [h, dist_self] at this
    exact dist_eq_zero.1 this.symm
  obtain ⟨b, hb⟩ : ∃ b, Basis.ofName name = .ok b := by
    rcases hn with rfl | rfl | rfl
    · exact ⟨.gaussian, by decide⟩
    · exact ⟨.invMultiQuadratic, by decide⟩
    · exact ⟨.multiQuadratic, by decide⟩
  have hE : X.Nodup ↔ (X.map e).Nodup := (List.nodup_map_iff hinj).symm
  have hdet : (weightsMatrix b r X X).det = 0 ↔ (weightsMatrix b r (X.map e) (X.map e)).det = 0 := by
    have : weightsMatrix b r X X = (weightsMatrix b r (X.map e) (X.map e)).submatrix
        (finCongr (List.length_map e).symm) (finCongr (List.length_map e).symm) := by
      ext i j
      simp [weightsMatrix, hdist]
    rw [this, Matrix.det_submatrix_equiv_self]
  obtain ⟨a1, a2, a3⟩ := solve_iff hb (r := r) (by simp [hr]) hl xs
  obtain ⟨b1, _, _⟩ := solve_iff hb (r := r) (by simp [hr]) (X := X.map e) (y := y) (by simpa using hl) []
  obtain ⟨c1, _, _⟩ := C91_distinct_points name hn r hr (X.map e) y (by simpa using hl) []
  have key : X.Nodup ↔ (weightsMatrix b r X X).det ≠ 0 := by
    rw [hE, ← c1, b1, ne_eq, ne_eq, hdet]
  refine ⟨a1.trans key.symm, fun h => a2 ?_, fun h => a3 (key.1 h)⟩
  by_contra h'
  exact h (key.2 h')

/-- **C91** The thin plate basis can fail for distinct points: two points at a distance of exactly the radius give the zero
matrix. -/
theorem C91_thin_plate_fails {d : ℕ} (r : ℝ) (hr : 0 < r) (p q : Point d) (h : dist p q = r) (u v : ℝ) (xs : List (Point d)) :
    p ≠ q ∧ reconstructF "thin_plate_spline" r [p, q] [u, v] xs (List.replicate xs.length 0) = .error .linAlgError := by
  constructor
  · rintro rfl; rw [dist_self] at h; exact hr.ne h
  · refine (solve_iff (name := "thin_plate_spline") (b := .thinPlate) (by decide) (r := r) (by simp [hr.ne']) (X := [p, q]) (y := [u, v]) rfl xs).2.1 ?_
    have : weightsMatrix .thinPlate r [p, q] [p, q] = 0 := by
      ext i j
      have e1 : r / r = 1 := div_self hr.ne'
      fin_cases i <;> fin_cases j <;>
        simp [weightsMatrix, Basis.fn, thinPlateSpline, h, dist_comm q p, e1]
    rw [this]
    haveI : Nonempty (Fin [p, q].length) := ⟨⟨0, by simp⟩⟩
    exact Matrix.det_zero

/-- Non-vacuity: three points of the plane. -/
example : ([!₂[0, 0], !₂[1, 0], !₂[0, 1]] : List (Point 2)).Nodup := by
  have k : ∀ a b : Point 2, a = b → a 0 = b 0 ∧ a 1 = b 1 := by rintro a _ rfl; exact ⟨rfl, rfl⟩
  simp only [List.nodup_cons, List.mem_cons, List.not_mem_nil, or_false, not_or, not_false_eq_true, and_true, List.nodup_nil]
  refine ⟨⟨?_, ?_⟩, ?_⟩ <;> (intro h; have := k _ _ h; simp at this)

example (u v : ℝ) : reconstructF "thin_plate_spline" 5 [(!₂[0, 0] : Point 2), !₂[3, 4]] [u, v] [] [] = .error .linAlgError := by
  refine (C91_thin_plate_fails 5 (by norm_num) _ _ ?_ u v []).2
  rw [EuclideanSpace.dist_eq]
  simp [Real.dist_eq]
  rw [show (3 : ℝ) ^ 2 + 4 ^ 2 = 5 ^ 2 by norm_num]
  exact Real.sqrt_sq (by norm_num)

end BladeX
