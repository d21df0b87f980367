import Verif.Lemmas.DeformFit

/-! # The least-squares solution of least norm depends linearly on the data -/

namespace BladeX
noncomputable section
open Classical

/-- A polynomial of degree two without constant term that is never negative has no linear term. -/
theorem no_linear_term {p q : ℝ} (h : ∀ t : ℝ, 0 ≤ 2 * t * p + t ^ 2 * q) : p = 0 := by
  by_contra hp
  by_cases hq : q = 0
  · have := h (-p)
    subst hq
    have h2 : 0 < p ^ 2 := by positivity
    nlinarith
  · have h1 := h (-p / q)
    have h2 := h (p / q)
    have h3 := h (-p)
    have e1 : 2 * (-p / q) * p + (-p / q) ^ 2 * q = -(p ^ 2 / q) := by field_simp; ring
    have e2 : 2 * (p / q) * p + (p / q) ^ 2 * q = 3 * (p ^ 2 / q) := by field_simp; ring
    rw [e1] at h1; rw [e2] at h2
    have : p ^ 2 / q = 0 := by linarith
    rw [div_eq_zero_iff] at this
    rcases this with h | h
    · exact hp (by simpa using h)
    · exact hq h

/-- The normal equations and the orthogonality to the kernel. -/
structure Normal {m n : Nat} (A : Matrix (Fin m) (Fin n) ℝ) (b : Fin m → ℝ) (x : Fin n → ℝ) : Prop where
  normal : ∀ z, ∑ i, (A.mulVec x i - b i) * A.mulVec z i = 0
  orth : ∀ z, A.mulVec z = 0 → ∑ j, x j * z j = 0

theorem IsLstsq.normal {m n : Nat} {A : Matrix (Fin m) (Fin n) ℝ} {b : Fin m → ℝ} {x : Fin n → ℝ} (h : IsLstsq A b x) : Normal A b x := by
  have expand : ∀ (z : Fin n → ℝ) (t : ℝ), sumSq A b (x + t • z) =
      sumSq A b x + (2 * t * ∑ i, (A.mulVec x i - b i) * A.mulVec z i + t ^ 2 * ∑ i, A.mulVec z i ^ 2) := by
    intro z t
    unfold sumSq
    rw [Finset.mul_sum, Finset.mul_sum, ← Finset.sum_add_distrib, ← Finset.sum_add_distrib]
    apply Finset.sum_congr rfl
    intro i _
    rw [Matrix.mulVec_add, Matrix.mulVec_smul]
    simp only [Pi.add_apply, Pi.smul_apply, smul_eq_mul]
    ring
  constructor
  · intro z
    apply no_linear_term (q := ∑ i, A.mulVec z i ^ 2)
    intro t
    have := h.1 (x + t • z)
    rw [expand] at this
    linarith
  · intro z hz
    apply no_linear_term (q := ∑ j, z j ^ 2)
    intro t
    have hmin : ∀ y, sumSq A b (x + t • z) ≤ sumSq A b y := by
      intro y
      rw [expand, hz]
      simpa using h.1 y
    have := h.2 _ hmin
    have e : ∑ j, (x + t • z) j ^ 2 = ∑ j, x j ^ 2 + (2 * t * ∑ j, x j * z j + t ^ 2 * ∑ j, z j ^ 2) := by
      rw [Finset.mul_sum, Finset.mul_sum, ← Finset.sum_add_distrib, ← Finset.sum_add_distrib]
      apply Finset.sum_congr rfl
      intro j _
      simp only [Pi.add_apply, Pi.smul_apply, smul_eq_mul]
      ring
    rw [e] at this
    linarith

theorem Normal.unique {m n : Nat} {A : Matrix (Fin m) (Fin n) ℝ} {b : Fin m → ℝ} {x y : Fin n → ℝ} (hx : Normal A b x)
    (hy : Normal A b y) : x = y := by
  have h0 : A.mulVec (x - y) = 0 := by
    have e : ∑ i, A.mulVec (x - y) i ^ 2 = 0 := by
      have a := hx.normal (x - y)
      have b' := hy.normal (x - y)
      have : ∑ i, A.mulVec (x - y) i ^ 2 = ∑ i, (A.mulVec x i - b i) * A.mulVec (x - y) i - ∑ i, (A.mulVec y i - b i) * A.mulVec (x - y) i := by
        rw [← Finset.sum_sub_distrib]
        apply Finset.sum_congr rfl
        intro i _
        rw [Matrix.mulVec_sub]
        simp only [Pi.sub_apply]
        ring
      rw [this, a, b', sub_zero]
    funext i
    have := (Finset.sum_eq_zero_iff_of_nonneg fun i _ => sq_nonneg (A.mulVec (x - y) i)).1 e i (Finset.mem_univ i)
    simpa using this
  have e : ∑ j, (x - y) j ^ 2 = 0 := by
    have a := hx.orth _ h0
    have b' := hy.orth _ h0
    have : ∑ j, (x - y) j ^ 2 = ∑ j, x j * (x - y) j - ∑ j, y j * (x - y) j := by
      rw [← Finset.sum_sub_distrib]
      apply Finset.sum_congr rfl
      intro j _
      simp only [Pi.sub_apply]
      ring
    rw [this, a, b', sub_zero]
  funext j
  have := (Finset.sum_eq_zero_iff_of_nonneg fun j _ => sq_nonneg ((x - y) j)).1 e j (Finset.mem_univ j)
  have h2 : (x - y) j = 0 := by simpa using this
  simpa [sub_eq_zero] using h2

theorem Normal.mix {m n : Nat} {A : Matrix (Fin m) (Fin n) ℝ} {b b' : Fin m → ℝ} {x x' : Fin n → ℝ} (hx : Normal A b x)
    (hx' : Normal A b' x') (a c : ℝ) : Normal A (a • b + c • b') (a • x + c • x') := by
  constructor
  · intro z
    have h1 := hx.normal z
    have h2 := hx'.normal z
    have : ∑ i, (A.mulVec (a • x + c • x') i - (a • b + c • b') i) * A.mulVec z i =
        a * ∑ i, (A.mulVec x i - b i) * A.mulVec z i + c * ∑ i, (A.mulVec x' i - b' i) * A.mulVec z i := by
      rw [Finset.mul_sum, Finset.mul_sum, ← Finset.sum_add_distrib]
      apply Finset.sum_congr rfl
      intro i _
      rw [Matrix.mulVec_add, Matrix.mulVec_smul, Matrix.mulVec_smul]
      simp only [Pi.add_apply, Pi.smul_apply, smul_eq_mul]
      ring
    rw [this, h1, h2]; ring
  · intro z hz
    have h1 := hx.orth z hz
    have h2 := hx'.orth z hz
    have : ∑ j, (a • x + c • x') j * z j = a * ∑ j, x j * z j + c * ∑ j, x' j * z j := by
      rw [Finset.mul_sum, Finset.mul_sum, ← Finset.sum_add_distrib]
      apply Finset.sum_congr rfl
      intro j _
      simp only [Pi.add_apply, Pi.smul_apply, smul_eq_mul]
      ring
    rw [this, h1, h2]; ring

/-- The least-squares solution is linear in the right-hand side. -/
theorem lstsq_mix {m n : Nat} (A : Matrix (Fin m) (Fin n) ℝ) (b b' : Fin m → ℝ) (a c : ℝ) :
    lstsq A (a • b + c • b') = a • lstsq A b + c • lstsq A b' :=
  (lstsq_spec A _).normal.unique ((lstsq_spec A b).normal.mix (lstsq_spec A b').normal a c)

namespace Deform

theorem innerPts_eq (cols : List Arr) (n m : Nat) (V : Arr) (v0 vl : ℝ) (v : Fin m → ℝ) (hm : V.length = m)
    (hv : ∀ i (hi : i < V.length), V[i] = v ⟨i, hm ▸ hi⟩) :
    innerPts cols n V v0 vl = List.ofFn (lstsq (Matrix.of fun (i : Fin m) (j : Fin (n - 2)) => (cols.getD (j + 1) []).getD i 0)
      fun i => v i - (cols.getD 0 []).getD i 0 * v0 - (cols.getD (n - 1) []).getD i 0 * vl) := by
  subst hm
  unfold innerPts
  simp only
  congr 2
  funext i
  rw [Fin.getElem_fin, hv i i.2]

/-- The inner control points are linear in the data. -/
theorem innerPts_mix (cols : List Arr) (n : Nat) (U V : Arr) (u0 v0 ul vl a c : ℝ) (h : U.length = V.length) :
    innerPts cols n (List.zipWith (fun u v => a * u + c * v) U V) (a * u0 + c * v0) (a * ul + c * vl) =
      List.zipWith (fun u v => a * u + c * v) (innerPts cols n U u0 ul) (innerPts cols n V v0 vl) := by
  rw [innerPts_eq cols n V.length _ _ _ (fun i => a * U[i] + c * V[i]) (by simp [h]) (by intro i hi; simp),
    innerPts_eq cols n V.length U _ _ (fun i => U[i]) h (by intro i hi; rfl),
    innerPts_eq cols n V.length V _ _ (fun i => V[i]) rfl (by intro i hi; rfl)]
  set A := Matrix.of fun (i : Fin V.length) (j : Fin (n - 2)) => (cols.getD (j + 1) []).getD i 0
  have e : (fun i : Fin V.length => a * U[i] + c * V[i] - (cols.getD 0 []).getD i 0 * (a * u0 + c * v0) -
      (cols.getD (n - 1) []).getD i 0 * (a * ul + c * vl)) =
      a • (fun i : Fin V.length => U[i] - (cols.getD 0 []).getD i 0 * u0 - (cols.getD (n - 1) []).getD i 0 * ul) +
      c • (fun i : Fin V.length => V[i] - (cols.getD 0 []).getD i 0 * v0 - (cols.getD (n - 1) []).getD i 0 * vl) := by
    funext i
    simp only [Pi.add_apply, Pi.smul_apply, smul_eq_mul]
    ring
  rw [e, lstsq_mix]
  apply List.ext_getElem
  · simp
  · intro i h1 h2
    simp

end Deform
end
end BladeX
