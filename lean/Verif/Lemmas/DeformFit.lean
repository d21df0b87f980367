import Verif.Model.Deform
import Verif.Props.BSpline
import Verif.Props.RbfPosDef
import Mathlib.Analysis.InnerProductSpace.Projection.FiniteDimensional
import Mathlib.Analysis.InnerProductSpace.Projection.Minimal

namespace BladeX
noncomputable section
open Spec BSpline

/-! ### Least squares -/

/-- A least-squares solution of least norm exists. -/
theorem exists_lstsq {m n : Nat} (A : Matrix (Fin m) (Fin n) ℝ) (b : Fin m → ℝ) : ∃ x, IsLstsq A b x := by
  let T : EuclideanSpace ℝ (Fin n) →ₗ[ℝ] EuclideanSpace ℝ (Fin m) := Matrix.toEuclideanLin A
  let b' : EuclideanSpace ℝ (Fin m) := WithLp.toLp 2 b
  have hs : ∀ x : EuclideanSpace ℝ (Fin n), sumSq A b x.ofLp = ‖T x - b'‖ ^ 2 := by
    intro x
    rw [EuclideanSpace.norm_sq_eq]
    unfold sumSq
    apply Finset.sum_congr rfl
    intro i _
    simp [T, b', Matrix.toEuclideanLin, Real.norm_eq_abs, sq_abs]
  have hn : ∀ x : EuclideanSpace ℝ (Fin n), ∑ j, x.ofLp j ^ 2 = ‖x‖ ^ 2 := by
    intro x
    rw [EuclideanSpace.norm_sq_eq]
    apply Finset.sum_congr rfl
    intro i _
    simp [Real.norm_eq_abs, sq_abs]
  let R := LinearMap.range T
  let K := LinearMap.ker T
  let pb := R.starProjection b'
  obtain ⟨x0, hx0⟩ : ∃ x0, T x0 = pb := R.starProjection_apply_mem b'
  have horth : ∀ w : EuclideanSpace ℝ (Fin n), ‖T w - b'‖ ^ 2 = ‖T w - pb‖ ^ 2 + ‖pb - b'‖ ^ 2 := by
    intro w
    have h1 : inner ℝ (T w - pb) (pb - b') = 0 := by
      have hm : T w - pb ∈ R := R.sub_mem ⟨w, rfl⟩ (R.starProjection_apply_mem b')
      have := R.starProjection_inner_eq_zero b' (T w - pb) hm
      rw [real_inner_comm]
      have e : pb - b' = - (b' - pb) := by abel
      rw [e, inner_neg_left, this, neg_zero]
    have e : T w - b' = (T w - pb) + (pb - b') := by abel
    rw [e, norm_add_sq_real, h1]; ring
  let x := x0 - K.starProjection x0
  have hTx : T x = pb := by
    have : T (K.starProjection x0) = 0 := LinearMap.mem_ker.1 (K.starProjection_apply_mem x0)
    simp only [x, map_sub, this, hx0, sub_zero]
  refine ⟨x.ofLp, ?_, ?_⟩
  · intro y
    have hy := hs (WithLp.toLp 2 y)
    simp only at hy
    rw [hs x, hy, horth, horth, hTx]
    simp only [sub_self, norm_zero]
    have := sq_nonneg ‖T (WithLp.toLp 2 y) - pb‖
    linarith
  · intro y hy
    have h2 := hy x.ofLp
    have hyy := hs (WithLp.toLp 2 y)
    simp only at hyy
    rw [hs x, hyy, horth, horth, hTx] at h2
    simp only [sub_self, norm_zero] at h2
    have h3 : ‖T (WithLp.toLp 2 y) - pb‖ = 0 := by
      have := sq_nonneg ‖T (WithLp.toLp 2 y) - pb‖
      have h4 : ‖T (WithLp.toLp 2 y) - pb‖ ^ 2 = 0 := by linarith
      exact pow_eq_zero_iff (two_ne_zero) |>.1 h4
    have h4 : T (WithLp.toLp 2 y) = pb := sub_eq_zero.1 (norm_eq_zero.1 h3)
    have hk : (WithLp.toLp 2 y : EuclideanSpace ℝ (Fin n)) - x ∈ K := by
      rw [LinearMap.mem_ker, map_sub, h4, hTx, sub_self]
    have ho : inner ℝ x ((WithLp.toLp 2 y : EuclideanSpace ℝ (Fin n)) - x) = 0 :=
      K.starProjection_inner_eq_zero x0 _ hk
    have hny := hn (WithLp.toLp 2 y)
    simp only at hny
    rw [hn x, hny]
    have e : (WithLp.toLp 2 y : EuclideanSpace ℝ (Fin n)) = x + (WithLp.toLp 2 y - x) := by abel
    rw [e, norm_add_sq_real, ho]
    have := sq_nonneg ‖(WithLp.toLp 2 y : EuclideanSpace ℝ (Fin n)) - x‖
    linarith

theorem lstsq_spec {m n : Nat} (A : Matrix (Fin m) (Fin n) ℝ) (b : Fin m → ℝ) : IsLstsq A b (lstsq A b) := by
  unfold lstsq
  rw [dif_pos (exists_lstsq A b)]
  exact Classical.choose_spec (exists_lstsq A b)

namespace Deform

/-! ### The basis matrix -/

theorem mapM_ok {α β : Type*} {f : α → Res β} {g : α → β} : ∀ (l : List α), (∀ a ∈ l, f a = .ok (g a)) →
    l.mapM f = .ok (l.map g) := by
  intro l
  induction l with
  | nil => intro _; rfl
  | cons a l ih =>
    intro h
    rw [List.mapM_cons, h a (by simp), ih fun b hb => h b (by simp [hb])]
    rfl

/-- The parameters of the data points. -/
def params (m n k : Nat) : Arr := linspaceN 0 ((n : ℝ) - k) m

theorem unit_point {n i k : Nat} (hi : i < n) (x : ℝ) :
    (bsplinePoint (unitCv n i) k x).1 = coxDeBoor (clampedKnot n k) n k i x := by
  have hl : (unitCv n i).length = n := by simp [unitCv]
  unfold bsplinePoint
  simp only
  rw [← sum_getD (unitCv n i) Prod.fst fun j => coxDeBoor (clampedKnot (unitCv n i).length k) (unitCv n i).length k j x, hl,
    Finset.sum_eq_single i]
  · simp [unitCv, hi]
  · intro j hj hne
    rw [Finset.mem_range] at hj
    simp [unitCv, hj, hne]
  · intro h; exact absurd (Finset.mem_range.2 hi) h

theorem basisColumns_ok {m n k : Nat} (hk : k < n) (h5 : k ≤ 5) : basisColumns m n k =
    .ok ((List.range n).map fun i => (params m n k).map (coxDeBoor (clampedKnot n k) n k i)) := by
  unfold basisColumns
  apply mapM_ok
  intro i hi
  rw [List.mem_range] at hi
  have hl : (unitCv n i).length = n := by simp [unitCv]
  rw [bspline_curve (cv := unitCv n i) (by rw [hl]; exact hk) h5, hl]
  simp only [bind, Except.bind, pure, Except.pure, List.map_map]
  congr 1
  apply List.map_congr_left
  intro x _
  exact unit_point hi x

theorem basisColumns_err {m n : Nat} {k : Int} (hn : 0 < n) (h : k < 0 ∨ 5 < k ∨ (n : Int) ≤ k) (out : List Arr) :
    basisColumns m n k ≠ .ok out := by
  unfold basisColumns
  obtain ⟨n, rfl⟩ : ∃ n', n = n' + 1 := ⟨n - 1, by omega⟩
  rw [List.range_succ_eq_map, List.mapM_cons]
  have hl : (unitCv (n + 1) 0).length = n + 1 := by simp [unitCv]
  have : ∃ e, scipyBspline (unitCv (n + 1) 0) m k = .error e := by
    unfold scipyBspline
    by_cases h1 : k < 0 ∨ 5 < k
    · exact ⟨.valueError, by simp [h1, bind, Except.bind, throw, throwThe, MonadExceptOf.throw]⟩
    · have h2 : n + 1 ≤ k.toNat := by omega
      have hm : ¬ ((m : Int) < 0) := by omega
      exact ⟨.nonFinite, by
        simp [h1, hm, h2, hl, linspace, bind, Except.bind, pure, Except.pure, throw, throwThe, MonadExceptOf.throw]⟩
  obtain ⟨e, he⟩ := this
  simp [he, bind, Except.bind]

theorem columns_get {m n k i j : Nat} (hi : i < m) (hj : j < n) :
    ((((List.range n).map fun i => (params m n k).map (coxDeBoor (clampedKnot n k) n k i)).getD j []).getD i 0) =
      coxDeBoor (clampedKnot n k) n k j ((params m n k).getD i 0) := by
  have hi' : i < (params m n k).length := by simp [params, linspaceN_length, hi]
  simp [List.getD_eq_getElem?_getD, hj, hi', List.getElem?_map, List.getElem?_eq_getElem hi']

/-- One coordinate of the fitted curve minus the data. -/
def fitErr (k : Nat) (c : List ℝ) (V : Arr) : ℝ :=
  ∑ i : Fin V.length, (∑ j ∈ Finset.range c.length, coxDeBoor (clampedKnot c.length k) c.length k j
    ((params V.length c.length k).getD i 0) * c.getD j 0 - V[i]) ^ 2

theorem sum_ends {n : Nat} (g : Nat → ℝ) (v0 vl : ℝ) (w : Fin n → ℝ) :
    ∑ j ∈ Finset.range (n + 2), g j * (v0 :: (List.ofFn w ++ [vl])).getD j 0 =
      g 0 * v0 + (∑ j : Fin n, g (j + 1) * w j) + g (n + 1) * vl := by
  rw [Finset.sum_range_succ, Finset.sum_range_succ']
  have e1 : (v0 :: (List.ofFn w ++ [vl])).getD (n + 1) 0 = vl := by
    simp [List.getD_eq_getElem?_getD]
  rw [e1]
  have e2 : ∀ j ∈ Finset.range n, g (j + 1) * (v0 :: (List.ofFn w ++ [vl])).getD (j + 1) 0 =
      g (j + 1) * (if h : j < n then w ⟨j, h⟩ else 0) := by
    intro j hj
    rw [Finset.mem_range] at hj
    rw [dif_pos hj, List.getD_eq_getElem?_getD, List.getElem?_cons_succ, List.getElem?_append_left (by simpa using hj)]
    simp [hj]
  rw [Finset.sum_congr rfl e2, Finset.sum_range]
  simp only [Fin.is_lt, dif_pos, List.getD_cons_zero]
  ring

/-- The inner control points minimise the squared error. -/
theorem inner_min {n k : Nat} (V : Arr) (v0 vl : ℝ) (w : Fin n → ℝ) :
    fitErr k (v0 :: (innerPts ((List.range (n + 2)).map fun i => (params V.length (n + 2) k).map
      (coxDeBoor (clampedKnot (n + 2) k) (n + 2) k i)) (n + 2) V v0 vl ++ [vl])) V ≤
      fitErr k (v0 :: (List.ofFn w ++ [vl])) V := by
  have hfit : ∀ u : Fin n → ℝ, fitErr k (v0 :: (List.ofFn u ++ [vl])) V =
      sumSq (Matrix.of fun (i : Fin V.length) (j : Fin n) => coxDeBoor (clampedKnot (n + 2) k) (n + 2) k (j + 1)
          ((params V.length (n + 2) k).getD i 0))
        (fun i => V[i] - coxDeBoor (clampedKnot (n + 2) k) (n + 2) k 0 ((params V.length (n + 2) k).getD i 0) * v0 -
          coxDeBoor (clampedKnot (n + 2) k) (n + 2) k (n + 1) ((params V.length (n + 2) k).getD i 0) * vl) u := by
    intro u
    have hl : (v0 :: (List.ofFn u ++ [vl])).length = n + 2 := by simp
    unfold fitErr sumSq
    rw [hl]
    apply Finset.sum_congr rfl
    intro i _
    rw [sum_ends]
    simp only [Matrix.mulVec, dotProduct, Matrix.of_apply]
    ring
  have hin : innerPts ((List.range (n + 2)).map fun i => (params V.length (n + 2) k).map
      (coxDeBoor (clampedKnot (n + 2) k) (n + 2) k i)) (n + 2) V v0 vl =
      List.ofFn (lstsq (Matrix.of fun (i : Fin V.length) (j : Fin n) => coxDeBoor (clampedKnot (n + 2) k) (n + 2) k (j + 1)
          ((params V.length (n + 2) k).getD i 0))
        (fun i => V[i] - coxDeBoor (clampedKnot (n + 2) k) (n + 2) k 0 ((params V.length (n + 2) k).getD i 0) * v0 -
          coxDeBoor (clampedKnot (n + 2) k) (n + 2) k (n + 1) ((params V.length (n + 2) k).getD i 0) * vl)) := by
    unfold innerPts
    simp only [Nat.add_sub_cancel]
    have hA : ∀ (i : Fin V.length) (j : Nat), j < n + 2 →
        (((List.range (n + 2)).map fun i => (params V.length (n + 2) k).map
          (coxDeBoor (clampedKnot (n + 2) k) (n + 2) k i)).getD j []).getD i 0 =
        coxDeBoor (clampedKnot (n + 2) k) (n + 2) k j ((params V.length (n + 2) k).getD i 0) :=
      fun i j hj => columns_get i.2 hj
    congr 1
    refine congrArg₂ lstsq ?_ ?_
    · ext i j
      exact hA i (j + 1) (by omega)
    · funext i
      rw [hA i 0 (by omega), hA i (n + 2 - 1) (by omega)]
      rfl
  rw [hin, hfit, hfit]
  exact (lstsq_spec _ _).1 w

end Deform
end
end BladeX
