import Verif.Model.Rbf
import Verif.Lemmas.Lists
import Mathlib.Algebra.BigOperators.Fin
import Mathlib.Tactic.FieldSimp
import Mathlib.Tactic.Linarith
import Mathlib.LinearAlgebra.Matrix.Determinant.Basic

namespace BladeX

open scoped BigOperators

/-- The interpolant `x ↦ Σ_j w_j φ(|x - X_j|)`. -/
noncomputable def rbfEval {α : Type*} [PseudoMetricSpace α] (b : Basis) (r : ℝ) (X : List α)
    (w : Fin X.length → ℝ) (x : α) : ℝ :=
  ∑ j, w j * b.fn (dist x X[j]) r

theorem foldl_add_eq_sum {n : Nat} (f : Fin n → ℝ) (v : ℝ) :
    (List.finRange n).foldl (fun acc j => acc + f j) v = v + ∑ j, f j := by
  have : ∀ (l : List (Fin n)) (v : ℝ), l.foldl (fun acc j => acc + f j) v = v + (l.map f).sum := by
    intro l
    induction l with
    | nil => simp
    | cons a l ih => intro v; simp [ih, add_assoc]
  rw [this, ← List.sum_ofFn, List.ofFn_eq_map]

theorem npSolve_ok {n : Nat} {A : Matrix (Fin n) (Fin n) ℝ} {y : Arr} (h : y.length = n) (hd : A.det ≠ 0) :
    npSolve A y = .ok (A⁻¹.mulVec fun i => y[i]) := by
  simp [npSolve, h, hd]

theorem npSolve_spec {n : Nat} {A : Matrix (Fin n) (Fin n) ℝ} {y : Arr} {w : Fin n → ℝ}
    (h : npSolve A y = .ok w) : ∃ h : y.length = n, A.det ≠ 0 ∧ A.mulVec w = fun i => y[i] := by
  unfold npSolve at h
  split_ifs at h with h1 h2
  refine ⟨h1, h2, ?_⟩
  rw [← Except.ok.inj h, Matrix.mulVec_mulVec, Matrix.mul_nonsing_inv _ (isUnit_iff_ne_zero.2 h2),
    Matrix.one_mulVec]

/-- Closed form of a successful `reconstruct_f` call. -/
theorem reconstructF_eq {α : Type*} [PseudoMetricSpace α] {name : String} {b : Basis} (hb : Basis.ofName name = .ok b)
    {r : ℝ} (hr : r ≠ 0) {X : List α} {y : Arr} {xs : List α} {out : Arr} (hl : xs.length ≤ out.length) :
    reconstructF name r X y xs out =
      (npSolve (weightsMatrix b r X X) y).map fun w =>
        out.mapIdx fun i v => match xs[i]? with
          | some x => v + rbfEval b r X w x
          | none => v := by
  unfold reconstructF
  rw [hb]
  simp only [bind, Except.bind, pure, Except.pure, throw, throwThe, MonadExceptOf.throw, hr, false_and, if_false]
  rcases npSolve (weightsMatrix b r X X) y with e | w
  · simp [Except.map]
  · simp only [Except.map]
    rw [if_neg (by rintro ⟨h, _⟩; omega)]
    congr 2
    funext i v
    split_ifs with h
    · rw [List.getElem?_eq_getElem h, foldl_add_eq_sum]
      rfl
    · rw [List.getElem?_eq_none (by omega)]

/-- The same with a zeroed output array of the right length. -/
theorem reconstructF_zero {α : Type*} [PseudoMetricSpace α] {name : String} {b : Basis}
    (hb : Basis.ofName name = .ok b)
    {r : ℝ} (hr : r ≠ 0) {X : List α} {y : Arr} {xs : List α} :
    reconstructF name r X y xs (List.replicate xs.length 0) =
      (npSolve (weightsMatrix b r X X) y).map fun w => xs.map (rbfEval b r X w) := by
  rw [reconstructF_eq hb hr (by simp)]
  congr 1
  funext w
  apply List.ext_getElem?
  intro i
  rw [List.getElem?_mapIdx, List.getElem?_map]
  rcases lt_or_ge i xs.length with h | h
  · rw [List.getElem?_eq_getElem h, List.getElem?_replicate]; simp [h]
  · rw [List.getElem?_eq_none h, List.getElem?_eq_none (by simpa using h)]; simp

theorem rbfEval_node {α : Type*} [PseudoMetricSpace α] {b : Basis} {r : ℝ} {X : List α} {y : Arr}
    {w : Fin X.length → ℝ} (h : npSolve (weightsMatrix b r X X) y = .ok w) (j : Fin X.length) (hy : j.1 < y.length) :
    rbfEval b r X w X[j] = y[j.1] := by
  obtain ⟨hl, _, hw⟩ := npSolve_spec h
  have := congrFun hw j
  rw [← show (weightsMatrix b r X X).mulVec w j = y[j.1] from this]
  simp only [rbfEval, Matrix.mulVec, dotProduct, weightsMatrix]
  exact Finset.sum_congr rfl fun k _ => mul_comm _ _

theorem wendland_name : Basis.ofName "beckert_wendland_c2_basis" = .ok .wendland := by decide

end BladeX
