import Verif.Lemmas.Rbf
import Verif.Props.RbfPosDef
import Verif.Model.Profile

/-! # C147: what the RBF reconstruction does not depend on -/

namespace BladeX

open Spec
noncomputable section
open Classical

/-- Two interpolation problems whose matrices agree up to a factor and a renumbering of the nodes. -/
theorem reconstructF_congr {α β : Type*} [PseudoMetricSpace α] [PseudoMetricSpace β] (name : String) (r r' : ℝ) (X : List α) (X' : List β)
    (y y' : Arr) (xs : List α) (xs' : List β) (out : Arr) (hr : r = 0 ↔ r' = 0) (e : Fin X.length ≃ Fin X'.length) (hx : xs.length = xs'.length)
    (hyl : y.length = X.length ↔ y'.length = X'.length) (hy : ∀ j : Fin X.length, y'[(e j).1]? = y[j.1]?)
    (hk : ∀ b, Basis.ofName name = .ok b → ∃ k : ℝ, k ≠ 0 ∧
      (∀ i j : Fin X.length, weightsMatrix b r' X' X' (e i) (e j) = k * weightsMatrix b r X X i j) ∧
      ∀ (i : Nat) (h : i < xs.length) (h' : i < xs'.length) (j : Fin X.length),
        weightsMatrix b r' xs' X' ⟨i, h'⟩ (e j) = k * weightsMatrix b r xs X ⟨i, h⟩ j) :
    reconstructF name r X y xs out = reconstructF name r' X' y' xs' out := by
  unfold reconstructF
  rcases hb : Basis.ofName name with er | b
  · rfl
  obtain ⟨k, hk0, hA, hV⟩ := hk b hb
  simp only [bind, Except.bind, hr]
  by_cases h0 : r' = 0 ∧ b ≠ .multiQuadratic
  · simp only [h0, ne_eq, not_false_eq_true, and_self, if_true]; rfl
  simp only [h0, if_false]
  have hX0 : X = [] ↔ X' = [] := by
    have := Fintype.card_congr e
    simp only [Fintype.card_fin] at this
    rw [← List.length_eq_zero_iff, ← List.length_eq_zero_iff, this]
  set A := weightsMatrix b r X X with hAd
  set A' := weightsMatrix b r' X' X' with hAd'
  have hsub : A'.submatrix e e = k • A := by
    ext i j; simp [hA i j, Matrix.smul_apply]
  have hdet : A'.det = k ^ X.length * A.det := by
    rw [← Matrix.det_submatrix_equiv_self e A', hsub, Matrix.det_smul, Fintype.card_fin]
  have hdet0 : A.det = 0 ↔ A'.det = 0 := by
    rw [hdet, mul_eq_zero, or_iff_right (pow_ne_zero _ hk0)]
  by_cases hl : y.length = X.length
  swap
  · have hl' : ¬ y'.length = X'.length := fun h => hl (hyl.2 h)
    simp only [npSolve, hl, hl', dif_neg, not_false_eq_true]
  have hl' := hyl.1 hl
  by_cases hd : A.det = 0
  · have hd' := hdet0.1 hd
    simp only [npSolve, hl, hl', dif_pos, hd, hd', if_true]
  have hd' : A'.det ≠ 0 := fun h => hd (hdet0.2 h)
  rw [npSolve_ok hl hd, npSolve_ok hl' hd']
  simp only [← hx, ne_eq, hX0]
  split
  · rfl
  set w := A⁻¹.mulVec fun i => y[i] with hw
  set w' := A'⁻¹.mulVec fun i => y'[i] with hw'
  have hAw : A.mulVec w = fun i => y[i] := by
    rw [hw, Matrix.mulVec_mulVec, Matrix.mul_nonsing_inv _ (isUnit_iff_ne_zero.2 hd), Matrix.one_mulVec]
  have hAw' : A'.mulVec w' = fun i => y'[i] := by
    rw [hw', Matrix.mulVec_mulVec, Matrix.mul_nonsing_inv _ (isUnit_iff_ne_zero.2 hd'), Matrix.one_mulVec]
  have hwe : ∀ j, k * w' (e j) = w j := by
    have h1 : A.mulVec (fun j => k * w' (e j)) = fun i => y[i] := by
      funext i
      have h2 := congrFun hAw' (e i)
      have h3 : A'.mulVec w' (e i) = ∑ j, A' (e i) (e j) * w' (e j) := by
        simp only [Matrix.mulVec, dotProduct]
        exact (Equiv.sum_comp e fun j => A' (e i) j * w' j).symm
      have h4 := hy i
      rw [List.getElem?_eq_getElem (by omega), List.getElem?_eq_getElem (by omega)] at h4
      have h5 : y'[(e i).1]'(by omega) = y[i.1]'(by omega) := Option.some.inj h4
      rw [h3] at h2
      simp only [Matrix.mulVec, dotProduct]
      have h6 : ∑ j, A i j * (k * w' (e j)) = ∑ j, A' (e i) (e j) * w' (e j) :=
        Finset.sum_congr rfl fun j _ => by rw [hA i j]; ring
      rw [h6, h2]
      exact h5
    have h7 : A.mulVec (fun j => k * w' (e j)) = A.mulVec w := by rw [h1, hAw]
    have h8 := congrArg A⁻¹.mulVec h7
    rw [Matrix.mulVec_mulVec, Matrix.mulVec_mulVec, Matrix.nonsing_inv_mul _ (isUnit_iff_ne_zero.2 hd), Matrix.one_mulVec, Matrix.one_mulVec] at h8
    exact congrFun h8
  simp only [pure, Except.pure, Except.ok.injEq]
  congr 1
  funext i v
  by_cases hi : i < xs.length
  · have hi' : i < xs'.length := by omega
    rw [dif_pos hi, dif_pos hi, foldl_add_eq_sum (fun j => w j * _), foldl_add_eq_sum (fun j => w' j * _)]
    congr 1
    rw [← Equiv.sum_comp e]
    refine Finset.sum_congr rfl fun j _ => ?_
    rw [hV i hi hi' j, ← hwe j]
    ring
  · rw [dif_neg hi, dif_neg hi]

/-- All bases are homogeneous in distance and radius together. -/
theorem Basis.homogeneous (b : Basis) {s : ℝ} (hs : 0 < s) : ∃ k : ℝ, k ≠ 0 ∧ ∀ d r : ℝ, b.fn (s * d) (s * r) = k * b.fn d r := by
  have hd : ∀ d r : ℝ, s * d / (s * r) = d / r := fun d r => mul_div_mul_left d r hs.ne'
  have hq : ∀ d r : ℝ, Real.sqrt (s * d * (s * d) + s * r * (s * r)) = s * Real.sqrt (d * d + r * r) := by
    intro d r
    rw [show s * d * (s * d) + s * r * (s * r) = s ^ 2 * (d * d + r * r) by ring, Real.sqrt_mul (by positivity), Real.sqrt_sq hs.le]
  cases b
  · refine ⟨1, one_ne_zero, fun d r => ?_⟩
    simp only [Basis.fn, gaussianSpline, one_mul]
    congr 1
    rw [show -(s * d * (s * d)) = (s * s) * -(d * d) by ring, show s * r * (s * r) = (s * s) * (r * r) by ring, mul_div_mul_left _ _ (by positivity)]
  · exact ⟨s, hs.ne', fun d r => by simp only [Basis.fn, multiQuadraticSpline, hq]⟩
  · refine ⟨s⁻¹, inv_ne_zero hs.ne', fun d r => ?_⟩
    simp only [Basis.fn, invMultiQuadraticSpline, hq, one_div, mul_inv]
  · exact ⟨1, one_ne_zero, fun d r => by simp only [Basis.fn, thinPlateSpline, hd, one_mul]⟩
  · exact ⟨1, one_ne_zero, fun d r => by simp only [Basis.fn, wendlandC2, hd, one_mul]⟩

/-- **C147** Origin, orientation and unit of the arguments are immaterial: if a map multiplies all distances by `s > 0`, then nodes and points taken
through the map, with the radius times `s`, give the same outcome, numbers or exception. For every basis, also an unknown one. -/
theorem C147_similar {α β : Type*} [PseudoMetricSpace α] [PseudoMetricSpace β] (f : α → β) (s : ℝ) (hs : 0 < s)
    (hf : ∀ p q, dist (f p) (f q) = s * dist p q) (name : String) (r : ℝ) (X : List α) (y : Arr) (xs : List α) (out : Arr) :
    reconstructF name (s * r) (X.map f) y (xs.map f) out = reconstructF name r X y xs out := by
  symm
  refine reconstructF_congr name r (s * r) X (X.map f) y y xs (xs.map f) out (by simp [hs.ne']) (finCongr (by simp)) (by simp) (by simp)
    (fun j => by simp) ?_
  intro b _
  obtain ⟨k, hk, h⟩ := b.homogeneous hs
  refine ⟨k, hk, fun i j => ?_, fun i hi hi' j => ?_⟩
  · simp [weightsMatrix, hf, h]
  · simp [weightsMatrix, hf, h]

/-- **C147** The number line: a change of origin and unit, also with reversed direction. -/
theorem C147_line (a s : ℝ) (hs : s ≠ 0) (name : String) (r : ℝ) (X y xs out : Arr) :
    reconstructF name (|s| * r) (X.map fun x => a + s * x) y (xs.map fun x => a + s * x) out = reconstructF name r X y xs out :=
  C147_similar (fun x : ℝ => a + s * x) |s| (abs_pos.2 hs) (fun p q => by
    rw [Real.dist_eq, Real.dist_eq, ← abs_mul]; congr 1; ring) name r X y xs out

private theorem linspaceN_affine (a s x0 x1 : ℝ) (n : Nat) :
    linspaceN (a + s * x0) (a + s * x1) n = (linspaceN x0 x1 n).map fun x => a + s * x := by
  simp only [linspaceN, List.map_map]
  refine List.map_congr_left fun i _ => ?_
  simp only [Function.comp]
  ring

private theorem surface_affine (a s ρ : ℝ) (hs : s ≠ 0) (xs ys : Arr) (n : Nat) :
    Profile.interpSurface (xs.map fun x => a + s * x) ys n (|s| * ρ) =
      (Profile.interpSurface xs ys n ρ).map fun t => (t.1.map fun x => a + s * x, t.2) := by
  rcases xs with _ | ⟨x0, xs⟩
  · rfl
  have h1 : getFirst (x0 :: xs) = .ok x0 := rfl
  have h1' : getFirst ((x0 :: xs).map fun x => a + s * x) = .ok (a + s * x0) := rfl
  obtain ⟨z, hz⟩ : ∃ z, (x0 :: xs).getLast? = some z := ⟨_, List.getLast?_eq_some_getLast (List.cons_ne_nil _ _)⟩
  have h2 : getLast (x0 :: xs) = .ok z := by unfold getLast; rw [hz]
  have h2' : getLast ((x0 :: xs).map fun x => a + s * x) = .ok (a + s * z) := by
    unfold getLast; rw [List.getLast?_map, hz]; rfl
  unfold Profile.interpSurface
  rw [h1, h1', h2, h2']
  simp only [bind, Except.bind, pure, Except.pure]
  rw [linspaceN_affine, C147_line a s hs]
  rcases reconstructF "beckert_wendland_c2_basis" ρ (x0 :: xs) ys (linspaceN x0 z n) (List.replicate n 0) with e | y <;> rfl

/-- **C147** `interpolate_coordinates` of a foil shifted and stretched along the axis, with the radius stretched as well: the same ordinates over the
abscissae shifted and stretched, or the same exception. -/
theorem C147_foil (P : Profile) (a s : ℝ) (hs : s ≠ 0) (num : PyVal) (ρ : ℝ) :
    Profile.interpolateCoordinates { P with xup := P.xup.map fun x => a + s * x, xdown := P.xdown.map fun x => a + s * x } num (|s| * ρ) =
      (P.interpolateCoordinates num ρ).map fun t =>
        { t with xxUp := t.xxUp.map fun x => a + s * x, xxDown := t.xxDown.map fun x => a + s * x } := by
  have hpos : |s| * ρ ≤ 0 ↔ ρ ≤ 0 := by
    rw [mul_nonpos_iff]
    have := abs_pos.2 hs
    constructor
    · rintro (h | h)
      · exact h.2
      · exact absurd h.1 (not_le.2 this)
    · intro h; exact Or.inl ⟨this.le, h⟩
  have core : ∀ n : Nat, Profile.interpCore { P with xup := P.xup.map fun x => a + s * x, xdown := P.xdown.map fun x => a + s * x } n (|s| * ρ) =
      (P.interpCore n ρ).map fun t =>
        { t with xxUp := t.xxUp.map fun x => a + s * x, xxDown := t.xxDown.map fun x => a + s * x } := by
    intro n
    unfold Profile.interpCore
    rw [surface_affine a s ρ hs, surface_affine a s ρ hs]
    rcases Profile.interpSurface P.xup P.yup n ρ with e | u
    · rfl
    rcases Profile.interpSurface P.xdown P.ydown n ρ with e | d
    · rfl
    rfl
  unfold Profile.interpolateCoordinates
  have key : ∀ n : Int, (if n ≤ 0 ∨ |s| * ρ ≤ 0 then (throw .valueError : Res Profile.Interp) else
      Profile.interpCore { P with xup := P.xup.map fun x => a + s * x, xdown := P.xdown.map fun x => a + s * x } n.toNat (|s| * ρ)) =
      (if n ≤ 0 ∨ ρ ≤ 0 then (throw .valueError : Res Profile.Interp) else P.interpCore n.toNat ρ).map fun t =>
        { t with xxUp := t.xxUp.map fun x => a + s * x, xxDown := t.xxDown.map fun x => a + s * x } := by
    intro n
    simp only [hpos]
    by_cases h : n ≤ 0 ∨ ρ ≤ 0
    · simp only [h, if_true]; rfl
    · simp only [h, if_false]
      exact core _
  cases num <;> first | exact key _ | rfl

/-- **C147** The unit is not immaterial when the radius is kept: one node with datum one, the point at distance one, radius one; in half the unit
the point is at distance two. -/
theorem C147_radius_kept : ∃ u v : ℝ, u ≠ v ∧
    reconstructF "gaussian_spline" 1 [(0 : ℝ)] [1] [1] [0] = .ok [u] ∧ reconstructF "gaussian_spline" 1 [(0 : ℝ)] [1] [2] [0] = .ok [v] := by
  have hb : Basis.ofName "gaussian_spline" = .ok .gaussian := by decide
  have key : ∀ x : ℝ, reconstructF "gaussian_spline" 1 [(0 : ℝ)] [1] [x] [0] = .ok [Real.exp (-(x * x))] := by
    intro x
    have hA : weightsMatrix .gaussian 1 [(0 : ℝ)] [(0 : ℝ)] = 1 := by
      ext i j
      have hi := Fin.eq_zero i
      have hj := Fin.eq_zero j
      subst hi hj
      simp [weightsMatrix, Basis.fn, gaussianSpline]
    have := reconstructF_zero hb (one_ne_zero (α := ℝ)) (X := [(0 : ℝ)]) (y := [1]) (xs := [x])
    rw [hA, npSolve_ok (by simp) (by simp)] at this
    simpa [Except.map, rbfEval, Basis.fn, gaussianSpline, Real.dist_eq] using this
  refine ⟨_, _, ?_, key 1, key 2⟩
  intro h
  have := Real.exp_injective h
  norm_num at this

private theorem perm_equiv {γ : Type*} {l l' : List γ} (h : l.Perm l') : ∃ e : Fin l.length ≃ Fin l'.length, ∀ i, l'[e i] = l[i] := by
  induction h with
  | nil => exact ⟨Equiv.refl _, fun i => i.elim0⟩
  | cons x _ ih =>
    obtain ⟨e, he⟩ := ih
    refine ⟨(finSuccEquiv _).trans ((Equiv.optionCongr e).trans (finSuccEquiv _).symm), fun i => ?_⟩
    refine Fin.cases ?_ (fun j => ?_) i
    · simp
    · have := he j
      simpa using this
  | swap x y l =>
    refine ⟨Equiv.swap 0 1, fun i => ?_⟩
    refine Fin.cases ?_ (fun j => ?_) i
    · simp
    · refine Fin.cases ?_ (fun k => ?_) j
      · have : Equiv.swap (0 : Fin (l.length + 2)) 1 (Fin.succ 0) = 0 := Equiv.swap_apply_right 0 1
        simp only [List.length_cons, this]
        rfl
      · have : Equiv.swap (0 : Fin (l.length + 2)) 1 k.succ.succ = k.succ.succ :=
          Equiv.swap_apply_of_ne_of_ne (Fin.succ_ne_zero _) (by rw [← Fin.succ_zero_eq_one]; intro h; exact Fin.succ_ne_zero _ (Fin.succ_injective _ h))
        simp only [List.length_cons, this]
        rfl
  | trans _ _ ih1 ih2 =>
    obtain ⟨e1, h1⟩ := ih1
    obtain ⟨e2, h2⟩ := ih2
    exact ⟨e1.trans e2, fun i => (h2 (e1 i)).trans (h1 i)⟩

/-- **C147** The order of the nodes is immaterial: nodes and data renumbered in the same way give the same outcome. -/
theorem C147_order {α : Type*} [PseudoMetricSpace α] (name : String) (r : ℝ) (X X' : List α) (y y' : Arr) (xs : List α) (out : Arr)
    (hy : y.length = X.length) (hp : (List.zip X y).Perm (List.zip X' y')) (hy' : y'.length = X'.length) :
    reconstructF name r X' y' xs out = reconstructF name r X y xs out := by
  symm
  have hlen : X.length = X'.length := by
    have := hp.length_eq
    simp only [List.length_zip, hy, hy', Nat.min_self] at this
    exact this
  obtain ⟨e, he⟩ := perm_equiv hp
  have hz : (List.zip X y).length = X.length := by simp [hy]
  have hz' : (List.zip X' y').length = X'.length := by simp [hy']
  set e' : Fin X.length ≃ Fin X'.length := (finCongr hz).symm.trans (e.trans (finCongr hz')) with he'
  have hpair : ∀ j : Fin X.length, X'[(e' j).1] = X[j.1] ∧ y'[(e' j).1]'(by omega) = y[j.1]'(by omega) := by
    intro j
    have h1 := he (Fin.cast hz.symm j)
    have h2 : (List.zip X' y')[(e (Fin.cast hz.symm j)).1] = (X'[(e' j).1], y'[(e' j).1]'(by omega)) := by
      rw [List.getElem_zip]; rfl
    have h3 : (List.zip X y)[(Fin.cast hz.symm j).1] = (X[j.1], y[j.1]'(by omega)) := by
      rw [List.getElem_zip]; rfl
    have h4 : (X'[(e' j).1], y'[(e' j).1]'(by omega)) = (X[j.1], y[j.1]'(by omega)) := by
      rw [← h2, ← h3]; exact h1
    exact Prod.mk.inj h4
  refine reconstructF_congr name r r X X' y y' xs xs out Iff.rfl e' rfl (by simp [hy, hy']) (fun j => ?_) ?_
  · rw [List.getElem?_eq_getElem (by omega), List.getElem?_eq_getElem (by omega), (hpair j).2]
  · intro b _
    refine ⟨1, one_ne_zero, fun i j => ?_, fun i hi hi' j => ?_⟩
    · have h1 := (hpair i).1
      have h2 := (hpair j).1
      simp only [weightsMatrix, Fin.getElem_fin, one_mul, h1, h2]
    · have h2 := (hpair j).1
      simp only [weightsMatrix, Fin.getElem_fin, one_mul, h2]

/-! ### Non-vacuity -/

/-- Three nodes with the Wendland basis: shifted by five and seen in a unit half as large with reversed direction, and in another order. -/
example : ∃ u : ℝ, reconstructF "beckert_wendland_c2_basis" 3 [(0 : ℝ), 1, 2] [4, 5, 7] [1/2] [0] = .ok [u] ∧
    reconstructF "beckert_wendland_c2_basis" 6 [(5 : ℝ), 3, 1] [4, 5, 7] [4] [0] = .ok [u] ∧
    reconstructF "beckert_wendland_c2_basis" 3 [(2 : ℝ), 0, 1] [7, 4, 5] [1/2] [0] = .ok [u] := by
  obtain ⟨out, h⟩ := (C32_solvable_iff_distinct 3 (by norm_num) [0, 1, 2] [4, 5, 7] rfl [1/2]).1.2 (by norm_num)
  obtain ⟨u, rfl⟩ : ∃ u, out = [u] := by
    rw [reconstructF_zero wendland_name (by norm_num)] at h
    rcases hw : npSolve (weightsMatrix .wendland 3 [(0 : ℝ), 1, 2] [0, 1, 2]) [4, 5, 7] with e | w
    · rw [hw] at h; cases h
    · rw [hw] at h
      exact ⟨_, (Except.ok.inj h).symm⟩
  have h' : reconstructF "beckert_wendland_c2_basis" 3 [(0 : ℝ), 1, 2] [4, 5, 7] [1/2] [0] = .ok [u] := h
  refine ⟨u, h', ?_, ?_⟩
  · have := C147_line 5 (-2) (by norm_num) "beckert_wendland_c2_basis" 3 [(0 : ℝ), 1, 2] [4, 5, 7] [1/2] [0]
    rw [h'] at this
    rw [← this]
    norm_num
  · rw [← h']
    refine C147_order _ _ _ _ _ _ _ _ rfl ?_ rfl
    exact (List.Perm.cons _ (List.Perm.swap _ _ _)).trans (List.Perm.swap _ _ _)

end
end BladeX
