import Verif.Lemmas.Wendland
import Verif.Lemmas.Edges

namespace BladeX
open Spec

/-- The Wendland interpolant of the data `y` over the nodes `X`, as a function on the line. -/
noncomputable def interpW (r : ℝ) (X : List ℝ) (y : Arr) : ℝ → ℝ :=
  rbfEval .wendland r X ((weightsMatrix .wendland r X X)⁻¹.mulVec fun i => y.getD i 0)

theorem interpW_solve {r : ℝ} {X : List ℝ} {y : Arr} (hl : y.length = X.length) (hr : 0 < r) (hX : X.Nodup) :
    npSolve (weightsMatrix .wendland r X X) y =
      .ok ((weightsMatrix .wendland r X X)⁻¹.mulVec fun i => y.getD i 0) := by
  rw [npSolve_ok hl (Wendland.det_ne_zero hr X hX)]
  congr 3
  funext i
  simp [List.getD_eq_getElem?_getD, hl]

theorem interpW_node {r : ℝ} {X : List ℝ} {y : Arr} (hl : y.length = X.length) (hr : 0 < r) (hX : X.Nodup)
    {i : Nat} {x v : ℝ} (hx : X[i]? = some x) (hv : y[i]? = some v) : interpW r X y x = v := by
  obtain ⟨h1, h2⟩ := List.getElem?_eq_some_iff.1 hx
  obtain ⟨h3, h4⟩ := List.getElem?_eq_some_iff.1 hv
  have := rbfEval_node (interpW_solve hl hr hX) ⟨i, h1⟩ h3
  rw [← h2, ← h4, ← this]; rfl

theorem interpW_linear {r : ℝ} {X : List ℝ} {y z : Arr} (hy : y.length = X.length) (hz : z.length = X.length)
    (a c x : ℝ) :
    interpW r X (List.zipWith (fun u v => a * u + c * v) y z) x = a * interpW r X y x + c * interpW r X z x := by
  unfold interpW
  have : ((weightsMatrix .wendland r X X)⁻¹.mulVec fun i =>
      (List.zipWith (fun u v => a * u + c * v) y z).getD i 0) =
      a • ((weightsMatrix .wendland r X X)⁻¹.mulVec fun i => y.getD i 0) +
      c • ((weightsMatrix .wendland r X X)⁻¹.mulVec fun i => z.getD i 0) := by
    rw [← Matrix.mulVec_smul, ← Matrix.mulVec_smul, ← Matrix.mulVec_add]
    congr 1
    funext i
    simp [List.getD_eq_getElem?_getD, List.getElem?_zipWith, hy, hz]
  rw [this]
  simp only [rbfEval, Pi.add_apply, Pi.smul_apply, smul_eq_mul, Finset.mul_sum, ← Finset.sum_add_distrib]
  exact Finset.sum_congr rfl fun j _ => by ring

theorem interpW_smul {r : ℝ} {X : List ℝ} {y : Arr} (a x : ℝ) :
    interpW r X (y.map (· * a)) x = a * interpW r X y x := by
  unfold interpW
  have : ((weightsMatrix .wendland r X X)⁻¹.mulVec fun i : Fin X.length => (y.map (· * a)).getD i 0) =
      a • ((weightsMatrix .wendland r X X)⁻¹.mulVec fun i => y.getD i 0) := by
    rw [← Matrix.mulVec_smul]
    congr 1
    funext i
    simp only [List.getD_eq_getElem?_getD, List.getElem?_map, Pi.smul_apply, smul_eq_mul]
    rcases y[i.1]? with _ | v <;> simp [mul_comm]
  rw [this]
  simp only [rbfEval, Pi.smul_apply, smul_eq_mul, Finset.mul_sum]
  exact Finset.sum_congr rfl fun j _ => by ring

theorem reconstruct_wendland {r : ℝ} {X : List ℝ} {y : Arr} (hl : y.length = X.length) (hr : 0 < r) (hX : X.Nodup)
    (xs : List ℝ) : reconstructF "beckert_wendland_c2_basis" r X y xs (List.replicate xs.length 0) =
      .ok (xs.map (interpW r X y)) := by
  rw [reconstructF_zero wendland_name hr.ne', interpW_solve hl hr hX]; rfl

/-- What a successful `reconstruct_f` call with the Wendland basis means. -/
theorem reconstruct_wendland_iff {r : ℝ} {X : List ℝ} {y : Arr} (hr : 0 < r)
    (xs : List ℝ) (out : Arr) : reconstructF "beckert_wendland_c2_basis" r X y xs (List.replicate xs.length 0) =
      .ok out ↔ y.length = X.length ∧ X.Nodup ∧ out = xs.map (interpW r X y) := by
  constructor
  · intro h
    rw [reconstructF_zero wendland_name hr.ne'] at h
    rcases hw : npSolve (weightsMatrix .wendland r X X) y with e | w
    · rw [hw] at h; simp [Except.map] at h
    · obtain ⟨hl, hd, _⟩ := npSolve_spec hw
      have hnd : X.Nodup := by
        by_contra hcon
        rw [List.Nodup, List.pairwise_iff_getElem] at hcon
        push Not at hcon
        obtain ⟨i, j, hi, hj, hij, he⟩ := hcon
        apply hd
        apply Matrix.det_zero_of_row_eq (i := ⟨i, hi⟩) (j := ⟨j, hj⟩) (by simp; omega)
        funext k
        simp [weightsMatrix, he]
      refine ⟨hl, hnd, ?_⟩
      have := reconstruct_wendland hl hr hnd xs
      rw [reconstructF_zero wendland_name hr.ne', h] at this
      exact Except.ok.inj this
  · rintro ⟨hl, hnd, rfl⟩
    exact reconstruct_wendland hl hr hnd xs

namespace Profile

theorem interpSurface_ok_iff {xs ys : Arr} {num : Nat} {r : ℝ} (hr : 0 < r) {o : Arr × Arr} :
    interpSurface xs ys num r = .ok o ↔ ∃ x0 x1, xs.head? = some x0 ∧ xs.getLast? = some x1 ∧
      ys.length = xs.length ∧ xs.Nodup ∧
      o = (linspaceN x0 x1 num, (linspaceN x0 x1 num).map (interpW r xs ys)) := by
  unfold interpSurface
  rcases h0 : getFirst xs with e | x0
  · simp [bind, Except.bind]
    intro x0' hx0'
    rw [← getFirst_ok_iff] at hx0'; rw [hx0'] at h0; cases h0
  rcases h1 : getLast xs with e | x1
  · simp [bind, Except.bind]
    intro x0' hx0' x1' hx1'
    rw [← getLast_ok_iff] at hx1'; rw [hx1'] at h1; cases h1
  rw [getFirst_ok_iff] at h0
  rw [getLast_ok_iff] at h1
  simp only [bind, Except.bind]
  have hrep : List.replicate num (0 : ℝ) = List.replicate (linspaceN x0 x1 num).length 0 := by
    rw [linspaceN_length]
  rw [hrep]
  rcases hrec : reconstructF "beckert_wendland_c2_basis" r xs ys (linspaceN x0 x1 num)
    (List.replicate (linspaceN x0 x1 num).length 0) with e | yy
  · simp only [h0, h1, Option.some.injEq]
    constructor
    · intro h; cases h
    · rintro ⟨_, _, rfl, rfl, hl, hn, rfl⟩
      rw [reconstruct_wendland hl hr hn] at hrec; cases hrec
  · rw [reconstruct_wendland_iff hr] at hrec
    obtain ⟨hl, hn, rfl⟩ := hrec
    simp only [pure, Except.pure, Except.ok.injEq, h0, h1, Option.some.injEq]
    constructor
    · rintro rfl; exact ⟨_, _, rfl, rfl, hl, hn, rfl⟩
    · rintro ⟨_, _, rfl, rfl, _, _, rfl⟩; rfl

theorem interpCore_ok_iff {P : Profile} {num : Nat} {r : ℝ} (hr : 0 < r) {t : Interp} :
    P.interpCore num r = .ok t ↔ ∃ xu0 xu1 xd0 xd1, P.xup.head? = some xu0 ∧ P.xup.getLast? = some xu1 ∧
      P.xdown.head? = some xd0 ∧ P.xdown.getLast? = some xd1 ∧ P.Shaped ∧ P.xup.Nodup ∧ P.xdown.Nodup ∧
      t = ⟨linspaceN xu0 xu1 num, linspaceN xd0 xd1 num, (linspaceN xu0 xu1 num).map (interpW r P.xup P.yup),
        (linspaceN xd0 xd1 num).map (interpW r P.xdown P.ydown)⟩ := by
  unfold interpCore
  rcases hu : interpSurface P.xup P.yup num r with e | u
  · simp only [bind, Except.bind]
    constructor
    · intro h; cases h
    · rintro ⟨xu0, xu1, xd0, xd1, h1, h2, h3, h4, hs, n1, n2, _⟩
      have := (interpSurface_ok_iff (num := num) hr).2 ⟨xu0, xu1, h1, h2, hs.1.symm, n1, rfl⟩
      rw [this] at hu; cases hu
  · rcases hd : interpSurface P.xdown P.ydown num r with e | d
    · simp only [bind, Except.bind]
      constructor
      · intro h; cases h
      · rintro ⟨xu0, xu1, xd0, xd1, h1, h2, h3, h4, hs, n1, n2, _⟩
        have := (interpSurface_ok_iff (num := num) hr).2 ⟨xd0, xd1, h3, h4, hs.2.symm, n2, rfl⟩
        rw [this] at hd; cases hd
    · rw [interpSurface_ok_iff hr] at hu hd
      obtain ⟨xu0, xu1, h1, h2, l1, n1, rfl⟩ := hu
      obtain ⟨xd0, xd1, h3, h4, l2, n2, rfl⟩ := hd
      simp only [bind, Except.bind, pure, Except.pure, Except.ok.injEq, h1, h2, h3, h4, Option.some.injEq]
      constructor
      · rintro rfl; exact ⟨_, _, _, _, rfl, rfl, rfl, rfl, ⟨l1.symm, l2.symm⟩, n1, n2, rfl⟩
      · rintro ⟨_, _, _, _, rfl, rfl, rfl, rfl, _, _, _, rfl⟩; rfl

theorem interpolate_int {P : Profile} {k : Int} {r : ℝ} (hk : 0 < k) (hr : 0 < r) :
    P.interpolateCoordinates (.int k) r = P.interpCore k.toNat r := by
  unfold interpolateCoordinates
  simp only [bind, Except.bind, pure, Except.pure, throw, throwThe, MonadExceptOf.throw]
  rw [if_neg (by push Not; exact ⟨hk, hr⟩)]

end Profile
end BladeX
