import Verif.Lemmas.Camber
import Verif.Props.Rbf
import Verif.Props.ProfileMeasure

/-! # Interpolation with a fixed support radius, and the size of the profile -/

namespace BladeX
noncomputable section
open Spec Classical

/-- Weights that reproduce the data are the weights of the interpolant. -/
theorem interpW_eq {r : ℝ} {X : List ℝ} {y : Arr} (hr : 0 < r) (hX : X.Nodup) (w : Fin X.length → ℝ)
    (hw : (weightsMatrix .wendland r X X).mulVec w = fun i : Fin X.length => y.getD i 0) (x : ℝ) :
    interpW r X y x = rbfEval .wendland r X w x := by
  have hdet : IsUnit (weightsMatrix .wendland r X X).det := isUnit_iff_ne_zero.2 (Wendland.det_ne_zero hr X hX)
  have hw' : w = (weightsMatrix .wendland r X X)⁻¹.mulVec fun i : Fin X.length => y.getD i 0 := by
    rw [← hw, Matrix.mulVec_mulVec, Matrix.nonsing_inv_mul _ hdet, Matrix.one_mulVec]
  unfold interpW
  rw [← hw']

theorem wendland_unit {l : ℝ} (hl : 0 < l) (d r : ℝ) : wendlandC2 (l * d) (l * r) = wendlandC2 d r := by
  unfold wendlandC2
  rw [mul_div_mul_left _ _ hl.ne']

/-- The interpolant of stretched data, with the support radius stretched like the abscissae, has its values stretched like the ordinates. -/
theorem interpW_stretch {r α : ℝ} (β : ℝ) {X : List ℝ} {y : Arr} (hr : 0 < r) (hα : α ≠ 0) (hX : X.Nodup) (x : ℝ) :
    interpW (|α| * r) (X.map (· * α)) (y.map (· * β)) (x * α) = interpW r X y x * β := by
  have hl : 0 < |α| := abs_pos.2 hα
  have hX' : (X.map (· * α)).Nodup := hX.map (mul_left_injective₀ hα)
  set w := (weightsMatrix .wendland r X X)⁻¹.mulVec fun i : Fin X.length => y.getD i 0 with hw
  have hdet : IsUnit (weightsMatrix .wendland r X X).det := isUnit_iff_ne_zero.2 (Wendland.det_ne_zero hr X hX)
  have hsol : (weightsMatrix .wendland r X X).mulVec w = fun i : Fin X.length => y.getD i 0 := by
    rw [hw, Matrix.mulVec_mulVec, Matrix.mul_nonsing_inv _ hdet, Matrix.one_mulVec]
  have hlen : (X.map (· * α)).length = X.length := by simp
  let e : Fin (X.map (· * α)).length ≃ Fin X.length := finCongr hlen
  have hval : ∀ i, (e i).1 = i.1 := fun i => rfl
  have hdist : ∀ a b : ℝ, dist (a * α) (b * α) = |α| * dist a b := by
    intro a b
    rw [Real.dist_eq, Real.dist_eq, ← sub_mul, abs_mul, mul_comm]
  have heval : ∀ z, rbfEval .wendland (|α| * r) (X.map (· * α)) (fun i => w (e i) * β) (z * α) = rbfEval .wendland r X w z * β := by
    intro z
    simp only [rbfEval, Finset.sum_mul]
    refine Fintype.sum_equiv e _ _ fun j => ?_
    have : (X.map (· * α))[j] = X[e j] * α := by simp [hval]
    rw [this, hdist]
    simp only [Basis.fn]
    rw [wendland_unit hl]
    ring
  rw [interpW_eq (mul_pos hl hr) hX' (fun i => w (e i) * β), heval]
  · rfl
  · funext i
    have h1 := congrFun hsol (e i)
    have h2 : (weightsMatrix .wendland (|α| * r) (X.map (· * α)) (X.map (· * α))).mulVec (fun i => w (e i) * β) i =
        rbfEval .wendland (|α| * r) (X.map (· * α)) (fun i => w (e i) * β) (X[e i] * α) := by
      simp only [rbfEval, Matrix.mulVec, dotProduct, weightsMatrix]
      refine Finset.sum_congr rfl fun k _ => ?_
      have : (X.map (· * α))[i] = X[e i] * α := by simp [hval]
      rw [this, mul_comm]
    have h3 : (weightsMatrix .wendland r X X).mulVec w (e i) = rbfEval .wendland r X w X[e i] := by
      simp only [rbfEval, Matrix.mulVec, dotProduct, weightsMatrix]
      exact Finset.sum_congr rfl fun k _ => mul_comm _ _
    rw [h2, heval, ← h3, h1]
    simp only [hval, List.getD_eq_getElem?_getD, List.getElem?_map]
    rcases y[i.1]? with _ | v <;> simp

/-- The interpolant with the support radius in the unit of the data: multiplying everything by a positive number multiplies its values by
that number. -/
theorem interpW_unit {r l : ℝ} {X : List ℝ} {y : Arr} (hr : 0 < r) (hl : 0 < l) (hX : X.Nodup) (x : ℝ) :
    interpW (l * r) (X.map (· * l)) (y.map (· * l)) (x * l) = interpW r X y x * l := by
  have := interpW_stretch (y := y) l hr hl.ne' hX x
  rwa [abs_of_pos hl] at this

/-- Nodes at least the support radius apart, and a point that far from all of them: the interpolant is zero there. -/
theorem interpW_far {r : ℝ} {X : List ℝ} {y : Arr} (hr : 0 < r) (hl : y.length = X.length)
    (hsep : X.Pairwise fun a b => r ≤ |a - b|) {x : ℝ} (hx : ∀ p ∈ X, r ≤ |x - p|) : interpW r X y x = 0 := by
  have hX : X.Nodup := hsep.imp fun h hab => by subst hab; simp at h; linarith
  have hsep' : ∀ i j : Fin X.length, i ≠ j → r ≤ |X[i] - X[j]| := by
    intro i j hij
    have hp := List.pairwise_iff_getElem.1 hsep
    rcases lt_trichotomy i.1 j.1 with h | h | h
    · exact hp i.1 j.1 i.2 j.2 h
    · exact absurd (Fin.ext h) hij
    · rw [abs_sub_comm]; exact hp j.1 i.1 j.2 i.2 h
  obtain ⟨out, h1, _, h3⟩ := C31_separated_nodes r hr X y hl hsep' [x]
  rw [reconstruct_wendland hl hr hX] at h1
  obtain rfl := Except.ok.inj h1
  exact h3 0 (by simp) (by simp) (by simpa using hx)

theorem least_gap (L : List ℝ) : ∃ δ > 0, ∀ d ∈ L, 0 < d → δ ≤ d := by
  induction L with
  | nil => exact ⟨1, one_pos, by simp⟩
  | cons a L ih =>
    obtain ⟨δ, h0, h⟩ := ih
    by_cases ha : 0 < a
    · refine ⟨min δ a, lt_min h0 ha, ?_⟩
      intro d hd hd0
      rcases List.mem_cons.1 hd with rfl | hd
      · exact min_le_right _ _
      · exact (min_le_left _ _).trans (h d hd hd0)
    · refine ⟨δ, h0, ?_⟩
      intro d hd hd0
      rcases List.mem_cons.1 hd with rfl | hd
      · exact absurd hd0 ha
      · exact h d hd hd0

/-- Enlarged enough, different points of two lists are at least one apart. -/
theorem gap_grows (X S : List ℝ) : ∃ L₀ > 0, ∀ l : ℝ, L₀ ≤ |l| → ∀ a ∈ X, ∀ b ∈ S, a ≠ b → 1 ≤ |a * l - b * l| := by
  obtain ⟨δ, h0, h⟩ := least_gap (X.flatMap fun a => S.map fun b => |a - b|)
  refine ⟨1 / δ, by positivity, ?_⟩
  intro l hl a ha b hb hab
  have hd := h |a - b| (List.mem_flatMap.2 ⟨a, ha, List.mem_map.2 ⟨b, hb, rfl⟩⟩) (abs_pos.2 (sub_ne_zero.2 hab))
  rw [← sub_mul, abs_mul]
  calc (1 : ℝ) = δ * (1 / δ) := by field_simp
    _ ≤ |a - b| * |l| := mul_le_mul hd hl (by positivity) (abs_nonneg _)

theorem pairwise_gap {X : List ℝ} (hX : X.Nodup) {l : ℝ} (h : ∀ a ∈ X, ∀ b ∈ X, a ≠ b → 1 ≤ |a * l - b * l|) :
    (X.map (· * l)).Pairwise fun a b => 1 ≤ |a - b| := by
  rw [List.pairwise_map]
  exact hX.imp_of_mem fun ha hb hab => h _ ha _ hb hab

theorem linspaceN_mul (a b l : ℝ) (n : Nat) : linspaceN (a * l) (b * l) n = (linspaceN a b n).map (· * l) := by
  simp only [linspaceN, List.map_map]
  congr 1
  funext i
  simp only [Function.comp]
  ring

theorem linspaceN_add (a b c : ℝ) (n : Nat) : linspaceN (a + c) (b + c) n = (linspaceN a b n).map (· + c) := by
  simp only [linspaceN, List.map_map]
  congr 1
  funext i
  simp only [Function.comp]
  ring

namespace Profile

/-- Abscissae multiplied by `α`, ordinates by `β`. -/
def stretch (α β : ℝ) (P : Profile) : Profile :=
  { P with xup := P.xup.map (· * α), xdown := P.xdown.map (· * α), yup := P.yup.map (· * β), ydown := P.ydown.map (· * β) }

theorem npEqAll_map {f : ℝ → ℝ} (hf : Function.Injective f) (a b : Arr) : npEqAll (a.map f) (b.map f) = npEqAll a b := by
  unfold npEqAll
  by_cases h : a.length = b.length
  · simp [h, (List.map_injective_iff.2 hf).eq_iff]
  · simp only [List.length_map, h, if_false]
    match a, b with
    | [x], b => simp [hf.eq_iff]
    | [], [y] => simp
    | [], [] => simp
    | [], _ :: _ :: _ => simp
    | _ :: _ :: _, [y] => simp [hf.eq_iff]
    | _ :: _ :: _, [] => simp
    | _ :: _ :: _, _ :: _ :: _ => simp

theorem effectiveN_stretch (P : Profile) {α : ℝ} (hα : α ≠ 0) (β : ℝ) (n : Option Int) : (P.stretch α β).effectiveN n = P.effectiveN n := by
  unfold effectiveN
  simp only [stretch]
  rw [npEqAll_map (mul_left_injective₀ hα)]

/-- Mirror images (and stretched ordinates): the interpolation with a fixed radius follows. -/
theorem interpolate_stretch {P : Profile} {α : ℝ} (hα : |α| = 1) (β : ℝ) {k : Int} {R : ℝ} (hR : 0 < R) {t : Interp}
    (h : P.interpolateCoordinates (.int k) R = .ok t) :
    (P.stretch α β).interpolateCoordinates (.int k) R =
      .ok ⟨t.xxUp.map (· * α), t.xxDown.map (· * α), t.yyUp.map (· * β), t.yyDown.map (· * β)⟩ := by
  have hα0 : α ≠ 0 := by rintro rfl; simp at hα
  by_cases hk : 0 < k
  · rw [interpolate_int hk hR, interpCore_ok_iff hR] at h
    obtain ⟨xu0, xu1, xd0, xd1, h1, h2, h3, h4, hs, n1, n2, rfl⟩ := h
    rw [interpolate_int hk hR, interpCore_ok_iff hR]
    have key : ∀ (X y : Arr) (hX : X.Nodup) (x : ℝ), interpW R (X.map (· * α)) (y.map (· * β)) (x * α) = interpW R X y x * β := by
      intro X y hX x
      have := interpW_stretch (y := y) β hR hα0 hX x
      rwa [hα, one_mul] at this
    refine ⟨xu0 * α, xu1 * α, xd0 * α, xd1 * α, by simp [stretch, h1], by simp [stretch, h2], by simp [stretch, h3], by simp [stretch, h4],
      ?_, n1.map (mul_left_injective₀ hα0), n2.map (mul_left_injective₀ hα0), ?_⟩
    · simpa [Shaped, stretch] using hs
    · simp only [linspaceN_mul, List.map_map, Interp.mk.injEq, true_and]
      constructor <;> refine List.map_congr_left fun x _ => ?_
      · exact (key _ _ n1 x).symm
      · exact (key _ _ n2 x).symm
  · exfalso
    simp only [interpolateCoordinates, bind, Except.bind, pure, Except.pure, throw, throwThe, MonadExceptOf.throw] at h
    rw [if_pos (Or.inl (not_lt.1 hk))] at h
    cases h

theorem maxThickness_stretch {P : Profile} {α : ℝ} (hα : |α| = 1) (β : ℝ) {n : Option Int} {m : ℝ} (h : P.maxThickness n = .ok m) :
    (P.stretch α β).maxThickness n = .ok (|β| * m) := by
  have hα0 : α ≠ 0 := by rintro rfl; simp at hα
  have hb : ∀ u d : Arr, bzip (fun a b => |a - b|) (u.map (· * β)) (d.map (· * β)) = (bzip (fun a b => |a - b|) u d).map fun d => d.map (|β| * ·) :=
    fun u d => bzip_map _ _ _ (|β| * ·) (fun x y => by rw [← sub_mul, abs_mul, mul_comm]) _ _
  have hmax : ∀ d : Arr, npMax d = .ok m → npMax (d.map (|β| * ·)) = .ok (|β| * m) := fun d hd =>
    npMax_map (fun _ _ hab => mul_le_mul_of_nonneg_left hab (abs_nonneg β)) hd
  unfold maxThickness at h ⊢
  rw [effectiveN_stretch P hα0]
  rcases he : P.effectiveN n with e | k
  · rw [he] at h; cases h
  rw [he] at h
  simp only [bind, Except.bind] at h ⊢
  rcases k with _ | k
  · simp only at h ⊢
    have hb' : bzip (fun a b => |a - b|) (P.stretch α β).yup (P.stretch α β).ydown = _ := hb P.yup P.ydown
    rw [hb']
    rcases hd : bzip (fun a b => |a - b|) P.yup P.ydown with e | d
    · rw [hd] at h; cases h
    · rw [hd] at h
      exact hmax d h
  · simp only at h ⊢
    rcases ht : P.interpolateCoordinates (.int k) 1 with e | t
    · rw [ht] at h; cases h
    rw [ht] at h
    rw [interpolate_stretch hα β one_pos ht]
    simp only at h ⊢
    rw [hb]
    rcases hd : bzip (fun a b => |a - b|) t.yyUp t.yyDown with e | d
    · rw [hd] at h; cases h
    · rw [hd] at h
      exact hmax d h

theorem setThickness_stretch {P Q : Profile} {α t : ℝ} (hα : |α| = 1) {β : ℝ} (hβ : β ≠ 0) (h : P.setThicknessMax t = .ok Q) :
    (P.stretch α β).setThicknessMax (|β| * t) = .ok (Q.stretch α β) := by
  unfold setThicknessMax at h ⊢
  rcases hm : P.maxThickness none with e | m
  · rw [hm] at h; cases h
  rw [hm] at h
  rw [maxThickness_stretch hα β hm]
  obtain rfl := Except.ok.inj h
  have hal : |β| ≠ 0 := abs_ne_zero.2 hβ
  have e : (if |β| * m ≠ 0 then |β| * t / (|β| * m) else 0) = if m ≠ 0 then t / m else 0 := by
    by_cases h0 : m = 0
    · simp [h0]
    · rw [if_pos (mul_ne_zero hal h0), if_pos h0, mul_div_mul_left _ _ hal]
  simp only [bind, Except.bind, pure, Except.pure, e, stretch, List.map_map, Except.ok.injEq, Profile.mk.injEq, and_true, true_and]
  constructor <;> exact List.map_congr_left fun x _ => by simp only [Function.comp]; ring

end Profile

end
end BladeX
