import Verif.Spec.CubicSpline
import Mathlib.LinearAlgebra.FiniteDimensional.Basic
import Mathlib.LinearAlgebra.FiniteDimensional.Lemmas
import Mathlib.Data.Finset.Max
import Mathlib.Analysis.Calculus.MeanValue
import Mathlib.Analysis.Calculus.Deriv.MeanValue
import Mathlib.Analysis.Calculus.Deriv.Pow
import Mathlib.Tactic

/-! # Existence, uniqueness and accuracy of not-a-knot cubic splines -/

namespace BladeX.Spec
noncomputable section

namespace Cubic

/-- The cubic with given coefficients about `x`. -/
def about (x A B C D : ℝ) : Cubic :=
  ⟨A - B * x + C * x ^ 2 - D * x ^ 3, B - 2 * C * x + 3 * D * x ^ 2, C - 3 * D * x, D⟩

theorem about_eval (x A B C D t : ℝ) : (about x A B C D).eval t = A + B * (t - x) + C * (t - x) ^ 2 + D * (t - x) ^ 3 := by
  simp only [about, eval]; ring

theorem about_slope (x A B C D t : ℝ) : (about x A B C D).slope t = B + 2 * C * (t - x) + 3 * D * (t - x) ^ 2 := by
  simp only [about, slope]; ring

theorem about_bend (x A B C D t : ℝ) : (about x A B C D).bend t = 2 * C + 6 * D * (t - x) := by
  simp only [about, bend]; ring

/-- The cubic with given values and second derivatives at two points. -/
def piece (x₀ x₁ y₀ y₁ M₀ M₁ : ℝ) : Cubic :=
  about x₀ y₀ ((y₁ - y₀) / (x₁ - x₀) - (x₁ - x₀) * (2 * M₀ + M₁) / 6) (M₀ / 2) ((M₁ - M₀) / (6 * (x₁ - x₀)))

theorem piece_spec {x₀ x₁ : ℝ} (h : x₀ ≠ x₁) (y₀ y₁ M₀ M₁ : ℝ) :
    (piece x₀ x₁ y₀ y₁ M₀ M₁).eval x₀ = y₀ ∧ (piece x₀ x₁ y₀ y₁ M₀ M₁).eval x₁ = y₁ ∧
    (piece x₀ x₁ y₀ y₁ M₀ M₁).bend x₀ = M₀ ∧ (piece x₀ x₁ y₀ y₁ M₀ M₁).bend x₁ = M₁ := by
  have h' : x₁ - x₀ ≠ 0 := sub_ne_zero.2 h.symm
  refine ⟨?_, ?_, ?_, ?_⟩
  · rw [piece, about_eval]; ring
  · rw [piece, about_eval]; field_simp; ring
  · rw [piece, about_bend]; ring
  · rw [piece, about_bend]; field_simp; ring

/-- The derivative at the left and at the right end from values and second derivatives. -/
theorem slope_left (p : Cubic) {x₀ x₁ : ℝ} (h : x₀ ≠ x₁) :
    p.slope x₀ = (p.eval x₁ - p.eval x₀) / (x₁ - x₀) - (x₁ - x₀) * (2 * p.bend x₀ + p.bend x₁) / 6 := by
  have h' : x₁ - x₀ ≠ 0 := sub_ne_zero.2 h.symm
  simp only [slope, eval, bend]
  field_simp
  ring

theorem slope_right (p : Cubic) {x₀ x₁ : ℝ} (h : x₀ ≠ x₁) :
    p.slope x₁ = (p.eval x₁ - p.eval x₀) / (x₁ - x₀) + (x₁ - x₀) * (p.bend x₀ + 2 * p.bend x₁) / 6 := by
  have h' : x₁ - x₀ ≠ 0 := sub_ne_zero.2 h.symm
  simp only [slope, eval, bend]
  field_simp
  ring

theorem ext_two {p q : Cubic} {x₀ x₁ : ℝ} (h : x₀ ≠ x₁) (e₀ : p.eval x₀ = q.eval x₀) (e₁ : p.eval x₁ = q.eval x₁)
    (b₀ : p.bend x₀ = q.bend x₀) (b₁ : p.bend x₁ = q.bend x₁) : p = q := by
  have h' : x₁ - x₀ ≠ 0 := sub_ne_zero.2 h.symm
  simp only [eval, bend] at e₀ e₁ b₀ b₁
  have hd : p.d = q.d := by
    have : (p.d - q.d) * (x₁ - x₀) = 0 := by linear_combination (b₁ - b₀) / 6
    rcases mul_eq_zero.1 this with h | h
    · linarith
    · exact absurd h h'
  have hc : p.c = q.c := by rw [hd] at b₀; linarith
  rw [hd, hc] at e₀ e₁
  have hb : p.b = q.b := by
    have : (p.b - q.b) * (x₁ - x₀) = 0 := by linear_combination e₁ - e₀
    rcases mul_eq_zero.1 this with h | h
    · linarith
    · exact absurd h h'
  rw [hb] at e₀
  exact Cubic.ext (by linarith) hb hc hd

theorem ext_one {p q : Cubic} {x₀ x₁ : ℝ} (h : x₀ ≠ x₁) (e₀ : p.eval x₀ = q.eval x₀) (s₀ : p.slope x₀ = q.slope x₀)
    (b₀ : p.bend x₀ = q.bend x₀) (b₁ : p.bend x₁ = q.bend x₁) : p = q := by
  have h' : x₁ - x₀ ≠ 0 := sub_ne_zero.2 h.symm
  simp only [eval, slope, bend] at e₀ s₀ b₀ b₁
  have hd : p.d = q.d := by
    have : (p.d - q.d) * (x₁ - x₀) = 0 := by linear_combination (b₁ - b₀) / 6
    rcases mul_eq_zero.1 this with h | h
    · linarith
    · exact absurd h h'
  have hc : p.c = q.c := by rw [hd] at b₀; linarith
  have hb : p.b = q.b := by rw [hd, hc] at s₀; linarith
  rw [hd, hc, hb] at e₀
  exact Cubic.ext (by linarith) hb hc hd

end Cubic

/-- The equations of the second derivatives `M` at the nodes. -/
structure Moments (m : Nat) (h d M : Nat → ℝ) : Prop where
  first : h 1 * M 0 = (h 0 + h 1) * M 1 - h 0 * M 2
  last : h (m + 1) * M (m + 3) = (h (m + 1) + h (m + 2)) * M (m + 2) - h (m + 2) * M (m + 1)
  row : ∀ i ≤ m + 1, h i * M i + 2 * (h i + h (i + 1)) * M (i + 1) + h (i + 1) * M (i + 2) = d i

private theorem end_bound {h₀ h₁ M₁ M₂ D K : ℝ} (p₀ : 0 < h₀) (p₁ : 0 < h₁) (hK : 0 ≤ K) (hm : |M₂| ≤ |M₁|)
    (hD : |D| ≤ 3 * (h₀ + h₁) * K) (he : (h₀ + h₁) * ((h₀ + 2 * h₁) * M₁ + (h₁ - h₀) * M₂) = h₁ * D) : |M₁| ≤ 3 * K := by
  have hs : 0 < h₀ + h₁ := by linarith
  have e : (h₀ + 2 * h₁) * M₁ = h₁ * D / (h₀ + h₁) - (h₁ - h₀) * M₂ := by
    field_simp; linarith
  have b1 : |h₁ * D / (h₀ + h₁)| ≤ 3 * h₁ * K := by
    rw [abs_div, abs_of_pos hs, div_le_iff₀ hs, abs_mul, abs_of_pos p₁]
    nlinarith
  have b2 : (h₀ + 2 * h₁) * |M₁| ≤ 3 * h₁ * K + |h₁ - h₀| * |M₁| := by
    calc (h₀ + 2 * h₁) * |M₁| = |(h₀ + 2 * h₁) * M₁| := by rw [abs_mul, abs_of_pos (show 0 < h₀ + 2 * h₁ by linarith)]
      _ ≤ |h₁ * D / (h₀ + h₁)| + |(h₁ - h₀) * M₂| := by rw [e]; exact abs_sub _ _
      _ ≤ _ := by
        rw [abs_mul]
        have := mul_le_mul_of_nonneg_left hm (abs_nonneg (h₁ - h₀))
        linarith
  have m0 := abs_nonneg M₁
  rcases le_total h₀ h₁ with hh | hh
  · rw [abs_of_nonneg (show 0 ≤ h₁ - h₀ by linarith)] at b2
    have : h₁ * |M₁| ≤ h₁ * (3 * K) := by nlinarith
    exact le_of_mul_le_mul_left this p₁
  · rw [abs_of_nonpos (show h₁ - h₀ ≤ 0 by linarith)] at b2
    have : h₁ * |M₁| ≤ h₁ * K := by nlinarith
    have := le_of_mul_le_mul_left this p₁
    linarith

/-- The second derivatives at the inner nodes are bounded by the right hand sides. -/
theorem Moments.bound {m : Nat} {h d M : Nat → ℝ} (H : Moments m h d M) (hpos : ∀ i ≤ m + 2, 0 < h i) {K : ℝ} (hK : 0 ≤ K)
    (hd : ∀ i ≤ m + 1, |d i| ≤ 3 * (h i + h (i + 1)) * K) : ∀ i ≤ m + 1, |M (i + 1)| ≤ 3 * K := by
  obtain ⟨k, hk, hmax⟩ := Finset.exists_max_image (Finset.range (m + 2)) (fun i => |M (i + 1)|) ⟨0, by simp⟩
  rw [Finset.mem_range] at hk
  have hmax' : ∀ i ≤ m + 1, |M (i + 1)| ≤ |M (k + 1)| := fun i hi => hmax i (by rw [Finset.mem_range]; omega)
  suffices hb : |M (k + 1)| ≤ 3 * K from fun i hi => (hmax' i hi).trans hb
  have r := H.row k (by omega)
  by_cases k0 : k = 0
  · subst k0
    refine end_bound (hpos 0 (by omega)) (hpos 1 (by omega)) hK (hmax' 1 (by omega)) (hd 0 (by omega)) ?_
    have f := H.first
    simp only [zero_add] at r
    rw [← r]
    linear_combination (-h 0) * f
  by_cases k1 : k = m + 1
  · subst k1
    refine end_bound (h₀ := h (m + 2)) (h₁ := h (m + 1)) (M₂ := M (m + 1)) (D := d (m + 1)) (hpos _ (by omega)) (hpos _ (by omega)) hK
      (hmax' m (by omega)) (by have := hd (m + 1) le_rfl; rwa [add_comm (h (m + 1 + 1))] at *) ?_
    have f := H.last
    rw [← r]
    linear_combination (-h (m + 2)) * f
  obtain ⟨j, rfl⟩ : ∃ j, k = j + 1 := ⟨k - 1, by omega⟩
  have p0 := hpos (j + 1) (by omega)
  have p1 := hpos (j + 2) (by omega)
  have a0 := hmax' j (by omega)
  have a2 := hmax' (j + 2) (by omega)
  have D := hd (j + 1) (by omega)
  set μ := |M (j + 1 + 1)| with hμ
  have e : 2 * (h (j + 1) + h (j + 1 + 1)) * M (j + 1 + 1) = d (j + 1) - h (j + 1) * M (j + 1) - h (j + 1 + 1) * M (j + 1 + 2) := by linarith
  have b : 2 * (h (j + 1) + h (j + 1 + 1)) * μ ≤ 3 * (h (j + 1) + h (j + 1 + 1)) * K + h (j + 1) * μ + h (j + 1 + 1) * μ := by
    calc 2 * (h (j + 1) + h (j + 1 + 1)) * μ = |2 * (h (j + 1) + h (j + 1 + 1)) * M (j + 1 + 1)| := by
          rw [abs_mul, abs_of_pos (by linarith)]
      _ ≤ |d (j + 1)| + |h (j + 1) * M (j + 1)| + |h (j + 1 + 1) * M (j + 1 + 2)| := by
          rw [e]; exact (abs_sub _ _).trans (by gcongr; exact abs_sub _ _)
      _ ≤ _ := by
          rw [abs_mul, abs_mul, abs_of_pos p0, abs_of_pos p1]
          have := mul_le_mul_of_nonneg_left a0 p0.le
          have := mul_le_mul_of_nonneg_left a2 p1.le
          linarith
  have : (h (j + 1) + h (j + 1 + 1)) * μ ≤ (h (j + 1) + h (j + 1 + 1)) * (3 * K) := by nlinarith
  exact le_of_mul_le_mul_left this (by linarith)

/-- Without right hand sides there are no second derivatives. -/
theorem Moments.zero {m : Nat} {h M : Nat → ℝ} (H : Moments m h (fun _ => 0) M) (hpos : ∀ i ≤ m + 2, 0 < h i) : ∀ i ≤ m + 3, M i = 0 := by
  have hb := H.bound hpos le_rfl (by intro i hi; simp)
  have inner : ∀ i ≤ m + 1, M (i + 1) = 0 := fun i hi => by simpa using hb i hi
  intro i hi
  rcases Nat.eq_zero_or_pos i with rfl | hp
  · have f := H.first
    rw [inner 0 (by omega), inner 1 (by omega)] at f
    have : h 1 * M 0 = 0 := by linarith
    exact (mul_eq_zero.1 this).resolve_left (hpos 1 (by omega)).ne'
  by_cases hl : i = m + 3
  · subst hl
    have f := H.last
    rw [inner (m + 1) le_rfl, inner m (by omega)] at f
    have : h (m + 1) * M (m + 3) = 0 := by linarith
    exact (mul_eq_zero.1 this).resolve_left (hpos _ (by omega)).ne'
  · have := inner (i - 1) (by omega)
    rwa [Nat.sub_add_cancel hp] at this

/-- The equations have a solution. -/
theorem Moments.exists {m : Nat} {h : Nat → ℝ} (hpos : ∀ i ≤ m + 2, 0 < h i) (d : Nat → ℝ) : ∃ M, Moments m h d M := by
  let e : (Fin (m + 4) → ℝ) → Nat → ℝ := fun M i => if hi : i < m + 4 then M ⟨i, hi⟩ else 0
  have e_add : ∀ M N i, e (M + N) i = e M i + e N i := by intro M N i; simp only [e]; split <;> simp
  have e_smul : ∀ (c : ℝ) M i, e (c • M) i = c * e M i := by intro c M i; simp only [e]; split <;> simp
  let L : (Fin (m + 4) → ℝ) →ₗ[ℝ] (Fin (m + 4) → ℝ) :=
    { toFun := fun M k => if k.1 = 0 then h 1 * e M 0 - ((h 0 + h 1) * e M 1 - h 0 * e M 2)
        else if k.1 = m + 3 then h (m + 1) * e M (m + 3) - ((h (m + 1) + h (m + 2)) * e M (m + 2) - h (m + 2) * e M (m + 1))
        else h (k.1 - 1) * e M (k.1 - 1) + 2 * (h (k.1 - 1) + h (k.1 - 1 + 1)) * e M (k.1 - 1 + 1) + h (k.1 - 1 + 1) * e M (k.1 - 1 + 2)
      map_add' := by
        intro M N; funext k; simp only [Pi.add_apply, e_add]; split_ifs <;> ring
      map_smul' := by
        intro c M; funext k; simp only [Pi.smul_apply, e_smul, smul_eq_mul, RingHom.id_apply]; split_ifs <;> ring }
  have key : ∀ M (b : Nat → ℝ), (∀ k : Fin (m + 4), L M k = if k.1 = 0 then 0 else if k.1 = m + 3 then 0 else b (k.1 - 1)) → Moments m h b (e M) := by
    intro M b hb
    refine ⟨?_, ?_, fun i hi => ?_⟩
    · have := hb ⟨0, by omega⟩
      simp only [L, LinearMap.coe_mk, AddHom.coe_mk, if_true] at this
      linarith
    · have := hb ⟨m + 3, by omega⟩
      simp only [L, LinearMap.coe_mk, AddHom.coe_mk, if_true, show ¬ (m + 3 = 0) by omega, if_false] at this
      linarith
    · have := hb ⟨i + 1, by omega⟩
      simpa only [L, LinearMap.coe_mk, AddHom.coe_mk, show ¬ (i + 1 = 0) by omega, show ¬ (i + 1 = m + 3) by omega, if_false,
        Nat.add_sub_cancel] using this
  have inj : Function.Injective L := by
    rw [← LinearMap.ker_eq_bot, LinearMap.ker_eq_bot']
    intro M hM
    have := (key M (fun _ => 0) (by intro k; rw [hM]; simp)).zero hpos
    funext k
    have hk := this k.1 (by omega)
    simpa [e, k.2] using hk
  obtain ⟨M, hM⟩ := LinearMap.injective_iff_surjective.1 inj (fun k => if k.1 = 0 then 0 else if k.1 = m + 3 then 0 else d (k.1 - 1))
  exact ⟨e M, key M d (fun k => by rw [hM])⟩

/-- The right hand sides that belong to the points. -/
def rhs (x y : Nat → ℝ) (i : Nat) : ℝ :=
  6 * ((y (i + 2) - y (i + 1)) / (x (i + 2) - x (i + 1)) - (y (i + 1) - y i) / (x (i + 1) - x i))

/-- The second derivatives at the nodes. -/
def bends (m : Nat) (x : Nat → ℝ) (p : Nat → Cubic) (i : Nat) : ℝ := if i < m + 3 then (p i).bend (x i) else (p (m + 2)).bend (x (m + 3))

variable {m : Nat} {x y : Nat → ℝ} {p q : Nat → Cubic}

theorem NotAKnot.bends_right (H : NotAKnot m x y p) {i : Nat} (hi : i < m + 3) : (p i).bend (x (i + 1)) = bends m x p (i + 1) := by
  unfold bends
  split
  · exact H.bend i (by omega)
  · obtain rfl : i = m + 2 := by omega
    rfl

theorem bends_left {i : Nat} (hi : i < m + 3) : (p i).bend (x i) = bends m x p i := by rw [bends, if_pos hi]

theorem NotAKnot.moments (H : NotAKnot m x y p) (hx : ∀ i < m + 3, x i < x (i + 1)) :
    Moments m (fun i => x (i + 1) - x i) (rhs x y) (bends m x p) := by
  refine ⟨?_, ?_, fun i hi => ?_⟩
  · have h0 : bends m x p 0 = (p 0).bend (x 0) := (bends_left (by omega)).symm
    have h1 : bends m x p 1 = (p 0).bend (x 1) := (H.bends_right (by omega)).symm
    have h2 : bends m x p 2 = (p 0).bend (x 2) := by rw [H.first]; exact (H.bends_right (i := 1) (by omega)).symm
    rw [h0, h1, h2, Cubic.bend, Cubic.bend, Cubic.bend]
    ring
  · have h1 : bends m x p (m + 1) = (p (m + 2)).bend (x (m + 1)) := by rw [← H.last]; exact (bends_left (by omega)).symm
    have h2 : bends m x p (m + 2) = (p (m + 2)).bend (x (m + 2)) := (bends_left (by omega)).symm
    have h3 : bends m x p (m + 3) = (p (m + 2)).bend (x (m + 3)) := (H.bends_right (by omega)).symm
    rw [h1, h2, h3, Cubic.bend, Cubic.bend, Cubic.bend]
    ring
  · have s := H.slope i (by omega)
    have d0 := hx i (by omega)
    have d1 := hx (i + 1) (by omega)
    rw [Cubic.slope_right _ d0.ne, Cubic.slope_left _ d1.ne, H.left i (by omega), H.right i (by omega), H.left (i + 1) (by omega),
      H.right (i + 1) (by omega), bends_left (show i < m + 3 by omega), H.bends_right (show i < m + 3 by omega),
      bends_left (show i + 1 < m + 3 by omega), H.bends_right (show i + 1 < m + 3 by omega)] at s
    simp only [rhs, show i + 2 = i + 1 + 1 from rfl]
    linarith

/-- There is only one not-a-knot spline. -/
theorem NotAKnot.unique (H : NotAKnot m x y p) (H' : NotAKnot m x y q) (hx : ∀ i < m + 3, x i < x (i + 1)) : ∀ i < m + 3, p i = q i := by
  have a := H.moments hx
  have b := H'.moments hx
  have z : Moments m (fun i => x (i + 1) - x i) (fun _ => 0) fun i => bends m x p i - bends m x q i :=
    ⟨by linarith [a.first, b.first], by linarith [a.last, b.last], fun i hi => by linarith [a.row i hi, b.row i hi]⟩
  have e : ∀ i ≤ m + 3, bends m x p i = bends m x q i := fun i hi =>
    sub_eq_zero.1 (z.zero (fun i hi => sub_pos.2 (hx i (by omega))) i hi)
  intro i hi
  refine Cubic.ext_two (hx i hi).ne (by rw [H.left i hi, H'.left i hi]) (by rw [H.right i hi, H'.right i hi]) ?_ ?_
  · rw [bends_left hi, bends_left hi, e i (by omega)]
  · rw [H.bends_right hi, H'.bends_right hi, e (i + 1) (by omega)]

/-- There is a not-a-knot spline. -/
theorem NotAKnot.exists (hx : ∀ i < m + 3, x i < x (i + 1)) (y : Nat → ℝ) : ∃ p, NotAKnot m x y p := by
  obtain ⟨M, hM⟩ := Moments.exists (m := m) (h := fun i => x (i + 1) - x i) (fun i hi => sub_pos.2 (hx i (by omega))) (rhs x y)
  let p : Nat → Cubic := fun i => Cubic.piece (x i) (x (i + 1)) (y i) (y (i + 1)) (M i) (M (i + 1))
  have sp : ∀ i < m + 3, (p i).eval (x i) = y i ∧ (p i).eval (x (i + 1)) = y (i + 1) ∧ (p i).bend (x i) = M i ∧ (p i).bend (x (i + 1)) = M (i + 1) :=
    fun i hi => Cubic.piece_spec (hx i hi).ne _ _ _ _
  have sl : ∀ i < m + 2, (p i).slope (x (i + 1)) = (p (i + 1)).slope (x (i + 1)) := by
    intro i hi
    obtain ⟨a1, a2, a3, a4⟩ := sp i (by omega)
    obtain ⟨b1, b2, b3, b4⟩ := sp (i + 1) (by omega)
    rw [Cubic.slope_right _ (hx i (by omega)).ne, Cubic.slope_left _ (hx (i + 1) (by omega)).ne, a1, a2, a3, a4, b1, b2, b3, b4]
    have r := hM.row i (by omega)
    simp only [rhs, show i + 2 = i + 1 + 1 from rfl] at r
    linarith
  have be : ∀ i < m + 2, (p i).bend (x (i + 1)) = (p (i + 1)).bend (x (i + 1)) := fun i hi => by
    rw [(sp i (by omega)).2.2.2, (sp (i + 1) (by omega)).2.2.1]
  have lin : ∀ (r : Cubic) (u v w : ℝ), (w - v) * r.bend u = (v - u + (w - v)) * r.bend v - (v - u) * r.bend w := by
    intro r u v w; simp only [Cubic.bend]; ring
  refine ⟨p, fun i hi => (sp i hi).1, fun i hi => (sp i hi).2.1, sl, be, ?_, ?_⟩
  · refine Cubic.ext_one (x₀ := x 1) (x₁ := x 0) (hx 0 (by omega)).ne' ?_ (sl 0 (by omega)) (be 0 (by omega)) ?_
    · rw [(sp 0 (by omega)).2.1, (sp 1 (by omega)).1]
    · have f := hM.first
      have l := lin (p 1) (x 0) (x 1) (x 2)
      have := (sp 1 (by omega)).2.2.2
      simp only [show (1 : Nat) + 1 = 2 from rfl] at this f
      rw [this, (sp 1 (by omega)).2.2.1] at l
      rw [(sp 0 (by omega)).2.2.1]
      have hp : 0 < x 2 - x 1 := sub_pos.2 (hx 1 (by omega))
      refine mul_left_cancel₀ hp.ne' ?_
      rw [l]; exact f
  · refine Cubic.ext_one (x₀ := x (m + 2)) (x₁ := x (m + 3)) (hx (m + 2) (by omega)).ne ?_ (sl (m + 1) (by omega)) (be (m + 1) (by omega)) ?_
    · rw [(sp (m + 1) (by omega)).2.1, (sp (m + 2) (by omega)).1]
    · have f := hM.last
      have l := lin (p (m + 1)) (x (m + 3)) (x (m + 2)) (x (m + 1))
      rw [(sp (m + 1) (by omega)).2.2.2, (sp (m + 1) (by omega)).2.2.1] at l
      rw [(sp (m + 2) (by omega)).2.2.2]
      have hp : 0 < x (m + 2) - x (m + 1) := sub_pos.2 (hx (m + 1) (by omega))
      refine mul_left_cancel₀ hp.ne' ?_
      rw [f]
      linarith

/-! ## Accuracy -/

theorem BendBy.mono {K a b a' b' : ℝ} {g : ℝ → ℝ} (h : BendBy K a b g) (ha : a ≤ a') (hb : b' ≤ b) : BendBy K a' b' g := by
  intro x hx
  obtain ⟨s, hs⟩ := h x ⟨ha.trans hx.1, hx.2.trans hb⟩
  exact ⟨s, fun t ht => hs t ⟨ha.trans ht.1, ht.2.trans hb⟩⟩

theorem BendBy.sub {K L a b : ℝ} {g k : ℝ → ℝ} (h : BendBy K a b g) (h' : BendBy L a b k) : BendBy (K + L) a b fun t => g t - k t := by
  intro x hx
  obtain ⟨s, hs⟩ := h x hx
  obtain ⟨r, hr⟩ := h' x hx
  refine ⟨s - r, fun t ht => ?_⟩
  have e : g t - k t - (g x - k x) - (s - r) * (t - x) = (g t - g x - s * (t - x)) - (k t - k x - r * (t - x)) := by ring
  rw [e]
  calc _ ≤ _ := abs_sub _ _
    _ ≤ K / 2 * (t - x) ^ 2 + L / 2 * (t - x) ^ 2 := add_le_add (hs t ht) (hr t ht)
    _ = _ := by ring

theorem BendBy.nonneg {K a b : ℝ} {g : ℝ → ℝ} (h : BendBy K a b g) (hab : a < b) : 0 ≤ K := by
  obtain ⟨s, hs⟩ := h a ⟨le_rfl, hab.le⟩
  have := (abs_nonneg _).trans (hs b ⟨hab.le, le_rfl⟩)
  have h2 : 0 < (b - a) ^ 2 := by have := sub_pos.2 hab; positivity
  by_contra hK
  nlinarith [not_le.1 hK]

/-- A function with bounded second derivative that vanishes at both ends. -/
theorem BendBy.between {K a b : ℝ} {g : ℝ → ℝ} (h : BendBy K a b g) (hab : a < b) (ha : g a = 0) (hb : g b = 0) {t : ℝ} (ht : t ∈ Set.Icc a b) :
    |g t| ≤ K / 8 * (b - a) ^ 2 := by
  obtain ⟨s, hs⟩ := h t ht
  have h1 := hs a ⟨le_rfl, hab.le⟩
  have h2 := hs b ⟨hab.le, le_rfl⟩
  rw [ha] at h1
  rw [hb] at h2
  have u : 0 ≤ t - a := sub_nonneg.2 ht.1
  have v : 0 ≤ b - t := sub_nonneg.2 ht.2
  have hK := h.nonneg hab
  have hp : 0 < b - a := sub_pos.2 hab
  rw [abs_le] at h1 h2
  have key : (b - a) * |g t| ≤ (b - a) * (K / 2 * ((t - a) * (b - t))) := by
    rw [← abs_of_pos hp, ← abs_mul, abs_of_pos hp, abs_le]
    constructor
    · have := mul_le_mul_of_nonneg_left h1.2 v
      have := mul_le_mul_of_nonneg_left h2.2 u
      nlinarith
    · have := mul_le_mul_of_nonneg_left h1.1 v
      have := mul_le_mul_of_nonneg_left h2.1 u
      nlinarith
  have k2 := le_of_mul_le_mul_left key hp
  have : (t - a) * (b - t) ≤ (b - a) ^ 2 / 4 := by nlinarith [sq_nonneg ((t - a) - (b - t))]
  nlinarith

theorem Cubic.bendBy (p : Cubic) {B a b : ℝ} (hab : a < b) (ha : |p.bend a| ≤ B) (hb : |p.bend b| ≤ B) : BendBy B a b p.eval := by
  intro x hx
  refine ⟨p.slope x, fun t ht => ?_⟩
  have e : p.eval t - p.eval x - p.slope x * (t - x) = p.bend ((t + 2 * x) / 3) / 2 * (t - x) ^ 2 := by
    simp only [Cubic.eval, Cubic.slope, Cubic.bend]; ring
  have hw : (t + 2 * x) / 3 ∈ Set.Icc a b := ⟨by linarith [ht.1, hx.1], by linarith [ht.2, hx.2]⟩
  have hb' : |p.bend ((t + 2 * x) / 3)| ≤ B := by
    set w := (t + 2 * x) / 3
    have hp : 0 < b - a := sub_pos.2 hab
    have l : (b - a) * p.bend w = (b - w) * p.bend a + (w - a) * p.bend b := by simp only [Cubic.bend]; ring
    have : (b - a) * |p.bend w| ≤ (b - a) * B := by
      rw [← abs_of_pos hp, ← abs_mul, abs_of_pos hp, l]
      calc _ ≤ _ := abs_add_le _ _
        _ = (b - w) * |p.bend a| + (w - a) * |p.bend b| := by
          rw [abs_mul, abs_mul, abs_of_nonneg (sub_nonneg.2 hw.2), abs_of_nonneg (sub_nonneg.2 hw.1)]
        _ ≤ (b - w) * B + (w - a) * B :=
          add_le_add (mul_le_mul_of_nonneg_left ha (sub_nonneg.2 hw.2)) (mul_le_mul_of_nonneg_left hb (sub_nonneg.2 hw.1))
        _ = _ := by ring
    exact le_of_mul_le_mul_left this hp
  rw [e, abs_mul, abs_div, abs_of_pos (by norm_num : (0 : ℝ) < 2), abs_of_nonneg (sq_nonneg (t - x))]
  exact mul_le_mul_of_nonneg_right (by linarith) (sq_nonneg _)

/-- Twice differentiable functions with bounded second derivative satisfy `BendBy`. -/
theorem bendBy_of_deriv {K a b : ℝ} {g g' g'' : ℝ → ℝ} (h1 : ∀ x ∈ Set.Icc a b, HasDerivAt g (g' x) x)
    (h2 : ∀ x ∈ Set.Icc a b, HasDerivAt g' (g'' x) x) (hK : ∀ x ∈ Set.Icc a b, |g'' x| ≤ K) : BendBy K a b g := by
  intro x hx
  refine ⟨g' x, fun t ht => ?_⟩
  have sub : ∀ z ∈ Set.uIcc x t, z ∈ Set.Icc a b := fun z hz => Set.uIcc_subset_Icc hx ht hz
  have lip : ∀ z ∈ Set.uIcc x t, |g' z - g' x| ≤ K * |z - x| := by
    intro z hz
    have := (convex_uIcc x t).norm_image_sub_le_of_norm_hasDerivWithin_le (f := g') (f' := g'') (C := K)
      (fun w hw => (h2 w (sub w hw)).hasDerivWithinAt) (fun w hw => hK w (sub w hw)) Set.left_mem_uIcc hz
    simpa [Real.norm_eq_abs] using this
  rcases le_total x t with hxt | hxt
  · rw [Set.uIcc_of_le hxt] at lip sub
    have up : ∀ z ∈ Set.Icc x t, HasDerivAt (fun z => g z - g x - g' x * (z - x) - K / 2 * (z - x) ^ 2) (g' z - g' x - K * (z - x)) z := by
      intro z hz
      have := (((h1 z (sub z hz)).sub_const (g x)).sub (((hasDerivAt_id z).sub_const x).const_mul (g' x))).sub
        ((((hasDerivAt_id z).sub_const x).pow 2).const_mul (K / 2))
      exact this.congr_deriv (by simp only [id_eq, Nat.cast_ofNat]; ring)
    have dn : ∀ z ∈ Set.Icc x t, HasDerivAt (fun z => g z - g x - g' x * (z - x) + K / 2 * (z - x) ^ 2) (g' z - g' x + K * (z - x)) z := by
      intro z hz
      have := (((h1 z (sub z hz)).sub_const (g x)).sub (((hasDerivAt_id z).sub_const x).const_mul (g' x))).add
        ((((hasDerivAt_id z).sub_const x).pow 2).const_mul (K / 2))
      exact this.congr_deriv (by simp only [id_eq, Nat.cast_ofNat]; ring)
    have a1 := antitoneOn_of_deriv_nonpos (convex_Icc x t) (fun z hz => (up z hz).continuousAt.continuousWithinAt)
      (fun z hz => (up z (interior_subset hz)).differentiableAt.differentiableWithinAt) (fun z hz => by
        have hz' := interior_subset hz
        rw [(up z hz').deriv]
        have := (abs_le.1 (lip z hz')).2
        rw [abs_of_nonneg (sub_nonneg.2 hz'.1)] at this
        linarith) ⟨le_rfl, hxt⟩ ⟨hxt, le_rfl⟩ hxt
    have a2 := monotoneOn_of_deriv_nonneg (convex_Icc x t) (fun z hz => (dn z hz).continuousAt.continuousWithinAt)
      (fun z hz => (dn z (interior_subset hz)).differentiableAt.differentiableWithinAt) (fun z hz => by
        have hz' := interior_subset hz
        rw [(dn z hz').deriv]
        have := (abs_le.1 (lip z hz')).1
        rw [abs_of_nonneg (sub_nonneg.2 hz'.1)] at this
        linarith) ⟨le_rfl, hxt⟩ ⟨hxt, le_rfl⟩ hxt
    simp only [sub_self, mul_zero] at a1 a2
    rw [abs_le]
    constructor <;> nlinarith
  · rw [Set.uIcc_of_ge hxt] at lip sub
    have up : ∀ z ∈ Set.Icc t x, HasDerivAt (fun z => g z - g x - g' x * (z - x) - K / 2 * (z - x) ^ 2) (g' z - g' x - K * (z - x)) z := by
      intro z hz
      have := (((h1 z (sub z hz)).sub_const (g x)).sub (((hasDerivAt_id z).sub_const x).const_mul (g' x))).sub
        ((((hasDerivAt_id z).sub_const x).pow 2).const_mul (K / 2))
      exact this.congr_deriv (by simp only [id_eq, Nat.cast_ofNat]; ring)
    have dn : ∀ z ∈ Set.Icc t x, HasDerivAt (fun z => g z - g x - g' x * (z - x) + K / 2 * (z - x) ^ 2) (g' z - g' x + K * (z - x)) z := by
      intro z hz
      have := (((h1 z (sub z hz)).sub_const (g x)).sub (((hasDerivAt_id z).sub_const x).const_mul (g' x))).add
        ((((hasDerivAt_id z).sub_const x).pow 2).const_mul (K / 2))
      exact this.congr_deriv (by simp only [id_eq, Nat.cast_ofNat]; ring)
    have a1 := monotoneOn_of_deriv_nonneg (convex_Icc t x) (fun z hz => (up z hz).continuousAt.continuousWithinAt)
      (fun z hz => (up z (interior_subset hz)).differentiableAt.differentiableWithinAt) (fun z hz => by
        have hz' := interior_subset hz
        rw [(up z hz').deriv]
        have := (abs_le.1 (lip z hz')).1
        rw [abs_of_nonpos (sub_nonpos.2 hz'.2)] at this
        linarith) ⟨le_rfl, hxt⟩ ⟨hxt, le_rfl⟩ hxt
    have a2 := antitoneOn_of_deriv_nonpos (convex_Icc t x) (fun z hz => (dn z hz).continuousAt.continuousWithinAt)
      (fun z hz => (dn z (interior_subset hz)).differentiableAt.differentiableWithinAt) (fun z hz => by
        have hz' := interior_subset hz
        rw [(dn z hz').deriv]
        have := (abs_le.1 (lip z hz')).2
        rw [abs_of_nonpos (sub_nonpos.2 hz'.2)] at this
        linarith) ⟨le_rfl, hxt⟩ ⟨hxt, le_rfl⟩ hxt
    simp only [sub_self, mul_zero] at a1 a2
    rw [abs_le]
    constructor <;> nlinarith

theorem nodes_mono (hx : ∀ i < m + 3, x i < x (i + 1)) {i j : Nat} (hij : i ≤ j) (hj : j ≤ m + 3) : x i ≤ x j := by
  induction j, hij using Nat.le_induction with
  | base => exact le_rfl
  | succ k hk ih => exact (ih (by omega)).trans (hx k (by omega)).le

/-- The second derivatives of the spline through points of a function are at most three times those of the function at the inner nodes. -/
theorem NotAKnot.bends_le (H : NotAKnot m x y p) (hx : ∀ i < m + 3, x i < x (i + 1)) {K : ℝ} {g : ℝ → ℝ}
    (hg : BendBy K (x 0) (x (m + 3)) g) (hy : ∀ i ≤ m + 3, y i = g (x i)) :
    (∀ i ≤ m + 1, |bends m x p (i + 1)| ≤ 3 * K) ∧
    |bends m x p 0| ≤ 3 * K * (1 + 2 * ((x 1 - x 0) / (x 2 - x 1))) ∧
    |bends m x p (m + 3)| ≤ 3 * K * (1 + 2 * ((x (m + 3) - x (m + 2)) / (x (m + 2) - x (m + 1)))) := by
  have M := H.moments hx
  have hK := hg.nonneg ((hx 0 (by omega)).trans_le (nodes_mono hx (by omega) le_rfl))
  have inner := M.bound (fun i hi => sub_pos.2 (hx i (by omega))) hK (by
    intro i hi
    obtain ⟨s, hs⟩ := hg (x (i + 1)) ⟨nodes_mono hx (by omega) (by omega), nodes_mono hx (by omega) le_rfl⟩
    have s0 := hs (x i) ⟨nodes_mono hx (by omega) (by omega), nodes_mono hx (by omega) le_rfl⟩
    have s2 := hs (x (i + 2)) ⟨nodes_mono hx (by omega) (by omega), nodes_mono hx (by omega) le_rfl⟩
    rw [← hy _ (by omega), ← hy _ (by omega)] at s0 s2
    have d0 : 0 < x (i + 1) - x i := sub_pos.2 (hx i (by omega))
    have d1 : 0 < x (i + 2) - x (i + 1) := sub_pos.2 (hx (i + 1) (by omega))
    have e : rhs x y i = 6 * ((y (i + 2) - y (i + 1) - s * (x (i + 2) - x (i + 1))) / (x (i + 2) - x (i + 1)) +
        (y i - y (i + 1) - s * (x i - x (i + 1))) / (x (i + 1) - x i)) := by
      simp only [rhs]; field_simp; ring
    have t0 : |(y i - y (i + 1) - s * (x i - x (i + 1))) / (x (i + 1) - x i)| ≤ K / 2 * (x (i + 1) - x i) := by
      rw [abs_div, abs_of_pos d0, div_le_iff₀ d0]
      calc _ ≤ _ := s0
        _ = _ := by ring
    have t2 : |(y (i + 2) - y (i + 1) - s * (x (i + 2) - x (i + 1))) / (x (i + 2) - x (i + 1))| ≤ K / 2 * (x (i + 2) - x (i + 1)) := by
      rw [abs_div, abs_of_pos d1, div_le_iff₀ d1]
      calc _ ≤ _ := s2
        _ = _ := by ring
    rw [e, abs_mul, abs_of_pos (by norm_num : (0 : ℝ) < 6)]
    calc _ ≤ 6 * (K / 2 * (x (i + 2) - x (i + 1)) + K / 2 * (x (i + 1) - x i)) :=
          mul_le_mul_of_nonneg_left ((abs_add_le _ _).trans (add_le_add t2 t0)) (by norm_num)
      _ = _ := by simp only [show i + 1 + 1 = i + 2 from rfl]; ring)
  have fin : ∀ {h₀ h₁ M₀ M₁ M₂ : ℝ}, 0 < h₀ → 0 < h₁ → |M₁| ≤ 3 * K → |M₂| ≤ 3 * K → h₁ * M₀ = (h₀ + h₁) * M₁ - h₀ * M₂ →
      |M₀| ≤ 3 * K * (1 + 2 * (h₀ / h₁)) := by
    intro h₀ h₁ M₀ M₁ M₂ p0 p1 b1 b2 e
    have : h₁ * |M₀| ≤ h₁ * (3 * K * (1 + 2 * (h₀ / h₁))) := by
      have e2 : h₁ * (3 * K * (1 + 2 * (h₀ / h₁))) = 3 * K * (h₁ + 2 * h₀) := by field_simp
      rw [e2, ← abs_of_pos p1, ← abs_mul, e, abs_of_pos p1]
      calc _ ≤ _ := abs_sub _ _
        _ = (h₀ + h₁) * |M₁| + h₀ * |M₂| := by rw [abs_mul, abs_mul, abs_of_pos p0, abs_of_pos (show 0 < h₀ + h₁ by linarith)]
        _ ≤ (h₀ + h₁) * (3 * K) + h₀ * (3 * K) :=
          add_le_add (mul_le_mul_of_nonneg_left b1 (by linarith)) (mul_le_mul_of_nonneg_left b2 p0.le)
        _ = _ := by ring
    exact le_of_mul_le_mul_left this p1
  refine ⟨inner, ?_, ?_⟩
  · exact fin (sub_pos.2 (hx 0 (by omega))) (sub_pos.2 (hx 1 (by omega))) (inner 0 (by omega)) (inner 1 (by omega)) M.first
  · exact fin (sub_pos.2 (hx (m + 2) (by omega))) (sub_pos.2 (hx (m + 1) (by omega))) (inner (m + 1) (by omega)) (inner m (by omega)) (by
      have := M.last
      linarith)

/-- How far the spline through points of a function is from the function. -/
theorem NotAKnot.accuracy (H : NotAKnot m x y p) (hx : ∀ i < m + 3, x i < x (i + 1)) {K : ℝ} {g : ℝ → ℝ}
    (hg : BendBy K (x 0) (x (m + 3)) g) (hy : ∀ i ≤ m + 3, y i = g (x i)) {ρ : ℝ} (hρ : 0 ≤ ρ)
    (h0 : x 1 - x 0 ≤ ρ * (x 2 - x 1)) (hl : x (m + 3) - x (m + 2) ≤ ρ * (x (m + 2) - x (m + 1))) :
    ∀ i < m + 3, ∀ t ∈ Set.Icc (x i) (x (i + 1)), |(p i).eval t - g t| ≤
      (if i = 0 ∨ i = m + 2 then (2 + 3 * ρ) / 4 else 1 / 2) * K * (x (i + 1) - x i) ^ 2 := by
  obtain ⟨b1, b2, b3⟩ := H.bends_le hx hg hy
  have hK := hg.nonneg ((hx 0 (by omega)).trans_le (nodes_mono hx (by omega) le_rfl))
  have r0 : (x 1 - x 0) / (x 2 - x 1) ≤ ρ := (div_le_iff₀ (sub_pos.2 (hx 1 (by omega)))).2 h0
  have rl : (x (m + 3) - x (m + 2)) / (x (m + 2) - x (m + 1)) ≤ ρ := (div_le_iff₀ (sub_pos.2 (hx (m + 1) (by omega)))).2 hl
  have big : ∀ i ≤ m + 3, |bends m x p i| ≤ 3 * K * (1 + 2 * (if i = 0 ∨ i = m + 3 then ρ else 0)) := by
    intro i hi
    split_ifs with hc
    · rcases hc with rfl | rfl
      · exact b2.trans (mul_le_mul_of_nonneg_left (by linarith) (by linarith))
      · exact b3.trans (mul_le_mul_of_nonneg_left (by linarith) (by linarith))
    · push Not at hc
      have := b1 (i - 1) (by omega)
      rw [Nat.sub_add_cancel (by omega)] at this
      simpa using this
  intro i hi t ht
  obtain ⟨B, hB⟩ : ∃ B, B = 3 * K * (1 + 2 * (if i = 0 ∨ i = m + 2 then ρ else 0)) := ⟨_, rfl⟩
  have step : ∀ (P Q : Prop) [Decidable P] [Decidable Q], (P → Q) →
      3 * K * (1 + 2 * (if P then ρ else 0)) ≤ 3 * K * (1 + 2 * (if Q then ρ else 0)) := by
    intro P Q _ _ hPQ
    refine mul_le_mul_of_nonneg_left ?_ (by linarith)
    split_ifs with hP hQ hQ
    · exact le_rfl
    · exact absurd (hPQ hP) hQ
    · linarith
    · exact le_rfl
  have c := (p i).bendBy (B := B) (hx i hi)
    (by rw [bends_left hi, hB]; exact (big i (by omega)).trans (step _ _ (by omega)))
    (by rw [H.bends_right hi, hB]; exact (big (i + 1) (by omega)).trans (step _ _ (by omega)))
  have e := (c.sub (hg.mono (nodes_mono hx (by omega) (by omega)) (nodes_mono hx (show i + 1 ≤ m + 3 by omega) le_rfl))).between (hx i hi)
    (by rw [H.left i hi, hy i (by omega), sub_self]) (by rw [H.right i hi, hy (i + 1) (by omega), sub_self]) ht
  refine e.trans (le_of_eq ?_)
  rw [hB]
  split_ifs <;> ring

end
end BladeX.Spec
