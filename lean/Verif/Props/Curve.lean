import Verif.Lemmas.Curve
import Verif.Props.American
import Mathlib.Analysis.SpecialFunctions.Log.Deriv
import Mathlib.Topology.Order.IntermediateValue

/-! # C102: the curves through the surface points -/

namespace BladeX
noncomputable section
open Spec Classical Filter Topology

/-- **C102** `yup_curve` and `ydown_curve` give a curve exactly if there are as many ordinates as abscissae, at least two, and no two
abscissae coincide; the curve is then the one and only thin-plate curve over these abscissae that passes through all the points. Otherwise
`ValueError` is raised for the numbers and `LinAlgError` for coinciding abscissae. -/
theorem C102_defined (P : Profile) (xs ys : Arr) (curve : Res (ℝ → ℝ))
    (h : (xs = P.xup ∧ ys = P.yup ∧ curve = P.yupCurve) ∨ (xs = P.xdown ∧ ys = P.ydown ∧ curve = P.ydownCurve)) :
    (∀ f, curve = .ok f ↔ ys.length = xs.length ∧ 2 ≤ xs.length ∧ xs.Nodup ∧ (∃ c a b, ThinPlate xs c a b f) ∧ Through xs ys f) ∧
    ((∃ f, curve = .ok f) ↔ ys.length = xs.length ∧ 2 ≤ xs.length ∧ xs.Nodup) ∧
    (ys.length ≠ xs.length ∨ xs.length < 2 → curve = .error .valueError) ∧
    (ys.length = xs.length → 2 ≤ xs.length → ¬ xs.Nodup → curve = .error .linAlgError) := by
  obtain rfl : curve = Curve.rbf xs ys := by
    rcases h with ⟨rfl, rfl, h⟩ | ⟨rfl, rfl, h⟩ <;> exact h
  have bad : ys.length ≠ xs.length ∨ xs.length < 2 → Curve.rbf xs ys = .error .valueError := by
    intro hb
    unfold Curve.rbf
    by_cases h1 : ys.length = xs.length
    · rw [if_neg (by simpa using h1), if_pos (by omega)]; rfl
    · rw [if_pos h1]; rfl
  have dup : ys.length = xs.length → 2 ≤ xs.length → ¬ xs.Nodup → Curve.rbf xs ys = .error .linAlgError := by
    intro h1 h2 h3
    obtain ⟨s, h, hh, e⟩ := Curve.rbf_unfold h1 h2
    rw [e, if_pos]
    by_contra hd
    exact h3 ((Curve.system_det h2 s h hh).1 hd)
  have cond : ∀ f, Curve.rbf xs ys = .ok f → ys.length = xs.length ∧ 2 ≤ xs.length ∧ xs.Nodup := by
    intro f hf
    by_cases h1 : ys.length = xs.length
    · by_cases h2 : 2 ≤ xs.length
      · by_cases h3 : xs.Nodup
        · exact ⟨h1, h2, h3⟩
        · rw [dup h1 h2 h3] at hf; cases hf
      · rw [bad (Or.inr (by omega))] at hf; cases hf
    · rw [bad (Or.inl h1)] at hf; cases hf
  refine ⟨?_, ?_, bad, dup⟩
  · intro f
    constructor
    · intro hf
      obtain ⟨h1, h2, h3⟩ := cond f hf
      obtain ⟨f', c, a, b, e, h4, h5⟩ := Curve.rbf_ok h1 h2 h3
      rw [hf] at e
      obtain rfl := Except.ok.inj e
      exact ⟨h1, h2, h3, ⟨c, a, b, h4⟩, h5⟩
    · rintro ⟨h1, h2, h3, ⟨c, a, b, h4⟩, h5⟩
      obtain ⟨f', c', a', b', e, h4', h5'⟩ := Curve.rbf_ok h1 h2 h3
      rw [e, (Curve.thin_unique h2 h3 h4 h4' fun i => by
        rw [(Curve.through_iff h1 f).1 h5, (Curve.through_iff h1 f').1 h5']).2.2.2]
  · constructor
    · rintro ⟨f, hf⟩; exact cond f hf
    · rintro ⟨h1, h2, h3⟩
      obtain ⟨f', c, a, b, e, _⟩ := Curve.rbf_ok h1 h2 h3
      exact ⟨f', e⟩

namespace Curve

theorem rbf_iff (xs ys : Arr) (f : ℝ → ℝ) :
    rbf xs ys = .ok f ↔ ys.length = xs.length ∧ 2 ≤ xs.length ∧ xs.Nodup ∧ (∃ c a b, ThinPlate xs c a b f) ∧ Through xs ys f :=
  (C102_defined { xup := xs, xdown := xs, yup := ys, ydown := ys } xs ys (rbf xs ys) (Or.inl ⟨rfl, rfl, rfl⟩)).1 f

theorem kernel_scaled (α r : ℝ) (hα : α ≠ 0) :
    |r / α| ^ 2 * Real.log |r / α| = (α⁻¹) ^ 2 * (|r| ^ 2 * Real.log |r|) - (α⁻¹) ^ 2 * Real.log |α| * r ^ 2 := by
  by_cases hr : r = 0
  · simp [hr]
  · rw [abs_div, Real.log_div (abs_ne_zero.2 hr) (abs_ne_zero.2 hα), div_pow, sq_abs, sq_abs]
    field_simp

/-- Thin-plate curves stay so under changes of scale and origin on both axes. -/
theorem thin_affine {xs : Arr} {c : Nat → ℝ} {a b : ℝ} {f : ℝ → ℝ} (h : ThinPlate xs c a b f) (α β γ δ : ℝ) (hα : α ≠ 0) :
    ∃ c' a' b', ThinPlate (xs.map fun x => α * x + β) c' a' b' fun v => γ * f ((v - β) / α) + δ := by
  obtain ⟨p1, p2, p3⟩ := h
  have hget : ∀ i ∈ Finset.range xs.length, (xs.map fun x => α * x + β).getD i 0 = α * xs.getD i 0 + β := by
    intro i hi
    have hi' := Finset.mem_range.1 hi
    simp [List.getD, List.getElem?_map, List.getElem?_eq_getElem hi']
  set q := ∑ i ∈ Finset.range xs.length, c i * xs.getD i 0 ^ 2 with hq
  refine ⟨fun i => γ * (α⁻¹) ^ 2 * c i, γ * a + δ - γ * b * β / α - γ * Real.log |α| * q, γ * b / α, ?_, ?_, ?_⟩
  · rw [List.length_map, ← Finset.mul_sum, p1, mul_zero]
  · rw [List.length_map]
    have e : ∑ i ∈ Finset.range xs.length, γ * (α⁻¹) ^ 2 * c i * (xs.map fun x => α * x + β).getD i 0 =
        γ * (α⁻¹) ^ 2 * (α * ∑ i ∈ Finset.range xs.length, c i * xs.getD i 0) + γ * (α⁻¹) ^ 2 * (β * ∑ i ∈ Finset.range xs.length, c i) := by
      rw [Finset.mul_sum, Finset.mul_sum, Finset.mul_sum, Finset.mul_sum, ← Finset.sum_add_distrib]
      refine Finset.sum_congr rfl fun i hi => ?_
      rw [hget i hi]; ring
    rw [e, p1, p2]; ring
  · intro v
    rw [List.length_map]
    beta_reduce
    rw [p3]
    have e : ∑ i ∈ Finset.range xs.length, c i * (|(v - β) / α - xs.getD i 0| ^ 2 * Real.log |(v - β) / α - xs.getD i 0|) =
        (∑ i ∈ Finset.range xs.length, (α⁻¹) ^ 2 * c i * (|v - (xs.map fun x => α * x + β).getD i 0| ^ 2 *
          Real.log |v - (xs.map fun x => α * x + β).getD i 0|)) - Real.log |α| * q := by
      have hsq : ∑ i ∈ Finset.range xs.length, c i * ((α⁻¹) ^ 2 * Real.log |α| * (v - (α * xs.getD i 0 + β)) ^ 2) = Real.log |α| * q := by
        have hterm : ∀ i, c i * ((α⁻¹) ^ 2 * Real.log |α| * (v - (α * xs.getD i 0 + β)) ^ 2) =
            (α⁻¹) ^ 2 * Real.log |α| * (v - β) ^ 2 * c i - 2 * α⁻¹ * Real.log |α| * (v - β) * (c i * xs.getD i 0) +
              Real.log |α| * (c i * xs.getD i 0 ^ 2) := by
          intro i
          field_simp
          ring
        simp only [hterm, Finset.sum_add_distrib, Finset.sum_sub_distrib, ← Finset.mul_sum, p1, p2]
        rw [← hq]; ring
      rw [← hsq, ← Finset.sum_sub_distrib]
      refine Finset.sum_congr rfl fun i hi => ?_
      rw [hget i hi, show (v - β) / α - xs.getD i 0 = (v - (α * xs.getD i 0 + β)) / α by field_simp; ring, kernel_scaled _ _ hα]
      ring
    rw [e, show ∀ S : ℝ, γ * (S - Real.log |α| * q + a + b * ((v - β) / α)) + δ =
      γ * S + (γ * a + δ - γ * b * β / α - γ * Real.log |α| * q) + γ * b / α * v from fun S => by ring, Finset.mul_sum]
    congr 2
    exact Finset.sum_congr rfl fun i _ => by ring

theorem rbf_affine {xs ys : Arr} {f : ℝ → ℝ} (h : rbf xs ys = .ok f) (α β γ δ : ℝ) (hα : α ≠ 0) :
    rbf (xs.map fun x => α * x + β) (ys.map fun y => γ * y + δ) = .ok fun v => γ * f ((v - β) / α) + δ := by
  obtain ⟨h1, h2, h3, ⟨c, a, b, h4⟩, h5⟩ := (rbf_iff _ _ _).1 h
  refine (rbf_iff _ _ _).2 ⟨by simpa using h1, by simpa using h2, ?_, thin_affine h4 α β γ δ hα, ?_⟩
  · exact h3.map fun x y hxy => by
      have : α * x = α * y := by simpa using hxy
      exact mul_left_cancel₀ hα this
  · intro i x y hx hy
    rw [List.getElem?_map, Option.map_eq_some_iff] at hx hy
    obtain ⟨x', hx', rfl⟩ := hx
    obtain ⟨y', hy', rfl⟩ := hy
    have e : (α * x' + β - β) / α = x' := by field_simp; ring
    simp only [e, h5 i x' y' hx' hy']

theorem thin_combine {xs : Arr} {c c' : Nat → ℝ} {a a' b b' : ℝ} {f g : ℝ → ℝ} (hf : ThinPlate xs c a b f) (hg : ThinPlate xs c' a' b' g)
    (p q : ℝ) : ThinPlate xs (fun i => p * c i + q * c' i) (p * a + q * a') (p * b + q * b') fun x => p * f x + q * g x := by
  obtain ⟨p1, p2, p3⟩ := hf
  obtain ⟨q1, q2, q3⟩ := hg
  refine ⟨?_, ?_, ?_⟩
  · rw [Finset.sum_add_distrib, ← Finset.mul_sum, ← Finset.mul_sum, p1, q1]; ring
  · simp only [add_mul, mul_assoc, Finset.sum_add_distrib, ← Finset.mul_sum]
    rw [p2, q2]; ring
  · intro x
    beta_reduce
    rw [p3, q3]
    simp only [add_mul, mul_assoc, Finset.sum_add_distrib, ← Finset.mul_sum]
    ring

end Curve

theorem Curve.rbf_line {xs ys : Arr} {a b : ℝ} (hy : ys = xs.map fun x => a + b * x) (h2 : 2 ≤ xs.length) (h3 : xs.Nodup) :
    rbf xs ys = .ok fun x => a + b * x := by
  refine (Curve.rbf_iff _ _ _).2 ⟨by simp [hy], h2, h3, ⟨fun _ => 0, a, b, by simp, by simp, by simp⟩, ?_⟩
  intro i x y hx hy'
  rw [hy, List.getElem?_map, hx] at hy'
  exact Option.some.inj hy'

/-- **C102** the curves through points of a straight line are that line. -/
theorem C102_lines (P : Profile) (a b : ℝ) :
    (2 ≤ P.xup.length → P.xup.Nodup → P.yup = (P.xup.map fun x => a + b * x) → P.yupCurve = .ok fun x => a + b * x) ∧
    (2 ≤ P.xdown.length → P.xdown.Nodup → P.ydown = (P.xdown.map fun x => a + b * x) → P.ydownCurve = .ok fun x => a + b * x) :=
  ⟨fun h2 h3 hy => Curve.rbf_line hy h2 h3, fun h2 h3 hy => Curve.rbf_line hy h2 h3⟩

/-- **C102** the curves move with the airfoil: after a translation by `v` they are translated by `v`, after a reflection they are reflected
through the origin, and after a scaling (by a factor other than 0) about the reference point, or about the origin, they are scaled about that
point. All succeed if the curve of the original airfoil does. -/
theorem C102_moves (P : Profile) (f g : ℝ → ℝ) (hf : P.yupCurve = .ok f) (hg : P.ydownCurve = .ok g) :
    (∀ v : Pt, ∃ f' g', (P.translate v).yupCurve = .ok f' ∧ (P.translate v).ydownCurve = .ok g' ∧
      ∀ x, f' (x + v.1) = f x + v.2 ∧ g' (x + v.1) = g x + v.2) ∧
    (∃ f' g', P.reflect.yupCurve = .ok f' ∧ P.reflect.ydownCurve = .ok g' ∧ ∀ x, f' (-x) = -f x ∧ g' (-x) = -g x) ∧
    (∀ s Q, s ≠ 0 → P.scale s false = .ok Q → ∃ f' g', Q.yupCurve = .ok f' ∧ Q.ydownCurve = .ok g' ∧
      ∀ x, f' (s * x) = s * f x ∧ g' (s * x) = s * g x) ∧
    (∀ s Q ref, s ≠ 0 → P.referencePoint = .ok ref → P.scale s = .ok Q → ∃ f' g', Q.yupCurve = .ok f' ∧ Q.ydownCurve = .ok g' ∧
      ∀ x, f' (ref.1 + s * (x - ref.1)) = ref.2 + s * (f x - ref.2) ∧ g' (ref.1 + s * (x - ref.1)) = ref.2 + s * (g x - ref.2)) := by
  have hf' : Curve.rbf P.xup P.yup = .ok f := hf
  have hg' : Curve.rbf P.xdown P.ydown = .ok g := hg
  refine ⟨?_, ?_, ?_, ?_⟩
  · intro v
    have kf := Curve.rbf_affine hf' 1 v.1 1 v.2 one_ne_zero
    have kg := Curve.rbf_affine hg' 1 v.1 1 v.2 one_ne_zero
    simp only [one_mul, div_one] at kf kg
    exact ⟨_, _, kf, kg, fun x => by simp⟩
  · have kf := Curve.rbf_affine hf' (-1) 0 (-1) 0 (by norm_num)
    have kg := Curve.rbf_affine hg' (-1) 0 (-1) 0 (by norm_num)
    refine ⟨fun v => -1 * f ((v - 0) / -1) + 0, fun v => -1 * g ((v - 0) / -1) + 0, ?_, ?_, fun x => by simp⟩
    · rw [← kf]; simp only [Profile.yupCurve, Profile.reflect]; congr 1 <;> exact List.map_congr_left fun _ _ => by ring
    · rw [← kg]; simp only [Profile.ydownCurve, Profile.reflect]; congr 1 <;> exact List.map_congr_left fun _ _ => by ring
  · intro s Q hs hQ
    have kf := Curve.rbf_affine hf' s 0 s 0 hs
    have kg := Curve.rbf_affine hg' s 0 s 0 hs
    obtain rfl : P.mulAll s = Q := Except.ok.inj hQ
    refine ⟨fun v => s * f ((v - 0) / s) + 0, fun v => s * g ((v - 0) / s) + 0, ?_, ?_, fun x => by simp [mul_div_cancel_left₀ _ hs]⟩
    · rw [← kf]; simp only [Profile.yupCurve, Profile.mulAll]; congr 1 <;> exact List.map_congr_left fun _ _ => by ring
    · rw [← kg]; simp only [Profile.ydownCurve, Profile.mulAll]; congr 1 <;> exact List.map_congr_left fun _ _ => by ring
  · intro s Q ref hs hr hQ
    rw [Profile.scale_eq hr] at hQ
    obtain rfl := Except.ok.inj hQ
    have kf := Curve.rbf_affine hf' s (ref.1 - s * ref.1) s (ref.2 - s * ref.2) hs
    have kg := Curve.rbf_affine hg' s (ref.1 - s * ref.1) s (ref.2 - s * ref.2) hs
    refine ⟨fun v => s * f ((v - (ref.1 - s * ref.1)) / s) + (ref.2 - s * ref.2),
      fun v => s * g ((v - (ref.1 - s * ref.1)) / s) + (ref.2 - s * ref.2), ?_, ?_, ?_⟩
    · rw [← kf]
      simp only [Profile.yupCurve, Profile.translate, Profile.mulAll, List.map_map]
      congr 1 <;> exact List.map_congr_left fun _ _ => by simp; ring
    · rw [← kg]
      simp only [Profile.ydownCurve, Profile.translate, Profile.mulAll, List.map_map]
      congr 1 <;> exact List.map_congr_left fun _ _ => by simp; ring
    · intro x
      have e : (ref.1 + s * (x - ref.1) - (ref.1 - s * ref.1)) / s = x := by field_simp; ring
      simp only [e]
      constructor <;> ring

/-- **C102** over common abscissae the curves depend linearly on the ordinates: the mean of the two curves is the curve through the mean
line, and multiples and sums of surfaces give multiples and sums of curves. -/
theorem C102_linear (P Q : Profile) (f g : ℝ → ℝ) (hf : P.yupCurve = .ok f) (hg : P.ydownCurve = .ok g) (hx : P.xup = P.xdown) (p q : ℝ)
    (hQx : Q.xup = P.xup) (hQy : Q.yup = List.zipWith (fun u l => p * u + q * l) P.yup P.ydown) :
    Q.yupCurve = .ok fun x => p * f x + q * g x := by
  obtain ⟨h1, h2, h3, ⟨c, a, b, h4⟩, h5⟩ := (Curve.rbf_iff _ _ _).1 hf
  obtain ⟨g1, _, _, ⟨c', a', b', g4⟩, g5⟩ := (Curve.rbf_iff _ _ _).1 hg
  rw [← hx] at g1 g4 g5
  refine (Curve.rbf_iff _ _ _).2 ⟨?_, by rw [hQx]; exact h2, by rw [hQx]; exact h3, ⟨_, _, _, by rw [hQx]; exact Curve.thin_combine h4 g4 p q⟩, ?_⟩
  · rw [hQx, hQy]; simp [h1, g1]
  · rw [hQx, hQy]
    intro i x y hx' hy
    have hi := (List.getElem?_eq_some_iff.1 hx').1
    have hiu : i < P.yup.length := by omega
    have hid : i < P.ydown.length := by omega
    rw [List.getElem?_zipWith, List.getElem?_eq_getElem hiu, List.getElem?_eq_getElem hid] at hy
    obtain rfl := Option.some.inj hy
    simp only [h5 i x _ hx' (List.getElem?_eq_getElem hiu), g5 i x _ hx' (List.getElem?_eq_getElem hid)]

namespace Curve

theorem thin_continuous {xs : Arr} {c : Nat → ℝ} {a b : ℝ} {f : ℝ → ℝ} (h : ThinPlate xs c a b f) : Continuous f := by
  obtain ⟨_, _, p3⟩ := h
  rw [funext p3]
  refine ((continuous_finset_sum _ fun i _ => continuous_const.mul ?_).add continuous_const).add (continuous_const.mul continuous_id)
  have e : (fun x : ℝ => |x - xs.getD i 0| ^ 2 * Real.log |x - xs.getD i 0|) =
      fun x => |x - xs.getD i 0| * (|x - xs.getD i 0| * Real.log |x - xs.getD i 0|) := by funext x; ring
  rw [e]
  have hc : Continuous fun x : ℝ => |x - xs.getD i 0| := (continuous_id.sub continuous_const).abs
  exact hc.mul (Real.continuous_mul_log.comp hc)

/-- One node seen from far away. -/
theorem kernel_far (x y : ℝ) (hx : x ≠ 0) (hxy : 2 * |y| ≤ |x|) :
    |(|x - y| ^ 2 * Real.log |x - y|) - (x - y) ^ 2 * Real.log |x| + x * y| ≤ 7 * y ^ 2 := by
  set u := y / x with hu
  have hy : y = u * x := by rw [hu]; field_simp
  have hu2 : |u| ≤ 1 / 2 := by
    rw [hu, abs_div, div_le_iff₀ (abs_pos.2 hx)]; linarith
  have hle := abs_le.1 hu2
  have h1u : 0 < 1 - u := by linarith
  have hlog : |u + Real.log (1 - u)| ≤ 2 * u ^ 2 := by
    have h := Real.abs_log_sub_add_sum_range_le (x := u) (by linarith) 1
    simp only [Finset.sum_range_one, Nat.cast_zero, zero_add, pow_one, div_one] at h
    refine h.trans ?_
    rw [div_le_iff₀ (by linarith), show |u| ^ (1 + 1) = u ^ 2 by rw [show 1 + 1 = 2 from rfl, sq_abs]]
    nlinarith [sq_nonneg u]
  have e : (|x - y| ^ 2 * Real.log |x - y|) - (x - y) ^ 2 * Real.log |x| + x * y =
      x ^ 2 * (2 * u ^ 2 - u ^ 3 + (1 - u) ^ 2 * (u + Real.log (1 - u))) := by
    have e1 : x - y = x * (1 - u) := by rw [hy]; ring
    rw [sq_abs, e1, abs_mul, Real.log_mul (abs_ne_zero.2 hx) (abs_ne_zero.2 h1u.ne'), abs_of_pos h1u, hy]
    ring
  rw [e, abs_mul, abs_of_nonneg (sq_nonneg x), show 7 * y ^ 2 = x ^ 2 * (7 * u ^ 2) by rw [hy]; ring]
  refine mul_le_mul_of_nonneg_left ?_ (sq_nonneg x)
  have hb := abs_le.1 hlog
  have s1 : (1 - u) ^ 2 ≤ 9 / 4 := by nlinarith
  have s0 : 0 ≤ (1 - u) ^ 2 := sq_nonneg _
  have q0 : 0 ≤ u ^ 2 := sq_nonneg u
  have t1 : (1 - u) ^ 2 * (u + Real.log (1 - u)) ≤ 9 / 4 * (2 * u ^ 2) := by nlinarith
  have t2 : -(9 / 4 * (2 * u ^ 2)) ≤ (1 - u) ^ 2 * (u + Real.log (1 - u)) := by nlinarith
  rw [abs_le]
  constructor <;> nlinarith

/-- Thin-plate curves grow like their line plus a logarithm. -/
theorem thin_growth {xs : Arr} {c : Nat → ℝ} {a b : ℝ} {f : ℝ → ℝ} (h : ThinPlate xs c a b f) :
    ∃ q K X, ∀ x, X ≤ |x| → x ≠ 0 → |f x - a - b * x - q * (Real.log |x|)| ≤ K := by
  obtain ⟨p1, p2, p3⟩ := h
  refine ⟨∑ i ∈ Finset.range xs.length, c i * xs.getD i 0 ^ 2, ∑ i ∈ Finset.range xs.length, |c i| * (7 * xs.getD i 0 ^ 2),
    ∑ i ∈ Finset.range xs.length, 2 * |xs.getD i 0|, ?_⟩
  intro x hX hx
  have e : f x - a - b * x - (∑ i ∈ Finset.range xs.length, c i * xs.getD i 0 ^ 2) * Real.log |x| =
      ∑ i ∈ Finset.range xs.length, c i * ((|x - xs.getD i 0| ^ 2 * Real.log |x - xs.getD i 0|) - (x - xs.getD i 0) ^ 2 * Real.log |x| + x * xs.getD i 0) := by
    have t : ∀ i, c i * ((|x - xs.getD i 0| ^ 2 * Real.log |x - xs.getD i 0|) - (x - xs.getD i 0) ^ 2 * Real.log |x| + x * xs.getD i 0) =
        c i * (|x - xs.getD i 0| ^ 2 * Real.log |x - xs.getD i 0|) - x ^ 2 * Real.log |x| * c i + (2 * x * Real.log |x| + x) * (c i * xs.getD i 0) -
          Real.log |x| * (c i * xs.getD i 0 ^ 2) := fun i => by ring
    simp only [t, Finset.sum_sub_distrib, Finset.sum_add_distrib, ← Finset.mul_sum, p1, p2]
    rw [p3]; ring
  rw [e]
  refine (Finset.abs_sum_le_sum_abs _ _).trans (Finset.sum_le_sum fun i hi => ?_)
  rw [abs_mul]
  refine mul_le_mul_of_nonneg_left (kernel_far _ _ hx ?_) (abs_nonneg _)
  refine le_trans ?_ hX
  exact Finset.single_le_sum (f := fun i => 2 * |xs.getD i 0|) (fun j _ => by positivity) hi

/-- A normal of slope other than that of the line at infinity meets the curve. -/
theorem thin_foot {xs : Arr} {c : Nat → ℝ} {a b : ℝ} {f : ℝ → ℝ} (h : ThinPlate xs c a b f) (m p r : ℝ) (hm : 1 + b * m ≠ 0) :
    ∃ x, (x - p) * 1 + (f x - r) * m = 0 := by
  obtain ⟨q, K, X, hK⟩ := thin_growth h
  set g : ℝ → ℝ := fun x => (x - p) * 1 + (f x - r) * m with hg
  have hcont : Continuous g := ((continuous_id.sub continuous_const).mul continuous_const).add
    (((thin_continuous h).sub continuous_const).mul continuous_const)
  set k := 1 + b * m with hk
  set A := |m| * K + |m| * |a| + |p| + |r| * |m| with hA
  set B := |m| * |q| with hB
  -- far out the remainder is small
  have hlit := Real.isLittleO_log_id_atTop.def (show 0 < |k| / (2 * (B + 1)) by have := abs_pos.2 hm; positivity)
  obtain ⟨T, hT⟩ := eventually_atTop.1 hlit
  set t := max (max T X) (max 1 (2 * A / |k| + 1)) with ht
  have hkp : 0 < |k| := abs_pos.2 hm
  have t1 : 1 ≤ t := le_trans (le_max_left _ _) (le_max_right _ _)
  have tA : 2 * A / |k| + 1 ≤ t := le_trans (le_max_right _ _) (le_max_right _ _)
  have tX : X ≤ t := le_trans (le_max_right _ _) (le_max_left _ _)
  have tT : T ≤ t := le_trans (le_max_left _ _) (le_max_left _ _)
  have hlog : Real.log t ≤ |k| / (2 * (B + 1)) * t := by
    have := hT t tT
    simp only [id, Real.norm_eq_abs] at this
    rw [abs_of_pos (by linarith : 0 < t)] at this
    exact (le_abs_self _).trans this
  have hl0 : 0 ≤ Real.log t := Real.log_nonneg t1
  have hB0 : 0 ≤ B := by positivity
  have bnd : ∀ x, |x| = t → |g x - k * x| ≤ A + B * Real.log t := by
    intro x hxt
    have hx0 : x ≠ 0 := by rintro rfl; rw [abs_zero] at hxt; linarith
    have h1 := hK x (by rw [hxt]; exact tX) hx0
    rw [hxt] at h1
    have e : g x - k * x = m * (f x - a - b * x - q * Real.log t) + m * a - p - r * m + m * q * Real.log t := by
      rw [hg, hk]; ring
    rw [e]
    have i1 : |m * (f x - a - b * x - q * Real.log t)| ≤ |m| * K := by rw [abs_mul]; exact mul_le_mul_of_nonneg_left h1 (abs_nonneg _)
    have i2 : |m * q * Real.log t| = B * Real.log t := by rw [abs_mul, abs_mul, abs_of_nonneg hl0]
    calc |m * (f x - a - b * x - q * Real.log t) + m * a - p - r * m + m * q * Real.log t|
        ≤ |m * (f x - a - b * x - q * Real.log t)| + |m * a| + |p| + |r * m| + |m * q * Real.log t| := by
          refine (abs_add_le _ _).trans (add_le_add ?_ le_rfl)
          refine (abs_sub _ _).trans (add_le_add ?_ le_rfl)
          refine (abs_sub _ _).trans (add_le_add ?_ le_rfl)
          exact abs_add_le _ _
      _ ≤ A + B * Real.log t := by rw [i2, abs_mul m a, abs_mul r m, hA]; linarith
  have small : A + B * Real.log t < |k| * t := by
    have h1 : B * Real.log t ≤ |k| * t / 2 := by
      have h2 := mul_le_mul_of_nonneg_left hlog hB0
      have h3 : B * (|k| / (2 * (B + 1)) * t) ≤ |k| * t / 2 := by
        rw [show B * (|k| / (2 * (B + 1)) * t) = (|k| * t / 2) * (B / (B + 1)) by field_simp]
        have : B / (B + 1) ≤ 1 := by rw [div_le_one (by linarith)]; linarith
        have hp : 0 ≤ |k| * t / 2 := by positivity
        nlinarith
      linarith
    have h4 : A < |k| * t / 2 := by
      have : 2 * A / |k| < t := by linarith
      rw [div_lt_iff₀ hkp] at this
      linarith
    linarith
  have bp := abs_le.1 ((bnd t (abs_of_pos (by linarith))).trans small.le)
  have bn := abs_le.1 ((bnd (-t) (by rw [abs_neg, abs_of_pos (by linarith)])).trans small.le)
  have hsign : ∃ x y, g x ≤ 0 ∧ 0 ≤ g y := by
    rcases lt_or_gt_of_ne hm with hneg | hpos
    · rw [abs_of_neg hneg] at bp bn
      exact ⟨t, -t, by linarith, by linarith⟩
    · rw [abs_of_pos hpos] at bp bn
      exact ⟨-t, t, by linarith, by linarith⟩
  obtain ⟨x, y, h1, h2⟩ := hsign
  obtain ⟨z, hz⟩ := mem_range_of_exists_le_of_exists_ge hcont ⟨x, h1⟩ ⟨y, h2⟩
  exact ⟨z, hz⟩

end Curve

/-- **C102** the curves are continuous, and at infinity they behave like their straight line plus a multiple of the logarithm; so every normal
to a slope `m` other than the one whose normals are parallel to that straight line meets the curve. -/
theorem C102_far (P : Profile) (f : ℝ → ℝ) (hf : P.ydownCurve = .ok f) :
    Continuous f ∧ ∃ c a b, ThinPlate P.xdown c a b f ∧ (∃ q K X, ∀ x, X ≤ |x| → x ≠ 0 → |f x - (a + b * x) - q * (Real.log |x|)| ≤ K) ∧
      ∀ m p r, 1 + b * m ≠ 0 → ∃ x, (x - p) * 1 + (f x - r) * m = 0 := by
  obtain ⟨_, _, _, ⟨c, a, b, h⟩, _⟩ := (Curve.rbf_iff _ _ _).1 hf
  refine ⟨Curve.thin_continuous h, c, a, b, h, ?_, fun m p r hm => Curve.thin_foot h m p r hm⟩
  obtain ⟨q, K, X, hK⟩ := Curve.thin_growth h
  refine ⟨q, K, X, fun x h1 h2 => ?_⟩
  rw [show f x - (a + b * x) - q * Real.log |x| = f x - a - b * x - q * Real.log |x| by ring]
  exact hK x h1 h2

theorem Profile.american_congr (curve curve' : Arr → Arr → Res (ℝ → ℝ)) (newton : (Arr → Arr) → Arr → Res Arr) (P : Profile)
    (h : curve P.xdown P.ydown = curve' P.xdown P.ydown) : P.americanThickness curve newton = P.americanThickness curve' newton := by
  unfold americanThickness
  rw [h]

/-- **C102** what this means for the american thickness: the lower curve passes through the lower points, and the thickness is defined for three
stations or more with distinct lower abscissae and distinct consecutive upper ones, edges that meet, a chord and some camber, unless
one of the normals of the mean line is parallel to the straight line of the lower curve (and the root finder finds every root there is). -/
theorem C102_american (newton : (Arr → Arr) → Arr → Res Arr) (hn : ExactSolver newton)
    (hcomp : ∀ g x, (∃ r : Arr, r.length = x.length ∧ ∀ v ∈ g r, v = 0) → ∃ r, newton g x = .ok r) (P : Profile)
    (hu : P.yup.length = P.xup.length) (hd : P.ydown.length = P.xup.length) (hx : P.xdown.length = P.xup.length) (h3 : 3 ≤ P.xup.length)
    (le te : Pt) (he : P.updateEdges = .ok (le, te)) (hc : dist2 le te ≠ 0)
    (hcam : ¬ MaxOf ((List.range P.xup.length).map P.meanY) 0)
    (hdist : ∀ i, i + 1 < P.xup.length → P.xup.getD (i + 1) 0 ≠ P.xup.getD i 0) (hnd : P.xdown.Nodup) :
    ∃ f c a b, P.ydownCurve = .ok f ∧ ThinPlate P.xdown c a b f ∧ Through P.xdown P.ydown f ∧
      ((∀ i < P.xup.length, 1 + b * P.meanSlope i ≠ 0) → ∃ t, P.americanThickness Curve.rbf newton = .ok t) := by
  obtain ⟨f, c, a, b, h1, h2, h4⟩ := Curve.rbf_ok (xs := P.xdown) (ys := P.ydown) (by omega) (by omega) hnd
  refine ⟨f, c, a, b, h1, h2, h4, fun hne => ?_⟩
  have hxn : P.xup ≠ [] := by rintro h0; rw [h0] at h3; simp at h3
  obtain ⟨mn, hmn⟩ := npMin_exists hxn
  exact C80_defined Curve.rbf newton hn hcomp P hu hd hx h3 le te he hc hcam hdist f h1 mn (npMin_ok_iff.1 hmn)
    fun i hi _ => Curve.thin_foot h2 _ _ _ (hne i hi)

/-- **C102** with the curves the code computes: the american thickness of the wedge changes when the wedge is moved along the x-axis. -/
theorem C102_not_translation_invariant (newton : (Arr → Arr) → Arr → Res Arr) (hn : ExactSolver newton) (t t' : Arr)
    (h : (Sample.wedge 0).americanThickness Curve.rbf newton = .ok t)
    (h' : ((Sample.wedge 0).translate (10, 0)).americanThickness Curve.rbf newton = .ok t') :
    t[0]? = some 1 ∧ t'[0]? = some (√401) := by
  refine C80_not_translation_invariant newton hn t t' ?_ ?_
  · rw [← h]
    refine (Profile.american_congr _ _ _ _ ?_).symm
    refine (Curve.rbf_line (a := 0) (b := 0) (by simp [Sample.wedge]) (by simp [Sample.wedge]) (by norm_num [Sample.wedge])).trans ?_
    simp
  · rw [← h']
    refine (Profile.american_congr _ _ _ _ ?_).symm
    refine (Curve.rbf_line (a := 0) (b := 0) (by simp [Sample.wedge, Profile.translate]) (by simp [Sample.wedge, Profile.translate])
      (by norm_num [Sample.wedge, Profile.translate])).trans ?_
    simp

/-- Its hypotheses are met: both are defined. -/
example : ∃ newton t t', ExactSolver newton ∧ (Sample.wedge 0).americanThickness Curve.rbf newton = .ok t ∧
    ((Sample.wedge 0).translate (10, 0)).americanThickness Curve.rbf newton = .ok t' := by
  have e : (Sample.wedge 0).translate (10, 0) = Sample.wedge 10 := by norm_num [Sample.wedge, Profile.translate]
  have c0 : ∀ d, (Sample.wedge d).americanThickness Curve.rbf Sample.solver = (Sample.wedge d).americanThickness (fun _ _ => .ok fun _ => 0) Sample.solver := by
    intro d
    refine Profile.american_congr _ _ _ _ ?_
    refine (Curve.rbf_line (a := 0) (b := 0) (by simp [Sample.wedge]) (by simp [Sample.wedge]) (by simp [Sample.wedge])).trans ?_
    simp
  obtain ⟨t, ht⟩ := Sample.wedge_defined 0
  obtain ⟨t', ht'⟩ := Sample.wedge_defined 10
  exact ⟨Sample.solver, t, t', Sample.solver_exact, by rw [c0, ht], by rw [e, c0, ht']⟩

/-- **C102** with the curves the code computes: a lower point returned by the american construction that is not on the lower curve. -/
theorem C102_point_off_surface (P : Profile) :
    ∃ Q, Custom.generateCoordinates (Custom.curveOnChord Curve.rbf) P Sample.slanted .american = .ok Q ∧
      Q.xdown[1]? = some (3/2) ∧ Q.ydown[1]? = some (1/3) ∧ (fun x : ℝ => x / 3) (3/2) ≠ 1/3 := by
  refine C80_point_off_surface Curve.rbf P ?_
  refine (Curve.rbf_line (a := 0) (b := 1/3) (by norm_num) (by norm_num) (by norm_num)).trans ?_
  congr 1; funext x; ring

/-- **C102** the fitted curves pass through their points whenever they exist. -/
theorem C102_interpolating : Interpolating Curve.rbf := by
  intro xs ys f h i x y hx hy
  exact ((Curve.rbf_iff _ _ _).1 h).2.2.2.2 i x y hx hy

/-- Both curves of the sample foil exist, and so do those of the moved foil. -/
example : ∃ f g, Sample.foil.yupCurve = .ok f ∧ Sample.foil.ydownCurve = .ok g ∧ f (1/4) = 1/5 ∧ g (1/4) = -1/10 := by
  obtain ⟨f, _, _, _, h1, _, h2⟩ := Curve.rbf_ok (xs := Sample.foil.xup) (ys := Sample.foil.yup) rfl (by simp [Sample.foil]) (by norm_num [Sample.foil])
  obtain ⟨g, _, _, _, h3, _, h4⟩ := Curve.rbf_ok (xs := Sample.foil.xdown) (ys := Sample.foil.ydown) rfl (by simp [Sample.foil]) (by norm_num [Sample.foil])
  exact ⟨f, g, h1, h3, h2 1 _ _ rfl rfl, h4 1 _ _ rfl rfl⟩

/-- The american thickness of the wedge as the code computes it is defined by C102 alone. -/
example : ∃ t, (Sample.wedge 5).americanThickness Curve.rbf Sample.solver = .ok t := by
  obtain ⟨f, c, a, b, h1, h2, h3, h4⟩ := C102_american Sample.solver Sample.solver_exact Sample.solver_complete (Sample.wedge 5) rfl rfl rfl
    (by simp [Sample.wedge]) (5, 1) (5 + 2, 3 / 2)
    (by
      rw [Profile.updateEdges_of (P := Sample.wedge 5) (xu0 := 5) (xd0 := 5) (xu1 := 5 + 2) (xd1 := 5 + 2) (yu0 := 1) (yu1 := 3) (yd1 := 0)]
      all_goals norm_num [Sample.wedge])
    (by unfold dist2; rw [Real.sqrt_ne_zero']; norm_num) (Sample.wedge_camber 5)
    (by
      intro i hi
      have : i < 2 := by simp [Sample.wedge] at hi; omega
      interval_cases i <;> norm_num [Sample.wedge])
    (by norm_num [Sample.wedge])
  refine h4 fun i hi => ?_
  have hb : b = 0 := by
    have hz : ThinPlate (Sample.wedge 5).xdown (fun _ => 0) 0 0 (fun _ => 0) := ⟨by simp, by simp, by simp⟩
    refine (Curve.thin_unique (by simp [Sample.wedge]) (by norm_num [Sample.wedge]) h2 hz ?_).2.2.1
    intro j
    rw [(Curve.through_iff (xs := (Sample.wedge 5).xdown) (ys := (Sample.wedge 5).ydown) (by simp [Sample.wedge]) f).1 h3 j]
    have hj : (j : Nat) < 3 := j.2
    obtain ⟨j, _⟩ := j
    simp only at hj ⊢
    interval_cases j <;> simp [Sample.wedge]
  rw [hb]; norm_num

end
end BladeX
