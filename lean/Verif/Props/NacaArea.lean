import Verif.Props.NacaSampling
import Mathlib.MeasureTheory.Integral.IntervalIntegral.FundThmCalculus
import Mathlib.Analysis.SpecialFunctions.Sqrt
import Mathlib.Analysis.SpecialFunctions.Integrals.Basic

/-! # C142: the area of a NACA section -/

namespace BladeX
open Spec Naca

namespace Naca

/-- The trapezium under `f` between two abscissae. -/
noncomputable def trapez (f : ℝ → ℝ) (a b : ℝ) : ℝ := (b - a) * (f a + f b) / 2

theorem sum_map_range (f : Nat → ℝ) (m : Nat) : ((List.range m).map f).sum = ∑ i ∈ Finset.range m, f i := by
  induction m with
  | zero => simp
  | succ m ih => simp [List.range_succ, Finset.sum_range_succ, ih]

theorem trap_range (g : Nat → Pt) (m : Nat) :
    trap ((List.range (m + 1)).map g) = ∑ i ∈ Finset.range m, ((g (i + 1)).1 - (g i).1) * ((g i).2 + (g (i + 1)).2) / 2 := by
  rw [← sum_map_range, trap]
  congr 1
  have : ((List.range (m + 1)).map g).zip ((List.range (m + 1)).map g).tail = (List.range m).map (fun i => (g i, g (i + 1))) := by
    apply List.ext_getElem
    · simp
    · intro i h1 h2; simp
  rw [this, List.map_map]
  rfl

/-- Area of a foil whose two surfaces are spread vertically. -/
theorem spread_area (m : Nat) (y c : ℝ → ℝ) :
    (spread (m + 1) y c (fun _ => 0)).area =
      ∑ i ∈ Finset.range m, trapez (fun x => 2 * y x) ((i : ℝ) / m) (((i + 1 : Nat) : ℝ) / m) := by
  have hs : (spread (m + 1) y c (fun _ => 0)).SameX := by
    refine ⟨by simp [spread], by simp [spread], by simp [spread], ?_⟩
    simp [spread, linspaceN]
  rw [Profile.area_same hs]
  have e : (spread (m + 1) y c (fun _ => 0)).xup.zip (List.zipWith (fun u d => u - d) (spread (m + 1) y c (fun _ => 0)).yup
      (spread (m + 1) y c (fun _ => 0)).ydown) = (List.range (m + 1)).map (fun i : Nat => (((i : ℝ) / m, 2 * y ((i : ℝ) / m)) : Pt)) := by
    have hz : ∀ i : Nat, (0 : ℝ) + (i : ℝ) * ((1 - 0) / (((m + 1 : Nat) : ℝ) - 1)) = (i : ℝ) / m := by
      intro i; push_cast; rw [add_sub_cancel_right]; ring
    apply List.ext_getElem
    · simp [spread, linspaceN_length]
    · intro i h1 h2
      simp only [spread, linspaceN, List.getElem_zip, List.getElem_map, List.getElem_zipWith, List.getElem_range, hz]
      refine Prod.ext ?_ ?_
      · simp
      · simp; ring
  rw [e, trap_range]
  rfl

/-- The antiderivative of the whole thickness. -/
noncomputable def prim (t x : ℝ) : ℝ :=
  10 * t * (0.2969 * (2 / 3) * (x * Real.sqrt x) - 0.063 * x ^ 2 - 0.1172 * x ^ 3 + 0.071075 * x ^ 4 - 0.02072 * x ^ 5)

set_option maxHeartbeats 1000000 in
/-- What the trapezium between two abscissae leaves out. -/
theorem trapez_error {t a b h : ℝ} (ht : 0 ≤ t) (ha : 0 ≤ a) (hab : a ≤ b) (hb : b ≤ 1) (hh : b - a ≤ h) (h1 : h ≤ 1) :
    trapez (fun x => 2 * nacaHalfThickness t x) a b ≤ prim t b - prim t a ∧
      prim t b - prim t a - h * t * (0.495 * (Real.sqrt b - Real.sqrt a) + 0.586 * (b - a)) ≤ trapez (fun x => 2 * nacaHalfThickness t x) a b := by
  set u := Real.sqrt a with hu
  set v := Real.sqrt b with hv
  have u0 : 0 ≤ u := Real.sqrt_nonneg _
  have uv : u ≤ v := Real.sqrt_le_sqrt hab
  have ea : a = u ^ 2 := (Real.sq_sqrt ha).symm
  have eb : b = v ^ 2 := (Real.sq_sqrt (ha.trans hab)).symm
  have key : prim t b - prim t a - trapez (fun x => 2 * nacaHalfThickness t x) a b =
      10 * t * (0.2969 * ((v - u) ^ 3 / 6) + (b - a) ^ 3 * (0.0586 - 0.071075 * (a + b) + 0.01036 * (3 * a ^ 2 + 4 * a * b + 3 * b ^ 2))) := by
    unfold prim trapez nacaHalfThickness
    simp only [← hu, ← hv]
    have : 0.2969 * (2 / 3) * (b * v) - 0.2969 * (2 / 3) * (a * u) - (b - a) * (0.2969 * u + 0.2969 * v) / 2 = 0.2969 * ((v - u) ^ 3 / 6) := by
      rw [ea, eb]; ring
    linear_combination 10 * t * this
  have k0 : 0 ≤ 0.0586 - 0.071075 * (a + b) + 0.01036 * (3 * a ^ 2 + 4 * a * b + 3 * b ^ 2) := by
    nlinarith [sq_nonneg (a - b), sq_nonneg (a + b - 1.372)]
  have k1 : 0.0586 - 0.071075 * (a + b) + 0.01036 * (3 * a ^ 2 + 4 * a * b + 3 * b ^ 2) ≤ 0.0586 := by
    nlinarith [mul_nonneg ha (ha.trans hab), mul_nonneg ha (sub_nonneg.2 hb), mul_nonneg (ha.trans hab) (sub_nonneg.2 hb),
      mul_nonneg ha (sub_nonneg.2 (hab.trans hb)), mul_nonneg (ha.trans hab) (sub_nonneg.2 (hab.trans hb))]
  set κ := 0.0586 - 0.071075 * (a + b) + 0.01036 * (3 * a ^ 2 + 4 * a * b + 3 * b ^ 2) with hκ
  have d0 : 0 ≤ b - a := by linarith
  have w0 : 0 ≤ v - u := by linarith
  have c1 : 0 ≤ (v - u) ^ 3 := pow_nonneg w0 3
  have c2 : 0 ≤ (b - a) ^ 3 * κ := mul_nonneg (pow_nonneg d0 3) k0
  have w2 : (v - u) ^ 2 ≤ h := by
    have : (v - u) ^ 2 ≤ b - a := by rw [ea, eb]; nlinarith
    linarith
  have e1 : (v - u) ^ 3 ≤ h * (v - u) := by
    have : (v - u) ^ 3 = (v - u) ^ 2 * (v - u) := by ring
    rw [this]; exact mul_le_mul_of_nonneg_right w2 w0
  have h0 : 0 ≤ h := d0.trans hh
  have e2 : (b - a) ^ 3 * κ ≤ h * (b - a) * 0.0586 := by
    have s : (b - a) ^ 2 ≤ h := by nlinarith
    have s3 : (b - a) ^ 3 ≤ h * (b - a) := by
      have : (b - a) ^ 3 = (b - a) ^ 2 * (b - a) := by ring
      rw [this]; exact mul_le_mul_of_nonneg_right s d0
    calc (b - a) ^ 3 * κ ≤ h * (b - a) * κ := mul_le_mul_of_nonneg_right s3 k0
      _ ≤ h * (b - a) * 0.0586 := mul_le_mul_of_nonneg_left k1 (mul_nonneg h0 d0)
  constructor
  · have : 0 ≤ 10 * t * (0.2969 * ((v - u) ^ 3 / 6) + (b - a) ^ 3 * κ) := by positivity
    linarith
  · have : 10 * t * (0.2969 * ((v - u) ^ 3 / 6) + (b - a) ^ 3 * κ) ≤ h * t * (0.495 * (v - u) + 0.586 * (b - a)) := by
      have z : 0.2969 * ((v - u) ^ 3 / 6) + (b - a) ^ 3 * κ ≤ h * (0.0495 * (v - u) + 0.0586 * (b - a)) := by
        have p0 : 0 ≤ h * (v - u) := mul_nonneg h0 w0
        have e : h * (0.0495 * (v - u) + 0.0586 * (b - a)) = 0.0495 * (h * (v - u)) + h * (b - a) * 0.0586 := by ring
        rw [e]
        clear_value κ u v
        clear key hκ k0 k1 w2 ea eb
        generalize h * (v - u) = p at *
        generalize h * (b - a) * 0.0586 = q at *
        generalize (b - a) ^ 3 * κ = r at *
        generalize (v - u) ^ 3 = s at *
        linarith
      have := mul_le_mul_of_nonneg_left z (show 0 ≤ 10 * t by positivity)
      linarith
    linarith

theorem prim_zero (t : ℝ) : prim t 0 = 0 := by simp [prim]

theorem prim_one (t : ℝ) : prim t 1 = 2.04265 / 3 * t := by simp [prim]; ring

theorem hasDerivAt_prim (t : ℝ) {x : ℝ} (hx : 0 < x) : HasDerivAt (prim t) (2 * nacaHalfThickness t x) x := by
  have hs := Real.hasDerivAt_sqrt hx.ne'
  have hid := hasDerivAt_id x
  have h := (((((hid.mul hs).const_mul (0.2969 * (2 / 3) : ℝ)).sub ((hid.pow 2).const_mul (0.063 : ℝ))).sub
    ((hid.pow 3).const_mul (0.1172 : ℝ))).add ((hid.pow 4).const_mul (0.071075 : ℝ))).sub ((hid.pow 5).const_mul (0.02072 : ℝ)) |>.const_mul (10 * t)
  refine h.congr_deriv ?_
  have hp : 0 < Real.sqrt x := Real.sqrt_pos.2 hx
  have e : x = Real.sqrt x ^ 2 := (Real.sq_sqrt hx.le).symm
  have e2 : x * (1 / (2 * Real.sqrt x)) = Real.sqrt x / 2 := by
    set s := Real.sqrt x
    rw [e]; field_simp
  simp only [id, nacaHalfThickness]
  push_cast
  linear_combination (10 * t * (0.2969 * (2 / 3))) * e2

open MeasureTheory intervalIntegral in
theorem integral_half (t : ℝ) : ∫ x in (0 : ℝ)..1, 2 * nacaHalfThickness t x = 2.04265 / 3 * t := by
  have hc : Continuous (prim t) := by unfold prim; fun_prop
  have := integral_eq_sub_of_hasDerivAt_of_le (f := prim t) (f' := fun x => 2 * nacaHalfThickness t x) zero_le_one hc.continuousOn
    (fun x hx => hasDerivAt_prim t hx.1) ((continuous_const.mul (continuous_half t)).intervalIntegrable _ _)
  rw [this, prim_one, prim_zero, sub_zero]

theorem sum_bounds {t : ℝ} (ht : 0 ≤ t) (m : Nat) (hm : 1 ≤ m) :
    ∑ i ∈ Finset.range m, trapez (fun x => 2 * nacaHalfThickness t x) ((i : ℝ) / m) (((i + 1 : Nat) : ℝ) / m) ≤ 2.04265 / 3 * t ∧
    2.04265 / 3 * t - 1.09 * t / m ≤ ∑ i ∈ Finset.range m, trapez (fun x => 2 * nacaHalfThickness t x) ((i : ℝ) / m) (((i + 1 : Nat) : ℝ) / m) := by
  have hmR : (0 : ℝ) < m := by exact_mod_cast hm
  have step : ∀ i ∈ Finset.range m, _ := fun i hi => by
    have hi' : ((i + 1 : Nat) : ℝ) ≤ m := by exact_mod_cast Finset.mem_range.1 hi
    exact trapez_error (t := t) (a := (i : ℝ) / m) (b := ((i + 1 : Nat) : ℝ) / m) (h := 1 / m) ht (by positivity)
      (div_le_div_of_nonneg_right (by push_cast; linarith) hmR.le) (by rw [div_le_one hmR]; exact hi')
      (by rw [← sub_div]; push_cast; rw [add_sub_cancel_left]) (by rw [div_le_one hmR]; exact_mod_cast hm)
  have tel : ∀ G : ℝ → ℝ, ∑ i ∈ Finset.range m, (G (((i + 1 : Nat) : ℝ) / m) - G ((i : ℝ) / m)) = G 1 - G 0 := by
    intro G
    rw [Finset.sum_range_sub (fun i : Nat => G ((i : ℝ) / m)) m]
    simp [div_self hmR.ne']
  have T := tel (prim t)
  rw [prim_one, prim_zero, sub_zero] at T
  constructor
  · rw [← T]; exact Finset.sum_le_sum fun i hi => (step i hi).1
  · have S := Finset.sum_le_sum fun i hi => (step i hi).2
    refine le_trans ?_ S
    rw [Finset.sum_sub_distrib, T]
    have : ∑ i ∈ Finset.range m, 1 / (m : ℝ) * t * (0.495 * (Real.sqrt (((i + 1 : Nat) : ℝ) / m) - Real.sqrt ((i : ℝ) / m)) +
        0.586 * (((i + 1 : Nat) : ℝ) / m - (i : ℝ) / m)) = 1 / (m : ℝ) * t * 1.081 := by
      have := tel (fun x => 1 / (m : ℝ) * t * (0.495 * Real.sqrt x + 0.586 * x))
      simp only [Real.sqrt_one, Real.sqrt_zero] at this
      rw [show 1 / (m : ℝ) * t * 1.081 = 1 / (m : ℝ) * t * (0.495 * 1 + 0.586 * 1) - 1 / (m : ℝ) * t * (0.495 * 0 + 0.586 * 0) by ring, ← this]
      exact Finset.sum_congr rfl fun i _ => by ring
    rw [this]
    have : 1 / (m : ℝ) * t * 1.081 ≤ 1.09 * t / m := by
      rw [div_mul_eq_mul_div, div_mul_eq_mul_div, div_le_div_iff_of_pos_right hmR]; linarith
    linarith

/-- A point in between only adds area: the thickness is concave. -/
theorem trapez_split {t a b c : ℝ} (ht : 0 ≤ t) (ha : 0 ≤ a) (hac : a ≤ c) (hcb : c ≤ b) (hb : b ≤ 1) :
    trapez (fun x => 2 * nacaHalfThickness t x) a b ≤
      trapez (fun x => 2 * nacaHalfThickness t x) a c + trapez (fun x => 2 * nacaHalfThickness t x) c b := by
  set u := Real.sqrt a with hu
  set v := Real.sqrt b with hv
  set w := Real.sqrt c with hw
  have u0 : 0 ≤ u := Real.sqrt_nonneg _
  have uw : u ≤ w := Real.sqrt_le_sqrt hac
  have wv : w ≤ v := Real.sqrt_le_sqrt hcb
  have ea : a = u ^ 2 := (Real.sq_sqrt ha).symm
  have eb : b = v ^ 2 := (Real.sq_sqrt (ha.trans (hac.trans hcb))).symm
  have ec : c = w ^ 2 := (Real.sq_sqrt (ha.trans hac)).symm
  have key : trapez (fun x => 2 * nacaHalfThickness t x) a c + trapez (fun x => 2 * nacaHalfThickness t x) c b -
      trapez (fun x => 2 * nacaHalfThickness t x) a b =
      5 * t * (0.2969 * ((w - u) * (v - w) * (v - u)) + (c - a) * (b - c) * (b - a) *
        (0.3516 - 0.2843 * (a + b + c) + 0.1036 * (a ^ 2 + b ^ 2 + c ^ 2 + a * b + b * c + c * a))) := by
    unfold trapez nacaHalfThickness
    simp only [← hu, ← hv, ← hw]
    have : ((c - a) * (u + w) + (b - c) * (w + v) - (b - a) * (u + v)) = (w - u) * (v - w) * (v - u) := by
      rw [ea, eb, ec]; ring
    linear_combination 5 * t * 0.2969 * this
  have k0 : 0 ≤ 0.3516 - 0.2843 * (a + b + c) + 0.1036 * (a ^ 2 + b ^ 2 + c ^ 2 + a * b + b * c + c * a) := by
    nlinarith [sq_nonneg (a - b), sq_nonneg (a - c), sq_nonneg (b - c), sq_nonneg (a + b + c - 2.058)]
  have : 0 ≤ 5 * t * (0.2969 * ((w - u) * (v - w) * (v - u)) + (c - a) * (b - c) * (b - a) *
        (0.3516 - 0.2843 * (a + b + c) + 0.1036 * (a ^ 2 + b ^ 2 + c ^ 2 + a * b + b * c + c * a))) := by
    have h1 : 0 ≤ (w - u) * (v - w) * (v - u) := mul_nonneg (mul_nonneg (by linarith) (by linarith)) (by linarith)
    have h2 : 0 ≤ (c - a) * (b - c) * (b - a) := mul_nonneg (mul_nonneg (by linarith) (by linarith)) (by linarith)
    have h3 := mul_nonneg h2 k0
    positivity
  linarith

/-- Several points in between. -/
theorem trapez_chain {t : ℝ} (ht : 0 ≤ t) (x : Nat → ℝ) (hm : Monotone x) (h0 : 0 ≤ x 0) (k : Nat) (hk : x k ≤ 1) :
    trapez (fun x => 2 * nacaHalfThickness t x) (x 0) (x k) ≤
      ∑ j ∈ Finset.range k, trapez (fun x => 2 * nacaHalfThickness t x) (x j) (x (j + 1)) := by
  induction k with
  | zero => simp [trapez]
  | succ k ih =>
    rw [Finset.sum_range_succ]
    have := ih ((hm (Nat.le_succ k)).trans hk)
    have := trapez_split ht h0 (hm (Nat.zero_le k)) (hm (Nat.le_succ k)) hk
    simp only [Nat.succ_eq_add_one] at this
    linarith

theorem sum_blocks (g : Nat → ℝ) (k m : Nat) : ∑ i ∈ Finset.range (k * m), g i = ∑ i ∈ Finset.range m, ∑ j ∈ Finset.range k, g (k * i + j) := by
  induction m with
  | zero => simp
  | succ m ih => rw [Nat.mul_succ, Finset.sum_range_add, ih, Finset.sum_range_succ]

theorem sum_refined {t : ℝ} (ht : 0 ≤ t) (m k : Nat) (hm : 1 ≤ m) (hk : 1 ≤ k) :
    ∑ i ∈ Finset.range m, trapez (fun x => 2 * nacaHalfThickness t x) ((i : ℝ) / m) (((i + 1 : Nat) : ℝ) / m) ≤
    ∑ i ∈ Finset.range (k * m), trapez (fun x => 2 * nacaHalfThickness t x) ((i : ℝ) / (k * m : Nat)) (((i + 1 : Nat) : ℝ) / (k * m : Nat)) := by
  have hmR : (0 : ℝ) < m := by exact_mod_cast hm
  have hkR : (0 : ℝ) < k := by exact_mod_cast hk
  rw [sum_blocks]
  refine Finset.sum_le_sum fun i hi => ?_
  have hi' : ((i + 1 : Nat) : ℝ) ≤ m := by exact_mod_cast Finset.mem_range.1 hi
  have H := trapez_chain ht (fun j : Nat => (((k * i + j : Nat) : ℝ) / (k * m : Nat))) ?_ ?_ k ?_
  · have a : (((k * i + 0 : Nat) : ℝ) / (k * m : Nat)) = (i : ℝ) / m := by
      push_cast; rw [add_zero, mul_div_mul_left _ _ hkR.ne']
    have b : (((k * i + k : Nat) : ℝ) / (k * m : Nat)) = ((i + 1 : Nat) : ℝ) / m := by
      push_cast; rw [← mul_add_one, mul_div_mul_left _ _ hkR.ne']
    simp only [a, b] at H
    exact H
  · intro p q hpq
    refine div_le_div_of_nonneg_right ?_ (by positivity)
    exact_mod_cast Nat.add_le_add_left hpq _
  · positivity
  · rw [div_le_one (by positivity)]
    push_cast at hi' ⊢
    nlinarith

end Naca

/-- Foils with vertical spread, whatever the number of points. -/
theorem naca_vertical {american : Profile → Res Arr} {look : LookUp} {digits : List Char} {cosine : Bool}
    (hd : ∀ ch ∈ digits, ch.isDigit = true) (hv : digits[1]? = some '0' ∨ cosine = false) :
    ∃ c : ℝ → ℝ, 0 ≤ nacaThickness digits ∧ ∀ (n : Nat) (Q : Profile), ctor american look (.str digits) (.int n) cosine = .ok Q →
      Q.area = (spread n (nacaHalfThickness (nacaThickness digits)) c (fun _ => 0)).area := by
  obtain ⟨t, c, θ, _, _, hθ, hT, H⟩ := Naca.generated_any look digits cosine
  have hn : 0 ≤ nacaThickness digits := by
    unfold nacaThickness
    split
    · rename_i b a _ _
      have := dig_nonneg a; have := dig_nonneg b; positivity
    · exact le_refl _
  refine ⟨c, hn, fun n Q hQ => ?_⟩
  obtain ⟨P, hP, x1, x2, x3, x4⟩ := naca_ctor_coords hQ
  have e := H n P hP
  rw [hθ hv, hT hd ⟨n, P, hP⟩] at e
  rw [← e]
  simp only [Profile.area, Profile.outline, Profile.upper, Profile.lower, x1, x2, x3, x4]

/-- **C142** the area announced by a foil number: the area between the published thickness curves of relative thickness
`t` on the unit chord is `2.04265/3 t ≈ 0.6809 t`. -/
theorem C142_area_of_the_curve (t : ℝ) : ∫ x in (0 : ℝ)..1, 2 * nacaHalfThickness t x = 2.04265 / 3 * t := Naca.integral_half t

/-- **C142** the outline of every foil built with linear spacing, or whose camber position digit is 0, encloses that
area but for a deficit of at most `1.09 t / (n - 1)`, whatever the camber digits and the looked-up camber constants. -/
theorem C142_area (american : Profile → Res Arr) (look : LookUp) (digits : List Char) (cosine : Bool) (n : Nat) (hn : 2 ≤ n)
    (hd : ∀ ch ∈ digits, ch.isDigit = true) (hv : digits[1]? = some '0' ∨ cosine = false) (Q : Profile) (hQ : ctor american look (.str digits) (.int n) cosine = .ok Q) :
    2.04265 / 3 * nacaThickness digits - 1.09 * nacaThickness digits / ((n : ℝ) - 1) ≤ Q.area ∧
      Q.area ≤ 2.04265 / 3 * nacaThickness digits := by
  obtain ⟨c, ht, H⟩ := naca_vertical (american := american) (look := look) hd hv
  obtain ⟨m, rfl⟩ : ∃ m, n = m + 1 := ⟨n - 1, by omega⟩
  rw [H _ Q hQ, Naca.spread_area]
  have := Naca.sum_bounds ht m (by omega)
  push_cast
  rw [add_sub_cancel_right]
  push_cast at this
  exact ⟨this.2, this.1⟩

/-- **C142** finer sampling never loses area: with `k` times as many intervals the foil encloses at least as much. -/
theorem C142_refining (american : Profile → Res Arr) (look : LookUp) (digits : List Char) (cosine : Bool) (n k : Nat) (hn : 2 ≤ n)
    (hk : 1 ≤ k) (hd : ∀ ch ∈ digits, ch.isDigit = true) (hv : digits[1]? = some '0' ∨ cosine = false) (Q R : Profile)
    (hQ : ctor american look (.str digits) (.int n) cosine = .ok Q)
    (hR : ctor american look (.str digits) (.int ((k * (n - 1) + 1 : Nat) : Int)) cosine = .ok R) : Q.area ≤ R.area := by
  obtain ⟨c, ht, H⟩ := naca_vertical (american := american) (look := look) hd hv
  obtain ⟨m, rfl⟩ : ∃ m, n = m + 1 := ⟨n - 1, by omega⟩
  rw [Nat.add_sub_cancel] at hR
  rw [H _ Q hQ, H _ R hR, Naca.spread_area, Naca.spread_area]
  exact Naca.sum_refined ht m k (by omega) hk

/-- **C142** camber costs no area: with linear spacing two foils with the same thickness digits and the same number of
points have the same area, whatever their camber digits, and even if one has four digits and the other five. -/
theorem C142_camber_free (american : Profile → Res Arr) (look : LookUp) (digits digits' : List Char)
    (hd : ∀ ch ∈ digits, ch.isDigit = true) (hd' : ∀ ch ∈ digits', ch.isDigit = true)
    (ht : nacaThickness digits = nacaThickness digits') (n : Nat) (hn : 1 ≤ n) (Q R : Profile)
    (hQ : ctor american look (.str digits) (.int n) false = .ok Q) (hR : ctor american look (.str digits') (.int n) false = .ok R) :
    Q.area = R.area := by
  obtain ⟨c, _, H⟩ := naca_vertical (american := american) (look := look) (digits := digits) (cosine := false) hd (Or.inr rfl)
  obtain ⟨c', _, H'⟩ := naca_vertical (american := american) (look := look) (digits := digits') (cosine := false) hd' (Or.inr rfl)
  obtain ⟨m, rfl⟩ : ∃ m, n = m + 1 := ⟨n - 1, by omega⟩
  rw [H _ Q hQ, H' _ R hR, Naca.spread_area, Naca.spread_area, ht]

/-- The hypotheses are met: a NACA 2412 with 101 points and linear spacing encloses between 0.080 and 0.082. -/
example (american : Profile → Res Arr) (look : LookUp) : ∃ Q R S,
    ctor american look (.str ['2', '4', '1', '2']) (.int (101 : Nat)) false = .ok Q ∧
    ctor american look (.str ['2', '4', '1', '2']) (.int ((2 * (101 - 1) + 1 : Nat) : Int)) false = .ok R ∧
    ctor american look (.str ['0', '0', '1', '2']) (.int (101 : Nat)) false = .ok S ∧
    0.080 ≤ Q.area ∧ Q.area ≤ R.area ∧ R.area ≤ 0.082 ∧ S.area = Q.area := by
  obtain ⟨Q, hQ, _⟩ := C21_four_digits american look '2' '4' '1' '2' rfl rfl rfl rfl 101 (by norm_num) false
  obtain ⟨R, hR, _⟩ := C21_four_digits american look '2' '4' '1' '2' rfl rfl rfl rfl (2 * (101 - 1) + 1) (by norm_num) false
  obtain ⟨S, hS, _⟩ := C21_four_digits american look '0' '0' '1' '2' rfl rfl rfl rfl 101 (by norm_num) false
  have ht : nacaThickness ['2', '4', '1', '2'] = 0.12 := by
    show (10 * (((49 - 48 : Nat)) : ℝ) + (((50 - 48 : Nat)) : ℝ)) / 100 = 0.12
    norm_num
  have a := (C142_area american look _ false 101 (by norm_num) (by decide) (Or.inr rfl) Q hQ).1
  have b := (C142_area american look _ false _ (by norm_num) (by decide) (Or.inr rfl) R hR).2
  rw [ht] at a b
  refine ⟨Q, R, S, hQ, hR, hS, ?_, C142_refining american look _ false 101 2 (by norm_num) (by norm_num) (by decide) (Or.inr rfl) Q R hQ hR, ?_,
    C142_camber_free american look ['0', '0', '1', '2'] ['2', '4', '1', '2'] (by decide) (by decide) rfl 101 (by norm_num) S Q hS hQ⟩
  · norm_num at a ⊢; linarith
  · norm_num at b ⊢; linarith

end BladeX
