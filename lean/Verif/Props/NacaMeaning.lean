import Verif.Props.Naca
import Verif.Props.ProfileMeasure
import Mathlib.Analysis.Calculus.Deriv.MeanValue

/-! # What the digits of a NACA designation mean (`bladex/profile/nacaprofile.py`) -/

namespace BladeX
open Spec
namespace Naca

/-! ### The half-thickness -/

/-- The half-thickness over `5 t`, in terms of the root `s` of the abscissa. -/
private noncomputable def F (s : ℝ) : ℝ := 0.2969 * s - 0.1260 * s ^ 2 - 0.3516 * s ^ 4 + 0.2843 * s ^ 6 - 0.1036 * s ^ 8

private noncomputable def F' (s : ℝ) : ℝ := 0.2969 - 0.2520 * s - 1.4064 * s ^ 3 + 1.7058 * s ^ 5 - 0.8288 * s ^ 7

private theorem F_deriv (s : ℝ) : HasDerivAt F (F' s) s := by
  have h : HasDerivAt F (0.2969 * 1 - 0.1260 * (2 * s ^ 1 * 1) - 0.3516 * (4 * s ^ 3 * 1) + 0.2843 * (6 * s ^ 5 * 1) - 0.1036 * (8 * s ^ 7 * 1)) s := by
    unfold F
    have h1 := hasDerivAt_id' s
    exact ((((h1.const_mul 0.2969).sub ((h1.pow 2).const_mul 0.1260)).sub ((h1.pow 4).const_mul 0.3516)).add
      ((h1.pow 6).const_mul 0.2843)).sub ((h1.pow 8).const_mul 0.1036)
  convert h using 1
  unfold F'
  norm_num
  ring

private theorem F'_anti {a b : ℝ} (ha : 0 ≤ a) (hab : a ≤ b) : F' b ≤ F' a := by
  have hd : ∀ s, HasDerivAt F' (-0.2520 - 4.2192 * s ^ 2 + 8.529 * s ^ 4 - 5.8016 * s ^ 6) s := by
    intro s
    have h1 := hasDerivAt_id' s
    have h : HasDerivAt F' (0 - 0.2520 * 1 - 1.4064 * (3 * s ^ 2 * 1) + 1.7058 * (5 * s ^ 4 * 1) - 0.8288 * (7 * s ^ 6 * 1)) s := by
      unfold F'
      exact (((((hasDerivAt_const s (0.2969 : ℝ)).sub (h1.const_mul 0.2520))).sub ((h1.pow 3).const_mul 1.4064)).add
        ((h1.pow 5).const_mul 1.7058)).sub ((h1.pow 7).const_mul 0.8288)
    convert h using 1
    norm_num
    ring
  have : Antitone F' := by
    apply antitone_of_deriv_nonpos (fun s => (hd s).differentiableAt)
    intro s
    rw [(hd s).deriv]
    have : (0:ℝ) ≤ s ^ 2 := sq_nonneg s
    have h2 : 0 ≤ s ^ 2 * (5.8016 * (s ^ 2 - 0.735) ^ 2 + 1.08) := by positivity
    nlinarith [h2]
  exact this hab

private theorem half_F (t x : ℝ) (h0 : 0 ≤ x) : nacaHalfThickness t x = 5 * t * F (Real.sqrt x) := by
  unfold nacaHalfThickness F
  have h := Real.sq_sqrt h0
  have h2 : Real.sqrt x ^ 4 = x ^ 2 := by rw [show (4 : ℕ) = 2 * 2 from rfl, pow_mul, h]
  have h3 : Real.sqrt x ^ 6 = x ^ 3 := by rw [show (6 : ℕ) = 2 * 3 from rfl, pow_mul, h]
  have h4 : Real.sqrt x ^ 8 = x ^ 4 := by rw [show (8 : ℕ) = 2 * 4 from rfl, pow_mul, h]
  rw [h, h2, h3, h4]

/-- **C94** A foil of relative thickness `t` is nowhere thicker than `1.0002 t`, and within 2.5 % of the chord of the 30 %
station it is at least `0.995 t` thick. -/
theorem C94_half_thickness (t x : ℝ) (ht : 0 ≤ t) :
    (0 ≤ x → x ≤ 1 → 2 * nacaHalfThickness t x ≤ 1.0002 * t) ∧ (|x - 0.3| ≤ 1 / 40 → 0.995 * t ≤ 2 * nacaHalfThickness t x) := by
  constructor
  · intro h0 h1
    unfold nacaHalfThickness
    have hs : 0.2969 * Real.sqrt x ≤ 0.2713918 * x + 0.0812024 := by
      have h := Real.sq_sqrt h0
      nlinarith [sq_nonneg (Real.sqrt x - 0.547)]
    have hp : 0.2713918 * x + 0.0812024 - 0.1260 * x - 0.3516 * x ^ 2 + 0.2843 * x ^ 3 - 0.1036 * x ^ 4 ≤ 0.10002 := by
      nlinarith [mul_nonneg (sq_nonneg (x - 0.3)) (show 0 ≤ 0.1036 * (x - 1.07) ^ 2 + 0.1 by positivity), sq_nonneg (x - 0.3)]
    nlinarith [hs, hp]
  · intro h
    rw [abs_le] at h
    have h0 : 0 ≤ x := by norm_num at h; linarith [h.1]
    unfold nacaHalfThickness
    have hs1 : 0.524 ≤ Real.sqrt x := Real.le_sqrt_of_sq_le (by norm_num at h ⊢; linarith [h.1])
    have hs2 : Real.sqrt x ≤ 0.571 := Real.sqrt_le_iff.2 ⟨by norm_num, by norm_num at h ⊢; linarith [h.2]⟩
    have hs : (x + 0.299204) / 1.095 ≤ Real.sqrt x := by
      have h := Real.sq_sqrt h0
      rw [div_le_iff₀ (by norm_num)]
      nlinarith [mul_nonneg (sub_nonneg.2 hs1) (sub_nonneg.2 hs2)]
    have hp : 0.0995 ≤ 0.2969 * ((x + 0.299204) / 1.095) - 0.1260 * x - 0.3516 * x ^ 2 + 0.2843 * x ^ 3 - 0.1036 * x ^ 4 := by
      obtain ⟨y, rfl⟩ : ∃ y, x = 0.3 + y := ⟨x - 0.3, by ring⟩
      obtain ⟨h1, h2⟩ := h
      have h1 : -(1 / 40) ≤ y := by linarith
      have h2 : y ≤ 1 / 40 := by linarith
      have e2 : y ^ 2 ≤ 1 / 1600 := by nlinarith
      have e3 : 0 ≤ y ^ 2 * (y + 1 / 40) := mul_nonneg (sq_nonneg y) (by linarith)
      have e4 : 0 ≤ y ^ 2 * (1 / 1600 - y ^ 2) := mul_nonneg (sq_nonneg y) (by linarith)
      have e : 0.2969 * ((0.3 + y + 0.299204) / 1.095) - 0.1260 * (0.3 + y) - 0.3516 * (0.3 + y) ^ 2 + 0.2843 * (0.3 + y) ^ 3 -
          0.1036 * (0.3 + y) ^ 4 = (0.2969 * (0.599204 / 1.095) - 0.06260706) + (0.2969 / 1.095 - 0.2713878) * y - 0.151674 * y ^ 2 +
          0.15998 * y ^ 3 - 0.1036 * y ^ 4 := by ring
      have e3' : -(1 / 40) * y ^ 2 ≤ y ^ 3 := by linarith [show y ^ 2 * (y + 1 / 40) = y ^ 3 + 1 / 40 * y ^ 2 by ring]
      have e4' : y ^ 4 ≤ 1 / 1600 * y ^ 2 := by linarith [show y ^ 2 * (1 / 1600 - y ^ 2) = 1 / 1600 * y ^ 2 - y ^ 4 by ring]
      rw [e]
      norm_num at *
      linarith
    nlinarith [hs, hp]

/-- **C94** A foil is thickest at 30 % of the chord: the half-thickness rises up to 29.92 % and falls from 29.98 % on. -/
theorem C94_thickest (t : ℝ) (ht : 0 < t) : StrictMonoOn (nacaHalfThickness t) (Set.Icc 0 0.2992) ∧
    StrictAntiOn (nacaHalfThickness t) (Set.Icc 0.2998 1) := by
  have h1 : (0 : ℝ) < F' 0.547 := by unfold F'; norm_num
  have h2 : F' 0.5475 < 0 := by unfold F'; norm_num
  have m1 : StrictMonoOn F (Set.Icc 0 0.547) := by
    apply strictMonoOn_of_deriv_pos (convex_Icc _ _) (fun s _ => (F_deriv s).continuousAt.continuousWithinAt)
    intro s hs
    rw [interior_Icc] at hs
    rw [(F_deriv s).deriv]
    exact lt_of_lt_of_le h1 (F'_anti hs.1.le hs.2.le)
  have m2 : StrictAntiOn F (Set.Icc 0.5475 1) := by
    apply strictAntiOn_of_deriv_neg (convex_Icc _ _) (fun s _ => (F_deriv s).continuousAt.continuousWithinAt)
    intro s hs
    rw [interior_Icc] at hs
    rw [(F_deriv s).deriv]
    exact lt_of_le_of_lt (F'_anti (by norm_num) hs.1.le) h2
  constructor
  · intro x hx y hy hxy
    rw [half_F t x hx.1, half_F t y hy.1]
    have : F (Real.sqrt x) < F (Real.sqrt y) := by
      refine m1 ⟨Real.sqrt_nonneg x, Real.sqrt_le_iff.2 ⟨by norm_num, by have := hx.2; norm_num at this ⊢; linarith⟩⟩
        ⟨Real.sqrt_nonneg y, Real.sqrt_le_iff.2 ⟨by norm_num, by have := hy.2; norm_num at this ⊢; linarith⟩⟩ (Real.sqrt_lt_sqrt hx.1 hxy)
    nlinarith
  · intro x hx y hy hxy
    have hx0 : 0 ≤ x := le_trans (by norm_num) hx.1
    have hy0 : 0 ≤ y := le_trans (by norm_num) hy.1
    rw [half_F t x hx0, half_F t y hy0]
    have : F (Real.sqrt y) < F (Real.sqrt x) := by
      refine m2 ⟨Real.le_sqrt_of_sq_le (by have := hx.1; norm_num at this ⊢; linarith), Real.sqrt_le_iff.2 ⟨by norm_num, by have := hx.2; norm_num; linarith⟩⟩
        ⟨Real.le_sqrt_of_sq_le (by have := hy.1; norm_num at this ⊢; linarith), Real.sqrt_le_iff.2 ⟨by norm_num, by have := hy.2; norm_num; linarith⟩⟩
        (Real.sqrt_lt_sqrt hx0 hxy)
    nlinarith

example : 2 * nacaHalfThickness 0.12 0.5 ≤ 1.0002 * 0.12 ∧ 0.995 * 0.12 ≤ 2 * nacaHalfThickness 0.12 0.31 ∧
    nacaHalfThickness 0.12 0.2 < nacaHalfThickness 0.12 0.25 ∧ nacaHalfThickness 0.12 1 < nacaHalfThickness 0.12 0.5 :=
  ⟨(C94_half_thickness 0.12 0.5 (by norm_num)).1 (by norm_num) (by norm_num),
    (C94_half_thickness 0.12 0.31 (by norm_num)).2 (by rw [abs_le]; norm_num),
    (C94_thickest 0.12 (by norm_num)).1 ⟨by norm_num, by norm_num⟩ ⟨by norm_num, by norm_num⟩ (by norm_num),
    (C94_thickest 0.12 (by norm_num)).2 ⟨by norm_num, by norm_num⟩ ⟨by norm_num, by norm_num⟩ (by norm_num)⟩

/-! ### The foils -/

/-- The last two characters of an accepted designation are the thickness. -/
private theorem parts {look : LookUp} {digits : List Char} {n : Nat} {cosine : Bool} {P : Profile}
    (h : generateCoordinates look digits n cosine = .ok P) :
    ∃ pre a b v, digits = pre ++ [a, b] ∧ TwoChars a b v ∧
      ∃ c θ : ℝ → ℝ, P = spread n (nacaHalfThickness (v / 100)) c (fun x => Real.arctan (θ x)) := by
  have key : ∀ (q : Prop) [Decidable q] (f : ℝ → ℝ), (if q then fun _ => 0 else fun a => Real.arctan (f a)) =
      (fun x : ℝ => Real.arctan ((if q then fun _ => 0 else f : ℝ → ℝ) x)) := by
    intro q _ f
    funext x
    split_ifs <;> simp
  rcases generated_cases h with ⟨d0, d1, d2, d3, v, rfl, h0, h1, hv⟩ | ⟨d0, d1, d2, d3, d4, v, rfl, h0, h1, h2, hs, hv⟩
  · change coords4 d0 d1 [d2, d3] n cosine = .ok P at h
    rw [coords4_of h0 h1 hv] at h
    refine ⟨[d0, d1], d2, d3, v, rfl, (numVal_iff _ _ _).1 hv, (if dig d1 = 0 then fun _ => 0 else nacaCamber4 (dig d0 / 100) (dig d1 / 10)),
      (if dig d1 = 0 ∨ cosine = false then fun _ => 0 else slopeFn4 (dig d0 / 100) (dig d1 / 10)), ?_⟩
    rw [← Except.ok.inj h, key]
  · change coords5 look d0 d1 d2 [d3, d4] n cosine = .ok P at h
    rw [coords5_of look h0 h1 h2 hv hs] at h
    refine ⟨[d0, d1, d2], d3, d4, v, rfl, (numVal_iff _ _ _).1 hv, (if dig d1 = 0 then fun _ => 0
        else fun a => (if cosine then dig d0 * 0.15 / 0.3 else 1) *
          nacaCamber5 (look (decide (dig d2 = 1)) (5 * dig d1 / 100)).1 (look (decide (dig d2 = 1)) (5 * dig d1 / 100)).2 a),
      (if dig d1 = 0 ∨ cosine = false then fun _ => 0 else slopeFn5 (look (decide (dig d2 = 1)) (5 * dig d1 / 100)).1
          (look (decide (dig d2 = 1)) (5 * dig d1 / 100)).2), ?_⟩
    rw [← Except.ok.inj h, key]

private theorem last_two {pre pre' : List Char} {a b a' b' : Char} (h : pre ++ [a, b] = pre' ++ [a', b']) : a = a' ∧ b = b' := by
  have h1 := congrArg List.reverse h
  simp at h1
  exact ⟨h1.2.1, h1.1⟩

/-- The grid has a station within half a step of 0.3. -/
private theorem near (n : Nat) (hn : 21 ≤ n) : ∃ i : Nat, i < n ∧ |(i : ℝ) / ((n : ℝ) - 1) - 0.3| ≤ 1 / 40 := by
  have hn' : (21 : ℝ) ≤ n := by exact_mod_cast hn
  have hp : 0 < (n : ℝ) - 1 := by linarith
  refine ⟨⌊0.3 * ((n : ℝ) - 1) + 1 / 2⌋₊, ?_, ?_⟩
  · have : (⌊0.3 * ((n : ℝ) - 1) + 1 / 2⌋₊ : ℝ) ≤ 0.3 * ((n : ℝ) - 1) + 1 / 2 := Nat.floor_le (by positivity)
    have h2 : (⌊0.3 * ((n : ℝ) - 1) + 1 / 2⌋₊ : ℝ) < n := by linarith
    exact_mod_cast h2
  · have h1 : (⌊0.3 * ((n : ℝ) - 1) + 1 / 2⌋₊ : ℝ) ≤ 0.3 * ((n : ℝ) - 1) + 1 / 2 := Nat.floor_le (by positivity)
    have h2 : 0.3 * ((n : ℝ) - 1) + 1 / 2 < (⌊0.3 * ((n : ℝ) - 1) + 1 / 2⌋₊ : ℝ) + 1 := Nat.lt_floor_add_one _
    set k := (⌊0.3 * ((n : ℝ) - 1) + 1 / 2⌋₊ : ℝ)
    have e : k / ((n : ℝ) - 1) - 0.3 = (k - 0.3 * ((n : ℝ) - 1)) / ((n : ℝ) - 1) := by field_simp
    rw [e, abs_le]
    constructor
    · rw [le_div_iff₀ hp]; linarith
    · rw [div_le_iff₀ hp]; linarith

private theorem station {n i : Nat} (hi : i < n) : (linspaceN (0 : ℝ) 1 n)[i]? = some ((i : ℝ) / ((n : ℝ) - 1)) := by
  rw [List.getElem?_eq_getElem (by rw [linspaceN_length]; exact hi), linspaceN_getElem]
  congr 1
  ring

theorem station_range {n i : Nat} (hn : 2 ≤ n) (hi : i < n) : 0 ≤ (i : ℝ) / ((n : ℝ) - 1) ∧ (i : ℝ) / ((n : ℝ) - 1) ≤ 1 := by
  have h1 : (2 : ℝ) ≤ n := by exact_mod_cast hn
  have h2 : (i : ℝ) + 1 ≤ n := by exact_mod_cast hi
  constructor
  · apply div_nonneg (Nat.cast_nonneg i); linarith
  · rw [div_le_one (by linarith)]; linarith

/-- Two characters stand for one number at most. -/
theorem two_unique {a b : Char} {v w : ℝ} (h : TwoChars a b v) (h' : TwoChars a b w) : v = w := by
  have := (numVal_iff a b v).2 h
  rw [(numVal_iff a b w).2 h'] at this
  exact (Except.ok.inj this).symm

private theorem half_abs {t x : ℝ} (h0 : 0 ≤ x) (h1 : x ≤ 1) : |nacaHalfThickness t x| = nacaHalfThickness |t| x := by
  rcases le_total 0 t with h | h
  · rw [abs_of_nonneg h, abs_of_nonneg (half_nonneg h h0 h1)]
  · have e : nacaHalfThickness (-t) x = -nacaHalfThickness t x := by unfold nacaHalfThickness; ring
    have := half_nonneg (neg_nonneg.2 h) h0 h1
    rw [abs_of_nonpos h, abs_of_nonpos (by linarith), e]

/-- **C94** The number in the last two places (`TwoChars`: two digits, as a rule) is the thickness in percent of the chord, for every accepted
designation, with at least 21 points and either spacing: corresponding points of the two surfaces are nowhere further apart than 1.0002 times that, and
somewhere at least 0.995 times. -/
theorem C94_thickness_digits (american : Profile → Res Arr) (look : LookUp) (pre : List Char) (a b : Char) (v : ℝ) (hv : TwoChars a b v) (n : Nat) (hn : 21 ≤ n)
    (cosine : Bool) (Q : Profile) (h : ctor american look (.str (pre ++ [a, b])) (.int n) cosine = .ok Q) :
    (∀ (i : Nat) (U L : Pt), Q.upper[i]? = some U → Q.lower[i]? = some L →
      Real.sqrt ((U.1 - L.1) ^ 2 + (U.2 - L.2) ^ 2) ≤ 1.0002 * (|v| / 100)) ∧
    ∃ (i : Nat) (U L : Pt), Q.upper[i]? = some U ∧ Q.lower[i]? = some L ∧
      0.995 * (|v| / 100) ≤ Real.sqrt ((U.1 - L.1) ^ 2 + (U.2 - L.2) ^ 2) := by
  obtain ⟨P, hP, x1, x2, x3, x4⟩ := naca_ctor_coords h
  obtain ⟨pre', a', b', v', he, hv', c, θ, rfl⟩ := parts hP
  obtain ⟨rfl, rfl⟩ := last_two he
  obtain rfl : v' = v := two_unique hv' hv
  have hpos : 0 ≤ |v' / 100| := abs_nonneg _
  rw [show |v'| / 100 = |v' / 100| by rw [abs_div, abs_of_pos (show (0 : ℝ) < 100 by norm_num)]]
  set t := v' / 100 with ht
  have hup : ∀ i, i < n → Q.upper[i]? = some ((i : ℝ) / ((n : ℝ) - 1) - nacaHalfThickness t (i / (n - 1)) * Real.sin (Real.arctan (θ (i / (n - 1)))),
      c (i / (n - 1)) + nacaHalfThickness t (i / (n - 1)) * Real.cos (Real.arctan (θ (i / (n - 1))))) := by
    intro i hi
    simp [Profile.upper, x1, x3, spread, List.getElem?_zip_eq_some, station hi]
  have hlo : ∀ i, i < n → Q.lower[i]? = some ((i : ℝ) / ((n : ℝ) - 1) + nacaHalfThickness t (i / (n - 1)) * Real.sin (Real.arctan (θ (i / (n - 1)))),
      c (i / (n - 1)) - nacaHalfThickness t (i / (n - 1)) * Real.cos (Real.arctan (θ (i / (n - 1))))) := by
    intro i hi
    simp [Profile.lower, x2, x4, spread, List.getElem?_zip_eq_some, station hi]
  have hd : ∀ i (hi : i < n), ∀ U L : Pt, Q.upper[i]? = some U → Q.lower[i]? = some L →
      Real.sqrt ((U.1 - L.1) ^ 2 + (U.2 - L.2) ^ 2) = 2 * nacaHalfThickness |t| (i / (n - 1)) := by
    intro i hi U L hU hL
    rw [hup i hi] at hU
    rw [hlo i hi] at hL
    obtain rfl := Option.some.inj hU
    obtain rfl := Option.some.inj hL
    obtain ⟨r0, r1⟩ := station_range (by omega) hi
    rw [← half_abs r0 r1]
    rw [show ∀ x y s k u v : ℝ, (x - y * s - (x + y * s)) ^ 2 + (u + y * k - (u - y * k)) ^ 2 = (2 * y) ^ 2 * (s ^ 2 + k ^ 2) from
      fun x y s k u v => by ring]
    · rw [Real.sin_sq_add_cos_sq, mul_one, Real.sqrt_sq_eq_abs, abs_mul, abs_two]
    · exact 0
  constructor
  · intro i U L hU hL
    have hi : i < n := by
      by_contra hc
      have : Q.upper[i]? = none := by
        rw [List.getElem?_eq_none_iff]
        simp [Profile.upper, x1, x3, spread, linspaceN_length]
        omega
      rw [this] at hU; cases hU
    obtain ⟨r0, r1⟩ := station_range (by omega) hi
    rw [hd i hi U L hU hL]
    exact (C94_half_thickness |t| _ hpos).1 r0 r1
  · obtain ⟨i, hi, hx⟩ := near n hn
    refine ⟨i, _, _, hup i hi, hlo i hi, ?_⟩
    rw [hd i hi _ _ (hup i hi) (hlo i hi)]
    exact (C94_half_thickness |t| _ hpos).2 hx

/-- **C94** `max_thickness()` of a foil whose surfaces share their abscissae (symmetric, or linear spacing) is the thickness of
its designation: between 0.995 and 1.0002 times. -/
theorem C94_max_thickness (american : Profile → Res Arr) (look : LookUp) (pre : List Char) (a b : Char) (v : ℝ) (hv : TwoChars a b v) (n : Nat) (hn : 21 ≤ n)
    (cosine : Bool) (Q : Profile) (h : ctor american look (.str (pre ++ [a, b])) (.int n) cosine = .ok Q) (hx : Q.xdown = Q.xup) :
    ∃ m, Q.maxThickness none = .ok m ∧ 0.995 * (|v| / 100) ≤ m ∧ m ≤ 1.0002 * (|v| / 100) := by
  obtain ⟨P, hP, x1, x2, x3, x4⟩ := naca_ctor_coords h
  obtain ⟨pre', a', b', v', he, hv', c, θ, rfl⟩ := parts hP
  obtain ⟨rfl, rfl⟩ := last_two he
  obtain rfl : v' = v := two_unique hv' hv
  have hpos : 0 ≤ |v' / 100| := abs_nonneg _
  rw [show |v'| / 100 = |v' / 100| by rw [abs_div, abs_of_pos (show (0 : ℝ) < 100 by norm_num)]]
  set t := v' / 100 with ht
  have hS : Q.SameX := by
    refine ⟨hx, ?_, ?_, ?_⟩
    · simp [x1, x2, x3, x4, spread, linspaceN_length]
    · simp [x1, x2, x3, x4, spread, linspaceN_length]
    · intro h0
      have := congrArg List.length h0
      simp [x1, spread, linspaceN_length] at this
      omega
  obtain ⟨m, hm, ⟨i, u, d, hu, hd, e⟩, hb⟩ := C09_max_thickness Q hS
  have yu : ∀ i, i < n → Q.yup[i]? = some (c (i / (n - 1)) + nacaHalfThickness t (i / (n - 1)) * Real.cos (Real.arctan (θ (i / (n - 1))))) := by
    intro i hi
    simp [x3, spread, station hi]
  have yd : ∀ i, i < n → Q.ydown[i]? = some (c (i / (n - 1)) - nacaHalfThickness t (i / (n - 1)) * Real.cos (Real.arctan (θ (i / (n - 1))))) := by
    intro i hi
    simp [x4, spread, station hi]
  refine ⟨m, hm, ?_, ?_⟩
  · obtain ⟨j, hj, hnear⟩ := near n hn
    obtain ⟨r0, r1⟩ := station_range (by omega) hj
    have hlow := (C94_half_thickness |t| _ hpos).2 hnear
    have hbj := hb j _ _ (yu j hj) (yd j hj)
    have hh := half_nonneg hpos r0 r1
    have hxx : nacaHalfThickness t (j / (n - 1)) * Real.sin (Real.arctan (θ (j / (n - 1)))) = 0 := by
      have e1 : Q.xup[j]? = some ((j : ℝ) / ((n : ℝ) - 1) - nacaHalfThickness t (j / (n - 1)) * Real.sin (Real.arctan (θ (j / (n - 1))))) := by
        simp [x1, spread, station hj]
      have e2 : Q.xdown[j]? = some ((j : ℝ) / ((n : ℝ) - 1) + nacaHalfThickness t (j / (n - 1)) * Real.sin (Real.arctan (θ (j / (n - 1))))) := by
        simp [x2, spread, station hj]
      rw [hx, e1] at e2
      have := Option.some.inj e2
      linarith
    have hcc : nacaHalfThickness t (j / (n - 1)) * Real.cos (Real.arctan (θ (j / (n - 1)))) = nacaHalfThickness t (j / (n - 1)) := by
      rcases mul_eq_zero.1 hxx with h0 | h0
      · rw [h0, zero_mul]
      · have hc := Real.cos_arctan_pos (θ (j / (n - 1)))
        have := Real.sin_sq_add_cos_sq (Real.arctan (θ (j / (n - 1))))
        rw [h0] at this
        have : Real.cos (Real.arctan (θ (j / (n - 1)))) = 1 := by nlinarith
        rw [this, mul_one]
    rw [hcc] at hbj
    rw [show ∀ u v : ℝ, u + v - (u - v) = 2 * v from fun u v => by ring, abs_mul, abs_two, half_abs r0 r1] at hbj
    linarith
  · have hi : i < n := by
      by_contra hc
      have : Q.yup[i]? = none := by
        rw [List.getElem?_eq_none_iff]
        simp [x3, spread, linspaceN_length]
        omega
      rw [this] at hu; cases hu
    obtain ⟨r0, r1⟩ := station_range (by omega) hi
    rw [yu i hi] at hu
    rw [yd i hi] at hd
    obtain rfl := Option.some.inj hu
    obtain rfl := Option.some.inj hd
    rw [← e, show ∀ u v : ℝ, u + v - (u - v) = 2 * v from fun u v => by ring]
    have hh := half_nonneg hpos r0 r1
    have hc := Real.cos_arctan_pos (θ (i / (n - 1)))
    have hc1 := Real.cos_le_one (Real.arctan (θ (i / (n - 1))))
    rw [abs_mul, abs_two, abs_mul, half_abs r0 r1, abs_of_pos hc]
    have := (C94_half_thickness |t| _ hpos).1 r0 r1
    nlinarith

/-! ### The position digit of the 5-digit series -/

private theorem peak_eq {m : ℝ} (hm : 0 < m) : 3 * nacaPeak5 m ^ 2 - 6 * m * nacaPeak5 m + m ^ 2 * (3 - m) = 0 := by
  unfold nacaPeak5
  have h := Real.sq_sqrt (show 0 ≤ m / 3 by positivity)
  have : 3 * (m * (1 - Real.sqrt (m / 3))) ^ 2 - 6 * m * (m * (1 - Real.sqrt (m / 3))) + m ^ 2 * (3 - m) = m ^ 2 * (3 * Real.sqrt (m / 3) ^ 2 - m) := by ring
  rw [this, h]; ring

private theorem peak_range {m : ℝ} (hm : 0 < m) (hm3 : m < 3) : 0 < nacaPeak5 m ∧ nacaPeak5 m < m := by
  have h1 : 0 < Real.sqrt (m / 3) := Real.sqrt_pos.2 (by positivity)
  have h2 : Real.sqrt (m / 3) < 1 := by
    rw [Real.sqrt_lt' one_pos]; rw [div_lt_iff₀ (by norm_num)]; linarith
  unfold nacaPeak5
  constructor
  · exact mul_pos hm (by linarith)
  · nlinarith

/-- **C94** The standard 5-digit camber line rises up to its peak and falls from there on. -/
theorem C94_camber5_peak (m k : ℝ) (hm : 0 < m) (hm1 : m < 1) (hk : 0 < k) :
    StrictMonoOn (nacaCamber5 m k) (Set.Icc 0 (nacaPeak5 m)) ∧ StrictAntiOn (nacaCamber5 m k) (Set.Icc (nacaPeak5 m) 1) := by
  obtain ⟨p0, pm⟩ := peak_range hm (by linarith)
  have he := peak_eq hm
  set p := nacaPeak5 m
  -- the difference of two values of the cubic
  have cub : ∀ x y : ℝ, (y ^ 3 - 3 * m * y ^ 2 + m ^ 2 * (3 - m) * y) - (x ^ 3 - 3 * m * x ^ 2 + m ^ 2 * (3 - m) * x) =
      (y - x) * ((x ^ 2 + x * y + y ^ 2) - 3 * m * (x + y) + (6 * m * p - 3 * p ^ 2)) := by
    intro x y
    have : m ^ 2 * (3 - m) = 6 * m * p - 3 * p ^ 2 := by linarith
    rw [this]; ring
  have left : ∀ x y, 0 ≤ x → x < y → y ≤ p → 0 < (x ^ 2 + x * y + y ^ 2) - 3 * m * (x + y) + (6 * m * p - 3 * p ^ 2) := by
    intro x y hx hxy hy
    have a : 0 ≤ p - y := by linarith
    have b : 0 < p - x := by linarith
    have c : 0 < m - p := by linarith
    nlinarith [mul_nonneg a a, mul_pos b b, mul_nonneg a b.le, mul_pos b c, mul_nonneg a c.le]
  have right : ∀ x y, p ≤ x → x < y → y ≤ m → (x ^ 2 + x * y + y ^ 2) - 3 * m * (x + y) + (6 * m * p - 3 * p ^ 2) < 0 := by
    intro x y hx hxy hy
    have a : 0 ≤ x - p := by linarith
    have b : 0 < y - p := by linarith
    have c : 0 ≤ m - y := by linarith
    have d : 0 < m - x := by linarith
    nlinarith [mul_nonneg a c, mul_pos b d, mul_nonneg b.le c, mul_nonneg a d.le]
  have inside : ∀ x, x ≤ m → nacaCamber5 m k x = k / 6 * (x ^ 3 - 3 * m * x ^ 2 + m ^ 2 * (3 - m) * x) := by
    intro x hx; simp [nacaCamber5, hx]
  have outside : ∀ x, m ≤ x → nacaCamber5 m k x = k * m ^ 3 / 6 * (1 - x) := by
    intro x hx
    rcases eq_or_lt_of_le hx with rfl | hx
    · simp only [nacaCamber5, le_refl, if_true]; ring
    · simp [nacaCamber5, not_le.2 hx]
  have fall1 : ∀ x y, p ≤ x → x < y → y ≤ m → nacaCamber5 m k y < nacaCamber5 m k x := by
    intro x y hx hxy hy
    rw [inside x (by linarith), inside y hy]
    have := cub x y
    have r := right x y hx hxy hy
    have : (y ^ 3 - 3 * m * y ^ 2 + m ^ 2 * (3 - m) * y) - (x ^ 3 - 3 * m * x ^ 2 + m ^ 2 * (3 - m) * x) < 0 := by
      rw [cub]; exact mul_neg_of_pos_of_neg (by linarith) r
    exact mul_lt_mul_of_pos_left (by linarith) (by positivity)
  have fall2 : ∀ x y, m ≤ x → x < y → nacaCamber5 m k y < nacaCamber5 m k x := by
    intro x y hx hxy
    rw [outside x hx, outside y (by linarith)]
    exact mul_lt_mul_of_pos_left (by linarith) (by positivity)
  constructor
  · intro x hx y hy hxy
    rw [inside x (by linarith [hx.2]), inside y (by linarith [hy.2])]
    have r := left x y hx.1 hxy hy.2
    have : 0 < (y ^ 3 - 3 * m * y ^ 2 + m ^ 2 * (3 - m) * y) - (x ^ 3 - 3 * m * x ^ 2 + m ^ 2 * (3 - m) * x) := by
      rw [cub]; exact mul_pos (by linarith) r
    exact mul_lt_mul_of_pos_left (by linarith) (by positivity)
  · intro x hx y hy hxy
    rcases le_or_gt y m with h1 | h1
    · exact fall1 x y hx.1 hxy h1
    · rcases lt_or_ge x m with h2 | h2
      · exact (fall2 m y le_rfl h1).trans (fall1 x m hx.1 h2 le_rfl)
      · exact fall2 x y h2 hxy

/-- **C94** For the constants of the standard series the peak is where the second digit says, to 0.0002 of the chord; for those
of the reflexed series, with which the code uses the same formula, it is at least 0.0029 behind. -/
theorem C94_position (P m k : ℝ) :
    ((P, m, k) ∈ naca5Standard → 0 < m ∧ m < 1 ∧ 0 < k ∧ |nacaPeak5 m - P / 20| ≤ 0.0002) ∧
    ((P, m, k) ∈ naca5Reflex → 0 < m ∧ m < 1 ∧ 0 < k ∧ P / 20 + 0.0029 ≤ nacaPeak5 m) := by
  have root : ∀ a b x : ℝ, 0 ≤ a → a ^ 2 ≤ x → 0 ≤ b → x ≤ b ^ 2 → a ≤ Real.sqrt x ∧ Real.sqrt x ≤ b := by
    intro a b x ha h1 hb h2
    exact ⟨Real.le_sqrt_of_sq_le h1, Real.sqrt_le_iff.2 ⟨hb, h2⟩⟩
  constructor
  · intro h
    simp only [naca5Standard, List.mem_cons, Prod.mk.injEq, List.not_mem_nil, or_false] at h
    rcases h with ⟨rfl, rfl, rfl⟩ | ⟨rfl, rfl, rfl⟩ | ⟨rfl, rfl, rfl⟩ | ⟨rfl, rfl, rfl⟩ | ⟨rfl, rfl, rfl⟩
    · refine ⟨by norm_num, by norm_num, by norm_num, ?_⟩
      obtain ⟨a, b⟩ := root 0.1385 0.1395 (0.0580 / 3) (by norm_num) (by norm_num) (by norm_num) (by norm_num)
      unfold nacaPeak5; rw [abs_le]; constructor <;> nlinarith
    · refine ⟨by norm_num, by norm_num, by norm_num, ?_⟩
      obtain ⟨a, b⟩ := root 0.2049 0.205 (0.1260 / 3) (by norm_num) (by norm_num) (by norm_num) (by norm_num)
      unfold nacaPeak5; rw [abs_le]; constructor <;> nlinarith
    · refine ⟨by norm_num, by norm_num, by norm_num, ?_⟩
      obtain ⟨a, b⟩ := root 0.2598 0.2599 (0.2025 / 3) (by norm_num) (by norm_num) (by norm_num) (by norm_num)
      unfold nacaPeak5; rw [abs_le]; constructor <;> nlinarith
    · refine ⟨by norm_num, by norm_num, by norm_num, ?_⟩
      obtain ⟨a, b⟩ := root 0.3109 0.311 (0.2900 / 3) (by norm_num) (by norm_num) (by norm_num) (by norm_num)
      unfold nacaPeak5; rw [abs_le]; constructor <;> nlinarith
    · refine ⟨by norm_num, by norm_num, by norm_num, ?_⟩
      obtain ⟨a, b⟩ := root 0.361 0.3611 (0.3910 / 3) (by norm_num) (by norm_num) (by norm_num) (by norm_num)
      unfold nacaPeak5; rw [abs_le]; constructor <;> nlinarith
  · intro h
    simp only [naca5Reflex, List.mem_cons, Prod.mk.injEq, List.not_mem_nil, or_false] at h
    rcases h with ⟨rfl, rfl, rfl⟩ | ⟨rfl, rfl, rfl⟩ | ⟨rfl, rfl, rfl⟩ | ⟨rfl, rfl, rfl⟩
    · refine ⟨by norm_num, by norm_num, by norm_num, ?_⟩
      obtain ⟨a, b⟩ := root 0.2 0.2083 (0.13 / 3) (by norm_num) (by norm_num) (by norm_num) (by norm_num)
      unfold nacaPeak5; nlinarith
    · refine ⟨by norm_num, by norm_num, by norm_num, ?_⟩
      obtain ⟨a, b⟩ := root 0.2 0.27 (0.2170 / 3) (by norm_num) (by norm_num) (by norm_num) (by norm_num)
      unfold nacaPeak5; nlinarith
    · refine ⟨by norm_num, by norm_num, by norm_num, ?_⟩
      obtain ⟨a, b⟩ := root 0.2 0.33 (0.318 / 3) (by norm_num) (by norm_num) (by norm_num) (by norm_num)
      unfold nacaPeak5; nlinarith
    · refine ⟨by norm_num, by norm_num, by norm_num, ?_⟩
      obtain ⟨a, b⟩ := root 0.2 0.39 (0.441 / 3) (by norm_num) (by norm_num) (by norm_num) (by norm_num)
      unfold nacaPeak5; nlinarith

/-! ### The foils of the 5-digit series -/

theorem nacaHalf_pos {t x : ℝ} (ht : 0 < t) (h0 : 0 < x) (h1 : x < 1) : 0 < nacaHalfThickness t x := by
  obtain ⟨a, b⟩ := C94_thickest t ht
  rcases le_or_gt x 0.2992 with h | h
  · rw [← half_zero t]
    exact a ⟨le_rfl, by norm_num⟩ ⟨h0.le, h⟩ h0
  · rcases le_or_gt 0.2998 x with h' | h'
    · rw [← half_one t]
      exact b ⟨h', h1.le⟩ ⟨by norm_num, le_rfl⟩ h1
    · have := (C94_half_thickness t x ht.le).2 (by rw [abs_le]; norm_num at h h' ⊢; constructor <;> linarith)
      nlinarith

private theorem scale_pos {d0 : Char} {cosine : Bool} (hl : cosine = true → dig d0 ≠ 0) :
    0 < (if cosine then dig d0 * 0.15 / 0.3 else 1 : ℝ) := by
  cases cosine
  · norm_num
  · have := lt_of_le_of_ne (dig_nonneg d0) (Ne.symm (hl rfl))
    simp only [if_true]
    positivity

/-- **C94** The second digit of a standard 5-digit foil is the position of the highest point of the mean line, in twentieths of
the chord: from station to station the line rises in front of it and falls behind it, up to 0.0002 of the chord. -/
theorem C94_foil5 (american : Profile → Res Arr) (look : LookUp) (hl : Interpolates look) (d0 d1 d2 d3 d4 : Char)
    (h0 : d0.isDigit = true) (h1 : d1.isDigit = true) (h2 : d2.isDigit = true) (h3 : d3.isDigit = true) (h4 : d4.isDigit = true)
    (hs : dig d2 = 0) (hp : dig d1 ∈ [(1 : ℝ), 2, 3, 4, 5]) (n : Nat) (hn : 2 ≤ n) (cosine : Bool) (hd : cosine = true → dig d0 ≠ 0)
    (Q : Profile) (h : ctor american look (.str [d0, d1, d2, d3, d4]) (.int n) cosine = .ok Q) (i j : Nat) (hij : i < j) (hj : j < n)
    (u d u' d' : ℝ) (hu : Q.yup[i]? = some u) (hd : Q.ydown[i]? = some d) (hu' : Q.yup[j]? = some u') (hd' : Q.ydown[j]? = some d') :
    ((j : ℝ) / (n - 1) ≤ dig d1 / 20 - 0.0002 → (u + d) / 2 < (u' + d') / 2) ∧
    (dig d1 / 20 + 0.0002 ≤ (i : ℝ) / (n - 1) → (u' + d') / 2 < (u + d) / 2) := by
  obtain ⟨m, k, hmk⟩ : ∃ m k, (dig d1, m, k) ∈ naca5Standard := by
    simp only [List.mem_cons, List.not_mem_nil, or_false] at hp
    rcases hp with e | e | e | e | e <;> rw [e] <;> simp [naca5Standard]
  obtain ⟨m0, m1, k0, hpk⟩ := (C94_position (dig d1) m k).1 hmk
  obtain ⟨Q', hQ', -, -, -, hQ⟩ := C25_published_constants american look hl d0 d1 d2 d3 d4 h0 h1 h2 h3 h4 m k (Or.inl ⟨hs, hmk⟩) n hn cosine
  obtain rfl := Except.ok.inj (hQ'.symm.trans h)
  obtain ⟨a, b, ha, hb, e⟩ := hQ i (hij.trans hj)
  obtain ⟨a', b', ha', hb', e'⟩ := hQ j hj
  obtain rfl := Option.some.inj (ha.symm.trans hu)
  obtain rfl := Option.some.inj (hb.symm.trans hd)
  obtain rfl := Option.some.inj (ha'.symm.trans hu')
  obtain rfl := Option.some.inj (hb'.symm.trans hd')
  rw [e, e']
  obtain ⟨r, f⟩ := C94_camber5_peak m k m0 m1 k0
  have sp := scale_pos (d0 := d0) (cosine := cosine) (by assumption)
  have i0 := station_range hn (hij.trans hj)
  have j0 := station_range hn hj
  have lt : (i : ℝ) / (n - 1) < (j : ℝ) / (n - 1) := by
    have h1 : (2 : ℝ) ≤ n := by exact_mod_cast hn
    exact div_lt_div_of_pos_right (by exact_mod_cast hij) (by linarith)
  rw [abs_le] at hpk
  constructor
  · intro hle
    exact mul_lt_mul_of_pos_left (r ⟨i0.1, by linarith [hpk.1]⟩ ⟨j0.1, by linarith [hpk.1]⟩ lt) sp
  · intro hle
    exact mul_lt_mul_of_pos_left (f ⟨by linarith [hpk.2], i0.2⟩ ⟨by linarith [hpk.2], j0.2⟩ lt) sp

/-- **C94** The published reflexed line without its reflex is the standard line, and with any reflex it lies below the standard
line at every point inside the chord. -/
theorem C94_reflexed_line (m k r : ℝ) (m0 : 0 < m) (m1 : m < 1) (k0 : 0 < k) :
    (∀ x, nacaReflexed m k 0 x = nacaCamber5 m k x) ∧
    (0 < r → ∀ x, 0 < x → x < 1 → nacaReflexed m k r x < nacaCamber5 m k x) := by
  constructor
  · intro x
    unfold nacaReflexed nacaCamber5
    split_ifs <;> ring
  · intro hr x hx0 hx1
    have hm : 0 < 1 - m := by linarith
    have e1 : 0 < k / 6 * (r * (1 - m) ^ 3 * x) := by positivity
    unfold nacaReflexed nacaCamber5
    split_ifs with hx
    · linear_combination e1
    · have hx' : m < x := not_le.1 hx
      have h3 : (x - m) ^ 3 < (1 - m) ^ 3 * x := by
        have hy : 0 < (1 - x) * m := by apply mul_pos <;> linarith
        have hz : x - m ≤ (1 - m) * x := by linarith
        have hw : (x - m) ^ 2 < (1 - m) ^ 2 := by nlinarith
        calc (x - m) ^ 3 = (x - m) ^ 2 * (x - m) := by ring
          _ < (1 - m) ^ 2 * (x - m) := mul_lt_mul_of_pos_right hw (by linarith)
          _ ≤ (1 - m) ^ 2 * ((1 - m) * x) := mul_le_mul_of_nonneg_left hz (by positivity)
          _ = (1 - m) ^ 3 * x := by ring
      have e2 : 0 < k / 6 * (r * ((1 - m) ^ 3 * x - (x - m) ^ 3)) := by
        have : 0 < (1 - m) ^ 3 * x - (x - m) ^ 3 := by linarith
        positivity
      linear_combination e2

/-- **C94** A 5-digit foil with third digit 1 is not reflexed: linearly spaced, its mean line is strictly above the published
reflexed line (whatever the ratio of the two constants) at every station inside the chord. -/
theorem C94_reflex_missing (american : Profile → Res Arr) (look : LookUp) (hl : Interpolates look) (d0 d1 d2 d3 d4 : Char)
    (h0 : d0.isDigit = true) (h1 : d1.isDigit = true) (h2 : d2.isDigit = true) (h3 : d3.isDigit = true) (h4 : d4.isDigit = true)
    (m k r : ℝ) (hr : 0 < r) (hs : dig d2 = 1) (hmk : (dig d1, m, k) ∈ naca5Reflex) (n : Nat) (hn : 2 ≤ n) (Q : Profile)
    (h : ctor american look (.str [d0, d1, d2, d3, d4]) (.int n) false = .ok Q) (i : Nat) (hi0 : 0 < i) (hi : i + 1 < n)
    (u d : ℝ) (hu : Q.yup[i]? = some u) (hd : Q.ydown[i]? = some d) : nacaReflexed m k r (i / (n - 1)) < (u + d) / 2 := by
  obtain ⟨m0, m1, k0, -⟩ := (C94_position (dig d1) m k).2 hmk
  obtain ⟨Q', hQ', -, -, -, hQ⟩ := C25_published_constants american look hl d0 d1 d2 d3 d4 h0 h1 h2 h3 h4 m k (Or.inr ⟨hs, hmk⟩) n hn false
  obtain rfl := Except.ok.inj (hQ'.symm.trans h)
  obtain ⟨a, b, ha, hb, e⟩ := hQ i (by omega)
  obtain rfl := Option.some.inj (ha.symm.trans hu)
  obtain rfl := Option.some.inj (hb.symm.trans hd)
  rw [e]
  simp only [Bool.false_eq_true, if_false, one_mul]
  have hn' : (i : ℝ) + 1 < n := by exact_mod_cast hi
  have hi' : (0 : ℝ) < i := by exact_mod_cast hi0
  exact (C94_reflexed_line m k r m0 m1 k0).2 hr _ (by apply div_pos <;> linarith) (by rw [div_lt_one] <;> linarith)

/-- **C94** With cosine spacing the thickness of a 5-digit foil is laid off at right angles to its mean line only if the first
digit is 2: behind the point `m`, the segment from the lower to the upper surface is perpendicular to the piece of mean line
that starts there exactly in that case. -/
theorem C94_not_normal (american : Profile → Res Arr) (look : LookUp) (hl : Interpolates look) (d0 d1 d2 d3 d4 : Char)
    (h0 : d0.isDigit = true) (h1 : d1.isDigit = true) (h2 : d2.isDigit = true) (h3 : d3.isDigit = true) (h4 : d4.isDigit = true)
    (m k : ℝ) (hs : (dig d2 = 0 ∧ (dig d1, m, k) ∈ naca5Standard) ∨ (dig d2 = 1 ∧ (dig d1, m, k) ∈ naca5Reflex))
    (ht : 0 < 10 * dig d3 + dig d4) (n : Nat) (Q : Profile)
    (h : ctor american look (.str [d0, d1, d2, d3, d4]) (.int n) true = .ok Q) (i : Nat) (hi : i + 1 < n) (him : m < (i : ℝ) / (n - 1))
    (U L U' L' : Pt) (hU : Q.upper[i]? = some U) (hL : Q.lower[i]? = some L) (hU' : Q.upper[i + 1]? = some U')
    (hL' : Q.lower[i + 1]? = some L') :
    (U.1 - L.1) * ((U'.1 + L'.1) / 2 - (U.1 + L.1) / 2) + (U.2 - L.2) * ((U'.2 + L'.2) / 2 - (U.2 + L.2) / 2) = 0 ↔ dig d0 = 2 := by
  have hmk : 0 < m ∧ 0 < k := by
    rcases hs with ⟨_, hm⟩ | ⟨_, hm⟩
    · obtain ⟨a, _, b, _⟩ := (C94_position (dig d1) m k).1 hm; exact ⟨a, b⟩
    · obtain ⟨a, _, b, _⟩ := (C94_position (dig d1) m k).2 hm; exact ⟨a, b⟩
  obtain ⟨m0, k0⟩ := hmk
  have hlook : look (decide (dig d2 = 1)) (5 * dig d1 / 100) = (m, k) := by
    rw [show 5 * dig d1 / 100 = dig d1 / 20 by ring]
    apply look_published hl
    rcases hs with ⟨hd, h⟩ | ⟨hd, h⟩
    · simpa [hd] using h
    · simpa [hd] using h
  have hb : dig d2 = 1 ∨ dig d2 = 0 := by rcases hs with ⟨hd, _⟩ | ⟨hd, _⟩ <;> simp [hd]
  have hp : dig d1 ≠ 0 := by
    intro e
    rcases hs with ⟨_, hm⟩ | ⟨_, hm⟩ <;> rw [e] at hm <;> simp [naca5Standard, naca5Reflex] at hm
  obtain ⟨P, hP, x1, x2, x3, x4⟩ := naca_ctor_coords h
  change coords5 look d0 d1 d2 [d3, d4] n true = .ok P at hP
  rw [coords5_eq look h0 h1 h2 h3 h4 hb, hlook] at hP
  simp only [hp, if_false, if_true, Bool.true_eq_false, or_self] at hP
  obtain rfl := Except.ok.inj hP
  set t := (10 * dig d3 + dig d4) / 100 with htt
  have htp : 0 < t := by positivity
  simp only [Profile.upper, Profile.lower, x1, x2, x3, x4, spread, List.getElem?_zip_eq_some, List.getElem?_map,
    station (show i < n by omega), station hi, Option.map_some, Option.some.injEq] at hU hL hU' hL'
  rw [← hU.1, ← hU.2, ← hL.1, ← hL.2, ← hU'.1, ← hU'.2, ← hL'.1, ← hL'.2]
  have hn' : (i : ℝ) + 1 < n := by exact_mod_cast hi
  have hnp : 0 < (n : ℝ) - 1 := by have : (0 : ℝ) ≤ i := Nat.cast_nonneg i; linarith
  have hx1 : (i : ℝ) / (n - 1) < 1 := by rw [div_lt_one hnp]; linarith
  have hstep : ((i + 1 : ℕ) : ℝ) / ((n : ℝ) - 1) = (i : ℝ) / (n - 1) + 1 / (n - 1) := by push_cast; ring
  have hy := nacaHalf_pos htp (m0.trans him) hx1
  have hδ : 0 < 1 / ((n : ℝ) - 1) := by positivity
  rw [hstep]
  set x := (i : ℝ) / (n - 1)
  set δ := 1 / ((n : ℝ) - 1)
  have c1 : nacaCamber5 m k x = k * m ^ 3 / 6 * (1 - x) := by simp [nacaCamber5, not_le.2 him]
  have c2 : nacaCamber5 m k (x + δ) = k * m ^ 3 / 6 * (1 - (x + δ)) := by
    have : ¬ x + δ ≤ m := by linarith
    simp [nacaCamber5, this]
  have c3 : slopeFn5 m k x = -(k * m ^ 3 / 6) := by simp only [slopeFn5, not_le.2 him, if_false]; ring
  have hsin : Real.sin (Real.arctan (slopeFn5 m k x)) = -(k * m ^ 3 / 6) * Real.cos (Real.arctan (slopeFn5 m k x)) := by
    rw [Real.sin_arctan, Real.cos_arctan, c3]; ring
  have hc := Real.cos_arctan_pos (slopeFn5 m k x)
  rw [hsin, c1, c2]
  set C := Real.cos (Real.arctan (slopeFn5 m k x))
  set y := nacaHalfThickness t x
  have e : ∀ a b c e : ℝ, (x - y * (-(k * m ^ 3 / 6) * C) - (x + y * (-(k * m ^ 3 / 6) * C))) * (((x + δ) - a + ((x + δ) + a)) / 2 -
      (x - y * (-(k * m ^ 3 / 6) * C) + (x + y * (-(k * m ^ 3 / 6) * C))) / 2) +
      (dig d0 * 0.15 / 0.3 * (k * m ^ 3 / 6 * (1 - x)) + y * C - (dig d0 * 0.15 / 0.3 * (k * m ^ 3 / 6 * (1 - x)) - y * C)) *
      ((dig d0 * 0.15 / 0.3 * (k * m ^ 3 / 6 * (1 - (x + δ))) + b + (dig d0 * 0.15 / 0.3 * (k * m ^ 3 / 6 * (1 - (x + δ))) - b)) / 2 -
        (dig d0 * 0.15 / 0.3 * (k * m ^ 3 / 6 * (1 - x)) + y * C + (dig d0 * 0.15 / 0.3 * (k * m ^ 3 / 6 * (1 - x)) - y * C)) / 2) =
      (y * C * (k * m ^ 3 / 6) * δ) * (2 - dig d0) := by
    intro a b c e; ring
  rw [e _ _ 0 0]
  have hne : y * C * (k * m ^ 3 / 6) * δ ≠ 0 := by positivity
  rw [mul_eq_zero, or_iff_right hne, sub_eq_zero, eq_comm]

private theorem dg2 : dig '2' = 2 := by show (((50 - 48 : Nat)) : ℝ) = 2; norm_num
private theorem dg3 : dig '3' = 3 := by show (((51 - 48 : Nat)) : ℝ) = 3; norm_num
private theorem dg0 : dig '0' = 0 := by show (((48 - 48 : Nat)) : ℝ) = 0; norm_num
private theorem dg1 : dig '1' = 1 := by show (((49 - 48 : Nat)) : ℝ) = 1; norm_num
private theorem twelve : TwoChars '1' '2' 12 := by
  have := TwoChars.digits (a := '1') (b := '2') rfl rfl
  rwa [dg1, dg2, show (10 * 1 + 2 : ℝ) = 12 by norm_num] at this

example (american : Profile → Res Arr) (look : LookUp) : ∃ Q, ctor american look (.str ['2', '4', '1', '2']) (.int 240) true = .ok Q ∧
    ∃ (i : Nat) (U L : Pt), Q.upper[i]? = some U ∧ Q.lower[i]? = some L ∧ 0.1194 ≤ Real.sqrt ((U.1 - L.1) ^ 2 + (U.2 - L.2) ^ 2) := by
  obtain ⟨Q, h, _⟩ := C21_four_digits american look '2' '4' '1' '2' rfl rfl rfl rfl 240 (by norm_num) true
  obtain ⟨i, U, L, hU, hL, hd⟩ := (C94_thickness_digits american look ['2', '4'] '1' '2' 12 twelve 240 (by norm_num) true Q h).2
  exact ⟨Q, h, i, U, L, hU, hL, by rw [abs_of_pos (show (0 : ℝ) < 12 by norm_num)] at hd; norm_num at hd ⊢; exact hd⟩

example (american : Profile → Res Arr) (look : LookUp) : ∃ Q, ctor american look (.str ['0', '0', '1', '2']) (.int 240) true = .ok Q ∧
    ∃ m, Q.maxThickness none = .ok m ∧ |m - 0.12| ≤ 0.0006 := by
  obtain ⟨Q, h, _⟩ := C21_four_digits american look '0' '0' '1' '2' rfl rfl rfl rfl 240 (by norm_num) true
  obtain ⟨m, hm, a, b⟩ := C94_max_thickness american look ['0', '0'] '1' '2' 12 twelve 240 (by norm_num) true Q h
    (C24_symmetric american look '0' '0' '1' '2' rfl rfl rfl rfl dg0 240 true Q h).1
  refine ⟨Q, h, m, hm, ?_⟩
  rw [abs_of_pos (show (0 : ℝ) < 12 by norm_num)] at a b
  rw [abs_le]
  norm_num at a b ⊢
  constructor <;> linarith

example (american : Profile → Res Arr) (look : LookUp) (hl : Interpolates look) :
    ∃ Q, ctor american look (.str ['2', '3', '0', '1', '2']) (.int 101) true = .ok Q ∧
      ∃ u d u' d', Q.yup[10]? = some u ∧ Q.ydown[10]? = some d ∧ Q.yup[14]? = some u' ∧ Q.ydown[14]? = some d' ∧ (u + d) / 2 < (u' + d') / 2 := by
  obtain ⟨Q, h, _, _, _, hQ⟩ := C25_published_constants american look hl '2' '3' '0' '1' '2' rfl rfl rfl rfl rfl 0.2025 15.957
    (Or.inl ⟨dg0, by rw [dg3]; simp [naca5Standard]⟩) 101 (by norm_num) true
  obtain ⟨u, d, hu, hd, -⟩ := hQ 10 (by norm_num)
  obtain ⟨u', d', hu', hd', -⟩ := hQ 14 (by norm_num)
  refine ⟨Q, h, u, d, u', d', hu, hd, hu', hd', (C94_foil5 american look hl '2' '3' '0' '1' '2' rfl rfl rfl rfl rfl dg0 (by rw [dg3]; simp) 101
    (by norm_num) true (fun _ => by rw [dg2]; norm_num) Q h 10 14 (by norm_num) (by norm_num) u d u' d' hu hd hu' hd').1 (by rw [dg3]; norm_num)⟩

example (american : Profile → Res Arr) (look : LookUp) (hl : Interpolates look) :
    ∃ Q, ctor american look (.str ['2', '3', '1', '1', '2']) (.int 101) false = .ok Q ∧
      ∃ u d, Q.yup[50]? = some u ∧ Q.ydown[50]? = some d ∧ nacaReflexed 0.2170 15.793 0.00677 (50 / 100) < (u + d) / 2 := by
  obtain ⟨Q, h, _, _, _, hQ⟩ := C25_published_constants american look hl '2' '3' '1' '1' '2' rfl rfl rfl rfl rfl 0.2170 15.793
    (Or.inr ⟨dg1, by rw [dg3]; simp [naca5Reflex]⟩) 101 (by norm_num) false
  obtain ⟨u, d, hu, hd, -⟩ := hQ 50 (by norm_num)
  have := C94_reflex_missing american look hl '2' '3' '1' '1' '2' rfl rfl rfl rfl rfl 0.2170 15.793 0.00677 (by norm_num) dg1
    (by rw [dg3]; simp [naca5Reflex]) 101 (by norm_num) Q h 50 (by norm_num) (by norm_num) u d hu hd
  refine ⟨Q, h, u, d, hu, hd, ?_⟩
  rw [show ((50 : ℕ) : ℝ) / (((101 : ℕ) : ℝ) - 1) = 50 / 100 by norm_num] at this
  exact this

example (american : Profile → Res Arr) (look : LookUp) (hl : Interpolates look) :
    ∃ Q, ctor american look (.str ['3', '3', '0', '1', '2']) (.int 101) true = .ok Q ∧
      ∃ U L U' L' : Pt, Q.upper[50]? = some U ∧ Q.lower[50]? = some L ∧ Q.upper[51]? = some U' ∧ Q.lower[51]? = some L' ∧
        (U.1 - L.1) * ((U'.1 + L'.1) / 2 - (U.1 + L.1) / 2) + (U.2 - L.2) * ((U'.2 + L'.2) / 2 - (U.2 + L.2) / 2) ≠ 0 := by
  have hm : (dig '3', (0.2025 : ℝ), (15.957 : ℝ)) ∈ naca5Standard := by rw [dg3]; simp [naca5Standard]
  obtain ⟨Q, h, ⟨e1, e2, e3⟩, hlen, _, _⟩ := C25_published_constants american look hl '3' '3' '0' '1' '2' rfl rfl rfl rfl rfl 0.2025 15.957
    (Or.inl ⟨dg0, hm⟩) 101 (by norm_num) true
  have hup : ∀ i, i < 101 → ∃ U, Q.upper[i]? = some U := by
    intro i hi
    exact ⟨_, List.getElem?_eq_getElem (by simp [Profile.upper]; omega)⟩
  have hlo : ∀ i, i < 101 → ∃ U, Q.lower[i]? = some U := by
    intro i hi
    exact ⟨_, List.getElem?_eq_getElem (by simp [Profile.lower]; omega)⟩
  obtain ⟨U, hU⟩ := hup 50 (by norm_num)
  obtain ⟨L, hL⟩ := hlo 50 (by norm_num)
  obtain ⟨U', hU'⟩ := hup 51 (by norm_num)
  obtain ⟨L', hL'⟩ := hlo 51 (by norm_num)
  refine ⟨Q, h, U, L, U', L', hU, hL, hU', hL', ?_⟩
  have := C94_not_normal american look hl '3' '3' '0' '1' '2' rfl rfl rfl rfl rfl 0.2025 15.957 (Or.inl ⟨dg0, hm⟩)
    (by rw [dg1, dg2]; norm_num) 101 Q h 50 (by norm_num) (by norm_num) U L U' L' hU hL hU' hL'
  intro h0
  have := this.1 h0
  rw [dg3] at this
  norm_num at this

end Naca
end BladeX
