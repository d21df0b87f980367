import Verif.Lemmas.Naca
import Verif.Props.ProfileParams
import Mathlib.Analysis.Calculus.Deriv.Polynomial
import Mathlib.Analysis.Calculus.Deriv.Add
import Mathlib.Analysis.Calculus.Deriv.Mul
import Mathlib.Analysis.Calculus.Deriv.Pow

/-! # C21 - C26: NACA profiles -/

namespace BladeX
open Spec Naca

/-- What the constructor does with coordinates that close at both ends. -/
theorem naca_ctor_of {american : Profile → Res Arr} {look : LookUp} {digits : List Char} {n : Nat} {cosine : Bool}
    {P : Profile} (hP : generateCoordinates look digits n cosine = .ok P) (hU : P.Uniform)
    (hE : P.Ends (0, 0) (1, 0) (0, 0) (1, 0)) :
    ∃ Q, ctor american look (.str digits) (.int n) cosine = .ok Q ∧ P.SameCoords Q := by
  have hed : P.updateEdges = .ok ((0, 0), (1, (0 + 0) / 2)) := by
    rw [Profile.updateEdges_ends ⟨hU.1, hU.2.2⟩ hE, if_neg (by norm_num)]
  obtain ⟨Q, p, hQ, _, hs, _⟩ := C14_parameters american P _ _ hed (by simp [dist2]) hU.1.symm
    (by rw [← hU.2.2, hU.2.1])
  refine ⟨Q, ?_, hs⟩
  have : ¬ ((n : Int) < 0) := by omega
  simp [ctor, checkArgs, bind, Except.bind, pure, Except.pure, throw, throwThe, MonadExceptOf.throw, hP, hQ, this]

/-- The constructor's coordinates are the generated ones. -/
theorem naca_ctor_coords {american : Profile → Res Arr} {look : LookUp} {digits : List Char} {n : Nat} {cosine : Bool}
    {Q : Profile} (h : ctor american look (.str digits) (.int n) cosine = .ok Q) :
    ∃ P, generateCoordinates look digits n cosine = .ok P ∧ P.SameCoords Q := by
  have : ¬ ((n : Int) < 0) := by omega
  simp [ctor, checkArgs, bind, Except.bind, pure, Except.pure, throw, throwThe, MonadExceptOf.throw, this] at h
  rcases hP : generateCoordinates look digits n cosine with e | P
  · rw [hP] at h; simp at h
  · rw [hP] at h
    refine ⟨P, rfl, ?_⟩
    simp only [Profile.generateParameters, bind, Except.bind, pure, Except.pure] at h
    repeat' (split at h <;> try (cases h))
    all_goals exact ⟨rfl, rfl, rfl, rfl⟩

theorem camber4_zero {m p : ℝ} (hp : 0 < p) : nacaCamber4 m p 0 = 0 := by
  simp [nacaCamber4, hp.le]

theorem camber4_one {m p : ℝ} (hp : p < 1) : nacaCamber4 m p 1 = 0 := by
  unfold nacaCamber4; rw [if_neg (not_le.2 hp)]; ring

theorem pos_of_digit {c : Char} (h : dig c ≠ 0) : 0 < dig c / 10 := by
  have := dig_nonneg c
  have : 0 < dig c := lt_of_le_of_ne this h.symm
  positivity

theorem lt_one_of_digit {c : Char} (h : c.isDigit = true) : dig c / 10 < 1 := by
  have := dig_le h; linarith

/-- **C21** for every 4-digit string, every `n ≥ 2` and both spacings the constructor succeeds with four arrays of
length `n`; both surfaces run from `(0,0)` to `(1,0)`, so the trailing edge is closed and the edge check passes. With
linear spacing the abscissae are the `n` equally spaced points of `[0,1]` on both surfaces. -/
theorem C21_four_digits (american : Profile → Res Arr) (look : LookUp) (d0 d1 d2 d3 : Char) (h0 : d0.isDigit = true)
    (h1 : d1.isDigit = true) (h2 : d2.isDigit = true) (h3 : d3.isDigit = true) (n : Nat) (hn : 2 ≤ n) (cosine : Bool) :
    ∃ Q, ctor american look (.str [d0, d1, d2, d3]) (.int n) cosine = .ok Q ∧ Q.Uniform ∧ Q.xup.length = n ∧
      Q.Ends (0, 0) (1, 0) (0, 0) (1, 0) ∧ (∃ e, Q.updateEdges = .ok e) ∧
      (cosine = false ∨ dig d1 = 0 → Q.xup = Q.xdown ∧
        ∀ i (hi : i < Q.xup.length), Q.xup[i] = i / (n - 1)) := by
  have hc := coords4_eq h0 h1 h2 h3 n cosine
  set y := nacaHalfThickness ((10 * dig d2 + dig d3) / 100) with hy
  set c : ℝ → ℝ := (if dig d1 = 0 then fun _ => 0 else nacaCamber4 (dig d0 / 100) (dig d1 / 10)) with hcd
  set θ : ℝ → ℝ := (if dig d1 = 0 ∨ cosine = false then fun _ => 0
        else fun a => Real.arctan (slopeFn4 (dig d0 / 100) (dig d1 / 10) a)) with hθ
  have c0 : c 0 = 0 := by
    rw [hcd]; split_ifs with h
    · rfl
    · exact camber4_zero (pos_of_digit h)
  have c1 : c 1 = 0 := by
    rw [hcd]; split_ifs with h
    · rfl
    · exact camber4_one (lt_one_of_digit h1)
  have hU := spread_uniform n y c θ
  have hE := spread_ends hn (c := c) θ (half_zero ((10 * dig d2 + dig d3) / 100))
    (half_one ((10 * dig d2 + dig d3) / 100))
  rw [c0, c1, ← hy] at hE
  obtain ⟨Q, hQ, x1, x2, x3, x4⟩ := naca_ctor_of (american := american) (look := look) (digits := [d0, d1, d2, d3])
    (n := n) (cosine := cosine) hc hU.1 hE
  have hUQ : Q.Uniform := by simpa [Profile.Uniform, x1, x2, x3, x4] using hU.1
  have hEQ : Q.Ends (0, 0) (1, 0) (0, 0) (1, 0) := by
    simpa [Profile.Ends, Profile.upper, Profile.lower, x1, x2, x3, x4] using hE
  refine ⟨Q, hQ, hUQ, by rw [x1]; exact hU.2, hEQ, ⟨((0, 0), (1, (0 + 0) / 2)), ?_⟩, ?_⟩
  · rw [Profile.updateEdges_ends ⟨hUQ.1, hUQ.2.2⟩ hEQ, if_neg (by norm_num)]
  · intro hlin
    have hθ0 : θ = fun _ => 0 := by rw [hθ, if_pos (by tauto)]
    have e1 : Q.xup = linspaceN 0 1 n := by rw [x1, hθ0]; simp [spread]
    have e2 : Q.xdown = linspaceN 0 1 n := by rw [x2, hθ0]; simp [spread]
    refine ⟨by rw [e1, e2], ?_⟩
    intro i hi
    simp only [e1, linspaceN_getElem]
    ring

/-- **C21** the same for 5-digit strings with reflex digit 0 or 1, provided the looked-up camber position `m` of a cambered
foil satisfies `0 ≤ m < 1`. -/
theorem C21_five_digits (american : Profile → Res Arr) (look : LookUp) (d0 d1 d2 d3 d4 : Char) (h0 : d0.isDigit = true)
    (h1 : d1.isDigit = true) (h2 : d2.isDigit = true) (h3 : d3.isDigit = true) (h4 : d4.isDigit = true)
    (hs : dig d2 = 1 ∨ dig d2 = 0)
    (hm : dig d1 ≠ 0 → 0 ≤ (look (decide (dig d2 = 1)) (dig d1 / 20)).1 ∧ (look (decide (dig d2 = 1)) (dig d1 / 20)).1 < 1)
    (n : Nat) (hn : 2 ≤ n) (cosine : Bool) :
    ∃ Q, ctor american look (.str [d0, d1, d2, d3, d4]) (.int n) cosine = .ok Q ∧ Q.Uniform ∧ Q.xup.length = n ∧
      Q.Ends (0, 0) (1, 0) (0, 0) (1, 0) ∧ (∃ e, Q.updateEdges = .ok e) := by
  have hc := coords5_eq look h0 h1 h2 h3 h4 hs n cosine
  rw [show 5 * dig d1 / 100 = dig d1 / 20 by ring] at hc
  set y := nacaHalfThickness ((10 * dig d3 + dig d4) / 100) with hy
  set m := (look (decide (dig d2 = 1)) (dig d1 / 20)).1 with hmd
  set k := (look (decide (dig d2 = 1)) (dig d1 / 20)).2 with hk
  set c : ℝ → ℝ := (if dig d1 = 0 then fun _ => 0
        else fun a => (if cosine then dig d0 * 0.15 / 0.3 else 1) * nacaCamber5 m k a) with hcd
  set θ : ℝ → ℝ := (if dig d1 = 0 ∨ cosine = false then fun _ => 0
        else fun a => Real.arctan (slopeFn5 m k a)) with hθ
  have c0 : c 0 = 0 := by
    rw [hcd]; split_ifs with h
    · rfl
    · simp [nacaCamber5, (hm h).1]
    · simp [nacaCamber5, (hm h).1]
  have c1 : c 1 = 0 := by
    rw [hcd]; split_ifs with h
    · rfl
    · simp [nacaCamber5, not_le.2 (hm h).2]
    · simp [nacaCamber5, not_le.2 (hm h).2]
  have hU := spread_uniform n y c θ
  have hE := spread_ends hn (c := c) θ (half_zero ((10 * dig d3 + dig d4) / 100))
    (half_one ((10 * dig d3 + dig d4) / 100))
  rw [c0, c1, ← hy] at hE
  obtain ⟨Q, hQ, x1, x2, x3, x4⟩ := naca_ctor_of (american := american) (look := look) (digits := [d0, d1, d2, d3, d4])
    (n := n) (cosine := cosine) hc hU.1 hE
  have hUQ : Q.Uniform := by simpa [Profile.Uniform, x1, x2, x3, x4] using hU.1
  have hEQ : Q.Ends (0, 0) (1, 0) (0, 0) (1, 0) := by
    simpa [Profile.Ends, Profile.upper, Profile.lower, x1, x2, x3, x4] using hE
  refine ⟨Q, hQ, hUQ, by rw [x1]; exact hU.2, hEQ, ⟨((0, 0), (1, (0 + 0) / 2)), ?_⟩⟩
  rw [Profile.updateEdges_ends ⟨hUQ.1, hUQ.2.2⟩ hEQ, if_neg (by norm_num)]

example : '2'.isDigit = true ∧ dig '2' = 2 ∧ dig '0' = 0 ∧ dig '1' = 1 := by
  refine ⟨rfl, ?_, ?_, ?_⟩
  · show (((50 - 48 : Nat)) : ℝ) = 2; norm_num
  · show (((48 - 48 : Nat)) : ℝ) = 0; norm_num
  · show (((49 - 48 : Nat)) : ℝ) = 1; norm_num

/-- A thickness without minus sign is not negative. -/
theorem two_nonneg {a b : Char} {v : ℝ} (h : TwoChars a b v) (hm : a ≠ '-') : 0 ≤ v := by
  cases h with
  | digits => have := dig_nonneg a; have := dig_nonneg b; positivity
  | pointAfter => exact dig_nonneg _
  | pointBefore => have := dig_nonneg b; positivity
  | plus => exact dig_nonneg _
  | minus => exact absurd rfl hm
  | blankBefore => exact dig_nonneg _
  | blankAfter => exact dig_nonneg _

/-- The result for an accepted string is a spread. -/
theorem naca_generated {look : LookUp} {digits : List Char} {n : Nat} {cosine : Bool} {P : Profile}
    (h : generateCoordinates look digits n cosine = .ok P) :
    ∃ (t : ℝ) (c θ : ℝ → ℝ), ('-' ∉ digits → 0 ≤ t) ∧ P = spread n (nacaHalfThickness t) c (fun a => Real.arctan (θ a)) := by
  rcases generated_cases h with ⟨d0, d1, d2, d3, v, rfl, h0, h1, hv⟩ | ⟨d0, d1, d2, d3, d4, v, rfl, h0, h1, h2, hs, hv⟩
  · change coords4 d0 d1 [d2, d3] n cosine = .ok P at h
    rw [coords4_of h0 h1 hv] at h
    refine ⟨v / 100, (if dig d1 = 0 then fun _ => 0 else nacaCamber4 (dig d0 / 100) (dig d1 / 10)),
      (if dig d1 = 0 ∨ cosine = false then fun _ => 0 else slopeFn4 (dig d0 / 100) (dig d1 / 10)),
      fun hm => div_nonneg (two_nonneg ((numVal_iff _ _ _).1 hv) (by rintro rfl; simp at hm)) (by norm_num), ?_⟩
    rw [← Except.ok.inj h]
    congr 1
    split_ifs
    · funext a; simp
    · rfl
  · change coords5 look d0 d1 d2 [d3, d4] n cosine = .ok P at h
    rw [coords5_of look h0 h1 h2 hv hs] at h
    refine ⟨v / 100, (if dig d1 = 0 then fun _ => 0
        else fun a => (if cosine then dig d0 * 0.15 / 0.3 else 1) *
          nacaCamber5 (look (decide (dig d2 = 1)) (5 * dig d1 / 100)).1
            (look (decide (dig d2 = 1)) (5 * dig d1 / 100)).2 a),
      (if dig d1 = 0 ∨ cosine = false then fun _ => 0 else slopeFn5 (look (decide (dig d2 = 1)) (5 * dig d1 / 100)).1
          (look (decide (dig d2 = 1)) (5 * dig d1 / 100)).2),
      fun hm => div_nonneg (two_nonneg ((numVal_iff _ _ _).1 hv) (by rintro rfl; simp at hm)) (by norm_num), ?_⟩
    rw [← Except.ok.inj h]
    congr 1
    split_ifs
    · funext a; simp
    · rfl

/-- **C22** the half-thickness polynomial is non-negative on the whole interval `[0,1]` and vanishes at both ends. -/
theorem C22_half_thickness (t x : ℝ) (ht : 0 ≤ t) (h0 : 0 ≤ x) (h1 : x ≤ 1) :
    0 ≤ 5 * t * (0.2969 * Real.sqrt x - 0.1260 * x - 0.3516 * x ^ 2 + 0.2843 * x ^ 3 - 0.1036 * x ^ 4) ∧
    5 * t * (0.2969 * Real.sqrt 1 - 0.1260 * 1 - 0.3516 * 1 ^ 2 + 0.2843 * 1 ^ 3 - 0.1036 * 1 ^ 4) = 0 :=
  ⟨half_nonneg ht h0 h1, half_one t⟩

/-- **C22** for every string without minus sign (of any length; with one see `C151_minus`), every number of points, both spacings and whatever the spline
look-up returns: if the constructor succeeds, the upper surface is nowhere below the lower one. -/
theorem C22_upper_above_lower (american : Profile → Res Arr) (look : LookUp) (digits : List Char) (n : Nat)
    (hm : '-' ∉ digits) (cosine : Bool) (Q : Profile) (h : ctor american look (.str digits) (.int n) cosine = .ok Q)
    (i : Nat) (u d : ℝ) (hu : Q.yup[i]? = some u) (hd : Q.ydown[i]? = some d) : d ≤ u := by
  obtain ⟨P, hP, x1, x2, x3, x4⟩ := naca_ctor_coords h
  obtain ⟨t, c, θ, ht, rfl⟩ := naca_generated hP
  rw [x3] at hu
  rw [x4] at hd
  simp only [spread, List.getElem?_map, Option.map_eq_some_iff] at hu hd
  obtain ⟨a, ha, rfl⟩ := hu
  obtain ⟨b, hb, rfl⟩ := hd
  rw [ha] at hb
  cases hb
  have hmem := linspace01_mem (List.mem_of_getElem? ha)
  have h1 := half_nonneg (ht hm) hmem.1 hmem.2
  have h2 := (Real.cos_arctan_pos (θ a)).le
  have := mul_nonneg h1 h2
  linarith

theorem camber4_deriv (m p : ℝ) (hm : 0 ≤ m) (hp0 : 0 < p) (hp1 : p < 1) :
    (∀ x, HasDerivAt (nacaCamber4 m p) (slopeFn4 m p x) x) ∧ Continuous (nacaCamber4 m p) ∧
    nacaCamber4 m p 0 = 0 ∧ nacaCamber4 m p 1 = 0 ∧ nacaCamber4 m p p = m ∧ HasDerivAt (nacaCamber4 m p) 0 p ∧
    ∀ x, 0 ≤ x → x ≤ 1 → 0 ≤ nacaCamber4 m p x ∧ nacaCamber4 m p x ≤ m := by
  have hq : 1 - p ≠ 0 := by linarith
  have hp : p ≠ 0 := hp0.ne'
  have dL : ∀ x, HasDerivAt (fun x => m / p ^ 2 * (2 * p * x - x ^ 2)) (m / p ^ 2 * (2 * p - 2 * x)) x := by
    intro x
    have := (((hasDerivAt_id x).const_mul (2 * p)).sub ((hasDerivAt_id x).pow 2)).const_mul (m / p ^ 2)
    exact this.congr_deriv (by simp; try ring)
  have dR : ∀ x, HasDerivAt (fun x => m / (1 - p) ^ 2 * ((1 - 2 * p) + 2 * p * x - x ^ 2))
      (m / (1 - p) ^ 2 * (2 * p - 2 * x)) x := by
    intro x
    have := ((((hasDerivAt_id x).const_mul (2 * p)).const_add (1 - 2 * p)).sub ((hasDerivAt_id x).pow 2)).const_mul
      (m / (1 - p) ^ 2)
    exact this.congr_deriv (by simp; try ring)
  have hval : nacaCamber4 m p p = m := by
    unfold nacaCamber4; rw [if_pos le_rfl]; field_simp; ring
  have hd : ∀ x, HasDerivAt (nacaCamber4 m p) (slopeFn4 m p x) x := by
    intro x
    rcases lt_trichotomy x p with hx | hx | hx
    · have : slopeFn4 m p x = m / p ^ 2 * (2 * p - 2 * x) := by unfold slopeFn4; rw [if_pos hx.le]
      rw [this]
      refine (dL x).congr_of_eventuallyEq ?_
      filter_upwards [Iio_mem_nhds hx] with y hy
      unfold nacaCamber4
      rw [if_pos (le_of_lt hy)]
    · subst hx
      have hs : slopeFn4 m x x = 0 := by unfold slopeFn4; rw [if_pos le_rfl]; ring
      rw [hs]
      have l1 : HasDerivWithinAt (nacaCamber4 m x) 0 (Set.Iic x) x := by
        have := ((dL x).congr_deriv (show _ = (0 : ℝ) by ring)).hasDerivWithinAt (s := Set.Iic x)
        refine this.congr ?_ ?_
        · intro y hy; unfold nacaCamber4; rw [if_pos (show y ≤ x from hy)]
        · unfold nacaCamber4; rw [if_pos le_rfl]
      have l2 : HasDerivWithinAt (nacaCamber4 m x) 0 (Set.Ici x) x := by
        have := ((dR x).congr_deriv (show _ = (0 : ℝ) by ring)).hasDerivWithinAt (s := Set.Ici x)
        have hvv : nacaCamber4 m x x = m / (1 - x) ^ 2 * ((1 - 2 * x) + 2 * x * x - x ^ 2) := by
          rw [hval]; field_simp; ring
        refine this.congr ?_ hvv
        intro y hy
        rcases eq_or_lt_of_le (show x ≤ y from hy) with h | h
        · rw [← h]; exact hvv
        · unfold nacaCamber4; rw [if_neg (not_le.2 h)]
      have := l1.union l2
      rw [Set.Iic_union_Ici] at this
      exact this.hasDerivAt Filter.univ_mem
    · have : slopeFn4 m p x = m / (1 - p) ^ 2 * (2 * p - 2 * x) := by unfold slopeFn4; rw [if_neg (not_le.2 hx)]
      rw [this]
      refine (dR x).congr_of_eventuallyEq ?_
      filter_upwards [Ioi_mem_nhds hx] with y hy
      unfold nacaCamber4
      rw [if_neg (not_le.2 hy)]
  refine ⟨hd, continuous_iff_continuousAt.2 fun x => (hd x).continuousAt, camber4_zero hp0, camber4_one hp1, hval, ?_, ?_⟩
  · have := hd p
    have hs : slopeFn4 m p p = 0 := by unfold slopeFn4; rw [if_pos le_rfl]; ring
    rwa [hs] at this
  · intro x hx0 hx1
    unfold nacaCamber4
    split_ifs with h
    · constructor
      · apply mul_nonneg (by positivity)
        nlinarith
      · rw [div_mul_eq_mul_div, div_le_iff₀ (by positivity)]
        nlinarith [mul_nonneg hm (sq_nonneg (p - x))]
    · push Not at h
      constructor
      · apply mul_nonneg (by positivity)
        nlinarith
      · rw [div_mul_eq_mul_div, div_le_iff₀ (by positivity)]
        nlinarith [mul_nonneg hm (sq_nonneg (p - x))]

/-- **C23** the 4-digit camber line: differentiable everywhere; zero at both ends of the chord; between 0 and `m` on the
chord, with value `m` and zero slope at `p`. -/
theorem C23_camber_line (m p : ℝ) (hm : 0 ≤ m) (hp0 : 0 < p) (hp1 : p < 1) :
    Differentiable ℝ (nacaCamber4 m p) ∧
    nacaCamber4 m p 0 = 0 ∧ nacaCamber4 m p 1 = 0 ∧ nacaCamber4 m p p = m ∧ HasDerivAt (nacaCamber4 m p) 0 p ∧
    ∀ x, 0 ≤ x → x ≤ 1 → 0 ≤ nacaCamber4 m p x ∧ nacaCamber4 m p x ≤ m := by
  obtain ⟨a, _, b⟩ := camber4_deriv m p hm hp0 hp1
  exact ⟨fun x => (a x).differentiableAt, b⟩

example : nacaCamber4 0.02 0.4 0.4 = 0.02 :=
  (C23_camber_line 0.02 0.4 (by norm_num) (by norm_num) (by norm_num)).2.2.2.1

/-- **C23** the mean line of the generated coordinates is the camber line: at station `i` (abscissa `i/(n-1)`) the mean
of the two ordinates is the camber ordinate, for both spacings; the two surface points are the camber point moved by the
half-thickness along plus/minus a unit vector, which with cosine spacing is normal to the camber line and with linear
spacing vertical. -/
theorem C23_mean_line (american : Profile → Res Arr) (look : LookUp) (d0 d1 d2 d3 : Char) (h0 : d0.isDigit = true)
    (h1 : d1.isDigit = true) (h2 : d2.isDigit = true) (h3 : d3.isDigit = true) (hp : dig d1 ≠ 0) (n : Nat)
    (cosine : Bool) (Q : Profile) (h : ctor american look (.str [d0, d1, d2, d3]) (.int n) cosine = .ok Q)
    (i : Nat) (hi : i < n) :
    ∃ U L N : Pt, Q.upper[i]? = some U ∧ Q.lower[i]? = some L ∧
      (cosine = false → N = (0, 1)) ∧
      (cosine = true → N.1 ^ 2 + N.2 ^ 2 = 1 ∧ 0 < N.2 ∧
        N.1 * 1 + N.2 * deriv (nacaCamber4 (dig d0 / 100) (dig d1 / 10)) (i / (n - 1)) = 0) ∧
      U = ((i : ℝ) / (n - 1) + nacaHalfThickness ((10 * dig d2 + dig d3) / 100) (i / (n - 1)) * N.1,
        nacaCamber4 (dig d0 / 100) (dig d1 / 10) (i / (n - 1)) +
          nacaHalfThickness ((10 * dig d2 + dig d3) / 100) (i / (n - 1)) * N.2) ∧
      L = ((i : ℝ) / (n - 1) - nacaHalfThickness ((10 * dig d2 + dig d3) / 100) (i / (n - 1)) * N.1,
        nacaCamber4 (dig d0 / 100) (dig d1 / 10) (i / (n - 1)) -
          nacaHalfThickness ((10 * dig d2 + dig d3) / 100) (i / (n - 1)) * N.2) ∧
      mid U L = ((i : ℝ) / (n - 1), nacaCamber4 (dig d0 / 100) (dig d1 / 10) (i / (n - 1))) := by
  obtain ⟨P, hP, x1, x2, x3, x4⟩ := naca_ctor_coords h
  have hP' : coords4 d0 d1 [d2, d3] n cosine = .ok P := hP
  rw [coords4_eq h0 h1 h2 h3, if_neg hp] at hP'
  have hPe := (Except.ok.inj hP').symm
  set y := nacaHalfThickness ((10 * dig d2 + dig d3) / 100)
  set c := nacaCamber4 (dig d0 / 100) (dig d1 / 10)
  have hx : (linspaceN 0 1 n)[i]? = some ((i : ℝ) / (n - 1)) := by
    rw [List.getElem?_eq_getElem (by rw [linspaceN_length]; exact hi), linspaceN_getElem]
    congr 1; ring
  set a : ℝ := (i : ℝ) / (n - 1)
  set θ : ℝ → ℝ := (if dig d1 = 0 ∨ cosine = false then fun _ => 0
        else fun a => Real.arctan (slopeFn4 (dig d0 / 100) (dig d1 / 10) a)) with hθ
  have gu : ∀ (X Y : Arr) (u v : ℝ), X[i]? = some u → Y[i]? = some v → (List.zip X Y)[i]? = some (u, v) := by
    intro X Y u v hX hY
    rw [List.getElem?_zip_eq_some]; exact ⟨hX, hY⟩
  refine ⟨(a - y a * Real.sin (θ a), c a + y a * Real.cos (θ a)), (a + y a * Real.sin (θ a), c a - y a * Real.cos (θ a)),
    (-Real.sin (θ a), Real.cos (θ a)), ?_, ?_, ?_, ?_, ?_, ?_, ?_⟩
  · apply gu
    · rw [x1, hPe]; simp [spread, hx]
    · rw [x3, hPe]; simp [spread, hx]
  · apply gu
    · rw [x2, hPe]; simp [spread, hx]
    · rw [x4, hPe]; simp [spread, hx]
  · intro hc
    have : θ a = 0 := by rw [hθ, if_pos (Or.inr hc)]
    simp [this]
  · intro hc
    have ht : θ a = Real.arctan (slopeFn4 (dig d0 / 100) (dig d1 / 10) a) := by
      rw [hθ, if_neg (by simp [hp, hc])]
    have hm : 0 ≤ dig d0 / 100 := by have := dig_nonneg d0; positivity
    have hderiv := ((camber4_deriv (dig d0 / 100) (dig d1 / 10) hm (pos_of_digit hp) (lt_one_of_digit h1)).1 a).deriv
    refine ⟨by simp only [neg_sq]; exact Real.sin_sq_add_cos_sq _, by rw [ht]; exact Real.cos_arctan_pos _, ?_⟩
    rw [hderiv, ht]
    have hc' := Real.cos_arctan_pos (slopeFn4 (dig d0 / 100) (dig d1 / 10) a)
    have := Real.tan_arctan (slopeFn4 (dig d0 / 100) (dig d1 / 10) a)
    rw [Real.tan_eq_sin_div_cos, div_eq_iff hc'.ne'] at this
    simp only
    rw [this]; ring
  · ext <;> simp <;> ring
  · ext <;> simp <;> ring
  · simp only [mid]; ext <;> simp <;> ring

/-- **C24** a 4-digit foil with position digit 0 is symmetric about the chord, for both spacings. -/
theorem C24_symmetric (american : Profile → Res Arr) (look : LookUp) (d0 d1 d2 d3 : Char) (h0 : d0.isDigit = true)
    (h1 : d1.isDigit = true) (h2 : d2.isDigit = true) (h3 : d3.isDigit = true) (hp : dig d1 = 0) (n : Nat)
    (cosine : Bool) (Q : Profile) (h : ctor american look (.str [d0, d1, d2, d3]) (.int n) cosine = .ok Q) :
    Q.xdown = Q.xup ∧ Q.ydown = Q.yup.map (fun y => -y) := by
  obtain ⟨P, hP, x1, x2, x3, x4⟩ := naca_ctor_coords h
  have hP' : coords4 d0 d1 [d2, d3] n cosine = .ok P := hP
  rw [coords4_eq h0 h1 h2 h3, if_pos hp, if_pos (Or.inl hp)] at hP'
  have hPe := (Except.ok.inj hP').symm
  rw [x1, x2, x3, x4, hPe]
  simp [spread, Function.comp_def]

/-- **C24** the gap between the surfaces at every station is proportional to the number formed by the last two digits:
the factor depends only on the station, the other digits, the number of points and the spacing. -/
theorem C24_thickness_linear (american : Profile → Res Arr) (look : LookUp) (d0 d1 : Char) (h0 : d0.isDigit = true)
    (h1 : d1.isDigit = true) (n : Nat) (cosine : Bool) :
    ∃ F : Nat → ℝ, ∀ d2 d3 : Char, d2.isDigit = true → d3.isDigit = true → ∀ Q,
      ctor american look (.str [d0, d1, d2, d3]) (.int n) cosine = .ok Q →
      ∀ (i : Nat) (u d : ℝ), Q.yup[i]? = some u → Q.ydown[i]? = some d → u - d = (10 * dig d2 + dig d3) * F i := by
  refine ⟨fun i => 2 * nacaHalfThickness (1 / 100) ((linspaceN 0 1 n).getD i 0) *
    Real.cos ((if dig d1 = 0 ∨ cosine = false then fun _ => 0
        else fun a => Real.arctan (slopeFn4 (dig d0 / 100) (dig d1 / 10) a) : ℝ → ℝ) ((linspaceN 0 1 n).getD i 0)), ?_⟩
  intro d2 d3 h2 h3 Q h i u d hu hd
  obtain ⟨P, hP, x1, x2, x3, x4⟩ := naca_ctor_coords h
  have hP' : coords4 d0 d1 [d2, d3] n cosine = .ok P := hP
  rw [coords4_eq h0 h1 h2 h3] at hP'
  have hPe := (Except.ok.inj hP').symm
  rw [x3, hPe] at hu
  rw [x4, hPe] at hd
  simp only [spread, List.getElem?_map, Option.map_eq_some_iff] at hu hd
  obtain ⟨a, ha, rfl⟩ := hu
  obtain ⟨b, hb, rfl⟩ := hd
  rw [ha] at hb
  cases hb
  simp only [List.getD_eq_getElem?_getD, ha, Option.getD_some]
  simp only [nacaHalfThickness]
  ring

/-- **C25** (finding) with linear spacing the lift digit of a 5-digit foil has no influence at all on the coordinates. -/
theorem C25_lift_digit_ignored (american : Profile → Res Arr) (look : LookUp) (d0 e0 d1 d2 d3 d4 : Char)
    (h0 : d0.isDigit = true) (g0 : e0.isDigit = true) (n : Nat) :
    ctor american look (.str [d0, d1, d2, d3, d4]) (.int n) false =
    ctor american look (.str [e0, d1, d2, d3, d4]) (.int n) false := by
  have : coords5 look d0 d1 d2 [d3, d4] n false = coords5 look e0 d1 d2 [d3, d4] n false := by
    unfold coords5
    simp only [digitVal_digit h0, digitVal_digit g0, bind, Except.bind, Bool.false_eq_true, if_false]
  have c1 : ∀ s : List Char, checkArgs (.str s) (.int n) = .ok (s, n) := by
    intro s
    have : ¬ ((n : Int) < 0) := by omega
    simp [checkArgs, bind, Except.bind, pure, Except.pure, this]
  have g : generateCoordinates look [d0, d1, d2, d3, d4] n false = generateCoordinates look [e0, d1, d2, d3, d4] n false :=
    this
  simp only [ctor, c1, bind, Except.bind, g]

/-- **C25** the mean ordinate of a cambered 5-digit foil at station `i`: the standard 5-digit camber line of the
looked-up values, for the reflexed series (`S = 1`) as well as for the standard one, scaled by `0.15 L / 0.3` with
cosine spacing and not scaled with linear spacing. -/
theorem C25_mean_line (american : Profile → Res Arr) (look : LookUp) (d0 d1 d2 d3 d4 : Char) (h0 : d0.isDigit = true)
    (h1 : d1.isDigit = true) (h2 : d2.isDigit = true) (h3 : d3.isDigit = true) (h4 : d4.isDigit = true)
    (hs : dig d2 = 1 ∨ dig d2 = 0) (hp : dig d1 ≠ 0) (n : Nat) (cosine : Bool) (Q : Profile)
    (h : ctor american look (.str [d0, d1, d2, d3, d4]) (.int n) cosine = .ok Q) (i : Nat) (hi : i < n) :
    ∃ u d m k, look (decide (dig d2 = 1)) (dig d1 / 20) = (m, k) ∧ Q.yup[i]? = some u ∧ Q.ydown[i]? = some d ∧
      (cosine = true → (u + d) / 2 = dig d0 * 0.15 / 0.3 * nacaCamber5 m k (i / (n - 1))) ∧
      (cosine = false → (u + d) / 2 = nacaCamber5 m k (i / (n - 1))) := by
  obtain ⟨P, hP, x1, x2, x3, x4⟩ := naca_ctor_coords h
  have hP' : coords5 look d0 d1 d2 [d3, d4] n cosine = .ok P := hP
  rw [coords5_eq look h0 h1 h2 h3 h4 hs, if_neg hp] at hP'
  have hPe := (Except.ok.inj hP').symm
  have hx : (linspaceN 0 1 n)[i]? = some ((i : ℝ) / (n - 1)) := by
    rw [List.getElem?_eq_getElem (by rw [linspaceN_length]; exact hi), linspaceN_getElem]
    congr 1; ring
  rw [show 5 * dig d1 / 100 = dig d1 / 20 by ring] at hPe
  have eu := congrArg (fun l : Arr => l[i]?) (x3.trans (congrArg Profile.yup hPe))
  have ed := congrArg (fun l : Arr => l[i]?) (x4.trans (congrArg Profile.ydown hPe))
  simp only [spread, List.getElem?_map, hx, Option.map_some] at eu ed
  refine ⟨_, _, (look (decide (dig d2 = 1)) (dig d1 / 20)).1, (look (decide (dig d2 = 1)) (dig d1 / 20)).2, rfl,
    eu, ed, ?_, ?_⟩
  · intro hc; simp [hc]
  · intro hc; simp [hc]

/-- **C25** the 5-digit camber line vanishes at both ends and is continuous, for every camber position `0 ≤ m < 1`. -/
theorem C25_camber_line (m k : ℝ) (hm0 : 0 ≤ m) (hm1 : m < 1) :
    nacaCamber5 m k 0 = 0 ∧ nacaCamber5 m k 1 = 0 ∧ Continuous (nacaCamber5 m k) := by
  refine ⟨by simp [nacaCamber5, hm0], by simp [nacaCamber5, not_le.2 hm1], ?_⟩
  unfold nacaCamber5
  refine Continuous.if_le (by fun_prop) (by fun_prop) continuous_id continuous_const ?_
  intro x hx
  rw [hx]; ring

/-- The look-up at a tabulated position digit gives the published constants. -/
theorem look_published {look : LookUp} (hl : Interpolates look) {P m k : ℝ} (b : Bool)
    (h : (P, m, k) ∈ if b then naca5Reflex else naca5Standard) : look b (P / 20) = (m, k) := by
  cases b
  · simp only [Bool.false_eq_true, if_false, naca5Standard, List.mem_cons, Prod.mk.injEq, List.not_mem_nil, or_false] at h
    rcases h with ⟨rfl, rfl, rfl⟩ | ⟨rfl, rfl, rfl⟩ | ⟨rfl, rfl, rfl⟩ | ⟨rfl, rfl, rfl⟩ | ⟨rfl, rfl, rfl⟩
    · have := hl false 0 0.05 0.0580 361.4 rfl rfl rfl; rw [← this]; norm_num
    · have := hl false 1 0.1 0.1260 51.64 rfl rfl rfl; rw [← this]; norm_num
    · have := hl false 2 0.15 0.2025 15.957 rfl rfl rfl; rw [← this]; norm_num
    · have := hl false 3 0.2 0.2900 6.643 rfl rfl rfl; rw [← this]; norm_num
    · have := hl false 4 0.25 0.3910 3.230 rfl rfl rfl; rw [← this]; norm_num
  · simp only [if_true, naca5Reflex, List.mem_cons, Prod.mk.injEq, List.not_mem_nil, or_false] at h
    rcases h with ⟨rfl, rfl, rfl⟩ | ⟨rfl, rfl, rfl⟩ | ⟨rfl, rfl, rfl⟩ | ⟨rfl, rfl, rfl⟩
    · have := hl true 0 0.1 0.13 51.99 rfl rfl rfl; rw [← this]; norm_num
    · have := hl true 1 0.15 0.2170 15.793 rfl rfl rfl; rw [← this]; norm_num
    · have := hl true 2 0.2 0.318 6.520 rfl rfl rfl; rw [← this]; norm_num
    · have := hl true 3 0.25 0.441 3.191 rfl rfl rfl; rw [← this]; norm_num

/-- **C25** with an interpolating look-up and a tabulated position digit (1 to 5, or 2 to 5 for the reflexed series) the
constructor succeeds for every `n ≥ 2`, both surfaces run from `(0,0)` to `(1,0)`, and the mean ordinates are those of the
camber line with the published constants. -/
theorem C25_published_constants (american : Profile → Res Arr) (look : LookUp) (hl : Interpolates look)
    (d0 d1 d2 d3 d4 : Char) (h0 : d0.isDigit = true)
    (h1 : d1.isDigit = true) (h2 : d2.isDigit = true) (h3 : d3.isDigit = true) (h4 : d4.isDigit = true)
    (m k : ℝ) (hs : (dig d2 = 0 ∧ (dig d1, m, k) ∈ naca5Standard) ∨ (dig d2 = 1 ∧ (dig d1, m, k) ∈ naca5Reflex))
    (n : Nat) (hn : 2 ≤ n) (cosine : Bool) :
    ∃ Q, ctor american look (.str [d0, d1, d2, d3, d4]) (.int n) cosine = .ok Q ∧ Q.Uniform ∧ Q.xup.length = n ∧
      Q.Ends (0, 0) (1, 0) (0, 0) (1, 0) ∧ ∀ i < n, ∃ u d, Q.yup[i]? = some u ∧ Q.ydown[i]? = some d ∧
        (u + d) / 2 = (if cosine then dig d0 * 0.15 / 0.3 else 1) * nacaCamber5 m k (i / (n - 1)) := by
  have hlook : look (decide (dig d2 = 1)) (dig d1 / 20) = (m, k) := by
    apply look_published hl
    rcases hs with ⟨hd, h⟩ | ⟨hd, h⟩
    · simpa [hd] using h
    · simpa [hd] using h
  have hb : dig d2 = 1 ∨ dig d2 = 0 := by rcases hs with ⟨hd, _⟩ | ⟨hd, _⟩ <;> simp [hd]
  have hm : 0 ≤ m ∧ m < 1 ∧ dig d1 ≠ 0 := by
    rcases hs with ⟨_, h⟩ | ⟨_, h⟩
    · simp only [naca5Standard, List.mem_cons, Prod.mk.injEq, List.not_mem_nil, or_false] at h
      rcases h with ⟨a, b, _⟩ | ⟨a, b, _⟩ | ⟨a, b, _⟩ | ⟨a, b, _⟩ | ⟨a, b, _⟩ <;> rw [a, b] <;> norm_num
    · simp only [naca5Reflex, List.mem_cons, Prod.mk.injEq, List.not_mem_nil, or_false] at h
      rcases h with ⟨a, b, _⟩ | ⟨a, b, _⟩ | ⟨a, b, _⟩ | ⟨a, b, _⟩ <;> rw [a, b] <;> norm_num
  obtain ⟨Q, hQ, hU, hlen, hE, _⟩ := C21_five_digits american look d0 d1 d2 d3 d4 h0 h1 h2 h3 h4 hb
    (by intro _; rw [hlook]; exact ⟨hm.1, hm.2.1⟩) n hn cosine
  refine ⟨Q, hQ, hU, hlen, hE, ?_⟩
  intro i hi
  obtain ⟨u, d, m', k', e, hu, hd, c1, c2⟩ :=
    C25_mean_line american look d0 d1 d2 d3 d4 h0 h1 h2 h3 h4 hb hm.2.2 n cosine Q hQ i hi
  rw [hlook] at e
  obtain ⟨rfl, rfl⟩ := Prod.mk.inj e
  refine ⟨u, d, hu, hd, ?_⟩
  cases cosine
  · simpa using c2 rfl
  · simpa using c1 rfl

/-- Non-vacuity: there is an interpolating look-up, and NACA 23012 and 23112 are covered. -/
example : ∃ look : LookUp, Interpolates look := by
  classical
  refine ⟨fun b p => ((tables b).2.1.getD ((tables b).1.findIdx (fun q => decide (q = p))) 0,
    (tables b).2.2.getD ((tables b).1.findIdx (fun q => decide (q = p))) 0), ?_⟩
  intro b i p m k hp hm hk
  have key : (tables b).1.findIdx (fun q => decide (q = p)) = i := by
    cases b
    all_goals
      simp only [tables] at hp ⊢
      have hi : i < 5 := by
        by_contra hc
        rw [List.getElem?_eq_none (by simp; omega)] at hp
        cases hp
      interval_cases i <;> simp at hp <;> subst hp <;> (simp [List.findIdx_cons]; try norm_num)
  simp only [key, List.getD_eq_getElem?_getD, hm, hk, Option.getD_some]

/-- **C26** argument validation, in the order of the code. -/
theorem C26_arguments (american : Profile → Res Arr) (look : LookUp) (digits n : PyVal) (cosine : Bool) :
    ((∀ s, digits ≠ .str s) → ctor american look digits n cosine = .error .typeError) ∧
    (∀ s, digits = .str s → (∀ k, n ≠ .int k) → (∀ x, n ≠ .float x) → (∀ b, n ≠ .bool b) →
      ctor american look digits n cosine = .error .typeError) ∧
    (∀ s k, digits = .str s → n = .int k → k < 0 → ctor american look digits n cosine = .error .valueError) ∧
    (∀ s x, digits = .str s → n = .float x → x ≤ -1 → ctor american look digits n cosine = .error .valueError) ∧
    (∀ s, digits = .str s → (∃ k : Nat, n = .int k) → s.length ≠ 4 → s.length ≠ 5 →
      ctor american look digits n cosine = .error .exception) := by
  refine ⟨?_, ?_, ?_, ?_, ?_⟩
  · intro h
    cases digits <;> first | (exact absurd rfl (h _)) | rfl
  · rintro s rfl h1 h2 h3
    cases n <;> first | (exact absurd rfl (h1 _)) | (exact absurd rfl (h2 _)) | (exact absurd rfl (h3 _)) | rfl
  · rintro s k rfl rfl hk
    simp [ctor, checkArgs, bind, Except.bind, pure, Except.pure, throw, throwThe, MonadExceptOf.throw, hk]
  · rintro s x rfl rfl hx
    have : truncInt x < 0 := by
      unfold truncInt
      rw [if_neg (by linarith)]
      rw [Int.ceil_lt_iff]
      push_cast; linarith
    simp [ctor, checkArgs, bind, Except.bind, pure, Except.pure, throw, throwThe, MonadExceptOf.throw, this]
  · rintro s rfl ⟨k, rfl⟩ h4 h5
    have : ¬ ((k : Int) < 0) := by omega
    have hg : generateCoordinates look s k cosine = .error .exception := by
      unfold generateCoordinates
      split
      · simp at h4
      · simp at h5
      · rfl
    simp [ctor, checkArgs, bind, Except.bind, pure, Except.pure, throw, throwThe, MonadExceptOf.throw, this, hg]

/-- `TypeError` is not the outcome. -/
def NoType {α : Type} (r : Res α) : Prop := r ≠ .error .typeError

theorem NoType.bind {α β : Type} {r : Res α} {k : α → Res β} (hr : NoType r) (hk : ∀ x, NoType (k x)) :
    NoType (r >>= k) := by
  rcases r with e | x
  · intro h
    apply hr
    exact congrArg _ (Except.error.inj h)
  · exact hk x

theorem NoType.ok {α : Type} (x : α) : NoType (.ok x : Res α) := by intro h; cases h

theorem NoType.pure {α : Type} (x : α) : NoType (Pure.pure x : Res α) := NoType.ok x

theorem NoType.error {α : Type} {e : PyErr} (h : e ≠ .typeError) : NoType (.error e : Res α) := by
  intro hc; exact h (Except.error.inj hc)

theorem noType_digitVal (c : Char) : NoType (digitVal c) := by
  unfold digitVal; split
  · exact NoType.ok _
  · exact NoType.error (by simp)

theorem numVal_error {a b : Char} {e : PyErr} (h : numVal [a, b] = .error e) : e = .valueError := by
  have key : ∀ c e, digitVal c = .error e → e = .valueError := by
    intro c e h
    unfold digitVal at h
    split at h
    · cases h
    · exact (Except.error.inj h).symm
  simp only [numVal] at h
  split_ifs at h with ha hb hb hc hd he
  · rw [digitVal_digit ha, digitVal_digit hb] at h; cases h
  · exact key _ _ h
  · exact (Except.error.inj h).symm
  · exact key _ _ h
  · rcases e' : digitVal b with e'' | w
    · rw [e'] at h; rw [← Except.error.inj h]; exact key _ _ e'
    · rw [e'] at h; cases h
  · rcases e' : digitVal b with e'' | w
    · rw [e'] at h; rw [← Except.error.inj h]; exact key _ _ e'
    · rw [e'] at h; cases h
  · exact (Except.error.inj h).symm

theorem noType_numVal (s : List Char) : NoType (numVal s) := by
  intro h
  rcases s with _ | ⟨a, _ | ⟨b, _ | ⟨c, l⟩⟩⟩
  · cases h
  · cases h
  · have := numVal_error h; cases this
  · cases h

theorem noType_first {α : Type} (a : List α) : NoType (getFirst a) := by
  unfold getFirst; split
  · exact NoType.ok _
  · exact NoType.error (by simp)

theorem noType_last {α : Type} (a : List α) : NoType (getLast a) := by
  unfold getLast; split
  · exact NoType.ok _
  · exact NoType.error (by simp)

theorem noType_max (a : Arr) : NoType (npMax a) := by
  unfold npMax; split
  · exact NoType.error (by simp)
  · exact NoType.ok _

theorem noType_min (a : Arr) : NoType (npMin a) := by
  unfold npMin; split
  · exact NoType.error (by simp)
  · exact NoType.ok _

theorem noType_bzip (f : ℝ → ℝ → ℝ) (a b : Arr) : NoType (bzip f a b) := by
  unfold bzip; split
  · exact NoType.ok _
  · split
    · exact NoType.ok _
    · exact NoType.ok _
    · exact NoType.error (by simp)

theorem noType_div (a : Arr) (b : ℝ) : NoType (divScalar a b) := by
  unfold divScalar; split
  · exact NoType.error (by simp)
  · exact NoType.ok _

theorem noType_generate (look : LookUp) (s : List Char) (n : Nat) (cosine : Bool) :
    NoType (generateCoordinates look s n cosine) := by
  unfold generateCoordinates; split
  · unfold coords4
    refine (noType_digitVal _).bind fun _ => (noType_digitVal _).bind fun _ => (noType_numVal _).bind fun _ => ?_
    dsimp only
    split
    · exact NoType.pure _
    · split <;> exact NoType.pure _
  · unfold coords5
    refine (noType_digitVal _).bind fun _ => (noType_digitVal _).bind fun _ => (noType_digitVal _).bind fun _ =>
      (noType_numVal _).bind fun _ => ?_
    dsimp only
    split
    · exact NoType.error (by simp)
    · split
      · exact NoType.pure _
      · split <;> exact NoType.pure _
  · exact NoType.error (by simp)

theorem noType_parameters (american : Profile → Res Arr) (P : Profile) :
    NoType (P.generateParameters american .british) := by
  unfold Profile.generateParameters
  refine NoType.bind ?_ fun e => ?_
  · unfold Profile.updateEdges
    refine (noType_first _).bind fun _ => (noType_first _).bind fun _ => ?_
    dsimp only
    split
    · exact NoType.error (by simp)
    refine (noType_last _).bind fun _ => (noType_last _).bind fun _ => ?_
    split
    · exact NoType.error (by simp)
    refine (noType_first _).bind fun _ => (noType_last _).bind fun _ => (noType_last _).bind fun _ => ?_
    split <;> exact NoType.pure _
  dsimp only
  refine (noType_min _).bind fun _ => (noType_div _ _).bind fun _ => (noType_bzip _ _ _).bind fun _ =>
    (noType_max _).bind fun _ => ?_
  simp only [true_or, if_true]
  exact (noType_bzip _ _ _).bind fun _ => (noType_max _).bind fun _ => NoType.pure _

/-- **C26** the constructor raises `TypeError` exactly when the digits are not a string or the number of points is not
an integer, a boolean or a float; no other way through it ends with `TypeError`. -/
theorem C26_type_error (american : Profile → Res Arr) (look : LookUp) (digits n : PyVal) (cosine : Bool) :
    ctor american look digits n cosine = .error .typeError ↔
      (∀ s, digits ≠ .str s) ∨ ((∀ k, n ≠ .int k) ∧ (∀ x, n ≠ .float x) ∧ ∀ b, n ≠ .bool b) := by
  have h0 := C26_arguments american look digits n cosine
  constructor
  · intro h
    by_contra hc
    push Not at hc
    obtain ⟨⟨s, rfl⟩, hn⟩ := hc
    refine (?_ : NoType (ctor american look (.str s) n cosine)) h
    unfold ctor
    refine NoType.bind ?_ fun _ => (noType_generate _ _ _ _).bind fun _ => noType_parameters _ _
    unfold checkArgs
    refine NoType.bind (NoType.pure _) fun _ => NoType.bind ?_ fun _ => ?_
    · cases n <;> simp at hn <;> exact NoType.pure _
    · split
      · exact NoType.error (by simp)
      · exact NoType.pure _
  · rintro (h | ⟨h1, h2, h3⟩)
    · exact h0.1 h
    · cases digits <;> first | exact h0.2.1 _ rfl h1 h2 h3 | exact h0.1 (by simp)

/-- **C26** a float number of points is truncated toward zero: `-1 < x < 0` counts as 0, and `x ≥ 0` as its floor. -/
theorem C26_float_truncated (american : Profile → Res Arr) (look : LookUp) (digits : PyVal) (x : ℝ) (k : Nat)
    (h : ((k : ℝ) ≤ x ∧ x < k + 1) ∨ (k = 0 ∧ -1 < x ∧ x < 0)) (cosine : Bool) :
    ctor american look digits (.float x) cosine = ctor american look digits (.int k) cosine := by
  have : truncInt x = k := by
    unfold truncInt
    rcases h with ⟨h1, h2⟩ | ⟨rfl, h1, h2⟩
    · have : 0 ≤ x := le_trans (Nat.cast_nonneg k) h1
      rw [if_pos this, Int.floor_eq_iff]
      exact ⟨by exact_mod_cast h1, by exact_mod_cast h2⟩
    · rw [if_neg (by linarith), Int.ceil_eq_iff]
      constructor <;> push_cast <;> linarith
  simp [ctor, checkArgs, this]

/-- **C26** `True` counts as one point and `False` as none. -/
theorem C26_boolean (american : Profile → Res Arr) (look : LookUp) (digits : PyVal) (b cosine : Bool) :
    ctor american look digits (.bool b) cosine = ctor american look digits (.int (if b = true then 1 else 0)) cosine := by
  cases b <;> cases digits <;> simp [ctor, checkArgs]

/-- **C26** without the argument `cosine_spacing`, the constructor behaves as with `True`. -/
theorem C26_default_spacing (american : Profile → Res Arr) (look : LookUp) (digits n : PyVal) :
    Naca.ctor american look digits n = Naca.ctor american look digits n true := rfl

/-- **C26** a reflex digit other than 0 or 1 is refused with `ValueError`, and so is any character before the last two that is not a digit, and
anything in the place of the last two that `float` does not take for a number. -/
theorem C26_bad_digits (american : Profile → Res Arr) (look : LookUp) (d0 d1 d2 d3 d4 : Char) (n : Nat) (cosine : Bool)
    (h : d0.isDigit = false ∨ d1.isDigit = false ∨ d2.isDigit = false ∨ (∀ v, ¬ TwoChars d3 d4 v) ∨
      (d2 ≠ '0' ∧ d2 ≠ '1')) :
    ctor american look (.str [d0, d1, d2, d3, d4]) (.int n) cosine = .error .valueError := by
  have hg : generateCoordinates look [d0, d1, d2, d3, d4] n cosine = .error .valueError := by
    show coords5 look d0 d1 d2 [d3, d4] n cosine = .error .valueError
    unfold coords5
    simp only [bind, Except.bind, throw, throwThe, MonadExceptOf.throw]
    rcases k0 : d0.isDigit with _ | _
    · simp [digitVal_other k0]
    rcases k1 : d1.isDigit with _ | _
    · simp [digitVal_digit k0, digitVal_other k1]
    rcases k2 : d2.isDigit with _ | _
    · simp [digitVal_digit k0, digitVal_digit k1, digitVal_other k2]
    rcases k3 : numVal [d3, d4] with e | v
    · simp [digitVal_digit k0, digitVal_digit k1, digitVal_digit k2, numVal_error k3]
    have hno : ¬ ∀ v, ¬ TwoChars d3 d4 v := fun hn => hn v ((numVal_iff _ _ _).1 k3)
    simp only [k0, k1, k2, hno, Bool.true_eq_false, false_or] at h
    have hlow : 48 ≤ d2.toNat ∧ d2.toNat ≤ 57 := by
      simp only [Char.isDigit, Bool.and_eq_true, decide_eq_true_eq] at k2
      obtain ⟨a, b⟩ := k2
      rw [UInt32.le_iff_toNat_le] at b
      rw [ge_iff_le, UInt32.le_iff_toNat_le] at a
      exact ⟨a, b⟩
    have n1 : dig d2 ≠ 1 := by
      intro hc
      apply h.2
      unfold dig at hc
      have : d2.toNat - 48 = 1 := by exact_mod_cast hc
      have : d2.toNat = '1'.toNat := by show d2.toNat = 49; omega
      exact Char.toNat_inj.1 this
    have n0 : dig d2 ≠ 0 := by
      intro hc
      apply h.1
      unfold dig at hc
      have : d2.toNat - 48 = 0 := by exact_mod_cast hc
      have : d2.toNat = '0'.toNat := by show d2.toNat = 48; omega
      exact Char.toNat_inj.1 this
    simp [digitVal_digit k0, digitVal_digit k1, digitVal_digit k2, pure, Except.pure,
      n1, n0]
  have : ¬ ((n : Int) < 0) := by omega
  simp [ctor, checkArgs, bind, Except.bind, pure, Except.pure, throw, throwThe, MonadExceptOf.throw, this, hg]

/-- **C26** (finding) `n_points = 0` passes the argument check and fails later with `IndexError`. -/
theorem C26_zero_points (american : Profile → Res Arr) (look : LookUp) (d0 d1 d2 d3 : Char) (h0 : d0.isDigit = true)
    (h1 : d1.isDigit = true) (h2 : d2.isDigit = true) (h3 : d3.isDigit = true) (cosine : Bool) :
    (∃ a, checkArgs (.str [d0, d1, d2, d3]) (.int 0) = .ok a) ∧
    ctor american look (.str [d0, d1, d2, d3]) (.int 0) cosine = .error .indexError := by
  refine ⟨⟨_, rfl⟩, ?_⟩
  have hg : generateCoordinates look [d0, d1, d2, d3] 0 cosine = .ok _ := coords4_eq h0 h1 h2 h3 0 cosine
  have hc : checkArgs (.str [d0, d1, d2, d3]) (.int 0) = .ok ([d0, d1, d2, d3], 0) := rfl
  simp only [ctor, hc, bind, Except.bind, hg]
  simp [Profile.generateParameters, Profile.updateEdges, spread, linspaceN, getFirst, bind, Except.bind]

/-- Non-vacuity: NACA 2412 and 23012 strings. -/
example (american : Profile → Res Arr) (look : LookUp) :
    ∃ Q, ctor american look (.str ['2', '4', '1', '2']) (.int 240) true = .ok Q := by
  obtain ⟨Q, h, _⟩ := C21_four_digits american look '2' '4' '1' '2' rfl rfl rfl rfl 240 (by norm_num) true
  exact ⟨Q, h⟩

end BladeX
