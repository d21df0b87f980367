import Verif.Props.Naca
import Verif.Props.Area
import Verif.Lemmas.Reverse
import Mathlib.Topology.UniformSpace.HeineCantor
import Mathlib.Topology.MetricSpace.Basic
import Mathlib.Analysis.SpecialFunctions.Trigonometric.Arctan

/-! # C141: how finely a NACA foil is sampled -/

namespace BladeX
open Spec Naca

namespace Naca

theorem continuous_half (t : ℝ) : Continuous (nacaHalfThickness t) := by
  unfold nacaHalfThickness; fun_prop

theorem continuous_camber4 {m p : ℝ} (h0 : p ≠ 0) (h1 : p < 1) : Continuous (nacaCamber4 m p) := by
  unfold nacaCamber4
  refine Continuous.if_le (by fun_prop) (by fun_prop) continuous_id continuous_const ?_
  rintro x rfl
  have : (1 - x) ≠ 0 := by linarith
  field_simp
  ring

theorem continuous_slope4 (m p : ℝ) : Continuous (slopeFn4 m p) := by
  unfold slopeFn4
  refine Continuous.if_le (by fun_prop) (by fun_prop) continuous_id continuous_const ?_
  rintro x rfl
  ring

theorem continuous_camber5 (m k : ℝ) : Continuous (nacaCamber5 m k) := by
  unfold nacaCamber5
  refine Continuous.if_le (by fun_prop) (by fun_prop) continuous_id continuous_const ?_
  rintro x rfl
  ring

theorem continuous_slope5 (m k : ℝ) : Continuous (slopeFn5 m k) := by
  unfold slopeFn5
  refine Continuous.if_le (by fun_prop) (by fun_prop) continuous_id continuous_const ?_
  rintro x rfl
  ring

/-- The curves that a digit string stands for do not depend on the number of points. -/
theorem generated_any (look : LookUp) (digits : List Char) (cosine : Bool) :
    ∃ (t : ℝ) (c θ : ℝ → ℝ), Continuous c ∧ Continuous θ ∧ ((digits[1]? = some '0' ∨ cosine = false) → θ = fun _ => 0) ∧
      ((∀ ch ∈ digits, ch.isDigit = true) → (∃ (n : Nat) (P : Profile), generateCoordinates look digits n cosine = .ok P) → t = nacaThickness digits) ∧
      ∀ (n : Nat) (P : Profile), generateCoordinates look digits n cosine = .ok P → P = spread n (nacaHalfThickness t) c θ := by
  by_cases hex : ∃ (n : Nat) (P : Profile), generateCoordinates look digits n cosine = .ok P
  swap
  · exact ⟨0, fun _ => 0, fun _ => 0, continuous_const, continuous_const, fun _ => rfl, fun _ h => (hex h).elim, fun n P h => (hex ⟨n, P, h⟩).elim⟩
  obtain ⟨n, P, h⟩ := hex
  rcases generated_cases h with ⟨d0, d1, d2, d3, v, rfl, h0, h1, hv⟩ | ⟨d0, d1, d2, d3, d4, v, rfl, h0, h1, h2, hs, hv⟩
  · have hT : (∀ ch ∈ [d0, d1, d2, d3], ch.isDigit = true) → v / 100 = nacaThickness [d0, d1, d2, d3] := by
      intro hd
      rw [numVal_digits (hd d2 (by simp)) (hd d3 (by simp))] at hv
      rw [← Except.ok.inj hv]; rfl
    refine ⟨v / 100, (if dig d1 = 0 then fun _ => 0 else nacaCamber4 (dig d0 / 100) (dig d1 / 10)),
      (if dig d1 = 0 ∨ cosine = false then fun _ => 0 else fun a => Real.arctan (slopeFn4 (dig d0 / 100) (dig d1 / 10) a)),
      ?_, ?_, ?_, fun hd _ => hT hd, ?_⟩
    · split_ifs with hz
      · exact continuous_const
      · exact continuous_camber4 (pos_of_digit hz).ne' (lt_one_of_digit h1)
    · split_ifs with hz
      · exact continuous_const
      · exact Real.continuous_arctan.comp (continuous_slope4 _ _)
    · rintro (h' | h')
      · obtain rfl : d1 = '0' := by simpa using h'
        rw [if_pos (Or.inl (by simp [dig]))]
      · rw [if_pos (Or.inr h')]
    · intro k Q hQ
      change coords4 d0 d1 [d2, d3] k cosine = .ok Q at hQ
      rw [coords4_of h0 h1 hv] at hQ
      exact (Except.ok.inj hQ).symm
  · have hT : (∀ ch ∈ [d0, d1, d2, d3, d4], ch.isDigit = true) → v / 100 = nacaThickness [d0, d1, d2, d3, d4] := by
      intro hd
      rw [numVal_digits (hd d3 (by simp)) (hd d4 (by simp))] at hv
      rw [← Except.ok.inj hv]; rfl
    refine ⟨v / 100, (if dig d1 = 0 then fun _ => 0
        else fun a => (if cosine then dig d0 * 0.15 / 0.3 else 1) *
          nacaCamber5 (look (decide (dig d2 = 1)) (5 * dig d1 / 100)).1
            (look (decide (dig d2 = 1)) (5 * dig d1 / 100)).2 a),
      (if dig d1 = 0 ∨ cosine = false then fun _ => 0
        else fun a => Real.arctan (slopeFn5 (look (decide (dig d2 = 1)) (5 * dig d1 / 100)).1
          (look (decide (dig d2 = 1)) (5 * dig d1 / 100)).2 a)),
      ?_, ?_, ?_, fun hd _ => hT hd, ?_⟩
    · by_cases hz : dig d1 = 0
      · rw [if_pos hz]; exact continuous_const
      · rw [if_neg hz]; exact continuous_const.mul (continuous_camber5 _ _)
    · by_cases hz : dig d1 = 0 ∨ cosine = false
      · rw [if_pos hz]; exact continuous_const
      · rw [if_neg hz]; exact Real.continuous_arctan.comp (continuous_slope5 _ _)
    · rintro (h' | h')
      · obtain rfl : d1 = '0' := by simpa using h'
        rw [if_pos (Or.inl (by simp [dig]))]
      · rw [if_pos (Or.inr h')]
    · intro k Q hQ
      change coords5 look d0 d1 d2 [d3, d4] k cosine = .ok Q at hQ
      rw [coords5_of look h0 h1 h2 hv hs] at hQ
      exact (Except.ok.inj hQ).symm

theorem spread_get {n : Nat} {y c θ : ℝ → ℝ} {i : Nat} (hi : i < n) :
    (spread n y c θ).upper[i]? = some ((i : ℝ) / ((n : ℝ) - 1) - y ((i : ℝ) / ((n : ℝ) - 1)) * Real.sin (θ ((i : ℝ) / ((n : ℝ) - 1))),
        c ((i : ℝ) / ((n : ℝ) - 1)) + y ((i : ℝ) / ((n : ℝ) - 1)) * Real.cos (θ ((i : ℝ) / ((n : ℝ) - 1)))) ∧
      (spread n y c θ).lower[i]? = some ((i : ℝ) / ((n : ℝ) - 1) + y ((i : ℝ) / ((n : ℝ) - 1)) * Real.sin (θ ((i : ℝ) / ((n : ℝ) - 1))),
        c ((i : ℝ) / ((n : ℝ) - 1)) - y ((i : ℝ) / ((n : ℝ) - 1)) * Real.cos (θ ((i : ℝ) / ((n : ℝ) - 1)))) := by
  have h := Reverse.linspaceN_get hi
  constructor
  · simp [Profile.upper, spread, List.getElem?_zip_eq_some, h]
  · simp [Profile.lower, spread, List.getElem?_zip_eq_some, h]

end Naca

/-- **C141** whatever the digits (of any length), the spacing and the looked-up camber constants, there are two
continuous curves, one for each surface, such that the foil built with `n` points - for every `n` - consists of the
points of these curves at the parameters `0, 1/(n-1), …, 1`: the number of points only says how finely the curves are
sampled. -/
theorem C141_one_curve (american : Profile → Res Arr) (look : LookUp) (digits : List Char) (cosine : Bool) :
    ∃ U L : ℝ → Pt, Continuous U ∧ Continuous L ∧
      ∀ (n : Nat) (Q : Profile), ctor american look (.str digits) (.int n) cosine = .ok Q →
        Q.upper.length = n ∧ Q.lower.length = n ∧
        ∀ (i : Nat), i < n → Q.upper[i]? = some (U ((i : ℝ) / ((n : ℝ) - 1))) ∧ Q.lower[i]? = some (L ((i : ℝ) / ((n : ℝ) - 1))) := by
  obtain ⟨t, c, θ, hc, hθ, _, _, H⟩ := Naca.generated_any look digits cosine
  have hy := Naca.continuous_half t
  refine ⟨fun s => (s - nacaHalfThickness t s * Real.sin (θ s), c s + nacaHalfThickness t s * Real.cos (θ s)),
    fun s => (s + nacaHalfThickness t s * Real.sin (θ s), c s - nacaHalfThickness t s * Real.cos (θ s)),
    by fun_prop, by fun_prop, ?_⟩
  intro n Q hQ
  obtain ⟨P, hP, x1, x2, x3, x4⟩ := naca_ctor_coords hQ
  have eP := H n P hP
  have eu : Q.upper = P.upper := by simp [Profile.upper, x1, x3]
  have el : Q.lower = P.lower := by simp [Profile.lower, x2, x4]
  rw [eu, el, eP]
  refine ⟨by simp [Profile.upper, Naca.spread, linspaceN_length], by simp [Profile.lower, Naca.spread, linspaceN_length], ?_⟩
  intro i hi
  exact Naca.spread_get hi

/-- **C141** a foil with `k (n-1) + 1` points contains the foil with `n` points: its points number `0, k, 2k, …` are
exactly those. -/
theorem C141_refined (american : Profile → Res Arr) (look : LookUp) (digits : List Char) (cosine : Bool) (n k : Nat) (hn : 2 ≤ n)
    (hk : 1 ≤ k) (Q R : Profile) (hQ : ctor american look (.str digits) (.int n) cosine = .ok Q)
    (hR : ctor american look (.str digits) (.int ((k * (n - 1) + 1 : Nat) : Int)) cosine = .ok R) (i : Nat) (hi : i < n) :
    R.upper[k * i]? = Q.upper[i]? ∧ R.lower[k * i]? = Q.lower[i]? := by
  obtain ⟨U, L, _, _, H⟩ := C141_one_curve american look digits cosine
  obtain ⟨_, _, hq⟩ := H n Q hQ
  obtain ⟨_, _, hr⟩ := H _ R hR
  have hlt : k * i < k * (n - 1) + 1 := Nat.lt_succ_of_le (Nat.mul_le_mul_left k (by omega))
  have e : ((k * i : Nat) : ℝ) / (((k * (n - 1) + 1 : Nat) : ℝ) - 1) = (i : ℝ) / ((n : ℝ) - 1) := by
    have h1 : ((n - 1 : Nat) : ℝ) = (n : ℝ) - 1 := by rw [Nat.cast_sub (by omega)]; simp
    have h2 : (k : ℝ) ≠ 0 := by positivity
    push_cast
    rw [h1, add_sub_cancel_right]
    rw [mul_div_mul_left _ _ h2]
  rw [(hq i hi).1, (hq i hi).2, (hr _ hlt).1, (hr _ hlt).2, e]
  exact ⟨rfl, rfl⟩

/-- **C141** enough points fill the curves: for every tolerance there is a number from which on, for every foil with that
many points or more, each point of either curve lies within the tolerance of a sample and neighbouring samples lie within
the tolerance of each other (both coordinates differ by less). -/
theorem C141_dense (american : Profile → Res Arr) (look : LookUp) (digits : List Char) (cosine : Bool) :
    ∃ U L : ℝ → Pt, Continuous U ∧ Continuous L ∧ ∀ ε : ℝ, 0 < ε → ∃ N : Nat, ∀ (n : Nat), N ≤ n → ∀ (Q : Profile),
      ctor american look (.str digits) (.int n) cosine = .ok Q →
      (∀ p ∈ Q.upper, ∃ s : ℝ, 0 ≤ s ∧ s ≤ 1 ∧ p = U s) ∧ (∀ p ∈ Q.lower, ∃ s : ℝ, 0 ≤ s ∧ s ≤ 1 ∧ p = L s) ∧
      (∀ s : ℝ, 0 ≤ s → s ≤ 1 → (∃ p ∈ Q.upper, dist p (U s) < ε) ∧ (∃ p ∈ Q.lower, dist p (L s) < ε)) ∧
      (∀ (i : Nat) (p q : Pt), Q.upper[i]? = some p → Q.upper[i + 1]? = some q → dist p q < ε) ∧
      ∀ (i : Nat) (p q : Pt), Q.lower[i]? = some p → Q.lower[i + 1]? = some q → dist p q < ε := by
  obtain ⟨U, L, hU, hL, H⟩ := C141_one_curve american look digits cosine
  refine ⟨U, L, hU, hL, fun ε hε => ?_⟩
  have uc : ∀ f : ℝ → Pt, Continuous f → ∃ δ > 0, ∀ a ∈ Set.Icc (0 : ℝ) 1, ∀ b ∈ Set.Icc (0 : ℝ) 1, dist a b < δ → dist (f a) (f b) < ε := by
    intro f hf
    have := (isCompact_Icc (a := (0 : ℝ)) (b := 1)).uniformContinuousOn_of_continuous hf.continuousOn
    exact Metric.uniformContinuousOn_iff.1 this ε hε
  obtain ⟨δ1, hδ1, h1⟩ := uc U hU
  obtain ⟨δ2, hδ2, h2⟩ := uc L hL
  obtain ⟨M, hM⟩ := exists_nat_gt (1 / min δ1 δ2)
  refine ⟨M + 2, fun n hn Q hQ => ?_⟩
  obtain ⟨lu, ll, hq⟩ := H n Q hQ
  have hδ : 0 < min δ1 δ2 := lt_min hδ1 hδ2
  have hnR : (M : ℝ) + 1 ≤ (n : ℝ) - 1 := by
    have : ((M + 2 : Nat) : ℝ) ≤ (n : ℝ) := by exact_mod_cast hn
    push_cast at this; linarith
  have hpos : 0 < (n : ℝ) - 1 := by have : (0 : ℝ) ≤ M := Nat.cast_nonneg _; linarith
  have hstep : 1 / ((n : ℝ) - 1) < min δ1 δ2 := by
    rw [div_lt_iff₀ hpos]
    rw [div_lt_iff₀ hδ] at hM
    nlinarith
  have mem : ∀ (i : Nat), i < n → (i : ℝ) / ((n : ℝ) - 1) ∈ Set.Icc (0 : ℝ) 1 := by
    intro i hi
    have : (i : ℝ) ≤ (n : ℝ) - 1 := by
      have : ((i + 1 : Nat) : ℝ) ≤ (n : ℝ) := by exact_mod_cast hi
      push_cast at this; linarith
    exact ⟨by positivity, by rw [div_le_one hpos]; exact this⟩
  have nb : ∀ (i : Nat), dist ((i : ℝ) / ((n : ℝ) - 1)) (((i + 1 : Nat) : ℝ) / ((n : ℝ) - 1)) < min δ1 δ2 := by
    intro i
    rw [Real.dist_eq, ← sub_div]
    push_cast
    rw [show (i : ℝ) - (i + 1) = -1 by ring, neg_div, abs_neg, abs_of_pos (by positivity)]
    exact hstep
  have near : ∀ s : ℝ, 0 ≤ s → s ≤ 1 → ∃ i : Nat, i < n ∧ dist ((i : ℝ) / ((n : ℝ) - 1)) s < min δ1 δ2 := by
    intro s s0 s1
    refine ⟨⌊s * ((n : ℝ) - 1)⌋₊, ?_, ?_⟩
    · have a := Nat.floor_le (show 0 ≤ s * ((n : ℝ) - 1) by positivity)
      have b : s * ((n : ℝ) - 1) < n := by nlinarith
      exact_mod_cast lt_of_le_of_lt a b
    · have a := Nat.floor_le (show 0 ≤ s * ((n : ℝ) - 1) by positivity)
      have b := Nat.lt_floor_add_one (s * ((n : ℝ) - 1))
      refine lt_of_le_of_lt ?_ hstep
      rw [Real.dist_eq, abs_sub_comm]
      set f : ℝ := (⌊s * ((n : ℝ) - 1)⌋₊ : ℝ)
      have e : s - f / ((n : ℝ) - 1) = (s * ((n : ℝ) - 1) - f) / ((n : ℝ) - 1) := by field_simp
      rw [e, abs_div, abs_of_pos hpos, abs_of_nonneg (by linarith)]
      exact div_le_div_of_nonneg_right (by linarith) hpos.le
  have idx : ∀ {l : List Pt} {i : Nat} {p : Pt}, l.length = n → l[i]? = some p → i < n := by
    intro l i p hl h
    rw [← hl]; exact (List.getElem?_eq_some_iff.1 h).1
  refine ⟨?_, ?_, ?_, ?_, ?_⟩
  · intro p hp
    obtain ⟨i, hi, e⟩ := List.mem_iff_getElem.1 hp
    rw [lu] at hi
    refine ⟨_, (mem i hi).1, (mem i hi).2, ?_⟩
    have := (hq i hi).1
    rw [List.getElem?_eq_getElem (by omega), e] at this
    exact Option.some.inj this
  · intro p hp
    obtain ⟨i, hi, e⟩ := List.mem_iff_getElem.1 hp
    rw [ll] at hi
    refine ⟨_, (mem i hi).1, (mem i hi).2, ?_⟩
    have := (hq i hi).2
    rw [List.getElem?_eq_getElem (by omega), e] at this
    exact Option.some.inj this
  · intro s s0 s1
    obtain ⟨i, hi, hd⟩ := near s s0 s1
    refine ⟨⟨_, List.mem_of_getElem? (hq i hi).1, h1 _ (mem i hi) _ ⟨s0, s1⟩ (lt_of_lt_of_le hd (min_le_left _ _))⟩,
      ⟨_, List.mem_of_getElem? (hq i hi).2, h2 _ (mem i hi) _ ⟨s0, s1⟩ (lt_of_lt_of_le hd (min_le_right _ _))⟩⟩
  · intro i p q hp hq'
    have b := idx lu hq'
    have a := idx lu hp
    rw [(hq i a).1] at hp
    rw [(hq _ b).1] at hq'
    cases hp; cases hq'
    exact h1 _ (mem i a) _ (mem _ b) (lt_of_lt_of_le (nb i) (min_le_left _ _))
  · intro i p q hp hq'
    have b := idx ll hq'
    have a := idx ll hp
    rw [(hq i a).2] at hp
    rw [(hq _ b).2] at hq'
    cases hp; cases hq'
    exact h2 _ (mem i a) _ (mem _ b) (lt_of_lt_of_le (nb i) (min_le_right _ _))

/-- The hypotheses are met: a cambered NACA 2412 with 6 and with `3·5+1 = 16` points. -/
example (american : Profile → Res Arr) (look : LookUp) : ∃ Q R,
    ctor american look (.str ['2', '4', '1', '2']) (.int (6 : Nat)) true = .ok Q ∧
    ctor american look (.str ['2', '4', '1', '2']) (.int ((3 * (6 - 1) + 1 : Nat) : Int)) true = .ok R ∧
    R.upper[9]? = Q.upper[3]? ∧ Q.upper.length = 6 ∧ R.lower.length = 16 := by
  obtain ⟨Q, hQ, _⟩ := C21_four_digits american look '2' '4' '1' '2' rfl rfl rfl rfl 6 (by norm_num) true
  obtain ⟨R, hR, _⟩ := C21_four_digits american look '2' '4' '1' '2' rfl rfl rfl rfl (3 * (6 - 1) + 1) (by norm_num) true
  obtain ⟨U, L, _, _, H⟩ := C141_one_curve american look ['2', '4', '1', '2'] true
  exact ⟨Q, R, hQ, hR, (C141_refined american look _ true 6 3 (by norm_num) (by norm_num) Q R hQ hR 3 (by norm_num)).1,
    (H _ Q hQ).1, (H _ R hR).2.1⟩

end BladeX
