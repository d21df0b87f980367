import Verif.Props.Naca

/-! # Where the foremost point of a NACA foil is (`nacaprofile.py`) -/

namespace BladeX
open Spec Naca

private theorem half_root (t s : ℝ) (hs : 0 ≤ s) : nacaHalfThickness t (s ^ 2) =
    5 * t * (0.2969 * s - 0.1260 * s ^ 2 - 0.3516 * s ^ 4 + 0.2843 * s ^ 6 - 0.1036 * s ^ 8) := by
  unfold nacaHalfThickness
  rw [Real.sqrt_sq hs]; ring

private theorem half_above {t s : ℝ} (ht : 0 ≤ t) (h0 : 0 ≤ s) (h1 : s ^ 2 ≤ 0.05) : 5 * t * (0.24 * s) ≤ nacaHalfThickness t (s ^ 2) := by
  rw [half_root t s h0]
  have hs : s ≤ 0.25 := by nlinarith
  refine mul_le_mul_of_nonneg_left ?_ (by positivity)
  have a : s ^ 2 ≤ 0.25 * s := by nlinarith
  have b : s ^ 4 ≤ 0.05 * (0.25 * s) := by
    have := mul_le_mul h1 a (by positivity) (by norm_num)
    nlinarith
  have c : s ^ 8 ≤ s ^ 4 := by
    have : s ^ 4 ≤ 1 := pow_le_one₀ h0 (by linarith)
    have : s ^ 4 * s ^ 4 ≤ s ^ 4 * 1 := mul_le_mul_of_nonneg_left this (by positivity)
    nlinarith
  have d : 0 ≤ s ^ 6 := by positivity
  nlinarith

private theorem half_below {t s : ℝ} (ht : 0 ≤ t) (h0 : 0 ≤ s) (h1 : s ≤ 1) : nacaHalfThickness t (s ^ 2) ≤ 5 * t * (0.2969 * s) := by
  rw [half_root t s h0]
  refine mul_le_mul_of_nonneg_left ?_ (by positivity)
  have a : s ^ 6 ≤ s ^ 4 := pow_le_pow_of_le_one h0 h1 (by norm_num)
  have b : 0 ≤ s ^ 2 := by positivity
  have c : 0 ≤ s ^ 4 := by positivity
  have d : 0 ≤ s ^ 8 := by positivity
  linarith

private theorem sin_arctan_ge {s r : ℝ} (hr : 0 ≤ r) (hr1 : r ≤ 0.9) (h : r ≤ s) : 0.74 * r ≤ Real.sin (Real.arctan s) := by
  have mono : Real.sin (Real.arctan r) ≤ Real.sin (Real.arctan s) :=
    Real.strictMonoOn_sin.monotoneOn ⟨(Real.neg_pi_div_two_lt_arctan r).le, (Real.arctan_lt_pi_div_two r).le⟩
      ⟨(Real.neg_pi_div_two_lt_arctan s).le, (Real.arctan_lt_pi_div_two s).le⟩ (Real.arctan_strictMono.monotone h)
  refine le_trans ?_ mono
  rw [Real.sin_arctan, le_div_iff₀ (by positivity)]
  have : Real.sqrt (1 + r ^ 2) ≤ 1.35 := by
    rw [Real.sqrt_le_left (by norm_num)]; nlinarith
  nlinarith

private theorem sin_arctan_le {s : ℝ} (h : 0 ≤ s) : Real.sin (Real.arctan s) ≤ s := by
  rw [Real.sin_arctan, div_le_iff₀ (by positivity)]
  have : 1 ≤ Real.sqrt (1 + s ^ 2) := by rw [Real.one_le_sqrt]; nlinarith
  nlinarith

/-- Coordinates and parameters of a cosine-spaced cambered foil. -/
private theorem built (american : Profile → Res Arr) (look : LookUp) {d0 d1 d2 d3 : Char} (h0 : d0.isDigit = true) (h1 : d1.isDigit = true)
    (h2 : d2.isDigit = true) (h3 : d3.isDigit = true) (hp : dig d1 ≠ 0) (n : Nat) (hn : 2 ≤ n) :
    ∃ Q p mn, ctor american look (.str [d0, d1, d2, d3]) (.int n) true = .ok Q ∧ Q.par = some p ∧ p.chordLength = 1 ∧ MinOf Q.xup mn ∧
      p.chordPerc = Q.xup.map (fun x => x - mn) ∧ Q.xup.length = n ∧ Q.xup.head? = some 0 ∧ Q.xup.getLast? = some 1 ∧
      ∀ (i : Nat), i < n → Q.xup[i]? = some ((i : ℝ) / ((n : ℝ) - 1) - nacaHalfThickness ((10 * dig d2 + dig d3) / 100) ((i : ℝ) / ((n : ℝ) - 1)) *
        Real.sin (Real.arctan (slopeFn4 (dig d0 / 100) (dig d1 / 10) ((i : ℝ) / ((n : ℝ) - 1))))) := by
  have hc := coords4_eq h0 h1 h2 h3 n true
  rw [if_neg hp, if_neg (by simp [hp])] at hc
  obtain ⟨P, hP⟩ : ∃ P, P = spread n (nacaHalfThickness ((10 * dig d2 + dig d3) / 100)) (nacaCamber4 (dig d0 / 100) (dig d1 / 10))
    (fun a => Real.arctan (slopeFn4 (dig d0 / 100) (dig d1 / 10) a)) := ⟨_, rfl⟩
  rw [← hP] at hc
  have hU : P.Uniform ∧ P.xup.length = n := by rw [hP]; exact spread_uniform _ _ _ _
  have hE : P.Ends (0, 0) (1, 0) (0, 0) (1, 0) := by
    have := spread_ends hn (c := nacaCamber4 (dig d0 / 100) (dig d1 / 10)) (fun a => Real.arctan (slopeFn4 (dig d0 / 100) (dig d1 / 10) a))
      (half_zero ((10 * dig d2 + dig d3) / 100)) (half_one ((10 * dig d2 + dig d3) / 100))
    rwa [camber4_zero (pos_of_digit hp), camber4_one (lt_one_of_digit h1), ← hP] at this
  have hed : P.updateEdges = .ok ((0, 0), (1, (0 + 0) / 2)) := by
    rw [Profile.updateEdges_ends ⟨hU.1.1, hU.1.2.2⟩ hE, if_neg (by norm_num)]
  obtain ⟨Q, p, hQ, hq, ⟨s1, -, -, -⟩, e1, ⟨mn, e2, e3⟩, -⟩ := C14_parameters american P _ _ hed (by simp [dist2]) hU.1.1.symm
    (by rw [← hU.1.2.2, hU.1.2.1])
  have ch : p.chordLength = 1 := by rw [e1]; simp [dist2]
  have hg : generateCoordinates look [d0, d1, d2, d3] n true = .ok P := hc
  have nn : ¬ ((n : Int) < 0) := by omega
  refine ⟨Q, p, mn, ?_, hq, ch, by rw [s1]; exact e2, ?_, by rw [s1]; exact hU.2, by rw [s1]; exact (zip_head? hE.1).1,
    by rw [s1]; exact (zip_getLast? hU.1.1 hE.2.1).1, ?_⟩
  · simp [ctor, checkArgs, bind, Except.bind, pure, Except.pure, throw, throwThe, MonadExceptOf.throw, hg, hQ, nn]
  · rw [ch] at e3
    simp only [mul_one, List.map_id'] at e3
    rw [e3, s1]
  · intro i hi
    rw [s1, hP]
    simp only [spread, List.getElem?_map]
    rw [List.getElem?_eq_getElem (by rw [linspaceN_length]; exact hi), linspaceN_getElem]
    simp only [Option.map_some, zero_add, sub_zero, mul_one_div]

/-- **C134** With enough points (explicitly: `1.3e6 P² ≤ (n - 1) (M TT)²` for a foil `MPTT`, and 21) a cambered foil with thickness starts in front of
its leading edge: the second point of the upper surface has a negative abscissa, and the chord percentages start above 0 and end above 1. -/
theorem C134_overhang (american : Profile → Res Arr) (look : LookUp) {d0 d1 d2 d3 : Char} (h0 : d0.isDigit = true) (h1 : d1.isDigit = true)
    (h2 : d2.isDigit = true) (h3 : d3.isDigit = true) (hp : dig d1 ≠ 0) (n : Nat) (hn : 21 ≤ n)
    (hb : 1300000 * dig d1 ^ 2 ≤ ((n : ℝ) - 1) * ((10 * dig d2 + dig d3) * dig d0) ^ 2) :
    ∃ Q p x c e, ctor american look (.str [d0, d1, d2, d3]) (.int n) true = .ok Q ∧ Q.par = some p ∧ Q.xup[0]? = some 0 ∧ Q.xup[1]? = some x ∧ x < 0 ∧
      p.chordPerc.head? = some c ∧ 0 < c ∧ p.chordPerc.getLast? = some e ∧ e = 1 + c := by
  obtain ⟨Q, p, mn, hQ, hq, -, hmn, hpc, hl, hh, hlast, hx⟩ := built american look h0 h1 h2 h3 hp n (by omega)
  have n0 := dig_nonneg d0
  have n1 : 1 ≤ dig d1 := by
    have : (d1.toNat - 48) ≠ 0 := fun e => hp (by unfold dig; simp [e])
    unfold dig
    exact_mod_cast Nat.one_le_iff_ne_zero.2 this
  have n2 := dig_nonneg d2
  have n3 := dig_nonneg d3
  have k0 := dig_le h0
  have k1 := dig_le h1
  obtain ⟨T, hT⟩ : ∃ T, T = 10 * dig d2 + dig d3 := ⟨_, rfl⟩
  have T0 : 0 ≤ T := by rw [hT]; positivity
  rw [← hT] at hb hx
  have nn : (20 : ℝ) ≤ (n : ℝ) - 1 := by
    have : (21 : ℝ) ≤ n := by exact_mod_cast hn
    linarith
  obtain ⟨s, hs⟩ : ∃ s, s = Real.sqrt (1 / ((n : ℝ) - 1)) := ⟨_, rfl⟩
  have s0 : 0 < s := by rw [hs]; exact Real.sqrt_pos.2 (by positivity)
  have ss : s ^ 2 = 1 / ((n : ℝ) - 1) := by rw [hs, Real.sq_sqrt (by positivity)]
  have s5 : s ^ 2 ≤ 0.05 := by
    rw [ss, div_le_iff₀ (by linarith)]; linarith
  -- the bound on the number of points, as one on the root of the first abscissa
  have key : 1.14 * (dig d1 * 1000) * s ≤ T * dig d0 := by
    have a : 0 ≤ T * dig d0 := by positivity
    refine le_of_sq_le_sq ?_ a
    have hm : ((n : ℝ) - 1) * s ^ 2 = 1 := by rw [ss]; field_simp
    have := mul_le_mul_of_nonneg_right hb (sq_nonneg s)
    have e : ((n : ℝ) - 1) * (T * dig d0) ^ 2 * s ^ 2 = (T * dig d0) ^ 2 := by
      calc _ = (T * dig d0) ^ 2 * (((n : ℝ) - 1) * s ^ 2) := by ring
        _ = _ := by rw [hm, mul_one]
    rw [e] at this
    refine le_trans ?_ this
    nlinarith [mul_nonneg (sq_nonneg (dig d1)) (sq_nonneg s)]
  have x1 := hx 1 (by omega)
  simp only [Nat.cast_one] at x1
  rw [← ss] at x1
  obtain ⟨x, hxx⟩ : ∃ x, x = s ^ 2 - nacaHalfThickness (T / 100) (s ^ 2) * Real.sin (Real.arctan (slopeFn4 (dig d0 / 100) (dig d1 / 10) (s ^ 2))) := ⟨_, rfl⟩
  rw [← hxx] at x1
  have hp1 : s ^ 2 ≤ dig d1 / 10 := by linarith
  have sl : dig d0 / (10 * dig d1) ≤ slopeFn4 (dig d0 / 100) (dig d1 / 10) (s ^ 2) := by
    unfold slopeFn4
    rw [if_pos hp1]
    have : dig d1 / 10 ≤ 2 * (dig d1 / 10) - 2 * s ^ 2 := by linarith
    calc dig d0 / (10 * dig d1) = dig d0 / 100 / (dig d1 / 10) ^ 2 * (dig d1 / 10) := by field_simp; ring
      _ ≤ _ := mul_le_mul_of_nonneg_left this (by positivity)
  have r9 : dig d0 / (10 * dig d1) ≤ 0.9 := by rw [div_le_iff₀ (by positivity)]; linarith
  have sn := sin_arctan_ge (by positivity) r9 sl
  have hf := half_above (t := T / 100) (by positivity) s0.le s5
  have neg : x < 0 := by
    have m := mul_le_mul hf sn (by positivity) (le_trans (by positivity) hf)
    have e : 5 * (T / 100) * (0.24 * s) * (0.74 * (dig d0 / (10 * dig d1))) = 0.888 * (T * dig d0) / (1000 * dig d1) * s := by field_simp; ring
    rw [e] at m
    have : 1.01 * s ≤ 0.888 * (T * dig d0) / (1000 * dig d1) := by
      rw [le_div_iff₀ (by positivity)]
      nlinarith [mul_pos (show (0 : ℝ) < dig d1 by linarith) s0]
    have := mul_le_mul_of_nonneg_right this s0.le
    rw [hxx]
    nlinarith
  have mneg : mn < 0 := lt_of_le_of_lt (hmn.2 x (List.mem_of_getElem? x1)) neg
  refine ⟨Q, p, x, -mn, 1 - mn, hQ, hq, ?_, x1, neg, ?_, by linarith, ?_, by ring⟩
  · rw [← List.head?_eq_getElem?]; exact hh
  · rw [hpc, List.head?_map, hh]; simp
  · rw [hpc, List.getLast?_map, hlast]; rfl

/-- **C134** With few enough points (`8.9 (n - 1) (M TT)² ≤ 1e6 P²`) no point of the upper surface lies in front of the leading edge, and the chord
percentages run from 0 to 1. -/
theorem C134_no_overhang (american : Profile → Res Arr) (look : LookUp) {d0 d1 d2 d3 : Char} (h0 : d0.isDigit = true) (h1 : d1.isDigit = true)
    (h2 : d2.isDigit = true) (h3 : d3.isDigit = true) (hp : dig d1 ≠ 0) (n : Nat) (hn : 2 ≤ n)
    (hb : 8.9 * (((n : ℝ) - 1) * ((10 * dig d2 + dig d3) * dig d0) ^ 2) ≤ 1000000 * dig d1 ^ 2) :
    ∃ Q p, ctor american look (.str [d0, d1, d2, d3]) (.int n) true = .ok Q ∧ Q.par = some p ∧ (∀ x ∈ Q.xup, 0 ≤ x) ∧ p.chordPerc = Q.xup ∧
      p.chordPerc.head? = some 0 ∧ p.chordPerc.getLast? = some 1 := by
  obtain ⟨Q, p, mn, hQ, hq, -, hmn, hpc, hl, hh, hlast, hx⟩ := built american look h0 h1 h2 h3 hp n hn
  have n0 := dig_nonneg d0
  have n1 : 1 ≤ dig d1 := by
    have : (d1.toNat - 48) ≠ 0 := fun e => hp (by unfold dig; simp [e])
    unfold dig
    exact_mod_cast Nat.one_le_iff_ne_zero.2 this
  have k1 := dig_le h1
  have n2 := dig_nonneg d2
  have n3 := dig_nonneg d3
  obtain ⟨T, hT⟩ : ∃ T, T = 10 * dig d2 + dig d3 := ⟨_, rfl⟩
  have T0 : 0 ≤ T := by rw [hT]; positivity
  rw [← hT] at hb hx
  have nn : (1 : ℝ) ≤ (n : ℝ) - 1 := by
    have : (2 : ℝ) ≤ n := by exact_mod_cast hn
    linarith
  have pos : ∀ x ∈ Q.xup, 0 ≤ x := by
    intro x hxm
    obtain ⟨i, hi⟩ := List.mem_iff_getElem?.1 hxm
    have hin : i < n := by rw [← hl]; exact (List.getElem?_eq_some_iff.1 hi).1
    rw [hx i hin] at hi
    obtain rfl := Option.some.inj hi
    rcases Nat.eq_zero_or_pos i with rfl | ip
    · simp [half_zero]
    have i1 : (1 : ℝ) ≤ i := by exact_mod_cast ip
    obtain ⟨a, ha⟩ : ∃ a, a = (i : ℝ) / ((n : ℝ) - 1) := ⟨_, rfl⟩
    rw [← ha]
    have a0 : 0 ≤ a := by rw [ha]; positivity
    have a1 : a ≤ 1 := by
      rw [ha, div_le_one (by linarith)]
      have : (i : ℝ) + 1 ≤ n := by exact_mod_cast hin
      linarith
    have an : 1 ≤ ((n : ℝ) - 1) * a := by rw [ha]; field_simp; exact i1
    have hh0 := half_nonneg (t := T / 100) (by positivity) a0 a1
    rcases le_total (slopeFn4 (dig d0 / 100) (dig d1 / 10) a) 0 with sneg | spos
    · have : Real.sin (Real.arctan (slopeFn4 (dig d0 / 100) (dig d1 / 10) a)) ≤ 0 := by
        rw [Real.sin_arctan]; exact div_nonpos_of_nonpos_of_nonneg sneg (by positivity)
      nlinarith [mul_nonneg hh0 (neg_nonneg.2 this)]
    · have sl : slopeFn4 (dig d0 / 100) (dig d1 / 10) a ≤ dig d0 / (5 * dig d1) := by
        unfold slopeFn4 at spos ⊢
        by_cases ap : a ≤ dig d1 / 10
        · rw [if_pos ap]
          calc _ ≤ dig d0 / 100 / (dig d1 / 10) ^ 2 * (2 * (dig d1 / 10)) := mul_le_mul_of_nonneg_left (by linarith) (by positivity)
            _ = _ := by field_simp; ring
        · rw [if_neg ap]
          refine le_trans (mul_nonpos_of_nonneg_of_nonpos (by positivity) (by linarith)) (by positivity)
      have sn := (sin_arctan_le spos).trans sl
      obtain ⟨s, hs⟩ : ∃ s, s = Real.sqrt a := ⟨_, rfl⟩
      have s0 : 0 ≤ s := by rw [hs]; exact Real.sqrt_nonneg a
      have ss : s ^ 2 = a := by rw [hs, Real.sq_sqrt a0]
      have s1 : s ≤ 1 := by nlinarith
      rw [← ss] at an sn hh0 ⊢
      have hf := half_below (t := T / 100) (by positivity) s0 s1
      have sn0 : 0 ≤ Real.sin (Real.arctan (slopeFn4 (dig d0 / 100) (dig d1 / 10) (s ^ 2))) := by
        rw [Real.sin_arctan]; rw [ss]; positivity
      have m := mul_le_mul hf sn sn0 (hh0.trans hf)
      have e : 5 * (T / 100) * (0.2969 * s) * (dig d0 / (5 * dig d1)) = 2.969 * (T * dig d0) / (1000 * dig d1) * s := by field_simp; ring
      rw [e] at m
      have : 2.969 * (T * dig d0) / (1000 * dig d1) ≤ s := by
        rw [div_le_iff₀ (by positivity)]
        refine le_of_sq_le_sq ?_ (by positivity)
        have b1 := mul_le_mul_of_nonneg_right hb (sq_nonneg s)
        have b2 : (T * dig d0) ^ 2 * 1 ≤ (T * dig d0) ^ 2 * (((n : ℝ) - 1) * s ^ 2) := mul_le_mul_of_nonneg_left an (sq_nonneg _)
        nlinarith
      have := mul_le_mul_of_nonneg_right this s0
      nlinarith
  have m0 : mn = 0 := le_antisymm (hmn.2 0 (List.mem_of_head? hh)) (pos mn hmn.1)
  have e : p.chordPerc = Q.xup := by rw [hpc, m0]; simp
  exact ⟨Q, p, hQ, hq, pos, e, by rw [e]; exact hh, by rw [e]; exact hlast⟩

/-- NACA 2412 with the default 240 points does not, with 40000 points it does. -/
example (american : Profile → Res Arr) (look : LookUp) :
    (∃ Q, ctor american look (.str ['2', '4', '1', '2']) (.int (240 : ℕ)) true = .ok Q ∧ ∀ x ∈ Q.xup, 0 ≤ x) ∧
      ∃ Q x, ctor american look (.str ['2', '4', '1', '2']) (.int (40000 : ℕ)) true = .ok Q ∧ Q.xup[1]? = some x ∧ x < 0 := by
  constructor
  · obtain ⟨Q, p, hQ, -, h, -⟩ := C134_no_overhang american look (d0 := '2') (d1 := '4') (d2 := '1') (d3 := '2') rfl rfl rfl rfl (by simp [dig]) 240
      (by norm_num) (by simp [dig]; norm_num)
    exact ⟨Q, hQ, h⟩
  · obtain ⟨Q, p, x, c, e, hQ, -, -, hx, h, -⟩ := C134_overhang american look (d0 := '2') (d1 := '4') (d2 := '1') (d3 := '2') rfl rfl rfl rfl (by simp [dig])
      40000 (by norm_num) (by simp [dig]; norm_num)
    exact ⟨Q, x, hQ, hx, h⟩

/-- The default number of points is enough for NACA 9118. -/
example (american : Profile → Res Arr) (look : LookUp) :
    ∃ Q x, ctor american look (.str ['9', '1', '1', '8']) (.int (240 : ℕ)) true = .ok Q ∧ Q.xup[1]? = some x ∧ x < 0 := by
  obtain ⟨Q, p, x, c, e, hQ, -, -, hx, h, -⟩ := C134_overhang american look (d0 := '9') (d1 := '1') (d2 := '1') (d3 := '8') rfl rfl rfl rfl (by simp [dig])
    240 (by norm_num) (by simp [dig]; norm_num)
  exact ⟨Q, x, hQ, hx, h⟩

end BladeX
