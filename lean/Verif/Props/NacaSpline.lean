import Verif.Lemmas.NacaSpline
import Verif.Props.NacaMeaning

/-! # C116: the position digits beyond the published tables (`bladex/profile/nacaprofile.py`) -/

namespace BladeX
open Spec
namespace Naca

/-- **C116** The look-up through the two splines gives the published constants at the published positions. -/
theorem C116_published (P m k : ℝ) :
    ((P, m, k) ∈ naca5Standard → splineLook false (P / 20) = (m, k)) ∧ ((P, m, k) ∈ naca5Reflex → splineLook true (P / 20) = (m, k)) :=
  ⟨fun h => look_published splineLook_interpolates false (by simpa using h), fun h => look_published splineLook_interpolates true (by simpa using h)⟩

/-- **C116** The constants used for the position digits without published ones: 6 to 9 in the standard series, 1 and 6 to 9 in the reflexed one. Instead of
going on falling (from 3.23 and 3.191 at digit 5) they grow beyond every published one, or turn negative. -/
theorem C116_extrapolated :
    (∃ k, splineLook false (6 / 20) = (0.508, k) ∧ 122 < k ∧ k < 123) ∧ (∃ k, splineLook false (7 / 20) = (0.6435, k) ∧ 603 < k ∧ k < 604) ∧
    (∃ k, splineLook false (8 / 20) = (0.8, k) ∧ 1889 < k ∧ k < 1890) ∧ (∃ k, splineLook false (9 / 20) = (0.98, k) ∧ 4752 < k ∧ k < 4753) ∧
    (∃ k, splineLook true (1 / 20) = (0.049, k) ∧ 126 < k ∧ k < 127) ∧ (∃ k, splineLook true (6 / 20) = (0.594, k) ∧ -63 < k ∧ k < -62) ∧
    (∃ k, splineLook true (7 / 20) = (0.785, k) ∧ -381 < k ∧ k < -380) ∧ (∃ k, splineLook true (8 / 20) = (1.022, k) ∧ -1415 < k ∧ k < -1414) ∧
    (∃ k, splineLook true (9 / 20) = (1.313, k) ∧ -4160 < k ∧ k < -4159) := by
  have S : ∀ p m : ℝ, 0.2025 < m → standardM.eval p = m → splineLook false p = (m, standardK₁.eval m) := by
    intro p m h e
    rw [splineLook_standard, e, joined, if_neg (not_le.2 h)]
  have R : ∀ p m : ℝ, reflexM.eval p = m → splineLook true p = (m, reflexK.eval m) := by
    intro p m e
    rw [splineLook_reflex, e]
  refine ⟨⟨_, S _ _ ?_ ?_, ?_, ?_⟩, ⟨_, S _ _ ?_ ?_, ?_, ?_⟩, ⟨_, S _ _ ?_ ?_, ?_, ?_⟩, ⟨_, S _ _ ?_ ?_, ?_, ?_⟩, ⟨_, R _ _ ?_, ?_, ?_⟩, ⟨_, R _ _ ?_, ?_, ?_⟩,
    ⟨_, R _ _ ?_, ?_, ?_⟩, ⟨_, R _ _ ?_, ?_, ?_⟩, ⟨_, R _ _ ?_, ?_, ?_⟩⟩
  all_goals (try simp only [standardM, standardK₁, reflexM, reflexK, Cubic.eval]); norm_num

theorem dig_cases {c : Char} (h : c.isDigit = true) :
    dig c = 0 ∨ dig c = 1 ∨ dig c = 2 ∨ dig c = 3 ∨ dig c = 4 ∨ dig c = 5 ∨ dig c = 6 ∨ dig c = 7 ∨ dig c = 8 ∨ dig c = 9 := by
  have h9 := dig_le h
  unfold dig at h9 ⊢
  generalize c.toNat - 48 = k at h9 ⊢
  have : k ≤ 9 := by exact_mod_cast h9
  interval_cases k <;> norm_num

/-- A line with position `m` and constant `k` of either sign, between a third point and `m`: the tangent at `a` bounds it. -/
private theorem camber_le {m k a x B : ℝ} (hm : 0 < m) (hm1 : m < 1) (hk : 0 ≤ k) (ha : a ≤ m) (hx : 0 ≤ x) (hx1 : x ≤ 1)
    (B0 : k / 6 * (a ^ 3 - 3 * m * a ^ 2 + m ^ 2 * (3 - m) * a + (3 * a ^ 2 - 6 * m * a + m ^ 2 * (3 - m)) * (0 - a)) ≤ B)
    (B1 : k / 6 * (a ^ 3 - 3 * m * a ^ 2 + m ^ 2 * (3 - m) * a + (3 * a ^ 2 - 6 * m * a + m ^ 2 * (3 - m)) * (m - a)) ≤ B) :
    0 ≤ nacaCamber5 m k x ∧ nacaCamber5 m k x ≤ B := by
  have key : ∀ y, 0 ≤ y → y ≤ m → k / 6 * (y ^ 3 - 3 * m * y ^ 2 + m ^ 2 * (3 - m) * y) ≤ B := by
    intro y y0 y1
    set L : ℝ → ℝ := fun y => k / 6 * (a ^ 3 - 3 * m * a ^ 2 + m ^ 2 * (3 - m) * a + (3 * a ^ 2 - 6 * m * a + m ^ 2 * (3 - m)) * (y - a)) with hL
    have e : k / 6 * (y ^ 3 - 3 * m * y ^ 2 + m ^ 2 * (3 - m) * y) = L y - k / 6 * ((y - a) ^ 2 * (3 * m - 2 * a - y)) := by rw [hL]; ring
    have h1 : 0 ≤ k / 6 * ((y - a) ^ 2 * (3 * m - 2 * a - y)) := by
      apply mul_nonneg (by positivity) (mul_nonneg (sq_nonneg _) (by linarith))
    have e2 : L y = (1 - y / m) * L 0 + y / m * L m := by rw [hL]; field_simp; ring
    have t0 : 0 ≤ y / m := by positivity
    have t1 : y / m ≤ 1 := (div_le_one hm).2 y1
    have l0 : L 0 ≤ B := B0
    have l1 : L m ≤ B := B1
    rw [e, e2]
    nlinarith
  unfold nacaCamber5
  split_ifs with h
  · refine ⟨?_, key x hx h⟩
    have : x ^ 3 - 3 * m * x ^ 2 + m ^ 2 * (3 - m) * x = x * (x ^ 2 - 3 * m * x + m ^ 2 * (3 - m)) := by ring
    rw [this]
    have : 0 ≤ x ^ 2 - 3 * m * x + m ^ 2 * (3 - m) := by
      have : x ^ 2 - 3 * m * x + m ^ 2 * (3 - m) = (m - x) * (2 * m - x) + m ^ 2 * (1 - m) := by ring
      rw [this]
      have : 0 ≤ m ^ 2 * (1 - m) := mul_nonneg (sq_nonneg _) (by linarith)
      nlinarith
    positivity
  · have hx' := not_le.1 h
    constructor
    · have : 0 ≤ 1 - x := by linarith
      positivity
    · refine le_trans ?_ (key m hm.le le_rfl)
      have : k / 6 * (m ^ 3 - 3 * m * m ^ 2 + m ^ 2 * (3 - m) * m) = k * m ^ 3 / 6 * (1 - m) := by ring
      rw [this]
      exact mul_le_mul_of_nonneg_left (by linarith) (by positivity)

/-- The line lies on the outer side of its chord over `[1/4, 1/2]`. -/
private theorem camber_chord {m k x : ℝ} (hm : 0.5 ≤ m) (h1 : 1 / 4 ≤ x) (h2 : x ≤ 1 / 2) :
    ∃ s e : ℝ, 0 ≤ s ∧ s ≤ 1 ∧ 0 ≤ e ∧ nacaCamber5 m k x = k / 6 * ((1 - s) * (1 / 64 - 3 / 16 * m + m ^ 2 * (3 - m) / 4) +
      s * (1 / 8 - 3 / 4 * m + m ^ 2 * (3 - m) / 2) + e) := by
  refine ⟨4 * x - 1, (x - 1 / 4) * (1 / 2 - x) * (3 * m - 3 / 4 - x), by linarith, by linarith, ?_, ?_⟩
  · apply mul_nonneg (mul_nonneg _ _) <;> norm_num at hm ⊢ <;> linarith
  · rw [nacaCamber5, if_pos (by norm_num at hm ⊢; linarith)]; ring

private theorem high {m k x : ℝ} (hm : 0.5 ≤ m) (hk : 0 ≤ k) (h1 : 1 / 4 ≤ x) (h2 : x ≤ 1 / 2)
    (ha : 1 < k / 6 * (1 / 64 - 3 / 16 * m + m ^ 2 * (3 - m) / 4)) (hb : 1 < k / 6 * (1 / 8 - 3 / 4 * m + m ^ 2 * (3 - m) / 2)) :
    1 < nacaCamber5 m k x := by
  obtain ⟨s, e, s0, s1, e0, h⟩ := camber_chord (k := k) hm h1 h2
  rw [h]
  have : 0 ≤ k / 6 * e := by positivity
  generalize 1 / 64 - 3 / 16 * m + m ^ 2 * (3 - m) / 4 = A at *
  generalize 1 / 8 - 3 / 4 * m + m ^ 2 * (3 - m) / 2 = B at *
  have e : k / 6 * ((1 - s) * A + s * B + e) = (1 - s) * (k / 6 * A) + s * (k / 6 * B) + k / 6 * e := by ring
  rw [e]
  rcases s0.eq_or_lt with rfl | s0
  · linarith
  · nlinarith [mul_le_mul_of_nonneg_left ha.le (show 0 ≤ 1 - s by linarith)]

private theorem low {m k x : ℝ} (hm : 0.5 ≤ m) (hk : k ≤ 0) (h1 : 1 / 4 ≤ x) (h2 : x ≤ 1 / 2)
    (ha : k / 6 * (1 / 64 - 3 / 16 * m + m ^ 2 * (3 - m) / 4) < -1) (hb : k / 6 * (1 / 8 - 3 / 4 * m + m ^ 2 * (3 - m) / 2) < -1) :
    nacaCamber5 m k x < -1 := by
  obtain ⟨s, e, s0, s1, e0, h⟩ := camber_chord (k := k) hm h1 h2
  rw [h]
  have : k / 6 * e ≤ 0 := mul_nonpos_of_nonpos_of_nonneg (by linarith) e0
  generalize 1 / 64 - 3 / 16 * m + m ^ 2 * (3 - m) / 4 = A at *
  generalize 1 / 8 - 3 / 4 * m + m ^ 2 * (3 - m) / 2 = B at *
  have e : k / 6 * ((1 - s) * A + s * B + e) = (1 - s) * (k / 6 * A) + s * (k / 6 * B) + k / 6 * e := by ring
  rw [e]
  rcases s0.eq_or_lt with rfl | s0
  · linarith
  · nlinarith [mul_le_mul_of_nonneg_left ha.le (show 0 ≤ 1 - s by linarith)]

/-- Every cambered line with a position digit up to 5 stays between 0 and 3.1 % of the chord; beyond, it is more than a chord high over the second quarter
of the chord (below the chord line in the reflexed series). -/
theorem line_heights (b : Bool) (P x : ℝ) (hP : P ∈ [(1 : ℝ), 2, 3, 4, 5, 6, 7, 8, 9]) (hx : 0 ≤ x) (hx1 : x ≤ 1) :
    (P ≤ 5 → 0 ≤ nacaCamber5 (splineLook b (P / 20)).1 (splineLook b (P / 20)).2 x ∧
      nacaCamber5 (splineLook b (P / 20)).1 (splineLook b (P / 20)).2 x ≤ 0.031) ∧
    (6 ≤ P → 1 / 4 ≤ x → x ≤ 1 / 2 → (b = false → 1 < nacaCamber5 (splineLook b (P / 20)).1 (splineLook b (P / 20)).2 x) ∧
      (b = true → nacaCamber5 (splineLook b (P / 20)).1 (splineLook b (P / 20)).2 x < -1)) := by
  obtain ⟨⟨k6, s6, l6, u6⟩, ⟨k7, s7, l7, u7⟩, ⟨k8, s8, l8, u8⟩, ⟨k9, s9, l9, u9⟩, ⟨k1, r1, v1, w1⟩, ⟨j6, r6, v6, w6⟩, ⟨j7, r7, v7, w7⟩, ⟨j8, r8, v8, w8⟩,
    ⟨j9, r9, v9, w9⟩⟩ := C116_extrapolated
  have pub := fun P m k => C116_published P m k
  simp only [List.mem_cons, List.not_mem_nil, or_false] at hP
  cases b
  · rcases hP with rfl | rfl | rfl | rfl | rfl | rfl | rfl | rfl | rfl
    · rw [(pub 1 0.0580 361.4).1 (by simp [naca5Standard])]
      exact ⟨fun _ => camber_le (a := 0.05) (by norm_num) (by norm_num) (by norm_num) (by norm_num) hx hx1 (by norm_num) (by norm_num), fun h => by norm_num at h⟩
    · rw [(pub 2 0.1260 51.64).1 (by simp [naca5Standard])]
      exact ⟨fun _ => camber_le (a := 0.1) (by norm_num) (by norm_num) (by norm_num) (by norm_num) hx hx1 (by norm_num) (by norm_num), fun h => by norm_num at h⟩
    · rw [(pub 3 0.2025 15.957).1 (by simp [naca5Standard])]
      exact ⟨fun _ => camber_le (a := 0.15) (by norm_num) (by norm_num) (by norm_num) (by norm_num) hx hx1 (by norm_num) (by norm_num), fun h => by norm_num at h⟩
    · rw [(pub 4 0.2900 6.643).1 (by simp [naca5Standard])]
      exact ⟨fun _ => camber_le (a := 0.2) (by norm_num) (by norm_num) (by norm_num) (by norm_num) hx hx1 (by norm_num) (by norm_num), fun h => by norm_num at h⟩
    · rw [(pub 5 0.3910 3.230).1 (by simp [naca5Standard])]
      exact ⟨fun _ => camber_le (a := 0.25) (by norm_num) (by norm_num) (by norm_num) (by norm_num) hx hx1 (by norm_num) (by norm_num), fun h => by norm_num at h⟩
    · rw [s6]
      exact ⟨(fun h => by norm_num at h), fun _ a c => ⟨fun _ => high (by norm_num) (by linarith) a c (by norm_num; linarith) (by norm_num; linarith), fun h => by cases h⟩⟩
    · rw [s7]
      exact ⟨(fun h => by norm_num at h), fun _ a c => ⟨fun _ => high (by norm_num) (by linarith) a c (by norm_num; linarith) (by norm_num; linarith), fun h => by cases h⟩⟩
    · rw [s8]
      exact ⟨(fun h => by norm_num at h), fun _ a c => ⟨fun _ => high (by norm_num) (by linarith) a c (by norm_num; linarith) (by norm_num; linarith), fun h => by cases h⟩⟩
    · rw [s9]
      exact ⟨(fun h => by norm_num at h), fun _ a c => ⟨fun _ => high (by norm_num) (by linarith) a c (by norm_num; linarith) (by norm_num; linarith), fun h => by cases h⟩⟩
  · rcases hP with rfl | rfl | rfl | rfl | rfl | rfl | rfl | rfl | rfl
    · rw [r1]
      exact ⟨fun _ => camber_le (a := 0.04) (by norm_num) (by norm_num) (by linarith) (by norm_num) hx hx1 (by norm_num; linarith) (by norm_num; linarith), fun h => by norm_num at h⟩
    · rw [(pub 2 0.13 51.99).2 (by simp [naca5Reflex])]
      exact ⟨fun _ => camber_le (a := 0.103) (by norm_num) (by norm_num) (by norm_num) (by norm_num) hx hx1 (by norm_num) (by norm_num), fun h => by norm_num at h⟩
    · rw [(pub 3 0.2170 15.793).2 (by simp [naca5Reflex])]
      exact ⟨fun _ => camber_le (a := 0.159) (by norm_num) (by norm_num) (by norm_num) (by norm_num) hx hx1 (by norm_num) (by norm_num), fun h => by norm_num at h⟩
    · rw [(pub 4 0.318 6.520).2 (by simp [naca5Reflex])]
      exact ⟨fun _ => camber_le (a := 0.2145) (by norm_num) (by norm_num) (by norm_num) (by norm_num) hx hx1 (by norm_num) (by norm_num), fun h => by norm_num at h⟩
    · rw [(pub 5 0.441 3.191).2 (by simp [naca5Reflex])]
      exact ⟨fun _ => camber_le (a := 0.272) (by norm_num) (by norm_num) (by norm_num) (by norm_num) hx hx1 (by norm_num) (by norm_num), fun h => by norm_num at h⟩
    · rw [r6]
      exact ⟨(fun h => by norm_num at h), fun _ a c => ⟨(fun h => by cases h), fun _ => low (by norm_num) (by linarith) a c (by norm_num; linarith) (by norm_num; linarith)⟩⟩
    · rw [r7]
      exact ⟨(fun h => by norm_num at h), fun _ a c => ⟨(fun h => by cases h), fun _ => low (by norm_num) (by linarith) a c (by norm_num; linarith) (by norm_num; linarith)⟩⟩
    · rw [r8]
      exact ⟨(fun h => by norm_num at h), fun _ a c => ⟨(fun h => by cases h), fun _ => low (by norm_num) (by linarith) a c (by norm_num; linarith) (by norm_num; linarith)⟩⟩
    · rw [r9]
      exact ⟨(fun h => by norm_num at h), fun _ a c => ⟨(fun h => by cases h), fun _ => low (by norm_num) (by linarith) a c (by norm_num; linarith) (by norm_num; linarith)⟩⟩

/-- **C116** The mean line of a 5-digit foil: for the position digits up to 5 it stays between the chord line and 3.1 % of the chord (times the lift factor of
cosine spacing) at every station; for the digits 6 to 9, which the constructor takes just as well, it is more than a whole chord above the chord line at every
station of the second quarter of the chord, and more than a whole chord below it for the reflexed series. -/
theorem C116_height (american : Profile → Res Arr) (d0 d1 d2 d3 d4 : Char)
    (h0 : d0.isDigit = true) (h1 : d1.isDigit = true) (h2 : d2.isDigit = true) (h3 : d3.isDigit = true) (h4 : d4.isDigit = true)
    (hs : dig d2 = 1 ∨ dig d2 = 0) (hp : dig d1 ≠ 0) (n : Nat) (hn : 2 ≤ n) (cosine : Bool) (Q : Profile)
    (h : ctor american splineLook (.str [d0, d1, d2, d3, d4]) (.int n) cosine = .ok Q) (i : Nat) (u d : ℝ)
    (hu : Q.yup[i]? = some u) (hd : Q.ydown[i]? = some d) (s : ℝ) (hsc : s = if cosine then dig d0 * 0.15 / 0.3 else 1) :
    (dig d1 ≤ 5 → 0 ≤ (u + d) / 2 ∧ (u + d) / 2 ≤ 0.031 * s) ∧
    (6 ≤ dig d1 → 1 / 4 ≤ (i : ℝ) / (n - 1) → (i : ℝ) / (n - 1) ≤ 1 / 2 → 0 < s →
      (dig d2 = 0 → s < (u + d) / 2) ∧ (dig d2 = 1 → (u + d) / 2 < -s)) := by
  have hi : i < n := by
    obtain ⟨P, hP, x1, x2, x3, x4⟩ := naca_ctor_coords h
    have hP' : coords5 splineLook d0 d1 d2 [d3, d4] n cosine = .ok P := hP
    rw [coords5_eq splineLook h0 h1 h2 h3 h4 hs] at hP'
    obtain rfl := Except.ok.inj hP'
    have e := (List.getElem?_eq_some_iff.1 hu).1
    rw [x3] at e
    simpa [spread, linspaceN_length] using e
  obtain ⟨u', d', m, k, e, hu', hd', c1, c2⟩ := C25_mean_line american splineLook d0 d1 d2 d3 d4 h0 h1 h2 h3 h4 hs hp n cosine Q h i hi
  obtain rfl := Option.some.inj (hu'.symm.trans hu)
  obtain rfl := Option.some.inj (hd'.symm.trans hd)
  have hc : (u' + d') / 2 = s * nacaCamber5 m k (i / (n - 1)) := by
    rw [hsc]
    cases cosine
    · simpa using c2 rfl
    · simpa using c1 rfl
  have s0 : 0 ≤ s := by
    rw [hsc]
    have := dig_nonneg d0
    split_ifs <;> positivity
  have xr := station_range hn hi
  have hP : dig d1 ∈ [(1 : ℝ), 2, 3, 4, 5, 6, 7, 8, 9] := by
    simp only [List.mem_cons, List.not_mem_nil, or_false]
    exact (dig_cases h1).resolve_left hp
  obtain ⟨A, B⟩ := line_heights (decide (dig d2 = 1)) (dig d1) (i / (n - 1)) hP xr.1 xr.2
  rw [e] at A B
  rw [hc]
  refine ⟨fun h5 => ⟨mul_nonneg s0 (A h5).1, ?_⟩, fun h6 l r sp => ⟨fun hz => ?_, fun hz => ?_⟩⟩
  · rw [mul_comm]; exact mul_le_mul_of_nonneg_right (A h5).2 s0
  · have := (B h6 l r).1 (by simp [hz])
    nlinarith
  · have := (B h6 l r).2 (by simp [hz])
    nlinarith

/-- **C116** The constructor accepts every 5-digit designation with third digit 0 or 1, whatever constants are looked up: both surfaces have the requested
number of points and meet at both ends, at the abscissae 0 and 1. -/
theorem C116_accepts (american : Profile → Res Arr) (look : LookUp) (d0 d1 d2 d3 d4 : Char)
    (h0 : d0.isDigit = true) (h1 : d1.isDigit = true) (h2 : d2.isDigit = true) (h3 : d3.isDigit = true) (h4 : d4.isDigit = true)
    (hs : dig d2 = 1 ∨ dig d2 = 0) (n : Nat) (hn : 2 ≤ n) (cosine : Bool) :
    ∃ Q y z, ctor american look (.str [d0, d1, d2, d3, d4]) (.int n) cosine = .ok Q ∧ Q.Uniform ∧ Q.xup.length = n ∧ Q.Ends (0, y) (1, z) (0, y) (1, z) := by
  have hc := coords5_eq look h0 h1 h2 h3 h4 hs n cosine
  set c : ℝ → ℝ := (if dig d1 = 0 then fun _ => 0
    else fun a => (if cosine then dig d0 * 0.15 / 0.3 else 1) * nacaCamber5 (look (decide (dig d2 = 1)) (5 * dig d1 / 100)).1
      (look (decide (dig d2 = 1)) (5 * dig d1 / 100)).2 a) with hcd
  set θ : ℝ → ℝ := (if dig d1 = 0 ∨ cosine = false then fun _ => 0
    else fun a => Real.arctan (slopeFn5 (look (decide (dig d2 = 1)) (5 * dig d1 / 100)).1 (look (decide (dig d2 = 1)) (5 * dig d1 / 100)).2 a)) with hθ
  have hU := spread_uniform n (nacaHalfThickness ((10 * dig d3 + dig d4) / 100)) c θ
  have hE := spread_ends hn (c := c) θ (half_zero ((10 * dig d3 + dig d4) / 100)) (half_one ((10 * dig d3 + dig d4) / 100))
  have hed := Profile.updateEdges_ends ⟨hU.1.1, hU.1.2.2⟩ hE
  rw [if_neg (by norm_num)] at hed
  obtain ⟨Q, p, hQ, -, ⟨x1, x2, x3, x4⟩, -⟩ := C14_parameters american _ _ _ hed (by
    have : (0 : ℝ) < 1 ^ 2 + (c 0 - (c 1 + c 1) / 2) ^ 2 := by positivity
    simpa [dist2] using (Real.sqrt_pos.2 this).ne') hU.1.1.symm (by rw [← hU.1.2.2, hU.1.2.1])
  refine ⟨Q, c 0, c 1, ?_, by simpa [Profile.Uniform, x1, x2, x3, x4] using hU.1, by rw [x1]; exact hU.2,
    by simpa [Profile.Ends, Profile.upper, Profile.lower, x1, x2, x3, x4] using hE⟩
  have : ¬ ((n : Int) < 0) := by omega
  have hg : generateCoordinates look [d0, d1, d2, d3, d4] n cosine = .ok _ := hc
  simp [ctor, checkArgs, bind, Except.bind, pure, Except.pure, throw, throwThe, MonadExceptOf.throw, hg, hQ, this]

/-- **C116** The trailing edge of a linearly spaced foil is on the chord line except for the reflexed position digits 8 and 9, whose looked-up position lies
behind the trailing edge: there it is above the chord line, for digit 9 by more than 21 chords. -/
theorem C116_trailing_edge (american : Profile → Res Arr) (d0 d1 d2 d3 d4 : Char)
    (h0 : d0.isDigit = true) (h1 : d1.isDigit = true) (h2 : d2.isDigit = true) (h3 : d3.isDigit = true) (h4 : d4.isDigit = true)
    (hs : dig d2 = 1 ∨ dig d2 = 0) (n : Nat) (hn : 2 ≤ n) :
    ∃ Q z, ctor american splineLook (.str [d0, d1, d2, d3, d4]) (.int n) false = .ok Q ∧ Q.Ends (0, 0) (1, z) (0, 0) (1, z) ∧
      (dig d2 = 0 ∨ dig d1 ≤ 7 → z = 0) ∧ (dig d2 = 1 → dig d1 = 8 → 0.002 < z) ∧ (dig d2 = 1 → dig d1 = 9 → 21 < z) := by
  have hc := coords5_eq splineLook h0 h1 h2 h3 h4 hs n false
  obtain ⟨Q, y, z, hQ, -, -, -⟩ := C116_accepts american splineLook d0 d1 d2 d3 d4 h0 h1 h2 h3 h4 hs n hn false
  obtain ⟨P, hP, x1, x2, x3, x4⟩ := naca_ctor_coords hQ
  have hP' : coords5 splineLook d0 d1 d2 [d3, d4] n false = .ok P := hP
  rw [hc] at hP'
  obtain rfl := Except.ok.inj hP'
  set c : ℝ → ℝ := (if dig d1 = 0 then fun _ => 0
    else fun a => (if false = true then dig d0 * 0.15 / 0.3 else 1) * nacaCamber5 (splineLook (decide (dig d2 = 1)) (5 * dig d1 / 100)).1
      (splineLook (decide (dig d2 = 1)) (5 * dig d1 / 100)).2 a) with hcd
  set θ : ℝ → ℝ := (if dig d1 = 0 ∨ false = false then fun _ => 0
    else fun a => Real.arctan (slopeFn5 (splineLook (decide (dig d2 = 1)) (5 * dig d1 / 100)).1 (splineLook (decide (dig d2 = 1)) (5 * dig d1 / 100)).2 a)) with hθ
  have hE := spread_ends hn (c := c) θ (half_zero ((10 * dig d3 + dig d4) / 100)) (half_one ((10 * dig d3 + dig d4) / 100))
  have hval : ∀ x, c x = if dig d1 = 0 then 0 else nacaCamber5 (splineLook (decide (dig d2 = 1)) (dig d1 / 20)).1 (splineLook (decide (dig d2 = 1)) (dig d1 / 20)).2 x := by
    intro x
    rw [hcd, show 5 * dig d1 / 100 = dig d1 / 20 by ring]
    by_cases hz : dig d1 = 0
    · simp [hz]
    · simp [hz]
  obtain ⟨⟨k6, s6, l6, u6⟩, ⟨k7, s7, l7, u7⟩, ⟨k8, s8, l8, u8⟩, ⟨k9, s9, l9, u9⟩, ⟨k1, r1, v1, w1⟩, ⟨j6, r6, v6, w6⟩, ⟨j7, r7, v7, w7⟩, ⟨j8, r8, v8, w8⟩,
    ⟨j9, r9, v9, w9⟩⟩ := C116_extrapolated
  have pub := fun P m k => C116_published P m k
  have ends : ∀ {m k : ℝ}, 0 ≤ m → nacaCamber5 m k 0 = 0 ∧ (m < 1 → nacaCamber5 m k 1 = 0) := by
    intro m k h
    exact ⟨by simp [nacaCamber5, h], fun h1 => by simp [nacaCamber5, not_le.2 h1]⟩
  have main : c 0 = 0 ∧ (dig d2 = 0 ∨ dig d1 ≤ 7 → c 1 = 0) ∧ (dig d2 = 1 → dig d1 = 8 → 0.002 < c 1) ∧ (dig d2 = 1 → dig d1 = 9 → 21 < c 1) := by
    rw [hval, hval]
    rcases hs with e2 | e2
    · rw [show decide (dig d2 = 1) = true by simp [e2], e2]
      rcases dig_cases h1 with e | e | e | e | e | e | e | e | e | e <;> rw [e]
      · norm_num
      · rw [r1]; norm_num; exact ⟨(ends (by norm_num)).1, (ends (by norm_num)).2 (by norm_num)⟩
      · rw [(pub 2 0.13 51.99).2 (by simp [naca5Reflex])]; norm_num; exact ⟨(ends (by norm_num)).1, (ends (by norm_num)).2 (by norm_num)⟩
      · rw [(pub 3 0.2170 15.793).2 (by simp [naca5Reflex])]; norm_num; exact ⟨(ends (by norm_num)).1, (ends (by norm_num)).2 (by norm_num)⟩
      · rw [(pub 4 0.318 6.520).2 (by simp [naca5Reflex])]; norm_num; exact ⟨(ends (by norm_num)).1, (ends (by norm_num)).2 (by norm_num)⟩
      · rw [(pub 5 0.441 3.191).2 (by simp [naca5Reflex])]; norm_num; exact ⟨(ends (by norm_num)).1, (ends (by norm_num)).2 (by norm_num)⟩
      · rw [r6]; norm_num; exact ⟨(ends (by norm_num)).1, (ends (by norm_num)).2 (by norm_num)⟩
      · rw [r7]; norm_num; exact ⟨(ends (by norm_num)).1, (ends (by norm_num)).2 (by norm_num)⟩
      · rw [r8]; norm_num; exact ⟨(ends (by norm_num)).1, by rw [nacaCamber5, if_pos (by norm_num)]; norm_num; linarith⟩
      · rw [r9]; norm_num; exact ⟨(ends (by norm_num)).1, by rw [nacaCamber5, if_pos (by norm_num)]; norm_num; linarith⟩
    · rw [show decide (dig d2 = 1) = false by simp [e2], e2]
      rcases dig_cases h1 with e | e | e | e | e | e | e | e | e | e <;> rw [e]
      · norm_num
      · rw [(pub 1 0.0580 361.4).1 (by simp [naca5Standard])]; norm_num; exact ⟨(ends (by norm_num)).1, (ends (by norm_num)).2 (by norm_num)⟩
      · rw [(pub 2 0.1260 51.64).1 (by simp [naca5Standard])]; norm_num; exact ⟨(ends (by norm_num)).1, (ends (by norm_num)).2 (by norm_num)⟩
      · rw [(pub 3 0.2025 15.957).1 (by simp [naca5Standard])]; norm_num; exact ⟨(ends (by norm_num)).1, (ends (by norm_num)).2 (by norm_num)⟩
      · rw [(pub 4 0.2900 6.643).1 (by simp [naca5Standard])]; norm_num; exact ⟨(ends (by norm_num)).1, (ends (by norm_num)).2 (by norm_num)⟩
      · rw [(pub 5 0.3910 3.230).1 (by simp [naca5Standard])]; norm_num; exact ⟨(ends (by norm_num)).1, (ends (by norm_num)).2 (by norm_num)⟩
      · rw [s6]; norm_num; exact ⟨(ends (by norm_num)).1, (ends (by norm_num)).2 (by norm_num)⟩
      · rw [s7]; norm_num; exact ⟨(ends (by norm_num)).1, (ends (by norm_num)).2 (by norm_num)⟩
      · rw [s8]; norm_num; exact ⟨(ends (by norm_num)).1, (ends (by norm_num)).2 (by norm_num)⟩
      · rw [s9]; norm_num; exact ⟨(ends (by norm_num)).1, (ends (by norm_num)).2 (by norm_num)⟩
  refine ⟨Q, c 1, hQ, ?_, main.2.1, main.2.2.1, main.2.2.2⟩
  rw [main.1] at hE
  simpa [Profile.Ends, Profile.upper, Profile.lower, x1, x2, x3, x4] using hE

/-- Non-vacuity: NACA 26012 is accepted and its 31st point of 101 is a chord above the chord line; NACA 25012 is accepted with a height below 3.1 %. -/
example (american : Profile → Res Arr) : ∃ Q Q', ctor american splineLook (.str ['2', '6', '0', '1', '2']) (.int 101) true = .ok Q ∧
    ctor american splineLook (.str ['2', '5', '0', '1', '2']) (.int 101) true = .ok Q' ∧
    (∃ u d : ℝ, Q.yup[30]? = some u ∧ Q.ydown[30]? = some d ∧ 1 < (u + d) / 2) ∧ ∃ u d : ℝ, Q'.yup[30]? = some u ∧ Q'.ydown[30]? = some d ∧ (u + d) / 2 ≤ 0.031 := by
  have g6 : dig '6' = 6 := by show (((54 - 48 : Nat)) : ℝ) = 6; norm_num
  have g5 : dig '5' = 5 := by show (((53 - 48 : Nat)) : ℝ) = 5; norm_num
  have g2 : dig '2' = 2 := by show (((50 - 48 : Nat)) : ℝ) = 2; norm_num
  have g0 : dig '0' = 0 := by show (((48 - 48 : Nat)) : ℝ) = 0; norm_num
  obtain ⟨Q, y, z, hQ, U, L, -⟩ := C116_accepts american splineLook '2' '6' '0' '1' '2' rfl rfl rfl rfl rfl (Or.inr g0) 101 (by norm_num) true
  obtain ⟨Q', y', z', hQ', U', L', -⟩ := C116_accepts american splineLook '2' '5' '0' '1' '2' rfl rfl rfl rfl rfl (Or.inr g0) 101 (by norm_num) true
  have get : ∀ R : Profile, R.Uniform → R.xup.length = 101 → ∃ u d : ℝ, R.yup[30]? = some u ∧ R.ydown[30]? = some d := by
    intro R hR hl
    unfold Profile.Uniform at hR
    exact ⟨_, _, List.getElem?_eq_getElem (show 30 < R.yup.length by omega), List.getElem?_eq_getElem (show 30 < R.ydown.length by omega)⟩
  obtain ⟨u, d, hu, hd⟩ := get Q U L
  obtain ⟨u', d', hu', hd'⟩ := get Q' U' L'
  refine ⟨Q, Q', hQ, hQ', ⟨u, d, hu, hd, ?_⟩, u', d', hu', hd', ?_⟩
  · have := (C116_height american '2' '6' '0' '1' '2' rfl rfl rfl rfl rfl (Or.inr g0) (by rw [g6]; norm_num) 101 (by norm_num) true Q hQ 30 u d hu hd 1
      (by rw [g2]; norm_num)).2 (by rw [g6]) (by norm_num) (by norm_num) (by norm_num)
    exact this.1 g0
  · have := (C116_height american '2' '5' '0' '1' '2' rfl rfl rfl rfl rfl (Or.inr g0) (by rw [g5]; norm_num) 101 (by norm_num) true Q' hQ' 30 u' d' hu' hd' 1
      (by rw [g2]; norm_num)).1 (by rw [g5])
    simpa using this.2

end Naca
end BladeX
