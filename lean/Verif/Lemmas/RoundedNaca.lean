import Verif.Model.RoundedNaca
import Verif.Lemmas.RoundedPlace
import Verif.Lemmas.Naca
import Verif.Props.Rounded

/-! # Error estimates for NACA foils -/

namespace BladeX
open Spec
namespace Rounded

/-- `y` is `x` up to `ε a`, and `x` is at most `b`. -/
structure Nr (ε y x a b : ℝ) : Prop where
  near : |y - x| ≤ ε * a
  size : |x| ≤ b

variable {L : NacaLibrary} {ε : ℝ}

namespace Nr
variable {y x a b y' x' a' b' c d : ℝ}

theorem mono (h0 : 0 ≤ ε) (h : Nr ε y x a b) (hc : a ≤ c) (hd : b ≤ d) : Nr ε y x c d :=
  ⟨h.near.trans (mul_le_mul_of_nonneg_left hc h0), h.size.trans hd⟩

theorem exact (h : |x| ≤ b) : Nr ε x x 0 b := ⟨by simp, h⟩

theorem fl (R : Rounds L.fl ε) (he : ε ≤ 1 / 1000) (h : Nr ε y x a b) (hc : 1.001 * a + b ≤ c) : Nr ε (L.fl y) x c b :=
  ⟨(rnd R he h.near h.size).trans (mul_le_mul_of_nonneg_left hc (u_nonneg R)), h.size⟩

theorem mul (h0 : 0 ≤ ε) (he : ε ≤ 1 / 1000) (h : Nr ε y x a b) (h' : Nr ε y' x' a' b') (ha : 0 ≤ a) (hc : a * b' + b * a' + 0.001 * (a * a') ≤ c)
    (hd : b * b' ≤ d) : Nr ε (y * y') (x * x') c d :=
  ⟨(prd h0 he h.near h.size h'.near h'.size ha).trans (mul_le_mul_of_nonneg_left hc h0), by
    rw [abs_mul]
    exact (mul_le_mul h.size h'.size (abs_nonneg _) ((abs_nonneg _).trans h.size)).trans hd⟩

theorem add (h0 : 0 ≤ ε) (h : Nr ε y x a b) (h' : Nr ε y' x' a' b') (hc : a + a' ≤ c) (hd : |x + x'| ≤ d) : Nr ε (y + y') (x + x') c d :=
  ⟨by
    rw [show y + y' - (x + x') = (y - x) + (y' - x') by ring]
    have := abs_add_le (y - x) (y' - x')
    have := mul_le_mul_of_nonneg_left hc h0
    linarith [h.near, h'.near], hd⟩

theorem sub (h0 : 0 ≤ ε) (h : Nr ε y x a b) (h' : Nr ε y' x' a' b') (hc : a + a' ≤ c) (hd : |x - x'| ≤ d) : Nr ε (y - y') (x - x') c d :=
  ⟨by
    rw [show y - y' - (x - x') = (y - x) - (y' - x') by ring]
    have := abs_sub (y - x) (y' - x')
    have := mul_le_mul_of_nonneg_left hc h0
    linarith [h.near, h'.near], hd⟩

end Nr

/-- A quotient of approximate values. -/
theorem quo2 (h0 : 0 ≤ ε) {N N' D D' k l : ℝ} (hk : ε * k ≤ 1 / 100) (hk0 : 0 ≤ k) (hD : 0 < D) (hl0 : 0 ≤ l) (hN : |N' - N| ≤ ε * (l * |N|))
    (h : |D' - D| ≤ ε * (k * D)) : |N' / D' - N / D| ≤ ε * ((1.02 * l + 1.02 * k) * |N / D|) := by
  have lo : 0.99 * D ≤ D' := by
    have := (abs_le.1 h).1
    nlinarith
  have hD' : 0 < D' := by linarith
  have e : N' / D' - N / D = (N' - N) / D' + (D - D') / D' * (N / D) := by field_simp; ring
  have t1 : |(N' - N) / D'| ≤ ε * (1.02 * l * |N / D|) := by
    rw [abs_div, abs_of_pos hD', abs_div, abs_of_pos hD, div_le_iff₀ hD']
    refine hN.trans ?_
    have : l * |N| ≤ 1.02 * l * (|N| / D) * D' := by
      have e : 1.02 * l * (|N| / D) * D' = l * |N| * (1.02 * (D' / D)) := by field_simp
      rw [e]
      have : 1 ≤ 1.02 * (D' / D) := by
        have : 0.99 ≤ D' / D := by rw [le_div_iff₀ hD]; exact lo
        linarith
      nlinarith [mul_nonneg hl0 (abs_nonneg N)]
    nlinarith [mul_le_mul_of_nonneg_left this h0]
  have t2 : |(D - D') / D' * (N / D)| ≤ ε * (1.02 * k * |N / D|) := by
    rw [abs_mul, abs_div, abs_of_pos hD']
    have : |D - D'| / D' ≤ ε * (1.02 * k) := by
      rw [div_le_iff₀ hD', abs_sub_comm]
      have : 0 ≤ ε * k := by positivity
      nlinarith
    calc _ ≤ ε * (1.02 * k) * |N / D| := mul_le_mul_of_nonneg_right this (abs_nonneg _)
      _ = _ := by ring
  rw [e]
  have := abs_add_le ((N' - N) / D') ((D - D') / D' * (N / D))
  nlinarith

/-- The square root halves relative errors; they are not increased. -/
theorem sqrt_near {x y k : ℝ} (hx : 0 ≤ x) (hy : 0 ≤ y) (h : |y - x| ≤ k * x) : |Real.sqrt y - Real.sqrt x| ≤ k * Real.sqrt x := by
  rcases hx.eq_or_lt with rfl | hx
  · have : y = 0 := by simpa using h
    simp [this]
  have hs := Real.sqrt_pos.2 hx
  have hs' := Real.sqrt_nonneg y
  have e : (Real.sqrt y - Real.sqrt x) * (Real.sqrt y + Real.sqrt x) = y - x := by
    nlinarith [Real.mul_self_sqrt hx.le, Real.mul_self_sqrt hy]
  have e2 : |Real.sqrt y - Real.sqrt x| * (Real.sqrt y + Real.sqrt x) = |y - x| := by
    rw [← e, abs_mul, abs_of_pos (a := Real.sqrt y + Real.sqrt x) (by linarith)]
  have : |Real.sqrt y - Real.sqrt x| * Real.sqrt x ≤ k * Real.sqrt x * Real.sqrt x := by
    have h1 : |Real.sqrt y - Real.sqrt x| * Real.sqrt x ≤ |y - x| := by
      rw [← e2]; exact mul_le_mul_of_nonneg_left (by linarith) (abs_nonneg _)
    rw [mul_assoc, Real.mul_self_sqrt hx.le]
    exact h1.trans h
  exact le_of_mul_le_mul_right this hs

/-! ### The stations -/

variable {n : Nat}

theorem stations_length (L : NacaLibrary) (n : Nat) : (stations L n).length = n := by simp [stations]

theorem stations_get {i : Nat} (hi : i < n) : (stations L n)[i]? =
    some (if i + 1 = n ∧ i ≠ 0 then 1 else L.fl (L.fl (i : ℝ) * L.fl (1 / L.fl ((n : ℝ) - 1)))) := by
  simp [stations, hi]

/-- A station is `i / (n - 1)` up to a relative error. -/
theorem station_near (h : Precise L ε) (he : ε ≤ 1e-9) (hn : 2 ≤ n) {i : Nat} (hi : i < n) {y : ℝ} (hy : (stations L n)[i]? = some y) :
    |y - (i : ℝ) / ((n : ℝ) - 1)| ≤ ε * (5.1 * ((i : ℝ) / ((n : ℝ) - 1))) ∧ 0 ≤ y := by
  have R := h.accurate.sound.rounds
  have h0 := u_nonneg R
  have he' : ε ≤ 1 / 1000 := by linarith
  have n2 : (2 : ℝ) ≤ n := by exact_mod_cast hn
  have hd : 0 < (n : ℝ) - 1 := by linarith
  rw [stations_get hi] at hy
  obtain rfl := Option.some.inj hy
  have hq : 0 ≤ (i : ℝ) / ((n : ℝ) - 1) := by positivity
  split_ifs with hc
  · have : (i : ℝ) = (n : ℝ) - 1 := by
      have : (n : ℝ) = (i : ℝ) + 1 := by exact_mod_cast hc.1.symm
      linarith
    rw [this, div_self hd.ne']
    constructor
    · rw [sub_self, abs_zero]; positivity
    · exact zero_le_one
  · have e1 : |L.fl ((n : ℝ) - 1) - ((n : ℝ) - 1)| ≤ ε * (1 * ((n : ℝ) - 1)) := by
      have := R.near ((n : ℝ) - 1)
      rw [abs_of_pos hd] at this
      linarith
    have e2 := quo2 h0 (N := 1) (N' := 1) (l := 0) (by linarith) (by norm_num) hd le_rfl (by simp) e1
    have hp : 0 < 1 / ((n : ℝ) - 1) := by positivity
    rw [abs_of_pos hp] at e2
    have e3 := rnd R he' e2 (abs_of_pos hp).le
    have e4 : |L.fl (i : ℝ) - i| ≤ ε * (i : ℝ) := by
      have := R.near (i : ℝ)
      rwa [abs_of_nonneg (a := (i : ℝ)) (by positivity)] at this
    have e5 := prd h0 he' e4 (b := (i : ℝ)) (abs_of_nonneg (by positivity)).le e3 (abs_of_pos hp).le (by positivity)
    have e6 := rnd R he' e5 (b := (i : ℝ) / ((n : ℝ) - 1)) (by
      rw [mul_one_div]; exact (abs_of_nonneg hq).le)
    have key : L.fl ((n : ℝ) - 1) > 0 := by
      have := (abs_le.1 e1).1
      nlinarith
    refine ⟨?_, ?_⟩
    · refine le_trans (le_of_eq (by rw [mul_one_div])) (e6.trans (mul_le_mul_of_nonneg_left ?_ h0))
      have : (i : ℝ) * (1 / ((n : ℝ) - 1)) = (i : ℝ) / ((n : ℝ) - 1) := mul_one_div _ _
      have e : 1.001 * ((i : ℝ) * (1 / ((n : ℝ) - 1)) + (i : ℝ) * (1.001 * ((1.02 * 0 + 1.02 * 1) * (1 / ((n : ℝ) - 1))) + 1 / ((n : ℝ) - 1)) +
          0.001 * ((i : ℝ) * (1.001 * ((1.02 * 0 + 1.02 * 1) * (1 / ((n : ℝ) - 1))) + 1 / ((n : ℝ) - 1)))) + (i : ℝ) / ((n : ℝ) - 1) =
          (1.001 * (1 + (1.001 * 1.02 + 1) + 0.001 * (1.001 * 1.02 + 1)) + 1) * ((i : ℝ) / ((n : ℝ) - 1)) := by
        rw [← this]; ring
      rw [e]
      exact mul_le_mul_of_nonneg_right (by norm_num) hq
    · have f0 : ∀ z : ℝ, 0 ≤ z → 0 ≤ L.fl z := fun z hz => by
        have := R.mono 0 z hz
        rwa [fl_zero R] at this
      exact f0 _ (mul_nonneg (f0 _ (by positivity)) (f0 _ (by positivity)))

/-- The stations do not decrease. -/
theorem stations_sorted (h : Precise L ε) (he : ε ≤ 1e-9) (hn : 4 * ε * n ≤ 1) : (stations L n).Pairwise (· ≤ ·) := by
  have R := h.accurate.sound.rounds
  have h0 := u_nonneg R
  have f0 : ∀ z : ℝ, 0 ≤ z → 0 ≤ L.fl z := fun z hz => by
    have := R.mono 0 z hz
    rwa [fl_zero R] at this
  rw [List.pairwise_iff_getElem]
  intro i j hi hj hij
  rw [stations_length] at hi hj
  have a1 := stations_get (L := L) hi
  have a2 := stations_get (L := L) hj
  rw [List.getElem?_eq_getElem (by rwa [stations_length])] at a1 a2
  rw [Option.some.inj a1, Option.some.inj a2]
  have n2 : (2 : ℝ) ≤ n := by exact_mod_cast (show 2 ≤ n by omega)
  have hd : 0 < (n : ℝ) - 1 := by linarith
  have key : 0.99 * ((n : ℝ) - 1) ≤ L.fl ((n : ℝ) - 1) ∧ (1 - ε) * ((n : ℝ) - 1) ≤ L.fl ((n : ℝ) - 1) := by
    have := (abs_le.1 (R.near ((n : ℝ) - 1))).1
    rw [abs_of_pos hd] at this
    constructor <;> nlinarith
  have hfl : 0 < L.fl ((n : ℝ) - 1) := by linarith [key.1]
  have hs : 0 ≤ L.fl (1 / L.fl ((n : ℝ) - 1)) := f0 _ (by positivity)
  have hi1 : ¬ (i + 1 = n ∧ i ≠ 0) := by omega
  rw [if_neg hi1]
  split_ifs with hc
  · suffices hle : L.fl (i : ℝ) * L.fl (1 / L.fl ((n : ℝ) - 1)) ≤ 1 by
      have := R.mono _ _ hle
      rwa [h.one] at this
    have b1 : L.fl (i : ℝ) ≤ (1 + ε) * i := by
      have := (abs_le.1 (R.near (i : ℝ))).2
      rw [abs_of_nonneg (by positivity : (0 : ℝ) ≤ i)] at this
      linarith
    have b2 : L.fl (1 / L.fl ((n : ℝ) - 1)) ≤ (1 + ε) * (1 / L.fl ((n : ℝ) - 1)) := by
      have := (abs_le.1 (R.near (1 / L.fl ((n : ℝ) - 1)))).2
      rw [abs_of_pos (by positivity : (0 : ℝ) < 1 / L.fl ((n : ℝ) - 1))] at this
      linarith
    have b3 : (i : ℝ) ≤ (n : ℝ) - 2 := by
      have : i + 2 ≤ n := by omega
      have : (i : ℝ) + 2 ≤ n := by exact_mod_cast this
      linarith
    calc _ ≤ (1 + ε) * i * ((1 + ε) * (1 / L.fl ((n : ℝ) - 1))) := mul_le_mul b1 b2 hs (by positivity)
      _ = (1 + ε) * (1 + ε) * i / L.fl ((n : ℝ) - 1) := by ring
      _ ≤ 1 := by
        rw [div_le_one hfl]
        refine le_trans ?_ key.2
        have : (1 + ε) * (1 + ε) ≤ 1 + 2.1 * ε := by nlinarith
        have hi0 : (0 : ℝ) ≤ i := by positivity
        nlinarith [mul_le_mul_of_nonneg_right this hi0, mul_nonneg h0 hi0]
  · apply R.mono
    apply mul_le_mul_of_nonneg_right _ hs
    exact R.mono _ _ (by exact_mod_cast hij.le)

/-! ### The half-thickness -/

theorem power_near (h : Precise L ε) (he : ε ≤ 1e-9) {y x a b : ℝ} (k : ℕ) (hx : Nr ε (y ^ k) (x ^ k) a b) {c : ℝ} (hc : 1.001 * a + b ≤ c) :
    Nr ε (L.pow y k) (x ^ k) c b := by
  have R := h.accurate.sound.rounds
  have h0 := u_nonneg R
  refine ⟨?_, hx.size⟩
  have p := h.power y k
  have := abs_near hx.near hx.size
  have t := abs_sub_le (L.pow y k) (y ^ k) (x ^ k)
  have a0 : 0 ≤ ε * a := (abs_nonneg _).trans hx.near
  have : ε * |y ^ k| ≤ ε * (ε * a + b) := mul_le_mul_of_nonneg_left this h0
  have : ε * (ε * a) ≤ 0.001 * (ε * a) := mul_le_mul_of_nonneg_right (by linarith) a0
  have := mul_le_mul_of_nonneg_left hc h0
  nlinarith [hx.near]

theorem half_near (h : Precise L ε) (he : ε ≤ 1e-9) {T t y x : ℝ} (hT : Nr ε T t 2 0.99) (hx0 : 0 ≤ x) (hx1 : x ≤ 1) (hy0 : 0 ≤ y)
    (hy : |y - x| ≤ ε * (5.1 * x)) (ht : 0 ≤ t) : Nr ε (halfThickness L T y) (nacaHalfThickness t x) 120 2.88 := by
  have R := h.accurate.sound.rounds
  have h0 := u_nonneg R
  have he' : ε ≤ 1 / 1000 := by linarith
  have hs0 := Real.sqrt_nonneg x
  have hs1 : Real.sqrt x ≤ 1 := Real.sqrt_le_one.2 hx1
  have x1 : Nr ε y x 5.1 1 := ⟨hy.trans (mul_le_mul_of_nonneg_left (by linarith) h0), by rwa [abs_of_nonneg hx0]⟩
  have x2 : Nr ε (y ^ 2) (x ^ 2) 10.3 1 := by
    rw [pow_two, pow_two]; exact x1.mul h0 he' x1 (by norm_num) (by norm_num) (by norm_num)
  have x3 : Nr ε (y ^ 3) (x ^ 3) 15.5 1 := by
    rw [pow_succ y, pow_succ x]; exact x2.mul h0 he' x1 (by norm_num) (by norm_num) (by norm_num)
  have x4 : Nr ε (y ^ 4) (x ^ 4) 20.8 1 := by
    rw [pow_succ y, pow_succ x]; exact x3.mul h0 he' x1 (by norm_num) (by norm_num) (by norm_num)
  have q2 := power_near h he 2 x2 (c := 11.4) (by norm_num)
  have q3 := power_near h he 3 x3 (c := 16.6) (by norm_num)
  have q4 := power_near h he 4 x4 (c := 21.9) (by norm_num)
  have r0 : Nr ε (Real.sqrt y) (Real.sqrt x) 5.1 1 := by
    refine ⟨(sqrt_near hx0 hy0 (k := ε * 5.1) (by linarith)).trans ?_, by rwa [abs_of_nonneg hs0]⟩
    nlinarith
  have r1 := r0.fl R he' (c := 6.2) (by norm_num)
  have c0 := (Nr.exact (ε := ε) (x := (0.2969 : ℝ)) (b := 0.2969) (by norm_num [abs_of_pos])).fl R he' (c := 0.2969) (by norm_num)
  have c1 := (Nr.exact (ε := ε) (x := (-0.1260 : ℝ)) (b := 0.1260) (by norm_num [abs_of_neg])).fl R he' (c := 0.1260) (by norm_num)
  have c2 := (Nr.exact (ε := ε) (x := (-0.3516 : ℝ)) (b := 0.3516) (by norm_num [abs_of_neg])).fl R he' (c := 0.3516) (by norm_num)
  have c3 := (Nr.exact (ε := ε) (x := (0.2843 : ℝ)) (b := 0.2843) (by norm_num [abs_of_pos])).fl R he' (c := 0.2843) (by norm_num)
  have c4 := (Nr.exact (ε := ε) (x := (-0.1036 : ℝ)) (b := 0.1036) (by norm_num [abs_of_neg])).fl R he' (c := 0.1036) (by norm_num)
  have t0 := (c0.mul h0 he' r1 (c := 2.15) (d := 0.2969) (by norm_num) (by norm_num) (by norm_num)).fl R he' (c := 2.45) (by norm_num)
  have t1 := (c1.mul h0 he' x1 (c := 0.77) (d := 0.126) (by norm_num) (by norm_num) (by norm_num)).fl R he' (c := 0.9) (by norm_num)
  have t2 := (c2.mul h0 he' q2 (c := 4.37) (d := 0.3516) (by norm_num) (by norm_num) (by norm_num)).fl R he' (c := 4.73) (by norm_num)
  have t3 := (c3.mul h0 he' q3 (c := 5.02) (d := 0.2843) (by norm_num) (by norm_num) (by norm_num)).fl R he' (c := 5.31) (by norm_num)
  have t4 := (c4.mul h0 he' q4 (c := 2.38) (d := 0.1036) (by norm_num) (by norm_num) (by norm_num)).fl R he' (c := 2.49) (by norm_num)
  have tri : ∀ {a b c d : ℝ}, |a| ≤ c → |b| ≤ d → |a + b| ≤ c + d := fun h1 h2 => (abs_add_le _ _).trans (add_le_add h1 h2)
  have s1 := (t0.add h0 t1 (c := 3.35) (by norm_num) (tri t0.size t1.size)).fl R he' (c := 3.8) (by norm_num)
  have s2 := (s1.add h0 t2 (c := 8.53) (by norm_num) (tri s1.size t2.size)).fl R he' (c := 9.33) (by norm_num)
  have s3 := (s2.add h0 t3 (c := 14.64) (by norm_num) (tri s2.size t3.size)).fl R he' (c := 15.8) (by norm_num)
  have e : 0.2969 * Real.sqrt x + -0.1260 * x + -0.3516 * x ^ 2 + 0.2843 * x ^ 3 + -0.1036 * x ^ 4 =
      0.2969 * Real.sqrt x - 0.1260 * x - 0.3516 * x ^ 2 + 0.2843 * x ^ 3 - 0.1036 * x ^ 4 := by ring
  have s4 := (s3.add h0 t4 (c := 18.29) (by norm_num) (tri s3.size t4.size)).fl R he' (c := 19.5) (by norm_num)
  have pos : 0 ≤ 5 * (1 : ℝ) * (0.2969 * Real.sqrt x - 0.1260 * x - 0.3516 * x ^ 2 + 0.2843 * x ^ 3 - 0.1036 * x ^ 4) := Naca.half_nonneg zero_le_one hx0 hx1
  have up : 0.2969 * Real.sqrt x - 0.1260 * x - 0.3516 * x ^ 2 + 0.2843 * x ^ 3 - 0.1036 * x ^ 4 ≤ 0.5812 := by
    have : x ^ 3 ≤ 1 := pow_le_one₀ hx0 hx1
    have : 0 ≤ x ^ 2 := by positivity
    have : 0 ≤ x ^ 4 := by positivity
    linarith only [this, ‹x ^ 3 ≤ 1›, ‹0 ≤ x ^ 2›, hs1, hx0]
  have s5 : Nr ε (L.fl (L.fl (L.fl (L.fl (L.fl (L.fl 0.2969 * L.fl (Real.sqrt y)) + L.fl (L.fl (-0.1260) * y)) + L.fl (L.fl (-0.3516) * L.pow y 2)) +
      L.fl (L.fl 0.2843 * L.pow y 3)) + L.fl (L.fl (-0.1036) * L.pow y 4)))
      (0.2969 * Real.sqrt x - 0.1260 * x - 0.3516 * x ^ 2 + 0.2843 * x ^ 3 - 0.1036 * x ^ 4) 19.5 0.5812 := by
    rw [← e]
    refine ⟨s4.near, ?_⟩
    rw [e, abs_of_nonneg (by linarith)]
    exact up
  have f5 := ((Nr.exact (ε := ε) (x := (5 : ℝ)) (b := 5) (by norm_num [abs_of_pos])).mul h0 he' hT (c := 10) (d := 4.95) (by norm_num) (by norm_num) (by norm_num)).fl R he' (c := 15)
    (by norm_num)
  have f6 := (f5.mul h0 he' s5 (c := 106) (d := 2.88) (by norm_num) (by norm_num) (by norm_num)).fl R he' (c := 120) (by norm_num)
  exact f6

/-! ### The camber line -/

/-- The exact front piece of the camber line. -/
noncomputable def front (m p x : ℝ) : ℝ := m / p ^ 2 * x * (2 * p - x)

/-- The exact rear piece of the camber line. -/
noncomputable def rear (m p x : ℝ) : ℝ := m / (1 - p) ^ 2 * (1 - 2 * p + x) * (1 - x)

variable {m' m p' p y x : ℝ}

private theorem ratio_le {m q : ℝ} (hm0 : 0 ≤ m) (hm : m ≤ 0.09) (hq : 0.1 ≤ q) : |m / q ^ 2| ≤ 9 := by
  have : 0.01 ≤ q ^ 2 := by nlinarith
  rw [abs_of_nonneg (by positivity), div_le_iff₀ (by linarith)]
  linarith

private theorem two_near (R : Rounds L.fl ε) (he' : ε ≤ 1 / 1000) (hp1 : p ≤ 0.9) (hp0 : 0.1 ≤ p) (hp : |p' - p| ≤ ε * (2.01 * p)) :
    Nr ε (L.fl (2 * p')) (2 * p) 5.5 1.8 := by
  have h0 := u_nonneg R
  have a : Nr ε p' p 1.81 0.9 := ⟨hp.trans (mul_le_mul_of_nonneg_left (by linarith) h0), by rw [abs_of_nonneg (by linarith)]; exact hp1⟩
  exact ((Nr.exact (ε := ε) (x := (2 : ℝ)) (b := 2) (by norm_num [abs_of_pos])).mul h0 he' a (c := 3.62) (d := 1.8) (by norm_num) (by norm_num) (by norm_num)).fl R he'
    (by norm_num)

private theorem frontRatio (h : Precise L ε) (he : ε ≤ 1e-9) (hm0 : 0 ≤ m) (hm1 : m ≤ 0.09) (hm : |m' - m| ≤ ε * (2.01 * m)) (hp0 : 0.1 ≤ p)
    (hp : |p' - p| ≤ ε * (2.01 * p)) : Nr ε (L.fl (m' / L.pow p' 2)) (m / p ^ 2) 77 9 := by
  have R := h.accurate.sound.rounds
  have h0 := u_nonneg R
  have he' : ε ≤ 1 / 1000 := by linarith
  have pp : 0 < p := by linarith
  have a : Nr ε p' p (2.01 * p) p := ⟨hp, (abs_of_pos pp).le⟩
  have b : Nr ε (p' ^ 2) (p ^ 2) (4.03 * p ^ 2) (p ^ 2) := by
    have := a.mul h0 he' a (c := 4.03 * p ^ 2) (d := p ^ 2) (by positivity) (by nlinarith [sq_nonneg p]) (by rw [pow_two])
    rwa [← pow_two, ← pow_two] at this
  have c := power_near h he 2 b (c := 5.04 * p ^ 2) (by nlinarith [sq_nonneg p])
  have d := quo2 h0 (N := m) (N' := m') (l := 2.01) (k := 5.04) (by linarith) (by norm_num) (by positivity : 0 < p ^ 2) (by norm_num)
    (by rwa [abs_of_nonneg hm0]) c.near
  have e : Nr ε (m' / L.pow p' 2) (m / p ^ 2) 65 9 := by
    refine ⟨d.trans (mul_le_mul_of_nonneg_left ?_ h0), ratio_le hm0 hm1 hp0⟩
    have := ratio_le hm0 hm1 hp0
    nlinarith
  exact e.fl R he' (by norm_num)

private theorem rearRatio (h : Precise L ε) (he : ε ≤ 1e-9) (hm0 : 0 ≤ m) (hm1 : m ≤ 0.09) (hm : |m' - m| ≤ ε * (2.01 * m)) (hp0 : 0.1 ≤ p) (hp1 : p ≤ 0.9)
    (hp : |p' - p| ≤ ε * (2.01 * p)) : Nr ε (L.fl (m' / L.pow (L.fl (1 - p')) 2)) (m / (1 - p) ^ 2) 570 9 := by
  have R := h.accurate.sound.rounds
  have h0 := u_nonneg R
  have he' : ε ≤ 1 / 1000 := by linarith
  have pp : 0 < 1 - p := by linarith
  have a0 : Nr ε p' p (18.1 * (1 - p)) p := ⟨hp.trans (mul_le_mul_of_nonneg_left (by linarith) h0), (abs_of_pos (by linarith)).le⟩
  have a1 : Nr ε (1 - p') (1 - p) (18.1 * (1 - p)) (1 - p) :=
    (Nr.exact (ε := ε) (x := (1 : ℝ)) (b := 1) (by norm_num)).sub h0 a0 (by linarith) (abs_of_pos pp).le
  have a := a1.fl R he' (c := 19.2 * (1 - p)) (by linarith)
  have b : Nr ε (L.fl (1 - p') ^ 2) ((1 - p) ^ 2) (39 * (1 - p) ^ 2) ((1 - p) ^ 2) := by
    have := a.mul h0 he' a (c := 39 * (1 - p) ^ 2) (d := (1 - p) ^ 2) (by positivity) (by nlinarith [sq_nonneg (1 - p)]) (by rw [pow_two])
    rwa [← pow_two, ← pow_two] at this
  have c := power_near h he 2 b (c := 40.1 * (1 - p) ^ 2) (by nlinarith [sq_nonneg (1 - p)])
  have d := quo2 h0 (N := m) (N' := m') (l := 2.01) (k := 40.1) (by linarith) (by norm_num) (by positivity : 0 < (1 - p) ^ 2) (by norm_num)
    (by rwa [abs_of_nonneg hm0]) c.near
  have r := ratio_le (q := 1 - p) hm0 hm1 (by linarith)
  have e : Nr ε (m' / L.pow (L.fl (1 - p')) 2) (m / (1 - p) ^ 2) 560 9 := by
    refine ⟨d.trans (mul_le_mul_of_nonneg_left ?_ h0), r⟩
    nlinarith
  exact e.fl R he' (by norm_num)

theorem camberFront_near (h : Precise L ε) (he : ε ≤ 1e-9) (hm0 : 0 ≤ m) (hm1 : m ≤ 0.09) (hm : |m' - m| ≤ ε * (2.01 * m)) (hp0 : 0.1 ≤ p) (hp1 : p ≤ 0.9)
    (hp : |p' - p| ≤ ε * (2.01 * p)) (hx0 : 0 ≤ x) (hx1 : x ≤ 1) (hy : |y - x| ≤ ε * (5.1 * x)) :
    Nr ε (camberFront L m' p' y) (front m p x) 400 16.2 ∧ Nr ε (slopeFront L m' p' y) (m / p ^ 2 * (2 * p - 2 * x)) 400 16.2 := by
  have R := h.accurate.sound.rounds
  have h0 := u_nonneg R
  have he' : ε ≤ 1 / 1000 := by linarith
  have r := frontRatio h he hm0 hm1 hm hp0 hp
  have t := two_near R he' hp1 hp0 hp
  have x1 : Nr ε y x 5.1 1 := ⟨hy.trans (mul_le_mul_of_nonneg_left (by linarith) h0), by rwa [abs_of_nonneg hx0]⟩
  have x2 := ((Nr.exact (ε := ε) (x := (2 : ℝ)) (b := 2) (by norm_num [abs_of_pos])).mul h0 he' x1 (c := 10.2) (d := 2) (by norm_num) (by norm_num) (by norm_num)).fl R he'
    (c := 12.3) (by norm_num)
  have s1 := (r.mul h0 he' x1 (c := 124) (d := 9) (by norm_num) (by norm_num) (by norm_num)).fl R he' (c := 134) (by norm_num)
  have s2 := (t.sub h0 x1 (c := 10.6) (d := 1.8) (by norm_num) (by rw [abs_le]; constructor <;> linarith)).fl R he' (c := 12.5) (by norm_num)
  have s3 := (t.sub h0 x2 (c := 17.8) (d := 1.8) (by norm_num) (by rw [abs_le]; constructor <;> linarith)).fl R he' (c := 19.7) (by norm_num)
  exact ⟨(s1.mul h0 he' s2 (c := 360) (d := 16.2) (by norm_num) (by norm_num) (by norm_num)).fl R he' (by norm_num),
    (r.mul h0 he' s3 (c := 320) (d := 16.2) (by norm_num) (by norm_num) (by norm_num)).fl R he' (by norm_num)⟩

theorem camberRear_near (h : Precise L ε) (he : ε ≤ 1e-9) (hm0 : 0 ≤ m) (hm1 : m ≤ 0.09) (hm : |m' - m| ≤ ε * (2.01 * m)) (hp0 : 0.1 ≤ p) (hp1 : p ≤ 0.9)
    (hp : |p' - p| ≤ ε * (2.01 * p)) (hx0 : 0 ≤ x) (hx1 : x ≤ 1) (hy : |y - x| ≤ ε * (5.1 * x)) :
    Nr ε (camberRear L m' p' y) (rear m p x) 1400 16.2 ∧ Nr ε (slopeRear L m' p' y) (m / (1 - p) ^ 2 * (2 * p - 2 * x)) 1300 16.2 := by
  have R := h.accurate.sound.rounds
  have h0 := u_nonneg R
  have he' : ε ≤ 1 / 1000 := by linarith
  have r := rearRatio h he hm0 hm1 hm hp0 hp1 hp
  have t := two_near R he' hp1 hp0 hp
  have x1 : Nr ε y x 5.1 1 := ⟨hy.trans (mul_le_mul_of_nonneg_left (by linarith) h0), by rwa [abs_of_nonneg hx0]⟩
  have x2 := ((Nr.exact (ε := ε) (x := (2 : ℝ)) (b := 2) (by norm_num [abs_of_pos])).mul h0 he' x1 (c := 10.2) (d := 2) (by norm_num) (by norm_num) (by norm_num)).fl R he'
    (c := 12.3) (by norm_num)
  have one : Nr ε (1 : ℝ) 1 0 1 := Nr.exact (by norm_num)
  have u1 := (one.sub h0 t (c := 5.5) (d := 0.8) (by norm_num) (by rw [abs_le]; constructor <;> linarith)).fl R he' (c := 6.4) (by norm_num)
  have u2 := (u1.add h0 x1 (c := 11.5) (d := 1.8) (by norm_num) (by rw [abs_le]; constructor <;> linarith)).fl R he' (c := 13.4) (by norm_num)
  have u3 := (one.sub h0 x1 (c := 5.1) (d := 1) (by norm_num) (by rw [abs_le]; constructor <;> linarith)).fl R he' (c := 6.2) (by norm_num)
  have s1 := (r.mul h0 he' u2 (c := 1160) (d := 16.2) (by norm_num) (by norm_num) (by norm_num)).fl R he' (c := 1180) (by norm_num)
  have s3 := (t.sub h0 x2 (c := 17.8) (d := 1.8) (by norm_num) (by rw [abs_le]; constructor <;> linarith)).fl R he' (c := 19.7) (by norm_num)
  exact ⟨(s1.mul h0 he' u3 (c := 1300) (d := 16.2) (by norm_num) (by norm_num) (by norm_num)).fl R he' (by norm_num),
    (r.mul h0 he' s3 (c := 1220) (d := 16.2) (by norm_num) (by norm_num) (by norm_num)).fl R he' (by norm_num)⟩

theorem naca_front (m p x : ℝ) : m / p ^ 2 * (2 * p * x - x ^ 2) = front m p x := by unfold front; ring

theorem naca_rear (m p x : ℝ) : m / (1 - p) ^ 2 * ((1 - 2 * p) + 2 * p * x - x ^ 2) = rear m p x := by unfold rear; ring

/-- Near the joint the two pieces agree. -/
theorem pieces_near (hm0 : 0 ≤ m) (hm1 : m ≤ 0.09) (hp0 : 0.1 ≤ p) (hp1 : p ≤ 0.9) {δ : ℝ} (hδ : |x - p| ≤ δ) (hδ1 : δ ≤ 0.001) :
    |front m p x - rear m p x| ≤ 0.018 * δ ∧ |m / p ^ 2 * (2 * p - 2 * x) - m / (1 - p) ^ 2 * (2 * p - 2 * x)| ≤ 18 * δ := by
  have r1 := ratio_le hm0 hm1 hp0
  have r2 := ratio_le (q := 1 - p) hm0 hm1 (by linarith)
  have n1 : 0 ≤ m / p ^ 2 := by positivity
  have n2 : 0 ≤ m / (1 - p) ^ 2 := by positivity
  rw [abs_of_nonneg n1] at r1
  rw [abs_of_nonneg n2] at r2
  have hp : p ≠ 0 := by linarith
  have hq : (1 - p) ≠ 0 := by linarith
  have e1 : front m p x = m - m / p ^ 2 * (x - p) ^ 2 := by unfold front; field_simp; ring
  have e2 : rear m p x = m - m / (1 - p) ^ 2 * (x - p) ^ 2 := by unfold rear; field_simp; ring
  have d0 := (abs_nonneg _).trans hδ
  have dd : |m / (1 - p) ^ 2 - m / p ^ 2| ≤ 9 := by rw [abs_le]; constructor <;> linarith
  constructor
  · rw [e1, e2, show m - m / p ^ 2 * (x - p) ^ 2 - (m - m / (1 - p) ^ 2 * (x - p) ^ 2) = (m / (1 - p) ^ 2 - m / p ^ 2) * (x - p) ^ 2 by ring, abs_mul,
      abs_of_nonneg (sq_nonneg (x - p))]
    have : (x - p) ^ 2 ≤ δ * 0.001 := by rw [← sq_abs, pow_two]; exact mul_le_mul hδ (hδ.trans hδ1) (abs_nonneg _) d0
    nlinarith [mul_le_mul dd this (by positivity) (by norm_num)]
  · rw [show m / p ^ 2 * (2 * p - 2 * x) - m / (1 - p) ^ 2 * (2 * p - 2 * x) = (m / (1 - p) ^ 2 - m / p ^ 2) * (2 * (x - p)) by ring, abs_mul, abs_mul, abs_two]
    nlinarith [mul_le_mul dd hδ (abs_nonneg _) (by norm_num)]

/-- Camber and slope as computed, whichever piece a station is counted to. -/
theorem camber_near (h : Precise L ε) (he : ε ≤ 1e-9) (hm0 : 0 ≤ m) (hm1 : m ≤ 0.09) (hm : |m' - m| ≤ ε * (2.01 * m)) (hp0 : 0.1 ≤ p) (hp1 : p ≤ 0.9)
    (hp : |p' - p| ≤ ε * (2.01 * p)) (hx0 : 0 ≤ x) (hx1 : x ≤ 1) (hy : |y - x| ≤ ε * (5.1 * x)) :
    |(if y ≤ p' then camberFront L m' p' y else camberRear L m' p' y) - nacaCamber4 m p x| ≤ ε * 1401 ∧
      |(if y ≤ p' then slopeFront L m' p' y else slopeRear L m' p' y) - Naca.slopeFn4 m p x| ≤ ε * 1430 := by
  have h0 := u_nonneg h.accurate.sound.rounds
  obtain ⟨f1, f2⟩ := camberFront_near h he hm0 hm1 hm hp0 hp1 hp hx0 hx1 hy
  obtain ⟨r1, r2⟩ := camberRear_near h he hm0 hm1 hm hp0 hp1 hp hx0 hx1 hy
  unfold nacaCamber4 Naca.slopeFn4
  rw [naca_front, naca_rear]
  have near : ∀ (c1 : x ≤ p) (c2 : ¬ y ≤ p'), |x - p| ≤ ε * 7 := by
    intro c1 c2
    have := (abs_le.1 hy).2
    have := (abs_le.1 hp).1
    rw [abs_le]
    push Not at c2
    constructor
    · nlinarith
    · nlinarith
  have near' : ∀ (c1 : ¬ x ≤ p) (c2 : y ≤ p'), |x - p| ≤ ε * 7 := by
    intro c1 c2
    have := (abs_le.1 hy).1
    have := (abs_le.1 hp).2
    rw [abs_le]
    push Not at c1
    constructor
    · nlinarith
    · nlinarith
  by_cases c1 : x ≤ p <;> by_cases c2 : y ≤ p'
  · rw [if_pos c1, if_pos c2, if_pos c1, if_pos c2]
    exact ⟨f1.near.trans (by linarith), f2.near.trans (by linarith)⟩
  · rw [if_pos c1, if_neg c2, if_pos c1, if_neg c2]
    obtain ⟨k1, k2⟩ := pieces_near hm0 hm1 hp0 hp1 (near c1 c2) (by linarith)
    have a1 := abs_sub_le (camberRear L m' p' y) (rear m p x) (front m p x)
    have a2 := abs_sub_le (slopeRear L m' p' y) (m / (1 - p) ^ 2 * (2 * p - 2 * x)) (m / p ^ 2 * (2 * p - 2 * x))
    rw [abs_sub_comm] at k1 k2
    exact ⟨by linarith [r1.near], by linarith [r2.near]⟩
  · rw [if_neg c1, if_pos c2, if_neg c1, if_pos c2]
    obtain ⟨k1, k2⟩ := pieces_near hm0 hm1 hp0 hp1 (near' c1 c2) (by linarith)
    have a1 := abs_sub_le (camberFront L m' p' y) (front m p x) (rear m p x)
    have a2 := abs_sub_le (slopeFront L m' p' y) (m / p ^ 2 * (2 * p - 2 * x)) (m / (1 - p) ^ 2 * (2 * p - 2 * x))
    exact ⟨by linarith [f1.near], by linarith [f2.near]⟩
  · rw [if_neg c1, if_neg c2, if_neg c1, if_neg c2]
    exact ⟨r1.near.trans (by linarith), r2.near.trans (by linarith)⟩

end Rounded
end BladeX
