import Verif.Spec.Rounding
import Mathlib.Data.Int.Log
import Mathlib.Algebra.Order.Field.Power
import Mathlib.Algebra.Order.Floor.Ring
import Mathlib.Data.Real.Archimedean
import Mathlib.Tactic.Positivity
import Mathlib.Tactic.Linarith
import Mathlib.Tactic.FieldSimp

/-! # A concrete rounded arithmetic: truncation to `p` binary digits -/

namespace BladeX
open Spec
namespace Chop

/-- Distance of neighbouring numbers with `p` binary digits at `x`. -/
noncomputable def ulp (p : ℕ) (x : ℝ) : ℝ := (2 : ℝ) ^ (Int.log 2 x - ((p : ℤ) - 1))

/-- Truncation of a non-negative number to `p` binary digits. -/
noncomputable def pos (p : ℕ) (x : ℝ) : ℝ := ⌊x / ulp p x⌋ * ulp p x

/-- Truncation to `p` binary digits, towards zero. -/
noncomputable def chop (p : ℕ) (x : ℝ) : ℝ := if 0 ≤ x then pos p x else -pos p (-x)

theorem ulp_pos (p : ℕ) (x : ℝ) : 0 < ulp p x := by unfold ulp; exact zpow_pos (by norm_num) _

theorem pos_le (p : ℕ) (x : ℝ) : pos p x ≤ x := by
  have h := ulp_pos p x
  have := Int.floor_le (x / ulp p x)
  unfold pos
  calc (⌊x / ulp p x⌋ : ℝ) * ulp p x ≤ x / ulp p x * ulp p x := mul_le_mul_of_nonneg_right this h.le
    _ = x := by field_simp

theorem lt_pos_add (p : ℕ) (x : ℝ) : x < pos p x + ulp p x := by
  have h := ulp_pos p x
  have := Int.lt_floor_add_one (x / ulp p x)
  unfold pos
  calc x = x / ulp p x * ulp p x := by field_simp
    _ < ((⌊x / ulp p x⌋ : ℝ) + 1) * ulp p x := mul_lt_mul_of_pos_right this h
    _ = _ := by ring

theorem log_le {x : ℝ} (hx : 0 < x) : (2 : ℝ) ^ Int.log 2 x ≤ x := by
  have := Int.zpow_log_le_self (b := 2) (r := x) (by norm_num) hx
  exact_mod_cast this

theorem lt_log {x : ℝ} : x < (2 : ℝ) ^ (Int.log 2 x + 1) := by
  have := Int.lt_zpow_succ_log_self (b := 2) (by norm_num) x
  exact_mod_cast this

theorem pos_zero (p : ℕ) : pos p 0 = 0 := by simp [pos]

theorem le_pos {p : ℕ} (hp : 1 ≤ p) {x : ℝ} (hx : 0 < x) : (2 : ℝ) ^ Int.log 2 x ≤ pos p x := by
  have h := ulp_pos p x
  have e : (2 : ℝ) ^ Int.log 2 x = (((2 : ℤ) ^ (p - 1) : ℤ) : ℝ) * ulp p x := by
    unfold ulp
    push_cast
    rw [← zpow_natCast, ← zpow_add₀ (by norm_num)]
    congr 1
    have : ((p - 1 : ℕ) : ℤ) = (p : ℤ) - 1 := by omega
    rw [this]; ring
  rw [e]
  unfold pos
  apply mul_le_mul_of_nonneg_right _ h.le
  have : (2 : ℤ) ^ (p - 1) ≤ ⌊x / ulp p x⌋ := by
    rw [Int.le_floor, le_div_iff₀ h, ← e]
    exact log_le hx
  exact_mod_cast this

theorem pos_pos {p : ℕ} (hp : 1 ≤ p) {x : ℝ} (hx : 0 < x) : 0 < pos p x :=
  lt_of_lt_of_le (zpow_pos (by norm_num) _) (le_pos hp hx)

theorem pos_nonneg {p : ℕ} (hp : 1 ≤ p) {x : ℝ} (hx : 0 ≤ x) : 0 ≤ pos p x := by
  rcases hx.eq_or_lt with rfl | hx
  · rw [pos_zero]
  · exact (pos_pos hp hx).le

theorem log_pos' {p : ℕ} (hp : 1 ≤ p) {x : ℝ} (hx : 0 < x) : Int.log 2 (pos p x) = Int.log 2 x := by
  apply le_antisymm
  · exact Int.log_mono_right (pos_pos hp hx) (pos_le p x)
  · have h1 : (2 : ℝ) ^ Int.log 2 x < (2 : ℝ) ^ (Int.log 2 (pos p x) + 1) := lt_of_le_of_lt (le_pos hp hx) lt_log
    have := (zpow_lt_zpow_iff_right₀ (by norm_num : (1 : ℝ) < 2)).1 h1
    omega

theorem pos_twice {p : ℕ} (hp : 1 ≤ p) {x : ℝ} (hx : 0 ≤ x) : pos p (pos p x) = pos p x := by
  rcases hx.eq_or_lt with rfl | hx
  · simp [pos_zero]
  · have h := ulp_pos p x
    have e : ulp p (pos p x) = ulp p x := by unfold ulp; rw [log_pos' hp hx]
    conv_lhs => rw [pos, e]
    have : pos p x / ulp p x = (⌊x / ulp p x⌋ : ℝ) := by unfold pos; field_simp
    rw [this, Int.floor_intCast]
    rfl

theorem pos_mono {p : ℕ} (hp : 1 ≤ p) {x y : ℝ} (hx : 0 ≤ x) (hxy : x ≤ y) : pos p x ≤ pos p y := by
  rcases hx.eq_or_lt with rfl | hx
  · rw [pos_zero]; exact pos_nonneg hp hxy
  · have hy : 0 < y := hx.trans_le hxy
    rcases (Int.log_mono_right (b := 2) hx hxy).eq_or_lt with h | h
    · have e : ulp p x = ulp p y := by unfold ulp; rw [h]
      unfold pos
      rw [e]
      have hu := ulp_pos p y
      have : ⌊x / ulp p y⌋ ≤ ⌊y / ulp p y⌋ := Int.floor_le_floor (div_le_div_of_nonneg_right hxy hu.le)
      exact mul_le_mul_of_nonneg_right (by exact_mod_cast this) hu.le
    · have h1 : (2 : ℝ) ^ (Int.log 2 x + 1) ≤ (2 : ℝ) ^ Int.log 2 y := zpow_le_zpow_right₀ (by norm_num) (by omega)
      exact (pos_le p x).trans (lt_log.le.trans (h1.trans (le_pos hp hy)))

theorem pos_near {p : ℕ} (hp : 1 ≤ p) {x : ℝ} (hx : 0 ≤ x) : |pos p x - x| ≤ (1 / 2) ^ (p - 1) * x := by
  rcases hx.eq_or_lt with rfl | hx
  · simp [pos_zero]
  · have h1 := pos_le p x
    have h2 := lt_pos_add p x
    have e : ulp p x = (1 / 2 : ℝ) ^ (p - 1) * (2 : ℝ) ^ Int.log 2 x := by
      unfold ulp
      rw [show Int.log 2 x - ((p : ℤ) - 1) = -((p : ℤ) - 1) + Int.log 2 x by ring, zpow_add₀ (by norm_num), zpow_neg]
      have : ((p - 1 : ℕ) : ℤ) = (p : ℤ) - 1 := by omega
      rw [← this, zpow_natCast, one_div, inv_pow]
    have h3 : ulp p x ≤ (1 / 2 : ℝ) ^ (p - 1) * x := by
      rw [e]; exact mul_le_mul_of_nonneg_left (log_le hx) (by positivity)
    rw [abs_le]
    constructor <;> linarith [show (0:ℝ) ≤ (1 / 2) ^ (p - 1) * x by positivity]

theorem chop_neg (p : ℕ) (x : ℝ) : chop p (-x) = -chop p x := by
  unfold chop
  rcases lt_trichotomy x 0 with h | h | h
  · rw [if_pos (by linarith), if_neg (by linarith)]; ring
  · subst h; simp [pos_zero]
  · rw [if_neg (by linarith), if_pos h.le]; simp

theorem chop_of_nonneg {p : ℕ} {x : ℝ} (h : 0 ≤ x) : chop p x = pos p x := if_pos h

/-- Truncation to `p ≥ 1` binary digits is a rounding with relative error `2^(1-p)`. -/
theorem rounds {p : ℕ} (hp : 1 ≤ p) : Rounds (chop p) ((1 / 2) ^ (p - 1)) := by
  refine ⟨?_, chop_neg p, ?_, ?_⟩
  · intro x y hxy
    rcases le_or_gt 0 x with hx | hx
    · rw [chop_of_nonneg hx, chop_of_nonneg (hx.trans hxy)]
      exact pos_mono hp hx hxy
    · rcases le_or_gt 0 y with hy | hy
      · have h1 : chop p x ≤ 0 := by
          rw [← neg_neg x, chop_neg, chop_of_nonneg (by linarith)]
          linarith [pos_nonneg hp (show 0 ≤ -x by linarith)]
        exact h1.trans (by rw [chop_of_nonneg hy]; exact pos_nonneg hp hy)
      · rw [← neg_neg x, ← neg_neg y, chop_neg, chop_neg p (-y), chop_of_nonneg (by linarith), chop_of_nonneg (by linarith)]
        linarith [pos_mono hp (show 0 ≤ -y by linarith) (neg_le_neg hxy)]
  · intro x
    rcases le_or_gt 0 x with hx | hx
    · rw [chop_of_nonneg hx, chop_of_nonneg (pos_nonneg hp hx), pos_twice hp hx]
    · obtain ⟨y, rfl⟩ : ∃ y, x = -y := ⟨-x, by ring⟩
      have hy : 0 ≤ y := by linarith
      rw [chop_neg, chop_neg, chop_of_nonneg hy, chop_of_nonneg (pos_nonneg hp hy), pos_twice hp hy]
  · intro x
    rcases le_or_gt 0 x with hx | hx
    · rw [chop_of_nonneg hx, abs_of_nonneg hx]; exact pos_near hp hx
    · obtain ⟨y, rfl⟩ : ∃ y, x = -y := ⟨-x, by ring⟩
      have hy : 0 ≤ y := by linarith
      have := pos_near hp hy
      rw [chop_neg, chop_of_nonneg hy, abs_neg, abs_of_nonneg hy, show -pos p y - -y = -(pos p y - y) by ring, abs_neg]
      exact this

/-- A number between two neighbours is cut down to the lower one. -/
theorem chop_between {p : ℕ} {x : ℝ} {e k : ℤ} (h1 : (2 : ℝ) ^ e ≤ x) (h2 : x < (2 : ℝ) ^ (e + 1)) (hk : k * (2 : ℝ) ^ (e - ((p : ℤ) - 1)) ≤ x)
    (hk' : x < (k + 1) * (2 : ℝ) ^ (e - ((p : ℤ) - 1))) : chop p x = k * (2 : ℝ) ^ (e - ((p : ℤ) - 1)) := by
  have hx : 0 < x := lt_of_lt_of_le (zpow_pos (by norm_num) _) h1
  have hl : Int.log 2 x = e := by
    apply le_antisymm
    · have : (2 : ℝ) ^ Int.log 2 x < (2 : ℝ) ^ (e + 1) := (log_le hx).trans_lt h2
      have := (zpow_lt_zpow_iff_right₀ (by norm_num : (1 : ℝ) < 2)).1 this
      omega
    · have : (2 : ℝ) ^ e < (2 : ℝ) ^ (Int.log 2 x + 1) := h1.trans_lt lt_log
      have := (zpow_lt_zpow_iff_right₀ (by norm_num : (1 : ℝ) < 2)).1 this
      omega
  rw [chop_of_nonneg hx.le, pos]
  have hu : ulp p x = (2 : ℝ) ^ (e - ((p : ℤ) - 1)) := by unfold ulp; rw [hl]
  have hup := ulp_pos p x
  rw [hu] at hup ⊢
  have : ⌊x / (2 : ℝ) ^ (e - ((p : ℤ) - 1))⌋ = k := by
    rw [Int.floor_eq_iff, le_div_iff₀ hup, div_lt_iff₀ hup]
    exact ⟨hk, hk'⟩
  rw [this]

/-- An integer multiple of the spacing at its size is not changed. -/
theorem chop_exact {p : ℕ} {x : ℝ} {e k : ℤ} (h1 : (2 : ℝ) ^ e ≤ x) (h2 : x < (2 : ℝ) ^ (e + 1)) (hk : x = k * (2 : ℝ) ^ (e - ((p : ℤ) - 1))) :
    chop p x = x := by
  have hup : (0 : ℝ) < (2 : ℝ) ^ (e - ((p : ℤ) - 1)) := zpow_pos (by norm_num) _
  rw [chop_between h1 h2 hk.ge (by rw [hk]; nlinarith), ← hk]

theorem chop_le {p : ℕ} {x : ℝ} (hx : 0 ≤ x) : chop p x ≤ x := by
  rw [chop_of_nonneg hx]; exact pos_le p x

theorem chop_nonneg {p : ℕ} (hp : 1 ≤ p) {x : ℝ} (hx : 0 ≤ x) : 0 ≤ chop p x := by
  rw [chop_of_nonneg hx]; exact pos_nonneg hp hx

/-- One third has no finite binary expansion. -/
theorem chop_third {p : ℕ} : chop p (1 / 3) * 3 < 1 := by
  have h := chop_le (p := p) (show (0 : ℝ) ≤ 1 / 3 by norm_num)
  rcases lt_or_eq_of_le (show chop p (1 / 3) * 3 ≤ 1 by linarith) with h | h
  · exact h
  · exfalso
    have hl : Int.log 2 (1 / 3 : ℝ) = -2 := by
      apply le_antisymm
      · have : (2 : ℝ) ^ Int.log 2 (1 / 3 : ℝ) < (2 : ℝ) ^ (-1 : ℤ) := (log_le (by norm_num)).trans_lt (by norm_num)
        have := (zpow_lt_zpow_iff_right₀ (by norm_num : (1 : ℝ) < 2)).1 this
        omega
      · have : (2 : ℝ) ^ (-2 : ℤ) < (2 : ℝ) ^ (Int.log 2 (1 / 3 : ℝ) + 1) := lt_of_lt_of_le (by norm_num) lt_log.le
        have := (zpow_lt_zpow_iff_right₀ (by norm_num : (1 : ℝ) < 2)).1 this
        omega
    rw [chop_of_nonneg (by norm_num), pos] at h
    have hu : ulp p (1 / 3) = ((2 : ℝ) ^ (p + 1))⁻¹ := by
      unfold ulp
      rw [hl, show (-2 : ℤ) - ((p : ℤ) - 1) = -((p + 1 : ℕ) : ℤ) by push_cast; ring, zpow_neg, zpow_natCast]
    generalize ⌊(1 / 3 : ℝ) / ulp p (1 / 3)⌋ = k at h
    rw [hu] at h
    have h3 : (k : ℝ) * 3 = 2 ^ (p + 1) := by field_simp at h; linarith
    have h4 : k * 3 = 2 ^ (p + 1) := by exact_mod_cast h3
    have h5 : (3 : ℤ) ∣ 2 ^ (p + 1) := ⟨k, by linarith⟩
    have h6 : (3 : ℕ) ∣ 2 ^ (p + 1) := by exact_mod_cast h5
    have := Nat.Prime.dvd_of_dvd_pow Nat.prime_three h6
    omega

end Chop
end BladeX
