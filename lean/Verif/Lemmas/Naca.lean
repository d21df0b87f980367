import Verif.Model.Naca
import Verif.Spec.Naca
import Verif.Spec.Plane
import Verif.Lemmas.Deform

namespace BladeX
open Spec
namespace Naca

theorem filter_split {p : ℝ} {x : List ℝ} (h : x.Pairwise (· ≤ ·)) :
    x.filter (fun a => decide (a ≤ p)) ++ x.filter (fun a => decide (a > p)) = x := by
  induction x with
  | nil => rfl
  | cons a x ih =>
    rw [List.pairwise_cons] at h
    by_cases ha : a ≤ p
    · have hn : ¬ a > p := not_lt.2 ha
      rw [List.filter_cons_of_pos (by simpa using ha), List.filter_cons_of_neg (by simpa using hn), List.cons_append,
        ih h.2]
    · have hgt : a > p := not_le.1 ha
      have e1 : (a :: x).filter (fun a => decide (a ≤ p)) = [] := by
        rw [List.filter_eq_nil_iff]
        intro b hb
        rcases List.mem_cons.1 hb with rfl | hb
        · simpa using hgt
        · have := h.1 b hb
          simp only [decide_eq_true_eq, not_le]; linarith
      have e2 : (a :: x).filter (fun a => decide (a > p)) = a :: x := by
        rw [List.filter_eq_self]
        intro b hb
        rcases List.mem_cons.1 hb with rfl | hb
        · simpa using hgt
        · have := h.1 b hb
          simp only [decide_eq_true_eq]; linarith
      rw [e1, e2]; rfl

theorem map_split {p : ℝ} {x : List ℝ} (h : x.Pairwise (· ≤ ·)) (f g : ℝ → ℝ) :
    (x.filter (fun a => decide (a ≤ p))).map f ++ (x.filter (fun a => decide (a > p))).map g =
      x.map (fun a => if a ≤ p then f a else g a) := by
  conv_rhs => rw [← filter_split h (p := p), List.map_append]
  congr 1
  · apply List.map_congr_left
    intro a ha
    have : a ≤ p := by simpa using (List.mem_filter.1 ha).2
    simp [this]
  · apply List.map_congr_left
    intro a ha
    have : p < a := by simpa using (List.mem_filter.1 ha).2
    simp [not_le.2 this]

theorem linspace01_mem {n : Nat} {x : ℝ} (h : x ∈ linspaceN 0 1 n) : 0 ≤ x ∧ x ≤ 1 := by
  obtain ⟨i, hi, rfl⟩ := List.getElem_of_mem h
  rw [linspaceN_getElem]
  rw [linspaceN_length] at hi
  have h1 : (i : ℝ) + 1 ≤ n := by exact_mod_cast hi
  have hi0 : (0 : ℝ) ≤ i := Nat.cast_nonneg i
  rcases eq_or_lt_of_le (show (1 : ℝ) ≤ n by linarith) with hn | hn
  · have : (i : ℝ) = 0 := by linarith
    simp [this]
  · have hp : 0 < (n : ℝ) - 1 := by linarith
    have e : (0 : ℝ) + i * ((1 - 0) / (n - 1)) = i / (n - 1) := by ring
    rw [e]
    exact ⟨div_nonneg hi0 hp.le, by rw [div_le_one hp]; linarith⟩

theorem linspace01_sorted (n : Nat) : (linspaceN 0 1 n).Pairwise (· ≤ ·) := by
  rw [List.pairwise_iff_getElem]
  intro i j hi hj hij
  rw [linspaceN_getElem, linspaceN_getElem]
  rw [linspaceN_length] at hj
  have h2 : (2 : ℝ) ≤ n := by exact_mod_cast (show 2 ≤ n by omega)
  have : (i : ℝ) ≤ j := by exact_mod_cast hij.le
  have hc : 0 ≤ (1 - 0) / ((n : ℝ) - 1) := by
    apply div_nonneg <;> linarith
  have := mul_le_mul_of_nonneg_right this hc
  linarith

theorem half_eq (t x : ℝ) : halfThickness t x = nacaHalfThickness t x := by
  unfold halfThickness nacaHalfThickness; ring

theorem half_nonneg {t x : ℝ} (ht : 0 ≤ t) (h0 : 0 ≤ x) (h1 : x ≤ 1) : 0 ≤ nacaHalfThickness t x := by
  obtain ⟨s, hs0, rfl⟩ : ∃ s, 0 ≤ s ∧ x = s ^ 2 := ⟨Real.sqrt x, Real.sqrt_nonneg x, (Real.sq_sqrt h0).symm⟩
  have hs1 : s ≤ 1 := by nlinarith
  unfold nacaHalfThickness
  rw [Real.sqrt_sq hs0]
  have key : 0.2969 * s - 0.1260 * s ^ 2 - 0.3516 * (s ^ 2) ^ 2 + 0.2843 * (s ^ 2) ^ 3 - 0.1036 * (s ^ 2) ^ 4 =
      s * (1 - s) * (0.2969 + 0.1709 * s + 0.1709 * s ^ 2 - 0.1807 * s ^ 3 - 0.1807 * s ^ 4 + 0.1036 * s ^ 5 +
        0.1036 * s ^ 6) := by ring
  rw [key]
  have p1 : s ^ 3 ≤ s := by nlinarith [mul_nonneg hs0 (sub_nonneg.2 hs1), mul_nonneg (mul_nonneg hs0 hs0) (sub_nonneg.2 hs1)]
  have p2 : s ^ 4 ≤ s ^ 2 := by nlinarith [mul_nonneg hs0 (sub_nonneg.2 p1)]
  have p5 : 0 ≤ s ^ 5 := by positivity
  have p6 : 0 ≤ s ^ 6 := by positivity
  have q3 : s ^ 3 ≤ 1 := by linarith
  have q4 : s ^ 4 ≤ 1 := by nlinarith
  have : 0 ≤ 0.2969 + 0.1709 * s + 0.1709 * s ^ 2 - 0.1807 * s ^ 3 - 0.1807 * s ^ 4 + 0.1036 * s ^ 5 +
        0.1036 * s ^ 6 := by norm_num; linarith
  have h5 : 0 ≤ 1 - s := by linarith
  positivity

theorem half_zero (t : ℝ) : nacaHalfThickness t 0 = 0 := by simp [nacaHalfThickness]

theorem half_one (t : ℝ) : nacaHalfThickness t 1 = 0 := by simp [nacaHalfThickness]; norm_num

theorem camber4_eq (m p : ℝ) (n : Nat) : camber4 m p (linspaceN 0 1 n) = (linspaceN 0 1 n).map (nacaCamber4 m p) := by
  unfold camber4
  rw [map_split (linspace01_sorted n)]
  apply List.map_congr_left
  intro a _
  unfold nacaCamber4
  split_ifs <;> ring

theorem camber5_eq (m k : ℝ) (n : Nat) : camber5 m k (linspaceN 0 1 n) = (linspaceN 0 1 n).map (nacaCamber5 m k) := by
  unfold camber5
  rw [map_split (linspace01_sorted n)]
  apply List.map_congr_left
  intro a _
  unfold nacaCamber5
  split_ifs <;> ring

/-- Slope of the 4-digit camber line as computed. -/
noncomputable def slopeFn4 (m p a : ℝ) : ℝ :=
  if a ≤ p then m / p ^ 2 * (2 * p - 2 * a) else m / (1 - p) ^ 2 * (2 * p - 2 * a)

/-- Slope of the 5-digit camber line as computed. -/
noncomputable def slopeFn5 (m k a : ℝ) : ℝ :=
  if a ≤ m then 1 / 6 * k * (3 * a ^ 2 - 6 * m * a + m ^ 2 * (3 - m)) else -1 / 6 * k * m ^ 3

theorem slope4_eq (m p : ℝ) (n : Nat) : slope4 m p (linspaceN 0 1 n) = (linspaceN 0 1 n).map (slopeFn4 m p) :=
  map_split (linspace01_sorted n) _ _

theorem slope5_eq (m k : ℝ) (n : Nat) : slope5 m k (linspaceN 0 1 n) = (linspaceN 0 1 n).map (slopeFn5 m k) :=
  map_split (linspace01_sorted n) _ _

theorem zipWith_id_map {α β γ} (f : α → β → γ) (h : α → β) (l : List α) :
    List.zipWith f l (l.map h) = l.map (fun x => f x (h x)) := by
  have := zipWith_map_same f id h l
  simpa using this

theorem normalSpread_eq (x : Arr) (y c s : ℝ → ℝ) :
    normalSpread x (x.map y) (x.map c) (x.map s) =
      { xup := x.map (fun a => a - y a * Real.sin (Real.arctan (s a)))
        yup := x.map (fun a => c a + y a * Real.cos (Real.arctan (s a)))
        xdown := x.map (fun a => a + y a * Real.sin (Real.arctan (s a)))
        ydown := x.map (fun a => c a - y a * Real.cos (Real.arctan (s a))) } := by
  simp only [normalSpread, zipWith_map_same, zipWith_id_map]

theorem verticalSpread_eq (n : Nat) (y c : ℝ → ℝ) :
    verticalSpread n ((linspaceN 0 1 n).map y) ((linspaceN 0 1 n).map c) =
      { xup := linspaceN 0 1 n
        xdown := linspaceN 0 1 n
        yup := (linspaceN 0 1 n).map (fun a => c a + y a)
        ydown := (linspaceN 0 1 n).map (fun a => c a - y a) } := by
  simp only [verticalSpread, zipWith_map_same]

/-- Every generated profile has this form: `n` stations, camber `c`, half-thickness `y`, direction angle `θ`. -/
noncomputable def spread (n : Nat) (y c θ : ℝ → ℝ) : Profile :=
  { xup := (linspaceN 0 1 n).map (fun a => a - y a * Real.sin (θ a))
    yup := (linspaceN 0 1 n).map (fun a => c a + y a * Real.cos (θ a))
    xdown := (linspaceN 0 1 n).map (fun a => a + y a * Real.sin (θ a))
    ydown := (linspaceN 0 1 n).map (fun a => c a - y a * Real.cos (θ a)) }

theorem symmetric_spread (n : Nat) (y : ℝ → ℝ) :
    symmetric n ((linspaceN 0 1 n).map y) = spread n y (fun _ => 0) (fun _ => 0) := by
  simp [symmetric, spread, Function.comp_def]

theorem vertical_spread (n : Nat) (y c : ℝ → ℝ) :
    verticalSpread n ((linspaceN 0 1 n).map y) ((linspaceN 0 1 n).map c) = spread n y c (fun _ => 0) := by
  rw [verticalSpread_eq]; simp [spread]

theorem normal_spread (n : Nat) (y c s : ℝ → ℝ) :
    normalSpread (linspaceN 0 1 n) ((linspaceN 0 1 n).map y) ((linspaceN 0 1 n).map c) ((linspaceN 0 1 n).map s) =
      spread n y c (fun a => Real.arctan (s a)) := normalSpread_eq _ _ _ _

theorem digitVal_digit {c : Char} (h : c.isDigit = true) : digitVal c = .ok (dig c) := by
  unfold digitVal; rw [if_pos h]; rfl

theorem digitVal_other {c : Char} (h : c.isDigit = false) : digitVal c = .error .valueError := by
  unfold digitVal; rw [if_neg (by simp [h])]

theorem numVal_digits {a b : Char} (ha : a.isDigit = true) (hb : b.isDigit = true) :
    numVal [a, b] = .ok (10 * dig a + dig b) := by
  simp [numVal, ha, hb, digitVal_digit ha, digitVal_digit hb, bind, Except.bind, pure, Except.pure]

theorem dig_nonneg (c : Char) : 0 ≤ dig c := Nat.cast_nonneg _

theorem dig_le {c : Char} (h : c.isDigit = true) : dig c ≤ 9 := by
  unfold dig
  have : c.toNat - 48 ≤ 9 := by
    simp only [Char.isDigit, Bool.and_eq_true, decide_eq_true_eq] at h
    have h2 := h.2
    rw [UInt32.le_iff_toNat_le] at h2
    have h3 : ('9'.val).toNat = 57 := rfl
    have h4 : c.toNat = c.val.toNat := rfl
    omega
  exact_mod_cast this

/-- Closed form of the 4-digit branch. -/
theorem coords4_of {d0 d1 : Char} {tt : List Char} {v : ℝ} (h0 : d0.isDigit = true) (h1 : d1.isDigit = true) (hv : numVal tt = .ok v)
    (n : Nat) (cosine : Bool) :
    coords4 d0 d1 tt n cosine = .ok (spread n (nacaHalfThickness (v / 100))
      (if dig d1 = 0 then fun _ => 0 else nacaCamber4 (dig d0 / 100) (dig d1 / 10))
      (if dig d1 = 0 ∨ cosine = false then fun _ => 0
        else fun a => Real.arctan (slopeFn4 (dig d0 / 100) (dig d1 / 10) a))) := by
  unfold coords4
  simp only [digitVal_digit h0, digitVal_digit h1, hv, bind, Except.bind, pure, Except.pure]
  have hz : (dig d1 / 10 = 0) ↔ dig d1 = 0 := by constructor <;> intro h <;> linarith
  have hf : halfThickness (v / 100) = nacaHalfThickness (v / 100) := by
    funext x; exact half_eq _ _
  simp only [hz, hf]
  by_cases hp : dig d1 = 0
  · simp only [hp, if_true, true_or, symmetric_spread]
  · simp only [hp, if_false, false_or]
    cases cosine
    · simp only [camber4_eq, vertical_spread]; simp
    · simp only [camber4_eq, slope4_eq, normal_spread]; simp

/-- The 4-digit branch for four digits. -/
theorem coords4_eq {d0 d1 d2 d3 : Char} (h0 : d0.isDigit = true) (h1 : d1.isDigit = true) (h2 : d2.isDigit = true)
    (h3 : d3.isDigit = true) (n : Nat) (cosine : Bool) :
    coords4 d0 d1 [d2, d3] n cosine = .ok (spread n (nacaHalfThickness ((10 * dig d2 + dig d3) / 100))
      (if dig d1 = 0 then fun _ => 0 else nacaCamber4 (dig d0 / 100) (dig d1 / 10))
      (if dig d1 = 0 ∨ cosine = false then fun _ => 0
        else fun a => Real.arctan (slopeFn4 (dig d0 / 100) (dig d1 / 10) a))) := coords4_of h0 h1 (numVal_digits h2 h3) n cosine

/-- Closed form of the 5-digit branch. -/
theorem coords5_of (look : LookUp) {d0 d1 d2 : Char} {tt : List Char} {v : ℝ} (h0 : d0.isDigit = true) (h1 : d1.isDigit = true)
    (h2 : d2.isDigit = true) (hv : numVal tt = .ok v) (hs : dig d2 = 1 ∨ dig d2 = 0) (n : Nat)
    (cosine : Bool) :
    coords5 look d0 d1 d2 tt n cosine = .ok (spread n (nacaHalfThickness (v / 100))
      (if dig d1 = 0 then fun _ => 0
        else fun a => (if cosine then dig d0 * 0.15 / 0.3 else 1) *
          nacaCamber5 (look (decide (dig d2 = 1)) (5 * dig d1 / 100)).1 (look (decide (dig d2 = 1)) (5 * dig d1 / 100)).2 a)
      (if dig d1 = 0 ∨ cosine = false then fun _ => 0
        else fun a => Real.arctan (slopeFn5 (look (decide (dig d2 = 1)) (5 * dig d1 / 100)).1
          (look (decide (dig d2 = 1)) (5 * dig d1 / 100)).2 a))) := by
  unfold coords5
  simp only [digitVal_digit h0, digitVal_digit h1, digitVal_digit h2, hv, bind, Except.bind, pure,
    Except.pure, throw, throwThe, MonadExceptOf.throw]
  have hns : ¬ (dig d2 ≠ 1 ∧ dig d2 ≠ 0) := by rintro ⟨a, b⟩; rcases hs with h | h <;> contradiction
  have hz : (5 * dig d1 / 100 = 0) ↔ dig d1 = 0 := by constructor <;> intro h <;> linarith
  have hf : halfThickness (v / 100) = nacaHalfThickness (v / 100) := by
    funext x; exact half_eq _ _
  rw [if_neg hns]
  simp only [hz, hf]
  by_cases hp : dig d1 = 0
  · simp only [hp, if_true, true_or, symmetric_spread]
  · simp only [hp, if_false, false_or]
    cases cosine
    · simp only [camber5_eq, vertical_spread]; simp
    · simp only [camber5_eq, slope5_eq, List.map_map, normal_spread, Function.comp_def]; simp

/-- The 5-digit branch for five digits. -/
theorem coords5_eq (look : LookUp) {d0 d1 d2 d3 d4 : Char} (h0 : d0.isDigit = true) (h1 : d1.isDigit = true)
    (h2 : d2.isDigit = true) (h3 : d3.isDigit = true) (h4 : d4.isDigit = true) (hs : dig d2 = 1 ∨ dig d2 = 0) (n : Nat)
    (cosine : Bool) :
    coords5 look d0 d1 d2 [d3, d4] n cosine = .ok (spread n (nacaHalfThickness ((10 * dig d3 + dig d4) / 100))
      (if dig d1 = 0 then fun _ => 0
        else fun a => (if cosine then dig d0 * 0.15 / 0.3 else 1) *
          nacaCamber5 (look (decide (dig d2 = 1)) (5 * dig d1 / 100)).1 (look (decide (dig d2 = 1)) (5 * dig d1 / 100)).2 a)
      (if dig d1 = 0 ∨ cosine = false then fun _ => 0
        else fun a => Real.arctan (slopeFn5 (look (decide (dig d2 = 1)) (5 * dig d1 / 100)).1
          (look (decide (dig d2 = 1)) (5 * dig d1 / 100)).2 a))) := coords5_of look h0 h1 h2 (numVal_digits h3 h4) hs n cosine

theorem digitVal_ok {c : Char} {v : ℝ} (hv : digitVal c = .ok v) : c.isDigit = true ∧ v = dig c := by
  by_cases hc : c.isDigit = true
  · rw [digitVal_digit hc] at hv; exact ⟨hc, (Except.ok.inj hv).symm⟩
  · rw [digitVal_other (by simpa using hc)] at hv; cases hv

/-- What `float` makes of two characters. -/
theorem numVal_iff (a b : Char) (v : ℝ) : numVal [a, b] = .ok v ↔ TwoChars a b v := by
  constructor
  · intro h
    simp only [numVal] at h
    split_ifs at h with ha hb hb hc hd he
    · rw [digitVal_digit ha, digitVal_digit hb] at h
      obtain rfl := Except.ok.inj h
      exact .digits ha hb
    · obtain ⟨-, rfl⟩ := digitVal_ok h
      rcases hb with rfl | hb
      · exact .pointAfter ha
      · exact .blankAfter ha (by simpa [isBlank, BlankChar, or_comm] using hb)
    · obtain ⟨h', rfl⟩ := digitVal_ok h
      rcases hc with rfl | hb
      · exact .plus h'
      · exact .blankBefore (by simpa [isBlank, BlankChar, or_comm] using hb) h'
    · rcases e : digitVal b with _ | w
      · rw [e] at h; cases h
      · rw [e] at h
        obtain rfl := Except.ok.inj h
        obtain ⟨h', rfl⟩ := digitVal_ok e
        subst hd
        exact .minus h'
    · rcases e : digitVal b with _ | w
      · rw [e] at h; cases h
      · rw [e] at h
        obtain rfl := Except.ok.inj h
        obtain ⟨h', rfl⟩ := digitVal_ok e
        subst he
        exact .pointBefore h'
  · have nd : ∀ {c : Char}, BlankChar c → c.isDigit = false := by
      intro c h
      by_contra hc
      simp only [Bool.not_eq_false, Char.isDigit, Bool.and_eq_true, decide_eq_true_eq] at hc
      have h1 := hc.1
      rw [ge_iff_le, UInt32.le_iff_toNat_le] at h1
      have h2 : ('0'.val).toNat = 48 := rfl
      have h3 : c.toNat = c.val.toNat := rfl
      rcases h with rfl | ⟨h4, h5⟩
      · exact absurd h1 (by decide)
      · omega
    have bl : ∀ {c : Char}, BlankChar c → isBlank c = true := by
      intro c h
      simpa [isBlank, BlankChar, or_comm] using h
    rintro (⟨ha, hb⟩ | ⟨ha⟩ | ⟨hb⟩ | ⟨hb⟩ | ⟨hb⟩ | ⟨ha, hb⟩ | ⟨ha, hb⟩)
    · exact numVal_digits ha hb
    · simp [numVal, ha, digitVal_digit ha]
    · simp [numVal, digitVal_digit hb, isBlank, bind, Except.bind, pure, Except.pure]
    · simp [numVal, digitVal_digit hb]
    · simp [numVal, digitVal_digit hb, isBlank, bind, Except.bind, pure, Except.pure]
    · simp [numVal, nd ha, bl ha, digitVal_digit hb]
    · simp [numVal, ha, nd hb, bl hb, digitVal_digit ha]

/-- The designations that are accepted. -/
theorem generated_cases {look : LookUp} {digits : List Char} {n : Nat} {cosine : Bool} {P : Profile}
    (h : generateCoordinates look digits n cosine = .ok P) :
    (∃ (d0 d1 a b : Char) (v : ℝ), digits = [d0, d1, a, b] ∧ d0.isDigit = true ∧ d1.isDigit = true ∧ numVal [a, b] = .ok v) ∨
    (∃ (d0 d1 d2 a b : Char) (v : ℝ), digits = [d0, d1, d2, a, b] ∧ d0.isDigit = true ∧ d1.isDigit = true ∧ d2.isDigit = true ∧
      (dig d2 = 1 ∨ dig d2 = 0) ∧ numVal [a, b] = .ok v) := by
  unfold generateCoordinates at h
  split at h
  · rename_i d0 d1 d2 d3
    unfold coords4 at h
    simp only [bind, Except.bind, pure, Except.pure] at h
    rcases e0 : digitVal d0 with _ | v0
    · rw [e0] at h; cases h
    rcases e1 : digitVal d1 with _ | v1
    · rw [e0, e1] at h; cases h
    rcases e2 : numVal [d2, d3] with _ | v2
    · rw [e0, e1, e2] at h; cases h
    exact Or.inl ⟨d0, d1, d2, d3, v2, rfl, (digitVal_ok e0).1, (digitVal_ok e1).1, e2⟩
  · rename_i d0 d1 d2 d3 d4
    unfold coords5 at h
    simp only [bind, Except.bind, pure, Except.pure, throw, throwThe, MonadExceptOf.throw] at h
    rcases e0 : digitVal d0 with _ | v0
    · rw [e0] at h; cases h
    rcases e1 : digitVal d1 with _ | v1
    · rw [e0, e1] at h; cases h
    rcases e2 : digitVal d2 with _ | v2
    · rw [e0, e1, e2] at h; cases h
    rcases e3 : numVal [d3, d4] with _ | v3
    · rw [e0, e1, e2, e3] at h; cases h
    refine Or.inr ⟨d0, d1, d2, d3, d4, v3, rfl, (digitVal_ok e0).1, (digitVal_ok e1).1, (digitVal_ok e2).1, ?_, e3⟩
    by_contra hcon
    rw [not_or] at hcon
    rw [e0, e1, e2, e3, (digitVal_ok e2).2] at h
    simp only [hcon, ne_eq, not_false_eq_true, and_self, if_true] at h
    cases h
  · cases h

theorem spread_uniform (n : Nat) (y c θ : ℝ → ℝ) : (spread n y c θ).Uniform ∧ (spread n y c θ).xup.length = n := by
  simp [spread, Profile.Uniform, linspaceN_length]

theorem spread_ends {n : Nat} (hn : 2 ≤ n) {y c : ℝ → ℝ} (θ : ℝ → ℝ) (y0 : y 0 = 0) (y1 : y 1 = 0) :
    (spread n y c θ).Ends (0, c 0) (1, c 1) (0, c 0) (1, c 1) := by
  have hh : (linspaceN (0 : ℝ) 1 n).head? = some 0 := linspaceN_head (by omega)
  have hl : (linspaceN (0 : ℝ) 1 n).getLast? = some 1 := linspaceN_last hn
  have lens := spread_uniform n y c θ
  refine ⟨?_, ?_, ?_, ?_⟩
  · exact zip_head?_of (by simp [spread, hh, y0]) (by simp [spread, hh, y0])
  · exact zip_getLast?_of lens.1.1 (by simp [spread, hl, y1]) (by simp [spread, hl, y1])
  · exact zip_head?_of (by simp [spread, hh, y0]) (by simp [spread, hh, y0])
  · exact zip_getLast?_of lens.1.2.2 (by simp [spread, hl, y1]) (by simp [spread, hl, y1])

end Naca
end BladeX
