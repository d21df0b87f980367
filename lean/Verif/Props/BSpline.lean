import Verif.Lemmas.BSpline
import Mathlib.Data.List.OfFn

/-! # C33, C34: the B-spline curves of `scipy_bspline` -/

namespace BladeX
open Spec BSpline

/-- **C33** the knot vector has `c+k+1` entries, is non-decreasing, starts with `k+1` zeros, ends with `k+1` copies of
`c-k`, and contains every integer strictly in between exactly once. -/
theorem C33_knots (c k : Nat) (hk : k < c) :
    (knots c k).length = c + k + 1 ∧ (knots c k).Pairwise (· ≤ ·) ∧
    (knots c k).take (k + 1) = List.replicate (k + 1) 0 ∧
    (knots c k).drop c = List.replicate (k + 1) ((c : Int) - k) ∧
    ∀ v : Int, 0 < v → v < (c : Int) - k → (knots c k).count v = 1 := by
  have hlen := knots_length c k
  have hg : ∀ i (hi : i < (knots c k).length),
      (knots c k)[i] = if i ≤ k then 0 else if i < c then (i : Int) - k else (c : Int) - k := by
    intro i hi
    have := knots_get (c := c) (k := k) (i := i) (by omega)
    rw [List.getElem?_eq_getElem hi, clip_eq hk] at this
    exact Option.some.inj this
  refine ⟨hlen, ?_, ?_, ?_, ?_⟩
  · rw [List.pairwise_iff_getElem]
    intro i j hi hj hij
    rw [hg i hi, hg j hj]
    split_ifs <;> omega
  · apply List.ext_getElem
    · simp [hlen]; try omega
    · intro i h1 h2
      rw [List.getElem_take, hg]
      simp only [List.length_replicate] at h2
      rw [if_pos (by omega)]; simp
  · apply List.ext_getElem
    · simp [hlen]; omega
    · intro i h1 h2
      rw [List.getElem_drop, hg]
      rw [if_neg (by omega), if_neg (by omega)]; simp
  · intro v hv0 hv1
    have hsplit : knots c k = (knots c k).take (v.toNat + k) ++ v :: (knots c k).drop (v.toNat + k + 1) := by
      have hi : v.toNat + k < (knots c k).length := by omega
      have hv : (knots c k)[v.toNat + k] = v := by
        rw [hg, if_neg (by omega), if_pos (by omega)]; omega
      conv_lhs => rw [← List.take_append_drop (v.toNat + k) (knots c k), List.drop_eq_getElem_cons hi, hv]
    rw [hsplit, List.count_append, List.count_cons_self]
    have c1 : ((knots c k).take (v.toNat + k)).count v = 0 := by
      rw [List.count_eq_zero]
      intro hm
      obtain ⟨i, hi, e⟩ := List.getElem_of_mem hm
      rw [List.getElem_take, hg] at e
      rw [List.length_take] at hi
      split_ifs at e <;> omega
    have c2 : ((knots c k).drop (v.toNat + k + 1)).count v = 0 := by
      rw [List.count_eq_zero]
      intro hm
      obtain ⟨i, hi, e⟩ := List.getElem_of_mem hm
      rw [List.getElem_drop, hg] at e
      split_ifs at e <;> omega
    rw [c1, c2]

example : knots 6 3 = [0, 0, 0, 0, 1, 2, 3, 3, 3, 3] := by decide

/-- The parameters at which the curve is evaluated lie between 0 and `c - k`. -/
theorem param_mem {c k : ℝ} (h : k < c) {n : Nat} {x : ℝ} (hx : x ∈ linspaceN 0 (c - k) n) : 0 ≤ x ∧ x ≤ c - k := by
  obtain ⟨i, hi, rfl⟩ := List.getElem_of_mem hx
  rw [linspaceN_getElem]
  rw [linspaceN_length] at hi
  have hc : 0 < c - k := by linarith
  have h1 : (i : ℝ) + 1 ≤ n := by exact_mod_cast hi
  have hi0 : (0 : ℝ) ≤ i := Nat.cast_nonneg i
  rcases eq_or_lt_of_le (show (1 : ℝ) ≤ n by linarith) with hn | hn
  · have : (i : ℝ) = 0 := by linarith
    rw [this]; simp [hc.le]
  · have hp : 0 < (n : ℝ) - 1 := by linarith
    have e : (0 : ℝ) + i * ((c - k - 0) / (n - 1)) = i / (n - 1) * (c - k) := by ring
    rw [e]
    have : (i : ℝ) / (n - 1) ≤ 1 := by rw [div_le_one hp]; linarith
    exact ⟨by positivity, by nlinarith⟩

/-- One coordinate of the evaluated curve is the textbook B-spline sum. -/
theorem evalRow_eq {coef : List ℝ} {k : Nat} (hk : k < coef.length) {x : ℝ} (h0 : 0 ≤ x)
    (h1 : x ≤ (coef.length : ℝ) - k) :
    evalRow (kv coef.length k) coef k x =
      ∑ i ∈ Finset.range coef.length, coxDeBoor (clampedKnot coef.length k) coef.length k i x * coef.getD i 0 := by
  set c := coef.length with hc
  have hcong : ∀ i, i ≤ c + k → kv c k i = clampedKnot c k i := fun i hi => kv_eq hk (by omega)
  unfold evalRow
  simp only
  rw [← hc, findSpan_congr (t' := clampedKnot c k) _ _ (by omega) (fun i hi => hcong i (by omega))]
  obtain ⟨hs, hkl⟩ := findSpan_spec hk h1 (c - 1 - k) k le_rfl (by omega) (by rw [clampedKnot_le le_rfl]; exact h0)
  set l := findSpan (clampedKnot c k) (c - 1) x (c - 1 - k) k
  have hm := clampedKnot_mono hk
  have hcc : ∀ m, c ≤ m → clampedKnot c k m = clampedKnot c k c := fun m h => by
    rw [clampedKnot_ge hk h, clampedKnot_ge hk le_rfl]
  rw [foldl_add_range, zero_add, cox_sum_eq hm hcc hs hkl (fun i => coef.getD i 0)]
  apply Finset.sum_congr rfl
  intro j hj
  rw [Finset.mem_range] at hj
  rw [fpbspl_congr (t' := clampedKnot c k) (N := c + k) hcong k j (by have := hs.lt; omega),
    fpbspl_cox hm hcc hs k j hkl (by omega)]
  have : l + j - k = l - k + j := by omega
  rw [this, mul_comm]

theorem sum_getD (cv : List Pt) (f : Pt → ℝ) (g : Nat → ℝ) :
    ∑ i ∈ Finset.range cv.length, g i * (cv.map f).getD i 0 = ∑ i : Fin cv.length, g i * f cv[i] := by
  rw [Finset.sum_range]
  apply Finset.sum_congr rfl
  intro i _
  simp [List.getD_eq_getElem?_getD]

theorem bspline_curve {cv : List Pt} {n k : Nat} (hk : k < cv.length) (h5 : k ≤ 5) :
    scipyBspline cv n k = .ok ((linspaceN 0 ((cv.length : ℝ) - k) n).map (bsplinePoint cv k)) := by
  have e1 : ¬ ((k : Int) < 0 ∨ 5 < (k : Int)) := by omega
  have e2 : ¬ ((n : Int) < 0) := by omega
  have e3 : ¬ (cv.length ≤ k) := by omega
  simp only [scipyBspline, linspace, e1, e2, e3, if_false, bind, Except.bind, pure, Except.pure, Int.toNat_natCast]
  congr 1
  apply List.map_congr_left
  intro x hx
  obtain ⟨h0, h1⟩ := param_mem (show (k : ℝ) < cv.length by exact_mod_cast hk) hx
  have a := evalRow_eq (coef := cv.map Prod.fst) (k := k) (by simpa using hk) h0 (by simpa using h1)
  have b := evalRow_eq (coef := cv.map Prod.snd) (k := k) (by simpa using hk) h0 (by simpa using h1)
  rw [List.length_map] at a b
  rw [a, b, sum_getD, sum_getD]
  rfl

/-- **C34** for at most degree 5 and more control points than the degree, the evaluated curve has exactly `n` points, and
the `j`-th is the textbook B-spline curve (Cox - de Boor, clamped uniform knots) at the parameter `j (c-k)/(n-1)`. -/
theorem C34_curve (cv : List Pt) (n k : Nat) (hk : k < cv.length) (h5 : k ≤ 5) :
    ∃ out, scipyBspline cv n k = .ok out ∧ out.length = n ∧
      ∀ j (hj : j < out.length), out[j] = bsplinePoint cv k (j * (((cv.length : ℝ) - k) / (n - 1))) := by
  refine ⟨_, bspline_curve hk h5, by simp [linspaceN_length], ?_⟩
  intro j hj
  rw [List.getElem_map, linspaceN_getElem]
  congr 1; ring

/-- The weights of the curve at a parameter. -/
theorem weights_ok {c k : Nat} (hk : k < c) {x : ℝ} (h0 : 0 ≤ x) (h1 : x ≤ (c : ℝ) - k) :
    (∀ i, 0 ≤ coxDeBoor (clampedKnot c k) c k i x) ∧
    ∑ i : Fin c, coxDeBoor (clampedKnot c k) c k i x = 1 := by
  have hm := clampedKnot_mono hk
  have hcc : ∀ m, c ≤ m → clampedKnot c k m = clampedKnot c k c := fun m h => by
    rw [clampedKnot_ge hk h, clampedKnot_ge hk le_rfl]
  obtain ⟨hs, hkl⟩ := findSpan_spec hk h1 (c - 1 - k) k le_rfl (by omega) (by rw [clampedKnot_le le_rfl]; exact h0)
  set l := findSpan (clampedKnot c k) (c - 1) x (c - 1 - k) k
  have hlc := hs.lt
  have hlt : clampedKnot c k l < clampedKnot c k (l + 1) := by
    rw [clampedKnot_mid hkl hlc.le, clampedKnot_mid (by omega) hlc]; push_cast; linarith
  have hup : x ≤ clampedKnot c k (l + 1) := by
    rcases hs.high with h | ⟨h, e⟩
    · exact h.le
    · rw [e, h]
  constructor
  · intro i
    by_cases hi : l < i ∨ i + k < l
    · rw [cox_zero hm hcc hs k i hi]
    · rw [not_or] at hi
      have := fpbspl_nonneg hm hs.low hup k (i + k - l) hkl
      rw [fpbspl_cox hm hcc hs k _ hkl (by omega)] at this
      have e : l + (i + k - l) - k = i := by omega
      rwa [e] at this
  · have h2 := cox_sum_eq hm hcc hs hkl (fun _ => 1)
    simp only [mul_one] at h2
    rw [← Finset.sum_range (fun i => coxDeBoor (clampedKnot c k) c k i x), h2, ← fpbspl_sum hm hlt k hkl (x := x)]
    apply Finset.sum_congr rfl
    intro j hj
    rw [Finset.mem_range] at hj
    rw [fpbspl_cox hm hcc hs k j hkl (by omega)]
    congr 1; omega

/-- **C34** every curve point is a convex combination of the control points; the weights depend only on the number of
control points, the degree and the number of curve points. -/
theorem C34_convex (c n k : Nat) (hk : k < c) (h5 : k ≤ 5) :
    ∃ w : Fin n → Fin c → ℝ, (∀ j i, 0 ≤ w j i) ∧ (∀ j, ∑ i, w j i = 1) ∧
      ∀ (cv : List Pt) (hc : cv.length = c), scipyBspline cv n k = .ok (List.ofFn fun j : Fin n =>
        ((∑ i : Fin c, w j i * (cv[i]).1, ∑ i : Fin c, w j i * (cv[i]).2) : Pt)) := by
  refine ⟨fun j i => coxDeBoor (clampedKnot c k) c k i ((linspaceN 0 ((c : ℝ) - k) n)[j]'(by
    rw [linspaceN_length]; exact j.2)), ?_, ?_, ?_⟩
  · intro j i
    have := param_mem (show (k : ℝ) < c by exact_mod_cast hk) (List.getElem_mem (l := linspaceN 0 ((c : ℝ) - k) n)
      (n := j) (by rw [linspaceN_length]; exact j.2))
    exact (weights_ok hk this.1 this.2).1 i
  · intro j
    have := param_mem (show (k : ℝ) < c by exact_mod_cast hk) (List.getElem_mem (l := linspaceN 0 ((c : ℝ) - k) n)
      (n := j) (by rw [linspaceN_length]; exact j.2))
    exact (weights_ok hk this.1 this.2).2
  · rintro cv rfl
    rw [bspline_curve hk h5]
    congr 1
    apply List.ext_getElem
    · simp [linspaceN_length]
    · intro j h1 h2
      rw [List.getElem_map, List.getElem_ofFn]
      rfl

/-- **C34** the curve stays in the bounding box of its control points. -/
theorem C34_bounding_box (cv : List Pt) (n k : Nat) (hk : k < cv.length) (h5 : k ≤ 5) (lo hi : Pt)
    (h : ∀ p ∈ cv, lo.1 ≤ p.1 ∧ p.1 ≤ hi.1 ∧ lo.2 ≤ p.2 ∧ p.2 ≤ hi.2) (out : List Pt)
    (ho : scipyBspline cv n k = .ok out) : ∀ p ∈ out, lo.1 ≤ p.1 ∧ p.1 ≤ hi.1 ∧ lo.2 ≤ p.2 ∧ p.2 ≤ hi.2 := by
  obtain ⟨w, w0, w1, hw⟩ := C34_convex cv.length n k hk h5
  rw [hw cv rfl] at ho
  rw [← Except.ok.inj ho]
  intro p hp
  rw [List.mem_ofFn] at hp
  obtain ⟨j, rfl⟩ := hp
  have low : ∀ (f : Pt → ℝ) (b : ℝ), (∀ p ∈ cv, b ≤ f p) → b ≤ ∑ i : Fin cv.length, w j i * f cv[i] := by
    intro f b hb
    calc b = ∑ i : Fin cv.length, w j i * b := by rw [← Finset.sum_mul, w1, one_mul]
      _ ≤ _ := Finset.sum_le_sum fun i _ => mul_le_mul_of_nonneg_left (hb _ (List.getElem_mem _)) (w0 j i)
  have high : ∀ (f : Pt → ℝ) (b : ℝ), (∀ p ∈ cv, f p ≤ b) → ∑ i : Fin cv.length, w j i * f cv[i] ≤ b := by
    intro f b hb
    calc _ ≤ ∑ i : Fin cv.length, w j i * b :=
          Finset.sum_le_sum fun i _ => mul_le_mul_of_nonneg_left (hb _ (List.getElem_mem _)) (w0 j i)
      _ = b := by rw [← Finset.sum_mul, w1, one_mul]
  exact ⟨low _ _ fun p hp => (h p hp).1, high _ _ fun p hp => (h p hp).2.1, low _ _ fun p hp => (h p hp).2.2.1,
    high _ _ fun p hp => (h p hp).2.2.2⟩

/-- **C34** the curve is affine in the control points: any affine map of the plane applied to all control points moves all
curve points by the same map. -/
theorem C34_affine (a b e a' b' e' : ℝ) (cv : List Pt) (n k : Nat) (hk : k < cv.length) (h5 : k ≤ 5) (out : List Pt)
    (ho : scipyBspline cv n k = .ok out) :
    scipyBspline (cv.map fun p => (a * p.1 + b * p.2 + e, a' * p.1 + b' * p.2 + e')) n k =
      .ok (out.map fun p => (a * p.1 + b * p.2 + e, a' * p.1 + b' * p.2 + e')) := by
  obtain ⟨w, w0, w1, hw⟩ := C34_convex cv.length n k hk h5
  rw [hw cv rfl] at ho
  rw [← Except.ok.inj ho, hw _ (by simp)]
  congr 1
  rw [List.map_ofFn]
  congr 1
  funext j
  have key : ∀ a b e : ℝ, ∑ i : Fin cv.length, w j i * (a * (cv[i]).1 + b * (cv[i]).2 + e) =
      a * (∑ i : Fin cv.length, w j i * (cv[i]).1) + b * (∑ i : Fin cv.length, w j i * (cv[i]).2) + e := by
    intro a b e
    have : e = ∑ i : Fin cv.length, w j i * e := by rw [← Finset.sum_mul, w1, one_mul]
    conv_rhs => rw [this]
    rw [Finset.mul_sum, Finset.mul_sum, ← Finset.sum_add_distrib, ← Finset.sum_add_distrib]
    apply Finset.sum_congr rfl
    intro i _; ring
  simp only [Function.comp, ← key]
  ext <;> simp

/-- **C34** the curve starts at the first and ends at the last control point. -/
theorem C34_end_points (cv : List Pt) (n k : Nat) (hn : 2 ≤ n) (hk : k < cv.length) (h5 : k ≤ 5) (out : List Pt)
    (ho : scipyBspline cv n k = .ok out) : out.head? = cv.head? ∧ out.getLast? = cv.getLast? := by
  have hm := clampedKnot_mono hk
  set c := cv.length with hcdef
  have hcc : ∀ m, c ≤ m → clampedKnot c k m = clampedKnot c k c := fun m h => by
    rw [clampedKnot_ge hk h, clampedKnot_ge hk le_rfl]
  rw [bspline_curve hk h5] at ho
  rw [← Except.ok.inj ho]
  have hkc : (k : ℝ) + 1 ≤ c := by exact_mod_cast hk
  constructor
  · rw [List.head?_map, linspaceN_head (by omega), Option.map_some]
    have hs : InSpan (clampedKnot c k) c k 0 :=
      ⟨hk, by rw [clampedKnot_le le_rfl], Or.inl (by rw [clampedKnot_mid (by omega) hk]; push_cast; linarith)⟩
    have hlt : clampedKnot c k k < clampedKnot c k (k + 1) := by
      rw [clampedKnot_le le_rfl, clampedKnot_mid (by omega) hk]; push_cast; linarith
    have hsum := fpbspl_sum hm (x := 0) hlt k le_rfl
    have hz : ∀ i, 0 < i → fpbspl (clampedKnot c k) k 0 k i = 0 :=
      fun i hi => fpbspl_left (fun i hi => clampedKnot_le hi) k i le_rfl hi
    have h1 : coxDeBoor (clampedKnot c k) c k 0 0 = 1 := by
      rw [Finset.sum_eq_single 0 (fun i _ hi => hz i (by omega)) (by simp), fpbspl_cox hm hcc hs k 0 le_rfl (by omega)] at hsum
      simpa using hsum
    have h2 : ∀ i, i ≠ 0 → coxDeBoor (clampedKnot c k) c k i 0 = 0 := by
      intro i hi
      by_cases hik : i ≤ k
      · have := hz i (by omega)
        rw [fpbspl_cox hm hcc hs k i le_rfl hik] at this
        simpa using this
      · exact cox_zero hm hcc hs k i (Or.inl (by omega))
    have hpos : 0 < cv.length := by omega
    have sumf : ∀ f : Pt → ℝ, ∑ i : Fin cv.length, coxDeBoor (clampedKnot c k) c k i 0 * f cv[i] = f cv[0] := by
      intro f
      rw [Finset.sum_eq_single ⟨0, hpos⟩]
      · simp [h1]
      · intro i _ hi
        rw [h2 i (fun h => hi (Fin.ext h)), zero_mul]
      · simp
    rw [List.head?_eq_getElem?, List.getElem?_eq_getElem hpos]
    congr 1
    unfold bsplinePoint
    rw [sumf Prod.fst, sumf Prod.snd]
  · rw [List.getLast?_map, linspaceN_last hn, Option.map_some]
    have hs : InSpan (clampedKnot c k) c (c - 1) ((c : ℝ) - k) :=
      ⟨by omega, by rw [clampedKnot_mid (by omega) (by omega), Nat.cast_sub (by omega)]; push_cast; linarith,
        Or.inr ⟨by rw [clampedKnot_ge hk le_rfl], by omega⟩⟩
    have e1 : c - 1 + 1 = c := by omega
    have hlt : clampedKnot c k (c - 1) < clampedKnot c k (c - 1 + 1) := by
      rw [e1, clampedKnot_ge hk le_rfl, clampedKnot_mid (by omega) (by omega), Nat.cast_sub (by omega)]
      push_cast; linarith
    have hsum := fpbspl_sum hm (x := (c : ℝ) - k) hlt k (by omega)
    have hz : ∀ i, i < k → fpbspl (clampedKnot c k) (c - 1) ((c : ℝ) - k) k i = 0 :=
      fun i hi => fpbspl_right (fun i hi => clampedKnot_ge hk (by omega)) k i hi
    have h1 : coxDeBoor (clampedKnot c k) c k (c - 1) ((c : ℝ) - k) = 1 := by
      rw [Finset.sum_eq_single k (fun i hi hik => hz i (by rw [Finset.mem_range] at hi; omega)) (by simp),
        fpbspl_cox hm hcc hs k k (by omega) le_rfl] at hsum
      simpa using hsum
    have h2 : ∀ i, i < c - 1 → coxDeBoor (clampedKnot c k) c k i ((c : ℝ) - k) = 0 := by
      intro i hi
      by_cases hik : i + k < c - 1
      · exact cox_zero hm hcc hs k i (Or.inr hik)
      · have := hz (i + k - (c - 1)) (by omega)
        rw [fpbspl_cox hm hcc hs k _ (by omega) (by omega)] at this
        have e : c - 1 + (i + k - (c - 1)) - k = i := by omega
        rwa [e] at this
    have hpos : cv.length - 1 < cv.length := by omega
    have sumf : ∀ f : Pt → ℝ, ∑ i : Fin cv.length, coxDeBoor (clampedKnot c k) c k i ((c : ℝ) - k) * f cv[i] =
        f cv[cv.length - 1] := by
      intro f
      rw [Finset.sum_eq_single ⟨cv.length - 1, hpos⟩]
      · simp only [Fin.getElem_fin]
        have h1' : coxDeBoor (clampedKnot c k) c k (cv.length - 1) ((c : ℝ) - k) = 1 := h1
        rw [h1', one_mul]
      · intro i _ hi
        rw [h2 i (by have := i.2; have : (i : Nat) ≠ cv.length - 1 := fun h => hi (Fin.ext h); omega), zero_mul]
      · simp
    rw [List.getLast?_eq_getElem?, List.getElem?_eq_getElem hpos]
    congr 1
    unfold bsplinePoint
    rw [sumf Prod.fst, sumf Prod.snd]

/-- **C34** argument errors: a degree below 0 or above 5 and a negative number of points are refused with `ValueError`. -/
theorem C34_errors (cv : List Pt) (n k : Int) :
    (k < 0 ∨ 5 < k → scipyBspline cv n k = .error .valueError) ∧
    (n < 0 → scipyBspline cv n k = .error .valueError) := by
  constructor
  · intro h
    simp [scipyBspline, bind, Except.bind, throw, throwThe, MonadExceptOf.throw, h]
  · intro h
    by_cases hk : k < 0 ∨ 5 < k
    · simp [scipyBspline, bind, Except.bind, throw, throwThe, MonadExceptOf.throw, hk]
    · simp [scipyBspline, bind, Except.bind, pure, Except.pure, hk, linspace, h]

/-- Non-vacuity: a cubic with five control points. -/
example : ∃ out, scipyBspline [(0, 0), (1, 2), (2, 2), (3, 1), (4, 0)] 100 3 = .ok out ∧ out.length = 100 ∧
    out.head? = some (0, 0) ∧ out.getLast? = some (4, 0) := by
  obtain ⟨out, h, hl, _⟩ := C34_curve [(0, 0), (1, 2), (2, 2), (3, 1), (4, 0)] 100 3 (by simp) (by norm_num)
  obtain ⟨a, b⟩ := C34_end_points _ 100 3 (by norm_num) (by simp) (by norm_num) out h
  exact ⟨out, h, hl, a, b⟩

end BladeX
