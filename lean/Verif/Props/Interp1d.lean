import Verif.Lemmas.Interp1d
import Verif.Props.ReverseShape

/-! # C115: the cubic interpolation of the reverse propellers -/

namespace BladeX
noncomputable section
open Classical Spec

/-- **C115** `interp1d(x, y, kind='cubic')` succeeds exactly with four or more points at different abscissae, otherwise it raises `ValueError`; the order of
the points is immaterial. -/
theorem C115_defined (l : List Pt) :
    ((∃ f, interp1d l = .ok f) ↔ 4 ≤ l.length ∧ (l.map Prod.fst).Nodup) ∧ ((¬ ∃ f, interp1d l = .ok f) → interp1d l = .error .valueError) ∧
    ∀ l', l.Perm l' → interp1d l' = interp1d l := by
  refine ⟨?_, ?_, fun l' h => (interp1d_perm h).symm⟩
  · rw [interp1d_def]
    by_cases h : 4 ≤ l.length ∧ Incr (l.mergeSort lexX)
    · rw [if_pos h]; exact ⟨fun _ => ⟨h.1, (incr_sort_iff l).1 h.2⟩, fun _ => ⟨_, rfl⟩⟩
    · rw [if_neg h]
      constructor
      · rintro ⟨f, hf⟩; cases hf
      · exact fun hh => absurd ⟨hh.1, (incr_sort_iff l).2 hh.2⟩ h
  · intro hn
    rw [interp1d_def] at hn ⊢
    by_cases h : 4 ≤ l.length ∧ Incr (l.mergeSort lexX)
    · rw [if_pos h] at hn; exact absurd ⟨_, rfl⟩ hn
    · rw [if_neg h]

/-- **C115** its result is the only not-a-knot cubic spline through the points, taken in the order of their abscissae; in particular it has the given values. -/
theorem C115_spline (l : List Pt) (f : ℝ → ℝ) (h : interp1d l = .ok f) :
    (∃ s : List Pt, s.Perm l ∧ (s.Pairwise fun p q => p.1 < q.1) ∧ IsSpline s f) ∧
    (∀ (s : List Pt) (g : ℝ → ℝ), s.Perm l → (s.Pairwise fun p q => p.1 < q.1) → IsSpline s g → g = f) ∧ ∀ p ∈ l, f p.1 = p.2 := by
  obtain ⟨s, hs, hI, h4, hf⟩ := interp1d_ok h
  refine ⟨⟨s, hs, hI, hf⟩, ?_, fun p hp => hf.interpolates hI p (hs.mem_iff.2 hp)⟩
  intro s' g hs' hI' hg
  obtain rfl := Incr.eq_of_perm hI hI' (hs.trans hs'.symm)
  exact hg.unique hI hf

/-- **C115** points of a polynomial of degree three or less give this polynomial. -/
theorem C115_cubic (l : List Pt) (f : ℝ → ℝ) (h : interp1d l = .ok f) (c : Cubic) (hc : ∀ p ∈ l, p.2 = c.eval p.1) : f = c.eval := by
  obtain ⟨s, hs, hI, h4, hf⟩ := interp1d_ok h
  refine hf.unique hI ⟨s.length - 4, fun _ => c, by omega, ⟨?_, ?_, fun _ _ => rfl, fun _ _ => rfl, rfl, rfl⟩, fun _ _ _ _ _ => rfl, fun _ _ => rfl,
    fun _ _ => rfl⟩
  · intro i hi
    rw [List.getD_eq_getElem _ _ (by omega)]
    exact (hc _ (hs.mem_iff.1 (List.getElem_mem _))).symm
  · intro i hi
    rw [List.getD_eq_getElem _ _ (by omega)]
    exact (hc _ (hs.mem_iff.1 (List.getElem_mem _))).symm

/-- **C115** the interpolation is linear in the ordinates. -/
theorem C115_linear (l : List (ℝ × ℝ × ℝ)) (a b : ℝ) (f g : ℝ → ℝ) (hf : interp1d (l.map fun q => (q.1, q.2.1)) = .ok f)
    (hg : interp1d (l.map fun q => (q.1, q.2.2)) = .ok g) :
    interp1d (l.map fun q => (q.1, a * q.2.1 + b * q.2.2)) = .ok fun t => a * f t + b * g t := by
  let L := l.mergeSort fun p q => decide (p.1 ≤ q.1)
  have hL : L.Perm l := List.mergeSort_perm l _
  have hord : L.Pairwise fun p q => p.1 ≤ q.1 := by
    have := List.pairwise_mergeSort (le := fun p q : ℝ × ℝ × ℝ => decide (p.1 ≤ q.1))
      (fun a b c h1 h2 => by simp only [decide_eq_true_eq] at *; exact h1.trans h2)
      (fun a b => by simp only [Bool.or_eq_true, decide_eq_true_eq]; exact le_total _ _) l
    exact this.imp fun h => by simpa using h
  obtain ⟨h4, hnd⟩ := (C115_defined _).1.1 ⟨f, hf⟩
  rw [List.map_map, List.length_map] at *
  have hnd' : (L.map fun q => q.1).Nodup := (hL.map _).nodup_iff.2 hnd
  have hI : ∀ F : ℝ × ℝ × ℝ → ℝ, Incr (L.map fun q => (q.1, F q)) := by
    intro F
    refine List.pairwise_map.2 ?_
    rw [List.Nodup, List.pairwise_map] at hnd'
    exact (List.Pairwise.and hord hnd').imp fun h => lt_of_le_of_ne h.1 h.2
  have hlen : L.length = l.length := hL.length_eq
  have get : ∀ (F : ℝ × ℝ × ℝ → ℝ), ∃ k, interp1d (l.map fun q => (q.1, F q)) = .ok k ∧ IsSpline (L.map fun q => (q.1, F q)) k := by
    intro F
    obtain ⟨k, h1, h2⟩ := interp1d_incr (by rw [List.length_map, hlen]; exact h4) (hI F)
    exact ⟨k, (interp1d_perm (hL.map _)).symm.trans h1, h2⟩
  obtain ⟨f', e1, s1⟩ := get fun q => q.2.1
  obtain rfl := Except.ok.inj (hf.symm.trans e1)
  obtain ⟨g', e2, s2⟩ := get fun q => q.2.2
  obtain rfl := Except.ok.inj (hg.symm.trans e2)
  obtain ⟨k, e3, s3⟩ := get fun q => a * q.2.1 + b * q.2.2
  rw [e3]
  refine congrArg Except.ok (s3.unique (hI _) ?_)
  obtain ⟨m, p, m1, hp, p1, p2, p3⟩ := s1
  obtain ⟨m', q, m2, hq, q1, q2, q3⟩ := s2
  rw [List.length_map] at m1 m2
  obtain rfl : m = m' := by omega
  let r : Nat → Cubic := fun i => ⟨a * (p i).a + b * (q i).a, a * (p i).b + b * (q i).b, a * (p i).c + b * (q i).c, a * (p i).d + b * (q i).d⟩
  have rev : ∀ i t, (r i).eval t = a * (p i).eval t + b * (q i).eval t := fun i t => by simp only [r, Cubic.eval]; ring
  have rsl : ∀ i t, (r i).slope t = a * (p i).slope t + b * (q i).slope t := fun i t => by simp only [r, Cubic.slope]; ring
  have rbe : ∀ i t, (r i).bend t = a * (p i).bend t + b * (q i).bend t := fun i t => by simp only [r, Cubic.bend]; ring
  have gx : ∀ (F : ℝ × ℝ × ℝ → ℝ) i, i ≤ m + 3 → ((L.map fun q => (q.1, F q)).getD i (0, 0)) = ((L.getD i 0).1, F (L.getD i 0)) := by
    intro F i hi
    rw [List.getD_eq_getElem _ _ (by rw [List.length_map]; omega), List.getElem_map, List.getD_eq_getElem _ _ (by omega)]
  refine ⟨m, r, by rw [List.length_map, m1], ⟨?_, ?_, ?_, ?_, ?_, ?_⟩, ?_, ?_, ?_⟩
  · intro i hi
    have h1 := hp.left i hi
    have h2 := hq.left i hi
    simp only [gx _ i (show i ≤ m + 3 by omega)] at h1 h2 ⊢
    rw [rev, h1, h2]
  · intro i hi
    have h1 := hp.right i hi
    have h2 := hq.right i hi
    simp only [gx _ (i + 1) (show i + 1 ≤ m + 3 by omega)] at h1 h2 ⊢
    rw [rev, h1, h2]
  · intro i hi
    have h1 := hp.slope i hi
    have h2 := hq.slope i hi
    simp only [gx _ (i + 1) (show i + 1 ≤ m + 3 by omega)] at h1 h2 ⊢
    rw [rsl, rsl, h1, h2]
  · intro i hi
    have h1 := hp.bend i hi
    have h2 := hq.bend i hi
    simp only [gx _ (i + 1) (show i + 1 ≤ m + 3 by omega)] at h1 h2 ⊢
    rw [rbe, rbe, h1, h2]
  · simp only [r, hp.first, hq.first]
  · simp only [r, hp.last, hq.last]
  · intro i hi t h1 h2
    rw [gx _ i (by omega)] at h1
    rw [gx _ (i + 1) (by omega)] at h2
    show a * f t + b * g t = _
    rw [rev, p1 i hi t (by rw [gx _ i (by omega)]; exact h1) (by rw [gx _ (i + 1) (by omega)]; exact h2),
      q1 i hi t (by rw [gx _ i (by omega)]; exact h1) (by rw [gx _ (i + 1) (by omega)]; exact h2)]
  · intro t h1
    rw [gx _ 0 (by omega)] at h1
    show a * f t + b * g t = _
    rw [rev, p2 t (by rw [gx _ 0 (by omega)]; exact h1), q2 t (by rw [gx _ 0 (by omega)]; exact h1)]
  · intro t h1
    rw [gx _ (m + 3) (by omega)] at h1
    show a * f t + b * g t = _
    rw [rev, p3 t (by rw [gx _ (m + 3) (by omega)]; exact h1), q3 t (by rw [gx _ (m + 3) (by omega)]; exact h1)]

/-- **C115** points of a function whose second derivative is bounded by `K`: with gaps of at most `w` between neighbouring abscissae, the first and the last gap at most
`ρ` times their neighbours, the interpolation departs from the function by at most `(2 + 3 ρ) / 4 · K · w²` between the points. -/
theorem C115_accuracy (l : List Pt) (hI : l.Pairwise fun p q => p.1 < q.1) (f g : ℝ → ℝ) (hf : interp1d l = .ok f) (K a b w ρ : ℝ)
    (hg : BendBy K a b g) (hab : ∀ p ∈ l, a ≤ p.1 ∧ p.1 ≤ b) (hl : ∀ p ∈ l, p.2 = g p.1)
    (hgap : ∀ (i : Nat) p q, l[i]? = some p → l[i + 1]? = some q → q.1 - p.1 ≤ w) (hρ : 0 ≤ ρ)
    (hfirst : ∀ p q r, l[0]? = some p → l[1]? = some q → l[2]? = some r → q.1 - p.1 ≤ ρ * (r.1 - q.1))
    (hlast : ∀ p q r, l[l.length - 3]? = some p → l[l.length - 2]? = some q → l[l.length - 1]? = some r → r.1 - q.1 ≤ ρ * (q.1 - p.1)) :
    ∀ p ∈ l, ∀ q ∈ l, ∀ t, p.1 ≤ t → t ≤ q.1 → |f t - g t| ≤ (2 + 3 * ρ) / 4 * K * w ^ 2 := by
  obtain ⟨h4, hnd⟩ := (C115_defined _).1.1 ⟨f, hf⟩
  obtain ⟨f', e, hs⟩ := interp1d_incr h4 hI
  obtain rfl := Except.ok.inj (hf.symm.trans e)
  obtain ⟨m, p, hm, hp, p1, p2, p3⟩ := hs
  have gd : ∀ i ≤ m + 3, l[i]? = some (l.getD i (0, 0)) := by
    intro i hi
    rw [List.getD_eq_getElem _ _ (by omega), List.getElem?_eq_getElem (by omega)]
  have mem : ∀ i ≤ m + 3, l.getD i (0, 0) ∈ l := fun i hi => List.mem_of_getElem? (gd i hi)
  have hx := Incr.nodes hI hm
  have hgl : BendBy K (l.getD 0 (0, 0)).1 (l.getD (m + 3) (0, 0)).1 g := hg.mono (hab _ (mem 0 (by omega))).1 (hab _ (mem (m + 3) le_rfl)).2
  have hK := hgl.nonneg ((hx 0 (by omega)).trans_le (nodes_mono (m := m) (x := fun i => (l.getD i (0, 0)).1) hx (show 1 ≤ m + 3 by omega) le_rfl))
  have acc := hp.accuracy hx hgl (fun i hi => hl _ (mem i hi)) hρ
    (hfirst _ _ _ (gd 0 (by omega)) (gd 1 (by omega)) (gd 2 (by omega)))
    (hlast _ _ _ (by rw [show l.length - 3 = m + 1 by omega]; exact gd _ (by omega)) (by rw [show l.length - 2 = m + 2 by omega]; exact gd _ (by omega))
      (by rw [show l.length - 1 = m + 3 by omega]; exact gd _ (by omega)))
  have inner : ∀ i < m + 3, ∀ t, (l.getD i (0, 0)).1 ≤ t → t ≤ (l.getD (i + 1) (0, 0)).1 → |f t - g t| ≤ (2 + 3 * ρ) / 4 * K * w ^ 2 := by
    intro i hi t h1 h2
    rw [p1 i hi t h1 h2]
    refine (acc i hi t ⟨h1, h2⟩).trans ?_
    have hw := hgap i _ _ (gd i (by omega)) (gd (i + 1) (by omega))
    have hpos := hx i hi
    have hsq : ((l.getD (i + 1) (0, 0)).1 - (l.getD i (0, 0)).1) ^ 2 ≤ w ^ 2 := by
      apply pow_le_pow_left₀ (by linarith) hw
    have hc : (if i = 0 ∨ i = m + 2 then (2 + 3 * ρ) / 4 else 1 / 2) ≤ (2 + 3 * ρ) / 4 := by
      split_ifs
      · exact le_rfl
      · linarith
    have hc0 : 0 ≤ (2 + 3 * ρ) / 4 * K := mul_nonneg (by linarith) hK
    calc _ ≤ (2 + 3 * ρ) / 4 * K * ((l.getD (i + 1) (0, 0)).1 - (l.getD i (0, 0)).1) ^ 2 :=
          mul_le_mul_of_nonneg_right (mul_le_mul_of_nonneg_right hc hK) (sq_nonneg _)
      _ ≤ _ := mul_le_mul_of_nonneg_left hsq hc0
  intro P hP Q hQ t h1 h2
  have ends : (l.getD 0 (0, 0)).1 ≤ t ∧ t ≤ (l.getD (m + 3) (0, 0)).1 := by
    obtain ⟨i, hi, rfl⟩ := List.getElem_of_mem hP
    obtain ⟨j, hj, rfl⟩ := List.getElem_of_mem hQ
    rw [← List.getD_eq_getElem l (0, 0)] at h1 h2
    exact ⟨(nodes_mono (m := m) (x := fun i => (l.getD i (0, 0)).1) hx (Nat.zero_le i) (by omega)).trans h1,
      h2.trans (nodes_mono (m := m) (x := fun i => (l.getD i (0, 0)).1) hx (show j ≤ m + 3 by omega) le_rfl)⟩
  rcases locate (m := m) (x := fun i => (l.getD i (0, 0)).1) t with ht | ⟨i, hi, h1, h2⟩ | ht
  · exact inner 0 (by omega) t ends.1 (ht.trans (hx 0 (by omega)).le)
  · exact inner i hi t h1 h2
  · exact inner (m + 2) (by omega) t ((hx (m + 2) (by omega)).le.trans ht) ends.2

/-- Five points of a cubic polynomial, given in no particular order: the interpolation exists and is that polynomial (C115_defined, C115_spline, C115_cubic, C115_linear,
C115_accuracy). -/
example : ∃ f, interp1d [(2, 8), (0, 0), (4, 64), (3, 27), (1, 1)] = .ok f ∧ f (1 / 2) = 1 / 8 := by
  obtain ⟨f, hf⟩ := (C115_defined [(2, 8), (0, 0), (4, 64), (3, 27), (1, 1)]).1.2 ⟨by simp, by norm_num⟩
  refine ⟨f, hf, ?_⟩
  rw [C115_cubic _ f hf ⟨0, 0, 0, 1⟩ (by
    intro p hp
    simp only [List.mem_cons, List.not_mem_nil, or_false] at hp
    rcases hp with rfl | rfl | rfl | rfl | rfl <;> norm_num [Cubic.eval])]
  norm_num [Cubic.eval]

/-- Three points, or two points at the same abscissa, are refused. -/
example : interp1d [(0, 0), (1, 1), (2, 4)] = .error .valueError ∧ interp1d [(0, 0), (1, 1), (2, 4), (3, 9), (1, 2)] = .error .valueError := by
  constructor
  · refine (C115_defined _).2.1 fun h => ?_
    have := ((C115_defined _).1.1 h).1
    simp at this
  · refine (C115_defined _).2.1 fun h => ?_
    have := ((C115_defined _).1.1 h).2
    norm_num at this

/-- Equidistant points of a parabola meet the hypotheses of C115_accuracy. -/
example : BendBy 2 0 4 (fun t => t ^ 2) ∧ ([(0, 0), (1, 1), (2, 4), (3, 9), (4, 16)] : List Pt).Pairwise (fun p q => p.1 < q.1) ∧
    ∃ f, interp1d [(0, 0), (1, 1), (2, 4), (3, 9), (4, 16)] = .ok f := by
  refine ⟨fun x _ => ⟨2 * x, fun t _ => ?_⟩, by norm_num, (C115_defined _).1.2 ⟨by simp, by norm_num⟩⟩
  rw [show t ^ 2 - x ^ 2 - 2 * x * (t - x) = (t - x) ^ 2 by ring, abs_of_nonneg (sq_nonneg _)]
  linarith

end
end BladeX
