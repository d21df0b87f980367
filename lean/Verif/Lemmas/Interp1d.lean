import Verif.Model.Interp1d
import Verif.Lemmas.CubicSpline
import Mathlib.Data.List.GetD

/-! # Lemmas about the cubic `interp1d` -/

namespace BladeX
noncomputable section
open Classical Spec

/-- Strictly increasing abscissae. -/
abbrev Incr (l : List Pt) : Prop := l.Pairwise fun p q => p.1 < q.1

theorem Incr.nodes {l : List Pt} (h : Incr l) {m : Nat} (hl : l.length = m + 4) :
    ∀ i < m + 3, (l.getD i (0, 0)).1 < (l.getD (i + 1) (0, 0)).1 := by
  intro i hi
  rw [List.getD_eq_getElem _ _ (by omega), List.getD_eq_getElem _ _ (by omega)]
  exact List.pairwise_iff_getElem.1 h i (i + 1) (by omega) (by omega) (by omega)

/-- The function made of pieces. -/
def glue (m : Nat) (x : Nat → ℝ) (p : Nat → Cubic) (t : ℝ) : ℝ :=
  if h : ∃ i, i < m + 3 ∧ t ≤ x (i + 1) then (p (Nat.find h)).eval t else (p (m + 2)).eval t

theorem glue_spec {m : Nat} {x y : Nat → ℝ} {p : Nat → Cubic} (H : NotAKnot m x y p) (hx : ∀ i < m + 3, x i < x (i + 1)) :
    (∀ i < m + 3, ∀ t, x i ≤ t → t ≤ x (i + 1) → glue m x p t = (p i).eval t) ∧ (∀ t ≤ x 0, glue m x p t = (p 0).eval t) ∧
      ∀ t, x (m + 3) ≤ t → glue m x p t = (p (m + 2)).eval t := by
  have A : ∀ i < m + 3, ∀ t, x i ≤ t → t ≤ x (i + 1) → glue m x p t = (p i).eval t := by
    intro i hi t h1 h2
    have h : ∃ i, i < m + 3 ∧ t ≤ x (i + 1) := ⟨i, hi, h2⟩
    rw [glue, dif_pos h]
    set k := Nat.find h with hk
    obtain ⟨k1, k2⟩ := Nat.find_spec h
    rw [← hk] at k1 k2
    have hki : k ≤ i := Nat.find_min' h ⟨hi, h2⟩
    rcases hki.eq_or_lt with e | hlt
    · rw [e]
    · have : x (k + 1) ≤ x i := nodes_mono hx (by omega) (by omega)
      have et : t = x (k + 1) := le_antisymm k2 (this.trans h1)
      by_cases hk1 : k + 1 = i
      · subst hk1
        rw [et, H.right k (by omega), H.left (k + 1) hi]
      · have : x (k + 1) < x i := (hx (k + 1) (by omega)).trans_le (nodes_mono hx (by omega) (by omega))
        linarith
  refine ⟨A, ?_, ?_⟩
  · intro t ht
    have h : ∃ i, i < m + 3 ∧ t ≤ x (i + 1) := ⟨0, by omega, ht.trans (hx 0 (by omega)).le⟩
    have : Nat.find h = 0 := by
      rw [Nat.find_eq_zero]; exact ⟨by omega, ht.trans (hx 0 (by omega)).le⟩
    rw [glue, dif_pos h, this]
  · intro t ht
    rcases ht.eq_or_lt with rfl | ht'
    · exact A (m + 2) (by omega) _ (hx (m + 2) (by omega)).le le_rfl
    · have h : ¬ ∃ i, i < m + 3 ∧ t ≤ x (i + 1) := by
        rintro ⟨i, hi, h2⟩
        have := nodes_mono hx (show i + 1 ≤ m + 3 by omega) le_rfl
        linarith
      rw [glue, dif_neg h]

theorem Spec.IsSpline.exists {l : List Pt} (hl : 4 ≤ l.length) (h : Incr l) : ∃ f, IsSpline l f := by
  obtain ⟨m, hm⟩ : ∃ m, l.length = m + 4 := ⟨l.length - 4, by omega⟩
  obtain ⟨p, hp⟩ := NotAKnot.exists (h.nodes hm) fun i => (l.getD i (0, 0)).2
  obtain ⟨a, b, c⟩ := glue_spec hp (h.nodes hm)
  exact ⟨_, m, p, hm, hp, a, b, c⟩

/-- Every number lies before, between or behind the nodes. -/
theorem locate {m : Nat} {x : Nat → ℝ} (t : ℝ) : t ≤ x 0 ∨ (∃ i < m + 3, x i ≤ t ∧ t ≤ x (i + 1)) ∨ x (m + 3) ≤ t := by
  by_cases h0 : t ≤ x 0
  · exact Or.inl h0
  by_cases hl : x (m + 3) ≤ t
  · exact Or.inr (Or.inr hl)
  refine Or.inr (Or.inl ?_)
  have h : ∃ k, t ≤ x k := ⟨m + 3, (not_le.1 hl).le⟩
  have hk : Nat.find h ≠ 0 := fun e => h0 (by have := Nat.find_spec h; rwa [e] at this)
  obtain ⟨i, hi⟩ := Nat.exists_eq_succ_of_ne_zero hk
  have hle : Nat.find h ≤ m + 3 := Nat.find_min' h (not_le.1 hl).le
  refine ⟨i, by omega, ?_, ?_⟩
  · have := Nat.find_min h (show i < Nat.find h by omega)
    exact (not_le.1 this).le
  · have := Nat.find_spec h
    rwa [hi] at this

theorem Spec.IsSpline.unique {l : List Pt} (h : Incr l) {f g : ℝ → ℝ} (hf : IsSpline l f) (hg : IsSpline l g) : f = g := by
  obtain ⟨m, p, hm, hp, a, b, c⟩ := hf
  obtain ⟨m', q, hm', hq, a', b', c'⟩ := hg
  obtain rfl : m = m' := by omega
  have e := hp.unique hq (h.nodes hm)
  funext t
  rcases locate (m := m) (x := fun i => (l.getD i (0, 0)).1) t with ht | ⟨i, hi, h1, h2⟩ | ht
  · rw [b t ht, b' t ht, e 0 (by omega)]
  · rw [a i hi t h1 h2, a' i hi t h1 h2, e i hi]
  · rw [c t ht, c' t ht, e (m + 2) (by omega)]

theorem Spec.IsSpline.interpolates {l : List Pt} (h : Incr l) {f : ℝ → ℝ} (hf : IsSpline l f) : ∀ p ∈ l, f p.1 = p.2 := by
  obtain ⟨m, p, hm, hp, a, b, c⟩ := hf
  intro q hq
  obtain ⟨k, hk, rfl⟩ := List.getElem_of_mem hq
  have hx := h.nodes hm
  by_cases hl : k = m + 3
  · subst hl
    have := a (m + 2) (by omega) _ (hx (m + 2) (by omega)).le le_rfl
    rw [← List.getD_eq_getElem l (0, 0) hk, this]
    exact hp.right (m + 2) (by omega)
  · have := a k (by omega) _ le_rfl (hx k (by omega)).le
    rw [← List.getD_eq_getElem l (0, 0) hk, this]
    exact hp.left k (by omega)

/-- The order of the sort in `interp1d`. -/
def lexX (p q : Pt) : Bool := decide (p.1 ≤ q.1)

theorem sort_pairwise (l : List Pt) : (l.mergeSort lexX).Pairwise fun p q => p.1 ≤ q.1 := by
  have := List.pairwise_mergeSort (le := lexX) (fun a b c h1 h2 => by simp only [lexX, decide_eq_true_eq] at *; exact h1.trans h2)
    (fun a b => by simp only [lexX, Bool.or_eq_true, decide_eq_true_eq]; exact le_total _ _) l
  exact this.imp fun h => by simpa [lexX] using h

theorem interp1d_def (l : List Pt) : interp1d l = if 4 ≤ l.length ∧ Incr (l.mergeSort lexX) then .ok (Classical.epsilon (IsSpline (l.mergeSort lexX)))
    else .error .valueError := by
  have e : interp1d l = if (l.mergeSort lexX).length < 4 then .error .valueError
      else if ∃ i, i + 1 < (l.mergeSort lexX).length ∧ ((l.mergeSort lexX).getD (i + 1) (0, 0)).1 ≤ ((l.mergeSort lexX).getD i (0, 0)).1 then
        .error .valueError
      else .ok (Classical.epsilon (IsSpline (l.mergeSort lexX))) := rfl
  rw [e]
  set s := l.mergeSort lexX with hs
  have hlen : s.length = l.length := List.length_mergeSort l
  by_cases h4 : s.length < 4
  · rw [if_pos h4, if_neg (by rintro ⟨h, _⟩; omega)]
  rw [if_neg h4]
  have key : (∃ i, i + 1 < s.length ∧ (s.getD (i + 1) (0, 0)).1 ≤ (s.getD i (0, 0)).1) ↔ ¬ Incr s := by
    constructor
    · rintro ⟨i, hi, h⟩ hI
      rw [List.getD_eq_getElem _ _ (by omega), List.getD_eq_getElem _ _ (by omega)] at h
      have := List.pairwise_iff_getElem.1 hI i (i + 1) (by omega) (by omega) (by omega)
      linarith
    · intro hI
      by_contra hn
      push Not at hn
      apply hI
      refine List.pairwise_iff_getElem.2 ?_
      intro i j hi hj hij
      have step := hn i (by omega)
      rw [List.getD_eq_getElem _ _ (by omega), List.getD_eq_getElem _ _ (by omega)] at step
      rcases (show i + 1 = j ∨ i + 1 < j by omega) with rfl | hlt
      · exact step
      · exact step.trans_le (List.pairwise_iff_getElem.1 (hs ▸ sort_pairwise l) (i + 1) j (by omega) hj hlt)
  by_cases hI : Incr s
  · rw [if_neg (by rw [key]; exact not_not.2 hI), if_pos ⟨by omega, hI⟩]
  · rw [if_pos (key.2 hI), if_neg (fun h => hI h.2)]

theorem incr_sort_iff (l : List Pt) : Incr (l.mergeSort lexX) ↔ (l.map Prod.fst).Nodup := by
  have hp : (l.mergeSort lexX).Perm l := List.mergeSort_perm l lexX
  rw [← (hp.map Prod.fst).nodup_iff, List.Nodup, List.pairwise_map]
  constructor
  · exact fun h => h.imp fun h => h.ne
  · intro h
    exact (List.Pairwise.and (sort_pairwise l) h).imp fun h => lt_of_le_of_ne h.1 h.2

/-- Two increasing lists with the same points are equal. -/
theorem Incr.eq_of_perm {l l' : List Pt} (h : Incr l) (h' : Incr l') (hp : l.Perm l') : l = l' :=
  hp.eq_of_pairwise (fun a b _ _ h1 h2 => absurd h2 (not_lt.2 h1.le)) h h'

theorem interp1d_perm {l l' : List Pt} (hp : l.Perm l') : interp1d l = interp1d l' := by
  rw [interp1d_def, interp1d_def]
  have hs : (l.mergeSort lexX).Perm (l'.mergeSort lexX) := (List.mergeSort_perm l _).trans (hp.trans (List.mergeSort_perm l' _).symm)
  have hI : Incr (l.mergeSort lexX) ↔ Incr (l'.mergeSort lexX) := by
    rw [incr_sort_iff, incr_sort_iff]; exact (hp.map Prod.fst).nodup_iff
  by_cases h : 4 ≤ l.length ∧ Incr (l.mergeSort lexX)
  · rw [if_pos h, if_pos ⟨by rw [← hp.length_eq]; exact h.1, hI.1 h.2⟩, h.2.eq_of_perm (hI.1 h.2) hs]
  · rw [if_neg h, if_neg (by rw [← hp.length_eq, ← hI]; exact h)]

theorem interp1d_incr {l : List Pt} (hl : 4 ≤ l.length) (h : Incr l) : ∃ f, interp1d l = .ok f ∧ IsSpline l f := by
  have hs : Incr (l.mergeSort lexX) := by
    rw [incr_sort_iff, List.Nodup, List.pairwise_map]; exact h.imp fun h => h.ne
  have e : l.mergeSort lexX = l := hs.eq_of_perm h (List.mergeSort_perm l _)
  refine ⟨_, by rw [interp1d_def, if_pos ⟨hl, hs⟩], ?_⟩
  rw [e]
  exact Classical.epsilon_spec (IsSpline.exists hl h)

theorem interp1d_ok {l : List Pt} {f : ℝ → ℝ} (h : interp1d l = .ok f) : ∃ s, s.Perm l ∧ Incr s ∧ 4 ≤ s.length ∧ IsSpline s f := by
  rw [interp1d_def] at h
  split_ifs at h with hc
  obtain rfl := Except.ok.inj h
  have hlen : 4 ≤ (l.mergeSort lexX).length := by rw [List.length_mergeSort]; exact hc.1
  exact ⟨_, List.mergeSort_perm l _, hc.2, hlen, Classical.epsilon_spec (IsSpline.exists hlen hc.2)⟩

end
end BladeX
