import Verif.Spec.Polygon
import Verif.Lemmas.Lists
import Mathlib.Tactic.Linarith
import Mathlib.Tactic.FieldSimp
import Mathlib.Tactic.Ring
import Mathlib.Tactic.NormNum
import Mathlib.Tactic.LinearCombination

/-! # C63, C65: the helper functions of the generic reverse propeller -/

namespace BladeX
noncomputable section
open Spec Classical Polygon

namespace Polygon

theorem foldl_min (key : Pt → ℝ) : ∀ (l : List Pt) (p : Pt), ∀ r ∈ p :: l,
    key (l.foldl (fun best q => if key q < key best then q else best) p) ≤ key r := by
  intro l
  induction l with
  | nil => intro p r hr; simp at hr; subst hr; exact le_rfl
  | cons q l ih =>
    intro p r hr
    simp only [List.foldl_cons]
    have h0 := ih (if key q < key p then q else p)
    have hb := h0 _ (List.mem_cons_self)
    rcases List.mem_cons.1 hr with rfl | hr
    · split_ifs at hb ⊢ with h
      · exact hb.trans h.le
      · exact hb
    rcases List.mem_cons.1 hr with rfl | hr
    · split_ifs at hb ⊢ with h
      · exact hb
      · exact hb.trans (not_lt.1 h)
    · exact h0 r (List.mem_cons_of_mem _ hr)

theorem pyMin_le {key : Pt → ℝ} {l : List Pt} {q : Pt} (h : pyMin key l = some q) : ∀ r ∈ l, key q ≤ key r := by
  cases l with
  | nil => simp [pyMin] at h
  | cons p l =>
    simp only [pyMin, Option.some.injEq] at h
    rw [← h]
    exact foldl_min key l p

theorem pyMin_none {key : Pt → ℝ} {l : List Pt} (h : pyMin key l = none) : l = [] := by
  cases l with
  | nil => rfl
  | cons p l => simp [pyMin] at h

theorem pathLoop_perm : ∀ (n : Nat) (rest : List Pt) (last : Pt), rest.length = n → (pathLoop last rest).Perm rest := by
  intro n
  induction n with
  | zero =>
    intro rest last h
    obtain rfl := List.length_eq_zero_iff.1 h
    rw [pathLoop]
    rfl
  | succ n ih =>
    intro rest last h
    rw [pathLoop]
    split
    · rename_i h0
      rw [pyMin_none h0]
    · rename_i q hq
      have hm := pyMin_mem hq
      have hl : (rest.erase q).length = n := by rw [List.length_erase_of_mem hm, h]; rfl
      exact ((ih _ q hl).cons q).trans (List.perm_cons_erase hm).symm

theorem pathLoop_greedy : ∀ (n : Nat) (rest : List Pt) (last : Pt), rest.length = n →
    ∀ (i : Nat) (a b : Pt), (last :: pathLoop last rest)[i]? = some a → (last :: pathLoop last rest)[i + 1]? = some b →
      ∀ c ∈ (last :: pathLoop last rest).drop (i + 1), distance a b ≤ distance a c := by
  intro n
  induction n with
  | zero =>
    intro rest last h i a b ha hb c hc
    obtain rfl := List.length_eq_zero_iff.1 h
    have : pathLoop last [] = [] := by rw [pathLoop]; rfl
    rw [this] at hb
    simp at hb
  | succ n ih =>
    intro rest last h i a b ha hb c hc
    have hperm := pathLoop_perm (n + 1) rest last h
    rcases hq : pyMin (fun x => distance last x) rest with _ | q
    · rw [pyMin_none hq] at h; simp at h
    have hm := pyMin_mem hq
    have hl : (rest.erase q).length = n := by rw [List.length_erase_of_mem hm, h]; rfl
    have hu : pathLoop last rest = q :: pathLoop q (rest.erase q) := by
      conv_lhs => rw [pathLoop]
      split
      · rename_i h0; rw [hq] at h0; cases h0
      · rename_i q' h0; rw [hq] at h0; obtain rfl := Option.some.inj h0; rfl
    cases i with
    | zero =>
      simp only [List.getElem?_cons_zero, Option.some.injEq] at ha
      subst ha
      rw [hu] at hb
      simp only [Nat.zero_add, List.getElem?_cons_succ, List.getElem?_cons_zero, Option.some.injEq] at hb
      subst hb
      simp only [Nat.zero_add, List.drop_succ_cons, List.drop_zero] at hc
      exact pyMin_le hq c (hperm.mem_iff.1 hc)
    | succ i =>
      rw [hu] at ha hb hc
      simp only [List.getElem?_cons_succ, List.drop_succ_cons] at ha hb hc
      exact ih (rest.erase q) q hl i a b (by simpa using ha) (by simpa using hb) c (by simpa using hc)

end Polygon

/-- **C65** `optimized_path` from a point of the list (or from its first point) returns every point of the list exactly once, beginning with
the start, each next point being a nearest one among those still to come; afterwards the caller's list is empty. -/
theorem C65_path (coords : List Pt) (start : Option Pt) (s : Pt) (hs : s ∈ coords)
    (hstart : start = some s ∨ start = none ∧ coords.head? = some s) :
    ∃ path, optimizedPath coords start = ([], .ok path) ∧ path.Perm coords ∧ path.head? = some s ∧
      ∀ (i : Nat) (a b : Pt), path[i]? = some a → path[i + 1]? = some b → ∀ c ∈ path.drop (i + 1), dist2 a b ≤ dist2 a c := by
  refine ⟨s :: pathLoop s (coords.erase s), ?_, ?_, rfl, ?_⟩
  · unfold optimizedPath
    rcases hstart with rfl | ⟨rfl, h⟩
    · simp [hs]
    · simp [h, hs]
  · exact ((pathLoop_perm _ _ s rfl).cons s).trans (List.perm_cons_erase hs).symm
  · intro i a b ha hb c hc
    exact pathLoop_greedy _ _ s rfl i a b ha hb c hc

/-- **C65** without start an empty list raises `IndexError`, a start that is not in the list raises `ValueError`; both leave the caller's list
as it was. -/
theorem C65_refused (coords : List Pt) (s : Pt) :
    optimizedPath [] none = ([], .error .indexError) ∧
    (s ∉ coords → optimizedPath coords (some s) = (coords, .error .valueError)) := by
  constructor
  · rfl
  · intro h
    simp [optimizedPath, h]

example : ∃ path, optimizedPath [(0, 0), (3, 0), (1, 0), (1, 0)] none = ([], .ok path) ∧ path = [(0, 0), (1, 0), (1, 0), (3, 0)] := by
  obtain ⟨path, h1, h2, h3, h4⟩ := C65_path [(0, 0), (3, 0), (1, 0), (1, 0)] none (0, 0) (by simp) (Or.inr ⟨rfl, rfl⟩)
  refine ⟨path, h1, ?_⟩
  have hlen := h2.length_eq
  match path, hlen with
  | [a, b, c, d], _ =>
    simp only [List.head?_cons, Option.some.injEq] at h3
    subst h3
    have g := (List.perm_cons _).1 h2
    have e0 := h4 0 _ _ rfl rfl
    have e1 := h4 1 _ _ rfl rfl
    have d1 : dist2 (0, 0) (1, 0) = 1 := by norm_num [dist2]
    have d3 : dist2 (0, 0) (3, 0) = 3 := by
      rw [dist2, show ((0 : ℝ) - 3) ^ 2 + (0 - 0) ^ 2 = 3 ^ 2 by norm_num]; exact Real.sqrt_sq (by norm_num)
    have mb : b = (3, 0) ∨ b = (1, 0) := by
      have : b ∈ [((3 : ℝ), (0 : ℝ)), (1, 0), (1, 0)] := g.mem_iff.1 (by simp)
      simpa using this
    have hb : b = (1, 0) := by
      rcases mb with rfl | h
      · have : ((1 : ℝ), (0 : ℝ)) ∈ [((3 : ℝ), (0 : ℝ)), c, d] := g.mem_iff.2 (by simp)
        have := e0 (1, 0) (by simpa using this)
        rw [d1, d3] at this; norm_num at this
      · exact h
    subst hb
    have g' : [c, d].Perm [((3 : ℝ), (0 : ℝ)), (1, 0)] := (List.perm_cons ((1 : ℝ), (0 : ℝ))).1 (g.trans (List.Perm.swap _ _ _))
    have mc : c = (3, 0) ∨ c = (1, 0) := by
      have : c ∈ [((3 : ℝ), (0 : ℝ)), (1, 0)] := g'.mem_iff.1 (by simp)
      simpa using this
    have hc : c = (1, 0) := by
      rcases mc with rfl | h
      · have hd := List.perm_singleton.1 ((List.perm_cons _).1 g').symm
        simp only [List.cons.injEq, and_true] at hd
        have := e1 (1, 0) (by simp [hd])
        rw [show dist2 (1, 0) (1, 0) = 0 by norm_num [dist2], show dist2 (1, 0) (3, 0) = 2 by
          rw [dist2, show ((1 : ℝ) - 3) ^ 2 + (0 - 0) ^ 2 = 2 ^ 2 by norm_num]; exact Real.sqrt_sq (by norm_num)] at this
        norm_num at this
      · exact h
    subst hc
    have g'' : [d].Perm [((3 : ℝ), (0 : ℝ))] := (List.perm_cons ((1 : ℝ), (0 : ℝ))).1 (g'.trans (List.Perm.swap _ _ _))
    have hd := List.perm_singleton.1 g''
    simp only [List.cons.injEq, and_true] at hd
    rw [hd]

end
end BladeX
