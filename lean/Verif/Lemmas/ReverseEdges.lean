import Verif.Model.ReverseEdges
import Verif.Spec.ReverseEdges

namespace BladeX
noncomputable section
open Classical Spec

namespace Reverse

theorem dist3_eq (p q : Pt3) : dist3 p q = distance3 q p := by
  unfold dist3 distance3 distSq3
  congr 1; ring

theorem dist3_eq' (p q : Pt3) : dist3 p q = distance3 p q := rfl

/-- The loop over the vertices leaves none; the flag tells whether some vertex was close; the point is the last such vertex. -/
theorem searchVertices_spec (near : Pt3) (tol : ℝ) (vs : List Pt3) (pt : Option Pt3) (found : Bool) :
    (searchVertices near tol vs pt found).1 = [] ∧
    ((∃ q, LastWithin near tol vs q ∧ (searchVertices near tol vs pt found).2 = (some q, true)) ∨
     ((∀ v ∈ vs, tol ≤ distance3 near v) ∧ (searchVertices near tol vs pt found).2 = (pt, found))) := by
  induction vs generalizing pt found with
  | nil => simp [searchVertices]
  | cons v vs ih =>
    unfold searchVertices
    split_ifs with h
    · rw [dist3_eq] at h
      obtain ⟨h1, h2⟩ := ih (some v) true
      refine ⟨h1, .inl ?_⟩
      rcases h2 with ⟨q, ⟨i, hi, hd, hl⟩, hq⟩ | ⟨ha, hq⟩
      · refine ⟨q, ⟨i + 1, by simpa using hi, hd, ?_⟩, hq⟩
        intro j w hj hw
        obtain ⟨j, rfl⟩ : ∃ k, j = k + 1 := ⟨j - 1, by omega⟩
        exact hl j w (by omega) (by simpa using hw)
      · refine ⟨v, ⟨0, rfl, h, ?_⟩, hq⟩
        intro j w hj hw
        obtain ⟨j, rfl⟩ : ∃ k, j = k + 1 := ⟨j - 1, by omega⟩
        exact ha w (List.mem_of_getElem? (by simpa using hw))
    · rw [dist3_eq] at h
      obtain ⟨h1, h2⟩ := ih pt found
      refine ⟨h1, ?_⟩
      rcases h2 with ⟨q, ⟨i, hi, hd, hl⟩, hq⟩ | ⟨ha, hq⟩
      · refine .inl ⟨q, ⟨i + 1, by simpa using hi, hd, ?_⟩, hq⟩
        intro j w hj hw
        obtain ⟨j, rfl⟩ : ∃ k, j = k + 1 := ⟨j - 1, by omega⟩
        exact hl j w (by omega) (by simpa using hw)
      · refine .inr ⟨?_, hq⟩
        intro w hw
        rcases List.mem_cons.1 hw with rfl | hw
        · exact not_lt.1 h
        · exact ha w hw

theorem nearestSolution_spec (near : Pt3) (ss : List Pt3) (m : ℝ) (pt : Option Pt3) :
    (∃ q, FirstNearest near m ss q ∧ nearestSolution near ss m pt = some q) ∨
    ((∀ v ∈ ss, m ≤ distance3 near v) ∧ nearestSolution near ss m pt = pt) := by
  induction ss generalizing m pt with
  | nil => simp [nearestSolution]
  | cons s ss ih =>
    unfold nearestSolution
    split_ifs with h
    · rw [dist3_eq'] at h ⊢
      refine .inl ?_
      rcases ih (distance3 near s) (some s) with ⟨q, ⟨i, hi, hd, hm, hf⟩, hq⟩ | ⟨ha, hq⟩
      · refine ⟨q, ⟨i + 1, by simpa using hi, hd.trans h, ?_, ?_⟩, hq⟩
        · intro j v hv
          rcases j with _ | j
          · simp only [List.getElem?_cons_zero, Option.some.injEq] at hv; subst hv; exact hd.le
          · exact hm j v (by simpa using hv)
        · intro j v hj hv
          rcases j with _ | j
          · simp only [List.getElem?_cons_zero, Option.some.injEq] at hv; subst hv; exact hd
          · exact hf j v (by omega) (by simpa using hv)
      · refine ⟨s, ⟨0, rfl, h, ?_, by omega⟩, hq⟩
        intro j v hv
        rcases j with _ | j
        · simp only [List.getElem?_cons_zero, Option.some.injEq] at hv; subst hv; exact le_refl _
        · exact ha v (List.mem_of_getElem? (by simpa using hv))
    · rw [dist3_eq'] at h
      rcases ih m pt with ⟨q, ⟨i, hi, hd, hm, hf⟩, hq⟩ | ⟨ha, hq⟩
      · refine .inl ⟨q, ⟨i + 1, by simpa using hi, hd, ?_, ?_⟩, hq⟩
        · intro j v hv
          rcases j with _ | j
          · simp only [List.getElem?_cons_zero, Option.some.injEq] at hv; subst hv; exact (hd.trans_le (not_lt.1 h)).le
          · exact hm j v (by simpa using hv)
        · intro j v hj hv
          rcases j with _ | j
          · simp only [List.getElem?_cons_zero, Option.some.injEq] at hv; subst hv; exact hd.trans_le (not_lt.1 h)
          · exact hf j v (by omega) (by simpa using hv)
      · refine .inr ⟨?_, hq⟩
        intro v hv
        rcases List.mem_cons.1 hv with rfl | hv
        · exact not_lt.1 h
        · exact ha v hv

/-- At most one point is the last within the tolerance, at most one the first nearest. -/
theorem lastWithin_unique {p q q' : Pt3} {tol : ℝ} {l : List Pt3} (h : LastWithin p tol l q) (h' : LastWithin p tol l q') : q = q' := by
  obtain ⟨i, hi, hd, hl⟩ := h
  obtain ⟨i', hi', hd', hl'⟩ := h'
  rcases lt_trichotomy i i' with h | rfl | h
  · exact absurd hd' (not_lt.2 (hl i' q' h hi'))
  · simpa [hi] using hi'
  · exact absurd hd (not_lt.2 (hl' i q h hi))

theorem firstNearest_unique {p q q' : Pt3} {m : ℝ} {l : List Pt3} (h : FirstNearest p m l q) (h' : FirstNearest p m l q') : q = q' := by
  obtain ⟨i, hi, hd, hm, hf⟩ := h
  obtain ⟨i', hi', hd', hm', hf'⟩ := h'
  rcases lt_trichotomy i i' with h | rfl | h
  · exact absurd (hf' i q h hi) (not_lt.2 (hm i' q' hi'))
  · simpa [hi] using hi'
  · exact absurd (hf i' q' h hi') (not_lt.2 (hm' i q hi))

end Reverse
end
end BladeX
