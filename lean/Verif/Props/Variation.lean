import Verif.Spec.Variation
import Verif.Lemmas.BSplineInsert
import Verif.Props.BSplineShape
import Mathlib.Data.List.NodupEquivFin

/-! # C108: the curves of `scipy_bspline` have no more wiggles than their control points -/

namespace BladeX
noncomputable section
open Spec Classical
namespace BSpline

theorem variation_idx {v : List ℝ} {k n M : Nat} (hk : k < v.length) (q : Nat → Nat) (σ : Nat → ℝ) (hq : ∀ i j, i < j → j < M → q i < q j)
    (hn : ∀ j, j < M → q j < n) (hσ : ∀ j, j + 1 < M → σ j * σ (j + 1) < 0) (hpos : ∀ j, j < M → 0 < σ j * coordAt v k n (q j)) :
    ∃ p : Nat → Nat, (∀ j, j + 1 < M → p j < p (j + 1)) ∧ ∀ j, j < M → p j < v.length ∧ 0 < σ j * v.getD (p j) 0 := by
  have hu : ∀ i j, i < j → j < M → paramAt v.length k n (q i) < paramAt v.length k n (q j) := by
    intro i j hij hj
    have h1 := hq i j hij hj
    have h2 := hn j hj
    have : (q i : ℝ) < q j := by exact_mod_cast h1
    exact mul_lt_mul_of_pos_right this (unit_pos hk (by omega))
  have hex : ∀ j, ∃ l, j < M → InSpan (clampedKnot v.length k) v.length l (paramAt v.length k n (q j)) ∧ k ≤ l ∧
      clampedKnot v.length k l < clampedKnot v.length k (l + 1) := by
    intro j
    by_cases hj : j < M
    · obtain ⟨l, hl⟩ := span_of hk (paramAt_mem hk (hn j hj)).1 (paramAt_mem hk (hn j hj)).2
      exact ⟨l, fun _ => hl⟩
    · exact ⟨0, fun h => absurd h hj⟩
  choose l hl using hex
  exact variation k M _ σ hu hσ _ (clampedKnot v.length k) v.length (fun i => v.getD i 0) l (clampedKnot_mono hk) (clamped_tail hk)
    (fun j hj => ⟨(hl j hj).1, (hl j hj).2.2, (hl j hj).2.1⟩)
    (fun j hj => span_le (clampedKnot_mono hk) (hl j (by omega)).1 (hl (j + 1) hj).1 (hu j (j + 1) (by omega) hj).le)
    le_rfl hpos

theorem alternates_get {l : List ℝ} (h : Alternates l) : ∀ j, j + 1 < l.length → l.getD j 0 * l.getD (j + 1) 0 < 0 := by
  intro j hj
  have := List.isChain_iff_getElem.1 h.2 j hj
  simpa [List.getD_eq_getElem?_getD, hj, show j < l.length by omega] using this

/-- The points at increasing positions `q` of the curve, for any kind of objects. -/
theorem variation_core {A B : Type} {Y : List B} (f : A → ℝ) (g : B → ℝ) {k n : Nat} (hk : k < Y.length) {sub : List A} (q : Nat → Nat)
    (hq : ∀ i j, i < j → j < sub.length → q i < q j) (hn : ∀ j, j < sub.length → q j < n)
    (hval : ∀ j (hj : j < sub.length), f sub[j] = coordAt (Y.map g) k n (q j)) (halt : Alternates (sub.map f)) :
    ∃ sup, sup.Sublist Y ∧ List.Forall₂ (fun a b => 0 < f a * g b) sub sup ∧ Alternates (sup.map g) := by
  have hD : ∀ j (hj : j < sub.length), (sub.map f).getD j 0 = f sub[j] := by
    intro j hj
    simp [List.getD_eq_getElem?_getD, hj]
  have halt' := alternates_get halt
  obtain ⟨p, hp1, hp2⟩ := variation_idx (v := Y.map g) (k := k) (n := n) (M := sub.length) (by simpa using hk)
    q (fun j => (sub.map f).getD j 0) hq hn (fun j hj => halt' j (by simpa using hj))
    (fun j hj => by
      rw [hD j hj, ← hval j hj]
      exact mul_self_pos.2 (halt.1 _ (List.mem_map_of_mem (List.getElem_mem hj))))
  have hp3 : ∀ i j, i < j → j < sub.length → p i < p j := by
    intro i j hij
    induction j with
    | zero => omega
    | succ j ih =>
      intro hj
      rcases Nat.lt_or_ge i j with h | h
      · exact (ih h (by omega)).trans (hp1 j hj)
      · have : i = j := by omega
        rw [this]; exact hp1 j hj
  have hpY : ∀ j, j < sub.length → p j < Y.length := fun j hj => by simpa using (hp2 j hj).1
  have hsign : ∀ j (hj : j < sub.length), 0 < f sub[j] * g (Y[p j]'(hpY j hj)) := by
    intro j hj
    have := (hp2 j hj).2
    rw [hD j hj] at this
    simpa [List.getD_eq_getElem?_getD, hpY j hj] using this
  refine ⟨List.ofFn fun j : Fin sub.length => Y[p j]'(hpY j j.2), ?_, ?_, ?_⟩
  · rw [List.sublist_iff_exists_fin_orderEmbedding_get_eq]
    have hlen : (List.ofFn fun j : Fin sub.length => Y[p j]'(hpY j j.2)).length = sub.length := by simp
    refine ⟨OrderEmbedding.ofStrictMono (fun j => ⟨p j, hpY j (by have := j.2; omega)⟩) ?_, ?_⟩
    · intro i j hij
      exact hp3 i j hij (by have := j.2; omega)
    · intro j
      simp only [List.get_eq_getElem, List.getElem_ofFn]
      rfl
  · rw [List.forall₂_iff_get]
    refine ⟨by simp, ?_⟩
    intro j h1 h2
    simpa using hsign j h1
  · refine ⟨?_, ?_⟩
    · intro a ha
      simp only [List.mem_map, List.mem_ofFn] at ha
      obtain ⟨b, ⟨j, rfl⟩, rfl⟩ := ha
      intro h0
      have := hsign j j.2
      rw [h0, mul_zero] at this
      exact lt_irrefl _ this
    · rw [List.isChain_iff_getElem]
      intro j hj
      have hj' : j + 1 < sub.length := by simpa using hj
      have h1 := hsign j (by omega)
      have h2 := hsign (j + 1) hj'
      have h3 := halt' j (by simpa using hj')
      rw [hD j (by omega), hD (j + 1) hj'] at h3
      simp only [List.getElem_map, List.getElem_ofFn]
      have h4 := mul_pos h1 h2
      by_contra q
      have h5 := mul_nonpos_of_nonpos_of_nonneg h3.le (not_lt.1 q)
      nlinarith

/-- For sequences of any kind of objects. -/
theorem variation_list {A B : Type} {X : List A} {Y : List B} (f : A → ℝ) (g : B → ℝ) {k n : Nat} (hk : k < Y.length)
    (hX : X.map f = (List.range n).map (coordAt (Y.map g) k n)) {sub : List A} (hsub : sub.Sublist X) (halt : Alternates (sub.map f)) :
    ∃ sup, sup.Sublist Y ∧ List.Forall₂ (fun a b => 0 < f a * g b) sub sup ∧ Alternates (sup.map g) := by
  obtain ⟨e, he⟩ := List.sublist_iff_exists_fin_orderEmbedding_get_eq.1 hsub
  have hXn : X.length = n := by simpa using congrArg List.length hX
  have hval : ∀ j (hj : j < sub.length), f sub[j] = coordAt (Y.map g) k n (e ⟨j, hj⟩) := by
    intro j hj
    have h1 := he ⟨j, hj⟩
    simp only [List.get_eq_getElem] at h1
    rw [h1]
    have h2 := (e ⟨j, hj⟩).isLt
    have h3 : (X.map f)[(e ⟨j, hj⟩ : Nat)]'(by simpa using h2) = coordAt (Y.map g) k n (e ⟨j, hj⟩) := by
      simp only [hX, List.getElem_map, List.getElem_range]
    simpa using h3
  exact variation_core (n := n) f g hk (fun j => if hj : j < sub.length then (e ⟨j, hj⟩ : Nat) else 0)
    (fun i j hij hj => by
      rw [dif_pos (by omega), dif_pos hj]
      have : e ⟨i, by omega⟩ < e ⟨j, hj⟩ := e.strictMono (by simpa using hij)
      exact this)
    (fun j hj => by rw [dif_pos hj]; have := (e ⟨j, hj⟩).isLt; omega)
    (fun j hj => by rw [dif_pos hj]; exact hval j hj) halt

/-- For values picked from the curve, not backwards but possibly at the same point. -/
theorem variation_picked {A B : Type} {d : List A} {Y : List B} (f : A → ℝ) (g : B → ℝ) {k n : Nat} (hk : k < Y.length) (J : Nat → Nat)
    (hJ : ∀ i j, i ≤ j → j < d.length → J i ≤ J j) (hn : ∀ i, i < d.length → J i < n)
    (hd : ∀ i (hi : i < d.length), f d[i] = coordAt (Y.map g) k n (J i)) {sub : List A} (hsub : sub.Sublist d)
    (halt : Alternates (sub.map f)) : ∃ sup, sup.Sublist Y ∧ List.Forall₂ (fun a b => 0 < f a * g b) sub sup ∧ Alternates (sup.map g) := by
  obtain ⟨e, he⟩ := List.sublist_iff_exists_fin_orderEmbedding_get_eq.1 hsub
  have hval : ∀ j (hj : j < sub.length), f sub[j] = coordAt (Y.map g) k n (J (e ⟨j, hj⟩)) := by
    intro j hj
    have h1 := he ⟨j, hj⟩
    simp only [List.get_eq_getElem] at h1
    rw [h1, hd]
  obtain ⟨q, hqe⟩ : ∃ q : Nat → Nat, ∀ j (hj : j < sub.length), q j = J (e ⟨j, hj⟩) :=
    ⟨fun j => if hj : j < sub.length then J (e ⟨j, hj⟩) else 0, fun j hj => dif_pos hj⟩
  have step : ∀ j, j + 1 < sub.length → q j < q (j + 1) := by
    intro j hj
    have h1 : e ⟨j, by omega⟩ < e ⟨j + 1, hj⟩ := e.strictMono (by simp)
    have h2 : J (e ⟨j, by omega⟩) ≤ J (e ⟨j + 1, hj⟩) := hJ _ _ (le_of_lt h1) (e ⟨j + 1, hj⟩).isLt
    have h3 := List.isChain_iff_getElem.1 halt.2 j (by simpa using hj)
    simp only [List.getElem_map] at h3
    rw [hqe j (by omega), hqe (j + 1) hj]
    refine lt_of_le_of_ne h2 fun h => ?_
    rw [hval j (by omega), hval (j + 1) hj, h] at h3
    exact absurd h3 (not_lt.2 (mul_self_nonneg _))
  have hq : ∀ i j, i < j → j < sub.length → q i < q j := by
    intro i j hij
    induction j with
    | zero => omega
    | succ j ih =>
      intro hj
      rcases Nat.lt_or_ge i j with h | h
      · exact (ih h (by omega)).trans (step j hj)
      · have : i = j := by omega
        rw [this]; exact step j hj
  exact variation_core f g hk q hq (fun j hj => by rw [hqe j hj]; exact hn _ (e ⟨j, hj⟩).isLt)
    (fun j hj => by rw [hqe j hj]; exact hval j hj) halt

theorem coordAt_side (cv : List Pt) (k n j : Nat) (hk : k < cv.length) (hj : j < n) (α β γ : ℝ) :
    coordAt (cv.map (side α β γ)) k n j = α * coordAt (cv.map Prod.fst) k n j + β * coordAt (cv.map Prod.snd) k n j - γ := by
  have hx := paramAt_mem hk hj
  obtain ⟨l, hs, hkl, hlt⟩ := span_of hk hx.1 hx.2
  have h1 := cox_one (clampedKnot_mono hk) (clamped_tail hk) hs hlt k hkl
  unfold coordAt
  simp only [List.length_map]
  have h2 : γ = ∑ i ∈ Finset.range cv.length, coxDeBoor (clampedKnot cv.length k) cv.length k i (paramAt cv.length k n j) * γ := by
    rw [← Finset.sum_mul, h1, one_mul]
  conv_rhs => rw [h2]
  rw [Finset.mul_sum, Finset.mul_sum, ← Finset.sum_add_distrib, ← Finset.sum_sub_distrib]
  apply Finset.sum_congr rfl
  intro i hi
  rw [Finset.mem_range] at hi
  simp only [List.getD_eq_getElem?_getD, List.getElem?_map, List.getElem?_eq_getElem hi, Option.map_some, Option.getD_some, side]
  ring

theorem side_coords {cv out : List Pt} {n k : Nat} (hk : k < cv.length) (h5 : k ≤ 5) (h : scipyBspline cv n k = .ok out) (α β γ : ℝ) :
    out.map (side α β γ) = (List.range n).map (coordAt (cv.map (side α β γ)) k n) := by
  obtain ⟨e1, e2⟩ := coords_of hk h5 h
  have hl : out.length = n := by simpa using congrArg List.length e1
  apply List.ext_getElem
  · simp [hl]
  · intro j h1 h2
    have hj : j < out.length := by simpa using h1
    have g1 : (out.map Prod.fst)[j]'(by simpa using hj) = coordAt (cv.map Prod.fst) k n j := by simp only [e1, List.getElem_map, List.getElem_range]
    have g2 : (out.map Prod.snd)[j]'(by simpa using hj) = coordAt (cv.map Prod.snd) k n j := by simp only [e2, List.getElem_map, List.getElem_range]
    simp only [List.getElem_map] at g1 g2
    simp only [List.getElem_map, List.getElem_range]
    rw [coordAt_side cv k n j hk (by omega), side, g1, g2]

end BSpline

open BSpline

/-- **C108** whenever some points of the curve, in their order, lie alternately on either side of a line, so do some of the control points, in
their order: as many, and starting on the same side. (So the curve crosses no line more often than its control polygon.) -/
theorem C108_crossings (cv : List Pt) (n k : Nat) (hk : k < cv.length) (h5 : k ≤ 5) (out : List Pt) (h : scipyBspline cv n k = .ok out)
    (α β γ : ℝ) (pts : List Pt) (hs : pts.Sublist out) (ha : Alternates (pts.map (side α β γ))) :
    ∃ ctl, ctl.Sublist cv ∧ ctl.length = pts.length ∧ Alternates (ctl.map (side α β γ)) ∧
      List.Forall₂ (fun P Q => 0 < side α β γ P * side α β γ Q) pts ctl := by
  obtain ⟨sup, h1, h2, h3⟩ := variation_list (side α β γ) (side α β γ) hk (side_coords hk h5 h α β γ) hs ha
  exact ⟨sup, h1, h2.length_eq.symm, h3, h2⟩

/-- **C108** two curves with as many control points, points and the same degree: where their difference in `y` alternates, the difference of
their control points alternates at least as often, starting with the same sign. (So moving the control points cannot make the curve move up
and down more often than the control points do.) -/
theorem C108_deformation (cv cv' : List Pt) (n k : Nat) (hl : cv'.length = cv.length) (hk : k < cv.length) (h5 : k ≤ 5) (out out' : List Pt)
    (h : scipyBspline cv n k = .ok out) (h' : scipyBspline cv' n k = .ok out') (pts : List (Pt × Pt)) (hs : pts.Sublist (out.zip out'))
    (ha : Alternates (pts.map fun P => P.2.2 - P.1.2)) :
    ∃ ctl, ctl.Sublist (cv.zip cv') ∧ ctl.length = pts.length ∧ Alternates (ctl.map fun P => P.2.2 - P.1.2) ∧
      List.Forall₂ (fun P Q => 0 < (P.2.2 - P.1.2) * (Q.2.2 - Q.1.2)) pts ctl := by
  obtain ⟨-, e2⟩ := coords_of hk h5 h
  obtain ⟨-, e2'⟩ := coords_of (by omega) h5 h'
  have n1 : out.length = n := by simpa using congrArg List.length e2
  have n2 : out'.length = n := by simpa using congrArg List.length e2'
  have hz : (cv.zip cv').length = cv.length := by rw [List.length_zip]; omega
  obtain ⟨sup, h1, h2, h3⟩ := variation_list (X := out.zip out') (Y := cv.zip cv') (k := k) (n := n) (fun P => P.2.2 - P.1.2)
    (fun P => P.2.2 - P.1.2) (by omega) (by
      apply List.ext_getElem
      · simp [n1, n2]
      · intro j j1 j2
        have hj : j < n := by simpa using j2
        have g1 : (out.map Prod.snd)[j]'(by simp [n1, hj]) = coordAt (cv.map Prod.snd) k n j := by simp only [e2, List.getElem_map, List.getElem_range]
        have g2 : (out'.map Prod.snd)[j]'(by simp [n2, hj]) = coordAt (cv'.map Prod.snd) k n j := by simp only [e2', List.getElem_map, List.getElem_range]
        simp only [List.getElem_map] at g1 g2
        simp only [List.getElem_map, List.getElem_range, List.getElem_zip]
        rw [g1, g2]
        unfold coordAt
        simp only [List.length_map, hz, hl]
        rw [← Finset.sum_sub_distrib]
        apply Finset.sum_congr rfl
        intro i hi
        rw [Finset.mem_range] at hi
        have i1 : i < (cv.zip cv').length := by omega
        simp only [List.getD_eq_getElem?_getD, List.getElem?_map, List.getElem?_eq_getElem hi, List.getElem?_eq_getElem (show i < cv'.length by omega),
          List.getElem?_eq_getElem i1, Option.map_some, Option.getD_some, List.getElem_zip]
        ring) hs ha
  exact ⟨sup, h1, h2.length_eq.symm, h3, h2⟩

theorem BSpline.alternates3 {a b c : ℝ} (h1 : a < 0) (h2 : 0 < b) (h3 : c < 0) : Alternates [a, b, c] := by
  refine ⟨?_, ?_⟩
  · intro x hx
    simp only [List.mem_cons, List.not_mem_nil, or_false] at hx
    rcases hx with rfl | rfl | rfl <;> [exact h1.ne; exact h2.ne'; exact h3.ne]
  · simp only [List.isChain_cons_cons, List.isChain_singleton, and_true]
    exact ⟨mul_neg_of_neg_of_pos h1 h2, mul_neg_of_pos_of_neg h2 h3⟩

theorem BSpline.forall₂_three {A B : Type} {R : A → B → Prop} {a b c : A} {l : List B} (h : List.Forall₂ R [a, b, c] l) :
    ∃ a' b' c', l = [a', b', c'] ∧ R a a' ∧ R b b' ∧ R c c' := by
  cases h with
  | cons h1 h => cases h with
    | cons h2 h => cases h with
      | cons h3 h => cases h; exact ⟨_, _, _, rfl, h1, h2, h3⟩

theorem BSpline.sub_lt {l : List Pt} (hp : (l.map Prod.fst).Pairwise (· < ·)) {A B C : Pt} (hs : [A, B, C].Sublist l) : A.1 < B.1 ∧ B.1 < C.1 := by
  have := hp.sublist (hs.map Prod.fst)
  simp at this
  exact ⟨this.1.1, this.2⟩

/-- **C108** convex control points give convex curves, and concave ones concave curves (degree at least 1). -/
theorem C108_convex (cv : List Pt) (n k : Nat) (hk : k < cv.length) (h1 : 1 ≤ k) (h5 : k ≤ 5) (out : List Pt) (h : scipyBspline cv n k = .ok out) :
    (ConvexGraph cv → ConvexGraph out) ∧ (ConcaveGraph cv → ConcaveGraph out) := by
  have hst := (C99_strict cv n k hk h1 h5 out h).1
  refine ⟨fun hc => ⟨hst hc.1, ?_⟩, fun hc => ⟨hst hc.1, ?_⟩⟩
  · intro P Q R hs
    by_contra hq
    rw [not_le] at hq
    obtain ⟨x1, x2⟩ := sub_lt (hst hc.1) hs
    obtain ⟨d, hd⟩ : ∃ d, d = (R.1 - Q.1) * (Q.2 - P.2) - (Q.1 - P.1) * (R.2 - Q.2) := ⟨_, rfl⟩
    have hd0 : 0 < d := by linarith
    obtain ⟨ctl, c1, -, -, c4⟩ := C108_crossings cv n k hk h5 out h (-(R.2 - P.2)) (R.1 - P.1) ((R.1 - P.1) * P.2 - (R.2 - P.2) * P.1 + d / 2)
      [P, Q, R] hs (by
        apply alternates3 <;> simp only [side] <;> nlinarith)
    obtain ⟨A, B, C, rfl, f1, f2, f3⟩ := forall₂_three c4
    have y := hc.2 A B C c1
    obtain ⟨y1, y2⟩ := sub_lt hc.1 c1
    have s1 : side (-(R.2 - P.2)) (R.1 - P.1) ((R.1 - P.1) * P.2 - (R.2 - P.2) * P.1 + d / 2) P = -(d / 2) := by simp only [side]; ring
    have s2 : side (-(R.2 - P.2)) (R.1 - P.1) ((R.1 - P.1) * P.2 - (R.2 - P.2) * P.1 + d / 2) Q = d / 2 := by simp only [side]; rw [hd]; ring
    have s3 : side (-(R.2 - P.2)) (R.1 - P.1) ((R.1 - P.1) * P.2 - (R.2 - P.2) * P.1 + d / 2) R = -(d / 2) := by simp only [side]; ring
    rw [s1] at f1; rw [s2] at f2; rw [s3] at f3
    replace f1 := neg_of_mul_pos_right f1 (by linarith)
    replace f2 := pos_of_mul_pos_right f2 (by linarith)
    replace f3 := neg_of_mul_pos_right f3 (by linarith)
    simp only [side] at f1 f2 f3
    have w : (C.1 - B.1) * ((-(R.2 - P.2) * B.1 + (R.1 - P.1) * B.2) - (-(R.2 - P.2) * A.1 + (R.1 - P.1) * A.2)) -
        (B.1 - A.1) * ((-(R.2 - P.2) * C.1 + (R.1 - P.1) * C.2) - (-(R.2 - P.2) * B.1 + (R.1 - P.1) * B.2)) =
        (R.1 - P.1) * ((C.1 - B.1) * (B.2 - A.2) - (B.1 - A.1) * (C.2 - B.2)) := by ring
    have w1 := mul_pos (show 0 < C.1 - B.1 by linarith)
      (show 0 < (-(R.2 - P.2) * B.1 + (R.1 - P.1) * B.2) - (-(R.2 - P.2) * A.1 + (R.1 - P.1) * A.2) by linarith)
    have w2 := mul_neg_of_pos_of_neg (show 0 < B.1 - A.1 by linarith)
      (show (-(R.2 - P.2) * C.1 + (R.1 - P.1) * C.2) - (-(R.2 - P.2) * B.1 + (R.1 - P.1) * B.2) < 0 by linarith)
    have w3 := mul_nonpos_of_nonneg_of_nonpos (show 0 ≤ R.1 - P.1 by linarith)
      (show (C.1 - B.1) * (B.2 - A.2) - (B.1 - A.1) * (C.2 - B.2) ≤ 0 by linarith)
    linarith
  · intro P Q R hs
    by_contra hq
    rw [not_le] at hq
    obtain ⟨x1, x2⟩ := sub_lt (hst hc.1) hs
    obtain ⟨d, hd⟩ : ∃ d, d = (Q.1 - P.1) * (R.2 - Q.2) - (R.1 - Q.1) * (Q.2 - P.2) := ⟨_, rfl⟩
    have hd0 : 0 < d := by linarith
    have s1 : side (R.2 - P.2) (-(R.1 - P.1)) (-((R.1 - P.1) * P.2 - (R.2 - P.2) * P.1) + d / 2) P = -(d / 2) := by simp only [side]; ring
    have s2 : side (R.2 - P.2) (-(R.1 - P.1)) (-((R.1 - P.1) * P.2 - (R.2 - P.2) * P.1) + d / 2) Q = d / 2 := by simp only [side]; rw [hd]; ring
    have s3 : side (R.2 - P.2) (-(R.1 - P.1)) (-((R.1 - P.1) * P.2 - (R.2 - P.2) * P.1) + d / 2) R = -(d / 2) := by simp only [side]; ring
    obtain ⟨ctl, c1, -, -, c4⟩ := C108_crossings cv n k hk h5 out h (R.2 - P.2) (-(R.1 - P.1)) (-((R.1 - P.1) * P.2 - (R.2 - P.2) * P.1) + d / 2)
      [P, Q, R] hs (by
        simp only [List.map_cons, List.map_nil, s1, s2, s3]
        exact alternates3 (by linarith) (by linarith) (by linarith))
    obtain ⟨A, B, C, rfl, f1, f2, f3⟩ := forall₂_three c4
    have y := hc.2 A B C c1
    obtain ⟨y1, y2⟩ := sub_lt hc.1 c1
    rw [s1] at f1; rw [s2] at f2; rw [s3] at f3
    replace f1 := neg_of_mul_pos_right f1 (by linarith)
    replace f2 := pos_of_mul_pos_right f2 (by linarith)
    replace f3 := neg_of_mul_pos_right f3 (by linarith)
    simp only [side] at f1 f2 f3
    have w : (C.1 - B.1) * (((R.2 - P.2) * B.1 + -(R.1 - P.1) * B.2) - ((R.2 - P.2) * A.1 + -(R.1 - P.1) * A.2)) -
        (B.1 - A.1) * (((R.2 - P.2) * C.1 + -(R.1 - P.1) * C.2) - ((R.2 - P.2) * B.1 + -(R.1 - P.1) * B.2)) =
        (R.1 - P.1) * ((B.1 - A.1) * (C.2 - B.2) - (C.1 - B.1) * (B.2 - A.2)) := by ring
    have w1 := mul_pos (show 0 < C.1 - B.1 by linarith)
      (show 0 < ((R.2 - P.2) * B.1 + -(R.1 - P.1) * B.2) - ((R.2 - P.2) * A.1 + -(R.1 - P.1) * A.2) by linarith)
    have w2 := mul_neg_of_pos_of_neg (show 0 < B.1 - A.1 by linarith)
      (show ((R.2 - P.2) * C.1 + -(R.1 - P.1) * C.2) - ((R.2 - P.2) * B.1 + -(R.1 - P.1) * B.2) < 0 by linarith)
    have w3 := mul_nonpos_of_nonneg_of_nonpos (show 0 ≤ R.1 - P.1 by linarith)
      (show (B.1 - A.1) * (C.2 - B.2) - (C.1 - B.1) * (B.2 - A.2) ≤ 0 by linarith)
    linarith

/-- Four points of a parabola are convex control points. -/
example : ConvexGraph [(0, 0), (1, 1), (2, 4), (3, 9)] ∧ ∃ out, scipyBspline [(0, 0), (1, 1), (2, 4), (3, 9)] (50 : Nat) (3 : Nat) = .ok out := by
  obtain ⟨out, h, -, -⟩ := C34_curve [(0, 0), (1, 1), (2, 4), (3, 9)] 50 3 (by simp) (by norm_num)
  refine ⟨⟨by norm_num, ?_⟩, out, h⟩
  intro A B C hs
  have hp : ∀ P ∈ [((0 : ℝ), (0 : ℝ)), (1, 1), (2, 4), (3, 9)], P.2 = P.1 ^ 2 := by
    intro P hP
    simp only [List.mem_cons, List.not_mem_nil, or_false] at hP
    rcases hP with rfl | rfl | rfl | rfl <;> norm_num
  obtain ⟨x1, x2⟩ := sub_lt (by norm_num) hs
  rw [hp A (hs.subset (by simp)), hp B (hs.subset (by simp)), hp C (hs.subset (by simp))]
  have := mul_nonneg (mul_nonneg (show 0 ≤ C.1 - B.1 by linarith) (show 0 ≤ B.1 - A.1 by linarith)) (show 0 ≤ C.1 - A.1 by linarith)
  nlinarith

/-- A zigzag of four control points; the curve does change the side of the axis. Against the straight control points on the axis, it is also a
deformation that goes up and down. -/
example : ∃ out out₀ : List Pt, scipyBspline [(0, 1), (1, -3), (2, 4), (3, -2)] (4 : Nat) (2 : Nat) = .ok out ∧
    scipyBspline [(0, 0), (1, 0), (2, 0), (3, 0)] (4 : Nat) (2 : Nat) = .ok out₀ ∧
    (∃ pts : List Pt, pts.Sublist out ∧ pts.length = 2 ∧ Alternates (pts.map (side 0 1 0))) ∧
    ∃ pts : List (Pt × Pt), pts.Sublist (out₀.zip out) ∧ pts.length = 2 ∧ Alternates (pts.map fun P => P.2.2 - P.1.2) := by
  obtain ⟨out, h, hl, -⟩ := C34_curve [(0, 1), (1, -3), (2, 4), (3, -2)] 4 2 (by simp) (by norm_num)
  obtain ⟨out₀, h₀, hl₀, -⟩ := C34_curve [(0, 0), (1, 0), (2, 0), (3, 0)] 4 2 (by simp) (by norm_num)
  obtain ⟨e1, e2⟩ := C34_end_points _ 4 2 (by norm_num) (by simp) (by norm_num) out h
  obtain ⟨f1, f2⟩ := C34_end_points _ 4 2 (by norm_num) (by simp) (by norm_num) out₀ h₀
  obtain ⟨a, b, c, d, rfl⟩ : ∃ a b c d, out = [a, b, c, d] := by
    rcases out with _ | ⟨a, _ | ⟨b, _ | ⟨c, _ | ⟨d, _ | ⟨_, _⟩⟩⟩⟩⟩ <;> simp at hl
    exact ⟨a, b, c, d, rfl⟩
  obtain ⟨a', b', c', d', rfl⟩ : ∃ a b c d, out₀ = [a, b, c, d] := by
    rcases out₀ with _ | ⟨a, _ | ⟨b, _ | ⟨c, _ | ⟨d, _ | ⟨_, _⟩⟩⟩⟩⟩ <;> simp at hl₀
    exact ⟨a, b, c, d, rfl⟩
  simp only [List.head?_cons, Option.some.injEq] at e1 f1
  simp only [List.getLast?_cons_cons, List.getLast?_singleton, Option.some.injEq] at e2 f2
  subst e1 e2 f1 f2
  refine ⟨_, _, h, h₀, ⟨[(0, 1), (3, -2)], ?_, rfl, ?_⟩, ⟨[((0, 0), (0, 1)), ((3, 0), (3, -2))], ?_, rfl, ?_⟩⟩
  · exact .cons_cons _ (.cons _ (.cons _ (.cons_cons _ .slnil)))
  · constructor
    · simp [side]
    · simp [side]
  · exact .cons_cons _ (.cons _ (.cons _ (.cons_cons _ .slnil)))
  · constructor
    · simp
    · simp

end
end BladeX
