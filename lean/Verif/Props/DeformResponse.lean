import Verif.Props.DeformAll

/-! # C86: how the deformed distributions depend on the deformations -/

namespace BladeX
noncomputable section
open Spec Classical BSpline
namespace Deform

theorem getD_lt {α : Type} {l : List α} {i : Nat} {d : α} (h : i < l.length) : l.getD i d = l[i] := by
  rw [List.getD_eq_getElem?_getD, List.getElem?_eq_getElem h]; rfl

/-- The curve with `c` control points: weights per curve point that are not negative, sum to one, and vanish but for `k + 1` neighbouring
control points. They do not depend on the control points. -/
theorem curve_weights (c n k : Nat) (hk : k < c) (h5 : k ≤ 5) :
    ∃ W : Nat → Nat → ℝ, (∀ j i, 0 ≤ W j i) ∧ (∀ j < n, ∑ i ∈ Finset.range c, W j i = 1) ∧
      (∀ j, ∃ l, ∀ i, W j i ≠ 0 → l ≤ i ∧ i ≤ l + k) ∧
      ∀ cv : List Pt, cv.length = c → ∃ sp, scipyBspline cv n k = .ok sp ∧ sp.length = n ∧
        ∀ j < n, sp[j]? = some (∑ i ∈ Finset.range c, W j i * (cv.getD i 0).1, ∑ i ∈ Finset.range c, W j i * (cv.getD i 0).2) := by
  let u : Nat → ℝ := fun j => (linspaceN 0 ((c : ℝ) - k) n).getD j 0
  have hu : ∀ j < n, 0 ≤ u j ∧ u j ≤ (c : ℝ) - k := by
    intro j hj
    apply param_mem (show (k : ℝ) < c by exact_mod_cast hk) (n := n)
    have hl : j < (linspaceN 0 ((c : ℝ) - k) n).length := by rw [linspaceN_length]; exact hj
    simp only [u, getD_lt hl]
    exact List.getElem_mem hl
  refine ⟨fun j i => if j < n then coxDeBoor (clampedKnot c k) c k i (u j) else 0, ?_, ?_, ?_, ?_⟩
  · intro j i
    by_cases hj : j < n
    · simp only [hj, if_true]
      exact (weights_ok hk (hu j hj).1 (hu j hj).2).1 i
    · simp [hj]
  · intro j hj
    simp only [hj, if_true]
    rw [Finset.sum_range]
    exact (weights_ok hk (hu j hj).1 (hu j hj).2).2
  · intro j
    by_cases hj : j < n
    · obtain ⟨hs, hkl⟩ := findSpan_spec hk (hu j hj).2 (c - 1 - k) k le_rfl (by omega) (by rw [clampedKnot_le le_rfl]; exact (hu j hj).1)
      set l := findSpan (clampedKnot c k) (c - 1) (u j) (c - 1 - k) k
      refine ⟨l - k, ?_⟩
      intro i hi
      simp only [hj, if_true] at hi
      by_contra hno
      apply hi
      exact cox_zero (clampedKnot_mono hk) (fun m h => by rw [clampedKnot_ge hk h, clampedKnot_ge hk le_rfl]) hs k i (by omega)
    · exact ⟨0, fun i hi => by simp [hj] at hi⟩
  · rintro cv rfl
    refine ⟨_, bspline_curve hk h5, by simp [linspaceN_length], ?_⟩
    intro j hj
    have hl : j < (linspaceN 0 ((cv.length : ℝ) - k) n).length := by rw [linspaceN_length]; exact hj
    rw [List.getElem?_map, List.getElem?_eq_getElem hl]
    have e : (linspaceN 0 ((cv.length : ℝ) - k) n)[j] = u j := by simp only [u, getD_lt hl]
    rw [e]
    simp only [hj, if_true, Option.map_some, bsplinePoint, Finset.sum_range]
    congr 1
    ext
    · simp
    · simp

/-- Which points are chosen depends on the abscissae alone. -/
theorem find_same {sp sp' : List Pt} (h : sp'.map Prod.fst = sp.map Prod.fst) (f : ℝ → Bool) {q : Pt}
    (hq : sp.find? (fun q => f q.1) = some q) :
    ∃ (j : Nat) (q' : Pt), sp[j]? = some q ∧ sp'[j]? = some q' ∧ sp'.find? (fun q => f q.1) = some q' := by
  induction sp generalizing sp' with
  | nil => simp at hq
  | cons a sp ih =>
    rcases sp' with _ | ⟨a', sp'⟩
    · simp at h
    simp only [List.map_cons, List.cons.injEq] at h
    rw [List.find?_cons] at hq
    rcases hf : f a.1 with _ | _
    · simp only [hf] at hq
      obtain ⟨j, q', h1, h2, h3⟩ := ih h.2 hq
      refine ⟨j + 1, q', by simpa using h1, by simpa using h2, ?_⟩
      rw [List.find?_cons, h.1, hf]
      exact h3
    · simp only [hf] at hq
      obtain rfl := Option.some.inj hq
      exact ⟨0, a', rfl, rfl, by rw [List.find?_cons, h.1, hf]⟩

/-- **C86** the response of the deformed distributions to the deformations. If `compute_all` succeeds, it succeeds for all other
deformations (of the same number) of the control points, and the deformed value of each parameter at each section changes by a weighted mean
of the changes of the deformations: the weights are not negative, sum to one, belong to at most `degree + 1` neighbouring control points, and
do not depend on the deformations. -/
theorem C86_response (s s' : Deform) (rbf : Option Int) (tol : PName → ℝ) (hl : ∀ p, (s.deformed p).length = s.radii.length)
    (h : computeAll rbf tol s = (s', .ok ())) :
    ∃ w : PName → Nat → Nat → ℝ, (∀ p i j, 0 ≤ w p i j) ∧
      (∀ p i, i < s.radii.length → ∑ j ∈ Finset.range (s.deformations p).length, w p i j = 1) ∧
      (∀ p i, ∃ l : Nat, ∀ j : Nat, w p i j ≠ 0 → l ≤ j ∧ (j : Int) ≤ l + s.degree p) ∧
      ∀ D : PName → Arr, (∀ p, (D p).length = (s.deformations p).length) →
        ∃ t, computeAll rbf tol { s with deformations := D } = (t, .ok ()) ∧
          ∀ p, (t.deformed p).length = s.radii.length ∧ ∀ i, i < s.radii.length →
            (t.deformed p)[i]? = some ((s'.deformed p).getD i 0 +
              ∑ j ∈ Finset.range (s.deformations p).length, w p i j * ((D p).getD j 0 - (s.deformations p).getD j 0)) := by
  have hall : ∀ p, p ∈ PName.all := by intro p; cases p <;> simp [PName.all]
  obtain ⟨E, hE, rfl⟩ := (computeAll_iff ..).1 h
  -- one parameter
  have one : ∀ p, ∃ w : Nat → Nat → ℝ, (∀ i j, 0 ≤ w i j) ∧
      (∀ i, i < s.radii.length → ∑ j ∈ Finset.range (s.deformations p).length, w i j = 1) ∧
      (∀ i, ∃ l : Nat, ∀ j : Nat, w i j ≠ 0 → l ≤ j ∧ (j : Int) ≤ l + s.degree p) ∧
      ∀ D : PName → Arr, (∀ p, (D p).length = (s.deformations p).length) → ∃ F, Steps { s with deformations := D } rbf (tol p) p F ∧
        F.2.2.length = s.radii.length ∧ ∀ i, i < s.radii.length →
          F.2.2[i]? = some ((E p).2.2.getD i 0 +
              ∑ j ∈ Finset.range (s.deformations p).length, w i j * ((D p).getD j 0 - (s.deformations p).getD j 0)) := by
    intro p
    obtain ⟨cp, h1, h2, h3, h4, h5⟩ := hE p
    have hk : ¬ (s.degree p < 0 ∨ 5 < s.degree p) := by
      intro hk
      simp [scipyBspline, hk, bind, Except.bind, throw, throwThe, MonadExceptOf.throw] at h4
    have hn : ¬ s.npoints p < 0 := by
      intro hn
      simp [scipyBspline, hk, hn, linspace, bind, Except.bind, throw, throwThe, MonadExceptOf.throw] at h4
    have hc : ¬ (E p).1.length ≤ (s.degree p).toNat := by
      intro hc
      simp [scipyBspline, hk, hn, hc, linspace, bind, Except.bind, throw, throwThe, MonadExceptOf.throw] at h4
    obtain ⟨k, ek⟩ : ∃ m : Nat, s.degree p = m := ⟨(s.degree p).toNat, by omega⟩
    obtain ⟨n, en⟩ : ∃ m : Nat, s.npoints p = m := ⟨(s.npoints p).toNat, by omega⟩
    have hlen : (E p).1.length = (s.deformations p).length := by rw [h3]; simp [h2]
    set c := (s.deformations p).length with hcdef
    have hkc : k < c := by rw [ek] at hc; simp at hc; omega
    obtain ⟨W, w0, w1, w2, w3⟩ := curve_weights c n k hkc (by omega)
    rw [ek, en] at h4
    obtain ⟨sp, hsp, hspl, hspv⟩ := w3 (E p).1 hlen
    obtain rfl : (E p).2.1 = sp := by rw [h4] at hsp; exact Except.ok.inj hsp
    obtain ⟨d1, _, _, d4⟩ := loop_ok _ _ _ _ h5
    let J : Nat → Nat := fun i => (E p).2.1.findIdx fun q => decide (|q.1 - s.radii.getD i 0| < tol p)
    have hJ : ∀ i (hi : i < s.radii.length), J i < n ∧ ∃ q, (E p).2.1.find? (fun q => decide (|q.1 - s.radii[i]| < tol p)) = some q ∧
        (E p).2.1[J i]? = some q ∧ (E p).2.2[i]? = some q.2 := by
      intro i hi
      obtain ⟨q, hq, hv⟩ := d4 i hi
      rw [zero_add] at hv
      have hex : ∃ q ∈ (E p).2.1, decide (|q.1 - s.radii[i]| < tol p) = true :=
        ⟨q, List.mem_of_find?_eq_some hq, by have := List.find?_some hq; simpa using this⟩
      have hJi : J i < (E p).2.1.length := by
        simp only [J, getD_lt hi]
        exact List.findIdx_lt_length.2 hex
      refine ⟨by rw [← hspl]; exact hJi, q, hq, ?_, hv⟩
      have e2 : (E p).2.1.find? (fun q => decide (|q.1 - s.radii[i]| < tol p)) = (E p).2.1[J i]? := by
        simp only [J, getD_lt hi]
        exact List.find?_eq_getElem?_findIdx
      rw [← e2]; exact hq
    refine ⟨fun i j => W (J i) j, fun i j => w0 _ _, fun i hi => w1 _ (hJ i hi).1, ?_, ?_⟩
    · intro i
      obtain ⟨l, hl⟩ := w2 (J i)
      exact ⟨l, fun j hj => ⟨(hl j hj).1, by rw [ek]; exact_mod_cast (hl j hj).2⟩⟩
    · intro D hD
      let cv := List.zipWith (fun (q : Pt) d => (q.1, q.2 + d)) cp (D p)
      have hcv : cv.length = c := by simp [cv, h2, hD, hcdef]
      obtain ⟨sp', e1, e2, e3⟩ := w3 cv hcv
      have hget : ∀ i, i < c → (cv.getD i 0).1 = ((E p).1.getD i 0).1 ∧
          (cv.getD i 0).2 = ((E p).1.getD i 0).2 + ((D p).getD i 0 - (s.deformations p).getD i 0) := by
        intro i hi
        have g1 : i < cp.length := by omega
        have g2 : i < (D p).length := by rw [hD]; exact hi
        have a1 : cv.getD i 0 = (cp[i].1, cp[i].2 + (D p)[i]) := by
          rw [getD_lt (by omega)]; simp [cv]
        have a2 : (E p).1.getD i 0 = (cp[i].1, cp[i].2 + (s.deformations p)[i]) := by
          rw [getD_lt (by omega)]; simp [h3]
        rw [a1, a2, getD_lt g2, getD_lt hi]
        exact ⟨rfl, by simp⟩
      have hfst : sp'.map Prod.fst = (E p).2.1.map Prod.fst := by
        apply List.ext_getElem?
        intro j
        rw [List.getElem?_map, List.getElem?_map]
        by_cases hj : j < n
        · rw [e3 j hj, hspv j hj]
          simp only [Option.map_some, Option.some.injEq]
          apply Finset.sum_congr rfl
          intro i hi
          rw [(hget i (Finset.mem_range.1 hi)).1]
        · rw [List.getElem?_eq_none (by omega), List.getElem?_eq_none (by omega)]
      have hnew : ∀ i (hi : i < s.radii.length), ∃ q', sp'.find? (fun q => decide (|q.1 - s.radii[i]| < tol p)) = some q' ∧
          q'.2 = (E p).2.2.getD i 0 + ∑ j ∈ Finset.range c, W (J i) j * ((D p).getD j 0 - (s.deformations p).getD j 0) := by
        intro i hi
        obtain ⟨hJn, q, hq, hqJ, hv⟩ := hJ i hi
        obtain ⟨j, q', g1, g2, g3⟩ := find_same hfst (fun x => decide (|x - s.radii[i]| < tol p)) hq
        have hidx : sp'.find? (fun q => decide (|q.1 - s.radii[i]| < tol p)) = sp'[J i]? := by
          rw [List.find?_eq_getElem?_findIdx]
          congr 1
          simp only [J, getD_lt hi]
          have f1 : sp'.findIdx (fun q => decide (|q.1 - s.radii[i]| < tol p)) =
              (sp'.map Prod.fst).findIdx (fun x => decide (|x - s.radii[i]| < tol p)) := by
            rw [List.findIdx_map]; rfl
          have f2 : (E p).2.1.findIdx (fun q => decide (|q.1 - s.radii[i]| < tol p)) =
              ((E p).2.1.map Prod.fst).findIdx (fun x => decide (|x - s.radii[i]| < tol p)) := by
            rw [List.findIdx_map]; rfl
          rw [f1, f2, hfst]
        rw [g3, e3 _ hJn] at hidx
        rw [hspv _ hJn] at hqJ
        refine ⟨q', g3, ?_⟩
        obtain rfl := Option.some.inj hidx
        obtain rfl := Option.some.inj hqJ
        simp only at hv ⊢
        rw [List.getD_eq_getElem?_getD, hv, Option.getD_some, ← Finset.sum_add_distrib]
        apply Finset.sum_congr rfl
        intro m hm
        rw [(hget m (Finset.mem_range.1 hm)).2]; ring
      obtain ⟨d', hd'⟩ := loop_all (sp := sp') (tol := tol p) s.radii 0 (s.deformed p) (by rw [hl]; omega) (by
        intro r hr
        obtain ⟨i, hi, rfl⟩ := List.getElem_of_mem hr
        obtain ⟨q', g, _⟩ := hnew i hi
        exact ⟨q', List.mem_of_find?_eq_some g, by have := List.find?_some g; simpa using this⟩)
      obtain ⟨f1, _, _, f4⟩ := loop_ok _ _ _ _ hd'
      refine ⟨(cv, sp', d'), ⟨cp, h1, by rw [h2]; exact (hD p).symm, rfl, ?_, hd'⟩, by simp only; rw [f1, hl], ?_⟩
      · show scipyBspline cv (s.npoints p) (s.degree p) = .ok sp'
        rw [ek, en]; exact e1
      · intro i hi
        obtain ⟨q, g1, g2⟩ := f4 i hi
        obtain ⟨q', g3, g4⟩ := hnew i hi
        rw [g1] at g3
        obtain rfl := Option.some.inj g3
        rw [zero_add] at g2
        rw [← g4]; exact g2
  choose w a1 a2 a3 a4 using one
  refine ⟨w, a1, a2, a3, ?_⟩
  intro D hD
  choose F b1 b2 b3 using fun p => a4 p D hD
  refine ⟨_, (computeAll_iff ..).2 ⟨F, b1, rfl⟩, ?_⟩
  intro p
  simp only [result, hall, if_true]
  exact ⟨b2 p, b3 p⟩

end Deform
end
end BladeX
