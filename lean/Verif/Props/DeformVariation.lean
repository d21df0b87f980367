import Verif.Props.Variation
import Verif.Props.DeformUnique
import Verif.Props.DeformExport
import Verif.Props.DeformLinear

/-! # C108 for a `Deformation` -/

namespace BladeX
noncomputable section
open Spec Classical BSpline
namespace Deform

/-- Which spline points `compute_deformed_parameters` picks, and their values. -/
theorem picked {s : Deform} {rbf : Option Int} {tol : ℝ} {p : PName} {D : List Pt × List Pt × Arr} (hD : Steps s rbf tol p D)
    (h1 : 1 ≤ s.degree p) (hm : EvenFit s.radii rbf (s.nbasis p)) (hl : (s.deformed p).length = s.radii.length)
    (hinc : s.radii.Pairwise (· ≤ ·)) {x0 xl : ℝ} (hx0 : s.radii.head? = some x0) (hxl : s.radii.getLast? = some xl) {J : Nat → Nat}
    (hJ : J = fun i => (linspaceN x0 xl (s.npoints p).toNat).findIdx fun x => decide (|x - s.radii.getD i 0| < tol)) :
    (s.degree p).toNat < D.1.length ∧ D.2.2.length = s.radii.length ∧
    (∀ i j, i ≤ j → j < D.2.2.length → J i ≤ J j) ∧ (∀ i, i < D.2.2.length → J i < (s.npoints p).toNat) ∧
    ∀ i (hi : i < D.2.2.length), D.2.2[i] = coordAt (D.1.map Prod.snd) (s.degree p).toNat (s.npoints p).toNat (J i) := by
  obtain ⟨cq, e1, e2, e3, e4, e5⟩ := hD
  obtain ⟨s1, s2, s3, s4⟩ := optimum_sizes e1
  have hne : s.radii ≠ [] := ((C68_defined ..).1 ⟨_, e1⟩).2.2.2.2.1
  have hgrid := spline_radii e1 h1 hm hx0 hxl e2 e3 e4
  obtain ⟨v1, v2⟩ := (loop_values hl).1 e5
  rw [hgrid] at v1 v2
  have hx : x0 ≤ xl := by
    rw [List.head?_eq_getElem?] at hx0
    rw [List.getLast?_eq_getElem?] at hxl
    have hpos : 0 < s.radii.length := List.length_pos_iff.2 hne
    rw [List.getElem?_eq_getElem (by omega)] at hx0 hxl
    have h0 := Option.some.inj hx0
    have hl := Option.some.inj hxl
    rw [List.pairwise_iff_getElem] at hinc
    rw [← h0, ← hl]
    rcases Nat.eq_zero_or_pos (s.radii.length - 1) with h | h
    · simp only [h]; exact le_rfl
    · exact hinc 0 _ _ _ h
  have hxs : (linspaceN x0 xl (s.npoints p).toNat).Pairwise (· ≤ ·) := by
    rw [List.pairwise_iff_getElem]
    intro i j hi hj hij
    rw [linspaceN_length] at hj
    rw [linspaceN_getElem, linspaceN_getElem]
    have a1 : (1 : ℝ) ≤ ((s.npoints p).toNat : ℝ) := by exact_mod_cast (by omega : 1 ≤ (s.npoints p).toNat)
    have a2 : 0 ≤ (xl - x0) / (((s.npoints p).toNat : ℝ) - 1) := div_nonneg (by linarith) (by linarith)
    have a3 : (i : ℝ) ≤ j := by exact_mod_cast hij.le
    have := mul_le_mul_of_nonneg_right a3 a2
    linarith
  obtain ⟨N, hN⟩ : ∃ N : Nat, s.npoints p = N := by
    refine ⟨(s.npoints p).toNat, ?_⟩
    by_contra hneg
    have h0 : s.npoints p < 0 := by omega
    simp [scipyBspline, linspace, h0, bind, Except.bind, throw, throwThe, MonadExceptOf.throw] at e4
  have hk : s.degree p = ((s.degree p).toNat : Int) := by omega
  rw [hN] at v1 v2 hxs hgrid
  simp only [hN, Int.toNat_natCast] at hJ v1 v2 hxs hgrid ⊢
  rw [hN, hk] at e4
  have hcl : (s.degree p).toNat < D.1.length := by rw [e3]; simp [← e2]; omega
  obtain ⟨-, c2⟩ := coords_of hcl s2 e4
  have hspl : D.2.1.length = N := by simpa using congrArg List.length c2
  have hlen : D.2.2.length = s.radii.length := by rw [v2]; simp
  have hg : ∀ i (hi : i < s.radii.length), s.radii.getD i 0 = s.radii[i] := fun i hi => by simp [List.getD_eq_getElem?_getD, hi]
  have hlt : ∀ i, i < s.radii.length → J i < N := by
    intro i hi
    rw [hJ]
    obtain ⟨x, hx, ht⟩ := v1 s.radii[i] (List.getElem_mem hi)
    have := List.findIdx_lt_length (p := fun x => decide (|x - s.radii.getD i 0| < tol)).2 ⟨x, hx, show decide (|x - s.radii.getD i 0| < tol) = true by rw [hg i hi]; simpa using ht⟩
    rwa [linspaceN_length] at this
  refine ⟨hcl, hlen, ?_, fun i hi => hlt i (by omega), ?_⟩
  · intro i j hij hj
    rw [hlen] at hj
    rw [hJ]
    show List.findIdx _ _ ≤ List.findIdx _ _
    rw [hg i (by omega), hg j hj]
    refine findIdx_mono hxs ?_ (v1 _ (List.getElem_mem _)) (v1 _ (List.getElem_mem _))
    rcases eq_or_lt_of_le hij with h | h
    · subst h; exact le_rfl
    · exact List.pairwise_iff_getElem.1 hinc i j _ _ h
  · intro i hi
    have hi' : i < s.radii.length := by omega
    have hji := hlt i hi'
    have q1 : D.2.2[i] = (D.2.1.getD (J i) 0).2 := by
      have := List.getElem_of_eq v2 hi
      rw [this, List.getElem_map, hJ]
      show _ = (D.2.1.getD (List.findIdx _ _) 0).2
      rw [hg i hi']
    have q2 : (D.2.1.map Prod.snd)[J i]'(by simpa [hspl] using hji) = coordAt (D.1.map Prod.snd) (s.degree p).toNat N (J i) := by
      simp only [c2, List.getElem_map, List.getElem_range]
    rw [q1, getD_lt (by omega)]
    simpa using q2

end Deform

open Deform

/-- **C108** the deformed distribution of a parameter passes a level no more often than the deformed control points do: with equally spaced
radii to be fitted, enough of them, increasing radii and degree at least 1. -/
theorem C108_distribution (s s' : Deform) (rbf : Option Int) (tol : PName → ℝ) (h : computeAll rbf tol s = (s', .ok ())) (p : PName)
    (h1 : 1 ≤ s.degree p) (hm : EvenFit s.radii rbf (s.nbasis p)) (hl : (s.deformed p).length = s.radii.length)
    (hinc : s.radii.Pairwise (· ≤ ·)) (cp : List Pt) (hcp : s'.controlPoints p = some cp) (level : ℝ) (vals : List ℝ)
    (hs : vals.Sublist (s'.deformed p)) (ha : Alternates (vals.map fun y => y - level)) :
    ∃ ctl, ctl.Sublist cp ∧ Alternates (ctl.map fun P => P.2 - level) ∧ List.Forall₂ (fun y P => 0 < (y - level) * (P.2 - level)) vals ctl := by
  have hall : ∀ p, p ∈ PName.all := by intro p; cases p <;> simp [PName.all]
  obtain ⟨D, hD, rfl⟩ := (computeAll_iff ..).1 h
  simp only [result, hall, if_true, Option.some.injEq] at hcp hs
  subst hcp
  have hne : s.radii ≠ [] := by obtain ⟨cq, e1, -⟩ := hD p; exact ((C68_defined ..).1 ⟨_, e1⟩).2.2.2.2.1
  obtain ⟨c1, c2, c3, c4, c5⟩ := picked (hD p) h1 hm hl hinc (List.head?_eq_some_head hne) (List.getLast?_eq_some_getLast hne) rfl
  obtain ⟨sup, u1, u2, u3⟩ := variation_picked (d := (D p).2.2) (Y := (D p).1) (fun y => y - level) (fun P => P.2 - level) c1 _ c3 c4 (by
    intro i hi
    have := coordAt_side (D p).1 (s.degree p).toNat (s.npoints p).toNat _ c1 (c4 i hi) 0 1 level
    have e : side 0 1 level = fun P => P.2 - level := by funext P; simp [side]
    rw [e, zero_mul, zero_add, one_mul] at this
    rw [this, c5 i hi]) hs ha
  exact ⟨sup, u1, u3, u2⟩

/-- **C108** and it reacts to a change of the deformations by going up and down no more often than the deformations do. -/
theorem C108_reaction (s s' t : Deform) (rbf : Option Int) (tol : PName → ℝ) (D : PName → Arr) (h : computeAll rbf tol s = (s', .ok ()))
    (ht : computeAll rbf tol { s with deformations := D } = (t, .ok ())) (p : PName)
    (h1 : 1 ≤ s.degree p) (hm : EvenFit s.radii rbf (s.nbasis p)) (hl : (s.deformed p).length = s.radii.length)
    (hinc : s.radii.Pairwise (· ≤ ·)) (vals : List ℝ)
    (hs : vals.Sublist (List.zipWith (fun a b => a - b) (t.deformed p) (s'.deformed p))) (ha : Alternates vals) :
    ∃ ctl, ctl.Sublist (List.zipWith (fun a b => a - b) (D p) (s.deformations p)) ∧ Alternates ctl ∧ List.Forall₂ (fun a b => 0 < a * b) vals ctl := by
  have hall : ∀ p, p ∈ PName.all := by intro p; cases p <;> simp [PName.all]
  obtain ⟨E, hE, rfl⟩ := (computeAll_iff ..).1 h
  obtain ⟨F, hF, rfl⟩ := (computeAll_iff ..).1 ht
  simp only [result, hall, if_true] at hs
  obtain ⟨cp, g1, g2, g3, -⟩ := hE p
  obtain ⟨cq, f1, f2, f3, -⟩ := hF p
  obtain rfl : cq = cp := by
    have : Except.ok cq = Except.ok cp := f1.symm.trans g1
    exact Except.ok.inj this
  replace f2 : cq.length = (D p).length := f2
  replace f3 : (F p).1 = List.zipWith (fun (q : Pt) d => (q.1, q.2 + d)) cq (D p) := f3
  have hne : s.radii ≠ [] := ((C68_defined ..).1 ⟨_, g1⟩).2.2.2.2.1
  obtain ⟨J, hJ⟩ : ∃ J : Nat → Nat, J = fun i => (linspaceN (s.radii.head hne) (s.radii.getLast hne) (s.npoints p).toNat).findIdx
    fun x => decide (|x - s.radii.getD i 0| < tol p) := ⟨_, rfl⟩
  obtain ⟨c1, c2, c3, c4, c5⟩ := picked (hE p) h1 hm hl hinc (List.head?_eq_some_head hne) (List.getLast?_eq_some_getLast hne) hJ
  obtain ⟨-, d2, -, -, d5⟩ := picked (hF p) h1 hm hl hinc (List.head?_eq_some_head hne) (List.getLast?_eq_some_getLast hne) hJ
  replace d2 : (F p).2.2.length = s.radii.length := d2
  replace d5 : ∀ i (hi : i < (F p).2.2.length), (F p).2.2[i] = coordAt ((F p).1.map Prod.snd) (s.degree p).toNat (s.npoints p).toNat (J i) := d5
  have hlE : (E p).1.length = cq.length := by rw [g3]; simp [g2]
  have hlF : (F p).1.length = cq.length := by rw [f3]; simp [f2]
  have hlz : (List.zipWith (fun a b => a - b) (F p).2.2 (E p).2.2).length = (E p).2.2.length := by simp [c2, d2]
  obtain ⟨sup, u1, u2, u3⟩ := variation_picked (d := List.zipWith (fun a b => a - b) (F p).2.2 (E p).2.2)
    (Y := List.zipWith (fun a b => a - b) (D p) (s.deformations p)) (k := (s.degree p).toNat) (n := (s.npoints p).toNat) (fun a => a) (fun b => b)
    (by simp; omega) J (fun i j hij hj => c3 i j hij (by omega)) (fun i hi => c4 i (by omega)) (by
      intro i hi
      have hi' : i < (E p).2.2.length := by omega
      rw [List.getElem_zipWith, c5 i hi', d5 i (by omega)]
      unfold coordAt
      simp only [List.length_map, hlE, hlF, List.length_zipWith, ← f2, ← g2, min_self]
      rw [← Finset.sum_sub_distrib]
      apply Finset.sum_congr rfl
      intro r hr
      rw [Finset.mem_range] at hr
      simp only [List.map_id', g3, f3, List.getD_eq_getElem?_getD, List.getElem?_map, List.getElem?_zipWith,
        List.getElem?_eq_getElem hr, List.getElem?_eq_getElem (show r < (D p).length by omega),
        List.getElem?_eq_getElem (show r < (s.deformations p).length by omega), Option.map_some, Option.getD_some]
      ring) hs (by simpa using ha)
  exact ⟨sup, u1, by simpa using u3, u2⟩

theorem Sample.line_moved (d e : ℝ) : ∃ t, computeAll none (fun _ => 0.001) { lineObj with deformations := fun _ => [d, e] } = (t, .ok ()) ∧
    t.deformed .chord = [0.3 + d, 0.4 + e] := by
  obtain ⟨v1, v2, v3, v4⟩ := lineObj_values
  let A : PName → ℝ × ℝ := fun p => if p = .chord then (0.3, 0.4) else (0, 0)
  let D : PName → List Pt × List Pt × Arr := fun p =>
    ([(0.5, (A p).1 + d), (1, (A p).2 + e)], [(0.5, (A p).1 + d), (1, (A p).2 + e)], [(A p).1 + d, (A p).2 + e])
  have hall : ∀ p, p ∈ PName.all := by intro p; cases p <;> simp [PName.all]
  refine ⟨result { lineObj with deformations := fun _ => [d, e] } PName.all D, (computeAll_iff ..).2 ⟨D, ?_, rfl⟩, ?_⟩
  · intro p
    apply line_steps { lineObj with deformations := fun _ => [d, e] } p (A p).1 (A p).2 d e v1
    · show lineObj.parameters p = _
      rw [v2]; cases p <;> simp [A]
    · exact (v3 p).1
    · exact (v3 p).2.1
    · exact (v3 p).2.2.1
    · exact (v3 p).2.2.2
    · rfl
  · simp only [result, hall, if_true, D, A]

theorem Sample.line_even : EvenFit lineObj.radii none (lineObj.nbasis .chord) ∧ 1 ≤ lineObj.degree .chord ∧ lineObj.radii.Pairwise (· ≤ ·) := by
  obtain ⟨v1, v2, v3, v4⟩ := lineObj_values
  rw [(v3 .chord).1, (v3 .chord).2.1, v1]
  refine ⟨Or.inr ⟨by simp, ⟨0.5, 1, ?_⟩, by simp⟩, by simp, by norm_num⟩
  simp [linspaceN, List.range_succ]
  norm_num

/-- A distribution that falls from 0.4 to 0.2, through the level 0.3. -/
example : ∃ s', computeAll none (fun _ => 0.001) lineObj = (s', .ok ()) ∧ (∃ cp, s'.controlPoints .chord = some cp) ∧
    ∃ vals : List ℝ, vals.Sublist (s'.deformed .chord) ∧ vals.length = 2 ∧ Alternates (vals.map fun y => y - 0.3) := by
  obtain ⟨s', h, h', _⟩ := lineObj_all
  refine ⟨s', h, ?_, [0.4, 0.2], by rw [h'], rfl, ?_, ?_⟩
  · have hall : ∀ p, p ∈ PName.all := by intro p; cases p <;> simp [PName.all]
    obtain ⟨D, hD, rfl⟩ := (computeAll_iff ..).1 h
    exact ⟨(D .chord).1, by simp only [result, hall, if_true]⟩
  · norm_num
  · norm_num

/-- A change of the deformations that goes up at the hub and down at the tip, with the reaction. -/
example : ∃ s' t, computeAll none (fun _ => 0.001) lineObj = (s', .ok ()) ∧
    computeAll none (fun _ => 0.001) { lineObj with deformations := fun _ => [1.1, -1.2] } = (t, .ok ()) ∧
    ∃ vals : List ℝ, vals.Sublist (List.zipWith (fun a b => a - b) (t.deformed .chord) (s'.deformed .chord)) ∧ vals.length = 2 ∧ Alternates vals := by
  obtain ⟨s', h, h', _⟩ := lineObj_all
  obtain ⟨t, ht, ht'⟩ := Sample.line_moved 1.1 (-1.2)
  refine ⟨s', t, h, ht, [1, -1], ?_, rfl, ?_, ?_⟩
  · rw [h', ht']; norm_num
  · norm_num
  · norm_num

end
end BladeX
