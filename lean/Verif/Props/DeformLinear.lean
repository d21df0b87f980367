import Verif.Lemmas.DeformLinear
import Verif.Props.DeformResponse
import Verif.Props.DeformExport
import Verif.Props.Rbf

/-! # C87: fit, spline and deformed distributions are linear in the distributions and deformations -/

namespace BladeX
noncomputable section
open Spec Classical BSpline
namespace Deform

/-- `a` times the first plus `c` times the second array. -/
def combine (a c : ℝ) (u v : Arr) : Arr := List.zipWith (fun x y => a * x + c * y) u v

/-- Two polygons over the same abscissae, their ordinates combined. -/
def combinePts (a c : ℝ) (u v : List Pt) : List Pt := List.zipWith (fun p q => (p.1, a * p.2 + c * q.2)) u v

theorem combine_head {a c : ℝ} {u v : Arr} {x y : ℝ} (hx : u.head? = some x) (hy : v.head? = some y) :
    (combine a c u v).head? = some (a * x + c * y) := by
  rcases u with _ | ⟨x', u⟩ <;> rcases v with _ | ⟨y', v⟩ <;> simp_all [combine]

theorem combine_last {a c : ℝ} {u v : Arr} {x y : ℝ} (hl : u.length = v.length) (hx : u.getLast? = some x) (hy : v.getLast? = some y) :
    (combine a c u v).getLast? = some (a * x + c * y) := by
  rw [List.getLast?_eq_getElem?] at hx hy ⊢
  have e : (combine a c u v).length = u.length := by simp [combine, hl]
  rw [e, combine, List.getElem?_zipWith, hx, show u.length - 1 = v.length - 1 by omega, hy]

/-- **C87** the control points are linear in the distribution: for the same radii, the abscissae of the control points are the same for all
distributions, and the control ordinates of a combination of two distributions are the combination of the control ordinates. -/
theorem C87_fit_linear (X Y Z : Arr) (degree nbasis : Int) (rbf : Option Int) (cy cz : List Pt)
    (hy : optimum X Y degree nbasis rbf = .ok cy) (hz : optimum X Z degree nbasis rbf = .ok cz) (a c : ℝ) :
    cz.map Prod.fst = cy.map Prod.fst ∧ optimum X (combine a c Y Z) degree nbasis rbf = .ok (combinePts a c cy cz) := by
  obtain ⟨X₁, Y₁, hd₁, hn, cols, x0, xl, y0, yl, hb, h0, hl, hlen₁, k0, kl, rfl⟩ := (data_eq ..).1 hy
  obtain ⟨X₂, Z₁, hd₂, _, cols', x0', xl', z0, zl, hb', h0', hl', hlen₂, m0, ml, rfl⟩ := (data_eq ..).1 hz
  have hXX : X₂ = X₁ := by
    rcases hd₁ with ⟨r1, rfl, rfl⟩ | ⟨r1, b0, bl, c1, c2, rfl, c4⟩ <;> rcases hd₂ with ⟨r2, rfl, rfl⟩ | ⟨r2, b0', bl', c1', c2', rfl, c4'⟩
    · rfl
    · omega
    · omega
    · rw [c1] at c1'; rw [c2] at c2'
      obtain rfl := Option.some.inj c1'
      obtain rfl := Option.some.inj c2'
      rfl
  subst hXX
  rw [h0] at h0'; rw [hl] at hl'; rw [hb] at hb'
  obtain rfl := Option.some.inj h0'
  obtain rfl := Option.some.inj hl'
  obtain rfl := Except.ok.inj hb'
  have hYZ : Y₁.length = Z₁.length := by rw [hlen₁, hlen₂]
  have hI : ∀ V : Arr, ∀ p q : ℝ, (innerPts cols nbasis.toNat V p q).length = nbasis.toNat - 2 := fun V p q => innerPts_length ..
  constructor
  · rw [(fst_polygon (by rw [hI, hI]) _ _).1, (fst_polygon (by rw [hI, hI]) _ _).1]
  · rw [data_eq]
    refine ⟨X₂, combine a c Y₁ Z₁, ?_, hn, cols, x0, xl, a * y0 + c * z0, a * yl + c * zl, hb, h0, hl, by simp [combine, hlen₁, hlen₂],
      combine_head k0 m0, combine_last hYZ kl ml, ?_⟩
    · rcases hd₁ with ⟨r1, e1, rfl⟩ | ⟨r1, b0, bl, c1, c2, e3, c4⟩ <;> rcases hd₂ with ⟨r2, e2, rfl⟩ | ⟨r2, b0', bl', c1', c2', e3', c4'⟩
      · exact Or.inl ⟨r1, e1, rfl⟩
      · omega
      · omega
      · refine Or.inr ⟨r1, b0, bl, c1, c2, e3, ?_⟩
        exact C30_linear _ 2 (by norm_num) X Y Z X₂ Y₁ Z₁ a c c4 c4'
    · have e := innerPts_mix cols nbasis.toNat Y₁ Z₁ y0 z0 yl zl a c hYZ
      unfold combine
      rw [e]
      unfold combinePts
      rw [List.zipWith_cons_cons, List.zipWith_append (by simp [hI])]
      congr 2
      apply List.ext_getElem
      · simp [hI]
      · intro i h1 h2; simp

/-- What the loop over the radii stores. -/
theorem loop_values {sp : List Pt} {tol : ℝ} {rs : List ℝ} {d d' : Arr} (hl : d.length = rs.length) :
    deformLoop sp tol rs 0 d = (d', .ok ()) ↔
      (∀ r ∈ rs, ∃ x ∈ sp.map Prod.fst, |x - r| < tol) ∧
      d' = rs.map fun r => (sp.getD ((sp.map Prod.fst).findIdx fun x => decide (|x - r| < tol)) 0).2 := by
  have key : ∀ r q, sp.find? (fun q => decide (|q.1 - r| < tol)) = some q →
      q = sp.getD ((sp.map Prod.fst).findIdx fun x => decide (|x - r| < tol)) 0 := by
    intro r q hq
    rw [List.find?_eq_getElem?_findIdx] at hq
    rw [List.findIdx_map, List.getD_eq_getElem?_getD]
    have : ((fun x => decide (|x - r| < tol)) ∘ Prod.fst : Pt → Bool) = fun q => decide (|q.1 - r| < tol) := rfl
    rw [this, hq]; rfl
  constructor
  · intro h
    obtain ⟨a, _, _, e⟩ := loop_ok _ _ _ _ h
    refine ⟨?_, ?_⟩
    · intro r hr
      obtain ⟨j, hj, rfl⟩ := List.getElem_of_mem hr
      obtain ⟨q, hq, _⟩ := e j hj
      exact ⟨q.1, List.mem_map.2 ⟨q, List.mem_of_find?_eq_some hq, rfl⟩, by have := List.find?_some hq; simpa using this⟩
    · apply List.ext_getElem?
      intro j
      by_cases hj : j < rs.length
      · obtain ⟨q, hq, hv⟩ := e j hj
        rw [zero_add] at hv
        rw [hv, List.getElem?_map, List.getElem?_eq_getElem hj, Option.map_some, ← key _ _ hq]
      · rw [List.getElem?_eq_none (by omega), List.getElem?_eq_none (by simp; omega)]
  · rintro ⟨h1, rfl⟩
    obtain ⟨d', hd⟩ := loop_all (sp := sp) (tol := tol) rs 0 d (by omega) (by
      intro r hr
      obtain ⟨x, hx, ht⟩ := h1 r hr
      obtain ⟨q, hq, rfl⟩ := List.mem_map.1 hx
      exact ⟨q, hq, ht⟩)
    rw [hd]
    congr 1
    obtain ⟨a, _, _, e⟩ := loop_ok _ _ _ _ hd
    apply List.ext_getElem?
    intro j
    by_cases hj : j < rs.length
    · obtain ⟨q, hq, hv⟩ := e j hj
      rw [zero_add] at hv
      rw [hv, List.getElem?_map, List.getElem?_eq_getElem hj, Option.map_some, ← key _ _ hq]
    · rw [List.getElem?_eq_none (by omega), List.getElem?_eq_none (by simp; omega)]

/-- **C87** `compute_all` is linear: for two objects over the same radii, with the same numbers of control points, degrees and numbers of
spline points, the object with the combination `a y + c z` of their distributions and of their deformations computes the combination of
their control ordinates, spline ordinates and deformed values. -/
theorem C87_compute_all_linear (s₁ s₂ s₁' s₂' : Deform) (rbf : Option Int) (tol : PName → ℝ) (hr : s₂.radii = s₁.radii)
    (hb : s₂.nbasis = s₁.nbasis) (hd : s₂.degree = s₁.degree) (hp : s₂.npoints = s₁.npoints)
    (hl₁ : ∀ p, (s₁.deformed p).length = s₁.radii.length) (hl₂ : ∀ p, (s₂.deformed p).length = s₂.radii.length)
    (h₁ : computeAll rbf tol s₁ = (s₁', .ok ())) (h₂ : computeAll rbf tol s₂ = (s₂', .ok ())) (a c : ℝ) :
    ∃ t, computeAll rbf tol { s₁ with parameters := fun p => combine a c (s₁.parameters p) (s₂.parameters p), deformations := fun p => combine a c (s₁.deformations p) (s₂.deformations p) } = (t, .ok ()) ∧
      ∀ p, t.deformed p = combine a c (s₁'.deformed p) (s₂'.deformed p) ∧
        ∃ u v, s₁'.spline p = some u ∧ s₂'.spline p = some v ∧ v.map Prod.fst = u.map Prod.fst ∧ t.spline p = some (combinePts a c u v) := by
  have hall : ∀ p, p ∈ PName.all := by intro p; cases p <;> simp [PName.all]
  obtain ⟨E, hE, rfl⟩ := (computeAll_iff ..).1 h₁
  obtain ⟨F, hF, rfl⟩ := (computeAll_iff ..).1 h₂
  have one : ∀ p, (F p).2.1.map Prod.fst = (E p).2.1.map Prod.fst ∧
      Steps { s₁ with parameters := fun p => combine a c (s₁.parameters p) (s₂.parameters p), deformations := fun p => combine a c (s₁.deformations p) (s₂.deformations p) }
        rbf (tol p) p (combinePts a c (E p).1 (F p).1, combinePts a c (E p).2.1 (F p).2.1, combine a c (E p).2.2 (F p).2.2) := by
    intro p
    obtain ⟨cp, e1, e2, e3, e4, e5⟩ := hE p
    obtain ⟨cq, f1, f2, f3, f4, f5⟩ := hF p
    rw [hr, hb, hd] at f1
    rw [hp, hd] at f4
    rw [hr] at f5
    obtain ⟨g1, g2⟩ := C87_fit_linear _ _ _ _ _ _ _ _ e1 f1 a c
    have gl : cp.length = cq.length := by simpa using congrArg List.length g1.symm
    have hk : ¬ (s₁.degree p < 0 ∨ 5 < s₁.degree p) := by
      intro hk
      simp [scipyBspline, hk, bind, Except.bind, throw, throwThe, MonadExceptOf.throw] at e4
    have hn : ¬ s₁.npoints p < 0 := by
      intro hn
      simp [scipyBspline, hk, hn, linspace, bind, Except.bind, throw, throwThe, MonadExceptOf.throw] at e4
    have hc : ¬ (E p).1.length ≤ (s₁.degree p).toNat := by
      intro hc
      simp [scipyBspline, hk, hn, hc, linspace, bind, Except.bind, throw, throwThe, MonadExceptOf.throw] at e4
    obtain ⟨k, ek⟩ : ∃ m : Nat, s₁.degree p = m := ⟨(s₁.degree p).toNat, by omega⟩
    obtain ⟨n, en⟩ : ∃ m : Nat, s₁.npoints p = m := ⟨(s₁.npoints p).toNat, by omega⟩
    have hlE : (E p).1.length = cp.length := by rw [e3]; simp [e2]
    have hlF : (F p).1.length = cp.length := by rw [f3]; simp [f2]; omega
    have hkc : k < cp.length := by rw [ek] at hc; simp at hc; omega
    obtain ⟨W, w0, w1, w2, w3⟩ := curve_weights cp.length n k hkc (by omega)
    rw [ek, en] at e4 f4
    obtain ⟨u, hu, hul, huv⟩ := w3 (E p).1 hlE
    obtain rfl : (E p).2.1 = u := by rw [e4] at hu; exact Except.ok.inj hu
    obtain ⟨v, hv, hvl, hvv⟩ := w3 (F p).1 hlF
    obtain rfl : (F p).2.1 = v := by rw [f4] at hv; exact Except.ok.inj hv
    -- ordinates and abscissae of the control points
    have hcomb : (combinePts a c (E p).1 (F p).1).length = cp.length := by simp [combinePts, hlE, hlF]
    have hcomb' : combinePts a c (E p).1 (F p).1 = List.zipWith (fun (q : Pt) d => (q.1, q.2 + d)) (combinePts a c cp cq)
        (combine a c (s₁.deformations p) (s₂.deformations p)) := by
      rw [e3, f3]
      apply List.ext_getElem
      · simp [combinePts, combine, e2, f2]
      · intro i h1 h2
        simp only [combinePts, combine, List.getElem_zipWith]
        ext
        · rfl
        · simp only; ring
    have hfst : ∀ i, i < cp.length → ((F p).1.getD i 0).1 = ((E p).1.getD i 0).1 := by
      intro i hi
      rw [getD_lt (by omega), getD_lt (by omega)]
      have hq : i < cq.length := by omega
      have : (cq.map Prod.fst)[i]? = (cp.map Prod.fst)[i]? := by rw [g1]
      rw [List.getElem?_map, List.getElem?_map, List.getElem?_eq_getElem hq, List.getElem?_eq_getElem hi] at this
      have this : cq[i].1 = cp[i].1 := by simpa using this
      have k1 : (E p).1[i].1 = cp[i].1 := by simp [e3]
      have k2 : (F p).1[i].1 = cq[i].1 := by simp [f3]
      rw [k1, k2, this]
    have hab : (F p).2.1.map Prod.fst = (E p).2.1.map Prod.fst := by
      apply List.ext_getElem?
      intro j
      rw [List.getElem?_map, List.getElem?_map]
      by_cases hj : j < n
      · rw [huv j hj, hvv j hj]
        simp only [Option.map_some, Option.some.injEq]
        apply Finset.sum_congr rfl
        intro i hi
        rw [hfst i (Finset.mem_range.1 hi)]
      · rw [List.getElem?_eq_none (by omega), List.getElem?_eq_none (by omega)]
    obtain ⟨sp, hsp, hspl, hspv⟩ := w3 (combinePts a c (E p).1 (F p).1) hcomb
    have hcg : ∀ i, i < cp.length → (combinePts a c (E p).1 (F p).1).getD i 0 =
        (((E p).1.getD i 0).1, a * ((E p).1.getD i 0).2 + c * ((F p).1.getD i 0).2) := by
      intro i hi
      rw [getD_lt (by omega), getD_lt (by omega), getD_lt (by omega)]
      simp [combinePts]
    have hspe : sp = combinePts a c (E p).2.1 (F p).2.1 := by
      apply List.ext_getElem?
      intro j
      by_cases hj : j < n
      · have hz : (combinePts a c (E p).2.1 (F p).2.1)[j]? = _ := List.getElem?_zipWith
        rw [hspv j hj, hz, huv j hj, hvv j hj]
        simp only [Option.some.injEq]
        ext
        · simp only
          apply Finset.sum_congr rfl
          intro i hi
          rw [hcg i (Finset.mem_range.1 hi)]
        · simp only
          rw [Finset.mul_sum, Finset.mul_sum, ← Finset.sum_add_distrib]
          apply Finset.sum_congr rfl
          intro i hi
          rw [hcg i (Finset.mem_range.1 hi)]
          ring
      · rw [List.getElem?_eq_none (by omega), List.getElem?_eq_none (by simp [combinePts]; omega)]
    refine ⟨hab, combinePts a c cp cq, g2, ?_, hcomb', ?_, ?_⟩
    · simp [combinePts, combine, ← e2, ← f2]
    · show scipyBspline (combinePts a c (E p).1 (F p).1) (s₁.npoints p) (s₁.degree p) = .ok (combinePts a c (E p).2.1 (F p).2.1)
      rw [ek, en, ← hspe]; exact hsp
    · show deformLoop (combinePts a c (E p).2.1 (F p).2.1) (tol p) s₁.radii 0 (s₁.deformed p) = (combine a c (E p).2.2 (F p).2.2, .ok ())
      rw [loop_values (hl₁ p)] at e5 ⊢
      have hl₂' := hl₂ p
      rw [hr] at hl₂'
      rw [loop_values hl₂'] at f5
      have hcfst : (combinePts a c (E p).2.1 (F p).2.1).map Prod.fst = (E p).2.1.map Prod.fst := by
        apply List.ext_getElem
        · simp [combinePts]; omega
        · intro i h1 h2; simp [combinePts]
      rw [hcfst]
      refine ⟨e5.1, ?_⟩
      rw [e5.2, f5.2, hab]
      unfold combine
      rw [List.zipWith_map, List.zipWith_self]
      apply List.map_congr_left
      intro r hr'
      obtain ⟨x, hx, ht⟩ := e5.1 r hr'
      have hi : ((E p).2.1.map Prod.fst).findIdx (fun x => decide (|x - r| < tol p)) < n := by
        rw [← hul, ← List.length_map (f := Prod.fst)]
        exact List.findIdx_lt_length.2 ⟨x, hx, by simpa using ht⟩
      set J := ((E p).2.1.map Prod.fst).findIdx (fun x => decide (|x - r| < tol p))
      rw [getD_lt (by omega), getD_lt (by omega), getD_lt (by simp [combinePts]; omega)]
      simp [combinePts]
  refine ⟨_, (computeAll_iff ..).2 ⟨fun p => _, fun p => (one p).2, rfl⟩, ?_⟩
  intro p
  simp only [result, hall, if_true]
  exact ⟨trivial, _, _, rfl, rfl, (one p).1, rfl⟩

/-- **C86** consequences. Deformations between `lo` and `hi` change no value by less than `lo` or by more than `hi`, compared with the
undeformed computation; adding one number to all deformations of a parameter adds it to all its deformed values. -/
theorem C86_bounds (s : Deform) (rbf : Option Int) (tol : PName → ℝ) (hl : ∀ p, (s.deformed p).length = s.radii.length)
    (t : Deform) (ht : computeAll rbf tol s = (t, .ok ())) :
    (∀ (p : PName) (lo hi : ℝ), (∀ d ∈ s.deformations p, lo ≤ d ∧ d ≤ hi) →
      ∃ u, computeAll rbf tol { s with deformations := fun q => if q = p then List.replicate (s.deformations p).length 0 else s.deformations q } = (u, .ok ()) ∧
        ∀ i (hi' : i < (t.deformed p).length) (hu : i < (u.deformed p).length),
          (u.deformed p)[i] + lo ≤ (t.deformed p)[i] ∧ (t.deformed p)[i] ≤ (u.deformed p)[i] + hi) ∧
    (∀ (p : PName) (c : ℝ), ∃ u, computeAll rbf tol { s with deformations := fun q => if q = p then (s.deformations p).map (· + c) else s.deformations q } = (u, .ok ()) ∧
      u.deformed p = (t.deformed p).map (· + c) ∧ ∀ q, q ≠ p → u.deformed q = t.deformed q) := by
  obtain ⟨w, w0, w1, _, w3⟩ := C86_response s t rbf tol hl ht
  have hall : ∀ p, p ∈ PName.all := by intro p; cases p <;> simp [PName.all]
  have hlen : ∀ p, (t.deformed p).length = s.radii.length := by
    intro p
    obtain ⟨E, hE, rfl⟩ := (computeAll_iff ..).1 ht
    obtain ⟨_, _, _, _, _, e5⟩ := hE p
    obtain ⟨d1, _⟩ := loop_ok _ _ _ _ e5
    simp only [result, hall, if_true]
    rw [d1, hl]
  constructor
  · intro p lo hi hb
    obtain ⟨u, hu, hv⟩ := w3 (fun q => if q = p then List.replicate (s.deformations p).length 0 else s.deformations q) (by
      intro q; by_cases hq : q = p
      · subst hq; simp
      · simp [hq])
    refine ⟨u, hu, ?_⟩
    intro i hi' hiu
    have hir : i < s.radii.length := by rw [← hlen p]; exact hi'
    have := (hv p).2 i hir
    rw [List.getElem?_eq_getElem hiu, getD_lt hi'] at this
    have this := Option.some.inj this
    rw [this]
    simp only [if_true]
    have e : ∑ j ∈ Finset.range (s.deformations p).length, w p i j * ((List.replicate (s.deformations p).length (0 : ℝ)).getD j 0 - (s.deformations p).getD j 0) =
        -∑ j ∈ Finset.range (s.deformations p).length, w p i j * (s.deformations p).getD j 0 := by
      rw [← Finset.sum_neg_distrib]
      apply Finset.sum_congr rfl
      intro j hj
      rw [getD_lt (by simpa using Finset.mem_range.1 hj)]
      simp
    rw [e]
    have b : ∀ j ∈ Finset.range (s.deformations p).length, lo ≤ (s.deformations p).getD j 0 ∧ (s.deformations p).getD j 0 ≤ hi := by
      intro j hj
      rw [getD_lt (Finset.mem_range.1 hj)]
      exact hb _ (List.getElem_mem _)
    have l1 : lo ≤ ∑ j ∈ Finset.range (s.deformations p).length, w p i j * (s.deformations p).getD j 0 := by
      calc lo = ∑ j ∈ Finset.range (s.deformations p).length, w p i j * lo := by rw [← Finset.sum_mul, w1 p i hir, one_mul]
        _ ≤ _ := Finset.sum_le_sum fun j hj => mul_le_mul_of_nonneg_left (b j hj).1 (w0 p i j)
    have l2 : ∑ j ∈ Finset.range (s.deformations p).length, w p i j * (s.deformations p).getD j 0 ≤ hi := by
      calc _ ≤ ∑ j ∈ Finset.range (s.deformations p).length, w p i j * hi :=
            Finset.sum_le_sum fun j hj => mul_le_mul_of_nonneg_left (b j hj).2 (w0 p i j)
        _ = hi := by rw [← Finset.sum_mul, w1 p i hir, one_mul]
    constructor <;> linarith
  · intro p c
    obtain ⟨u, hu, hv⟩ := w3 (fun q => if q = p then (s.deformations p).map (· + c) else s.deformations q) (by
      intro q; by_cases hq : q = p
      · subst hq; simp
      · simp [hq])
    refine ⟨u, hu, ?_, ?_⟩
    · apply List.ext_getElem?
      intro i
      by_cases hi : i < s.radii.length
      · rw [(hv p).2 i hi, List.getElem?_map, List.getElem?_eq_getElem (by rw [hlen]; exact hi), Option.map_some, getD_lt (by rw [hlen]; exact hi)]
        congr 2
        simp only [if_true]
        have ec : ∑ j ∈ Finset.range (s.deformations p).length, w p i j * c = c := by rw [← Finset.sum_mul, w1 p i hi, one_mul]
        refine Eq.trans ?_ ec
        apply Finset.sum_congr rfl
        intro j hj
        have hj' := Finset.mem_range.1 hj
        rw [getD_lt (by simpa using hj'), getD_lt hj']
        simp
      · rw [List.getElem?_eq_none (by rw [(hv p).1]; omega), List.getElem?_eq_none (by simp [hlen]; omega)]
    · intro q hq
      apply List.ext_getElem?
      intro i
      by_cases hi : i < s.radii.length
      · rw [(hv q).2 i hi, List.getElem?_eq_getElem (by rw [hlen]; exact hi), getD_lt (by rw [hlen]; exact hi)]
        simp [hq]
      · rw [List.getElem?_eq_none (by rw [(hv q).1]; omega), List.getElem?_eq_none (by rw [hlen]; omega)]

/-- Non-vacuity, on the object of the complete computation: other deformations, a uniform shift, the object combined with itself. -/
theorem lineObj_lengths : ∀ p, (lineObj.deformed p).length = lineObj.radii.length := by
  intro p; rw [(lineObj_values.2.2.1 p).2.2.2, lineObj_values.1]; rfl

example : ∃ t, computeAll none (fun _ => 0.001) { lineObj with deformations := fun _ => [7, 8] } = (t, .ok ()) := by
  obtain ⟨s', h, _⟩ := lineObj_all
  obtain ⟨w, _, _, _, hw⟩ := C86_response _ _ _ _ lineObj_lengths h
  obtain ⟨t, ht, _⟩ := hw (fun _ => [7, 8]) (by intro p; rw [lineObj_values.2.2.2]; cases p <;> simp)
  exact ⟨t, ht⟩

example : ∃ s' u, computeAll none (fun _ => 0.001) lineObj = (s', .ok ()) ∧
    computeAll none (fun _ => 0.001) { lineObj with deformations := fun q => if q = .chord then (lineObj.deformations .chord).map (· + 5) else lineObj.deformations q } = (u, .ok ()) ∧
    u.deformed .chord = (s'.deformed .chord).map (· + 5) ∧ s'.deformed .chord = [0.4, 0.2] := by
  obtain ⟨s', h, h', _⟩ := lineObj_all
  obtain ⟨u, hu, hv, _⟩ := (C86_bounds _ _ _ lineObj_lengths _ h).2 .chord 5
  exact ⟨s', u, h, hu, hv, h'⟩

example : ∃ t, computeAll none (fun _ => 0.001) { lineObj with parameters := fun p => combine 3 4 (lineObj.parameters p) (lineObj.parameters p), deformations := fun p => combine 3 4 (lineObj.deformations p) (lineObj.deformations p) } = (t, .ok ()) ∧
    t.deformed .chord = combine 3 4 [0.4, 0.2] [0.4, 0.2] := by
  obtain ⟨s', h, h', _⟩ := lineObj_all
  obtain ⟨t, ht, hv⟩ := C87_compute_all_linear lineObj lineObj s' s' none _ rfl rfl rfl rfl lineObj_lengths lineObj_lengths h h 3 4
  exact ⟨t, ht, by rw [(hv .chord).1, h']⟩

example : ∃ cy cz, optimum [0, 1, 2] [0, 1, 2] 2 3 none = .ok cy ∧ optimum [0, 1, 2] [5, 1, 2] 2 3 none = .ok cz ∧
    optimum [0, 1, 2] (combine 2 3 [0, 1, 2] [5, 1, 2]) 2 3 none = .ok (combinePts 2 3 cy cz) := by
  obtain ⟨cy, hy⟩ := (C68_defined [0, 1, 2] [0, 1, 2] 2 3 none).2 (by simp)
  obtain ⟨cz, hz⟩ := (C68_defined [0, 1, 2] [5, 1, 2] 2 3 none).2 (by simp)
  exact ⟨cy, cz, hy, hz, (C87_fit_linear _ _ _ _ _ _ _ _ hy hz 2 3).2⟩

end Deform
end
end BladeX
