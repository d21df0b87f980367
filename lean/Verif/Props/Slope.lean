import Mathlib.Topology.MetricSpace.Lipschitz
import Verif.Spec.Slope
import Verif.Props.DeformExact
import Verif.Props.DeformVariation

/-! # C154: a curve is nowhere steeper than its control polygon -/

namespace BladeX
noncomputable section
open Spec Classical BSpline Deform

theorem curve_slope {c k : Nat} (hk : k < c) {x y : ℝ} (h0 : 0 ≤ x) (hxy : x ≤ y) (h1 : y ≤ (c : ℝ) - k) (a b : Nat → ℝ) (K : ℝ)
    (ha : ∀ i, i + 1 < c → |b (i + 1) - b i| ≤ K * (a (i + 1) - a i)) :
    |∑ i ∈ Finset.range c, coxDeBoor (clampedKnot c k) c k i y * b i - ∑ i ∈ Finset.range c, coxDeBoor (clampedKnot c k) c k i x * b i| ≤
      K * (∑ i ∈ Finset.range c, coxDeBoor (clampedKnot c k) c k i y * a i - ∑ i ∈ Finset.range c, coxDeBoor (clampedKnot c k) c k i x * a i) := by
  have k1 := curve_mono hk h0 hxy h1 (fun i => K * a i - b i) (by
    intro i hi
    have := (abs_le.1 (ha i hi)).2
    linarith)
  have k2 := curve_mono hk h0 hxy h1 (fun i => K * a i + b i) (by
    intro i hi
    have := (abs_le.1 (ha i hi)).1
    linarith)
  have e1 : ∀ z, ∑ i ∈ Finset.range c, coxDeBoor (clampedKnot c k) c k i z * (K * a i - b i) =
      K * ∑ i ∈ Finset.range c, coxDeBoor (clampedKnot c k) c k i z * a i - ∑ i ∈ Finset.range c, coxDeBoor (clampedKnot c k) c k i z * b i := by
    intro z
    rw [Finset.mul_sum, ← Finset.sum_sub_distrib]
    exact Finset.sum_congr rfl fun i _ => by ring
  have e2 : ∀ z, ∑ i ∈ Finset.range c, coxDeBoor (clampedKnot c k) c k i z * (K * a i + b i) =
      K * ∑ i ∈ Finset.range c, coxDeBoor (clampedKnot c k) c k i z * a i + ∑ i ∈ Finset.range c, coxDeBoor (clampedKnot c k) c k i z * b i := by
    intro z
    rw [Finset.mul_sum, ← Finset.sum_add_distrib]
    exact Finset.sum_congr rfl fun i _ => by ring
  rw [e1, e1] at k1
  rw [e2, e2] at k2
  rw [abs_le]
  constructor <;> linarith

/-- Every computed point is the point of the curve at a parameter. -/
theorem point_param {cv out : List Pt} {n k : Int} (h : scipyBspline cv n k = .ok out) {q : Pt} (hq : q ∈ out) :
    k.toNat < cv.length ∧ ∃ u : ℝ, 0 ≤ u ∧ u ≤ (cv.length : ℝ) - k.toNat ∧
      q.1 = ∑ i ∈ Finset.range cv.length, coxDeBoor (clampedKnot cv.length k.toNat) cv.length k.toNat i u * (cv.map Prod.fst).getD i 0 ∧
      q.2 = ∑ i ∈ Finset.range cv.length, coxDeBoor (clampedKnot cv.length k.toNat) cv.length k.toNat i u * (cv.map Prod.snd).getD i 0 := by
  obtain ⟨N, rfl⟩ := Deform.npoints_nat h
  have hd : ¬ (k < 0 ∨ 5 < k) := by
    intro hb
    simp [scipyBspline, hb, bind, Except.bind, throw, throwThe, MonadExceptOf.throw] at h
  have hk : k.toNat < cv.length := by
    by_contra hb
    rw [not_lt] at hb
    have hN : ¬ ((N : Int) < 0) := by omega
    simp [scipyBspline, hd, hb, linspace, hN, bind, Except.bind, throw, throwThe, MonadExceptOf.throw, pure, Except.pure] at h
  obtain ⟨m, rfl⟩ : ∃ m : Nat, k = m := ⟨k.toNat, by omega⟩
  simp only [Int.toNat_natCast] at hk ⊢
  obtain ⟨out', ho, hl, hget⟩ := C34_curve cv N m hk (by omega)
  rw [h] at ho
  obtain rfl := Except.ok.inj ho
  obtain ⟨j, hj, rfl⟩ := List.getElem_of_mem hq
  refine ⟨hk, paramAt cv.length m N j, (paramAt_mem hk (by omega)).1, (paramAt_mem hk (by omega)).2, ?_, ?_⟩
  · rw [hget j hj, Deform.bsplinePoint_coord Prod.fst (Or.inl rfl), coordAt, List.length_map]
  · rw [hget j hj, Deform.bsplinePoint_coord Prod.snd (Or.inr rfl), coordAt, List.length_map]

/-- **C154** no chord of the curve of a polygon is steeper than the polygon, whatever the numbers of points the curve is sampled with. -/
theorem C154_chords (cv : List Pt) (K : ℝ) (hK : LegsWithin K cv) (degree n n' : Int) (sp sp' : List Pt)
    (h : scipyBspline cv n degree = .ok sp) (h' : scipyBspline cv n' degree = .ok sp') :
    ∀ q ∈ sp, ∀ q' ∈ sp', |q'.2 - q.2| ≤ K * |q'.1 - q.1| := by
  intro q hq q' hq'
  obtain ⟨hk, u, u0, u1, ux, uy⟩ := point_param h hq
  obtain ⟨-, v, v0, v1, vx, vy⟩ := point_param h' hq'
  have hx : ∀ i, i + 1 < cv.length → (cv.map Prod.fst).getD i 0 ≤ (cv.map Prod.fst).getD (i + 1) 0 := by
    intro i hi
    rw [getD_lt (by simp; omega), getD_lt (by simpa using hi), List.getElem_map, List.getElem_map]
    exact (hK i hi).1
  have hs : ∀ i, i + 1 < cv.length → |(cv.map Prod.snd).getD (i + 1) 0 - (cv.map Prod.snd).getD i 0| ≤
      K * ((cv.map Prod.fst).getD (i + 1) 0 - (cv.map Prod.fst).getD i 0) := by
    intro i hi
    rw [getD_lt (by simp; omega), getD_lt (by simp; omega), getD_lt (by simp; omega), getD_lt (by simp; omega)]
    simp only [List.getElem_map]
    exact (hK i hi).2
  rw [ux, uy, vx, vy]
  rcases le_total u v with huv | huv
  · rw [abs_of_nonneg (a := _ - ∑ i ∈ Finset.range cv.length, coxDeBoor (clampedKnot cv.length degree.toNat) cv.length degree.toNat i u * (cv.map Prod.fst).getD i 0)
      (sub_nonneg.2 (curve_mono hk u0 huv v1 _ hx))]
    exact curve_slope hk u0 huv v1 _ _ K hs
  · rw [abs_sub_comm, abs_sub_comm (∑ i ∈ Finset.range cv.length, coxDeBoor (clampedKnot cv.length degree.toNat) cv.length degree.toNat i v * (cv.map Prod.fst).getD i 0),
      abs_of_nonneg (a := _ - ∑ i ∈ Finset.range cv.length, coxDeBoor (clampedKnot cv.length degree.toNat) cv.length degree.toNat i v * (cv.map Prod.fst).getD i 0)
      (sub_nonneg.2 (curve_mono hk v0 huv u1 _ hx))]
    exact curve_slope hk v0 huv u1 _ _ K hs

/-- **C154** the slopes of the chords of the curve lie between the least and the greatest slope of the polygon, from left to right. -/
theorem C154_between (cv : List Pt) (m M : ℝ) (hK : LegsBetween m M cv) (degree n n' : Int) (sp sp' : List Pt)
    (h : scipyBspline cv n degree = .ok sp) (h' : scipyBspline cv n' degree = .ok sp') :
    ∀ q ∈ sp, ∀ q' ∈ sp', q.1 < q'.1 → m * (q'.1 - q.1) ≤ q'.2 - q.2 ∧ q'.2 - q.2 ≤ M * (q'.1 - q.1) := by
  intro q hq q' hq' hlt
  obtain ⟨hk, u, u0, u1, ux, uy⟩ := point_param h hq
  obtain ⟨-, v, v0, v1, vx, vy⟩ := point_param h' hq'
  have hx : ∀ i, i + 1 < cv.length → (cv.map Prod.fst).getD i 0 ≤ (cv.map Prod.fst).getD (i + 1) 0 := by
    intro i hi
    rw [getD_lt (by simp; omega), getD_lt (by simpa using hi), List.getElem_map, List.getElem_map]
    exact (hK i hi).1
  have hs : ∀ i, i + 1 < cv.length → |((cv.map Prod.snd).getD (i + 1) 0 - (m + M) / 2 * (cv.map Prod.fst).getD (i + 1) 0) -
      ((cv.map Prod.snd).getD i 0 - (m + M) / 2 * (cv.map Prod.fst).getD i 0)| ≤
      (M - m) / 2 * ((cv.map Prod.fst).getD (i + 1) 0 - (cv.map Prod.fst).getD i 0) := by
    intro i hi
    rw [getD_lt (l := cv.map Prod.snd) (i := i + 1) (by simp; omega), getD_lt (l := cv.map Prod.snd) (i := i) (by simp; omega),
      getD_lt (l := cv.map Prod.fst) (i := i + 1) (by simp; omega), getD_lt (l := cv.map Prod.fst) (i := i) (by simp; omega)]
    simp only [List.getElem_map]
    obtain ⟨a, b, c⟩ := hK i hi
    rw [abs_le]
    constructor <;> linarith
  have huv : u ≤ v := by
    by_contra hb
    have := curve_mono hk v0 (not_le.1 hb).le u1 _ hx
    rw [← ux, ← vx] at this
    linarith
  have e : ∀ z, ∑ i ∈ Finset.range cv.length, coxDeBoor (clampedKnot cv.length degree.toNat) cv.length degree.toNat i z *
      ((cv.map Prod.snd).getD i 0 - (m + M) / 2 * (cv.map Prod.fst).getD i 0) =
      ∑ i ∈ Finset.range cv.length, coxDeBoor (clampedKnot cv.length degree.toNat) cv.length degree.toNat i z * (cv.map Prod.snd).getD i 0 -
      (m + M) / 2 * ∑ i ∈ Finset.range cv.length, coxDeBoor (clampedKnot cv.length degree.toNat) cv.length degree.toNat i z * (cv.map Prod.fst).getD i 0 := by
    intro z
    rw [Finset.mul_sum, ← Finset.sum_sub_distrib]
    exact Finset.sum_congr rfl fun i _ => by ring
  have key := curve_slope hk u0 huv v1 (fun i => (cv.map Prod.fst).getD i 0) (fun i => (cv.map Prod.snd).getD i 0 - (m + M) / 2 * (cv.map Prod.fst).getD i 0) _ hs
  simp only [e] at key
  rw [← ux, ← uy, ← vx, ← vy, abs_le] at key
  constructor <;> linarith [key.1, key.2]

/-- **C154** the curve is the graph of one function that is nowhere steeper than the polygon: whatever the number of points is, all points computed lie on it. -/
theorem C154_graph (cv : List Pt) (K : ℝ) (h0 : 0 ≤ K) (hK : LegsWithin K cv) (degree : Int) :
    ∃ f, SlopeWithin K f ∧ ∀ n sp, scipyBspline cv n degree = .ok sp → ∀ q ∈ sp, q.2 = f q.1 := by
  set S : Set Pt := {q | ∃ n sp, scipyBspline cv n degree = .ok sp ∧ q ∈ sp} with hS
  have key : ∀ q ∈ S, ∀ q' ∈ S, |q'.2 - q.2| ≤ K * |q'.1 - q.1| := by
    rintro q ⟨n, sp, h, hq⟩ q' ⟨n', sp', h', hq'⟩
    exact C154_chords cv K hK degree n n' sp sp' h h' q hq q' hq'
  have hex : ∀ x : ℝ, ∃ y : ℝ, (∃ z, (x, z) ∈ S) → (x, y) ∈ S := by
    intro x
    by_cases hx : ∃ z, (x, z) ∈ S
    · exact ⟨hx.choose, fun _ => hx.choose_spec⟩
    · exact ⟨0, fun h => absurd h hx⟩
  choose f hf using hex
  have hL : LipschitzOnWith ⟨K, h0⟩ f {x | ∃ z, (x, z) ∈ S} := by
    apply LipschitzOnWith.of_dist_le_mul
    intro x hx y hy
    rw [Real.dist_eq, Real.dist_eq]
    exact key _ (hf y hy) _ (hf x hx)
  obtain ⟨g, hg, he⟩ := hL.extend_real
  refine ⟨g, fun x y => ?_, ?_⟩
  · have := hg.dist_le_mul x y
    rwa [Real.dist_eq, Real.dist_eq] at this
  · intro n sp h q hq
    have hq' : q ∈ S := ⟨n, sp, h, hq⟩
    rw [← he (show q.1 ∈ {x | ∃ z, (x, z) ∈ S} from ⟨q.2, hq'⟩)]
    have h1 := key _ (hf q.1 ⟨q.2, hq'⟩) _ hq'
    simp only [sub_self, abs_zero, mul_zero, abs_nonpos_iff] at h1
    linarith

namespace Deform

/-- **C154** the values a computation stores are those of one function, determined by the control points and the degree alone and nowhere steeper than the
polygon, up to `K` times the tolerance: neither the number of spline points nor the tolerance can move a value farther. -/
theorem C154_values (cv : List Pt) (K : ℝ) (h0 : 0 ≤ K) (hK : LegsWithin K cv) (degree : Int) :
    ∃ f, SlopeWithin K f ∧ ∀ (s s' : Deform) (rbf : Option Int) (tol : PName → ℝ) (p : PName), computeAll rbf tol s = (s', .ok ()) →
      s.degree p = degree → s'.controlPoints p = some cv → (s.deformed p).length = s.radii.length →
      (s'.deformed p).length = s.radii.length ∧ ∀ i (hi : i < s.radii.length) (hi' : i < (s'.deformed p).length),
        |(s'.deformed p)[i] - f s.radii[i]| ≤ K * tol p := by
  obtain ⟨f, hf, hg⟩ := C154_graph cv K h0 hK degree
  refine ⟨f, hf, ?_⟩
  intro s s' rbf tol p h hd hc hl
  have hall : ∀ p, p ∈ PName.all := by intro p; cases p <;> simp [PName.all]
  obtain ⟨D, hD, rfl⟩ := (computeAll_iff ..).1 h
  obtain ⟨cp, e1, e2, e3, e4, e5⟩ := hD p
  have hD' : (result s PName.all D).deformed p = (D p).2.2 := by simp [result, hall]
  have hC' : (result s PName.all D).controlPoints p = some (D p).1 := by simp [result, hall]
  rw [hC', Option.some.injEq] at hc
  rw [hc, hd] at e4
  rw [hD']
  obtain ⟨v1, v2⟩ := values_on hl e5 f (hg _ _ e4)
  refine ⟨v1, fun i hi hi' => ?_⟩
  obtain ⟨x, hx, he⟩ := v2 i hi hi'
  rw [he]
  exact (hf _ _).trans (mul_le_mul_of_nonneg_left hx.le h0)

/-- **C154** the values of two sections differ by at most `K` times their distance in radius and twice the tolerance. -/
theorem C154_sections (s s' : Deform) (rbf : Option Int) (tol : PName → ℝ) (h : computeAll rbf tol s = (s', .ok ())) (p : PName)
    (hl : (s.deformed p).length = s.radii.length) (cv : List Pt) (hc : s'.controlPoints p = some cv) (K : ℝ) (h0 : 0 ≤ K) (hK : LegsWithin K cv)
    (i j : Nat) (hi : i < s.radii.length) (hj : j < s.radii.length) (hi' : i < (s'.deformed p).length) (hj' : j < (s'.deformed p).length) :
    |(s'.deformed p)[i] - (s'.deformed p)[j]| ≤ K * (|s.radii[i] - s.radii[j]| + 2 * tol p) := by
  obtain ⟨f, hf, hv⟩ := C154_values cv K h0 hK (s.degree p)
  obtain ⟨-, v⟩ := hv s s' rbf tol p h rfl hc hl
  have a := abs_le.1 (v i hi hi')
  have b := abs_le.1 (v j hj hj')
  have c := abs_le.1 (hf s.radii[i] s.radii[j])
  rw [abs_le]
  constructor <;> linarith [a.1, a.2, b.1, b.2, c.1, c.2]

/-- **C154** computing the same parameter with another number of spline points and another tolerance moves no value by more than `K` times the sum of
the tolerances. -/
theorem C154_resampled (s s' t t' : Deform) (rbf : Option Int) (tol tol' : PName → ℝ) (h : computeAll rbf tol s = (s', .ok ()))
    (ht : computeAll rbf tol' t = (t', .ok ())) (p : PName) (hl : (s.deformed p).length = s.radii.length) (hlt : (t.deformed p).length = t.radii.length)
    (hr : t.radii = s.radii) (hp : t.parameters p = s.parameters p) (hn : t.nbasis p = s.nbasis p) (hd : t.degree p = s.degree p)
    (hm : t.deformations p = s.deformations p) (cv : List Pt) (hc : s'.controlPoints p = some cv) (K : ℝ) (h0 : 0 ≤ K) (hK : LegsWithin K cv) :
    t'.controlPoints p = some cv ∧ ∀ i (hi : i < (s'.deformed p).length) (hi' : i < (t'.deformed p).length),
      |(s'.deformed p)[i] - (t'.deformed p)[i]| ≤ K * (tol p + tol' p) := by
  have hall : ∀ p, p ∈ PName.all := by intro p; cases p <;> simp [PName.all]
  have hct : t'.controlPoints p = some cv := by
    obtain ⟨D, hD, rfl⟩ := (computeAll_iff ..).1 h
    obtain ⟨E, hE, rfl⟩ := (computeAll_iff ..).1 ht
    obtain ⟨cp, e1, e2, e3, e4, e5⟩ := hD p
    obtain ⟨cq, g1, g2, g3, g4, g5⟩ := hE p
    rw [hr, hp, hn, hd, e1, Except.ok.injEq] at g1
    subst g1
    rw [hm, ← e3] at g3
    rw [← hc]
    simp [result, hall, g3]
  obtain ⟨f, hf, hv⟩ := C154_values cv K h0 hK (s.degree p)
  obtain ⟨l1, v⟩ := hv s s' rbf tol p h rfl hc hl
  obtain ⟨l2, w⟩ := hv t t' rbf tol' p ht hd hct hlt
  refine ⟨hct, fun i hi hi' => ?_⟩
  have a := abs_le.1 (v i (by omega) hi)
  have b := w i (by omega) hi'
  simp only [hr] at b
  have b := abs_le.1 b
  rw [abs_le]
  constructor <;> linarith [a.1, a.2, b.1, b.2]

/-- **C154** a distribution that rises along its control points with slopes of at least `m > 0` still rises from section to section, by at least `m` times
the distance less twice the tolerance. -/
theorem C154_rises (s s' : Deform) (rbf : Option Int) (tol : PName → ℝ) (h : computeAll rbf tol s = (s', .ok ())) (p : PName)
    (hl : (s.deformed p).length = s.radii.length) (cv : List Pt) (hc : s'.controlPoints p = some cv) (m M : ℝ) (h0 : 0 < m) (hK : LegsBetween m M cv)
    (i j : Nat) (hi : i < s.radii.length) (hj : j < s.radii.length) (hi' : i < (s'.deformed p).length) (hj' : j < (s'.deformed p).length)
    (hr : s.radii[i] + 2 * tol p ≤ s.radii[j]) :
    (s'.deformed p)[i] < (s'.deformed p)[j] ∧ m * (s.radii[j] - s.radii[i] - 2 * tol p) < (s'.deformed p)[j] - (s'.deformed p)[i] := by
  have hall : ∀ p, p ∈ PName.all := by intro p; cases p <;> simp [PName.all]
  obtain ⟨D, hD, rfl⟩ := (computeAll_iff ..).1 h
  obtain ⟨cp, e1, e2, e3, e4, e5⟩ := hD p
  have hC' : (result s PName.all D).controlPoints p = some (D p).1 := by simp [result, hall]
  have hD' : (result s PName.all D).deformed p = (D p).2.2 := by simp [result, hall]
  rw [hC', Option.some.injEq] at hc
  rw [hc] at e4
  simp only [hD'] at hi' hj' ⊢
  obtain ⟨v1, hv⟩ := (loop_values hl).1 e5
  have pick : ∀ i (hi : i < s.radii.length) (hi' : i < (D p).2.2.length), ∃ q ∈ (D p).2.1, |q.1 - s.radii[i]| < tol p ∧ (D p).2.2[i] = q.2 := by
    intro i hi hi'
    have hex := v1 s.radii[i] (List.getElem_mem hi)
    have hlt : ((D p).2.1.map Prod.fst).findIdx (fun x => decide (|x - s.radii[i]| < tol p)) < ((D p).2.1.map Prod.fst).length := by
      obtain ⟨x, hx, hr⟩ := hex
      exact List.findIdx_lt_length.2 ⟨x, hx, by simpa using hr⟩
    have g := List.findIdx_getElem (w := hlt)
    rw [decide_eq_true_eq, List.getElem_map] at g
    refine ⟨_, List.getElem_mem _, g, ?_⟩
    simp only [hv, List.getElem_map]
    rw [getD_lt (by simpa using hlt)]
  obtain ⟨q, hq, a1, a2⟩ := pick i hi hi'
  obtain ⟨q', hq', b1, b2⟩ := pick j hj hj'
  rw [abs_lt] at a1 b1
  have hlt : q.1 < q'.1 := by linarith [a1.1, a1.2, b1.1, b1.2]
  obtain ⟨c1, -⟩ := C154_between cv m M hK _ _ _ _ _ e4 e4 q hq q' hq' hlt
  rw [a2, b2]
  have g1 : 0 < m * (q'.1 - q.1) := mul_pos h0 (by linarith)
  have g2 : m * (s.radii[j] - s.radii[i] - 2 * tol p) < m * (q'.1 - q.1) := mul_lt_mul_of_pos_left (by linarith [a1.1, a1.2, b1.1, b1.2]) h0
  constructor <;> linarith

end Deform

/-! ## The hypotheses are met -/

/-- Three control points, of slopes 2 and 1. -/
def gentle : List Pt := [(0, 0), (1, 2), (3, 4)]

theorem gentle_within : LegsWithin 2 gentle := by
  intro i hi
  have : i = 0 ∨ i = 1 := by simp [gentle] at hi; omega
  rcases this with rfl | rfl <;> norm_num [gentle]

/-- The quadratic curve of these control points exists, with any number of points, and none of its chords is steeper than 2. -/
example (n n' : Nat) : ∃ sp sp', scipyBspline gentle n 2 = .ok sp ∧ scipyBspline gentle n' 2 = .ok sp' ∧ sp.length = n ∧ sp'.length = n' ∧
    ∀ q ∈ sp, ∀ q' ∈ sp', |q'.2 - q.2| ≤ 2 * |q'.1 - q.1| := by
  obtain ⟨sp, h, hl, -⟩ := C34_curve gentle n 2 (by simp [gentle]) (by norm_num)
  obtain ⟨sp', h', hl', -⟩ := C34_curve gentle n' 2 (by simp [gentle]) (by norm_num)
  exact ⟨sp, sp', h, h', hl, hl', C154_chords gentle 2 gentle_within 2 n n' sp sp' h h'⟩

/-- The slopes of that polygon are 2 and 1. -/
theorem gentle_between : LegsBetween 1 2 gentle := by
  intro i hi
  have : i = 0 ∨ i = 1 := by simp [gentle] at hi; omega
  rcases this with rfl | rfl <;> norm_num [gentle]

example : ∃ sp, scipyBspline gentle 50 2 = .ok sp ∧ ∀ q ∈ sp, ∀ q' ∈ sp, q.1 < q'.1 → 1 * (q'.1 - q.1) ≤ q'.2 - q.2 ∧ q'.2 - q.2 ≤ 2 * (q'.1 - q.1) := by
  obtain ⟨sp, h, hl, -⟩ := C34_curve gentle 50 2 (by simp [gentle]) (by norm_num)
  exact ⟨sp, h, C154_between gentle 1 2 gentle_between 2 _ _ sp sp h h⟩

/-- With a smaller bound than the steepest leg the claim fails: the chord over the first leg of the polygon itself, as a curve of degree 1. -/
example : ¬ LegsWithin 1 gentle := by
  intro h
  have := (h 0 (by simp [gentle])).2
  norm_num [gentle] at this

/-- The chord falls from 0.4 at the radius 0.5 to 0.2 at the radius 1; its control points have the slope 0.4. -/
theorem Sample.line_gentle : ∃ s', computeAll none (fun _ => 0.001) lineObj = (s', .ok ()) ∧ s'.controlPoints .chord = some [(0.5, 0.4), (1, 0.2)] ∧
    s'.deformed .chord = [0.4, 0.2] ∧ LegsWithin 0.4 [(0.5, 0.4), (1, 0.2)] := by
  obtain ⟨s', h, h', _⟩ := lineObj_all
  have hall : ∀ p, p ∈ PName.all := by intro p; cases p <;> simp [PName.all]
  refine ⟨s', h, ?_, h', ?_⟩
  · obtain ⟨D, hD, rfl⟩ := (computeAll_iff ..).1 h
    obtain ⟨v1, v2, v3, v4⟩ := lineObj_values
    obtain ⟨cp, e1, e2, e3, e4, e5⟩ := hD .chord
    obtain ⟨cq, f1, f2, f3, f4, f5⟩ := line_steps lineObj .chord 0.3 0.4 0.1 (-0.2) v1 (by rw [v2]; simp) (v3 _).1 (v3 _).2.1 (v3 _).2.2.1 (v3 _).2.2.2
      (by rw [v4]; simp)
    rw [e1, Except.ok.injEq] at f1
    subst f1
    rw [← f3] at e3
    simp only [result, hall, if_true, e3]
    norm_num
  · intro i hi
    have : i = 0 := by simp at hi; omega
    subst this
    norm_num [abs_of_neg]

/-- The theorems on values apply to that computation; there the bound on the difference of the sections is 0.4 · (0.5 + 0.002). -/
example : ∃ s' cv, computeAll none (fun _ => 0.001) lineObj = (s', .ok ()) ∧ s'.controlPoints .chord = some cv ∧ LegsWithin 0.4 cv ∧
    (lineObj.deformed .chord).length = lineObj.radii.length ∧ ∃ (h0 : 0 < (s'.deformed .chord).length) (h1 : 1 < (s'.deformed .chord).length),
      |(s'.deformed .chord)[0] - (s'.deformed .chord)[1]| ≤ 0.4 * (|(0.5 : ℝ) - 1| + 2 * 0.001) := by
  obtain ⟨s', h, hc, hd, hg⟩ := Sample.line_gentle
  obtain ⟨v1, -⟩ := lineObj_values
  have hl := lineObj_lengths .chord
  have b := C154_sections lineObj s' none (fun _ => 0.001) h .chord hl _ hc 0.4 (by norm_num) hg 0 1 (by simp [v1]) (by simp [v1]) (by simp [hd]) (by simp [hd])
  refine ⟨s', _, h, hc, hg, hl, by simp [hd], by simp [hd], ?_⟩
  simpa [v1] using b

/-- A chord that rises from 0.4 to 0.6: the control points, and the theorem on rising distributions applied to them. -/
example : ∃ t cv, computeAll none (fun _ => 0.001) { lineObj with deformations := fun _ => [0.1, 0.2] } = (t, .ok ()) ∧
    t.controlPoints .chord = some cv ∧ LegsBetween 0.4 0.4 cv ∧ ∃ (h0 : 0 < (t.deformed .chord).length) (h1 : 1 < (t.deformed .chord).length),
      (t.deformed .chord)[0] < (t.deformed .chord)[1] ∧ (0.4 : ℝ) * ((1 : ℝ) - (0.5 : ℝ) - 2 * (0.001 : ℝ)) < (t.deformed .chord)[1] - (t.deformed .chord)[0] := by
  obtain ⟨t, h, hd⟩ := Sample.line_moved 0.1 0.2
  obtain ⟨v1, v2, v3, v4⟩ := lineObj_values
  have hall : ∀ p, p ∈ PName.all := by intro p; cases p <;> simp [PName.all]
  have hc : t.controlPoints .chord = some [(0.5, 0.3 + 0.1), (1, 0.4 + 0.2)] := by
    obtain ⟨D, hD, rfl⟩ := (computeAll_iff ..).1 h
    obtain ⟨cp, e1, e2, e3, e4, e5⟩ := hD .chord
    obtain ⟨cq, f1, f2, f3, f4, f5⟩ := line_steps { lineObj with deformations := fun _ => [0.1, 0.2] } .chord 0.3 0.4 0.1 0.2 v1 (by show lineObj.parameters .chord = _; simp [v2]) (v3 .chord).1
      (v3 .chord).2.1 (v3 .chord).2.2.1 (v3 .chord).2.2.2 rfl
    rw [e1, Except.ok.injEq] at f1
    subst f1
    rw [← f3] at e3
    simp only [result, hall, if_true, e3]
  have hg : LegsBetween 0.4 0.4 [(0.5, 0.3 + 0.1), (1, 0.4 + 0.2)] := by
    intro i hi
    have : i = 0 := by simp at hi; omega
    subst this
    norm_num
  have hl : (lineObj.deformed .chord).length = lineObj.radii.length := lineObj_lengths .chord
  have b := C154_rises { lineObj with deformations := fun _ => [0.1, 0.2] } t none (fun _ => 0.001) h .chord hl _ hc 0.4 0.4 (by norm_num) hg 0 1
    (by simp [v1]) (by simp [v1]) (by simp [hd]) (by simp [hd]) (by simp [v1]; norm_num)
  refine ⟨t, _, h, hc, hg, by simp [hd], by simp [hd], b.1, ?_⟩
  simpa [v1] using b.2

end
end BladeX
