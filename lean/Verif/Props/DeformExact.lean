import Verif.Props.DeformUnique

/-! # C105: distributions that the deformation reproduces -/

namespace BladeX
noncomputable section
open Spec Classical BSpline
namespace Deform

/-- One coordinate of a curve. -/
theorem bsplinePoint_coord (f : Pt → ℝ) (hf : f = Prod.fst ∨ f = Prod.snd) (cv : List Pt) (k m j : Nat) :
    f (bsplinePoint cv k (j * (((cv.length : ℝ) - k) / (m - 1)))) = coordAt (cv.map f) k m j := by
  rw [coordAt, List.length_map, sum_getD]
  rcases hf with rfl | rfl <;> rfl

theorem coordAt_affine {v : List ℝ} {k m j : Nat} (hk : k < v.length) (hj : j < m) (a b : ℝ) :
    coordAt (v.map fun x => a + b * x) k m j = a + b * coordAt v k m j := by
  obtain ⟨l, hs, hkl, hlt⟩ := span_of hk (paramAt_mem (n := m) hk hj).1 (paramAt_mem (n := m) hk hj).2
  have h1 := cox_one (clampedKnot_mono hk) (clamped_tail hk) hs hlt k hkl
  unfold coordAt
  rw [List.length_map, Finset.mul_sum]
  have : a = ∑ i ∈ Finset.range v.length, coxDeBoor (clampedKnot v.length k) v.length k i (paramAt v.length k m j) * a := by
    rw [← Finset.sum_mul, h1, one_mul]
  conv_rhs => rw [this]
  rw [← Finset.sum_add_distrib]
  apply Finset.sum_congr rfl
  intro i hi
  rw [Finset.mem_range] at hi
  rw [getD_lt (by simpa using hi), getD_lt hi, List.getElem_map]
  ring

/-- The fitted data without radial basis functions. -/
theorem FitData.plain {X Y X' Y' : Arr} {rbf : Option Int} (h : FitData X Y rbf X' Y') (hr : rbf.getD 0 ≤ 0) : X' = X ∧ Y' = Y := by
  rcases h with ⟨-, rfl, rfl⟩ | ⟨h, -⟩
  · exact ⟨rfl, rfl⟩
  · omega

/-- **C105** the control points of a distribution that is linear in the radius lie on that line, whatever the radii are (no radial basis functions, at
least as many sections as control points). -/
theorem C105_line (X : Arr) (degree nbasis : Int) (rbf : Option Int) (hr : rbf.getD 0 ≤ 0) (hm : nbasis ≤ X.length) (a b : ℝ) (cv : List Pt)
    (h : optimum X (X.map fun r => a + b * r) degree nbasis rbf = .ok cv) : ∀ p ∈ cv, p.2 = a + b * p.1 := by
  obtain ⟨s1, s2, s3, s4⟩ := optimum_sizes h
  obtain ⟨X', Y', hd, -, ⟨x0, y0, xl, yl, e1, e2, e3, e4, e5, e6⟩, hbest⟩ := C68_optimal _ _ _ _ _ _ h
  obtain ⟨rfl, rfl⟩ := FitData.plain hd hr
  rw [List.head?_map, e1, Option.map_some, Option.some.injEq] at e2
  rw [List.getLast?_map, e3, Option.map_some, Option.some.injEq] at e4
  subst e2 e4
  -- the polygon over the same abscissae, on the line
  set cl : List Pt := cv.map fun p => (p.1, a + b * p.1) with hcl
  have l1 : cl.map Prod.fst = cv.map Prod.fst := by simp [hcl]
  have l2 : cl.map Prod.snd = (cv.map Prod.fst).map fun x => a + b * x := by simp [hcl]
  have lh : cl.head? = cv.head? := by rw [hcl, List.head?_map, e5]; rfl
  have ll : cl.getLast? = cv.getLast? := by rw [hcl, List.getLast?_map, e6]; rfl
  have scale : ∀ (c : List Pt), c.length = cv.length → (c.map Prod.snd = (c.map Prod.fst).map fun x => a + b * x) →
      sqErr Prod.snd c degree.toNat (X'.map fun r => a + b * r) = b ^ 2 * sqErr Prod.fst c degree.toNat X' := by
    intro c hc hm
    rw [sqErr_eq _ (Or.inr rfl), sqErr_eq _ (Or.inl rfl), hm, Finset.mul_sum, ← Fin.sum_congr' _ (List.length_map (as := X') fun r => a + b * r).symm]
    apply Finset.sum_congr rfl
    intro j _
    simp only [List.length_map, Fin.val_cast, Fin.getElem_fin, List.getElem_map]
    rw [coordAt_affine (by simp; omega) j.2]
    ring
  have key := (C100_unique X' _ degree nbasis rbf cv h X' _ hd hm cl (by simp [hcl]) lh ll).2 (by
    by_cases hb : b = 0
    · rw [scale cl (by simp [hcl]) (by rw [l1, l2]), hb]
      simp only [ne_eq, OfNat.ofNat_ne_zero, not_false_eq_true, zero_pow, zero_mul]
      exact Finset.sum_nonneg fun j _ => sq_nonneg _
    · -- the abscissae that would give the computed ordinates
      set cw : List Pt := cv.map fun p => ((p.2 - a) / b, p.2) with hcw
      have w2 : cw.map Prod.snd = cv.map Prod.snd := by simp [hcw]
      have w1 : cw.map Prod.snd = (cw.map Prod.fst).map fun x => a + b * x := by
        simp only [hcw, List.map_map]
        apply List.map_congr_left
        intro p _
        simp only [Function.comp]
        field_simp; ring
      have hbw := (hbest cw (by simp [hcw]) (by rw [hcw, List.head?_map, e5]; simp [hb]) (by rw [hcw, List.getLast?_map, e6]; simp [hb])).1
      have g1 := scale cw (by simp [hcw]) w1
      rw [sqErr_eq _ (Or.inr rfl), w2, ← sqErr_eq _ (Or.inr rfl)] at g1
      rw [scale cl (by simp [hcl]) (by rw [l1, l2]), g1, sqErr_eq Prod.fst (Or.inl rfl) cl, l1, ← sqErr_eq _ (Or.inl rfl)]
      exact mul_le_mul_of_nonneg_left hbw (sq_nonneg b))
  rw [l2, List.map_map] at key
  intro p hp
  exact (List.map_inj_left.1 key p hp).symm

/-- A spline whose points all lie on a graph gives values of that graph near the radii. -/
theorem values_on {sp : List Pt} {tol : ℝ} {rs : List ℝ} {d d' : Arr} (hl : d.length = rs.length) (h : deformLoop sp tol rs 0 d = (d', .ok ()))
    (F : ℝ → ℝ) (hF : ∀ q ∈ sp, q.2 = F q.1) :
    d'.length = rs.length ∧ ∀ i (hi : i < rs.length) (hi' : i < d'.length), ∃ x, |x - rs[i]| < tol ∧ d'[i] = F x := by
  obtain ⟨v1, rfl⟩ := (loop_values hl).1 h
  refine ⟨by simp, fun i hi hi' => ?_⟩
  have hex := v1 rs[i] (List.getElem_mem hi)
  have hlt : (sp.map Prod.fst).findIdx (fun x => decide (|x - rs[i]| < tol)) < (sp.map Prod.fst).length := by
    obtain ⟨x, hx, hr⟩ := hex
    exact List.findIdx_lt_length.2 ⟨x, hx, by simpa using hr⟩
  have g := List.findIdx_getElem (w := hlt)
  rw [decide_eq_true_eq, List.getElem_map] at g
  refine ⟨_, g, ?_⟩
  rw [List.getElem_map, getD_lt (by simpa using hlt)]
  exact hF _ (List.getElem_mem _)

/-- The points of the curve of a polygon on a line lie on the line. -/
theorem curve_on_line {cv sp : List Pt} {n k : Nat} (hk : k < cv.length) (h5 : k ≤ 5) (h : scipyBspline cv n k = .ok sp) {a b : ℝ}
    (hl : ∀ p ∈ cv, p.2 = a + b * p.1) : ∀ q ∈ sp, q.2 = a + b * q.1 := by
  obtain ⟨out, ho, hol, hget⟩ := C34_curve cv n k hk h5
  rw [h] at ho
  obtain rfl := Except.ok.inj ho
  intro q hq
  obtain ⟨j, hj, rfl⟩ := List.getElem_of_mem hq
  rw [hget j hj, bsplinePoint_coord Prod.fst (Or.inl rfl), bsplinePoint_coord Prod.snd (Or.inr rfl), ← coordAt_affine (by simpa using hk) (by omega), List.map_map]
  congr 1
  exact List.map_congr_left hl

/-- The number of spline points of a successful computation. -/
theorem npoints_nat {cv sp : List Pt} {n k : Int} (h : scipyBspline cv n k = .ok sp) : ∃ N : Nat, n = N := by
  refine ⟨n.toNat, ?_⟩
  by_contra hneg
  have h0 : n < 0 := by omega
  simp [scipyBspline, linspace, h0, bind, Except.bind, throw, throwThe, MonadExceptOf.throw] at h

/-- **C105** a distribution that is linear in the radius, moved by the same amount at every control point, comes back as the moved line up to the
slope times the tolerance; a constant one exactly. -/
theorem C105_line_deformed (s s' : Deform) (rbf : Option Int) (tol : PName → ℝ) (h : computeAll rbf tol s = (s', .ok ())) (hr : rbf.getD 0 ≤ 0)
    (p : PName) (hm : s.nbasis p ≤ s.radii.length) (hl : (s.deformed p).length = s.radii.length) (a b δ : ℝ)
    (hpar : s.parameters p = s.radii.map fun r => a + b * r) (hdef : ∀ d ∈ s.deformations p, d = δ) :
    (s'.deformed p).length = s.radii.length ∧ ∀ i (hi : i < s.radii.length) (hi' : i < (s'.deformed p).length),
      |(s'.deformed p)[i] - (a + b * s.radii[i] + δ)| ≤ |b| * tol p := by
  have hall : ∀ p, p ∈ PName.all := by intro p; cases p <;> simp [PName.all]
  obtain ⟨D, hD, rfl⟩ := (computeAll_iff ..).1 h
  obtain ⟨cp, e1, e2, e3, e4, e5⟩ := hD p
  have hD' : (result s PName.all D).deformed p = (D p).2.2 := by simp [result, hall]
  rw [hpar] at e1
  obtain ⟨s1, s2, s3, s4⟩ := optimum_sizes e1
  have hline := C105_line s.radii (s.degree p) (s.nbasis p) rbf hr hm a b cp e1
  have hcl : (D p).1.length = cp.length := by rw [e3]; simp [e2]
  have hline' : ∀ q ∈ (D p).1, q.2 = (a + δ) + b * q.1 := by
    intro q hq
    rw [e3] at hq
    obtain ⟨i, hi, rfl⟩ := List.getElem_of_mem hq
    simp only [List.length_zipWith] at hi
    rw [List.getElem_zipWith, hdef _ (List.getElem_mem _), hline _ (List.getElem_mem _)]
    ring
  obtain ⟨N, hN⟩ := npoints_nat e4
  rw [hN, show s.degree p = ((s.degree p).toNat : Int) by omega] at e4
  have hsp := curve_on_line (by omega) s2 e4 hline'
  rw [hD']
  obtain ⟨v1, v2⟩ := values_on hl e5 (fun x => (a + δ) + b * x) hsp
  refine ⟨v1, fun i hi hi' => ?_⟩
  obtain ⟨x, hx, he⟩ := v2 i hi hi'
  rw [he, show a + δ + b * x - (a + b * s.radii[i] + δ) = b * (x - s.radii[i]) by ring, abs_mul]
  exact mul_le_mul_of_nonneg_left hx.le (abs_nonneg b)

/-- **C105** with as many control points as sections, the fitted curve passes through all sections, one after the other at equidistant parameters. -/
theorem C105_interpolates (X Y : Arr) (degree nbasis : Int) (rbf : Option Int) (cv : List Pt) (h : optimum X Y degree nbasis rbf = .ok cv)
    (X' Y' : Arr) (hd : FitData X Y rbf X' Y') (hm : nbasis = X'.length) :
    ∀ i (hx : i < X'.length) (hy : i < Y'.length),
      bsplinePoint cv degree.toNat (i * (((cv.length : ℝ) - degree.toNat) / (X'.length - 1))) = (X'[i], Y'[i]) := by
  obtain ⟨s1, s2, s3, s4⟩ := optimum_sizes h
  have h2 := ((C68_defined X Y degree nbasis rbf).1 ⟨cv, h⟩).1
  have hYX : Y'.length = X'.length := by
    obtain ⟨X₂, Y₂, hd2, -, cols, x0, xl, y0, yl, -, -, -, hlen, -⟩ := (data_eq ..).1 h
    obtain ⟨rfl, rfl⟩ := FitData.unique hd2 hd
    exact hlen
  set n := X'.length with hn
  set k := degree.toNat with hk
  have hcn : cv.length = n := by omega
  -- every list of values is taken by some control values
  have surj : ∀ V : List ℝ, V.length = n → ∃ v : List ℝ, v.length = n ∧ ∀ j (hj : j < V.length), coordAt v k n j = V[j] := by
    intro V hV
    let F : (Fin n → ℝ) →ₗ[ℝ] (Fin n → ℝ) :=
      LinearMap.pi fun j => ∑ i : Fin n, coxDeBoor (clampedKnot n k) n k i (paramAt n k n j) • LinearMap.proj i
    have hF : ∀ w : Fin n → ℝ, ∀ j : Fin n, F w j = coordAt (List.ofFn w) k n j := by
      intro w j
      simp only [F, LinearMap.pi_apply, LinearMap.sum_apply, LinearMap.smul_apply, LinearMap.proj_apply, smul_eq_mul]
      rw [coordAt, List.length_ofFn, Finset.sum_range]
      apply Finset.sum_congr rfl
      intro i _
      simp
    have hinj : Function.Injective F := by
      intro u w huw
      have := coordAt_inj (v := List.ofFn w) (w := List.ofFn u) (by simp) (k := k) (m := n) (by simp; omega) (by simp) (by omega) (by
        intro j hj
        rw [← hF w ⟨j, hj⟩, ← hF u ⟨j, hj⟩, huw])
      exact List.ofFn_injective this
    obtain ⟨w, hw⟩ := LinearMap.injective_iff_surjective.1 hinj (fun j => V.getD j 0)
    refine ⟨List.ofFn w, by simp, fun j hj => ?_⟩
    rw [← hF w ⟨j, by omega⟩, hw]
    exact getD_lt hj
  obtain ⟨u, u1, u2⟩ := surj X' rfl
  obtain ⟨w, w1, w2⟩ := surj Y' hYX
  have m1 : (u.zip w).map Prod.fst = u := List.map_fst_zip (by omega)
  have m2 : (u.zip w).map Prod.snd = w := List.map_snd_zip (by omega)
  have hlen : (u.zip w).length = n := by simp [u1, w1]
  have key := C100_reproduced X Y degree nbasis rbf cv h X' Y' hd (by omega) (by omega) (u.zip w) (by rw [hlen, hm])
  have k1 := key.1 (by
    intro i hi
    rw [bsplinePoint_coord Prod.fst (Or.inl rfl), m1]
    exact u2 i hi)
  have k2 := key.2 (by
    intro i hi
    rw [bsplinePoint_coord Prod.snd (Or.inr rfl), m2, hYX]
    exact w2 i hi)
  intro i hx hy
  have c1 := bsplinePoint_coord Prod.fst (Or.inl rfl) cv k n i
  have c2 := bsplinePoint_coord Prod.snd (Or.inr rfl) cv k n i
  rw [← k1, m1, u2 i hx] at c1
  rw [← k2, m2, w2 i hy] at c2
  exact Prod.ext c1 c2

open Polynomial in
/-- Every polynomial of degree at most `k` is a spline of degree `k`. -/
theorem poly_controls {c k : Nat} (hk : k < c) (Q : ℝ[X]) (hQ : Q.natDegree ≤ k) :
    ∃ g : Nat → ℝ, ∀ x, 0 ≤ x → x ≤ (c : ℝ) - k → ∑ i ∈ Finset.range c, coxDeBoor (clampedKnot c k) c k i x * g i = Q.eval x := by
  refine ⟨fun i => ∑ q ∈ Finset.range (k + 1), Q.coeff q * ((-1) ^ q * (∏ s ∈ Finset.range k, (X - C (clampedKnot c k (i + 1 + s))) : ℝ[X]).coeff (k - q) / (k.choose q)), ?_⟩
  intro x h0 h1
  obtain ⟨l, hs, hkl, hlt⟩ := span_of hk h0 h1
  have hM := cox_marsden (clampedKnot_mono hk) (clamped_tail hk) hs hlt k hkl
  have mono : ∀ q, q ≤ k → ∑ i ∈ Finset.range c, coxDeBoor (clampedKnot c k) c k i x *
      ((-1) ^ q * (∏ s ∈ Finset.range k, (X - C (clampedKnot c k (i + 1 + s))) : ℝ[X]).coeff (k - q) / (k.choose q)) = x ^ q := by
    intro q hq
    have := congrArg (fun P : ℝ[X] => P.coeff (k - q)) hM
    simp only [Polynomial.finset_sum_coeff, Polynomial.coeff_smul, smul_eq_mul] at this
    rw [sub_eq_add_neg, ← C_neg, Polynomial.coeff_X_add_C_pow, Nat.sub_sub_self hq, Nat.choose_symm hq] at this
    have hc : ((k.choose q : Nat) : ℝ) ≠ 0 := by exact_mod_cast (Nat.choose_pos hq).ne'
    have e : ∀ i, coxDeBoor (clampedKnot c k) c k i x *
        ((-1) ^ q * (∏ s ∈ Finset.range k, (X - C (clampedKnot c k (i + 1 + s))) : ℝ[X]).coeff (k - q) / (k.choose q)) =
        (coxDeBoor (clampedKnot c k) c k i x * (∏ s ∈ Finset.range k, (X - C (clampedKnot c k (i + 1 + s))) : ℝ[X]).coeff (k - q)) * ((-1) ^ q / (k.choose q)) := by
      intro i; ring
    simp only [e]
    rw [← Finset.sum_mul, this, neg_pow]
    have : ((-1 : ℝ) ^ q) * (-1) ^ q = 1 := by rw [← mul_pow]; simp
    field_simp
    linear_combination (x ^ q) * this
  simp only [Finset.mul_sum]
  rw [Finset.sum_comm, Polynomial.eval_eq_sum_range' (show Q.natDegree < k + 1 by omega)]
  apply Finset.sum_congr rfl
  intro q hq
  rw [Finset.mem_range] at hq
  rw [← mono q (by omega), Finset.mul_sum]
  apply Finset.sum_congr rfl
  intro i _
  ring

/-- **C105** over equally spaced radii, a distribution given by a polynomial of at most the degree of the spline is fitted exactly: every point of the
curve lies on the graph of the polynomial. -/
theorem C105_polynomial (R : Arr) (degree nbasis : Int) (rbf : Option Int) (hr : rbf.getD 0 ≤ 0) (hm : nbasis ≤ R.length) (h1 : 1 ≤ degree)
    (x0 xl : ℝ) (hR : R = linspaceN x0 xl R.length) (P : Polynomial ℝ) (hP : (P.natDegree : Int) ≤ degree) (cv : List Pt)
    (h : optimum R (R.map fun r => P.eval r) degree nbasis rbf = .ok cv) (n : Nat) (sp : List Pt) (hs : scipyBspline cv n degree = .ok sp) :
    ∀ q ∈ sp, q.2 = P.eval q.1 := by
  obtain ⟨s1, s2, s3, s4⟩ := optimum_sizes h
  have h2 := ((C68_defined _ _ degree nbasis rbf).1 ⟨cv, h⟩).1
  obtain ⟨k, rfl⟩ : ∃ k : Nat, degree = k := ⟨degree.toNat, by omega⟩
  obtain ⟨c, rfl⟩ : ∃ c : Nat, nbasis = c := ⟨nbasis.toNat, by omega⟩
  simp only [Int.toNat_natCast] at s1 s2 s3
  have hkc : k < c := by omega
  have hcr : (k : ℝ) < c := by exact_mod_cast hkc
  have hck : (c : ℝ) - k ≠ 0 := by linarith
  set e : ℝ := (xl - x0) / ((c : ℝ) - k) with he
  set L : Polynomial ℝ := Polynomial.C x0 + Polynomial.C e * Polynomial.X with hL
  have hLd : L.natDegree ≤ 1 := by
    rw [hL, add_comm]
    exact Polynomial.natDegree_linear_le
  have hLe : ∀ u, L.eval u = x0 + e * u := by intro u; simp [hL]
  obtain ⟨gx, hgx⟩ := poly_controls hkc L (by omega)
  obtain ⟨gy, hgy⟩ := poly_controls hkc (P.comp L) (by
    refine Polynomial.natDegree_comp_le.trans ?_
    have : P.natDegree * L.natDegree ≤ P.natDegree * 1 := Nat.mul_le_mul_left _ hLd
    omega)
  set cv' : List Pt := (List.range c).map fun i => (gx i, gy i) with hcv'
  have hl' : cv'.length = c := by simp [hcv']
  have coord : ∀ (f : Pt → ℝ) (g : Nat → ℝ) (Q : Polynomial ℝ), cv'.map f = (List.range c).map g →
      (∀ x, 0 ≤ x → x ≤ (c : ℝ) - k → ∑ i ∈ Finset.range c, coxDeBoor (clampedKnot c k) c k i x * g i = Q.eval x) →
      ∀ m j, j < m → coordAt (cv'.map f) k m j = Q.eval (paramAt c k m j) := by
    intro f g Q hf hg m j hj
    rw [← hg _ (paramAt_mem hkc hj).1 (paramAt_mem hkc hj).2, hf, coordAt]
    simp only [List.length_map, List.length_range]
    apply Finset.sum_congr rfl
    intro i hi
    rw [Finset.mem_range] at hi
    rw [getD_lt (by simpa using hi)]
    simp
  have fx : cv'.map Prod.fst = (List.range c).map gx := by simp [hcv']
  have fy : cv'.map Prod.snd = (List.range c).map gy := by simp [hcv']
  have par : ∀ i (hi : i < R.length), R[i] = L.eval (paramAt c k R.length i) := by
    intro i hi
    have := List.getElem_of_eq hR hi
    rw [this, linspaceN_getElem, hLe, paramAt, he]
    congr 1
    field_simp
  have hd : FitData R (R.map fun r => P.eval r) rbf R (R.map fun r => P.eval r) := Or.inl ⟨hr, rfl, rfl⟩
  have key := C100_reproduced R _ k c rbf cv h R _ hd hm (by omega) cv' (by rw [hl'])
  simp only [Int.toNat_natCast] at key
  have k1 := key.1 (by
    intro i hi
    rw [bsplinePoint_coord Prod.fst (Or.inl rfl), coord _ gx L fx hgx _ _ hi, par i hi])
  have k2 := key.2 (by
    intro i hi
    have hi2 : i < R.length := by simpa using hi
    have g := coord _ gy _ fy hgy _ _ hi2
    rw [List.getElem_map, par i hi2, ← Polynomial.eval_comp, ← g, bsplinePoint_coord Prod.snd (Or.inr rfl)]
    simp only [List.length_map])
  obtain ⟨out, ho, hol, hget⟩ := C34_curve cv n k s1 s2
  rw [hs] at ho
  obtain rfl := Except.ok.inj ho
  intro q hq
  obtain ⟨j, hj, rfl⟩ := List.getElem_of_mem hq
  rw [hget j hj, bsplinePoint_coord Prod.fst (Or.inl rfl), bsplinePoint_coord Prod.snd (Or.inr rfl), ← k1, ← k2,
    coord _ gx L fx hgx _ _ (by omega), coord _ gy _ fy hgy _ _ (by omega), Polynomial.eval_comp]

/-- **C105** an undeformed polynomial distribution over equally spaced radii comes back as the polynomial at a radius nearer than the
tolerance. -/
theorem C105_polynomial_deformed (s s' : Deform) (rbf : Option Int) (tol : PName → ℝ) (h : computeAll rbf tol s = (s', .ok ())) (hr : rbf.getD 0 ≤ 0)
    (p : PName) (hm : s.nbasis p ≤ s.radii.length) (h1 : 1 ≤ s.degree p) (hl : (s.deformed p).length = s.radii.length)
    (x0 xl : ℝ) (hR : s.radii = linspaceN x0 xl s.radii.length) (P : Polynomial ℝ) (hP : (P.natDegree : Int) ≤ s.degree p)
    (hpar : s.parameters p = s.radii.map fun r => P.eval r) (hdef : ∀ d ∈ s.deformations p, d = 0) :
    (s'.deformed p).length = s.radii.length ∧ ∀ i (hi : i < s.radii.length) (hi' : i < (s'.deformed p).length),
      ∃ x, |x - s.radii[i]| < tol p ∧ (s'.deformed p)[i] = P.eval x := by
  have hall : ∀ p, p ∈ PName.all := by intro p; cases p <;> simp [PName.all]
  obtain ⟨D, hD, rfl⟩ := (computeAll_iff ..).1 h
  obtain ⟨cp, e1, e2, e3, e4, e5⟩ := hD p
  have hD' : (result s PName.all D).deformed p = (D p).2.2 := by simp [result, hall]
  rw [hpar] at e1
  have hsame : (D p).1 = cp := by
    rw [e3]
    apply List.ext_getElem (by simp [e2])
    intro i a1 a2
    rw [List.getElem_zipWith, hdef _ (List.getElem_mem _), add_zero]
  rw [hsame] at e4
  obtain ⟨N, hN⟩ := npoints_nat e4
  rw [hN] at e4
  rw [hD']
  exact values_on hl e5 (fun x => P.eval x) (C105_polynomial s.radii _ _ rbf hr hm h1 x0 xl hR P hP cp e1 N _ e4)

/-- The object of the examples: five sections over [0, 1], quadratic splines with four control points, five spline points, no deformation. -/
def Sample.even (v : ℝ → ℝ) (δ : ℝ) : Deform where
  radii := linspaceN 0 1 5
  parameters := fun _ => (linspaceN 0 1 5).map v
  nbasis := fun _ => 4
  degree := fun _ => 2
  npoints := fun _ => 5
  deformations := fun _ => List.replicate 4 δ
  deformed := fun _ => List.replicate 5 0
  controlPoints := fun _ => none
  spline := fun _ => none

theorem Sample.even_fit (v : ℝ → ℝ) (δ : ℝ) (p : PName) : EvenFit (Sample.even v δ).radii none ((Sample.even v δ).nbasis p) :=
  Or.inr ⟨by simp, ⟨0, 1, by simp [Sample.even, linspaceN_length]⟩, by simp [Sample.even, linspaceN_length]⟩

theorem Sample.even_ok (v : ℝ → ℝ) (δ : ℝ) : ∃ s', computeAll none (fun _ => 0.001) (Sample.even v δ) = (s', .ok ()) := by
  refine (C100_succeeds_iff (Sample.even v δ) none _ 0 1 ?_ ?_ (fun h => absurd h (by simp)) (fun p => ?_)).2 ?_
  · simp [Sample.even, linspaceN, List.range_succ]
  · simp only [Sample.even, List.getLast?_eq_getElem?]
    rw [List.getElem?_eq_getElem (by rw [linspaceN_length]; omega), linspaceN_getElem, linspaceN_length]
    norm_num
  · refine ⟨?_, ?_, ?_, Sample.even_fit v δ p, ?_, ?_, ?_, ?_⟩ <;> simp [Sample.even, linspaceN_length]
  · intro p r hr
    obtain ⟨j, hj, rfl⟩ := List.getElem_of_mem hr
    simp only [Sample.even, linspaceN_length] at hj
    refine ⟨j, by simp [Sample.even]; omega, ?_⟩
    simp only [Sample.even, linspaceN_getElem]
    norm_num

/-- A sloping line, lifted by 2. -/
example : ∃ s', computeAll none (fun _ => 0.001) (Sample.even (fun r => 1 + 3 * r) 2) = (s', .ok ()) ∧
    ∀ i (hi' : i < (s'.deformed .pitch).length) (hi : i < (linspaceN 0 1 5).length), |(s'.deformed .pitch)[i] - (1 + 3 * (linspaceN 0 1 5)[i] + 2)| ≤ 3 * 0.001 := by
  obtain ⟨s', h⟩ := Sample.even_ok (fun r => 1 + 3 * r) 2
  have := C105_line_deformed _ s' none _ h (by simp) .pitch (by simp [Sample.even, linspaceN_length]) (by simp [Sample.even, linspaceN_length]) 1 3 2 rfl
    (by intro d hd; exact (List.mem_replicate.1 hd).2)
  refine ⟨s', h, fun i hi' hi => ?_⟩
  have h3 := this.2 i hi hi'
  simpa [Sample.even] using h3

/-- A parabola. -/
example : ∃ s', computeAll none (fun _ => 0.001) (Sample.even (fun r => ((Polynomial.X : Polynomial ℝ) ^ 2).eval r) 0) = (s', .ok ()) ∧
    (s'.deformed .pitch).length = 5 := by
  obtain ⟨s', h⟩ := Sample.even_ok (fun r => ((Polynomial.X : Polynomial ℝ) ^ 2).eval r) 0
  have := C105_polynomial_deformed _ s' none _ h (by simp) .pitch (by simp [Sample.even, linspaceN_length]) (by simp [Sample.even])
    (by simp [Sample.even, linspaceN_length]) 0 1 (by simp [Sample.even, linspaceN_length]) (Polynomial.X ^ 2) (by simp [Sample.even]) rfl
    (by intro d hd; exact (List.mem_replicate.1 hd).2)
  exact ⟨s', h, by simpa [Sample.even, linspaceN_length] using this.1⟩

/-- As many control points as sections. -/
example : ∃ cv X' Y', optimum [0.3, 0.5, 0.6, 1] [2, 2.5, 2, 1] 3 4 none = .ok cv ∧ FitData [0.3, 0.5, 0.6, 1] [2, 2.5, 2, 1] none X' Y' ∧ (4 : Int) = X'.length := by
  obtain ⟨cv, h⟩ := (C68_defined [0.3, 0.5, 0.6, 1] [2, 2.5, 2, 1] 3 4 none).2 ⟨by norm_num, by norm_num, by norm_num, by norm_num, by simp, rfl,
    fun h => absurd h (by simp)⟩
  exact ⟨cv, _, _, h, Or.inl ⟨by simp, rfl, rfl⟩, by norm_num⟩

end Deform
end
end BladeX
