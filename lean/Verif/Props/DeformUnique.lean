import Verif.Props.DeformLinear
import Verif.Lemmas.BSplineZeros
import Mathlib.LinearAlgebra.FiniteDimensional.Lemmas
import Mathlib.LinearAlgebra.Dimension.Constructions

/-! # C100: the fitted polygon is the only best one; where the spline points lie; monotone distributions -/

namespace BladeX
noncomputable section
open Spec Classical BSpline
namespace Deform

theorem sqErr_eq (f : Pt → ℝ) (hf : f = Prod.fst ∨ f = Prod.snd) (cv : List Pt) (k : Nat) (V : Arr) :
    sqErr f cv k V = ∑ j : Fin V.length, (coordAt (cv.map f) k V.length j - V[j]) ^ 2 := by
  unfold sqErr
  apply Finset.sum_congr rfl
  intro j _
  congr 2
  rw [coordAt, List.length_map, sum_getD]
  rcases hf with rfl | rfl <;> rfl

theorem FitData.unique {X Y : Arr} {rbf : Option Int} {X₁ Y₁ X₂ Y₂ : Arr} (h₁ : FitData X Y rbf X₁ Y₁) (h₂ : FitData X Y rbf X₂ Y₂) :
    X₁ = X₂ ∧ Y₁ = Y₂ := by
  rcases h₁ with ⟨a, rfl, rfl⟩ | ⟨a, x0, xl, b0, bl, rfl, c⟩ <;> rcases h₂ with ⟨a', rfl, rfl⟩ | ⟨a', x0', xl', b0', bl', rfl, c'⟩
  · exact ⟨rfl, rfl⟩
  · omega
  · omega
  · rw [b0] at b0'; cases b0'
    rw [bl] at bl'; cases bl'
    rw [c] at c'
    exact ⟨rfl, Except.ok.inj c'⟩

theorem coordAt_mid {v w : List ℝ} (hl : w.length = v.length) (k m j : Nat) :
    coordAt (List.zipWith (fun a b => (a + b) / 2) v w) k m j = (coordAt v k m j + coordAt w k m j) / 2 := by
  unfold coordAt
  rw [List.length_zipWith, hl, min_self, ← Finset.sum_add_distrib, Finset.sum_div]
  apply Finset.sum_congr rfl
  intro i hi
  rw [Finset.mem_range] at hi
  rw [getD_lt (by simpa [hl] using hi), getD_lt hi, getD_lt (by omega), List.getElem_zipWith]
  ring

theorem coordAt_inj {v w : List ℝ} (hl : w.length = v.length) {k m : Nat} (hk : k < v.length) (hm : v.length ≤ m) (hm2 : 2 ≤ m)
    (h : ∀ j, j < m → coordAt v k m j = coordAt w k m j) : w = v := by
  have := equi_unique hk hm hm2 (fun i => w.getD i 0 - v.getD i 0) (by
    intro j hj
    have := h j hj
    unfold coordAt at this
    rw [hl] at this
    simp only [mul_sub, Finset.sum_sub_distrib]
    linarith)
  apply List.ext_getElem hl
  intro i h1 h2
  have := this i h2
  rw [getD_lt h1, getD_lt h2] at this
  linarith

/-- Two best control polygons give the same curve at the data. -/
theorem best_unique {v w : List ℝ} (hl : w.length = v.length) {k : Nat} {V : Arr} (hk : k < v.length)
    (hm : v.length ≤ V.length) (hm2 : 2 ≤ V.length)
    (h1 : ∑ j : Fin V.length, (coordAt w k V.length j - V[j]) ^ 2 ≤ ∑ j : Fin V.length, (coordAt v k V.length j - V[j]) ^ 2)
    (h2 : ∑ j : Fin V.length, (coordAt v k V.length j - V[j]) ^ 2 ≤
      ∑ j : Fin V.length, (coordAt (List.zipWith (fun a b => (a + b) / 2) v w) k V.length j - V[j]) ^ 2) : w = v := by
  apply coordAt_inj hl hk hm hm2
  have e : ∑ j : Fin V.length, (coordAt (List.zipWith (fun a b => (a + b) / 2) v w) k V.length j - V[j]) ^ 2 =
      (∑ j : Fin V.length, (coordAt w k V.length j - V[j]) ^ 2 + ∑ j : Fin V.length, (coordAt v k V.length j - V[j]) ^ 2) / 2 -
      (∑ j : Fin V.length, (coordAt v k V.length j - coordAt w k V.length j) ^ 2) / 4 := by
    rw [← Finset.sum_add_distrib, Finset.sum_div, Finset.sum_div, ← Finset.sum_sub_distrib]
    apply Finset.sum_congr rfl
    intro j _
    rw [coordAt_mid hl]
    ring
  have hz : ∑ j : Fin V.length, (coordAt v k V.length j - coordAt w k V.length j) ^ 2 = 0 := by
    apply le_antisymm
    · linarith
    · exact Finset.sum_nonneg fun j _ => sq_nonneg _
  intro j hj
  have := (Finset.sum_eq_zero_iff_of_nonneg (fun j _ => sq_nonneg _)).1 hz ⟨j, hj⟩ (Finset.mem_univ _)
  have := pow_eq_zero_iff (two_ne_zero) |>.1 this
  simpa [sub_eq_zero] using this

theorem optimum_sizes {X Y : Arr} {degree nbasis : Int} {rbf : Option Int} {cv : List Pt} (h : optimum X Y degree nbasis rbf = .ok cv) :
    degree.toNat < cv.length ∧ degree.toNat ≤ 5 ∧ cv.length = nbasis.toNat ∧ 0 ≤ degree := by
  obtain ⟨h1, h2, h3, h4, -⟩ := (C68_defined X Y degree nbasis rbf).1 ⟨cv, h⟩
  obtain ⟨X', Y', hd, hlen, _⟩ := C68_optimal X Y degree nbasis rbf cv h
  exact ⟨by omega, by omega, by omega, h2⟩

/-- A polygon with the abscissae of one and the ordinates of another. -/
private theorem mid_polygon {cv cv' : List Pt} (hl : cv'.length = cv.length) (h0 : cv'.head? = cv.head?) (h1 : cv'.getLast? = cv.getLast?) :
    ∃ cm : List Pt, cm.length = cv.length ∧ cm.head? = cv.head? ∧ cm.getLast? = cv.getLast? ∧
      cm.map Prod.fst = List.zipWith (fun a b => (a + b) / 2) (cv.map Prod.fst) (cv'.map Prod.fst) ∧
      cm.map Prod.snd = List.zipWith (fun a b => (a + b) / 2) (cv.map Prod.snd) (cv'.map Prod.snd) := by
  refine ⟨List.zipWith (fun a b : Pt => ((a.1 + b.1) / 2, (a.2 + b.2) / 2)) cv cv', by simp [hl], ?_, ?_, ?_, ?_⟩
  · rcases cv with _ | ⟨a, cv⟩ <;> rcases cv' with _ | ⟨b, cv'⟩ <;> simp at hl h0 ⊢
    subst h0
    ext <;> simp
  · rw [List.getLast?_eq_getElem?, List.getLast?_eq_getElem?, List.length_zipWith, hl, min_self]
    rw [List.getLast?_eq_getElem?, List.getLast?_eq_getElem?, hl] at h1
    rw [List.getElem?_zipWith, h1]
    rcases cv[cv.length - 1]? with _ | a
    · rfl
    · simp only [Option.some.injEq]; ext <;> simp
  · apply List.ext_getElem <;> simp [hl]
  · apply List.ext_getElem <;> simp [hl]

/-- **C100** with at least as many points to be fitted as control points, the computed control points are the only
best ones: any other polygon of as many points with the same ends is strictly farther from the data. -/
theorem C100_unique (X Y : Arr) (degree nbasis : Int) (rbf : Option Int) (cv : List Pt) (h : optimum X Y degree nbasis rbf = .ok cv)
    (X' Y' : Arr) (hd : FitData X Y rbf X' Y') (hm : nbasis ≤ X'.length)
    (cv' : List Pt) (hl : cv'.length = cv.length) (h0 : cv'.head? = cv.head?) (h1 : cv'.getLast? = cv.getLast?) :
    (sqErr Prod.fst cv' degree.toNat X' ≤ sqErr Prod.fst cv degree.toNat X' → cv'.map Prod.fst = cv.map Prod.fst) ∧
    (sqErr Prod.snd cv' degree.toNat Y' ≤ sqErr Prod.snd cv degree.toNat Y' → cv'.map Prod.snd = cv.map Prod.snd) := by
  obtain ⟨s1, s2, s3, s4⟩ := optimum_sizes h
  obtain ⟨X₁, Y₁, hd', -, -, hbest⟩ := C68_optimal X Y degree nbasis rbf cv h
  obtain ⟨rfl, rfl⟩ := FitData.unique hd' hd
  have hYX : Y₁.length = X₁.length := by
    obtain ⟨X₂, Y₂, hd2, -, cols, x0, xl, y0, yl, -, -, -, hlen, -⟩ := (data_eq ..).1 h
    obtain ⟨rfl, rfl⟩ := FitData.unique hd2 hd
    exact hlen
  have hm' : cv.length ≤ X₁.length := by omega
  by_cases hm2 : 2 ≤ X₁.length
  swap
  · -- one control point, an end
    have hone : cv.length = 1 := by omega
    have he : cv' = cv := by
      rcases cv with _ | ⟨a, _ | ⟨b, cv⟩⟩ <;> rcases cv' with _ | ⟨a', _ | ⟨b', cv'⟩⟩ <;> simp at hl hone h0 ⊢
      exact h0
    rw [he]
    exact ⟨fun _ => rfl, fun _ => rfl⟩
  obtain ⟨cm, m1, m2, m3, m4, m5⟩ := mid_polygon hl h0 h1
  obtain ⟨b1, b2⟩ := hbest cm m1 m2 m3
  rw [sqErr_eq _ (Or.inl rfl), sqErr_eq _ (Or.inl rfl), m4] at b1
  rw [sqErr_eq _ (Or.inr rfl), sqErr_eq _ (Or.inr rfl), m5] at b2
  rw [sqErr_eq _ (Or.inl rfl), sqErr_eq _ (Or.inl rfl), sqErr_eq _ (Or.inr rfl), sqErr_eq _ (Or.inr rfl)]
  exact ⟨fun g => best_unique (by simpa using hl) (by simpa using s1) (by simpa using hm') hm2 g b1,
    fun g => best_unique (by simpa using hl) (by simpa using s1) (by rw [hYX]; simpa using hm') (by omega) g b2⟩

theorem curve_ends {cv : List Pt} {k n : Nat} (hk : k < cv.length) (h5 : k ≤ 5) (hn : 2 ≤ n) :
    (∀ f : Pt → ℝ, f = Prod.fst ∨ f = Prod.snd → ∀ V : Arr, V.length = n →
      (∀ i (hi : i < V.length), f (bsplinePoint cv k (i * (((cv.length : ℝ) - k) / (V.length - 1)))) = V[i]) →
      (cv.map f).head? = V.head? ∧ (cv.map f).getLast? = V.getLast?) := by
  rintro f hf V rfl hV
  obtain ⟨out, ho, hlen, hget⟩ := C34_curve cv V.length k hk h5
  obtain ⟨e0, e1⟩ := C34_end_points cv V.length k hn hk h5 out ho
  have : out.map f = V := by
    apply List.ext_getElem (by simp [hlen])
    intro i h1 h2
    rw [List.getElem_map, hget, hV i h2]
  rw [List.head?_map, List.getLast?_map, ← e0, ← e1, ← List.head?_map, ← List.getLast?_map, this]
  exact ⟨rfl, rfl⟩

theorem coordAt_ker {n k m : Nat} (hmn : m < n) :
    ∃ b : List ℝ, b.length = n ∧ b ≠ List.replicate n 0 ∧ ∀ j, j < m → coordAt b k m j = 0 := by
  let F : (Fin n → ℝ) →ₗ[ℝ] (Fin m → ℝ) :=
    LinearMap.pi fun j => ∑ i : Fin n, coxDeBoor (clampedKnot n k) n k i (paramAt n k m j) • LinearMap.proj i
  have hF : LinearMap.ker F ≠ ⊥ := F.ker_ne_bot_of_finrank_lt (by simpa using hmn)
  obtain ⟨b, hb, hb0⟩ := (Submodule.ne_bot_iff _).1 hF
  refine ⟨List.ofFn b, by simp, ?_, ?_⟩
  · intro h
    apply hb0
    funext i
    have := congrArg (fun l => l.getD i 0) h
    simpa using this
  · intro j hj
    have := congrFun (LinearMap.mem_ker.1 hb) ⟨j, hj⟩
    simp only [F, LinearMap.pi_apply, LinearMap.sum_apply, LinearMap.smul_apply, LinearMap.proj_apply, smul_eq_mul, Pi.zero_apply] at this
    rw [coordAt, List.length_ofFn, Finset.sum_range, ← this]
    apply Finset.sum_congr rfl
    intro i _
    simp

theorem coordAt_add {v w : List ℝ} (hl : w.length = v.length) (k m j : Nat) :
    coordAt (List.zipWith (· + ·) v w) k m j = coordAt v k m j + coordAt w k m j := by
  unfold coordAt
  rw [List.length_zipWith, hl, min_self, ← Finset.sum_add_distrib]
  apply Finset.sum_congr rfl
  intro i hi
  rw [Finset.mem_range] at hi
  rw [getD_lt (by simpa [hl] using hi), getD_lt hi, getD_lt (by omega), List.getElem_zipWith]
  ring

/-- **C100** as many fitted points as control points are needed: with fewer (but at least two), there is another polygon of as many points, with
the same abscissae and the same ends, exactly as near to the data. -/
theorem C100_not_unique (X Y : Arr) (degree nbasis : Int) (rbf : Option Int) (cv : List Pt) (h : optimum X Y degree nbasis rbf = .ok cv)
    (X' Y' : Arr) (hd : FitData X Y rbf X' Y') (hm : X'.length < nbasis) (hm2 : 2 ≤ X'.length) :
    ∃ cv', cv' ≠ cv ∧ cv'.length = cv.length ∧ cv'.head? = cv.head? ∧ cv'.getLast? = cv.getLast? ∧ cv'.map Prod.fst = cv.map Prod.fst ∧
      sqErr Prod.snd cv' degree.toNat Y' = sqErr Prod.snd cv degree.toNat Y' := by
  obtain ⟨s1, s2, s3, s4⟩ := optimum_sizes h
  have hYX : Y'.length = X'.length := by
    obtain ⟨X₂, Y₂, hd2, -, cols, x0, xl, y0, yl, -, -, -, hlen, -⟩ := (data_eq ..).1 h
    obtain ⟨rfl, rfl⟩ := FitData.unique hd2 hd
    exact hlen
  obtain ⟨b, b1, b2, b3⟩ := coordAt_ker (n := cv.length) (k := degree.toNat) (m := Y'.length) (by omega)
  -- the ends of `b` are zero
  have hb := curve_ends (cv := b.map fun y => ((0 : ℝ), y)) (k := degree.toNat) (n := Y'.length) (by simpa [b1] using s1) s2 (by omega) Prod.snd (Or.inr rfl)
    (List.replicate Y'.length 0) (by simp) (by
      intro i hi
      rw [List.length_replicate] at hi
      have e0 : (b.map fun y => ((0 : ℝ), y)).map Prod.snd = b := by simp [Function.comp_def]
      have := b3 i hi
      rw [← e0, coordAt, List.length_map, sum_getD] at this
      rw [List.getElem_replicate, List.length_replicate]
      exact this)
  have e0 : (b.map fun y => ((0 : ℝ), y)).map Prod.snd = b := by simp [Function.comp_def]
  rw [e0] at hb
  have hY0 : Y'.length ≠ 0 := by omega
  have hh : b.head? = some 0 := by rw [hb.1]; simp [List.head?_replicate, hY0]
  have ht : b.getLast? = some 0 := by rw [hb.2]; simp [List.getLast?_replicate, hY0]
  set cv' := List.zipWith (fun (p : Pt) y => (p.1, p.2 + y)) cv b with hcv'
  have hl : cv'.length = cv.length := by simp [hcv', b1]
  have m1 : cv'.map Prod.fst = cv.map Prod.fst := by
    apply List.ext_getElem <;> simp [hcv', b1]
  have m2 : cv'.map Prod.snd = List.zipWith (· + ·) (cv.map Prod.snd) b := by
    apply List.ext_getElem <;> simp [hcv']
  refine ⟨cv', ?_, hl, ?_, ?_, m1, ?_⟩
  · intro he
    apply b2
    apply List.ext_getElem (by simp [b1])
    intro i h1 h2
    have := List.getElem_of_eq (m2.symm.trans (congrArg _ he)) (i := i) (by simp; omega)
    simpa using this
  · rw [List.head?_eq_getElem?] at hh ⊢
    rw [List.head?_eq_getElem?, hcv', List.getElem?_zipWith, hh]
    rcases cv[0]? with _ | a <;> simp
  · rw [List.getLast?_eq_getElem?] at ht ⊢
    rw [List.getLast?_eq_getElem?, hl, hcv', List.getElem?_zipWith, ← b1, ht]
    rcases cv[b.length - 1]? with _ | a <;> simp
  · rw [sqErr_eq _ (Or.inr rfl), sqErr_eq _ (Or.inr rfl), m2]
    apply Finset.sum_congr rfl
    intro j _
    rw [coordAt_add (by simpa using b1), b3 j j.2, add_zero]

/-- Four radii for the default ten control points are not enough without radial basis functions. -/
example : ∃ cv X' Y', optimum [0.3, 0.5, 0.6, 1] [2, 2.5, 2, 1] 3 10 none = .ok cv ∧ FitData [0.3, 0.5, 0.6, 1] [2, 2.5, 2, 1] none X' Y' ∧
    (X'.length : Int) < 10 ∧ 2 ≤ X'.length := by
  obtain ⟨cv, h⟩ := (C68_defined [0.3, 0.5, 0.6, 1] [2, 2.5, 2, 1] 3 10 none).2 ⟨by norm_num, by norm_num, by norm_num, by norm_num, by simp, rfl,
    fun h => absurd h (by simp)⟩
  exact ⟨cv, _, _, h, Or.inl ⟨by simp, rfl, rfl⟩, by norm_num, by norm_num⟩

/-- **C100** data that lie on a B-spline curve (of the same degree and number of control points) at equidistant parameters are fitted by that
very curve: its control points are found again. Each coordinate separately. -/
theorem C100_reproduced (X Y : Arr) (degree nbasis : Int) (rbf : Option Int) (cv : List Pt) (h : optimum X Y degree nbasis rbf = .ok cv)
    (X' Y' : Arr) (hd : FitData X Y rbf X' Y') (hm : nbasis ≤ X'.length) (hn2 : 2 ≤ X'.length)
    (cv' : List Pt) (hl : (cv'.length : Int) = nbasis) :
    ((∀ i (hi : i < X'.length), (bsplinePoint cv' degree.toNat (i * (((cv'.length : ℝ) - degree.toNat) / (X'.length - 1)))).1 = X'[i]) →
      cv'.map Prod.fst = cv.map Prod.fst) ∧
    ((∀ i (hi : i < Y'.length), (bsplinePoint cv' degree.toNat (i * (((cv'.length : ℝ) - degree.toNat) / (Y'.length - 1)))).2 = Y'[i]) →
      cv'.map Prod.snd = cv.map Prod.snd) := by
  obtain ⟨s1, s2, s3, s4⟩ := optimum_sizes h
  have hl' : cv'.length = cv.length := by omega
  obtain ⟨X₂, Y₂, hd2, -, cols, x0, xl, y0, yl, -, a1, a2, hYX, a3, a4, -⟩ := (data_eq ..).1 h
  obtain ⟨rfl, rfl⟩ := FitData.unique hd2 hd
  obtain ⟨X₃, Y₃, hd3, -, ⟨x0', y0', xl', yl', c1, c2, c3, c4, c5, c6⟩, -⟩ := C68_optimal X Y degree nbasis rbf cv h
  obtain ⟨rfl, rfl⟩ := FitData.unique hd3 hd
  rw [a1] at c1; cases c1
  rw [a2] at c3; cases c3
  rw [a3] at c2; cases c2
  rw [a4] at c4; cases c4
  -- the polygon with one coordinate of `cv'` and the other of `cv`
  have zero : ∀ (f : Pt → ℝ) (c : List Pt) (V : Arr), c.length = cv'.length → (∀ i (hi : i < V.length), f (bsplinePoint c degree.toNat
      (i * (((cv'.length : ℝ) - degree.toNat) / (V.length - 1)))) = V[i]) → sqErr f c degree.toNat V = 0 := by
    intro f c V hc hV
    unfold sqErr
    apply Finset.sum_eq_zero
    intro j _
    have := hV j j.2
    simp only [Fin.getElem_fin] at this ⊢
    rw [hc, this]; ring
  have nonneg : ∀ (f : Pt → ℝ) (c : List Pt) (V : Arr), 0 ≤ sqErr f c degree.toNat V := fun f c V => Finset.sum_nonneg fun j _ => sq_nonneg _
  have mapz1 : ((cv'.map Prod.fst).zip (cv.map Prod.snd)).map Prod.fst = cv'.map Prod.fst := List.map_fst_zip (by simp [hl'])
  have mapz2 : ((cv'.map Prod.fst).zip (cv.map Prod.snd)).map Prod.snd = cv.map Prod.snd := List.map_snd_zip (by simp [hl'])
  have mapw1 : ((cv.map Prod.fst).zip (cv'.map Prod.snd)).map Prod.fst = cv.map Prod.fst := List.map_fst_zip (by simp [hl'])
  have mapw2 : ((cv.map Prod.fst).zip (cv'.map Prod.snd)).map Prod.snd = cv'.map Prod.snd := List.map_snd_zip (by simp [hl'])
  have h5 : (cv.map Prod.fst).head? = some x0 ∧ (cv.map Prod.snd).head? = some y0 := by
    rw [List.head?_map, List.head?_map, c5]; exact ⟨rfl, rfl⟩
  have h6 : (cv.map Prod.fst).getLast? = some xl ∧ (cv.map Prod.snd).getLast? = some yl := by
    rw [List.getLast?_map, List.getLast?_map, c6]; exact ⟨rfl, rfl⟩
  constructor
  · intro hx
    obtain ⟨g0, g1⟩ := curve_ends (by omega) s2 hn2 Prod.fst (Or.inl rfl) X₃ rfl hx
    have key := (C100_unique X Y degree nbasis rbf cv h X₃ Y₃ hd hm ((cv'.map Prod.fst).zip (cv.map Prod.snd)) (by simp [hl'])
      (by rw [zip_head?_of (g0.trans a1) h5.2, c5]) (by rw [zip_getLast?_of (by simp [hl']) (g1.trans a2) h6.2, c6])).1
    rw [mapz1] at key
    apply key
    rw [sqErr_eq _ (Or.inl rfl), mapz1, ← sqErr_eq _ (Or.inl rfl), zero _ _ _ rfl hx]
    exact nonneg _ _ _
  · intro hy
    obtain ⟨g0, g1⟩ := curve_ends (by omega) s2 (by omega) Prod.snd (Or.inr rfl) Y₃ rfl hy
    have key := (C100_unique X Y degree nbasis rbf cv h X₃ Y₃ hd hm ((cv.map Prod.fst).zip (cv'.map Prod.snd)) (by simp [hl'])
      (by rw [zip_head?_of h5.1 (g0.trans a3), c5]) (by rw [zip_getLast?_of (by simp [hl']) h6.1 (g1.trans a4), c6])).2
    rw [mapw2] at key
    apply key
    rw [sqErr_eq _ (Or.inr rfl), mapw2, ← sqErr_eq _ (Or.inr rfl), zero _ _ _ rfl hy]
    exact nonneg _ _ _

/-- **C100** where the control radii lie: when the radii to be fitted are equally spaced - always with radial basis functions - and enough,
the control radii of degree `k ≥ 1` are the averages of `k` consecutive knots, scaled to the range of the radii. In particular they increase. -/
theorem C100_control_radii (X Y : Arr) (degree nbasis : Int) (rbf : Option Int) (cv : List Pt) (h : optimum X Y degree nbasis rbf = .ok cv)
    (h1 : 1 ≤ degree) (X' Y' : Arr) (hd : FitData X Y rbf X' Y') (hm : nbasis ≤ X'.length)
    (x0 xl : ℝ) (hX : X' = linspaceN x0 xl X'.length) :
    ∀ i (hi : i < cv.length), cv[i].1 = x0 + (xl - x0) / (nbasis - degree) *
      ((∑ r ∈ Finset.range degree.toNat, clampedKnot cv.length degree.toNat (i + 1 + r)) / degree) := by
  obtain ⟨s1, s2, s3, s4⟩ := optimum_sizes h
  obtain ⟨k, rfl⟩ : ∃ k : Nat, degree = k := ⟨degree.toNat, by omega⟩
  obtain ⟨n, rfl⟩ : ∃ n : Nat, nbasis = n := ⟨nbasis.toNat, by omega⟩
  simp only [Int.toNat_natCast] at *
  set s : ℝ := (xl - x0) / ((n : ℝ) - k) with hs
  set g : Nat → ℝ := fun i => x0 + s * ((∑ r ∈ Finset.range k, clampedKnot n k (i + 1 + r)) / k) with hg
  set cv' : List Pt := (List.range n).map fun i => (g i, 0) with hcv'
  have hl : cv'.length = n := by simp [hcv']
  have hnk : ((n : ℝ) - k) ≠ 0 := by
    have : (k : ℝ) < n := by exact_mod_cast (by omega : k < n)
    linarith
  obtain ⟨out, ho, hol, hoget⟩ := C34_curve cv' X'.length k (by omega) s2
  have hlin := (C99_linear cv' X'.length k (by omega) (by omega) s2 out ho x0 s).1 (by
    intro i hi
    rw [hl] at hi ⊢
    simp [hcv', hg])
  have key := (C100_reproduced X Y k n rbf cv h X' Y' hd hm (by omega) cv' (by rw [hl])).1 (by
    intro i hi
    simp only [Int.toNat_natCast]
    rw [← hoget i (by omega), hlin i (by omega), hl]
    have e : X'[i] = x0 + i * ((xl - x0) / (X'.length - 1)) := by
      have := List.getElem_of_eq hX hi
      rw [this, linspaceN_getElem]
    rw [e, hs]
    congr 1
    field_simp)
  intro i hi
  have e : cv[i].1 = g i := by
    have := List.getElem_of_eq key (i := i) (by simp [hl]; omega)
    simpa [hcv'] using this.symm
  rw [e]
  simp only [hg, s3, hs]
  push_cast
  rfl

/-- The abscissae of the spline through the deformed control points. -/
theorem linspaceN_ends {a b x0 xl : ℝ} {n : Nat} (h0 : (linspaceN a b n).head? = some x0) (hl : (linspaceN a b n).getLast? = some xl) :
    linspaceN a b n = linspaceN x0 xl n := by
  have hn : 0 < n := by
    rcases n with _ | n
    · simp [linspaceN] at h0
    · omega
  rw [List.head?_eq_getElem?, List.getElem?_eq_getElem (by rw [linspaceN_length]; omega), Option.some.injEq, linspaceN_getElem] at h0
  rw [List.getLast?_eq_getElem?, List.getElem?_eq_getElem (by rw [linspaceN_length]; omega), Option.some.injEq, linspaceN_getElem, linspaceN_length] at hl
  simp only [Nat.cast_zero, zero_mul, add_zero] at h0
  subst h0
  by_cases h1 : n = 1
  · subst h1
    apply List.ext_getElem (by simp [linspaceN_length])
    intro i i1 i2
    rw [linspaceN_length] at i1
    rw [linspaceN_getElem, linspaceN_getElem, show i = 0 by omega]
    simp
  · have hn1 : ((n - 1 : Nat) : ℝ) = (n : ℝ) - 1 := by rw [Nat.cast_sub hn]; simp
    have hne : (n : ℝ) - 1 ≠ 0 := by
      have : (2 : ℝ) ≤ n := by exact_mod_cast (by omega : 2 ≤ n)
      linarith
    rw [hn1] at hl
    have : xl = b := by rw [← hl]; field_simp; ring
    rw [this]

theorem EvenFit.grid {X Y X' Y' : Arr} {rbf : Option Int} {nbasis : Int} (he : EvenFit X rbf nbasis) (hd : FitData X Y rbf X' Y') {x0 xl : ℝ}
    (hx0 : X.head? = some x0) (hxl : X.getLast? = some xl) : X' = linspaceN x0 xl X'.length ∧ nbasis ≤ X'.length := by
  rcases he with ⟨a, b⟩ | ⟨a, ⟨u, v, hX⟩, b⟩ <;> rcases hd with ⟨a', c1, -⟩ | ⟨a', b0, bl, c1, c2, c3, -⟩
  · omega
  · rw [hx0] at c1; cases c1
    rw [hxl] at c2; cases c2
    have hl : X'.length = (rbf.getD 0).toNat := by rw [c3, linspaceN_length]
    exact ⟨by rw [hl]; exact c3, by rw [hl]; omega⟩
  · subst c1
    rw [hX] at hx0 hxl
    exact ⟨hX.trans (linspaceN_ends hx0 hxl), b⟩
  · omega

theorem spline_radii {X Y d : Arr} {degree nbasis npoints : Int} {rbf : Option Int} {cp cp' sp : List Pt} (e1 : optimum X Y degree nbasis rbf = .ok cp)
    (h1 : 1 ≤ degree) (hm : EvenFit X rbf nbasis) {x0 xl : ℝ} (hx0 : X.head? = some x0)
    (hxl : X.getLast? = some xl) (e2 : cp.length = d.length) (e3 : cp' = List.zipWith (fun (q : Pt) d => (q.1, q.2 + d)) cp d)
    (e4 : scipyBspline cp' npoints degree = .ok sp) : sp.map Prod.fst = linspaceN x0 xl npoints.toNat := by
  obtain ⟨s1, s2, s3, s4⟩ := optimum_sizes e1
  obtain ⟨X', Y', hd, -⟩ := C68_optimal _ _ _ _ _ _ e1
  have hnk : degree < nbasis := by omega
  obtain ⟨hX, hXl⟩ := EvenFit.grid hm hd hx0 hxl
  have key := C100_control_radii _ _ _ _ _ _ e1 h1 X' Y' hd hXl x0 xl hX
  obtain ⟨k, rfl⟩ : ∃ k : Nat, degree = k := ⟨degree.toNat, by omega⟩
  obtain ⟨n, rfl⟩ : ∃ n : Nat, nbasis = n := ⟨nbasis.toNat, by omega⟩
  simp only [Int.toNat_natCast] at *
  have hl : cp'.length = cp.length := by rw [e3]; simp [e2]
  have hnp : ∃ N : Nat, npoints = N := by
    refine ⟨npoints.toNat, ?_⟩
    by_contra hneg
    have := C34_errors cp' npoints k
    have h0 : npoints < 0 := by omega
    simp [scipyBspline, linspace, h0, bind, Except.bind, throw, throwThe, MonadExceptOf.throw] at e4
  obtain ⟨N, rfl⟩ := hnp
  simp only [Int.toNat_natCast]
  have hkr : (n : ℝ) - k ≠ 0 := by
    have : (k : ℝ) < n := by exact_mod_cast (by omega : k < n)
    linarith
  obtain ⟨out, ho, hol, -⟩ := C34_curve cp' N k (by omega) s2
  rw [e4] at ho
  obtain rfl := Except.ok.inj ho
  have hlin := (C99_linear cp' N k (by omega) (by omega) s2 sp e4 x0 ((xl - x0) / (n - k))).1 (by
    intro i hi
    have hi' : i < cp.length := by omega
    have := key i hi'
    have e : cp'[i].1 = cp[i].1 := by
      have := List.getElem_of_eq e3 hi
      rw [this]; simp
    rw [e, this, hl]
    push_cast
    rfl)
  apply List.ext_getElem (by simp [hol, linspaceN_length])
  intro j h2 h3
  rw [List.getElem_map, hlin j (by simpa using h2), linspaceN_getElem, hl, s3]
  congr 1
  field_simp

/-- **C100** the points of the deformed spline lie over the equally spaced radii `x0 + j (xl - x0)/(npoints - 1)`, whatever the
distribution and the deformations are: with equally spaced radii to be fitted, enough of them, and degree at least 1. -/
theorem C100_spline_radii (s s' : Deform) (rbf : Option Int) (tol : PName → ℝ) (h : computeAll rbf tol s = (s', .ok ())) (p : PName)
    (h1 : 1 ≤ s.degree p) (hm : EvenFit s.radii rbf (s.nbasis p)) (x0 xl : ℝ) (hx0 : s.radii.head? = some x0)
    (hxl : s.radii.getLast? = some xl) :
    ∃ sp, s'.spline p = some sp ∧ sp.map Prod.fst = linspaceN x0 xl (s.npoints p).toNat := by
  have hall : ∀ p, p ∈ PName.all := by intro p; cases p <;> simp [PName.all]
  obtain ⟨D, hD, rfl⟩ := (computeAll_iff ..).1 h
  obtain ⟨cp, e1, e2, e3, e4, e5⟩ := hD p
  refine ⟨(D p).2.1, by simp [result, hall], ?_⟩
  exact spline_radii e1 h1 hm hx0 hxl e2 e3 e4

/-- **C100** when `compute_all` succeeds: with radial basis functions at enough radii and degrees at least 1, it succeeds exactly when every
radius is nearer than the tolerance to one of the equally spaced radii `x0 + j (xl - x0)/(npoints - 1)`. -/
theorem C100_succeeds_iff (s : Deform) (rbf : Option Int) (tol : PName → ℝ) (x0 xl : ℝ) (hx0 : s.radii.head? = some x0)
    (hxl : s.radii.getLast? = some xl) (hnd : 0 < rbf.getD 0 → s.radii.Nodup)
    (hp : ∀ p, 1 ≤ s.degree p ∧ s.degree p ≤ 5 ∧ s.degree p < s.nbasis p ∧ EvenFit s.radii rbf (s.nbasis p) ∧
      (s.parameters p).length = s.radii.length ∧ ((s.deformations p).length : Int) = s.nbasis p ∧ 0 ≤ s.npoints p ∧
      (s.deformed p).length = s.radii.length) :
    (∃ s', computeAll rbf tol s = (s', .ok ())) ↔
      ∀ p, ∀ r ∈ s.radii, ∃ j : Nat, (j : Int) < s.npoints p ∧ |x0 + j * ((xl - x0) / (s.npoints p - 1)) - r| < tol p := by
  have near : ∀ (p : PName) (r : ℝ), (∃ x ∈ linspaceN x0 xl (s.npoints p).toNat, |x - r| < tol p) ↔
      ∃ j : Nat, (j : Int) < s.npoints p ∧ |x0 + j * ((xl - x0) / (s.npoints p - 1)) - r| < tol p := by
    intro p r
    have h0 := (hp p).2.2.2.2.2.2.1
    have hcast : (((s.npoints p).toNat : Nat) : ℝ) = (s.npoints p : ℝ) := by
      exact_mod_cast Int.toNat_of_nonneg h0
    constructor
    · rintro ⟨x, hx, hr⟩
      obtain ⟨j, hj, rfl⟩ := List.getElem_of_mem hx
      rw [linspaceN_getElem, hcast] at hr
      rw [linspaceN_length] at hj
      exact ⟨j, by omega, hr⟩
    · rintro ⟨j, hj, hr⟩
      have hj' : j < (linspaceN x0 xl (s.npoints p).toNat).length := by rw [linspaceN_length]; omega
      exact ⟨_, List.getElem_mem hj', by rw [linspaceN_getElem, hcast]; exact hr⟩
  constructor
  · rintro ⟨s', h⟩ p r hr
    obtain ⟨D, hD, rfl⟩ := (computeAll_iff ..).1 h
    obtain ⟨cp, e1, e2, e3, e4, e5⟩ := hD p
    obtain ⟨a1, a2, a3, a4, a5, a6, a7, a8⟩ := hp p
    rw [← near, ← spline_radii e1 a1 a4 hx0 hxl e2 e3 e4]
    exact ((loop_values a8).1 e5).1 r hr
  · intro h
    have one : ∀ p, ∃ D, Steps s rbf (tol p) p D := by
      intro p
      obtain ⟨a1, a2, a3, a4, a5, a6, a7, a8⟩ := hp p
      obtain ⟨cp, e1⟩ := (C68_defined s.radii (s.parameters p) (s.degree p) (s.nbasis p) rbf).2
        ⟨by omega, by omega, a2, a3, (by rintro e; rw [e] at hx0; cases hx0), a5, hnd⟩
      obtain ⟨s1, s2, s3, s4⟩ := optimum_sizes e1
      have e2 : cp.length = (s.deformations p).length := by omega
      set cp' := List.zipWith (fun (q : Pt) d => (q.1, q.2 + d)) cp (s.deformations p) with e3
      have hl' : cp'.length = cp.length := by rw [e3]; simp [e2]
      obtain ⟨sp, e4, -⟩ := C34_curve cp' (s.npoints p).toNat (s.degree p).toNat (by omega) s2
      rw [Int.toNat_of_nonneg a7, Int.toNat_of_nonneg s4] at e4
      refine ⟨(cp', sp, s.radii.map fun r => (sp.getD ((sp.map Prod.fst).findIdx fun x => decide (|x - r| < tol p)) 0).2), cp, e1, e2, rfl, e4, (loop_values a8).2 ⟨?_, rfl⟩⟩
      intro r hr
      show ∃ x ∈ sp.map Prod.fst, _
      rw [spline_radii e1 a1 a4 hx0 hxl e2 e3 e4]
      exact (near p r).2 (h p r hr)
    choose D hD using one
    exact ⟨_, (computeAll_iff ..).2 ⟨D, hD, rfl⟩⟩

/-- **C100** in particular, with increasing radii, a tolerance above half the distance of two neighbouring spline points is always
enough. -/
theorem C100_tolerance (s : Deform) (rbf : Option Int) (tol : PName → ℝ) (x0 xl : ℝ) (hx0 : s.radii.head? = some x0)
    (hxl : s.radii.getLast? = some xl) (hinc : s.radii.Pairwise (· < ·))
    (hp : ∀ p, 1 ≤ s.degree p ∧ s.degree p ≤ 5 ∧ s.degree p < s.nbasis p ∧ EvenFit s.radii rbf (s.nbasis p) ∧
      (s.parameters p).length = s.radii.length ∧ ((s.deformations p).length : Int) = s.nbasis p ∧ 2 ≤ s.npoints p ∧
      (s.deformed p).length = s.radii.length) (ht : ∀ p, (xl - x0) / (2 * (s.npoints p - 1)) < tol p) :
    ∃ s', computeAll rbf tol s = (s', .ok ()) := by
  rw [C100_succeeds_iff s rbf tol x0 xl hx0 hxl (fun _ => hinc.imp fun h => ne_of_lt h) (fun p => by
    obtain ⟨a1, a2, a3, a4, a5, a6, a7, a8⟩ := hp p
    exact ⟨a1, a2, a3, a4, a5, a6, by omega, a8⟩)]
  intro p r hr
  have hN := (hp p).2.2.2.2.2.2.1
  have hN' : (2 : ℝ) ≤ (s.npoints p : ℝ) := by exact_mod_cast hN
  -- the radius lies between the first and the last one
  have hle : x0 ≤ r ∧ r ≤ xl := by
    obtain ⟨i, hi, rfl⟩ := List.getElem_of_mem hr
    rw [List.head?_eq_getElem?] at hx0
    rw [List.getLast?_eq_getElem?] at hxl
    rw [List.getElem?_eq_getElem (by omega)] at hx0 hxl
    have h0 := Option.some.inj hx0
    have hl := Option.some.inj hxl
    rw [List.pairwise_iff_getElem] at hinc
    constructor
    · rw [← h0]
      rcases Nat.eq_zero_or_pos i with rfl | h
      · exact le_rfl
      · exact (hinc 0 i (by omega) hi h).le
    · rw [← hl]
      rcases Nat.lt_or_ge i (s.radii.length - 1) with h | h
      · exact (hinc i _ hi (by omega) h).le
      · have : i = s.radii.length - 1 := by omega
        subst this; exact le_rfl
  set N1 : ℝ := (s.npoints p : ℝ) - 1 with hN1
  have hN1p : 0 < N1 := by rw [hN1]; linarith
  have hbound := ht p
  rcases eq_or_lt_of_le (hle.1.trans hle.2) with he | hlt
  · refine ⟨0, by omega, ?_⟩
    have : r = x0 := by linarith
    rw [this, he]
    rw [← he, sub_self, zero_div] at hbound
    simpa using hbound
  set d := (xl - x0) / N1 with hd
  have hdp : 0 < d := div_pos (by linarith) hN1p
  have hhalf : (xl - x0) / (2 * N1) = d / 2 := by rw [hd]; field_simp
  rw [hhalf] at hbound
  set u := (r - x0) / d with hu
  have hu0 : 0 ≤ u := div_nonneg (by linarith) hdp.le
  have hu1 : u ≤ N1 := by
    rw [hu, div_le_iff₀ hdp, hd]
    have : N1 * ((xl - x0) / N1) = xl - x0 := by field_simp
    rw [this]; linarith [hle.2]
  refine ⟨⌊u + 1 / 2⌋₊, ?_, ?_⟩
  · have h1 := Nat.floor_le (show 0 ≤ u + 1 / 2 by linarith)
    have h2 : ((⌊u + 1 / 2⌋₊ : Nat) : ℝ) < (s.npoints p : ℝ) := by rw [hN1] at hu1; linarith
    have : (((⌊u + 1 / 2⌋₊ : Nat) : Int) : ℝ) < (s.npoints p : ℝ) := by exact_mod_cast h2
    exact_mod_cast this
  · have h1 := Nat.floor_le (show 0 ≤ u + 1 / 2 by linarith)
    have h2 := Nat.lt_floor_add_one (u + 1 / 2)
    have e : x0 + (⌊u + 1 / 2⌋₊ : Nat) * d - r = (((⌊u + 1 / 2⌋₊ : Nat) : ℝ) - u) * d := by
      rw [hu]; field_simp; ring
    rw [e, abs_mul, abs_of_pos hdp]
    have : |((⌊u + 1 / 2⌋₊ : Nat) : ℝ) - u| ≤ 1 / 2 := by rw [abs_le]; constructor <;> linarith
    nlinarith

/-- The first index near a radius grows with the radius. -/
theorem findIdx_mono {xs : List ℝ} (hx : xs.Pairwise (· ≤ ·)) {tol r r' : ℝ} (hr : r ≤ r') (h : ∃ x ∈ xs, |x - r'| < tol) (h' : ∃ x ∈ xs, |x - r| < tol) :
    xs.findIdx (fun x => decide (|x - r| < tol)) ≤ xs.findIdx (fun x => decide (|x - r'| < tol)) := by
  by_contra hlt
  rw [not_le] at hlt
  set i := xs.findIdx (fun x => decide (|x - r| < tol)) with hi
  set j := xs.findIdx (fun x => decide (|x - r'| < tol)) with hj
  have hil : i < xs.length := by
    obtain ⟨x, hx, hr⟩ := h'
    exact List.findIdx_lt_length.2 ⟨x, hx, by simpa using hr⟩
  have hjl : j < xs.length := by omega
  have g1 : |xs[i] - r| < tol := by simpa using List.findIdx_getElem (w := hil)
  have g2 : |xs[j] - r'| < tol := by simpa using List.findIdx_getElem (w := hjl)
  have g3 : ¬ |xs[j] - r| < tol := by simpa using List.not_of_lt_findIdx hlt
  rw [List.pairwise_iff_getElem] at hx
  have g4 := hx j i hjl hil hlt
  apply g3
  rw [abs_lt] at g1 g2 ⊢
  constructor <;> linarith

/-- **C100** order is kept: under the same conditions, with increasing radii, deformed control ordinates that never decrease (never
increase) from hub to tip give a deformed distribution that never decreases (never increases). -/
theorem C100_monotone (s s' : Deform) (rbf : Option Int) (tol : PName → ℝ) (h : computeAll rbf tol s = (s', .ok ())) (p : PName)
    (h1 : 1 ≤ s.degree p) (hm : EvenFit s.radii rbf (s.nbasis p))
    (hl : (s.deformed p).length = s.radii.length) (hinc : s.radii.Pairwise (· ≤ ·)) (cp : List Pt) (hcp : s'.controlPoints p = some cp) :
    ((cp.map Prod.snd).Pairwise (· ≤ ·) → (s'.deformed p).Pairwise (· ≤ ·)) ∧
    ((cp.map Prod.snd).Pairwise (· ≥ ·) → (s'.deformed p).Pairwise (· ≥ ·)) := by
  have hall : ∀ p, p ∈ PName.all := by intro p; cases p <;> simp [PName.all]
  obtain ⟨D, hD, rfl⟩ := (computeAll_iff ..).1 h
  obtain ⟨cq, e1, e2, e3, e4, e5⟩ := hD p
  simp only [result, hall, if_true, Option.some.injEq] at hcp ⊢
  subst hcp
  obtain ⟨s1, s2, s3, s4⟩ := optimum_sizes e1
  have hne : s.radii ≠ [] := ((C68_defined ..).1 ⟨_, e1⟩).2.2.2.2.1
  obtain ⟨x0, hx0⟩ : ∃ x0, s.radii.head? = some x0 := ⟨_, List.head?_eq_some_head hne⟩
  obtain ⟨xl, hxl⟩ : ∃ xl, s.radii.getLast? = some xl := ⟨_, List.getLast?_eq_some_getLast hne⟩
  have hgrid := spline_radii e1 h1 hm hx0 hxl e2 e3 e4
  obtain ⟨v1, v2⟩ := (loop_values hl).1 e5
  have hx : x0 ≤ xl := by
    rw [List.head?_eq_getElem?] at hx0
    rw [List.getLast?_eq_getElem?] at hxl
    have hpos : 0 < s.radii.length := List.length_pos_iff.2 hne
    rw [List.getElem?_eq_getElem (by omega)] at hx0 hxl
    have h0 := Option.some.inj hx0
    have hl := Option.some.inj hxl
    rw [List.pairwise_iff_getElem] at hinc
    rw [← h0, ← hl]
    rcases Nat.eq_zero_or_pos (s.radii.length - 1) with h | h
    · simp only [h]; exact le_rfl
    · exact hinc 0 _ _ _ h
  have hxs : ((D p).2.1.map Prod.fst).Pairwise (· ≤ ·) := by
    rw [hgrid, List.pairwise_iff_getElem]
    intro i j hi hj hij
    rw [linspaceN_length] at hj
    rw [linspaceN_getElem, linspaceN_getElem]
    have a1 : (1 : ℝ) ≤ ((s.npoints p).toNat : ℝ) := by exact_mod_cast (by omega : 1 ≤ (s.npoints p).toNat)
    have a2 : 0 ≤ (xl - x0) / (((s.npoints p).toNat : ℝ) - 1) := div_nonneg (by linarith) (by linarith)
    have a3 : (i : ℝ) ≤ j := by exact_mod_cast hij.le
    have := mul_le_mul_of_nonneg_right a3 a2
    linarith
  obtain ⟨N, hN⟩ : ∃ N : Nat, s.npoints p = N := by
    refine ⟨(s.npoints p).toNat, ?_⟩
    by_contra hneg
    have h0 : s.npoints p < 0 := by omega
    simp [scipyBspline, linspace, h0, bind, Except.bind, throw, throwThe, MonadExceptOf.throw] at e4
  have hk : s.degree p = ((s.degree p).toNat : Int) := by omega
  rw [hN, hk] at e4
  have hcl : (s.degree p).toNat < (D p).1.length := by rw [e3]; simp [← e2]; omega
  obtain ⟨-, m2, -, m4⟩ := C99_monotone (D p).1 N (s.degree p).toNat hcl s2 _ e4
  have idx : ∀ r ∈ s.radii, ((D p).2.1.map Prod.fst).findIdx (fun x => decide (|x - r| < tol p)) < (D p).2.1.length := by
    intro r hr
    obtain ⟨x, hx, ht⟩ := v1 r hr
    rw [← List.length_map (f := Prod.fst)]
    exact List.findIdx_lt_length.2 ⟨x, hx, by simpa using ht⟩
  have main : ∀ R : ℝ → ℝ → Prop, (∀ a, R a a) → ((D p).2.1.map Prod.snd).Pairwise R → (D p).2.2.Pairwise R := by
    intro R hR hp
    rw [v2, List.pairwise_map]
    refine List.Pairwise.imp_of_mem ?_ hinc
    intro r r' hr hr' hle
    have hij := findIdx_mono hxs hle (v1 r' hr') (v1 r hr)
    have hi := idx r hr
    have hj := idx r' hr'
    set i := ((D p).2.1.map Prod.fst).findIdx (fun x => decide (|x - r| < tol p))
    set j := ((D p).2.1.map Prod.fst).findIdx (fun x => decide (|x - r'| < tol p))
    rw [getD_lt hi, getD_lt hj]
    rcases eq_or_lt_of_le hij with he | hlt
    · simp only [he]; exact hR _
    · rw [List.pairwise_iff_getElem] at hp
      have := hp i j (by simpa using hi) (by simpa using hj) hlt
      simpa using this
  exact ⟨fun hc => main _ (fun a => le_refl a) (m2 hc), fun hc => main _ (fun a => le_refl a) (m4 hc)⟩

/-- **C100** the default settings (degree 3, 10 control points, 500 spline points, 1000 points fitted, tolerance 1e-3): increasing radii that
span less than 0.998 never make `compute_all` fail. -/
theorem C100_defaults (s : Deform) (x0 xl : ℝ) (hx0 : s.radii.head? = some x0) (hxl : s.radii.getLast? = some xl)
    (hinc : s.radii.Pairwise (· < ·)) (hp : ∀ p, s.degree p = 3 ∧ s.nbasis p = 10 ∧ s.npoints p = 500 ∧
      (s.parameters p).length = s.radii.length ∧ (s.deformations p).length = 10 ∧ (s.deformed p).length = s.radii.length)
    (hspan : xl - x0 < 0.998) : ∃ s', computeAll (some 1000) (fun _ => 0.001) s = (s', .ok ()) := by
  refine C100_tolerance s (some 1000) _ x0 xl hx0 hxl hinc (fun p => ?_) (fun p => ?_)
  · obtain ⟨a1, a2, a3, a4, a5, a6⟩ := hp p
    rw [a1, a2, a3, a5]
    exact ⟨by norm_num, by norm_num, by norm_num, Or.inl ⟨by simp, by simp⟩, a4, by norm_num, by norm_num, a6⟩
  · rw [(hp p).2.2.1]
    push_cast
    rw [div_lt_iff₀ (by norm_num)]
    norm_num at hspan ⊢
    linarith

/-- **C100** the defaults are not enough for every set of radii: with the sections at 0, 1/2 and 1, whatever the
distributions and deformations are, `compute_all` with its defaults cannot succeed, since 1/2 lies exactly between two spline points, which are
1/499 apart. -/
theorem C100_defaults_fail (s : Deform) (hr : s.radii = [0, 1 / 2, 1]) (hp : ∀ p, s.degree p = 3 ∧ s.nbasis p = 10 ∧ s.npoints p = 500 ∧
      (s.parameters p).length = s.radii.length ∧ (s.deformations p).length = 10 ∧ (s.deformed p).length = s.radii.length) :
    ¬ ∃ s', computeAll (some 1000) (fun _ => 0.001) s = (s', .ok ()) := by
  rw [C100_succeeds_iff s (some 1000) _ 0 1 (by rw [hr]; rfl) (by rw [hr]; rfl) (fun _ => by rw [hr]; norm_num) (fun p => by
    obtain ⟨a1, a2, a3, a4, a5, a6⟩ := hp p
    rw [a1, a2, a3, a5]
    exact ⟨by norm_num, by norm_num, by norm_num, Or.inl ⟨by simp, by simp⟩, a4, by norm_num, by norm_num, a6⟩)]
  intro h
  obtain ⟨j, -, hj⟩ := h .chord (1 / 2) (by rw [hr]; simp)
  rw [(hp .chord).2.2.1] at hj
  push_cast at hj
  rcases Nat.lt_or_ge j 250 with hlt | hge
  · have : (j : ℝ) ≤ 249 := by exact_mod_cast (by omega : j ≤ 249)
    rw [abs_lt] at hj
    norm_num at hj
    linarith
  · have : (250 : ℝ) ≤ j := by exact_mod_cast hge
    rw [abs_lt] at hj
    norm_num at hj
    linarith

/-- The object of the examples: three sections, the default settings, one distribution for all parameters. -/
def Sample.defaults (radii v d : Arr) : Deform where
  radii := radii
  parameters := fun _ => v
  nbasis := fun _ => 10
  degree := fun _ => 3
  npoints := fun _ => 500
  deformations := fun _ => d
  deformed := fun _ => List.replicate radii.length 0
  controlPoints := fun _ => none
  spline := fun _ => none

/-- Ten increasing deformations. -/
def Sample.ramp : Arr := (List.range 10).map fun i : Nat => (i : ℝ)

theorem Sample.defaults_ok (v : Arr) (hv : v.length = 3) :
    ∃ s', computeAll (some 1000) (fun _ => 0.001) (Sample.defaults [0.3, 0.6, 1] v Sample.ramp) = (s', .ok ()) :=
  C100_defaults _ 0.3 1 rfl rfl (by simp only [Sample.defaults]; norm_num)
    (fun p => ⟨rfl, rfl, rfl, by simp [Sample.defaults, hv], by simp [Sample.defaults, Sample.ramp], by simp [Sample.defaults]⟩) (by norm_num)

example : ¬ ∃ s', computeAll (some 1000) (fun _ => 0.001) (Sample.defaults [0, 1 / 2, 1] [2, 2.5, 1] Sample.ramp) = (s', .ok ()) :=
  C100_defaults_fail _ rfl (fun p => ⟨rfl, rfl, rfl, rfl, by simp [Sample.defaults, Sample.ramp], by simp [Sample.defaults]⟩)

example : ∃ s' sp, computeAll (some 1000) (fun _ => 0.001) (Sample.defaults [0.3, 0.6, 1] [2, 2.5, 1] Sample.ramp) = (s', .ok ()) ∧
    s'.spline .pitch = some sp ∧ sp.map Prod.fst = linspaceN 0.3 1 500 := by
  obtain ⟨s', h⟩ := Sample.defaults_ok [2, 2.5, 1] rfl
  obtain ⟨sp, h1, h2⟩ := C100_spline_radii _ s' (some 1000) _ h .pitch (by simp [Sample.defaults]) (Or.inl ⟨by simp, by simp [Sample.defaults]⟩) 0.3 1 rfl rfl
  exact ⟨s', sp, h, h1, h2⟩

/-- Non-vacuity of `C100_unique` and `C100_reproduced`: 1000 points are enough for ten control points of degree 3. -/
example : ∃ cv X' Y', optimum [0.3, 0.6, 1] [2, 2.5, 1] 3 10 (some 1000) = .ok cv ∧ FitData [0.3, 0.6, 1] [2, 2.5, 1] (some 1000) X' Y' ∧
    (10 : Int) ≤ X'.length ∧ X' = linspaceN 0.3 1 X'.length := by
  obtain ⟨cv, h⟩ := (C68_defined [0.3, 0.6, 1] [2, 2.5, 1] 3 10 (some 1000)).2 ⟨by norm_num, by norm_num, by norm_num, by norm_num, by simp, rfl,
    fun _ => by norm_num⟩
  obtain ⟨X', Y', hd, -⟩ := C68_optimal _ _ _ _ _ _ h
  refine ⟨cv, X', Y', h, hd, ?_⟩
  rcases hd with ⟨a, -⟩ | ⟨-, b0, bl, c1, c2, c3, -⟩
  · simp at a
  · cases c1; cases c2
    have hl : X'.length = ((some (1000 : Int)).getD 0).toNat := by rw [c3, linspaceN_length]
    rw [hl]
    exact ⟨by simp, c3⟩

/-- Monotone control ordinates do occur: no distribution at all, with increasing deformations. -/
example : ∃ s' cp, computeAll (some 1000) (fun _ => 0.001) (Sample.defaults [0.3, 0.6, 1] [0, 0, 0] Sample.ramp) = (s', .ok ()) ∧
    s'.controlPoints .pitch = some cp ∧ (cp.map Prod.snd).Pairwise (· ≤ ·) ∧ (s'.deformed .pitch).Pairwise (· ≤ ·) := by
  obtain ⟨s', h⟩ := Sample.defaults_ok [0, 0, 0] rfl
  have hall : ∀ p, p ∈ PName.all := by intro p; cases p <;> simp [PName.all]
  obtain ⟨D, hD, rfl⟩ := (computeAll_iff ..).1 h
  have hmono : ((D .pitch).1.map Prod.snd).Pairwise (· ≤ ·) := by
    obtain ⟨cq, e1, e2, e3, -, -⟩ := hD .pitch
    simp only [Sample.defaults] at e1 e2 e3
    have hzero := (C87_fit_linear _ _ _ _ _ _ _ _ e1 e1 0 0).2
    have hc : combine 0 0 [0, 0, 0] [0, 0, 0] = ([0, 0, 0] : Arr) := by simp [combine]
    rw [hc, e1] at hzero
    have hz := Except.ok.inj hzero
    have : (D .pitch).1.map Prod.snd = Sample.ramp := by
      rw [e3, hz]
      apply List.ext_getElem
      · simp [combinePts, e2]
      · intro i h1 h2
        simp [combinePts]
    rw [this, Sample.ramp]
    exact pairwise_range fun i j hij _ => by exact_mod_cast hij.le
  have hcp : (result (Sample.defaults [0.3, 0.6, 1] [0, 0, 0] Sample.ramp) PName.all D).controlPoints .pitch = some (D .pitch).1 := by
    simp [result, hall]
  refine ⟨_, (D .pitch).1, h, hcp, hmono, ?_⟩
  refine (C100_monotone _ _ (some 1000) _ h .pitch ?_ ?_ ?_ ?_ _ hcp).1 hmono
  · simp [Sample.defaults]
  · exact Or.inl ⟨by simp, by simp [Sample.defaults]⟩
  · simp [Sample.defaults]
  · simp only [Sample.defaults]; norm_num

end Deform
end
end BladeX
