import Verif.Lemmas.DeformFit
import Verif.Spec.Deform

/-! # C68: the control points are the constrained least-squares optimum -/

namespace BladeX
noncomputable section
open Spec BSpline
namespace Deform

theorem fitErr_sqErr (f : Pt → ℝ) (hf : f = Prod.fst ∨ f = Prod.snd) (cv : List Pt) (k : Nat) (V : Arr) :
    fitErr k (cv.map f) V = sqErr f cv k V := by
  unfold fitErr sqErr
  apply Finset.sum_congr rfl
  intro i _
  congr 2
  rw [List.length_map, sum_getD cv f fun j => coxDeBoor (clampedKnot cv.length k) cv.length k j
    ((params V.length cv.length k).getD i 0)]
  have e : (params V.length cv.length k).getD i 0 = i * (((cv.length : ℝ) - k) / (V.length - 1)) := by
    have hi : (i : Nat) < (linspaceN 0 ((cv.length : ℝ) - k) V.length).length := by simp [linspaceN_length]
    unfold params
    rw [List.getD_eq_getElem?_getD, List.getElem?_eq_getElem hi, Option.getD_some, linspaceN_getElem]
    ring
  rw [e]
  rcases hf with rfl | rfl <;> rfl

theorem data_eq (X Y : Arr) (degree nbasis : Int) (rbf : Option Int) (cv : List Pt) :
    optimum X Y degree nbasis rbf = .ok cv ↔
      ∃ X' Y', FitData X Y rbf X' Y' ∧ 2 ≤ nbasis ∧ ∃ cols x0 xl y0 yl, basisColumns X'.length nbasis.toNat degree = .ok cols ∧
        X'.head? = some x0 ∧ X'.getLast? = some xl ∧ Y'.length = X'.length ∧ Y'.head? = some y0 ∧ Y'.getLast? = some yl ∧
        cv = (x0, y0) :: (List.zip (innerPts cols nbasis.toNat X' x0 xl) (innerPts cols nbasis.toNat Y' y0 yl) ++ [(xl, yl)]) := by
  have core : ∀ X' Y' : Arr, ((do
      if nbasis < 2 then throw .valueError
      let n := nbasis.toNat
      let cols ← basisColumns X'.length n degree
      let x0 ← getFirst X'
      let xl ← getLast X'
      if Y'.length ≠ X'.length then throw .valueError
      let y0 ← getFirst Y'
      let yl ← getLast Y'
      return (x0, y0) :: (List.zip (innerPts cols n X' x0 xl) (innerPts cols n Y' y0 yl) ++ [(xl, yl)]) : Res (List Pt)) = .ok cv) ↔
      2 ≤ nbasis ∧ ∃ cols x0 xl y0 yl, basisColumns X'.length nbasis.toNat degree = .ok cols ∧
        X'.head? = some x0 ∧ X'.getLast? = some xl ∧ Y'.length = X'.length ∧ Y'.head? = some y0 ∧ Y'.getLast? = some yl ∧
        cv = (x0, y0) :: (List.zip (innerPts cols nbasis.toNat X' x0 xl) (innerPts cols nbasis.toNat Y' y0 yl) ++ [(xl, yl)]) := by
    intro X' Y'
    by_cases h2 : nbasis < 2
    · simp only [h2, if_true, bind, Except.bind, throw, throwThe, MonadExceptOf.throw, reduceCtorEq, false_iff]
      rintro ⟨h, _⟩; omega
    · simp only [h2, if_false, bind, Except.bind, pure, Except.pure, throw, throwThe, MonadExceptOf.throw, getFirst, getLast]
      rcases hb : basisColumns X'.length nbasis.toNat degree with e | cols
      · simp
      · rcases h0 : X'.head? with _ | x0
        · simp
        rcases hl : X'.getLast? with _ | xl
        · simp
        by_cases hlen : Y'.length = X'.length
        · rcases k0 : Y'.head? with _ | y0
          · simp [hlen]
          rcases kl : Y'.getLast? with _ | yl
          · simp [hlen]
          simp only [hlen, ne_eq, not_true_eq_false, if_false, Except.ok.injEq]
          constructor
          · intro h
            exact ⟨by omega, cols, x0, xl, y0, yl, rfl, rfl, rfl, trivial, rfl, rfl, h.symm⟩
          · rintro ⟨_, cols', a, b, c, d, e1, e2, e3, _, e4, e5, e6⟩
            cases e1; cases e2; cases e3; cases e4; cases e5
            exact e6.symm
        · simp [hlen]
  unfold optimum
  by_cases hr : 0 < rbf.getD 0
  · simp only [hr, if_true]
    unfold FitData
    simp only [hr, not_le.2 hr, false_and, false_or, true_and]
    rcases h0 : X.head? with _ | x0
    · simp [getFirst, h0, bind, Except.bind]
    rcases hl : X.getLast? with _ | xl
    · simp [getFirst, getLast, h0, hl, bind, Except.bind]
    set xx := linspaceN x0 xl (rbf.getD 0).toNat with hxx
    have hxl : xx.length = (rbf.getD 0).toNat := by rw [hxx, linspaceN_length]
    rcases hrec : reconstructF "beckert_wendland_c2_basis" 2 X Y xx (List.replicate (rbf.getD 0).toNat 0) with e | yy
    · simp only [getFirst, getLast, h0, hl, bind, Except.bind, ← hxx, hrec, reduceCtorEq, false_iff]
      rintro ⟨X', Y', ⟨a, b, ha, hb, hX, hY⟩, _⟩
      cases ha; cases hb
      rw [← hxx] at hX
      subst hX
      rw [hxl, hrec] at hY
      cases hY
    · have := core xx yy
      simp only [getFirst, getLast, h0, hl, bind, Except.bind, ← hxx, hrec, pure, Except.pure] at this ⊢
      rw [this]
      constructor
      · intro h
        exact ⟨xx, yy, ⟨x0, xl, rfl, rfl, rfl, by rw [hxl]; exact hrec⟩, h⟩
      · rintro ⟨X', Y', ⟨a, b, ha, hb, hX, hY⟩, h⟩
        cases ha; cases hb
        rw [← hxx] at hX
        subst hX
        rw [hxl, hrec] at hY
        cases hY
        exact h
  · have := core X Y
    simp only [hr, if_false]
    simp only [bind, Except.bind, pure, Except.pure] at this ⊢
    rw [this]
    unfold FitData
    constructor
    · intro h
      exact ⟨X, Y, Or.inl ⟨not_lt.1 hr, rfl, rfl⟩, h⟩
    · rintro ⟨X', Y', (⟨_, rfl, rfl⟩ | ⟨h, _⟩), h'⟩
      · exact h'
      · exact absurd h hr

theorem split_ends {α : Type*} {l : List α} {a b : α} {n : Nat} (hl : l.length = n + 2) (h0 : l.head? = some a)
    (h1 : l.getLast? = some b) : ∃ mid, mid.length = n ∧ l = a :: (mid ++ [b]) := by
  rcases l with _ | ⟨c, t⟩
  · cases h0
  obtain rfl : c = a := by simpa using h0
  have ht : t ≠ [] := by rintro rfl; simp at hl
  refine ⟨t.dropLast, by simp at hl ⊢; omega, ?_⟩
  rw [List.getLast?_cons, List.getLast?_eq_some_getLast ht] at h1
  have hb : t.getLast ht = b := by simpa using h1
  rw [← hb, List.dropLast_append_getLast ht]

theorem ofFn_get {α : Type*} (l : List α) {n : Nat} (h : l.length = n) : ∃ w : Fin n → α, l = List.ofFn w := by
  subst h
  exact ⟨l.get, (List.ofFn_get l).symm⟩

theorem innerPts_length (cols : List Arr) (n : Nat) (V : Arr) (a b : ℝ) : (innerPts cols n V a b).length = n - 2 := by
  simp [innerPts]

theorem fst_polygon {a b : List ℝ} (h : a.length = b.length) (p q : Pt) :
    (p :: (List.zip a b ++ [q])).map Prod.fst = p.1 :: (a ++ [q.1]) ∧
    (p :: (List.zip a b ++ [q])).map Prod.snd = p.2 :: (b ++ [q.2]) := by
  simp [List.map_fst_zip, List.map_snd_zip, h]

theorem optimum_degree {X' : Arr} {n : Nat} {degree : Int} {cols : List Arr} (hn : 2 ≤ n)
    (h : basisColumns X'.length n degree = .ok cols) : ∃ k : Nat, degree = k ∧ k < n ∧ k ≤ 5 := by
  by_cases hd : degree < 0 ∨ 5 < degree ∨ (n : Int) ≤ degree
  · exact absurd h (basisColumns_err (by omega) hd cols)
  · exact ⟨degree.toNat, by omega, by omega, by omega⟩

/-- **C68**: the computed polygon has `nbasis` points, starts and ends at the first and the last data point, and no polygon
of as many points with these ends gives a B-spline curve closer, in the sum of squares, to the data - neither in the radii nor
in the parameter. -/
theorem C68_optimal (X Y : Arr) (degree nbasis : Int) (rbf : Option Int) (cv : List Pt)
    (h : optimum X Y degree nbasis rbf = .ok cv) :
    ∃ X' Y', FitData X Y rbf X' Y' ∧ (cv.length : Int) = nbasis ∧
      (∃ x0 y0 xl yl, X'.head? = some x0 ∧ Y'.head? = some y0 ∧ X'.getLast? = some xl ∧ Y'.getLast? = some yl ∧
        cv.head? = some (x0, y0) ∧ cv.getLast? = some (xl, yl)) ∧
      ∀ cv' : List Pt, cv'.length = cv.length → cv'.head? = cv.head? → cv'.getLast? = cv.getLast? →
        sqErr Prod.fst cv degree.toNat X' ≤ sqErr Prod.fst cv' degree.toNat X' ∧
        sqErr Prod.snd cv degree.toNat Y' ≤ sqErr Prod.snd cv' degree.toNat Y' := by
  obtain ⟨X', Y', hd, hn, cols, x0, xl, y0, yl, hb, h0, hl, hlen, k0, kl, rfl⟩ := (data_eq ..).1 h
  obtain ⟨n, hn'⟩ : ∃ n : Nat, nbasis.toNat = n + 2 := ⟨nbasis.toNat - 2, by omega⟩
  rw [hn'] at hb ⊢
  obtain ⟨k, rfl, hk, h5⟩ := optimum_degree (by omega) hb
  rw [basisColumns_ok hk h5] at hb
  have hcols := (Except.ok.inj hb).symm
  have eA : (innerPts cols (n + 2) X' x0 xl).length = n := innerPts_length ..
  have eB : (innerPts cols (n + 2) Y' y0 yl).length = n := innerPts_length ..
  have hlen' : ((x0, y0) :: (List.zip (innerPts cols (n + 2) X' x0 xl) (innerPts cols (n + 2) Y' y0 yl) ++ [(xl, yl)])).length
      = n + 2 := by simp [eA, eB]
  refine ⟨X', Y', hd, by rw [hlen']; omega, ⟨x0, y0, xl, yl, h0, k0, hl, kl, rfl, ?_⟩, ?_⟩
  · rw [List.getLast?_cons, List.getLast?_append]; simp
  · intro cv' hl' hh hg
    rw [hlen'] at hl'
    have hg' : cv'.getLast? = some (xl, yl) := by rw [hg, List.getLast?_cons, List.getLast?_append]; simp
    obtain ⟨mid, hm, rfl⟩ := split_ends hl' hh hg'
    obtain ⟨w1, hw1⟩ := ofFn_get (mid.map Prod.fst) (by simpa using hm)
    obtain ⟨w2, hw2⟩ := ofFn_get (mid.map Prod.snd) (by simpa using hm)
    obtain ⟨p1, p2⟩ := fst_polygon (eA.trans eB.symm) (x0, y0) (xl, yl)
    simp only [Int.toNat_natCast]
    constructor
    · rw [← fitErr_sqErr _ (Or.inl rfl), ← fitErr_sqErr _ (Or.inl rfl), p1]
      have := inner_min (k := k) X' x0 xl w1
      rw [← hcols] at this
      refine this.trans (le_of_eq ?_)
      rw [← hw1]; simp
    · rw [← fitErr_sqErr _ (Or.inr rfl), ← fitErr_sqErr _ (Or.inr rfl), p2]
      have := inner_min (k := k) Y' y0 yl w2
      rw [hlen, ← hcols] at this
      refine this.trans (le_of_eq ?_)
      rw [← hw2]; simp

/-- **C68**: if some polygon with the right ends gives a curve through all data points, then so does the computed one. -/
theorem C68_exact_fit (X Y : Arr) (degree nbasis : Int) (rbf : Option Int) (hr : rbf.getD 0 ≤ 0) (cv cv' : List Pt)
    (h : optimum X Y degree nbasis rbf = .ok cv) (hl : cv'.length = cv.length) (h0 : cv'.head? = cv.head?)
    (h1 : cv'.getLast? = cv.getLast?)
    (hx : ∀ i (hi : i < X.length), (bsplinePoint cv' degree.toNat (i * (((cv'.length : ℝ) - degree.toNat) / (X.length - 1)))).1
      = X[i])
    (hy : ∀ i (hi : i < Y.length), (bsplinePoint cv' degree.toNat (i * (((cv'.length : ℝ) - degree.toNat) / (Y.length - 1)))).2
      = Y[i]) :
    (∀ i (hi : i < X.length), (bsplinePoint cv degree.toNat (i * (((cv.length : ℝ) - degree.toNat) / (X.length - 1)))).1 = X[i]) ∧
    ∀ i (hi : i < Y.length), (bsplinePoint cv degree.toNat (i * (((cv.length : ℝ) - degree.toNat) / (Y.length - 1)))).2
      = Y[i] := by
  obtain ⟨X', Y', hd, _, _, hmin⟩ := C68_optimal X Y degree nbasis rbf cv h
  obtain ⟨rfl, rfl⟩ : X' = X ∧ Y' = Y := by
    rcases hd with ⟨_, a, b⟩ | ⟨a, _⟩
    · exact ⟨a, b⟩
    · omega
  obtain ⟨m1, m2⟩ := hmin cv' hl h0 h1
  have z : ∀ (f : Pt → ℝ) (V : Arr), (∀ i (hi : i < V.length), f (bsplinePoint cv' degree.toNat
      (i * (((cv'.length : ℝ) - degree.toNat) / (V.length - 1)))) = V[i]) →
      sqErr f cv degree.toNat V ≤ sqErr f cv' degree.toNat V →
      ∀ i (hi : i < V.length), f (bsplinePoint cv degree.toNat (i * (((cv.length : ℝ) - degree.toNat) / (V.length - 1)))) = V[i] := by
    intro f V hV hle i hi
    have h0 : sqErr f cv' degree.toNat V = 0 := by
      unfold sqErr
      apply Finset.sum_eq_zero
      intro j _
      have := hV j j.2
      simp only [Fin.getElem_fin] at this ⊢
      rw [this]; ring
    rw [h0] at hle
    unfold sqErr at hle
    have hz := (Finset.sum_eq_zero_iff_of_nonneg (fun j _ => sq_nonneg _)).1
      (le_antisymm hle (Finset.sum_nonneg fun j _ => sq_nonneg _)) ⟨i, hi⟩ (Finset.mem_univ _)
    have := pow_eq_zero_iff (two_ne_zero) |>.1 hz
    simpa [sub_eq_zero] using this
  exact ⟨z Prod.fst X' hx m1, z Prod.snd Y' hy m2⟩

/-- **C68**: the control points can be computed exactly when there are at least two of them and more than the degree, the
degree is between 0 and 5, there is a section, the arrays have the same length, and - if radial basis functions are used - no
radius is repeated. -/
theorem C68_defined (X Y : Arr) (degree nbasis : Int) (rbf : Option Int) :
    (∃ cv, optimum X Y degree nbasis rbf = .ok cv) ↔
      2 ≤ nbasis ∧ 0 ≤ degree ∧ degree ≤ 5 ∧ degree < nbasis ∧ X ≠ [] ∧ Y.length = X.length ∧
        (0 < rbf.getD 0 → X.Nodup) := by
  constructor
  · rintro ⟨cv, h⟩
    obtain ⟨X', Y', hd, hn, cols, x0, xl, y0, yl, hb, h0, hl, hlen, k0, kl, -⟩ := (data_eq ..).1 h
    obtain ⟨k, rfl, hk, h5⟩ := optimum_degree (by omega) hb
    refine ⟨hn, by omega, by omega, by omega, ?_⟩
    rcases hd with ⟨a, rfl, rfl⟩ | ⟨a, b0, bl, c1, c2, rfl, c4⟩
    · refine ⟨(by rintro rfl; cases h0), hlen, fun h => absurd h (by omega)⟩
    · obtain ⟨d1, d2, _⟩ := (reconstruct_wendland_iff (by norm_num) _ _).1 c4
      exact ⟨(by rintro rfl; cases c1), d1, fun _ => d2⟩
  · rintro ⟨hn, hd0, hd5, hdn, hX, hlen, hnd⟩
    obtain ⟨x0, hx0⟩ : ∃ x0, X.head? = some x0 := by
      cases X with
      | nil => exact absurd rfl hX
      | cons a t => exact ⟨a, rfl⟩
    obtain ⟨xl, hxl⟩ : ∃ xl, X.getLast? = some xl := ⟨_, List.getLast?_eq_some_getLast hX⟩
    obtain ⟨X', Y', hf, hl', hne⟩ : ∃ X' Y', FitData X Y rbf X' Y' ∧ Y'.length = X'.length ∧ X' ≠ [] := by
      by_cases hr : 0 < rbf.getD 0
      · refine ⟨linspaceN x0 xl (rbf.getD 0).toNat, _, Or.inr ⟨hr, x0, xl, hx0, hxl, rfl,
          reconstruct_wendland hlen (by norm_num) (hnd hr) _⟩, by simp, ?_⟩
        intro e
        have := congrArg List.length e
        rw [linspaceN_length] at this
        simp at this
        omega
      · exact ⟨X, Y, Or.inl ⟨by omega, rfl, rfl⟩, hlen, hX⟩
    have hne' : Y' ≠ [] := by rintro rfl; exact hne (List.eq_nil_of_length_eq_zero hl'.symm)
    obtain ⟨k, rfl⟩ : ∃ k : Nat, degree = k := ⟨degree.toNat, by omega⟩
    have hb := basisColumns_ok (m := X'.length) (n := nbasis.toNat) (k := k) (by omega) (by omega)
    have hd : ∀ l : List ℝ, l ≠ [] → l.head? = some (l.head?.getD 0) ∧ l.getLast? = some (l.getLast?.getD 0) := by
      intro l hl
      refine ⟨?_, ?_⟩
      · cases l with
        | nil => exact absurd rfl hl
        | cons a t => rfl
      · rw [List.getLast?_eq_some_getLast hl]; rfl
    exact ⟨_, (data_eq ..).2 ⟨X', Y', hf, hn, _, _, _, _, _, hb, (hd X' hne).1, (hd X' hne).2, hl', (hd Y' hne').1,
      (hd Y' hne').2, rfl⟩⟩

example : ∃ cv, optimum [0.3, 0.5, 0.7, 1] [1, 2, 1.5, 0.5] 2 3 (some 20) = .ok cv := by
  rw [C68_defined]
  refine ⟨by norm_num, by norm_num, by norm_num, by norm_num, by simp, by simp, fun _ => ?_⟩
  simp only [List.nodup_cons, List.mem_cons, List.not_mem_nil, or_false, not_false_iff, List.nodup_nil, and_true]
  norm_num

example (X Y : Arr) : ¬ ∃ cv, optimum X Y 10 10 (some 1000) = .ok cv := by
  rw [C68_defined]; omega

end Deform
end
end BladeX
