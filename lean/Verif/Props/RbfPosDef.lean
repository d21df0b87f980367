import Verif.Lemmas.Interp

/-! # C32, C13: the Wendland system is solvable exactly for distinct nodes; profile interpolation -/

namespace BladeX
open Spec

/-- **C32** Wendland interpolation of 1-D data succeeds exactly when the nodes are pairwise distinct; otherwise it
raises `LinAlgError`. -/
theorem C32_solvable_iff_distinct (r : ℝ) (hr : 0 < r) (X : List ℝ) (y : Arr) (hl : y.length = X.length)
    (xs : List ℝ) :
    ((∃ out, reconstructF "beckert_wendland_c2_basis" r X y xs (List.replicate xs.length 0) = .ok out) ↔ X.Nodup) ∧
    (¬ X.Nodup → reconstructF "beckert_wendland_c2_basis" r X y xs (List.replicate xs.length 0)
      = .error .linAlgError) := by
  constructor
  · constructor
    · rintro ⟨out, h⟩; exact ((reconstruct_wendland_iff hr xs out).1 h).2.1
    · intro h; exact ⟨_, reconstruct_wendland hl hr h xs⟩
  · intro h
    rcases hres : reconstructF "beckert_wendland_c2_basis" r X y xs (List.replicate xs.length 0) with e | out
    · rw [reconstructF_zero wendland_name hr.ne'] at hres
      unfold npSolve at hres
      rw [dif_pos hl] at hres
      split_ifs at hres
      · simp only [Except.map, Except.error.injEq] at hres; rw [← hres]
      · simp [Except.map] at hres
    · exact absurd ((reconstruct_wendland_iff hr xs out).1 hres).2.1 h

/-- **C32** the matrix of the kernel `(1-|x-y|/r)_+^4 (4|x-y|/r+1)` is strictly positive definite for every finite set
of distinct points on the line and every radius. -/
theorem C32_positive_definite (r : ℝ) (hr : 0 < r) (X : List ℝ) (hX : X.Nodup) (c : Fin X.length → ℝ) (hc : c ≠ 0) :
    0 < ∑ i, ∑ j, c i * c j * weightsMatrix .wendland r X X i j := by
  have := Wendland.pos_def (fun i : Fin X.length => X[i]) c
    (fun i j hij => Fin.ext ((List.Nodup.getElem_inj_iff hX).1 hij)) hc hr
  simpa [weightsMatrix, Basis.fn, Real.dist_eq] using this

/-- **C32** and the interpolant passes through all the data, for every set of distinct nodes. -/
theorem C32_interpolates_distinct (r : ℝ) (hr : 0 < r) (X : List ℝ) (hX : X.Nodup) (y : Arr)
    (hl : y.length = X.length) :
    reconstructF "beckert_wendland_c2_basis" r X y X (List.replicate X.length 0) = .ok y := by
  rw [reconstruct_wendland hl hr hX]
  congr 1
  apply List.ext_getElem (by simp [hl])
  intro i h1 h2
  simp only [List.getElem_map]
  exact interpW_node hl hr hX (List.getElem?_eq_getElem _) (List.getElem?_eq_getElem _)

example : ([0, 1/4, 1/2, 1] : List ℝ).Nodup := by norm_num

/-- **C13** argument validation of `interpolate_coordinates`: `TypeError` exactly when `num` is not an `int` (a bool is
one), `ValueError` for a non-positive `num` or radius. -/
theorem C13_argument_checks (P : Profile) (radius : ℝ) :
    (∀ v : PyVal, (∀ n, v ≠ .int n) → (∀ b, v ≠ .bool b) → P.interpolateCoordinates v radius = .error .typeError) ∧
    (∀ n : Int, n ≤ 0 ∨ radius ≤ 0 → P.interpolateCoordinates (.int n) radius = .error .valueError) ∧
    (∀ n : Int, P.interpolateCoordinates (.int n) radius ≠ .error .typeError) := by
  refine ⟨?_, ?_, ?_⟩
  · intro v h1 h2
    cases v with
    | int n => exact absurd rfl (h1 n)
    | bool b => exact absurd rfl (h2 b)
    | _ => rfl
  · intro n h
    simp [Profile.interpolateCoordinates, bind, Except.bind, pure, Except.pure, throw, throwThe, MonadExceptOf.throw, h]
  · intro n
    by_cases h : n ≤ 0 ∨ radius ≤ 0
    · simp [Profile.interpolateCoordinates, bind, Except.bind, pure, Except.pure, throw, throwThe, MonadExceptOf.throw,
        h]
    · push Not at h
      rw [Profile.interpolate_int h.1 h.2]
      have key : ∀ xs ys : Arr, Profile.interpSurface xs ys n.toNat radius ≠ .error .typeError := by
        intro xs ys
        unfold Profile.interpSurface
        rcases h0 : getFirst xs with e | x0
        · have := (getFirst_error.1 h0).2; subst this; simp [bind, Except.bind]
        rcases h1 : getLast xs with e | x1
        · have := (getLast_error.1 h1).2; subst this; simp [bind, Except.bind]
        simp only [bind, Except.bind]
        have hrep : List.replicate n.toNat (0 : ℝ) = List.replicate (linspaceN x0 x1 n.toNat).length 0 := by
          rw [linspaceN_length]
        rw [hrep, reconstructF_zero wendland_name h.2.ne']
        unfold npSolve
        split_ifs <;> simp [Except.map, pure, Except.pure]
      unfold Profile.interpCore
      rcases hu : Profile.interpSurface P.xup P.yup n.toNat radius with e | u
      · simp only [bind, Except.bind]; intro he; apply key P.xup P.yup; rw [hu, Except.error.inj he]
      · rcases hd : Profile.interpSurface P.xdown P.ydown n.toNat radius with e | d
        · simp only [bind, Except.bind]; intro he; apply key P.xdown P.ydown; rw [hd, Except.error.inj he]
        · simp [bind, Except.bind, pure, Except.pure]

/-- **C13** for valid arguments the call succeeds exactly for non-empty, consistent surfaces with pairwise distinct
abscissae. -/
theorem C13_succeeds_iff (P : Profile) (num : Int) (hn : 0 < num) (radius : ℝ) (hr : 0 < radius) :
    (∃ t, P.interpolateCoordinates (.int num) radius = .ok t) ↔
      P.Shaped ∧ P.xup ≠ [] ∧ P.xdown ≠ [] ∧ P.xup.Nodup ∧ P.xdown.Nodup := by
  rw [Profile.interpolate_int hn hr]
  constructor
  · rintro ⟨t, h⟩
    obtain ⟨_, _, _, _, h1, _, h3, _, hs, n1, n2, _⟩ := (Profile.interpCore_ok_iff hr).1 h
    refine ⟨hs, ?_, ?_, n1, n2⟩
    · rintro h; simp [h] at h1
    · rintro h; simp [h] at h3
  · rintro ⟨hs, e1, e2, n1, n2⟩
    exact ⟨_, (Profile.interpCore_ok_iff hr).2 ⟨_, _, _, _, List.head?_eq_some_head e1,
      List.getLast?_eq_some_getLast e1, List.head?_eq_some_head e2, List.getLast?_eq_some_getLast e2, hs, n1, n2, rfl⟩⟩

/-- **C13** the result: `num` uniformly spaced abscissae from the first to the last node abscissa of each surface, and
ordinates that reproduce the end points of the surface. -/
theorem C13_result (P : Profile) (num : Nat) (hn : 2 ≤ num) (radius : ℝ) (hr : 0 < radius) (t : Profile.Interp)
    (h : P.interpolateCoordinates (.int num) radius = .ok t) (a b c d : Pt) (hE : P.Ends a b c d) :
    t.xxUp.length = num ∧ t.yyUp.length = num ∧ t.xxDown.length = num ∧ t.yyDown.length = num ∧
    (∀ i (hi : i < t.xxUp.length), t.xxUp[i] = a.1 + i * ((b.1 - a.1) / (num - 1))) ∧
    (∀ i (hi : i < t.xxDown.length), t.xxDown[i] = c.1 + i * ((d.1 - c.1) / (num - 1))) ∧
    (List.zip t.xxUp t.yyUp).head? = some a ∧ (List.zip t.xxUp t.yyUp).getLast? = some b ∧
    (List.zip t.xxDown t.yyDown).head? = some c ∧ (List.zip t.xxDown t.yyDown).getLast? = some d := by
  rw [Profile.interpolate_int (by omega) hr] at h
  obtain ⟨xu0, xu1, xd0, xd1, h1, h2, h3, h4, hs, n1, n2, rfl⟩ := (Profile.interpCore_ok_iff hr).1 h
  obtain ⟨e1, e2, e3, e4⟩ := hE
  have k1 := zip_head? e1
  have k2 := zip_getLast? hs.1 e2
  have k3 := zip_head? e3
  have k4 := zip_getLast? hs.2 e4
  obtain rfl : xu0 = a.1 := by rw [h1] at k1; exact Option.some.inj k1.1
  obtain rfl : xu1 = b.1 := by rw [h2] at k2; exact Option.some.inj k2.1
  obtain rfl : xd0 = c.1 := by rw [h3] at k3; exact Option.some.inj k3.1
  obtain rfl : xd1 = d.1 := by rw [h4] at k4; exact Option.some.inj k4.1
  have first : ∀ (X y : Arr) (x v : ℝ), y.length = X.length → X.Nodup → X.head? = some x → y.head? = some v →
      interpW radius X y x = v := by
    intro X y x v hl hn hx hv
    rw [List.head?_eq_getElem?] at hx hv
    exact interpW_node hl hr hn hx hv
  have last : ∀ (X y : Arr) (x v : ℝ), y.length = X.length → X.Nodup → X.getLast? = some x → y.getLast? = some v →
      interpW radius X y x = v := by
    intro X y x v hl hn hx hv
    rw [List.getLast?_eq_getElem?] at hx hv
    rw [hl] at hv
    exact interpW_node hl hr hn hx hv
  have hl : ∀ (u v : ℝ) (f : ℝ → ℝ), (linspaceN u v (Int.toNat num)).length
      = ((linspaceN u v (Int.toNat num)).map f).length := by intros; simp
  refine ⟨by simp [linspaceN_length], by simp [linspaceN_length], by simp [linspaceN_length],
    by simp [linspaceN_length], ?_, ?_, ?_, ?_, ?_, ?_⟩
  · intro i hi; simp [linspaceN_getElem]
  · intro i hi; simp [linspaceN_getElem]
  · refine zip_head?_of (y := a.2) (linspaceN_head (by simp; omega)) ?_
    simp only [List.head?_map, linspaceN_head (show 1 ≤ Int.toNat num by simp; omega), Option.map_some]
    rw [first _ _ _ _ hs.1.symm n1 k1.1 k1.2]
  · refine zip_getLast?_of (hl _ _ _) (y := b.2) (linspaceN_last (by simp; omega)) ?_
    simp only [List.getLast?_map, linspaceN_last (show 2 ≤ Int.toNat num by simp; omega), Option.map_some]
    rw [last _ _ _ _ hs.1.symm n1 k2.1 k2.2]
  · refine zip_head?_of (y := c.2) (linspaceN_head (by simp; omega)) ?_
    simp only [List.head?_map, linspaceN_head (show 1 ≤ Int.toNat num by simp; omega), Option.map_some]
    rw [first _ _ _ _ hs.2.symm n2 k3.1 k3.2]
  · refine zip_getLast?_of (hl _ _ _) (y := d.2) (linspaceN_last (by simp; omega)) ?_
    simp only [List.getLast?_map, linspaceN_last (show 2 ≤ Int.toNat num by simp; omega), Option.map_some]
    rw [last _ _ _ _ hs.2.symm n2 k4.1 k4.2]

/-- Non-vacuity: the staggered sample foil can be interpolated. -/
example : ∃ t, Sample.staggered.interpolateCoordinates (.int 500) 1 = .ok t :=
  (C13_succeeds_iff _ _ (by norm_num) _ one_pos).2 (by
    simp [Sample.staggered, Profile.Shaped])

end BladeX
