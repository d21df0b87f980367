import Verif.Lemmas.Measure

namespace BladeX
open Spec

theorem zipWith_map_same {α β γ δ} (f : β → γ → δ) (g : α → β) (h : α → γ) (l : List α) :
    List.zipWith f (l.map g) (l.map h) = l.map (fun x => f (g x) (h x)) := by
  induction l with
  | nil => rfl
  | cons a l ih => simp

theorem linspaceN_nodup {a b : ℝ} (h : a ≠ b) (n : Nat) : (linspaceN a b n).Nodup := by
  unfold linspaceN
  rcases Nat.lt_or_ge n 2 with hn | hn
  · interval_cases n <;> simp
  refine (List.nodup_range).map ?_
  intro i j hij
  simp only [add_right_inj] at hij
  have hn1 : (n : ℝ) - 1 ≠ 0 := by
    have : (2 : ℝ) ≤ n := by exact_mod_cast hn
    linarith
  have : (b - a) / ((n : ℝ) - 1) ≠ 0 := div_ne_zero (sub_ne_zero.2 h.symm) hn1
  exact_mod_cast mul_right_cancel₀ this hij

theorem camberDistances_flat (S : Arr) (κ : ℝ → ℝ) (z : ℝ → ℝ) (hz : ∀ x, z x = 0) :
    Profile.camberDistances (S, S.map z) (S, S.map κ) = (S.map κ).map abs := by
  unfold Profile.camberDistances
  have e : ∀ f : ℝ → ℝ, List.zip S (S.map f) = S.map (fun x => (x, f x)) := by
    intro f
    have := List.zip_map' (f := (id : ℝ → ℝ)) (g := f) (l := S)
    simpa using this
  simp only [e]
  rw [zipWith_map_same, List.map_map]
  apply List.map_congr_left
  intro x _
  simp only [Function.comp, hz]
  rw [← Real.sqrt_sq_eq_abs]
  congr 1; ring

namespace Profile

theorem signedMax_flat (cs : Arr) (hne : cs.map abs ≠ []) (z : Arr) (hz : ∀ i, z.getD i 0 = 0) :
    signedMax (cs.map abs) z cs = .ok (peak cs) := by
  obtain ⟨m, hm⟩ := npMax_exists hne
  have hpk : |peak cs| = m := peak_abs hm
  unfold signedMax
  rw [hm]
  simp only [bind, Except.bind, pure, Except.pure, hz]
  have hpk2 : cs.getD (argmax (cs.map abs)) 0 = peak cs := rfl
  simp only [hpk2, ← hpk]
  split_ifs with hneg
  · rw [abs_of_neg hneg]; simp
  · rw [abs_of_nonneg (not_lt.1 hneg)]

/-- The mean of the two interpolated surfaces. -/
noncomputable def meanInterp (P : Profile) (x : ℝ) : ℝ :=
  0.5 * (interpW 1 P.xup P.yup x + interpW 1 P.xdown P.ydown x)

theorem RefPosition.updateEdges {P : Profile} {x0 x1 u : ℝ} (h : P.RefPosition x0 x1 u) :
    P.updateEdges = .ok ((x0, 0), (x1, 0)) := by
  rw [updateEdges_ends h.shaped h.ends, if_neg (by norm_num)]
  simp

theorem RefPosition.heads {P : Profile} {x0 x1 u : ℝ} (h : P.RefPosition x0 x1 u) :
    P.xup.head? = some x0 ∧ P.xup.getLast? = some x1 ∧ P.xdown.head? = some x0 ∧ P.xdown.getLast? = some x1 ∧
    P.yup.head? = some 0 ∧ P.yup.getLast? = some u ∧ P.ydown.head? = some 0 ∧ P.ydown.getLast? = some (-u) := by
  obtain ⟨e1, e2, e3, e4⟩ := h.ends
  have k1 := zip_head? e1
  have k2 := zip_getLast? h.shaped.1 e2
  have k3 := zip_head? e3
  have k4 := zip_getLast? h.shaped.2 e4
  exact ⟨k1.1, k2.1, k3.1, k4.1, k1.2, k2.2, k3.2, k4.2⟩

theorem RefPosition.interp {P : Profile} {x0 x1 u : ℝ} (h : P.RefPosition x0 x1 u) {n : Nat} (hn : 0 < n) :
    P.interpolateCoordinates (.int n) 1 = .ok ⟨linspaceN x0 x1 n, linspaceN x0 x1 n,
      (linspaceN x0 x1 n).map (interpW 1 P.xup P.yup), (linspaceN x0 x1 n).map (interpW 1 P.xdown P.ydown)⟩ := by
  rw [interpolate_int (by omega) one_pos]
  obtain ⟨h1, h2, h3, h4, _⟩ := h.heads
  exact (interpCore_ok_iff one_pos).2 ⟨x0, x1, x0, x1, h1, h2, h3, h4, h.shaped, h.nodupUp, h.nodupDown, by simp⟩

theorem RefPosition.congr {P Q : Profile} {x0 x1 u : ℝ} (h : P.RefPosition x0 x1 u) (h1 : Q.xup = P.xup)
    (h2 : Q.xdown = P.xdown) (h3 : Q.yup = P.yup) (h4 : Q.ydown = P.ydown) : Q.RefPosition x0 x1 u := by
  obtain ⟨a, b, c, d, e, f⟩ := h
  refine ⟨?_, ?_, ?_, d, ?_, ?_⟩
  · simpa [Shaped, h1, h2, h3, h4] using a
  · rw [h1, h2]; exact b
  · simpa [Ends, upper, lower, h1, h2, h3, h4] using c
  · rw [h1]; exact e
  · rw [h2]; exact f

theorem RefPosition.chordLine {P : Profile} {x0 x1 u : ℝ} (h : P.RefPosition x0 x1 u) {n : Nat} (hn : 0 < n) :
    P.computeChordLine (some n) = .ok { P with
      chordLine := some (linspaceN x0 x1 n, (linspaceN x0 x1 n).map fun x => (0 - 0) / (x1 - x0) * (x - x0) + 0) } := by
  unfold computeChordLine
  have hx : x1 - x0 ≠ 0 := sub_ne_zero.2 h.chord.symm
  have hl : linspace x0 x1 (n : Int) = .ok (linspaceN x0 x1 n) := by
    unfold linspace; rw [if_neg (by omega)]; simp
  rw [h.updateEdges, effectiveN_some h.len (by omega)]
  simp only [bind, Except.bind, pure, Except.pure, throw, throwThe, MonadExceptOf.throw, hx, if_false, hl]

theorem RefPosition.camberLine {P : Profile} {x0 x1 u : ℝ} (h : P.RefPosition x0 x1 u) {n : Nat} (hn : 0 < n)
    {m : Option Int} (hm : P.effectiveN m = .ok (some (n : Int))) :
    P.computeCamberLine m = .ok { P with
      camberLine := some (linspaceN x0 x1 n, (linspaceN x0 x1 n).map P.meanInterp) } := by
  unfold computeCamberLine
  rw [hm]
  simp only [bind, Except.bind, h.interp hn]
  rw [bzip_eq_len (by simp)]
  simp only [zipWith_map_same, npArray2]
  simp [pure, Except.pure]
  intro a _; rfl

/-- `max_camber(n)` of a foil in reference position is the interpolated mean ordinate of largest magnitude. -/
theorem RefPosition.maxCamber' {P : Profile} {x0 x1 u : ℝ} (h : P.RefPosition x0 x1 u) {n : Nat} (hn : 0 < n) :
    ∃ cl, P.maxCamber (some (n : Int)) =
      .ok (peak ((linspaceN x0 x1 n).map P.meanInterp), { P with
        chordLine := cl
        camberLine := some (linspaceN x0 x1 n, (linspaceN x0 x1 n).map P.meanInterp) }) := by
  set S := linspaceN x0 x1 n with hS
  set cs := S.map P.meanInterp with hcs
  have hne : cs.map abs ≠ [] := by
    intro hc
    have := congrArg List.length hc
    simp [hcs, hS, linspaceN_length] at this
    omega
  refine ⟨some (S, S.map fun x => (0 - 0) / (x1 - x0) * (x - x0) + 0), ?_⟩
  unfold Profile.maxCamber
  rw [h.chordLine hn]
  simp only [bind, Except.bind]
  set P1 : Profile := { P with chordLine := some (S, S.map fun x => (0 - 0) / (x1 - x0) * (x - x0) + 0) } with hP1
  have h1 : P1.RefPosition x0 x1 u := h.congr rfl rfl rfl rfl
  rw [h1.camberLine hn (m := some (n : Int)) (effectiveN_some h1.len (by omega))]
  simp only [Option.getD_some, lt_irrefl, if_false]
  have hmi : P1.meanInterp = P.meanInterp := rfl
  rw [hmi, show P1.chordLine = some (S, S.map fun x => (0 - 0) / (x1 - x0) * (x - x0) + 0) from rfl]
  simp only [Option.getD_some]
  rw [camberDistances_flat S P.meanInterp _ (by intro x; simp)]
  rw [← hcs]
  rw [signedMax_flat cs hne _ (by
    intro i
    rw [List.getD_eq_getElem?_getD, List.getElem?_map]
    rcases S[i]? with _ | x <;> simp)]
  have hlen : ¬ S.length < (linspaceN x0 x1 n).length := by simp [hS]
  rw [if_neg hlen]
  simp [pure, Except.pure, hP1, hcs, hS]

theorem RefPosition.maxCamber {P : Profile} {x0 x1 u : ℝ} (h : P.RefPosition x0 x1 u) {n : Nat} (hn : 0 < n) :
    ∃ cl cb, P.maxCamber (some (n : Int)) =
      .ok (peak ((linspaceN x0 x1 n).map P.meanInterp), { P with chordLine := cl, camberLine := cb }) := by
  obtain ⟨cl, hm⟩ := h.maxCamber' hn
  exact ⟨cl, _, hm⟩

end Profile
end BladeX
