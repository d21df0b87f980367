import Verif.Lemmas.Deform

/-! # C08 - C12: chord line, camber line, thickness and camber setters -/

namespace BladeX
open Spec

/-- **C08** whatever its argument, a successful `compute_chord_line` stores only points of the line through the
leading and the trailing edge, and does not touch the coordinates or the parameters. -/
theorem C08_on_line (P Q : Profile) (n : Option Int) (h : P.computeChordLine n = .ok Q) :
    ∃ le te c, P.updateEdges = .ok (le, te) ∧ Q.chordLine = some c ∧ c.1.length = c.2.length ∧
      (∀ p ∈ List.zip c.1 c.2, OnLine le te p) ∧ P.SameCoords Q ∧ Q.par = P.par := by
  unfold Profile.computeChordLine at h
  rcases he : P.updateEdges with e | ⟨le, te⟩
  · rw [he] at h; simp [bind, Except.bind] at h
  rw [he] at h
  simp only [bind, Except.bind, pure, Except.pure, throw, throwThe, MonadExceptOf.throw] at h
  split_ifs at h with hx
  have key : ∀ xs : Arr, ∀ p ∈ List.zip xs (xs.map fun x => (te.2 - le.2) / (te.1 - le.1) * (x - le.1) + le.2),
      OnLine le te p := by
    intro xs p hp
    have : List.zip xs (xs.map fun x => (te.2 - le.2) / (te.1 - le.1) * (x - le.1) + le.2) =
        xs.map fun x => (x, (te.2 - le.2) / (te.1 - le.1) * (x - le.1) + le.2) := by
      have := List.zip_map' (f := (id : ℝ → ℝ))
        (g := fun x => (te.2 - le.2) / (te.1 - le.1) * (x - le.1) + le.2) (l := xs)
      simpa using this
    rw [this] at hp
    obtain ⟨x, _, rfl⟩ := List.mem_map.1 hp
    simp only [OnLine]
    field_simp
    ring
  rcases hN : P.effectiveN n with e | m
  · rw [hN] at h; simp at h
  rw [hN] at h
  rcases m with _ | k
  · simp only [Except.ok.injEq] at h
    subst h
    exact ⟨le, te, _, rfl, rfl, by simp, key _, ⟨rfl, rfl, rfl, rfl⟩, rfl⟩
  · simp only at h
    rcases hl : linspace le.1 te.1 k with e | xs
    · rw [hl] at h; simp at h
    · rw [hl] at h
      simp only [Except.ok.injEq] at h
      subst h
      exact ⟨le, te, _, rfl, rfl, by simp, key _, ⟨rfl, rfl, rfl, rfl⟩, rfl⟩

/-- The abscissae stored by a successful `compute_chord_line`, from the decision about the number of points. -/
private theorem chord_abscissae (P : Profile) (n : Option Int) (le te : Pt) (he : P.updateEdges = .ok (le, te))
    (hx : le.1 ≠ te.1) : 
    (∀ k : Nat, P.effectiveN n = .ok (some (k : Int)) →
      ∃ Q ys, P.computeChordLine n = .ok Q ∧ Q.chordLine = some (linspaceN le.1 te.1 k, ys)) ∧
    (P.effectiveN n = .ok none → ∃ Q ys, P.computeChordLine n = .ok Q ∧ Q.chordLine = some (P.xup, ys)) := by
  have hx' : te.1 - le.1 ≠ 0 := sub_ne_zero.2 hx.symm
  constructor
  · intro k hk
    have hl : linspace le.1 te.1 (k : Int) = .ok (linspaceN le.1 te.1 k) := by
      unfold linspace; rw [if_neg (by omega)]; simp
    unfold Profile.computeChordLine
    simp only [he, hk, hl, bind, Except.bind, pure, Except.pure, throw, throwThe, MonadExceptOf.throw, hx', if_false]
    exact ⟨_, _, rfl, rfl⟩
  · intro hk
    unfold Profile.computeChordLine
    simp only [he, hk, bind, Except.bind, pure, Except.pure, throw, throwThe, MonadExceptOf.throw, hx', if_false]
    exact ⟨_, _, rfl, rfl⟩

/-- **C08** with `n = k > 0` there are exactly `k` points, equally spaced from the leading-edge to the trailing-edge
abscissa; `n = None` (or 0) on common abscissae uses the upper abscissae; `n = None` on different abscissae uses 500
points; a negative `n` raises `ValueError`. -/
theorem C08_stations (P : Profile) (le te : Pt) (he : P.updateEdges = .ok (le, te)) (hx : le.1 ≠ te.1)
    (hl : P.xup.length = P.xdown.length) :
    (∀ k : Nat, 0 < k → ∃ Q c, P.computeChordLine (some k) = .ok Q ∧ Q.chordLine = some c ∧ c.1.length = k ∧
      c.1.head? = some le.1 ∧ (2 ≤ k → c.1.getLast? = some te.1) ∧
      ∀ i (hi : i < c.1.length), c.1[i] = le.1 + i * ((te.1 - le.1) / (k - 1))) ∧
    (P.xup = P.xdown → ∃ Q c, P.computeChordLine none = .ok Q ∧ Q.chordLine = some c ∧ c.1 = P.xup) ∧
    (∃ Q c, P.computeChordLine (some 0) = .ok Q ∧ Q.chordLine = some c ∧ c.1 = P.xup) ∧
    (P.xup ≠ P.xdown → ∃ Q c, P.computeChordLine none = .ok Q ∧ Q.chordLine = some c ∧ c.1.length = 500) ∧
    (∀ k : Int, k < 0 → P.computeChordLine (some k) = .error .valueError) := by
  refine ⟨?_, ?_, ?_, ?_, ?_⟩
  · intro k hk
    obtain ⟨Q, ys, h1, h2⟩ := (chord_abscissae P (some k) le te he hx).1 k (Profile.effectiveN_some hl (by omega))
    refine ⟨Q, _, h1, h2, linspaceN_length _ _ _, linspaceN_head hk, fun h => linspaceN_last h, ?_⟩
    intro i hi
    exact linspaceN_getElem _ _ _ _ _
  · intro hxx
    obtain ⟨Q, ys, h1, h2⟩ := (chord_abscissae P none le te he hx).2 (Profile.effectiveN_same hxx none (by simp))
    exact ⟨Q, _, h1, h2, rfl⟩
  · have : P.effectiveN (some 0) = .ok none := by
      unfold Profile.effectiveN npEqAll
      simp [hl, bind, Except.bind, pure, Except.pure]
    obtain ⟨Q, ys, h1, h2⟩ := (chord_abscissae P (some 0) le te he hx).2 this
    exact ⟨Q, _, h1, h2, rfl⟩
  · intro hxx
    obtain ⟨K, hK⟩ : ∃ K : Nat, (K : Int) = 500 := ⟨500, rfl⟩
    obtain ⟨Q, ys, h1, h2⟩ := (chord_abscissae P none le te he hx).1 K (by
      rw [hK]; exact Profile.effectiveN_diff hl hxx)
    exact ⟨Q, _, h1, h2, by rw [linspaceN_length]; omega⟩
  · intro k hk
    unfold Profile.computeChordLine
    have hx' : te.1 - le.1 ≠ 0 := sub_ne_zero.2 hx.symm
    have : linspace le.1 te.1 k = .error .valueError := by unfold linspace; rw [if_pos hk]
    simp only [he, Profile.effectiveN_some hl (show k ≠ 0 by omega), this, bind, Except.bind, pure, Except.pure, throw,
      throwThe, MonadExceptOf.throw, hx', if_false]

/-- Non-vacuity: an inclined foil. -/
example : ∃ Q, ({ Sample.foil with yup := [0, 1/5, 1/4, 1/2], ydown := [0, 0, 0, 1/2] } : Profile).computeChordLine
    (some 3) = .ok Q := by
  have := (C08_stations { Sample.foil with yup := [0, 1/5, 1/4, 1/2], ydown := [0, 0, 0, 1/2] } (0, 0) (1, (1/2 + 1/2) / 2)
    (by rw [Profile.updateEdges_of (xu0 := 0) (xd0 := 0) (xu1 := 1) (xd1 := 1) (yu0 := 0) (yu1 := 1/2) (yd1 := 1/2)
          rfl rfl rfl rfl rfl rfl rfl, if_neg (by norm_num)]) (by norm_num) rfl).1 3
    (by norm_num)
  obtain ⟨Q, _, h, _⟩ := this
  exact ⟨Q, h⟩

/-- **C09** on common abscissae the camber line is the mean of the surfaces at every station. -/
theorem C09_camber_line (P : Profile) (h : P.SameX) :
    ∃ Q c, P.computeCamberLine none = .ok Q ∧ Q.camberLine = some c ∧ P.SameCoords Q ∧ c.1 = P.xup ∧
      c.2.length = P.xup.length ∧
      ∀ (i : Nat) (u d : ℝ), P.yup[i]? = some u → P.ydown[i]? = some d → c.2[i]? = some ((u + d) / 2) := by
  obtain ⟨hx, hu, hd, hne⟩ := h
  have hN : P.effectiveN none = .ok none := Profile.effectiveN_same hx.symm none (by simp)
  have hud : P.yup.length = P.ydown.length := by omega
  have hmean : bzip (fun a b => 0.5 * (a + b)) P.ydown P.yup =
    .ok (List.zipWith (fun a b => 0.5 * (a + b)) P.ydown P.yup) := bzip_eq_len hud.symm
  have harr : npArray2 P.xup (List.zipWith (fun a b => 0.5 * (a + b)) P.ydown P.yup) =
      .ok (P.xup, List.zipWith (fun a b => 0.5 * (a + b)) P.ydown P.yup) := by
    simp [npArray2, hud, ← hd]
  refine ⟨{ P with camberLine := some (P.xup, List.zipWith (fun a b => 0.5 * (a + b)) P.ydown P.yup) }, _, ?_, rfl,
    ⟨rfl, rfl, rfl, rfl⟩, rfl, by simp [hu, hd], ?_⟩
  · unfold Profile.computeCamberLine
    simp only [hN, bind, Except.bind, pure, Except.pure, hmean, harr]
  · intro i u d h1 h2
    simp only [List.getElem?_zipWith, h1, h2]
    congr 1; norm_num; ring

/-- **C09** `max_thickness()` on common abscissae always succeeds, its value is attained at a station and bounds all
stations. -/
theorem C09_max_thickness (P : Profile) (h : P.SameX) :
    ∃ m, P.maxThickness none = .ok m ∧
      (∃ (i : Nat) (u d : ℝ), P.yup[i]? = some u ∧ P.ydown[i]? = some d ∧ |u - d| = m) ∧
      ∀ (i : Nat) (u d : ℝ), P.yup[i]? = some u → P.ydown[i]? = some d → |u - d| ≤ m := by
  obtain ⟨hx, hu, hd, hne⟩ := h
  have hN : P.effectiveN none = .ok none := Profile.effectiveN_same hx.symm none (by simp)
  have hud : P.yup.length = P.ydown.length := by omega
  have hne' : List.zipWith (fun a b => |a - b|) P.yup P.ydown ≠ [] := by
    intro hc
    have := congrArg List.length hc
    simp [hu, hd] at this
    exact hne this
  obtain ⟨m, hm⟩ := npMax_exists hne'
  refine ⟨m, ?_, ?_, ?_⟩
  · unfold Profile.maxThickness
    simp only [hN, bind, Except.bind, bzip_eq_len hud, hm]
  · obtain ⟨h1, _⟩ := npMax_ok_iff.1 hm
    obtain ⟨i, hi, he⟩ := List.getElem_of_mem h1
    have hi1 : i < P.yup.length := by simp at hi; omega
    have hi2 : i < P.ydown.length := by simp at hi; omega
    refine ⟨i, P.yup[i], P.ydown[i], List.getElem?_eq_getElem hi1, List.getElem?_eq_getElem hi2, ?_⟩
    rw [← he]; simp
  · intro i u d h1 h2
    apply (npMax_ok_iff.1 hm).2
    apply List.mem_of_getElem? (i := i)
    simp [List.getElem?_zipWith, h1, h2]

/-- **C09** surfaces with different numbers of points (none of them a single point) are refused, whatever the number of interpolated points. -/
theorem C09_incompatible (P : Profile) (n : Option Int) (hl : P.xup.length ≠ P.xdown.length) (h1 : P.xup.length ≠ 1) (h2 : P.xdown.length ≠ 1) :
    P.maxThickness n = .error .valueError ∧ P.computeCamberLine n = .error .valueError ∧ ∀ p, P.deformCamberLine p n = .error .valueError := by
  have hN : P.effectiveN n = .error .valueError := by
    have : npEqAll P.xup P.xdown = .error .valueError := by
      unfold npEqAll
      rw [if_neg hl]
      split
      · exact absurd (by simp_all) h1
      · exact absurd (by simp_all) h2
      · rfl
    unfold Profile.effectiveN
    rw [this]; rfl
  have hc : P.computeCamberLine n = .error .valueError := by rw [Profile.computeCamberLine, hN]; rfl
  refine ⟨by rw [Profile.maxThickness, hN]; rfl, hc, fun p => by rw [Profile.deformCamberLine, hc]; rfl⟩

example : ∃ P : Profile, P.xup.length ≠ P.xdown.length ∧ P.xup.length ≠ 1 ∧ P.xdown.length ≠ 1 :=
  ⟨{ Sample.foil with xup := [0, 1 / 2, 1], yup := [0, 1, 0], xdown := [0, 1], ydown := [0, 0] }, by simp, by simp, by simp⟩

/-- **C09** the maximal thickness is invariant under translations and multiplied by `|f|` by `scale(f)`. -/
theorem C09_thickness_motion (P : Profile) (h : P.SameX) (m : ℝ) (hm : P.maxThickness none = .ok m) (v : Pt) (f : ℝ) :
    (P.translate v).maxThickness none = .ok m ∧
    ∀ flag Q, P.scale f flag = .ok Q → Q.maxThickness none = .ok (m * |f|) := by
  obtain ⟨hx, hu, hd, hne⟩ := h
  have hud : P.yup.length = P.ydown.length := by omega
  -- a general statement about affine images of the ordinates
  have key : ∀ (Q : Profile) (a s : ℝ), Q.xup = Q.xdown → Q.yup = P.yup.map (fun y => a + s * y) →
      Q.ydown = P.ydown.map (fun y => a + s * y) → Q.maxThickness none = .ok (m * |s|) := by
    intro Q a s hq h1 h2
    unfold Profile.maxThickness at hm ⊢
    rw [Profile.effectiveN_same hx.symm none (by simp)] at hm
    rw [Profile.effectiveN_same hq none (by simp)]
    simp only [bind, Except.bind] at hm ⊢
    rw [h1, h2, bzip_map (fun a b => |a - b|) _ _ (fun x => x * |s|) (by
      intro x y
      rw [show a + s * x - (a + s * y) = (x - y) * s by ring, abs_mul]), bzip_eq_len hud]
    rw [bzip_eq_len hud] at hm
    simp only [Except.map] at hm ⊢
    exact npMax_map (fun a b h => mul_le_mul_of_nonneg_right h (abs_nonneg s)) hm
  constructor
  · have := key (P.translate v) v.2 1 (by simp [Profile.translate, hx]) (by simp [Profile.translate, add_comm])
      (by simp [Profile.translate, add_comm])
    simpa using this
  · intro flag Q hQ
    unfold Profile.scale at hQ
    rcases flag with _ | _
    · simp [pure, Except.pure] at hQ
      subst hQ
      exact key _ 0 f (by simp [Profile.mulAll, hx]) (by simp [Profile.mulAll, mul_comm])
        (by simp [Profile.mulAll, mul_comm])
    · rcases hr : P.referencePoint with e | ref
      · simp [hr, bind, Except.bind] at hQ
      · simp [hr, bind, Except.bind, pure, Except.pure] at hQ
        subst hQ
        refine key _ (ref.2 - f * ref.2) f (by simp [Profile.mulAll, Profile.translate, hx]) ?_ ?_
        · simp only [Profile.mulAll, Profile.translate, List.map_map]
          congr 1; funext y; simp [Function.comp]; ring
        · simp only [Profile.mulAll, Profile.translate, List.map_map]
          congr 1; funext y; simp [Function.comp]; ring

example : Sample.foil.SameX := by simp [Sample.foil, Profile.SameX]

/-- **C10** whenever `max_thickness()` of the profile is a non-zero number `m` (on common abscissae or through the
interpolation), `set_thickness_max(t)` succeeds, multiplies every ordinate of both surfaces by `t / m`, keeps the
abscissae, and `max_thickness()` afterwards returns `|t|`: `t` itself for every admissible target `t ≥ 0`. -/
theorem C10_set_thickness (P : Profile) (m t : ℝ) (hm : P.maxThickness none = .ok m) (h0 : m ≠ 0) :
    ∃ Q, P.setThicknessMax t = .ok Q ∧ Q.maxThickness none = .ok |t| ∧
      Q.xup = P.xup ∧ Q.xdown = P.xdown ∧
      Q.yup = P.yup.map (fun y => t / m * y) ∧ Q.ydown = P.ydown.map (fun y => t / m * y) := by
  have hpos : 0 < m := lt_of_le_of_ne (Profile.maxThickness_nonneg hm) h0.symm
  refine ⟨_, ?_, Eq.trans (Profile.maxThickness_scale_y (c := t / m) hm) ?_, rfl, rfl, ?_, ?_⟩
  · unfold Profile.setThicknessMax
    simp [hm, bind, Except.bind, pure, Except.pure, h0]
  · rw [abs_div, abs_of_pos hpos]; congr 1; field_simp
  · simp [mul_comm]
  · simp [mul_comm]

/-- **C10** a zero-thickness profile is flattened onto the x-axis, whatever the target. -/
theorem C10_zero_thickness (P : Profile) (t : ℝ) (hm : P.maxThickness none = .ok 0) :
    ∃ Q, P.setThicknessMax t = .ok Q ∧ (∀ y ∈ Q.yup, y = 0) ∧ (∀ y ∈ Q.ydown, y = 0) ∧
      Q.yup.length = P.yup.length ∧ Q.ydown.length = P.ydown.length := by
  refine ⟨{ P with yup := P.yup.map (· * 0), ydown := P.ydown.map (· * 0) }, ?_, ?_, ?_, by simp, by simp⟩
  · unfold Profile.setThicknessMax
    simp [hm, bind, Except.bind, pure, Except.pure]
  · simp
  · simp

/-- **C10** when does `max_thickness()` exist: on common abscissae always, on different ones exactly when the abscissae
of each surface are pairwise distinct. -/
theorem C10_defined (P : Profile) (hs : P.Shaped) (hl : P.xup.length = P.xdown.length) (hne : P.xup ≠ []) :
    (∃ m, P.maxThickness none = .ok m) ↔ P.xup = P.xdown ∨ (P.xup.Nodup ∧ P.xdown.Nodup) := by
  by_cases hx : P.xup = P.xdown
  · simp only [hx, true_or, iff_true]
    obtain ⟨m, h, _⟩ := C09_max_thickness P ⟨hx.symm, hs.1.symm, by rw [← hs.2, hl], hne⟩
    exact ⟨m, h⟩
  · simp only [hx, false_or]
    have hne' : P.xdown ≠ [] := by intro h; apply hne; rw [← List.length_eq_zero_iff, hl, h]; rfl
    unfold Profile.maxThickness
    rw [Profile.effectiveN_diff hl hx]
    simp only [bind, Except.bind]
    rw [Profile.interpolate_int (by norm_num) one_pos]
    obtain ⟨K, hK⟩ : ∃ K : Nat, (500 : Int).toNat = K := ⟨_, rfl⟩
    have hK0 : 0 < K := by omega
    rw [hK]
    constructor
    · rintro ⟨m, h⟩
      rcases ht : P.interpCore K 1 with e | t
      · rw [ht] at h; simp at h
      · obtain ⟨_, _, _, _, _, _, _, _, _, n1, n2, _⟩ := (Profile.interpCore_ok_iff one_pos).1 ht
        exact ⟨n1, n2⟩
    · rintro ⟨n1, n2⟩
      rw [(Profile.interpCore_ok_iff one_pos).2 ⟨_, _, _, _, List.head?_eq_some_head hne,
        List.getLast?_eq_some_getLast hne, List.head?_eq_some_head hne', List.getLast?_eq_some_getLast hne', hs, n1, n2,
        rfl⟩]
      simp only
      rw [bzip_eq_len (by simp [linspaceN_length])]
      apply npMax_exists
      intro hc
      have := congrArg List.length hc
      simp [linspaceN_length] at this
      omega

example : (∃ m, Sample.staggered.maxThickness none = .ok m) :=
  (C10_defined _ (by simp [Sample.staggered, Profile.Shaped]) rfl (by simp [Sample.staggered])).2
    (Or.inr (by simp [Sample.staggered]))

/-- **C11** on common abscissae `deform_camber_line(p)` succeeds, keeps all abscissae, multiplies the mean ordinate of
every station by `1 + p/100` and keeps the gap of every station; upper is never below lower afterwards. -/
theorem C11_deform_camber (P : Profile) (h : P.SameX) (p : ℝ) :
    ∃ Q, P.deformCamberLine p none = .ok Q ∧ Q.SameX ∧ Q.xup = P.xup ∧ Q.xdown = P.xdown ∧
      ∀ (i : Nat) (u d : ℝ), P.yup[i]? = some u → P.ydown[i]? = some d →
        ∃ u' d', Q.yup[i]? = some u' ∧ Q.ydown[i]? = some d' ∧
          (u' + d') / 2 = (1 + p / 100) * ((u + d) / 2) ∧ |u' - d'| = |u - d| ∧ d' ≤ u' := by
  obtain ⟨Q, hQ, hxu, hxd, _, hyu, hyd⟩ := Profile.deform_same h p
  obtain ⟨hx, hu, hd, hne⟩ := h
  refine ⟨Q, hQ, ⟨by rw [hxu, hxd, hx], by rw [hyu, hxu]; simp [hu, hd], by rw [hyd, hxu]; simp [hu, hd],
    by rw [hxu]; exact hne⟩, hxu, hxd, ?_⟩
  intro i u d h1 h2
  refine ⟨(p / 100 + 1) * ((u + d) / 2) + |u - d| / 2, (p / 100 + 1) * ((u + d) / 2) - |u - d| / 2, ?_, ?_, ?_, ?_, ?_⟩
  · simp [hyu, List.getElem?_zipWith, h1, h2]
  · simp [hyd, List.getElem?_zipWith, h1, h2]
  · ring
  · rw [show (p / 100 + 1) * ((u + d) / 2) + |u - d| / 2 - ((p / 100 + 1) * ((u + d) / 2) - |u - d| / 2) = |u - d| by
      ring, abs_abs]
  · linarith [abs_nonneg (u - d)]

/-- **C11** successive deformations multiply, and `p = 0` leaves a profile whose upper surface is above the lower one as
it is. -/
theorem C11_compose (P : Profile) (h : P.SameX) (p q : ℝ) :
    (∃ Q R S, P.deformCamberLine p none = .ok Q ∧ Q.deformCamberLine q none = .ok R ∧
      P.deformCamberLine (100 * ((1 + p / 100) * (1 + q / 100) - 1)) none = .ok S ∧ R.SameCoords S) ∧
    ((∀ (i : Nat) (u d : ℝ), P.yup[i]? = some u → P.ydown[i]? = some d → d ≤ u) →
      ∃ Q, P.deformCamberLine 0 none = .ok Q ∧ P.SameCoords Q) := by
  obtain ⟨hx, hu, hd, hne⟩ := id h
  constructor
  · obtain ⟨Q, hQ, qxu, qxd, _, qyu, qyd⟩ := Profile.deform_same h p
    have hQS : Q.SameX := ⟨by rw [qxu, qxd, hx], by rw [qyu, qxu]; simp [hu, hd], by rw [qyd, qxu]; simp [hu, hd],
      by rw [qxu]; exact hne⟩
    obtain ⟨R, hR, rxu, rxd, _, ryu, ryd⟩ := Profile.deform_same hQS q
    obtain ⟨S, hS, sxu, sxd, _, syu, syd⟩ := Profile.deform_same h (100 * ((1 + p / 100) * (1 + q / 100) - 1))
    refine ⟨Q, R, S, hQ, hR, hS, by rw [rxu, sxu, qxu], by rw [rxd, sxd, qxd], ?_, ?_⟩
    · apply List.ext_getElem
      · simp [syu, ryu, qyu, qyd]
      · intro i h1 h2
        simp only [syu, ryu, qyu, qyd, List.getElem_zipWith]
        rw [show ∀ a b c : ℝ, a + b / 2 - (a - b / 2) = b by intros; ring, abs_abs]
        · ring
        · exact 0
    · apply List.ext_getElem
      · simp [syd, ryd, qyu, qyd]
      · intro i h1 h2
        simp only [syd, ryd, qyu, qyd, List.getElem_zipWith]
        rw [show ∀ a b c : ℝ, a + b / 2 - (a - b / 2) = b by intros; ring, abs_abs]
        · ring
        · exact 0
  · intro hle
    obtain ⟨Q, hQ, qxu, qxd, _, qyu, qyd⟩ := Profile.deform_same h 0
    have hab : ∀ i (h1 : i < P.yup.length) (h2 : i < P.ydown.length), |P.yup[i] - P.ydown[i]| = P.yup[i] - P.ydown[i] := by
      intro i h1 h2
      apply abs_of_nonneg
      have := hle i _ _ (List.getElem?_eq_getElem h1) (List.getElem?_eq_getElem h2)
      linarith
    refine ⟨Q, hQ, qxu, qxd, ?_, ?_⟩
    · apply List.ext_getElem
      · simp [qyu, hu, hd]
      · intro i h1 h2
        simp only [qyu, List.getElem_zipWith]
        rw [hab]; ring
    · apply List.ext_getElem
      · simp [qyd, hu, hd]
      · intro i h1 h2
        simp only [qyd, List.getElem_zipWith]
        rw [hab]; ring

/-- **C12** `max_camber()` of a foil in reference position is a signed camber ordinate: there are 500 equally spaced
stations and a camber line over them, the value is one of its ordinates and bounds their magnitude. -/
theorem C12_max_camber_spec (P : Profile) {x0 x1 u : ℝ} (h : P.RefPosition x0 x1 u) :
    ∃ v Q c t, P.maxCamber = .ok (v, Q) ∧ Q.camberLine = some c ∧ P.SameCoords Q ∧
      P.interpolateCoordinates (.int 500) 1 = .ok t ∧ c.1 = t.xxUp ∧
      c.2 = List.zipWith (fun a b => (a + b) / 2) t.yyUp t.yyDown ∧ c.1.length = 500 ∧
      c.2.length = 500 ∧ v ∈ c.2 ∧ ∀ y ∈ c.2, |y| ≤ |v| := by
  obtain ⟨K, hK⟩ : ∃ K : Nat, (K : Int) = 500 := ⟨500, rfl⟩
  obtain ⟨cl, hm⟩ := h.maxCamber' (n := K) (by omega)
  have hne : (linspaceN x0 x1 K).map P.meanInterp ≠ [] := by
    intro hc
    have := congrArg List.length hc
    simp [linspaceN_length] at this
    omega
  have hi := h.interp (n := K) (by omega)
  rw [hK] at hm hi
  refine ⟨_, _, _, _, hm, rfl, ⟨rfl, rfl, rfl, rfl⟩, hi, rfl,
    ?_, ?_, ?_, peak_mem hne, fun y hy => peak_max y hy⟩
  · simp only [zipWith_map_same]
    congr 1; funext x; unfold Profile.meanInterp; ring
  · simp only [linspaceN_length]; omega
  · simp only [List.length_map, linspaceN_length]; omega

/-- **C12** for a foil in reference position whose current maximal camber is not zero, `set_camber_line_max(c)` succeeds
for every target `c` and afterwards `max_camber()` returns `c`. The result is again in reference position. -/
theorem C12_set_camber (P Q₀ : Profile) {x0 x1 u old : ℝ} (h : P.RefPosition x0 x1 u)
    (hold : P.maxCamber = .ok (old, Q₀)) (h0 : old ≠ 0) (c : ℝ) :
    ∃ Q Q', P.setCamberLineMax c = .ok Q ∧ (∃ u', Q.RefPosition x0 x1 u') ∧ Q.maxCamber = .ok (c, Q') := by
  obtain ⟨K, hK⟩ : ∃ K : Nat, (K : Int) = 500 := ⟨500, rfl⟩
  obtain ⟨cl, cb, hm⟩ := h.maxCamber (n := K) (by omega)
  rw [hK, hold] at hm
  obtain ⟨e1, e2⟩ := Prod.mk.inj (Except.ok.inj hm)
  have hR : Q₀.RefPosition x0 x1 u := by rw [e2]; exact h.congr rfl rfl rfl rfl
  have hmi : Q₀.meanInterp = P.meanInterp := by rw [e2]; rfl
  obtain ⟨Q, hQ, hRQ, Q', hQ'⟩ := Profile.deform_maxCamber hR (100 * (c - old) / old) hK
  refine ⟨Q, Q', ?_, hRQ, ?_⟩
  · unfold Profile.setCamberLineMax
    simp [hold, bind, Except.bind, h0, hQ, pure, Except.pure]
  · rw [hQ', hmi, ← e1]
    congr 2
    field_simp
    ring

/-- **C12** with zero old camber the setter divides by zero (numpy produces nan ordinates): no result. -/
theorem C12_zero_camber (P Q₀ : Profile) (hold : P.maxCamber = .ok (0, Q₀)) (c : ℝ) :
    P.setCamberLineMax c = .error .nonFinite := by
  unfold Profile.setCamberLineMax
  simp [hold, bind, Except.bind, throw, throwThe, MonadExceptOf.throw]

example : Sample.foil.RefPosition 0 1 0 := by
  refine ⟨?_, rfl, ?_, by norm_num, ?_, ?_⟩
  · simp [Sample.foil, Profile.Shaped]
  · simp [Sample.foil, Profile.Ends, Profile.upper, Profile.lower]
  · norm_num [Sample.foil]
  · norm_num [Sample.foil]

/-- A foil one of whose nodes is a station of the camber sampling. -/
noncomputable def Sample.onStation : Profile where
  xup := [0, 100/499, 1]
  xdown := [0, 100/499, 1]
  yup := [0, 1/5, 0]
  ydown := [0, -1/10, 0]

/-- Non-vacuity of `C12_set_camber`: a foil in reference position with non-zero maximal camber. -/
example : Sample.onStation.RefPosition 0 1 0 ∧ ∃ old Q₀, Sample.onStation.maxCamber = .ok (old, Q₀) ∧ old ≠ 0 := by
  have hR : Sample.onStation.RefPosition 0 1 0 := by
    refine ⟨?_, rfl, ?_, by norm_num, ?_, ?_⟩
    · simp [Sample.onStation, Profile.Shaped]
    · simp [Sample.onStation, Profile.Ends, Profile.upper, Profile.lower]
    · norm_num [Sample.onStation]
    · norm_num [Sample.onStation]
  refine ⟨hR, ?_⟩
  obtain ⟨v, Q, c, t, hm, -, -, ht, -, hc, -, -, -, hmax⟩ := C12_max_camber_spec _ hR
  refine ⟨v, Q, hm, ?_⟩
  rintro rfl
  obtain ⟨K, hK⟩ : ∃ K : Nat, (K : Int) = 500 := ⟨500, rfl⟩
  have hi := hR.interp (n := K) (by omega)
  rw [hK, ht] at hi
  have e := Except.ok.inj hi
  have hmem : (100 / 499 : ℝ) ∈ linspaceN 0 1 K := by
    have h100 : 100 < (linspaceN 0 1 K).length := by rw [linspaceN_length]; omega
    have := linspaceN_getElem 0 1 K 100 h100
    have hKr : (K : ℝ) = 500 := by exact_mod_cast hK
    have h2 : (linspaceN 0 1 K)[100] = 100 / 499 := by rw [this, hKr]; norm_num
    rw [← h2]; exact List.getElem_mem _
  have h1 : interpW 1 Sample.onStation.xup Sample.onStation.yup (100/499) = 1/5 :=
    interpW_node (i := 1) (X := Sample.onStation.xup) (y := Sample.onStation.yup) rfl one_pos hR.nodupUp
      (by simp [Sample.onStation]) (by simp [Sample.onStation])
  have h2 : interpW 1 Sample.onStation.xdown Sample.onStation.ydown (100/499) = -1/10 :=
    interpW_node (i := 1) (X := Sample.onStation.xdown) (y := Sample.onStation.ydown) rfl one_pos hR.nodupDown
      (by simp [Sample.onStation]) (by simp [Sample.onStation])
  have := hmax ((1/5 + -1/10) / 2) (by
    rw [hc, e]
    simp only [zipWith_map_same]
    exact List.mem_map.2 ⟨100/499, hmem, by rw [h1, h2]⟩)
  norm_num at this

end BladeX
