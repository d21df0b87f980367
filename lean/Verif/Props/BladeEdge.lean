import Verif.Props.BladeCylinder
import Verif.Lemmas.Ppg
import Mathlib.Tactic.FinCases

/-! # C70: the points of the leading-edge curves -/

namespace BladeX
noncomputable section
open Spec Classical

/-- `k` is the first position at which `l` comes nearest to the value 5 % before its maximum (in terms of its range). -/
def Spec.NearEnd (l : Arr) (k : Nat) : Prop :=
  ∃ mn mx x, MinOf l mn ∧ MaxOf l mx ∧ l[k]? = some x ∧
    (∀ y ∈ l, |x - (mx - 0.05 * (mx - mn))| ≤ |y - (mx - 0.05 * (mx - mn))|) ∧
    ∀ j < k, ∀ y, l[j]? = some y → |x - (mx - 0.05 * (mx - mn))| < |y - (mx - 0.05 * (mx - mn))|

namespace Blade

theorem nearestIdx_spec {l : Arr} (hl : l ≠ []) (t : ℝ) : ∃ x, l[nearestIdx l t]? = some x ∧ (∀ y ∈ l, |x - t| ≤ |y - t|) ∧
    ∀ j < nearestIdx l t, ∀ y, l[j]? = some y → |x - t| < |y - t| := by
  obtain ⟨m, hm⟩ := npMin_exists (l := l.map fun y => |y - t|) (by simpa using hl)
  have hmin := npMin_ok_iff.1 hm
  have hidx : nearestIdx l t = (l.map fun y => |y - t|).findIdx fun y => decide (y = m) := by
    unfold nearestIdx
    simp only [hm]
  have hlt : nearestIdx l t < (l.map fun y => |y - t|).length := by
    rw [hidx, List.findIdx_lt_length]
    exact ⟨m, hmin.1, by simp⟩
  have hlt' : nearestIdx l t < l.length := by simpa using hlt
  have hval : |l[nearestIdx l t] - t| = m := by
    have h1 : (l.map fun y => |y - t|)[nearestIdx l t] = m := by
      have := List.findIdx_getElem (xs := l.map fun y => |y - t|) (p := fun y => decide (y = m)) (w := by rw [← hidx]; exact hlt)
      simp only [← hidx, decide_eq_true_eq] at this
      exact this
    simpa using h1
  refine ⟨_, List.getElem?_eq_getElem hlt', ?_, ?_⟩
  · intro y hy
    rw [hval]
    exact hmin.2 _ (List.mem_map.2 ⟨y, hy, rfl⟩)
  · intro j hj y hy
    rw [hval]
    have hjl : j < l.length := by omega
    rw [List.getElem?_eq_getElem hjl] at hy
    obtain rfl := Option.some.inj hy
    refine lt_of_le_of_ne (hmin.2 _ (List.mem_map.2 ⟨_, List.getElem_mem hjl, rfl⟩)) ?_
    intro hne
    have := List.not_of_lt_findIdx (xs := l.map fun y => |y - t|) (p := fun y => decide (y = m)) (i := j) (by rw [← hidx]; exact hj)
    simp [← hne] at this

theorem edgeIdx_spec {l : Arr} (hl : l ≠ []) : ∃ k, edgeIdx l = .ok k ∧ NearEnd l k := by
  obtain ⟨mn, hmn⟩ := npMin_exists hl
  obtain ⟨mx, hmx⟩ := npMax_exists hl
  refine ⟨nearestIdx l (mn + 0.95 * (mx - mn)), by simp [edgeIdx, hmn, hmx, bind, Except.bind, pure, Except.pure], ?_⟩
  obtain ⟨x, h1, h2, h3⟩ := nearestIdx_spec hl (mn + 0.95 * (mx - mn))
  have e : mx - 0.05 * (mx - mn) = mn + 0.95 * (mx - mn) := by ring
  refine ⟨mn, mx, x, npMin_ok_iff.1 hmn, npMax_ok_iff.1 hmx, h1, ?_, ?_⟩ <;> rw [e]
  · exact h2
  · exact h3

theorem NearEnd.unique {l : Arr} {k k' : Nat} (h : NearEnd l k) (h' : NearEnd l k') : k = k' := by
  obtain ⟨mn, mx, x, a1, a2, a3, a4, a5⟩ := h
  obtain ⟨mn', mx', x', b1, b2, b3, b4, b5⟩ := h'
  obtain rfl : mn = mn' := le_antisymm (a1.2 _ b1.1) (b1.2 _ a1.1)
  obtain rfl : mx = mx' := le_antisymm (b2.2 _ a2.1) (a2.2 _ b2.1)
  rcases lt_trichotomy k k' with hlt | h | hlt
  · exact absurd (b5 k hlt x a3) (not_lt.2 (a4 x' (List.mem_of_getElem? b3)))
  · exact h
  · exact absurd (a5 k' hlt x' b3) (not_lt.2 (b4 x (List.mem_of_getElem? a3)))

end Blade

/-- **C70** after a successful `apply_transformations` the leading-edge curves have one point per section, and the point `i` is, times
1000, the point of section `n - 1 - i` (on its cylinder) at the position that is nearest to the 95 % station of the lower abscissae of
section `i`: position and point belong to different sections, except in the middle. -/
theorem C70_curve_points (b b' : Blade) (refl : Bool) (hW : b.WellFormed) (h : b.applyTransformations refl = (b', .ok ()))
    (U L : List Pt3) (he : b'.edgePoints = .ok (U, L)) :
    U.length = b.sections.length ∧ L.length = b.sections.length ∧
    ∀ (i : Nat) (S Q : Profile) (r : ℝ), b'.sections[i]? = some S → b'.sections[b.sections.length - 1 - i]? = some Q →
      b.radii[b.sections.length - 1 - i]? = some r →
      ∃ (k : Nat) (p q : Pt), NearEnd S.xdown k ∧ Q.upper[k]? = some p ∧ Q.lower[k]? = some q ∧
        U[i]? = some (Blade.scalePt 1000 (wrap r p)) ∧ L[i]? = some (Blade.scalePt 1000 (wrap r q)) := by
  obtain ⟨l1, l2, hrev⟩ := C48_reversed b b' refl hW h
  have hlen : b'.sections.length = b.sections.length := by
    obtain ⟨ss, up, down, g1, g2, rfl⟩ := (Blade.apply_ok hW.1).1 h
    exact ((Blade.sectionLoop_ok _ _ _).1 g1).1
  unfold Blade.edgePoints at he
  simp only [bind, Except.bind] at he
  split at he
  · cases he
  rename_i pts hpts
  simp only [pure, Except.pure, Except.ok.injEq, Prod.mk.injEq] at he
  obtain ⟨rfl, rfl⟩ := he
  obtain ⟨hpl, hpall⟩ := Blade.mapM_range_ok.1 hpts
  refine ⟨by simp [hpl, hlen], by simp [hpl, hlen], ?_⟩
  intro i S Q r hS hQ hr
  have hi : i < b.sections.length := by rw [← hlen]; exact (List.getElem?_eq_some_iff.1 hS).1
  have hpi : pts[i]? = some (pts[i]'(by omega)) := List.getElem?_eq_getElem (by omega)
  have hstep := hpall i _ hpi
  obtain ⟨e1, e2, _⟩ := hrev (b.sections.length - 1 - i) Q r hQ hr
  rw [show b.sections.length - 1 - (b.sections.length - 1 - i) = i by omega] at e1 e2
  simp only [getIdx, hS, e1, e2] at hstep
  rcases hk : Blade.edgeIdx S.xdown with e | k
  · rw [hk] at hstep; cases hstep
  rw [hk] at hstep
  simp only at hstep
  have hne : S.xdown ≠ [] := by
    intro h0
    rw [h0] at hk
    simp [Blade.edgeIdx, npMin, bind, Except.bind] at hk
  obtain ⟨k', hk', hnear⟩ := Blade.edgeIdx_spec hne
  rw [hk] at hk'
  obtain rfl := Except.ok.inj hk'
  rw [List.getElem?_map, List.getElem?_map] at hstep
  rcases hp : Q.upper[k]? with _ | p
  · rw [hp] at hstep; cases hstep
  rcases hq : Q.lower[k]? with _ | q
  · rw [hp, hq] at hstep; cases hstep
  rw [hp, hq] at hstep
  simp only [Option.map_some, pure, Except.pure, Except.ok.injEq] at hstep
  refine ⟨k, p, q, hnear, hp, hq, ?_, ?_⟩
  · simp [hpi, ← hstep]
  · simp [hpi, ← hstep]

/-- **C70** the curves can be drawn (before the kernel is asked) whenever the transformations went through and the sections are not empty
and have equally many points. -/
theorem C70_defined (b b' : Blade) (refl : Bool) (hW : b.WellFormed) (h : b.applyTransformations refl = (b', .ok ()))
    (hU : ∀ Q ∈ b'.sections, Q.Uniform ∧ Q.xdown ≠ []) (hsame : ∀ P ∈ b'.sections, ∀ Q ∈ b'.sections, P.xdown.length = Q.xdown.length) :
    ∃ U L, b'.edgePoints = .ok (U, L) := by
  obtain ⟨l1, l2, hrev⟩ := C48_reversed b b' refl hW h
  have hlen : b'.sections.length = b.sections.length := by
    obtain ⟨ss, up, down, g1, g2, rfl⟩ := (Blade.apply_ok hW.1).1 h
    exact ((Blade.sectionLoop_ok _ _ _).1 g1).1
  have step : ∀ i < b'.sections.length, ∃ x : Pt3 × Pt3, (do
      let s ← getIdx b'.sections i
      let k ← Blade.edgeIdx s.xdown
      let u ← getIdx (← getIdx b'.coordsUp i) k
      let d ← getIdx (← getIdx b'.coordsDown i) k
      return (Blade.scalePt 1000 u, Blade.scalePt 1000 d) : Res (Pt3 × Pt3)) = .ok x := by
    intro i hi
    have hS := List.getElem?_eq_getElem hi
    obtain ⟨k, hk, _, _, x, _, _, hkx, _⟩ := Blade.edgeIdx_spec (hU _ (List.getElem_mem hi)).2
    have hj : b.sections.length - 1 - i < b'.sections.length := by omega
    have hQ := List.getElem?_eq_getElem hj
    have hr : b.radii[b.sections.length - 1 - i]? = some (b.radii[b.sections.length - 1 - i]'(by rw [hW.1]; omega)) :=
      List.getElem?_eq_getElem _
    obtain ⟨e1, e2, _⟩ := hrev _ _ _ hQ hr
    rw [show b.sections.length - 1 - (b.sections.length - 1 - i) = i by omega] at e1 e2
    have hlt : k < b'.sections[i].xdown.length := (List.getElem?_eq_some_iff.1 hkx).1
    have hl := hsame _ (List.getElem_mem hi) _ (List.getElem_mem hj)
    obtain ⟨u1, u2, u3⟩ := (hU _ (List.getElem_mem hj)).1
    have hku : k < b'.sections[b.sections.length - 1 - i].upper.length := by
      simp only [Profile.upper, List.length_zip]; omega
    have hkd : k < b'.sections[b.sections.length - 1 - i].lower.length := by
      simp only [Profile.lower, List.length_zip]; omega
    refine ⟨(Blade.scalePt 1000 (wrap (b.radii[b.sections.length - 1 - i]'(by rw [hW.1]; omega))
        b'.sections[b.sections.length - 1 - i].upper[k]),
        Blade.scalePt 1000 (wrap (b.radii[b.sections.length - 1 - i]'(by rw [hW.1]; omega))
        b'.sections[b.sections.length - 1 - i].lower[k])), ?_⟩
    simp [getIdx, hS, e1, e2, bind, Except.bind, pure, Except.pure, hk, hku, hkd]
  have step' : ∀ i, ∃ x : Pt3 × Pt3, i < b'.sections.length → (do
      let s ← getIdx b'.sections i
      let k ← Blade.edgeIdx s.xdown
      let u ← getIdx (← getIdx b'.coordsUp i) k
      let d ← getIdx (← getIdx b'.coordsDown i) k
      return (Blade.scalePt 1000 u, Blade.scalePt 1000 d) : Res (Pt3 × Pt3)) = .ok x := by
    intro i
    by_cases hi : i < b'.sections.length
    · obtain ⟨x, hx⟩ := step i hi
      exact ⟨x, fun _ => hx⟩
    · exact ⟨((0, 0, 0), 0, 0, 0), fun h => absurd h hi⟩
  choose g hg using step'
  have := Blade.mapM_range_of (n := b'.sections.length) hg
  unfold Blade.edgePoints
  rw [this]
  exact ⟨_, _, rfl⟩

/-- **C70** failures, told by the first section: without lower points `ValueError` (from `np.min`); before `apply_transformations` (no coordinates)
`IndexError`. -/
theorem C70_failures (b : Blade) (S : Profile) (ss : List Profile) (hb : b.sections = S :: ss) :
    (S.xdown = [] → b.edgePoints = .error .valueError) ∧ (S.xdown ≠ [] → b.coordsUp = [] → b.edgePoints = .error .indexError) := by
  have hr : ∀ {α : Type} (f : Nat → Res α) (e : PyErr) (n : Nat), f 0 = .error e → (List.range (n + 1)).mapM f = .error e := by
    intro α f e n h
    rw [List.range_succ_eq_map, List.mapM_cons, h]
    rfl
  constructor
  · intro h
    unfold Blade.edgePoints
    rw [hb, List.length_cons, hr _ .valueError]
    · rfl
    · simp [getIdx, h, Blade.edgeIdx, npMin, bind, Except.bind]
  · intro h h0
    obtain ⟨k, hk, _⟩ := Blade.edgeIdx_spec h
    unfold Blade.edgePoints
    rw [hb, List.length_cons, hr _ .indexError]
    · rfl
    · simp [getIdx, hk, h0, bind, Except.bind]

/-- Two sections whose lower surfaces are lowest at different stations. -/
def Sample.early : Profile where
  xup := [0, 1/3, 2/3, 1]
  xdown := [0, 1/3, 2/3, 1]
  yup := [0, 0, 0, 0]
  ydown := [0, -2, -1, 0]

def Sample.late : Profile where
  xup := [0, 1/3, 2/3, 1]
  xdown := [0, 1/3, 2/3, 1]
  yup := [0, 0, 0, 0]
  ydown := [0, -1, -2, 0]

def Sample.bladeEL : Blade :=
  { Sample.blade2 with sections := [Sample.early, Sample.late], radii := [1, 1], chord := [1, 1], pitch := [0, 0], rake := [0, 0],
                       skew := [0, 0] }

/-- **C70** so the point drawn on a section need not be the one at the 95 % station of that section: there is a blade for which the first
point of the lower curve is not. (It also shows that the hypotheses of the two theorems above can be met.) -/
theorem C70_wrong_section : ∃ (b b' : Blade) (U L : List Pt3) (Q : Profile) (k : Nat) (p : Pt), b.WellFormed ∧
    b.applyTransformations false = (b', .ok ()) ∧ b'.edgePoints = .ok (U, L) ∧ b'.sections[1]? = some Q ∧ b'.sections.length = 2 ∧
    b.radii = [1, 1] ∧ NearEnd Q.xdown k ∧ Q.lower[k]? = some p ∧ L[0]? ≠ some (Blade.scalePt 1000 (wrap 1 p)) := by
  have hW : Sample.bladeEL.WellFormed := by simp [Sample.bladeEL, Sample.blade2, Blade.WellFormed]
  have uE : Sample.early.Uniform := by simp [Sample.early, Profile.Uniform]
  have uL : Sample.late.Uniform := by simp [Sample.late, Profile.Uniform]
  have rE : Sample.early.referencePoint = .ok (1/2, 0) := by
    rw [Profile.referencePoint_ends (a := (0, 0)) (b := (1, 0)) (c := (0, 0)) (d := (1, 0)) ⟨uE.1, uE.2.2⟩
      (by simp [Sample.early, Profile.Ends, Profile.upper, Profile.lower]), if_neg (by norm_num)]
    norm_num [mid]
  have rL : Sample.late.referencePoint = .ok (1/2, 0) := by
    rw [Profile.referencePoint_ends (a := (0, 0)) (b := (1, 0)) (c := (0, 0)) (d := (1, 0)) ⟨uL.1, uL.2.2⟩
      (by simp [Sample.late, Profile.Ends, Profile.upper, Profile.lower]), if_neg (by norm_num)]
    norm_num [mid]
  have hU : ∀ P ∈ Sample.bladeEL.sections, P.Uniform := by simp [Sample.bladeEL, uE, uL]
  obtain ⟨b', h⟩ := (C46_defined Sample.bladeEL false hW rfl rfl hU).2 (by
    refine ⟨by simp [Sample.bladeEL], by simp [Sample.bladeEL], by simp [Sample.bladeEL, rE, rL], ?_⟩
    simp [Sample.bladeEL, Sample.early, Sample.late, Profile.upper])
  obtain ⟨hl, _, hp⟩ := C46_placed _ b' false hW rfl rfl hU h
  obtain ⟨ref, A, a1, _, a2, a3, a4, a5⟩ := hp 0 Sample.early 1 1 0 0 0 rfl rfl rfl rfl rfl rfl
  obtain ⟨ref', B, b1, _, b2, b3, b4, b5⟩ := hp 1 Sample.late 1 1 0 0 0 rfl rfl rfl rfl rfl rfl
  rw [rE] at a1
  obtain rfl := Except.ok.inj a1
  rw [rL] at b1
  obtain rfl := Except.ok.inj b1
  have xs : ∀ Q : Profile, Q.Uniform → Q.xdown = Q.lower.map Prod.fst := by
    intro Q hQ
    simp only [Profile.lower]
    rw [List.map_fst_zip (by rw [hQ.2.2])]
  have xA : A.xdown = [0, 2, 1, 0] := by
    rw [xs A a5, a4]
    norm_num [Sample.early, Profile.lower, placed]
  have lB : B.lower = [(0, -1/2), (1, -1/6), (2, 1/6), (0, 1/2)] := by
    rw [b4]
    norm_num [Sample.late, Profile.lower, placed]
  have xB : B.xdown = [0, 1, 2, 0] := by
    rw [xs B b5, lB]
    norm_num
  have mem : ∀ Q ∈ b'.sections, Q = A ∨ Q = B := by
    intro Q hQ
    obtain ⟨i, hi⟩ := List.getElem?_of_mem hQ
    have hi2 : i < 2 := by
      have := (List.getElem?_eq_some_iff.1 hi).1
      rw [hl] at this; exact this
    interval_cases i
    · rw [a2] at hi; exact Or.inl (Option.some.inj hi).symm
    · rw [b2] at hi; exact Or.inr (Option.some.inj hi).symm
  obtain ⟨U, L, he⟩ := C70_defined _ b' false hW h (by
    intro Q hQ
    rcases mem Q hQ with rfl | rfl
    · exact ⟨a5, by rw [xA]; simp⟩
    · exact ⟨b5, by rw [xB]; simp⟩) (by
    intro P hP Q hQ
    rcases mem P hP with rfl | rfl <;> rcases mem Q hQ with rfl | rfl <;> simp [xA, xB])
  obtain ⟨_, _, hc⟩ := C70_curve_points _ b' false hW h U L he
  obtain ⟨k, p, q, hk, _, hq, _, hL⟩ := hc 0 A B 1 a2 b2 rfl
  have n1 : NearEnd A.xdown 1 := by
    rw [xA]
    refine ⟨0, 2, 2, by simp [MinOf], by norm_num [MaxOf], rfl, ?_, ?_⟩
    · intro y hy
      simp only [List.mem_cons, List.not_mem_nil, or_false] at hy
      rcases hy with rfl | rfl | rfl | rfl <;> norm_num [abs_of_pos, abs_of_neg]
    · intro j hj y hy
      interval_cases j
      simp only [List.getElem?_cons_zero, Option.some.injEq] at hy
      subst hy
      norm_num [abs_of_pos, abs_of_neg]
  have n2 : NearEnd B.xdown 2 := by
    rw [xB]
    refine ⟨0, 2, 2, by simp [MinOf], by norm_num [MaxOf], rfl, ?_, ?_⟩
    · intro y hy
      simp only [List.mem_cons, List.not_mem_nil, or_false] at hy
      rcases hy with rfl | rfl | rfl | rfl <;> norm_num [abs_of_pos, abs_of_neg]
    · intro j hj y hy
      interval_cases j
      · simp only [List.getElem?_cons_zero, Option.some.injEq] at hy
        subst hy
        norm_num [abs_of_pos, abs_of_neg]
      · simp only [List.getElem?_cons_succ, List.getElem?_cons_zero, Option.some.injEq] at hy
        subst hy
        norm_num [abs_of_pos, abs_of_neg]
  obtain rfl := Blade.NearEnd.unique hk n1
  rw [lB] at hq
  simp only [List.getElem?_cons_succ, List.getElem?_cons_zero, Option.some.injEq] at hq
  subst hq
  refine ⟨Sample.bladeEL, b', U, L, B, 2, (2, 1/6), hW, h, he, b2, hl, rfl, n2, by rw [lB]; rfl, ?_⟩
  rw [hL]
  intro hne
  have := congrArg Prod.fst (Option.some.inj hne)
  norm_num [Blade.scalePt, wrap] at this

end
end BladeX
