import Verif.Spec.Custom
import Verif.Lemmas.Deform
import Verif.Props.ProfileParams

/-! # C15, C16: argument checks of `CustomProfile` -/

namespace BladeX
open Spec Custom

theorem middle_getElem? (a : Arr) (j : Nat) :
    (middle a)[j]? = if j + 2 < a.length then a[j + 1]? else none := by
  unfold middle
  rw [List.getElem?_dropLast]
  simp only [List.length_drop, List.getElem?_drop]
  have : (j < a.length - 1 - 1) ↔ (j + 2 < a.length) := by omega
  simp only [this, Nat.add_comm 1 j]

theorem middle_length (a : Arr) : (middle a).length = a.length - 2 := by
  simp [middle]; omega

theorem geAll_middle {u d : Arr} {n : Nat} (hu : u.length = n) (hd : d.length = n) :
    geAll (middle u) (middle d) = .ok true ∧
      (∀ (i : Nat) (a b : ℝ), 0 < i → i + 1 < n → u[i]? = some a → d[i]? = some b → b ≤ a) ∨
    geAll (middle u) (middle d) = .ok false ∧
      ¬ (∀ (i : Nat) (a b : ℝ), 0 < i → i + 1 < n → u[i]? = some a → d[i]? = some b → b ≤ a) := by
  have hl : (middle u).length = (middle d).length := by rw [middle_length, middle_length, hu, hd]
  unfold geAll
  rw [if_pos hl]
  have key : (∀ p ∈ List.zip (middle u) (middle d), p.1 ≥ p.2) ↔
      (∀ (i : Nat) (a b : ℝ), 0 < i → i + 1 < n → u[i]? = some a → d[i]? = some b → b ≤ a) := by
    constructor
    · intro h i a b h0 h1 ha hb
      obtain ⟨j, rfl⟩ : ∃ j, i = j + 1 := ⟨i - 1, by omega⟩
      refine h (a, b) (List.mem_of_getElem? (i := j) ?_)
      rw [List.getElem?_zip_eq_some]
      rw [middle_getElem?, middle_getElem?, if_pos (by omega), if_pos (by omega)]
      exact ⟨ha, hb⟩
    · rintro h ⟨a, b⟩ hp
      obtain ⟨j, hj⟩ := List.mem_iff_getElem?.1 hp
      rw [List.getElem?_zip_eq_some, middle_getElem?, middle_getElem?] at hj
      obtain ⟨h1, h2⟩ := hj
      simp only at h1 h2
      split_ifs at h1 with c1
      split_ifs at h2 with c2
      exact h (j + 1) a b (by omega) (by omega) h1 h2
  by_cases hc : ∀ p ∈ List.zip (middle u) (middle d), p.1 ≥ p.2
  · left; exact ⟨by rw [decide_eq_true hc], key.1 hc⟩
  · right; exact ⟨by rw [decide_eq_false hc], fun h => hc (key.2 h)⟩

theorem getFirst_of {α} {a : List α} {x : α} (h : a[0]? = some x) : getFirst a = .ok x := by
  rw [getFirst_ok_iff, List.head?_eq_getElem?]; exact h

theorem getLast_of {α} {a : List α} {x : α} {n : Nat} (hn : a.length = n) (h : a[n-1]? = some x) : getLast a = .ok x := by
  rw [getLast_ok_iff, List.getLast?_eq_getElem?, hn]; exact h

/-- **C15** for coordinate arrays of one common positive length, the coordinate check passes exactly on the documented
consistent sets, storing the arrays unchanged, and raises `ValueError` on all others. -/
theorem C15_check_iff (xup yup xdown ydown : Arr) (n : Nat) (hn : 0 < n) (h1 : xup.length = n) (h2 : yup.length = n)
    (h3 : xdown.length = n) (h4 : ydown.length = n) :
    (CoordsOk xup yup xdown ydown n → checkCoordinates (some xup) (some yup) (some xdown) (some ydown) =
      .ok { xup := xup, xdown := xdown, yup := yup, ydown := ydown }) ∧
    (¬ CoordsOk xup yup xdown ydown n → checkCoordinates (some xup) (some yup) (some xdown) (some ydown) =
      .error .valueError) := by
  have ex : ∀ (a : Arr), a.length = n → ∃ x y, a[0]? = some x ∧ a[n-1]? = some y := by
    intro a ha
    exact ⟨a[0], a[n-1], List.getElem?_eq_getElem _, List.getElem?_eq_getElem _⟩
  obtain ⟨a0, a1, a2, a3⟩ := ex xup h1
  obtain ⟨b0, b1, b2, b3⟩ := ex yup h2
  obtain ⟨c0, c1, c2, c3⟩ := ex xdown h3
  obtain ⟨d0, d1, d2, d3⟩ := ex ydown h4
  have hok : CoordsOk xup yup xdown ydown n ↔
      (∀ (i : Nat) (u d : ℝ), 0 < i → i + 1 < n → yup[i]? = some u → ydown[i]? = some d → d ≤ u) ∧
      Near c0 a0 ∧ Near c1 a1 ∧ Near d0 b0 ∧ Near d1 b1 := by
    constructor
    · rintro ⟨i1, i2, i3, i4, i5⟩
      exact ⟨i1, i2 _ _ c2 a2, i3 _ _ c3 a3, i4 _ _ d2 b2, i5 _ _ d3 b3⟩
    · rintro ⟨i1, i2, i3, i4, i5⟩
      refine ⟨i1, ?_, ?_, ?_, ?_⟩
      · intro a b ha hb; rw [c2] at ha; rw [a2] at hb; cases ha; cases hb; exact i2
      · intro a b ha hb; rw [c3] at ha; rw [a3] at hb; cases ha; cases hb; exact i3
      · intro a b ha hb; rw [d2] at ha; rw [b2] at hb; cases ha; cases hb; exact i4
      · intro a b ha hb; rw [d3] at ha; rw [b3] at hb; cases ha; cases hb; exact i5
  rw [hok]
  have hnear : ∀ a b, isClose a b ↔ Near a b := fun _ _ => Iff.rfl
  unfold checkCoordinates
  simp only [require, bind, Except.bind, pure, Except.pure, throw, throwThe, MonadExceptOf.throw, h1, h2, h3, h4,
    getFirst_of a2, getFirst_of b2, getFirst_of c2, getFirst_of d2, getLast_of h1 a3, getLast_of h2 b3,
    getLast_of h3 c3, getLast_of h4 d3, ne_eq, not_true_eq_false, if_false, hnear]
  rcases geAll_middle h2 h4 with ⟨hg, hi⟩ | ⟨hg, hi⟩
  · simp only [hg, if_false, reduceCtorEq, Bool.true_eq_false]
    refine ⟨?_, ?_⟩
    · rintro ⟨_, n1, n2, n3, n4⟩
      rw [← hnear] at n1 n2 n3 n4
      simp only [n1, n2, n3, n4, not_true_eq_false, if_false]
    · intro hneg
      by_cases k1 : isClose c0 a0
      · by_cases k2 : isClose c1 a1
        · by_cases k3 : isClose d0 b0
          · by_cases k4 : isClose d1 b1
            · exact absurd ⟨hi, k1, k2, k3, k4⟩ hneg
            · simp [k1, k2, k3, k4]
          · simp [k1, k2, k3]
        · simp [k1, k2]
      · simp [k1]
  · simp only [hg, if_true]
    exact ⟨fun h => absurd h.1 hi, fun _ => trivial⟩

/-- **C15** a missing (`None`) array, or a surface with different numbers of abscissae and ordinates: `ValueError`. -/
theorem C15_none_or_ragged (xup yup xdown ydown : Option Arr)
    (h : xup = none ∨ yup = none ∨ xdown = none ∨ ydown = none ∨
      xup.map List.length ≠ yup.map List.length ∨ xdown.map List.length ≠ ydown.map List.length) :
    checkCoordinates xup yup xdown ydown = .error .valueError := by
  unfold checkCoordinates
  rcases xup with _ | xup
  · rfl
  rcases xdown with _ | xdown
  · rfl
  rcases yup with _ | yup
  · rfl
  rcases ydown with _ | ydown
  · rfl
  simp only [require, bind, Except.bind, pure, Except.pure, throw, throwThe, MonadExceptOf.throw]
  simp only [reduceCtorEq, false_or, Option.map_some, ne_eq, Option.some.injEq] at h
  rcases h with h | h
  · rw [if_pos h]
  · split_ifs <;> rfl

/-- The coordinate branch of the constructor. -/
private theorem ctor_coords (american : Profile → Res Arr) (kw : Kwargs) (hk : kw.keys.toFinset = coordKeys) :
    ctor american kw = (checkCoordinates (kw.arr "xup") (kw.arr "yup") (kw.arr "xdown") (kw.arr "ydown")).bind
      (fun P => P.generateParameters american .british) := by
  unfold ctor; rw [if_pos hk]; rfl

/-- **C15** the constructor on coordinates of one common positive length and a chord of positive length: it raises
`ValueError` iff the set is inconsistent or the edge abscissae differ by more than `1e-4`; otherwise the profile carries
the given arrays. -/
theorem C15_ctor (american : Profile → Res Arr) (kw : Kwargs) (hk : kw.keys.toFinset = coordKeys)
    (xup yup xdown ydown : Arr) (g1 : kw.arr "xup" = some xup) (g2 : kw.arr "yup" = some yup)
    (g3 : kw.arr "xdown" = some xdown) (g4 : kw.arr "ydown" = some ydown)
    (h2 : yup.length = xup.length) (h3 : xdown.length = xup.length) (h4 : ydown.length = xup.length)
    (a b c d : Pt) (hE : Profile.Ends { xup := xup, xdown := xdown, yup := yup, ydown := ydown } a b c d)
    (hch : dist2 a (b.1, (b.2 + d.2) / 2) ≠ 0) :
    (ctor american kw = .error .valueError ↔
      ¬ CoordsOk xup yup xdown ydown xup.length ∨ |a.1 - c.1| > 1e-4 ∨ |b.1 - d.1| > 1e-4) ∧
    (∀ Q, ctor american kw = .ok Q → Q.xup = xup ∧ Q.yup = yup ∧ Q.xdown = xdown ∧ Q.ydown = ydown) ∧
    (ctor american kw = .error .valueError ∨ ∃ Q, ctor american kw = .ok Q) := by
  rw [ctor_coords american kw hk, g1, g2, g3, g4]
  have hn : 0 < xup.length := by
    have := hE.1
    rcases xup with _ | ⟨x, xs⟩
    · simp [Profile.upper] at this
    · simp
  obtain ⟨c1, c2⟩ := C15_check_iff xup yup xdown ydown _ hn rfl h2 h3 h4
  set P : Profile := { xup := xup, xdown := xdown, yup := yup, ydown := ydown } with hP
  by_cases hok : CoordsOk xup yup xdown ydown xup.length
  · rw [c1 hok]
    simp only [Except.bind, hok, not_true_eq_false, false_or]
    have hsh : P.Shaped := by constructor <;> simp [hP, h2, h3, h4]
    have hed := Profile.updateEdges_ends hsh hE
    by_cases hc : |a.1 - c.1| > 1e-4 ∨ |b.1 - d.1| > 1e-4
    · rw [if_pos hc] at hed
      have : P.generateParameters american .british = .error .valueError := by
        unfold Profile.generateParameters
        rw [hed]; rfl
      rw [this]
      simp [hc]
    · rw [if_neg hc] at hed
      obtain ⟨Q, p, hQ, _, ⟨x1, x2, x3, x4⟩, _⟩ := C14_parameters american P _ _ hed hch h2 h4
      rw [hQ]
      simp only [hc, iff_false, reduceCtorEq, not_false_eq_true, true_and, Except.ok.injEq, exists_eq', or_true, and_true]
      rintro Q' rfl
      exact ⟨x1, x3, x2, x4⟩
  · rw [c2 hok]
    simp [Except.bind, hok]

/-- **C15** for end abscissae of magnitude at most 9 the two tolerances agree: the constructor accepts exactly the
consistent sets. -/
theorem C15_tolerances_agree (xup yup xdown ydown : Arr) (a b c d : Pt)
    (h2 : yup.length = xup.length) (h3 : xdown.length = xup.length) (h4 : ydown.length = xup.length)
    (hE : Profile.Ends { xup := xup, xdown := xdown, yup := yup, ydown := ydown } a b c d)
    (ha : |a.1| ≤ 9) (hb : |b.1| ≤ 9) (hok : CoordsOk xup yup xdown ydown xup.length) :
    |a.1 - c.1| ≤ 1e-4 ∧ |b.1 - d.1| ≤ 1e-4 := by
  obtain ⟨e1, e2, e3, e4⟩ := hE
  have k1 := (zip_head? e1).1
  have k2 := (zip_getLast? (by simpa using h2.symm) e2).1
  have k3 := (zip_head? e3).1
  have k4 := (zip_getLast? (by simp [h3, h4]) e4).1
  simp only [List.head?_eq_getElem?, List.getLast?_eq_getElem?] at k1 k2 k3 k4
  rw [h3] at k4
  have n1 := hok.x0 _ _ k3 k1
  have n2 := hok.x1 _ _ k4 k2
  unfold Near at n1 n2
  rw [abs_sub_comm] at n1 n2
  constructor
  · calc _ ≤ _ := n1
      _ ≤ 1e-4 := by norm_num; linarith
  · calc _ ≤ _ := n2
      _ ≤ 1e-4 := by norm_num; linarith

/-- **C15** (finding) far from the origin the tolerances disagree: a set that passes the coordinate check is refused by
the edge check inside `generate_parameters`. -/
theorem C15_tolerance_gap : ∃ (xup yup xdown ydown : Arr),
    CoordsOk xup yup xdown ydown 2 ∧
    checkCoordinates (some xup) (some yup) (some xdown) (some ydown) =
      .ok { xup := xup, xdown := xdown, yup := yup, ydown := ydown } ∧
    ∀ american kw, kw.keys.toFinset = coordKeys → kw.arr "xup" = some xup → kw.arr "yup" = some yup →
      kw.arr "xdown" = some xdown → kw.arr "ydown" = some ydown → ctor american kw = .error .valueError := by
  have hok : CoordsOk [100, 200] [0, 0] [100 + 5/10000, 200] [0, 0] 2 := by
    refine ⟨?_, ?_, ?_, ?_, ?_⟩
    · intro i u d h0 h1; omega
    all_goals
      intro a b ha hb
      simp at ha hb
      subst ha hb
      norm_num [Near]
  refine ⟨[100, 200], [0, 0], [100 + 5/10000, 200], [0, 0], hok,
    (C15_check_iff _ _ _ _ 2 (by norm_num) rfl rfl rfl rfl).1 hok, ?_⟩
  intro american kw hk g1 g2 g3 g4
  refine (C15_ctor american kw hk _ _ _ _ g1 g2 g3 g4 rfl rfl rfl (100, 0) (200, 0) (100 + 5/10000, 0) (200, 0) ?_ ?_).1.2
    (Or.inr (Or.inl ?_))
  · simp [Profile.Ends, Profile.upper, Profile.lower]
  · norm_num [dist2]
  · norm_num

/-- **C15** surfaces with different numbers of points (both at least two) are never accepted. -/
theorem C15_unequal_lengths (american : Profile → Res Arr) (kw : Kwargs) (hk : kw.keys.toFinset = coordKeys)
    (xup yup xdown ydown : Arr) (g1 : kw.arr "xup" = some xup) (g2 : kw.arr "yup" = some yup)
    (g3 : kw.arr "xdown" = some xdown) (g4 : kw.arr "ydown" = some ydown)
    (h1 : 2 ≤ xup.length) (h2 : 2 ≤ xdown.length) (hne : xup.length ≠ xdown.length) :
    ∀ Q, ctor american kw ≠ .ok Q := by
  intro Q hQ
  rw [ctor_coords american kw hk, g1, g2, g3, g4] at hQ
  by_cases s1 : xup.length = yup.length
  swap
  · rw [C15_none_or_ragged _ _ _ _ (by simp [s1])] at hQ; cases hQ
  by_cases s2 : xdown.length = ydown.length
  swap
  · rw [C15_none_or_ragged _ _ _ _ (by simp [s2])] at hQ; cases hQ
  rcases hc : checkCoordinates (some xup) (some yup) (some xdown) (some ydown) with e | P
  · rw [hc] at hQ; cases hQ
  rw [hc] at hQ
  have hP : P.yup = yup ∧ P.ydown = ydown := by
    unfold checkCoordinates at hc
    simp only [require, bind, Except.bind, pure, Except.pure, throw, throwThe, MonadExceptOf.throw] at hc
    repeat' (split at hc <;> try (cases hc))
    exact ⟨rfl, rfl⟩
  have hb : bzip (fun a b => (a + b) / 2) P.yup P.ydown = .error .valueError := by
    rw [hP.1, hP.2]
    unfold bzip
    rw [if_neg (by omega)]
    rcases yup with _ | ⟨y, _ | ⟨y', ys⟩⟩
    · simp at s1; simp [s1] at h1
    · simp at s1; omega
    · rcases ydown with _ | ⟨z, _ | ⟨z', zs⟩⟩
      · rfl
      · simp at s2; omega
      · rfl
  simp only [Except.bind] at hQ
  unfold Profile.generateParameters at hQ
  simp only [bind, Except.bind, hb] at hQ
  repeat' (split at hQ <;> try (cases hQ))

/-- **C15** any keyword set other than the two documented ones raises `RuntimeError`. -/
theorem C15_other_keywords (american : Profile → Res Arr) (kw : Kwargs)
    (h1 : kw.keys.toFinset ≠ {"xup", "yup", "xdown", "ydown"})
    (h2 : kw.keys.toFinset ≠ {"chord_perc", "camber_perc", "thickness_perc", "camber_max", "thickness_max", "chord_len"}) :
    ctor american kw = .error .runtimeError := by
  unfold ctor
  rw [if_neg (show kw.keys.toFinset ≠ coordKeys from h1), if_neg (show kw.keys.toFinset ≠ paramKeys from h2)]; rfl

/-- Non-vacuity: the sample foil is accepted. -/
example (american : Profile → Res Arr) : ∃ Q, ctor american Sample.foilKw = .ok Q := by
  have hE : Profile.Ends { xup := Sample.foil.xup, xdown := Sample.foil.xdown, yup := Sample.foil.yup, ydown := Sample.foil.ydown }
      (0, 0) (1, 0) (0, 0) (1, 0) := by
    simp [Sample.foil, Profile.Ends, Profile.upper, Profile.lower]
  have hok : CoordsOk Sample.foil.xup Sample.foil.yup Sample.foil.xdown Sample.foil.ydown 4 := by
    refine ⟨?_, ?_, ?_, ?_, ?_⟩
    · intro i u d h0 h1 hu hd
      have : i = 1 ∨ i = 2 := by omega
      rcases this with rfl | rfl <;> simp [Sample.foil] at hu hd <;> subst hu hd <;> norm_num
    all_goals
      intro a b ha hb
      simp [Sample.foil] at ha hb
      subst ha hb
      norm_num [Near]
  obtain ⟨h, _, h'⟩ := C15_ctor american Sample.foilKw (by decide) Sample.foil.xup Sample.foil.yup Sample.foil.xdown
    Sample.foil.ydown rfl rfl rfl rfl rfl rfl rfl _ _ _ _ hE (by simp [dist2])
  rcases h' with h' | h'
  · rcases h.1 h' with h | h | h
    · exact absurd hok h
    · norm_num at h
    · norm_num at h
  · exact h'

/-- **C16** construction from parameters: `ValueError` iff a value is missing, a maximum is negative or the percentage
arrays differ in length; otherwise the parameters are stored as given. -/
theorem C16_ctor (american : Profile → Res Arr) (kw : Kwargs) (hk : kw.keys.toFinset =
      {"chord_perc", "camber_perc", "thickness_perc", "camber_max", "thickness_max", "chord_len"}) :
    (ctor american kw = .error .valueError ↔
      kw.arr "chord_perc" = none ∨ kw.arr "camber_perc" = none ∨ kw.arr "thickness_perc" = none ∨
      kw.num "camber_max" = none ∨ kw.num "thickness_max" = none ∨ kw.num "chord_len" = none ∨
      (∃ m, kw.num "camber_max" = some m ∧ m < 0) ∨ (∃ m, kw.num "thickness_max" = some m ∧ m < 0) ∨
      (kw.arr "camber_perc").map List.length ≠ (kw.arr "chord_perc").map List.length ∨
      (kw.arr "thickness_perc").map List.length ≠ (kw.arr "chord_perc").map List.length) ∧
    (ctor american kw = .error .valueError ∨ ∃ Q p, ctor american kw = .ok Q ∧ Q.par = some p ∧
      kw.arr "chord_perc" = some p.chordPerc ∧ kw.arr "camber_perc" = some p.camberPerc ∧
      kw.arr "thickness_perc" = some p.thicknessPerc ∧ kw.num "camber_max" = some p.camberMax ∧
      kw.num "thickness_max" = some p.thicknessMax ∧ kw.num "chord_len" = some p.chordLength) := by
  have hne : kw.keys.toFinset ≠ coordKeys := by rw [hk]; decide
  unfold ctor
  rw [if_neg hne, if_pos (show kw.keys.toFinset = paramKeys from hk)]
  unfold checkParameters
  rcases h1 : kw.arr "chord_perc" with _ | cp
  · simp [require, bind, Except.bind]
  rcases h2 : kw.arr "camber_perc" with _ | ca
  · simp [require, bind, Except.bind]
  rcases h3 : kw.arr "thickness_perc" with _ | tp
  · simp [require, bind, Except.bind]
  rcases h4 : kw.num "camber_max" with _ | cm
  · simp [require, bind, Except.bind]
  rcases h5 : kw.num "thickness_max" with _ | tm
  · simp [require, bind, Except.bind]
  rcases h6 : kw.num "chord_len" with _ | cl
  · simp [require, bind, Except.bind]
  simp only [require, bind, Except.bind, pure, Except.pure, throw, throwThe, MonadExceptOf.throw, reduceCtorEq, false_or,
    Option.some.injEq, exists_eq_left', Option.map_some, ne_eq]
  by_cases c1 : cm < 0
  · simp [c1]
  by_cases c2 : tm < 0
  · simp [c1, c2]
  by_cases c3 : ca.length = cp.length
  swap
  · simp [c1, c2, c3]
  by_cases c4 : tp.length = cp.length
  swap
  · simp [c1, c2, c3, c4]
  have hct : ca.length = tp.length := by rw [c3, c4]
  simp only [c1, c2, c3, c4, not_true_eq_false, or_false, iff_false, if_false, britishCoordinates, bzip_eq_len hct, bind,
    Except.bind, pure, Except.pure, reduceCtorEq, not_false_eq_true, true_and, false_or]
  exact ⟨_, _, rfl, rfl, rfl, rfl, rfl, rfl, rfl, rfl⟩

/-- **C16** the boundary: zero maxima are accepted. -/
example (american : Profile → Res Arr) :
    ctor american { Sample.paramsKw with num := fun _ => some 0 } ≠ .error .valueError := by
  intro h
  have := (C16_ctor american { Sample.paramsKw with num := fun _ => some 0 } (by decide)).1.1 h
  simp [Sample.paramsKw, Sample.params] at this

end BladeX
