import Verif.Props.NacaMeaning

/-! # C151: the strings `NacaProfile` takes, and what their last two characters mean -/

namespace BladeX
open Spec Naca

private theorem reflex_iff {c : Char} (h : c.isDigit = true) : (dig c = 1 ∨ dig c = 0) ↔ (c = '0' ∨ c = '1') := by
  have hlow : 48 ≤ c.toNat := by
    simp only [Char.isDigit, Bool.and_eq_true, decide_eq_true_eq] at h
    have a := h.1
    rw [ge_iff_le, UInt32.le_iff_toNat_le] at a
    exact a
  constructor
  · rintro (hc | hc)
    · right
      unfold dig at hc
      have : c.toNat - 48 = 1 := by exact_mod_cast hc
      exact Char.toNat_inj.1 (show c.toNat = 49 by omega)
    · left
      unfold dig at hc
      have : c.toNat - 48 = 0 := by exact_mod_cast hc
      exact Char.toNat_inj.1 (show c.toNat = 48 by omega)
  · rintro (rfl | rfl)
    · right; show (((48 - 48 : Nat)) : ℝ) = 0; norm_num
    · left; show (((49 - 48 : Nat)) : ℝ) = 1; norm_num

/-- The two curves of a designation: those of its first characters, and the thickness its last two stand for. -/
private theorem shape_of (look : LookUp) (cosine : Bool) {pre : List Char} {a b : Char} {v : ℝ} (h : Designation (pre ++ [a, b]) v) :
    TwoChars a b v ∧ ∃ c θ : ℝ → ℝ, ∀ (n : Nat) (a' b' : Char) (v' : ℝ), TwoChars a' b' v' →
      generateCoordinates look (pre ++ [a', b']) n cosine = .ok (spread n (nacaHalfThickness (v' / 100)) c (fun x => Real.arctan (θ x))) := by
  have key : ∀ (q : Prop) [Decidable q] (f : ℝ → ℝ), (if q then fun _ => 0 else fun a => Real.arctan (f a)) =
      (fun x : ℝ => Real.arctan ((if q then fun _ => 0 else f : ℝ → ℝ) x)) := by
    intro q _ f
    funext x
    split_ifs <;> simp
  generalize hs : pre ++ [a, b] = s at h
  have cut : ∀ {l : List Char} {x y : Char}, pre ++ [a, b] = l ++ [x, y] → pre = l ∧ a = x ∧ b = y := by
    intro l x y e
    have := List.append_inj' e rfl
    simpa using this
  cases h with
  | @four d0 d1 x y _ h0 h1 hv =>
    obtain ⟨rfl, rfl, rfl⟩ := cut (l := [d0, d1]) hs
    refine ⟨hv, (if dig d1 = 0 then fun _ => 0 else nacaCamber4 (dig d0 / 100) (dig d1 / 10)),
      (if dig d1 = 0 ∨ cosine = false then fun _ => 0 else slopeFn4 (dig d0 / 100) (dig d1 / 10)), fun n a' b' v' hv' => ?_⟩
    rw [← key]
    exact coords4_of h0 h1 ((numVal_iff _ _ _).2 hv') n cosine
  | @five d0 d1 d2 x y _ h0 h1 h2 hv =>
    obtain ⟨rfl, rfl, rfl⟩ := cut (l := [d0, d1, d2]) hs
    have hd : d2.isDigit = true := by rcases h2 with rfl | rfl <;> rfl
    refine ⟨hv, (if dig d1 = 0 then fun _ => 0
        else fun a => (if cosine then dig d0 * 0.15 / 0.3 else 1) *
          nacaCamber5 (look (decide (dig d2 = 1)) (5 * dig d1 / 100)).1 (look (decide (dig d2 = 1)) (5 * dig d1 / 100)).2 a),
      (if dig d1 = 0 ∨ cosine = false then fun _ => 0 else slopeFn5 (look (decide (dig d2 = 1)) (5 * dig d1 / 100)).1
          (look (decide (dig d2 = 1)) (5 * dig d1 / 100)).2), fun n a' b' v' hv' => ?_⟩
    rw [← key]
    exact coords5_of look h0 h1 hd ((numVal_iff _ _ _).2 hv') ((reflex_iff hd).2 h2) n cosine

private theorem split_of {s : List Char} {v : ℝ} (h : Designation s v) : ∃ pre a b, s = pre ++ [a, b] := by
  cases h with
  | @four d0 d1 x y => exact ⟨[d0, d1], x, y, rfl⟩
  | @five d0 d1 d2 x y => exact ⟨[d0, d1, d2], x, y, rfl⟩

/-- Every spread is taken by the constructor. -/
private theorem taken {american : Profile → Res Arr} {look : LookUp} {digits : List Char} {n : Nat} (hn : 2 ≤ n) {cosine : Bool} {t : ℝ} {c θ : ℝ → ℝ}
    (h : generateCoordinates look digits n cosine = .ok (spread n (nacaHalfThickness t) c θ)) :
    ∃ Q, ctor american look (.str digits) (.int n) cosine = .ok Q := by
  have hU := spread_uniform n (nacaHalfThickness t) c θ
  have hE := spread_ends hn (c := c) θ (half_zero t) (half_one t)
  have hed := Profile.updateEdges_ends ⟨hU.1.1, hU.1.2.2⟩ hE
  rw [if_neg (by norm_num)] at hed
  obtain ⟨Q, p, hQ, -, -, -⟩ := C14_parameters american _ _ _ hed (by
    have : (0 : ℝ) < 1 ^ 2 + (c 0 - (c 1 + c 1) / 2) ^ 2 := by positivity
    simpa [dist2] using (Real.sqrt_pos.2 this).ne') hU.1.1.symm (by rw [← hU.1.2.2, hU.1.2.1])
  refine ⟨Q, ?_⟩
  have : ¬ ((n : Int) < 0) := by omega
  simp [ctor, checkArgs, bind, Except.bind, pure, Except.pure, throw, throwThe, MonadExceptOf.throw, h, hQ, this]

/-- **C151** The designations that are taken, for two points or more, either spacing and whatever constants the spline look-up returns: all strings of
four or five characters whose first characters are digits (a third of five is 0 or 1) and whose last two Python can read as a number. -/
theorem C151_accepted (american : Profile → Res Arr) (look : LookUp) (digits : List Char) (n : Nat) (hn : 2 ≤ n) (cosine : Bool) :
    (∃ Q, ctor american look (.str digits) (.int n) cosine = .ok Q) ↔ ∃ v, Designation digits v := by
  constructor
  · rintro ⟨Q, hQ⟩
    obtain ⟨P, hP, -⟩ := naca_ctor_coords hQ
    rcases generated_cases hP with ⟨d0, d1, d2, d3, v, rfl, h0, h1, hv⟩ | ⟨d0, d1, d2, d3, d4, v, rfl, h0, h1, h2, hs, hv⟩
    · exact ⟨v, .four h0 h1 ((numVal_iff _ _ _).1 hv)⟩
    · exact ⟨v, .five h0 h1 ((reflex_iff h2).1 hs) ((numVal_iff _ _ _).1 hv)⟩
  · rintro ⟨v, h⟩
    obtain ⟨pre, a, b, rfl⟩ := split_of h
    obtain ⟨hv, c, θ, H⟩ := shape_of look cosine h
    exact taken hn (H n a b v hv)

/-- **C151** All other strings are refused: with `ValueError` those of four and of five characters, with a plain `Exception` those of other lengths. -/
theorem C151_refused (american : Profile → Res Arr) (look : LookUp) (digits : List Char) (n : Nat) (cosine : Bool)
    (h : ∀ v, ¬ Designation digits v) :
    ctor american look (.str digits) (.int n) cosine =
      .error (if digits.length = 4 ∨ digits.length = 5 then .valueError else .exception) := by
  have : ¬ ((n : Int) < 0) := by omega
  have dv : ∀ {c : Char} {e : PyErr}, digitVal c = .error e → e = .valueError := by
    intro c e h
    unfold digitVal at h
    split at h
    · cases h
    · exact (Except.error.inj h).symm
  suffices hg : generateCoordinates look digits n cosine = .error (if digits.length = 4 ∨ digits.length = 5 then .valueError else .exception) by
    simp [ctor, checkArgs, bind, Except.bind, pure, Except.pure, throw, throwThe, MonadExceptOf.throw, this, hg]
  unfold generateCoordinates
  split
  · rename_i d0 d1 a b
    suffices hc : coords4 d0 d1 [a, b] n cosine = .error .valueError by simpa using hc
    unfold coords4
    simp only [bind, Except.bind]
    rcases e0 : digitVal d0 with e | w0
    · rw [dv e0]
    rcases e1 : digitVal d1 with e | w1
    · rw [dv e1]
    rcases e2 : numVal [a, b] with e | w2
    · rw [numVal_error e2]
    exact absurd (.four (digitVal_ok e0).1 (digitVal_ok e1).1 ((numVal_iff _ _ _).1 e2)) (h w2)
  · rename_i d0 d1 d2 a b
    suffices hc : coords5 look d0 d1 d2 [a, b] n cosine = .error .valueError by simpa using hc
    unfold coords5
    simp only [bind, Except.bind, throw, throwThe, MonadExceptOf.throw]
    rcases e0 : digitVal d0 with e | w0
    · rw [dv e0]
    rcases e1 : digitVal d1 with e | w1
    · rw [dv e1]
    rcases e2 : digitVal d2 with e | w2
    · rw [dv e2]
    rcases e3 : numVal [a, b] with e | w3
    · rw [numVal_error e3]
    obtain ⟨i2, rfl⟩ := digitVal_ok e2
    by_cases hs : dig d2 = 1 ∨ dig d2 = 0
    · exact absurd (.five (digitVal_ok e0).1 (digitVal_ok e1).1 ((reflex_iff i2).1 hs) ((numVal_iff _ _ _).1 e3)) (h w3)
    · rw [not_or] at hs
      simp only [ne_eq, hs, not_false_eq_true, and_self, if_true]
  · rename_i h4 h5
    rw [if_neg]
    rintro (hl | hl)
    · obtain ⟨a, b, c, d, rfl⟩ := List.length_eq_four.1 hl
      exact h4 _ _ _ _ rfl
    · rcases digits with _ | ⟨a, _ | ⟨b, _ | ⟨c, _ | ⟨d, _ | ⟨e, _ | ⟨f, l⟩⟩⟩⟩⟩⟩ <;> simp at hl
      exact h5 _ _ _ _ _ rfl

/-- **C151** Only the number counts: endings that stand for the same number give the same foil (`2405`, `24 5`, `245.` and `24+5`). -/
theorem C151_same (american : Profile → Res Arr) (look : LookUp) (pre : List Char) (a b a' b' : Char) (v : ℝ)
    (h : Designation (pre ++ [a, b]) v) (h' : TwoChars a' b' v) (n : Nat) (cosine : Bool) :
    ctor american look (.str (pre ++ [a', b'])) (.int n) cosine = ctor american look (.str (pre ++ [a, b])) (.int n) cosine := by
  obtain ⟨hv, c, θ, H⟩ := shape_of look cosine h
  have : ¬ ((n : Int) < 0) := by omega
  simp [ctor, checkArgs, bind, Except.bind, pure, Except.pure, throw, throwThe, MonadExceptOf.throw, this, H n a b v hv, H n a' b' v h']

/-- **C151** (finding) A minus sign is taken too: the foil is the one without it, with the two surfaces exchanged. -/
theorem C151_minus (american : Profile → Res Arr) (look : LookUp) (pre : List Char) (a b : Char) (v : ℝ)
    (h : Designation (pre ++ ['-', b]) v) (h' : TwoChars a b (-v)) (n : Nat) (cosine : Bool) (Q Q' : Profile)
    (hQ : ctor american look (.str (pre ++ ['-', b])) (.int n) cosine = .ok Q)
    (hQ' : ctor american look (.str (pre ++ [a, b])) (.int n) cosine = .ok Q') :
    Q.xup = Q'.xdown ∧ Q.yup = Q'.ydown ∧ Q.xdown = Q'.xup ∧ Q.ydown = Q'.yup := by
  obtain ⟨hv, c, θ, H⟩ := shape_of look cosine h
  obtain ⟨P, hP, x1, x2, x3, x4⟩ := naca_ctor_coords hQ
  obtain ⟨P', hP', y1, y2, y3, y4⟩ := naca_ctor_coords hQ'
  rw [H n _ _ _ hv] at hP
  rw [H n _ _ _ h'] at hP'
  obtain rfl := Except.ok.inj hP
  obtain rfl := Except.ok.inj hP'
  have e : ∀ x, nacaHalfThickness (-v / 100) x = -nacaHalfThickness (v / 100) x := fun x => by unfold nacaHalfThickness; ring
  rw [x1, x2, x3, x4, y1, y2, y3, y4]
  simp only [spread, e]
  refine ⟨?_, ?_, ?_, ?_⟩ <;> refine List.map_congr_left fun x _ => ?_ <;> ring

/-- **C151** (finding) With a minus sign and a digit other than 0 the foil is inside out: between the edges its upper surface is below its lower one. -/
theorem C151_inside_out (american : Profile → Res Arr) (look : LookUp) (pre : List Char) (b : Char) (v : ℝ)
    (h : Designation (pre ++ ['-', b]) v) (hb : b ≠ '0') (n : Nat) (cosine : Bool) (Q : Profile)
    (hQ : ctor american look (.str (pre ++ ['-', b])) (.int n) cosine = .ok Q) (i : Nat) (h0 : 0 < i) (h1 : i + 1 < n) :
    ∃ u d, Q.yup[i]? = some u ∧ Q.ydown[i]? = some d ∧ u < d := by
  obtain ⟨hv, c, θ, H⟩ := shape_of look cosine h
  have hbd : b.isDigit = true ∧ v = -dig b := by
    generalize hm : '-' = m at hv
    cases hv with
    | digits hd _ => subst hm; cases hd
    | pointAfter hd => subst hm; cases hd
    | pointBefore hd => cases hm
    | plus hd => cases hm
    | minus hd => exact ⟨hd, rfl⟩
    | blankBefore hd _ => subst hm; exact absurd hd (by simp [BlankChar])
    | blankAfter hd _ => subst hm; cases hd
  have hpos : 0 < dig b := by
    refine lt_of_le_of_ne (dig_nonneg b) fun hz => hb ?_
    rcases (reflex_iff hbd.1).1 (Or.inr hz.symm) with h | h
    · exact h
    · subst h
      exact absurd hz.symm (show (((49 - 48 : Nat)) : ℝ) ≠ 0 by norm_num)
  obtain ⟨P, hP, x1, x2, x3, x4⟩ := naca_ctor_coords hQ
  rw [H n _ _ _ hv] at hP
  obtain rfl := Except.ok.inj hP
  have hg : (linspaceN (0 : ℝ) 1 n)[i]? = some ((i : ℝ) / ((n : ℝ) - 1)) := by
    rw [List.getElem?_eq_getElem (by rw [linspaceN_length]; omega), linspaceN_getElem]
    congr 1
    ring
  set x := (i : ℝ) / ((n : ℝ) - 1) with hx
  have hn : (i : ℝ) + 1 < n := by exact_mod_cast h1
  have hi : (0 : ℝ) < i := by exact_mod_cast h0
  have p0 : 0 < x := div_pos hi (by linarith)
  have p1 : x < 1 := by rw [hx, div_lt_one (by linarith)]; linarith
  refine ⟨c x + nacaHalfThickness (v / 100) x * Real.cos (Real.arctan (θ x)), c x - nacaHalfThickness (v / 100) x * Real.cos (Real.arctan (θ x)),
    by rw [x3]; simp only [spread, List.getElem?_map, hg, Option.map_some], by rw [x4]; simp only [spread, List.getElem?_map, hg, Option.map_some], ?_⟩
  have e : nacaHalfThickness (v / 100) x = -nacaHalfThickness (dig b / 100) x := by rw [hbd.2]; unfold nacaHalfThickness; ring
  have := mul_pos (nacaHalf_pos (t := dig b / 100) (by positivity) p0 p1) (Real.cos_arctan_pos (θ x))
  rw [e]
  linarith

/-! ### The hypotheses are met: 24 5 is NACA 2405, 24.5 half a percent thick, 24-5 inside out, 24x5 refused -/

private theorem dg5 : dig '5' = 5 := by show (((53 - 48 : Nat)) : ℝ) = 5; norm_num
private theorem dg0' : dig '0' = 0 := by show (((48 - 48 : Nat)) : ℝ) = 0; norm_num

private theorem d2405 : Designation (['2', '4'] ++ ['0', '5']) 5 := .four rfl rfl (by
  have := TwoChars.digits (a := '0') (b := '5') rfl rfl
  rwa [dg0', dg5, show (10 * 0 + 5 : ℝ) = 5 by norm_num] at this)

example (american : Profile → Res Arr) (look : LookUp) : ∃ Q, ctor american look (.str ['2', '4', ' ', '5']) (.int (100 : Nat)) true = .ok Q ∧
    ctor american look (.str ['2', '4', '0', '5']) (.int (100 : Nat)) true = .ok Q := by
  obtain ⟨Q, hQ⟩ := (C151_accepted american look ['2', '4', '0', '5'] 100 (by norm_num) true).2 ⟨5, d2405⟩
  exact ⟨Q, by
    have := C151_same american look ['2', '4'] '0' '5' ' ' '5' 5 d2405 (by have := TwoChars.blankBefore (a := ' ') (b := '5') (Or.inl rfl) rfl; rwa [dg5] at this) 100 true
    simp only [List.cons_append, List.nil_append] at this
    rw [this, hQ], hQ⟩

example (american : Profile → Res Arr) (look : LookUp) : ∃ Q, ctor american look (.str ['2', '4', '.', '5']) (.int (100 : Nat)) true = .ok Q ∧
    ∀ (i : Nat) (U L : Pt), Q.upper[i]? = some U → Q.lower[i]? = some L → Real.sqrt ((U.1 - L.1) ^ 2 + (U.2 - L.2) ^ 2) < 0.0051 := by
  have hv : TwoChars '.' '5' 0.5 := by
    have := TwoChars.pointBefore (b := '5') rfl
    rwa [dg5, show (5 / 10 : ℝ) = 0.5 by norm_num] at this
  obtain ⟨Q, hQ⟩ := (C151_accepted american look ['2', '4', '.', '5'] 100 (by norm_num) true).2 ⟨0.5, .four rfl rfl hv⟩
  refine ⟨Q, hQ, fun i U L hU hL => lt_of_le_of_lt ((C94_thickness_digits american look ['2', '4'] '.' '5' 0.5 hv 100 (by norm_num) true Q hQ).1 i U L hU hL) ?_⟩
  rw [abs_of_pos (by norm_num)]
  norm_num

example (american : Profile → Res Arr) (look : LookUp) : ∃ Q Q', ctor american look (.str ['2', '4', '-', '5']) (.int (100 : Nat)) true = .ok Q ∧
    ctor american look (.str ['2', '4', '+', '5']) (.int (100 : Nat)) true = .ok Q' ∧ Q.yup = Q'.ydown ∧
    ∃ u d, Q.yup[50]? = some u ∧ Q.ydown[50]? = some d ∧ u < d := by
  have hD : Designation (['2', '4'] ++ ['-', '5']) (-dig '5') := .four rfl rfl (.minus rfl)
  have hP : TwoChars '+' '5' (- -dig '5') := by rw [neg_neg]; exact .plus rfl
  obtain ⟨Q, hQ⟩ := (C151_accepted american look ['2', '4', '-', '5'] 100 (by norm_num) true).2 ⟨_, hD⟩
  obtain ⟨Q', hQ'⟩ := (C151_accepted american look ['2', '4', '+', '5'] 100 (by norm_num) true).2 ⟨_, .four rfl rfl hP⟩
  exact ⟨Q, Q', hQ, hQ', (C151_minus american look ['2', '4'] '+' '5' _ hD hP 100 true Q Q' hQ hQ').2.1,
    C151_inside_out american look ['2', '4'] '5' _ hD (by decide) 100 true Q hQ 50 (by norm_num) (by norm_num)⟩

example (american : Profile → Res Arr) (look : LookUp) : ctor american look (.str ['2', '4', 'x', '5']) (.int (100 : Nat)) true = .error .valueError := by
  refine (C151_refused american look ['2', '4', 'x', '5'] 100 true ?_).trans rfl
  rintro v (⟨-, -, h⟩)
  generalize hm : 'x' = m at h
  rcases h with ⟨hd, -⟩ | ⟨hd⟩ | ⟨hd⟩ | ⟨hd⟩ | ⟨hd⟩ | ⟨hd, -⟩ | ⟨hd, -⟩
  · subst hm; cases hd
  · cases hm
  · cases hm
  · cases hm
  · subst hm; exact absurd hd (by simp [BlankChar])
  · subst hm; cases hd

end BladeX
