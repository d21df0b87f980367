import Verif.Lemmas.ProfileLife

/-! # The methods of a profile read its coordinates, not its stored parameters and lines -/

namespace BladeX
noncomputable section
open Classical

namespace Profile

/-- The profile with other parameters and lines. -/
def dress (P : Profile) (q : Option Params) (c d : Option (Arr × Arr)) : Profile := { P with par := q, chordLine := c, camberLine := d }

/-- The coordinates of a profile. -/
def four (P : Profile) : Arr × Arr × Arr × Arr := (P.xup, P.xdown, P.yup, P.ydown)

theorem dress_of_four {P Q : Profile} (h : P.four = Q.four) : Q = P.dress Q.par Q.chordLine Q.camberLine := by
  rcases P with ⟨_, _, _, _, _, _, _⟩
  rcases Q with ⟨_, _, _, _, _, _, _⟩
  simp only [four, Prod.mk.injEq] at h
  obtain ⟨rfl, rfl, rfl, rfl⟩ := h
  rfl

variable (P : Profile) (q : Option Params) (c d : Option (Arr × Arr))

theorem dress_edges : (P.dress q c d).updateEdges = P.updateEdges := rfl
theorem dress_reference : (P.dress q c d).referencePoint = P.referencePoint := rfl
theorem dress_effectiveN (n : Option Int) : (P.dress q c d).effectiveN n = P.effectiveN n := rfl
theorem dress_interpolate (v : PyVal) (r : ℝ) : (P.dress q c d).interpolateCoordinates v r = P.interpolateCoordinates v r := rfl
theorem dress_maxThickness (n : Option Int) : (P.dress q c d).maxThickness n = P.maxThickness n := rfl
theorem dress_american (curve : Arr → Arr → Res (ℝ → ℝ)) (newton : (Arr → Arr) → Arr → Res Arr) :
    americanThickness curve newton (P.dress q c d) = americanThickness curve newton P := rfl

theorem dress_rotate (r g : Option ℝ) : (P.dress q c d).rotate r g = (P.rotate r g).map fun Q => Q.dress q c d := by
  have h : ∀ (cs : Res (ℝ × ℝ)), (do
      let cs ← cs
      if (P.dress q c d).xup.length ≠ (P.dress q c d).yup.length then throw .valueError
      if (P.dress q c d).xdown.length ≠ (P.dress q c d).ydown.length then throw .valueError
      if (P.dress q c d).xdown.length < (P.dress q c d).xup.length then throw .indexError
      let up := rotCols cs.1 cs.2 P.xup.length P.xup P.yup
      let down := rotCols cs.1 cs.2 P.xup.length P.xdown P.ydown
      return { P.dress q c d with xup := up.map Prod.fst, xdown := down.map Prod.fst, yup := up.map Prod.snd, ydown := down.map Prod.snd } : Res Profile) =
    Except.map (fun Q => Q.dress q c d) (do
      let cs ← cs
      if P.xup.length ≠ P.yup.length then throw .valueError
      if P.xdown.length ≠ P.ydown.length then throw .valueError
      if P.xdown.length < P.xup.length then throw .indexError
      let up := rotCols cs.1 cs.2 P.xup.length P.xup P.yup
      let down := rotCols cs.1 cs.2 P.xup.length P.xdown P.ydown
      return { P with xup := up.map Prod.fst, xdown := down.map Prod.fst, yup := up.map Prod.snd, ydown := down.map Prod.snd }) := by
    intro cs
    have e1 : (P.dress q c d).xup = P.xup := rfl
    have e2 : (P.dress q c d).yup = P.yup := rfl
    have e3 : (P.dress q c d).xdown = P.xdown := rfl
    have e4 : (P.dress q c d).ydown = P.ydown := rfl
    rw [e1, e2, e3, e4]
    rcases cs with e | cs
    · rfl
    simp only [bind, Except.bind, pure, Except.pure, throw, throwThe, MonadExceptOf.throw]
    by_cases h0 : P.xup.length ≠ P.yup.length
    · rw [if_pos h0, if_pos h0]; rfl
    rw [if_neg h0, if_neg h0]
    by_cases h1 : P.xdown.length ≠ P.ydown.length
    · rw [if_pos h1, if_pos h1]; rfl
    rw [if_neg h1, if_neg h1]
    by_cases h2 : P.xdown.length < P.xup.length
    · rw [if_pos h2, if_pos h2]; rfl
    rw [if_neg h2, if_neg h2]
    rfl
  unfold rotate
  by_cases hb : r.isSome ∧ g.isSome
  · rw [if_pos hb, if_pos hb]; rfl
  · rw [if_neg hb, if_neg hb]
    exact h _

theorem dress_scale (f : ℝ) (b : Bool) : (P.dress q c d).scale f b = (P.scale f b).map fun Q => Q.dress q c d := by
  unfold scale
  rw [dress_reference]
  cases b
  · rfl
  · rcases P.referencePoint with e | p <;> rfl

theorem dress_setThickness (t : ℝ) : (P.dress q c d).setThicknessMax t = (P.setThicknessMax t).map fun Q => Q.dress q c d := by
  unfold setThicknessMax
  rw [dress_maxThickness]
  rcases P.maxThickness with e | p <;> rfl

theorem dress_chordLine (n : Option Int) : (P.dress q c d).computeChordLine n = (P.computeChordLine n).map fun Q => Q.dress q Q.chordLine d := by
  unfold computeChordLine
  rw [dress_edges, dress_effectiveN]
  rcases P.updateEdges with e | e
  · rfl
  simp only [bind, Except.bind]
  split
  · rfl
  · simp only [pure, Except.pure]
    rcases P.effectiveN n with e' | (_ | k)
    · rfl
    · rfl
    · simp only
      rcases linspace e.1.1 e.2.1 k with e' | xs <;> rfl

theorem dress_camberLine (n : Option Int) : (P.dress q c d).computeCamberLine n = (P.computeCamberLine n).map fun Q => Q.dress q c Q.camberLine := by
  unfold computeCamberLine
  rw [dress_effectiveN]
  rcases P.effectiveN n with e' | (_ | k)
  · rfl
  · simp only [bind, Except.bind, dress]
    rcases bzip (fun a b => 0.5 * (a + b)) P.ydown P.yup with e' | ys
    · rfl
    · simp only
      rcases npArray2 P.xup ys with e' | cl <;> rfl
  · simp only [bind, Except.bind]
    rw [dress_interpolate]
    rcases P.interpolateCoordinates (.int k) 1 with e' | t
    · rfl
    · simp only
      rcases bzip (fun a b => 0.5 * (a + b)) t.yyUp t.yyDown with e' | ys
      · rfl
      · simp only
        rcases npArray2 t.xxDown ys with e' | cl <;> rfl

theorem dress_deform (p : ℝ) (n : Option Int) : (P.dress q c d).deformCamberLine p n = (P.deformCamberLine p n).map fun Q => Q.dress q c Q.camberLine := by
  unfold deformCamberLine
  rw [dress_camberLine, dress_effectiveN]
  rcases h : P.computeCamberLine n with e | P1
  · rfl
  simp only [Except.map, bind, Except.bind]
  obtain ⟨cl, rfl⟩ := Foil.camberLine_frame h
  rcases P.effectiveN n with e' | (_ | k)
  · rfl
  · simp only [pure, Except.pure, dress]
    rcases bzip (fun a b => 0.5 * |a - b|) P.yup P.ydown with e' | half
    · rfl
    · simp only
      generalize bzip (fun x1 x2 => x1 + x2) _ half = A
      generalize bzip (fun x1 x2 => x1 - x2) _ half = B
      rcases A with e' | a <;> rcases B with e'' | b <;> rfl
  · simp only
    rw [dress_interpolate]
    rcases P.interpolateCoordinates (.int k) 1 with e' | t
    · rfl
    · simp only [pure, Except.pure, dress]
      rcases bzip (fun a b => 0.5 * |a - b|) t.yyUp t.yyDown with e' | half
      · rfl
      · simp only
        generalize bzip (fun x1 x2 => x1 + x2) _ half = A
        generalize bzip (fun x1 x2 => x1 - x2) _ half = B
        rcases A with e' | a <;> rcases B with e'' | b <;> rfl

theorem dress_maxCamber (n : Option Int) :
    (P.dress q c d).maxCamber n = (P.maxCamber n).map fun r => (r.1, r.2.dress q r.2.chordLine r.2.camberLine) := by
  unfold maxCamber
  rw [dress_chordLine]
  rcases h : P.computeChordLine n with e | P1
  · rfl
  simp only [Except.map, bind, Except.bind]
  rw [dress_camberLine]
  rcases h2 : P1.computeCamberLine n with e | P2
  · rfl
  obtain ⟨cl, rfl⟩ := Foil.camberLine_frame h2
  simp only [Except.map, dress]
  split
  · rfl
  · simp only [pure, Except.pure]
    generalize signedMax _ _ _ = v
    rcases v with e | v <;> rfl

theorem dress_setCamber (x : ℝ) : (P.dress q c d).setCamberLineMax x = (P.setCamberLineMax x).map fun Q => Q.dress q Q.chordLine Q.camberLine := by
  unfold setCamberLineMax
  rw [dress_maxCamber]
  rcases P.maxCamber with e | ⟨v, Q⟩
  · rfl
  simp only [Except.map, bind, Except.bind]
  split
  · rfl
  · rw [dress_deform]
    rcases h : Q.deformCamberLine (100 * (x - v) / v) none with e | R
    · rfl
    · have : R.chordLine = Q.chordLine := by
        have h' := dress_deform Q Q.par Q.chordLine Q.camberLine (100 * (x - v) / v) none
        rw [show Q.dress Q.par Q.chordLine Q.camberLine = Q from rfl, h] at h'
        have h2 : R = R.dress Q.par Q.chordLine R.camberLine := Except.ok.inj h'
        have h3 := congrArg Profile.chordLine h2
        exact h3
      simp only [Except.map, this]

theorem dress_parameters (american : Profile → Res Arr) (ha : american (P.dress q c d) = american P) (conv : Convention) :
    (P.dress q c d).generateParameters american conv = (P.generateParameters american conv).map fun Q => Q.dress Q.par c d := by
  unfold generateParameters
  rw [dress_edges, ha]
  simp only [bind, Except.bind, dress]
  rcases P.updateEdges with e | e
  · rfl
  simp only
  rcases npMin P.xup with e' | mn
  · rfl
  simp only
  rcases divScalar (P.xup.map (· - mn)) (Real.sqrt ((e.1.1 - e.2.1) ^ 2 + (e.1.2 - e.2.2) ^ 2)) with e' | perc
  · rfl
  simp only
  rcases bzip (fun a b => (a + b) / 2) P.yup P.ydown with e' | camber
  · rfl
  simp only
  rcases npMax camber with e' | mc
  · rfl
  simp only
  generalize (if conv = Convention.british ∨ |mc| = 0 then bzip (fun a b => |a - b|) P.yup P.ydown else _ : Res Arr) = th
  rcases th with e' | th
  · rfl
  simp only
  rcases npMax th with e' | tm <;> rfl

end Profile
end
end BladeX
