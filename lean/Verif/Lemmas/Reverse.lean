import Verif.Model.Reverse
import Verif.Spec.Reverse
import Verif.Lemmas.Measure

/-! # Lemmas about reverse engineering -/

namespace BladeX
noncomputable section
open Classical Spec

namespace Reverse

theorem norm_mk (x y : ℝ) : ‖(⟨x, y⟩ : ℂ)‖ = Real.sqrt (x ^ 2 + y ^ 2) := by
  rw [Complex.norm_def, Complex.normSq_mk]; congr 1; ring

theorem cos_atan2 {x y : ℝ} (h : x ≠ 0 ∨ y ≠ 0) : Real.cos (atan2 y x) = x / Real.sqrt (x ^ 2 + y ^ 2) := by
  have : (⟨x, y⟩ : ℂ) ≠ 0 := by
    intro h0
    have h1 := congrArg Complex.re h0
    have h2 := congrArg Complex.im h0
    simp at h1 h2
    rcases h with h | h <;> contradiction
  rw [atan2, Complex.cos_arg this, norm_mk]

theorem sin_atan2 (x y : ℝ) : Real.sin (atan2 y x) = y / Real.sqrt (x ^ 2 + y ^ 2) := by
  rw [atan2, Complex.sin_arg, norm_mk]

/-- Polar coordinates. -/
theorem atan2_polar {ρ t : ℝ} (hρ : 0 < ρ) (ht : -Real.pi < t ∧ t ≤ Real.pi) : atan2 (ρ * Real.sin t) (ρ * Real.cos t) = t := by
  have := Complex.arg_mul_cos_add_sin_mul_I hρ (θ := t) ht
  rw [atan2]
  convert this using 2
  apply Complex.ext <;> simp [Complex.cos_ofReal_re, Complex.sin_ofReal_re]

/-- The length of the chord. -/
def len (le te : Pt) : ℝ := Real.sqrt ((le.1 - te.1) ^ 2 + (le.2 - te.2) ^ 2)

theorem len_pos {le te : Pt} (h : le.2 ≠ te.2) : 0 < len le te := by
  apply Real.sqrt_pos.2
  have : 0 < (le.2 - te.2) ^ 2 := by have := sub_ne_zero.2 h; positivity
  positivity

theorem len_sq (le te : Pt) : len le te ^ 2 = (le.1 - te.1) ^ 2 + (le.2 - te.2) ^ 2 := Real.sq_sqrt (by positivity)

/-- The coordinates in the frame of the chord. -/
def frame (le te p : Pt) : Pt :=
  (1 / 2 - ((p.1 - (le.1 + te.1) / 2) * (le.1 - te.1) + (p.2 - (le.2 + te.2) / 2) * (le.2 - te.2)) / len le te ^ 2,
   ((le.1 - te.1) * (p.2 - (le.2 + te.2) / 2) - (le.2 - te.2) * (p.1 - (le.1 + te.1) / 2)) / len le te ^ 2)

theorem chordFrame_frame {le te : Pt} (h : le.2 ≠ te.2) (p : Pt) : chordFrame le te (frame le te p) = p := by
  have h1 : (le.1 - te.1) ^ 2 + (le.2 - te.2) ^ 2 ≠ 0 := by rw [← len_sq]; have := len_pos h; positivity
  apply Prod.ext <;> simp only [chordFrame, frame, len_sq] <;> field_simp <;> ring

theorem frame_chordFrame {le te : Pt} (h : le.2 ≠ te.2) (q : Pt) : frame le te (chordFrame le te q) = q := by
  have h1 : (le.1 - te.1) ^ 2 + (le.2 - te.2) ^ 2 ≠ 0 := by rw [← len_sq]; have := len_pos h; positivity
  apply Prod.ext <;> simp only [chordFrame, frame, len_sq] <;> field_simp <;> ring

/-- What the extraction stores. -/
def ex (le te : Pt) (foil camber : List Pt) : Extracted :=
  { pitchAngle := atan2 (le.2 - te.2) (le.1 - te.1), skew := (le.2 + te.2) / 2,
    induced := (le.2 + te.2) / 2 * ((le.1 - te.1) / (le.2 - te.2)),
    rake := (le.1 + te.1) / 2 - (le.2 + te.2) / 2 * ((le.1 - te.1) / (le.2 - te.2)), chord := len le te,
    leading := (0, 0), trailing := (1, 0), mid := (1 / 2, 0), foil := foil.map (frame le te), camber := camber.mergeSort lexLe2 }

theorem extract_ok {le te : Pt} (h : le.2 ≠ te.2) (foil camber : List Pt) :
    extract le te ((le.1 + te.1) / 2, (le.2 + te.2) / 2) foil camber =
      (setEnds (camber.map (frame le te))).bind fun c => .ok (ex le te foil c) := by
  have hd : le.2 - te.2 ≠ 0 := sub_ne_zero.2 h
  have hc := len_pos h
  have hc2 := len_sq le te
  set t := atan2 (le.2 - te.2) (le.1 - te.1) with ht
  have hcos : Real.cos t = (le.1 - te.1) / len le te := cos_atan2 (Or.inr hd)
  have hsin : Real.sin t = (le.2 - te.2) / len le te := sin_atan2 _ _
  have hsin0 : Real.sin t ≠ 0 := by rw [hsin]; positivity
  have hcot : cot t = .ok ((le.1 - te.1) / (le.2 - te.2)) := by
    rw [cot, if_neg hsin0, hcos, hsin]; congr 1; field_simp
  set i := (le.2 + te.2) / 2 * ((le.1 - te.1) / (le.2 - te.2)) with hi
  have hf : ∀ p, rotated t (shifted ((le.2 + te.2) / 2) i ((le.1 + te.1) / 2 - i) p) =
      (len le te * (1 / 2 - (frame le te p).1), len le te * (frame le te p).2) := by
    intro p
    simp only [rotated, shifted, Real.cos_neg, Real.sin_neg, hcos, hsin, frame]
    apply Prod.ext
    · simp only; field_simp; ring
    · simp only; field_simp; ring
  have hn : ∀ p, normalized (len le te) (rotated t (shifted ((le.2 + te.2) / 2) i ((le.1 + te.1) / 2 - i) p)) = frame le te p := by
    intro p
    rw [hf, normalized]
    apply Prod.ext
    · simp only; field_simp; ring
    · simp only; field_simp
  have h1 : (le.1 - te.1) ^ 2 + (le.2 - te.2) ^ 2 ≠ 0 := by rw [← hc2]; positivity
  have hle : frame le te le = (0, 0) := by
    apply Prod.ext <;> simp only [frame, len_sq] <;> field_simp <;> ring
  have hte : frame le te te = (1, 0) := by
    apply Prod.ext <;> simp only [frame, len_sq] <;> field_simp <;> ring
  have hmid : frame le te ((le.1 + te.1) / 2, (le.2 + te.2) / 2) = (1 / 2, 0) := by
    apply Prod.ext <;> simp [frame]
  have hch : Real.sqrt (((rotated t (shifted ((le.2 + te.2) / 2) i ((le.1 + te.1) / 2 - i) le)).1 -
        (rotated t (shifted ((le.2 + te.2) / 2) i ((le.1 + te.1) / 2 - i) te)).1) ^ 2 +
      ((rotated t (shifted ((le.2 + te.2) / 2) i ((le.1 + te.1) / 2 - i) le)).2 -
        (rotated t (shifted ((le.2 + te.2) / 2) i ((le.1 + te.1) / 2 - i) te)).2) ^ 2) = len le te := by
    rw [hf, hf, hle, hte]
    rw [show (len le te * (1 / 2 - ((0:ℝ), (0:ℝ)).1) - len le te * (1 / 2 - ((1:ℝ), (0:ℝ)).1)) ^ 2 +
      (len le te * ((0:ℝ), (0:ℝ)).2 - len le te * ((1:ℝ), (0:ℝ)).2) ^ 2 = len le te ^ 2 by simp only; ring]
    exact Real.sqrt_sq hc.le
  have he : ∀ p, (frame le te p).2 = 0 →
      normalizedEdge (len le te) (rotated t (shifted ((le.2 + te.2) / 2) i ((le.1 + te.1) / 2 - i) p)) = frame le te p := by
    intro p hp
    rw [hf, normalizedEdge, hp]
    apply Prod.ext
    · simp only; field_simp; ring
    · simp [hp]
  unfold extract
  simp only [← ht, hcot, bind, Except.bind]
  simp only [← hi, hch, if_neg hc.ne', pure, Except.pure, hn]
  cases setEnds (List.map (fun p => frame le te p) camber) with
  | error e => rfl
  | ok c =>
    simp only
    rw [he le (by rw [hle]), he te (by rw [hte]), he _ (by rw [hmid]), hle, hte, hmid]
    rfl

theorem extract_flat {le te : Pt} (h : le.2 = te.2) (mid : Pt) (foil camber : List Pt) :
    extract le te mid foil camber = .error .nonFinite := by
  unfold extract
  simp only [cot, sin_atan2, h, sub_self, zero_div, if_true, bind, Except.bind]

theorem setEnds_ok {l : List Pt} (h : 2 ≤ l.length) : ∃ p q m, l = p :: (m ++ [q]) ∧ setEnds l = .ok ((0, p.2) :: (m ++ [(1, q.2)])) := by
  match l, h with
  | p :: ps, h =>
    obtain rfl | ⟨m, q, rfl⟩ := List.eq_nil_or_concat ps
    · simp at h
    refine ⟨p, q, m, by simp, ?_⟩
    have e1 : ((0, p.2) :: (m ++ [q])).getLast? = some q := by simp [List.getLast?_cons]
    have e2 : ((0, p.2) :: (m ++ [q])).dropLast = (0, p.2) :: m := by rw [← List.cons_append, List.dropLast_concat]
    simp only [setEnds, List.concat_eq_append, e1, e2]
    rfl

theorem setEnds_one (p : Pt) : setEnds [p] = .ok [(1, p.2)] := by simp [setEnds]

theorem setEnds_nil : setEnds [] = .error .indexError := rfl

theorem zeroEnds_ok {l : Arr} (h : 2 ≤ l.length) : ∃ p q m, l = p :: (m ++ [q]) ∧ zeroEnds l = .ok (0 :: (m ++ [0])) := by
  match l, h with
  | p :: ps, h =>
    obtain rfl | ⟨m, q, rfl⟩ := List.eq_nil_or_concat ps
    · simp at h
    refine ⟨p, q, m, by simp, ?_⟩
    have e2 : ((0 : ℝ) :: (m ++ [q])).dropLast = 0 :: m := by rw [← List.cons_append, List.dropLast_concat]
    simp only [zeroEnds, List.concat_eq_append, e2]
    rfl

/-- The signs of the ordinates as the final check of `_transform_top_and_bottom` leaves them. -/
def oriented (top bottom : List Pt) : Res (List Pt × List Pt) := do
  let p ← getIdx top (argmax (top.map fun p => |p.2|))
  if p.2 < 0 then return (top.map flipY, bottom.map flipY)
  return (top, bottom)

/-- The points given to the interpolation. -/
def prepared (l : List Pt) : Res (List Pt) := setEnds (l.mergeSort lexLe2)

theorem resample_ok {interp : List Pt → Res (ℝ → ℝ)} {n : Nat} {pts : List Pt} {v : Arr} :
    resample interp n pts = .ok v ↔ ∃ l f, prepared pts = .ok l ∧ interp l = .ok f ∧ zeroEnds ((linspaceN 0 1 n).map f) = .ok v := by
  simp only [resample, bind, Except.bind, prepared]
  constructor
  · intro h
    cases h1 : setEnds (pts.mergeSort lexLe2) with
    | error e => rw [h1] at h; cases h
    | ok l =>
      rw [h1] at h
      simp only at h
      cases h2 : interp l with
      | error e => rw [h2] at h; cases h
      | ok f => rw [h2] at h; exact ⟨l, f, rfl, h2, h⟩
  · rintro ⟨l, f, h1, h2, h3⟩
    simp only [h1, h2, h3]

theorem getIdx_map {α β : Type} (f : α → β) (l : List α) (i : Nat) : getIdx (l.map f) i = (getIdx l i).map f := by
  simp only [getIdx, List.getElem?_map]
  cases l[i]? <;> rfl

/-- The abstract of what one section of the BladeX class computes. -/
theorem sectionBladeX_ok {interp : List Pt → Res (ℝ → ℝ)} {n : Nat} {R : ℝ} {G : SectionGeom} {S : Section} :
    sectionBladeX interp n R G = .ok S ↔
      2 ≤ n ∧ n ≤ 500 ∧ R ≠ 0 ∧ (unrolled R G.leading).2 ≠ (unrolled R G.trailing).2 ∧
      (∃ c f, setEnds (((List.range n).map fun i => unrolledPos R (G.camber i)).map (frame (unrolled R G.leading) (unrolled R G.trailing))) =
        .ok c ∧ interp (c.mergeSort lexLe2) = .ok f) ∧
      ∃ t b yup ydown,
        oriented (((List.range n).map fun i : Nat => unrolled R (G.top ((i : ℝ) / ((n : ℝ) - 1)))).map
            (frame (unrolled R G.leading) (unrolled R G.trailing)))
          (((List.range n).map fun i : Nat => unrolled R (G.bottom ((i : ℝ) / ((n : ℝ) - 1)))).map
            (frame (unrolled R G.leading) (unrolled R G.trailing))) = .ok (t, b) ∧
        resample interp n t = .ok yup ∧ resample interp n b = .ok ydown ∧
        S = { stored := {
                pitchAngle := atan2 ((unrolled R G.leading).2 - (unrolled R G.trailing).2) ((unrolled R G.leading).1 - (unrolled R G.trailing).1),
                pitch := |2 * Real.pi * R * (((unrolled R G.leading).1 - (unrolled R G.trailing).1) /
                  ((unrolled R G.leading).2 - (unrolled R G.trailing).2))| / 1000,
                skewAngle := -(((unrolled R G.leading).2 + (unrolled R G.trailing).2) / 2 / R) * 180 / Real.pi,
                skew := ((unrolled R G.leading).2 + (unrolled R G.trailing).2) / 2 / 1000,
                rake := -(((unrolled R G.leading).1 + (unrolled R G.trailing).1) / 2 -
                  ((unrolled R G.leading).2 + (unrolled R G.trailing).2) / 2 * (((unrolled R G.leading).1 - (unrolled R G.trailing).1) /
                  ((unrolled R G.leading).2 - (unrolled R G.trailing).2))) / 1000,
                chord := len (unrolled R G.leading) (unrolled R G.trailing) / 1000 },
              xup := linspaceN 0 1 n, xdown := linspaceN 0 1 n, yup := yup, ydown := ydown } := by
  set le := unrolled R G.leading with hle
  set te := unrolled R G.trailing with hte
  unfold sectionBladeX
  simp only [← hle, ← hte]
  by_cases h500 : 500 < n
  · simp [h500, bind, Except.bind, throw, throwThe, MonadExceptOf.throw, show ¬ n ≤ 500 by omega]
  by_cases h1 : n = 1
  · subst h1; simp [bind, Except.bind, throw, throwThe, MonadExceptOf.throw]
  by_cases hd : le.2 = te.2
  · simp [h500, h1, hd, extract_flat hd, bind, Except.bind]
  by_cases h0 : n = 0
  · subst h0
    simp [extract_ok hd, setEnds_nil, bind, Except.bind]
  have hn : 2 ≤ n := by omega
  obtain ⟨c, hc⟩ : ∃ c, setEnds (((List.range n).map fun i => unrolledPos R (G.camber i)).map (frame le te)) = .ok c := by
    obtain ⟨_, _, _, _, h⟩ := setEnds_ok (l := ((List.range n).map fun i => unrolledPos R (G.camber i)).map (frame le te)) (by simpa using hn)
    exact ⟨_, h⟩
  have hcot : cot (atan2 (le.2 - te.2) (le.1 - te.1)) = .ok ((le.1 - te.1) / (le.2 - te.2)) := by
    have hd' : le.2 - te.2 ≠ 0 := sub_ne_zero.2 hd
    have hl := len_pos hd
    have hsin : Real.sin (atan2 (le.2 - te.2) (le.1 - te.1)) = (le.2 - te.2) / len le te := sin_atan2 _ _
    have hcos : Real.cos (atan2 (le.2 - te.2) (le.1 - te.1)) = (le.1 - te.1) / len le te := cos_atan2 (Or.inr hd')
    rw [cot, if_neg (by rw [hsin]; positivity), hcos, hsin]; congr 1; field_simp
  have hcam : ∀ foil, (ex le te foil c).camber = c.mergeSort lexLe2 := fun _ => rfl
  simp only [if_neg h500, if_neg h1, extract_ok hd, bind, Except.bind, hc, pure, Except.pure, hcam]
  by_cases hR : R = 0
  · simp only [storeBladeX, hR, if_true, throw, throwThe, MonadExceptOf.throw, bind, Except.bind]
    cases interp (c.mergeSort lexLe2) <;> simp
  have hst : ∀ foil camber, storeBladeX R (ex le te foil camber) = .ok {
      pitchAngle := atan2 (le.2 - te.2) (le.1 - te.1), pitch := |2 * Real.pi * R * ((le.1 - te.1) / (le.2 - te.2))| / 1000
      skewAngle := -((le.2 + te.2) / 2 / R) * 180 / Real.pi, skew := (le.2 + te.2) / 2 / 1000
      rake := -((le.1 + te.1) / 2 - (le.2 + te.2) / 2 * ((le.1 - te.1) / (le.2 - te.2))) / 1000, chord := len le te / 1000 } := by
    intro foil camber
    simp only [storeBladeX, ex, if_neg hR, hcot, bind, Except.bind, pure, Except.pure]
    congr 2
    ring
  simp only [hst]
  have hf : ∀ p, normalized (len le te) (rotated (atan2 (le.2 - te.2) (le.1 - te.1)) (shifted ((le.2 + te.2) / 2)
      ((le.2 + te.2) / 2 * ((le.1 - te.1) / (le.2 - te.2))) ((le.1 + te.1) / 2 - (le.2 + te.2) / 2 * ((le.1 - te.1) / (le.2 - te.2))) p)) =
      frame le te p := by
    intro p
    have hl := len_pos hd
    have hsin : Real.sin (atan2 (le.2 - te.2) (le.1 - te.1)) = (le.2 - te.2) / len le te := sin_atan2 _ _
    have hcos : Real.cos (atan2 (le.2 - te.2) (le.1 - te.1)) = (le.1 - te.1) / len le te :=
      cos_atan2 (Or.inr (sub_ne_zero.2 hd))
    simp only [normalized, rotated, shifted, Real.cos_neg, Real.sin_neg, hcos, hsin, frame]
    apply Prod.ext
    · simp only; field_simp; ring
    · simp only; field_simp; ring
  have htb : ∀ foil camber top bottom, transformTopBottom (ex le te foil camber) top bottom =
      oriented (top.map (frame le te)) (bottom.map (frame le te)) := by
    intro foil camber top bottom
    simp only [transformTopBottom, ex, oriented, hf]
    congr 1
    funext p
    congr 2
    all_goals simp [flipY, Function.comp_def]
  simp only [htb]
  simp only [h0, hn, hR, hd, hc, ne_eq, not_false_eq_true, true_and, show n ≤ 500 by omega, Except.ok.injEq, exists_and_left,
    exists_eq_left']
  cases hi : interp (c.mergeSort lexLe2) with
  | error e => simp
  | ok f =>
    simp only [Except.ok.injEq, exists_eq', true_and]
    generalize oriented _ _ = o
    cases o with
    | error e => simp
    | ok tb =>
      obtain ⟨t, b⟩ := tb
      simp only
      cases hu : resample interp n t with
      | error e =>
        simp only [reduceCtorEq, Except.ok.injEq, Prod.mk.injEq, false_iff]
        rintro ⟨_, _, ⟨rfl, rfl⟩, _, hu', _⟩
        rw [hu] at hu'; cases hu'
      | ok yu =>
        simp only
        cases hdn : resample interp n b with
        | error e =>
          simp only [reduceCtorEq, Except.ok.injEq, Prod.mk.injEq, false_iff]
          rintro ⟨_, _, ⟨rfl, rfl⟩, _, _, _, hu', _⟩
          rw [hdn] at hu'; cases hu'
        | ok yd =>
          simp only [Except.ok.injEq, Prod.mk.injEq]
          constructor
          · rintro rfl
            exact ⟨t, b, ⟨rfl, rfl⟩, yu, hu, yd, hdn, rfl⟩
          · rintro ⟨_, _, ⟨rfl, rfl⟩, yu', hu', yd', hd', rfl⟩
            rw [hu] at hu'; rw [hdn] at hd'
            obtain rfl := Except.ok.inj hu'
            obtain rfl := Except.ok.inj hd'
            rfl

/-- The abstract of what one section of the generic class computes. -/
theorem sectionGeneric_ok {interp : List Pt → Res (ℝ → ℝ)} {n : Nat} {R : ℝ} {G : SectionGeom} {S : Section} :
    sectionGeneric interp n R G = .ok S ↔
      R ≠ 0 ∧ (unrolledPos R G.leading).2 ≠ (unrolledPos R G.trailing).2 ∧
      ∃ c f yup ydown,
        setEnds (((List.range 500).map fun i => unrolledPos R (G.camber i)).map (frame (unrolledPos R G.leading) (unrolledPos R G.trailing))) =
          .ok c ∧ interp (c.mergeSort lexLe2) = .ok f ∧
        resample interp n (splitFoil f (ex (unrolledPos R G.leading) (unrolledPos R G.trailing)
          ((List.range 1000).map fun i : Nat => unrolledPos R (G.whole ((i : ℝ) / 999))) c)).1 = .ok yup ∧
        resample interp n (splitFoil f (ex (unrolledPos R G.leading) (unrolledPos R G.trailing)
          ((List.range 1000).map fun i : Nat => unrolledPos R (G.whole ((i : ℝ) / 999))) c)).2 = .ok ydown ∧
        S = { stored := {
                pitchAngle := atan2 ((unrolledPos R G.leading).2 - (unrolledPos R G.trailing).2) ((unrolledPos R G.leading).1 - (unrolledPos R G.trailing).1),
                pitch := |2 * Real.pi * R * (((unrolledPos R G.leading).1 - (unrolledPos R G.trailing).1) /
                  ((unrolledPos R G.leading).2 - (unrolledPos R G.trailing).2))| / 1000,
                skewAngle := (((unrolledPos R G.leading).2 + (unrolledPos R G.trailing).2) / 2 / R - Real.pi) * 180 / Real.pi,
                skew := (((unrolledPos R G.leading).2 + (unrolledPos R G.trailing).2) / 2 - Real.pi * R) / 1000,
                rake := -(((unrolledPos R G.leading).1 + (unrolledPos R G.trailing).1) / 2 -
                  (((unrolledPos R G.leading).2 + (unrolledPos R G.trailing).2) / 2 - Real.pi * R) *
                    (((unrolledPos R G.leading).1 - (unrolledPos R G.trailing).1) /
                  ((unrolledPos R G.leading).2 - (unrolledPos R G.trailing).2))) / 1000,
                chord := len (unrolledPos R G.leading) (unrolledPos R G.trailing) / 1000 },
              xup := linspaceN 0 1 n, xdown := linspaceN 0 1 n, yup := yup, ydown := ydown } := by
  set le := unrolledPos R G.leading with hle
  set te := unrolledPos R G.trailing with hte
  unfold sectionGeneric
  simp only [← hle, ← hte]
  have hlen : ((List.range 500).map fun i => unrolledPos R (G.camber i)).length = 500 := by rw [List.length_map, List.length_range]
  generalize ((List.range 500).map fun i => unrolledPos R (G.camber i)) = cam at hlen ⊢
  generalize ((List.range 1000).map fun i : Nat => unrolledPos R (G.whole ((i : ℝ) / 999))) = foil
  by_cases hd : le.2 = te.2
  · simp [hd, extract_flat hd, bind, Except.bind]
  obtain ⟨c, hc⟩ : ∃ c, setEnds (cam.map (frame le te)) = .ok c := by
    obtain ⟨_, _, _, _, h⟩ := setEnds_ok (l := cam.map (frame le te)) (by rw [List.length_map, hlen]; norm_num)
    exact ⟨_, h⟩
  have hcot : cot (atan2 (le.2 - te.2) (le.1 - te.1)) = .ok ((le.1 - te.1) / (le.2 - te.2)) := by
    have hd' : le.2 - te.2 ≠ 0 := sub_ne_zero.2 hd
    have hl := len_pos hd
    have hsin : Real.sin (atan2 (le.2 - te.2) (le.1 - te.1)) = (le.2 - te.2) / len le te := sin_atan2 _ _
    have hcos : Real.cos (atan2 (le.2 - te.2) (le.1 - te.1)) = (le.1 - te.1) / len le te := cos_atan2 (Or.inr hd')
    rw [cot, if_neg (by rw [hsin]; positivity), hcos, hsin]; congr 1; field_simp
  have hcam : ∀ foil, (ex le te foil c).camber = c.mergeSort lexLe2 := fun _ => rfl
  simp only [extract_ok hd, bind, Except.bind, hc, pure, Except.pure, hcam]
  by_cases hR : R = 0
  · simp only [storeGeneric, hR, if_true, throw, throwThe, MonadExceptOf.throw, bind, Except.bind]
    cases interp (c.mergeSort lexLe2) <;> simp
  have hst : ∀ foil camber, storeGeneric R (ex le te foil camber) = .ok {
      pitchAngle := atan2 (le.2 - te.2) (le.1 - te.1), pitch := |2 * Real.pi * R * ((le.1 - te.1) / (le.2 - te.2))| / 1000
      skewAngle := ((le.2 + te.2) / 2 / R - Real.pi) * 180 / Real.pi, skew := ((le.2 + te.2) / 2 - Real.pi * R) / 1000
      rake := -((le.1 + te.1) / 2 - ((le.2 + te.2) / 2 - Real.pi * R) * ((le.1 - te.1) / (le.2 - te.2))) / 1000
      chord := len le te / 1000 } := by
    intro foil camber
    simp only [storeGeneric, ex, if_neg hR, hcot, bind, Except.bind, pure, Except.pure]
    congr 2
    ring
  simp only [hst]
  simp only [hR, hd, ne_eq, not_false_eq_true, true_and, Except.ok.injEq, exists_and_left, exists_eq_left']
  cases hi : interp (c.mergeSort lexLe2) with
  | error e => simp
  | ok f =>
    simp only [Except.ok.injEq, exists_eq_left']
    generalize splitFoil f (ex le te foil c) = o
    obtain ⟨t, b⟩ := o
    simp only
    cases hu : resample interp n t with
    | error e => simp
    | ok yu =>
      cases hdn : resample interp n b with
      | error e => simp
      | ok yd => simp [eq_comm]

/-- Unrolling a point laid on the cylinder. -/
theorem unrolled_wrap {r : ℝ} (hr : 0 < r) {q : Pt} (h : -Real.pi < q.2 / r ∧ q.2 / r ≤ Real.pi) :
    unrolled (1000 * r) (1000 * (wrap r q).1, 1000 * (wrap r q).2.1, 1000 * (wrap r q).2.2) = (1000 * q.1, 1000 * q.2) := by
  simp only [unrolled, wrap]
  rw [show 1000 * (r * Real.sin (q.2 / r)) = 1000 * r * Real.sin (q.2 / r) by ring,
    show 1000 * (r * Real.cos (q.2 / r)) = 1000 * r * Real.cos (q.2 / r) by ring, atan2_polar (by positivity) h]
  apply Prod.ext
  · rfl
  · simp only; field_simp

theorem atan2_pos {ρ t : ℝ} (hρ : 0 < ρ) (ht : 0 ≤ t ∧ t < 2 * Real.pi) :
    (if atan2 (ρ * Real.sin t) (ρ * Real.cos t) < 0 then atan2 (ρ * Real.sin t) (ρ * Real.cos t) + 2 * Real.pi
      else atan2 (ρ * Real.sin t) (ρ * Real.cos t)) = t := by
  have hpi := Real.pi_pos
  by_cases h : t ≤ Real.pi
  · rw [atan2_polar hρ ⟨by linarith [ht.1], h⟩, if_neg (by linarith [ht.1])]
  · have h' := not_le.1 h
    have e : atan2 (ρ * Real.sin t) (ρ * Real.cos t) = t - 2 * Real.pi := by
      rw [← Real.sin_sub_two_pi t, ← Real.cos_sub_two_pi t]
      exact atan2_polar hρ ⟨by linarith, by linarith [ht.2]⟩
    rw [e, if_pos (by linarith [ht.2])]
    ring

/-- Unrolling, with angles from 0 to 2 pi. -/
theorem unrolledPos_wrap {r : ℝ} (hr : 0 < r) {q : Pt} (h : 0 ≤ q.2 / r ∧ q.2 / r < 2 * Real.pi) :
    unrolledPos (1000 * r) (1000 * (wrap r q).1, 1000 * (wrap r q).2.1, 1000 * (wrap r q).2.2) = (1000 * q.1, 1000 * q.2) := by
  rw [show (1000 * (wrap r q).1, 1000 * (wrap r q).2.1, 1000 * (wrap r q).2.2) =
    (1000 * q.1, 1000 * r * Real.sin (q.2 / r), 1000 * r * Real.cos (q.2 / r)) by simp only [wrap, mul_assoc]]
  unfold unrolledPos
  rw [atan2_pos (by positivity) h]
  apply Prod.ext
  · rfl
  · simp only; field_simp

theorem onBlade_eq (refl : Bool) (r c P k s : ℝ) (p : Pt) : onBlade refl r c P k s p =
    (1000 * (wrap r (placed refl r c P k s (1 / 2, 0) p)).1, 1000 * (wrap r (placed refl r c P k s (1 / 2, 0) p)).2.1,
      1000 * (wrap r (placed refl r c P k s (1 / 2, 0) p)).2.2) := rfl

/-- Placed points in the frame of their chord. -/
theorem chordFrame_placed (refl : Bool) (r c P k s : ℝ) (p : Pt) (f : ℝ) :
    chordFrame (f * (placed refl r c P k s (1 / 2, 0) (0, 0)).1, f * (placed refl r c P k s (1 / 2, 0) (0, 0)).2)
      (f * (placed refl r c P k s (1 / 2, 0) (1, 0)).1, f * (placed refl r c P k s (1 / 2, 0) (1, 0)).2) (flipY p) =
    (f * (placed refl r c P k s (1 / 2, 0) p).1, f * (placed refl r c P k s (1 / 2, 0) p).2) := by
  simp only [chordFrame, placed, flipY]
  apply Prod.ext <;> simp only <;> ring

/-- The same with the edges exchanged. -/
theorem chordFrame_placed' (refl : Bool) (r c P k s : ℝ) (p : Pt) (f : ℝ) :
    chordFrame (f * (placed refl r c P k s (1 / 2, 0) (1, 0)).1, f * (placed refl r c P k s (1 / 2, 0) (1, 0)).2)
      (f * (placed refl r c P k s (1 / 2, 0) (0, 0)).1, f * (placed refl r c P k s (1 / 2, 0) (0, 0)).2) (1 - p.1, p.2) =
    (f * (placed refl r c P k s (1 / 2, 0) p).1, f * (placed refl r c P k s (1 / 2, 0) p).2) := by
  simp only [chordFrame, placed]
  apply Prod.ext <;> simp only <;> ring

/-- What the edges of a placed section say about its parameters. -/
theorem placed_edges (refl : Bool) {r c : ℝ} (P k s : ℝ) (hr : 0 < r) (hc : c ≠ 0) :
    ((placed refl r c P k s (1 / 2, 0) (0, 0)).1 + (placed refl r c P k s (1 / 2, 0) (1, 0)).1) / 2 =
        -(k + Real.pi * s / 180 * P / (2 * Real.pi)) ∧
    ((placed refl r c P k s (1 / 2, 0) (0, 0)).2 + (placed refl r c P k s (1 / 2, 0) (1, 0)).2) / 2 = -(r * (Real.pi * s / 180)) ∧
    (placed refl r c P k s (1 / 2, 0) (0, 0)).2 - (placed refl r c P k s (1 / 2, 0) (1, 0)).2 ≠ 0 ∧
    ((placed refl r c P k s (1 / 2, 0) (0, 0)).1 - (placed refl r c P k s (1 / 2, 0) (1, 0)).1) =
      P / (2 * Real.pi * r) * ((placed refl r c P k s (1 / 2, 0) (0, 0)).2 - (placed refl r c P k s (1 / 2, 0) (1, 0)).2) ∧
    ((placed refl r c P k s (1 / 2, 0) (0, 0)).1 - (placed refl r c P k s (1 / 2, 0) (1, 0)).1) ^ 2 +
      ((placed refl r c P k s (1 / 2, 0) (0, 0)).2 - (placed refl r c P k s (1 / 2, 0) (1, 0)).2) ^ 2 = c ^ 2 := by
  have hcos := Real.cos_arctan_pos (P / (2 * Real.pi * r))
  have htan := Real.tan_arctan (P / (2 * Real.pi * r))
  have hsq := Real.sin_sq_add_cos_sq (Real.arctan (P / (2 * Real.pi * r)))
  rw [Real.tan_eq_sin_div_cos] at htan
  simp only [placed]
  set C := Real.cos (Real.arctan (P / (2 * Real.pi * r)))
  set S := Real.sin (Real.arctan (P / (2 * Real.pi * r)))
  have hS : S = P / (2 * Real.pi * r) * C := by rw [← htan]; field_simp
  have he : ∀ e : ℝ, e = c ∨ e = -c → e ≠ 0 ∧ e ^ 2 = c ^ 2 := by
    rintro e (rfl | rfl)
    · exact ⟨hc, rfl⟩
    · exact ⟨neg_ne_zero.2 hc, by ring⟩
  obtain ⟨e0, e2⟩ := he (if refl = true then -c else c) (by cases refl <;> simp)
  generalize (if refl = true then -c else c) = e at e0 e2 ⊢
  refine ⟨by ring, by ring, ?_, ?_, ?_⟩
  · rw [show C * (e * (0 - 1 / 2)) + S * (e * (0 - 0)) - r * (Real.pi * s / 180) -
      (C * (e * (1 - 1 / 2)) + S * (e * (0 - 0)) - r * (Real.pi * s / 180)) = -(C * e) by ring]
    exact neg_ne_zero.2 (mul_ne_zero hcos.ne' e0)
  · rw [hS]; ring
  · rw [← e2]; linear_combination e ^ 2 * hsq

theorem oriented_flip {T B : List Pt} (hT : T ≠ []) : ∃ σ : ℝ,
    oriented (T.map flipY) (B.map flipY) = .ok (T.map (fun p => (p.1, σ * p.2)), B.map fun p => (p.1, σ * p.2)) ∧ (σ = 1 ∨ σ = -1) ∧
    ((∀ p ∈ T, (∀ q ∈ T, |q.2| ≤ |p.2|) → 0 < p.2) → σ = 1) ∧
    ((∀ p ∈ T, (∀ q ∈ T, |q.2| ≤ |p.2|) → p.2 ≤ 0) → σ = -1) := by
  have hne : (T.map flipY).map (fun p => |p.2|) ≠ [] := by simpa using hT
  have hlt : argmax ((T.map flipY).map fun p => |p.2|) < T.length := by simpa using argmax_lt hne
  obtain ⟨m, hm⟩ := npMax_exists hne
  have hspec := argmax_spec hm
  obtain ⟨_, hmax⟩ := npMax_ok_iff.1 hm
  set i := argmax ((T.map flipY).map fun p => |p.2|) with hi
  have hx : T[i]? = some T[i] := List.getElem?_eq_getElem hlt
  have hg : getIdx (T.map flipY) i = .ok (flipY T[i]) := by simp [getIdx, hx]
  have hdom : ∀ q ∈ T, |q.2| ≤ |T[i].2| := by
    intro q hq
    have h1 : |T[i].2| = m := by
      rw [List.getElem?_map, List.getElem?_map, hx] at hspec
      simpa [flipY] using hspec
    have h2 : |q.2| ≤ m := by
      have := hmax (|(flipY q).2|) (by simp only [List.map_map, List.mem_map]; exact ⟨q, hq, rfl⟩)
      simpa [flipY] using this
    rw [h1]; exact h2
  have hmem : T[i] ∈ T := List.getElem_mem hlt
  by_cases hs : (flipY T[i]).2 < 0
  · have hs' : 0 < T[i].2 := by simpa [flipY] using hs
    refine ⟨1, ?_, Or.inl rfl, fun _ => rfl, fun h => absurd (h _ hmem hdom) (not_le.2 hs')⟩
    simp only [oriented, ← hi, hg, bind, Except.bind, if_pos hs, pure, Except.pure]
    congr 2
    · simp [flipY, Function.comp_def]
    · simp [flipY, Function.comp_def]
  · have hs' : T[i].2 ≤ 0 := by simpa [flipY] using hs
    refine ⟨-1, ?_, Or.inr rfl, fun h => absurd (h _ hmem hdom) (not_lt.2 hs'), fun _ => rfl⟩
    simp only [oriented, ← hi, hg, bind, Except.bind, if_neg hs, pure, Except.pure]
    congr 2
    · apply List.map_congr_left; intro p _; simp [flipY]
    · apply List.map_congr_left; intro p _; simp [flipY]

theorem sorted_lex (l : List Pt) : (l.mergeSort lexLe2).Pairwise fun p q => p.1 ≤ q.1 := by
  have h := List.pairwise_mergeSort (le := lexLe2) (by
      intro a b c h1 h2
      simp only [lexLe2, decide_eq_true_eq] at *
      rcases h1 with h1 | ⟨h1, h1'⟩ <;> rcases h2 with h2 | ⟨h2, h2'⟩
      · left; linarith
      · left; linarith
      · left; linarith
      · right; exact ⟨by linarith, by linarith⟩)
    (by
      intro a b
      simp only [lexLe2, Bool.or_eq_true, decide_eq_true_eq]
      rcases lt_trichotomy a.1 b.1 with h | h | h
      · left; left; exact h
      · rcases le_total a.2 b.2 with h' | h'
        · left; right; exact ⟨h, h'⟩
        · right; right; exact ⟨h.symm, h'⟩
      · right; left; exact h) l
  apply h.imp
  intro p q hpq
  simp only [lexLe2, decide_eq_true_eq] at hpq
  rcases hpq with h | h
  · exact h.le
  · exact h.1.le

/-- Points on `[0, 1]` with both ends among them are only sorted. -/
theorem prepared_unit {l : List Pt} (h01 : ∀ p ∈ l, 0 ≤ p.1 ∧ p.1 ≤ 1) (h0 : ∃ p ∈ l, p.1 = 0) (h1 : ∃ p ∈ l, p.1 = 1) :
    prepared l = .ok (l.mergeSort lexLe2) := by
  obtain ⟨a, ha, ha0⟩ := h0
  obtain ⟨b, hb, hb1⟩ := h1
  have hlen : 2 ≤ (l.mergeSort lexLe2).length := by
    rw [List.length_mergeSort]
    match l, ha, hb with
    | [x], ha, hb =>
      obtain rfl := List.mem_singleton.1 ha
      obtain rfl := List.mem_singleton.1 hb
      linarith
    | _ :: _ :: _, _, _ => simp
  obtain ⟨p, q, m, hl, he⟩ := setEnds_ok hlen
  have hs := sorted_lex l
  have mem : ∀ x, x ∈ p :: (m ++ [q]) ↔ x ∈ l := by intro x; rw [← hl]; exact List.mem_mergeSort
  rw [hl] at hs
  have hp0 : p.1 = 0 := by
    have h1 := (h01 p ((mem p).1 (by simp))).1
    have h2 : p.1 ≤ a.1 := by
      rcases List.mem_cons.1 ((mem a).2 ha) with rfl | h
      · exact le_rfl
      · exact (List.pairwise_cons.1 hs).1 _ h
    linarith
  have hq1 : q.1 = 1 := by
    have h1 := (h01 q ((mem q).1 (by simp))).2
    have h2 : b.1 ≤ q.1 := by
      rw [← List.cons_append] at hs
      have hb' := (mem b).2 hb
      rw [← List.cons_append, List.mem_append] at hb'
      rcases hb' with h | h
      · exact (List.pairwise_append.1 hs).2.2 _ h _ (by simp)
      · rw [List.mem_singleton.1 h]
    linarith
  rw [prepared, he, hl]
  congr 2
  · rw [← hp0]
  · rw [← hq1]

theorem linspaceN_get {n : Nat} {j : Nat} (hj : j < n) : (linspaceN 0 1 n)[j]? = some ((j : ℝ) / ((n : ℝ) - 1)) := by
  simp only [linspaceN, List.getElem?_map, List.getElem?_range hj, Option.map_some]
  congr 1
  ring

theorem zeroEnds_get {l v : Arr} (h : zeroEnds l = .ok v) : v.length = l.length ∧ v[0]? = some 0 ∧ v[l.length - 1]? = some 0 ∧
    ∀ (j : Nat), 0 < j → j < l.length - 1 → v[j]? = l[j]? := by
  match l with
  | [] => simp [zeroEnds] at h
  | [x] =>
    simp only [zeroEnds, List.dropLast_singleton, List.nil_append, Except.ok.injEq] at h
    subst h
    refine ⟨rfl, rfl, rfl, ?_⟩
    intro j h1 h2
    simp at h2
  | x :: y :: l =>
    obtain ⟨p, q, m, hl, he⟩ := zeroEnds_ok (l := x :: y :: l) (by simp)
    rw [he] at h
    obtain rfl := Except.ok.inj h
    rw [hl]
    refine ⟨by simp, rfl, by simp [List.getElem?_append], ?_⟩
    intro j h1 h2
    obtain ⟨i, rfl⟩ : ∃ i, j = i + 1 := ⟨j - 1, by omega⟩
    simp only [List.length_cons, List.length_append] at h2
    simp only [List.getElem?_cons_succ]
    rw [List.getElem?_append_left (by simpa using h2), List.getElem?_append_left (by simpa using h2)]

theorem resample_total {interp : List Pt → Res (ℝ → ℝ)} (hi : ∀ l, ∃ f, interp l = .ok f) {n : Nat} (hn : 0 < n) {l : List Pt} (hl : l ≠ []) :
    ∃ v, resample interp n l = .ok v := by
  have hp : ∃ l', prepared l = .ok l' := by
    unfold prepared
    have : (l.mergeSort lexLe2) ≠ [] := by
      intro h; apply hl; have := congrArg List.length h; simpa using this
    match l.mergeSort lexLe2, this with
    | [p], _ => exact ⟨_, setEnds_one p⟩
    | p :: q :: m, _ =>
      obtain ⟨_, _, _, _, h⟩ := setEnds_ok (l := p :: q :: m) (by simp)
      exact ⟨_, h⟩
  obtain ⟨l', hl'⟩ := hp
  obtain ⟨f, hf⟩ := hi l'
  have hz : ∀ v : Arr, v ≠ [] → ∃ w, zeroEnds v = .ok w := by
    intro v hv
    match v, hv with
    | x :: xs, _ => exact ⟨_, rfl⟩
  obtain ⟨w, hw⟩ := hz ((linspaceN 0 1 n).map f) (by
    intro h; have := congrArg List.length h; simp [linspaceN] at this; omega)
  exact ⟨w, resample_ok.2 ⟨l', f, hl', hf, hw⟩⟩

theorem oriented_total {T B : List Pt} (hT : T ≠ []) : ∃ t b, oriented T B = .ok (t, b) ∧ t.length = T.length ∧ b.length = B.length := by
  have hlt : argmax (T.map fun p => |p.2|) < T.length := by simpa using argmax_lt (l := T.map fun p => |p.2|) (by simpa using hT)
  have hg : getIdx T (argmax (T.map fun p => |p.2|)) = .ok T[argmax (T.map fun p => |p.2|)] := by
    simp [getIdx, List.getElem?_eq_getElem hlt]
  simp only [oriented, hg, bind, Except.bind, pure, Except.pure]
  split_ifs
  · exact ⟨_, _, rfl, by simp, by simp⟩
  · exact ⟨_, _, rfl, rfl, rfl⟩

theorem sectionBladeX_total {interp : List Pt → Res (ℝ → ℝ)} (hi : ∀ l, ∃ f, interp l = .ok f) {n : Nat} (hn : 2 ≤ n) (hn' : n ≤ 500)
    {R : ℝ} (hR : R ≠ 0) {G : SectionGeom} (hd : (unrolled R G.leading).2 ≠ (unrolled R G.trailing).2) :
    ∃ S, sectionBladeX interp n R G = .ok S := by
  obtain ⟨_, _, _, _, hc⟩ := setEnds_ok (l := ((List.range n).map fun i => unrolledPos R (G.camber i)).map
    (frame (unrolled R G.leading) (unrolled R G.trailing))) (by simpa using hn)
  obtain ⟨f, hf⟩ := hi _
  obtain ⟨t, b, ho, l1, l2⟩ := oriented_total (T := ((List.range n).map fun i : Nat => unrolled R (G.top ((i : ℝ) / ((n : ℝ) - 1)))).map
      (frame (unrolled R G.leading) (unrolled R G.trailing)))
    (B := ((List.range n).map fun i : Nat => unrolled R (G.bottom ((i : ℝ) / ((n : ℝ) - 1)))).map
      (frame (unrolled R G.leading) (unrolled R G.trailing))) (by
      intro h; have := congrArg List.length h; simp at this; omega)
  obtain ⟨yu, hu⟩ := resample_total hi (n := n) (by omega) (l := t) (by
    rintro rfl; simp at l1; omega)
  obtain ⟨yd, hd'⟩ := resample_total hi (n := n) (by omega) (l := b) (by
    rintro rfl; simp at l2; omega)
  exact ⟨_, sectionBladeX_ok.2 ⟨hn, hn', hR, hd, ⟨_, _, hc, hf⟩, t, b, yu, yd, ho, hu, hd', rfl⟩⟩

theorem sectionGeneric_total {interp : List Pt → Res (ℝ → ℝ)} (hi : ∀ l, ∃ f, interp l = .ok f) {n : Nat} (hn : 0 < n)
    {R : ℝ} (hR : R ≠ 0) {G : SectionGeom} (hd : (unrolledPos R G.leading).2 ≠ (unrolledPos R G.trailing).2) :
    ∃ S, sectionGeneric interp n R G = .ok S := by
  obtain ⟨_, _, _, _, hc⟩ := setEnds_ok (l := ((List.range 500).map fun i => unrolledPos R (G.camber i)).map
    (frame (unrolledPos R G.leading) (unrolledPos R G.trailing))) (by rw [List.length_map, List.length_map, List.length_range]; norm_num)
  obtain ⟨f, hf⟩ := hi _
  have r : ∀ l, l ≠ [] → ∃ v, resample interp n l = .ok v := fun l hl => resample_total hi hn hl
  obtain ⟨yu, hu⟩ := r (splitFoil f (ex (unrolledPos R G.leading) (unrolledPos R G.trailing)
    ((List.range 1000).map fun i : Nat => unrolledPos R (G.whole ((i : ℝ) / 999))) _)).1 (List.cons_ne_nil _ _)
  obtain ⟨yd, hdn⟩ := r (splitFoil f (ex (unrolledPos R G.leading) (unrolledPos R G.trailing)
    ((List.range 1000).map fun i : Nat => unrolledPos R (G.whole ((i : ℝ) / 999))) _)).2 (List.cons_ne_nil _ _)
  exact ⟨_, sectionGeneric_ok.2 ⟨hR, hd, _, _, yu, yd, hc, hf, hu, hdn, rfl⟩⟩

end Reverse
end
end BladeX
