import Verif.Spec.Ieee
import Verif.Lemmas.Blade
import Verif.Lemmas.Measure
import Verif.Lemmas.American
import Verif.Lemmas.ProfileBare
import Verif.Props.Area

namespace BladeX
noncomputable section
open Classical
namespace Ieee

theorem Agrees.same (x : Res α) : Agrees id x x := ⟨fun _ h => h, fun _ h _ => h⟩

theorem Agrees.ok (f : α → β) (a : α) : Agrees f (.ok a) (.ok (f a)) :=
  ⟨fun b h => by rw [Except.ok.inj h], fun e h => by cases h⟩

theorem Agrees.err (f : α → β) (e : PyErr) : Agrees f (.error e) (.error e) :=
  ⟨fun b h => (by cases h), fun e' h _ => by rw [Except.error.inj h]⟩

theorem Agrees.stop (f : α → β) (x : Res β) : Agrees f (.error .nonFinite) x :=
  ⟨fun b h => (by cases h), fun e' h hn => absurd (Except.error.inj h).symm hn⟩

theorem Agrees.bind {f : α → β} {g : γ → δ} {x : Res α} {x' : Res β} {k : α → Res γ} {k' : β → Res δ}
    (h : Agrees f x x') (hk : ∀ a, x = .ok a → Agrees g (k a) (k' (f a))) : Agrees g (x >>= k) (x' >>= k') := by
  rcases hx : x with e | a
  · by_cases he : e = .nonFinite
    · subst he; exact Agrees.stop _ _
    · rw [h.raises e hx he]; exact Agrees.err _ _
  · rw [h.returns a hx]; exact hk a hx

theorem fin_inj {x y : ℝ} : fin x = fin y ↔ x = y := ⟨fun h => by cases h; rfl, fun h => by rw [h]⟩

theorem div_fin (z : Bool) {x y : ℝ} (hy : y ≠ 0) : div z (fin x) (fin y) = fin (x / y) := by
  simp [div, hy]

theorem zip_map_fin (f : ℝ → ℝ → ℝ) (g : Ieee → Ieee → Ieee) (h : ∀ x y, g (fin x) (fin y) = fin (f x y)) (a b : Arr) :
    Agrees (List.map fin) (bzip f a b) (zip g (a.map fin) (b.map fin)) := by
  unfold bzip zip
  simp only [List.length_map]
  split
  · have : List.zipWith g (a.map fin) (b.map fin) = (List.zipWith f a b).map fin := by
      rw [List.zipWith_map, List.map_zipWith]
      simp only [h]
    rw [this]; exact Agrees.ok _ _
  · rename_i hl
    match a, b with
    | [x], [y] => exact absurd rfl hl
    | [x], [] =>
      exact Agrees.ok (List.map fin) []
    | [x], y :: y' :: b =>
      have : (List.map fin (y :: y' :: b)).map (g (fin x)) = (List.map (f x) (y :: y' :: b)).map fin := by simp [h]
      show Agrees _ _ (Except.ok ((List.map fin (y :: y' :: b)).map (g (fin x))))
      rw [this]
      exact Agrees.ok (List.map fin) _
    | [], [y] => exact Agrees.ok (List.map fin) []
    | x :: x' :: a, [y] =>
      have : (List.map fin (x :: x' :: a)).map (fun t => g t (fin y)) = (List.map (fun t => f t y) (x :: x' :: a)).map fin := by
        simp [h]
      show Agrees _ _ (Except.ok ((List.map fin (x :: x' :: a)).map (fun t => g t (fin y))))
      rw [this]
      exact Agrees.ok (List.map fin) _
    | [], [] => exact absurd rfl hl
    | [], y :: y' :: b => exact Agrees.err _ _
    | x :: x' :: a, [] => exact Agrees.err _ _
    | x :: x' :: a, y :: y' :: b => exact Agrees.err _ _

theorem npMax_fin (a : Arr) : Agrees fin (BladeX.npMax a) (npMax (a.map fin)) := by
  cases a with
  | nil => exact Agrees.err _ _
  | cons x xs =>
    have : ∀ (xs : Arr) (x : ℝ), (xs.map fin).foldl max (fin x) = fin (xs.foldl Max.max x) := by
      intro xs
      induction xs with
      | nil => intro x; rfl
      | cons y ys ih => intro x; exact ih (Max.max x y)
    show Agrees fin (.ok _) (.ok ((xs.map fin).foldl max (fin x)))
    rw [this]
    exact Agrees.ok fin _

theorem argmax_fin (a : Arr) : argmax (a.map fin) = BladeX.argmax a := by
  unfold argmax BladeX.argmax
  cases a with
  | nil => rfl
  | cons x xs =>
    rw [(npMax_fin (x :: xs)).returns _ rfl]
    show List.findIdx _ _ = List.findIdx _ _
    rw [List.findIdx_map]
    congr 1
    funext y
    simp [fin_inj]

/-- `compute_chord_line`. -/
theorem chordLine_agrees (z : Bool) (P : Profile) (n : Option Int) :
    Agrees (fun Q => ((Q.chordLine.getD ([], [])).1, (Q.chordLine.getD ([], [])).2.map fin)) (P.computeChordLine n) (chordLine z P n) := by
  unfold Profile.computeChordLine chordLine
  refine Agrees.bind (Agrees.same P.updateEdges) fun e _ => ?_
  simp only [id]
  by_cases h0 : e.2.1 - e.1.1 = 0
  · simp only [h0, if_true]
    exact Agrees.stop _ _
  · simp only [h0, if_false, pure_bind, div_fin z h0]
    refine Agrees.bind (Agrees.same (P.effectiveN n)) fun m _ => ?_
    have key : ∀ xs : Arr, (xs.map fun x => add (mul (fin ((e.2.2 - e.1.2) / (e.2.1 - e.1.1))) (fin (x - e.1.1))) (fin e.1.2)) =
        (xs.map fun x => (e.2.2 - e.1.2) / (e.2.1 - e.1.1) * (x - e.1.1) + e.1.2).map fin := by
      intro xs
      rw [List.map_map]; rfl
    cases m with
    | none =>
      show Agrees _ (.ok _) (.ok (P.xup, _))
      rw [key]
      exact Agrees.ok (fun Q : Profile => ((Q.chordLine.getD ([], [])).1, (Q.chordLine.getD ([], [])).2.map fin)) _
    | some k =>
      refine Agrees.bind (Agrees.same (linspace e.1.1 e.2.1 k)) fun xs _ => ?_
      show Agrees _ (.ok _) (.ok (xs, _))
      rw [key]
      exact Agrees.ok (fun Q : Profile => ((Q.chordLine.getD ([], [])).1, (Q.chordLine.getD ([], [])).2.map fin)) _

theorem sqrt_fin (p q : ℝ × ℝ) : sqrt (add (fin ((p.1 - q.1) ^ 2)) (mul (sub (fin p.2) (fin q.2)) (sub (fin p.2) (fin q.2)))) =
    fin (Real.sqrt ((p.1 - q.1) ^ 2 + (p.2 - q.2) ^ 2)) := by
  rw [sq (p.2 - q.2)]; rfl

theorem distances_fin (cl cb : Arr × Arr) : camberDistances (cl.1, cl.2.map fin) cb = (Profile.camberDistances cl cb).map fin := by
  unfold camberDistances Profile.camberDistances
  have : List.zip cl.1 (cl.2.map fin) = (List.zip cl.1 cl.2).map fun p => (p.1, fin p.2) := by
    rw [List.zip_map_right]; rfl
  rw [show ((cl.1, cl.2.map fin) : Arr × List Ieee).1 = cl.1 from rfl, show ((cl.1, cl.2.map fin) : Arr × List Ieee).2 = cl.2.map fin from rfl,
    this, List.zipWith_map_left, List.map_zipWith]
  congr 1
  funext p q
  exact sqrt_fin p q

theorem signedMax_fin (d clY cbY : Arr) : Agrees fin (Profile.signedMax d clY cbY) (signedMax (d.map fin) (clY.map fin) cbY) := by
  unfold Profile.signedMax signedMax
  refine Agrees.bind (npMax_fin d) fun m _ => ?_
  simp only [argmax_fin]
  have : (clY.map fin).getD (BladeX.argmax d) (fin 0) = fin (clY.getD (BladeX.argmax d) 0) := by
    rw [List.getD_eq_getElem?_getD, List.getElem?_map, List.getD_eq_getElem?_getD]
    rcases clY[BladeX.argmax d]? with _ | x <;> rfl
  rw [this]
  simp only [lt, decide_eq_true_eq]
  split
  · exact Agrees.ok fin _
  · exact Agrees.ok fin _

theorem chordLine_dress {P : Profile} {n : Option Int} {Q : Profile} (h : P.computeChordLine n = .ok Q) :
    ∃ c, Q = P.dress P.par c P.camberLine ∧ Q.chordLine = c := by
  unfold Profile.computeChordLine at h
  obtain ⟨e, _, h⟩ := Profile.bndA.1 h
  split at h
  · cases h
  · simp only [pure_bind] at h
    obtain ⟨m, _, h⟩ := Profile.bndA.1 h
    cases m with
    | none => exact ⟨_, (Except.ok.inj h).symm, by rw [← Except.ok.inj h]⟩
    | some k =>
      obtain ⟨xs, _, h⟩ := Profile.bndA.1 h
      exact ⟨_, (Except.ok.inj h).symm, by rw [← Except.ok.inj h]⟩

/-- `max_camber`. -/
theorem maxCamber_agrees (z : Bool) (P : Profile) (n : Option Int) :
    Agrees (fun r : ℝ × Profile => fin r.1) (P.maxCamber n) (maxCamber z P n) := by
  unfold Profile.maxCamber maxCamber
  refine Agrees.bind (chordLine_agrees z P n) fun Q hQ => ?_
  obtain ⟨c, rfl, _⟩ := chordLine_dress hQ
  rw [Profile.dress_camberLine]
  rcases P.computeCamberLine n with e | R
  · exact Agrees.err _ _
  · show Agrees _ (if (c.getD ([], [])).1.length < (R.camberLine.getD ([], [])).1.length then _ else _)
      (if (c.getD ([], [])).1.length < (R.camberLine.getD ([], [])).1.length then _ else _)
    split
    · exact Agrees.err _ _
    · have := signedMax_fin (Profile.camberDistances (c.getD ([], [])) (R.camberLine.getD ([], []))) (c.getD ([], [])).2
        (R.camberLine.getD ([], [])).2
      rw [← distances_fin] at this
      show Agrees _ (Profile.signedMax (Profile.camberDistances (c.getD ([], [])) (R.camberLine.getD ([], []))) (c.getD ([], [])).2
        (R.camberLine.getD ([], [])).2 >>= fun v => pure (v, _))
        (signedMax (camberDistances ((c.getD ([], [])).1, (c.getD ([], [])).2.map fin) (R.camberLine.getD ([], []))) ((c.getD ([], [])).2.map fin)
        (R.camberLine.getD ([], [])).2)
      rw [← bind_pure (signedMax _ _ _)]
      exact Agrees.bind this fun v _ => Agrees.ok (fun r : ℝ × Profile => fin r.1) (v, _)

theorem factor_fin (p : ℝ) : add (div false (fin p) (fin 100)) (fin 1) = fin (p / 100 + 1) := by
  rw [div_fin false (by norm_num)]; rfl

/-- `deform_camber_line`. -/
theorem deform_agrees (P : Profile) (p : ℝ) (n : Option Int) :
    Agrees ofProfile (P.deformCamberLine p n) (deformCamberLine P (fin p) n) := by
  unfold Profile.deformCamberLine deformCamberLine
  refine Agrees.bind (Agrees.same (P.computeCamberLine n)) fun P1 _ => ?_
  simp only [id, factor_fin]
  refine Agrees.bind (Agrees.same (P.effectiveN n)) fun m _ => ?_
  simp only [id]
  refine Agrees.bind (Agrees.same _) fun P2 _ => ?_
  simp only [id]
  refine Agrees.bind (Agrees.same _) fun half _ => ?_
  simp only [id]
  have e : ((P1.camberLine.getD ([], [])).2.map fun y => mul (fin y) (fin (p / 100 + 1))) =
      ((P1.camberLine.getD ([], [])).2.map (· * (p / 100 + 1))).map fin := by
    rw [List.map_map]; rfl
  rw [e]
  refine Agrees.bind (zip_map_fin _ _ (fun _ _ => rfl) _ _) fun yu _ => ?_
  refine Agrees.bind (zip_map_fin _ _ (fun _ _ => rfl) _ _) fun yd _ => ?_
  exact Agrees.ok ofProfile _

/-- `deform_camber_line` reads the coordinates only. -/
theorem deform_dress (P : Profile) (q c d) (p : ℝ) (n : Option Int) :
    Agrees ofProfile ((P.dress q c d).deformCamberLine p n) (deformCamberLine P (fin p) n) := by
  have h := deform_agrees P p n
  rw [Profile.dress_deform]
  rcases hP : P.deformCamberLine p n with e | R
  · rw [hP] at h
    exact ⟨fun a ha => (by cases ha), fun e' he hn => by cases he; exact h.raises e rfl hn⟩
  · rw [hP] at h
    exact ⟨fun a ha => (by cases ha; exact h.returns R rfl), fun e' he hn => by cases he⟩

/-- `set_camber_line_max`. -/
theorem setCamber_agrees (z w : Bool) (P : Profile) (c : ℝ) :
    Agrees ofProfile (P.setCamberLineMax c) (setCamberLineMax z w P c) := by
  unfold Profile.setCamberLineMax setCamberLineMax
  refine Agrees.bind (maxCamber_agrees z P (some 500)) fun r hr => ?_
  by_cases h0 : r.1 = 0
  · simp only [h0, if_true]
    exact Agrees.stop _ _
  · simp only [h0, if_false, pure_bind]
    have e : div w (mul (fin 100) (sub (fin c) (fin r.1))) (fin r.1) = fin (100 * (c - r.1) / r.1) := div_fin w h0
    rw [e]
    have hf : P.four = r.2.four := by
      obtain ⟨a, b, c, d⟩ := Profile.maxCamber_coords (Q := r.2) (v := r.1) hr
      simp only [Profile.four, a, b, c, d]
    rw [Profile.dress_of_four hf]
    exact deform_dress P _ _ _ _ _

theorem map_fin_map (f : ℝ → ℝ) (g : Ieee → Ieee) (h : ∀ x, g (fin x) = fin (f x)) (a : Arr) : (a.map fin).map g = (a.map f).map fin := by
  rw [List.map_map, List.map_map]
  exact List.map_congr_left fun x _ => h x

theorem reflect_fin (P : Profile) : (ofProfile P).reflect = ofProfile P.reflect := by
  unfold Foil.reflect ofProfile Profile.reflect
  simp only
  rw [map_fin_map (· * (-1)) _ (fun _ => rfl), map_fin_map (· * (-1)) _ (fun _ => rfl), map_fin_map (· * (-1)) _ (fun _ => rfl),
    map_fin_map (· * (-1)) _ (fun _ => rfl)]

theorem translate_fin (P : Profile) (v : Pt) : (ofProfile P).translate (fin v.1, fin v.2) = ofProfile (P.translate v) := by
  unfold Foil.translate ofProfile Profile.translate
  simp only
  rw [map_fin_map (· + v.1) _ (fun _ => rfl), map_fin_map (· + v.1) _ (fun _ => rfl), map_fin_map (· + v.2) _ (fun _ => rfl),
    map_fin_map (· + v.2) _ (fun _ => rfl)]

theorem rotCols_fin (c s : ℝ) (n : Nat) (xs ys : Arr) :
    Foil.rotCols (fin c) (fin s) n (xs.map fin) (ys.map fin) = (Profile.rotCols c s n xs ys).map fun p => (fin p.1, fin p.2) := by
  unfold Foil.rotCols Profile.rotCols
  rw [List.zip_map]
  refine List.ext_getElem (by simp) fun i h1 h2 => ?_
  simp only [List.getElem_mapIdx, List.getElem_map]
  by_cases h : i < n
  · simp only [h, if_true]; rfl
  · simp only [h, if_false]

theorem rotate_agrees (P : Profile) (a : ℝ) : Agrees ofProfile (P.rotate (some a) none) ((ofProfile P).rotate (fin a)) := by
  unfold Profile.rotate Foil.rotate
  simp only [ofProfile, List.length_map, Option.isSome_none, and_false, if_false, pure_bind, Bool.false_eq_true]
  by_cases h1 : P.xup.length ≠ P.yup.length
  · simp only [h1, if_true, ne_eq, not_true_eq_false, not_false_eq_true]; exact Agrees.err _ _
  by_cases h2 : P.xdown.length ≠ P.ydown.length
  · simp only [h1, h2, if_true, if_false, pure_bind, ne_eq, not_true_eq_false, not_false_eq_true]; exact Agrees.err _ _
  by_cases h3 : P.xdown.length < P.xup.length
  · simp only [h1, h2, h3, if_true, if_false, pure_bind]; exact Agrees.err _ _
  simp only [h1, h2, h3, if_false, pure_bind]
  show Agrees _ _ (.ok (Foil.mk ((Foil.rotCols (fin (Real.cos a)) (fin (Real.sin a)) _ _ _).map Prod.fst)
    ((Foil.rotCols (fin (Real.cos a)) (fin (Real.sin a)) _ _ _).map Prod.fst)
    ((Foil.rotCols (fin (Real.cos a)) (fin (Real.sin a)) _ _ _).map Prod.snd)
    ((Foil.rotCols (fin (Real.cos a)) (fin (Real.sin a)) _ _ _).map Prod.snd)))
  rw [rotCols_fin, rotCols_fin]
  have e1 : ∀ l : List Pt, (l.map fun p => (fin p.1, fin p.2)).map Prod.fst = (l.map Prod.fst).map fin := by
    intro l; simp [Function.comp_def]
  have e2 : ∀ l : List Pt, (l.map fun p => (fin p.1, fin p.2)).map Prod.snd = (l.map Prod.snd).map fin := by
    intro l; simp [Function.comp_def]
  rw [e1, e1, e2, e2]
  exact Agrees.ok ofProfile _

theorem pitchAngle_fin (z : Bool) (p : ℝ) {r : ℝ} (hr : r ≠ 0) :
    pitchAngle z p r = fin (Real.arctan (p / (2 * Real.pi * r))) := by
  have : 2 * Real.pi * r ≠ 0 := by have := Real.pi_ne_zero; positivity
  unfold pitchAngle
  rw [div_fin z this]; rfl

theorem pitchAngle_agrees (z : Bool) (p r : ℝ) : Agrees fin (Blade.pitchAngle p r) (.ok (pitchAngle z p r)) := by
  unfold Blade.pitchAngle
  by_cases hr : r = 0
  · simp only [hr, if_true]; exact Agrees.stop _ _
  · simp only [hr, if_false, pitchAngle_fin z p hr]; exact Agrees.ok fin _

theorem inducedRake_agrees (z : Bool) (p r s : ℝ) : Agrees fin (Blade.inducedRake p r s) (.ok (inducedRake z p r s)) := by
  unfold Blade.inducedRake Blade.pitchAngle
  by_cases hr : r = 0
  · simp only [hr, if_true]; exact Agrees.stop _ _
  · simp only [hr, if_false, inducedRake, pitchAngle_fin z p hr]; exact Agrees.ok fin _

theorem camberStep_agrees (z : Signs) (b : Blade) (refl : Bool) (i : Nat) (P : Profile) :
    Agrees ofProfile ((match b.camber with
      | none => .ok P
      | some c => if i + 1 < b.sections.length then do P.setCamberLineMax (← getIdx c i) else .ok P : Res Profile)) (camberStep z b i P) := by
  unfold camberStep
  cases b.camber with
  | none => exact Agrees.ok ofProfile _
  | some c =>
    by_cases h : i + 1 < b.sections.length
    · simp only [h, if_true]
      exact Agrees.bind (Agrees.same _) fun x _ => setCamber_agrees _ _ _ _
    · simp only [h, if_false]
      exact Agrees.ok ofProfile _

theorem tail_agrees (z : Signs) (b : Blade) (refl : Bool) (i : Nat) (P : Profile) :
    Agrees ofProfile (((Blade.sectionSteps b refl i).drop 4).foldlM (fun P f => f P) P) (tailSteps z b refl i (ofProfile P)) := by
  have hd : (((Blade.sectionSteps b refl i).drop 4).foldlM (fun P f => f P) P : Res Profile) = (do
      let p ← getIdx b.pitch i
      let r ← getIdx b.radii i
      let a ← Blade.pitchAngle p r
      let P ← (if refl then P.reflect else P).rotate (some (Real.pi / 2 - a)) none
      let r ← getIdx b.radii i
      let s ← getIdx b.skew i
      let P := P.translate (0, -(r * radians s Real.pi))
      let p ← getIdx b.pitch i
      let r ← getIdx b.radii i
      let s ← getIdx b.skew i
      let ir ← Blade.inducedRake p r s
      let k ← getIdx b.rake i
      return P.translate (-(k + ir), 0)) := by
    simp only [Blade.sectionSteps, List.drop, List.foldlM_cons, List.foldlM_nil, bind_assoc, pure_bind, bind_pure]
    rfl
  rw [hd]
  unfold tailSteps
  have hrefl : (if refl then (ofProfile P).reflect else ofProfile P) = ofProfile (if refl then P.reflect else P) := by
    cases refl
    · rfl
    · exact reflect_fin P
  simp only [hrefl]
  refine Agrees.bind (Agrees.same (getIdx b.pitch i)) fun p hp => ?_
  refine Agrees.bind (Agrees.same (getIdx b.radii i)) fun r hr => ?_
  simp only [id]
  by_cases h0 : r = 0
  · simp only [Blade.pitchAngle, h0, if_true]; exact Agrees.stop _ _
  simp only [Blade.pitchAngle, h0, if_false, pitchAngle_fin _ p h0]
  show Agrees _ ((if refl then P.reflect else P).rotate (some (Real.pi / 2 - Real.arctan (p / (2 * Real.pi * r)))) none >>= _)
    ((ofProfile (if refl then P.reflect else P)).rotate (fin (Real.pi / 2 - Real.arctan (p / (2 * Real.pi * r)))) >>= _)
  refine Agrees.bind (rotate_agrees _ _) fun Q _ => ?_
  rw [hr]
  show Agrees _ (getIdx b.skew i >>= _) _
  refine Agrees.bind (Agrees.same (getIdx b.skew i)) fun s hs => ?_
  simp only [id]
  rw [hp, hs]
  show Agrees _ (Blade.inducedRake p r s >>= _) _
  have hir : Blade.inducedRake p r s = .ok (r * radians s Real.pi * Real.tan (Real.arctan (p / (2 * Real.pi * r)))) := by
    simp [Blade.inducedRake, Blade.pitchAngle, h0, bind, Except.bind, pure, Except.pure]
  rw [hir]
  show Agrees _ (getIdx b.rake i >>= _) _
  refine Agrees.bind (Agrees.same (getIdx b.rake i)) fun k _ => ?_
  have e := translate_fin Q (0, -(r * radians s Real.pi))
  simp only [id]
  simp only at e
  rw [e]
  have e2 := translate_fin (Q.translate (0, -(r * radians s Real.pi)))
    (-(k + r * radians s Real.pi * Real.tan (Real.arctan (p / (2 * Real.pi * r)))), 0)
  have e3 : neg (add (fin k) (inducedRake (z.radius i) p r s)) =
      fin (-(k + r * radians s Real.pi * Real.tan (Real.arctan (p / (2 * Real.pi * r))))) := by
    unfold inducedRake
    rw [pitchAngle_fin _ _ h0]; rfl
  rw [e3]
  simp only at e2
  rw [e2]
  exact Agrees.ok ofProfile _

theorem section_agrees (z : Signs) (b : Blade) (refl : Bool) (i : Nat) (P : Profile) :
    Agrees ofProfile ((Blade.sectionSteps b refl i).foldlM (fun P f => f P) P) (sectionRun z b refl i P) := by
  have : ((Blade.sectionSteps b refl i).foldlM (fun P f => f P) P : Res Profile) =
      (((Blade.sectionSteps b refl i).take 3).foldlM (fun P f => f P) P >>= fun Q =>
        (match b.camber with
          | none => .ok Q
          | some c => if i + 1 < b.sections.length then do Q.setCamberLineMax (← getIdx c i) else .ok Q : Res Profile) >>= fun Q =>
        ((Blade.sectionSteps b refl i).drop 4).foldlM (fun P f => f P) Q) := by
    conv_lhs => rw [show Blade.sectionSteps b refl i = (Blade.sectionSteps b refl i).take 3 ++ (Blade.sectionSteps b refl i).drop 3 from
      (List.take_append_drop 3 _).symm]
    rw [List.foldlM_append]
    rfl
  rw [this]
  unfold sectionRun
  refine Agrees.bind (Agrees.same _) fun Q _ => ?_
  exact Agrees.bind (camberStep_agrees z b refl i Q) fun R _ => tail_agrees z b refl i R

theorem runSteps_res (fs : List (Profile → Res Profile)) (P : Profile) :
    (fs.foldlM (fun P f => f P) P : Res Profile) = match Blade.runSteps fs P with
      | (Q, .ok ()) => .ok Q
      | (_, .error e) => .error e := by
  induction fs generalizing P with
  | nil => rfl
  | cons f fs ih =>
    rw [List.foldlM_cons]
    unfold Blade.runSteps
    rcases f P with e | Q
    · rfl
    · exact ih Q

/-- The loop over the sections. -/
theorem loop_agrees (z : Signs) (b : Blade) (refl : Bool) : ∀ (Ps : List Profile) (i : Nat),
    (∀ Qs, Blade.sectionLoop b refl i Ps = (Qs, .ok ()) → sectionLoop z b refl i Ps = .ok (Qs.map ofProfile)) ∧
    (∀ Qs e, Blade.sectionLoop b refl i Ps = (Qs, .error e) → e ≠ .nonFinite → sectionLoop z b refl i Ps = .error e) := by
  intro Ps
  induction Ps with
  | nil =>
    intro i
    refine ⟨fun Qs h => ?_, fun Qs e h => ?_⟩
    · obtain ⟨rfl, _⟩ := Prod.mk.inj h; rfl
    · exact absurd (Prod.mk.inj h).2 (by simp)
  | cons P Ps ih =>
    intro i
    have hs := section_agrees z b refl i P
    rw [runSteps_res] at hs
    obtain ⟨ih1, ih2⟩ := ih (i + 1)
    unfold Blade.sectionLoop sectionLoop
    rcases hr : Blade.runSteps (Blade.sectionSteps b refl i) P with ⟨Q, (e | u)⟩
    · rw [hr] at hs
      refine ⟨fun Qs h => absurd (Prod.mk.inj h).2 (by simp), fun Qs e' h hn => ?_⟩
      obtain rfl := Except.error.inj (Prod.mk.inj h).2
      rw [hs.raises e rfl hn]; rfl
    · rw [hr] at hs
      have hQ := hs.returns Q rfl
      simp only [hQ]
      refine ⟨fun Qs h => ?_, fun Qs e' h hn => ?_⟩
      · obtain ⟨h1, h2⟩ := Prod.mk.inj h
        rw [← h1]
        show (sectionLoop z b refl (i + 1) Ps >>= _) = _
        rw [ih1 _ (Prod.ext rfl h2)]
        rfl
      · obtain ⟨h1, h2⟩ := Prod.mk.inj h
        show (sectionLoop z b refl (i + 1) Ps >>= _) = _
        rw [ih2 _ e' (Prod.ext rfl h2) hn]
        rfl

theorem zipWith_fin (g : Ieee → Ieee → γ) (xs ys : Arr) : List.zipWith g (xs.map fin) (ys.map fin) =
    List.zipWith (fun x y => g (fin x) (fin y)) xs ys := List.zipWith_map

theorem cylinder_agrees (z : Bool) (r : ℝ) (xs ys : Arr) :
    Agrees (List.map pt) (Blade.cylinder r xs ys) (cylinder z r (xs.map fin) (ys.map fin)) := by
  unfold Blade.cylinder cylinder
  by_cases hr : r = 0
  · simp only [hr, if_true]; exact Agrees.stop _ _
  simp only [hr, if_false, List.length_map]
  by_cases hl : xs.length ≠ ys.length
  · simp only [hl, if_true, ne_eq, not_false_eq_true]; exact Agrees.err _ _
  · simp only [hl, if_false]
    rw [zipWith_fin]
    simp only [div_fin z hr]
    have := Agrees.ok (List.map pt) (List.zipWith (fun x y => (x, r * Real.sin (y / r), r * Real.cos (y / r))) xs ys)
    rw [List.map_zipWith] at this
    exact this

theorem npStack_agrees (F : Face) : Agrees coords (Blade.npStack F) (npStack (coords F)) := by
  unfold Blade.npStack npStack coords
  cases F with
  | nil => exact Agrees.err _ _
  | cons a as =>
    simp only [List.map_cons]
    have hiff : (∀ c ∈ List.map (fun x => List.map pt x) as, c.length = (List.map pt a).length) ↔ ∀ c ∈ as, c.length = a.length := by
      simp
    by_cases h : ∀ c ∈ as, c.length = a.length
    · rw [if_pos (hiff.2 h), if_pos h]; exact Agrees.ok (fun F : Face => F.map (·.map pt)) _
    · rw [if_neg (fun c => h (hiff.1 c)), if_neg h]; exact Agrees.err _ _

theorem sectionCylinder_agrees (z : Bool) (s : Profile × ℝ) :
    Agrees (fun p : List Pt3 × List Pt3 => (p.1.map pt, p.2.map pt)) (Blade.sectionCylinder s) (sectionCylinder (ofProfile s.1, s.2, z)) := by
  unfold Blade.sectionCylinder sectionCylinder
  refine Agrees.bind (cylinder_agrees z s.2 s.1.xup s.1.yup) fun u _ => ?_
  refine Agrees.bind (cylinder_agrees z s.2 s.1.xdown s.1.ydown) fun d _ => ?_
  exact Agrees.ok (fun p : List Pt3 × List Pt3 => (p.1.map pt, p.2.map pt)) (u, d)

theorem mapM_zip_agrees (l : List Profile) (rs : List (ℝ × Bool)) :
    Agrees (List.map fun p : List Pt3 × List Pt3 => (p.1.map pt, p.2.map pt)) ((List.zip l (rs.map Prod.fst)).mapM Blade.sectionCylinder)
      ((List.zip (l.map ofProfile) rs).mapM sectionCylinder) := by
  induction l generalizing rs with
  | nil => exact Agrees.ok _ _
  | cons P l ih =>
    cases rs with
    | nil => exact Agrees.ok _ _
    | cons r rs =>
      simp only [List.map_cons, List.zip_cons_cons, List.mapM_cons]
      refine Agrees.bind (sectionCylinder_agrees r.2 (P, r.1)) fun c _ => ?_
      refine Agrees.bind (ih rs) fun cs _ => ?_
      exact Agrees.ok (List.map fun p : List Pt3 × List Pt3 => (p.1.map pt, p.2.map pt)) (c :: cs)

theorem cylindrical_agrees (z : Signs) (ss : List Profile) (rs : Arr) :
    Agrees (fun p : Face × Face => (coords p.1, coords p.2)) (Blade.cylindrical ss rs) (cylindrical z (ss.map ofProfile) rs) := by
  unfold Blade.cylindrical cylindrical
  have h := mapM_zip_agrees ss.reverse (rs.mapIdx fun i r => (r, z.radius i)).reverse
  have e : (rs.mapIdx fun i r => (r, z.radius i)).reverse.map Prod.fst = rs.reverse := by
    rw [List.map_reverse]
    congr 1
    refine List.ext_getElem (by simp) fun i h1 h2 => by simp
  rw [e] at h
  rw [← List.map_reverse]
  refine Agrees.bind h fun pairs _ => ?_
  have e1 : (pairs.map fun p : List Pt3 × List Pt3 => (p.1.map pt, p.2.map pt)).map Prod.snd = coords (pairs.map Prod.snd) := by
    simp [coords, Function.comp_def]
  have e2 : (pairs.map fun p : List Pt3 × List Pt3 => (p.1.map pt, p.2.map pt)).map Prod.fst = coords (pairs.map Prod.fst) := by
    simp [coords, Function.comp_def]
  simp only [e1, e2]
  refine Agrees.bind (npStack_agrees _) fun d _ => ?_
  refine Agrees.bind (npStack_agrees _) fun u _ => ?_
  exact Agrees.ok (fun p : Face × Face => (coords p.1, coords p.2)) (u, d)

end Ieee
end
end BladeX
