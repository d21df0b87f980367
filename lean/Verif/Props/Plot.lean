import Verif.Spec.Plot
import Verif.Props.Deform
import Verif.Lemmas.American

/-! # C89: `Deformation.plot` -/

namespace BladeX
noncomputable section
open Spec Classical

namespace Deform

theorem draw_ok {l : List (Bool × Res Curve)} {cs : List Curve} :
    draw l = (cs, .ok ()) ↔ ((l.filter (·.1)).map (·.2)) = cs.map .ok := by
  induction l generalizing cs with
  | nil => simp [draw, eq_comm]
  | cons x l ih =>
    obtain ⟨b, r⟩ := x
    cases b with
    | false => simp [draw, ih]
    | true =>
      rcases r with e | c
      · simp only [draw, Prod.mk.injEq, reduceCtorEq, and_false, List.filter_cons_of_pos, List.map_cons, false_iff]
        rcases cs with _ | ⟨d, ds⟩ <;> simp
      · simp only [draw, List.filter_cons_of_pos, List.map_cons]
        rcases cs with _ | ⟨d, ds⟩
        · simp
        · simp only [Prod.mk.injEq, List.cons.injEq, List.map_cons, Except.ok.injEq]
          rw [← ih]
          constructor
          · rintro ⟨⟨rfl, h1⟩, h2⟩; exact ⟨rfl, Prod.ext h1 h2⟩
          · rintro ⟨rfl, h⟩; rw [h]; exact ⟨⟨rfl, rfl⟩, rfl⟩

theorem plotPts_ok {label : String} {xs ys : Arr} {c : Curve} : plotPts label xs ys = .ok c ↔ xs.length = ys.length ∧ c = ⟨label, xs, ys⟩ := by
  unfold plotPts
  split_ifs with h
  · simp [h, eq_comm]
  · simp [h]

theorem pointsCurve_ok {label : String} {l : Option (List Pt)} {c : Curve} :
    pointsCurve label l = .ok c ↔ l ≠ none ∧ c = ⟨label, (l.getD []).map Prod.fst, (l.getD []).map Prod.snd⟩ := by
  rcases l with _ | l
  · simp [pointsCurve]
  · simp [pointsCurve, plotPts_ok]

theorem rbfCurve_eq (s : Deform) (p : PName) {n : Int} (hn : 0 ≤ n) :
    rbfCurve s p n = Profile.interpSurface s.radii (s.parameters p) n.toNat 2 >>= fun u => plotPts "rbf" u.1 u.2 := by
  unfold rbfCurve Profile.interpSurface
  rcases getFirst s.radii with _ | x0
  · rfl
  rcases getLast s.radii with _ | x1
  · rfl
  simp only [bind, Except.bind, linspace, if_neg (not_lt.2 hn), pure, Except.pure]
  rcases reconstructF "beckert_wendland_c2_basis" 2 s.radii (s.parameters p) (linspaceN x0 x1 n.toNat) (List.replicate n.toNat 0) <;> rfl

theorem rbfCurve_ok {s : Deform} {p : PName} {n : Int} {c : Curve} (h : rbfCurve s p n = .ok c) :
    s.radii ≠ [] ∧ s.radii.Nodup ∧ s.radii.length = (s.parameters p).length ∧ 0 ≤ n ∧ IsRbfCurve s p n.toNat c := by
  have hn : 0 ≤ n := by
    by_contra hc
    unfold rbfCurve at h
    simp only [Profile.bndA, linspace, if_pos (not_le.1 hc)] at h
    obtain ⟨_, _, _, _, _, h, _⟩ := h
    simp at h
  rw [rbfCurve_eq s p hn, Profile.bndA] at h
  obtain ⟨u, hu, hc⟩ := h
  rw [Profile.interpSurface_ok_iff two_pos] at hu
  obtain ⟨x0, x1, h1, h2, hl, hnd, rfl⟩ := hu
  rw [plotPts_ok] at hc
  obtain ⟨-, rfl⟩ := hc
  refine ⟨by rintro h; rw [h] at h1; simp at h1, hnd, hl.symm, hn, rfl, x0, x1, h1, h2, rfl, _, rfl, ?_⟩
  intro i x v hx hv
  exact interpW_node hl two_pos hnd hx hv

theorem rbfCurve_of {s : Deform} {p : PName} {n : Int} (h1 : s.radii ≠ []) (h2 : s.radii.Nodup) (h3 : s.radii.length = (s.parameters p).length)
    (h4 : 0 ≤ n) : ∃ c, rbfCurve s p n = .ok c := by
  obtain ⟨x0, e0⟩ : ∃ x0, s.radii.head? = some x0 := ⟨s.radii.head h1, List.head?_eq_some_head h1⟩
  obtain ⟨x1, e1⟩ : ∃ x1, s.radii.getLast? = some x1 := ⟨s.radii.getLast h1, List.getLast?_eq_some_getLast h1⟩
  have := (Profile.interpSurface_ok_iff (num := n.toNat) two_pos).2 ⟨x0, x1, e0, e1, h3.symm, h2, rfl⟩
  rw [rbfCurve_eq s p h4, this]
  exact ⟨_, plotPts_ok.2 ⟨by simp, rfl⟩⟩

theorem checkDeformed_ok {s : Deform} {p : PName} : checkDeformed s p = .ok () ↔ (0 : ℝ) ∉ s.deformed p := by
  unfold checkDeformed
  by_cases h : (0 : ℝ) ∈ s.deformed p
  · rw [if_pos]
    · simp [h]
    · rw [List.all_eq_false]
      exact ⟨0, h, by simp⟩
  · rw [if_neg]
    · simp [h]
    · rw [Bool.not_eq_false, List.all_eq_true]
      intro x hx
      simp only [ne_eq, decide_eq_true_eq]
      rintro rfl; exact h hx

theorem deformedCurve_ok {s : Deform} {p : PName} {c : Curve} :
    deformedCurve s p = .ok c ↔ (0 : ℝ) ∉ s.deformed p ∧ s.radii.length = (s.deformed p).length ∧ c = ⟨"deformed points", s.radii, s.deformed p⟩ := by
  unfold deformedCurve
  rw [Profile.bndA]
  constructor
  · rintro ⟨_, h1, h2⟩
    exact ⟨checkDeformed_ok.1 h1, plotPts_ok.1 h2⟩
  · rintro ⟨h1, h2⟩
    exact ⟨(), checkDeformed_ok.2 h1, plotPts_ok.2 h2⟩

/-- Flagged drawing statements. -/
theorem flagged (l : List (Bool × Res Curve)) (cs : List Curve) : ((l.filter (·.1)).map (·.2)) = cs.map (.ok : Curve → Res Curve) ↔
    ∃ css : List (List Curve), cs = css.flatten ∧ List.Forall₂ (fun (x : Bool × Res Curve) c => (x.1 = true → ∃ d, x.2 = .ok d ∧ c = [d]) ∧ (x.1 = false → c = [])) l css := by
  induction l generalizing cs with
  | nil =>
    simp only [List.filter_nil, List.map_nil, List.forall₂_nil_left_iff]
    rcases cs with _ | ⟨c, cs⟩ <;> simp
  | cons x l ih =>
    obtain ⟨b, r⟩ := x
    cases b with
    | false =>
      rw [List.filter_cons_of_neg (by simp), ih]
      constructor
      · rintro ⟨css, rfl, h⟩
        exact ⟨[] :: css, by simp, List.Forall₂.cons ⟨by simp, by simp⟩ h⟩
      · rintro ⟨css, rfl, h⟩
        rw [List.forall₂_cons_left_iff] at h
        obtain ⟨c, css', ⟨-, h1⟩, h2, rfl⟩ := h
        exact ⟨css', by simp [h1 rfl], h2⟩
    | true =>
      rw [List.filter_cons_of_pos (by simp), List.map_cons]
      constructor
      · intro h
        rcases cs with _ | ⟨c, cs⟩
        · simp at h
        · simp only [List.map_cons, List.cons.injEq] at h
          obtain ⟨css, rfl, h2⟩ := (ih cs).1 h.2
          exact ⟨[c] :: css, by simp, List.Forall₂.cons ⟨fun _ => ⟨c, h.1, rfl⟩, by simp⟩ h2⟩
      · rintro ⟨css, rfl, h⟩
        rw [List.forall₂_cons_left_iff] at h
        obtain ⟨c, css', ⟨h1, -⟩, h2, rfl⟩ := h
        obtain ⟨d, hd, rfl⟩ := h1 rfl
        simp only [List.flatten_cons, List.cons_append, List.nil_append, List.map_cons, List.cons.injEq]
        exact ⟨hd, (ih css'.flatten).2 ⟨css', rfl, h2⟩⟩

theorem draw_iff {s : Deform} {o : PlotOptions} {p : PName} {cs : List Curve} (h : draw (drawing s o p) = (cs, .ok ())) :
    Drawable s o p ∧ ∃ R, (o.rbf = true → IsRbfCurve s p o.rbfPoints.toNat R) ∧ cs = wanted s o p R := by
  rw [draw_ok, flagged] at h
  obtain ⟨css, rfl, h⟩ := h
  simp only [drawing, List.forall₂_cons_left_iff, List.forall₂_nil_left_iff] at h
  obtain ⟨c1, _, ⟨a1, b1⟩, ⟨c2, _, ⟨a2, b2⟩, ⟨c3, _, ⟨a3, b3⟩, ⟨c4, _, ⟨a4, b4⟩, ⟨c5, _, ⟨a5, b5⟩, rfl, rfl⟩, rfl⟩, rfl⟩, rfl⟩, rfl⟩ := h
  simp only [plotPts_ok, pointsCurve_ok, deformedCurve_ok] at a1 a2 a3 a5
  refine ⟨⟨?_, ?_, ?_, ?_, ?_⟩, (c4.head?).getD ⟨"", [], []⟩, ?_, ?_⟩
  · intro ho; obtain ⟨d, hd, -⟩ := a1 ho; exact hd.1
  · intro ho; obtain ⟨d, hd, -⟩ := a2 ho; exact hd.1
  · intro ho; obtain ⟨d, hd, -⟩ := a3 ho; exact hd.1
  · intro ho
    obtain ⟨d, hd, -⟩ := a4 ho
    obtain ⟨k1, k2, k3, k4, -⟩ := rbfCurve_ok hd
    exact ⟨k1, k2, k3, k4⟩
  · intro ho; obtain ⟨d, hd, -⟩ := a5 ho; exact ⟨hd.2.1, hd.1⟩
  · intro ho
    obtain ⟨d, hd, rfl⟩ := a4 ho
    exact (rbfCurve_ok hd).2.2.2.2
  · simp only [wanted, List.flatten_cons, List.flatten_nil, List.append_nil, List.append_assoc]
    congr 1
    · by_cases ho : o.original = true
      · obtain ⟨d, hd, rfl⟩ := a1 ho; rw [if_pos ho, hd.2]
      · rw [if_neg ho, b1 (by simpa using ho)]
    congr 1
    · by_cases ho : o.ctrlPoints = true
      · obtain ⟨d, hd, rfl⟩ := a2 ho; rw [if_pos ho, hd.2]
      · rw [if_neg ho, b2 (by simpa using ho)]
    congr 1
    · by_cases ho : o.spline = true
      · obtain ⟨d, hd, rfl⟩ := a3 ho; rw [if_pos ho, hd.2]
      · rw [if_neg ho, b3 (by simpa using ho)]
    congr 1
    · by_cases ho : o.rbf = true
      · obtain ⟨d, hd, rfl⟩ := a4 ho; rw [if_pos ho]; rfl
      · rw [if_neg ho, b4 (by simpa using ho)]
    · by_cases ho : o.deformed = true
      · obtain ⟨d, hd, rfl⟩ := a5 ho; rw [if_pos ho, hd.2.2]
      · rw [if_neg ho, b5 (by simpa using ho)]

theorem draw_of {s : Deform} {o : PlotOptions} {p : PName} (h : Drawable s o p) : ∃ cs, draw (drawing s o p) = (cs, .ok ()) := by
  have key : ∀ l : List (Bool × Res Curve), (∀ x ∈ l, x.1 = true → ∃ c, x.2 = .ok c) → ∃ cs, draw l = (cs, .ok ()) := by
    intro l
    induction l with
    | nil => intro _; exact ⟨[], rfl⟩
    | cons x l ih =>
      intro hx
      obtain ⟨cs, hcs⟩ := ih fun y hy => hx y (List.mem_cons_of_mem _ hy)
      obtain ⟨b, r⟩ := x
      cases b with
      | false => exact ⟨cs, hcs⟩
      | true =>
        obtain ⟨c, hc⟩ := hx (true, r) (by simp) rfl
        simp only at hc
        subst hc
        exact ⟨c :: cs, by simp [draw, hcs]⟩
  refine key _ ?_
  intro x hx
  simp only [drawing, List.mem_cons, List.not_mem_nil, or_false] at hx
  rcases hx with rfl | rfl | rfl | rfl | rfl
  · exact fun ho => ⟨_, plotPts_ok.2 ⟨h.original ho, rfl⟩⟩
  · exact fun ho => ⟨_, pointsCurve_ok.2 ⟨h.ctrl ho, rfl⟩⟩
  · exact fun ho => ⟨_, pointsCurve_ok.2 ⟨h.spline ho, rfl⟩⟩
  · intro ho
    obtain ⟨h1, h2, h3, h4⟩ := h.rbf ho
    exact rbfCurve_of h1 h2 h3 h4
  · exact fun ho => ⟨_, deformedCurve_ok.2 ⟨(h.deformed ho).2, (h.deformed ho).1, rfl⟩⟩

theorem plotOne_name {s : Deform} {o : PlotOptions} {p : PName} (h : Drawable s o p) :
    ∃ f, IsFigure s o p f ∧ ∀ m, plotOne s o p.str m = finishPlot o.outfile m f := by
  obtain ⟨cs, hcs⟩ := draw_of h
  refine ⟨⟨cs, some (p.str ++ " curve".toList)⟩, ⟨rfl, (draw_iff hcs).2⟩, ?_⟩
  intro m
  simp only [plotOne, nameOf_str, hcs]

theorem plotOne_not {s : Deform} {o : PlotOptions} {p : PName} (h : ¬ Drawable s o p) :
    ∃ cs e, ∀ m, plotOne s o p.str m = ({ m with opened := m.opened ++ [⟨cs, none⟩] }, .error e) := by
  rcases hd : draw (drawing s o p) with ⟨cs, e | u⟩
  · exact ⟨cs, e, fun m => by simp only [plotOne, nameOf_str, hd]⟩
  · exact absurd (draw_iff hd).1 h

end Deform

open Deform

/-- **C89** one parameter: the plot succeeds exactly when the name is one of the five, everything asked for can be drawn, and the name of the
file is a string or missing. The figure then has the curves asked for, with the stored numbers, in the documented order; with a file name it
is saved under it and stays open, without one it is shown. -/
theorem C89_one (s : Deform) (o : PlotOptions) (name : Str) (m : Pyplot) :
    ((plotOne s o name m).2 = .ok () ↔ (∃ p : PName, p.str = name ∧ Drawable s o p) ∧ o.outfile ≠ .other) ∧
    ∀ p : PName, p.str = name → (plotOne s o name m).2 = .ok () → ∃ f, IsFigure s o p f ∧
      (∀ n, o.outfile = .str n → (plotOne s o name m).1 = { m with opened := m.opened ++ [f], saved := m.saved ++ [(n, f)] }) ∧
      (o.outfile = .none → (plotOne s o name m).1 = { m with opened := [], shown := m.shown ++ [m.opened ++ [f]] }) := by
  have hfin : ∀ f, (finishPlot o.outfile m f).2 = .ok () ↔ o.outfile ≠ .other := by
    intro f
    rcases o.outfile with _ | n | _ <;> simp [finishPlot]
  constructor
  · constructor
    · intro h
      rcases hn : nameOf name with _ | p
      · simp [plotOne, hn] at h
      · have hp : p.str = name := by
          have := List.find?_some hn
          simpa using this
        subst hp
        by_cases hd : Drawable s o p
        · obtain ⟨f, -, hf⟩ := plotOne_name hd
          rw [hf] at h
          exact ⟨⟨p, rfl, hd⟩, (hfin f).1 h⟩
        · obtain ⟨cs, e, hf⟩ := plotOne_not hd
          rw [hf] at h; simp at h
    · rintro ⟨⟨p, rfl, hd⟩, ho⟩
      obtain ⟨f, -, hf⟩ := plotOne_name hd
      rw [hf]
      exact (hfin f).2 ho
  · rintro p rfl h
    by_cases hd : Drawable s o p
    · obtain ⟨f, hF, hf⟩ := plotOne_name hd
      refine ⟨f, hF, ?_, ?_⟩
      · intro n hn; rw [hf, hn]; rfl
      · intro hn; rw [hf, hn]; rfl
    · obtain ⟨cs, e, hf⟩ := plotOne_not hd
      rw [hf] at h; simp at h

/-- **C89** what a failed plot leaves behind: an unknown name nothing at all; a curve that cannot be drawn an unfinished figure without title, a
file name that is not a string (`ValueError`) the finished figure; in both cases nothing is saved or shown, but the figure stays open, and the next plot that
is shown shows it as well. -/
theorem C89_failed (s : Deform) (o : PlotOptions) (name : Str) (m : Pyplot) :
    ((∀ p : PName, p.str ≠ name) → plotOne s o name m = (m, .error .valueError)) ∧
    (∀ p : PName, p.str = name → Drawable s o p → o.outfile = .other → (plotOne s o name m).2 = .error .valueError) ∧
    (∀ p : PName, p.str = name → (plotOne s o name m).2 ≠ .ok () → ∃ f, (plotOne s o name m).1 = { m with opened := m.opened ++ [f] } ∧
      (f.title = none ∨ IsFigure s o p f) ∧
      ∀ (s' : Deform) (o' : PlotOptions) (p' : PName), o'.outfile = .none → Drawable s' o' p' → ∃ f', IsFigure s' o' p' f' ∧
        (plotOne s' o' p'.str (plotOne s o name m).1).1.shown = m.shown ++ [m.opened ++ [f, f']]) := by
  refine ⟨?_, ?_, ?_⟩
  · intro h
    rcases hn : nameOf name with _ | p
    · simp [plotOne, hn]
    · exact absurd (by simpa using List.find?_some hn) (h p)
  · rintro p rfl hd ho
    obtain ⟨f, -, hf⟩ := plotOne_name hd
    rw [hf, ho]; rfl
  · rintro p rfl h
    have key : ∃ f, (plotOne s o p.str m).1 = { m with opened := m.opened ++ [f] } ∧ (f.title = none ∨ IsFigure s o p f) := by
      by_cases hd : Drawable s o p
      · obtain ⟨f, hF, hf⟩ := plotOne_name hd
        refine ⟨f, ?_, Or.inr hF⟩
        rw [hf] at h ⊢
        rcases ho : o.outfile with _ | n | _
        · rw [ho] at h; simp [finishPlot] at h
        · rw [ho] at h; simp [finishPlot] at h
        · rfl
      · obtain ⟨cs, e, hf⟩ := plotOne_not hd
        exact ⟨⟨cs, none⟩, by rw [hf], Or.inl rfl⟩
    obtain ⟨f, h1, h2⟩ := key
    refine ⟨f, h1, h2, ?_⟩
    intro s' o' p' ho hd
    obtain ⟨f', hF, hf⟩ := plotOne_name hd
    refine ⟨f', hF, ?_⟩
    rw [hf, ho, h1]
    simp [finishPlot]

/-- **C89** unless the curve of radial basis functions is asked for, every refusal is a `ValueError`. -/
theorem C89_value_error (s : Deform) (o : PlotOptions) (ho : o.rbf = false) (name : Str) (m : Pyplot) (e : PyErr) (h : (plotOne s o name m).2 = .error e) :
    e = .valueError := by
  have hpts : ∀ l xs ys e, plotPts l xs ys = .error e → e = .valueError := by
    intro l xs ys e h
    unfold plotPts at h
    split at h <;> cases h
    rfl
  have hdraw : ∀ l : List (Bool × Res Curve), (∀ b e, (b, Except.error e) ∈ l → b = true → e = .valueError) → ∀ e, (draw l).2 = .error e → e = .valueError := by
    intro l
    induction l with
    | nil => intro _ e h; simp [draw] at h
    | cons a l ih =>
      intro hl e h
      have ih' := ih (fun b e hb => hl b e (List.mem_cons_of_mem _ hb))
      rcases a with ⟨_ | _, e' | c⟩
      · exact ih' e h
      · exact ih' e h
      · have : e' = e := by simpa [draw] using h
        subst this
        exact hl true e' (by simp) rfl
      · exact ih' e h
  unfold plotOne at h
  rcases hn : nameOf name with _ | p
  · rw [hn] at h; cases h; rfl
  rw [hn] at h
  simp only at h
  rcases hd : draw (drawing s o p) with ⟨cs, e' | u⟩
  · rw [hd] at h
    simp only [Except.error.injEq] at h
    subst h
    apply hdraw (drawing s o p) _ e' (by rw [hd])
    intro b e hb hbt
    subst hbt
    simp only [drawing, List.mem_cons, Prod.mk.injEq, List.not_mem_nil, or_false, ho, Bool.true_eq_false, false_and, false_or] at hb
    rcases hb with ⟨-, hb⟩ | ⟨-, hb⟩ | ⟨-, hb⟩ | ⟨-, hb⟩
    · exact hpts _ _ _ _ hb.symm
    · rcases hc : s.controlPoints p with _ | l
      · rw [hc] at hb; cases hb; rfl
      · rw [hc] at hb; exact hpts _ _ _ _ hb.symm
    · rcases hc : s.spline p with _ | l
      · rw [hc] at hb; cases hb; rfl
      · rw [hc] at hb; exact hpts _ _ _ _ hb.symm
    · unfold deformedCurve checkDeformed at hb
      split at hb
      · cases hb; rfl
      · exact hpts _ _ _ _ hb.symm
  · rw [hd] at h
    simp only at h
    rcases hf : o.outfile with _ | n | _
    · rw [hf] at h; cases h
    · rw [hf] at h; cases h
    · rw [hf] at h; cases h; rfl

/-- Arrays of different length cannot be drawn. -/
example : ∃ (s : Deform) (o : PlotOptions), o.rbf = false ∧ ∃ e, (plotOne s o PName.pitch.str {}).2 = .error e := by
  refine ⟨⟨[0.3, 1], fun _ => [1], fun _ => 2, fun _ => 1, fun _ => 2, fun _ => [], fun _ => [], fun _ => none, fun _ => none⟩, {}, rfl, .valueError, ?_⟩
  have : nameOf PName.pitch.str = some .pitch := by decide
  simp [plotOne, this, draw, drawing, plotPts]

/-- **C89** a list of parameters with a file name: all the figures are saved under the one name, so that the file has the figure of the last
parameter only; every figure stays open, and nothing is shown. -/
theorem C89_one_file (s : Deform) (o : PlotOptions) (n : Str) (ho : o.outfile = .str n) (ps : List PName) (hd : ∀ p ∈ ps, Drawable s o p) (m : Pyplot) :
    ∃ fs : List Figure, List.Forall₂ (IsFigure s o) ps fs ∧
      plot s o (ps.map PName.str) m = ({ m with opened := m.opened ++ fs, saved := m.saved ++ fs.map (fun f => (n, f)) }, .ok ()) ∧
      ∀ f, fs.getLast? = some f → contents (plot s o (ps.map PName.str) m).1 n = some f := by
  have key : ∃ fs : List Figure, List.Forall₂ (IsFigure s o) ps fs ∧
      plot s o (ps.map PName.str) m = ({ m with opened := m.opened ++ fs, saved := m.saved ++ fs.map (fun f => (n, f)) }, .ok ()) := by
    induction ps generalizing m with
    | nil => exact ⟨[], by simp, by simp [plot]⟩
    | cons p ps ih =>
      obtain ⟨f, hF, hf⟩ := plotOne_name (hd p (by simp))
      obtain ⟨fs, h1, h2⟩ := ih (fun q hq => hd q (List.mem_cons_of_mem _ hq)) { m with opened := m.opened ++ [f], saved := m.saved ++ [(n, f)] }
      refine ⟨f :: fs, List.Forall₂.cons hF h1, ?_⟩
      simp only [List.map_cons, plot, hf, ho, finishPlot]
      rw [h2]
      simp
  obtain ⟨fs, h1, h2⟩ := key
  refine ⟨fs, h1, h2, ?_⟩
  intro f hf
  rw [h2]
  obtain ⟨gs, rfl⟩ : ∃ gs, fs = gs ++ [f] := by
    rw [List.getLast?_eq_some_iff] at hf
    exact hf
  simp [contents]

/-- **C89** a list of parameters without a file name: one window after another, the first also with whatever figures were open; nothing is
saved, and no figure is open at the end. -/
theorem C89_shown (s : Deform) (o : PlotOptions) (ho : o.outfile = .none) (p : PName) (ps : List PName) (hd : ∀ q ∈ p :: ps, Drawable s o q) (m : Pyplot) :
    ∃ (f : Figure) (fs : List Figure), IsFigure s o p f ∧ List.Forall₂ (IsFigure s o) ps fs ∧
      plot s o ((p :: ps).map PName.str) m = ({ m with opened := [], shown := m.shown ++ [m.opened ++ [f]] ++ fs.map fun g => [g] }, .ok ()) := by
  obtain ⟨f, hF, hf⟩ := plotOne_name (hd p (by simp))
  have key : ∀ (ps : List PName) (m : Pyplot), (∀ q ∈ ps, Drawable s o q) → m.opened = [] → ∃ fs : List Figure, List.Forall₂ (IsFigure s o) ps fs ∧
      plot s o (ps.map PName.str) m = ({ m with shown := m.shown ++ fs.map fun g => [g] }, .ok ()) := by
    intro ps
    induction ps with
    | nil => intro m _ _; exact ⟨[], by simp, by simp [plot]⟩
    | cons q ps ih =>
      intro m hq hm
      obtain ⟨g, hG, hg⟩ := plotOne_name (hq q (by simp))
      obtain ⟨fs, h1, h2⟩ := ih { m with opened := [], shown := m.shown ++ [m.opened ++ [g]] } (fun r hr => hq r (List.mem_cons_of_mem _ hr)) rfl
      refine ⟨g :: fs, List.Forall₂.cons hG h1, ?_⟩
      simp only [List.map_cons, plot, hg, ho, finishPlot]
      rw [h2, hm]
      simp [hm]
  obtain ⟨fs, h1, h2⟩ := key ps { m with opened := [], shown := m.shown ++ [m.opened ++ [f]] } (fun q hq => hd q (List.mem_cons_of_mem _ hq)) rfl
  refine ⟨f, fs, hF, h1, ?_⟩
  simp only [List.map_cons, plot, hf, ho, finishPlot]
  rw [h2]

/-- **C89** a list with a parameter that cannot be plotted: the parameters before it are plotted, and the rest of the list is not looked at. -/
theorem C89_stops (s : Deform) (o : PlotOptions) (as bs : List Str) (n : Str) (m m₁ : Pyplot) (h : plot s o as m = (m₁, .ok ()))
    (hn : (plotOne s o n m₁).2 ≠ .ok ()) : plot s o (as ++ n :: bs) m = plotOne s o n m₁ := by
  induction as generalizing m with
  | nil =>
    simp only [plot, Prod.mk.injEq, and_true] at h
    subst h
    simp only [List.nil_append, plot]
    rcases hr : plotOne s o n m with ⟨m', e | u⟩
    · rfl
    · rw [hr] at hn; exact absurd rfl hn
  | cons a as ih =>
    simp only [plot] at h
    simp only [List.cons_append, plot]
    rcases hr : plotOne s o a m with ⟨m', e | u⟩
    · rw [hr] at h; simp at h
    · rw [hr] at h; exact ih m' h

/-- The sample object with all curves but the deformed one, and, with a value other than zero, with all of them. -/
example : (∀ p, Drawable zeroRake { rbf := true } p) ∧ (∀ p, Drawable { zeroRake with deformed := fun _ => [1, 2] } { rbf := true, deformed := true } p) ∧
    ¬ Drawable zeroRake { deformed := true } .rake := by
  refine ⟨fun p => ⟨fun _ => rfl, fun _ => by simp [zeroRake], fun _ => by simp [zeroRake], fun _ => ?_, fun h => by simp at h⟩,
    fun p => ⟨fun _ => rfl, fun _ => by simp [zeroRake], fun _ => by simp [zeroRake], fun _ => ?_, fun _ => ?_⟩, fun h => ?_⟩
  · refine ⟨by simp [zeroRake], ?_, rfl, by simp⟩
    norm_num [zeroRake]
  · refine ⟨by simp [zeroRake], ?_, rfl, by simp⟩
    norm_num [zeroRake]
  · refine ⟨rfl, ?_⟩
    norm_num
  · exact (h.deformed rfl).2 (by simp [zeroRake])

end
end BladeX
