import Verif.Model.Export
import Verif.Props.BladeMotion
import Verif.Props.BladeMirror
import Verif.Props.BladeEdge
import Verif.Props.Propeller

/-! # C73: CAD exports; C74: plots -/

namespace BladeX
noncomputable section
open Classical Spec

/-- The file system after an attempt to write: exactly one file changes if it can be written, none otherwise. -/
def Spec.Written {α : Type} (writable : Bool) (fs fs' : Str → Option α) (path : Str) (content : α) : Prop :=
  (writable = true → fs' path = some content) ∧ (writable = false → fs' = fs) ∧ ∀ q, q ≠ path → fs' q = fs q

theorem Blade.writeCad_written (w : Bool) (fs : CadFS) (path : Str) (s : List Shape) :
    Written w fs (Blade.writeCad w fs path s) path s := by
  cases w <;> simp [Blade.writeCad, Written]
  intro q hq
  simp [hq]

/-- **C73** `export_iges` of a blade with its four faces, without the leading-edge curves, and `export_stl`: never an exception; the file
gets the upper, the lower, the root and the tip face in this order; no other file changes. A path that cannot be written is not reported. -/
theorem C73_faces (occ : List Pt3 → Bool) (w : Bool) (fs : CadFS) (path : Str) (b : Blade) (u l t r : Face) (hu : b.upper = some u)
    (hl : b.lower = some l) (ht : b.tip = some t) (hr : b.root = some r) :
    (∃ fs', b.exportIges occ w fs path false = (fs', .ok ()) ∧ Written w fs fs' path [.face u, .face l, .face r, .face t]) ∧
    (∃ fs', b.exportStl w fs path = (fs', .ok ()) ∧ Written w fs fs' path [.face u, .face l, .face r, .face t]) := by
  have e : ∀ o, b.igesShapes o false = .ok [.face u, .face l, .face r, .face t] := by
    intro o
    simp [Blade.igesShapes, Blade.addFace, hu, hl, ht, hr, bind, Except.bind, pure, Except.pure]
  refine ⟨⟨_, by simp only [Blade.exportIges, e], Blade.writeCad_written ..⟩, ⟨_, by simp only [Blade.exportStl, e], Blade.writeCad_written ..⟩⟩

/-- **C73** a blade without all of its faces (not built, or reset) cannot be exported, with or without curves; no file is written. -/
theorem C73_unbuilt (occ : List Pt3 → Bool) (w : Bool) (fs : CadFS) (path : Str) (b : Blade) (h : ¬ b.HasFaces) (curves : Bool) :
    (∃ e, b.exportIges occ w fs path curves = (fs, .error e)) ∧ b.exportStl w fs path = (fs, .error .typeError) := by
  have key : ∀ o, b.igesShapes o false = .error .typeError ∧ ∃ e, b.igesShapes o true = .error e := by
    intro o
    unfold Blade.HasFaces at h
    rcases hu : b.upper with _ | u <;> rcases hl : b.lower with _ | l <;> rcases hr : b.root with _ | r <;>
      rcases ht : b.tip with _ | t <;> rcases he : b.edgeCurves o with e | es <;>
      simp_all [Blade.igesShapes, Blade.addFace, bind, Except.bind, pure, Except.pure]
  refine ⟨?_, by simp only [Blade.exportStl, key]⟩
  cases curves
  · exact ⟨.typeError, by simp only [Blade.exportIges, (key occ).1]⟩
  · obtain ⟨e, he⟩ := (key occ).2
    exact ⟨e, by simp only [Blade.exportIges, he]⟩

/-- **C73** with curves: a blade that has been built and then moved by any history of rotations about `x` or `z` and scalings: if the export
succeeds, the file holds the four faces and then the upper and the lower curve; each curve has one point per section, the `i`-th of which is
a point of the `i`-th section of the upper (lower) face. -/
theorem C73_curves_on_faces (occF : Face → Bool) (b₀ b₁ : Blade) (refl : Bool) (hW : b₀.WellFormed)
    (hb : b₀.build occF refl = (b₁, .ok ())) (ops : List Blade.Op) (hops : ∀ op ∈ ops, op.InStep) (b : Blade) (h : b = b₁.history ops)
    (occ : List Pt3 → Bool) (w : Bool) (fs fs' : CadFS) (path : Str) (he : b.exportIges occ w fs path true = (fs', .ok ())) :
    ∃ (u l t r : Face) (U L : List Pt3), b.upper = some u ∧ b.lower = some l ∧ b.tip = some t ∧ b.root = some r ∧
      Written w fs fs' path [.face u, .face l, .face r, .face t, .curve U, .curve L] ∧
      U.length = b.sections.length ∧ L.length = b.sections.length ∧
      (∀ (i : Nat) (p : Pt3), U[i]? = some p → ∃ row, u[i]? = some row ∧ p ∈ row) ∧
      (∀ (i : Nat) (p : Pt3), L[i]? = some p → ∃ row, l[i]? = some row ∧ p ∈ row) := by
  obtain ⟨m1, m2⟩ := C50_faces_match occF b₀ b₁ refl hW hb ops hops
  rw [← h] at m1 m2
  unfold Blade.exportIges at he
  rcases hs : b.igesShapes occ true with e | s
  · rw [hs] at he; simp at he
  rw [hs] at he
  simp only [Prod.mk.injEq, and_true] at he
  subst he
  unfold Blade.igesShapes at hs
  rcases hep : b.edgePoints with e | ⟨U, L⟩
  · simp [Blade.edgeCurves, hep, bind, Except.bind] at hs
  rcases ht : b.tip with _ | t
  · simp [Blade.edgeCurves, Blade.edgeCurve, Blade.addFace, hep, ht, m1, m2, bind, Except.bind, pure, Except.pure] at hs
    split_ifs at hs <;> simp_all
    all_goals (rcases hr : b.root with _ | r <;> simp_all)
  rcases hr : b.root with _ | r
  · simp [Blade.edgeCurves, Blade.edgeCurve, Blade.addFace, hep, ht, hr, m1, m2, bind, Except.bind, pure, Except.pure] at hs
    split_ifs at hs <;> simp_all
  refine ⟨_, _, t, r, U, L, m1, m2, rfl, rfl, ?_, ?_⟩
  · have : s = [.face (b.coordsUp.map (·.map (Blade.scalePt 1000))), .face (b.coordsDown.map (·.map (Blade.scalePt 1000))), .face r, .face t,
        .curve U, .curve L] := by
      simp [Blade.edgeCurves, Blade.edgeCurve, Blade.addFace, hep, ht, hr, m1, m2, bind, Except.bind, pure, Except.pure] at hs
      split_ifs at hs <;> simp_all
    rw [← this]
    exact Blade.writeCad_written ..
  · unfold Blade.edgePoints at hep
    simp only [bind, Except.bind] at hep
    split at hep
    · cases hep
    · rename_i pts hpts
      simp only [pure, Except.pure, Except.ok.injEq, Prod.mk.injEq] at hep
      obtain ⟨rfl, rfl⟩ := hep
      obtain ⟨hlen, hget⟩ := Blade.mapM_range_ok.1 hpts
      have row : ∀ (i : Nat) (c : Pt3 × Pt3), pts[i]? = some c →
          (∃ row, (b.coordsUp.map (·.map (Blade.scalePt 1000)))[i]? = some row ∧ c.1 ∈ row) ∧
          (∃ row, (b.coordsDown.map (·.map (Blade.scalePt 1000)))[i]? = some row ∧ c.2 ∈ row) := by
        intro i c hc
        have hstep := hget i c hc
        rcases hS : b.sections[i]? with _ | S
        · simp [getIdx, hS] at hstep
        rcases hk : Blade.edgeIdx S.xdown with e | k
        · simp [getIdx, hS, hk] at hstep
        rcases hU : b.coordsUp[i]? with _ | ru
        · simp [getIdx, hS, hk, hU] at hstep
        rcases hD : b.coordsDown[i]? with _ | rd
        · simp [getIdx, hS, hk, hU, hD] at hstep
          split at hstep <;> cases hstep
        rcases hu : ru[k]? with _ | pu
        · simp [getIdx, hS, hk, hU, hD, hu] at hstep
        rcases hd : rd[k]? with _ | pd
        · simp [getIdx, hS, hk, hU, hD, hu, hd] at hstep
        simp only [getIdx, hS, hk, hU, hD, hu, hd, pure, Except.pure, Except.ok.injEq] at hstep
        subst hstep
        refine ⟨⟨ru.map (Blade.scalePt 1000), by simp [hU], List.mem_map.2 ⟨pu, List.mem_of_getElem? hu, rfl⟩⟩,
          ⟨rd.map (Blade.scalePt 1000), by simp [hD], List.mem_map.2 ⟨pd, List.mem_of_getElem? hd, rfl⟩⟩⟩
      refine ⟨by simp [hlen], by simp [hlen], ?_, ?_⟩
      · intro i p hp
        rw [List.getElem?_map] at hp
        rcases hc : pts[i]? with _ | c
        · simp [hc] at hp
        simp only [hc, Option.map_some, Option.some.injEq] at hp
        subst hp
        exact (row i c hc).1
      · intro i p hp
        rw [List.getElem?_map] at hp
        rcases hc : pts[i]? with _ | c
        · simp [hc] at hp
        simp only [hc, Option.map_some, Option.some.injEq] at hp
        subst hp
        exact (row i c hc).2

/-- **C73 fails** after `mirror`: the faces in the file are the mirrored ones, the curves the ones from before the mirroring. -/
theorem C73_curves_after_mirror (b : Blade) (hc : b.HasCoords) (hF : b.HasFaces) (p n : Pt3) (hn : n ≠ (0, 0, 0)) (U L : List Pt3)
    (he : b.edgePoints = .ok (U, L)) :
    ∃ M b' u l t r, IsReflection p n M ∧ b.mirror [p, n] [] = (b', .ok ()) ∧ b.upper = some u ∧ b.lower = some l ∧ b.tip = some t ∧
      b.root = some r ∧ ∀ (w : Bool) (fs : CadFS) (path : Str), ∃ fs', b'.exportIges (fun _ => true) w fs path true = (fs', .ok ()) ∧
        Written w fs fs' path [.face (u.map (·.map M)), .face (l.map (·.map M)), .face (r.map (·.map M)), .face (t.map (·.map M)),
          .curve U, .curve L] := by
  obtain ⟨M, b', hM, hb, ⟨f1, f2, f3, f4⟩, ⟨g1, g2⟩, hs⟩ := (C51_point_normal b hc hF p n [p, n] [] (.inl ⟨rfl, rfl⟩)).1 hn
  obtain ⟨h1, h2, h3, h4⟩ := hF
  obtain ⟨u, hu⟩ := Option.ne_none_iff_exists'.1 h1
  obtain ⟨l, hl⟩ := Option.ne_none_iff_exists'.1 h2
  obtain ⟨t, ht⟩ := Option.ne_none_iff_exists'.1 h3
  obtain ⟨r, hr⟩ := Option.ne_none_iff_exists'.1 h4
  refine ⟨M, b', u, l, t, r, hM, hb, hu, hl, ht, hr, fun w fs path => ?_⟩
  have he' : b'.edgePoints = .ok (U, L) := by
    rw [← he]
    unfold Blade.edgePoints
    have i1 : b'.coordsUp = b.coordsUp := by rw [g1]; simp
    have i2 : b'.coordsDown = b.coordsDown := by rw [g2]; simp
    rw [i1, i2, hs]
  have e : b'.igesShapes (fun _ => true) true = .ok [.face (u.map (·.map M)), .face (l.map (·.map M)), .face (r.map (·.map M)),
      .face (t.map (·.map M)), .curve U, .curve L] := by
    simp [Blade.igesShapes, Blade.edgeCurves, Blade.edgeCurve, Blade.addFace, he', f1, f2, f3, f4, hu, hl, ht, hr, bind, Except.bind, pure,
      Except.pure]
  exact ⟨_, by simp only [Blade.exportIges, e], Blade.writeCad_written ..⟩

/-- **C73** a propeller writes one shape for its whole life: after a successful export, every later export - whatever has been done to the
blades, whatever the shaft would give by then - succeeds and writes the same content. -/
theorem C73_propeller_once {σ β τ υ : Type} (K : Kernel σ β τ υ) (shaft shaft' : Res σ) (w w' : Bool) (fs fs' : Str → Option υ)
    (path path' : Str) (p p' : Propeller τ υ) (h : p.exportCad K shaft w fs path = (p', fs', .ok ())) (bs : List Blade) (gs : Str → Option υ) :
    ∃ s gs', Written w fs fs' path s ∧ ({ p' with blades := bs }).exportCad K shaft' w' gs path' = ({ p' with blades := bs }, gs', .ok ()) ∧
      Written w' gs gs' path' s := by
  have wr : ∀ (w : Bool) (fs : Str → Option υ) (path : Str) (s : υ),
      Written w fs (if w then fun q => if q = path then some s else fs q else fs) path s := by
    intro w fs path s
    cases w <;> simp [Written]
    intro q hq
    simp [hq]
  unfold Propeller.exportCad at h
  rcases hs : p.shape K shaft with ⟨q, e | s⟩
  · rw [hs] at h; simp at h
  rw [hs] at h
  simp only [Prod.mk.injEq, and_true] at h
  obtain ⟨rfl, rfl⟩ := h
  have hcache : q.shapeCache = some s := by
    unfold Propeller.shape at hs
    split at hs
    · rename_i s' hs'
      simp only [Prod.mk.injEq, Except.ok.injEq] at hs
      obtain ⟨rfl, rfl⟩ := hs
      exact hs'
    · split at hs
      · simp at hs
      · simp only [Prod.mk.injEq, Except.ok.injEq] at hs
        obtain ⟨rfl, rfl⟩ := hs
        rfl
  refine ⟨s, _, wr _ _ _ _, ?_, wr _ _ _ _⟩
  unfold Propeller.exportCad Propeller.shape
  simp only [hcache]

/-- **C74** `plot` of a blade: `ValueError` exactly when there are no coordinates; otherwise it draws for every section the upper and the
lower curve as stored (so: outermost section first). -/
theorem C74_plot (b : Blade) (hlen : b.coordsUp = [] ∨ (b.coordsUp.length = b.sections.length ∧ b.coordsDown.length = b.sections.length)) :
    (b.coordsUp = [] → b.plotted = .error .valueError) ∧
    (b.coordsUp ≠ [] → ∃ cs, b.plotted = .ok cs ∧ cs.length = 2 * b.sections.length ∧
      ∀ i < b.sections.length, cs[2 * i]? = b.coordsUp[i]? ∧ cs[2 * i + 1]? = b.coordsDown[i]?) := by
  constructor
  · intro h
    simp [Blade.plotted, h, bind, Except.bind, throw, throwThe, MonadExceptOf.throw]
  · intro h
    obtain ⟨l1, l2⟩ := hlen.resolve_left h
    have h0 : b.coordsUp.length ≠ 0 := by simpa using h
    have hm := Blade.mapM_range_of (n := b.sections.length) (f := fun i => do return [← getIdx b.coordsUp i, ← getIdx b.coordsDown i])
      (g := fun i => [b.coordsUp.getD i [], b.coordsDown.getD i []]) (by
        intro i hi
        simp [getIdx, List.getElem?_eq_getElem (show i < b.coordsUp.length by omega),
          List.getElem?_eq_getElem (show i < b.coordsDown.length by omega), bind, Except.bind, pure, Except.pure])
    have gen : ∀ (n : Nat) (f g : Nat → List Pt3), ((List.range n).map fun i => [f i, g i]).flatten.length = 2 * n ∧
        ∀ i < n, (((List.range n).map fun i => [f i, g i]).flatten)[2 * i]? = some (f i) ∧
          (((List.range n).map fun i => [f i, g i]).flatten)[2 * i + 1]? = some (g i) := by
      intro n f g
      induction n with
      | zero => simp
      | succ n ih =>
        obtain ⟨i1, i2⟩ := ih
        simp only [List.range_succ, List.map_append, List.map_cons, List.map_nil, List.flatten_append, List.flatten_cons, List.flatten_nil,
          List.append_nil]
        refine ⟨by simp only [List.length_append, i1, List.length_cons, List.length_nil]; omega, fun i hi => ?_⟩
        rcases Nat.lt_succ_iff_lt_or_eq.1 hi with hi | rfl
        · rw [List.getElem?_append_left (by omega), List.getElem?_append_left (by omega)]
          exact i2 i hi
        · rw [List.getElem?_append_right (by omega), List.getElem?_append_right (by omega), i1]
          simp
    obtain ⟨g1, g2⟩ := gen b.sections.length (fun i => b.coordsUp.getD i []) (fun i => b.coordsDown.getD i [])
    refine ⟨_, ?_, g1, ?_⟩
    · unfold Blade.plotted
      simp only [h0, if_false, bind, Except.bind, pure, Except.pure] at hm ⊢
      rw [hm]
    · intro i hi
      obtain ⟨k1, k2⟩ := g2 i hi
      rw [k1, k2]
      simp [List.getElem?_eq_getElem (show i < b.coordsUp.length by omega),
        List.getElem?_eq_getElem (show i < b.coordsDown.length by omega)]

/-- **C74** `plot` of a profile whose surfaces have as many abscissae as ordinates draws what is asked for: the two surfaces, the stored chord
line, the stored camber line, the reference point - in this order -, unless a line is asked for that has not been computed, or the reference
point of a profile that fails the edge check, or the name of the output file is not a string: then an exception. -/
theorem C74_profile_plot (P : Profile) (hup : P.xup.length = P.yup.length) (hdown : P.xdown.length = P.ydown.length)
    (hchord : ∀ l, P.chordLine = some l → l.1.length = l.2.length) (hcamber : ∀ l, P.camberLine = some l → l.1.length = l.2.length)
    (profile chord camber ref : Bool) (out : OutFile) (ds : List Drawn) (saved : Option Str) :
    Profile.plotted profile chord camber ref out P = .ok (ds, saved) ↔
      ∃ d1 d2 d3 d4, ds = d1 ++ d2 ++ d3 ++ d4 ∧ (d1 = if profile then [.curve P.xup P.yup, .curve P.xdown P.ydown] else []) ∧
        (if chord then ∃ l, P.chordLine = some l ∧ d2 = [.curve l.1 l.2] else d2 = []) ∧
        (if camber then ∃ l, P.camberLine = some l ∧ d3 = [.curve l.1 l.2] else d3 = []) ∧
        (if ref then ∃ p, P.referencePoint = .ok p ∧ d4 = [.point p] else d4 = []) ∧
        ((out = .none ∧ saved = none) ∨ ∃ name, out = .str name ∧ saved = some name) := by
  have w : ∀ (b : Bool) (r : Res (List Drawn)) (d : List Drawn), plotWhen b r = .ok d ↔ if b then r = .ok d else d = [] := by
    intro b r d
    cases b <;> simp [plotWhen, eq_comm]
  have e1 : ∀ d, plotWhen profile (do return (← plotCurve P.xup P.yup) ++ (← plotCurve P.xdown P.ydown)) = .ok d ↔
      d = if profile then [.curve P.xup P.yup, .curve P.xdown P.ydown] else [] := by
    intro d
    rw [w]
    cases profile <;> simp [plotCurve, hup, hdown, bind, Except.bind, pure, Except.pure, eq_comm]
  have e2 : ∀ (b : Bool) (o : Option (Arr × Arr)), (∀ l, o = some l → l.1.length = l.2.length) → ∀ d, plotWhen b (plotLine o) = .ok d ↔
      if b then ∃ l, o = some l ∧ d = [.curve l.1 l.2] else d = [] := by
    intro b o ho d
    rw [w]
    rcases o with _ | l
    · simp [plotLine]
    · simp [plotLine, plotCurve, ho l rfl, eq_comm]
  have e4 : ∀ d, plotWhen ref (do return [.point (← P.referencePoint)]) = .ok d ↔
      if ref then ∃ p, P.referencePoint = .ok p ∧ d = [.point p] else d = [] := by
    intro d
    rw [w]
    rcases P.referencePoint with e | p <;> simp [bind, Except.bind, pure, Except.pure, eq_comm]
  have e5 : ∀ s, plotSaved out = .ok s ↔ ((out = .none ∧ s = none) ∨ ∃ name, out = .str name ∧ s = some name) := by
    intro s
    rcases out with _ | name | _ <;> simp [plotSaved, eq_comm]
  have bnd : ∀ {α β : Type} (x : Res α) (k : α → Res β) (z : β), (x >>= k) = .ok z ↔ ∃ y, x = .ok y ∧ k y = .ok z := by
    intro α β x k z
    rcases x with e | y <;> simp [bind, Except.bind]
  unfold Profile.plotted
  simp only [bnd]
  simp only [e1, e2 chord _ hchord, e2 camber _ hcamber, e4, e5]
  simp only [pure, Except.pure, Except.ok.injEq, Prod.mk.injEq]
  constructor
  · rintro ⟨d1, h1, d2, h2, d3, h3, d4, h4, s, h5, rfl, rfl⟩
    exact ⟨d1, d2, d3, d4, rfl, h1, h2, h3, h4, h5⟩
  · rintro ⟨d1, d2, d3, d4, rfl, h1, h2, h3, h4, h5⟩
    exact ⟨d1, h1, d2, h2, d3, h3, d4, h4, _, h5, rfl, rfl⟩

/-- **C74** the exception is `ValueError`, unless it is the one the reference point asked for raises. -/
theorem C74_profile_refused (P : Profile) (profile chord camber ref : Bool) (out : OutFile) (e : PyErr)
    (h : Profile.plotted profile chord camber ref out P = .error e) : e = .valueError ∨ (ref = true ∧ P.referencePoint = .error e) := by
  have hc : ∀ xs ys e, plotCurve xs ys = .error e → e = .valueError := by
    intro xs ys e h
    unfold plotCurve at h
    split_ifs at h
    cases h; rfl
  have hl : ∀ l e, plotLine l = .error e → e = .valueError := by
    intro l e h
    rcases l with _ | l
    · cases h; rfl
    · exact hc _ _ _ h
  have hw : ∀ (b : Bool) (r : Res (List Drawn)) e, plotWhen b r = .error e → b = true ∧ r = .error e := by
    intro b r e h
    cases b
    · cases h
    · exact ⟨rfl, h⟩
  have bnd : ∀ {α β : Type} (x : Res α) (k : α → Res β) (e : PyErr), (x >>= k) = .error e → x = .error e ∨ ∃ y, x = .ok y ∧ k y = .error e := by
    intro α β x k e
    rcases x with e' | y <;> simp [bind, Except.bind]
  unfold Profile.plotted at h
  rcases bnd _ _ _ h with h | ⟨d1, -, h⟩
  · obtain ⟨-, h⟩ := hw _ _ _ h
    rcases bnd _ _ _ h with h | ⟨a, -, h⟩
    · exact Or.inl (hc _ _ _ h)
    rcases bnd _ _ _ h with h | ⟨b, -, h⟩
    · exact Or.inl (hc _ _ _ h)
    · cases h
  rcases bnd _ _ _ h with h | ⟨d2, -, h⟩
  · exact Or.inl (hl _ _ (hw _ _ _ h).2)
  rcases bnd _ _ _ h with h | ⟨d3, -, h⟩
  · exact Or.inl (hl _ _ (hw _ _ _ h).2)
  rcases bnd _ _ _ h with h | ⟨d4, -, h⟩
  · obtain ⟨hr, h⟩ := hw _ _ _ h
    rcases bnd _ _ _ h with h | ⟨b, -, h⟩
    · exact Or.inr ⟨hr, h⟩
    · cases h
  rcases bnd _ _ _ h with h | ⟨s, -, h⟩
  · rcases out with _ | name | _
    · cases h
    · cases h
    · cases h; exact Or.inl rfl
  · cases h

/-- A line that has not been computed. -/
example : Profile.plotted true true false false .none Sample.foil = .error .valueError := by
  simp [Profile.plotted, plotWhen, plotCurve, plotLine, Sample.foil, bind, Except.bind, pure, Except.pure]

/-- **C74** the lines drawn are the stored ones: moving the profile after computing them does not move them. -/
theorem C74_stale_lines (P Q : Profile) (v : Pt) (f : ℝ) (rad deg : Option ℝ) (t : ℝ)
    (h : Q = P.translate v ∨ Q = P.reflect ∨ P.scale f = .ok Q ∨ P.rotate rad deg = .ok Q ∨ P.setThicknessMax t = .ok Q)
    (out : OutFile) (ds : List Drawn) (saved : Option Str) :
    Profile.plotted false true false false out Q = .ok (ds, saved) ↔ Profile.plotted false true false false out P = .ok (ds, saved) := by
  have : Q.chordLine = P.chordLine := by
    rcases h with rfl | rfl | h | h | h
    · rfl
    · rfl
    · unfold Profile.scale at h
      rcases hr : P.referencePoint with e | p <;> simp [hr, bind, Except.bind, pure, Except.pure] at h
      rw [← h]; rfl
    · unfold Profile.rotate at h
      simp only [bind, Except.bind, pure, Except.pure, throw, throwThe, MonadExceptOf.throw] at h
      repeat' split at h
      all_goals first | (cases h; done) | (obtain rfl := Except.ok.inj h; rfl) | skip
    · unfold Profile.setThicknessMax at h
      simp only [bind, Except.bind, pure, Except.pure, throw, throwThe, MonadExceptOf.throw] at h
      repeat' split at h
      all_goals first | (cases h; done) | (obtain rfl := Except.ok.inj h; rfl) | skip
  unfold Profile.plotted
  simp only [this, plotWhen, if_true, if_false, Bool.false_eq_true, reduceIte]

/-! ## The hypotheses are met -/

/-- A built blade, turned and scaled. -/
example : ∃ b₁ : Blade, Sample.blade2.WellFormed ∧ Sample.blade2.build (fun _ => true) true = (b₁, .ok ()) ∧ b₁.HasFaces ∧ b₁.HasCoords ∧
    (∀ op ∈ [Blade.Op.rotate (some 30) none c!"x", .scale 2], op.InStep) := by
  obtain ⟨b', hb, _⟩ := Sample.blade2_builds true
  obtain ⟨hc, hF⟩ := Blade.build_has hb
  exact ⟨b', by simp [Sample.blade2, Blade.WellFormed], hb, hF, hc, by simp [Blade.Op.InStep]⟩

/-- An export with curves that succeeds. -/
example : ∃ (b : Blade) (fs' : CadFS), b.HasCoords ∧ b.HasFaces ∧
    b.exportIges (fun p => decide (2 ≤ p.length)) true (fun _ => none) c!"a.iges" true = (fs', .ok ()) ∧
    fs' c!"a.iges" = some [.face [[(1, 0, 0)], [(2, 0, 0)]], .face [[(1, 0, 0)], [(2, 0, 0)]], .face [], .face [],
      .curve [Blade.scalePt 1000 (1, 0, 0), Blade.scalePt 1000 (2, 0, 0)], .curve [Blade.scalePt 1000 (1, 0, 0), Blade.scalePt 1000 (2, 0, 0)]] := by
  let P : Profile := { xup := [0], xdown := [0], yup := [0], ydown := [0] }
  let b : Blade := { Sample.blade2 with sections := [P, P], coordsUp := [[(1, 0, 0)], [(2, 0, 0)]], coordsDown := [[(1, 0, 0)], [(2, 0, 0)]], upper := some [[(1, 0, 0)], [(2, 0, 0)]], lower := some [[(1, 0, 0)], [(2, 0, 0)]], tip := some [], root := some [] }
  have hk : Blade.edgeIdx [0] = .ok 0 := by
    simp [Blade.edgeIdx, Blade.nearestIdx, npMin, npMax, bind, Except.bind, pure, Except.pure]
  have he : b.edgePoints = .ok ([Blade.scalePt 1000 (1, 0, 0), Blade.scalePt 1000 (2, 0, 0)],
      [Blade.scalePt 1000 (1, 0, 0), Blade.scalePt 1000 (2, 0, 0)]) := by
    have r2 : List.range 2 = [0, 1] := rfl
    simp [Blade.edgePoints, b, P, r2, getIdx, hk, bind, Except.bind, pure, Except.pure]
  have hs : b.igesShapes (fun p => decide (2 ≤ p.length)) true = .ok [.face [[(1, 0, 0)], [(2, 0, 0)]], .face [[(1, 0, 0)], [(2, 0, 0)]],
      .face [], .face [], .curve [Blade.scalePt 1000 (1, 0, 0), Blade.scalePt 1000 (2, 0, 0)],
      .curve [Blade.scalePt 1000 (1, 0, 0), Blade.scalePt 1000 (2, 0, 0)]] := by
    unfold Blade.igesShapes Blade.edgeCurves
    simp [he, Blade.edgeCurve, Blade.addFace, b, bind, Except.bind, pure, Except.pure]
  refine ⟨b, (b.exportIges (fun p => decide (2 ≤ p.length)) true (fun _ => none) c!"a.iges" true).1, by simp [b, Blade.HasCoords],
    by simp [b, Blade.HasFaces], ?_, ?_⟩
  · simp only [Blade.exportIges, hs]
  · simp [Blade.exportIges, hs, Blade.writeCad]

example : ∃ P : Profile, P.xup.length = P.yup.length ∧ P.xdown.length = P.ydown.length ∧ P.chordLine = some ([0, 1], [0, 0]) ∧
    P.camberLine = none :=
  ⟨{ xup := [0, 1], xdown := [0, 1], yup := [0, 0], ydown := [0, 0], chordLine := some ([0, 1], [0, 0]) }, rfl, rfl, rfl, rfl⟩

end
end BladeX
