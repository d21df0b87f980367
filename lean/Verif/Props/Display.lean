import Verif.Model.Display
import Verif.Props.PropellerLife
import Verif.Props.Shaft

/-! # C139: what the viewer shows (`display` of blades, propellers and shafts) -/

namespace BladeX
noncomputable section
open Spec Classical

/-- The shapes shown in a session with the viewer. -/
def Spec.shownIn {κ : Type} : List (Win κ) → List κ
  | [] => []
  | .shown s :: l => s :: Spec.shownIn l
  | _ :: l => Spec.shownIn l

/-- **C139** A blade with its four faces: a window is opened, the upper, lower, root and tip face are shown, and the user gets the window. -/
theorem C139_blade (b : Blade) (u l r t : Face) (hu : b.upper = some u) (hl : b.lower = some l) (hr : b.root = some r) (ht : b.tip = some t) :
    b.display = ([.opened, .shown u, .shown l, .shown r, .shown t, .started], .ok ()) := by
  simp [Blade.display, showEach, hu, hl, hr, ht]

/-- **C139** A blade without one of its faces: an exception, after a window was opened that the user never gets; shown in it are the faces before the first one
that is missing (of a blade not built: none). -/
theorem C139_blade_unbuilt (b : Blade) (h : ¬ b.HasFaces) :
    ∃ w, b.display = (.opened :: w, .error .typeError) ∧ .started ∉ w ∧
      ∃ k, k < 4 ∧ [b.upper, b.lower, b.root, b.tip][k]? = some none ∧ ([b.upper, b.lower, b.root, b.tip].take k = (w.map fun e => match e with
        | .shown s => some s
        | _ => none)) := by
  unfold Blade.HasFaces at h
  rcases hu : b.upper with _ | u
  · exact ⟨[], by simp [Blade.display, showEach, hu], by simp, 0, by simp⟩
  rcases hl : b.lower with _ | l
  · exact ⟨[.shown u], by simp [Blade.display, showEach, hu, hl], by simp, 1, by simp⟩
  rcases hr : b.root with _ | r
  · exact ⟨[.shown u, .shown l], by simp [Blade.display, showEach, hu, hl, hr], by simp, 2, by simp⟩
  rcases ht : b.tip with _ | t
  · exact ⟨[.shown u, .shown l, .shown r], by simp [Blade.display, showEach, hu, hl, hr, ht], by simp, 3, by simp⟩
  · simp_all

/-- **C139** What is seen is what is exported: the shapes shown are those `export_stl` and `export_iges` (without curves) would write, in the same order; display and
exports fail for the same blades. -/
theorem C139_blade_exported (b : Blade) (occ : List Pt3 → Bool) (fs : CadFS) (path : Str) :
    (b.display.2 = .ok () → (b.exportStl true fs path).2 = .ok () ∧ (b.exportIges occ true fs path false).2 = .ok () ∧
      (b.exportStl true fs path).1 path = some ((shownIn b.display.1).map .face) ∧
      (b.exportIges occ true fs path false).1 path = some ((shownIn b.display.1).map .face)) ∧
    (b.display.2 ≠ .ok () → (b.exportStl true fs path).2 ≠ .ok () ∧ (b.exportIges occ true fs path false).2 ≠ .ok ()) := by
  by_cases h : b.HasFaces
  · obtain ⟨a1, a2, a3, a4⟩ := h
    obtain ⟨u, hu⟩ := Option.ne_none_iff_exists'.1 a1
    obtain ⟨l, hl⟩ := Option.ne_none_iff_exists'.1 a2
    obtain ⟨t, ht⟩ := Option.ne_none_iff_exists'.1 a3
    obtain ⟨r, hr⟩ := Option.ne_none_iff_exists'.1 a4
    have hd := C139_blade b u l r t hu hl hr ht
    obtain ⟨⟨f1, g1, w1⟩, f2, g2, w2⟩ := C73_faces occ true fs path b u l t r hu hl ht hr
    refine ⟨fun _ => ?_, fun hn => absurd (by rw [hd]) hn⟩
    rw [g1, g2, hd]
    exact ⟨rfl, rfl, by simpa [Written, shownIn] using w2.1, by simpa [Written, shownIn] using w1.1⟩
  · obtain ⟨w, hw, _⟩ := C139_blade_unbuilt b h
    obtain ⟨⟨e, he⟩, hs⟩ := C73_unbuilt occ true fs path b h false
    refine ⟨fun hd => ?_, fun _ => ?_⟩
    · rw [hw] at hd; cases hd
    · rw [he, hs]; exact ⟨by simp, by simp⟩

/-- **C139** After a rotation, mirror image or scaling that returned, the viewer shows the old faces moved by one map. -/
theorem C139_blade_moved (b b' : Blade) (hF : b.HasFaces) :
    (∀ deg rad axis, b.rotate deg rad axis = (b', .ok ()) → ∃ θ, ∃ R, ((rad = some θ ∧ deg = none) ∨ rad = none ∧ ∃ d, deg = some d ∧ θ = d * Real.pi / 180) ∧
      (axis, R) ∈ [(c!"x", rotX), (c!"y", rotY), (c!"z", rotZ)] ∧ shownIn b'.display.1 = (shownIn b.display.1).map (·.map (·.map (R θ)))) ∧
    (∀ args kw, b.mirror args kw = (b', .ok ()) → ∃ p n, shownIn b'.display.1 = (shownIn b.display.1).map (·.map (·.map (Blade.occMirror p n)))) ∧
    (∀ k, b.scale k = (b', .ok ()) → shownIn b'.display.1 = (shownIn b.display.1).map (·.map (·.map fun q => (q.1 * k, q.2.1 * k, q.2.2 * k)))) := by
  have key : ∀ (f : Pt3 → Pt3) (c : Blade), c.upper = b.upper → c.lower = b.lower → c.tip = b.tip → c.root = b.root → Blade.onFaces f c = (b', .ok ()) →
      shownIn b'.display.1 = (shownIn b.display.1).map (·.map (·.map f)) := by
    intro f c h1 h2 h3 h4 h
    have hc : c.HasFaces := by unfold Blade.HasFaces at hF ⊢; rw [h1, h2, h3, h4]; exact hF
    rw [Blade.onFaces_ok hc] at h
    obtain ⟨rfl, _⟩ := Prod.mk.inj h
    obtain ⟨a1, a2, a3, a4⟩ := hF
    obtain ⟨u, hu⟩ := Option.ne_none_iff_exists'.1 a1
    obtain ⟨l, hl⟩ := Option.ne_none_iff_exists'.1 a2
    obtain ⟨t, ht⟩ := Option.ne_none_iff_exists'.1 a3
    obtain ⟨r, hr⟩ := Option.ne_none_iff_exists'.1 a4
    rw [C139_blade b u l r t hu hl hr ht, C139_blade _ (mapPts f u) (mapPts f l) (mapPts f r) (mapPts f t)
      (by simp [h1, hu]) (by simp [h2, hl]) (by simp [h4, hr]) (by simp [h3, ht])]
    rfl
  refine ⟨?_, ?_, ?_⟩
  · intro deg rad axis h
    unfold Blade.rotate at h
    split at h
    · cases (Prod.mk.inj h).2
    · split at h
      · cases (Prod.mk.inj h).2
      · rename_i t c s _
        split at h
        · cases (Prod.mk.inj h).2
        · rename_i ha _ f hf
          have hang : (rad = some t ∧ deg = none) ∨ rad = none ∧ ∃ d, deg = some d ∧ t = d * Real.pi / 180 := by
            unfold Blade.angle at ha
            rcases deg with _ | d <;> rcases rad with _ | r <;> simp_all
          have hR : ∃ R, (axis, R) ∈ [(c!"x", rotX), (c!"y", rotY), (c!"z", rotZ)] ∧ Blade.occRotation axis t = R t := by
            unfold Blade.rotMatrix at hf
            unfold Blade.occRotation
            split_ifs at hf with h1 h2 h3
            · subst h1; exact ⟨rotX, by simp, by funext p; simp [rotX]⟩
            · subst h2; exact ⟨rotY, by simp, by funext p; simp [rotY]; ring⟩
            · subst h3; exact ⟨rotZ, by simp, by funext p; simp [rotZ]⟩
          obtain ⟨R, h1, h2⟩ := hR
          refine ⟨t, R, hang, h1, ?_⟩
          rw [← h2]
          refine key _ _ ?_ ?_ ?_ ?_ h <;> rfl
  · intro args kw h
    unfold Blade.mirror at h
    split at h
    · cases (Prod.mk.inj h).2
    · split at h
      · cases (Prod.mk.inj h).2
      · rename_i p n _
        exact ⟨p, n, key _ b rfl rfl rfl rfl h⟩
  · intro k h
    unfold Blade.scale at h
    simp only at h
    split at h
    · cases (Prod.mk.inj h).2
    · refine key _ _ ?_ ?_ ?_ ?_ h <;> rfl

/-- **C139** `apply_transformations` without `build` is not seen: the viewer goes on showing the old faces, whatever became of the coordinates that `plot` draws. -/
theorem C139_blade_stale (b : Blade) (refl : Bool) : (b.applyTransformations refl).1.display = b.display := by
  unfold Blade.applyTransformations
  split
  · rfl
  · split <;> rfl

namespace Propeller
variable {σ β τ υ : Type}

/-- **C139** `display` of a propeller: the shape, as the property gives it at that time; the propeller keeps what was made. If the shape cannot be made the exception
comes after a window was opened, in which nothing is shown. -/
theorem C139_propeller (K : Kernel σ β τ υ) (sh : Res σ) (p : Propeller τ υ) :
    (p.display K sh).1 = (p.shape K sh).1 ∧
    (∀ s, (p.shape K sh).2 = .ok s → (p.display K sh).2 = ([.opened, .shown s, .started], .ok ())) ∧
    ∀ e, (p.shape K sh).2 = .error e → (p.display K sh).2 = ([.opened], .error e) := by
  unfold display
  rcases p.shape K sh with ⟨q, (e | s)⟩
  · refine ⟨rfl, ?_, ?_⟩
    · intro s h; cases h
    · intro e' h; obtain rfl := Except.error.inj h; rfl
  · refine ⟨rfl, ?_, ?_⟩
    · intro s' h; obtain rfl := Except.ok.inj h; rfl
    · intro e h; cases h

/-- **C139** In a session with a new propeller that was displayed once: whatever is done to the blades, the shaft or the files afterwards, it is displayed as the first
time, and exports write the shape that was seen. -/
theorem C139_propeller_frozen (K : Kernel σ β τ υ) (w : World τ υ) (h : w.prop.solidCache = none ∧ w.prop.shapeCache = none) (sh sh' : Res σ) (s : υ)
    (hd : (w.prop.display K sh).2 = ([.opened, .shown s, .started], .ok ())) (es : List (Event σ)) (path : Str) :
    let v := World.run K { w with prop := (w.prop.display K sh).1 } es
    (v.prop.display K sh').2 = ([.opened, .shown s, .started], .ok ()) ∧
      (v.step K (.export sh' true path)).1.files path = some (.shape s) := by
  intro v
  obtain ⟨h1, h2, h3⟩ := C139_propeller K sh w.prop
  have hs : (w.prop.shape K sh).2 = .ok s := by
    rcases hx : (w.prop.shape K sh).2 with e | s'
    · rw [h3 e hx] at hd; cases (Prod.mk.inj hd).2
    · rw [h2 s' hx] at hd
      simp only [Prod.mk.injEq, List.cons.injEq, Win.shown.injEq, true_and, and_true] at hd
      rw [hd]
  obtain ⟨f1, f2⟩ := Fresh.shape (K := K) (p := w.prop) h sh
  have hm : ∃ t, MadeFrom K w.prop.blades sh t := by
    by_contra hn
    push Not at hn
    obtain ⟨e, he⟩ := f2 hn
    rw [he] at hs; cases hs
  obtain ⟨t, ht⟩ := hm
  obtain ⟨g1, g2⟩ := f1 t ht
  have e : K.sew t = s := by rw [g1] at hs; exact Except.ok.inj hs
  rw [← h1] at g2
  have hv : Holds K t v.prop := Holds.run (w := { w with prop := (w.prop.display K sh).1 }) g2 es
  have hx := hv.shape sh'
  refine ⟨by rw [← e]; exact (C139_propeller K sh' v.prop).2.1 _ hx.1, ?_⟩
  rcases hy : v.prop.shape K sh' with ⟨p, (e' | s')⟩
  · rw [hy] at hx; cases hx.1
  · rw [step_export_ok K v sh' true path hy]
    rw [hy] at hx
    obtain rfl := Except.ok.inj hx.1
    simp [e]

/-- Not vacuous: a propeller with two blades is displayed, and again after all blades were taken out of it. -/
example : ∃ (p : Propeller (List (List Face)) (List (List Face))) (B : Blade), Propeller.new (fun _ => true) Sample.blade2 2 true = (B, .ok p) ∧
    ∃ K : Kernel Unit (List Face) (List (List Face)) (List (List Face)), ∃ s, (p.display K (.ok ())).2 = ([.opened, .shown s, .started], .ok ()) ∧
      ((World.run K ⟨(p.display K (.ok ())).1, fun _ => none⟩ [.change fun _ => []]).prop.display K (.error .exception)).2 =
        ([.opened, .shown s, .started], .ok ()) := by
  obtain ⟨B, h, hF, _⟩ := Sample.blade2_builds true
  obtain ⟨p, hp, hlen, h1, h2, hall⟩ := (C55_blades (τ := List (List Face)) (υ := List (List Face)) (fun _ => true) Sample.blade2 B 2 true).2 h
  obtain ⟨K, hK⟩ : ∃ K : Kernel Unit (List Face) (List (List Face)) (List (List Face)),
      K = { assemble := fun f => some f, fuse := fun _ xs => some xs, sew := id } := ⟨_, rfl⟩
  obtain ⟨a1, a2, a3, a4⟩ := hF
  obtain ⟨xs, hx⟩ : ∃ xs, List.Forall₂ (fun (b : Blade) x => ∃ u l t r, b.upper = some u ∧ b.lower = some l ∧ b.tip = some t ∧ b.root = some r ∧
      K.assemble [u, l, t, r] = some x) p.blades xs := by
    have hfaces : ∀ bi ∈ p.blades, bi.HasFaces := by
      intro bi hbi
      obtain ⟨i, hi⟩ := List.getElem?_of_mem hbi
      obtain ⟨-, ⟨f1, f2, f3, f4⟩, -⟩ := hall i bi hi
      refine ⟨?_, ?_, ?_, ?_⟩
      · rw [f1]; simpa using a1
      · rw [f2]; simpa using a2
      · rw [f3]; simpa using a3
      · rw [f4]; simpa using a4
    generalize p.blades = bs at hfaces
    induction bs with
    | nil => exact ⟨[], .nil⟩
    | cons b bs ih =>
      obtain ⟨xs, hxs⟩ := ih fun c hc => hfaces c (List.mem_cons_of_mem _ hc)
      obtain ⟨c1, c2, c3, c4⟩ := hfaces b List.mem_cons_self
      obtain ⟨u, hu⟩ := Option.ne_none_iff_exists'.1 c1
      obtain ⟨l, hl⟩ := Option.ne_none_iff_exists'.1 c2
      obtain ⟨t, ht⟩ := Option.ne_none_iff_exists'.1 c3
      obtain ⟨r, hr⟩ := Option.ne_none_iff_exists'.1 c4
      exact ⟨_ :: xs, .cons ⟨u, l, t, r, hu, hl, ht, hr, by rw [hK]⟩ hxs⟩
  have hm : MadeFrom K p.blades (.ok ()) xs := ⟨(), xs, rfl, hx, by rw [hK]⟩
  have hs := ((Fresh.shape (K := K) (p := p) ⟨h1, h2⟩ (.ok ())).1 xs hm).1
  have hd := (C139_propeller K (.ok ()) p).2.1 _ hs
  exact ⟨p, B, hp, K, _, hd, (C139_propeller_frozen K ⟨p, fun _ => none⟩ ⟨h1, h2⟩ (.ok ()) (.error .exception) _ hd [.change fun _ => []] []).1⟩

end Propeller

/-- **C139** The shafts: the solid is made anew each time (so changes of the attributes are seen), and no window is opened if it cannot be made. -/
theorem C139_shafts {κ σ : Type} (K : ShaftKernel κ σ) (filename : Str) (c : CylinderShaft) :
    ((∀ s, Shaft.generateSolid K filename = .ok s → Shaft.display K filename = ([.opened, .shown s, .started], .ok ())) ∧
      ∀ e, Shaft.generateSolid K filename = .error e → Shaft.display K filename = ([], .error e)) ∧
    (∀ s, c.generateSolid = .ok s → c.display = ([.opened, .shown s, .started], .ok ())) ∧
    ∀ e, c.generateSolid = .error e → c.display = ([], .error e) := by
  refine ⟨⟨?_, ?_⟩, ?_, ?_⟩ <;> intro x h <;> simp [Shaft.display, CylinderShaft.display, displaySolid, h]

/-- A file of another format opens no window; the cylinder with the default values is shown. -/
example {κ σ : Type} (K : ShaftKernel κ σ) : Shaft.display K c!"shaft.step" = ([], .error .exception) ∧
    ∃ c, (CylinderShaft.new none none none none).display = ([.opened, .shown c, .started], .ok ()) := by
  have h1 : Shaft.generateSolid K c!"shaft.step" = .error .exception := by
    refine (C58_dispatch K _).2.2 ?_ ?_
    · rintro ⟨d, n, h, _⟩
      have := congrArg (fun s => s.reverse.head?) h
      simp at this
    · rintro ⟨d, n, h, _⟩
      have := congrArg (fun s => s.reverse.head?) h
      simp at this
  obtain ⟨c, hc, _⟩ := C71_defaults
  exact ⟨(C139_shafts K _ (CylinderShaft.new none none none none)).1.2 _ h1, c, (C139_shafts K c!"shaft.step" _).2.1 c hc⟩

/-- A built blade is shown, a blade that was never built is not. -/
example : (∃ B : Blade, Sample.blade2.build (fun _ => true) true = (B, .ok ()) ∧ B.display.2 = .ok ()) ∧
    Sample.blade2.display.2 = .error .typeError := by
  obtain ⟨B, h, ⟨a1, a2, a3, a4⟩, _⟩ := Sample.blade2_builds true
  obtain ⟨u, hu⟩ := Option.ne_none_iff_exists'.1 a1
  obtain ⟨l, hl⟩ := Option.ne_none_iff_exists'.1 a2
  obtain ⟨t, ht⟩ := Option.ne_none_iff_exists'.1 a3
  obtain ⟨r, hr⟩ := Option.ne_none_iff_exists'.1 a4
  refine ⟨⟨B, h, by rw [C139_blade B u l r t hu hl hr ht]⟩, ?_⟩
  obtain ⟨w, hw, _⟩ := C139_blade_unbuilt Sample.blade2 (by simp [Blade.HasFaces, Sample.blade2])
  rw [hw]

end
end BladeX
