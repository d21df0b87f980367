import Verif.Lemmas.ProfileBare

/-! # The calls on a profile object and their descriptions by results -/

namespace BladeX
noncomputable section
open Classical

namespace Foil

theorem quiet_error {a : Act Unit} {s t : Foil} {e : PyErr} (h : a s = (t, .error e)) : quiet a s = (t, .error e) := Act.bind_error h
theorem quiet_ok {a : Act Unit} {s t : Foil} (h : a s = (t, .ok ())) : quiet a s = (t, .ok .nothing) := Act.bind_ok h

theorem quiet_keeps {f : Foil → β} {a : Act Unit} (h : Act.Keeps f a) : Act.Keeps f (quiet a) := Act.keeps_bind h fun _ => Act.keeps_pure _ _

theorem view_put {s : Foil} {Q : Profile} (h : Q.par = s.view.par) : (s.put Q).view = Q := by
  rcases Q with ⟨_, _, _, _, _, _, _⟩
  simp only [view] at h
  simp [put, view, h]

theorem view_put' {s : Foil} {Q : Profile} (l t : Option Pt) (h : Q.par = s.view.par) : ({ s with le := l, te := t }.put Q).view = Q := view_put h

theorem done_error {r : Res Profile} {e : PyErr} (h : r = .error e) : done r = .error e := by rw [h]; rfl
theorem done_ok {r : Res Profile} {Q : Profile} (h : r = .ok Q) : done r = .ok (.nothing, Q) := by rw [h]; rfl

/-- Any call: the exception, or the result and the object, are those of the method's description by its result; a call that raises leaves
coordinates and parameters alone unless it is `generate_coordinates` (coordinates) or `generate_parameters` (parameters). -/
theorem run_result (lib : Lib) (K : FoilClass) (c : Call) (s : Foil) :
    (∃ t e, run lib K c s = (t, .error e) ∧ c.result lib K s.view = .error e ∧ (c.isParameters = false → t.par = s.par) ∧
      (c.isCoordinates = false ∨ K ≠ .custom → t.coords = s.coords)) ∨
    (∃ t o, run lib K c s = (t, .ok o) ∧ c.result lib K s.view = .ok (o, t.view)) := by
  cases c with
  | setXup a => exact .inr ⟨_, _, rfl, rfl⟩
  | setXdown a => exact .inr ⟨_, _, rfl, rfl⟩
  | setYup a => exact .inr ⟨_, _, rfl, rfl⟩
  | setYdown a => exact .inr ⟨_, _, rfl, rfl⟩
  | setChordLength x => exact .inr ⟨_, _, rfl, rfl⟩
  | setChordPerc a => exact .inr ⟨_, _, rfl, rfl⟩
  | setCamberMax x => exact .inr ⟨_, _, rfl, rfl⟩
  | setCamberPerc a => exact .inr ⟨_, _, rfl, rfl⟩
  | setThicknessMaxPar x => exact .inr ⟨_, _, rfl, rfl⟩
  | setThicknessPerc a => exact .inr ⟨_, _, rfl, rfl⟩
  | generateParameters conv =>
    rcases generateParameters_run lib conv s with ⟨t, e, h1, h2⟩ | ⟨e, q, h1, h2, h3⟩
    · refine .inl ⟨t, e, quiet_error h1, done_error h2, by simp [Call.isParameters], fun _ => ?_⟩
      have hk : Act.Keeps coords (generateParameters lib conv) := by
        unfold generateParameters storeChordCamber storeThickness
        refine Act.keeps_bind (Act.keeps_bind updateEdges_coords fun _ => ?_) fun _ => ?_ <;> keep
      have := hk s
      rwa [h1] at this
    · exact .inr ⟨_, _, quiet_ok h1, done_ok h3⟩
  | generateCoordinates conv =>
    have hp : s.view.par = some s.par := rfl
    rcases K with _ | ⟨d, n, co⟩
    · rcases conv with _ | (_ | _ | _)
      · rcases britishCoordinates_run s with ⟨t, e, h1, h2, h3⟩ | ⟨Q, h1, h2, h3⟩
        · exact .inl ⟨t, e, quiet_error h1, done_error h2, fun _ => h3, by simp [Call.isCoordinates]⟩
        · exact .inr ⟨_, _, quiet_ok h1, by rw [view_put h3]; exact done_ok h2⟩
      · rcases britishCoordinates_run s with ⟨t, e, h1, h2, h3⟩ | ⟨Q, h1, h2, h3⟩
        · refine .inl ⟨t, e, quiet_error h1, done_error ?_, fun _ => h3, by simp [Call.isCoordinates]⟩
          rw [coordinatesResult, if_neg (by simp), Custom.generateCoordinates]; exact h2
        · refine .inr ⟨_, _, quiet_ok h1, ?_⟩
          rw [view_put h3]
          refine done_ok ?_
          rw [coordinatesResult, if_neg (by simp), Custom.generateCoordinates]; exact h2
      · rcases americanCoordinates_run lib s with ⟨t, e, h1, h2, h3⟩ | ⟨Q, h1, h2, h3⟩
        · exact .inl ⟨t, e, quiet_error h1, done_error h2, fun _ => h3, by simp [Call.isCoordinates]⟩
        · exact .inr ⟨_, _, quiet_ok h1, by rw [view_put h3]; exact done_ok h2⟩
      · refine .inr ⟨s, .nothing, rfl, done_ok ?_⟩
        rw [coordinatesResult, if_neg (by simp), Custom.generateCoordinates]
    · rcases conv with _ | conv
      · rcases h : Naca.generateCoordinates lib.look d n co with e | Q
        · refine .inl ⟨s, e, quiet_error (Act.eval_error h), done_error ?_, fun _ => rfl, fun _ => rfl⟩
          rw [coordinatesResult, h]; rfl
        · refine .inr ⟨_, _, quiet_ok (Act.eval_ok h), done_ok ?_⟩
          rw [coordinatesResult, h]; rfl
      · exact .inl ⟨s, _, rfl, rfl, fun _ => rfl, fun _ => rfl⟩
  | translate v => exact .inr ⟨_, _, rfl, rfl⟩
  | rotate r d =>
    rcases rotate_run r d s with ⟨e, h1, h2⟩ | ⟨Q, h1, h2, h3⟩
    · exact .inl ⟨s, e, quiet_error h1, done_error h2, fun _ => rfl, fun _ => rfl⟩
    · exact .inr ⟨_, _, quiet_ok h1, by rw [view_put h3]; exact done_ok h2⟩
  | scale f b =>
    rcases scale_run f b s with ⟨t, e, h1, h2, -, h3⟩ | ⟨Q, h1, h2, ⟨-, h3⟩ | ⟨-, e, -, h3⟩⟩
    · exact .inl ⟨t, e, quiet_error h1, done_error h2, fun _ => by rw [h3]; exact updateEdges_par s, fun _ => by rw [h3]; exact updateEdges_coords s⟩
    · exact .inr ⟨_, _, quiet_ok h3, by rw [view_put h2]; exact done_ok h1⟩
    · exact .inr ⟨_, _, quiet_ok h3, by rw [view_put' _ _ h2]; exact done_ok h1⟩
  | reflect => exact .inr ⟨_, _, rfl, rfl⟩
  | deformCamberLine p n =>
    rcases deformCamberLine_run p n s with ⟨e, h1, h2⟩ | ⟨Q, h1, h2, h3⟩
    · exact .inl ⟨s, e, quiet_error h1, done_error h2, fun _ => rfl, fun _ => rfl⟩
    · exact .inr ⟨_, _, quiet_ok h1, by rw [view_put h3]; exact done_ok h2⟩
  | setCamberLineMax c =>
    rcases setCamberLineMax_run c s with ⟨t, e, h1, h2, h3, h4⟩ | ⟨e, Q, h1, -, h2, h3⟩
    · exact .inl ⟨t, e, quiet_error h1, done_error h2, fun _ => h4, fun _ => h3⟩
    · exact .inr ⟨_, _, quiet_ok h1, by rw [view_put' _ _ h3]; exact done_ok h2⟩
  | setThicknessMax t =>
    rcases setThicknessMax_run t s with ⟨e, h1, h2⟩ | ⟨Q, h1, h2, h3⟩
    · exact .inl ⟨s, e, quiet_error h1, done_error h2, fun _ => rfl, fun _ => rfl⟩
    · exact .inr ⟨_, _, quiet_ok h1, by rw [view_put h3]; exact done_ok h2⟩
  | computeChordLine n =>
    rcases computeChordLine_run n s with ⟨t, e, h1, h2⟩ | ⟨e, Q, h1, -, h2, h3⟩
    · refine .inl ⟨t, e, quiet_error h1, done_error h2, fun _ => ?_, fun _ => ?_⟩
      · have := computeChordLine_keeps (n := n) (f := Foil.par) (fun _ _ _ _ => rfl) s
        rwa [h1] at this
      · have := computeChordLine_keeps (n := n) (f := coords) (fun _ _ _ _ => rfl) s
        rwa [h1] at this
    · exact .inr ⟨_, _, quiet_ok h1, (done_ok h2).trans (congrArg (fun R => Except.ok (Out.nothing, R)) h3)⟩
  | computeCamberLine n =>
    rcases computeCamberLine_run n s with ⟨e, h1, h2⟩ | ⟨cl, h1, h2⟩
    · exact .inl ⟨s, e, quiet_error h1, done_error h2, fun _ => rfl, fun _ => rfl⟩
    · exact .inr ⟨_, _, quiet_ok h1, done_ok h2⟩
  | maxThickness n =>
    rcases h : s.view.maxThickness n with e | x
    · exact .inl ⟨s, e, Act.eval_error h, by simp only [Call.result, h]; rfl, fun _ => rfl, fun _ => rfl⟩
    · exact .inr ⟨s, .number x, Act.eval_ok h, by simp only [Call.result, h]; rfl⟩
  | maxCamber n =>
    rcases maxCamber_run n s with ⟨t, e, h1, h2⟩ | ⟨e, v, Q, h1, -, h2, h3⟩
    · refine .inl ⟨t, e, Act.bind_error h1, by simp only [Call.result, h2]; rfl, fun _ => ?_, fun _ => ?_⟩
      · have := maxCamber_keeps (n := n) (f := Foil.par) (fun _ _ _ _ _ => rfl) s
        rwa [h1] at this
      · have := maxCamber_keeps (n := n) (f := coords) (fun _ _ _ _ _ => rfl) s
        rwa [h1] at this
    · exact .inr ⟨_, _, Act.bind_ok h1, (congrArg (Except.map fun x : ℝ × Profile => (Out.number x.1, x.2)) h2).trans
        (congrArg (fun R => Except.ok (Out.number v, R)) h3)⟩
  | referencePoint =>
    rcases referencePoint_run s with ⟨t, e, h1, h2, h3⟩ | ⟨e, p, h1, h2, h3⟩
    · exact .inl ⟨t, e, Act.bind_error h1, by simp only [Call.result, h2]; rfl, fun _ => by rw [h3]; exact updateEdges_par s,
        fun _ => by rw [h3]; exact updateEdges_coords s⟩
    · exact .inr ⟨_, .point p, Act.bind_ok h1, by simp only [Call.result, h3]; rfl⟩
  | interpolate num radius =>
    rcases h : s.view.interpolateCoordinates num radius with e | x
    · exact .inl ⟨s, e, Act.eval_error h, by simp only [Call.result, h]; rfl, fun _ => rfl, fun _ => rfl⟩
    · exact .inr ⟨s, .arrays x, Act.eval_ok h, by simp only [Call.result, h]; rfl⟩

/-- A call that is not meant to change the coordinates does not, whatever its outcome. -/
theorem run_coords (lib : Lib) (K : FoilClass) (c : Call) (s : Foil) (h : c.movesCoordinates = false) : (run lib K c s).1.coords = s.coords := by
  cases c <;> simp only [Call.movesCoordinates, Bool.true_eq_false] at h <;> try rfl
  case generateParameters conv =>
    refine quiet_keeps (f := coords) ?_ s
    unfold generateParameters storeChordCamber storeThickness
    refine Act.keeps_bind (Act.keeps_bind updateEdges_coords fun _ => ?_) fun _ => ?_ <;> keep
  case computeChordLine n => exact quiet_keeps (f := coords) (computeChordLine_keeps fun _ _ _ _ => rfl) s
  case computeCamberLine n => exact quiet_keeps (f := coords) (computeCamberLine_keeps fun _ _ => rfl) s
  case maxCamber n => exact Act.keeps_bind (f := coords) (maxCamber_keeps fun _ _ _ _ _ => rfl) (fun _ => Act.keeps_pure _ _) s
  case referencePoint =>
    exact Act.keeps_bind (f := coords) (Act.keeps_bind updateEdges_coords fun _ => Act.keeps_eval _ _) (fun _ => Act.keeps_pure _ _) s
  case maxThickness n => exact Act.keeps_bind (f := coords) (Act.keeps_eval _ _) (fun _ => Act.keeps_pure _ _) s
  case interpolate num r => exact Act.keeps_bind (f := coords) (Act.keeps_eval _ _) (fun _ => Act.keeps_pure _ _) s

/-- A call that is not meant to change the parameters does not, whatever its outcome. -/
theorem run_par (lib : Lib) (K : FoilClass) (c : Call) (s : Foil) (h : c.changesParameters = false) : (run lib K c s).1.par = s.par := by
  have hc : ∀ n, Act.Keeps Foil.par (computeCamberLine n) := fun n => computeCamberLine_keeps fun _ _ => rfl
  have hd : ∀ p n, Act.Keeps Foil.par (deformCamberLine p n) := by
    intro p n
    unfold deformCamberLine
    refine Act.keeps_bind (hc n) fun _ => Act.keeps_bind (Act.keeps_assign fun _ => rfl) fun _ => Act.keeps_bind (Act.keeps_eval _ _) fun m =>
      Act.keeps_bind ?_ fun _ => ?_
    · rcases m with _ | k <;> keep
    · keep
  cases c <;> simp only [Call.changesParameters, Bool.true_eq_false] at h <;> try rfl
  case generateCoordinates conv =>
    refine quiet_keeps (f := Foil.par) ?_ s
    rcases K with _ | ⟨d, n, co⟩
    · rcases conv with _ | (_ | _ | _) <;> unfold generateCoordinates <;> first | (unfold britishCoordinates; keep) | (unfold americanCoordinates; keep) | keep
    · rcases conv with _ | conv <;> unfold generateCoordinates <;> keep
  case rotate r d => exact quiet_keeps (f := Foil.par) (by unfold rotate; keep) s
  case scale f b =>
    refine quiet_keeps (f := Foil.par) ?_ s
    cases b <;> unfold scale
    · keep
    · refine Act.keeps_bind (Act.keeps_bind updateEdges_par fun _ => Act.keeps_eval _ _) fun _ => ?_
      keep
  case deformCamberLine p n => exact quiet_keeps (f := Foil.par) (hd p n) s
  case setCamberLineMax c =>
    refine quiet_keeps (f := Foil.par) (Act.keeps_bind (maxCamber_keeps fun _ _ _ _ _ => rfl) fun old => ?_) s
    exact Act.keeps_ite (Act.keeps_raise _ _) (hd _ _)
  case setThicknessMax t => exact quiet_keeps (f := Foil.par) (by unfold setThicknessMax; keep) s
  case computeChordLine n => exact quiet_keeps (f := Foil.par) (computeChordLine_keeps fun _ _ _ _ => rfl) s
  case computeCamberLine n => exact quiet_keeps (f := Foil.par) (hc n) s
  case maxCamber n => exact Act.keeps_bind (f := Foil.par) (maxCamber_keeps fun _ _ _ _ _ => rfl) (fun _ => Act.keeps_pure _ _) s
  case referencePoint =>
    exact Act.keeps_bind (f := Foil.par) (Act.keeps_bind updateEdges_par fun _ => Act.keeps_eval _ _) (fun _ => Act.keeps_pure _ _) s
  case maxThickness n => exact Act.keeps_bind (f := Foil.par) (Act.keeps_eval _ _) (fun _ => Act.keeps_pure _ _) s
  case interpolate num r => exact Act.keeps_bind (f := Foil.par) (Act.keeps_eval _ _) (fun _ => Act.keeps_pure _ _) s

/-- The outcome of a call is that of its description by results. -/
theorem run_outcome (lib : Lib) (K : FoilClass) (c : Call) (s : Foil) : (run lib K c s).2 = (c.result lib K s.view).map Prod.fst := by
  rcases run_result lib K c s with ⟨t, e, h1, h2, -⟩ | ⟨t, o, h1, h2⟩ <;> rw [h1, h2] <;> rfl

/-- Other than `generate_coordinates`, a call is determined by the coordinates, as far as its outcome and the coordinates go. -/
theorem result_four (lib : Lib) (K : FoilClass) (c : Call) (hc : c.isCoordinates = false) {P Q : Profile} (h : P.four = Q.four) :
    (c.result lib K P).map (fun r => (r.1, r.2.four)) = (c.result lib K Q).map (fun r => (r.1, r.2.four)) := by
  rw [Profile.dress_of_four h]
  generalize Q.par = q
  generalize Q.chordLine = u
  generalize Q.camberLine = v
  cases c <;> simp only [Call.isCoordinates, Bool.true_eq_false] at hc <;> try rfl
  case generateParameters conv =>
    simp only [Call.result]
    rw [Profile.dress_parameters _ _ _ _ _ (Profile.dress_american _ _ _ _ _ _)]
    rcases P.generateParameters (Profile.americanThickness lib.curve lib.newton) conv with e | R <;> rfl
  case rotate r d =>
    simp only [Call.result]
    rw [Profile.dress_rotate]
    rcases P.rotate r d with e | R <;> rfl
  case scale f b =>
    simp only [Call.result]
    rw [Profile.dress_scale]
    rcases P.scale f b with e | R <;> rfl
  case deformCamberLine p n =>
    simp only [Call.result]
    rw [Profile.dress_deform]
    rcases P.deformCamberLine p n with e | R <;> rfl
  case setCamberLineMax x =>
    simp only [Call.result]
    rw [Profile.dress_setCamber]
    rcases P.setCamberLineMax x with e | R <;> rfl
  case setThicknessMax t =>
    simp only [Call.result]
    rw [Profile.dress_setThickness]
    rcases P.setThicknessMax t with e | R <;> rfl
  case computeChordLine n =>
    simp only [Call.result]
    rw [Profile.dress_chordLine]
    rcases P.computeChordLine n with e | R <;> rfl
  case computeCamberLine n =>
    simp only [Call.result]
    rw [Profile.dress_camberLine]
    rcases P.computeCamberLine n with e | R <;> rfl
  case maxThickness n =>
    simp only [Call.result]
    rw [Profile.dress_maxThickness]
    rcases P.maxThickness n with e | R <;> rfl
  case maxCamber n =>
    simp only [Call.result]
    rw [Profile.dress_maxCamber]
    rcases P.maxCamber n with e | R <;> rfl
  case referencePoint =>
    simp only [Call.result]
    rw [Profile.dress_reference]
    rcases P.referencePoint with e | R <;> rfl
  case interpolate num r =>
    simp only [Call.result]
    rw [Profile.dress_interpolate]
    rcases P.interpolateCoordinates num r with e | R <;> rfl

theorem view_four (s : Foil) : s.view.four = s.coords := rfl

/-- Two objects with the same coordinates answer a call other than `generate_coordinates` in the same way. -/
theorem run_sync_coords (lib : Lib) (K : FoilClass) (c : Call) (hc : c.isCoordinates = false) {s t : Foil} (h : s.coords = t.coords) :
    (run lib K c s).2 = (run lib K c t).2 ∧ (run lib K c s).1.coords = (run lib K c t).1.coords := by
  have hr := result_four lib K c hc (P := s.view) (Q := t.view) h
  rcases run_result lib K c s with ⟨s', e, h1, h2, -, h3⟩ | ⟨s', o, h1, h2⟩ <;>
    rcases run_result lib K c t with ⟨t', e', k1, k2, -, k3⟩ | ⟨t', o', k1, k2⟩ <;> rw [h2, k2] at hr <;> rw [h1, k1]
  · obtain rfl := Except.error.inj hr
    exact ⟨rfl, by rw [h3 (.inl hc), k3 (.inl hc), h]⟩
  · cases hr
  · cases hr
  · have hr := Except.ok.inj hr
    simp only [Prod.mk.injEq] at hr
    exact ⟨by rw [hr.1], hr.2⟩

end Foil

namespace Act

/-- Statements that act alike on related objects. -/
def Sync (R : Foil → Foil → Prop) (a : Act α) : Prop := ∀ s t, R s t → (a s).2 = (a t).2 ∧ R (a s).1 (a t).1

theorem sync_bind {R : Foil → Foil → Prop} {a : Act α} {g : α → Act β} (ha : Sync R a) (hg : ∀ x, Sync R (g x)) : Sync R (a >>= g) := by
  intro s t h
  obtain ⟨h1, h2⟩ := ha s t h
  rcases hs : a s with ⟨s', e | x⟩ <;> rcases ht : a t with ⟨t', e' | x'⟩ <;> rw [hs, ht] at h1 h2 <;> cases h1
  · rw [bind_error hs, bind_error ht]; exact ⟨rfl, h2⟩
  · rw [bind_ok hs, bind_ok ht]; exact hg x _ _ h2

theorem sync_eval {R : Foil → Foil → Prop} {f : Foil → Res α} (h : ∀ s t, R s t → f s = f t) : Sync R (Act.eval f) := fun s t hr => ⟨h s t hr, hr⟩
theorem sync_assign {R : Foil → Foil → Prop} {u : Foil → Foil} (h : ∀ s t, R s t → R (u s) (u t)) : Sync R (Act.assign u) := fun s t hr => ⟨rfl, h s t hr⟩
theorem sync_pure (R : Foil → Foil → Prop) (x : α) : Sync R (pure x : Act α) := fun _ _ hr => ⟨rfl, hr⟩
theorem sync_raise (R : Foil → Foil → Prop) (e : PyErr) : Sync R (Act.raise e : Act α) := fun _ _ hr => ⟨rfl, hr⟩
theorem sync_ite {R : Foil → Foil → Prop} {p : Prop} {_ : Decidable p} {a b : Act α} (ha : Sync R a) (hb : Sync R b) : Sync R (if p then a else b) := by
  split <;> assumption

end Act

namespace Foil

/-- The objects differ at most in the stored chord and camber lines. -/
def Lines (s t : Foil) : Prop := ∃ c d, t = { s with chordLine := c, camberLine := d }

/-- The objects differ at most in the stored lines and edges. -/
def Lines' (s t : Foil) : Prop := ∃ c d l m, t = { s with chordLine := c, camberLine := d, le := l, te := m }

theorem same_iff {s t : Foil} : Same s t ↔ Lines' s t := by
  constructor
  · rintro ⟨h1, h2⟩
    rcases s with ⟨_, _, _, _, _, _, _, _, _⟩
    rcases t with ⟨_, _, _, _, _, _, _, _, _⟩
    simp only [coords, Prod.mk.injEq] at h1 h2
    obtain ⟨rfl, rfl, rfl, rfl⟩ := h1
    obtain rfl := h2
    exact ⟨_, _, _, _, rfl⟩
  · rintro ⟨c, d, l, m, rfl⟩; exact ⟨rfl, rfl⟩

theorem sync_eval_lines {f : Foil → Res α} (h : ∀ (s : Foil) c d, f s = f { s with chordLine := c, camberLine := d }) : Act.Sync Lines (Act.eval f) :=
  Act.sync_eval (by rintro s _ ⟨c, d, rfl⟩; exact h s c d)
theorem sync_eval_lines' {f : Foil → Res α} (h : ∀ (s : Foil) c d l m, f s = f { s with chordLine := c, camberLine := d, le := l, te := m }) :
    Act.Sync Lines' (Act.eval f) :=
  Act.sync_eval (by rintro s _ ⟨c, d, l, m, rfl⟩; exact h s c d l m)
theorem sync_assign_lines {u : Foil → Foil} (h : ∀ (s : Foil) c d, Lines (u s) (u { s with chordLine := c, camberLine := d })) :
    Act.Sync Lines (Act.assign u) :=
  Act.sync_assign (by rintro s _ ⟨c, d, rfl⟩; exact h s c d)
theorem sync_assign_lines' {u : Foil → Foil} (h : ∀ (s : Foil) c d l m, Lines' (u s) (u { s with chordLine := c, camberLine := d, le := l, te := m })) :
    Act.Sync Lines' (Act.assign u) :=
  Act.sync_assign (by rintro s _ ⟨c, d, l, m, rfl⟩; exact h s c d l m)

/-- Prove that statements act alike, by going through them. -/
macro "sync" : tactic => `(tactic|
  repeat (first | exact Act.sync_raise _ _ | exact Act.sync_pure _ _ |
    exact sync_eval_lines fun _ _ _ => rfl | exact sync_eval_lines' fun _ _ _ _ _ => rfl |
    exact sync_assign_lines fun _ c d => ⟨c, d, rfl⟩ | exact sync_assign_lines' fun _ c d l m => ⟨c, d, l, m, rfl⟩ |
    apply Act.sync_ite | apply Act.sync_bind | intro (_ : _)))

theorem updateEdges_sync : Act.Sync Lines updateEdges := by unfold updateEdges; sync

theorem parameters_sync (lib : Lib) (conv : Profile.Convention) : Act.Sync Lines (generateParameters lib conv) := by
  unfold generateParameters storeChordCamber storeThickness
  refine Act.sync_bind (Act.sync_bind updateEdges_sync fun _ => ?_) fun _ => ?_
  · sync
  · sync

theorem coordinates_sync (lib : Lib) (K : FoilClass) (conv : Option Profile.Convention) : Act.Sync Lines' (generateCoordinates lib K conv) := by
  rcases K with _ | ⟨d, n, co⟩
  · rcases conv with _ | (_ | _ | _)
    · unfold generateCoordinates britishCoordinates; sync
    · unfold generateCoordinates britishCoordinates; sync
    · unfold generateCoordinates americanCoordinates; sync
    · unfold generateCoordinates; sync
  · rcases conv with _ | conv <;> unfold generateCoordinates <;> sync

theorem edges_forgotten (lib : Lib) (conv : Profile.Convention) (s : Foil) (l m : Option Pt) :
    generateParameters lib conv { s with le := l, te := m } = generateParameters lib conv s := rfl

/-- Two objects with the same coordinates and parameters answer every call alike, and still have the same coordinates and parameters. -/
theorem run_sync (lib : Lib) (K : FoilClass) (c : Call) {s t : Foil} (h : Same s t) :
    (run lib K c s).2 = (run lib K c t).2 ∧ Same (run lib K c s).1 (run lib K c t).1 := by
  have quiet_sync : ∀ {R : Foil → Foil → Prop} {a : Act Unit}, Act.Sync R a → Act.Sync R (quiet a) := fun ha => Act.sync_bind ha fun _ => Act.sync_pure _ _
  by_cases hc : c.isCoordinates = true
  · cases c <;> simp only [Call.isCoordinates, Bool.false_eq_true] at hc
    rename_i conv
    obtain ⟨h1, h2⟩ := quiet_sync (coordinates_sync lib K conv) s t (same_iff.1 h)
    exact ⟨h1, same_iff.2 h2⟩
  replace hc : c.isCoordinates = false := by simpa using hc
  obtain ⟨h1, h2⟩ := run_sync_coords lib K c hc h.1
  refine ⟨h1, h2, ?_⟩
  by_cases hp : c.changesParameters = false
  · rw [run_par lib K c s hp, run_par lib K c t hp, h.2]
  · have hpar := h.2
    obtain ⟨u, v, l, m, rfl⟩ := same_iff.1 h
    cases c <;> simp only [Call.changesParameters, not_true_eq_false] at hp <;> try rfl
    case generateParameters conv =>
    obtain ⟨-, u', v', h3⟩ := quiet_sync (parameters_sync lib conv) s { s with chordLine := u, camberLine := v } ⟨u, v, rfl⟩
    have e : run lib K (.generateParameters conv) { s with chordLine := u, camberLine := v, le := l, te := m } =
      quiet (generateParameters lib conv) { s with chordLine := u, camberLine := v } := rfl
    rw [e, h3]
    rfl

end Foil
end
end BladeX
