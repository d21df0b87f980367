import Verif.Spec.ProfileLife
import Verif.Lemmas.American
import Verif.Lemmas.Edges
import Verif.Lemmas.Lists

/-! # Lemmas about the statement-by-statement model of a profile object -/

namespace BladeX
noncomputable section
open Classical

namespace Act

theorem bind_eq (f : Act α) (g : α → Act β) (s : Foil) : (f >>= g) s = Act.bind f g s := rfl

theorem bind_ok {f : Act α} {g : α → Act β} {s t : Foil} {a : α} (h : f s = (t, .ok a)) : (f >>= g) s = g a t := by
  rw [bind_eq, Act.bind, h]

theorem bind_error {f : Act α} {g : α → Act β} {s t : Foil} {e : PyErr} (h : f s = (t, .error e)) : (f >>= g) s = (t, .error e) := by
  rw [bind_eq, Act.bind, h]

theorem assign_bind (f : Foil → Foil) (g : Unit → Act β) (s : Foil) : (Act.assign f >>= g) s = g () (f s) := rfl

theorem eval_ok {f : Foil → Res α} {g : α → Act β} {s : Foil} {a : α} (h : f s = .ok a) : (Act.eval f >>= g) s = g a s :=
  bind_ok (f := Act.eval f) (by rw [Act.eval, h])

theorem eval_error {f : Foil → Res α} {g : α → Act β} {s : Foil} {e : PyErr} (h : f s = .error e) :
    (Act.eval f >>= g) s = (s, .error e) :=
  bind_error (f := Act.eval f) (by rw [Act.eval, h])

theorem pure_eq (a : α) (s : Foil) : (pure a : Act α) s = (s, .ok a) := rfl

/-- The statements leave what `f` reads unchanged, also when they raise. -/
def Keeps (f : Foil → β) (a : Act α) : Prop := ∀ s, f (a s).1 = f s

theorem keeps_bind {f : Foil → β} {a : Act α} {g : α → Act γ} (ha : Keeps f a) (hg : ∀ x, Keeps f (g x)) : Keeps f (a >>= g) := by
  intro s
  rcases h : a s with ⟨t, e | x⟩
  · rw [bind_error h, ← ha s, h]
  · rw [bind_ok h, hg x t, ← ha s, h]

theorem keeps_eval (f : Foil → β) (r : Foil → Res α) : Keeps f (Act.eval r) := fun _ => rfl
theorem keeps_raise (f : Foil → β) (e : PyErr) : Keeps f (Act.raise e : Act α) := fun _ => rfl
theorem keeps_pure (f : Foil → β) (x : α) : Keeps f (pure x : Act α) := fun _ => rfl
theorem keeps_assign {f : Foil → β} {u : Foil → Foil} (h : ∀ s, f (u s) = f s) : Keeps f (Act.assign u) := h

theorem keeps_ite {f : Foil → β} {p : Prop} {_ : Decidable p} {a b : Act α} (ha : Keeps f a) (hb : Keeps f b) : Keeps f (if p then a else b) := by
  split <;> assumption

end Act

/-- Prove that statements keep an attribute, by going through them. -/
macro "keep" : tactic => `(tactic|
  repeat (first | exact Act.keeps_eval _ _ | exact Act.keeps_raise _ _ | exact Act.keeps_pure _ _ |
    (apply Act.keeps_assign; intro _; rfl) | apply Act.keeps_ite | apply Act.keeps_bind | intro _))

namespace Foil

theorem updateEdges_keeps {f : Foil → β} (h : ∀ s l t, f { s with le := l, te := t } = f s) : Act.Keeps f updateEdges := by
  have h1 : ∀ (s : Foil) l, f { s with le := l } = f s := fun s l => h s l s.te
  have h2 : ∀ (s : Foil) t, f { s with te := t } = f s := fun s t => h s s.le t
  unfold updateEdges
  repeat (first | exact Act.keeps_eval _ _ | exact Act.keeps_raise _ _ | exact Act.keeps_pure _ _ |
    (apply Act.keeps_assign; intro _; first | exact h _ _ _ | exact h1 _ _ | exact h2 _ _) | apply Act.keeps_ite | apply Act.keeps_bind | intro _)

/-- `_update_edges` on the object raises as the description by results does, and stores the edges when it does not raise. -/
theorem updateEdges_run (s : Foil) :
    (∃ t e, updateEdges s = (t, .error e) ∧ s.view.updateEdges = .error e) ∨
    (∃ e, updateEdges s = ({ s with le := some e.1, te := some e.2 }, .ok ()) ∧ s.view.updateEdges = .ok e) := by
  unfold updateEdges Profile.updateEdges
  rw [Act.assign_bind]
  rcases h1 : getFirst s.xup with e | xu0
  · exact .inl ⟨_, e, Act.eval_error h1, by simp [view, h1, bind, Except.bind]⟩
  rw [Act.eval_ok (a := xu0) h1]
  rcases h2 : getFirst s.xdown with e | xd0
  · exact .inl ⟨_, e, Act.eval_error h2, by simp [view, h1, h2, bind, Except.bind]⟩
  rw [Act.eval_ok (a := xd0) h2]
  by_cases c1 : |xu0 - xd0| > 1e-4
  · exact .inl ⟨_, .valueError, by rw [if_pos c1]; rfl, by
      simp [view, h1, h2, c1, bind, Except.bind, throw, throwThe, MonadExceptOf.throw]⟩
  rw [if_neg c1]
  rcases h3 : getLast s.xup with e | xu1
  · exact .inl ⟨_, e, Act.eval_error h3, by
      simp [view, h1, h2, h3, c1, bind, Except.bind, pure, Except.pure]⟩
  rw [Act.eval_ok (a := xu1) h3]
  rcases h4 : getLast s.xdown with e | xd1
  · exact .inl ⟨_, e, Act.eval_error h4, by
      simp [view, h1, h2, h3, h4, c1, bind, Except.bind, pure, Except.pure]⟩
  rw [Act.eval_ok (a := xd1) h4]
  by_cases c2 : |xu1 - xd1| > 1e-4
  · exact .inl ⟨_, .valueError, by rw [if_pos c2]; rfl, by
      simp [view, h1, h2, h3, h4, c1, c2, bind, Except.bind, pure, Except.pure, throw, throwThe, MonadExceptOf.throw]⟩
  rw [if_neg c2, Act.assign_bind]
  rcases h5 : getFirst s.yup with e | yu0
  · exact .inl ⟨_, e, Act.eval_error h5, by
      simp [view, h1, h2, h3, h4, h5, c1, c2, bind, Except.bind, pure, Except.pure]⟩
  rw [Act.eval_ok (a := yu0) h5, Act.assign_bind, Act.assign_bind]
  rcases h6 : getLast s.yup with e | yu1
  · exact .inl ⟨_, e, Act.eval_error h6, by
      simp [view, h1, h2, h3, h4, h5, h6, c1, c2, bind, Except.bind, pure, Except.pure]⟩
  rw [Act.eval_ok (a := yu1) h6]
  rcases h7 : getLast s.ydown with e | yd1
  · exact .inl ⟨_, e, Act.eval_error h7, by
      simp [view, h1, h2, h3, h4, h5, h6, h7, c1, c2, bind, Except.bind, pure, Except.pure]⟩
  rw [Act.eval_ok (a := yd1) h7]
  right
  by_cases c3 : yu1 = yd1
  · exact ⟨((xu0, yu0), (xu1, yu1)), by rw [if_pos c3]; rfl, by
      simp [view, h1, h2, h3, h4, h5, h6, h7, c1, c2, c3, bind, Except.bind, pure, Except.pure]⟩
  · exact ⟨((xu0, yu0), (xu1, 0.5 * (yu1 + yd1))), by rw [if_neg c3]; rfl, by
      simp [view, h1, h2, h3, h4, h5, h6, h7, c1, c2, c3, bind, Except.bind, pure, Except.pure]⟩

theorem updateEdges_ok_iff {s t : Foil} : updateEdges s = (t, .ok ()) ↔
    ∃ e, s.view.updateEdges = .ok e ∧ t = { s with le := some e.1, te := some e.2 } := by
  rcases updateEdges_run s with ⟨t', e, h1, h2⟩ | ⟨e, h1, h2⟩
  · rw [h1, h2]; simp
  · rw [h1, h2]
    simp only [Prod.mk.injEq, and_true, Except.ok.injEq]
    constructor
    · rintro rfl; exact ⟨e, rfl, rfl⟩
    · rintro ⟨_, rfl, rfl⟩; rfl

theorem updateEdges_error {s t : Foil} {e : PyErr} (h : updateEdges s = (t, .error e)) : s.view.updateEdges = .error e := by
  rcases updateEdges_run s with ⟨t', e', h1, h2⟩ | ⟨e', h1, h2⟩
  · rw [h1] at h; cases h; exact h2
  · rw [h1] at h; cases h

theorem updateEdges_coords : Act.Keeps coords updateEdges := updateEdges_keeps fun _ _ _ => rfl
theorem updateEdges_par : Act.Keeps Foil.par updateEdges := updateEdges_keeps fun _ _ _ => rfl
theorem updateEdges_view : Act.Keeps view updateEdges := updateEdges_keeps fun _ _ _ => rfl

/-- `reference_point` of the object. -/
theorem referencePoint_run (s : Foil) :
    (∃ t e, referencePoint s = (t, .error e) ∧ s.view.referencePoint = .error e ∧ t = (updateEdges s).1) ∨
    (∃ e p, referencePoint s = ({ s with le := some e.1, te := some e.2 }, .ok p) ∧ s.view.updateEdges = .ok e ∧ s.view.referencePoint = .ok p) := by
  unfold referencePoint Profile.referencePoint
  rcases updateEdges_run s with ⟨t, e, h1, h2⟩ | ⟨e, h1, h2⟩
  · left
    exact ⟨t, e, Act.bind_error h1, by rw [h2]; rfl, by rw [h1]⟩
  · right
    refine ⟨e, _, ?_, h2, by rw [h2]; rfl⟩
    rw [Act.bind_ok h1]; rfl

/-- The american thickness is computed from the coordinates alone. -/
theorem american_coords (curve : Arr → Arr → Res (ℝ → ℝ)) (newton : (Arr → Arr) → Arr → Res Arr) {s t : Foil} (h : s.coords = t.coords) :
    Profile.americanThickness curve newton s.view = Profile.americanThickness curve newton t.view := by
  rcases s with ⟨a, b, c, d, _, _, _, _, _⟩
  rcases t with ⟨a', b', c', d', _, _, _, _, _⟩
  simp only [coords, Prod.mk.injEq] at h
  obtain ⟨rfl, rfl, rfl, rfl⟩ := h
  rfl

/-- Chord length of the coordinates. -/
def chordOf (e : Pt × Pt) : ℝ := Real.sqrt ((e.1.1 - e.2.1) ^ 2 + (e.1.2 - e.2.2) ^ 2)

theorem storeChordCamber_run (s : Foil) :
    (∃ t e, storeChordCamber s = (t, .error e) ∧ s.view.updateEdges = .error e ∧ t.par = s.par) ∨
    (∃ e, s.view.updateEdges = .ok e ∧
      ((storeChordCamber s = ({ s with le := some e.1, te := some e.2, par := { s.par with chordLength := chordOf e } }, .error .nonFinite) ∧
        chordOf e = 0) ∨
      ∃ mn, npMin s.xup = .ok mn ∧ chordOf e ≠ 0 ∧
        ((∃ err, storeChordCamber s = ({ s with le := some e.1, te := some e.2, par := { s.par with chordLength := chordOf e, chordPerc := (s.xup.map (· - mn)).map (· / chordOf e) } }, .error err) ∧ bzip (fun a b => (a + b) / 2) s.yup s.ydown = .error err) ∨
        ∃ camber mc, bzip (fun a b => (a + b) / 2) s.yup s.ydown = .ok camber ∧ npMax camber = .ok mc ∧
          storeChordCamber s = ({ s with le := some e.1, te := some e.2, par := { s.par with chordLength := chordOf e, chordPerc := (s.xup.map (· - mn)).map (· / chordOf e), camberMax := |mc|, camberPerc := if |mc| = 0 then List.replicate s.xup.length 0 else camber.map (· / |mc|) } }, .ok ())))) := by
  unfold storeChordCamber
  rcases updateEdges_run s with ⟨t, e, h1, h2⟩ | ⟨e, h1, h2⟩
  · refine .inl ⟨t, e, Act.bind_error h1, h2, ?_⟩
    have := updateEdges_par s
    rwa [h1] at this
  right
  refine ⟨e, h2, ?_⟩
  rw [Act.bind_ok h1, Act.assign_bind]
  obtain ⟨xu0, xd0, xu1, xd1, yu0, yu1, yd1, hx0, -, hx1, -, hy0, hy1, hd1, -⟩ := Profile.updateEdges_ok h2
  have hne : s.xup ≠ [] := by rintro h; simp [view, h] at hx0
  obtain ⟨mn, h3⟩ := npMin_exists hne
  rw [Act.eval_ok (a := mn) h3]
  by_cases hc : chordOf e = 0
  · left
    refine ⟨?_, hc⟩
    rw [Act.eval_error (e := .nonFinite) (by
      show divScalar _ (chordOf e) = _
      rw [divScalar, if_pos hc])]
    rfl
  right
  refine ⟨mn, h3, hc, ?_⟩
  rw [Act.eval_ok (a := (s.xup.map (· - mn)).map (· / chordOf e)) (by
      show divScalar _ (chordOf e) = _
      rw [divScalar, if_neg hc])]
  rw [Act.assign_bind]
  rcases h5 : bzip (fun a b => (a + b) / 2) s.yup s.ydown with e' | camber
  · left
    refine ⟨e', ?_, rfl⟩
    rw [Act.eval_error h5]
    rfl
  right
  have hcne : camber ≠ [] := by
    rintro rfl
    have hu : s.yup ≠ [] := by rintro h; simp [view, h] at hy0
    have hd : s.ydown ≠ [] := by rintro h; simp [view, h] at hd1
    unfold bzip at h5
    split at h5
    · rcases hs : s.yup with _ | ⟨a, l⟩
      · exact hu hs
      · rcases hs' : s.ydown with _ | ⟨b, l'⟩
        · exact hd hs'
        · rw [hs, hs'] at h5; simp at h5
    · split at h5
      · simp only [Except.ok.injEq, List.map_eq_nil_iff] at h5; exact hd h5
      · simp only [Except.ok.injEq, List.map_eq_nil_iff] at h5; exact hu h5
      · cases h5
  obtain ⟨mc, h6⟩ := npMax_exists hcne
  refine ⟨camber, mc, rfl, h6, ?_⟩
  rw [Act.eval_ok (a := camber) h5, Act.eval_ok (a := mc) h6]
  rfl

theorem storeThickness_run (lib : Lib) (conv : Profile.Convention) (s : Foil) :
    (∃ e, storeThickness lib conv s = (s, .error e) ∧ (thickness lib conv s >>= npMax) = .error e) ∨
    (∃ th tm, thickness lib conv s = .ok th ∧ npMax th = .ok tm ∧ storeThickness lib conv s =
      ({ s with par := { s.par with thicknessMax := tm, thicknessPerc := if tm = 0 then List.replicate s.xup.length 0 else th.map (· / tm) } }, .ok ())) := by
  unfold storeThickness
  rcases h1 : thickness lib conv s with e | th
  · exact .inl ⟨e, Act.eval_error h1, rfl⟩
  rw [Act.eval_ok h1]
  rcases h2 : npMax th with e | tm
  · exact .inl ⟨e, by rw [Act.eval_error rfl], h2⟩
  exact .inr ⟨th, tm, rfl, h2, rfl⟩

theorem thickness_congr (lib : Lib) (conv : Profile.Convention) {s t : Foil} (h : s.coords = t.coords) (hc : s.par.camberMax = t.par.camberMax) :
    thickness lib conv s = thickness lib conv t := by
  unfold thickness
  rw [hc, american_coords lib.curve lib.newton h]
  simp only [coords, Prod.mk.injEq] at h
  rw [h.2.2.1, h.2.2.2]

theorem generateParameters_run (lib : Lib) (conv : Profile.Convention) (s : Foil) :
    (∃ t e, generateParameters lib conv s = (t, .error e) ∧
      s.view.generateParameters (Profile.americanThickness lib.curve lib.newton) conv = .error e) ∨
    (∃ e q, generateParameters lib conv s = ({ s with le := some e.1, te := some e.2, par := q }, .ok ()) ∧ s.view.updateEdges = .ok e ∧
      s.view.generateParameters (Profile.americanThickness lib.curve lib.newton) conv = .ok { s.view with par := some q }) := by
  unfold generateParameters
  have key : ∀ (mc : ℝ) (u : Foil), u.coords = s.coords → u.par.camberMax = |mc| → thickness lib conv u =
      (if conv = .british ∨ |mc| = 0 then bzip (fun a b => |a - b|) s.view.yup s.view.ydown
      else if conv = .american then Profile.americanThickness lib.curve lib.newton s.view else .error .unboundLocal) := by
    intro mc u hu hm
    unfold thickness
    rw [hm, american_coords lib.curve lib.newton hu]
    simp only [coords, Prod.mk.injEq] at hu
    rw [hu.2.2.1, hu.2.2.2]
    rfl
  rcases storeChordCamber_run s with ⟨t, e, h1, h2, -⟩ | ⟨e, h2, ⟨h1, hc⟩ | ⟨mn, h3, hc, ⟨err, h1, h5⟩ | ⟨camber, mc, h5, h6, h1⟩⟩⟩
  · exact .inl ⟨t, e, Act.bind_error h1, by rw [Profile.generateParameters, h2]; rfl⟩
  · refine .inl ⟨_, _, Act.bind_error h1, ?_⟩
    obtain ⟨xu0, -, -, -, -, -, -, hx0, -⟩ := Profile.updateEdges_ok h2
    obtain ⟨mn, h3⟩ := npMin_exists (l := s.view.xup) (by rintro h; simp [h] at hx0)
    have h4 : ∀ a, divScalar a (Real.sqrt ((e.1.1 - e.2.1) ^ 2 + (e.1.2 - e.2.2) ^ 2)) = .error .nonFinite := fun a => if_pos hc
    rw [Profile.generateParameters, h2]
    simp only [bind, Except.bind, h3, h4]
  · refine .inl ⟨_, _, Act.bind_error h1, ?_⟩
    have h3' : npMin s.view.xup = .ok mn := h3
    have h4 : ∀ a, divScalar a (Real.sqrt ((e.1.1 - e.2.1) ^ 2 + (e.1.2 - e.2.2) ^ 2)) = .ok (a.map (· / chordOf e)) := fun a => if_neg hc
    have h5' : bzip (fun a b => (a + b) / 2) s.view.yup s.view.ydown = .error err := h5
    rw [Profile.generateParameters, h2]
    simp only [bind, Except.bind, h3', h4, h5']
  · have h3' : npMin s.view.xup = .ok mn := h3
    have h4 : ∀ a, divScalar a (Real.sqrt ((e.1.1 - e.2.1) ^ 2 + (e.1.2 - e.2.2) ^ 2)) = .ok (a.map (· / chordOf e)) := fun a => if_neg hc
    have h5' : bzip (fun a b => (a + b) / 2) s.view.yup s.view.ydown = .ok camber := h5
    obtain ⟨u, hu⟩ : ∃ u : Foil, u = (storeChordCamber s).1 := ⟨_, rfl⟩
    have hk := key mc u (by rw [hu, h1]; rfl) (by rw [hu, h1])
    have hb : storeChordCamber s = (u, .ok ()) := by rw [hu, h1]
    rw [h1] at hu
    rw [Act.bind_ok hb, Profile.generateParameters, h2]
    simp only [bind, Except.bind, h3', h4, h5', h6, throw, throwThe, MonadExceptOf.throw]
    rcases storeThickness_run lib conv u with ⟨err, h7, h8⟩ | ⟨th, tm, h7, h8, h9⟩
    · refine .inl ⟨_, err, h7, ?_⟩
      rw [hk] at h8
      revert h8
      generalize (if conv = .british ∨ |mc| = 0 then bzip (fun a b => |a - b|) s.view.yup s.view.ydown
        else if conv = .american then Profile.americanThickness lib.curve lib.newton s.view else .error .unboundLocal) = r
      intro h8
      rcases r with er | th
      · obtain rfl : er = err := by simpa [bind, Except.bind] using h8
        rfl
      · have : npMax th = .error err := h8
        simp only [this]
    · rw [hk] at h7
      refine .inr ⟨e, _, by rw [h9, hu], rfl, ?_⟩
      rw [h7]
      simp only [h8]
      rfl

theorem bzip_same {f : ℝ → ℝ → ℝ} {a b c : Arr} (h : bzip f a b = .ok c) (g : ℝ → ℝ → ℝ) : ∃ d, bzip g a b = .ok d ∧ d.length = c.length := by
  unfold bzip at h ⊢
  split at h
  · rename_i hl
    rw [if_pos hl]
    cases h
    exact ⟨_, rfl, by simp⟩
  · rename_i hl
    rw [if_neg hl]
    split at h
    · cases h; exact ⟨_, rfl, by simp⟩
    · rename_i x y hx
      cases h
      refine ⟨_, rfl, by simp⟩
    · cases h

theorem bzip_swap {f : ℝ → ℝ → ℝ} {a b c : Arr} (h : bzip f a b = .ok c) (g : ℝ → ℝ → ℝ) : ∃ d, bzip g b a = .ok d ∧ d.length = c.length := by
  by_cases hl : a.length = b.length
  · rw [bzip_eq_len hl] at h
    cases h
    exact ⟨_, bzip_eq_len hl.symm, by simp [Nat.min_comm]⟩
  · unfold bzip at h ⊢
    rw [if_neg hl] at h
    rw [if_neg (fun h => hl h.symm)]
    split at h
    · rename_i x
      cases h
      rcases b with _ | ⟨y, _ | ⟨z, b⟩⟩
      · exact ⟨_, rfl, by simp⟩
      · simp at hl
      · exact ⟨_, rfl, by simp⟩
    · rename_i y hx
      cases h
      exact ⟨_, rfl, by simp⟩
    · cases h

theorem chordLine_frame {P Q : Profile} {n : Option Int} (h : P.computeChordLine n = .ok Q) :
    Q = { P with chordLine := Q.chordLine } ∧ ∃ e, P.updateEdges = .ok e := by
  unfold Profile.computeChordLine at h
  rw [Profile.bndA] at h
  obtain ⟨e, h1, h⟩ := h
  by_cases hz : e.2.1 - e.1.1 = 0
  · rw [if_pos hz] at h; cases h
  rw [if_neg hz] at h
  simp only [pure_bind] at h
  rw [Profile.bndA] at h
  obtain ⟨m, h2, h⟩ := h
  rcases m with _ | k
  · obtain rfl := Except.ok.inj h
    exact ⟨rfl, e, h1⟩
  · simp only at h
    rw [Profile.bndA] at h
    obtain ⟨xs, h3, h⟩ := h
    obtain rfl := Except.ok.inj h
    exact ⟨rfl, e, h1⟩

theorem camberLine_frame {P Q : Profile} {n : Option Int} (h : P.computeCamberLine n = .ok Q) : ∃ cl, Q = { P with camberLine := some cl } := by
  unfold Profile.computeCamberLine at h
  rw [Profile.bndA] at h
  obtain ⟨m, h2, h⟩ := h
  rcases m with _ | k <;> simp only at h
  · rw [Profile.bndA] at h
    obtain ⟨ys, h3, h⟩ := h
    rw [Profile.bndA] at h
    obtain ⟨cl, h4, h⟩ := h
    obtain rfl := Except.ok.inj h
    exact ⟨_, rfl⟩
  · rw [Profile.bndA] at h
    obtain ⟨t, h3, h⟩ := h
    rw [Profile.bndA] at h
    obtain ⟨ys, h4, h⟩ := h
    rw [Profile.bndA] at h
    obtain ⟨cl, h5, h⟩ := h
    obtain rfl := Except.ok.inj h
    exact ⟨_, rfl⟩

theorem chordLine_error {P : Profile} {n : Option Int} {e : PyErr} (h : P.updateEdges = .error e) : P.computeChordLine n = .error e := by
  rw [Profile.computeChordLine, h]; rfl

theorem computeChordLine_run (n : Option Int) (s : Foil) :
    (∃ t e, computeChordLine n s = (t, .error e) ∧ s.view.computeChordLine n = .error e) ∨
    (∃ e Q, computeChordLine n s = ({ s with le := some e.1, te := some e.2, chordLine := Q.chordLine }, .ok ()) ∧ s.view.updateEdges = .ok e ∧
      s.view.computeChordLine n = .ok Q ∧ Q = { s.view with chordLine := Q.chordLine }) := by
  unfold computeChordLine
  rcases updateEdges_run s with ⟨t, e, h1, h2⟩ | ⟨e, h1, h2⟩
  · exact .inl ⟨t, e, Act.bind_error h1, chordLine_error h2⟩
  rw [Act.bind_ok h1]
  rcases h3 : s.view.computeChordLine n with e' | Q
  · exact .inl ⟨_, e', Act.eval_error h3, rfl⟩
  · rw [Act.eval_ok (a := Q) h3]
    exact .inr ⟨e, Q, rfl, h2, rfl, (chordLine_frame h3).1⟩

theorem computeCamberLine_run (n : Option Int) (s : Foil) :
    (∃ e, computeCamberLine n s = (s, .error e) ∧ s.view.computeCamberLine n = .error e) ∨
    (∃ cl, computeCamberLine n s = ({ s with camberLine := some cl }, .ok ()) ∧ s.view.computeCamberLine n = .ok { s.view with camberLine := some cl }) := by
  unfold computeCamberLine
  rcases h3 : s.view.computeCamberLine n with e' | Q
  · exact .inl ⟨e', Act.eval_error h3, rfl⟩
  · obtain ⟨cl, rfl⟩ := camberLine_frame h3
    rw [Act.eval_ok h3]
    exact .inr ⟨cl, rfl, rfl⟩

theorem camberLine_ok {P : Profile} {n : Option Int} {cl : Arr × Arr} (h : P.computeCamberLine n = .ok { P with camberLine := some cl }) :
    ∃ m, P.effectiveN n = .ok m ∧ match m with
      | none => bzip (fun a b => 0.5 * (a + b)) P.ydown P.yup = .ok cl.2 ∧ cl.1 = P.xup ∧ cl.2.length = P.xup.length
      | some k => ∃ t, P.interpolateCoordinates (.int k) 1 = .ok t ∧ bzip (fun a b => 0.5 * (a + b)) t.yyUp t.yyDown = .ok cl.2 := by
  unfold Profile.computeCamberLine at h
  rw [Profile.bndA] at h
  obtain ⟨m, h2, h⟩ := h
  refine ⟨m, h2, ?_⟩
  rcases m with _ | k <;> simp only at h ⊢
  · rw [Profile.bndA] at h
    obtain ⟨ys, h3, h⟩ := h
    rw [Profile.bndA] at h
    obtain ⟨cl', h4, h⟩ := h
    have h := Except.ok.inj h
    have h : cl' = cl := by injection h with _ _ _ _ _ _ h; exact Option.some.inj h
    subst h
    unfold npArray2 at h4
    split at h4
    · rename_i hl
      cases h4
      exact ⟨h3, rfl, hl.symm⟩
    · cases h4
  · rw [Profile.bndA] at h
    obtain ⟨t, h3, h⟩ := h
    rw [Profile.bndA] at h
    obtain ⟨ys, h4, h⟩ := h
    rw [Profile.bndA] at h
    obtain ⟨cl', h5, h⟩ := h
    have h := Except.ok.inj h
    have h : cl' = cl := by injection h with _ _ _ _ _ _ h; exact Option.some.inj h
    subst h
    unfold npArray2 at h5
    split at h5
    · cases h5
      exact ⟨t, h3, h4⟩
    · cases h5

/-- `deform_camber_line` changes the coordinates only if it succeeds. -/
theorem deformCamberLine_run (p : ℝ) (n : Option Int) (s : Foil) :
    (∃ e, deformCamberLine p n s = (s, .error e) ∧ s.view.deformCamberLine p n = .error e) ∨
    (∃ Q, deformCamberLine p n s = (s.put Q, .ok ()) ∧ s.view.deformCamberLine p n = .ok Q ∧ Q.par = s.view.par) := by
  unfold deformCamberLine Profile.deformCamberLine
  rcases computeCamberLine_run n s with ⟨e, h1, h2⟩ | ⟨cl, h1, h2⟩
  · exact .inl ⟨e, Act.bind_error h1, by rw [h2]; rfl⟩
  right
  obtain ⟨m, h3, h4⟩ := camberLine_ok h2
  rw [Act.bind_ok h1, Act.assign_bind, Act.eval_ok (a := m) h3, h2]
  rcases m with _ | k <;> simp only at h4
  · obtain ⟨h4, h5, h6⟩ := h4
    obtain ⟨half, h7, h8⟩ := bzip_swap h4 (fun a b => 0.5 * |a - b|)
    rw [Act.bind_ok (t := _) (a := ()) rfl, Act.eval_ok (a := half) h7]
    have e1 : ∀ g, bzip g (cl.2.map (· * (p / 100 + 1))) half = .ok (List.zipWith g (cl.2.map (· * (p / 100 + 1))) half) :=
      fun g => bzip_eq_len (by simp [h8])
    rw [Act.eval_ok (e1 _), Act.assign_bind, Act.eval_ok (e1 _)]
    refine ⟨{ s.view with yup := List.zipWith (· + ·) (cl.2.map (· * (p / 100 + 1))) half, ydown := List.zipWith (· - ·) (cl.2.map (· * (p / 100 + 1))) half, camberLine := some (cl.1, cl.2.map (· * (p / 100 + 1))) }, rfl, ?_, ?_⟩
    · simp only [bind, Except.bind, h3, pure, Except.pure, Option.getD_some, e1]
      have h7' : bzip (fun a b => 0.5 * |a - b|) s.view.yup s.view.ydown = .ok half := h7
      rw [h7']
      simp only [e1]
    · rfl
  · obtain ⟨t, h4, h5⟩ := h4
    obtain ⟨half, h7, h8⟩ := bzip_same h5 (fun a b => 0.5 * |a - b|)
    have e1 : ∀ g, bzip g (cl.2.map (· * (p / 100 + 1))) half = .ok (List.zipWith g (cl.2.map (· * (p / 100 + 1))) half) :=
      fun g => bzip_eq_len (by simp [h8])
    rw [Act.bind_ok (a := ()) (by simp only; rw [Act.eval_ok (a := t) h4]; rfl), Act.eval_ok (a := half) h7, Act.eval_ok (e1 _), Act.assign_bind, Act.eval_ok (e1 _)]
    refine ⟨{ s.view with xup := t.xxUp, xdown := t.xxDown, yup := List.zipWith (· + ·) (cl.2.map (· * (p / 100 + 1))) half, ydown := List.zipWith (· - ·) (cl.2.map (· * (p / 100 + 1))) half, camberLine := some (cl.1, cl.2.map (· * (p / 100 + 1))) }, rfl, ?_, ?_⟩
    · simp only [bind, Except.bind, h3, h4, pure, Except.pure, Option.getD_some, e1, h7]
    · rfl

theorem computeChordLine_keeps {f : Foil → β} (h : ∀ s l t c, f { s with le := l, te := t, chordLine := c } = f s) :
    Act.Keeps f (computeChordLine n) :=
  Act.keeps_bind (updateEdges_keeps fun s l t => h s l t s.chordLine) fun _ =>
    Act.keeps_bind (Act.keeps_eval _ _) fun Q => Act.keeps_assign fun s => h s s.le s.te Q.chordLine

theorem computeCamberLine_keeps {f : Foil → β} (h : ∀ s c, f { s with camberLine := c } = f s) : Act.Keeps f (computeCamberLine n) :=
  Act.keeps_bind (Act.keeps_eval _ _) fun Q => Act.keeps_assign fun s => h s Q.camberLine

theorem maxCamber_keeps {f : Foil → β} (h : ∀ s l t c d, f { s with le := l, te := t, chordLine := c, camberLine := d } = f s) :
    Act.Keeps f (maxCamber n) :=
  Act.keeps_bind (computeChordLine_keeps fun s l t c => h s l t c s.camberLine) fun _ =>
    Act.keeps_bind (computeCamberLine_keeps fun s d => h s s.le s.te s.chordLine d) fun _ => Act.keeps_eval _ _

theorem maxCamber_run (n : Option Int) (s : Foil) :
    (∃ t e, maxCamber n s = (t, .error e) ∧ s.view.maxCamber n = .error e) ∨
    (∃ e v Q, maxCamber n s = ({ s with le := some e.1, te := some e.2, chordLine := Q.chordLine, camberLine := Q.camberLine }, .ok v) ∧
      s.view.updateEdges = .ok e ∧ s.view.maxCamber n = .ok (v, Q) ∧ Q = { s.view with chordLine := Q.chordLine, camberLine := Q.camberLine }) := by
  unfold maxCamber Profile.maxCamber
  rcases computeChordLine_run n s with ⟨t, e, h1, h2⟩ | ⟨e, Q1, h1, h2, h3, h4⟩
  · exact .inl ⟨t, e, Act.bind_error h1, by rw [h2]; rfl⟩
  rw [Act.bind_ok h1, h3]
  obtain ⟨s1, hs1⟩ : ∃ s1 : Foil, s1 = { s with le := some e.1, te := some e.2, chordLine := Q1.chordLine } := ⟨_, rfl⟩
  have hv : s1.view = Q1 := by rw [hs1, h4]; rfl
  rw [← hs1]
  rcases computeCamberLine_run n s1 with ⟨e', h5, h6⟩ | ⟨cl, h5, h6⟩
  · refine .inl ⟨s1, e', Act.bind_error h5, ?_⟩
    rw [hv] at h6
    simp only [bind, Except.bind, h6]
  rw [Act.bind_ok h5]
  rw [hv] at h6
  have hc1 : s1.chordLine = Q1.chordLine := by rw [hs1]
  simp only [bind, Except.bind, h6, Act.eval, Option.getD_some]
  rw [hc1]
  by_cases hlen : (Q1.chordLine.getD ([], [])).1.length < cl.1.length
  · rw [if_pos hlen, if_pos hlen]
    exact .inl ⟨_, _, rfl, rfl⟩
  rw [if_neg hlen, if_neg hlen]
  simp only [pure, Except.pure]
  rcases h7 : Profile.signedMax (Profile.camberDistances (Q1.chordLine.getD ([], [])) cl) (Q1.chordLine.getD ([], [])).2 cl.2 with e' | v
  · exact .inl ⟨_, e', rfl, rfl⟩
  · refine .inr ⟨e, v, { Q1 with camberLine := some cl }, ?_, h2, rfl, ?_⟩
    · rw [hs1]
    · rw [h4]

theorem setCamberLineMax_run (c : ℝ) (s : Foil) :
    (∃ t e, setCamberLineMax c s = (t, .error e) ∧ s.view.setCamberLineMax c = .error e ∧ t.coords = s.coords ∧ t.par = s.par) ∨
    (∃ e Q, setCamberLineMax c s = ({ s with le := some e.1, te := some e.2 }.put Q, .ok ()) ∧ s.view.updateEdges = .ok e ∧
      s.view.setCamberLineMax c = .ok Q ∧ Q.par = s.view.par) := by
  unfold setCamberLineMax Profile.setCamberLineMax
  rcases maxCamber_run (some 500) s with ⟨t, e, h1, h2⟩ | ⟨e, v, Q, h1, h2, h3, h4⟩
  · refine .inl ⟨t, e, Act.bind_error h1, by rw [h2]; rfl, ?_, ?_⟩
    · have := maxCamber_keeps (n := some 500) (f := coords) (fun _ _ _ _ _ => rfl) s
      rwa [h1] at this
    · have := maxCamber_keeps (n := some 500) (f := Foil.par) (fun _ _ _ _ _ => rfl) s
      rwa [h1] at this
  rw [Act.bind_ok h1, h3]
  by_cases hz : v = 0
  · rw [if_pos hz]
    exact .inl ⟨_, .nonFinite, rfl, by simp [bind, Except.bind, hz, throw, throwThe, MonadExceptOf.throw], rfl, rfl⟩
  rw [if_neg hz]
  obtain ⟨s1, hs1⟩ : ∃ s1 : Foil, s1 = { s with le := some e.1, te := some e.2, chordLine := Q.chordLine, camberLine := Q.camberLine } := ⟨_, rfl⟩
  have hv : s1.view = Q := by rw [hs1, h4]; rfl
  have hval : ∀ x : Res Profile, Q.deformCamberLine (100 * (c - v) / v) none = x →
      ((Except.ok (v, Q) : Res (ℝ × Profile)) >>= fun r => do
        if r.1 = 0 then throw .nonFinite
        r.2.deformCamberLine (100 * (c - r.1) / r.1)) = x := by
    intro x hx
    simp only [bind, Except.bind, if_neg hz, pure, Except.pure]
    exact hx
  rw [← hs1]
  rcases deformCamberLine_run (100 * (c - v) / v) none s1 with ⟨e', h5, h6⟩ | ⟨R, h5, h6, h7⟩
  · rw [hv] at h6
    refine .inl ⟨s1, e', h5, hval _ h6, ?_, ?_⟩ <;> rw [hs1] <;> rfl
  · rw [hv] at h6 h7
    refine .inr ⟨e, R, ?_, h2, hval _ h6, ?_⟩
    · rw [h5, hs1]; rfl
    · rw [h7, h4]

theorem setThicknessMax_run (t : ℝ) (s : Foil) :
    (∃ e, setThicknessMax t s = (s, .error e) ∧ s.view.setThicknessMax t = .error e) ∨
    (∃ Q, setThicknessMax t s = (s.put Q, .ok ()) ∧ s.view.setThicknessMax t = .ok Q ∧ Q.par = s.view.par) := by
  unfold setThicknessMax Profile.setThicknessMax
  rcases h : s.view.maxThickness with e | old
  · exact .inl ⟨e, Act.eval_error h, rfl⟩
  · rw [Act.eval_ok h]
    exact .inr ⟨_, rfl, rfl, rfl⟩

theorem rotate_par {P Q : Profile} {r d : Option ℝ} (h : P.rotate r d = .ok Q) : Q = { P with xup := Q.xup, xdown := Q.xdown, yup := Q.yup, ydown := Q.ydown } := by
  unfold Profile.rotate at h
  simp only [bind, Except.bind, pure, Except.pure, throw, throwThe, MonadExceptOf.throw] at h
  repeat' (split at h <;> try (cases h))
  all_goals rfl

theorem rotate_run (r d : Option ℝ) (s : Foil) :
    (∃ e, rotate r d s = (s, .error e) ∧ s.view.rotate r d = .error e) ∨
    (∃ Q, rotate r d s = (s.put Q, .ok ()) ∧ s.view.rotate r d = .ok Q ∧ Q.par = s.view.par) := by
  unfold rotate
  rcases h : s.view.rotate r d with e | Q
  · exact .inl ⟨e, Act.eval_error h, rfl⟩
  · rw [Act.eval_ok h]
    exact .inr ⟨Q, rfl, rfl, by rw [rotate_par h]⟩

theorem scale_run (f : ℝ) (b : Bool) (s : Foil) :
    (∃ t e, scale f b s = (t, .error e) ∧ s.view.scale f b = .error e ∧ b = true ∧ t = (updateEdges s).1) ∨
    (∃ Q, s.view.scale f b = .ok Q ∧ Q.par = s.view.par ∧
      ((b = false ∧ scale f b s = (s.put Q, .ok ())) ∨
       (b = true ∧ ∃ e, s.view.updateEdges = .ok e ∧ scale f b s = ({ s with le := some e.1, te := some e.2 }.put Q, .ok ())))) := by
  cases b
  · exact .inr ⟨_, rfl, rfl, .inl ⟨rfl, rfl⟩⟩
  · unfold scale Profile.scale
    rcases referencePoint_run s with ⟨t, e, h1, h2, h3⟩ | ⟨e, p, h1, h2, h3⟩
    · exact .inl ⟨t, e, Act.bind_error h1, by simp [h2, bind, Except.bind], rfl, h3⟩
    · refine .inr ⟨((s.view.translate (-p)).mulAll f).translate p, by simp [h3, bind, Except.bind, pure, Except.pure], rfl, .inr ⟨rfl, e, h2, ?_⟩⟩
      simp only
      rw [Act.bind_ok h1]
      rfl

theorem britishCoordinates_run (s : Foil) :
    (∃ t e, britishCoordinates s = (t, .error e) ∧ Custom.britishCoordinates s.view s.par = .error e ∧ t.par = s.par) ∨
    (∃ Q, britishCoordinates s = (s.put Q, .ok ()) ∧ Custom.britishCoordinates s.view s.par = .ok Q ∧ Q.par = s.view.par) := by
  unfold britishCoordinates Custom.britishCoordinates
  rw [Act.assign_bind, Act.assign_bind]
  rcases h1 : bzip (fun c t => c * s.par.camberMax + s.par.thicknessMax / 2 * t) s.par.camberPerc s.par.thicknessPerc with e | yu
  · exact .inl ⟨_, e, Act.eval_error h1, rfl, rfl⟩
  rw [Act.eval_ok (a := yu) h1, Act.assign_bind]
  rcases h2 : bzip (fun c t => c * s.par.camberMax - s.par.thicknessMax / 2 * t) s.par.camberPerc s.par.thicknessPerc with e | yd
  · exact .inl ⟨_, e, Act.eval_error h2, rfl, rfl⟩
  rw [Act.eval_ok (a := yd) h2]
  exact .inr ⟨_, rfl, rfl, rfl⟩

theorem americanCoordinates_run (lib : Lib) (s : Foil) :
    (∃ t e, americanCoordinates lib s = (t, .error e) ∧ coordinatesResult lib s.view s.par .custom (some .american) = .error e ∧ t.par = s.par) ∨
    (∃ Q, americanCoordinates lib s = (s.put Q, .ok ()) ∧ coordinatesResult lib s.view s.par .custom (some .american) = .ok Q ∧ Q.par = s.view.par) := by
  have hval : ∀ hl : ¬ (s.par.camberPerc.length ≠ s.par.chordPerc.length ∨ s.par.thicknessPerc.length ≠ s.par.chordPerc.length),
      coordinatesResult lib s.view s.par .custom (some .american) = Custom.americanCoordinates (Custom.curveOnChord lib.curve) s.view s.par := by
    intro hl
    rw [coordinatesResult, if_neg (fun h => hl h.2), Custom.generateCoordinates]
  unfold americanCoordinates
  by_cases hl : s.par.camberPerc.length ≠ s.par.chordPerc.length ∨ s.par.thicknessPerc.length ≠ s.par.chordPerc.length
  · exact .inl ⟨s, _, Act.eval_error (if_pos hl), by rw [coordinatesResult, if_pos ⟨rfl, hl⟩], rfl⟩
  rw [hval hl]
  rcases h1 : Custom.orthCoordinates s.par with e | st
  · exact .inl ⟨s, e, Act.eval_error (by rw [if_neg hl]; exact h1), by rw [Custom.americanCoordinates, h1]; rfl, rfl⟩
  rw [Act.eval_ok (a := st) (by rw [if_neg hl]; exact h1), Act.assign_bind]
  obtain ⟨s1, hs1⟩ : ∃ s1 : Foil, s1 = { s with xup := st.map (·.1.1), xdown := st.map (·.2.1), yup := st.map (·.1.2), ydown := st.map (·.2.2) } := ⟨_, rfl⟩
  have hv : ({ s.view with xup := st.map (·.1.1), xdown := st.map (·.2.1), yup := st.map (·.1.2), ydown := st.map (·.2.2) } : Profile) = s1.view := by
    rw [hs1]; rfl
  have hp : s1.par = s.par := by rw [hs1]
  rw [← hs1]
  have hA : Custom.americanCoordinates (Custom.curveOnChord lib.curve) s.view s.par =
      (Custom.curveOnChord lib.curve s1.view s.par >>= fun yd => bzip (fun c d => 2 * s.par.camberMax * c - d) s.par.camberPerc yd >>= fun yu =>
        .ok { s1.view with ydown := yd, yup := yu }) := by
    rw [Custom.americanCoordinates, h1, ← hv]; rfl
  rw [hA]
  rcases h2 : Custom.curveOnChord lib.curve s1.view s.par with e | yd
  · exact .inl ⟨s1, e, Act.eval_error (by rw [hp]; exact h2), rfl, hp⟩
  rw [Act.eval_ok (a := yd) (by rw [hp]; exact h2), Act.assign_bind]
  rcases h3 : bzip (fun c d => 2 * s.par.camberMax * c - d) s.par.camberPerc yd with e | yu
  · exact .inl ⟨_, e, Act.eval_error (by rw [← hp] at h3; exact h3), by simp only [bind, Except.bind, h3], hp⟩
  · refine .inr ⟨{ s1.view with ydown := yd, yup := yu }, ?_, by simp only [bind, Except.bind, h3], by rw [hs1]; rfl⟩
    rw [Act.eval_ok (a := yu) (by rw [← hp] at h3; exact h3), hs1]
    rfl

end Foil
end
end BladeX
