import Verif.Lemmas.ProfileCalls
import Verif.Props.ProfileParams
import Verif.Props.CustomRoundtrip
import Verif.Props.Naca

/-! # C103: every history of calls on one profile -/

namespace BladeX
noncomputable section
open Classical Spec

namespace Foil

/-- A history splits at its first call. -/
theorem history_cons {lib : Lib} {K : FoilClass} {c : Call} {l : List Call} {s t : Foil} {rs : List (Res Out)} :
    history lib K (c :: l) s = some (rs, t) ↔ ∃ rs', rs = (run lib K c s).2 :: rs' ∧ (run lib K c s).2 ≠ .error .nonFinite ∧
      history lib K l (run lib K c s).1 = some (rs', t) := by
  conv_lhs => rw [history]
  rcases h : run lib K c s with ⟨s', e | o⟩
  · have fin : e ≠ .nonFinite → ((history lib K l s').map (fun q => (Except.error e :: q.1, q.2)) = some (rs, t) ↔ ∃ rs', rs = .error e :: rs' ∧
        (Except.error e : Res Out) ≠ .error .nonFinite ∧ history lib K l s' = some (rs', t)) := by
      intro he
      simp only [Option.map_eq_some_iff, Prod.exists, Prod.mk.injEq]
      constructor
      · rintro ⟨a, b, h1, rfl, rfl⟩; exact ⟨a, rfl, fun hh => he (Except.error.inj hh), h1⟩
      · rintro ⟨a, rfl, -, h1⟩; exact ⟨a, t, h1, rfl, rfl⟩
    cases e <;> first | exact fin (by simp) | simp
  · simp only [Option.map_eq_some_iff, Prod.exists, Prod.mk.injEq]
    constructor
    · rintro ⟨a, b, h1, rfl, rfl⟩; exact ⟨a, rfl, by simp, h1⟩
    · rintro ⟨a, rfl, -, h1⟩; exact ⟨a, t, h1, rfl, rfl⟩

theorem history_append {lib : Lib} {K : FoilClass} {l l' : List Call} {s t : Foil} {rs : List (Res Out)} :
    history lib K (l ++ l') s = some (rs, t) ↔ ∃ r1 s1 r2, history lib K l s = some (r1, s1) ∧ history lib K l' s1 = some (r2, t) ∧ rs = r1 ++ r2 := by
  induction l generalizing s rs with
  | nil => simp [history]
  | cons c l ih =>
    rw [List.cons_append, history_cons]
    constructor
    · rintro ⟨rs', rfl, h1, h2⟩
      obtain ⟨r1, s1, r2, k1, k2, rfl⟩ := ih.1 h2
      exact ⟨_, s1, r2, history_cons.2 ⟨r1, rfl, h1, k1⟩, k2, rfl⟩
    · rintro ⟨r1, s1, r2, k1, k2, rfl⟩
      obtain ⟨r1', rfl, h1, k1⟩ := history_cons.1 k1
      exact ⟨r1' ++ r2, rfl, h1, ih.2 ⟨r1', s1, r2, k1, k2, rfl⟩⟩

theorem history_length {lib : Lib} {K : FoilClass} {l : List Call} {s t : Foil} {rs : List (Res Out)} (h : history lib K l s = some (rs, t)) :
    rs.length = l.length := by
  induction l generalizing s rs with
  | nil => simp only [history, Option.some.injEq, Prod.mk.injEq] at h; simp [← h.1]
  | cons c l ih =>
    obtain ⟨rs', rfl, -, h⟩ := history_cons.1 h
    simp [ih h]

/-- **C103** One call at any point of a history: it raises the exception that its description by results (C01 to C26, C80) gives for the current
coordinates and parameters, or returns the same value and leaves the same coordinates, parameters and lines. A call that raises leaves the
parameters alone unless it is `generate_parameters`, and the coordinates unless it is `generate_coordinates` of a `CustomProfile`. -/
theorem C103_calls (lib : Lib) (K : FoilClass) (c : Call) (s : Foil) :
    (∃ t e, run lib K c s = (t, .error e) ∧ c.result lib K s.view = .error e ∧ (c.isParameters = false → t.par = s.par) ∧
      (c.isCoordinates = false ∨ K ≠ .custom → t.coords = s.coords)) ∨
    (∃ t o, run lib K c s = (t, .ok o) ∧ c.result lib K s.view = .ok (o, t.view)) := run_result lib K c s

/-- **C103** Over any history, coordinates change only through the calls that are meant to change them, and so do the parameters. -/
theorem C103_untouched (lib : Lib) (K : FoilClass) (l : List Call) (s t : Foil) (rs : List (Res Out)) (h : history lib K l s = some (rs, t)) :
    ((∀ c ∈ l, c.movesCoordinates = false) → t.coords = s.coords) ∧ ((∀ c ∈ l, c.changesParameters = false) → t.par = s.par) := by
  induction l generalizing s rs with
  | nil => simp only [history, Option.some.injEq, Prod.mk.injEq] at h; obtain ⟨-, rfl⟩ := h; exact ⟨fun _ => rfl, fun _ => rfl⟩
  | cons c l ih =>
    obtain ⟨rs', rfl, -, h⟩ := history_cons.1 h
    obtain ⟨h1, h2⟩ := ih _ _ h
    constructor
    · intro hc
      rw [h1 fun d hd => hc d (List.mem_cons_of_mem _ hd), run_coords lib K c s (hc c List.mem_cons_self)]
    · intro hc
      rw [h2 fun d hd => hc d (List.mem_cons_of_mem _ hd), run_par lib K c s (hc c List.mem_cons_self)]

/-- **C103** The stored lines and edges are never read: two objects with the same coordinates and parameters answer any history of calls with the
same results and exceptions, and end with the same coordinates and parameters. -/
theorem C103_independent (lib : Lib) (K : FoilClass) (l : List Call) (s t s' : Foil) (rs : List (Res Out)) (hs : Same s t)
    (h : history lib K l s = some (rs, s')) : ∃ t', history lib K l t = some (rs, t') ∧ Same s' t' := by
  induction l generalizing s t rs with
  | nil =>
    simp only [history, Option.some.injEq, Prod.mk.injEq] at h
    obtain ⟨rfl, rfl⟩ := h
    exact ⟨t, rfl, hs⟩
  | cons c l ih =>
    obtain ⟨rs', rfl, hn, h⟩ := history_cons.1 h
    obtain ⟨h1, h2⟩ := run_sync lib K c hs
    obtain ⟨t', h3, h4⟩ := ih _ _ _ h2 h
    exact ⟨t', history_cons.2 ⟨rs', by rw [h1], by rwa [← h1], h3⟩, h4⟩

/-- **C103** Without `generate_coordinates`, what a history makes of the coordinates is determined by the coordinates it starts from and by its calls
that move coordinates, whatever the parameters are and whatever else is called in between; these calls have the outcomes they have alone. -/
theorem C103_coordinates (lib : Lib) (K : FoilClass) (l : List Call) (hl : ∀ c ∈ l, c.isCoordinates = false) (s t s' : Foil) (rs : List (Res Out))
    (hs : s.coords = t.coords) (h : history lib K l s = some (rs, s')) :
    ∃ t', history lib K (l.filter Call.movesCoordinates) t = some (((List.zip l rs).filter fun x => x.1.movesCoordinates).map Prod.snd, t') ∧
      s'.coords = t'.coords := by
  induction l generalizing s t rs with
  | nil =>
    simp only [history, Option.some.injEq, Prod.mk.injEq] at h
    obtain ⟨rfl, rfl⟩ := h
    exact ⟨t, rfl, hs⟩
  | cons c l ih =>
    obtain ⟨rs', rfl, hn, h⟩ := history_cons.1 h
    have hl' : ∀ c ∈ l, c.isCoordinates = false := fun d hd => hl d (List.mem_cons_of_mem _ hd)
    by_cases hc : c.movesCoordinates = true
    · obtain ⟨h1, h2⟩ := run_sync_coords lib K c (hl c List.mem_cons_self) hs
      obtain ⟨t', h3, h4⟩ := ih hl' _ (run lib K c t).1 _ h2 h
      refine ⟨t', ?_, h4⟩
      rw [List.filter_cons_of_pos hc, List.zip_cons_cons, List.filter_cons_of_pos (by exact hc), List.map_cons]
      exact history_cons.2 ⟨_, by rw [h1], by rwa [← h1], h3⟩
    · have hc' : c.movesCoordinates = false := by simpa using hc
      obtain ⟨t', h3, h4⟩ := ih hl' _ t _ (by rw [run_coords lib K c s hc', hs]) h
      refine ⟨t', ?_, h4⟩
      rw [List.filter_cons_of_neg hc, List.zip_cons_cons, List.filter_cons_of_neg (by exact hc)]
      exact h3

/-- **C103** Without `generate_parameters`, the parameters after a history are those left by its assignments to parameters, whatever the
coordinates are and whatever else is called in between. -/
theorem C103_parameters (lib : Lib) (K : FoilClass) (l : List Call) (hl : ∀ c ∈ l, c.isParameters = false) (s t s' : Foil) (rs : List (Res Out))
    (hs : s.par = t.par) (h : history lib K l s = some (rs, s')) :
    ∃ rs' t', history lib K (l.filter Call.changesParameters) t = some (rs', t') ∧ s'.par = t'.par := by
  induction l generalizing s t rs with
  | nil =>
    simp only [history, Option.some.injEq, Prod.mk.injEq] at h
    obtain ⟨rfl, rfl⟩ := h
    exact ⟨[], t, rfl, hs⟩
  | cons c l ih =>
    obtain ⟨rs', rfl, hn, h⟩ := history_cons.1 h
    have hl' : ∀ c ∈ l, c.isParameters = false := fun d hd => hl d (List.mem_cons_of_mem _ hd)
    by_cases hc : c.changesParameters = true
    · have key : (run lib K c s).1.par = (run lib K c t).1.par ∧ (run lib K c t).2 ≠ .error .nonFinite := by
        have := hl c List.mem_cons_self
        cases c <;> simp only [Call.changesParameters, Bool.false_eq_true, Call.isParameters, Bool.true_eq_false] at hc this <;>
          exact ⟨by simp only [run, quiet, Act.assign_bind, Act.pure_eq, hs], by intro hh; cases hh⟩
      obtain ⟨rs'', t', h3, h4⟩ := ih hl' _ _ _ key.1 h
      refine ⟨(run lib K c t).2 :: rs'', t', ?_, h4⟩
      rw [List.filter_cons_of_pos hc]
      exact history_cons.2 ⟨_, rfl, key.2, h3⟩
    · have hc' : c.changesParameters = false := by simpa using hc
      obtain ⟨rs'', t', h3, h4⟩ := ih hl' _ t _ (by rw [run_par lib K c s hc', hs]) h
      refine ⟨rs'', t', ?_, h4⟩
      rw [List.filter_cons_of_neg hc]
      exact h3

theorem edgesAt_of {s : Foil} {e : Pt × Pt} (h : s.view.updateEdges = .ok e) : EdgesAt s e.1 e.2 := by
  obtain ⟨xu0, xd0, xu1, xd1, yu0, yu1, yd1, h1, -, h3, -, h5, h6, h7, -, -, rfl⟩ := Profile.updateEdges_ok h
  exact ⟨h1, h5, h3, yu1, yd1, h6, h7, rfl⟩

/-- A call that finds the edges stores those of the coordinates before it. -/
theorem run_edges (lib : Lib) (K : FoilClass) (c : Call) (s t : Foil) (o : Out) (hc : c.findsEdges = true) (h : run lib K c s = (t, .ok o)) :
    ∃ le te, EdgesAt s le te ∧ t.le = some le ∧ t.te = some te := by
  have fin : ∀ {e : Pt × Pt}, s.view.updateEdges = .ok e → t.le = some e.1 → t.te = some e.2 → ∃ le te, EdgesAt s le te ∧ t.le = some le ∧ t.te = some te :=
    fun he h1 h2 => ⟨_, _, edgesAt_of he, h1, h2⟩
  cases c <;> simp only [Call.findsEdges, Bool.false_eq_true] at hc
  case generateParameters conv =>
    rcases generateParameters_run lib conv s with ⟨t', e, h1, h2⟩ | ⟨e, q, h1, h2, h3⟩
    · rw [run, quiet_error h1] at h; cases h
    · rw [run, quiet_ok h1] at h; cases h
      exact fin h2 rfl rfl
  case scale f b =>
    rcases scale_run f b s with ⟨t', e, h1, h2, -, h3⟩ | ⟨Q, h1, h2, ⟨rfl, h3⟩ | ⟨-, e, h4, h3⟩⟩
    · rw [run, quiet_error h1] at h; cases h
    · simp [Call.findsEdges] at hc
    · rw [run, quiet_ok h3] at h; cases h
      exact fin h4 rfl rfl
  case setCamberLineMax x =>
    rcases setCamberLineMax_run x s with ⟨t', e, h1, -⟩ | ⟨e, Q, h1, h2, -⟩
    · rw [run, quiet_error h1] at h; cases h
    · rw [run, quiet_ok h1] at h; cases h
      exact fin h2 rfl rfl
  case computeChordLine n =>
    rcases computeChordLine_run n s with ⟨t', e, h1, -⟩ | ⟨e, Q, h1, h2, -⟩
    · rw [run, quiet_error h1] at h; cases h
    · rw [run, quiet_ok h1] at h; cases h
      exact fin h2 rfl rfl
  case maxCamber n =>
    rcases maxCamber_run n s with ⟨t', e, h1, -⟩ | ⟨e, v, Q, h1, h2, -⟩
    · rw [run, Act.bind_error h1] at h; cases h
    · rw [run, Act.bind_ok h1] at h; cases h
      exact fin h2 rfl rfl
  case referencePoint =>
    rcases referencePoint_run s with ⟨t', e, h1, -⟩ | ⟨e, v, h1, h2, -⟩
    · rw [run, Act.bind_error h1] at h; cases h
    · rw [run, Act.bind_ok h1] at h; cases h
      exact fin h2 rfl rfl

/-- Other calls leave the stored edges alone. -/
theorem run_keeps_edges (lib : Lib) (K : FoilClass) (c : Call) (s : Foil) (hc : c.findsEdges = false) :
    (run lib K c s).1.le = s.le ∧ (run lib K c s).1.te = s.te := by
  suffices h : (fun s : Foil => (s.le, s.te)) (run lib K c s).1 = (fun s : Foil => (s.le, s.te)) s from ⟨congrArg Prod.fst h, congrArg Prod.snd h⟩
  generalize hf : (fun s : Foil => (s.le, s.te)) = f
  have hcl : ∀ n, Act.Keeps f (computeCamberLine n) := fun n => computeCamberLine_keeps fun _ _ => by rw [← hf]
  cases c <;> simp only [Call.findsEdges, Bool.true_eq_false] at hc <;> try (rw [← hf]; rfl)
  case generateCoordinates conv =>
    refine quiet_keeps ?_ s
    rw [← hf]
    rcases K with _ | ⟨d, n, co⟩
    · rcases conv with _ | (_ | _ | _) <;> unfold generateCoordinates <;> first | (unfold britishCoordinates; keep) | (unfold americanCoordinates; keep) | keep
    · rcases conv with _ | conv <;> unfold generateCoordinates <;> keep
  case rotate r d => exact quiet_keeps (by rw [← hf]; unfold rotate; keep) s
  case scale g b =>
    cases b
    · rw [← hf]; rfl
    · simp [Call.findsEdges] at hc
  case deformCamberLine p n =>
    refine quiet_keeps ?_ s
    unfold deformCamberLine
    refine Act.keeps_bind (hcl n) fun _ => Act.keeps_bind (Act.keeps_assign fun _ => by rw [← hf]) fun _ => Act.keeps_bind (Act.keeps_eval _ _) fun m =>
      Act.keeps_bind ?_ fun _ => ?_
    · rw [← hf]; rcases m with _ | k <;> keep
    · rw [← hf]; keep
  case setThicknessMax t => exact quiet_keeps (by rw [← hf]; unfold setThicknessMax; keep) s
  case computeCamberLine n => exact quiet_keeps (hcl n) s
  case maxThickness n => exact Act.keeps_bind (Act.keeps_eval _ _) (fun _ => Act.keeps_pure _ _) s
  case interpolate num r => exact Act.keeps_bind (Act.keeps_eval _ _) (fun _ => Act.keeps_pure _ _) s

theorem history_keeps_edges {lib : Lib} {K : FoilClass} {l : List Call} {s t : Foil} {rs : List (Res Out)} (hl : ∀ c ∈ l, c.findsEdges = false)
    (h : history lib K l s = some (rs, t)) : t.le = s.le ∧ t.te = s.te := by
  induction l generalizing s rs with
  | nil => simp only [history, Option.some.injEq, Prod.mk.injEq] at h; obtain ⟨-, rfl⟩ := h; exact ⟨rfl, rfl⟩
  | cons c l ih =>
    obtain ⟨rs', rfl, -, h⟩ := history_cons.1 h
    obtain ⟨h1, h2⟩ := ih (fun d hd => hl d (List.mem_cons_of_mem _ hd)) h
    obtain ⟨h3, h4⟩ := run_keeps_edges lib K c s (hl c List.mem_cons_self)
    exact ⟨h1.trans h3, h2.trans h4⟩

/-- **C103** The stored `leading_edge` and `trailing_edge` after any history are those of the coordinates before the last call that finds them, if
that call succeeded: later translations, rotations, reflections, assignments and so on do not move them. -/
theorem C103_edges (lib : Lib) (K : FoilClass) (l l' : List Call) (c : Call) (s t : Foil) (rs : List (Res Out)) (o : Out)
    (h : history lib K (l ++ c :: l') s = some (rs, t)) (hc : c.findsEdges = true) (hl' : ∀ d ∈ l', d.findsEdges = false)
    (ho : rs[l.length]? = some (.ok o)) :
    ∃ r1 s1 le te, history lib K l s = some (r1, s1) ∧ EdgesAt s1 le te ∧ t.le = some le ∧ t.te = some te := by
  obtain ⟨r1, s1, r2, h1, h2, rfl⟩ := history_append.1 h
  obtain ⟨rs', rfl, -, h3⟩ := history_cons.1 h2
  have hlen := history_length h1
  rw [List.getElem?_append_right (by omega), show l.length - r1.length = 0 by omega] at ho
  have ho' : (run lib K c s1).2 = .ok o := by simpa using ho
  obtain ⟨le, te, he, k1, k2⟩ := run_edges lib K c s1 (run lib K c s1).1 o hc (by rw [← ho'])
  obtain ⟨e1, e2⟩ := history_keeps_edges hl' h3
  exact ⟨r1, s1, le, te, h1, he, e1.trans k1, e2.trans k2⟩

theorem edges_exist {s : Foil} {x0 x0' x1 x1' : ℝ} (hu : s.yup.length = s.xup.length) (hd : s.ydown.length = s.xup.length)
    (h0 : s.xup.head? = some x0) (h0' : s.xdown.head? = some x0') (h1 : s.xup.getLast? = some x1) (h1' : s.xdown.getLast? = some x1')
    (c0 : |x0 - x0'| ≤ 1e-4) (c1 : |x1 - x1'| ≤ 1e-4) :
    ∃ y0 y1, s.view.updateEdges = .ok ((x0, y0), (x1, y1)) := by
  have hne : s.xup ≠ [] := by rintro h; simp [h] at h0
  have hpos : 0 < s.xup.length := List.length_pos_iff.2 hne
  obtain ⟨a, ha⟩ : ∃ a, s.yup.head? = some a := ⟨_, List.head?_eq_some_head (List.length_pos_iff.1 (by omega))⟩
  obtain ⟨b, hb⟩ : ∃ b, s.yup.getLast? = some b := ⟨_, List.getLast?_eq_some_getLast (List.length_pos_iff.1 (by omega))⟩
  obtain ⟨d, hd'⟩ : ∃ d, s.ydown.getLast? = some d := ⟨_, List.getLast?_eq_some_getLast (List.length_pos_iff.1 (by omega))⟩
  refine ⟨a, (b + d) / 2, ?_⟩
  have := Profile.updateEdges_of (P := s.view) h0 h0' h1 h1' ha hb hd'
  rw [this, if_neg]
  push Not
  exact ⟨c0, c1⟩

theorem run_generateParameters {lib : Lib} {K : FoilClass} {conv : Profile.Convention} {s : Foil} {Q : Profile} {q : Params}
    (h : s.view.generateParameters (Profile.americanThickness lib.curve lib.newton) conv = .ok Q) (hq : Q.par = some q) :
    ∃ l m, run lib K (.generateParameters conv) s = ({ s with le := l, te := m, par := q }, .ok .nothing) := by
  rcases generateParameters_run lib conv s with ⟨t, e, h1, h2⟩ | ⟨e, q', h1, h2, h3⟩
  · rw [h] at h2; cases h2
  · rw [h] at h3
    obtain rfl := Except.ok.inj h3
    obtain rfl := Option.some.inj hq
    exact ⟨_, _, quiet_ok h1⟩

theorem run_british {lib : Lib} {s : Foil} (h : s.par.camberPerc.length = s.par.thicknessPerc.length) :
    run lib .custom (.generateCoordinates none) s = ({ s with xup := s.par.chordPerc.map (· * s.par.chordLength), xdown := s.par.chordPerc.map (· * s.par.chordLength), yup := List.zipWith (fun c t => c * s.par.camberMax + s.par.thicknessMax / 2 * t) s.par.camberPerc s.par.thicknessPerc, ydown := List.zipWith (fun c t => c * s.par.camberMax - s.par.thicknessMax / 2 * t) s.par.camberPerc s.par.thicknessPerc }, .ok .nothing) := by
  have hb := british_eq s.view s.par h
  rcases britishCoordinates_run s with ⟨t, e, h1, h2, h3⟩ | ⟨Q, h1, h2, h3⟩
  · rw [hb] at h2; cases h2
  · rw [hb] at h2
    obtain rfl := Except.ok.inj h2
    exact quiet_ok h1

theorem two_calls {lib : Lib} {K : FoilClass} {c d : Call} {s t u : Foil} {o o' : Out} (h1 : run lib K c s = (t, .ok o)) (h2 : run lib K d t = (u, .ok o')) :
    history lib K [c, d] s = some ([.ok o, .ok o'], u) :=
  history_cons.2 ⟨[.ok o'], by rw [h1], by rw [h1]; simp, history_cons.2 ⟨[], by rw [h1, h2], by rw [h1, h2]; simp, by rw [h1, h2]; rfl⟩⟩

/-- Parameters of the coordinates, then coordinates of the parameters. -/
theorem rebuild (lib : Lib) (s : Foil) (le te : Pt) (he : s.view.updateEdges = .ok (le, te)) (hc : dist2 le te ≠ 0)
    (hu : s.yup.length = s.xup.length) (hd : s.ydown.length = s.xup.length) :
    ∃ t mn mc, history lib .custom [.generateParameters .british, .generateCoordinates none] s = some ([.ok .nothing, .ok .nothing], t) ∧
      MinOf s.xup mn ∧ MaxOf (List.zipWith (fun a b => (a + b) / 2) s.yup s.ydown) mc ∧
      t.xup = s.xup.map (· - mn) ∧ t.xdown = s.xup.map (· - mn) ∧
      t.yup = List.zipWith (fun a b => (if mc = 0 then 0 else (a + b) / 2) + |a - b| / 2) s.yup s.ydown ∧
      t.ydown = List.zipWith (fun a b => (if mc = 0 then 0 else (a + b) / 2) - |a - b| / 2) s.yup s.ydown := by
  obtain ⟨Q, p, h1, h2, -, -, ⟨mn, h4, h5⟩, h6, h7, ⟨mc, h8, h9⟩, h10, h11⟩ := C14_parameters (Profile.americanThickness lib.curve lib.newton) s.view le te he hc hu hd
  obtain ⟨l, m, r1⟩ := run_generateParameters (K := .custom) h1 h2
  have tl : p.thicknessPerc.length = s.xup.length := by
    have := congrArg List.length h7
    simpa [view, hu, hd] using this
  have cl : p.camberPerc.length = s.xup.length := by
    by_cases hz : p.camberMax = 0
    · rw [h11 hz]; simp [view]
    · have := congrArg List.length (h10 hz)
      simpa [view, hu, hd] using this
  have r2 := run_british (lib := lib) (s := { s with le := l, te := m, par := p }) (cl.trans tl.symm)
  have hy : ∀ (g : ℝ → ℝ → ℝ), List.zipWith (fun c t => g (c * p.camberMax) (p.thicknessMax / 2 * t)) p.camberPerc p.thicknessPerc =
      List.zipWith (fun a b => g (if mc = 0 then 0 else (a + b) / 2) (|a - b| / 2)) s.yup s.ydown := by
    intro g
    have ht : ∀ i (h : i < s.xup.length), p.thicknessPerc[i]'(by omega) * p.thicknessMax = |s.yup[i]'(by omega) - s.ydown[i]'(by omega)| := by
      intro i h
      have := congrArg (fun l : Arr => l[i]?) h7
      have k1 : i < s.yup.length := by omega
      have k2 : i < s.ydown.length := by omega
      have k3 : i < p.thicknessPerc.length := by omega
      simpa [view, List.getElem?_zipWith, k1, k2, k3] using this
    have hcm : ∀ i (h : i < s.xup.length), p.camberPerc[i]'(by omega) * p.camberMax = if mc = 0 then 0 else (s.yup[i]'(by omega) + s.ydown[i]'(by omega)) / 2 := by
      intro i h
      by_cases hz : mc = 0
      · rw [if_pos hz, h9, hz]; simp
      · rw [if_neg hz]
        have := congrArg (fun l : Arr => l[i]?) (h10 (by rw [h9]; exact abs_ne_zero.2 hz))
        have k1 : i < s.yup.length := by omega
        have k2 : i < s.ydown.length := by omega
        have k3 : i < p.camberPerc.length := by omega
        simpa [view, List.getElem?_zipWith, k1, k2, k3] using this
    apply List.ext_getElem
    · simp [cl, tl, hu, hd]
    · intro i i1 i2
      have hi : i < s.xup.length := by simpa [cl, tl] using i1
      simp only [List.getElem_zipWith]
      rw [hcm i hi, ← ht i hi]
      congr 1
      ring
  refine ⟨_, mn, mc, two_calls r1 r2, h4, h8, h5, h5, hy fun a b => a + b, hy fun a b => a - b⟩

/-- **C103** `generate_parameters()` followed by `generate_coordinates()` on a `CustomProfile` whose edges agree: both succeed; the result has both
surfaces over the upper abscissae shifted to start from 0, the gap of the surfaces, and the camber, unless the largest camber is 0, when the camber
is lost. Doing it a second time changes nothing. -/
theorem C103_projection (lib : Lib) (s : Foil) (x0 x0' x1 x1' : ℝ) (hu : s.yup.length = s.xup.length) (hd : s.ydown.length = s.xup.length)
    (h0 : s.xup.head? = some x0) (h0' : s.xdown.head? = some x0') (h1 : s.xup.getLast? = some x1) (h1' : s.xdown.getLast? = some x1')
    (c0 : |x0 - x0'| ≤ 1e-4) (c1 : |x1 - x1'| ≤ 1e-4) (hx : x0 ≠ x1) :
    ∃ t mn mc, history lib .custom [.generateParameters .british, .generateCoordinates none] s = some ([.ok .nothing, .ok .nothing], t) ∧
      MinOf s.xup mn ∧ MaxOf (List.zipWith (fun a b => (a + b) / 2) s.yup s.ydown) mc ∧
      t.xup = s.xup.map (· - mn) ∧ t.xdown = s.xup.map (· - mn) ∧
      t.yup = List.zipWith (fun a b => (if mc = 0 then 0 else (a + b) / 2) + |a - b| / 2) s.yup s.ydown ∧
      t.ydown = List.zipWith (fun a b => (if mc = 0 then 0 else (a + b) / 2) - |a - b| / 2) s.yup s.ydown ∧
      ∃ u, history lib .custom [.generateParameters .british, .generateCoordinates none] t = some ([.ok .nothing, .ok .nothing], u) ∧ u.coords = t.coords := by
  have far : ∀ (a b y z : ℝ), a ≠ b → dist2 (a, y) (b, z) ≠ 0 := by
    intro a b y z hab
    have : 0 < (a - b) ^ 2 := by have := sub_ne_zero.2 hab; positivity
    exact (Real.sqrt_pos.2 (by simp only; positivity)).ne'
  obtain ⟨y0, y1, he⟩ := edges_exist hu hd h0 h0' h1 h1' c0 c1
  obtain ⟨t, mn, mc, k1, k2, k3, k4, k5, k6, k7⟩ := rebuild lib s _ _ he (far _ _ _ _ hx) hu hd
  refine ⟨t, mn, mc, k1, k2, k3, k4, k5, k6, k7, ?_⟩
  have tu : t.yup.length = t.xup.length := by rw [k6, k4]; simp [hu, hd]
  have td : t.ydown.length = t.xup.length := by rw [k7, k4]; simp [hu, hd]
  obtain ⟨z0, z1, he'⟩ := edges_exist (s := t) (x0 := x0 - mn) (x0' := x0 - mn) (x1 := x1 - mn) (x1' := x1 - mn) tu td
    (by rw [k4, List.head?_map, h0]; rfl) (by rw [k5, List.head?_map, h0]; rfl) (by rw [k4, List.getLast?_map, h1]; rfl)
    (by rw [k5, List.getLast?_map, h1]; rfl) (by rw [sub_self]; norm_num) (by rw [sub_self]; norm_num)
  obtain ⟨u, mn', mc', q1, q2, q3, q4, q5, q6, q7⟩ := rebuild lib t _ _ he' (far _ _ _ _ (fun h => hx (by linarith))) tu td
  refine ⟨u, q1, ?_⟩
  have hmn : mn' = 0 := by
    refine MinOf.unique q2 ?_
    rw [k4]
    refine ⟨List.mem_map.2 ⟨mn, k2.1, sub_self mn⟩, ?_⟩
    intro x hx'
    obtain ⟨a, ha, rfl⟩ := List.mem_map.1 hx'
    exact sub_nonneg.2 (k2.2 a ha)
  -- every list over the pairs of ordinates
  have fuse : ∀ g : ℝ → ℝ → ℝ, List.zipWith g t.yup t.ydown = List.zipWith (fun a b => g ((if mc = 0 then 0 else (a + b) / 2) + |a - b| / 2)
      ((if mc = 0 then 0 else (a + b) / 2) - |a - b| / 2)) s.yup s.ydown := by
    intro g
    rw [k6, k7]
    apply List.ext_getElem
    · simp
    · intro i i1 i2
      simp only [List.getElem_zipWith]
  have hcam : List.zipWith (fun a b => (a + b) / 2) t.yup t.ydown = List.zipWith (fun a b => if mc = 0 then 0 else (a + b) / 2) s.yup s.ydown := by
    rw [fuse]
    congr 1
    funext a b
    ring
  have hmc : mc' = 0 ↔ mc = 0 := by
    by_cases hz : mc = 0
    · simp only [hz, if_true] at hcam
      rw [hcam] at q3
      have : mc' = 0 := by
        obtain ⟨i, hi, rfl⟩ := List.mem_iff_getElem.1 q3.1
        simp
      simp [this, hz]
    · simp only [hz, if_false] at hcam
      rw [hcam] at q3
      rw [MaxOf.unique q3 k3]
  have habs : ∀ a b : ℝ, |(if mc = 0 then 0 else (a + b) / 2) + |a - b| / 2 - ((if mc = 0 then 0 else (a + b) / 2) - |a - b| / 2)| = |a - b| := by
    intro a b
    rw [show (if mc = 0 then 0 else (a + b) / 2) + |a - b| / 2 - ((if mc = 0 then 0 else (a + b) / 2) - |a - b| / 2) = |a - b| by ring, abs_abs]
  have hx2 : t.xup.map (· - mn') = t.xup := by rw [hmn]; simp
  have hy2 : ∀ g : ℝ → ℝ → ℝ, List.zipWith (fun a b => g (if mc' = 0 then 0 else (a + b) / 2) (|a - b| / 2)) t.yup t.ydown =
      List.zipWith (fun a b => g (if mc = 0 then 0 else (a + b) / 2) (|a - b| / 2)) s.yup s.ydown := by
    intro g
    rw [fuse]
    congr 1
    funext a b
    rw [habs]
    by_cases hz : mc = 0
    · rw [if_pos (hmc.2 hz), if_pos hz]
    · rw [if_neg (fun h => hz (hmc.1 h)), if_neg hz]
      congr 1
      ring
  simp only [coords, Prod.mk.injEq]
  refine ⟨by rw [q4, hx2], by rw [q5, hx2, k4, k5], ?_, ?_⟩
  · rw [q6]; exact (hy2 fun a b => a + b).trans k6.symm
  · rw [q7]; exact (hy2 fun a b => a - b).trans k7.symm

theorem bzip_error {f : ℝ → ℝ → ℝ} {a b : Arr} {e : PyErr} (h : bzip f a b = .error e) : e = .valueError ∧ a.length ≠ b.length := by
  unfold bzip at h
  split at h
  · cases h
  · rename_i hl
    refine ⟨?_, hl⟩
    split at h <;> cases h
    rfl

/-- **C103** What the parameters are after a call of `generate_parameters` that raised: nothing has changed when the edges disagree; otherwise the
chord is that of the coordinates and the thickness is the old one; the camber is the old one when the ordinates do not fit together, and that of
the coordinates when the thickness could not be computed (not with `'british'`, and `UnboundLocalError` for an unknown convention). With
a chord of length 0 the division stops the model (numpy goes on with `inf` and `nan`). -/
theorem C103_failed_parameters (lib : Lib) (K : FoilClass) (conv : Profile.Convention) (s t : Foil) (e : PyErr)
    (h : run lib K (.generateParameters conv) s = (t, .error e)) :
    t.par = s.par ∨ ∃ le te, EdgesAt s le te ∧ t.par.chordLength = dist2 le te ∧
      t.par.thicknessMax = s.par.thicknessMax ∧ t.par.thicknessPerc = s.par.thicknessPerc ∧
      ((e = .nonFinite ∧ dist2 le te = 0) ∨
       (dist2 le te ≠ 0 ∧ (∃ mn, MinOf s.xup mn ∧ t.par.chordPerc = s.xup.map fun x => (x - mn) / dist2 le te) ∧
        ((e = .valueError ∧ s.yup.length ≠ s.ydown.length ∧ t.par.camberMax = s.par.camberMax ∧ t.par.camberPerc = s.par.camberPerc) ∨
         (conv ≠ .british ∧ (conv = .other → e = .unboundLocal) ∧ ∃ camber mc, bzip (fun a b => (a + b) / 2) s.yup s.ydown = .ok camber ∧
           MaxOf camber mc ∧ mc ≠ 0 ∧ t.par.camberMax = |mc| ∧ t.par.camberPerc = camber.map (· / |mc|))))) := by
  have h' : generateParameters lib conv s = (t, .error e) := by
    rw [run] at h
    rcases hg : generateParameters lib conv s with ⟨t', e' | u⟩
    · rw [quiet_error hg] at h; cases h; rfl
    · rw [quiet_ok hg] at h; cases h
  unfold generateParameters at h'
  rcases storeChordCamber_run s with ⟨t', e', h1, h2, h3⟩ | ⟨ed, h2, ⟨h1, hc⟩ | ⟨mn, h3, hc, ⟨err, h1, h5⟩ | ⟨camber, mc, h5, h6, h1⟩⟩⟩
  · rw [Act.bind_error h1] at h'
    cases h'
    exact .inl h3
  · rw [Act.bind_error h1] at h'
    cases h'
    exact .inr ⟨_, _, edgesAt_of h2, rfl, rfl, rfl, .inl ⟨rfl, hc⟩⟩
  · rw [Act.bind_error h1] at h'
    cases h'
    obtain ⟨rfl, hl⟩ := bzip_error h5
    exact .inr ⟨_, _, edgesAt_of h2, rfl, rfl, rfl, .inr ⟨hc, ⟨mn, npMin_ok_iff.1 h3, by simp [dist2, chordOf]⟩, .inl ⟨rfl, hl, rfl, rfl⟩⟩⟩
  · rw [Act.bind_ok h1] at h'
    obtain ⟨v, hv⟩ : ∃ v : Foil, v = { s with le := some ed.1, te := some ed.2, par := { s.par with chordLength := chordOf ed, chordPerc := (s.xup.map (· - mn)).map (· / chordOf ed), camberMax := |mc|, camberPerc := if |mc| = 0 then List.replicate s.xup.length 0 else camber.map (· / |mc|) } } := ⟨_, rfl⟩
    rw [← hv] at h'
    rcases storeThickness_run lib conv v with ⟨e', h7, h8⟩ | ⟨th, tm, h7, h8, h9⟩
    · rw [h7] at h'
      cases h'
      have hb : ¬ (conv = .british ∨ mc = 0) := by
        intro hb
        have hth : thickness lib conv t = bzip (fun a b => |a - b|) s.yup s.ydown := by
          unfold thickness
          rw [if_pos (by rw [hv]; exact hb.imp id fun h => by simp [h]), hv]
        obtain ⟨th, k1, k2⟩ := bzip_same h5 (fun a b => |a - b|)
        rw [hth, k1] at h8
        have : npMax th = .error e := h8
        have hth0 : th ≠ [] := by
          rintro rfl
          have hm := (npMax_ok_iff.1 h6).1
          rw [List.length_nil] at k2
          rw [List.length_eq_zero_iff.1 k2.symm] at hm
          simp at hm
        obtain ⟨m, hm⟩ := npMax_exists hth0
        rw [this] at hm; cases hm
      push Not at hb
      have ho : conv = .other → e = .unboundLocal := by
        rintro rfl
        have : thickness lib .other t = .error .unboundLocal := by
          unfold thickness
          rw [if_neg (by rw [hv]; simp [hb.2]), if_neg (by simp)]
        rw [this] at h8
        exact (Except.error.inj h8).symm
      refine .inr ⟨_, _, edgesAt_of h2, by rw [hv]; rfl, by rw [hv], by rw [hv], .inr ⟨hc, ⟨mn, npMin_ok_iff.1 h3, by rw [hv]; simp [dist2, chordOf]⟩,
        .inr ⟨hb.1, ho, camber, mc, h5, npMax_ok_iff.1 h6, hb.2, by rw [hv], ?_⟩⟩⟩
      rw [hv]
      simp [hb.2]
    · rw [h9] at h'; cases h'

/-- **C103** A misspelt convention is noticed by `generate_parameters` only after chord and camber have been replaced, and not noticed by
`generate_coordinates` at all: the following `generate_coordinates()` builds a foil with the present camber and the thickness of an earlier one. -/
theorem C103_mixed (lib : Lib) (s : Foil) (x0 x0' x1 x1' mc : ℝ) (hu : s.yup.length = s.xup.length) (hd : s.ydown.length = s.xup.length)
    (h0 : s.xup.head? = some x0) (h0' : s.xdown.head? = some x0') (h1 : s.xup.getLast? = some x1) (h1' : s.xdown.getLast? = some x1')
    (c0 : |x0 - x0'| ≤ 1e-4) (c1 : |x1 - x1'| ≤ 1e-4) (hx : x0 ≠ x1) (hm : MaxOf (List.zipWith (fun a b => (a + b) / 2) s.yup s.ydown) mc)
    (hmc : mc ≠ 0) (ht : s.par.thicknessPerc.length = s.xup.length) :
    ∃ t, history lib .custom [.generateParameters .other, .generateCoordinates (some .other), .generateCoordinates none] s =
        some ([.error .unboundLocal, .ok .nothing, .ok .nothing], t) ∧
      t.yup = List.zipWith (fun c q => c + s.par.thicknessMax / 2 * q) (List.zipWith (fun a b => (a + b) / 2) s.yup s.ydown) s.par.thicknessPerc ∧
      t.ydown = List.zipWith (fun c q => c - s.par.thicknessMax / 2 * q) (List.zipWith (fun a b => (a + b) / 2) s.yup s.ydown) s.par.thicknessPerc := by
  obtain ⟨y0, y1, he⟩ := edges_exist hu hd h0 h0' h1 h1' c0 c1
  have hcam : bzip (fun a b => (a + b) / 2) s.yup s.ydown = .ok (List.zipWith (fun a b => (a + b) / 2) s.yup s.ydown) := bzip_eq_len (hu.trans hd.symm)
  have hfar : chordOf ((x0, y0), (x1, y1)) ≠ 0 := by
    have : 0 < (x0 - x1) ^ 2 := by have := sub_ne_zero.2 hx; positivity
    exact (Real.sqrt_pos.2 (by simp only; positivity)).ne'
  rcases storeChordCamber_run s with ⟨t', e', -, h2, -⟩ | ⟨ed, h2, ⟨-, hc⟩ | ⟨mn, h3, hc, ⟨err, -, h5⟩ | ⟨camber, mc', h5, h6, h1⟩⟩⟩
  · rw [he] at h2; cases h2
  · rw [he] at h2; cases h2; exact absurd hc hfar
  · rw [hcam] at h5; cases h5
  · rw [hcam] at h5
    obtain rfl := Except.ok.inj h5
    obtain rfl : mc' = mc := MaxOf.unique (npMax_ok_iff.1 h6) hm
    obtain ⟨v, hv⟩ : ∃ v : Foil, v = { s with le := some ed.1, te := some ed.2, par := { s.par with chordLength := chordOf ed, chordPerc := (s.xup.map (· - mn)).map (· / chordOf ed), camberMax := |mc'|, camberPerc := if |mc'| = 0 then List.replicate s.xup.length 0 else (List.zipWith (fun a b => (a + b) / 2) s.yup s.ydown).map (· / |mc'|) } } := ⟨_, rfl⟩
    rw [← hv] at h1
    have hth : thickness lib .other v = .error .unboundLocal := by
      unfold thickness
      rw [if_neg (by rw [hv]; simp [hmc]), if_neg (by simp)]
    have g1 : generateParameters lib .other s = (v, .error .unboundLocal) := by
      unfold generateParameters
      rw [Act.bind_ok h1]
      unfold storeThickness
      rw [Act.eval_error hth]
    have r1 : run lib .custom (.generateParameters .other) s = (v, .error .unboundLocal) := quiet_error g1
    have r2 : run lib .custom (.generateCoordinates (some .other)) v = (v, .ok .nothing) := rfl
    have hz : ¬ |mc'| = 0 := by simpa using hmc
    have r3 := run_british (lib := lib) (s := v) (by rw [hv]; simp [hz, hu, hd, ht])
    have hh : ∀ w, run lib .custom (.generateCoordinates none) v = (w, .ok .nothing) →
        history lib .custom [.generateParameters .other, .generateCoordinates (some .other), .generateCoordinates none] s =
        some ([.error .unboundLocal, .ok .nothing, .ok .nothing], w) := by
      intro w hw
      refine history_cons.2 ⟨_, by rw [r1], by rw [r1]; simp, ?_⟩
      rw [r1]
      exact two_calls r2 hw
    refine ⟨_, hh _ r3, ?_, ?_⟩ <;>
    · rw [hv]
      simp only [hz, if_false, List.zipWith_map_left, div_mul_cancel₀ _ hz]

/-- **C103** A profile built from parameters has no attributes `leading_edge` and `trailing_edge` (the class documentation announces zeros), and
gets none from any history without a call that finds the edges; one built from coordinates has those of its coordinates. -/
theorem C103_no_edges (american : Profile → Res Arr) (kw : Kwargs) (s : Foil) (h : Custom.object american kw = .ok s) :
    (kw.keys.toFinset = Custom.paramKeys → ∀ lib K l rs t, (∀ c ∈ l, c.findsEdges = false) → history lib K l s = some (rs, t) →
      t.le = none ∧ t.te = none) ∧
    (kw.keys.toFinset = Custom.coordKeys → ∃ le te, EdgesAt s le te ∧ s.le = some le ∧ s.te = some te) := by
  unfold Custom.object at h
  rw [Profile.bndA] at h
  obtain ⟨P, h1, h⟩ := h
  rcases hp : P.par with _ | p
  · rw [hp] at h; cases h
  rw [hp] at h
  simp only at h
  constructor
  · intro hk lib K l rs t hl hh
    rw [if_neg (by rw [hk]; decide)] at h
    obtain rfl := Except.ok.inj h
    exact history_keeps_edges hl hh
  · intro hk
    rw [if_pos hk, Profile.bndA] at h
    obtain ⟨e, h2, h⟩ := h
    obtain rfl := Except.ok.inj h
    refine ⟨e.1, e.2, edgesAt_of (e := e) ?_, rfl, rfl⟩
    exact h2

/-- When the edges are not found, a call that needs them stops there, with the exception of `_update_edges` and what it left. -/
theorem run_lost (lib : Lib) (K : FoilClass) (c : Call) (s t : Foil) (e : PyErr) (hc : c.findsEdges = true) (h : updateEdges s = (t, .error e)) :
    run lib K c s = (t, .error e) := by
  have hch : ∀ n, computeChordLine n s = (t, .error e) := fun n => Act.bind_error h
  have hmc : ∀ n, maxCamber n s = (t, .error e) := fun n => Act.bind_error (hch n)
  have href : referencePoint s = (t, .error e) := Act.bind_error h
  cases c <;> simp only [Call.findsEdges, Bool.false_eq_true] at hc
  case generateParameters conv => exact quiet_error (Act.bind_error (f := storeChordCamber) (Act.bind_error h))
  case scale f b =>
    cases b
    · simp [Call.findsEdges] at hc
    · exact quiet_error (Act.bind_error href)
  case setCamberLineMax x => exact quiet_error (Act.bind_error (hmc _))
  case computeChordLine n => exact quiet_error (hch n)
  case maxCamber n => exact Act.bind_error (hmc n)
  case referencePoint => exact Act.bind_error href

/-- **C103** A call that looks for the edges and does not find them replaces the stored ones all the same: by zeros, with `ValueError`, when the
first or the last abscissae of the two surfaces differ by more than `1e-4`; by what it has read so far, with `IndexError`, when ordinates are
missing. Nothing else of the object changes. -/
theorem C103_lost_edges (lib : Lib) (K : FoilClass) (c : Call) (s : Foil) (x0 x0' x1 x1' : ℝ) (hc : c.findsEdges = true)
    (h0 : s.xup.head? = some x0) (h0' : s.xdown.head? = some x0') (h1 : s.xup.getLast? = some x1) (h1' : s.xdown.getLast? = some x1') :
    (1e-4 < |x0 - x0'| ∨ 1e-4 < |x1 - x1'| → run lib K c s = ({ s with le := some (0, 0), te := some (0, 0) }, .error .valueError)) ∧
    (|x0 - x0'| ≤ 1e-4 → |x1 - x1'| ≤ 1e-4 → s.yup = [] →
      run lib K c s = ({ s with le := some (x0, 0), te := some (0, 0) }, .error .indexError)) ∧
    (|x0 - x0'| ≤ 1e-4 → |x1 - x1'| ≤ 1e-4 → ∀ y0, s.yup.head? = some y0 → s.ydown = [] →
      run lib K c s = ({ s with le := some (x0, y0), te := some (x1, 0) }, .error .indexError)) := by
  have first : ∀ {a : Arr} {x : ℝ}, a.head? = some x → getFirst a = .ok x := by
    intro a x h; simp [getFirst, h]
  have last : ∀ {a : Arr} {x : ℝ}, a.getLast? = some x → getLast a = .ok x := by
    intro a x h; simp [getLast, h]
  refine ⟨fun hd => run_lost _ _ _ _ _ _ hc ?_, fun c0 c1 hy => run_lost _ _ _ _ _ _ hc ?_, fun c0 c1 y0 hy0 hy => run_lost _ _ _ _ _ _ hc ?_⟩
  · unfold updateEdges
    rw [Act.assign_bind, Act.eval_ok (first h0), Act.eval_ok (first h0')]
    by_cases hd0 : |x0 - x0'| > 1e-4
    · rw [if_pos hd0]; rfl
    · rw [if_neg hd0, Act.eval_ok (last h1), Act.eval_ok (last h1'), if_pos (hd.resolve_left hd0)]; rfl
  · unfold updateEdges
    rw [Act.assign_bind, Act.eval_ok (first h0), Act.eval_ok (first h0'), if_neg (not_lt.2 c0), Act.eval_ok (last h1), Act.eval_ok (last h1'),
      if_neg (not_lt.2 c1), Act.assign_bind, Act.eval_error (e := .indexError) (by simp [getFirst, hy])]
  · unfold updateEdges
    have hne : s.yup ≠ [] := by rintro h; simp [h] at hy0
    rw [Act.assign_bind, Act.eval_ok (first h0), Act.eval_ok (first h0'), if_neg (not_lt.2 c0), Act.eval_ok (last h1), Act.eval_ok (last h1'),
      if_neg (not_lt.2 c1), Act.assign_bind, Act.eval_ok (first hy0), Act.assign_bind, Act.assign_bind,
      Act.eval_ok (last (List.getLast?_eq_some_getLast hne)), Act.eval_error (e := .indexError) (by simp [getLast, hy])]

/-- **C103** The object a constructor leaves has the coordinates and parameters described in C15, C16 and C26, and no lines. -/
theorem C103_new (american : Profile → Res Arr) (kw : Kwargs) (s : Foil) (h : Custom.object american kw = .ok s) :
    ∃ P, Custom.ctor american kw = .ok P ∧ s.coords = (P.xup, P.xdown, P.yup, P.ydown) ∧ P.par = some s.par ∧
      s.chordLine = none ∧ s.camberLine = none := by
  unfold Custom.object at h
  rw [Profile.bndA] at h
  obtain ⟨P, h1, h⟩ := h
  refine ⟨P, h1, ?_⟩
  rcases hp : P.par with _ | p
  · rw [hp] at h; cases h
  rw [hp] at h
  simp only at h
  split at h
  · rw [Profile.bndA] at h
    obtain ⟨e, h2, h⟩ := h
    obtain rfl := Except.ok.inj h
    exact ⟨rfl, rfl, rfl, rfl⟩
  · obtain rfl := Except.ok.inj h
    exact ⟨rfl, rfl, rfl, rfl⟩

/-- **C103** A NACA profile can always be reset: after any history, also one with failed calls, `generate_coordinates()` gives back the
coordinates of the constructor, and a following `generate_parameters()` its parameters. -/
theorem C103_naca_reset (lib : Lib) (digits : List Char) (n : Nat) (cosine : Bool) (Q : Profile)
    (hQ : Naca.ctor (Profile.americanThickness lib.curve lib.newton) lib.look (.str digits) (.int n) cosine = .ok Q)
    (l : List Call) (s t : Foil) (rs : List (Res Out)) (h : history lib (.naca digits n cosine) l s = some (rs, t)) :
    ∃ u, history lib (.naca digits n cosine) (l ++ [.generateCoordinates none, .generateParameters .british]) s =
        some (rs ++ [.ok .nothing, .ok .nothing], u) ∧ u.coords = (Q.xup, Q.xdown, Q.yup, Q.ydown) ∧ Q.par = some u.par := by
  have : ¬ ((n : Int) < 0) := by omega
  simp only [Naca.ctor, Naca.checkArgs, bind, Except.bind, pure, Except.pure, throw, throwThe, MonadExceptOf.throw, this, if_false, Int.toNat_natCast] at hQ
  rcases hP : Naca.generateCoordinates lib.look digits n cosine with e | P
  · rw [hP] at hQ; cases hQ
  rw [hP] at hQ
  simp only at hQ
  obtain ⟨v, hv⟩ : ∃ v : Foil, v = { t with xup := P.xup, xdown := P.xdown, yup := P.yup, ydown := P.ydown } := ⟨_, rfl⟩
  have r1 : run lib (.naca digits n cosine) (.generateCoordinates none) t = (v, .ok .nothing) := by
    rw [hv]
    exact quiet_ok (Act.eval_ok hP)
  have hfour : P.four = v.view.four := by rw [hv]; rfl
  have hg : v.view.generateParameters (Profile.americanThickness lib.curve lib.newton) .british = .ok (Q.dress Q.par v.view.chordLine v.view.camberLine) := by
    rw [Profile.dress_of_four hfour, Profile.dress_parameters _ _ _ _ _ (Profile.dress_american _ _ _ _ _ _), hQ]
    rfl
  have hQc : Q.four = P.four := by
    have hQ' := hQ
    simp only [Profile.generateParameters, bind, Except.bind, pure, Except.pure] at hQ'
    repeat' (split at hQ' <;> try (cases hQ'))
    all_goals rfl
  rcases hq : Q.par with _ | q
  · exfalso
    have hQ' := hQ
    simp only [Profile.generateParameters, bind, Except.bind, pure, Except.pure] at hQ'
    repeat' (split at hQ' <;> try (cases hQ'))
    all_goals cases hq
  obtain ⟨a, b, r2⟩ := run_generateParameters (K := .naca digits n cosine) hg hq
  refine ⟨_, history_append.2 ⟨rs, t, _, h, two_calls r1 r2, rfl⟩, ?_, rfl⟩
  show v.coords = Q.four
  rw [hQc, hfour]; rfl

/-! ## The hypotheses can be met -/

/-- The sample foil with parameters of another foil. -/
def sample : Foil := ⟨Sample.foil.xup, Sample.foil.xdown, Sample.foil.yup, Sample.foil.ydown, Sample.params, none, none, none, none⟩

theorem sample_max : MaxOf (List.zipWith (fun a b => (a + b) / 2) sample.yup sample.ydown) (1/8) := by
  simp only [sample, Sample.foil, List.zipWith_cons_cons, List.zipWith_nil_left, MaxOf, List.mem_cons, List.not_mem_nil, or_false]
  norm_num

/-- A history with a failing call, changes of coordinates and parameters, and a call that succeeds in finding the edges. -/
theorem sample_history (lib : Lib) : ∃ t, history lib .custom [.generateParameters .other, .generateCoordinates (some .other),
    .generateCoordinates none, .translate (1, 2), .setChordLength 7, .reflect] sample =
      some ([.error .unboundLocal, .ok .nothing, .ok .nothing, .ok .nothing, .ok .nothing, .ok .nothing], t) := by
  obtain ⟨t, h, -⟩ := C103_mixed lib sample 0 0 1 1 (1/8) rfl rfl rfl rfl rfl rfl (by norm_num) (by norm_num) (by norm_num) sample_max (by norm_num) rfl
  exact ⟨_, history_append (l := [.generateParameters .other, .generateCoordinates (some .other), .generateCoordinates none]).2
    ⟨_, t, [.ok .nothing, .ok .nothing, .ok .nothing], h, rfl, rfl⟩⟩

/-- The same without `generate_coordinates`, between two calls that find the edges. -/
theorem sample_edges (lib : Lib) : ∃ t o, history lib .custom [.referencePoint, .translate (1, 2), .setChordLength 7] sample =
    some ([.ok o, .ok .nothing, .ok .nothing], t) := by
  obtain ⟨y0, y1, he⟩ := edges_exist (s := sample) (x0 := 0) (x0' := 0) (x1 := 1) (x1' := 1) rfl rfl rfl rfl rfl rfl (by norm_num) (by norm_num)
  rcases referencePoint_run sample with ⟨t, e, h1, h2, h3⟩ | ⟨e, p, h1, h2, h3⟩
  · rw [Profile.referencePoint, he] at h2; cases h2
  · have hr : run lib .custom .referencePoint sample = ({ sample with le := some e.1, te := some e.2 }, .ok (.point p)) := Act.bind_ok h1
    exact ⟨_, .point p, history_cons.2 ⟨[.ok .nothing, .ok .nothing], by rw [hr], by rw [hr]; simp, by rw [hr]; rfl⟩⟩

-- C103_calls: a call that raises and one that does not
example (lib : Lib) : (∃ t, run lib .custom (.rotate none none) sample = (t, .error .valueError)) ∧
    ∃ t o, run lib .custom (.scale 2 false) sample = (t, .ok o) := ⟨⟨_, rfl⟩, ⟨_, _, rfl⟩⟩

-- C103_untouched, C103_coordinates, C103_parameters, C103_independent
example (lib : Lib) : ∃ rs t, history lib .custom [.referencePoint, .setChordLength 7] sample = some (rs, t) ∧
    ∀ c ∈ [Call.referencePoint, .setChordLength 7], c.movesCoordinates = false := by
  obtain ⟨t, o, h⟩ := sample_edges lib
  obtain ⟨rs', -, h1, -⟩ := history_cons.1 h
  exact ⟨_, _, history_cons.2 ⟨[.ok .nothing], rfl, h1, rfl⟩, by simp [Call.movesCoordinates]⟩

example (lib : Lib) : ∃ (t : Foil) (rs : List (Res Out)) (s' : Foil), sample.coords = t.coords ∧ sample.par ≠ t.par ∧
    history lib .custom [.referencePoint, .translate (1, 2), .setChordLength 7] sample = some (rs, s') ∧
    ∀ c ∈ [Call.referencePoint, .translate (1, 2), .setChordLength 7], c.isCoordinates = false := by
  obtain ⟨s', o, h⟩ := sample_edges lib
  refine ⟨{ sample with par := { Sample.params with chordLength := 5 } }, _, s', rfl, ?_, h, by simp [Call.isCoordinates]⟩
  intro hp
  have : (2 : ℝ) = 5 := congrArg Params.chordLength hp
  norm_num at this

example (lib : Lib) : ∃ (t : Foil) (rs : List (Res Out)) (s' : Foil), sample.par = t.par ∧ sample.coords ≠ t.coords ∧
    history lib .custom [.referencePoint, .translate (1, 2), .setChordLength 7] sample = some (rs, s') ∧
    ∀ c ∈ [Call.referencePoint, .translate (1, 2), .setChordLength 7], c.isParameters = false := by
  obtain ⟨s', o, h⟩ := sample_edges lib
  refine ⟨{ sample with xup := [] }, _, s', rfl, ?_, h, by simp [Call.isParameters]⟩
  intro hp
  have : sample.xup = [] := congrArg Prod.fst hp
  simp [sample, Sample.foil] at this

example (lib : Lib) : ∃ t rs s', Same sample t ∧ sample.le ≠ t.le ∧ history lib .custom [.generateParameters .other, .generateCoordinates (some .other),
    .generateCoordinates none, .translate (1, 2), .setChordLength 7, .reflect] sample = some (rs, s') := by
  obtain ⟨s', h⟩ := sample_history lib
  exact ⟨{ sample with le := some (3, 4) }, _, s', ⟨rfl, rfl⟩, by simp [sample], h⟩

-- C103_edges
example (lib : Lib) : ∃ rs t o, history lib .custom ([] ++ Call.referencePoint :: [.translate (1, 2), .setChordLength 7]) sample = some (rs, t) ∧
    Call.referencePoint.findsEdges = true ∧ (∀ d ∈ [Call.translate (1, 2), .setChordLength 7], d.findsEdges = false) ∧ rs[0]? = some (.ok o) := by
  obtain ⟨t, o, h⟩ := sample_edges lib
  exact ⟨_, t, o, h, rfl, by simp [Call.findsEdges], rfl⟩

-- C103_lost_edges: all three cases
example : ∃ (s : Foil) (x0 x0' x1 x1' : ℝ), s.xup.head? = some x0 ∧ s.xdown.head? = some x0' ∧ s.xup.getLast? = some x1 ∧ s.xdown.getLast? = some x1' ∧
    1e-4 < |x1 - x1'| := ⟨{ sample with xdown := [0, 1, 2] }, 0, 0, 1, 2, rfl, rfl, rfl, rfl, by norm_num⟩

example : ∃ (s : Foil) (y0 : ℝ), s.xup.head? = some 0 ∧ s.xdown.head? = some 0 ∧ s.xup.getLast? = some 1 ∧ s.xdown.getLast? = some 1 ∧
    s.yup.head? = some y0 ∧ s.ydown = [] := ⟨{ sample with ydown := [] }, _, rfl, rfl, rfl, rfl, rfl, rfl⟩

-- C103_failed_parameters
example (lib : Lib) : ∃ t, run lib .custom (.generateParameters .other) sample = (t, .error .unboundLocal) := by
  obtain ⟨t, h⟩ := sample_history lib
  obtain ⟨rs', h1, -⟩ := history_cons.1 h
  simp only [List.cons.injEq] at h1
  exact ⟨_, Prod.ext rfl h1.1.symm⟩

-- C103_mixed and C103_projection
example : sample.yup.length = sample.xup.length ∧ sample.ydown.length = sample.xup.length ∧ sample.xup.head? = some 0 ∧ sample.xdown.head? = some 0 ∧
    sample.xup.getLast? = some 1 ∧ sample.xdown.getLast? = some 1 ∧ |(0 : ℝ) - 0| ≤ 1e-4 ∧ |(1 : ℝ) - 1| ≤ 1e-4 ∧ (0 : ℝ) ≠ 1 ∧
    MaxOf (List.zipWith (fun a b => (a + b) / 2) sample.yup sample.ydown) (1/8) ∧ (1 / 8 : ℝ) ≠ 0 ∧ sample.par.thicknessPerc.length = sample.xup.length :=
  ⟨rfl, rfl, rfl, rfl, rfl, rfl, by norm_num, by norm_num, by norm_num, sample_max, by norm_num, rfl⟩

-- C103_no_edges and C103_new
example (american : Profile → Res Arr) : ∃ s, Custom.object american Sample.paramsKw = .ok s ∧ Sample.paramsKw.keys.toFinset = Custom.paramKeys := by
  rcases (C16_ctor american Sample.paramsKw (by decide)).2 with h | ⟨Q, p, h, hp, -⟩
  · have := (C16_ctor american Sample.paramsKw (by decide)).1.1 h
    exfalso
    simp [Sample.paramsKw, Sample.params] at this
    norm_num at this
  · refine ⟨⟨Q.xup, Q.xdown, Q.yup, Q.ydown, p, none, none, none, none⟩, ?_, by decide⟩
    unfold Custom.object
    rw [Profile.bndA]
    refine ⟨Q, h, ?_⟩
    rw [hp]
    simp only
    rw [if_neg (by decide)]
    rfl

-- C103_naca_reset
example (lib : Lib) : ∃ Q t rs, Naca.ctor (Profile.americanThickness lib.curve lib.newton) lib.look (.str ['2', '4', '1', '2']) (.int (10 : Nat)) true = .ok Q ∧
    history lib (.naca ['2', '4', '1', '2'] 10 true) [.translate (1, 2), .rotate none none, .generateCoordinates (some .british)] sample = some (rs, t) := by
  obtain ⟨Q, h, -⟩ := C21_four_digits (Profile.americanThickness lib.curve lib.newton) lib.look '2' '4' '1' '2' rfl rfl rfl rfl 10 (by norm_num) true
  exact ⟨Q, _, _, h, rfl⟩

end Foil
end
end BladeX
