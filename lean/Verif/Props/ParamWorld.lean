import Verif.Props.ParamRead
import Verif.Props.ParamCrash
import Verif.Spec.ParamWorld

/-! # C124: several objects, several files, crashes -/

namespace BladeX
noncomputable section
namespace ParamFile

theorem write_inconsistent {C : Codec} {fs : FS} {path : Str} {a : ParamFile} (h : ¬ a.Consistent) :
    (writeInto C fs path a).1 = fs ∧ (writeInto C fs path a).2.2 = some .valueError := by
  rcases hk : checkInto a with ⟨q, e⟩
  obtain ⟨h1, _, h3, _⟩ := C93_check _ _ _ hk
  have he : e ≠ none := fun e => h (h1.1 e)
  obtain rfl := h3 he
  unfold writeInto
  rw [hk]
  exact ⟨rfl, rfl⟩

theorem check_consistent {a : ParamFile} (h : a.Consistent) : checkInto a = (a.filled, none) := by
  rcases hk : checkInto a with ⟨q, e⟩
  obtain ⟨h1, h2, _⟩ := C93_check _ _ _ hk
  obtain rfl := h1.2 h
  obtain rfl := h2 rfl
  rfl

theorem check_inconsistent {a : ParamFile} (h : ¬ a.Consistent) : ∃ q, checkInto a = (q, some .valueError) := by
  rcases hk : checkInto a with ⟨q, e⟩
  obtain ⟨h1, _, h3, _⟩ := C93_check _ _ _ hk
  have he : e ≠ none := fun e => h (h1.1 e)
  obtain rfl := h3 he
  exact ⟨q, rfl⟩

theorem filled_filled (pf : ParamFile) : pf.filled.filled = pf.filled := by simp [filled]

theorem filled_consistent {pf : ParamFile} (hc : pf.Consistent) : pf.filled.Consistent := by
  obtain ⟨r, hr, hl⟩ := hc.radii
  refine ⟨⟨r, hr, ?_⟩, hc.nbasis⟩
  intro p v hv
  simp only [filled, hr, Option.getD_some, Option.some.injEq] at hv
  subst hv
  rcases hp : pf.parameters p with _ | w
  · simp
  · simpa using hl p w hp

private theorem step_keeps {C : Codec} {w : World} {e : Event} {path : Str} {t : Str} (ht : w.fs path = some t)
    (h : ¬ e.Overwrites path) : (w.step C e).1.fs path = some t := by
  cases e with
  | write i q =>
    have hq : path ≠ q := fun e => h e.symm
    show (writeInto C w.fs q (w.obj i)).1 path = some t
    by_cases hc : (w.obj i).Consistent
    · rw [write_consistent hc]; simp [hq, ht]
    · rw [(write_inconsistent hc).1]; exact ht
  | read i q =>
    show (readParametersInto C w.fs q (w.obj i)).1 path = some t
    by_cases hq : path = q
    · subst hq
      rw [(C93_files C w.fs path (w.obj i)).1 (by rw [ht]; simp)]; exact ht
    · rw [(C93_files C w.fs q (w.obj i)).2 path hq]; exact ht
  | edit i pf => exact ht
  | dies i q n =>
    have hq : path ≠ q := fun e => h e.symm
    unfold World.step
    simp only
    split
    · exact ht
    · simp [World.setObj, hq, ht]

private theorem run_keeps {C : Codec} {path t : Str} : ∀ (es : List Event) (w : World), w.fs path = some t →
    (∀ e ∈ es, ¬ e.Overwrites path) → (w.run C es).fs path = some t := by
  intro es
  induction es with
  | nil => intro w h _; exact h
  | cons e es ih =>
    intro w h hn
    exact ih _ (step_keeps h (hn e (by simp))) fun e' h' => hn e' (by simp [h'])

/-- **C124**: whatever happened before: once object `i`, consistent, has been written to a path, and nothing has been written
there since, every object that reads the path then holds exactly what object `i` held at the time (missing distributions as
zeros), without an exception and without changing any file. -/
theorem C124_last_write (C : Codec) (hC : C.Lawful) (w0 : World) (before after : List Event) (i j : Nat) (path : Str)
    (pf : ParamFile) (hpf : (w0.run C before).obj i = pf) (hc : pf.Consistent) (hne : pf.NonEmpty) (hrep : pf.Representable C)
    (ha : ∀ e ∈ after, ¬ e.Overwrites path) :
    let w := w0.run C (before ++ .write i path :: after)
    w.step C (.read j path) = (⟨w.fs, fun k => if k = j then pf.filled else w.obj k⟩, none) := by
  intro w
  have hfs : w.fs path = some (text C pf.filled) := by
    show (w0.run C (before ++ .write i path :: after)).fs path = _
    unfold World.run
    rw [List.foldl_append, List.foldl_cons]
    refine run_keeps after _ ?_ ha
    show (writeInto C (w0.run C before).fs path ((w0.run C before).obj i)).1 path = _
    rw [hpf, write_consistent hc]
    simp
  have hr : readText C (text C pf.filled) = .ok pf.filled :=
    C123_newline C hC pf hc hne hrep _ [] (List.append_nil _) (by simp)
  have : readParametersInto C w.fs path (w.obj j) = (w.fs, pf.filled, none) := by
    unfold readParametersInto
    rw [hfs]
    simp only
    rw [(C93_success C _ (w.obj j) pf.filled).2 hr]
  show (World.setObj ⟨(readParametersInto C w.fs path (w.obj j)).1, w.obj⟩ j (readParametersInto C w.fs path (w.obj j)).2.1,
    (readParametersInto C w.fs path (w.obj j)).2.2) = _
  rw [this]
  rfl

/-- **C124**: if instead the last thing that happened to the path is a crash of its writer, all readers fare alike: the
same exception for all, or the same parameters for all, those being written up to the last number. -/
theorem C124_last_crash (C : Codec) (hC : C.Lawful) (w0 : World) (before after : List Event) (i n : Nat) (path : Str)
    (pf : ParamFile) (hpf : (w0.run C before).obj i = pf) (hc : pf.Consistent) (hne : pf.NonEmpty) (hrep : pf.Representable C)
    (ha : ∀ e ∈ after, ¬ e.Overwrites path) :
    let w := w0.run C (before ++ .dies i path n :: after)
    (∃ e, (e = .parseError ∨ e = .valueError) ∧ ∀ j, (w.step C (.read j path)).1.fs = w.fs ∧ (w.step C (.read j path)).2 = some e) ∨
    ∃ q, SameButLast C pf.filled q ∧
      ∀ j, w.step C (.read j path) = (⟨w.fs, fun k => if k = j then q else w.obj k⟩, none) := by
  intro w
  have hfs : w.fs path = some ((text C pf.filled).take n) := by
    show (w0.run C (before ++ .dies i path n :: after)).fs path = _
    unfold World.run
    rw [List.foldl_append, List.foldl_cons]
    refine run_keeps after _ ?_ ha
    change (World.step C (w0.run C before) (.dies i path n)).1.fs path = _
    unfold World.step
    simp only [hpf, check_consistent hc]
    simp [World.setObj]
  have hstep : ∀ j, w.step C (.read j path) = (⟨w.fs, fun k => if k = j then (readInto C ((text C pf.filled).take n) (w.obj j)).1 else w.obj k⟩,
      (readInto C ((text C pf.filled).take n) (w.obj j)).2) := by
    intro j
    have : readParametersInto C w.fs path (w.obj j) = (w.fs, readInto C ((text C pf.filled).take n) (w.obj j)) := by
      unfold readParametersInto
      rw [hfs]
    show (World.setObj ⟨(readParametersInto C w.fs path (w.obj j)).1, w.obj⟩ j (readParametersInto C w.fs path (w.obj j)).2.1,
      (readParametersInto C w.fs path (w.obj j)).2.2) = _
    rw [this]
    rfl
  rcases C123_interrupted C hC pf hc hne hrep _ (List.take_prefix n (text C pf.filled)) with ⟨e, he, h2⟩ | ⟨q, hq, hs⟩
  · refine Or.inl ⟨e, h2, fun j => ?_⟩
    rw [hstep j]
    exact ⟨rfl, (C93_refused C _ _ e).2 he⟩
  · refine Or.inr ⟨q, hs, fun j => ?_⟩
    rw [hstep j, (C93_success C _ (w.obj j) q).2 hq]

/-- **C124**: a write that is refused, and a crash of an object that would be refused, leave every file alone. -/
theorem C124_refused (C : Codec) (w : World) (i n : Nat) (path : Str) (hc : ¬ (w.obj i).Consistent) :
    (w.step C (.write i path)).1.fs = w.fs ∧ (w.step C (.write i path)).2 = some .valueError ∧
      (w.step C (.dies i path n)).1.fs = w.fs := by
  obtain ⟨h1, h2⟩ := write_inconsistent (C := C) (fs := w.fs) (path := path) hc
  refine ⟨h1, h2, ?_⟩
  obtain ⟨q, hq⟩ := check_inconsistent hc
  unfold World.step
  simp only [hq]
  rfl

/-- **C124**: a path that no event names keeps its file, or stays without one. -/
theorem C124_other_files (C : Codec) (path : Str) : ∀ (es : List Event) (w : World), (∀ e ∈ es, ¬ e.Names path) →
    (w.run C es).fs path = w.fs path := by
  intro es
  induction es with
  | nil => intro w _; rfl
  | cons e es ih =>
    intro w hn
    refine (ih _ fun e' h' => hn e' (by simp [h'])).trans ?_
    have h := hn e (by simp)
    cases e with
    | write i q =>
      have hq : path ≠ q := fun e => h e.symm
      show (writeInto C w.fs q (w.obj i)).1 path = _
      by_cases hc : (w.obj i).Consistent
      · rw [write_consistent hc]; simp [hq]
      · rw [(write_inconsistent hc).1]
    | read i q => exact (C93_files C w.fs q (w.obj i)).2 path fun e => h e.symm
    | edit i pf => rfl
    | dies i q n =>
      have hq : path ≠ q := fun e => h e.symm
      unfold World.step
      simp only
      split
      · rfl
      · simp [World.setObj, hq]

/-- **C124**: reading a written file and writing it under another name, with any object, copies it character by character. -/
theorem C124_copy (C : Codec) (hC : C.Lawful) (w0 : World) (before after : List Event) (i j : Nat) (path path' : Str)
    (pf : ParamFile) (hpf : (w0.run C before).obj i = pf) (hc : pf.Consistent) (hne : pf.NonEmpty) (hrep : pf.Representable C)
    (ha : ∀ e ∈ after, ¬ e.Overwrites path) :
    let w := w0.run C (before ++ .write i path :: after)
    let w' := w.run C [.read j path, .write j path']
    w'.fs path' = w.fs path ∧ w.fs path ≠ none ∧ ∀ q, q ≠ path' → w'.fs q = w.fs q := by
  intro w w'
  have hr := C124_last_write C hC w0 before after i j path pf hpf hc hne hrep ha
  have hfs : w.fs path = some (text C pf.filled) := by
    show (w0.run C (before ++ .write i path :: after)).fs path = _
    unfold World.run
    rw [List.foldl_append, List.foldl_cons]
    refine run_keeps after _ ?_ ha
    show (writeInto C (w0.run C before).fs path ((w0.run C before).obj i)).1 path = _
    rw [hpf, write_consistent hc]
    simp
  have hw' : w'.fs = fun q => if q = path' then some (text C pf.filled) else w.fs q := by
    show ((w.step C (.read j path)).1.step C (.write j path')).1.fs = _
    have : w.step C (.read j path) = (⟨w.fs, fun k => if k = j then pf.filled else w.obj k⟩, none) := hr
    rw [this]
    show (writeInto C w.fs path' (if j = j then pf.filled else w.obj j)).1 = _
    rw [if_pos rfl, write_consistent (filled_consistent hc), filled_filled]
  rw [hw', hfs]
  refine ⟨by simp, by simp, fun q hq => by simp [hq]⟩

/-- **C124**: objects share nothing but the files: no event changes an object it does not concern. -/
theorem C124_other_objects (C : Codec) (j : Nat) : ∀ (es : List Event) (w : World), (∀ e ∈ es, e.who ≠ j) →
    (w.run C es).obj j = w.obj j := by
  intro es
  induction es with
  | nil => intro w _; rfl
  | cons e es ih =>
    intro w hn
    refine (ih _ fun e' h' => hn e' (by simp [h'])).trans ?_
    have h := hn e (by simp)
    cases e with
    | write i q => exact if_neg (fun e : j = i => h e.symm)
    | read i q => exact if_neg (fun e : j = i => h e.symm)
    | edit i pf => exact if_neg (fun e : j = i => h e.symm)
    | dies i q n =>
      unfold World.step
      simp only
      split
      · exact if_neg (fun e : j = i => h e.symm)
      · exact if_neg (fun e : j = i => h e.symm)

/-- **C124**: what becomes of the object an event concerns: a successful write leaves in it what it put into the file, so that
writing, reading back into the same object and writing again changes neither object nor file; a refused write changes nothing
but missing distributions; after a crash the object is new. -/
theorem C124_objects (C : Codec) (w : World) (i : Nat) (path : Str) :
    ((w.obj i).Consistent → (w.step C (.write i path)).2 = none ∧ (w.step C (.write i path)).1.obj i = (w.obj i).filled ∧
      (w.step C (.write i path)).1.fs path = some (text C (w.obj i).filled)) ∧
    (¬ (w.obj i).Consistent → ∀ p, ((w.step C (.write i path)).1.obj i).radii = (w.obj i).radii ∧
      ((w.step C (.write i path)).1.obj i).deformations = (w.obj i).deformations ∧
      ((w.obj i).parameters p ≠ none → ((w.step C (.write i path)).1.obj i).parameters p = (w.obj i).parameters p)) ∧
    (∀ n, (w.step C (.dies i path n)).1.obj i = init) ∧
    (∀ pf, (w.step C (.edit i pf)).1.obj i = pf ∧ (w.step C (.edit i pf)).1.fs = w.fs) := by
  have hobj : (w.step C (.write i path)).1.obj i = (writeInto C w.fs path (w.obj i)).2.1 := if_pos rfl
  refine ⟨fun hc => ?_, fun hc p => ?_, fun n => ?_, fun pf => ⟨if_pos rfl, rfl⟩⟩
  · rw [hobj]
    refine ⟨?_, ?_, ?_⟩
    · show (writeInto C w.fs path (w.obj i)).2.2 = _
      rw [write_consistent hc]
    · rw [write_consistent hc]
    · show (writeInto C w.fs path (w.obj i)).1 path = _
      rw [write_consistent hc]; simp
  · obtain ⟨q, hq⟩ := check_inconsistent hc
    obtain ⟨_, _, _, h4, _, _, _, h8, h9⟩ := C93_check _ _ _ hq
    have : (writeInto C w.fs path (w.obj i)).2.1 = q := by
      unfold writeInto; rw [hq]
    rw [hobj, this]
    refine ⟨h4, h8, fun hp => ?_⟩
    rcases h9 p with h | ⟨h, _⟩
    · exact h
    · exact absurd h hp
  · unfold World.step
    simp only
    split <;> exact if_pos rfl

example (fs : FS) : ((World.mk fs fun _ => sample2).step tenths (.write 0 c!"a")).1.obj 0 = sample2.filled :=
  ((C124_objects tenths ⟨fs, fun _ => sample2⟩ 0 c!"a").1 sample2_ok.1).2.1

example (fs : FS) : (World.run tenths ⟨fs, fun _ => sample2⟩ [.write 0 c!"a", .dies 0 c!"a" 3, .edit 1 sample]).obj 2 = sample2 :=
  C124_other_objects tenths 2 _ _ (by simp [Event.who])

/-- Two objects write to one path, a third reads: it gets what the second wrote, although the first was changed meanwhile. -/
example (pf : ParamFile) (fs : FS) : ((World.run tenths ⟨fs, fun _ => init⟩ ([.edit 0 sample, .write 0 c!"a", .edit 1 sample2] ++
    .write 1 c!"a" :: [.edit 1 pf, .write 1 c!"b", .read 2 c!"c"])).step tenths (.read 2 c!"a")).1.obj 2 = sample2.filled := by
  obtain ⟨h1, h2, h3⟩ := sample2_ok
  have := C124_last_write tenths tenths_lawful ⟨fs, fun _ => init⟩ [.edit 0 sample, .write 0 c!"a", .edit 1 sample2]
    [.edit 1 pf, .write 1 c!"b", .read 2 c!"c"] 1 2 c!"a" sample2 rfl h1 h2 h3 (by
      intro e he
      simp only [List.mem_cons, List.not_mem_nil, or_false] at he
      rcases he with rfl | rfl | rfl <;> simp [Event.Overwrites])
  simp only at this
  rw [this]
  rfl

example (fs : FS) : let w := World.run tenths ⟨fs, fun _ => sample2⟩ [.write 0 c!"a"]
    (w.run tenths [.read 1 c!"a", .write 1 c!"b"]).fs c!"b" = w.fs c!"a" := by
  obtain ⟨h1, h2, h3⟩ := sample2_ok
  exact (C124_copy tenths tenths_lawful ⟨fs, fun _ => sample2⟩ [] [] 0 1 c!"a" c!"b" sample2 rfl h1 h2 h3 (by simp)).1

example (fs : FS) (n : Nat) : ((World.mk fs fun _ => init).step tenths (.dies 0 c!"a" n)).1.fs = fs :=
  (C124_refused tenths ⟨fs, fun _ => init⟩ 0 n c!"a" (by rintro ⟨⟨r, hr, _⟩, _⟩; cases hr)).2.2

end ParamFile
end
end BladeX
