import Verif.Spec.BladeParts
import Verif.Props.BladeRefused

/-! # C152: what the sections, the coordinates and the faces of a blade depend on (`bladex/blade.py`) -/

namespace BladeX
noncomputable section
open Spec Classical
namespace Blade

theorem SameDesign.refl (b : Blade) : SameDesign b b := ⟨rfl, rfl, rfl, rfl, rfl, rfl, rfl, rfl⟩

theorem SameDesign.symm {b b' : Blade} (h : SameDesign b b') : SameDesign b' b := by
  obtain ⟨h1, h2, h3, h4, h5, h6, h7, h8⟩ := h
  exact ⟨h1.symm, h2.symm, h3.symm, h4.symm, h5.symm, h6.symm, h7.symm, h8.symm⟩

theorem SameDesign.trans {b b' b'' : Blade} (h : SameDesign b b') (g : SameDesign b' b'') : SameDesign b b'' := by
  obtain ⟨h1, h2, h3, h4, h5, h6, h7, h8⟩ := h
  obtain ⟨g1, g2, g3, g4, g5, g6, g7, g8⟩ := g
  exact ⟨h1.trans g1, h2.trans g2, h3.trans g3, h4.trans g4, h5.trans g5, h6.trans g6, h7.trans g7, h8.trans g8⟩

theorem SameCoords.symm {b b' : Blade} (h : SameCoords b b') : SameCoords b' b := ⟨h.1.symm, h.2.symm⟩

theorem SameCoords.trans {b b' b'' : Blade} (h : SameCoords b b') (g : SameCoords b' b'') : SameCoords b b'' :=
  ⟨h.1.trans g.1, h.2.trans g.2⟩

theorem sectionLoop_design {b b' : Blade} (h : SameDesign b b') (refl : Bool) (Ps : List Profile) (i : Nat) :
    sectionLoop b refl i Ps = sectionLoop b' refl i Ps := by
  obtain ⟨h1, h2, h3, h4, h5, h6, h7, h8⟩ := h
  have hs : ∀ i, sectionSteps b refl i = sectionSteps b' refl i := by
    intro i; unfold sectionSteps; rw [h1, h2, h3, h4, h5, h6, h7, h8]
  induction Ps generalizing i with
  | nil => rfl
  | cons P Ps ih => simp only [sectionLoop, hs, ih]

theorem apply_design {b b' : Blade} (h : SameDesign b b') (refl : Bool) :
    SameDesign (applyTransformations refl b).1 (applyTransformations refl b').1 ∧
    (applyTransformations refl b).2 = (applyTransformations refl b').2 ∧
    ((applyTransformations refl b).2 = .ok () → SameCoords (applyTransformations refl b).1 (applyTransformations refl b').1) ∧
    (SameCoords b b' → SameCoords (applyTransformations refl b).1 (applyTransformations refl b').1) := by
  have hl := sectionLoop_design h refl b.sections 0
  obtain ⟨h1, h2, h3, h4, h5, h6, h7, h8⟩ := h
  unfold applyTransformations
  rw [← h1, ← h2, ← hl]
  rcases sectionLoop b refl 0 b.sections with ⟨ss, (e | u)⟩
  · refine ⟨⟨rfl, rfl, h3, h4, h5, h6, h7, h8⟩, rfl, ?_, fun h => h⟩
    intro h
    cases h
  · simp only
    rcases cylindrical ss b.radii with e | ⟨up, down⟩
    · exact ⟨⟨rfl, rfl, h3, h4, h5, h6, h7, h8⟩, rfl, fun _ => ⟨rfl, rfl⟩, fun _ => ⟨rfl, rfl⟩⟩
    · exact ⟨⟨rfl, rfl, h3, h4, h5, h6, h7, h8⟩, rfl, fun _ => ⟨rfl, rfl⟩, fun _ => ⟨rfl, rfl⟩⟩

/-- Building is transforming, then only the faces change. -/
theorem build_apply (occ : Face → Bool) (refl : Bool) (b : Blade) :
    SameDesign (build occ refl b).1 (applyTransformations refl b).1 ∧ SameCoords (build occ refl b).1 (applyTransformations refl b).1 := by
  unfold build
  rcases applyTransformations refl b with ⟨b₁, (e | u)⟩
  · exact ⟨.refl _, rfl, rfl⟩
  simp only
  repeat' split
  all_goals exact ⟨⟨rfl, rfl, rfl, rfl, rfl, rfl, rfl, rfl⟩, rfl, rfl⟩

theorem build_design {b b' : Blade} (h : SameDesign b b') (occ : Face → Bool) (refl : Bool) :
    (build occ refl b).2 = (build occ refl b').2 ∧ ((build occ refl b).2 = .ok () → build occ refl b = build occ refl b') := by
  obtain ⟨a1, a2, a3, -⟩ := apply_design h refl
  unfold build
  rcases hb : applyTransformations refl b with ⟨x, (e | u)⟩ <;> rcases hb' : applyTransformations refl b' with ⟨y, (e' | u')⟩ <;>
    rw [hb, hb'] at a1 a2 a3
  · simp only at a2 ⊢
    exact ⟨a2, (by intro h; cases h)⟩
  · cases a2
  · cases a2
  · obtain ⟨c1, c2⟩ := a3 rfl
    obtain ⟨h1, h2, h3, h4, h5, h6, h7, h8⟩ := a1
    obtain ⟨_, _, _, _, _, _, _, _, _, _, _, _, _, _⟩ := x
    obtain ⟨_, _, _, _, _, _, _, _, _, _, _, _, _, _⟩ := y
    simp only at h1 h2 h3 h4 h5 h6 h7 h8 c1 c2
    subst h1 h2 h3 h4 h5 h6 h7 h8 c1 c2
    simp only
    split
    · exact ⟨rfl, (by intro h; cases h)⟩
    · split
      · exact ⟨rfl, (by intro h; cases h)⟩
      · split
        · exact ⟨rfl, (by intro h; cases h)⟩
        · split
          · exact ⟨rfl, (by intro h; cases h)⟩
          · exact ⟨rfl, fun _ => rfl⟩

theorem export_design {b b' : Blade} (h : SameDesign b b') (F : Fmt) (w : Bool) (fs : ParamFile.FS) (path : Str) (D Dhub : ℝ) (nB : Int) (norm : Bool) :
    SameDesign (exportPpg F w fs path D Dhub nB norm b).1 (exportPpg F w fs path D Dhub nB norm b').1 ∧
    (exportPpg F w fs path D Dhub nB norm b).2 = (exportPpg F w fs path D Dhub nB norm b').2 ∧
    SameCoords (exportPpg F w fs path D Dhub nB norm b).1 b ∧ SameCoords (exportPpg F w fs path D Dhub nB norm b').1 b' := by
  obtain ⟨h1, h2, h3, h4, h5, h6, h7, h8⟩ := h
  obtain ⟨_, _, _, _, _, _, _, _, _, _, _, _, _, _⟩ := b
  obtain ⟨_, _, _, _, _, _, _, _, _, _, _, _, _, _⟩ := b'
  simp only at h1 h2 h3 h4 h5 h6 h7 h8
  subst h1 h2 h3 h4 h5 h6 h7 h8
  unfold exportPpg ppgMeasures
  simp only
  split
  · exact ⟨⟨rfl, rfl, rfl, rfl, rfl, rfl, rfl, rfl⟩, rfl, ⟨rfl, rfl⟩, rfl, rfl⟩
  rename_i ms hms
  by_cases hD : norm = false ∧ D = 0
  · simp only [if_pos hD]
    exact ⟨⟨rfl, rfl, rfl, rfl, rfl, rfl, rfl, rfl⟩, trivial, ⟨rfl, rfl⟩, rfl, rfl⟩
  simp only [if_neg hD]
  have ht : ∀ (S : List Profile) (r c p k s : Arr) (t f : Option Arr) (u d u' d' : Face) (a1 a2 a3 a4 a1' a2' a3' a4' : Option Face) (x y : Arr),
      ppgText F D Dhub nB ⟨S, r, c, p, k, s, t, f, u, d, a1, a2, a3, a4⟩ x y = ppgText F D Dhub nB ⟨S, r, c, p, k, s, t, f, u', d', a1', a2', a3', a4'⟩ x y :=
    fun _ _ _ _ _ _ _ _ _ _ _ _ _ _ _ _ _ _ _ _ _ _ => rfl
  have fin : ∀ (S : List Profile) (r c p k s : Arr) (t f : Option Arr) (u d u' d' : Face) (a1 a2 a3 a4 a1' a2' a3' a4' : Option Face) (g : Blade → Blade)
      (x y : Arr), (∀ b, SameCoords (g b) b) → (∀ b b', SameDesign b b' → SameDesign (g b) (g b')) →
      let run : Blade → Blade × ParamFile.FS × Res Unit := fun b => match ppgText F D Dhub nB b x y with
        | .error e => (b, fs, .error e)
        | .ok t => if w then (g b, fun q => if q = path then some t else fs q, .ok ()) else (b, fs, .error .osError)
      SameDesign (run ⟨S, r, c, p, k, s, t, f, u, d, a1, a2, a3, a4⟩).1 (run ⟨S, r, c, p, k, s, t, f, u', d', a1', a2', a3', a4'⟩).1 ∧
      (run ⟨S, r, c, p, k, s, t, f, u, d, a1, a2, a3, a4⟩).2 = (run ⟨S, r, c, p, k, s, t, f, u', d', a1', a2', a3', a4'⟩).2 ∧
      SameCoords (run ⟨S, r, c, p, k, s, t, f, u, d, a1, a2, a3, a4⟩).1 ⟨S, r, c, p, k, s, t, f, u, d, a1, a2, a3, a4⟩ ∧
      SameCoords (run ⟨S, r, c, p, k, s, t, f, u', d', a1', a2', a3', a4'⟩).1 ⟨S, r, c, p, k, s, t, f, u', d', a1', a2', a3', a4'⟩ := by
    intro S r c p k s t f u d u' d' a1 a2 a3 a4 a1' a2' a3' a4' g x y hg1 hg2 run
    have e := ht S r c p k s t f u d u' d' a1 a2 a3 a4 a1' a2' a3' a4' x y
    simp only [run]
    rw [← e]
    rcases ppgText F D Dhub nB ⟨S, r, c, p, k, s, t, f, u, d, a1, a2, a3, a4⟩ x y with e | txt
    · exact ⟨⟨rfl, rfl, rfl, rfl, rfl, rfl, rfl, rfl⟩, rfl, ⟨rfl, rfl⟩, rfl, rfl⟩
    · rcases w with _ | _
      · exact ⟨⟨rfl, rfl, rfl, rfl, rfl, rfl, rfl, rfl⟩, rfl, ⟨rfl, rfl⟩, rfl, rfl⟩
      · exact ⟨hg2 _ _ ⟨rfl, rfl, rfl, rfl, rfl, rfl, rfl, rfl⟩, rfl, hg1 _, hg1 _⟩
  rcases norm with _ | _
  · simp only [Bool.false_eq_true, if_false, absToNorm]
    exact fin _ _ _ _ _ _ _ _ _ _ _ _ _ _ _ _ _ _ _ _ (normToAbs D) _ _ (fun b => ⟨rfl, rfl⟩) (by
      rintro b b' ⟨h1, h2, h3, h4, h5, h6, h7, h8⟩
      exact ⟨h1, by simp [normToAbs, h2], by simp [normToAbs, h3], by simp [normToAbs, h4], by simp [normToAbs, h5], h6, h7, h8⟩)
  · simp only [if_true]
    exact fin _ _ _ _ _ _ _ _ _ _ _ _ _ _ _ _ _ _ _ _ id _ _ (fun b => ⟨rfl, rfl⟩) (fun b b' h => h)

theorem onFaces_parts (f : Pt3 → Pt3) (b : Blade) : SameDesign (onFaces f b).1 b ∧ SameCoords (onFaces f b).1 b := by
  obtain ⟨_, _, _, _, _, _, _, _, _, _, U, L, T, R⟩ := b
  rcases U with _ | U <;> rcases L with _ | L <;> rcases T with _ | T <;> rcases R with _ | R <;>
    exact ⟨⟨rfl, rfl, rfl, rfl, rfl, rfl, rfl, rfl⟩, rfl, rfl⟩

theorem rotate_parts (deg rad : Option ℝ) (axis : Str) (b : Blade) : SameDesign (rotate deg rad axis b).1 b := by
  unfold rotate
  repeat' split
  all_goals first
    | exact .refl _
    | exact (onFaces_parts _ _).1.trans ⟨rfl, rfl, rfl, rfl, rfl, rfl, rfl, rfl⟩

theorem rotate_coords (deg rad : Option ℝ) (axis : Str) {b b' : Blade} (h : SameCoords b b') :
    SameCoords (rotate deg rad axis b).1 (rotate deg rad axis b').1 := by
  unfold rotate
  rw [← h.1]
  split
  · exact h
  · split
    · exact h
    · split
      · exact h
      · refine (onFaces_parts _ _).2.trans (.trans ?_ (onFaces_parts _ _).2.symm)
        exact ⟨rfl, by simp only [h.2]⟩

theorem mirror_parts (args : List Pt3) (kwargs : List (Str × Pt3)) (b : Blade) :
    SameDesign (mirror args kwargs b).1 b ∧ SameCoords (mirror args kwargs b).1 b := by
  unfold mirror
  repeat' split
  all_goals first
    | exact ⟨.refl _, rfl, rfl⟩
    | exact onFaces_parts _ _

theorem scale_parts (q : ℝ) (b : Blade) : SameDesign (Blade.scale q b).1 b := by
  unfold Blade.scale
  dsimp only
  split
  · exact ⟨rfl, rfl, rfl, rfl, rfl, rfl, rfl, rfl⟩
  · exact (onFaces_parts _ _).1.trans ⟨rfl, rfl, rfl, rfl, rfl, rfl, rfl, rfl⟩

theorem scale_coords (q : ℝ) {b b' : Blade} (h : SameCoords b b') : SameCoords (Blade.scale q b).1 (Blade.scale q b').1 := by
  unfold Blade.scale
  dsimp only
  split
  · exact ⟨by simp only [h.1], by simp only [h.2]⟩
  · exact (onFaces_parts _ _).2.trans (.trans ⟨by simp only [h.1], by simp only [h.2]⟩ (onFaces_parts _ _).2.symm)

/-- One call. -/
theorem run_design {b b' : Blade} (h : SameDesign b b') (a : Action) : SameDesign (a.run b).1 (a.run b').1 := by
  cases a with
  | apply refl => exact (apply_design h refl).1
  | build occ refl => exact (build_apply occ refl b).1.trans ((apply_design h refl).1.trans (build_apply occ refl b').1.symm)
  | rotate deg rad axis => exact (rotate_parts _ _ _ _).trans (h.trans (rotate_parts _ _ _ _).symm)
  | mirror args kwargs => exact (mirror_parts _ _ _).1.trans (h.trans (mirror_parts _ _ _).1.symm)
  | scale q => exact (scale_parts _ _).trans (h.trans (scale_parts _ _).symm)
  | exportPpg F w fs path D Dhub nB norm => exact (export_design h F w fs path D Dhub nB norm).1
  | reset => exact h

theorem run_coords {b b' : Blade} (h : SameDesign b b') (g : SameCoords b b') (a : Action) : SameCoords (a.run b).1 (a.run b').1 := by
  cases a with
  | apply refl => exact (apply_design h refl).2.2.2 g
  | build occ refl => exact (build_apply occ refl b).2.trans (((apply_design h refl).2.2.2 g).trans (build_apply occ refl b').2.symm)
  | rotate deg rad axis => exact rotate_coords _ _ _ g
  | mirror args kwargs => exact (mirror_parts _ _ _).2.trans (g.trans (mirror_parts _ _ _).2.symm)
  | scale q => exact scale_coords _ g
  | exportPpg F w fs path D Dhub nB norm =>
    obtain ⟨-, -, c1, c2⟩ := export_design h F w fs path D Dhub nB norm
    exact c1.trans (g.trans c2.symm)
  | reset => exact ⟨rfl, rfl⟩

theorem life_cons (b : Blade) (a : Action) (as : List Action) : b.life (a :: as) = ((a.run b).1).life as := rfl

theorem life_append (b : Blade) (as bs : List Action) : b.life (as ++ bs) = (b.life as).life bs := by
  unfold life; rw [List.foldl_append]

theorem life_design : ∀ (as : List Action) {b b' : Blade}, SameDesign b b' → SameDesign (b.life as) (b'.life (as.filterMap Action.forDesign)) := by
  intro as
  induction as with
  | nil => intro b b' h; exact h
  | cons a as ih =>
    intro b b' h
    rw [life_cons]
    cases a with
    | apply refl => exact ih (apply_design h refl).1
    | build occ refl => exact ih ((build_apply occ refl b).1.trans (apply_design h refl).1)
    | rotate deg rad axis => exact ih ((rotate_parts _ _ _ _).trans h)
    | mirror args kwargs => exact ih ((mirror_parts _ _ _).1.trans h)
    | scale q => exact ih ((scale_parts _ _).trans h)
    | exportPpg F w fs path D Dhub nB norm => exact ih (export_design h F w fs path D Dhub nB norm).1
    | reset => exact ih (b := b.reset) h

theorem life_coords : ∀ (as : List Action) {b b' : Blade}, SameDesign b b' → SameCoords b b' →
    SameDesign (b.life as) (b'.life (as.filterMap Action.forCoords)) ∧ SameCoords (b.life as) (b'.life (as.filterMap Action.forCoords)) := by
  intro as
  induction as with
  | nil => intro b b' h g; exact ⟨h, g⟩
  | cons a as ih =>
    intro b b' h g
    rw [life_cons]
    have h1 := run_design h a
    have g1 := run_coords h g a
    cases a with
    | apply refl => exact ih h1 g1
    | build occ refl =>
      exact ih ((build_apply occ refl b).1.trans (apply_design h refl).1) ((build_apply occ refl b).2.trans ((apply_design h refl).2.2.2 g))
    | rotate deg rad axis => exact ih h1 g1
    | mirror args kwargs => exact ih ((mirror_parts _ _ _).1.trans h) ((mirror_parts _ _ _).2.trans g)
    | scale q => exact ih h1 g1
    | exportPpg F w fs path D Dhub nB norm => exact ih h1 g1
    | reset => exact ih h1 g1

end Blade
open Blade

/-- **C152** Sections and distributions do not depend on coordinates and faces: two blades with the same sections and distributions, whatever coordinates and faces they have,
still have the same after any two histories of calls with the same sequence of `apply_transformations`/`build`/`export_ppg` calls - rotations, mirror, scale and reset
calls in between, kernels that refuse faces, and calls that raise make no difference. -/
theorem C152_design (b b' : Blade) (h : SameDesign b b') (as bs : List Action) (has : as.filterMap Action.forDesign = bs.filterMap Action.forDesign) :
    SameDesign (b.life as) (b'.life bs) := by
  have h1 := life_design as h
  have h2 := life_design bs (SameDesign.refl b')
  rw [has] at h1
  exact h1.trans h2.symm

/-- **C152** Coordinates do not depend on faces: for blades with the same sections, distributions and coordinates the coordinates stay the same in all histories that differ
only in mirror calls, and in building instead of only transforming (whichever faces the kernel refuses). -/
theorem C152_coordinates (b b' : Blade) (h : SameDesign b b') (g : SameCoords b b') (as bs : List Action)
    (has : as.filterMap Action.forCoords = bs.filterMap Action.forCoords) : SameCoords (b.life as) (b'.life bs) := by
  have h1 := (life_coords as h g).2
  have h2 := (life_coords bs (SameDesign.refl b') ⟨rfl, rfl⟩).2
  rw [has] at h1
  exact h1.trans h2.symm

/-- **C152** Whether `apply_transformations`, `build` and `export_ppg` raise, and what, depends on sections and distributions only. -/
theorem C152_outcome (b b' : Blade) (h : SameDesign b b') (a : Action) (ha : a.OnDesign) : (a.run b).2 = (a.run b').2 := by
  cases a with
  | apply refl => exact (apply_design h refl).2.1
  | build occ refl => exact (build_design h occ refl).1
  | exportPpg F w fs path D Dhub nB norm =>
    show (exportPpg F w fs path D Dhub nB norm b).2.2 = (exportPpg F w fs path D Dhub nB norm b').2.2
    rw [(export_design h F w fs path D Dhub nB norm).2.1]
  | rotate _ _ _ => exact ha.elim
  | mirror _ _ => exact ha.elim
  | scale _ => exact ha.elim
  | reset => exact ha.elim

/-- **C152** A blade forgets: after an `apply_transformations` that does not raise its coordinates are those of every other blade with the same sections and distributions; after a
`build` that does not raise, or a `reset`, the two blades are the same in everything, and remain so whatever is called. -/
theorem C152_forgets (b b' : Blade) (h : SameDesign b b') (refl : Bool) (occ : Face → Bool) (as : List Action) :
    ((b.applyTransformations refl).2 = .ok () → SameCoords (b.applyTransformations refl).1 (b'.applyTransformations refl).1) ∧
    ((b.build occ refl).2 = .ok () → b.build occ refl = b'.build occ refl ∧ b.life (.build occ refl :: as) = b'.life (.build occ refl :: as)) ∧
    b.life (.reset :: as) = b'.life (.reset :: as) := by
  refine ⟨(apply_design h refl).2.2.1, ?_, ?_⟩
  · intro hb
    have e := (build_design h occ refl).2 hb
    refine ⟨e, ?_⟩
    show ((b.build occ refl).1).life as = ((b'.build occ refl).1).life as
    rw [e]
  · show (b.reset).life as = (b'.reset).life as
    obtain ⟨h1, h2, h3, h4, h5, h6, h7, h8⟩ := h
    unfold Blade.reset
    rw [h1, h2, h3, h4, h5, h6, h7, h8]

/-- **C152** Hence a blade object can be used again: after any history, sections and distributions of a new design being assigned to its attributes (as many sections as it had), it behaves
like a new blade of that design - in coordinates from the next successful `apply_transformations` on, in everything from the next successful `build` or `reset` on. -/
theorem C152_reassigned (old : Blade) (pre : List Action) (S : List Profile) (r c p k s : Arr) (t f : Option Arr) (new : Blade)
    (hnew : Blade.new S r c p k s t f = .ok new) (_hn : S.length = (old.life pre).sections.length) (refl : Bool) (occ : Face → Bool) (as : List Action) :
    let used : Blade := { old.life pre with sections := S, radii := r, chord := c, pitch := p, rake := k, skew := s, thickness := t, camber := f }
    (used.applyTransformations refl).2 = (new.applyTransformations refl).2 ∧
    ((new.applyTransformations refl).2 = .ok () → SameCoords (used.life (.apply refl :: as)) (new.life (.apply refl :: as))) ∧
    ((new.build occ refl).2 = .ok () → used.life (.build occ refl :: as) = new.life (.build occ refl :: as)) ∧
    used.reset = new := by
  intro used
  have hd : SameDesign new used ∧ new.reset = new := by
    unfold Blade.new at hnew
    simp only at hnew
    split at hnew
    · obtain rfl := Except.ok.inj hnew
      exact ⟨⟨rfl, rfl, rfl, rfl, rfl, rfl, rfl, rfl⟩, rfl⟩
    · cases hnew
  obtain ⟨hd, hr⟩ := hd
  obtain ⟨c1, c2, c3⟩ := C152_forgets new used hd refl occ as
  refine ⟨(C152_outcome new used hd (.apply refl) trivial).symm, ?_, fun hb => (c2 hb).2.symm, ?_⟩
  · intro ha
    exact C152_coordinates _ _ (apply_design hd refl).1.symm (c1 ha).symm as as rfl
  · have := (C152_forgets new used hd refl occ []).2.2
    exact (show new.reset = used.reset from this).symm.trans hr

/-- The hypotheses are met: a blade that was built, mirrored and scaled is given its sections back and built; it is as new. Without another `build` it has still the faces of before. -/
example : ∃ new : Blade, Blade.new [Sample.foil, Sample.foil] [1, 2] [1, 3] [2, 4] [0, 1] [0, 10] none none = .ok new ∧
    (new.build (fun _ => true) true).2 = .ok () ∧
    let pre : List Action := [.build (fun _ => true) true, .scale 2]
    let used : Blade := { new.life pre with sections := [Sample.foil, Sample.foil], radii := [1, 2], chord := [1, 3], pitch := [2, 4], rake := [0, 1], skew := [0, 10], thickness := none, camber := none }
    used.life [.build (fun _ => true) true, .reset] = new.life [.build (fun _ => true) true, .reset] ∧
    SameCoords (used.life [.apply true]) (new.life [.apply true]) ∧ used.upper ≠ none ∧ new.upper = none := by
  have hn : Blade.new [Sample.foil, Sample.foil] [1, 2] [1, 3] [2, 4] [0, 1] [0, 10] none none = .ok Sample.blade2 := by simp [Blade.new, Sample.blade2]
  obtain ⟨B, hB, hF, _⟩ := Sample.blade2_builds true
  obtain ⟨q, hq⟩ := Sample.blade2_applies true
  have hlen : [Sample.foil, Sample.foil].length = (Sample.blade2.life [.build (fun _ => true) true, .scale 2]).sections.length := by
    have := (C98_always _ _ _ _ _ _ _ _ hn (by simp) (by norm_num) Sample.foil.upper.length (by
      intro P hP
      simp only [List.mem_cons, List.not_mem_nil, or_false, or_self] at hP
      subst hP
      exact ⟨Sample.foil_uniform, rfl⟩) [.build (fun _ => true) true, .scale 2]).1.1
    exact this.symm
  obtain ⟨_, c2, c3, _⟩ := C152_reassigned Sample.blade2 [.build (fun _ => true) true, .scale 2] _ _ _ _ _ _ _ _ _ hn hlen true (fun _ => true) [.reset]
  obtain ⟨_, c2', _, _⟩ := C152_reassigned Sample.blade2 [.build (fun _ => true) true, .scale 2] _ _ _ _ _ _ _ _ _ hn hlen true (fun _ => true) []
  refine ⟨_, hn, by rw [hB], c3 (by rw [hB]), c2' (by rw [hq]), ?_, rfl⟩
  show (Sample.blade2.life [.build (fun _ => true) true, .scale 2]).upper ≠ none
  have e : Sample.blade2.life [.build (fun _ => true) true, .scale 2] = (B.scale 2).1 := by
    show (Blade.scale 2 (Sample.blade2.build (fun _ => true) true).1).1 = _
    rw [hB]
  rw [e]
  obtain ⟨f1, f2, f3, f4⟩ := hF
  obtain ⟨u, hu⟩ := Option.ne_none_iff_exists'.1 f1
  obtain ⟨l, hl⟩ := Option.ne_none_iff_exists'.1 f2
  obtain ⟨x, hx⟩ := Option.ne_none_iff_exists'.1 f3
  obtain ⟨y, hy⟩ := Option.ne_none_iff_exists'.1 f4
  simp [Blade.scale, onFaces, hu, hl, hx, hy]

/-- Two histories the first theorem compares: with and without a rotation and a mirroring in between. -/
example : SameDesign (Sample.blade2.life [.build (fun _ => true) true, .rotate (some 30) none c!"x", .mirror [] [], .apply false])
    (Sample.blade2.life [.apply true, .scale 0, .apply false, .reset]) :=
  C152_design _ _ (.refl _) _ _ rfl

/-- And the second: built and mirrored, or only transformed. -/
example : SameCoords (Sample.blade2.life [.build (fun _ => false) true, .mirror [] [], .rotate (some 30) none c!"x"])
    (Sample.blade2.life [.apply true, .rotate (some 30) none c!"x"]) :=
  C152_coordinates _ _ (.refl _) ⟨rfl, rfl⟩ _ _ rfl

end
end BladeX
