import Verif.Model.BladeErrors
import Verif.Spec.BladeErrors

/-! # C132: the report of the distances between a blade and its faces -/

namespace BladeX
noncomputable section
namespace Blade
open Spec

private theorem reportPoint_ok (str : ℝ → Str) (dist : Pt3 → ℝ) (i j : Nat) (p : Pt3) :
    reportPoint str (some dist) i j p = .ok (reportLine str dist (i, j, p) ++ ['\n']) := by
  simp [reportPoint, reportLine, tabs, millimetres, ReversePropeller.strNat, List.intercalate, List.intersperse]

private theorem reportPoints_ok (str : ℝ → Str) (dist : Pt3 → ℝ) (i : Nat) : ∀ (pts : List Pt3) (j : Nat),
    reportPoints str (some dist) i j pts = .ok (unlines ((pts.zipIdx j).map fun p => reportLine str dist (i, p.2, p.1)))
  | [], j => rfl
  | p :: ps, j => by
    simp [reportPoints, reportPoint_ok, reportPoints_ok str dist i ps, bind, Except.bind, pure, Except.pure, unlines, List.zipIdx_cons]

private theorem reportSections_ok (str : ℝ → Str) (dist : Pt3 → ℝ) (coords : Face) : ∀ (n i : Nat), i + n = coords.length →
    reportSections str (some dist) coords i n =
      .ok (unlines ((((coords.drop i).zipIdx i).flatMap fun s => s.1.zipIdx.map fun p => (s.2, p.2, p.1)).map (reportLine str dist)))
  | 0, i, h => by
    rw [List.drop_of_length_le (by omega)]; rfl
  | n + 1, i, h => by
    have hi : i < coords.length := by omega
    rw [List.drop_eq_getElem_cons hi]
    simp [reportSections, getIdx, List.getElem?_eq_getElem hi, reportPoints_ok, reportSections_ok str dist coords n (i + 1) (by omega), bind,
      Except.bind, pure, Except.pure, unlines, List.zipIdx_cons, List.map_map, Function.comp_def, -List.getElem_cons_drop]

private theorem reportFace_ok (str : ℝ → Str) (title : String) (dist : Pt3 → ℝ) (coords : Face) :
    reportFace str true (title.toList ++ ['\n', '\n']) (some dist) coords coords.length = .ok (unlines (reportLines title str dist coords)) := by
  simp [reportFace, reportSections_ok, bind, Except.bind, pure, Except.pure, unlines, reportLines, numbered, reportTitles]

private theorem wrote {str : ℝ → Str} (fs : ParamFile.FS) {up low : Bool} (errors : Str) {gu gl : Generated} {b : Blade} {t : Str}
    (h : b.reportText str up low gu gl = .ok t) :
    ∃ fs', b.writeErrors str true fs up low errors gu gl = (fs', .ok ()) ∧ fs' (errors ++ ".txt".toList) = some t ∧
      ∀ q, q ≠ errors ++ ".txt".toList → fs' q = fs q := by
  refine ⟨fun q => if q = errors ++ c!".txt" then some t else fs q, by simp only [writeErrors, h, if_true], by simp, ?_⟩
  intro q hq
  have hq' : q ≠ errors ++ c!".txt" := hq
  simp [hq']

private theorem failed {str : ℝ → Str} (fs : ParamFile.FS) {up low : Bool} (errors : Str) {gu gl : Generated} {b : Blade} {e : PyErr}
    (h : b.reportText str up low gu gl = .error e) :
    ∃ fs', b.writeErrors str true fs up low errors gu gl = (fs', .error e) ∧ fs' (errors ++ ".txt".toList) = some [] ∧
      ∀ q, q ≠ errors ++ ".txt".toList → fs' q = fs q := by
  refine ⟨fun q => if q = errors ++ c!".txt" then some [] else fs q, by simp only [writeErrors, h, if_true], by simp, ?_⟩
  intro q hq
  have hq' : q ≠ errors ++ c!".txt" := hq
  simp [hq']

/-- **C132** With the two faces at hand and a blade that has its coordinates, the file `<errors>.txt` gets the table of the faces asked for, upper
before lower: one line for every point, in order, with the distance of that very point; no other file changes. -/
theorem C132_written (str : ℝ → Str) (fs : ParamFile.FS) (up low : Bool) (errors : Str) (du dl : Pt3 → ℝ) (b : Blade)
    (hu : up = true → b.coordsUp.length = b.sections.length) (hl : low = true → b.coordsDown.length = b.sections.length) :
    ∃ fs', b.writeErrors str true fs up low errors (some du) (some dl) = (fs', .ok ()) ∧
      fs' (errors ++ ".txt".toList) = some (unlines ([[]] ++ (if up then reportLines "########## UPPER FACE ##########" str du b.coordsUp else []) ++
        (if low then reportLines "########## LOWER FACE ##########" str dl b.coordsDown else []))) ∧
      ∀ q, q ≠ errors ++ ".txt".toList → fs' q = fs q := by
  have h1 : reportFace str up c!"########## UPPER FACE ##########\n\n" (some du) b.coordsUp b.sections.length =
      .ok (unlines (if up then reportLines "########## UPPER FACE ##########" str du b.coordsUp else [])) := by
    cases up
    · rfl
    · rw [← hu rfl]
      exact reportFace_ok str "########## UPPER FACE ##########" du _
  have h2 : reportFace str low c!"########## LOWER FACE ##########\n\n" (some dl) b.coordsDown b.sections.length =
      .ok (unlines (if low then reportLines "########## LOWER FACE ##########" str dl b.coordsDown else [])) := by
    cases low
    · rfl
    · rw [← hl rfl]
      exact reportFace_ok str "########## LOWER FACE ##########" dl _
  have h3 : b.reportText str up low (some du) (some dl) = .ok (unlines ([[]] ++ (if up then reportLines "########## UPPER FACE ##########" str du b.coordsUp else []) ++
        (if low then reportLines "########## LOWER FACE ##########" str dl b.coordsDown else []))) := by
    simp only [reportText, h1, h2, bind, Except.bind, pure, Except.pure]
    simp [unlines]
  exact wrote fs errors h3

private theorem numbered_length (coords : Face) : (numbered coords).length = (coords.map List.length).sum := by
  simp only [numbered, List.length_flatMap, List.length_map, List.length_zipIdx]
  rw [show (fun s : List Pt3 × Nat => s.1.length) = List.length ∘ Prod.fst from rfl, ← List.map_map, List.zipIdx_map_fst]

/-- **C132** The table names every point once: the number of rows is the number of points, and the row of point `j` of section `i` is there
exactly when this point exists. -/
theorem C132_rows (coords : Face) :
    (numbered coords).length = (coords.map List.length).sum ∧
      ∀ (i j : Nat) (p : Pt3), (i, j, p) ∈ numbered coords ↔ ∃ pts, coords[i]? = some pts ∧ pts[j]? = some p := by
  refine ⟨numbered_length coords, ?_⟩
  intro i j p
  simp only [numbered, List.mem_flatMap, List.mem_map, List.mem_zipIdx_iff_getElem?]
  constructor
  · rintro ⟨⟨pts, i'⟩, h1, ⟨p', j'⟩, h2, h⟩
    simp only [Prod.mk.injEq] at h h1 h2
    obtain ⟨rfl, rfl, rfl⟩ := h
    exact ⟨pts, h1, h2⟩
  · rintro ⟨pts, h1, h2⟩
    exact ⟨(pts, i), h1, (p, j), h2, rfl⟩

private theorem reportSections_none (str : ℝ → Str) (coords : Face) (n : Nat) (pts : List Pt3) (h : coords[0]? = some pts) (hp : pts ≠ []) :
    reportSections str none coords 0 (n + 1) = .error .attributeError := by
  obtain ⟨p, ps, rfl⟩ := List.exists_cons_of_ne_nil hp
  simp [reportSections, getIdx, h, reportPoints, reportPoint, bind, Except.bind]

/-- **C132** (violation) No method of the class sets the faces this method reads. So for every blade with sections and with coordinates, asked for
any face, it raises `AttributeError`, and what `<errors>.txt` held is lost: the file is left empty. -/
theorem C132_never_written (str : ℝ → Str) (fs : ParamFile.FS) (up low : Bool) (errors : Str) (b : Blade) (hask : up = true ∨ low = true)
    (hn : b.sections ≠ []) (pu pd : List Pt3) (hu : b.coordsUp[0]? = some pu) (hd : b.coordsDown[0]? = some pd) (hu0 : pu ≠ []) (hd0 : pd ≠ []) :
    ∃ fs', b.writeErrors str true fs up low errors none none = (fs', .error .attributeError) ∧ fs' (errors ++ ".txt".toList) = some [] ∧
      ∀ q, q ≠ errors ++ ".txt".toList → fs' q = fs q := by
  obtain ⟨n, hn'⟩ : ∃ n, b.sections.length = n + 1 := Nat.exists_eq_succ_of_ne_zero (by simpa using hn)
  have h1 := reportSections_none str b.coordsUp n pu hu hu0
  have h2 := reportSections_none str b.coordsDown n pd hd hd0
  have h3 : b.reportText str up low none none = .error .attributeError := by
    cases up <;> cases low <;> simp_all [reportText, reportFace, bind, Except.bind]
  exact failed fs errors h3

/-- **C132** Before the coordinates exist the method raises `IndexError`, and again leaves the file empty. -/
theorem C132_no_coordinates (str : ℝ → Str) (fs : ParamFile.FS) (up low : Bool) (errors : Str) (gu gl : Generated) (b : Blade)
    (hask : up = true ∨ low = true) (hn : b.sections ≠ []) (hu : b.coordsUp = []) (hd : b.coordsDown = []) :
    ∃ fs', b.writeErrors str true fs up low errors gu gl = (fs', .error .indexError) ∧ fs' (errors ++ ".txt".toList) = some [] ∧
      ∀ q, q ≠ errors ++ ".txt".toList → fs' q = fs q := by
  obtain ⟨n, hn'⟩ : ∃ n, b.sections.length = n + 1 := Nat.exists_eq_succ_of_ne_zero (by simpa using hn)
  have h3 : b.reportText str up low gu gl = .error .indexError := by
    cases up <;> cases low <;> simp_all [reportText, reportFace, reportSections, getIdx, bind, Except.bind]
  exact failed fs errors h3

/-- **C132** In every case: a file that cannot be opened is an `OSError` and nothing changes; otherwise only `<errors>.txt` changes, and if an exception
comes up it is left empty; without a face asked for it gets a single line end. -/
theorem C132_files (str : ℝ → Str) (writable : Bool) (fs fs' : ParamFile.FS) (up low : Bool) (errors : Str) (gu gl : Generated) (b : Blade) (r : Res Unit)
    (h : b.writeErrors str writable fs up low errors gu gl = (fs', r)) :
    (writable = false → fs' = fs ∧ r = .error .osError) ∧
    (∀ q, q ≠ errors ++ ".txt".toList → fs' q = fs q) ∧
    (writable = true → r ≠ .ok () → fs' (errors ++ ".txt".toList) = some []) ∧
    (writable = true → up = false → low = false → r = .ok () ∧ fs' (errors ++ ".txt".toList) = some ['\n']) := by
  cases writable
  · simp only [writeErrors, Bool.false_eq_true, if_false] at h
    obtain ⟨rfl, rfl⟩ := Prod.mk.inj h
    simp
  simp only [writeErrors, if_true] at h
  rcases ht : b.reportText str up low gu gl with e | t
  · rw [ht] at h
    obtain ⟨rfl, rfl⟩ := Prod.mk.inj h
    refine ⟨by simp, ?_, by simp, ?_⟩
    · intro q hq
      have hq' : q ≠ errors ++ c!".txt" := hq
      simp [hq']
    · rintro - rfl rfl
      simp [reportText, reportFace, bind, Except.bind, pure, Except.pure] at ht
  · rw [ht] at h
    obtain ⟨rfl, rfl⟩ := Prod.mk.inj h
    refine ⟨by simp, ?_, by simp, ?_⟩
    · intro q hq
      have hq' : q ≠ errors ++ c!".txt" := hq
      simp [hq']
    · rintro - rfl rfl
      simp [reportText, reportFace, bind, Except.bind, pure, Except.pure] at ht
      subst ht
      simp

/-- **C132** The two checks of the class: `_check_string` raises `TypeError` for everything but strings, `_check_errors` raises `ValueError` exactly when
neither face counts as true, as `None` and the empty string do not. -/
theorem C132_checks (u l : NameArg) :
    (checkString u = .ok () ↔ ∃ s, u = .str s) ∧ (∀ e, checkString u = .error e → e = .typeError) ∧
    (checkErrors u l = .error .valueError ↔ (u = .none ∨ u = .str []) ∧ (l = .none ∨ l = .str [])) ∧
    (∀ e, checkErrors u l = .error e → e = .valueError) := by
  refine ⟨?_, ?_, ?_, ?_⟩
  · cases u <;> simp [checkString]
  · cases u <;> simp [checkString]
  · rcases u with _ | u | _ <;> rcases l with _ | l | _ <;> simp [checkErrors, NameArg.truthy]
    all_goals first | (cases u <;> simp) | (cases l <;> simp) | skip
    all_goals (cases l <;> simp)
  · intro e h
    unfold checkErrors at h
    split at h
    · exact (Except.error.inj h).symm
    · cases h

/-! ### Non-vacuity -/

/-- The sample blade with coordinates of two points. -/
def errorSample : Blade :=
  { sections := [{ xup := [0], xdown := [0], yup := [0], ydown := [0] }], radii := [1], chord := [1], pitch := [1], rake := [0], skew := [0], thickness := none, camber := none,
    coordsUp := [[(1, 2, 3), (4, 5, 6)]], coordsDown := [[(1, 2, 3)]], upper := none, lower := none, tip := none, root := none }

/-- Asked for the upper face at a plane `z = 0`, the report has a line for each of the two points, with the distances 3000 and 6000. -/
example (str : ℝ → Str) : ∃ fs' : ParamFile.FS, errorSample.writeErrors str true (fun _ => none) true false c!"e" (some fun p => |p.2.2|) (some fun _ => 0) = (fs', .ok ()) ∧
    ∃ t, fs' c!"e.txt" = some t ∧ (numbered errorSample.coordsUp).length = 2 ∧ t = unlines ([[]] ++ reportLines "########## UPPER FACE ##########" str (fun p => |p.2.2|) errorSample.coordsUp) := by
  obtain ⟨fs', h, h2, _⟩ := C132_written str (fun _ => none) true false c!"e" (fun p => |p.2.2|) (fun _ => 0) errorSample (fun _ => rfl) (fun _ => rfl)
  exact ⟨fs', h, _, h2, rfl, by simp⟩

/-- With the faces that no method sets, the file written before is lost. -/
example (str : ℝ → Str) : ∃ fs' : ParamFile.FS, errorSample.writeErrors str true (fun _ => some c!"precious") true false c!"e" none none =
    (fs', .error .attributeError) ∧ fs' c!"e.txt" = some [] := by
  obtain ⟨fs', h1, h2, _⟩ := C132_never_written str (fun _ => some c!"precious") true false c!"e" errorSample (Or.inl rfl) (by simp [errorSample]) _ _ rfl rfl
    (by simp) (by simp)
  exact ⟨fs', h1, h2⟩

/-- Before `apply_transformations`. -/
example (str : ℝ → Str) : ∃ fs' : ParamFile.FS, ({ errorSample with coordsUp := [], coordsDown := [] } : Blade).writeErrors str true (fun _ => none) false true c!"e"
    none none = (fs', .error .indexError) := by
  obtain ⟨fs', h1, _⟩ := C132_no_coordinates str (fun _ => none) false true c!"e" none none { errorSample with coordsUp := [], coordsDown := [] } (Or.inr rfl)
    (by simp [errorSample]) rfl rfl
  exact ⟨fs', h1⟩

end Blade
end
end BladeX
