import Verif.Model.ReverseSave

/-! # Model of the error report of `bladex/blade.py` (`_write_blade_errors`, `_check_string`, `_check_errors`) -/

namespace BladeX
noncomputable section
namespace Blade

/-- The attributes `generated_upper_face`, `generated_lower_face` that `_write_blade_errors` reads: missing, or a shape of which only the kernel's
distance to a point (`BRepExtrema_DistShapeShape`, `Perform`, `Value`) is looked at. No method of the class sets them. -/
abbrev Generated := Option (Pt3 → ℝ)

/-- blade.py 738-742, 766-770: the point handed to the kernel, in millimetres. -/
def millimetres (p : Pt3) : Pt3 := (1000 * p.1, 1000 * p.2.1, 1000 * p.2.2)

/-- Three tabulators. -/
def tabs : Str := c!"\t\t\t"

/-- blade.py 738-754, 766-782: the line of one point; the attribute is read when the first point is there. -/
def reportPoint (str : ℝ → Str) (gen : Generated) (i j : Nat) (p : Pt3) : Res Str :=
  match gen with
  | none => .error .attributeError
  | some dist => .ok (ReversePropeller.strNat i ++ tabs ++ ReversePropeller.strNat j ++ tabs ++ str (millimetres p).1 ++ tabs ++
      str (millimetres p).2.1 ++ tabs ++ str (millimetres p).2.2 ++ tabs ++ str (dist (millimetres p)) ++ c!"\n")

/-- blade.py 735-754, 763-782: the lines of one section, from point `j` on. -/
def reportPoints (str : ℝ → Str) (gen : Generated) (i : Nat) : Nat → List Pt3 → Res Str
  | _, [] => .ok []
  | j, p :: ps => do
    let l ← reportPoint str gen i j p
    let ls ← reportPoints str gen i (j + 1) ps
    return l ++ ls

/-- blade.py 734-735, 762-763: `for i in range(self.n_sections)`, `n` sections from number `i` on. -/
def reportSections (str : ℝ → Str) (gen : Generated) (coords : Face) : Nat → Nat → Res Str
  | _, 0 => .ok []
  | i, n + 1 => do
    let pts ← getIdx coords i
    let l ← reportPoints str gen i 0 pts
    let ls ← reportSections str gen coords (i + 1) n
    return l ++ ls

/-- blade.py 731-733, 759-761: the column titles. -/
def reportTitles : Str := c!"N_section\t\tN_point\t\t\tX_crds\t\t\t\tY_crds\t\t\t\t\tZ_crds\t\t\t\t\tDISTANCE\n\n"

/-- blade.py 729-754, 756-782: the part of one face, if it is asked for. -/
def reportFace (str : ℝ → Str) (asked : Bool) (title : Str) (gen : Generated) (coords : Face) (n : Nat) : Res Str :=
  if asked then do
    let ls ← reportSections str gen coords 0 n
    return title ++ reportTitles ++ ls
  else .ok []

/-- blade.py 727-782: what is to be written. -/
def reportText (str : ℝ → Str) (upper lower : Bool) (genUp genLow : Generated) (b : Blade) : Res Str := do
  let u ← reportFace str upper c!"########## UPPER FACE ##########\n\n" genUp b.coordsUp b.sections.length
  let l ← reportFace str lower c!"########## LOWER FACE ##########\n\n" genLow b.coordsDown b.sections.length
  return c!"\n" ++ u ++ l

/-- blade.py 704-783 (`_write_blade_errors`): the file is opened, and thereby emptied, before the text is made. -/
def writeErrors (str : ℝ → Str) (writable : Bool) (fs : ParamFile.FS) (upper lower : Bool) (errors : Str) (genUp genLow : Generated) (b : Blade) :
    ParamFile.FS × Res Unit :=
  if writable then
    match reportText str upper lower genUp genLow b with
    | .error e => ((fun q => if q = errors ++ c!".txt" then some [] else fs q), .error e)
    | .ok t => ((fun q => if q = errors ++ c!".txt" then some t else fs q), .ok ())
  else (fs, .error .osError)

/-- An argument that should be a string. -/
inductive NameArg
  | none
  | str (s : Str)
  | other

/-- blade.py 919-927 (`_check_string`). -/
def checkString : NameArg → Res Unit
  | .str _ => .ok ()
  | _ => .error .typeError

/-- Whether Python counts the argument as true (`other` stands for objects that count as true). -/
def NameArg.truthy : NameArg → Bool
  | .none => false
  | .str s => !s.isEmpty
  | .other => true

/-- blade.py 929-940 (`_check_errors`). -/
def checkErrors (upper lower : NameArg) : Res Unit := if !(upper.truthy || lower.truthy) then .error .valueError else .ok ()

end Blade
end
end BladeX
