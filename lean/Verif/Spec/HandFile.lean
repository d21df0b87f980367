import Verif.Model.ParamFile

/-! # Parameter files as people write them (independent of the reader)

A file is a list of sections `[name]`, a section a list of options `name = value` or `name : value` that start in the first
column. Further values of an option follow on indented lines. Comments (`#`, `;`), blank lines, blanks around names,
delimiters and values may be put anywhere. -/

namespace BladeX
noncomputable section
namespace HandFile

/-- Blanks on a line. -/
def Blanks (s : Str) : Prop := ∀ c ∈ s, c = ' ' ∨ c = '\t'

/-- Text on one line that neither starts nor ends with white space. -/
structure Tight (s : Str) : Prop where
  head : ∀ c, s.head? = some c → isSpace c = false
  last : ∀ c, s.getLast? = some c → isSpace c = false
  line : '\n' ∉ s

/-- What may follow the first line of an option. -/
inductive Piece
  | comment (before : Str) (mark : Char) (body : Str)
  | empty (blanks : Str)
  | value (before : Str) (v : Str) (after : Str)

/-- The line. -/
def Piece.line : Piece → Str
  | .comment b m t => b ++ m :: t
  | .empty b => b
  | .value b v a => b ++ v ++ a

/-- Comments start with a mark, values are indented. -/
def Piece.Good : Piece → Prop
  | .comment b m t => Blanks b ∧ (m = '#' ∨ m = ';') ∧ '\n' ∉ t
  | .empty b => Blanks b
  | .value b v a => Blanks b ∧ b ≠ [] ∧ Tight v ∧ v ≠ [] ∧ v.head? ≠ some '#' ∧ v.head? ≠ some ';' ∧ Blanks a

/-- Comment or blank line. -/
def Piece.idle : Piece → Prop
  | .value _ _ _ => False
  | _ => True

/-- What the line says: a blank line is an empty value, a comment is nothing. -/
def Piece.says : Piece → List Str
  | .comment _ _ _ => []
  | .empty _ => [[]]
  | .value _ v _ => [v]

/-- An option: `name`, blanks, delimiter, blanks, value, blanks; further lines. -/
structure Opt where
  name : Str
  l : Str
  d : Char
  r : Str
  v : Str
  e : Str
  rest : List Piece

/-- The lines. -/
def Opt.lines (o : Opt) : List Str := (o.name ++ o.l ++ o.d :: (o.r ++ o.v ++ o.e)) :: o.rest.map Piece.line

structure Opt.Good (o : Opt) : Prop where
  name : Tight o.name
  name_ne : o.name ≠ []
  name_delim : ∀ c ∈ o.name, c ≠ '=' ∧ c ≠ ':'
  name_head : o.name.head? ≠ some '#' ∧ o.name.head? ≠ some ';' ∧ o.name.head? ≠ some '['
  l : Blanks o.l
  d : o.d = '=' ∨ o.d = ':'
  r : Blanks o.r
  v : Tight o.v
  e : Blanks o.e
  rest : ∀ p ∈ o.rest, p.Good

/-- The values of the option, one per line; empty values after the last one that is not empty do not count. -/
def Opt.said (o : Opt) : List Str := ((o.v :: (o.rest.map Piece.says).flatten).reverse.dropWhile (· = [])).reverse

/-- A section: `[name]`, blanks; comments and blank lines; options. -/
structure Section where
  name : Str
  e : Str
  pre : List Piece
  opts : List Opt

def Section.lines (s : Section) : List Str :=
  ('[' :: (s.name ++ ']' :: s.e)) :: (s.pre.map Piece.line ++ (s.opts.map Opt.lines).flatten)

/-- The names of the options differ (in more than the case of letters). -/
structure Section.Good (s : Section) : Prop where
  name : s.name ≠ [] ∧ s.name ≠ c!"DEFAULT" ∧ '\n' ∉ s.name
  e : Blanks s.e
  pre : ∀ p ∈ s.pre, p.Good ∧ p.idle
  opts : ∀ o ∈ s.opts, o.Good
  names : (s.opts.map fun o => lower o.name).Nodup

/-- A file: comments and blank lines, sections. -/
structure File where
  pre : List Piece
  secs : List Section

def File.lines (F : File) : List Str := F.pre.map Piece.line ++ (F.secs.map Section.lines).flatten

/-- The text. -/
def File.text (F : File) : Str := (F.lines.map (· ++ ['\n'])).flatten

/-- The names of the sections differ. -/
structure File.Good (F : File) : Prop where
  pre : ∀ p ∈ F.pre, p.Good ∧ p.idle
  secs : ∀ s ∈ F.secs, s.Good
  names : (F.secs.map (·.name)).Nodup

/-- What the file says under an option of a section; upper and lower case are the same in names of options. -/
def File.says (F : File) (sec opt : Str) : Option (List Str) :=
  (F.secs.find? (·.name = sec)).bind fun s => (s.opts.find? fun o => lower o.name = lower opt).map Opt.said

/-- The lines are numbers, one per line. -/
def Numbers (C : Codec) (ls : List Str) (xs : Arr) : Prop :=
  xs ≠ [] ∧ List.Forall₂ (fun l x => (∀ c ∈ l, isSpace c = false) ∧ C.parse l = some x) ls xs

/-- The text is an integer. -/
def Integer (C : Codec) (ls : List Str) (n : Int) : Prop := C.parseInt (joinNL ls) = some n

/-- The file describes the parameters: radii and one distribution of the same length per parameter; for each B-spline
degree, number of points, number of control points and as many deformations. -/
structure States (C : Codec) (F : File) (pf : ParamFile) : Prop where
  radii : ∃ ls r, F.says c!"Original parameters" c!"Radial sections" = some ls ∧ Numbers C ls r ∧ pf.radii = some r ∧
    ∀ p : PName, ∃ ls v, F.says c!"Original parameters" (c!"Radial distribution of " ++ p.str) = some ls ∧ Numbers C ls v ∧
      pf.parameters p = some v ∧ v.length = r.length
  degree : ∀ p : PName, ∃ ls, F.says p.section' c!"spline degree" = some ls ∧ Integer C ls (pf.degree p)
  npoints : ∀ p : PName, ∃ ls, F.says p.section' c!"spline npoints" = some ls ∧ Integer C ls (pf.npoints p)
  nbasis : ∀ p : PName, ∃ ls, F.says p.section' c!"number of control points" = some ls ∧ Integer C ls (pf.nbasis p)
  deformations : ∀ p : PName, ∃ ls, F.says p.section' c!"control points Y-deformations" = some ls ∧
    Numbers C ls (pf.deformations p) ∧ ((pf.deformations p).length : Int) = pf.nbasis p

/-- The options that describe a blade. -/
def Asked (sec opt : Str) : Prop :=
  (sec = c!"Original parameters" ∧ (opt = c!"Radial sections" ∨ ∃ p : PName, opt = c!"Radial distribution of " ++ p.str)) ∨
  ∃ p : PName, sec = p.section' ∧ (opt = c!"spline degree" ∨ opt = c!"spline npoints" ∨ opt = c!"number of control points" ∨
    opt = c!"control points Y-deformations")

/-- Both files say the same about a blade. -/
def Agree (F G : File) : Prop := ∀ sec opt, Asked sec opt → F.says sec opt = G.says sec opt

end HandFile
end
end BladeX
