import Verif.Py
import Lean.Elab.Command

/-! # Python strings, as lists of characters -/

namespace BladeX

/-- A Python `str`. -/
abbrev Str := List Char

open Lean in
/-- `c!"..."` is the list of the characters of the literal. -/
macro:max "c!" s:str : term => do
  let cs := s.getString.toList.map fun c => Syntax.mkCharLit c
  `([$(cs.toArray),*])

/-- `str.isspace` of a character. -/
def isSpace (c : Char) : Bool :=
  let n := c.toNat
  (9 ≤ n && n ≤ 13) || (28 ≤ n && n ≤ 32) || n == 0x85 || n == 0xa0 || n == 0x1680 || (0x2000 ≤ n && n ≤ 0x200a) ||
    n == 0x2028 || n == 0x2029 || n == 0x202f || n == 0x205f || n == 0x3000

/-- `str.rstrip()`. -/
def rstrip (s : Str) : Str := (s.reverse.dropWhile isSpace).reverse

/-- `str.strip()`. -/
def strip (s : Str) : Str := rstrip (s.dropWhile isSpace)

/-- `s.split('\n')`. -/
def splitNL : Str → List Str
  | [] => [[]]
  | c :: cs =>
    if c = '\n' then [] :: splitNL cs
    else match splitNL cs with
      | [] => [[c]]
      | l :: ls => (c :: l) :: ls

/-- Iterating over an opened text file: the lines, without their terminators; there is no line after a final
newline. -/
def fileLines (t : Str) : List Str :=
  let ls := splitNL t
  if ls.getLast? = some [] then ls.dropLast else ls

/-- `'\n'.join(ls)`. -/
def joinNL : List Str → Str
  | [] => []
  | [l] => l
  | l :: ls => l ++ '\n' :: joinNL ls

/-- `len(line.split()) > 1`: some white space is left after stripping. -/
def manyWords (l : Str) : Bool := (strip l).any isSpace

/-- `str.lower`, on ASCII letters (other letters are left alone). -/
def lower (s : Str) : Str := s.map Char.toLower

/-- `str.upper`, on ASCII letters. -/
def upper (s : Str) : Str := s.map Char.toUpper

/-- `n * ' '`. -/
def spaces (n : Int) : Str := List.replicate n.toNat ' '

end BladeX
