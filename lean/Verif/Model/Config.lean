import Verif.Model.Text

/-! # Model of the part of Python's `configparser.RawConfigParser` used by `bladex/params.py` 142-201

Modelled after `configparser.py` of CPython 3.11, `_read` (lines 1012-1134), `_join_multiline_values`, `get`. The parser
is created afresh and reads one file. Every exception of the module is `PyErr.parseError`; the parsing errors that CPython
collects and raises at the end of the file are raised at once (the outcome of the read is the same exception). -/

namespace BladeX
namespace Config

/-- State of `_read`: the known section names, the stored lines per section and option, the current section, the current
option and the indentation of the current option or header. -/
structure St where
  secs : List Str := []
  store : Str → Str → Option (List Str) := fun _ _ => none
  cur : Option Str := none
  opt : Option Str := none
  indent : Nat := 0

/-- Write the lines of an option. -/
def St.put (st : St) (s o : Str) (v : List Str) : St :=
  { st with store := fun s' o' => if s' = s ∧ o' = o then some v else st.store s' o' }

/-- `SECTCRE.match(value)`: the header between the first character `[` and the last `]`, if it is not empty. -/
def sectHeader : Str → Option Str
  | '[' :: rest =>
    match rest.reverse.dropWhile (· ≠ ']') with
    | [] => none
    | _ :: h => if h = [] then none else some h.reverse
  | _ => none

/-- One of the delimiters `=` and `:`. -/
def isDelim (c : Char) : Bool := c == '=' || c == ':'

/-- `_optcre.match(value)`: option name and value, split at the first delimiter. -/
def optSplit (value : Str) : Option (Str × Str) :=
  match value.dropWhile (fun c => !isDelim c) with
  | [] => none
  | _ :: v => some (rstrip (value.takeWhile (fun c => !isDelim c)), strip v)

/-- `[DEFAULT]`. -/
def defaultName : Str := c!"DEFAULT"

/-- The body of the loop of `_read` for one line. -/
def step (st : St) (line : Str) : Res St :=
  let value := strip line
  if value.head? = some '#' ∨ value.head? = some ';' then .ok st
  else if value = [] then
    match st.cur, st.opt with
    | some s, some o => .ok (st.put s o ((st.store s o).getD [] ++ [[]]))
    | _, _ => .ok st
  else
    let ind := (line.takeWhile isSpace).length
    match (if st.indent < ind then st.cur else none), st.opt with
    | some s, some o => .ok (st.put s o ((st.store s o).getD [] ++ [value]))
    | _, _ =>
      match sectHeader value with
      | some h =>
        if h = defaultName then .ok { st with indent := ind, cur := some h, opt := none }
        else if h ∈ st.secs then .error .parseError
        else .ok { st with indent := ind, secs := h :: st.secs, cur := some h, opt := none }
      | none =>
        match st.cur with
        | none => .error .parseError
        | some s =>
          match optSplit value with
          | none => .error .parseError
          | some (k, v) =>
            if k = [] then .error .parseError
            else if (st.store s (lower k)).isSome then .error .parseError
            else .ok { (st.put s (lower k) [v]) with indent := ind, opt := some (lower k) }

/-- `config.read(filename)` on the text of the file. -/
def read (text : Str) : Res St := (fileLines text).foldlM step {}

/-- `config.get(section, option)`. -/
def get (st : St) (sec opt : Str) : Res Str :=
  if sec ∉ st.secs then .error .parseError
  else match st.store sec (lower opt) with
    | some ls => .ok (rstrip (joinNL ls))
    | none => match st.store defaultName (lower opt) with
      | some ls => .ok (rstrip (joinNL ls))
      | none => .error .parseError

end Config
end BladeX
