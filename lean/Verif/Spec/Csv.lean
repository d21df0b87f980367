import Verif.Model.Text

/-! # Reading a CSV file (independent of the writer): the automaton of Python's `csv.reader`, default dialect -/

namespace BladeX
namespace Spec

/-- Where the reader is. -/
inductive CsvState
  | start      -- at the beginning of a field
  | plain      -- in a field without quotes
  | quoted     -- in a quoted field
  | quote      -- after a quote in a quoted field
  | cr         -- after a carriage return that ended a record
  deriving DecidableEq

/-- The records of a text: `cur` are the characters of the present field, `rec` the fields before it. `none`: not the text of complete records. -/
def csvRead : CsvState → Str → List Str → Str → Option (List (List Str))
  | .start, _, [], [] => some []
  | .start, cur, rec, ',' :: t => csvRead .start [] (rec ++ [cur]) t
  | .start, cur, rec, '\r' :: t => csvRead .cr [] (rec ++ [cur]) t
  | .start, cur, rec, '\n' :: t => (csvRead .start [] [] t).map fun l => (rec ++ [cur]) :: l
  | .start, _, rec, '"' :: t => csvRead .quoted [] rec t
  | .start, cur, rec, c :: t => csvRead .plain (cur ++ [c]) rec t
  | .plain, cur, rec, ',' :: t => csvRead .start [] (rec ++ [cur]) t
  | .plain, cur, rec, '\r' :: t => csvRead .cr [] (rec ++ [cur]) t
  | .plain, cur, rec, '\n' :: t => (csvRead .start [] [] t).map fun l => (rec ++ [cur]) :: l
  | .plain, cur, rec, c :: t => csvRead .plain (cur ++ [c]) rec t
  | .quoted, cur, rec, '"' :: t => csvRead .quote cur rec t
  | .quoted, cur, rec, c :: t => csvRead .quoted (cur ++ [c]) rec t
  | .quote, cur, rec, '"' :: t => csvRead .quoted (cur ++ ['"']) rec t
  | .quote, cur, rec, ',' :: t => csvRead .start [] (rec ++ [cur]) t
  | .quote, cur, rec, '\r' :: t => csvRead .cr [] (rec ++ [cur]) t
  | .quote, cur, rec, '\n' :: t => (csvRead .start [] [] t).map fun l => (rec ++ [cur]) :: l
  | .quote, cur, rec, c :: t => csvRead .plain (cur ++ [c]) rec t
  | .cr, _, rec, '\n' :: t => (csvRead .start [] [] t).map fun l => rec :: l
  | _, _, _, _ => none

/-- The records of the text of a CSV file. -/
def csvRecords (t : Str) : Option (List (List Str)) := csvRead .start [] [] t

end Spec
end BladeX
