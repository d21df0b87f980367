import Verif.Model.ParamFile

/-! # Line ends of parameter files (bladex/params.py 140-141, 270-271)

The files are opened in text mode: `config.read(filename)` (line 141) goes through `open(filename)`, which turns `\r\n` and a lone `\r` into `\n`, and
`open(filename, 'w')` (line 270) turns every `\n` into the platform's `os.linesep`. `Model/ParamFile.lean` has text with `\n` only. -/

namespace BladeX
noncomputable section
namespace ParamFile

/-- Reading in text mode (universal newlines). -/
def universal : Str → Str
  | [] => []
  | '\r' :: '\n' :: t => '\n' :: universal t
  | '\r' :: t => '\n' :: universal t
  | c :: t => c :: universal t

/-- Writing in text mode; `nl` is `os.linesep`. -/
def native (nl : Str) (s : Str) : Str := s.flatMap fun c => if c = '\n' then nl else [c]

/-- params.py 139-201: reading the characters of an existing file. -/
def readFile (C : Codec) (t : Str) : Res ParamFile := readText C (universal t)

/-- params.py 203-271 (`write_parameters`), the characters that get into the file. -/
def writeFile (C : Codec) (nl : Str) (fs : FS) (path : Str) (pf : ParamFile) : Res (FS × ParamFile) := do
  let pf' ← pf.checkParams
  return (fun q => if q = path then some (native nl (text C pf')) else fs q, pf')

/-- params.py 122-201 (`read_parameters`). -/
def readPath (C : Codec) (nl : Str) (fs : FS) (path : Str) (pf : ParamFile) : FS × Res ParamFile :=
  match fs path with
  | some t => (fs, readFile C t)
  | none =>
    match writeFile C nl fs path { pf with radii := some defaultRadii } with
    | .error e => (fs, .error e)
    | .ok (fs', _) =>
      (fs', match fs' path with
        | some t => readFile C t
        | none => .error .parseError)

end ParamFile
end
end BladeX
