import Verif.Model.ParamFile

/-! # What an interrupted `write_parameters` leaves on the disk (bladex/params.py 203-271) -/

namespace BladeX
noncomputable section
namespace ParamFile

/-- params.py 270-271: `with open(filename, 'w') as f: f.write(output_string)`. The file is opened, and thereby emptied or
created, after the text has been built; the text then reaches the disk from its beginning. When the process dies the files
are either as before (the death came before the `open`, or the check failed) or the file holds a beginning of the text.
Simplified: the characters of the text reach the disk in order, as CPython's buffered writer sends them; blocks lost or
reordered by the operating system are not modelled. -/
inductive Interrupted (C : Codec) (fs : FS) (path : Str) (pf : ParamFile) : FS → Prop
  | before : Interrupted C fs path pf fs
  | during (pf' : ParamFile) (t : Str) : pf.checkParams = .ok pf' → t <+: text C pf' →
      Interrupted C fs path pf (fun q => if q = path then some t else fs q)

end ParamFile
end
end BladeX
