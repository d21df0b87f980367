import Verif.Model.ParamRead

/-! # Several `ParamFile` objects that share files (bladex/params.py)

Calls are atomic and happen one after the other; only a crash leaves a call unfinished. -/

namespace BladeX
noncomputable section
namespace ParamFile

/-- The files and the objects, numbered. -/
structure World where
  fs : FS
  obj : Nat → ParamFile

/-- What can happen to files and objects. -/
inductive Event
  /-- `obj[i].write_parameters(path)` -/
  | write (i : Nat) (path : Str)
  /-- `obj[i].read_parameters(path)` -/
  | read (i : Nat) (path : Str)
  /-- assignments by the user to attributes of `obj[i]`, or a new object -/
  | edit (i : Nat) (pf : ParamFile)
  /-- the process of `obj[i]` dies in `obj[i].write_parameters(path)` when `n` characters have reached the file; it starts again
  with a new object -/
  | dies (i : Nat) (path : Str) (n : Nat)

/-- Assign to an object. -/
def World.setObj (w : World) (i : Nat) (pf : ParamFile) : World := { w with obj := fun j => if j = i then pf else w.obj j }

/-- params.py 122-201 (`read_parameters`), 203-271 (`write_parameters`): one event; the exception it raises. -/
def World.step (C : Codec) (w : World) : Event → World × Option PyErr
  | .write i path =>
    (World.setObj ⟨(writeInto C w.fs path (w.obj i)).1, w.obj⟩ i (writeInto C w.fs path (w.obj i)).2.1,
      (writeInto C w.fs path (w.obj i)).2.2)
  | .read i path =>
    (World.setObj ⟨(readParametersInto C w.fs path (w.obj i)).1, w.obj⟩ i (readParametersInto C w.fs path (w.obj i)).2.1,
      (readParametersInto C w.fs path (w.obj i)).2.2)
  | .edit i pf => (w.setObj i pf, none)
  | .dies i path n =>
    match checkInto (w.obj i) with
    | (_, some _) => (w.setObj i init, none)
    | (pf', none) => (World.setObj ⟨fun q => if q = path then some ((text C pf').take n) else w.fs q, w.obj⟩ i init, none)

/-- A history of events. -/
def World.run (C : Codec) (w : World) (es : List Event) : World := es.foldl (fun w e => (w.step C e).1) w

end ParamFile
end
end BladeX
