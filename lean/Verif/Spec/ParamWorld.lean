import Verif.Model.ParamWorld

namespace BladeX
noncomputable section
namespace ParamFile

/-- The event can change a file at the path that is there already. -/
def Event.Overwrites (path : Str) : Event → Prop
  | .write _ q => q = path
  | .dies _ q _ => q = path
  | .read _ _ => False
  | .edit _ _ => False

/-- The event names the path. -/
def Event.Names (path : Str) : Event → Prop
  | .write _ q => q = path
  | .dies _ q _ => q = path
  | .read _ q => q = path
  | .edit _ _ => False

/-- The object an event concerns. -/
def Event.who : Event → Nat
  | .write i _ => i
  | .dies i _ _ => i
  | .read i _ => i
  | .edit i _ => i

end ParamFile
end
end BladeX
