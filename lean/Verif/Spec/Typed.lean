import Verif.Model.Typed
import Verif.Spec.Plane

/-! # Number types of the coordinates: specification -/

namespace BladeX
noncomputable section

namespace Spec

/-- numpy can do `a += v` and `a *= v`: not when `a` has integers and `v` is a float. -/
def Accepts (a : TArr) (v : Num) : Prop := a.isInt = true → v.isInt = true

/-- The four coordinate arrays have floats. -/
def AllFloat (P : TProfile) : Prop := P.xup.isInt = false ∧ P.xdown.isInt = false ∧ P.yup.isInt = false ∧ P.ydown.isInt = false

/-- An array of integers contains integers only. -/
def Integral (a : TArr) : Prop := a.isInt = true → ∀ x ∈ a.vals, ∃ n : Int, x = n

/-- The arrays of integers of a profile contain integers only. -/
def IntegralProfile (P : TProfile) : Prop := Integral P.xup ∧ Integral P.xdown ∧ Integral P.yup ∧ Integral P.ydown

/-- The call without the types. -/
def untyped : TProfile.Stmt → Heap.Stmt
  | .skip => .skip
  | .translate v => .translate (v.1.val, v.2.val)
  | .translateRef => .translateRef
  | .scale f b => .scale f.val b
  | .setThickness t => .setThickness t
  | .setCamber c => .setCamber c
  | .reflect => .reflect
  | .rotate r d => .rotate r d

/-- The numbers given in the call have the type they claim. -/
def ArgsIntegral : TProfile.Stmt → Prop
  | .translate v => (v.1.isInt = true → ∃ n : Int, v.1.val = n) ∧ (v.2.isInt = true → ∃ n : Int, v.2.val = n)
  | .scale f _ => f.isInt = true → ∃ n : Int, f.val = n
  | _ => True

/-- A history of calls on one profile without types: the profile after the calls before the first exception. -/
def runUntyped : List Heap.Stmt → Profile → Profile × Res Unit
  | [], P => (P, .ok ())
  | s :: l, P =>
    match s.value P with
    | .ok Q => runUntyped l Q
    | .error e => (P, .error e)

end Spec

namespace Sample

/-- A foil whose abscissae are integers. -/
def intFoil : TProfile where
  xup := ⟨[0, 1, 2], true⟩
  xdown := ⟨[0, 1, 2], true⟩
  yup := ⟨[0, 1/2, 0], false⟩
  ydown := ⟨[0, -1/4, 0], false⟩

/-- A foil whose lower ordinates are integers. -/
def intLower : TProfile where
  xup := ⟨[0, 1/2, 2], false⟩
  xdown := ⟨[0, 1/2, 2], false⟩
  yup := ⟨[0, 1/2, 0], false⟩
  ydown := ⟨[0, -1, 0], true⟩

end Sample
end
end BladeX
