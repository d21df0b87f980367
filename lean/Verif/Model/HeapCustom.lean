import Verif.Model.Heap
import Verif.Model.Custom

/-! # The arrays given to `CustomProfile` (customprofile.py 45-57, 215-240)

The constructor stores the arrays themselves (`self._xup_coordinates = kwargs['xup']`, 52-55); `_check_coordinates` replaces only what is not a numpy array
(228-236). So the profile object holds the cells of the caller's arrays. -/

namespace BladeX
noncomputable section
open Classical

/-- Four numpy arrays of the caller (cells of memory). -/
structure Arrays where
  xup : List Nat
  yup : List Nat
  xdown : List Nat
  ydown : List Nat

namespace Heap

/-- The keyword arguments `xup=`, `yup=`, `xdown=`, `ydown=` as they are now. -/
def kwargs (h : Heap) (A : Arrays) : Kwargs where
  keys := ["xup", "yup", "xdown", "ydown"]
  arr := fun k => if k = "xup" then some (h.read A.xup) else if k = "yup" then some (h.read A.yup) else
    if k = "xdown" then some (h.read A.xdown) else if k = "ydown" then some (h.read A.ydown) else none
  num := fun _ => none

/-- customprofile.py 45-57 for numpy arrays: the new object (identity `o`) keeps the arrays; `generate_parameters` writes to no array. -/
def newCustom (american : Profile → Res Arr) (A : Arrays) (o : Nat) (h : Heap) : Heap × Res Unit :=
  match Custom.ctor american (h.kwargs A) with
  | .error e => (h, .error e)
  | .ok Q => (h.setObj o { xup := A.xup, xdown := A.xdown, yup := A.yup, ydown := A.ydown, par := Q.par, chordLine := Q.chordLine, camberLine := Q.camberLine }, .ok ())

end Heap
end
end BladeX
