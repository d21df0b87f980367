import Verif.Model.Blade

/-! # Model of `bladex/intepolatedface.py` -/

namespace BladeX
noncomputable section
open Classical

/-- A numpy array of floats: its shape and its entries in row-major order. -/
structure NdArray where
  shape : List Nat
  data : Arr

/-- intepolatedface.py 34-37: the points of one section, an array of shape `(3, l)` that begins at position `at`: the columns. -/
def sectionPoints (data : Arr) (start l : Nat) : List Pt3 :=
  (List.range l).map fun j => (data.getD (start + j) 0, data.getD (start + l + j) 0, data.getD (start + 2 * l + j) 0)

/-- intepolatedface.py 33-54: the loop over the sections of an array of shape `(k, 3, l)` and the face; `occ` says whether the kernel can
build it. Without sections `root_edge` is not bound. (What the kernel does before that when there is nothing to build is not modelled.) -/
def faceThrough (occ : Face → Bool) (k l : Nat) (data : Arr) : Res Face :=
  let F : Face := (List.range k).map fun s => sectionPoints data (s * (3 * l)) l
  if k = 0 then .error .unboundLocal
  else if occ F then .ok F
  else .error .runtimeError

/-- intepolatedface.py 17-54 (`InterpolatedFace.__init__`). -/
def interpolatedFace (occ : Face → Bool) (a : NdArray) : Res Face :=
  match a.shape with
  | [r, l] => if r ≠ 3 then .error .valueError else faceThrough occ 1 l a.data
  | [k, r, l] => if r ≠ 3 then .error .valueError else faceThrough occ k l a.data
  | _ => .error .valueError

end
end BladeX
