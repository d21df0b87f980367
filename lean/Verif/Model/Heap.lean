import Verif.Model.Blade

/-! # Model of the in-place updates of the profiles, with shared arrays and shared profile objects

A numpy array is a list of memory cells (a view of memory: two arrays may share some or all of their cells, in any order); a profile object
holds four arrays; a list of sections is a list of object identities. `a += v` and `a *= f` on an array attribute (baseprofile.py 456-457,
720-723, 730-733, 750-759) act on the cells of the array, and the property setters (baseprofile.py 85-120) store the same array again, so that
everybody who holds the array sees the change. An assignment of a new array to an attribute leaves the old cells alone. The views of numpy
that can be written to have no repeated cell, so that each cell of the array is changed once. -/

namespace BladeX
noncomputable section
open Classical

/-- A profile object: its four arrays (cells of memory) and the attributes that are never updated in place by the modelled methods. -/
structure ProfileObj where
  xup : List Nat
  xdown : List Nat
  yup : List Nat
  ydown : List Nat
  par : Option Params := none
  chordLine : Option (Arr × Arr) := none
  camberLine : Option (Arr × Arr) := none

/-- The memory: the numbers in the cells, the first unused cell and the profile objects. -/
structure Heap where
  cell : Nat → ℝ
  next : Nat
  obj : Nat → ProfileObj

namespace Heap

/-- The numbers of an array. -/
def read (h : Heap) (a : List Nat) : Arr := a.map h.cell

/-- What is seen of a profile object through its attributes. -/
def load (h : Heap) (o : Nat) : Profile :=
  { xup := h.read (h.obj o).xup, xdown := h.read (h.obj o).xdown, yup := h.read (h.obj o).yup, ydown := h.read (h.obj o).ydown,
    par := (h.obj o).par, chordLine := (h.obj o).chordLine, camberLine := (h.obj o).camberLine }

/-- `a += v` or `a *= f` for an array `a`: every cell of the array is changed. -/
def inPlace (g : ℝ → ℝ) (a : List Nat) (h : Heap) : Heap := { h with cell := fun c => if c ∈ a then g (h.cell c) else h.cell c }

/-- baseprofile.py 714-723 (`translate`) in place. -/
def translate (o : Nat) (v : Pt) (h : Heap) : Heap :=
  let h := inPlace (· + v.1) (h.obj o).xup h
  let h := inPlace (· + v.1) (h.obj o).xdown h
  let h := inPlace (· + v.2) (h.obj o).yup h
  inPlace (· + v.2) (h.obj o).ydown h

/-- baseprofile.py 748-751, 755-758 and, with factor -1, 730-733: the four `*= factor` statements. -/
def mulAll (o : Nat) (f : ℝ) (h : Heap) : Heap :=
  let h := inPlace (· * f) (h.obj o).xup h
  let h := inPlace (· * f) (h.obj o).xdown h
  let h := inPlace (· * f) (h.obj o).yup h
  inPlace (· * f) (h.obj o).ydown h

/-- A new array with the given numbers, in unused cells. -/
def alloc (l : Arr) (h : Heap) : List Nat × Heap :=
  ((List.range l.length).map (h.next + ·),
   { h with cell := fun c => if c < h.next then h.cell c else l.getD (c - h.next) (h.cell c), next := h.next + l.length })

/-- Change of the attributes of a profile object. -/
def setObj (o : Nat) (x : ProfileObj) (h : Heap) : Heap := { h with obj := fun p => if p = o then x else h.obj p }

/-- New arrays for `xup` and `xdown`. -/
def assignX (o : Nat) (P : Profile) (h : Heap) : Heap :=
  let u := alloc P.xup h
  let d := alloc P.xdown u.2
  setObj o { h.obj o with xup := u.1, xdown := d.1 } d.2

/-- New arrays for `yup` and `ydown`, and the other attributes. -/
def assignY (o : Nat) (P : Profile) (h : Heap) : Heap :=
  let u := alloc P.yup h
  let d := alloc P.ydown u.2
  setObj o { h.obj o with yup := u.1, ydown := d.1, par := P.par, chordLine := P.chordLine, camberLine := P.camberLine } d.2

/-- A call of a method that changes a profile. `translateRef` is `p.translate(-p.reference_point)` (blade.py 335), `skip` does nothing. -/
inductive Stmt
  | skip
  | translate (v : Pt)
  | translateRef
  | scale (factor : ℝ) (translateFlag : Bool)
  | setThickness (t : ℝ)
  | setCamber (c : ℝ)
  | reflect
  | rotate (rad deg : Option ℝ)

/-- The calls in the value-level description of `Model/Profile.lean`. -/
def Stmt.value : Stmt → Profile → Res Profile
  | .skip, P => .ok P
  | .translate v, P => .ok (P.translate v)
  | .translateRef, P => do return P.translate (-(← P.referencePoint))
  | .scale f b, P => P.scale f b
  | .setThickness t, P => P.setThicknessMax t
  | .setCamber c, P => P.setCamberLineMax c
  | .reflect, P => .ok P.reflect
  | .rotate r d, P => P.rotate r d

/-- The calls on the memory: `translate` (baseprofile.py 714-723), `scale` (735-759), `set_thickness_max` (447-457) and `reflect` (725-733) update
the arrays in place; `rotate` (708-712) assigns four new arrays; `set_camber_line_max` (415-444) assigns new `y` arrays and, when the
coordinates had to be interpolated (396-403), new `x` arrays. -/
def Stmt.run (s : Stmt) (o : Nat) (h : Heap) : Heap × Res Unit :=
  match s with
  | .skip => (h, .ok ())
  | .translate v => (h.translate o v, .ok ())
  | .translateRef =>
    match (h.load o).referencePoint with
    | .error e => (h, .error e)
    | .ok ref => (h.translate o (-ref), .ok ())
  | .scale f true =>
    match (h.load o).referencePoint with
    | .error e => (h, .error e)
    | .ok ref => (((h.translate o (-ref)).mulAll o f).translate o ref, .ok ())
  | .scale f false => (h.mulAll o f, .ok ())
  | .setThickness t =>
    match (h.load o).maxThickness with
    | .error e => (h, .error e)
    | .ok old =>
      let ratio := if old ≠ 0 then t / old else 0
      let h := inPlace (· * ratio) (h.obj o).yup h
      (inPlace (· * ratio) (h.obj o).ydown h, .ok ())
  | .setCamber c =>
    match (h.load o).setCamberLineMax c with
    | .error e => (h, .error e)
    | .ok Q =>
      if npEqAll (h.load o).xup (h.load o).xdown = .ok true then (h.assignY o Q, .ok ()) else ((h.assignX o Q).assignY o Q, .ok ())
  | .reflect => (h.mulAll o (-1), .ok ())
  | .rotate r d =>
    match (h.load o).rotate r d with
    | .error e => (h, .error e)
    | .ok Q => ((h.assignX o Q).assignY o Q, .ok ())

/-- A program: calls on profile objects, stopping at the first exception. -/
def runProgram : List (Nat × Stmt) → Heap → Heap × Res Unit
  | [], h => (h, .ok ())
  | (o, s) :: p, h =>
    match s.run o h with
    | (h, .ok ()) => runProgram p h
    | (h, .error e) => (h, .error e)

/-- blade.py 333-365: the statements of the loop body for the section number `i` of `n`; the arguments may fail to exist. -/
def sectionStmts (b : Blade) (n : Nat) (reflect : Bool) (i : Nat) : List (Res Stmt) :=
  [ .ok .translateRef,
    do return .scale (← getIdx b.chord i) true,
    match b.thickness with
      | none => .ok .skip
      | some t => do return .setThickness (← getIdx t i),
    match b.camber with
      | none => .ok .skip
      | some c => if i + 1 < n then do return .setCamber (← getIdx c i) else .ok .skip,
    .ok (if reflect then .reflect else .skip),
    do return .rotate (some (Real.pi / 2 - (← Blade.pitchAngle (← getIdx b.pitch i) (← getIdx b.radii i)))) none,
    do return .translate (0, -((← getIdx b.radii i) * radians (← getIdx b.skew i) Real.pi)),
    do
      let ir ← Blade.inducedRake (← getIdx b.pitch i) (← getIdx b.radii i) (← getIdx b.skew i)
      return .translate (-((← getIdx b.rake i) + ir), 0) ]

/-- The statements of one turn of the loop on the object `o`. -/
def runStmts (o : Nat) : List (Res Stmt) → Heap → Heap × Res Unit
  | [], h => (h, .ok ())
  | .error e :: _, h => (h, .error e)
  | .ok s :: l, h =>
    match s.run o h with
    | (h, .ok ()) => runStmts o l h
    | (h, .error e) => (h, .error e)

/-- blade.py 333-365: the loop over the section objects from index `i` on. -/
def sectionLoop (b : Blade) (n : Nat) (reflect : Bool) : Nat → List Nat → Heap → Heap × Res Unit
  | _, [], h => (h, .ok ())
  | i, o :: os, h =>
    match runStmts o (sectionStmts b n reflect i) h with
    | (h, .ok ()) => sectionLoop b n reflect (i + 1) os h
    | (h, .error e) => (h, .error e)

/-- blade.py 298-367 (`apply_transformations`) for a blade whose sections are the objects `ids`: the memory afterwards and the new coordinates
(upper and lower). The attribute `sections` of `b` is not used. -/
def applyTransformations (b : Blade) (ids : List Nat) (reflect : Bool) (h : Heap) : Heap × Res (Face × Face) :=
  match sectionLoop b ids.length reflect 0 ids h with
  | (h, .error e) => (h, .error e)
  | (h, .ok ()) => (h, Blade.cylindrical (ids.map h.load) b.radii)

end Heap
end
end BladeX
