import Verif.Model.ProfileLife

/-! # Specification for the histories of calls on one profile -/

namespace BladeX
noncomputable section
open Classical

namespace Foil

/-- The four coordinate arrays. -/
def coords (s : Foil) : Arr × Arr × Arr × Arr := (s.xup, s.xdown, s.yup, s.ydown)

/-- The calls that are meant to change the coordinates. -/
def Call.movesCoordinates : Call → Bool
  | .setXup _ | .setXdown _ | .setYup _ | .setYdown _ => true
  | .generateCoordinates _ | .translate _ | .rotate _ _ | .scale _ _ | .reflect => true
  | .deformCamberLine _ _ | .setCamberLineMax _ | .setThicknessMax _ => true
  | _ => false

/-- The calls that are meant to change the parameters. -/
def Call.changesParameters : Call → Bool
  | .setChordLength _ | .setChordPerc _ | .setCamberMax _ | .setCamberPerc _ | .setThicknessMaxPar _ | .setThicknessPerc _ => true
  | .generateParameters _ => true
  | _ => false

/-- The calls that recompute `leading_edge` and `trailing_edge`. -/
def Call.findsEdges : Call → Bool
  | .generateParameters _ | .scale _ true | .setCamberLineMax _ | .computeChordLine _ | .maxCamber _ | .referencePoint => true
  | _ => false

/-- `generate_parameters` with some convention. -/
def Call.isParameters : Call → Bool
  | .generateParameters _ => true
  | _ => false

/-- `generate_coordinates` with or without convention. -/
def Call.isCoordinates : Call → Bool
  | .generateCoordinates _ => true
  | _ => false

/-- The same coordinates and parameters; the stored lines and edges may differ. -/
def Same (s t : Foil) : Prop := s.coords = t.coords ∧ s.par = t.par

/-- The edges of the coordinates: the leading edge is the first upper point; the trailing edge has the last upper abscissa and the mean of the
last ordinates. -/
def EdgesAt (s : Foil) (le te : Pt) : Prop :=
  s.xup.head? = some le.1 ∧ s.yup.head? = some le.2 ∧ s.xup.getLast? = some te.1 ∧
    ∃ u d, s.yup.getLast? = some u ∧ s.ydown.getLast? = some d ∧ te.2 = (u + d) / 2

/-- A result together with the profile it leaves. -/
def done (r : Res Profile) : Res (Out × Profile) := r.map fun Q => (.nothing, Q)

/-- `generate_coordinates` by its result, for an object with parameters `p`. -/
def coordinatesResult (lib : Lib) (P : Profile) (p : Params) : FoilClass → Option Profile.Convention → Res Profile
  | .custom, none => Custom.britishCoordinates P p
  | .custom, some conv =>
    if conv = .american ∧ (p.camberPerc.length ≠ p.chordPerc.length ∨ p.thicknessPerc.length ≠ p.chordPerc.length) then .error .valueError
    else Custom.generateCoordinates (Custom.curveOnChord lib.curve) P p conv
  | .naca _ _ _, some _ => .error .typeError
  | .naca digits n cosine, none =>
    (Naca.generateCoordinates lib.look digits n cosine).map fun Q => { P with xup := Q.xup, xdown := Q.xdown, yup := Q.yup, ydown := Q.ydown }

/-- The calls by their results: the method descriptions of which C01 to C26 state the properties. -/
def Call.result (lib : Lib) (K : FoilClass) (P : Profile) : Call → Res (Out × Profile)
  | .setXup a => .ok (.nothing, { P with xup := a })
  | .setXdown a => .ok (.nothing, { P with xdown := a })
  | .setYup a => .ok (.nothing, { P with yup := a })
  | .setYdown a => .ok (.nothing, { P with ydown := a })
  | .setChordLength x => .ok (.nothing, { P with par := P.par.map fun p => { p with chordLength := x } })
  | .setChordPerc a => .ok (.nothing, { P with par := P.par.map fun p => { p with chordPerc := a } })
  | .setCamberMax x => .ok (.nothing, { P with par := P.par.map fun p => { p with camberMax := x } })
  | .setCamberPerc a => .ok (.nothing, { P with par := P.par.map fun p => { p with camberPerc := a } })
  | .setThicknessMaxPar x => .ok (.nothing, { P with par := P.par.map fun p => { p with thicknessMax := x } })
  | .setThicknessPerc a => .ok (.nothing, { P with par := P.par.map fun p => { p with thicknessPerc := a } })
  | .generateParameters conv => done (P.generateParameters (Profile.americanThickness lib.curve lib.newton) conv)
  | .generateCoordinates conv =>
    match P.par with
    | none => .error .typeError
    | some p => done (coordinatesResult lib P p K conv)
  | .translate v => .ok (.nothing, P.translate v)
  | .rotate r d => done (P.rotate r d)
  | .scale f b => done (P.scale f b)
  | .reflect => .ok (.nothing, P.reflect)
  | .deformCamberLine p n => done (P.deformCamberLine p n)
  | .setCamberLineMax c => done (P.setCamberLineMax c)
  | .setThicknessMax t => done (P.setThicknessMax t)
  | .computeChordLine n => done (P.computeChordLine n)
  | .computeCamberLine n => done (P.computeCamberLine n)
  | .maxThickness n => (P.maxThickness n).map fun x => (.number x, P)
  | .maxCamber n => (P.maxCamber n).map fun x => (.number x.1, x.2)
  | .referencePoint => P.referencePoint.map fun x => (.point x, P)
  | .interpolate num radius => (P.interpolateCoordinates num radius).map fun x => (.arrays x, P)

end Foil
end
end BladeX
