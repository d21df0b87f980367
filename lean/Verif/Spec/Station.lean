import Verif.Model.Blade

/-! # What belongs to one station of a blade -/

namespace BladeX.Spec

/-- Station `i` of the blade `b` and station `j` of the blade `c` are given by the same data: section, radius, chord, pitch, rake, skew and, where
the blades have the arrays, thickness and camber. The camber of the last station of a blade is not used, so two stations with camber arrays have to
be both last or both before the last. -/
structure SameStation (b : Blade) (i : Nat) (c : Blade) (j : Nat) : Prop where
  sections : b.sections[i]? = c.sections[j]?
  radius : b.radii[i]? = c.radii[j]?
  chord : b.chord[i]? = c.chord[j]?
  pitch : b.pitch[i]? = c.pitch[j]?
  rake : b.rake[i]? = c.rake[j]?
  skew : b.skew[i]? = c.skew[j]?
  thickness : b.thickness.map (·[i]?) = c.thickness.map (·[j]?)
  hasCamber : b.camber.isSome = c.camber.isSome
  camber : b.camber.isSome → (i + 1 < b.sections.length ↔ j + 1 < c.sections.length) ∧
    (i + 1 < b.sections.length → b.camber.map (·[i]?) = c.camber.map (·[j]?))

end BladeX.Spec
