import Verif.Model.Reverse
import Verif.Model.Custom

/-! # Rebuilding a blade from what reverse engineering recovered (basereversepropeller.py 309-346)

The methods `reconstruct_sections` and `reconstruct_blade` fail before they do anything (C64); their documentation tells the user to rebuild the blade "in a
dedicated script". Here: what the bodies of the methods do with the recovered sections and lists, `num_sections` being the number of radii. -/

namespace BladeX
noncomputable section
open Classical
namespace Reverse

/-- basereversepropeller.py 318-322, 333-337: the keyword arguments `xup=self.xup[j, :]` and so on. -/
def Section.kwargs (S : Section) : Kwargs where
  keys := ["xup", "yup", "xdown", "ydown"]
  arr := fun k => if k = "xup" then some S.xup else if k = "yup" then some S.yup else if k = "xdown" then some S.xdown else
    if k = "ydown" then some S.ydown else none
  num := fun _ => none

end Reverse

namespace ReversePropeller

/-- basereversepropeller.py 317-323 (`reconstruct_sections`): one `CustomProfile` per section. `american` is not used. -/
def rebuildSections (american : Profile → Res Arr) (p : ReversePropeller) : Res (List Profile) :=
  p.sections.mapM fun S => Custom.ctor american S.kwargs

/-- basereversepropeller.py 332-344 (`reconstruct_blade`): the new `Blade`; radii in metres, the lists as they were recovered. -/
def rebuildBlade (american : Profile → Res Arr) (p : ReversePropeller) : Res Blade := do
  let ss ← p.rebuildSections american
  Blade.new ss (p.radii.map (· / 1000)) (p.sections.map (·.stored.chord)) (p.sections.map (·.stored.pitch))
    (p.sections.map (·.stored.rake)) (p.sections.map (·.stored.skewAngle)) none none

end ReversePropeller
end
end BladeX
