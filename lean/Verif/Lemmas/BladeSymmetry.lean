import Verif.Lemmas.Blade
import Verif.Props.Blade

/-! # Comparing the coordinates of two blades, section by section -/

namespace BladeX
noncomputable section
open Spec Classical
namespace Blade

/-- Two blades with equally many sections: if every section of the second comes out, on its cylinder, as the image by `f i` of the one of the
first, then the second is transformed successfully when the first is, and its coordinates are the images of those of the first. -/
theorem transfer {b₁ b₂ b₁' : Blade} {refl₁ refl₂ : Bool} (hW₁ : b₁.WellFormed) (hW₂ : b₂.WellFormed)
    (hlen : b₂.sections.length = b₁.sections.length) (f : Nat → Pt3 → Pt3)
    (h : b₁.applyTransformations refl₁ = (b₁', .ok ()))
    (hstep : ∀ (i : Nat) (P₁ P₂ Q₁ : Profile) (r₁ r₂ : ℝ), b₁.sections[i]? = some P₁ → b₂.sections[i]? = some P₂ →
      b₁.radii[i]? = some r₁ → b₂.radii[i]? = some r₂ → r₁ ≠ 0 → runSteps (sectionSteps b₁ refl₁ i) P₁ = (Q₁, .ok ()) →
      Q₁.xup.length = Q₁.yup.length → Q₁.xdown.length = Q₁.ydown.length →
      ∃ Q₂, runSteps (sectionSteps b₂ refl₂ i) P₂ = (Q₂, .ok ()) ∧ r₂ ≠ 0 ∧
        Q₂.xup.length = Q₂.yup.length ∧ Q₂.xdown.length = Q₂.ydown.length ∧
        Q₂.upper.map (wrap r₂) = (Q₁.upper.map (wrap r₁)).map (f i) ∧
        Q₂.lower.map (wrap r₂) = (Q₁.lower.map (wrap r₁)).map (f i)) :
    ∃ b₂', b₂.applyTransformations refl₂ = (b₂', .ok ()) ∧
      b₂'.coordsUp.length = b₁.sections.length ∧ b₂'.coordsDown.length = b₁.sections.length ∧
      b₁'.coordsUp.length = b₁.sections.length ∧ b₁'.coordsDown.length = b₁.sections.length ∧
      ∀ i, i < b₁.sections.length →
        b₂'.coordsUp[b₁.sections.length - 1 - i]? = (b₁'.coordsUp[b₁.sections.length - 1 - i]?).map (·.map (f i)) ∧
        b₂'.coordsDown[b₁.sections.length - 1 - i]? = (b₁'.coordsDown[b₁.sections.length - 1 - i]?).map (·.map (f i)) := by
  obtain ⟨ss, up, down, h1, h2, rfl⟩ := (apply_ok hW₁.1).1 h
  obtain ⟨hl, hall⟩ := (sectionLoop_ok _ _ _).1 h1
  have hrl : b₁.radii.length = ss.length := by rw [hl]; exact hW₁.1
  obtain ⟨hne, hrad, hsame, hup, hdown⟩ := (cylindrical_ok hrl).1 h2
  have hex : ∀ i, ∃ Q₂ : Profile, ∀ (hi : i < b₁.sections.length), ∃ (r₁ r₂ : ℝ) (Q₁ : Profile),
      b₁.radii[i]? = some r₁ ∧ b₂.radii[i]? = some r₂ ∧ ss[i]? = some Q₁ ∧
      runSteps (sectionSteps b₂ refl₂ i) (b₂.sections[i]'(by omega)) = (Q₂, .ok ()) ∧ r₂ ≠ 0 ∧
        Q₂.xup.length = Q₂.yup.length ∧ Q₂.xdown.length = Q₂.ydown.length ∧
        Q₂.upper.map (wrap r₂) = (Q₁.upper.map (wrap r₁)).map (f i) ∧
        Q₂.lower.map (wrap r₂) = (Q₁.lower.map (wrap r₁)).map (f i) := by
    intro i
    by_cases hi : i < b₁.sections.length
    swap
    · exact ⟨Sample.foil, fun h => absurd h hi⟩
    have hi2 : i < b₂.sections.length := by omega
    have hs : i < ss.length := by omega
    have hr1 : i < b₁.radii.length := by omega
    have hr2 : i < b₂.radii.length := by rw [hW₂.1]; omega
    have hrun := hall i _ _ (List.getElem?_eq_getElem hi) (List.getElem?_eq_getElem hs)
    rw [Nat.zero_add] at hrun
    obtain ⟨hr0, e1, e2⟩ := hrad i _ _ (List.getElem?_eq_getElem hs) (List.getElem?_eq_getElem hr1)
    obtain ⟨Q₂, hQ⟩ := hstep i _ _ _ _ _ (List.getElem?_eq_getElem hi) (List.getElem?_eq_getElem hi2) (List.getElem?_eq_getElem hr1)
      (List.getElem?_eq_getElem hr2) hr0 hrun e1 e2
    exact ⟨Q₂, fun _ => ⟨_, _, _, List.getElem?_eq_getElem hr1, List.getElem?_eq_getElem hr2, List.getElem?_eq_getElem hs, hQ⟩⟩
  choose g hg using hex
  let ss₂ := (List.range b₁.sections.length).map g
  have hss₂ : ∀ j Q, ss₂[j]? = some Q → j < b₁.sections.length ∧ Q = g j := by
    intro j Q hQ
    have hj : j < b₁.sections.length := by
      have := (List.getElem?_eq_some_iff.1 hQ).1
      simpa [ss₂] using this
    simp only [ss₂, List.getElem?_map, List.getElem?_range hj, Option.map_some, Option.some.injEq] at hQ
    exact ⟨hj, hQ.symm⟩
  have hloop : sectionLoop b₂ refl₂ 0 b₂.sections = (ss₂, .ok ()) := by
    rw [sectionLoop_ok]
    refine ⟨by simp [ss₂, hlen], ?_⟩
    intro j P Q hP hQ
    obtain ⟨hj, rfl⟩ := hss₂ j Q hQ
    obtain ⟨hj2, rfl⟩ := List.getElem?_eq_some_iff.1 hP
    rw [Nat.zero_add]
    obtain ⟨_, _, _, _, _, _, hrun, _⟩ := hg j hj
    exact hrun
  have hlen₂ : b₂.radii.length = ss₂.length := by rw [hW₂.1, hlen]; simp [ss₂]
  have hcyl : cylindrical ss₂ b₂.radii = .ok ((List.zipWith (fun P r => (Profile.upper P).map (wrap r)) ss₂ b₂.radii).reverse,
      (List.zipWith (fun P r => (Profile.lower P).map (wrap r)) ss₂ b₂.radii).reverse) := by
    rw [cylindrical_ok hlen₂]
    have hpts : ∀ Q ∈ ss₂, ∃ Q₁ ∈ ss, Q.upper.length = Q₁.upper.length ∧ Q.lower.length = Q₁.lower.length := by
      intro Q hQ
      obtain ⟨j, hj⟩ := List.mem_iff_getElem?.1 hQ
      obtain ⟨hj', rfl⟩ := hss₂ j Q hj
      obtain ⟨r₁, r₂, Q₁, _, _, e3, _, _, _, _, e4, e5⟩ := hg j hj'
      refine ⟨Q₁, List.mem_of_getElem? e3, ?_, ?_⟩
      · simpa using congrArg List.length e4
      · simpa using congrArg List.length e5
    refine ⟨?_, ?_, ?_, rfl, rfl⟩
    · intro h0
      have : ss₂.length = 0 := by rw [h0]; rfl
      have h0' : ss.length = 0 := by simpa [ss₂, hl] using this
      exact hne (List.length_eq_zero_iff.1 h0')
    · intro i P r hP hr
      obtain ⟨hi, rfl⟩ := hss₂ i P hP
      obtain ⟨r₁, r₂, Q₁, _, e2, _, _, e3, e4, e5, _⟩ := hg i hi
      rw [hr] at e2
      obtain rfl := Option.some.inj e2
      exact ⟨e3, e4, e5⟩
    · intro P hP Q hQ
      obtain ⟨P₁, hP₁, p1, p2⟩ := hpts P hP
      obtain ⟨Q₁, hQ₁, q1, q2⟩ := hpts Q hQ
      rw [p1, p2, q1, q2]
      exact hsame P₁ hP₁ Q₁ hQ₁
  refine ⟨_, (apply_ok hW₂.1).2 ⟨ss₂, _, _, hloop, hcyl, rfl⟩, ?_, ?_, ?_, ?_, ?_⟩
  · simp [ss₂, hW₂.1, hlen]
  · simp [ss₂, hW₂.1, hlen]
  · simp [hup, hl, hW₁.1]
  · simp [hdown, hl, hW₁.1]
  · intro i hi
    obtain ⟨r₁, r₂, Q₁, e1, e2, e3, _, _, _, _, e4, e5⟩ := hg i hi
    have hr1 : i < b₁.radii.length := by rw [hW₁.1]; exact hi
    have hr2 : i < b₂.radii.length := by rw [hW₂.1, hlen]; exact hi
    have hs : i < ss.length := by omega
    obtain ⟨_, rfl⟩ := List.getElem?_eq_some_iff.1 e1
    obtain ⟨_, rfl⟩ := List.getElem?_eq_some_iff.1 e2
    obtain ⟨_, rfl⟩ := List.getElem?_eq_some_iff.1 e3
    have key : ∀ (n : Nat) (a : Nat), n = b₁.sections.length → a < n → n - 1 - (n - 1 - a) = a := by omega
    simp only [hup, hdown]
    rw [List.getElem?_reverse (by simp [ss₂, hr2, hW₂.1, hlen]; omega), List.getElem?_reverse (by simp [hl, hW₁.1]; omega),
      List.getElem?_reverse (by simp [ss₂, hr2, hW₂.1, hlen]; omega), List.getElem?_reverse (by simp [hl, hW₁.1]; omega)]
    simp only [List.length_zipWith, List.getElem?_zipWith]
    have ea : (min ss₂.length b₂.radii.length) - 1 - (b₁.sections.length - 1 - i) = i := by
      rw [hW₂.1, hlen]; simp [ss₂]; omega
    have eb : (min ss.length b₁.radii.length) - 1 - (b₁.sections.length - 1 - i) = i := by
      rw [hW₁.1, hl]; simp; omega
    rw [ea, eb]
    have eg : ss₂[i]? = some (g i) := by simp [ss₂, List.getElem?_range hi]
    rw [eg, List.getElem?_eq_getElem hs, List.getElem?_eq_getElem hr1, List.getElem?_eq_getElem hr2]
    simp only [Option.map_some]
    exact ⟨congrArg some e4, congrArg some e5⟩

/-- The same with one map for all sections. -/
theorem transfer_all {b₁ b₂ b₁' : Blade} {refl₁ refl₂ : Bool} (hW₁ : b₁.WellFormed) (hW₂ : b₂.WellFormed)
    (hlen : b₂.sections.length = b₁.sections.length) (f : Pt3 → Pt3)
    (h : b₁.applyTransformations refl₁ = (b₁', .ok ()))
    (hstep : ∀ (i : Nat) (P₁ P₂ Q₁ : Profile) (r₁ r₂ : ℝ), b₁.sections[i]? = some P₁ → b₂.sections[i]? = some P₂ →
      b₁.radii[i]? = some r₁ → b₂.radii[i]? = some r₂ → r₁ ≠ 0 → runSteps (sectionSteps b₁ refl₁ i) P₁ = (Q₁, .ok ()) →
      Q₁.xup.length = Q₁.yup.length → Q₁.xdown.length = Q₁.ydown.length →
      ∃ Q₂, runSteps (sectionSteps b₂ refl₂ i) P₂ = (Q₂, .ok ()) ∧ r₂ ≠ 0 ∧
        Q₂.xup.length = Q₂.yup.length ∧ Q₂.xdown.length = Q₂.ydown.length ∧
        Q₂.upper.map (wrap r₂) = (Q₁.upper.map (wrap r₁)).map f ∧
        Q₂.lower.map (wrap r₂) = (Q₁.lower.map (wrap r₁)).map f) :
    ∃ b₂', b₂.applyTransformations refl₂ = (b₂', .ok ()) ∧ b₁'.coordsMoved f b₂' := by
  obtain ⟨b₂', h1, l1, l2, l3, l4, h2⟩ := transfer hW₁ hW₂ hlen (fun _ => f) h hstep
  refine ⟨b₂', h1, ?_, ?_⟩
  · apply List.ext_getElem?
    intro j
    rw [List.getElem?_map]
    by_cases hj : j < b₁.sections.length
    · have := (h2 (b₁.sections.length - 1 - j) (by omega)).1
      rwa [show b₁.sections.length - 1 - (b₁.sections.length - 1 - j) = j by omega] at this
    · rw [List.getElem?_eq_none (by omega), List.getElem?_eq_none (by omega)]; rfl
  · apply List.ext_getElem?
    intro j
    rw [List.getElem?_map]
    by_cases hj : j < b₁.sections.length
    · have := (h2 (b₁.sections.length - 1 - j) (by omega)).2
      rwa [show b₁.sections.length - 1 - (b₁.sections.length - 1 - j) = j by omega] at this
    · rw [List.getElem?_eq_none (by omega), List.getElem?_eq_none (by omega)]; rfl

end Blade
end
end BladeX
