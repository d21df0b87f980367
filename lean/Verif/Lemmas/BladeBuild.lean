import Verif.Lemmas.BladeSection

/-! # Lemmas on `build` -/

namespace BladeX
noncomputable section
open Spec Classical
namespace Blade

theorem makeFace_ok {occ : Face → Bool} {F G : Face} : makeFace occ F = .ok G ↔ occ F = true ∧ G = F := by
  unfold makeFace
  split_ifs with h
  · simp [h, eq_comm]
  · simp [h]

theorem getLast_ok_iff {α : Type*} {l : List α} {x : α} : getLast l = .ok x ↔ l.getLast? = some x := by
  unfold getLast
  cases l.getLast? <;> simp

theorem getFirst_ok_iff' {α : Type*} {l : List α} {x : α} : getFirst l = .ok x ↔ l.head? = some x := by
  unfold getFirst
  cases l.head? <;> simp

theorem pair_ok {occ : Face → Bool} {x y : Res (List Pt3)} {G : Face} :
    (do npStack [← x, ← y] >>= makeFace occ : Res Face) = .ok G ↔
      ∃ a c, x = .ok a ∧ y = .ok c ∧ a.length = c.length ∧ occ [a, c] = true ∧ G = [a, c] := by
  rcases x with e | a
  · simp [bind, Except.bind]
  rcases y with e | c
  · simp [bind, Except.bind]
  simp only [bind, Except.bind, Except.ok.injEq]
  by_cases h : a.length = c.length
  · rw [npStack_ok.2 ⟨rfl, by simp, by simp [h]⟩]
    simp only [makeFace_ok]
    constructor
    · rintro ⟨h1, rfl⟩; exact ⟨a, c, rfl, rfl, h, h1, rfl⟩
    · rintro ⟨_, _, rfl, rfl, _, h1, rfl⟩; exact ⟨h1, rfl⟩
  · have : npStack [a, c] = .error .valueError := by
      simp [npStack, Ne.symm h]
    rw [this]
    constructor
    · intro h'; cases h'
    · rintro ⟨_, _, rfl, rfl, h', _⟩; exact absurd h' h

/-- What a successful `build` did. -/
theorem build_ok {occ : Face → Bool} {b b' : Blade} {refl : Bool} :
    build occ refl b = (b', .ok ()) ↔ ∃ b₁ u0 d0 u1 d1, applyTransformations refl b = (b₁, .ok ()) ∧
      (mapPts (scalePt conversion) b₁.coordsUp).getLast? = some u0 ∧ (mapPts (scalePt conversion) b₁.coordsDown).getLast? = some d0 ∧
      (mapPts (scalePt conversion) b₁.coordsUp).head? = some u1 ∧ (mapPts (scalePt conversion) b₁.coordsDown).head? = some d1 ∧
      u0.length = d0.length ∧ u1.length = d1.length ∧
      occ (mapPts (scalePt conversion) b₁.coordsUp) = true ∧ occ (mapPts (scalePt conversion) b₁.coordsDown) = true ∧
      occ [u0, d0] = true ∧ occ [u1, d1] = true ∧
      b' = { b₁ with upper := some (mapPts (scalePt conversion) b₁.coordsUp), lower := some (mapPts (scalePt conversion) b₁.coordsDown), tip := some [u0, d0], root := some [u1, d1] } := by
  unfold build
  rcases applyTransformations refl b with ⟨b₁, (e | u)⟩
  · simp
  simp only
  have key : ∀ (x : Blade × Res Unit), (x = (b', .ok ()) ↔ x = (b', .ok ())) := fun _ => Iff.rfl
  by_cases o1 : occ (mapPts (scalePt conversion) b₁.coordsUp) = true
  swap
  · rw [show makeFace occ (mapPts (scalePt conversion) b₁.coordsUp) = .error .runtimeError by simp [makeFace, o1]]
    simp only [Prod.mk.injEq, reduceCtorEq, and_false, false_iff]
    rintro ⟨b₂, _, _, _, _, ⟨rfl, _⟩, _, _, _, _, _, _, h, _⟩
    exact o1 h
  rw [makeFace_ok.2 ⟨o1, rfl⟩]
  simp only
  by_cases o2 : occ (mapPts (scalePt conversion) b₁.coordsDown) = true
  swap
  · rw [show makeFace occ (mapPts (scalePt conversion) b₁.coordsDown) = .error .runtimeError by simp [makeFace, o2]]
    simp only [Prod.mk.injEq, reduceCtorEq, and_false, false_iff]
    rintro ⟨b₂, _, _, _, _, ⟨rfl, _⟩, _, _, _, _, _, _, _, h, _⟩
    exact o2 h
  rw [makeFace_ok.2 ⟨o2, rfl⟩]
  simp only
  rcases ht : (do npStack [← getLast (mapPts (scalePt conversion) b₁.coordsUp), ← getLast (mapPts (scalePt conversion) b₁.coordsDown)]
      >>= makeFace occ : Res Face) with e | G
  · simp only [Prod.mk.injEq, reduceCtorEq, and_false, false_iff]
    rintro ⟨b₂, u0, d0, u1, d1, ⟨rfl, _⟩, h1, h2, _, _, h3, _, _, _, h4, _⟩
    have := pair_ok.2 ⟨u0, d0, getLast_ok_iff.2 h1, getLast_ok_iff.2 h2, h3, h4, rfl⟩
    rw [ht] at this; cases this
  obtain ⟨u0, d0, a1, a2, a3, a4, rfl⟩ := pair_ok.1 ht
  simp only
  rcases hr : (do npStack [← getFirst (mapPts (scalePt conversion) b₁.coordsUp), ← getFirst (mapPts (scalePt conversion) b₁.coordsDown)]
      >>= makeFace occ : Res Face) with e | G
  · simp only [Prod.mk.injEq, reduceCtorEq, and_false, false_iff]
    rintro ⟨b₂, u0', d0', u1, d1, ⟨rfl, _⟩, _, _, h1, h2, _, h3, _, _, _, h4, _⟩
    have := pair_ok.2 ⟨u1, d1, getFirst_ok_iff'.2 h1, getFirst_ok_iff'.2 h2, h3, h4, rfl⟩
    rw [hr] at this; cases this
  obtain ⟨u1, d1, c1, c2, c3, c4, rfl⟩ := pair_ok.1 hr
  simp only [Prod.mk.injEq, and_true]
  constructor
  · rintro rfl
    exact ⟨b₁, u0, d0, u1, d1, rfl, getLast_ok_iff.1 a1, getLast_ok_iff.1 a2, getFirst_ok_iff'.1 c1, getFirst_ok_iff'.1 c2, a3, c3,
      o1, o2, a4, c4, rfl⟩
  · rintro ⟨b₂, u0', d0', u1', d1', rfl, h1, h2, h3, h4, _, _, _, _, _, _, rfl⟩
    rw [← getLast_ok_iff, a1] at h1
    rw [← getLast_ok_iff, a2] at h2
    rw [← getFirst_ok_iff', c1] at h3
    rw [← getFirst_ok_iff', c2] at h4
    obtain rfl := Except.ok.inj h1
    obtain rfl := Except.ok.inj h2
    obtain rfl := Except.ok.inj h3
    obtain rfl := Except.ok.inj h4
    rfl

theorem build_has {occ : Face → Bool} {b b' : Blade} {refl : Bool} (h : build occ refl b = (b', .ok ())) : b'.HasCoords ∧ b'.HasFaces := by
  obtain ⟨b₁, u0, d0, u1, d1, h1, g1, _, _, _, _, _, _, _, _, _, rfl⟩ := build_ok.1 h
  refine ⟨?_, by simp [HasFaces]⟩
  intro h0
  simp only at h0
  simp [mapPts, h0] at g1

end Blade
end
end BladeX
