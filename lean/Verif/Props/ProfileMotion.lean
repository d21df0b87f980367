import Verif.Spec.Plane
import Verif.Lemmas.Lists
import Verif.Lemmas.Profile

/-!
# C01 - C06: translation, rotation, reflection, scaling of a profile

`P.upper`, `P.lower` (Spec/Plane.lean) are the points of the two surfaces.
-/

namespace BladeX
open Spec

/-- **C01** `translate(v)` moves every point by `v` (same number of points, same order), never touches anything else. -/
theorem C01_translate_points (P : Profile) (v : Pt) :
    (P.translate v).upper = P.upper.map (· + v) ∧
    (P.translate v).lower = P.lower.map (· + v) ∧
    (P.translate v).xup.length = P.xup.length ∧ (P.translate v).yup.length = P.yup.length ∧
    (P.translate v).xdown.length = P.xdown.length ∧ (P.translate v).ydown.length = P.ydown.length ∧
    (P.translate v).par = P.par := by
  refine ⟨?_, ?_, ?_, ?_, ?_, ?_, rfl⟩
  · simp only [Profile.upper, Profile.translate, List.zip_map]; rfl
  · simp only [Profile.lower, Profile.translate, List.zip_map]; rfl
  all_goals simp [Profile.translate]

/-- **C01** translations compose by adding the vectors and are undone by the opposite vector. -/
theorem C01_translate_group (P : Profile) (u v : Pt) :
    (P.translate u).translate v = P.translate (u + v) ∧ (P.translate v).translate (-v) = P ∧
    P.translate 0 = P := by
  refine ⟨?_, ?_, ?_⟩
  · simp [Profile.translate, Function.comp_def, add_assoc]
  · simp [Profile.translate, Function.comp_def]
  · simp [Profile.translate]

/-- Non-trivial instance: the sample foil really moves. -/
example : (Sample.foil.translate (1, 2)).upper = [(1, 2), (5/4, 11/5), (3/2, 9/4), (2, 2)] := by
  rw [(C01_translate_points _ _).1]
  norm_num [Sample.foil, Profile.upper]

/-- **C02** on equal-length arrays `rotate(rad_angle=t)` succeeds and rotates every point of both surfaces by `t`. -/
theorem C02_rotate_points (P : Profile) (h : P.Uniform) (t : ℝ) :
    ∃ Q, P.rotate (some t) none = .ok Q ∧ Q.Uniform ∧
      Q.upper = P.upper.map (rot t) ∧ Q.lower = P.lower.map (rot t) ∧
      Q.xup.length = P.xup.length ∧ Q.par = P.par := by
  obtain ⟨Q, hQ, hup, hlo, hU, hlen, hpar⟩ := Profile.rotate_uniform P h t
  exact ⟨Q, hQ, hU, hup, hlo, hlen, hpar⟩

/-- **C02** rotation preserves the distance between any two points of the profile (of the same or of different
surfaces). -/
theorem C02_rotate_isometry (P Q : Profile) (h : P.Uniform) (t : ℝ) (hQ : P.rotate (some t) none = .ok Q) :
    Q.points.length = P.points.length ∧
    ∀ i j (hi : i < P.points.length) (hj : j < P.points.length)
      (hi' : i < Q.points.length) (hj' : j < Q.points.length),
      dist2 (Q.points[i]) (Q.points[j]) = dist2 (P.points[i]) (P.points[j]) := by
  obtain ⟨Q', hQ', hup, hlo, _⟩ := Profile.rotate_uniform P h t
  obtain rfl : Q' = Q := by rw [hQ] at hQ'; exact (Except.ok.inj hQ').symm
  have hp : Q'.points = P.points.map (rot t) := by simp [Profile.points, hup, hlo]
  refine ⟨by simp [hp], ?_⟩
  intro i j hi hj hi' hj'
  simp only [hp, List.getElem_map]
  exact dist2_rot t _ _

/-- **C02** rotating by `s` and then by `t` is rotating by `s + t`. -/
theorem C02_rotate_add (P Q : Profile) (h : P.Uniform) (s t : ℝ) (hQ : P.rotate (some s) none = .ok Q) :
    Q.rotate (some t) none = P.rotate (some (s + t)) none := by
  exact Profile.rotate_rotate P Q h s t hQ

/-- **C02** rotating back restores the profile, and a full turn changes nothing. -/
theorem C02_rotate_inverse (P Q : Profile) (h : P.Uniform) (t : ℝ) (hQ : P.rotate (some t) none = .ok Q) :
    Q.rotate (some (-t)) none = .ok P ∧ P.rotate (some (2 * Real.pi)) none = .ok P := by
  refine ⟨?_, ?_⟩
  · rw [Profile.rotate_rotate P Q h t (-t) hQ, add_neg_cancel]
    exact Profile.rotate_trivial P h 0 (by simp) (by simp)
  · exact Profile.rotate_trivial P h _ (by simp) (by simp)

example : Sample.foil.Uniform := by simp [Sample.foil, Profile.Uniform]

/-- **C03** `rotate` accepts exactly one angle. The first disjunct of each side: with both or neither angle it raises
`ValueError`; for equal-length arrays this is the only way to fail. -/
theorem C03_rotate_args (P : Profile) (rad deg : Option ℝ) :
    (rad.isSome = deg.isSome → P.rotate rad deg = .error .valueError) ∧
    (P.Uniform → rad.isSome ≠ deg.isSome → ∃ Q, P.rotate rad deg = .ok Q) := by
  constructor
  · intro hh
    cases rad <;> cases deg <;> simp at hh <;> rfl
  · intro hU hh
    cases rad with
    | some a =>
      cases deg with
      | some d => simp at hh
      | none => obtain ⟨Q, hQ, _⟩ := Profile.rotate_uniform P hU a; exact ⟨Q, hQ⟩
    | none =>
      cases deg with
      | none => simp at hh
      | some d =>
        obtain ⟨Q, hQ, _⟩ := Profile.rotate_uniform P hU (Real.pi * d / 180)
        exact ⟨Q, by rw [Profile.rotate_deg]; exact hQ⟩

/-- **C03** degrees and radians agree. -/
theorem C03_rotate_degrees (P : Profile) (d : ℝ) :
    P.rotate none (some d) = P.rotate (some (Real.pi * d / 180)) none := Profile.rotate_deg P d

/-- **C03** surfaces of different length: a shorter lower surface raises `IndexError`; a longer one is truncated to
zeros beyond the number of upper points. -/
theorem C03_rotate_ragged (P : Profile) (h : P.Shaped) (t : ℝ) :
    (P.xdown.length < P.xup.length → P.rotate (some t) none = .error .indexError) ∧
    (P.xup.length ≤ P.xdown.length → ∃ Q, P.rotate (some t) none = .ok Q ∧
      Q.upper = P.upper.map (rot t) ∧
      Q.lower = (P.lower.take P.xup.length).map (rot t) ++ List.replicate (P.xdown.length - P.xup.length) (0, 0)) :=
  Profile.rotate_ragged P h t

example : ∃ P : Profile, P.Shaped ∧ P.xup.length < P.xdown.length :=
  ⟨{ xup := [0, 1], yup := [0, 0], xdown := [0, 1/2, 1], ydown := [0, -1, 0] }, by simp [Profile.Shaped], by simp⟩

/-- **C04** `reflect` is the point reflection in the origin. -/
theorem C04_reflect_points (P : Profile) :
    P.reflect.upper = P.upper.map (fun p => (-p.1, -p.2)) ∧
    P.reflect.lower = P.lower.map (fun p => (-p.1, -p.2)) ∧ P.reflect.par = P.par := by
  refine ⟨?_, ?_, rfl⟩
  · simp only [Profile.upper, Profile.reflect, List.zip_map]
    congr 1; funext p; ext <;> simp
  · simp only [Profile.lower, Profile.reflect, List.zip_map]
    congr 1; funext p; ext <;> simp

/-- **C04** reflecting twice restores the profile; for equal-length arrays reflecting is rotating by 180 degrees. -/
theorem C04_reflect_involution (P : Profile) :
    P.reflect.reflect = P ∧ (P.Uniform → P.rotate none (some 180) = .ok P.reflect) := by
  constructor
  · simp [Profile.reflect]
  · intro hU
    rw [Profile.rotate_deg]
    exact Profile.rotate_pi P hU _ (by rw [show Real.pi * 180 / 180 = Real.pi by ring]; simp)
      (by rw [show Real.pi * 180 / 180 = Real.pi by ring]; simp)

example : Sample.foil.reflect.upper = [(0, 0), (-1/4, -1/5), (-1/2, -1/4), (-1, 0)] := by
  rw [(C04_reflect_points _).1]
  norm_num [Sample.foil, Profile.upper]

end BladeX
