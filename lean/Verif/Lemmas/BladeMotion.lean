import Verif.Spec.Blade
import Mathlib.Tactic.LinearCombination
import Mathlib.Tactic.FieldSimp

/-! # Lemmas on rotations, mirrorings and scalings of a blade -/

namespace BladeX
noncomputable section
open Spec Classical
namespace Blade

theorem c_ne : (c!"x" : Str) ≠ c!"y" ∧ (c!"x" : Str) ≠ c!"z" ∧ (c!"y" : Str) ≠ c!"z" := by decide

theorem c_ne' : (c!"y" : Str) ≠ c!"x" ∧ (c!"z" : Str) ≠ c!"x" ∧ (c!"z" : Str) ≠ c!"y" := by decide

/-- The four faces moved, if all exist. -/
theorem onFaces_ok {f : Pt3 → Pt3} {b : Blade} (h : b.HasFaces) :
    onFaces f b = ({ b with upper := b.upper.map (mapPts f), lower := b.lower.map (mapPts f), tip := b.tip.map (mapPts f), root := b.root.map (mapPts f) }, .ok ()) := by
  obtain ⟨h1, h2, h3, h4⟩ := h
  obtain ⟨S, r, c, p, k, s, t, f', cu, cd, u, l, ti, ro⟩ := b
  simp only at h1 h2 h3 h4
  rcases u with _ | u
  · exact absurd rfl h1
  rcases l with _ | l
  · exact absurd rfl h2
  rcases ti with _ | ti
  · exact absurd rfl h3
  rcases ro with _ | ro
  · exact absurd rfl h4
  rfl

theorem onFaces_error {f : Pt3 → Pt3} {b : Blade} (h : ¬ b.HasFaces) : (onFaces f b).2 = .error .typeError ∧
    (onFaces f b).1.coordsUp = b.coordsUp ∧ (onFaces f b).1.coordsDown = b.coordsDown := by
  obtain ⟨S, r, c, p, k, s, t, f', cu, cd, u, l, ti, ro⟩ := b
  simp only [HasFaces] at h
  unfold onFaces
  rcases u with _ | u
  · exact ⟨rfl, rfl, rfl⟩
  rcases l with _ | l
  · exact ⟨rfl, rfl, rfl⟩
  rcases ti with _ | ti
  · exact ⟨rfl, rfl, rfl⟩
  rcases ro with _ | ro
  · exact ⟨rfl, rfl, rfl⟩
  simp at h

theorem mapPts_comp (f g : Pt3 → Pt3) (F : Face) : mapPts g (mapPts f F) = mapPts (fun p => g (f p)) F := by
  simp [mapPts, Function.comp_def]

theorem mapPts_id {f : Pt3 → Pt3} (h : ∀ p, f p = p) (F : Face) : mapPts f F = F := by
  have : f = id := funext h
  subst this
  simp [mapPts]

theorem mapPts_eq_nil {f : Pt3 → Pt3} {F : Face} : mapPts f F = [] ↔ F = [] := by simp [mapPts]

theorem rot_add {R : ℝ → Pt3 → Pt3} (h : R = rotX ∨ R = rotY ∨ R = rotZ) (s t : ℝ) (p : Pt3) : R t (R s p) = R (s + t) p := by
  rcases h with rfl | rfl | rfl <;> ext <;> simp [rotX, rotY, rotZ, Real.cos_add, Real.sin_add] <;> ring

theorem rot_zero {R : ℝ → Pt3 → Pt3} (h : R = rotX ∨ R = rotY ∨ R = rotZ) (p : Pt3) : R 0 p = p := by
  rcases h with rfl | rfl | rfl <;> ext <;> simp [rotX, rotY, rotZ]

/-- What a rotation does to coordinates and to faces. -/
def coordRot (axis : Str) (t : ℝ) : Pt3 → Pt3 :=
  if axis = c!"x" then rotX t else if axis = c!"y" then rotY (-t) else rotZ t

def faceRot (axis : Str) (t : ℝ) : Pt3 → Pt3 :=
  if axis = c!"x" then rotX t else if axis = c!"y" then rotY t else rotZ t

theorem angle_ok {deg rad : Option ℝ} {t : ℝ} (h : angleOf deg rad = some t) : angle deg rad = .ok (t, Real.cos t, Real.sin t) := by
  rcases deg with _ | d <;> rcases rad with _ | r <;> simp [angleOf] at h
  · subst h; simp [angle]
  · subst h
    have e1 : d * Real.pi / 180 = Real.pi * d / 180 := by ring
    simp [angle, radians, e1]

theorem angle_error {deg rad : Option ℝ} (h : angleOf deg rad = none) : angle deg rad = .error .valueError := by
  rcases deg with _ | d <;> rcases rad with _ | r <;> simp [angleOf] at h
  · simp [angle]
  · simp [angle]

theorem rotMatrix_ok {axis : Str} (h : axis = c!"x" ∨ axis = c!"y" ∨ axis = c!"z") (t : ℝ) :
    rotMatrix axis (Real.cos t) (Real.sin t) = some (coordRot axis t) := by
  obtain ⟨n1, n2, n3⟩ := c_ne
  obtain ⟨m1, m2, m3⟩ := c_ne'
  rcases h with rfl | rfl | rfl
  · simp only [rotMatrix, coordRot, if_true]
    congr 1; funext p; ext <;> simp [rotX]; ring
  · simp only [rotMatrix, coordRot, if_true, m1, if_false]
    congr 1; funext p; ext <;> simp [rotY]; ring
  · simp only [rotMatrix, coordRot, if_true, m2, m3, if_false]
    congr 1; funext p; ext <;> simp [rotZ]; ring

theorem occRotation_eq {axis : Str} (h : axis = c!"x" ∨ axis = c!"y" ∨ axis = c!"z") (t : ℝ) : occRotation axis t = faceRot axis t := by
  obtain ⟨n1, n2, n3⟩ := c_ne
  obtain ⟨m1, m2, m3⟩ := c_ne'
  rcases h with rfl | rfl | rfl
  · simp only [occRotation, faceRot, if_true, n1, n2, if_false]
    rfl
  · simp only [occRotation, faceRot, if_true, m1, if_false]
    funext p; ext <;> simp [rotY]; ring
  · simp only [occRotation, faceRot, if_true, m2, m3, if_false]
    rfl

theorem rotMatrix_none {axis : Str} (h : ¬ (axis = c!"x" ∨ axis = c!"y" ∨ axis = c!"z")) (c s : ℝ) : rotMatrix axis c s = none := by
  push Not at h
  simp [rotMatrix, h.1, h.2.1, h.2.2]

/-- A rotation with acceptable arguments. -/
theorem rotate_ok {b : Blade} {deg rad : Option ℝ} {axis : Str} {t : ℝ} (hc : b.HasCoords) (ha : angleOf deg rad = some t)
    (hx : axis = c!"x" ∨ axis = c!"y" ∨ axis = c!"z") :
    rotate deg rad axis b = onFaces (faceRot axis t) { b with coordsUp := mapPts (coordRot axis t) b.coordsUp, coordsDown := mapPts (coordRot axis t) b.coordsDown } := by
  unfold rotate
  rw [if_neg hc, angle_ok ha]
  simp only [rotMatrix_ok hx, occRotation_eq hx]

theorem rotate_error {b : Blade} {deg rad : Option ℝ} {axis : Str}
    (h : ¬ b.HasCoords ∨ angleOf deg rad = none ∨ ¬ (axis = c!"x" ∨ axis = c!"y" ∨ axis = c!"z")) :
    rotate deg rad axis b = (b, .error .valueError) := by
  unfold rotate
  by_cases h1 : b.coordsUp = []
  · simp [h1]
  rw [if_neg h1]
  rcases h2 : angleOf deg rad with _ | t
  · rw [angle_error h2]
  · rw [angle_ok h2]
    have h3 : ¬ (axis = c!"x" ∨ axis = c!"y" ∨ axis = c!"z") := by
      rcases h with h | h | h
      · exact absurd h1 h
      · rw [h2] at h; cases h
      · exact h
    simp only [rotMatrix_none h3]

theorem dist_rot {R : ℝ → Pt3 → Pt3} (h : R = rotX ∨ R = rotY ∨ R = rotZ) (t : ℝ) (p q : Pt3) :
    distSq3 (R t p) (R t q) = distSq3 p q := by
  have hs := Real.sin_sq_add_cos_sq t
  rcases h with rfl | rfl | rfl
  · simp only [distSq3, rotX]
    linear_combination ((p.2.1 - q.2.1) ^ 2 + (p.2.2 - q.2.2) ^ 2) * hs
  · simp only [distSq3, rotY]
    linear_combination ((p.1 - q.1) ^ 2 + (p.2.2 - q.2.2) ^ 2) * hs
  · simp only [distSq3, rotZ]
    linear_combination ((p.1 - q.1) ^ 2 + (p.2.1 - q.2.1) ^ 2) * hs

end Blade
end
end BladeX
