import Verif.Lemmas.Lists

namespace BladeX
open Spec

theorem dist2_rot (t : ℝ) (p q : Pt) : dist2 (rot t p) (rot t q) = dist2 p q := by
  unfold dist2 rot
  congr 1
  have := Real.sin_sq_add_cos_sq t
  simp only
  linear_combination ((p.1 - q.1) ^ 2 + (p.2 - q.2) ^ 2) * this

theorem rot_rot (s t : ℝ) (p : Pt) : rot t (rot s p) = rot (s + t) p := by
  ext <;> simp [rot, Real.cos_add, Real.sin_add] <;> ring

theorem rot_id {t : ℝ} (hc : Real.cos t = 1) (hs : Real.sin t = 0) (p : Pt) : rot t p = p := by
  ext <;> simp [rot, hc, hs]

theorem map_fst_zip_eq {α β} {a : List α} {b : List β} (h : a.length = b.length) :
    (List.zip a b).map Prod.fst = a := List.map_fst_zip (le_of_eq h)

theorem map_snd_zip_eq {α β} {a : List α} {b : List β} (h : a.length = b.length) :
    (List.zip a b).map Prod.snd = b := List.map_snd_zip (le_of_eq h.symm)

theorem zip_map_fst_snd {α β} (l : List (α × β)) : List.zip (l.map Prod.fst) (l.map Prod.snd) = l := by
  induction l with
  | nil => rfl
  | cons p l ih => simp [ih]

theorem mapIdx_lt_take_drop {α β} (f : α → β) (d : β) (n : Nat) (l : List α) :
    l.mapIdx (fun i p => if i < n then f p else d) = (l.take n).map f ++ List.replicate (l.length - n) d := by
  apply List.ext_getElem?
  intro i
  rw [List.getElem?_mapIdx]
  rcases lt_or_ge i l.length with hi | hi
  · rw [List.getElem?_eq_getElem hi]
    by_cases h : i < n
    · rw [List.getElem?_append_left (by simp; omega)]
      simp [h, hi]
    · rw [List.getElem?_append_right (by simp; omega)]
      rw [List.getElem?_replicate]
      simp only [List.length_map, List.length_take, Option.map_some]
      rw [if_neg h, if_pos (by omega)]
  · rw [List.getElem?_eq_none hi]
    symm
    rw [Option.map_none, List.getElem?_eq_none]
    simp; omega

namespace Profile

theorem rotCols_eq (t : ℝ) (n : Nat) (xs ys : Arr) :
    rotCols (Real.cos t) (Real.sin t) n xs ys =
      ((List.zip xs ys).take n).map (rot t) ++ List.replicate ((List.zip xs ys).length - n) (0, 0) := by
  rw [← mapIdx_lt_take_drop]
  unfold rotCols
  congr 1
  funext i p
  split <;> simp [rot, sub_eq_add_neg]

theorem rotCols_all (t : ℝ) (n : Nat) (xs ys : Arr) (h : (List.zip xs ys).length ≤ n) :
    rotCols (Real.cos t) (Real.sin t) n xs ys = (List.zip xs ys).map (rot t) := by
  rw [rotCols_eq, List.take_of_length_le h, Nat.sub_eq_zero_of_le h]; simp

theorem rotate_deg (P : Profile) (d : ℝ) :
    P.rotate none (some d) = P.rotate (some (Real.pi * d / 180)) none := by
  have : radians d Real.pi = Real.pi * d / 180 := by unfold radians; ring
  simp [rotate, this]

theorem rotate_some (P : Profile) (t : ℝ) (h1 : P.xup.length = P.yup.length) (h2 : P.xdown.length = P.ydown.length)
    (h3 : P.xup.length ≤ P.xdown.length) :
    P.rotate (some t) none = .ok { P with
      xup := (rotCols (Real.cos t) (Real.sin t) P.xup.length P.xup P.yup).map Prod.fst
      xdown := (rotCols (Real.cos t) (Real.sin t) P.xup.length P.xdown P.ydown).map Prod.fst
      yup := (rotCols (Real.cos t) (Real.sin t) P.xup.length P.xup P.yup).map Prod.snd
      ydown := (rotCols (Real.cos t) (Real.sin t) P.xup.length P.xdown P.ydown).map Prod.snd } := by
  simp [rotate, h2, bind, Except.bind, pure, Except.pure, throw, throwThe, MonadExceptOf.throw]
  rw [h1]
  simp
  omega

theorem rotate_ragged (P : Profile) (h : P.Shaped) (t : ℝ) :
    (P.xdown.length < P.xup.length → P.rotate (some t) none = .error .indexError) ∧
    (P.xup.length ≤ P.xdown.length → ∃ Q, P.rotate (some t) none = .ok Q ∧
      Q.upper = P.upper.map (rot t) ∧
      Q.lower = (P.lower.take P.xup.length).map (rot t) ++
        List.replicate (P.xdown.length - P.xup.length) (0, 0)) := by
  obtain ⟨h1, h2⟩ := h
  constructor
  · intro hlt
    simp [rotate, h2, bind, Except.bind, pure, Except.pure, throw, throwThe, MonadExceptOf.throw]
    rw [h1]
    simp
    omega
  · intro hle
    refine ⟨_, rotate_some P t h1 h2 hle, ?_, ?_⟩
    · simp only [upper, zip_map_fst_snd]
      rw [rotCols_all]; simp
    · simp only [lower, zip_map_fst_snd]
      rw [rotCols_eq]
      simp [h2]

theorem rotate_uniform (P : Profile) (h : P.Uniform) (t : ℝ) :
    ∃ Q, P.rotate (some t) none = .ok Q ∧ Q.upper = P.upper.map (rot t) ∧ Q.lower = P.lower.map (rot t) ∧
      Q.Uniform ∧ Q.xup.length = P.xup.length ∧ Q.par = P.par := by
  obtain ⟨h1, h2, h3⟩ := h
  refine ⟨_, rotate_some P t h1 h3 h2.ge, ?_, ?_, ?_, ?_, rfl⟩
  · simp only [upper, zip_map_fst_snd]
    rw [rotCols_all]; simp
  · simp only [lower, zip_map_fst_snd]
    rw [rotCols_all]; simp; omega
  · simp [Uniform, rotCols]; omega
  · simp [rotCols]; omega

theorem ext_points {P Q : Profile} (hP : P.Uniform) (hQ : Q.Uniform) (hu : P.upper = Q.upper)
    (hl : P.lower = Q.lower) (hp : P.par = Q.par) (hc : P.chordLine = Q.chordLine)
    (hk : P.camberLine = Q.camberLine) : P = Q := by
  obtain ⟨h1, h2, h3⟩ := hP
  obtain ⟨g1, g2, g3⟩ := hQ
  have a1 : P.xup = Q.xup := by
    rw [← map_fst_zip_eq h1, ← map_fst_zip_eq g1]; exact congrArg (List.map Prod.fst) hu
  have a2 : P.yup = Q.yup := by
    rw [← map_snd_zip_eq h1, ← map_snd_zip_eq g1]; exact congrArg (List.map Prod.snd) hu
  have a3 : P.xdown = Q.xdown := by
    rw [← map_fst_zip_eq h3, ← map_fst_zip_eq g3]; exact congrArg (List.map Prod.fst) hl
  have a4 : P.ydown = Q.ydown := by
    rw [← map_snd_zip_eq h3, ← map_snd_zip_eq g3]; exact congrArg (List.map Prod.snd) hl
  cases P; cases Q; simp_all

theorem rotate_meta (P Q : Profile) (rad deg : Option ℝ) (h : P.rotate rad deg = .ok Q) :
    Q.par = P.par ∧ Q.chordLine = P.chordLine ∧ Q.camberLine = P.camberLine := by
  revert h
  unfold rotate
  rcases rad with _ | a <;> rcases deg with _ | d <;>
    simp [bind, Except.bind, pure, Except.pure, throw, throwThe, MonadExceptOf.throw]
  all_goals
    split_ifs <;> simp
    rintro rfl
    simp

theorem rotate_rotate (P Q : Profile) (h : P.Uniform) (s t : ℝ) (hQ : P.rotate (some s) none = .ok Q) :
    Q.rotate (some t) none = P.rotate (some (s + t)) none := by
  obtain ⟨Q', hQ', hu, hl, hU, _, hp⟩ := rotate_uniform P h s
  obtain rfl : Q' = Q := by rw [hQ] at hQ'; exact (Except.ok.inj hQ').symm
  obtain ⟨R, hR, hRu, hRl, hRU, _, hRp⟩ := rotate_uniform Q' hU t
  obtain ⟨S, hS, hSu, hSl, hSU, _, hSp⟩ := rotate_uniform P h (s + t)
  have m1 := rotate_meta _ _ _ _ hQ
  have m2 := rotate_meta _ _ _ _ hR
  have m3 := rotate_meta _ _ _ _ hS
  rw [hR, hS]
  congr 1
  apply ext_points hRU hSU
  · rw [hRu, hSu, hu]; simp [Function.comp_def, rot_rot]
  · rw [hRl, hSl, hl]; simp [Function.comp_def, rot_rot]
  · rw [hRp, hSp, hp]
  · rw [m2.2.1, m3.2.1, m1.2.1]
  · rw [m2.2.2, m3.2.2, m1.2.2]

theorem rotate_trivial (P : Profile) (h : P.Uniform) (t : ℝ) (hc : Real.cos t = 1) (hs : Real.sin t = 0) :
    P.rotate (some t) none = .ok P := by
  obtain ⟨Q, hQ, hu, hl, hU, _, hp⟩ := rotate_uniform P h t
  have m := rotate_meta _ _ _ _ hQ
  rw [hQ]
  congr 1
  have : (rot t) = id := funext (rot_id hc hs)
  apply ext_points hU h
  · rw [hu, this]; simp
  · rw [hl, this]; simp
  · exact hp
  · exact m.2.1
  · exact m.2.2

theorem rotate_pi (P : Profile) (h : P.Uniform) (t : ℝ) (hc : Real.cos t = -1) (hs : Real.sin t = 0) :
    P.rotate (some t) none = .ok P.reflect := by
  obtain ⟨Q, hQ, hu, hl, hU, _, hp⟩ := rotate_uniform P h t
  have m := rotate_meta _ _ _ _ hQ
  rw [hQ]
  congr 1
  have hR : P.reflect.Uniform := by simpa [Uniform, reflect] using h
  apply ext_points hU hR
  · rw [hu]
    simp only [upper, reflect, List.zip_map]
    congr 1; funext p; ext <;> simp [rot, hc, hs]
  · rw [hl]
    simp only [lower, reflect, List.zip_map]
    congr 1; funext p; ext <;> simp [rot, hc, hs]
  · exact hp
  · exact m.2.1
  · exact m.2.2

end Profile
end BladeX
