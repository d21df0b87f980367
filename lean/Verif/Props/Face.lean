import Verif.Model.Face
import Mathlib.Tactic.Linarith
import Mathlib.Tactic.Ring
import Mathlib.Tactic.NormNum

/-! # C67: interpolated faces -/

namespace BladeX
noncomputable section
open Classical

/-- The entry `a[i, j, k]` of a three-dimensional array, `a[j, k]` of a two-dimensional one (entries are stored in row-major order). -/
def NdArray.at3 (a : NdArray) (i j k : Nat) : ℝ :=
  match a.shape with
  | [_, r, l] => a.data.getD ((i * r + j) * l + k) 0
  | [_, l] => a.data.getD (j * l + k) 0
  | _ => 0

/-- **C67** an array is refused with `ValueError` exactly when it is not two- or three-dimensional or when its second last axis does not have
size 3. -/
theorem C67_rejected (occ : Face → Bool) (a : NdArray) :
    interpolatedFace occ a = .error .valueError ↔
      ¬ ((∃ l, a.shape = [3, l]) ∨ ∃ k l, a.shape = [k, 3, l]) := by
  have hf : ∀ k l, faceThrough occ k l a.data ≠ .error .valueError := by
    intro k l
    unfold faceThrough
    simp only
    split_ifs <;> simp
  unfold interpolatedFace
  split
  · rename_i r l hs
    by_cases hr : r = 3
    · subst hr
      simp [hs, hf]
    · simp [hs, hr]
  · rename_i k r l hs
    by_cases hr : r = 3
    · subst hr
      simp [hs, hf]
    · simp [hs, hr]
  · rename_i h1 h2
    simp only [true_iff]
    rintro (⟨l, h⟩ | ⟨k, l, h⟩)
    · exact h1 3 l h
    · exact h2 k 3 l h

/-- **C67** the sections of an accepted array, in order: the section `s` passes, in order, through the points whose coordinates are the
columns `(a[s, 0, j], a[s, 1, j], a[s, 2, j])`; the CAD kernel alone decides whether a face through them exists. An array without sections fails
(`UnboundLocalError`). -/
theorem C67_sections (occ : Face → Bool) (a : NdArray) (k l : Nat) (h : a.shape = [k, 3, l]) :
    ∃ F : Face, F.length = k ∧ (∀ S ∈ F, S.length = l) ∧
      (∀ (s j : Nat) (S : List Pt3) (p : Pt3), F[s]? = some S → S[j]? = some p → p = (a.at3 s 0 j, a.at3 s 1 j, a.at3 s 2 j)) ∧
      interpolatedFace occ a = if k = 0 then .error .unboundLocal else if occ F then .ok F else .error .runtimeError := by
  refine ⟨(List.range k).map fun s => sectionPoints a.data (s * (3 * l)) l, by simp, ?_, ?_, ?_⟩
  · intro S hS
    obtain ⟨s, _, rfl⟩ := List.mem_map.1 hS
    simp [sectionPoints]
  · intro s j S p hS hp
    obtain ⟨hs, rfl⟩ := List.getElem?_eq_some_iff.1 hS
    simp only [List.getElem_map, List.getElem_range] at hp
    obtain ⟨hj, rfl⟩ := List.getElem?_eq_some_iff.1 hp
    simp only [sectionPoints, List.getElem_map, List.getElem_range, NdArray.at3, h]
    refine Prod.ext ?_ (Prod.ext ?_ ?_) <;> simp only <;> congr 1 <;> ring
  · unfold interpolatedFace
    rw [h]
    simp [faceThrough]

/-- **C67** a two-dimensional array is one section. -/
theorem C67_one_section (occ : Face → Bool) (a : NdArray) (l : Nat) (h : a.shape = [3, l]) :
    interpolatedFace occ a = interpolatedFace occ { shape := [1, 3, l], data := a.data } ∧
    ∀ j k, a.at3 0 j k = ({ shape := [1, 3, l], data := a.data } : NdArray).at3 0 j k := by
  constructor
  · unfold interpolatedFace
    rw [h]
  · intro j k
    simp [NdArray.at3, h]

/-- The array of shape `(k, 3, l)` with given points. -/
def NdArray.ofFace (F : Face) (l : Nat) : NdArray where
  shape := [F.length, 3, l]
  data := (F.map fun S => S.map Prod.fst ++ S.map (·.2.1) ++ S.map (·.2.2)).flatten

theorem flatten_block {L : List (List ℝ)} {m : Nat} (h : ∀ b ∈ L, b.length = m) (s j : Nat) (hs : s < L.length) (hj : j < m) :
    L.flatten.getD (s * m + j) 0 = (L[s]).getD j 0 := by
  induction L generalizing s with
  | nil => simp at hs
  | cons b L ih =>
    have hb := h b (by simp)
    rw [List.flatten_cons]
    cases s with
    | zero => simp [List.getD, List.getElem?_append_left (show j < b.length by omega)]
    | succ s =>
      have e : (s + 1) * m + j = b.length + (s * m + j) := by rw [hb]; ring
      rw [e, List.getD, List.getElem?_append_right (by omega), Nat.add_sub_cancel_left]
      have := ih (fun c hc => h c (by simp [hc])) s (by simpa using hs)
      rw [List.getD] at this
      rw [this]
      simp

/-- **C67** for the arrays of `Blade.build` (at least one section, sections of equal length): the face goes through exactly the sections of
the blade's coordinates, as `Blade.makeFace` of the model of the blade assumes. -/
theorem C67_blade_faces (occ : Face → Bool) (F : Face) (l : Nat) (hne : F ≠ []) (hl : ∀ S ∈ F, S.length = l) :
    interpolatedFace occ (NdArray.ofFace F l) = Blade.makeFace occ F := by
  have hF : (List.range F.length).map (fun s => sectionPoints (NdArray.ofFace F l).data (s * (3 * l)) l) = F := by
    refine List.ext_getElem (by simp) fun s h1 h2 => ?_
    have hs : s < F.length := h2
    have hlen := hl F[s] (List.getElem_mem hs)
    simp only [List.getElem_map, List.getElem_range, sectionPoints]
    refine List.ext_getElem (by simp [hlen]) fun j h3 h4 => ?_
    have hj : j < l := by simpa using h3
    have hj' : j < F[s].length := by omega
    have hb : ∀ b ∈ F.map fun S => S.map Prod.fst ++ S.map (·.2.1) ++ S.map (·.2.2), b.length = 3 * l := by
      intro b hb
      obtain ⟨S, hS, rfl⟩ := List.mem_map.1 hb
      simp [hl S hS]; ring
    have g : ∀ i, i < 3 * l → (NdArray.ofFace F l).data.getD (s * (3 * l) + i) 0 =
        (F[s].map Prod.fst ++ F[s].map (·.2.1) ++ F[s].map (·.2.2)).getD i 0 := by
      intro i hi
      have := flatten_block hb s i (by simpa using hs) hi
      simpa [NdArray.ofFace] using this
    simp only [List.getElem_map, List.getElem_range]
    rw [g j (by omega), show s * (3 * l) + l + j = s * (3 * l) + (l + j) by ring, g (l + j) (by omega),
      show s * (3 * l) + 2 * l + j = s * (3 * l) + (2 * l + j) by ring, g (2 * l + j) (by omega)]
    refine Prod.ext ?_ (Prod.ext ?_ ?_)
    · simp only [List.getD, List.append_assoc]
      rw [List.getElem?_append_left (by simpa using hj')]
      simp [hj']
    · simp only [List.getD, List.append_assoc]
      rw [List.getElem?_append_right (by simp [hlen]), List.getElem?_append_left (by simp [hlen, hj])]
      simp [hlen, hj]
    · simp only [List.getD]
      rw [List.getElem?_append_right (by simp [hlen]; omega)]
      have : 2 * l + j - (F[s].map Prod.fst ++ F[s].map (·.2.1)).length = j := by simp [hlen]; omega
      rw [this]
      simp [hj']
  unfold interpolatedFace
  simp only [NdArray.ofFace]
  rw [if_neg (by simp)]
  unfold faceThrough Blade.makeFace
  have hF' := hF
  simp only [NdArray.ofFace] at hF'
  simp only [hF']
  rw [if_neg (by simpa using hne)]

/-- A face with two sections of two points. -/
example : ∃ F : Face, F ≠ [] ∧ (∀ S ∈ F, S.length = 2) ∧ (NdArray.ofFace F 2).data = [1, 4, 2, 5, 3, 6, 7, 0, 8, 0, 9, 0] :=
  ⟨[[(1, 2, 3), (4, 5, 6)], [(7, 8, 9), (0, 0, 0)]], by simp, by simp, by simp [NdArray.ofFace]⟩

end
end BladeX
