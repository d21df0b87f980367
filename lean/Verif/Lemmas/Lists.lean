import Verif.Spec.Plane

namespace BladeX

open Spec

theorem foldl_max_ge_init (xs : List ℝ) (x : ℝ) : x ≤ xs.foldl max x := by
  induction xs generalizing x with
  | nil => simp
  | cons y ys ih => simp only [List.foldl_cons]; exact le_trans (le_max_left _ _) (ih _)

theorem foldl_max_ge (xs : List ℝ) (x : ℝ) : ∀ y ∈ xs, y ≤ xs.foldl max x := by
  induction xs generalizing x with
  | nil => simp
  | cons z zs ih =>
    intro y hy
    simp only [List.foldl_cons]
    rcases List.mem_cons.1 hy with rfl | h
    · exact le_trans (le_max_right _ _) (foldl_max_ge_init _ _)
    · exact ih _ y h

theorem foldl_max_mem (xs : List ℝ) (x : ℝ) : xs.foldl max x = x ∨ xs.foldl max x ∈ xs := by
  induction xs generalizing x with
  | nil => simp
  | cons z zs ih =>
    simp only [List.foldl_cons]
    rcases ih (max x z) with h | h
    · rcases max_cases x z with ⟨hm, _⟩ | ⟨hm, _⟩
      · left; rw [h, hm]
      · right; rw [h, hm]; simp
    · right; simp [h]

theorem foldl_min_le_init (xs : List ℝ) (x : ℝ) : xs.foldl min x ≤ x := by
  induction xs generalizing x with
  | nil => simp
  | cons y ys ih => simp only [List.foldl_cons]; exact le_trans (ih _) (min_le_left _ _)

theorem foldl_min_le (xs : List ℝ) (x : ℝ) : ∀ y ∈ xs, xs.foldl min x ≤ y := by
  induction xs generalizing x with
  | nil => simp
  | cons z zs ih =>
    intro y hy
    simp only [List.foldl_cons]
    rcases List.mem_cons.1 hy with rfl | h
    · exact le_trans (foldl_min_le_init _ _) (min_le_right _ _)
    · exact ih _ y h

theorem foldl_min_mem (xs : List ℝ) (x : ℝ) : xs.foldl min x = x ∨ xs.foldl min x ∈ xs := by
  induction xs generalizing x with
  | nil => simp
  | cons z zs ih =>
    simp only [List.foldl_cons]
    rcases ih (min x z) with h | h
    · rcases min_cases x z with ⟨hm, _⟩ | ⟨hm, _⟩
      · left; rw [h, hm]
      · right; rw [h, hm]; simp
    · right; simp [h]

theorem npMax_ok_iff {l : List ℝ} {m : ℝ} : npMax l = .ok m ↔ MaxOf l m := by
  cases l with
  | nil => simp [npMax, MaxOf]
  | cons x xs =>
    simp only [npMax, Except.ok.injEq, MaxOf, List.mem_cons]
    constructor
    · rintro rfl
      refine ⟨foldl_max_mem xs x, ?_⟩
      rintro y (rfl | hy)
      · exact foldl_max_ge_init _ _
      · exact foldl_max_ge _ _ y hy
    · rintro ⟨hm, hle⟩
      apply le_antisymm
      · exact hle _ (foldl_max_mem xs x)
      · rcases hm with rfl | hm
        · exact foldl_max_ge_init _ _
        · exact foldl_max_ge _ _ _ hm

theorem npMin_ok_iff {l : List ℝ} {m : ℝ} : npMin l = .ok m ↔ MinOf l m := by
  cases l with
  | nil => simp [npMin, MinOf]
  | cons x xs =>
    simp only [npMin, Except.ok.injEq, MinOf, List.mem_cons]
    constructor
    · rintro rfl
      refine ⟨foldl_min_mem xs x, ?_⟩
      rintro y (rfl | hy)
      · exact foldl_min_le_init _ _
      · exact foldl_min_le _ _ y hy
    · rintro ⟨hm, hle⟩
      apply le_antisymm
      · rcases hm with rfl | hm
        · exact foldl_min_le_init _ _
        · exact foldl_min_le _ _ _ hm
      · exact hle _ (foldl_min_mem xs x)

theorem npMax_exists {l : List ℝ} (h : l ≠ []) : ∃ m, npMax l = .ok m := by
  cases l with
  | nil => exact absurd rfl h
  | cons x xs => exact ⟨_, rfl⟩

theorem npMin_exists {l : List ℝ} (h : l ≠ []) : ∃ m, npMin l = .ok m := by
  cases l with
  | nil => exact absurd rfl h
  | cons x xs => exact ⟨_, rfl⟩

theorem MaxOf.unique {l : List ℝ} {m m' : ℝ} (h : MaxOf l m) (h' : MaxOf l m') : m = m' :=
  le_antisymm (h'.2 _ h.1) (h.2 _ h'.1)

theorem MaxOf.map_mono {l : List ℝ} {m : ℝ} {f : ℝ → ℝ} (hf : Monotone f) (h : MaxOf l m) :
    MaxOf (l.map f) (f m) := by
  refine ⟨List.mem_map_of_mem h.1, ?_⟩
  intro x hx
  obtain ⟨y, hy, rfl⟩ := List.mem_map.1 hx
  exact hf (h.2 y hy)

theorem bzip_eq_len {f : ℝ → ℝ → ℝ} {a b : Arr} (h : a.length = b.length) :
    bzip f a b = .ok (List.zipWith f a b) := by simp [bzip, h]

theorem npEqAll_self (a : Arr) : npEqAll a a = .ok true := by simp [npEqAll]

theorem getFirst_ok_iff {α} {a : List α} {x : α} : getFirst a = .ok x ↔ a.head? = some x := by
  unfold getFirst; cases a.head? <;> simp

theorem getLast_ok_iff {α} {a : List α} {x : α} : getLast a = .ok x ↔ a.getLast? = some x := by
  unfold getLast; cases a.getLast? <;> simp

theorem getFirst_map {α β} (f : α → β) (a : List α) :
    getFirst (a.map f) = (getFirst a).map f := by
  cases a <;> simp [getFirst, Except.map]

theorem getLast_map {α β} (f : α → β) (a : List α) :
    getLast (a.map f) = (getLast a).map f := by
  unfold getLast
  rw [List.getLast?_map]
  cases a.getLast? <;> simp [Except.map]

theorem getFirst_error {α} {a : List α} {e : PyErr} : getFirst a = .error e ↔ a = [] ∧ e = .indexError := by
  cases a <;> simp [getFirst, eq_comm]

theorem getLast_error {α} {a : List α} {e : PyErr} : getLast a = .error e ↔ a = [] ∧ e = .indexError := by
  unfold getLast
  rcases List.eq_nil_or_concat a with rfl | ⟨l, x, rfl⟩
  · simp [eq_comm]
  · simp

theorem linspaceN_length (a b : ℝ) (n : Nat) : (linspaceN a b n).length = n := by simp [linspaceN]

theorem linspaceN_getElem (a b : ℝ) (n i : Nat) (h : i < (linspaceN a b n).length) :
    (linspaceN a b n)[i] = a + (i : ℝ) * ((b - a) / ((n : ℝ) - 1)) := by simp [linspaceN]

theorem linspaceN_head {a b : ℝ} {n : Nat} (h : 1 ≤ n) : (linspaceN a b n).head? = some a := by
  obtain ⟨m, rfl⟩ : ∃ m, n = m + 1 := ⟨n - 1, by omega⟩
  rw [List.head?_eq_getElem?]
  simp [linspaceN]

theorem linspaceN_last {a b : ℝ} {n : Nat} (h : 2 ≤ n) : (linspaceN a b n).getLast? = some b := by
  obtain ⟨m, rfl⟩ : ∃ m, n = m + 2 := ⟨n - 2, by omega⟩
  rw [List.getLast?_eq_getElem?]
  have h2 : ((m : ℝ) + 2 - 1) ≠ 0 := by
    have : (0 : ℝ) ≤ m := Nat.cast_nonneg m
    linarith
  simp only [linspaceN, List.length_map, List.length_range, List.getElem?_map]
  rw [List.getElem?_range (by omega)]
  simp only [Option.map_some, Option.some.injEq]
  push_cast [Nat.add_sub_cancel]
  field_simp
  ring

end BladeX
