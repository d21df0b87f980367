import Verif.Model.ReverseSave
import Verif.Spec.Csv

namespace BladeX
open Spec

namespace Csv

/-- Reading the inside of a quoted field. -/
theorem read_quoted : ∀ (s cur : Str) (rec : List Str) (t : Str),
    csvRead .quoted cur rec ((s.flatMap fun c => if c = '"' then ['"', '"'] else [c]) ++ '"' :: t) = csvRead .quote (cur ++ s) rec t
  | [], cur, rec, t => by simp [csvRead]
  | c :: s, cur, rec, t => by
    by_cases h : c = '"'
    · subst h
      simp only [List.flatMap_cons, if_true, List.cons_append, List.nil_append, csvRead]
      rw [read_quoted s]; simp
    · simp only [List.flatMap_cons, if_neg h, List.cons_append, List.nil_append]
      rw [csvRead.eq_12 _ _ _ _ (by simpa using h)]
      rw [read_quoted s]; simp

/-- Reading a field without special characters. -/
theorem read_plain : ∀ (s cur : Str) (rec : List Str) (t : Str), s.any special = false →
    csvRead .plain cur rec (s ++ t) = csvRead .plain (cur ++ s) rec t
  | [], cur, rec, t, _ => by simp
  | c :: s, cur, rec, t, h => by
    simp only [List.any_cons, Bool.or_eq_false_iff] at h
    obtain ⟨hc, hs⟩ := h
    simp only [special, Bool.or_eq_false_iff, decide_eq_false_iff_not] at hc
    simp only [List.cons_append]
    rw [csvRead.eq_10 _ _ _ _ (by simpa using hc.1.1.1) (by simpa using hc.1.2) (by simpa using hc.2)]
    rw [read_plain s _ _ _ hs]; simp

/-- Reading a written field brings the reader to a state from which the end of the field stores exactly the field. -/
theorem read_field (s : Str) (rec : List Str) (t : Str) :
    csvRead .start [] rec (field s ++ ',' :: t) = csvRead .start [] (rec ++ [s]) t ∧
    csvRead .start [] rec (field s ++ '\r' :: t) = csvRead .cr [] (rec ++ [s]) t := by
  unfold field
  split_ifs with h
  · simp only [List.append_assoc, List.cons_append, List.nil_append]
    constructor
    · rw [csvRead.eq_5, read_quoted]; simp [csvRead]
    · rw [csvRead.eq_5, read_quoted]; simp [csvRead]
  · rw [Bool.not_eq_true] at h
    cases s with
    | nil => simp [csvRead]
    | cons c s =>
      simp only [List.any_cons, Bool.or_eq_false_iff] at h
      obtain ⟨hc, hs⟩ := h
      simp only [special, Bool.or_eq_false_iff, decide_eq_false_iff_not] at hc
      have e : ∀ u, csvRead .start [] rec (c :: (s ++ u)) = csvRead .plain (c :: s) rec u := by
        intro u
        rw [csvRead.eq_6 _ _ _ _ (by simpa using hc.1.1.1) (by simpa using hc.1.2) (by simpa using hc.2) (by simpa using hc.1.1.2),
          read_plain s _ _ _ hs]; simp
      simp only [List.cons_append, e]
      simp [csvRead]

/-- Reading a row. -/
theorem read_row (a b : Str) (t : Str) : csvRecords (row a b ++ t) = (csvRecords t).map fun l => [a, b] :: l := by
  simp only [csvRecords, row, List.append_assoc, List.cons_append, List.nil_append]
  rw [(read_field a [] _).1, (read_field b _ _).2]
  simp [csvRead]

end Csv
end BladeX
