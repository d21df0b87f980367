import Verif.Model.Config
import Mathlib.Data.List.Basic
import Mathlib.Tactic.Ring

namespace BladeX

/-- Lines, each followed by a newline. -/
def unlines (ls : List Str) : Str := (ls.map (· ++ ['\n'])).flatten

theorem isSpace_nl : isSpace '\n' = true := by decide
theorem isSpace_blank : isSpace ' ' = true := by decide

/-- No white space. -/
def NoSpace (v : Str) : Prop := ∀ c ∈ v, isSpace c = false

theorem NoSpace.no_nl {v : Str} (h : NoSpace v) : '\n' ∉ v := by
  intro hm
  have := h _ hm
  rw [isSpace_nl] at this; cases this

theorem splitNL_cons_line {l r : Str} (h : '\n' ∉ l) : splitNL (l ++ '\n' :: r) = l :: splitNL r := by
  induction l with
  | nil => simp [splitNL]
  | cons c l ih =>
    rw [List.mem_cons, not_or] at h
    simp only [List.cons_append, splitNL]
    rw [if_neg (fun e => h.1 e.symm), ih h.2]

theorem splitNL_line {l : Str} (h : '\n' ∉ l) : splitNL l = [l] := by
  induction l with
  | nil => rfl
  | cons c l ih =>
    rw [List.mem_cons, not_or] at h
    simp only [splitNL]
    rw [if_neg (fun e => h.1 e.symm), ih h.2]

theorem splitNL_unlines {ls : List Str} (h : ∀ l ∈ ls, '\n' ∉ l) : splitNL (unlines ls) = ls ++ [[]] := by
  induction ls with
  | nil => rfl
  | cons l ls ih =>
    simp only [unlines, List.map_cons, List.flatten_cons, List.append_assoc, List.singleton_append, List.cons_append]
    rw [splitNL_cons_line (h l (by simp))]
    congr 1
    exact ih fun m hm => h m (by simp [hm])

theorem fileLines_unlines {ls : List Str} (h : ∀ l ∈ ls, '\n' ∉ l) : fileLines (unlines ls) = ls := by
  unfold fileLines
  simp only
  rw [splitNL_unlines h]
  simp

theorem splitNL_join {ls : List Str} (h : ∀ l ∈ ls, '\n' ∉ l) (hne : ls ≠ []) : splitNL (joinNL ls) = ls := by
  induction ls with
  | nil => exact absurd rfl hne
  | cons l ls ih =>
    cases ls with
    | nil => exact splitNL_line (h l (by simp))
    | cons m ls =>
      simp only [joinNL]
      rw [splitNL_cons_line (h l (by simp)), ih (fun x hx => h x (by simp [hx])) (by simp)]

theorem join_blanks {ls : List Str} (hne : ls ≠ []) (b : Nat) :
    joinNL (ls ++ List.replicate b []) = joinNL ls ++ List.replicate b '\n' := by
  induction ls with
  | nil => exact absurd rfl hne
  | cons l ls ih =>
    cases ls with
    | nil =>
      clear ih hne
      simp only [List.cons_append, List.nil_append]
      cases b with
      | zero => simp [joinNL]
      | succ b =>
        rw [List.replicate_succ]
        simp only [joinNL]
        congr 1
        rw [List.replicate_succ]
        congr 1
        induction b with
        | zero => rfl
        | succ b ih => rw [List.replicate_succ, List.replicate_succ]; simp only [joinNL]; rw [ih]; rfl
    | cons m ls =>
      have := ih (by simp)
      simp only [List.cons_append, joinNL] at this ⊢
      rw [this]; simp

theorem dropWhile_all {p : Char → Bool} {a s : Str} (h : ∀ c ∈ a, p c = true) : (a ++ s).dropWhile p = s.dropWhile p := by
  induction a with
  | nil => rfl
  | cons c a ih =>
    simp only [List.cons_append]
    rw [List.dropWhile_cons_of_pos (h c (by simp)), ih fun d hd => h d (by simp [hd])]

theorem rstrip_blanks {s sp : Str} (h : ∀ c ∈ sp, isSpace c = true) : rstrip (s ++ sp) = rstrip s := by
  unfold rstrip
  rw [List.reverse_append, dropWhile_all (by simpa using h)]

theorem rstrip_id {s : Str} (h : ∀ c, s.getLast? = some c → isSpace c = false) : rstrip s = s := by
  unfold rstrip
  rcases hs : s.reverse with _ | ⟨c, t⟩
  · rw [List.reverse_eq_nil_iff] at hs; simp [hs]
  · have : s.getLast? = some c := by rw [List.getLast?_eq_head?_reverse, hs]; rfl
    rw [List.dropWhile_cons_of_neg (by simp [h c this]), ← hs, List.reverse_reverse]

theorem strip_id {s : Str} (h0 : ∀ c, s.head? = some c → isSpace c = false)
    (h1 : ∀ c, s.getLast? = some c → isSpace c = false) : strip s = s := by
  unfold strip
  have : s.dropWhile isSpace = s := by
    cases s with
    | nil => rfl
    | cons c s => exact List.dropWhile_cons_of_neg (by simp [h0 c rfl])
  rw [this, rstrip_id h1]

theorem strip_blanks {sp s : Str} (h : ∀ c ∈ sp, isSpace c = true) : strip (sp ++ s) = strip s := by
  unfold strip; rw [dropWhile_all h]

theorem strip_noSpace {v : Str} (h : NoSpace v) : strip v = v :=
  strip_id (fun c hc => h c (List.mem_of_head? hc)) (fun c hc => h c (List.mem_of_getLast? hc))

theorem join_last {vs : List Str} (hne : vs ≠ []) (h : ∀ v ∈ vs, NoSpace v ∧ v ≠ []) :
    ∀ c, (joinNL vs).getLast? = some c → isSpace c = false := by
  induction vs with
  | nil => exact absurd rfl hne
  | cons l ls ih =>
    cases ls with
    | nil =>
      intro c hc
      exact (h l (by simp)).1 c (List.mem_of_getLast? hc)
    | cons m ls =>
      intro c hc
      have hj : joinNL (m :: ls) ≠ [] := by
        have hm := (h m (by simp)).2
        cases ls with
        | nil => exact hm
        | cons n ls => simp only [joinNL]; exact fun e => hm (List.append_eq_nil_iff.1 e).1
      apply ih (by simp) (fun v hv => h v (by simp [hv])) c
      simp only [joinNL] at hc
      rw [List.getLast?_append, List.getLast?_cons] at hc
      rcases hg : (joinNL (m :: ls)).getLast? with _ | d
      · rw [List.getLast?_eq_none_iff] at hg; exact absurd hg hj
      · rw [hg] at hc; simpa using hc

theorem value_of_blanks {vs : List Str} (hne : vs ≠ []) (h : ∀ v ∈ vs, NoSpace v ∧ v ≠ []) (b : Nat) :
    rstrip (joinNL (vs ++ List.replicate b [])) = joinNL vs := by
  rw [join_blanks hne, rstrip_blanks (by intro c hc; rw [List.eq_of_mem_replicate hc]; exact isSpace_nl),
    rstrip_id (join_last hne h)]

end BladeX
