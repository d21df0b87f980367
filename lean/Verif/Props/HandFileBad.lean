import Verif.Props.HandFile
import Mathlib.Data.List.TakeWhile

/-! # C90: parameter files that are not well-formed -/

namespace BladeX
open Config ParamFile HandFile

namespace HandFile

private theorem unlines_append (ls ms : List Str) : unlines (ls ++ ms) = unlines ls ++ unlines ms := by simp [unlines]

private theorem splitNL_ne (t : Str) : splitNL t ≠ [] := by
  cases t with
  | nil => simp [splitNL]
  | cons c t =>
    simp only [splitNL]
    split
    · simp
    · split <;> simp

private theorem splitNL_append {ls : List Str} (h : ∀ l ∈ ls, '\n' ∉ l) (t : Str) : splitNL (unlines ls ++ t) = ls ++ splitNL t := by
  induction ls with
  | nil => rfl
  | cons l ls ih =>
    simp only [unlines, List.map_cons, List.flatten_cons, List.append_assoc, List.singleton_append, List.cons_append]
    rw [splitNL_cons_line (h l (by simp))]
    congr 1
    exact ih fun m hm => h m (by simp [hm])

private theorem fileLines_append {ls : List Str} (h : ∀ l ∈ ls, '\n' ∉ l) (t : Str) : fileLines (unlines ls ++ t) = ls ++ fileLines t := by
  unfold fileLines
  simp only
  rw [splitNL_append h, List.getLast?_append_of_ne_nil _ (splitNL_ne t)]
  split
  · rw [List.dropLast_append_of_ne_nil (splitNL_ne t)]
  · rfl

/-- A line that is refused after the lines before it. -/
private theorem read_bad {F : File} (hF : F.Good) {l : Str} (hl : '\n' ∉ l) (t : Str)
    (hbad : ∀ st : St, (∀ s ∈ F.secs, s.name ∈ st.secs ∧ ∀ g ∈ s.opts, (st.store s.name (lower g.name)).isSome) →
      st.cur = F.secs.getLast?.map (·.name) → step st l = .error .parseError) (C : Codec) :
    readText C (F.text ++ l ++ '\n' :: t) = .error .parseError := by
  obtain ⟨st, h1, h2, h3, h4, h5⟩ := run_secs F.secs {} hF.secs (by simp) (by simp) hF.names
  have e : F.text ++ l ++ '\n' :: t = unlines (F.lines ++ [l]) ++ t := by
    rw [unlines_append]
    simp [File.text, unlines]
  have hr : Config.read (F.text ++ l ++ '\n' :: t) = .error .parseError := by
    unfold Config.read
    rw [e, fileLines_append (by
      intro x hx
      rw [List.mem_append, List.mem_singleton] at hx
      rcases hx with hx | rfl
      · exact hF.no_nl x hx
      · exact hl), List.foldlM_append, List.foldlM_append, File.lines, List.foldlM_append, run_idle rfl F.pre hF.pre]
    simp only [bind, Except.bind, h1, List.foldlM_cons]
    rw [hbad st (fun s hs => ⟨(h2 s hs).1, fun g hg => by rw [(h2 s hs).2.1 g hg]; rfl⟩) (by rw [h5]; simp)]
  rw [readText, hr]
  rfl

end HandFile

/-- **C90** a file in which anything but comments, blank lines and a section header comes first is rejected (however it is indented), -/
theorem C90_before_sections (C : Codec) (pre : List Piece) (hp : ∀ p ∈ pre, p.Good ∧ p.idle) (b v t : Str) (hb : Blanks b) (hv : Tight v)
    (hne : v ≠ []) (hh : v.head? ≠ some '#' ∧ v.head? ≠ some ';' ∧ v.head? ≠ some '[') :
    readText C ((pre.map fun p => p.line ++ ['\n']).flatten ++ (b ++ v) ++ '\n' :: t) = .error .parseError := by
  have hF : (File.mk pre []).Good := ⟨hp, by simp, by simp⟩
  have e : (pre.map fun p => p.line ++ ['\n']).flatten = (File.mk pre []).text := by
    simp [File.text, File.lines, Function.comp_def]
  rw [e]
  refine HandFile.read_bad hF ?_ t ?_ C
  · rw [List.mem_append]
    rintro (h | h)
    · exact hb.no_nl h
    · exact hv.line h
  · intro st _ hc
    have hc : st.cur = none := hc
    unfold step
    simp only [strip_blanks hb.space, hv.strip]
    rw [if_neg (by rintro (h | h); exacts [hh.1 h, hh.2.1 h]), if_neg hne, hc]
    simp only [ite_self]
    obtain ⟨c, v', rfl⟩ := List.exists_cons_of_ne_nil hne
    have hsec : sectHeader (c :: v') = none := by
      unfold sectHeader
      split
      · rename_i heq; simp only [List.cons.injEq] at heq; exact absurd (by rw [heq.1]; rfl) hh.2.2
      · rfl
    rw [hsec]

/-- **C90** as is a file in which a section is repeated, -/
theorem C90_section_twice (C : Codec) (F : File) (hF : F.Good) (S : HandFile.Section) (hS : S ∈ F.secs) (e t : Str) (he : Blanks e) :
    readText C (F.text ++ ('[' :: (S.name ++ ']' :: e)) ++ '\n' :: t) = .error .parseError := by
  have hn := (hF.secs S hS).name
  refine HandFile.read_bad hF ?_ t ?_ C
  · simp only [List.mem_cons, List.mem_append, not_or]
    exact ⟨by decide, hn.2.2, by decide, he.no_nl⟩
  · intro st h _
    rw [step_head' hn.1 hn.2.1 he, if_pos (h S hS).1]

/-- **C90** an option is repeated in a section (in whatever case it is written), -/
theorem C90_option_twice (C : Codec) (F : File) (hF : F.Good) (S : HandFile.Section) (hS : F.secs.getLast? = some S) (O O' : Opt)
    (hO : O ∈ S.opts) (hO' : O'.Good) (hn : lower O'.name = lower O.name) (t : Str) :
    readText C (F.text ++ (O'.name ++ O'.l ++ O'.d :: (O'.r ++ O'.v ++ O'.e)) ++ '\n' :: t) = .error .parseError := by
  refine HandFile.read_bad hF ?_ t ?_ C
  · simp only [List.mem_cons, List.mem_append, not_or]
    refine ⟨⟨hO'.name.line, hO'.l.no_nl⟩, ?_, ⟨hO'.r.no_nl, hO'.v.line⟩, hO'.e.no_nl⟩
    rcases hO'.d with h | h <;> rw [h] <;> decide
  · intro st h hc
    rw [hS] at hc
    rw [step_first' hc hO', hn, if_pos ((h S (List.mem_of_getLast? hS)).2 O hO)]

/-- **C90** or a line that starts in the first column is neither a comment, nor a header, nor has one of the delimiters in it. -/
theorem C90_no_delimiter (C : Codec) (F : File) (hF : F.Good) (v e t : Str) (hv : Tight v) (hne : v ≠ [])
    (hh : v.head? ≠ some '#' ∧ v.head? ≠ some ';' ∧ v.head? ≠ some '[') (hd : ∀ c ∈ v, c ≠ '=' ∧ c ≠ ':') (he : Blanks e) :
    readText C (F.text ++ (v ++ e) ++ '\n' :: t) = .error .parseError := by
  refine HandFile.read_bad hF ?_ t ?_ C
  · rw [List.mem_append]
    rintro (h | h)
    · exact hv.line h
    · exact he.no_nl h
  · intro st _ hc
    obtain ⟨c, v', rfl⟩ := List.exists_cons_of_ne_nil hne
    have c1 : isSpace c = false := hv.head c rfl
    unfold step
    simp only [strip_right he.space, hv.strip]
    rw [if_neg (by rintro (h | h); exacts [hh.1 h, hh.2.1 h]), if_neg hne]
    rw [List.cons_append, List.takeWhile_cons_of_neg (by simp [c1])]
    simp only [List.length_nil, Nat.not_lt_zero, if_false]
    have hsec : sectHeader (c :: v') = none := by
      unfold sectHeader
      split
      · rename_i heq; simp only [List.cons.injEq] at heq; exact absurd (by rw [heq.1]; rfl) hh.2.2
      · rfl
    have hopt : optSplit (c :: v') = none := by
      unfold optSplit
      rw [List.dropWhile_eq_nil_iff.2 (by intro x hx; have := hd x hx; simp [isDelim, this.1, this.2])]
    rw [hsec]
    simp only [hopt]
    split <;> rfl

/-- The hypotheses of these theorems are met, for instance by the sample file. -/
example : readText tenths (c!"  x = 1" ++ '\n' :: c!"[a]") = .error .parseError := by
  have := C90_before_sections tenths [] (by simp) c!"  " c!"x = 1" c!"[a]" (blanks_of rfl) (tight_of rfl) (by simp) (by simp)
  simpa using this

example : ∃ F : File, F.Good ∧ ∃ S, F.secs.getLast? = some S ∧ ∃ O ∈ S.opts, O.Good := by
  refine ⟨fileSample, fileSample_good, ?_⟩
  rcases hl : fileSample.secs.getLast? with _ | S
  · simp [fileSample] at hl
  · refine ⟨S, rfl, ?_⟩
    have hS := fileSample_good.secs S (List.mem_of_getLast? hl)
    rcases ho : S.opts with _ | ⟨O, os⟩
    · simp [fileSample] at hl
      subst hl
      cases ho
    · exact ⟨O, by simp, hS.opts O (by rw [ho]; simp)⟩

end BladeX
