import Verif.Props.ParamFile
import Verif.Lemmas.Blade

/-! # Prefixes of a parameter file -/

namespace BladeX

theorem splitNL_ne (t : Str) : splitNL t ≠ [] := by
  cases t with
  | nil => simp [splitNL]
  | cons c t =>
    simp only [splitNL]
    split
    · simp
    · split <;> simp

theorem splitNL_unlines_then {ls : List Str} (h : ∀ l ∈ ls, '\n' ∉ l) (t : Str) :
    splitNL (unlines ls ++ t) = ls ++ splitNL t := by
  induction ls with
  | nil => rfl
  | cons l ls ih =>
    rw [ParamFile.unlines_cons, List.append_assoc, List.cons_append, splitNL_cons_line (h l (by simp)),
      ih fun m hm => h m (by simp [hm])]
    rfl

theorem fileLines_unlines_append {ls : List Str} (h : ∀ l ∈ ls, '\n' ∉ l) (t : Str) :
    fileLines (unlines ls ++ t) = ls ++ fileLines t := by
  unfold fileLines
  simp only
  rw [splitNL_unlines_then h]
  have hl : (ls ++ splitNL t).getLast? = (splitNL t).getLast? := by
    rw [List.getLast?_append]
    rcases hs : (splitNL t).getLast? with _ | a
    · exact absurd (List.getLast?_eq_none_iff.1 hs) (splitNL_ne t)
    · rfl
  rw [hl]
  split
  · rw [List.dropLast_append_of_ne_nil (splitNL_ne t)]
  · rfl

theorem fileLines_line {x : Str} (h : '\n' ∉ x) (hne : x ≠ []) : fileLines x = [x] := by
  unfold fileLines
  simp only
  rw [splitNL_line h, if_neg (by simpa using hne)]

/-- A prefix of one text followed by another. -/
theorem prefix_append_cases {p a b : Str} (h : p <+: a ++ b) : p <+: a ∨ ∃ p', p = a ++ p' ∧ p' <+: b := by
  obtain ⟨t, ht⟩ := h
  rcases List.append_eq_append_iff.1 ht with ⟨c, h1, _⟩ | ⟨c, h1, h2⟩
  · exact Or.inl ⟨c, h1.symm⟩
  · exact Or.inr ⟨c, h1, ⟨t, h2.symm⟩⟩

/-- A prefix of a text made of lines: some of the lines, and the beginning of one more. -/
theorem prefix_lines {ls : List Str} : ∀ {p : Str}, p <+: unlines ls → ∃ k x, k ≤ ls.length ∧ p = unlines (ls.take k) ++ x ∧
    (x = [] ∨ ∃ l, ls[k]? = some l ∧ x <+: l) := by
  induction ls with
  | nil => intro p h; exact ⟨0, [], by simp, by simpa [unlines] using h, Or.inl rfl⟩
  | cons l ls ih =>
    intro p h
    rw [ParamFile.unlines_cons] at h
    rcases prefix_append_cases h with h | ⟨p', rfl, h'⟩
    · exact ⟨0, p, by simp, by simp [unlines], Or.inr ⟨l, by simp, h⟩⟩
    · cases p' with
      | nil => exact ⟨0, l, by simp, by simp [unlines], Or.inr ⟨l, by simp, List.prefix_refl _⟩⟩
      | cons c p' =>
        obtain ⟨rfl, h2⟩ := List.cons_prefix_cons.1 h'
        obtain ⟨k, x, h1, rfl, h3⟩ := ih h2
        refine ⟨k + 1, x, by simp; omega, ?_, by simpa using h3⟩
        rw [List.take_succ_cons, ParamFile.unlines_cons]
        simp

theorem no_nl_prefix {x l : Str} (h : x <+: l) (hl : '\n' ∉ l) : '\n' ∉ x := fun hm => hl (h.subset hm)

/-- The lines of a prefix of a text made of lines. -/
theorem prefix_fileLines {ls : List Str} (hnl : ∀ l ∈ ls, '\n' ∉ l) {p : Str} (h : p <+: unlines ls) :
    ∀ m ∈ fileLines p, ∃ l ∈ ls, m <+: l := by
  obtain ⟨k, x, _, rfl, hx⟩ := prefix_lines h
  have hk : ∀ l ∈ ls.take k, '\n' ∉ l := fun l hl => hnl l (List.mem_of_mem_take hl)
  rw [fileLines_unlines_append hk]
  intro m hm
  rcases List.mem_append.1 hm with hm | hm
  · exact ⟨m, List.mem_of_mem_take hm, List.prefix_refl _⟩
  · rcases hx with rfl | ⟨l, hl, hx⟩
    · simp [fileLines, splitNL] at hm
    · have hl' := List.mem_of_getElem? hl
      by_cases he : x = []
      · subst he; simp [fileLines, splitNL] at hm
      · rw [fileLines_line (no_nl_prefix hx (hnl l hl')) he] at hm
        obtain rfl : m = x := by simpa using hm
        exact ⟨l, hl', hx⟩

theorem strip_head {c : Char} (hc : isSpace c = false) (t : Str) : ∃ u, strip (c :: t) = c :: u := by
  unfold strip
  rw [List.dropWhile_cons_of_neg (by simp [hc])]
  unfold rstrip
  rw [List.reverse_cons]
  rcases hd : t.reverse.dropWhile isSpace with _ | ⟨a, u⟩
  · refine ⟨[], ?_⟩
    rw [dropWhile_all (Config.all_of_dropWhile_nil hd), List.dropWhile_cons_of_neg (by simp [hc])]
    rfl
  · refine ⟨(a :: u).reverse, ?_⟩
    have : (t.reverse ++ [c]).dropWhile isSpace = (a :: u) ++ [c] := by
      rw [List.dropWhile_append, hd]; simp
    rw [this]; simp

theorem strip_nil : strip ([] : Str) = [] := rfl

theorem strip_spaces {s : Str} (h : ∀ c ∈ s, isSpace c = true) : strip s = [] := by
  have := strip_blanks (sp := s) (s := []) h
  rw [List.append_nil] at this
  rw [this]; rfl

/-- A prefix of a line that begins with a character other than white space. -/
theorem strip_prefix_head {x l : Str} {c : Char} {t : Str} (hl : l = c :: t) (hc : isSpace c = false) (h : x <+: l) :
    strip x = [] ∨ ∃ u, strip x = c :: u := by
  subst hl
  cases x with
  | nil => exact Or.inl rfl
  | cons d x =>
    obtain ⟨rfl, _⟩ := List.cons_prefix_cons.1 h
    exact Or.inr (strip_head hc x)

theorem prefix_blanks {x w : Str} {n : Nat} (h : x <+: List.replicate n ' ' ++ w) :
    (∃ j, j ≤ n ∧ x = List.replicate j ' ') ∨ ∃ w', w' ≠ [] ∧ w' <+: w ∧ x = List.replicate n ' ' ++ w' := by
  rcases prefix_append_cases h with h | ⟨w', rfl, h'⟩
  · refine Or.inl ⟨x.length, by simpa using h.length_le, ?_⟩
    exact List.eq_replicate_of_mem fun c hc => List.eq_of_mem_replicate (h.subset hc)
  · by_cases he : w' = []
    · subst he; exact Or.inl ⟨n, le_refl _, by simp⟩
    · exact Or.inr ⟨w', he, h', rfl⟩

theorem NoSpace.prefix {x w : Str} (hw : NoSpace w) (h : x <+: w) : NoSpace x := fun c hc => hw c (h.subset hc)

/-- A prefix of a value line holds no white space once stripped. -/
theorem strip_prefix_value {x w : Str} {n : Nat} (hw : NoSpace w) (h : x <+: List.replicate n ' ' ++ w) : NoSpace (strip x) := by
  rcases prefix_blanks h with ⟨j, _, rfl⟩ | ⟨w', _, h2, rfl⟩
  · rw [strip_spaces (Config.replicate_space j)]; intro c hc; cases hc
  · rw [strip_blanks (Config.replicate_space n), strip_noSpace (hw.prefix h2)]; exact hw.prefix h2

namespace Config

theorem sectHeader_head {v h : Str} (e : sectHeader v = some h) : v.head? = some '[' := by
  unfold sectHeader at e
  split at e
  · rfl
  · cases e

theorem sectHeader_mem {v h : Str} (e : sectHeader v = some h) : ∀ c ∈ h, c ∈ v := by
  unfold sectHeader at e
  split at e
  · rename_i rest
    split at e
    · cases e
    · rename_i a hh hd
      split at e
      · cases e
      · obtain rfl := Option.some.inj e
        intro c hc
        have : c ∈ rest.reverse.dropWhile (· ≠ ']') := by rw [hd]; simp at hc; simp [hc]
        have := (List.dropWhile_suffix _).subset this
        simp at this
        simp [this]
  · cases e

/-- What one line can do to the set of sections. -/
theorem step_secs {st st' : St} {l : Str} (h : step st l = .ok st') :
    st'.secs = st.secs ∨ ∃ s, sectHeader (strip l) = some s ∧ st'.secs = s :: st.secs := by
  unfold step at h
  simp only at h
  split at h
  · obtain rfl := Except.ok.inj h; exact Or.inl rfl
  split at h
  · split at h <;> (obtain rfl := Except.ok.inj h; exact Or.inl rfl)
  split at h
  · obtain rfl := Except.ok.inj h; exact Or.inl rfl
  split at h
  · rename_i s hs
    split at h
    · obtain rfl := Except.ok.inj h; exact Or.inl rfl
    split at h
    · cases h
    · obtain rfl := Except.ok.inj h; exact Or.inr ⟨s, hs, rfl⟩
  split at h
  · cases h
  split at h
  · cases h
  split at h
  · cases h
  split at h
  · cases h
  · obtain rfl := Except.ok.inj h; exact Or.inl rfl

/-- Lines none of which is the header of a section leave that section unknown. -/
theorem run_secs {n : Str} : ∀ (ls : List Str) (st st' : St), (∀ l ∈ ls, sectHeader (strip l) ≠ some n) → n ∉ st.secs →
    ls.foldlM step st = .ok st' → n ∉ st'.secs := by
  intro ls
  induction ls with
  | nil => intro st st' _ hn h; obtain rfl := Except.ok.inj (show Except.ok st = Except.ok st' from h); exact hn
  | cons l ls ih =>
    intro st st' hl hn h
    rw [List.foldlM_cons] at h
    rcases hs : step st l with e | st1
    · rw [hs] at h; cases h
    · rw [hs] at h
      refine ih st1 st' (fun m hm => hl m (by simp [hm])) ?_ h
      rcases step_secs hs with e | ⟨s, h1, e⟩
      · rw [e]; exact hn
      · rw [e, List.mem_cons, not_or]
        exact ⟨fun e => hl l (by simp) (e ▸ h1), hn⟩

/-- No option `o` has been met in section `s`. -/
structure Free (s o : Str) (st : St) : Prop where
  cur : st.cur = some s
  opt : st.opt ≠ some o
  free : st.store s o = .none
  dflt : st.store defaultName o = .none

/-- One line that is no header and no line of option `o`. -/
theorem step_free {s o : Str} {st st' : St} {l : Str} (hd : s ≠ defaultName) (h1 : sectHeader (strip l) = none)
    (h2 : ∀ k v, optSplit (strip l) = some (k, v) → lower k ≠ o) (hf : Free s o st) (h : step st l = .ok st') : Free s o st' := by
  obtain ⟨c1, c2, c3, c4⟩ := hf
  have key : ∀ q v, st.opt = some q → Free s o (st.put s q v) := by
    intro q v hq
    have hne : o ≠ q := fun e => c2 (e ▸ hq)
    exact ⟨c1, c2, by rw [put_other _ _ (fun e => hne e.2)]; exact c3, by rw [put_other _ _ (fun e => hne e.2)]; exact c4⟩
  unfold step at h
  simp only [h1, c1] at h
  split at h
  · obtain rfl := Except.ok.inj h; exact ⟨c1, c2, c3, c4⟩
  split at h
  · split at h
    · rename_i s' q e1 e2
      obtain rfl : s = s' := Option.some.inj e1
      obtain rfl := Except.ok.inj h
      exact key q _ e2
    · obtain rfl := Except.ok.inj h; exact ⟨c1, c2, c3, c4⟩
  split at h
  · rename_i s' q e1 e2
    obtain rfl := Except.ok.inj h
    have : s' = s := by
      split at e1
      · exact (Option.some.inj e1).symm
      · cases e1
    subst this
    exact key q _ e2
  split at h
  · cases h
  · rename_i k v e
    split at h
    · cases h
    split at h
    · cases h
    · obtain rfl := Except.ok.inj h
      have hne := h2 k v e
      refine ⟨c1, fun e => hne (Option.some.inj e), ?_, ?_⟩
      · exact (put_other st _ (fun e => hne e.2.symm)).trans c3
      · exact (put_other st _ (fun e => hne e.2.symm)).trans c4

theorem run_free {s o : Str} (hd : s ≠ defaultName) : ∀ (ls : List Str) (st st' : St),
    (∀ l ∈ ls, sectHeader (strip l) = none ∧ ∀ k v, optSplit (strip l) = some (k, v) → lower k ≠ o) → Free s o st →
    ls.foldlM step st = .ok st' → Free s o st' := by
  intro ls
  induction ls with
  | nil => intro st st' _ hn h; obtain rfl := Except.ok.inj (show Except.ok st = Except.ok st' from h); exact hn
  | cons l ls ih =>
    intro st st' hl hn h
    rw [List.foldlM_cons] at h
    rcases hs : step st l with e | st1
    · rw [hs] at h; cases h
    · rw [hs] at h
      exact ih st1 st' (fun m hm => hl m (by simp [hm])) (step_free hd (hl l (by simp)).1 (hl l (by simp)).2 hn hs) h

theorem get_free {s o q : Str} {st : St} (hf : Free s o st) (hq : lower q = o) : get st s q = .error .parseError := by
  unfold get
  split
  · rfl
  · rw [hq, hf.free, hf.dflt]

/-- A blank line acts as an empty one. -/
theorem step_blank {st : St} {x : Str} (h : strip x = []) : step st x = step st [] := by
  unfold step
  simp only [h, strip_nil]
  rfl

/-- The option's line with nothing after the delimiter. -/
theorem step_no_value {s : Str} {st st' : St} {x q : Str} {c : Char} {t : Str} (hs : strip x = c :: t) (hc : c ≠ '#' ∧ c ≠ ';' ∧ c ≠ '[')
    (hi : x.takeWhile isSpace = []) (ho : optSplit (strip x) = some (q, [])) (hf : Free s (lower q) st)
    (h : step st x = .ok st') : get st' s q = .error .parseError ∨ get st' s q = .ok [] := by
  have h0 : sectHeader (strip x) = none := by
    rcases e : sectHeader (strip x) with _ | h
    · rfl
    · have := sectHeader_head e
      rw [hs] at this
      exact absurd (Option.some.inj this) hc.2.2
  unfold step at h
  simp only [h0, ho, hi, List.length_nil, Nat.not_lt_zero, if_false, hf.cur, hf.free] at h
  rw [if_neg (by rw [hs]; simp [hc.1, hc.2.1]), if_neg (by rw [hs]; simp)] at h
  split at h
  · cases h
  · simp only [Option.isSome_none, Bool.false_eq_true, if_false] at h
    obtain rfl := Except.ok.inj h
    unfold get
    split
    · exact Or.inl rfl
    · right
      show (match (st.put s (lower q) [[]]).store s (lower q) with
        | some ls => Except.ok (rstrip (joinNL ls))
        | none => _) = _
      rw [put_store]
      rfl

end Config

noncomputable section
open Config
namespace ParamFile

/-- The sections before the last one. -/
def early (V : Vals) : List Sec := origSec V :: [PName.chord, .pitch, .rake, .skew].map (splineSec V)

/-- The name of the last section. -/
abbrev lastName : Str := PName.camber.section'

/-- The header of the last section. -/
def lastHeader : Str := '[' :: (lastName ++ [']'])

/-- The key of the last option. -/
def lastKey : Str := c!"control points y-deformations"

/-- The lines of the last section between the header and the deformations. -/
def middle (V : Vals) : List Str :=
  [c!"# This section describes the B-Spline construction of the RADII -- " ++ upper PName.camber.str ++ c!" curve.", [],
    c!"# degree of the B-Spline curve"] ++ ((degGrp (V.deg .camber)).lines ++ ((nptGrp (V.npt .camber)).lines ++
    (nbaGrp (V.nba .camber)).lines))

/-- The last section, with any deformations. -/
def cutSec (V : Vals) (v : Str) (vs tr : List Str) : Sec where
  name := lastName
  pre := (splineSec V .camber).pre
  grps := [degGrp (V.deg .camber), nptGrp (V.npt .camber), nbaGrp (V.nba .camber), { defGrp .camber v vs with trail := tr }]

theorem cutSec_lines (V : Vals) (v : Str) (vs tr : List Str) :
    (cutSec V v vs tr).lines = lastHeader :: (middle V ++ (core (defGrp .camber v vs) ++ tr)) := by
  simp [Sec.lines, cutSec, lastHeader, middle, splineSec, core, Grp.lines, defGrp]

theorem secs_split (V : Vals) : secs V = early V ++ [cutSec V (V.f .camber) (V.fs .camber) []] := by
  simp [secs, early, PName.all, cutSec, splineSec, defGrp]

theorem secs_lines (V : Vals) : unlines ([] :: ((secs V).map Sec.lines).flatten) =
    unlines ([] :: ((early V).map Sec.lines).flatten) ++ (lastHeader ++ '\n' :: (unlines (middle V) ++
      unlines (core (defGrp .camber (V.f .camber) (V.fs .camber))))) := by
  rw [secs_split]
  simp only [List.map_append, List.flatten_append, List.map_cons, List.map_nil, List.flatten_cons, List.flatten_nil,
    cutSec_lines, unlines_cons, unlines_append, List.append_nil, List.append_assoc, List.cons_append, List.nil_append]

/-- Headers, and beginnings of headers, other than that of the last section. -/
theorem header_prefix {n x : Str} (hn : n ∈ [origSection, PName.chord.section', PName.pitch.section', PName.rake.section',
    PName.skew.section']) (hx : x <+: '[' :: (n ++ [']'])) : sectHeader (strip x) ≠ some lastName := by
  have hx' := List.prefix_iff_eq_take.1 hx
  have hlen := hx.length_le
  simp only [List.mem_cons, List.not_mem_nil, or_false] at hn
  generalize x.length = k at hx' hlen
  subst hx'
  rcases hn with rfl | rfl | rfl | rfl | rfl
  · have : k < 22 := by simp [origSection] at hlen; omega
    revert k; decide
  · have : k < 22 := by simp [PName.section'] at hlen; omega
    revert k; decide
  · have : k < 22 := by simp [PName.section'] at hlen; omega
    revert k; decide
  · have : k < 22 := by simp [PName.section'] at hlen; omega
    revert k; decide
  · have : k < 22 := by simp [PName.section'] at hlen; omega
    revert k; decide

theorem header_cut {x : Str} (hx : x <+: lastHeader) (hne : x ≠ lastHeader) : sectHeader (strip x) ≠ some lastName := by
  have hx' := List.prefix_iff_eq_take.1 hx
  have hlen := hx.length_le
  have hl : x.length ≠ 17 := by
    intro e
    rw [e] at hx'
    exact hne hx'
  generalize x.length = k at hx' hlen hl
  subst hx'
  have : k < 17 := by simp [lastHeader, PName.section'] at hlen; omega
  clear hx hne hlen hl
  revert k; decide

/-- No beginning of a filler line is a header. -/
theorem filler_prefix {x l : Str} (hl : Filler l) (hx : x <+: l) : sectHeader (strip x) = none := by
  rcases e : sectHeader (strip x) with _ | h
  · rfl
  · have := sectHeader_head e
    rcases hl with rfl | hl
    · obtain rfl := List.prefix_nil.1 hx
      rw [strip_nil] at this; cases this
    · cases l with
      | nil => cases hl
      | cons c t =>
        obtain rfl : c = '#' := by simpa using hl
        rcases strip_prefix_head rfl (by decide) hx with h | ⟨u, h⟩
        · rw [h] at this; cases this
        · rw [h] at this; simp at this

theorem head_prefix {x l : Str} {c : Char} {t : Str} (hl : l = c :: t) (hc : isSpace c = false) (hb : c ≠ '[') (hx : x <+: l) :
    sectHeader (strip x) = none := by
  rcases e : sectHeader (strip x) with _ | h
  · rfl
  · have := sectHeader_head e
    rcases strip_prefix_head hl hc hx with h | ⟨u, h⟩
    · rw [h] at this; cases this
    · rw [h] at this; exact absurd (by simpa using this) hb

/-- No beginning of a line of an option is the last header. -/
theorem grp_prefix {g : Grp} (hg : g.Good) {x l : Str} (hl : l ∈ g.lines) (hx : x <+: l) :
    sectHeader (strip x) ≠ some lastName := by
  simp only [Grp.lines, List.mem_cons, List.mem_append, List.mem_map] at hl
  rcases hl with rfl | ⟨w, hw, rfl⟩ | hl
  · obtain ⟨c, t, hp, c1, _, _, c4⟩ := hg.pne
    rw [hp, List.cons_append] at hx
    rw [head_prefix rfl c1 c4 hx]; simp
  · intro e
    have h1 := sectHeader_mem e ' ' (by decide)
    have h2 := strip_prefix_value (hg.vals w hw).1 hx ' ' h1
    rw [isSpace_blank] at h2; cases h2
  · rw [filler_prefix (hg.trail l hl) hx]; simp

theorem sec_prefix {s : Sec} (hs : s.Good) (hn : s.name ∈ [origSection, PName.chord.section', PName.pitch.section',
    PName.rake.section', PName.skew.section']) {x l : Str} (hl : l ∈ s.lines) (hx : x <+: l) :
    sectHeader (strip x) ≠ some lastName := by
  simp only [Sec.lines, List.mem_cons, List.mem_append, List.mem_flatten, List.mem_map] at hl
  rcases hl with rfl | hl | ⟨_, ⟨g, hg, rfl⟩, hl⟩
  · exact header_prefix hn hx
  · rw [filler_prefix (hs.pre l hl) hx]; simp
  · exact grp_prefix (hs.grps g hg) hl hx

theorem early_good {V : Vals} (h : V.Good) : ∀ s ∈ early V, s.Good := by
  intro s hs
  exact secs_good h s (by rw [secs_split]; simp [hs])

theorem early_names (V : Vals) : (early V).map (·.name) = [origSection, PName.chord.section', PName.pitch.section',
    PName.rake.section', PName.skew.section'] := rfl

theorem early_prefix {V : Vals} (h : V.Good) {x l : Str} (hl : l ∈ [] :: ((early V).map Sec.lines).flatten) (hx : x <+: l) :
    sectHeader (strip x) ≠ some lastName := by
  rcases List.mem_cons.1 hl with rfl | hl
  · rw [filler_prefix (Or.inl rfl) hx]; simp
  · simp only [List.mem_flatten, List.mem_map] at hl
    obtain ⟨_, ⟨s, hs, rfl⟩, hl⟩ := hl
    refine sec_prefix (early_good h s hs) ?_ hl hx
    rw [← early_names V]
    exact List.mem_map.2 ⟨s, hs, rfl⟩

theorem all_no_nl {V : Vals} (h : V.Good) : ∀ l ∈ ([] : Str) :: ((secs V).map Sec.lines).flatten, '\n' ∉ l := by
  intro l hl
  rcases List.mem_cons.1 hl with rfl | hl
  · simp
  · exact secs_no_nl h l hl

theorem early_no_nl {V : Vals} (h : V.Good) : ∀ l ∈ ([] : Str) :: ((early V).map Sec.lines).flatten, '\n' ∉ l := by
  intro l hl
  apply all_no_nl h
  rw [secs_split]
  simp only [List.map_append, List.flatten_append, List.mem_cons, List.mem_append] at hl ⊢
  tauto

theorem last_no_nl {V : Vals} (h : V.Good) : '\n' ∉ lastHeader ∧ (∀ l ∈ middle V, '\n' ∉ l) ∧
    ∀ l ∈ core (defGrp .camber (V.f .camber) (V.fs .camber)), '\n' ∉ l := by
  have := all_no_nl h
  rw [secs_split] at this
  simp only [List.map_append, List.flatten_append, List.map_cons, List.map_nil, List.flatten_cons, List.flatten_nil,
    cutSec_lines] at this
  refine ⟨this _ (by simp), fun l hl => this l (by simp [hl]), fun l hl => this l (by simp [hl])⟩

/-- No beginning of a line between the last header and the deformations is a header, or the line of the deformations. -/
theorem middle_prefix {V : Vals} (h : V.Good) {x l : Str} (hl : l ∈ middle V) (hx : x <+: l) :
    sectHeader (strip x) = none ∧ ∀ k v, optSplit (strip x) = some (k, v) → lower k ≠ lastKey := by
  have key : Filler l ∨ ∃ c t, l = c :: t ∧ (c = 's' ∨ c = 'n') := by
    simp only [middle, Grp.lines, degGrp, nptGrp, nbaGrp, List.map_nil, List.nil_append, List.mem_append, List.mem_cons,
      List.not_mem_nil, or_false] at hl
    rcases hl with (rfl | rfl | rfl) | ((rfl | rfl | rfl) | (rfl | rfl | rfl) | (rfl | rfl | rfl))
    · exact Or.inl (Or.inr rfl)
    · exact Or.inl (Or.inl rfl)
    · exact Or.inl (Or.inr rfl)
    · exact Or.inr ⟨'s', _, rfl, Or.inl rfl⟩
    · exact Or.inl (Or.inl rfl)
    · exact Or.inl (Or.inr rfl)
    · exact Or.inr ⟨'s', _, rfl, Or.inl rfl⟩
    · exact Or.inl (Or.inl rfl)
    · exact Or.inl (Or.inr rfl)
    · exact Or.inr ⟨'n', _, rfl, Or.inr rfl⟩
    · exact Or.inl (Or.inl rfl)
    · exact Or.inl (Or.inr rfl)
  have sk : strip x = [] ∨ ∃ c u, strip x = c :: u ∧ isSpace c = false ∧ (c = '#' ∨ c = 's' ∨ c = 'n') := by
    rcases key with (rfl | hl) | ⟨c, t, rfl, hc⟩
    · obtain rfl := List.prefix_nil.1 hx; exact Or.inl rfl
    · cases l with
      | nil => cases hl
      | cons c t =>
        obtain rfl : c = '#' := by simpa using hl
        rcases strip_prefix_head rfl (by decide) hx with h | ⟨u, h⟩
        · exact Or.inl h
        · exact Or.inr ⟨_, u, h, by decide, Or.inl rfl⟩
    · have hs : isSpace c = false := by rcases hc with rfl | rfl <;> decide
      rcases strip_prefix_head rfl hs hx with h | ⟨u, h⟩
      · exact Or.inl h
      · exact Or.inr ⟨_, u, h, hs, Or.inr hc⟩
  constructor
  · rcases e : sectHeader (strip x) with _ | h
    · rfl
    · have := sectHeader_head e
      rcases sk with h | ⟨c, u, h, _, hc⟩
      · rw [h] at this; cases this
      · rw [h] at this
        obtain rfl : c = '[' := by simpa using this
        exfalso
        rcases hc with hc | hc | hc <;> revert hc <;> decide
  · intro k v e hk
    rcases sk with h | ⟨c, u, h, hs, hc⟩
    · rw [h] at e; cases e
    · rw [h] at e
      unfold optSplit at e
      split at e
      · cases e
      · rename_i a b hd
        obtain ⟨rfl, _⟩ := Prod.mk.inj (Option.some.inj e)
        have hdel : isDelim c = false := by rcases hc with rfl | rfl | rfl <;> decide
        rw [List.takeWhile_cons_of_pos (by simp [hdel])] at hk
        obtain ⟨w, hw⟩ := strip_head hs (u.takeWhile fun c => !isDelim c)
        have : rstrip (c :: u.takeWhile fun c => !isDelim c) = c :: w := by
          rw [← hw]; unfold strip
          rw [List.dropWhile_cons_of_neg (by simp [hs])]
        rw [this] at hk
        have hh := congrArg List.head? hk
        simp only [lower, List.map_cons, List.head?_cons, lastKey, Option.some.injEq] at hh
        rcases hc with rfl | rfl | rfl <;> revert hh <;> decide

/-- After the sections before the last one. -/
theorem run_early {V : Vals} (h : V.Good) : ∃ st, ([] :: ((early V).map Sec.lines).flatten).foldlM step {} = .ok st ∧
    (∀ s ∈ early V, s.name ∈ st.secs ∧ ∀ g ∈ s.grps, st.store s.name g.key = some g.stored) ∧
    (∀ s o, s ∉ (early V).map (·.name) → st.store s o = none) := by
  obtain ⟨st, h1, h2, _, h4⟩ := run_sections (early V) {} (early_good h) (by simp) (by simp) (by rw [early_names]; decide)
  refine ⟨st, ?_, h2, fun s o hs => h4 s o hs⟩
  rw [List.foldlM_cons, step_blank_none (Or.inl rfl)]
  exact h1

/-- After the last header. -/
theorem run_header {V : Vals} (h : V.Good) {st : St} (hr : ([] :: ((early V).map Sec.lines).flatten ++ [lastHeader]).foldlM step {} = .ok st) :
    Free lastName lastKey st := by
  obtain ⟨st1, h1, _, h3⟩ := run_early h
  rw [List.foldlM_append, h1] at hr
  change List.foldlM step st1 [lastHeader] = .ok st at hr
  rw [List.foldlM_cons] at hr
  change (step st1 ('[' :: (lastName ++ [']'])) >>= _) = _ at hr
  rw [step_header' (by decide) (by decide)] at hr
  split at hr
  · cases hr
  · obtain rfl := Except.ok.inj (show Except.ok _ = Except.ok st from hr)
    exact ⟨rfl, by simp, h3 _ _ (by rw [early_names]; decide), h3 _ _ (by rw [early_names]; decide)⟩

/-- The last thing `read_parameters` reads is the deformations of the camber. -/
theorem readText_needs {C : Codec} {t : Str} (h : ∀ st, Config.read t = .ok st →
    (∃ e, Config.get st lastName c!"control points Y-deformations" = .error e) ∨
      Config.get st lastName c!"control points Y-deformations" = .ok []) : ∃ e, readText C t = .error e := by
  rcases hq : readText C t with e | q
  · exact ⟨e, rfl⟩
  exfalso
  unfold readText at hq
  simp only [bind, Except.bind, pure, Except.pure, throw, throwThe, MonadExceptOf.throw] at hq
  split at hq
  · cases hq
  rename_i st hst
  split at hq
  · cases hq
  split at hq
  · cases hq
  split at hq
  · cases hq
  split at hq
  · cases hq
  split at hq
  · cases hq
  rename_i sp hsp
  have hc := forAll_inv hsp .camber
  unfold readSpline at hc
  simp only [bind, Except.bind, pure, Except.pure, throw, throwThe, MonadExceptOf.throw] at hc
  rcases h st hst with ⟨e, he⟩ | he
  · rw [show (PName.camber.section' : Str) = lastName from rfl, he] at hc
    repeat' split at hc
    all_goals first
      | (cases hc; done)
      | simp_all
  · rw [show (PName.camber.section' : Str) = lastName from rfl, he] at hc
    repeat' split at hc
    all_goals first
      | (cases hc; done)
      | simp_all

theorem readText_needs_option {C : Codec} {t : Str} (h : ∀ st, Config.read t = .ok st →
    lastName ∉ st.secs ∨ Free lastName lastKey st) : ∃ e, readText C t = .error e := by
  apply readText_needs
  intro st hst
  refine Or.inl ?_
  rcases h st hst with h | h
  · exact ⟨.parseError, by unfold Config.get; rw [if_pos h]⟩
  · exact ⟨.parseError, get_free h (by decide)⟩

/-- Before the line of the last header is complete. -/
theorem cut_before {C : Codec} {V : Vals} (hV : V.Good) {p : Str} (h : ∀ m ∈ fileLines p, sectHeader (strip m) ≠ some lastName) :
    ∃ e, readText C p = .error e :=
  readText_needs_option fun st hst => Or.inl (run_secs _ _ _ h (by simp) hst)

/-- Between the last header and the deformations. -/
theorem cut_between {C : Codec} {V : Vals} (hV : V.Good) {p : Str} {M : List Str}
    (hp : fileLines p = ([] :: ((early V).map Sec.lines).flatten ++ [lastHeader]) ++ M)
    (h : ∀ m ∈ M, sectHeader (strip m) = none ∧ ∀ k v, optSplit (strip m) = some (k, v) → lower k ≠ lastKey) :
    ∃ e, readText C p = .error e := by
  refine readText_needs_option fun st hst => Or.inr ?_
  unfold Config.read at hst
  rw [hp, List.foldlM_append] at hst
  rcases h1 : List.foldlM step {} ([] :: ((early V).map Sec.lines).flatten ++ [lastHeader]) with e | st1
  · rw [h1] at hst; cases hst
  · rw [h1] at hst
    exact run_free (by decide) M st1 st h (run_header hV h1) hst

/-- At the first deformation, before its first digit. -/
theorem cut_no_value {C : Codec} {V : Vals} (hV : V.Good) {p : Str} {M : List Str} {j : Nat}
    (hp : fileLines p = (([] :: ((early V).map Sec.lines).flatten ++ [lastHeader]) ++ M) ++
      [c!"control points Y-deformations " ++ '=' :: List.replicate j ' '])
    (h : ∀ m ∈ M, sectHeader (strip m) = none ∧ ∀ k v, optSplit (strip m) = some (k, v) → lower k ≠ lastKey) :
    ∃ e, readText C p = .error e := by
  refine readText_needs fun st hst => ?_
  unfold Config.read at hst
  rw [hp, List.foldlM_append] at hst
  rcases h0 : List.foldlM step {} (([] :: ((early V).map Sec.lines).flatten ++ [lastHeader]) ++ M) with e | st2
  · rw [h0] at hst; cases hst
  rw [h0] at hst
  have hf : Free lastName lastKey st2 := by
    rw [List.foldlM_append] at h0
    rcases h1 : List.foldlM step {} ([] :: ((early V).map Sec.lines).flatten ++ [lastHeader]) with e | st1
    · rw [h1] at h0; cases h0
    · rw [h1] at h0
      exact run_free (by decide) M st1 st2 h (run_header hV h1) h0
  change List.foldlM step st2 [_] = .ok st at hst
  rw [List.foldlM_cons] at hst
  rcases h2 : step st2 (c!"control points Y-deformations " ++ '=' :: List.replicate j ' ') with e | st3
  · rw [h2] at hst; cases hst
  rw [h2] at hst
  obtain rfl := Except.ok.inj (show Except.ok st3 = Except.ok st from hst)
  have hs : strip (c!"control points Y-deformations " ++ '=' :: List.replicate j ' ') = c!"control points Y-deformations =" := by
    have e1 : c!"control points Y-deformations " ++ '=' :: List.replicate j ' ' =
        c!"control points Y-deformations =" ++ List.replicate j ' ' := by simp
    rw [e1]
    unfold strip
    rw [show (c!"control points Y-deformations =" ++ List.replicate j ' ').dropWhile isSpace =
      c!"control points Y-deformations =" ++ List.replicate j ' ' from by
        rw [List.cons_append, List.dropWhile_cons_of_neg (by decide)],
      rstrip_blanks (replicate_space j)]
    decide
  rcases step_no_value (s := lastName) (q := c!"control points Y-deformations") (c := 'c')
      (t := c!"ontrol points Y-deformations =") hs (by decide)
      (by rw [List.cons_append, List.takeWhile_cons_of_neg (by decide)]) (by rw [hs]; decide) hf h2 with h | h
  · exact Or.inl ⟨_, h⟩
  · exact Or.inr h

/-- The lines of the file with other deformations at the end. -/
def cutLines (V : Vals) (v : Str) (vs tr : List Str) : List Str :=
  ([] :: ((early V).map Sec.lines).flatten ++ [lastHeader]) ++ (middle V ++ (core (defGrp .camber v vs) ++ tr))

theorem cutSec_good {V : Vals} (h : V.Good) {v : Str} {vs tr : List Str}
    (hv : ∀ w ∈ v :: vs, NoSpace w ∧ w ≠ [] ∧ w.head? ≠ some '#' ∧ w.head? ≠ some ';') (ht : ∀ l ∈ tr, Filler l) :
    (cutSec V v vs tr).Good where
  ne := by simp [cutSec, PName.section']
  nd := by simp only [cutSec]; decide
  pre := by simp [cutSec, splineSec, Filler]
  grps := by
    intro g hg
    simp only [cutSec, List.mem_cons, List.not_mem_nil, or_false] at hg
    rcases hg with rfl | rfl | rfl | rfl
    · exact degGrp_good (h.deg _)
    · exact nptGrp_good (h.npt _)
    · exact nbaGrp_good (h.nba _)
    · have h' := defGrp_good h .camber
      exact ⟨h'.pne, h'.delim, h'.nodelim, h'.key_eq, h'.kne, ⟨(hv v (by simp)).1, (hv v (by simp)).2.1⟩,
        fun w hw => hv w (by simp only [defGrp] at hw; simp [hw]), h'.off_pos, ht⟩
  keys := by
    simp only [cutSec, List.map_cons, List.map_nil, degGrp, nptGrp, nbaGrp, defGrp]
    decide

theorem run_cut {V : Vals} (h : V.Good) {v : Str} {vs tr : List Str}
    (hv : ∀ w ∈ v :: vs, NoSpace w ∧ w ≠ [] ∧ w.head? ≠ some '#' ∧ w.head? ≠ some ';') (ht : ∀ l ∈ tr, Filler l) :
    ∃ st, (cutLines V v vs tr).foldlM step {} = .ok st ∧
      ∀ s ∈ early V ++ [cutSec V v vs tr], ∀ g ∈ s.grps, ∀ o, lower o = g.key → get st s.name o = .ok (joinNL (g.v :: g.vs)) := by
  have hg : ∀ s ∈ early V ++ [cutSec V v vs tr], s.Good := by
    intro s hs
    rcases List.mem_append.1 hs with hs | hs
    · exact early_good h s hs
    · obtain rfl : s = _ := by simpa using hs
      exact cutSec_good h hv ht
  obtain ⟨st, h1, h2, _, _⟩ := run_sections (early V ++ [cutSec V v vs tr]) {} hg (by simp) (by simp) (by
    rw [List.map_append, early_names]
    simp only [cutSec, List.map_cons, List.map_nil]
    decide)
  refine ⟨st, ?_, ?_⟩
  · have : cutLines V v vs tr = [] :: ((early V ++ [cutSec V v vs tr]).map Sec.lines).flatten := by
      simp [cutLines, cutSec_lines]
    rw [this, List.foldlM_cons, step_blank_none (Or.inl rfl)]
    exact h1
  · intro s hs g hgm o ho
    exact get_of ((hg s hs).grps g hgm) (h2 s hs).1 ((h2 s hs).2 g hgm) ho

/-- The result of reading a file that is complete up to the deformations of the camber. -/
def withLast (C : Codec) (pf : ParamFile) (ws : List Str) : Res ParamFile :=
  match readValues C (joinNL ws) with
  | .error e => .error e
  | .ok ds => if (ds.length : Int) ≠ pf.nbasis .camber then .error .valueError
    else .ok { pf.filled with deformations := fun p => if p = .camber then ds else pf.deformations p }

/-- The texts of the numbers of an object. -/
theorem vals_exist {C : Codec} (hC : C.Lawful) (pf : ParamFile) (hc : pf.Consistent) (hne : pf.NonEmpty)
    (hrep : pf.Representable C) : ∃ V : Vals, V.Good ∧ text C pf.filled = unlines ([] :: ((secs V).map Sec.lines).flatten) ∧
    (∀ p, (pf.deformations p).map C.fmt = V.f p :: V.fs p) ∧
    ∀ (v : Str) (vs tr : List Str) (t : Str), (∀ w ∈ v :: vs, NoSpace w ∧ w ≠ [] ∧ w.head? ≠ some '#' ∧ w.head? ≠ some ';') →
      (∀ l ∈ tr, Filler l) → Config.read t = (cutLines V v vs tr).foldlM step {} → readText C t = withLast C pf (v :: vs) := by
  obtain ⟨r, hr, hl⟩ := hc.radii
  have hrne : r ≠ [] := fun e => hne.radii (e ▸ hr)
  obtain ⟨r0, rs, hr0⟩ : ∃ a l, r = a :: l := List.exists_cons_of_ne_nil hrne
  have hfr : pf.filled.radii.getD [] = r := by simp [filled, hr]
  have hdne : ∀ p, (pf.filled.parameters p).getD [] ≠ [] := by
    intro p e
    have := filled_length hc hr p
    rw [e, hr0] at this
    cases this
  choose d0 ds hd using fun p => List.exists_cons_of_ne_nil (hdne p)
  have hfull : ∀ p, (pf.deformations p).take (pf.nbasis p).toNat = pf.deformations p := by
    intro p
    rw [hc.nbasis p]
    simp
  choose f0 fs hf using fun p => List.exists_cons_of_ne_nil (hne.deformations p)
  let V : Vals := {
    r := C.fmt r0
    rs := rs.map C.fmt
    d := fun p => C.fmt (d0 p)
    ds := fun p => (ds p).map C.fmt
    deg := fun p => C.fmtInt (pf.degree p)
    npt := fun p => C.fmtInt (pf.npoints p)
    nba := fun p => C.fmtInt (pf.nbasis p)
    f := fun p => C.fmt (f0 p)
    fs := fun p => (fs p).map C.fmt }
  have good1 : ∀ x, C.rep x → NoSpace (C.fmt x) ∧ C.fmt x ≠ [] ∧ (C.fmt x).head? ≠ some '#' ∧ (C.fmt x).head? ≠ some ';' :=
    fun x hx => ⟨hC.fmt_space x hx, hC.fmt_ne x hx, (hC.fmt_head x hx).1, (hC.fmt_head x hx).2⟩
  have hVr : (pf.filled.radii.getD []).map C.fmt = V.r :: V.rs := by rw [hfr, hr0]; rfl
  have hVd : ∀ p, ((pf.filled.parameters p).getD []).map C.fmt = V.d p :: V.ds p := fun p => by rw [hd p]; rfl
  have hVf : ∀ p, (pf.deformations p).map C.fmt = V.f p :: V.fs p := fun p => by rw [hf p]; rfl
  have hrr : ∀ x ∈ r, C.rep x := hrep.radii r hr
  have hdr := fun p => filled_values hrep hr p
  have hV : V.Good := by
    refine ⟨?_, ?_, ?_, ?_, ?_, ?_⟩
    · intro w hw
      rw [← hVr, hfr] at hw
      obtain ⟨x, hx, rfl⟩ := List.mem_map.1 hw
      exact good1 x (hrr x hx)
    · intro p w hw
      rw [← hVd p] at hw
      obtain ⟨x, hx, rfl⟩ := List.mem_map.1 hw
      exact good1 x (hdr p x hx)
    · intro p w hw
      rw [← hVf p] at hw
      obtain ⟨x, hx, rfl⟩ := List.mem_map.1 hw
      exact good1 x (hrep.deformations p x hx)
    · exact fun p => ⟨hC.fmtInt_space _, hC.fmtInt_ne _⟩
    · exact fun p => ⟨hC.fmtInt_space _, hC.fmtInt_ne _⟩
    · exact fun p => ⟨hC.fmtInt_space _, hC.fmtInt_ne _⟩
  have ht : text C pf.filled = unlines ([] :: ((secs V).map Config.Sec.lines).flatten) := by
    apply text_eq C pf.filled V hVr hVd
    · intro p
      change (((pf.deformations p).take (pf.nbasis p).toNat).map C.fmt) = _
      rw [hfull p]; exact hVf p
    · intro p; rfl
    · intro p; rfl
    · intro p; rfl
  refine ⟨V, hV, ht, hVf, ?_⟩
  intro v vs tr t hv htr hread
  obtain ⟨st, h1, h2⟩ := run_cut hV hv htr
  rw [h1] at hread
  have he : ∀ s ∈ early V, s ∈ early V ++ [cutSec V v vs tr] := fun s hs => List.mem_append_left _ hs
  have hl' : cutSec V v vs tr ∈ early V ++ [cutSec V v vs tr] := by simp
  have g1 : Config.get st origSection c!"Radial sections" = .ok (joinNL (r.map C.fmt)) := by
    have := h2 (origSec V) (he _ (by simp [early])) (radGrp V.r V.rs) (by simp [origSec]) c!"Radial sections"
      (by simp only [radGrp]; decide)
    rw [hr0]; exact this
  have hall : ∀ p, p ∈ PName.all := by intro p; cases p <;> simp [PName.all]
  have g2 : ∀ p, Config.get st origSection (c!"Radial distribution of " ++ p.str) =
      .ok (joinNL (((pf.filled.parameters p).getD []).map C.fmt)) := by
    intro p
    have := h2 (origSec V) (he _ (by simp [early])) (distGrp p (V.d p) (V.ds p))
      (by simp only [origSec, List.mem_cons, List.mem_map]; exact Or.inr ⟨p, hall p, rfl⟩)
      (c!"Radial distribution of " ++ p.str) (by simp only [distGrp]; cases p <;> decide)
    rw [hd p]; exact this
  have hs : ∀ p, p ≠ .camber → splineSec V p ∈ early V ++ [cutSec V v vs tr] := fun p hp => he _ (by
    cases p
    · simp [early]
    · simp [early]
    · simp [early]
    · simp [early]
    · exact absurd rfl hp)
  have g3 : ∀ p, Config.get st p.section' c!"spline degree" = .ok (joinNL [C.fmtInt (pf.degree p)]) := fun p => by
    by_cases hp : p = .camber
    · subst hp
      exact h2 _ hl' (degGrp (V.deg .camber)) (by simp [cutSec]) _ (by simp only [degGrp]; decide)
    · exact h2 (splineSec V p) (hs p hp) (degGrp (V.deg p)) (by simp [splineSec]) _ (by simp only [degGrp]; decide)
  have g4 : ∀ p, Config.get st p.section' c!"spline npoints" = .ok (joinNL [C.fmtInt (pf.npoints p)]) := fun p => by
    by_cases hp : p = .camber
    · subst hp
      exact h2 _ hl' (nptGrp (V.npt .camber)) (by simp [cutSec]) _ (by simp only [nptGrp]; decide)
    · exact h2 (splineSec V p) (hs p hp) (nptGrp (V.npt p)) (by simp [splineSec]) _ (by simp only [nptGrp]; decide)
  have g5 : ∀ p, Config.get st p.section' c!"number of control points" = .ok (joinNL [C.fmtInt (pf.nbasis p)]) := fun p => by
    by_cases hp : p = .camber
    · subst hp
      exact h2 _ hl' (nbaGrp (V.nba .camber)) (by simp [cutSec]) _ (by simp only [nbaGrp]; decide)
    · exact h2 (splineSec V p) (hs p hp) (nbaGrp (V.nba p)) (by simp [splineSec]) _ (by simp only [nbaGrp]; decide)
  have g6 : ∀ p, p ≠ .camber → Config.get st p.section' c!"control points Y-deformations" =
      .ok (joinNL ((pf.deformations p).map C.fmt)) := fun p hp => by
    have := h2 (splineSec V p) (hs p hp) (defGrp p (V.f p) (V.fs p)) (by simp [splineSec]) c!"control points Y-deformations"
      (by simp only [defGrp]; decide)
    rw [hf p]; exact this
  have g7 : Config.get st PName.camber.section' c!"control points Y-deformations" = .ok (joinNL (v :: vs)) :=
    h2 _ hl' { defGrp .camber v vs with trail := tr } (by simp [cutSec]) c!"control points Y-deformations"
      (by simp only [defGrp]; decide)
  have rd : forAll (readDist C st) = .ok fun p => (pf.filled.parameters p).getD [] := by
    apply forAll_ok
    intro p
    unfold readDist
    rw [g2 p]
    exact readValues_fmt hC (hdr p) (hdne p)
  have rs1 : ∀ p, p ≠ .camber → readSpline C st p = .ok (pf.degree p, pf.npoints p, pf.nbasis p, pf.deformations p) := by
    intro p hp
    unfold readSpline
    rw [g3, g4, g5, g6 p hp]
    have hnn : joinNL ((pf.deformations p).map C.fmt) ≠ [] := by
      rw [hf p, List.map_cons]
      have h0 := hC.fmt_ne (f0 p) (hrep.deformations p _ (by rw [hf p]; simp))
      cases hfs : (fs p).map C.fmt with
      | nil => simpa [joinNL] using h0
      | cons a l => simp [joinNL]
    simp [bind, Except.bind, pure, Except.pure, readInt_fmt hC, readValues_fmt hC (hrep.deformations p) (hne.deformations p),
      hnn, hc.nbasis p, throw, throwThe, MonadExceptOf.throw]
  have hnv : joinNL (v :: vs) ≠ [] := by
    cases vs with
    | nil => exact (hv v (by simp)).2.1
    | cons a l => simp [joinNL]
  have rs2 : readSpline C st .camber = (match readValues C (joinNL (v :: vs)) with
      | .error e => .error e
      | .ok ds => if (ds.length : Int) ≠ pf.nbasis .camber then .error .valueError
        else .ok (pf.degree .camber, pf.npoints .camber, pf.nbasis .camber, ds)) := by
    unfold readSpline
    rw [g3, g4, g5, g7]
    simp only [bind, Except.bind, pure, Except.pure, readInt_fmt hC, throw, throwThe, MonadExceptOf.throw, hnv, if_false]
    rcases readValues C (joinNL (v :: vs)) with e | ds
    · rfl
    · simp only
  have split5 : ∀ {X : Res (Int × Int × Int × Arr)}, readSpline C st .camber = X → forAll (readSpline C st) =
      (match X with
        | .error e => .error e
        | .ok y => .ok fun p => if p = .camber then y else (pf.degree p, pf.npoints p, pf.nbasis p, pf.deformations p)) := by
    intro X hX
    unfold forAll
    rw [rs1 .chord (by simp), rs1 .pitch (by simp), rs1 .rake (by simp), rs1 .skew (by simp), hX]
    rcases X with e | y
    · rfl
    · simp only [bind, Except.bind, pure, Except.pure]
      congr 1
      funext p
      cases p <;> rfl
  have rs3 := split5 rs2
  unfold readText
  rw [hread]
  simp only [bind, Except.bind]
  rw [g1]
  simp only
  rw [readValues_fmt hC hrr hrne, rd]
  simp only [filled_length hc hr, and_self, not_true_eq_false, if_false]
  simp only [pure, Except.pure, rs3]
  unfold withLast
  rcases readValues C (joinNL (v :: vs)) with e | ys
  · rfl
  · simp only
    by_cases hy : (ys.length : Int) = pf.nbasis .camber
    · rw [if_neg (by simpa using hy), if_neg (by simpa using hy)]
      simp only
      congr 1
      simp only [filled, hr, Option.getD_some]
      congr 1 <;> funext p <;> by_cases hp : p = .camber <;> simp [hp]
    · rw [if_pos hy, if_pos hy]

/-- One value per line. -/
theorem readValues_length {C : Codec} {ws : List Str} (hne : ws ≠ []) (hw : ∀ w ∈ ws, NoSpace w) {ds : Arr}
    (h : readValues C (joinNL ws) = .ok ds) : ds.length = ws.length := by
  unfold readValues at h
  rw [splitNL_join (fun l hl => (hw l hl).no_nl) hne] at h
  exact (Blade.mapM_ok.1 h).1

/-- The text before the value on the first line of the deformations. -/
def defKey : Str := c!"control points Y-deformations "

theorem core_eq (v : Str) (vs : List Str) : core (defGrp .camber v vs) =
    (defKey ++ '=' :: (List.replicate 2 ' ' ++ v)) :: vs.map (List.replicate 33 ' ' ++ ·) := rfl

theorem nl_blanks (n : Nat) : '\n' ∉ List.replicate n ' ' := by
  intro hm
  have := List.eq_of_mem_replicate hm
  revert this; decide

theorem core_no_nl {v : Str} {vs : List Str} (hv : ∀ w ∈ v :: vs, NoSpace w) :
    ∀ l ∈ core (defGrp .camber v vs), '\n' ∉ l := by
  intro l hl
  rw [core_eq] at hl
  rcases List.mem_cons.1 hl with rfl | hl
  · have := (hv v (by simp)).no_nl
    have h2 : '\n' ∉ defKey := by decide
    have h3 := nl_blanks 2
    simp only [List.mem_append, List.mem_cons, not_or]
    exact ⟨h2, by decide, h3, this⟩
  · obtain ⟨w, hw, rfl⟩ := List.mem_map.1 hl
    simp only [List.mem_append, not_or]
    exact ⟨nl_blanks 33, (hv w (by simp [hw])).no_nl⟩

/-- Beginnings of the lines of the deformations. -/
theorem core_prefix {v : Str} {vs : List Str} (hv : ∀ w ∈ v :: vs, NoSpace w ∧ w ≠ []) {p : Str}
    (h : p <+: unlines (core (defGrp .camber v vs))) :
    p <+: defKey ∨ (∃ j, p = defKey ++ '=' :: List.replicate j ' ') ∨ ∃ v' vs' tr,
      fileLines p = core (defGrp .camber v' vs') ++ tr ∧ (tr = [] ∨ ∃ x, tr = [x] ∧ strip x = []) ∧
      (v' :: vs').length ≤ (v :: vs).length ∧ ∀ w ∈ v' :: vs', w ≠ [] ∧ ∃ u ∈ v :: vs, w <+: u := by
  have hnl := core_no_nl fun w hw => (hv w hw).1
  rw [core_eq, unlines_cons] at h
  have hd0 : '\n' ∉ defKey ++ '=' :: (List.replicate 2 ' ' ++ v) := hnl _ (by rw [core_eq]; simp)
  rcases prefix_append_cases h with h | ⟨p', rfl, hq⟩
  · rcases prefix_append_cases h with h | ⟨p', rfl, h'⟩
    · exact Or.inl h
    · cases p' with
      | nil => exact Or.inl (by simp)
      | cons c p' =>
        obtain ⟨rfl, h2⟩ := List.cons_prefix_cons.1 h'
        rcases prefix_blanks h2 with ⟨j, _, rfl⟩ | ⟨w', h3, h4, rfl⟩
        · exact Or.inr (Or.inl ⟨j, rfl⟩)
        · refine Or.inr (Or.inr ⟨w', [], [], ?_, Or.inl rfl, by simp, ?_⟩)
          · rw [fileLines_line (no_nl_prefix h hd0) (by simp)]
            rfl
          · intro w hw
            obtain rfl : w = w' := by simpa using hw
            exact ⟨h3, v, by simp, h4⟩
  · cases p' with
    | nil =>
      refine Or.inr (Or.inr ⟨v, [], [], ?_, Or.inl rfl, by simp, ?_⟩)
      · rw [List.append_nil, fileLines_line hd0 (by simp)]; rfl
      · intro w hw
        obtain rfl : w = v := by simpa using hw
        exact ⟨(hv w (by simp)).2, w, by simp, List.prefix_refl _⟩
    | cons c p' =>
      obtain ⟨rfl, h2⟩ := List.cons_prefix_cons.1 hq
      obtain ⟨k, x, hk, rfl, hx⟩ := prefix_lines h2
      have hfl : fileLines (defKey ++ '=' :: (List.replicate 2 ' ' ++ v) ++ '\n' ::
          (unlines ((vs.map (List.replicate 33 ' ' ++ ·)).take k) ++ x)) =
          core (defGrp .camber v (vs.take k)) ++ fileLines x := by
        rw [show defKey ++ '=' :: (List.replicate 2 ' ' ++ v) ++ '\n' ::
          (unlines ((vs.map (List.replicate 33 ' ' ++ ·)).take k) ++ x) =
          unlines ((defKey ++ '=' :: (List.replicate 2 ' ' ++ v)) :: (vs.map (List.replicate 33 ' ' ++ ·)).take k) ++ x from by
            rw [unlines_cons]; simp,
          fileLines_unlines_append]
        · rw [core_eq, List.map_take]
        · intro l hl
          apply hnl
          rw [core_eq]
          rcases List.mem_cons.1 hl with rfl | hl
          · simp
          · exact List.mem_cons_of_mem _ (List.mem_of_mem_take hl)
      have hfull : ∀ w ∈ v :: vs.take k, w ≠ [] ∧ ∃ u ∈ v :: vs, w <+: u := by
        intro w hw
        have hw' : w ∈ v :: vs := by
          rcases List.mem_cons.1 hw with rfl | hw
          · simp
          · exact List.mem_cons_of_mem _ (List.mem_of_mem_take hw)
        exact ⟨(hv w hw').2, w, hw', List.prefix_refl _⟩
      have hlen : (v :: vs.take k).length ≤ (v :: vs).length := by simp
      have blank : ∀ j, x = List.replicate j ' ' → _ := fun j hj =>
        (⟨v, vs.take k, fileLines x, hfl, (by
          subst hj
          cases j with
          | zero => exact Or.inl rfl
          | succ j =>
            right
            exact ⟨List.replicate (j + 1) ' ', fileLines_line (nl_blanks _) (by simp [List.replicate_succ]),
              strip_spaces (replicate_space _)⟩), hlen, hfull⟩ : ∃ v' vs' tr, _ = core (defGrp .camber v' vs') ++ tr ∧
          (tr = [] ∨ ∃ x, tr = [x] ∧ strip x = []) ∧
          (v' :: vs').length ≤ (v :: vs).length ∧ ∀ w ∈ v' :: vs', w ≠ [] ∧ ∃ u ∈ v :: vs, w <+: u)
      refine Or.inr (Or.inr ?_)
      rcases hx with rfl | ⟨l, hl, hx⟩
      · exact blank 0 rfl
      · rw [List.getElem?_map] at hl
        rcases hw : vs[k]? with _ | w
        · rw [hw] at hl; cases hl
        rw [hw] at hl
        obtain rfl := Option.some.inj hl
        have hwm : w ∈ v :: vs := List.mem_cons_of_mem _ (List.mem_of_getElem? hw)
        rcases prefix_blanks hx with ⟨j, _, hj⟩ | ⟨w', h3, h4, rfl⟩
        · exact blank j hj
        · refine ⟨v, vs.take k ++ [w'], [], ?_, Or.inl rfl, ?_, ?_⟩
          · rw [hfl, fileLines_line (no_nl_prefix hx (hnl _ (by
              rw [core_eq]; exact List.mem_cons_of_mem _ (List.mem_map.2 ⟨w, List.mem_of_getElem? hw, rfl⟩)))) (by simp)]
            simp [core_eq]
          · have := (List.getElem?_eq_some_iff.1 hw).1
            simp
            omega
          · intro u hu
            rw [← List.cons_append] at hu
            rcases List.mem_append.1 hu with hu | hu
            · exact hfull u hu
            · obtain rfl : u = w' := by simpa using hu
              exact ⟨h3, w, hwm, h4⟩

/-- The text before the deformations of the camber. -/
def before (V : Vals) : Str := unlines ([] :: ((early V).map Sec.lines).flatten) ++ (lastHeader ++ '\n' :: unlines (middle V))

theorem secs_before (V : Vals) : unlines ([] :: ((secs V).map Sec.lines).flatten) =
    before V ++ unlines (core (defGrp .camber (V.f .camber) (V.fs .camber))) := by
  rw [secs_lines, before]; simp

theorem lines_before {V : Vals} (hV : V.Good) (t : Str) : fileLines (before V ++ t) =
    (([] :: ((early V).map Sec.lines).flatten ++ [lastHeader]) ++ middle V) ++ fileLines t := by
  obtain ⟨h1, h2, _⟩ := last_no_nl hV
  rw [show before V ++ t = unlines ((([] :: ((early V).map Sec.lines).flatten ++ [lastHeader]) ++ middle V)) ++ t from by
    simp only [before, unlines_append, unlines_cons, unlines_nil, List.append_assoc, List.cons_append, List.nil_append]]
  apply fileLines_unlines_append
  intro l hl
  rcases List.mem_append.1 hl with hl | hl
  · rcases List.mem_append.1 hl with hl | hl
    · exact early_no_nl hV l hl
    · obtain rfl : l = lastHeader := by simpa using hl
      exact h1
  · exact h2 l hl

/-- The file ends before the deformations of the camber. -/
theorem cut_early {C : Codec} {V : Vals} (hV : V.Good) {p : Str} (h : p <+: before V) : ∃ e, readText C p = .error e := by
  obtain ⟨h1, h2, _⟩ := last_no_nl hV
  have hE := early_no_nl hV
  rcases prefix_append_cases h with h | ⟨p', rfl, h'⟩
  · refine cut_before hV fun m hm => ?_
    obtain ⟨l, hl, hx⟩ := prefix_fileLines hE h m hm
    exact early_prefix hV hl hx
  · have hlines : ∀ t, fileLines (unlines ([] :: ((early V).map Sec.lines).flatten) ++ t) =
        ([] :: ((early V).map Sec.lines).flatten) ++ fileLines t := fileLines_unlines_append hE
    rcases prefix_append_cases h' with h3 | ⟨p3, rfl, h3⟩
    · by_cases he : p' = lastHeader
      · subst he
        refine cut_between hV (M := []) ?_ (by simp)
        rw [hlines, fileLines_line h1 (by simp [lastHeader])]
        simp
      · refine cut_before hV fun m hm => ?_
        rw [hlines] at hm
        rcases List.mem_append.1 hm with hm | hm
        · exact early_prefix hV hm (List.prefix_refl _)
        · by_cases hz : p' = []
          · subst hz; simp [fileLines, splitNL] at hm
          · rw [fileLines_line (no_nl_prefix h3 h1) hz] at hm
            obtain rfl : m = p' := by simpa using hm
            exact header_cut h3 he
    · have hlines2 : ∀ t, fileLines (unlines ([] :: ((early V).map Sec.lines).flatten) ++ (lastHeader ++ '\n' :: t)) =
          ([] :: ((early V).map Sec.lines).flatten ++ [lastHeader]) ++ fileLines t := by
        intro t
        rw [hlines, show lastHeader ++ '\n' :: t = unlines [lastHeader] ++ t from by simp [unlines_cons, unlines_nil],
          fileLines_unlines_append (by simpa using h1)]
        simp
      cases p3 with
      | nil =>
        refine cut_between hV (M := []) ?_ (by simp)
        rw [List.append_nil, hlines, fileLines_line h1 (by simp [lastHeader])]
        simp
      | cons c p3 =>
        obtain ⟨rfl, h4⟩ := List.cons_prefix_cons.1 h3
        refine cut_between hV (M := fileLines p3) (hlines2 p3) fun m hm => ?_
        obtain ⟨l, hl, hx⟩ := prefix_fileLines h2 h4 m hm
        exact middle_prefix hV hl hx

/-- The file ends on the first line of the deformations, before the first value. -/
theorem cut_key {C : Codec} {V : Vals} (hV : V.Good) {p : Str} (h : p <+: defKey ∨ ∃ j, p = defKey ++ '=' :: List.replicate j ' ') :
    ∃ e, readText C (before V ++ p) = .error e := by
  have hm : ∀ m ∈ middle V, sectHeader (strip m) = none ∧ ∀ k v, optSplit (strip m) = some (k, v) → lower k ≠ lastKey :=
    fun m hm => middle_prefix hV hm (List.prefix_refl _)
  rcases h with h | ⟨j, rfl⟩
  · refine cut_between hV (M := middle V ++ fileLines p) (by rw [lines_before hV, List.append_assoc]) fun m hm' => ?_
    rcases List.mem_append.1 hm' with hm' | hm'
    · exact hm m hm'
    · by_cases hz : p = []
      · subst hz; simp [fileLines, splitNL] at hm'
      · rw [fileLines_line (no_nl_prefix h (by decide)) hz] at hm'
        obtain rfl : m = p := by simpa using hm'
        constructor
        · exact head_prefix (c := 'c') rfl (by decide) (by decide) h
        · intro k v e
          exfalso
          have hd : ∀ c ∈ strip m, (!isDelim c) = true := by
            intro c hc
            have hc' : c ∈ m := by
              unfold strip rstrip at hc
              have h5 := (List.dropWhile_suffix (l := (m.dropWhile isSpace).reverse) isSpace).subset (by simpa using hc)
              exact (List.dropWhile_suffix isSpace).subset (by simpa using h5)
            have hc2 := h.subset hc'
            have : ∀ c ∈ defKey, (!isDelim c) = true := by decide
            exact this c hc2
          unfold optSplit at e
          rw [show (strip m).dropWhile (fun c => !isDelim c) = [] from by
            have := dropWhile_all (p := fun c => !isDelim c) (a := strip m) (s := []) hd
            rw [List.append_nil] at this
            rw [this]; rfl] at e
          cases e
  · refine cut_no_value hV (M := middle V) (j := j) ?_ hm
    rw [lines_before hV, fileLines_line _ (by simp)]
    · rfl
    · simp only [List.mem_append, List.mem_cons, not_or]
      exact ⟨by decide, by decide, nl_blanks j⟩

/-- The file goes on with some values. -/
theorem cut_values {V : Vals} (hV : V.Good) {p v : Str} {vs tr : List Str} (h : fileLines p = core (defGrp .camber v vs) ++ tr)
    (ht : tr = [] ∨ ∃ x, tr = [x] ∧ strip x = []) : ∃ tr', (∀ l ∈ tr', Filler l) ∧
      Config.read (before V ++ p) = (cutLines V v vs tr').foldlM step {} := by
  unfold Config.read
  rw [lines_before hV, h]
  rcases ht with rfl | ⟨x, rfl, hx⟩
  · exact ⟨[], by simp, by simp [cutLines]⟩
  · refine ⟨[[]], by simp [Filler], ?_⟩
    have e1 : ∀ y, (([] :: ((early V).map Sec.lines).flatten ++ [lastHeader]) ++ middle V) ++ (core (defGrp .camber v vs) ++ [y]) =
        ((([] :: ((early V).map Sec.lines).flatten ++ [lastHeader]) ++ middle V) ++ core (defGrp .camber v vs)) ++ [y] := by
      intro y; simp
    have e2 : cutLines V v vs [[]] =
        ((([] :: ((early V).map Sec.lines).flatten ++ [lastHeader]) ++ middle V) ++ core (defGrp .camber v vs)) ++ [[]] := by
      simp [cutLines]
    rw [e1, e2, List.foldlM_append, List.foldlM_append (l' := [[]])]
    congr 1
    funext st
    rw [List.foldlM_cons, List.foldlM_cons, step_blank hx]

end ParamFile
end
end BladeX
