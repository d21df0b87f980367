import Verif.Model.LineEnds
import Verif.Spec.LineEnds
import Verif.Props.ParamCrash

/-! # C138: line ends of parameter files -/

namespace BladeX
noncomputable section
open Spec
namespace ParamFile

theorem universal_cr {t : Str} (h : t.head? ≠ some '\n') : universal ('\r' :: t) = '\n' :: universal t := by
  cases t with
  | nil => rfl
  | cons c t =>
    have hc : c ≠ '\n' := by simpa using h
    rw [universal]
    intro t' e
    exact hc (List.cons.inj e).1

theorem universal_char {c : Char} {t : Str} (h : c ≠ '\r') : universal (c :: t) = c :: universal t := by
  rw [universal]
  · intro t' e; exact absurd e h
  · intro e; exact absurd e h

theorem universal_other {t t' : Str} (h : OtherEnds t t') : universal t' = t := by
  induction h with
  | nil => rfl
  | char c t t' _ h2 _ ih => rw [universal_char h2, ih]
  | lf t t' _ ih => rw [universal_char (by decide), ih]
  | crlf t t' _ ih => rw [universal, ih]
  | cr t t' h _ ih => rw [universal_cr h, ih]

theorem native_other {nl : Str} (hnl : nl ∈ lineEnds) : ∀ {t : Str}, '\r' ∉ t → OtherEnds t (native nl t) := by
  intro t
  induction t with
  | nil => intro _; exact .nil
  | cons c t ih =>
    intro h
    simp only [List.mem_cons, not_or] at h
    have ih := ih h.2
    by_cases hc : c = '\n'
    · subst hc
      simp only [native, List.flatMap_cons, if_true] at ih ⊢
      simp only [lineEnds, List.mem_cons, List.not_mem_nil, or_false] at hnl
      rcases hnl with rfl | rfl | rfl
      · exact .lf _ _ ih
      · exact .crlf _ _ ih
      · refine .cr _ _ ?_ ih
        cases t with
        | nil => simp
        | cons d t =>
          by_cases hd : d = '\n'
          · subst hd; simp
          · simp [hd]
    · simp only [native, List.flatMap_cons, if_neg hc] at ih ⊢
      exact .char _ _ _ hc (Ne.symm h.1) ih

theorem notin_append {x : Char} {a b : Str} (ha : x ∉ a) (hb : x ∉ b) : x ∉ a ++ b := by
  simp only [List.mem_append, not_or]; exact ⟨ha, hb⟩

theorem block_plain {a b : Int} {vs : List Str} (h : ∀ v ∈ vs, '\r' ∉ v) : '\r' ∉ block a b vs := by
  have hs : ∀ n, '\r' ∉ spaces n := by
    intro n hn
    exact absurd (List.eq_of_mem_replicate hn) (by decide)
  cases vs with
  | nil => simp [block]
  | cons v vs =>
    simp only [block, List.mem_append, List.mem_cons, List.mem_flatten, List.mem_map, not_or, not_exists]
    refine ⟨⟨hs _, h v (by simp)⟩, by decide, ?_⟩
    rintro l ⟨⟨w, hw, rfl⟩, hl⟩
    simp only [List.mem_append, List.mem_cons, List.not_mem_nil, or_false] at hl
    rcases hl with (hl | hl) | hl
    · exact hs _ hl
    · exact h w (by simp [hw]) hl
    · exact absurd hl (by decide)

theorem fmt_plain {C : Codec} (hC : C.Lawful) {v : Arr} (hv : ∀ x ∈ v, C.rep x) : ∀ l ∈ v.map C.fmt, '\r' ∉ l := by
  intro l hl h
  obtain ⟨x, hx, rfl⟩ := List.mem_map.1 hl
  exact absurd (hC.fmt_space x (hv x hx) _ h) (by decide)

theorem fmtInt_plain {C : Codec} (hC : C.Lawful) (n : Int) : '\r' ∉ C.fmtInt n := by
  intro h
  exact absurd (hC.fmtInt_space n _ h) (by decide)

theorem distText_plain {C : Codec} (hC : C.Lawful) {pf : ParamFile} {p : PName} (h : ∀ v, pf.parameters p = some v → ∀ x ∈ v, C.rep x) :
    '\r' ∉ distText C pf p := by
  simp only [distText, List.mem_append, not_or]
  refine ⟨⟨⟨by decide, by cases p <;> decide⟩, by decide⟩, block_plain (fmt_plain hC ?_)⟩
  rcases hp : pf.parameters p with _ | v
  · simp
  · exact h v hp

theorem splineText_plain {C : Codec} (hC : C.Lawful) {pf : ParamFile} {p : PName} (h : ∀ x ∈ pf.deformations p, C.rep x) :
    '\r' ∉ splineText C pf p := by
  have hp1 : '\r' ∉ p.section' := by cases p <;> decide
  have hp2 : '\r' ∉ upper p.str := by cases p <;> decide
  have hb : '\r' ∉ block 1 33 (((pf.deformations p).take (pf.nbasis p).toNat).map C.fmt) :=
    block_plain (fmt_plain hC fun x hx => h x (List.mem_of_mem_take hx))
  unfold splineText
  repeat' with_reducible apply notin_append
  all_goals first | exact hp1 | exact hp2 | exact fmtInt_plain hC _ | exact hb | decide

/-- The text of the writer has no `\r`. -/
theorem text_plain {C : Codec} (hC : C.Lawful) {pf : ParamFile} (hrep : pf.Representable C) : '\r' ∉ text C pf.filled := by
  have hd : ∀ p, '\r' ∉ distText C pf.filled p := by
    intro p
    apply distText_plain hC
    intro v hv x hx
    simp only [filled, Option.some.injEq] at hv
    rcases hp : pf.parameters p with _ | w
    · rw [hp] at hv
      simp only [Option.getD_none] at hv
      rw [← hv] at hx
      rw [List.eq_of_mem_replicate hx]
      exact hrep.zero
    · rw [hp] at hv
      simp only [Option.getD_some] at hv
      subst hv
      exact hrep.dist p w hp x hx
  have hs : ∀ p, '\r' ∉ splineText C pf.filled p := fun p => splineText_plain hC (hrep.deformations p)
  have hr : ∀ x ∈ pf.filled.radii.getD [], C.rep x := by
    intro x hx
    rcases hp : pf.radii with _ | r
    · simp [filled, hp] at hx
    · simp only [filled, hp, Option.getD_some] at hx
      exact hrep.radii r hp x hx
  simp only [text, List.mem_append, not_or, List.mem_flatten, List.mem_map, not_exists]
  refine ⟨⟨⟨⟨⟨⟨⟨by decide, by decide⟩, by decide⟩, by decide⟩, by decide⟩, block_plain (fmt_plain hC hr)⟩, ?_⟩, ?_⟩
  · rintro l ⟨⟨p, _, rfl⟩, hl⟩; exact hd p hl
  · rintro l ⟨⟨p, _, rfl⟩, hl⟩; exact hs p hl

theorem native_prefix {nl : Str} (hnl : nl ∈ lineEnds) : ∀ {s t : Str}, '\r' ∉ s → t <+: native nl s → ∃ s', s' <+: s ∧ universal t = s' := by
  intro s
  induction s with
  | nil => intro t _ h; exact ⟨[], List.nil_prefix, by rw [List.prefix_nil.1 h]; rfl⟩
  | cons c s ih =>
    intro t hs h
    simp only [List.mem_cons, not_or] at hs
    have step : ∀ t', t' <+: native nl s → ∃ s', s' <+: c :: s ∧ c :: universal t' = s' := by
      intro t' ht'
      obtain ⟨s', h1, h2⟩ := ih hs.2 ht'
      exact ⟨c :: s', List.cons_prefix_cons.2 ⟨rfl, h1⟩, by rw [h2]⟩
    cases t with
    | nil => exact ⟨[], List.nil_prefix, rfl⟩
    | cons d t =>
      by_cases hc : c = '\n'
      · subst hc
        simp only [lineEnds, List.mem_cons, List.not_mem_nil, or_false] at hnl
        rcases hnl with rfl | rfl | rfl
        · have h' : d :: t <+: '\n' :: native ['\n'] s := by simpa [native] using h
          have hh := List.cons_prefix_cons.1 h'
          clear h'
          obtain ⟨h0, h'⟩ := hh
          subst h0
          rw [universal_char (by decide)]
          exact step t h'
        · have h' : d :: t <+: '\r' :: '\n' :: native ['\r', '\n'] s := by simpa [native] using h
          have hh := List.cons_prefix_cons.1 h'
          clear h'
          obtain ⟨h0, h'⟩ := hh
          subst h0
          clear h
          cases t with
          | nil => exact ⟨['\n'], by simp, rfl⟩
          | cons d t =>
            have hh := List.cons_prefix_cons.1 h'
            clear h'
            obtain ⟨h0, h'⟩ := hh
            subst h0
            rw [universal]
            exact step t h'
        · have h' : d :: t <+: '\r' :: native ['\r'] s := by simpa [native] using h
          have hh := List.cons_prefix_cons.1 h'
          clear h'
          obtain ⟨h0, h'⟩ := hh
          subst h0
          have hn : '\n' ∉ native ['\r'] s := by
            intro hn
            simp only [native, List.mem_flatMap] at hn
            obtain ⟨x, _, hx⟩ := hn
            split_ifs at hx with hxn
            · exact absurd (List.mem_singleton.1 hx) (by decide)
            · exact hxn (List.mem_singleton.1 hx).symm
          rw [universal_cr]
          · exact step t h'
          · intro e
            cases t with
            | nil => simp at e
            | cons x t =>
              simp only [List.head?_cons, Option.some.injEq] at e
              subst e
              exact hn (h'.subset List.mem_cons_self)
      · have h' : d :: t <+: c :: native nl s := by simpa [native, hc] using h
        have hh := List.cons_prefix_cons.1 h'
        clear h'
        obtain ⟨h0, h'⟩ := hh
        subst h0
        rw [universal_char (Ne.symm hs.1)]
        exact step t h'

/-- **C138** Line ends do not matter: the same text with its line ends written as `\n`, `\r\n` or `\r`, even differently from line to line, reads as the same
parameters or raises the same exception. -/
theorem C138_line_ends (C : Codec) (t t' : Str) (h : OtherEnds t t') : readFile C t' = readText C t := by
  rw [readFile, universal_other h]

/-- Three line ends, three conventions. -/
example : OtherEnds ['a', '\n', '\n', 'b', '\n'] ['a', '\r', '\r', '\n', 'b', '\n'] :=
  .char _ _ _ (by decide) (by decide) (.cr _ _ (by decide) (.crlf _ _ (.char _ _ _ (by decide) (by decide) (.lf _ _ .nil))))

/-- The condition on a lone `\r` is needed: here an empty line disappears. -/
example : universal ['a', '\r', '\n', 'b'] = ['a', '\n', 'b'] := rfl

/-- **C138** In particular a file without `\r`, converted as a whole to any of the three conventions. -/
theorem C138_converted (C : Codec) (nl t : Str) (hnl : nl ∈ lineEnds) (ht : '\r' ∉ t) : readFile C (native nl t) = readText C t :=
  C138_line_ends C t _ (native_other hnl ht)

/-- A file with a mistake, under the three conventions. -/
example (nl : Str) (h : nl ∈ lineEnds) : readFile tenths (native nl c!"[Original parameters]\nRadial sections = 3 4\n") = .error .valueError := by
  rw [C138_converted tenths nl _ h (by decide)]
  exact two_words_sample

/-- **C138** Round trip between platforms: what an object writes under one convention is read by any object under any (a missing file would be written under
`nl'`), with all parameters as they were. -/
theorem C138_round_trip (C : Codec) (hC : C.Lawful) (nl nl' : Str) (hnl : nl ∈ lineEnds) (fs : FS) (path : Str) (pf : ParamFile) (hc : pf.Consistent)
    (hne : pf.NonEmpty) (hrep : pf.Representable C) :
    ∃ fs', writeFile C nl fs path pf = .ok (fs', pf.filled) ∧ (∀ q, q ≠ path → fs' q = fs q) ∧
      ∀ other, readPath C nl' fs' path other = (fs', .ok pf.filled) := by
  refine ⟨fun q => if q = path then some (native nl (text C pf.filled)) else fs q, ?_, ?_, ?_⟩
  · unfold writeFile
    rw [C42_accepts pf hc]
    rfl
  · intro q hq; simp [hq]
  · intro other
    unfold readPath
    simp only [if_true]
    rw [C138_converted C nl _ hnl (text_plain hC hrep), readText_text hC pf hc hne hrep]

theorem sample_nonempty : sample.NonEmpty := ⟨by simp [sample], by intro p; cases p <;> simp [sample]⟩

/-- Written on Windows, read elsewhere. -/
example (fs : FS) (path : Str) : ∃ fs', writeFile tenths ['\r', '\n'] fs path sample = .ok (fs', sample.filled) ∧
    readPath tenths ['\n'] fs' path init = (fs', .ok sample.filled) := by
  obtain ⟨fs', h1, _, h3⟩ := C138_round_trip tenths tenths_lawful ['\r', '\n'] ['\n'] (by decide) fs path sample sample_consistent sample_nonempty sample_rep
  exact ⟨fs', h1, h3 init⟩

/-- **C138** A missing file is created under the platform's convention and then read: the outcome is that of the model without line ends (C43). -/
theorem C138_missing (C : Codec) (hC : C.Lawful) (nl : Str) (hnl : nl ∈ lineEnds) (fs : FS) (path : Str) (pf : ParamFile) (hm : fs path = none)
    (hrep : ({ pf with radii := some defaultRadii } : ParamFile).Representable C) :
    (readPath C nl fs path pf).2 = (readParameters C fs path pf).2 ∧
      (readPath C nl fs path pf).1 path = ((readParameters C fs path pf).1 path).map (native nl) := by
  unfold readPath readParameters
  simp only [hm]
  unfold writeFile write
  by_cases hc : ({ pf with radii := some defaultRadii } : ParamFile).Consistent
  · rw [C42_accepts _ hc]
    simp only [bind, Except.bind, pure, Except.pure, if_true, Option.map_some, and_true]
    exact C138_converted C nl _ hnl (text_plain hC hrep)
  · rw [C42_rejects _ hc]
    simp [bind, Except.bind, hm]

/-- The hypotheses are met: a new object, no file. -/
example (fs : FS) (path : Str) (hm : fs path = none) : (readPath tenths ['\r', '\n'] fs path init).2 = (readParameters tenths fs path init).2 := by
  have hz : tenths.rep 0 := ⟨0, by norm_num⟩
  refine (C138_missing tenths tenths_lawful ['\r', '\n'] (by decide) fs path init hm ⟨?_, ?_, ?_, hz⟩).1
  · intro r hr x hx
    obtain rfl := Option.some.inj hr
    simp only [defaultRadii, List.mem_cons, List.not_mem_nil, or_false] at hx
    rcases hx with rfl | rfl | rfl | rfl | rfl | rfl | rfl | rfl
    · exact ⟨3, by norm_num⟩
    · exact ⟨4, by norm_num⟩
    · exact ⟨5, by norm_num⟩
    · exact ⟨6, by norm_num⟩
    · exact ⟨7, by norm_num⟩
    · exact ⟨8, by norm_num⟩
    · exact ⟨9, by norm_num⟩
    · exact ⟨10, by norm_num⟩
  · intro p v hv; cases hv
  · intro p x hx
    rw [List.eq_of_mem_replicate hx]; exact hz

/-- **C138** An interrupted writing under any convention, even between `\r` and `\n`: reading what is left raises an exception of the config parser or
`ValueError`, or gives all the parameters but for the last number, as in C123. -/
theorem C138_interrupted (C : Codec) (hC : C.Lawful) (nl : Str) (hnl : nl ∈ lineEnds) (pf : ParamFile) (hc : pf.Consistent) (hne : pf.NonEmpty)
    (hrep : pf.Representable C) (t : Str) (ht : t <+: native nl (text C pf.filled)) :
    (∃ e, readFile C t = .error e ∧ (e = .parseError ∨ e = .valueError)) ∨ ∃ q, readFile C t = .ok q ∧ SameButLast C pf.filled q := by
  obtain ⟨s', h1, h2⟩ := native_prefix hnl (text_plain hC hrep) ht
  rw [readFile, h2]
  exact C123_interrupted C hC pf hc hne hrep s' h1

/-- The hypotheses are met, also by the empty file. -/
example : (∃ e, readFile tenths [] = .error e ∧ (e = .parseError ∨ e = .valueError)) ∨ ∃ q, readFile tenths [] = .ok q ∧ SameButLast tenths sample.filled q :=
  C138_interrupted tenths tenths_lawful ['\r', '\n'] (by decide) sample sample_consistent sample_nonempty sample_rep [] List.nil_prefix

end ParamFile
end
end BladeX
