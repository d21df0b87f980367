import Verif.Lemmas.Crash
import Verif.Model.ParamCrash
import Verif.Spec.ParamCrash

/-! # C123: parameter files whose writing was interrupted -/

namespace BladeX
noncomputable section
namespace ParamFile

private theorem readValues_last {C : Codec} {ws : List Str} {w : Str} {xs : Arr} (hC : C.Lawful) (hw : ws = xs.map C.fmt)
    (hx : ∀ x ∈ xs, C.rep x) (hn : NoSpace w) : readValues C (joinNL (ws ++ [w])) = (match C.parse w with
      | some y => .ok (xs ++ [y])
      | none => .error .valueError) := by
  unfold readValues
  subst hw
  rw [splitNL_join]
  · induction xs with
    | nil =>
      rw [List.map_nil, List.nil_append, List.mapM_cons, manyWords_noSpace hn]
      rcases C.parse w with _ | y <;> simp [bind, Except.bind, pure, Except.pure]
    | cons x xs ih =>
      rw [List.map_cons, List.cons_append, List.mapM_cons, ih fun y hy => hx y (by simp [hy]),
        manyWords_noSpace (hC.fmt_space x (hx x (by simp)))]
      rcases C.parse w with _ | y <;> simp [hC.parse_fmt x (hx x (by simp)), bind, Except.bind, pure, Except.pure]
  · intro l hl
    rcases List.mem_append.1 hl with hl | hl
    · obtain ⟨x, hm, rfl⟩ := List.mem_map.1 hl
      exact NoSpace.no_nl (hC.fmt_space x (hx x hm))
    · obtain rfl : l = w := by simpa using hl
      exact hn.no_nl
  · simp

/-- The beginning of a written file up to the last number: where the text of the last number starts, what a file that ends
there or earlier does, and what a file that ends later does. -/
private theorem cut {C : Codec} (hC : C.Lawful) {pf : ParamFile} (hc : pf.Consistent) (hne : pf.NonEmpty)
    (hrep : pf.Representable C) {ds : Arr} {x : ℝ} (hd : pf.deformations .camber = ds ++ [x]) :
    ∃ hd, text C pf.filled = hd ++ (C.fmt x ++ ['\n']) ∧ (∀ t, t <+: hd → ∃ e, readText C t = .error e) ∧
      ∀ w nl, w ≠ [] → w <+: C.fmt x → (nl = [] ∨ nl = ['\n'] ∧ w = C.fmt x) → readText C (hd ++ (w ++ nl)) = (match C.parse w with
        | some y => .ok (pf.filled.setLast y)
        | none => .error .valueError) := by
  obtain ⟨V, hV, ht, hf, hread⟩ := vals_exist hC pf hc hne hrep
  have hF : V.f .camber :: V.fs .camber = ds.map C.fmt ++ [C.fmt x] := by rw [← hf .camber, hd]; simp
  have hxr : C.rep x := hrep.deformations .camber x (by rw [hd]; simp)
  have hdr : ∀ y ∈ ds, C.rep y := fun y hy => hrep.deformations .camber y (by rw [hd]; simp [hy])
  have hxn : NoSpace (C.fmt x) := hC.fmt_space x hxr
  have good : ∀ u ∈ V.f .camber :: V.fs .camber, NoSpace u ∧ u ≠ [] ∧ u.head? ≠ some '#' ∧ u.head? ≠ some ';' := hV.f .camber
  have good' : ∀ w, w ≠ [] → (∃ u ∈ V.f .camber :: V.fs .camber, w <+: u) →
      NoSpace w ∧ w ≠ [] ∧ w.head? ≠ some '#' ∧ w.head? ≠ some ';' := by
    rintro w hw ⟨u, hu, hp⟩
    obtain ⟨g1, g2, g3, g4⟩ := good u hu
    have hh : w.head? = u.head? := by
      obtain ⟨c, w, rfl⟩ := List.exists_cons_of_ne_nil hw
      obtain ⟨r, rfl⟩ := hp
      rfl
    exact ⟨g1.prefix hp, hw, hh ▸ g3, hh ▸ g4⟩
  have hnb : pf.nbasis .camber = ((ds.length + 1 : Nat) : Int) := by rw [hc.nbasis .camber, hd]; simp
  -- fewer values than control points
  have few : ∀ v vs tr p, fileLines p = Config.Grp.lines { defGrp .camber v vs with trail := [] } ++ tr →
      (tr = [] ∨ ∃ x, tr = [x] ∧ strip x = []) → (v :: vs).length < ds.length + 1 →
      (∀ w ∈ v :: vs, w ≠ [] ∧ ∃ u ∈ V.f .camber :: V.fs .camber, w <+: u) → ∃ e, readText C (before V ++ p) = .error e := by
    intro v vs tr p h1 h2 h3 h4
    have h1' : fileLines p = core (defGrp .camber v vs) ++ tr := by
      rw [h1]; simp [Config.Grp.lines, core]
    obtain ⟨tr', h5, h6⟩ := cut_values hV h1' h2
    have hg : ∀ w ∈ v :: vs, NoSpace w ∧ w ≠ [] ∧ w.head? ≠ some '#' ∧ w.head? ≠ some ';' :=
      fun w hw => good' w (h4 w hw).1 (h4 w hw).2
    rw [hread v vs tr' _ hg h5 h6, withLast]
    rcases hr : readValues C (joinNL (v :: vs)) with e | ys
    · exact ⟨e, rfl⟩
    · have hlen := readValues_length (by simp) (fun w hw => (hg w hw).1) hr
      refine ⟨.valueError, ?_⟩
      simp only
      rw [if_pos]
      rw [hnb, hlen]
      intro e
      have := Int.ofNat.inj e
      omega
  -- as many values as control points
  have enough : ∀ w tr p v vs, v :: vs = ds.map C.fmt ++ [w] → fileLines p = core (defGrp .camber v vs) ++ tr →
      tr = [] → w ≠ [] → w <+: C.fmt x → readText C (before V ++ p) = (match C.parse w with
        | some y => .ok (pf.filled.setLast y)
        | none => .error .valueError) := by
    intro w tr p v vs h0 h1 h2 h3 h4
    obtain ⟨tr', h5, h6⟩ := cut_values hV h1 (Or.inl h2)
    have hg : ∀ w ∈ v :: vs, NoSpace w ∧ w ≠ [] ∧ w.head? ≠ some '#' ∧ w.head? ≠ some ';' := by
      intro u hu
      rw [h0] at hu
      rcases List.mem_append.1 hu with hu | hu
      · exact good u (by rw [hF]; simp only [List.mem_append]; exact Or.inl hu)
      · obtain rfl : u = w := by simpa using hu
        exact good' u h3 ⟨C.fmt x, by rw [hF]; simp, h4⟩
    rw [hread v vs tr' _ hg h5 h6, withLast, h0, readValues_last hC rfl hdr (hxn.prefix h4)]
    rcases C.parse w with _ | y
    · rfl
    · simp only
      rw [if_neg (by rw [hnb]; simp)]
      unfold setLast
      congr 1
      simp only [filled, hd, List.dropLast_concat]
  rcases ds.eq_nil_or_concat' with rfl | ⟨ds', z, rfl⟩
  · -- one control point
    obtain ⟨hv, hvs⟩ : V.f .camber = C.fmt x ∧ V.fs .camber = [] := by
      have := hF
      simp only [List.map_nil, List.nil_append, List.cons.injEq] at this
      exact this
    refine ⟨before V ++ (defKey ++ '=' :: List.replicate 2 ' '), ?_, ?_, ?_⟩
    · rw [ht, secs_before, hv, hvs, core_eq]
      simp [unlines_cons, unlines_nil]
    · intro t h
      rcases prefix_append_cases h with h | ⟨p, rfl, h⟩
      · exact cut_early hV h
      · refine cut_key hV ?_
        rcases prefix_append_cases (p := p) (by assumption) with h | ⟨p', rfl, h'⟩
        · exact Or.inl h
        · cases p' with
          | nil => exact Or.inl (by simp)
          | cons c p' =>
            obtain ⟨rfl, h2⟩ := List.cons_prefix_cons.1 h'
            refine Or.inr ⟨p'.length, ?_⟩
            rw [List.eq_replicate_of_mem fun c hc => List.eq_of_mem_replicate (h2.subset hc)]
            simp
    · intro w nl hw hp hnl
      rw [List.append_assoc]
      refine enough w [] _ w [] (by simp) ?_ rfl hw hp
      rw [core_eq]
      have hno : '\n' ∉ defKey ++ '=' :: (List.replicate 2 ' ' ++ w) :=
        core_no_nl (v := w) (vs := []) (by intro u hu; obtain rfl : u = w := by simpa using hu
                                           exact hxn.prefix hp) _ (by rw [core_eq]; simp)
      rcases hnl with rfl | ⟨rfl, _⟩
      · rw [show defKey ++ '=' :: List.replicate 2 ' ' ++ (w ++ []) = defKey ++ '=' :: (List.replicate 2 ' ' ++ w) from by simp,
          fileLines_line hno (by simp)]
        simp
      · rw [show defKey ++ '=' :: List.replicate 2 ' ' ++ (w ++ ['\n']) = unlines [defKey ++ '=' :: (List.replicate 2 ' ' ++ w)]
          from by simp [unlines_cons, unlines_nil], fileLines_unlines (by simpa using hno)]
        simp
  · -- several control points
    obtain ⟨us, hvs⟩ : ∃ us, (ds' ++ [z]).map C.fmt = V.f .camber :: us ∧ V.fs .camber = us ++ [C.fmt x] := by
      have := hF
      rcases hm : (ds' ++ [z]).map C.fmt with _ | ⟨a, us⟩
      · simp at hm
      · rw [hm] at this
        simp only [List.cons_append, List.cons.injEq] at this
        exact ⟨us, by rw [this.1], this.2⟩
    obtain ⟨hus, hvs⟩ := hvs
    have hgu : ∀ u ∈ V.f .camber :: us, NoSpace u ∧ u ≠ [] := by
      intro u hu
      have := good u (by
        rw [hvs]
        rcases List.mem_cons.1 hu with rfl | hu
        · simp
        · simp [hu])
      exact ⟨this.1, this.2.1⟩
    have hlus : (V.f .camber :: us).length = (ds' ++ [z]).length := by rw [← hus]; simp
    have hsub : ∀ u ∈ V.f .camber :: us, u ∈ V.f .camber :: V.fs .camber := by
      intro u hu
      rw [hvs]
      rcases List.mem_cons.1 hu with rfl | hu
      · simp
      · simp [hu]
    have hnl := core_no_nl fun w hw => (hgu w hw).1
    refine ⟨before V ++ (unlines (core (defGrp .camber (V.f .camber) us)) ++ List.replicate 33 ' '), ?_, ?_, ?_⟩
    · rw [ht, secs_before, hvs, core_eq, core_eq, List.map_append, ← List.cons_append, unlines_append]
      simp [unlines_cons, unlines_nil]
    · intro t h
      rcases prefix_append_cases h with h | ⟨p, rfl, hp⟩
      · exact cut_early hV h
      · rcases prefix_append_cases hp with hp | ⟨p', rfl, hp'⟩
        · rcases core_prefix hgu hp with h | h | ⟨v', vs', tr, h1, h2, h3, h4⟩
          · exact cut_key hV (Or.inl h)
          · exact cut_key hV (Or.inr h)
          · refine few v' vs' tr p ?_ h2 (by omega) ?_
            · rw [h1]; simp [Config.Grp.lines, core]
            · intro w hw
              obtain ⟨h5, u, h6, h7⟩ := h4 w hw
              exact ⟨h5, u, hsub u h6, h7⟩
        · have hrep' : p' = List.replicate p'.length ' ' :=
            List.eq_replicate_of_mem fun c hc => List.eq_of_mem_replicate (hp'.subset hc)
          refine few (V.f .camber) us (fileLines p') _ ?_ ?_ (by omega) ?_
          · rw [fileLines_unlines_append hnl]
            simp [Config.Grp.lines, core]
          · rw [hrep']
            cases p'.length with
            | zero => exact Or.inl rfl
            | succ j =>
              right
              exact ⟨List.replicate (j + 1) ' ', fileLines_line (nl_blanks _) (by simp [List.replicate_succ]),
                strip_spaces (Config.replicate_space _)⟩
          · intro w hw
            exact ⟨(hgu w hw).2, w, hsub w hw, List.prefix_refl _⟩
    · intro w nl hw hp hnl'
      rw [List.append_assoc]
      refine enough w [] _ (V.f .camber) (us ++ [w]) (by rw [hus]; simp) ?_ rfl hw hp
      have hno : '\n' ∉ List.replicate 33 ' ' ++ w := by
        simp only [List.mem_append, not_or]
        exact ⟨nl_blanks 33, (hxn.prefix hp).no_nl⟩
      rw [List.append_assoc, fileLines_unlines_append hnl, List.append_nil]
      have : fileLines (List.replicate 33 ' ' ++ (w ++ nl)) = [List.replicate 33 ' ' ++ w] := by
        rcases hnl' with rfl | ⟨rfl, _⟩
        · rw [List.append_nil, fileLines_line hno (by simp [hw])]
        · rw [show List.replicate 33 ' ' ++ (w ++ ['\n']) = unlines [List.replicate 33 ' ' ++ w] from by
            simp [unlines_cons, unlines_nil], fileLines_unlines (by simpa using hno)]
      rw [this, core_eq, core_eq]
      simp

private theorem last_of {pf : ParamFile} (hne : pf.NonEmpty) : ∃ ds x, pf.deformations .camber = ds ++ [x] := by
  rcases (pf.deformations .camber).eq_nil_or_concat' with h | ⟨ds, x, h⟩
  · exact absurd h (hne.deformations .camber)
  · exact ⟨ds, x, h⟩

/-- **C123**: of a written file, a part that ends before the first character of the last number cannot be read: an exception
is raised. -/
theorem C123_early (C : Codec) (hC : C.Lawful) (pf : ParamFile) (hc : pf.Consistent) (hne : pf.NonEmpty)
    (hrep : pf.Representable C) (t rest : Str) (ht : t ++ rest = text C pf.filled) (ds : Arr) (x : ℝ)
    (hd : pf.deformations .camber = ds ++ [x]) (hl : (C.fmt x).length < rest.length) :
    ∃ e, readText C t = .error e ∧ (e = .parseError ∨ e = .valueError) := by
  obtain ⟨a, h1, h2, _⟩ := cut hC hc hne hrep hd
  rw [h1] at ht
  have hle : t.length ≤ a.length := by
    have := congrArg List.length ht
    simp only [List.length_append, List.length_cons, List.length_nil] at this
    omega
  have hp : t <+: a := by
    rcases List.append_eq_append_iff.1 ht with ⟨c, e, _⟩ | ⟨c, e, _⟩
    · exact ⟨c, e.symm⟩
    · have : c = [] := by
        have := congrArg List.length e
        simp only [List.length_append] at this
        exact List.length_eq_zero_iff.1 (by omega)
      rw [e, this, List.append_nil]
  obtain ⟨e, he⟩ := h2 t hp
  exact ⟨e, he, C41_errors C t e he⟩

/-- **C123**: a part that ends later is read as the number spelt by the characters that are there: if they spell a number the
read succeeds, with that number as the last deformation of the camber and everything else as written; if not, `ValueError`
is raised. -/
theorem C123_late (C : Codec) (hC : C.Lawful) (pf : ParamFile) (hc : pf.Consistent) (hne : pf.NonEmpty)
    (hrep : pf.Representable C) (t rest : Str) (ht : t ++ rest = text C pf.filled) (ds : Arr) (x : ℝ)
    (hd : pf.deformations .camber = ds ++ [x]) (hl : rest.length ≤ (C.fmt x).length) :
    readText C t = (match C.parse ((C.fmt x).take ((C.fmt x).length + 1 - rest.length)) with
      | some y => .ok (pf.filled.setLast y)
      | none => .error .valueError) := by
  obtain ⟨a, h1, _, h3⟩ := cut hC hc hne hrep hd
  rw [h1] at ht
  have hx0 : C.fmt x ≠ [] := hC.fmt_ne x (hrep.deformations .camber x (by rw [hd]; simp))
  have hx1 : 0 < (C.fmt x).length := List.length_pos_iff.2 hx0
  have hle : a.length < t.length := by
    have := congrArg List.length ht
    simp only [List.length_append, List.length_cons, List.length_nil] at this
    omega
  obtain ⟨c, e, hr⟩ : ∃ c, t = a ++ c ∧ C.fmt x ++ ['\n'] = c ++ rest := by
    rcases List.append_eq_append_iff.1 ht with ⟨c, e, _⟩ | ⟨c, e, e2⟩
    · have := congrArg List.length e
      simp only [List.length_append] at this
      omega
    · exact ⟨c, e, e2⟩
  subst e
  have hlen := congrArg List.length hr
  simp only [List.length_append, List.length_cons, List.length_nil] at hlen hle
  by_cases h0 : rest = []
  · subst h0
    rw [List.append_nil] at hr
    rw [List.take_of_length_le (by simp)]
    have := h3 (C.fmt x) ['\n'] hx0 (List.prefix_refl _) (Or.inr ⟨rfl, rfl⟩)
    rw [hr] at this
    exact this
  · have hr1 : 0 < rest.length := List.length_pos_iff.2 h0
    have hc' : c = (C.fmt x).take ((C.fmt x).length + 1 - rest.length) := by
      have h5 : c = (C.fmt x ++ ['\n']).take c.length := by rw [hr, List.take_left']; rfl
      rw [h5, List.take_append_of_le_length (by omega)]
      congr 1
      omega
    have hcp : c <+: C.fmt x := by rw [hc']; exact List.take_prefix _ _
    have hcn : c ≠ [] := by
      intro e
      subst e
      simp at hlen hle
    have := h3 c [] hcn hcp (Or.inl rfl)
    rw [List.append_nil] at this
    rw [this, ← hc']

/-- **C123**: losing only the final newline loses nothing. -/
theorem C123_newline (C : Codec) (hC : C.Lawful) (pf : ParamFile) (hc : pf.Consistent) (hne : pf.NonEmpty)
    (hrep : pf.Representable C) (t rest : Str) (ht : t ++ rest = text C pf.filled) (hl : rest.length ≤ 1) :
    readText C t = .ok pf.filled := by
  obtain ⟨ds, x, hd⟩ := last_of hne
  have hx := hrep.deformations .camber x (by rw [hd]; simp)
  have hx1 : 0 < (C.fmt x).length := List.length_pos_iff.2 (hC.fmt_ne x hx)
  rw [C123_late C hC pf hc hne hrep t rest ht ds x hd (by omega), List.take_of_length_le (by omega), hC.parse_fmt x hx]
  simp only
  congr 1
  unfold setLast filled
  congr 1
  funext p
  by_cases hp : p = .camber
  · subst hp; simp [hd]
  · simp [hp]

/-- **C123**: whatever part of a written file is left, reading it either raises an exception of the config parser or
`ValueError`, or gives all the parameters that were being written, but for the last deformation of the camber, which may be
the number spelt by the first characters of its text. -/
theorem C123_interrupted (C : Codec) (hC : C.Lawful) (pf : ParamFile) (hc : pf.Consistent) (hne : pf.NonEmpty)
    (hrep : pf.Representable C) (t : Str) (ht : t <+: text C pf.filled) :
    (∃ e, readText C t = .error e ∧ (e = .parseError ∨ e = .valueError)) ∨
      ∃ q, readText C t = .ok q ∧ SameButLast C pf.filled q := by
  obtain ⟨ds, x, hd⟩ := last_of hne
  obtain ⟨rest, ht⟩ := ht
  by_cases hl : (C.fmt x).length < rest.length
  · exact Or.inl (C123_early C hC pf hc hne hrep t rest ht ds x hd hl)
  · have hx1 : 0 < (C.fmt x).length := List.length_pos_iff.2 (hC.fmt_ne x (hrep.deformations .camber x (by rw [hd]; simp)))
    have hlate := C123_late C hC pf hc hne hrep t rest ht ds x hd (by omega)
    rcases hp : C.parse ((C.fmt x).take ((C.fmt x).length + 1 - rest.length)) with _ | y
    · rw [hp] at hlate
      exact Or.inl ⟨_, hlate, Or.inr rfl⟩
    · rw [hp] at hlate
      refine Or.inr ⟨_, hlate, rfl, rfl, rfl, rfl, rfl, ?_, ds, x, y, _, hd, ?_, ?_, List.take_prefix _ _, hp⟩
      · intro p hp; simp [setLast, hp]
      · show (pf.filled.setLast y).deformations .camber = ds ++ [y]
        simp [setLast, filled, hd]
      · intro e
        have := congrArg List.length e
        simp only [List.length_take, List.length_nil] at this
        omega

/-- **C123**: when the process dies in `write_parameters`, no other file has changed, and the file is as it was, or every
later read of it raises, or gives the parameters that were being written up to the last number. -/
theorem C123_crash (C : Codec) (hC : C.Lawful) (fs fs' : FS) (path : Str) (pf : ParamFile) (hne : pf.NonEmpty)
    (hrep : pf.Representable C) (h : Interrupted C fs path pf fs') :
    fs' = fs ∨ (∀ q, q ≠ path → fs' q = fs q) ∧
      ((∃ e, ∀ other, readParameters C fs' path other = (fs', .error e)) ∨
        ∃ q, SameButLast C pf.filled q ∧ ∀ other, readParameters C fs' path other = (fs', .ok q)) := by
  cases h with
  | before => exact Or.inl rfl
  | during pf' t hpf ht =>
    right
    have hc : pf.Consistent := by
      by_contra hc
      rw [C42_rejects pf hc] at hpf; cases hpf
    rw [C42_accepts pf hc] at hpf
    obtain rfl := Except.ok.inj hpf
    refine ⟨fun q hq => by simp [hq], ?_⟩
    rcases C123_interrupted C hC pf hc hne hrep t ht with ⟨e, he, _⟩ | ⟨q, hq, hs⟩
    · refine Or.inl ⟨e, fun other => ?_⟩
      unfold readParameters
      simp only [if_true]
      rw [he]
    · refine Or.inr ⟨q, hs, fun other => ?_⟩
      unfold readParameters
      simp only [if_true]
      rw [hq]

/-- **C123**: the old contents are not kept until the new ones are there: a crash right after the `open` leaves a file that
every read refuses, whatever the file held before. -/
theorem C123_old_lost (C : Codec) (fs : FS) (path : Str) (pf : ParamFile) (hc : pf.Consistent) :
    ∃ fs', Interrupted C fs path pf fs' ∧ fs' path = some [] ∧
      ∀ other, readParameters C fs' path other = (fs', .error .parseError) := by
  refine ⟨_, Interrupted.during pf.filled [] (C42_accepts pf hc) (List.nil_prefix), by simp, fun other => ?_⟩
  unfold readParameters
  simp only [if_true]
  rfl

/-- **C123**: the wrong number is not noticed: if the first characters of the text of the last number spell another number,
some crash leaves a file that is read without error as that other number. -/
theorem C123_silent (C : Codec) (hC : C.Lawful) (fs : FS) (path : Str) (pf : ParamFile) (hc : pf.Consistent) (hne : pf.NonEmpty)
    (hrep : pf.Representable C) (ds : Arr) (x y : ℝ) (hd : pf.deformations .camber = ds ++ [x]) (w : Str) (hw : w ≠ [])
    (hp : w <+: C.fmt x) (hy : C.parse w = some y) :
    ∃ fs', Interrupted C fs path pf fs' ∧ ∀ other, readParameters C fs' path other = (fs', .ok (pf.filled.setLast y)) := by
  obtain ⟨a, h1, _, h3⟩ := cut hC hc hne hrep hd
  have hr := h3 w [] hw hp (Or.inl rfl)
  rw [List.append_nil, hy] at hr
  refine ⟨_, Interrupted.during pf.filled (a ++ w) (C42_accepts pf hc) ?_, fun other => ?_⟩
  · rw [h1]
    obtain ⟨r, hr⟩ := hp
    exact ⟨r ++ ['\n'], by rw [← hr]; simp⟩
  · unfold readParameters
    simp only [if_true]
    rw [hr]

/-- Two radii, a camber spline with two control points moved by 0.5 and 1.2. -/
def sample2 : ParamFile where
  radii := some [0.5, 1]
  parameters := fun p => if p = .chord then some [0.3, -0.2] else none
  nbasis := fun p => if p = .camber then 2 else 1
  degree := fun _ => 3
  npoints := fun _ => 50
  deformations := fun p => if p = .camber then [0.5, 1.2] else [0.5]

theorem sample2_ok : sample2.Consistent ∧ sample2.NonEmpty ∧ sample2.Representable tenths := by
  refine ⟨⟨⟨_, rfl, ?_⟩, ?_⟩, ⟨by simp [sample2], ?_⟩, ?_, ?_, ?_, ⟨0, by norm_num⟩⟩
  · intro p v hv
    simp only [sample2] at hv
    split at hv
    · obtain rfl := Option.some.inj hv; rfl
    · cases hv
  · intro p; cases p <;> simp [sample2]
  · intro p; cases p <;> simp [sample2]
  · intro r hr x hx
    obtain rfl := Option.some.inj hr
    simp only [List.mem_cons, List.not_mem_nil, or_false] at hx
    rcases hx with rfl | rfl
    · exact ⟨5, by norm_num⟩
    · exact ⟨10, by norm_num⟩
  · intro p v hv x hx
    simp only [sample2] at hv
    split at hv
    · obtain rfl := Option.some.inj hv
      simp only [List.mem_cons, List.not_mem_nil, or_false] at hx
      rcases hx with rfl | rfl
      · exact ⟨3, by norm_num⟩
      · exact ⟨-2, by norm_num⟩
    · cases hv
  · intro p x hx
    have : x = 0.5 ∨ x = 1.2 := by
      simp only [sample2] at hx
      split at hx
      · simpa using hx
      · left; simpa using hx
    rcases this with rfl | rfl
    · exact ⟨5, by norm_num⟩
    · exact ⟨12, by norm_num⟩

private theorem fmt12 : tenths.fmt 1.2 = ['2', '1'] := by
  have : ⌊(10 : ℝ) * 1.2⌋ = 12 := by norm_num
  simp only [tenths, this]
  show natText 12 = _
  unfold natText
  norm_num

/-- A file of `sample2` that lost its last two characters (a digit and the newline) is read, with 0.2 for 1.2 (the codec
writes the digits backwards). -/
example (fs : FS) (path : Str) : ∃ fs', Interrupted tenths fs path sample2 fs' ∧
    ∃ q, (∀ other, readParameters tenths fs' path other = (fs', .ok q)) ∧ q.deformations .camber = [0.5, 0.2] := by
  obtain ⟨h1, h2, h3⟩ := sample2_ok
  obtain ⟨fs', h4, h5⟩ := C123_silent tenths tenths_lawful fs path sample2 h1 h2 h3 [0.5] 1.2 0.2 rfl ['2'] (by simp)
    (by rw [fmt12]; exact ⟨['1'], rfl⟩) (by
      have : intValue ['2'] = 2 := by decide
      simp only [tenths, this]; norm_num)
  exact ⟨fs', h4, _, h5, by simp [setLast, filled, sample2]⟩

example (t rest : Str) (ht : t ++ rest = text tenths sample2.filled) (hl : rest.length = 3) :
    ∃ e, readText tenths t = .error e := by
  obtain ⟨h1, h2, h3⟩ := sample2_ok
  obtain ⟨e, he, _⟩ := C123_early tenths tenths_lawful sample2 h1 h2 h3 t rest ht [0.5] 1.2 rfl (by rw [fmt12, hl]; simp)
  exact ⟨e, he⟩

example (t rest : Str) (ht : t ++ rest = text tenths sample2.filled) (hl : rest.length = 1) :
    readText tenths t = .ok sample2.filled := by
  obtain ⟨h1, h2, h3⟩ := sample2_ok
  exact C123_newline tenths tenths_lawful sample2 h1 h2 h3 t rest ht (by omega)

end ParamFile
end
end BladeX
