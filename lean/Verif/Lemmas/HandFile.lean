import Verif.Lemmas.ParamFile
import Verif.Spec.HandFile

namespace BladeX
noncomputable section
open Config
namespace HandFile

theorem Blanks.space {s : Str} (h : Blanks s) : ∀ c ∈ s, isSpace c = true := by
  intro c hc
  rcases h c hc with rfl | rfl <;> decide

theorem Blanks.no_nl {s : Str} (h : Blanks s) : '\n' ∉ s := by
  intro hm
  rcases h _ hm with e | e <;> revert e <;> decide

theorem Tight.strip {s : Str} (h : Tight s) : strip s = s := strip_id h.head h.last

theorem strip_right {s a : Str} (h : ∀ c ∈ a, isSpace c = true) : strip (s ++ a) = strip s := by
  by_cases hs : ∀ c ∈ s, isSpace c = true
  · have e1 : (s ++ a).dropWhile isSpace = [] := by
      rw [dropWhile_all hs]; simpa using dropWhile_all (s := []) h
    have e2 : s.dropWhile isSpace = [] := by simpa using dropWhile_all (s := []) hs
    unfold BladeX.strip
    rw [e1, e2]
  · unfold BladeX.strip
    have : (s ++ a).dropWhile isSpace = s.dropWhile isSpace ++ a := by
      rw [List.dropWhile_append]
      rcases he : s.dropWhile isSpace with _ | ⟨c, t⟩
      · exact absurd (all_of_dropWhile_nil he) hs
      · simp
    rw [this, rstrip_blanks h]

theorem strip_blank {s : Str} (h : ∀ c ∈ s, isSpace c = true) : strip s = [] := by
  have := strip_blanks (s := []) h
  rw [List.append_nil] at this
  rw [this]; rfl

theorem strip_head {c : Char} {t : Str} (h : isSpace c = false) : (strip (c :: t)).head? = some c := by
  unfold BladeX.strip
  rw [List.dropWhile_cons_of_neg (by simp [h])]
  unfold rstrip
  rw [List.reverse_cons]
  rcases hd : t.reverse.dropWhile isSpace with _ | ⟨a, u⟩
  · rw [dropWhile_all (all_of_dropWhile_nil hd), List.dropWhile_cons_of_neg (by simp [h])]; rfl
  · have : (t.reverse ++ [c]).dropWhile isSpace = (a :: u) ++ [c] := by
      rw [List.dropWhile_append, hd]; simp
    rw [this]; simp

theorem Piece.Good.no_nl {p : Piece} (h : p.Good) : '\n' ∉ p.line := by
  cases p with
  | comment b m t =>
    obtain ⟨h1, h2, h3⟩ := h
    simp only [Piece.line, List.mem_append, List.mem_cons, not_or]
    refine ⟨h1.no_nl, ?_, h3⟩
    rcases h2 with rfl | rfl <;> decide
  | empty b => exact Blanks.no_nl h
  | value b v a =>
    obtain ⟨h1, _, h3, _, _, _, h4⟩ := h
    simp only [Piece.line, List.mem_append, not_or]
    exact ⟨⟨h1.no_nl, h3.line⟩, h4.no_nl⟩

theorem step_comment' {st : St} {b t : Str} {m : Char} (hb : Blanks b) (hm : m = '#' ∨ m = ';') :
    step st (b ++ m :: t) = .ok st := by
  unfold step
  simp only
  have : (strip (b ++ m :: t)).head? = some m := by
    rw [strip_blanks hb.space, strip_head (by rcases hm with rfl | rfl <;> decide)]
  rw [if_pos (by rw [this]; rcases hm with rfl | rfl <;> simp)]

/-- A line that is not an option or a value, before any option. -/
theorem step_idle {st : St} (h : st.opt = none) {p : Piece} (hp : p.Good) (hi : p.idle) : step st p.line = .ok st := by
  cases p with
  | comment b m t => exact step_comment' hp.1 hp.2.1
  | empty b =>
    unfold step
    simp only [Piece.line, strip_blank (Blanks.space hp)]
    rcases hc : st.cur with _ | s <;> simp [h]
  | value b v a => exact absurd hi id

theorem run_idle {st : St} (h : st.opt = none) : ∀ (ps : List Piece), (∀ p ∈ ps, p.Good ∧ p.idle) →
    List.foldlM step st (ps.map Piece.line) = .ok st := by
  intro ps
  induction ps with
  | nil => intro _; simp [pure, Except.pure]
  | cons p ps ih =>
    intro hf
    obtain ⟨a, b⟩ := hf p (by simp)
    rw [List.map_cons, List.foldlM_cons, step_idle h a b]
    simp only [bind, Except.bind]
    exact ih fun x hx => hf x (by simp [hx])

theorem step_piece {st : St} {s o : Str} {vals : List Str} (hc : st.cur = some s) (ho : st.opt = some o)
    (hi : st.indent = 0) {p : Piece} (hp : p.Good) :
    step (st.put s o vals) p.line = .ok (st.put s o (vals ++ p.says)) := by
  cases p with
  | comment b m t => rw [Piece.line, step_comment' hp.1 hp.2.1]; simp [Piece.says]
  | empty b =>
    have e : strip b = [] := strip_blank (Blanks.space hp)
    have hc' : (st.put s o vals).cur = some s := hc
    have ho' : (st.put s o vals).opt = some o := ho
    unfold step
    simp only [Piece.line, Piece.says, e, hc', ho', put_store]
    simp [put_put]
  | value b v a =>
    obtain ⟨h1, h2, h3, h4, h5, h6, h7⟩ := hp
    have e : strip (b ++ v ++ a) = v := by rw [strip_right h7.space, strip_blanks h1.space, h3.strip]
    have hlen : 0 < ((b ++ v ++ a).takeWhile isSpace).length := by
      cases b with
      | nil => exact absurd rfl h2
      | cons c b =>
        rw [List.cons_append, List.cons_append, List.takeWhile_cons_of_pos (h1.space c (by simp))]; simp
    have hc' : (st.put s o vals).cur = some s := hc
    have ho' : (st.put s o vals).opt = some o := ho
    have hi' : (st.put s o vals).indent = 0 := hi
    unfold step
    simp only [Piece.line, Piece.says, e]
    rw [if_neg (by simp [h5, h6]), if_neg h4]
    simp only [hc', ho', hi', hlen, if_true, put_store]
    simp [put_put]

theorem run_pieces {st : St} {s o : Str} (hc : st.cur = some s) (ho : st.opt = some o) (hi : st.indent = 0) :
    ∀ (ps : List Piece) (vals : List Str), (∀ p ∈ ps, p.Good) →
      List.foldlM step (st.put s o vals) (ps.map Piece.line) = .ok (st.put s o (vals ++ (ps.map Piece.says).flatten)) := by
  intro ps
  induction ps with
  | nil => intro vals _; simp [pure, Except.pure]
  | cons p ps ih =>
    intro vals h
    rw [List.map_cons, List.foldlM_cons, step_piece hc ho hi (h p (by simp))]
    simp only [bind, Except.bind]
    rw [ih _ fun x hx => h x (by simp [hx])]
    simp

/-- The stored lines of an option. -/
def Opt.stored (o : Opt) : List Str := o.v :: (o.rest.map Piece.says).flatten

theorem step_first' {st : St} {s : Str} (hc : st.cur = some s) {o : Opt} (ho : o.Good) :
    step st (o.name ++ o.l ++ o.d :: (o.r ++ o.v ++ o.e)) = if (st.store s (lower o.name)).isSome then .error .parseError else
      .ok { (st.put s (lower o.name) [o.v]) with indent := 0, opt := some (lower o.name) } := by
  obtain ⟨c, t, hp⟩ := List.exists_cons_of_ne_nil ho.name_ne
  have c1 : isSpace c = false := ho.name.head c (by rw [hp]; rfl)
  have c2 : c ≠ '#' ∧ c ≠ ';' ∧ c ≠ '[' := by
    have := ho.name_head
    rw [hp] at this
    simpa using this
  have hdl : isDelim o.d = true := by rcases ho.d with e | e <;> rw [e] <;> decide
  have hdsp : isSpace o.d = false := by rcases ho.d with e | e <;> rw [e] <;> decide
  -- the line without its trailing blanks
  obtain ⟨u, hu⟩ : ∃ u, strip (o.name ++ o.l ++ o.d :: (o.r ++ o.v ++ o.e)) = o.name ++ o.l ++ o.d :: u ∧ strip u = o.v := by
    have e1 : strip (o.name ++ o.l ++ o.d :: (o.r ++ o.v ++ o.e)) = strip (o.name ++ o.l ++ o.d :: (o.r ++ o.v)) := by
      rw [show o.name ++ o.l ++ o.d :: (o.r ++ o.v ++ o.e) = (o.name ++ o.l ++ o.d :: (o.r ++ o.v)) ++ o.e by simp,
        strip_right ho.e.space]
    have hd0 : ∀ (w : Str) c', (o.name ++ o.l ++ o.d :: w).head? = some c' → isSpace c' = false := by
      intro w c' h
      rw [hp] at h
      obtain rfl : c = c' := by simpa using h
      exact c1
    by_cases hv : o.v = []
    · refine ⟨[], ?_, by rw [hv]; rfl⟩
      rw [e1, hv, show o.name ++ o.l ++ o.d :: (o.r ++ []) = (o.name ++ o.l ++ [o.d]) ++ o.r by simp, strip_right ho.r.space]
      apply strip_id (hd0 [])
      intro c' h
      rw [List.getLast?_append] at h
      obtain rfl : o.d = c' := by simpa using h
      exact hdsp
    · refine ⟨o.r ++ o.v, ?_, by rw [strip_blanks ho.r.space, ho.v.strip]⟩
      rw [e1]
      apply strip_id (hd0 _)
      intro c' h
      rw [List.getLast?_append, List.getLast?_cons, List.getLast?_append] at h
      rcases hl : o.v.getLast? with _ | y
      · rw [List.getLast?_eq_none_iff] at hl; exact absurd hl hv
      · rw [hl] at h
        obtain rfl : y = c' := by simpa using h
        exact ho.v.last y hl
  obtain ⟨hu, hv⟩ := hu
  unfold step
  simp only [hu]
  have hhead : (o.name ++ o.l ++ o.d :: u).head? = some c := by rw [hp]; rfl
  have hind : ((o.name ++ o.l ++ o.d :: (o.r ++ o.v ++ o.e)).takeWhile isSpace).length = 0 := by
    rw [hp, List.cons_append, List.cons_append, List.takeWhile_cons_of_neg (by simp [c1])]; rfl
  rw [if_neg (by rw [hhead]; simp [c2.1, c2.2.1]), if_neg (by rw [hp]; simp), hind]
  simp only [Nat.not_lt_zero, if_false]
  have hsec : sectHeader (o.name ++ o.l ++ o.d :: u) = none := by
    rw [hp, List.cons_append, List.cons_append]
    unfold sectHeader
    split
    · rename_i heq; simp only [List.cons.injEq] at heq; exact absurd heq.1 c2.2.2
    · rfl
  have hopt : optSplit (o.name ++ o.l ++ o.d :: u) = some (o.name, o.v) := by
    unfold optSplit
    have h1 : ∀ c ∈ o.name ++ o.l, (!isDelim c) = true := by
      intro c hc
      rw [List.mem_append] at hc
      rcases hc with hc | hc
      · have := ho.name_delim c hc
        simp [isDelim, this.1, this.2]
      · rcases ho.l c hc with rfl | rfl <;> decide
    rw [dropWhile_all h1, List.dropWhile_cons_of_neg (by simp [hdl])]
    have h2 : (o.name ++ o.l ++ o.d :: u).takeWhile (fun c => !isDelim c) = o.name ++ o.l := by
      rw [List.takeWhile_append_of_pos h1, List.takeWhile_cons_of_neg (by simp [hdl])]; simp
    simp only [h2]
    rw [rstrip_blanks ho.l.space, rstrip_id ho.name.last, hv]
  rw [hsec, hc]
  simp only [hopt]
  rw [if_neg ho.name_ne]

theorem step_first {st : St} {s : Str} (hc : st.cur = some s) {o : Opt} (ho : o.Good) (hfree : st.store s (lower o.name) = none) :
    step st (o.name ++ o.l ++ o.d :: (o.r ++ o.v ++ o.e)) =
      .ok (({ st with indent := 0, opt := some (lower o.name) } : St).put s (lower o.name) [o.v]) := by
  rw [step_first' hc ho, hfree]
  simp [put_eta, hc]

theorem run_opt {st : St} {s : Str} (hc : st.cur = some s) {o : Opt} (ho : o.Good) (hfree : st.store s (lower o.name) = none) :
    List.foldlM step st o.lines =
      .ok (({ st with indent := 0, opt := some (lower o.name) } : St).put s (lower o.name) o.stored) := by
  unfold Opt.lines
  rw [List.foldlM_cons, step_first hc ho hfree]
  simp only [bind, Except.bind]
  rw [run_pieces (st := { st with indent := 0, opt := some (lower o.name) }) hc rfl rfl o.rest _ ho.rest]
  rfl

theorem run_opts {s : Str} : ∀ (gs : List Opt) (st : St), st.cur = some s → (∀ g ∈ gs, g.Good) →
    (∀ g ∈ gs, st.store s (lower g.name) = none) → (gs.map (fun o => lower o.name)).Nodup →
    ∃ st', List.foldlM step st (gs.map Opt.lines).flatten = .ok st' ∧ st'.cur = some s ∧ st'.secs = st.secs ∧
      (∀ g ∈ gs, st'.store s (lower g.name) = some g.stored) ∧
      ∀ s' o', ¬ (s' = s ∧ o' ∈ gs.map (fun o => lower o.name)) → st'.store s' o' = st.store s' o' := by
  intro gs
  induction gs with
  | nil => intro st hc _ _ _; exact ⟨st, by simp [pure, Except.pure], hc, rfl, by simp, by simp⟩
  | cons g gs ih =>
    intro st hc hg hf hn
    rw [List.map_cons, List.nodup_cons] at hn
    rw [List.map_cons, List.flatten_cons, List.foldlM_append, run_opt hc (hg g (by simp)) (hf g (by simp))]
    simp only [bind, Except.bind]
    obtain ⟨st', h1, h2, h3, h4, h5⟩ := ih (({ st with indent := 0, opt := some (lower g.name) } : St).put s (lower g.name) g.stored)
      hc (fun x hx => hg x (by simp [hx]))
      (by
        intro x hx
        rw [put_other _ _ (by rintro ⟨_, e⟩; exact hn.1 (List.mem_map.2 ⟨x, hx, e⟩))]
        exact hf x (by simp [hx])) hn.2
    refine ⟨st', h1, h2, h3, ?_, ?_⟩
    · intro x hx
      rcases List.mem_cons.1 hx with rfl | hx
      · rw [h5 _ _ (by rintro ⟨_, e⟩; exact hn.1 e), put_store]
      · exact h4 x hx
    · intro s' o' hno
      rw [h5 _ _ (by rintro ⟨a, b⟩; exact hno ⟨a, by simp only [List.map_cons, List.mem_cons]; exact Or.inr b⟩),
        put_other _ _ (by rintro ⟨a, b⟩; exact hno ⟨a, by simp [b]⟩)]

theorem step_head' {st : St} {n e : Str} (hne : n ≠ []) (hd : n ≠ defaultName) (he : Blanks e) :
    step st ('[' :: (n ++ ']' :: e)) = if n ∈ st.secs then .error .parseError else
      .ok { st with indent := 0, secs := n :: st.secs, cur := some n, opt := none } := by
  have e1 : step st ('[' :: (n ++ ']' :: e)) = step st ('[' :: (n ++ [']'])) := by
    have hs : strip ('[' :: (n ++ ']' :: e)) = strip ('[' :: (n ++ [']'])) := by
      rw [show '[' :: (n ++ ']' :: e) = ('[' :: (n ++ [']'])) ++ e by simp, strip_right he.space]
    unfold step
    simp only [hs]
    rw [List.takeWhile_cons_of_neg (by decide), List.takeWhile_cons_of_neg (by decide)]
  rw [e1, step_header' hne hd]

theorem step_head {st : St} {n e : Str} (hne : n ≠ []) (hd : n ≠ defaultName) (he : Blanks e) (hnew : n ∉ st.secs) :
    step st ('[' :: (n ++ ']' :: e)) = .ok { st with indent := 0, secs := n :: st.secs, cur := some n, opt := none } := by
  rw [step_head' hne hd he, if_neg hnew]

theorem run_secs : ∀ (ss : List Section) (st : St), (∀ s ∈ ss, s.Good) → (∀ s ∈ ss, s.name ∉ st.secs) →
    (∀ s ∈ ss, ∀ o, st.store s.name o = none) → (ss.map (·.name)).Nodup →
    ∃ st', List.foldlM step st (ss.map Section.lines).flatten = .ok st' ∧
      (∀ s ∈ ss, s.name ∈ st'.secs ∧ (∀ g ∈ s.opts, st'.store s.name (lower g.name) = some g.stored) ∧
        ∀ o, o ∉ s.opts.map (fun o => lower o.name) → st'.store s.name o = none) ∧
      (∀ n, n ∈ st'.secs ↔ n ∈ ss.map (·.name) ∨ n ∈ st.secs) ∧
      (∀ s' o', s' ∉ ss.map (·.name) → st'.store s' o' = st.store s' o') ∧
      st'.cur = (ss.getLast?.map (·.name)).or st.cur := by
  intro ss
  induction ss with
  | nil => intro st _ _ _ _; exact ⟨st, by simp [pure, Except.pure], by simp, by simp, by simp, by simp⟩
  | cons s ss ih =>
    intro st hg hnew hfree hn
    rw [List.map_cons, List.nodup_cons] at hn
    have gs := hg s (by simp)
    rw [List.map_cons, List.flatten_cons, List.foldlM_append]
    conv => rhs; ext st'; rw [Section.lines, List.foldlM_cons, step_head gs.name.1 gs.name.2.1 gs.e (hnew s (by simp))]
    simp only [bind, Except.bind]
    set st1 : St := { st with indent := 0, secs := s.name :: st.secs, cur := some s.name, opt := none } with hst1
    obtain ⟨st2, a1, a2, a3, a4, a5⟩ := run_opts (s := s.name) s.opts st1 rfl gs.opts
      (fun g _ => hfree s (by simp) (lower g.name)) gs.names
    have hfirst : List.foldlM step st1 (s.pre.map Piece.line ++ (s.opts.map Opt.lines).flatten) = .ok st2 := by
      rw [List.foldlM_append, run_idle (st := st1) rfl s.pre gs.pre]
      simp only [bind, Except.bind]
      exact a1
    rw [hfirst]
    simp only
    have nin : ∀ t ∈ ss, t.name ≠ s.name := fun t ht e => hn.1 (List.mem_map.2 ⟨t, ht, e⟩)
    obtain ⟨st', b1, b2, b3, b4, b5⟩ := ih st2 (fun t ht => hg t (by simp [ht]))
      (by
        intro t ht
        rw [a3, hst1]
        simp only [List.mem_cons, not_or]
        exact ⟨nin t ht, hnew t (by simp [ht])⟩)
      (by
        intro t ht o
        rw [a5 _ _ (fun e => nin t ht e.1)]
        exact hfree t (by simp [ht]) o) hn.2
    refine ⟨st', b1, ?_, ?_, ?_, ?_⟩
    · intro t ht
      rcases List.mem_cons.1 ht with rfl | ht
      · refine ⟨(b3 _).2 (Or.inr (by rw [a3, hst1]; simp)), fun g hgm => ?_, fun o ho => ?_⟩
        · rw [b4 _ _ hn.1]
          exact a4 g hgm
        · rw [b4 _ _ hn.1, a5 _ _ (fun e => ho e.2)]
          exact hfree t (by simp) o
      · exact b2 t ht
    · intro n
      rw [b3, a3, hst1]
      simp only [List.mem_cons, List.map_cons]
      tauto
    · intro s' o' hno
      rw [List.map_cons, List.mem_cons, not_or] at hno
      rw [b4 _ _ hno.2, a5 _ _ (fun e => hno.1 e.1)]
    · rw [b5, a2, List.getLast?_cons]
      cases ss.getLast? <;> simp

theorem File.Good.no_nl {F : File} (h : F.Good) : ∀ l ∈ F.lines, '\n' ∉ l := by
  intro l hl
  simp only [File.lines, List.mem_append, List.mem_map, List.mem_flatten] at hl
  rcases hl with ⟨p, hp, rfl⟩ | ⟨_, ⟨s, hs, rfl⟩, hl⟩
  · exact (h.pre p hp).1.no_nl
  · have hg := h.secs s hs
    simp only [Section.lines, List.mem_cons, List.mem_append, List.mem_map, List.mem_flatten] at hl
    rcases hl with rfl | ⟨p, hp, rfl⟩ | ⟨_, ⟨o, ho, rfl⟩, hl⟩
    · simp only [List.mem_cons, List.mem_append, not_or]
      exact ⟨by decide, hg.name.2.2, by decide, hg.e.no_nl⟩
    · exact (hg.pre p hp).1.no_nl
    · have og := hg.opts o ho
      simp only [Opt.lines, List.mem_cons, List.mem_map] at hl
      rcases hl with rfl | ⟨p, hp, rfl⟩
      · simp only [List.mem_cons, List.mem_append, not_or]
        refine ⟨⟨og.name.line, og.l.no_nl⟩, ?_, ⟨og.r.no_nl, og.v.line⟩, og.e.no_nl⟩
        rcases og.d with e | e <;> rw [e] <;> decide
      · exact (og.rest p hp).no_nl

theorem read_file {F : File} (h : F.Good) : ∃ st, Config.read F.text = .ok st ∧
    (∀ s ∈ F.secs, s.name ∈ st.secs ∧ (∀ g ∈ s.opts, st.store s.name (lower g.name) = some g.stored) ∧
      ∀ o, o ∉ s.opts.map (fun o => lower o.name) → st.store s.name o = none) ∧
    (∀ n, n ∈ st.secs ↔ n ∈ F.secs.map (·.name)) ∧ ∀ o, st.store defaultName o = none := by
  obtain ⟨st, h1, h2, h3, h4, -⟩ := run_secs F.secs {} h.secs (by simp) (by simp) h.names
  refine ⟨st, ?_, h2, by simpa using h3, fun o => ?_⟩
  · unfold Config.read File.text
    rw [show (F.lines.map (· ++ ['\n'])).flatten = unlines F.lines from rfl, fileLines_unlines h.no_nl, File.lines,
      List.foldlM_append, run_idle rfl F.pre h.pre]
    simp only [bind, Except.bind]
    exact h1
  · rw [h4]
    intro hm
    obtain ⟨s, hs, e⟩ := List.mem_map.1 hm
    exact (h.secs s hs).name.2.1 e

/-- The value of an option. -/
theorem Opt.Good.stored_tight {o : Opt} (h : o.Good) : ∀ v ∈ o.stored, Tight v := by
  intro v hv
  simp only [Opt.stored, List.mem_cons, List.mem_flatten, List.mem_map] at hv
  rcases hv with rfl | ⟨_, ⟨p, hp, rfl⟩, hv⟩
  · exact h.v
  · have g := h.rest p hp
    cases p with
    | comment b m t => simp [Piece.says] at hv
    | empty b =>
      obtain rfl : v = [] := by simpa [Piece.says] using hv
      exact ⟨by simp, by simp, by simp⟩
    | value b w a =>
      obtain rfl : v = w := by simpa [Piece.says] using hv
      exact g.2.2.1

theorem tail_split (ls : List Str) : ∃ n, ls = (ls.reverse.dropWhile (· = [])).reverse ++ List.replicate n [] := by
  induction ls using List.reverseRecOn with
  | nil => exact ⟨0, rfl⟩
  | append_singleton ls l ih =>
    obtain ⟨n, hn⟩ := ih
    rw [List.reverse_append]
    simp only [List.reverse_cons, List.reverse_nil, List.nil_append, List.singleton_append]
    by_cases h : l = []
    · subst h
      rw [List.dropWhile_cons_of_pos (by simp)]
      refine ⟨n + 1, ?_⟩
      rw [List.replicate_succ', ← List.append_assoc, ← hn]
    · rw [List.dropWhile_cons_of_neg (by simpa using h)]
      exact ⟨0, by simp⟩

theorem join_last' {vs : List Str} (h : ∀ v ∈ vs, Tight v) (hl : ∀ v, vs.getLast? = some v → v ≠ []) :
    ∀ c, (joinNL vs).getLast? = some c → isSpace c = false := by
  induction vs with
  | nil => simp [joinNL]
  | cons l ls ih =>
    cases ls with
    | nil => intro c hc; exact (h l (by simp)).last c hc
    | cons m ls =>
      intro c hc
      have ihh := ih (fun v hv => h v (by simp [hv])) (fun v hv => hl v (by rw [List.getLast?_cons_cons]; exact hv))
      simp only [joinNL] at hc
      rw [List.getLast?_append, List.getLast?_cons] at hc
      rcases hg : (joinNL (m :: ls)).getLast? with _ | d
      · exfalso
        rw [List.getLast?_eq_none_iff] at hg
        cases ls with
        | nil => exact hl m (by simp) hg
        | cons n ls => simp [joinNL] at hg
      · rw [hg] at hc
        obtain rfl : d = c := by simpa using hc
        exact ihh d hg

theorem said_last (o : Opt) : ∀ v, o.said.getLast? = some v → v ≠ [] := by
  intro v hv
  unfold Opt.said at hv
  rw [List.getLast?_reverse] at hv
  intro e
  have := List.head?_dropWhile_not (fun x : Str => decide (x = [])) (o.v :: (o.rest.map Piece.says).flatten).reverse
  rw [hv] at this
  simp [e] at this

theorem stored_value {o : Opt} (h : o.Good) : rstrip (joinNL o.stored) = joinNL o.said := by
  obtain ⟨n, hn⟩ := tail_split o.stored
  have hs : o.stored = o.said ++ List.replicate n [] := hn
  have ht : ∀ v ∈ o.said, Tight v := fun v hv => h.stored_tight v (by rw [hs]; simp [hv])
  rw [hs]
  by_cases hne : o.said = []
  · rw [hne]
    simp only [List.nil_append]
    have : ∀ n, ∀ c ∈ joinNL (List.replicate n []), isSpace c = true := by
      intro n
      cases n with
      | zero => simp [joinNL]
      | succ n =>
        induction n with
        | zero => simp [joinNL]
        | succ n ih =>
          rw [List.replicate_succ, List.replicate_succ, joinNL]
          · intro c hc
            rw [List.nil_append, List.mem_cons] at hc
            rcases hc with rfl | hc
            · exact isSpace_nl
            · exact ih c (by rw [List.replicate_succ]; exact hc)
          · simp
    have := rstrip_blanks (s := []) (this n)
    rw [List.nil_append] at this
    rw [this]; rfl
  · rw [join_blanks hne, rstrip_blanks (by intro c hc; rw [List.eq_of_mem_replicate hc]; exact isSpace_nl),
      rstrip_id (join_last' ht (said_last o))]

theorem find_some {α : Type*} {f : α → Str} {l : List α} {k : Str} {x : α} (h : l.find? (fun a => f a = k) = some x) :
    x ∈ l ∧ f x = k := ⟨List.mem_of_find?_eq_some h, by simpa using List.find?_some h⟩

theorem find_none {α : Type*} {f : α → Str} {l : List α} {k : Str} (h : l.find? (fun a => f a = k) = none) :
    k ∉ l.map f := by
  intro hm
  obtain ⟨x, hx, e⟩ := List.mem_map.1 hm
  have := List.find?_eq_none.1 h x hx
  simp [e] at this

/-- What `get` finds. -/
theorem get_file {F : File} (h : F.Good) : ∃ st, Config.read F.text = .ok st ∧ ∀ s o, Config.get st s o =
    (match F.says s o with | some ls => .ok (joinNL ls) | none => .error .parseError) := by
  obtain ⟨st, h1, h2, h3, h4⟩ := read_file h
  refine ⟨st, h1, fun s o => ?_⟩
  unfold Config.get File.says
  rcases hs : F.secs.find? (fun x => x.name = s) with _ | S
  · have := find_none (f := Section.name) hs
    rw [if_pos (by rw [h3]; exact this), hs]
    rfl
  · obtain ⟨hm, rfl⟩ := find_some (f := Section.name) hs
    obtain ⟨a, b, c⟩ := h2 S hm
    rw [if_neg (by simp [a]), hs]
    simp only [Option.bind_some]
    rcases ho : S.opts.find? (fun x => lower x.name = lower o) with _ | O
    · rw [c _ (find_none (f := fun o : Opt => lower o.name) ho), h4, ho]
      rfl
    · obtain ⟨om, oe⟩ := find_some (f := fun o : Opt => lower o.name) ho
      have oe' : lower O.name = lower o := oe
      rw [ho, ← oe', b O om]
      simp [stored_value ((h.secs S hm).opts O om)]

theorem says_tight {F : File} (h : F.Good) {s o : Str} {ls : List Str} (hs : F.says s o = some ls) :
    (∀ l ∈ ls, Tight l) := by
  unfold File.says at hs
  rcases hS : F.secs.find? (fun x => x.name = s) with _ | S
  · rw [hS] at hs; cases hs
  · rw [hS] at hs
    simp only [Option.bind_some, Option.map_eq_some_iff] at hs
    obtain ⟨O, hO, rfl⟩ := hs
    have hm := (find_some (f := Section.name) hS).1
    have om := (find_some (f := fun o : Opt => lower o.name) hO).1
    obtain ⟨n, hn⟩ := tail_split O.stored
    intro l hl
    apply ((h.secs S hm).opts O om).stored_tight l
    rw [hn]
    exact List.mem_append_left _ hl

end HandFile
end
end BladeX
