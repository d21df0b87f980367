import Verif.Lemmas.Text

namespace BladeX
namespace Config

/-- A line that carries nothing: empty, or a comment. -/
def Filler (l : Str) : Prop := l = [] ∨ l.head? = some '#'

/-- An option with its values: text up to and including the delimiter, blanks, first value, further values on their own
lines (indented by `off`), filler lines. -/
structure Grp where
  p : Str
  d : Char
  key : Str
  sp : Nat
  v : Str
  off : Nat
  vs : List Str
  trail : List Str

def Grp.lines (g : Grp) : List Str :=
  (g.p ++ g.d :: (List.replicate g.sp ' ' ++ g.v)) :: (g.vs.map (List.replicate g.off ' ' ++ ·) ++ g.trail)

structure Grp.Good (g : Grp) : Prop where
  pne : ∃ c t, g.p = c :: t ∧ isSpace c = false ∧ c ≠ '#' ∧ c ≠ ';' ∧ c ≠ '['
  delim : isDelim g.d = true
  nodelim : ∀ c ∈ g.p, isDelim c = false
  key_eq : lower (rstrip g.p) = g.key
  kne : rstrip g.p ≠ []
  val : NoSpace g.v ∧ g.v ≠ []
  vals : ∀ w ∈ g.vs, NoSpace w ∧ w ≠ [] ∧ w.head? ≠ some '#' ∧ w.head? ≠ some ';'
  off_pos : 0 < g.off
  trail : ∀ l ∈ g.trail, Filler l

/-- The stored lines. -/
def Grp.stored (g : Grp) : List Str := g.v :: g.vs ++ List.replicate (g.trail.count []) []

theorem put_put (st : St) (s o : Str) (v w : List Str) : (st.put s o v).put s o w = st.put s o w := by
  unfold St.put
  congr 1
  funext s' o'
  by_cases h : s' = s ∧ o' = o <;> simp [h]

theorem put_store (st : St) (s o : Str) (v : List Str) : (st.put s o v).store s o = some v := by simp [St.put]

theorem put_other (st : St) {s o s' o' : Str} (v : List Str) (h : ¬ (s' = s ∧ o' = o)) :
    (st.put s o v).store s' o' = st.store s' o' := by simp [St.put, h]

theorem replicate_space (n : Nat) : ∀ c ∈ List.replicate n ' ', isSpace c = true := by
  intro c hc; rw [List.eq_of_mem_replicate hc]; exact isSpace_blank

theorem all_of_dropWhile_nil {p : Char → Bool} {a : Str} (h : a.dropWhile p = []) : ∀ c ∈ a, p c = true := by
  induction a with
  | nil => simp
  | cons c a ih =>
    by_cases hc : p c = true
    · rw [List.dropWhile_cons_of_pos hc] at h
      intro d hd
      rcases List.mem_cons.1 hd with rfl | hd
      · exact hc
      · exact ih h d hd
    · rw [List.dropWhile_cons_of_neg hc] at h; cases h

theorem strip_comment {l : Str} (h : l.head? = some '#') : (strip l).head? = some '#' := by
  cases l with
  | nil => cases h
  | cons c t =>
    obtain rfl : c = '#' := by simpa using h
    unfold strip
    rw [List.dropWhile_cons_of_neg (by decide)]
    unfold rstrip
    have key : ∀ (t : Str), ∃ u, (('#' :: t).reverse.dropWhile isSpace).reverse = '#' :: u := by
      intro t
      rw [List.reverse_cons]
      rcases hd : t.reverse.dropWhile isSpace with _ | ⟨a, u⟩
      · refine ⟨[], ?_⟩
        rw [dropWhile_all]
        · decide
        · intro c hc
          exact all_of_dropWhile_nil hd c hc
      · refine ⟨(a :: u).reverse, ?_⟩
        have : (t.reverse ++ ['#']).dropWhile isSpace = (a :: u) ++ ['#'] := by
          rw [List.dropWhile_append, hd]; simp
        rw [this]; simp
    obtain ⟨u, hu⟩ := key t
    rw [hu]; rfl

theorem step_comment {st : St} {l : Str} (h : l.head? = some '#') : step st l = .ok st := by
  unfold step
  simp only
  rw [if_pos (Or.inl (strip_comment h))]

theorem step_blank_none {st : St} (h : st.cur = none ∨ st.opt = none) : step st [] = .ok st := by
  unfold step
  have : strip ([] : Str) = [] := rfl
  simp only [this]
  rcases h with h | h
  · simp [h]
  · rcases hc : st.cur with _ | s <;> simp [h]

theorem step_blank_some {st : St} {s o : Str} {v : List Str} (hc : st.cur = some s) (ho : st.opt = some o)
    (hs : st.store s o = some v) : step st [] = .ok (st.put s o (v ++ [[]])) := by
  unfold step
  have : strip ([] : Str) = [] := rfl
  simp [this, hc, ho, hs]

theorem step_cont {st : St} {s o : Str} {vals : List Str} {w : Str} {n : Nat} (hc : st.cur = some s) (ho : st.opt = some o)
    (hs : st.store s o = some vals) (hi : st.indent = 0) (hn : 0 < n) (hw : NoSpace w) (hne : w ≠ [])
    (h1 : w.head? ≠ some '#') (h2 : w.head? ≠ some ';') :
    step st (List.replicate n ' ' ++ w) = .ok (st.put s o (vals ++ [w])) := by
  unfold step
  have e : strip (List.replicate n ' ' ++ w) = w := by rw [strip_blanks (replicate_space n), strip_noSpace hw]
  have hlen : 0 < ((List.replicate n ' ' ++ w).takeWhile isSpace).length := by
    cases n with
    | zero => omega
    | succ n => rw [List.replicate_succ, List.cons_append, List.takeWhile_cons_of_pos isSpace_blank]; simp
  simp only [e]
  rw [if_neg (by simp [h1, h2]), if_neg hne]
  simp [hi, hlen, hc, ho, hs]

theorem step_opt {st : St} {s : Str} (hc : st.cur = some s) {g : Grp} (hg : g.Good) (hfree : st.store s g.key = none) :
    step st (g.p ++ g.d :: (List.replicate g.sp ' ' ++ g.v)) =
      .ok { (st.put s g.key [g.v]) with indent := 0, opt := some g.key } := by
  obtain ⟨c, t, hp, c1, c2, c3, c4⟩ := hg.pne
  have hlast : ∀ x, (g.p ++ g.d :: (List.replicate g.sp ' ' ++ g.v)).getLast? = some x → isSpace x = false := by
    intro x hx
    rw [List.getLast?_append, List.getLast?_cons, List.getLast?_append] at hx
    rcases hv : g.v.getLast? with _ | y
    · rw [List.getLast?_eq_none_iff] at hv; exact absurd hv hg.val.2
    · rw [hv] at hx
      have : y = x := by simpa using hx
      exact this ▸ hg.val.1 y (List.mem_of_getLast? hv)
  have hstrip : strip (g.p ++ g.d :: (List.replicate g.sp ' ' ++ g.v)) =
      g.p ++ g.d :: (List.replicate g.sp ' ' ++ g.v) := by
    apply strip_id _ hlast
    intro x hx
    rw [hp] at hx
    have : c = x := by simpa using hx
    exact this ▸ c1
  unfold step
  simp only [hstrip]
  have hhead : (g.p ++ g.d :: (List.replicate g.sp ' ' ++ g.v)).head? = some c := by rw [hp]; rfl
  have hind : ((g.p ++ g.d :: (List.replicate g.sp ' ' ++ g.v)).takeWhile isSpace).length = 0 := by
    rw [hp, List.cons_append, List.takeWhile_cons_of_neg (by simp [c1])]; rfl
  rw [if_neg (by rw [hhead]; simp [c2, c3]), if_neg (by rw [hp]; simp)]
  rw [hind]
  simp only [Nat.not_lt_zero, if_false]
  have hsec : sectHeader (g.p ++ g.d :: (List.replicate g.sp ' ' ++ g.v)) = none := by
    rw [hp, List.cons_append]
    unfold sectHeader
    split
    · rename_i heq; simp only [List.cons.injEq] at heq; exact absurd heq.1 c4
    · rfl
  have hopt : optSplit (g.p ++ g.d :: (List.replicate g.sp ' ' ++ g.v)) = some (rstrip g.p, g.v) := by
    unfold optSplit
    have h1 : ∀ c ∈ g.p, (!isDelim c) = true := by intro c hc; simp [hg.nodelim c hc]
    rw [dropWhile_all h1, List.dropWhile_cons_of_neg (by simp [hg.delim])]
    have h2 : (g.p ++ g.d :: (List.replicate g.sp ' ' ++ g.v)).takeWhile (fun c => !isDelim c) = g.p := by
      rw [List.takeWhile_append_of_pos h1, List.takeWhile_cons_of_neg (by simp [hg.delim])]; simp
    simp only [h2]
    rw [strip_blanks (replicate_space _), strip_noSpace hg.val.1]
  rw [hsec, hc]
  simp only [hopt]
  rw [if_neg hg.kne, hg.key_eq, hfree]
  simp

theorem put_eta (st : St) (s o : Str) (v : List Str) (i : Nat) (q : Option Str) :
    ({ (st.put s o v) with indent := i, opt := q } : St) = ({ st with indent := i, opt := q } : St).put s o v := rfl

theorem run_cont {st : St} {s o : Str} {off : Nat} (hoff : 0 < off) (hc : st.cur = some s) (ho : st.opt = some o)
    (hi : st.indent = 0) : ∀ (vs vals : List Str), (∀ w ∈ vs, NoSpace w ∧ w ≠ [] ∧ w.head? ≠ some '#' ∧ w.head? ≠ some ';') →
      List.foldlM step (st.put s o vals) (vs.map (List.replicate off ' ' ++ ·)) = .ok (st.put s o (vals ++ vs)) := by
  intro vs
  induction vs with
  | nil => intro vals _; simp [pure, Except.pure]
  | cons w vs ih =>
    intro vals h
    obtain ⟨a, b, c, d⟩ := h w (by simp)
    rw [List.map_cons, List.foldlM_cons, step_cont (st := st.put s o vals) (s := s) (o := o) (vals := vals) hc ho (put_store _ _ _ _) hi hoff a b c d]
    simp only [bind, Except.bind, put_put]
    rw [ih (vals ++ [w]) (fun x hx => h x (by simp [hx]))]
    simp

theorem run_trail {st : St} {s o : Str} (hc : st.cur = some s) (ho : st.opt = some o) :
    ∀ (tr vals : List Str), (∀ l ∈ tr, Filler l) →
      List.foldlM step (st.put s o vals) tr = .ok (st.put s o (vals ++ List.replicate (tr.count []) [])) := by
  intro tr
  induction tr with
  | nil => intro vals _; simp [pure, Except.pure]
  | cons l tr ih =>
    intro vals h
    rw [List.foldlM_cons]
    rcases h l (by simp) with rfl | hl
    · rw [step_blank_some (st := st.put s o vals) (s := s) (o := o) (v := vals) hc ho (put_store _ _ _ _)]
      simp only [bind, Except.bind, put_put]
      rw [ih _ (fun x hx => h x (by simp [hx])), List.count_cons_self, List.replicate_succ]
      simp
    · rw [step_comment hl]
      simp only [bind, Except.bind]
      rw [ih _ (fun x hx => h x (by simp [hx])), List.count_cons_of_ne]
      rintro rfl; cases hl

/-- Reading one option with all its lines. -/
theorem run_group {st : St} {s : Str} (hc : st.cur = some s) {g : Grp} (hg : g.Good) (hfree : st.store s g.key = none) :
    List.foldlM step st g.lines = .ok (({ st with indent := 0, opt := some g.key } : St).put s g.key g.stored) := by
  unfold Grp.lines
  rw [List.foldlM_cons, step_opt hc hg hfree]
  simp only [bind, Except.bind, put_eta]
  rw [List.foldlM_append,
    run_cont (st := { st with indent := 0, opt := some g.key }) (s := s) (o := g.key) (off := g.off) hg.off_pos hc rfl rfl
      g.vs [g.v] hg.vals]
  simp only [bind, Except.bind]
  rw [run_trail (st := { st with indent := 0, opt := some g.key }) (s := s) (o := g.key) hc rfl g.trail _ hg.trail]
  rfl

/-- Reading several options of one section. -/
theorem run_groups {s : Str} : ∀ (gs : List Grp) (st : St), st.cur = some s → (∀ g ∈ gs, g.Good) →
    (∀ g ∈ gs, st.store s g.key = none) → (gs.map (·.key)).Nodup →
    ∃ st', List.foldlM step st (gs.map (·.lines)).flatten = .ok st' ∧ st'.cur = some s ∧ st'.secs = st.secs ∧
      (∀ g ∈ gs, st'.store s g.key = some g.stored) ∧
      ∀ s' o', ¬ (s' = s ∧ o' ∈ gs.map (·.key)) → st'.store s' o' = st.store s' o' := by
  intro gs
  induction gs with
  | nil => intro st hc _ _ _; exact ⟨st, by simp [pure, Except.pure], hc, rfl, by simp, by simp⟩
  | cons g gs ih =>
    intro st hc hg hf hn
    rw [List.map_cons, List.nodup_cons] at hn
    rw [List.map_cons, List.flatten_cons, List.foldlM_append, run_group hc (hg g (by simp)) (hf g (by simp))]
    simp only [bind, Except.bind]
    obtain ⟨st', h1, h2, h3, h4, h5⟩ := ih (({ st with indent := 0, opt := some g.key } : St).put s g.key g.stored)
      hc (fun x hx => hg x (by simp [hx]))
      (by
        intro x hx
        rw [put_other _ _ (by rintro ⟨_, e⟩; exact hn.1 (List.mem_map.2 ⟨x, hx, e⟩))]
        exact hf x (by simp [hx])) hn.2
    refine ⟨st', h1, h2, h3, ?_, ?_⟩
    · intro x hx
      rcases List.mem_cons.1 hx with rfl | hx
      · rw [h5 _ _ (by rintro ⟨_, e⟩; exact hn.1 e), put_store]
      · exact h4 x hx
    · intro s' o' hno
      rw [h5 _ _ (by rintro ⟨a, b⟩; exact hno ⟨a, by simp only [List.map_cons, List.mem_cons]; exact Or.inr b⟩),
        put_other _ _ (by rintro ⟨a, b⟩; exact hno ⟨a, by simp [b]⟩)]

/-- A section of a file. -/
structure Sec where
  name : Str
  pre : List Str
  grps : List Grp

/-- Its lines: header, fillers, options. -/
def Sec.lines (s : Sec) : List Str := ('[' :: (s.name ++ [']'])) :: (s.pre ++ (s.grps.map (·.lines)).flatten)

structure Sec.Good (s : Sec) : Prop where
  ne : s.name ≠ []
  nd : s.name ≠ defaultName
  pre : ∀ l ∈ s.pre, Filler l
  grps : ∀ g ∈ s.grps, g.Good
  keys : (s.grps.map (·.key)).Nodup

theorem step_header' {st : St} {n : Str} (hne : n ≠ []) (hd : n ≠ defaultName) :
    step st ('[' :: (n ++ [']'])) = if n ∈ st.secs then .error .parseError else
      .ok { st with indent := 0, secs := n :: st.secs, cur := some n, opt := none } := by
  have hs : strip ('[' :: (n ++ [']'])) = '[' :: (n ++ [']']) := by
    apply strip_id
    · intro c hc; obtain rfl : '[' = c := by simpa using hc
      decide
    · intro c hc
      rw [← List.cons_append, List.getLast?_append] at hc
      obtain rfl : ']' = c := by simpa using hc
      decide
  unfold step
  simp only [hs]
  rw [if_neg (by simp), if_neg (by simp)]
  have hind : (('[' :: (n ++ [']'])).takeWhile isSpace).length = 0 := by
    rw [List.takeWhile_cons_of_neg (by decide)]; rfl
  rw [hind]
  have hh : sectHeader ('[' :: (n ++ [']'])) = some n := by
    unfold sectHeader
    simp only [List.reverse_append, List.reverse_cons, List.reverse_nil, List.nil_append, List.singleton_append]
    rw [List.dropWhile_cons_of_neg (by simp)]
    simp [hne]
  simp only [Nat.not_lt_zero, if_false, hh]
  rw [if_neg hd]

theorem step_header {st : St} {n : Str} (hne : n ≠ []) (hd : n ≠ defaultName) (hnew : n ∉ st.secs) :
    step st ('[' :: (n ++ [']'])) = .ok { st with indent := 0, secs := n :: st.secs, cur := some n, opt := none } := by
  rw [step_header' hne hd, if_neg hnew]

theorem run_fill {st : St} (h : st.opt = none) : ∀ (ls : List Str), (∀ l ∈ ls, Filler l) → List.foldlM step st ls = .ok st := by
  intro ls
  induction ls with
  | nil => intro _; simp [pure, Except.pure]
  | cons l ls ih =>
    intro hf
    rw [List.foldlM_cons]
    have : step st l = .ok st := by
      rcases hf l (by simp) with rfl | hl
      · exact step_blank_none (Or.inr h)
      · exact step_comment hl
    rw [this]
    simp only [bind, Except.bind]
    exact ih fun x hx => hf x (by simp [hx])

/-- Reading a whole file of well-formed sections with different names. -/
theorem run_sections : ∀ (ss : List Sec) (st : St), (∀ s ∈ ss, s.Good) → (∀ s ∈ ss, s.name ∉ st.secs) →
    (∀ s ∈ ss, ∀ o, st.store s.name o = none) → (ss.map (·.name)).Nodup →
    ∃ st', List.foldlM step st (ss.map (·.lines)).flatten = .ok st' ∧
      (∀ s ∈ ss, s.name ∈ st'.secs ∧ ∀ g ∈ s.grps, st'.store s.name g.key = some g.stored) ∧
      (∀ n ∈ st.secs, n ∈ st'.secs) ∧
      ∀ s' o', s' ∉ ss.map (·.name) → st'.store s' o' = st.store s' o' := by
  intro ss
  induction ss with
  | nil => intro st _ _ _ _; exact ⟨st, by simp [pure, Except.pure], by simp, by simp, by simp⟩
  | cons s ss ih =>
    intro st hg hnew hfree hn
    rw [List.map_cons, List.nodup_cons] at hn
    have gs := hg s (by simp)
    rw [List.map_cons, List.flatten_cons, List.foldlM_append]
    conv => rhs; ext st'; rw [Sec.lines, List.foldlM_cons, step_header gs.ne gs.nd (hnew s (by simp))]
    simp only [bind, Except.bind]
    set st1 : St := { st with indent := 0, secs := s.name :: st.secs, cur := some s.name, opt := none } with hst1
    obtain ⟨st2, a1, a2, a3, a4, a5⟩ := run_groups (s := s.name) s.grps st1 rfl gs.grps
      (fun g _ => hfree s (by simp) g.key) gs.keys
    have hfirst : List.foldlM step st1 (s.pre ++ (s.grps.map (·.lines)).flatten) = .ok st2 := by
      rw [List.foldlM_append, run_fill (st := st1) rfl s.pre gs.pre]
      simp only [bind, Except.bind]
      exact a1
    rw [hfirst]
    simp only
    have nin : ∀ t ∈ ss, t.name ≠ s.name := fun t ht e => hn.1 (List.mem_map.2 ⟨t, ht, e⟩)
    obtain ⟨st', b1, b2, b3, b4⟩ := ih st2 (fun t ht => hg t (by simp [ht]))
      (by
        intro t ht
        rw [a3, hst1]
        simp only [List.mem_cons, not_or]
        exact ⟨nin t ht, hnew t (by simp [ht])⟩)
      (by
        intro t ht o
        rw [a5 _ _ (fun e => nin t ht e.1)]
        exact hfree t (by simp [ht]) o) hn.2
    refine ⟨st', b1, ?_, ?_, ?_⟩
    · intro t ht
      rcases List.mem_cons.1 ht with rfl | ht
      · refine ⟨b3 _ (by rw [a3, hst1]; simp), fun g hgm => ?_⟩
        rw [b4 _ _ hn.1]
        exact a4 g hgm
      · exact b2 t ht
    · intro n hm
      exact b3 n (by rw [a3, hst1]; simp [hm])
    · intro s' o' hno
      rw [List.map_cons, List.mem_cons, not_or] at hno
      rw [b4 _ _ hno.2, a5 _ _ (fun e => hno.1 e.1)]

/-- `get` after reading. -/
theorem get_of {st : St} {s o : Str} {g : Grp} (hg : g.Good) (hs : s ∈ st.secs) (hst : st.store s g.key = some g.stored)
    (ho : lower o = g.key) : get st s o = .ok (joinNL (g.v :: g.vs)) := by
  unfold get
  rw [if_neg (by simp [hs]), ho, hst]
  simp only [Grp.stored]
  rw [value_of_blanks (by simp)]
  intro v hv
  rcases List.mem_cons.1 hv with rfl | hv
  · exact hg.val
  · exact ⟨(hg.vals v hv).1, (hg.vals v hv).2.1⟩

end Config
end BladeX
