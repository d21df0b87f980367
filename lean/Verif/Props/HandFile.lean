import Verif.Lemmas.HandFile
import Verif.Props.ParamFile

/-! # Reading hand-written parameter files (`bladex/params.py` 122-201) -/

namespace BladeX
noncomputable section
open Config ParamFile
namespace HandFile

private theorem manyWords_iff {l : Str} (h : Tight l) : manyWords l = false ↔ ∀ c ∈ l, isSpace c = false := by
  unfold manyWords
  rw [h.strip, List.any_eq_false]
  simp

private theorem mapM_iff {C : Codec} : ∀ (ls : List Str) (xs : Arr), (∀ l ∈ ls, Tight l) →
    ((ls.mapM fun l => if manyWords l then (Except.error PyErr.valueError : Res ℝ)
      else match C.parse l with
        | some x => .ok x
        | none => .error .valueError) = .ok xs ↔
      List.Forall₂ (fun l x => (∀ c ∈ l, isSpace c = false) ∧ C.parse l = some x) ls xs) := by
  intro ls
  induction ls with
  | nil =>
    intro xs _
    simp only [List.mapM_nil, pure, Except.pure, Except.ok.injEq]
    constructor
    · rintro rfl; exact .nil
    · intro h; cases h; rfl
  | cons l ls ih =>
    intro xs h
    rw [List.mapM_cons]
    have hl := manyWords_iff (h l (by simp))
    have ihh := fun xs => ih xs fun x hx => h x (by simp [hx])
    constructor
    · intro e
      rcases hm : manyWords l with _ | _
      · rw [hm] at e
        simp only [Bool.false_eq_true, if_false] at e
        rcases hp : C.parse l with _ | x
        · rw [hp] at e; cases e
        · rw [hp] at e
          simp only [bind, Except.bind] at e
          split at e
          · cases e
          · rename_i ys hy
            obtain rfl := Except.ok.inj e
            exact .cons ⟨hl.1 hm, hp⟩ ((ihh ys).1 hy)
      · rw [hm] at e; cases e
    · intro e
      cases e with
      | cons h1 h2 =>
        rw [hl.2 h1.1]
        simp only [Bool.false_eq_true, if_false, h1.2]
        rw [(ihh _).2 h2]
        rfl

private theorem values_iff {C : Codec} (hC : C.Lawful) {ls : List Str} (h : ∀ l ∈ ls, Tight l) (xs : Arr) :
    readValues C (joinNL ls) = .ok xs ↔ Numbers C ls xs := by
  unfold readValues Numbers
  by_cases hne : ls = []
  · subst hne
    simp only [joinNL, splitNL, List.mapM_cons]
    rw [show manyWords [] = false from rfl, hC.parse_nil]
    simp only [Bool.false_eq_true, if_false, bind, Except.bind]
    constructor
    · intro e; cases e
    · rintro ⟨a, b⟩; cases b; exact absurd rfl a
  · rw [splitNL_join (fun l hl => (h l hl).line) hne]
    refine (mapM_iff ls xs h).trans ?_
    constructor
    · intro e
      refine ⟨?_, e⟩
      rintro rfl
      cases e
      exact hne rfl
    · exact fun e => e.2

private theorem int_iff {C : Codec} {ls : List Str} (n : Int) : readInt C (joinNL ls) = .ok n ↔ Integer C ls n := by
  unfold readInt Integer
  rcases C.parseInt (joinNL ls) with _ | m <;> simp

private theorem bnd {α β : Type} {x : Res α} {k : α → Res β} {z : β} : (x >>= k) = .ok z ↔ ∃ y, x = .ok y ∧ k y = .ok z := by
  rcases x with e | y <;> simp [bind, Except.bind]

/-- What a lookup returns. -/
private def found (F : File) (s o : Str) : Res Str :=
  match F.says s o with | some ls => .ok (joinNL ls) | none => .error .parseError

private theorem found_ok {F : File} {s o : Str} {t : Str} (h : found F s o = .ok t) : ∃ ls, F.says s o = some ls ∧ t = joinNL ls := by
  unfold found at h
  rcases hs : F.says s o with _ | ls
  · rw [hs] at h; cases h
  · rw [hs] at h; exact ⟨ls, rfl, (Except.ok.inj h).symm⟩

private theorem found_of {F : File} {s o : Str} {ls : List Str} (h : F.says s o = some ls) : found F s o = .ok (joinNL ls) := by
  unfold found; rw [h]

private theorem numbers_iff {C : Codec} (hC : C.Lawful) {F : File} (hF : F.Good) {s o : Str} {xs : Arr} :
    (found F s o >>= readValues C) = .ok xs ↔ ∃ ls, F.says s o = some ls ∧ Numbers C ls xs := by
  rw [bnd]
  constructor
  · rintro ⟨t, h1, h2⟩
    obtain ⟨ls, e, rfl⟩ := found_ok h1
    exact ⟨ls, e, (values_iff hC (says_tight hF e) xs).1 h2⟩
  · rintro ⟨ls, e, h⟩
    exact ⟨_, found_of e, (values_iff hC (says_tight hF e) xs).2 h⟩

private theorem integer_iff {C : Codec} {F : File} {s o : Str} {n : Int} :
    (found F s o >>= readInt C) = .ok n ↔ ∃ ls, F.says s o = some ls ∧ Integer C ls n := by
  rw [bnd]
  constructor
  · rintro ⟨t, h1, h2⟩
    obtain ⟨ls, e, rfl⟩ := found_ok h1
    exact ⟨ls, e, (int_iff n).1 h2⟩
  · rintro ⟨ls, e, h⟩
    exact ⟨_, found_of e, (int_iff n).2 h⟩

private theorem spline_iff {C : Codec} (hC : C.Lawful) {F : File} (hF : F.Good) {st : St}
    (hst : ∀ s o, Config.get st s o = found F s o) (p : PName) (x : Int × Int × Int × Arr) :
    readSpline C st p = .ok x ↔
      (∃ ls, F.says p.section' c!"spline degree" = some ls ∧ Integer C ls x.1) ∧
      (∃ ls, F.says p.section' c!"spline npoints" = some ls ∧ Integer C ls x.2.1) ∧
      (∃ ls, F.says p.section' c!"number of control points" = some ls ∧ Integer C ls x.2.2.1) ∧
      (∃ ls, F.says p.section' c!"control points Y-deformations" = some ls ∧ Numbers C ls x.2.2.2 ∧
        ((x.2.2.2.length : Int) = x.2.2.1)) := by
  obtain ⟨a, b, c, d⟩ := x
  unfold readSpline
  simp only [hst]
  constructor
  · intro h
    obtain ⟨t1, g1, h⟩ := bnd.1 h
    obtain ⟨a', g1', h⟩ := bnd.1 h
    obtain ⟨t2, g2, h⟩ := bnd.1 h
    obtain ⟨b', g2', h⟩ := bnd.1 h
    obtain ⟨t3, g3, h⟩ := bnd.1 h
    obtain ⟨c', g3', h⟩ := bnd.1 h
    obtain ⟨t4, g4, h⟩ := bnd.1 h
    by_cases ht : t4 = []
    · rw [if_pos ht] at h; cases h
    · rw [if_neg ht] at h
      obtain ⟨d', g4', h⟩ := bnd.1 h
      by_cases hl : (d'.length : Int) ≠ c'
      · rw [if_pos hl] at h; cases h
      · rw [if_neg hl] at h
        have e := Except.ok.inj h
        simp only [Prod.mk.injEq] at e
        obtain ⟨rfl, rfl, rfl, rfl⟩ := e
        obtain ⟨ls, e4, n4⟩ := (numbers_iff hC hF).1 (bnd.2 ⟨t4, g4, g4'⟩)
        exact ⟨integer_iff.1 (bnd.2 ⟨t1, g1, g1'⟩), integer_iff.1 (bnd.2 ⟨t2, g2, g2'⟩), integer_iff.1 (bnd.2 ⟨t3, g3, g3'⟩),
          ls, e4, n4, not_not.1 hl⟩
  · rintro ⟨⟨l1, e1, n1⟩, ⟨l2, e2, n2⟩, ⟨l3, e3, n3⟩, ⟨l4, e4, n4, hl⟩⟩
    have tl := says_tight hF e4
    have v4 := (values_iff hC tl d).2 n4
    have ht : joinNL l4 ≠ [] := by
      intro e
      rw [e] at v4
      simp only [readValues, splitNL, List.mapM_cons] at v4
      rw [show manyWords [] = false from rfl, hC.parse_nil] at v4
      cases v4
    rw [found_of e1, found_of e2, found_of e3, found_of e4]
    simp only [bind, Except.bind, (int_iff a).2 n1, (int_iff b).2 n2, (int_iff c).2 n3, ht, if_false, pure, Except.pure, v4]
    rw [if_neg (by simpa using hl)]

private theorem dist_iff {C : Codec} (hC : C.Lawful) {F : File} (hF : F.Good) {st : St}
    (hst : ∀ s o, Config.get st s o = found F s o) (p : PName) (x : Arr) :
    readDist C st p = .ok x ↔ ∃ ls, F.says origSection (c!"Radial distribution of " ++ p.str) = some ls ∧ Numbers C ls x := by
  unfold readDist
  simp only [hst]
  exact numbers_iff hC hF

/-! ## C90: what is read from a hand-written file -/

/-- A well-formed file is read as `pf` exactly if it states the parameters of `pf`. -/
theorem C90_reads (C : Codec) (hC : C.Lawful) (F : File) (hF : F.Good) (pf : ParamFile) :
    readText C F.text = .ok pf ↔ States C F pf := by
  obtain ⟨st, hr, hst⟩ := get_file hF
  replace hst : ∀ s o, Config.get st s o = found F s o := hst
  unfold readText
  rw [hr]
  constructor
  · intro h
    simp only [bind, Except.bind] at h
    rw [hst] at h
    obtain ⟨t, g, h⟩ := bnd.1 (show (found F origSection c!"Radial sections" >>= _) = Except.ok pf from h)
    obtain ⟨r, g', h⟩ := bnd.1 (show (readValues C t >>= _) = Except.ok pf from h)
    obtain ⟨dist, hd, h⟩ := bnd.1 (show (forAll (readDist C st) >>= _) = Except.ok pf from h)
    have hd' := forAll_inv hd
    split at h
    · cases h
    · rename_i hl
      rw [not_not] at hl
      obtain ⟨sp, hs, h⟩ := bnd.1 (show (forAll (readSpline C st) >>= _) = Except.ok pf from h)
      have hs' := forAll_inv hs
      obtain rfl := Except.ok.inj h
      obtain ⟨ls, e1, n1⟩ := (numbers_iff hC hF).1 (bnd.2 ⟨t, g, g'⟩)
      refine ⟨⟨ls, r, e1, n1, rfl, fun p => ?_⟩, fun p => ?_, fun p => ?_, fun p => ?_, fun p => ?_⟩
      · obtain ⟨l2, e2, n2⟩ := (dist_iff hC hF hst p _).1 (hd' p)
        refine ⟨l2, dist p, e2, n2, rfl, ?_⟩
        obtain ⟨a, b, c, d, e⟩ := hl
        cases p <;> omega
      · exact ((spline_iff hC hF hst p _).1 (hs' p)).1
      · exact ((spline_iff hC hF hst p _).1 (hs' p)).2.1
      · exact ((spline_iff hC hF hst p _).1 (hs' p)).2.2.1
      · exact ((spline_iff hC hF hst p _).1 (hs' p)).2.2.2
  · intro h
    obtain ⟨ls, r, e1, n1, hrad, hdist⟩ := h.radii
    choose l2 dist e2 n2 hp hlen using hdist
    have v1 : readValues C (joinNL ls) = .ok r := (values_iff hC (says_tight hF e1) r).2 n1
    have fd : forAll (readDist C st) = .ok dist := forAll_ok fun p => (dist_iff hC hF hst p _).2 ⟨l2 p, e2 p, n2 p⟩
    have fs : forAll (readSpline C st) = .ok (fun p => (pf.degree p, pf.npoints p, pf.nbasis p, pf.deformations p)) :=
      forAll_ok fun p => (spline_iff hC hF hst p _).2 ⟨h.degree p, h.npoints p, h.nbasis p, h.deformations p⟩
    simp only [bind, Except.bind, hst]
    rw [show found F origSection c!"Radial sections" = .ok (joinNL ls) from found_of e1]
    simp only [v1, fd, fs]
    rw [if_neg (by rw [not_not]; simp [hlen])]
    simp only [pure, Except.pure]
    congr 1
    have : pf.parameters = fun p => some (dist p) := funext hp
    rcases pf with ⟨r0, p0, nb, dg, np, df⟩
    simp only at hrad this
    rw [hrad, this]

/-- Two well-formed files that say the same about a blade are read alike, with the same outcome: comments, blank lines
after the last value, spacing, the delimiter, the case of option names, the order of sections and options and anything else
in the files make no difference. -/
theorem C90_same (C : Codec) (F G : File) (hF : F.Good) (hG : G.Good) (h : Agree F G) :
    readText C F.text = readText C G.text := by
  obtain ⟨st, h1, h2⟩ := get_file hF
  obtain ⟨st', h1', h2'⟩ := get_file hG
  have hk : ∀ s o, Asked s o → Config.get st s o = Config.get st' s o := by
    intro s o ha
    rw [h2, h2', h s o ha]
  have hd : readDist C st = readDist C st' := by
    funext p
    unfold readDist
    rw [hk origSection _ (Or.inl ⟨rfl, Or.inr ⟨p, rfl⟩⟩)]
  have hs : readSpline C st = readSpline C st' := by
    funext p
    unfold readSpline
    rw [hk _ _ (Or.inr ⟨p, rfl, Or.inl rfl⟩), hk _ _ (Or.inr ⟨p, rfl, Or.inr (Or.inl rfl)⟩),
      hk _ _ (Or.inr ⟨p, rfl, Or.inr (Or.inr (Or.inl rfl))⟩), hk _ _ (Or.inr ⟨p, rfl, Or.inr (Or.inr (Or.inr rfl))⟩)]
  unfold readText
  rw [h1, h1']
  simp only [bind, Except.bind]
  rw [hk origSection _ (Or.inl ⟨rfl, Or.inl rfl⟩), hd, hs]

/-- What a file says, without reference to the order of its parts. -/
theorem C90_says (F : File) (hF : F.Good) (sec opt : Str) (ls : List Str) : F.says sec opt = some ls ↔
    ∃ S ∈ F.secs, S.name = sec ∧ ∃ O ∈ S.opts, lower O.name = lower opt ∧ O.said = ls := by
  unfold File.says
  constructor
  · intro h
    rcases hS : F.secs.find? (fun x => x.name = sec) with _ | S
    · rw [hS] at h; cases h
    · rw [hS] at h
      simp only [Option.bind_some, Option.map_eq_some_iff] at h
      obtain ⟨O, hO, rfl⟩ := h
      obtain ⟨a, b⟩ := find_some (f := Section.name) hS
      obtain ⟨c, d⟩ := find_some (f := fun o : Opt => lower o.name) hO
      exact ⟨S, a, b, O, c, d, rfl⟩
  · rintro ⟨S, hS, rfl, O, hO, he, rfl⟩
    have uniq : ∀ {α : Type} {f : α → Str} {l : List α} {x : α}, (l.map f).Nodup → x ∈ l →
        l.find? (fun a => f a = f x) = some x := by
      intro α f l x hn hx
      induction l with
      | nil => cases hx
      | cons y l ih =>
        rw [List.map_cons, List.nodup_cons] at hn
        rcases List.mem_cons.1 hx with rfl | hx
        · rw [List.find?_cons_of_pos (by simp)]
        · rw [List.find?_cons_of_neg]
          · exact ih hn.2 hx
          · simp only [decide_eq_true_eq]
            intro e
            exact hn.1 (List.mem_map.2 ⟨x, hx, e.symm⟩)
    rw [uniq (f := Section.name) hF.names hS]
    simp only [Option.bind_some]
    rw [← he, uniq (f := fun o : Opt => lower o.name) (hF.secs S hS).names hO]
    rfl

/-- The order of the sections and of the options in a section does not matter. -/
theorem C90_order (C : Codec) (F G : File) (hF : F.Good) (hG : G.Good)
    (h1 : ∀ S ∈ F.secs, ∃ T ∈ G.secs, T.name = S.name ∧ T.opts.Perm S.opts)
    (h2 : ∀ T ∈ G.secs, ∃ S ∈ F.secs, S.name = T.name ∧ S.opts.Perm T.opts) :
    readText C F.text = readText C G.text := by
  apply C90_same C F G hF hG
  intro sec opt _
  apply Option.ext
  intro ls
  rw [C90_says F hF, C90_says G hG]
  constructor
  · rintro ⟨S, hS, e, O, hO, r⟩
    obtain ⟨T, hT, n, p⟩ := h1 S hS
    exact ⟨T, hT, n.trans e, O, p.mem_iff.2 hO, r⟩
  · rintro ⟨S, hS, e, O, hO, r⟩
    obtain ⟨T, hT, n, p⟩ := h2 S hS
    exact ⟨T, hT, n.trans e, O, p.mem_iff.2 hO, r⟩

/-- The newline at the end of the last line may be missing. -/
theorem C90_newline (C : Codec) (t : Str) (hne : t ≠ []) (hl : t.getLast? ≠ some '\n') :
    readText C (t ++ ['\n']) = readText C t := by
  have key : ∀ t : Str, t ≠ [] → t.getLast? ≠ some '\n' → splitNL (t ++ ['\n']) = splitNL t ++ [[]] ∧
      (splitNL t).getLast? ≠ some [] := by
    intro t
    induction t with
    | nil => intro h; exact absurd rfl h
    | cons c t ih =>
      intro _ hl
      cases t with
      | nil =>
        have hc : c ≠ '\n' := by intro e; apply hl; rw [e]; rfl
        simp [splitNL, hc]
      | cons d t =>
        obtain ⟨i1, i2⟩ := ih (by simp) (by rw [List.getLast?_cons_cons] at hl; exact hl)
        rw [List.cons_append, splitNL, splitNL]
        by_cases hc : c = '\n'
        · rw [if_pos hc, if_pos hc, i1]
          refine ⟨by simp, ?_⟩
          rcases hs : splitNL (d :: t) with _ | ⟨l, ls⟩
          · rw [hs] at i1
            simp only [List.cons_append, splitNL] at i1 hs
            split at hs <;> try cases hs
            split at hs <;> cases hs
          · rw [List.getLast?_cons_cons, ← hs]; exact i2
        · rw [if_neg hc, if_neg hc, i1]
          rcases hs : splitNL (d :: t) with _ | ⟨l, ls⟩
          · simp only [splitNL] at hs
            split at hs <;> try cases hs
            split at hs <;> cases hs
          · refine ⟨by simp, ?_⟩
            rw [hs] at i2
            cases ls with
            | nil => simp
            | cons m ls => simpa using i2
  have : fileLines (t ++ ['\n']) = fileLines t := by
    obtain ⟨a, b⟩ := key t hne hl
    unfold fileLines
    simp only [a]
    rw [if_pos (by simp), if_neg b]
    simp
  unfold readText Config.read
  rw [this]

/-- A list of numbers must start on the line of its option and have no blank line in it, and each line holds one number:
otherwise the file is rejected. -/
theorem C90_gaps (C : Codec) (hC : C.Lawful) (F : File) (hF : F.Good) (sec opt : Str) (ls : List Str)
    (ha : (sec = origSection ∧ (opt = c!"Radial sections" ∨ ∃ p : PName, opt = c!"Radial distribution of " ++ p.str)) ∨
      ∃ p : PName, sec = p.section' ∧ opt = c!"control points Y-deformations")
    (hs : F.says sec opt = some ls) (hb : ls = [] ∨ [] ∈ ls ∨ ∃ l ∈ ls, ∃ c ∈ l, isSpace c = true) :
    readText C F.text = .error .valueError ∨ readText C F.text = .error .parseError := by
  have bad : ∀ xs, ¬ Numbers C ls xs := by
    rintro xs ⟨h0, h1⟩
    rcases hb with rfl | hm | ⟨l, hm, c, hc, he⟩
    · cases h1; exact h0 rfl
    · obtain ⟨x, _, hx⟩ : ∃ x ∈ xs, (∀ c ∈ ([] : Str), isSpace c = false) ∧ C.parse [] = some x := by
        clear h0 hs
        induction h1 with
        | nil => cases hm
        | cons a _ ih =>
          rcases List.mem_cons.1 hm with e | hm
          · rw [← e] at a; exact ⟨_, by simp, a⟩
          · obtain ⟨x, b, c⟩ := ih hm
            exact ⟨x, by simp [b], c⟩
      rw [hC.parse_nil] at hx
      cases hx.2
    · have : ∀ l ∈ ls, ∀ c ∈ l, isSpace c = false := by
        clear h0 hm hc hs
        induction h1 with
        | nil => simp
        | cons a _ ih =>
          intro l hl
          rcases List.mem_cons.1 hl with rfl | hl
          · exact a.1
          · exact ih l hl
      rw [this l hm c hc] at he
      cases he
  rcases hr : readText C F.text with e | pf
  · rcases C41_errors C _ _ hr with rfl | rfl
    · exact Or.inr rfl
    · exact Or.inl rfl
  · exfalso
    have h := (C90_reads C hC F hF pf).1 hr
    rcases ha with ⟨rfl, rfl | ⟨p, rfl⟩⟩ | ⟨p, rfl, rfl⟩
    · obtain ⟨l', r, e, n, _⟩ := h.radii
      obtain rfl : ls = l' := Option.some.inj (hs.symm.trans e)
      exact bad r n
    · obtain ⟨_, r, _, _, _, hd⟩ := h.radii
      obtain ⟨l', v, e, n, _⟩ := hd p
      obtain rfl : ls = l' := Option.some.inj (hs.symm.trans e)
      exact bad v n
    · obtain ⟨l', e, n, _⟩ := h.deformations p
      obtain rfl : ls = l' := Option.some.inj (hs.symm.trans e)
      exact bad _ n

/-! ### A hand-written file -/

theorem tight_of {s : Str} (h : (s.head?.all (fun c => !isSpace c) && s.getLast?.all (fun c => !isSpace c) &&
    !s.contains '\n') = true) : Tight s := by
  simp only [Bool.and_eq_true, Bool.not_eq_true', List.contains_eq_mem, decide_eq_false_iff_not] at h
  refine ⟨fun c hc => ?_, fun c hc => ?_, h.2⟩
  · have := h.1.1; rw [hc] at this; simpa using this
  · have := h.1.2; rw [hc] at this; simpa using this

theorem blanks_of {s : Str} (h : (s.all fun c => c == ' ' || c == '\t') = true) : Blanks s := by
  intro c hc
  have := List.all_eq_true.1 h c hc
  simpa using this

theorem opt_of {o : Opt} (h1 : (o.name.head?.all (fun c => !isSpace c) && o.name.getLast?.all (fun c => !isSpace c) &&
    !o.name.contains '\n') = true) (h2 : o.name ≠ [] ∧ (∀ c ∈ o.name, c ≠ '=' ∧ c ≠ ':') ∧ (o.name.head? ≠ some '#' ∧
    o.name.head? ≠ some ';' ∧ o.name.head? ≠ some '[') ∧ (o.d = '=' ∨ o.d = ':'))
    (h3 : (o.l.all fun c => c == ' ' || c == '\t') = true) (h4 : (o.r.all fun c => c == ' ' || c == '\t') = true)
    (h5 : (o.e.all fun c => c == ' ' || c == '\t') = true) (h6 : (o.v.head?.all (fun c => !isSpace c) &&
    o.v.getLast?.all (fun c => !isSpace c) && !o.v.contains '\n') = true) (h7 : ∀ p ∈ o.rest, p.Good) : o.Good :=
  ⟨tight_of h1, h2.1, h2.2.1, h2.2.2.1, blanks_of h3, h2.2.2.2, blanks_of h4, tight_of h6, blanks_of h5, h7⟩

/-- `RADIAL Sections:5`, a comment, `<tab>01`. -/
def radiiOpt : Opt :=
  ⟨c!"RADIAL Sections", [], ':', [], c!"5", c!" ", [.comment c!"  " ';' c!" two radii", .value ['\t'] c!"01" []]⟩

/-- `radial distribution of <p> = 0`, ` 1`, a blank line. -/
def distOpt (p : PName) : Opt :=
  ⟨c!"radial distribution of " ++ p.str, c!" ", '=', c!" ", c!"0", [], [.value c!" " c!"1" c!" ", .empty c!"  "]⟩

/-- `<name>=<v>`. -/
def intOpt (name : Str) (v : Str) : Opt := ⟨name, [], '=', [], v, [], []⟩

def origSample : Section := ⟨c!"Original parameters", c!" ", [.empty []], distOpt .camber :: distOpt .skew :: distOpt .rake ::
  distOpt .pitch :: distOpt .chord :: [radiiOpt]⟩

def splineSample (p : PName) : Section := ⟨p.section', [], [], [intOpt c!"control points y-deformations" c!"7",
  intOpt c!"spline degree" c!"3", intOpt c!"Spline NPOINTS" c!"05", intOpt c!"colour" c!"light blue", intOpt c!"number of control points" c!"1"]⟩

/-- The sections in an unusual order, a comment first, an option nobody asks for. -/
def fileSample : File := ⟨[.comment [] '#' c!" my blade"], splineSample .camber :: splineSample .chord :: origSample ::
  splineSample .rake :: splineSample .pitch :: [splineSample .skew]⟩

theorem fileSample_good : fileSample.Good := by
  have hd : ∀ p, (distOpt p).Good := by
    intro p
    refine opt_of (by cases p <;> decide) (by cases p <;> decide) rfl rfl rfl rfl ?_
    intro q hq
    simp only [distOpt, List.mem_cons, List.not_mem_nil, or_false] at hq
    rcases hq with rfl | rfl
    · exact ⟨blanks_of rfl, by simp, tight_of rfl, by simp, by simp, by simp, blanks_of rfl⟩
    · exact blanks_of rfl
  have hr : radiiOpt.Good := by
    refine opt_of (by decide) (by decide) rfl rfl rfl rfl ?_
    intro q hq
    simp only [radiiOpt, List.mem_cons, List.not_mem_nil, or_false] at hq
    rcases hq with rfl | rfl
    · exact ⟨blanks_of rfl, Or.inr rfl, by decide⟩
    · exact ⟨blanks_of rfl, by simp, tight_of rfl, by simp, by simp, by simp, blanks_of rfl⟩
  have ho : origSample.Good := by
    refine ⟨by decide, blanks_of rfl, ?_, ?_, by decide⟩
    · intro p hp
      simp only [origSample, List.mem_cons, List.not_mem_nil, or_false] at hp
      subst hp
      exact ⟨blanks_of rfl, trivial⟩
    · intro o h
      simp only [origSample, List.mem_cons, List.not_mem_nil, or_false] at h
      rcases h with rfl | rfl | rfl | rfl | rfl | rfl
      · exact hd _
      · exact hd _
      · exact hd _
      · exact hd _
      · exact hd _
      · exact hr
  have hs : ∀ p, (splineSample p).Good := by
    intro p
    refine ⟨by cases p <;> decide, blanks_of rfl, by simp [splineSample], ?_, by
      simp only [splineSample, List.map_cons, List.map_nil, intOpt]; decide⟩
    intro o h
    simp only [splineSample, List.mem_cons, List.not_mem_nil, or_false] at h
    rcases h with rfl | rfl | rfl | rfl | rfl <;>
      exact opt_of (by decide) (by decide) rfl rfl rfl rfl (by simp [intOpt])
  refine ⟨?_, ?_, by decide⟩
  · intro p hp
    simp only [fileSample, List.mem_cons, List.not_mem_nil, or_false] at hp
    subst hp
    exact ⟨⟨blanks_of rfl, Or.inl rfl, by decide⟩, trivial⟩
  · intro s h
    simp only [fileSample, List.mem_cons, List.not_mem_nil, or_false] at h
    rcases h with rfl | rfl | rfl | rfl | rfl | rfl
    · exact hs _
    · exact hs _
    · exact ho
    · exact hs _
    · exact hs _
    · exact hs _

/-- What it describes. -/
def paramSample : ParamFile where
  radii := some [0.5, 1]
  parameters := fun _ => some [0, 0.1]
  nbasis := fun _ => 1
  degree := fun _ => 3
  npoints := fun _ => 50
  deformations := fun _ => [0.7]

theorem fileSample_states : States tenths fileSample paramSample := by
  have num : ∀ (s : Str) (n : Int) (x : ℝ), s ≠ [] → (∀ c ∈ s, isSpace c = false) → intValue s = n → x = n / 10 →
      (∀ c ∈ s, isSpace c = false) ∧ tenths.parse s = some x := by
    rintro s n x h0 h1 rfl rfl
    refine ⟨h1, ?_⟩
    simp [tenths, h0]
  refine ⟨⟨[c!"5", c!"01"], [0.5, 1], by decide, ⟨by simp, .cons (num _ 5 _ (by simp) (by decide) (by simp [intValue, natValue, Nat.ofDigits]) (by norm_num))
    (.cons (num _ 10 _ (by simp) (by decide) (by simp [intValue, natValue, Nat.ofDigits]) (by norm_num)) .nil)⟩, rfl, fun p => ⟨[c!"0", c!"1"], [0, 0.1],
      by cases p <;> decide, ⟨by simp, .cons (num _ 0 _ (by simp) (by decide) (by simp [intValue, natValue, Nat.ofDigits]) (by norm_num))
    (.cons (num _ 1 _ (by simp) (by decide) (by simp [intValue, natValue, Nat.ofDigits]) (by norm_num)) .nil)⟩, rfl, rfl⟩⟩, ?_, ?_, ?_, ?_⟩
  · intro p
    exact ⟨[c!"3"], by cases p <;> decide, by simp [Integer, tenths, joinNL, intValue, natValue, Nat.ofDigits, paramSample]⟩
  · intro p
    exact ⟨[c!"05"], by cases p <;> decide, by simp [Integer, tenths, joinNL, intValue, natValue, Nat.ofDigits, paramSample]⟩
  · intro p
    exact ⟨[c!"1"], by cases p <;> decide, by simp [Integer, tenths, joinNL, intValue, natValue, Nat.ofDigits, paramSample]⟩
  · intro p
    exact ⟨[c!"7"], by cases p <;> decide, ⟨by simp [paramSample], .cons (num _ 7 _ (by simp) (by decide) (by simp [intValue, natValue, Nat.ofDigits])
      (by norm_num)) .nil⟩, by simp [paramSample]⟩

example : readText tenths fileSample.text = .ok paramSample :=
  (C90_reads tenths tenths_lawful fileSample fileSample_good paramSample).2 fileSample_states

/-- The numbers start on the next line. -/
def lateSample : File := ⟨[], [⟨c!"Original parameters", [], [], [⟨c!"Radial sections", c!" ", '=', [], [], [], [.value c!"  " c!"5" []]⟩]⟩]⟩

example : readText tenths lateSample.text = .error .valueError ∨ readText tenths lateSample.text = .error .parseError := by
  have hg : lateSample.Good := by
    refine ⟨by simp [lateSample], ?_, by decide⟩
    intro s hs
    simp only [lateSample, List.mem_cons, List.not_mem_nil, or_false] at hs
    subst hs
    refine ⟨by decide, blanks_of rfl, by simp, ?_, by decide⟩
    intro o ho
    simp only [List.mem_cons, List.not_mem_nil, or_false] at ho
    subst ho
    refine opt_of (by decide) (by decide) rfl rfl rfl rfl ?_
    intro q hq
    simp only [List.mem_cons, List.not_mem_nil, or_false] at hq
    subst hq
    exact ⟨blanks_of rfl, by simp, tight_of rfl, by simp, by simp, by simp, blanks_of rfl⟩
  exact C90_gaps tenths tenths_lawful lateSample hg origSection c!"Radial sections" [[], c!"5"] (Or.inl ⟨rfl, Or.inl rfl⟩)
    (by decide) (Or.inr (Or.inl (by simp)))

end HandFile
end
end BladeX
