import Verif.Model.ParamRead
import Verif.Spec.ParamRead
import Verif.Props.HandFile

/-! # What a read leaves in the object (`bladex/params.py` 79-201) -/

namespace BladeX
noncomputable section
open Classical
namespace ParamFile
open Slot

/-! ### Lines -/

private theorem readLine_ok {C : Codec} {l : Str} {x : ℝ} : readLine C l = .ok x ↔ Holds C l x := by
  unfold readLine Holds
  rcases manyWords l with _ | _
  · rcases C.parse l with _ | y <;> simp
  · simp

private theorem readLine_err {C : Codec} {l : Str} {e : PyErr} (h : readLine C l = .error e) : e = .valueError ∧ ∀ x, ¬ Holds C l x := by
  refine ⟨?_, fun x hx => ?_⟩
  · unfold readLine at h
    split at h
    · exact (Except.error.inj h).symm
    · split at h
      · cases h
      · exact (Except.error.inj h).symm
  · rw [readLine_ok.2 hx] at h; cases h

private theorem set_next (v : Arr) (n : Nat) (x : ℝ) :
    (v ++ List.replicate (n + 1) 0).set v.length x = (v ++ [x]) ++ List.replicate n 0 := by
  rw [List.replicate_succ, List.set_append_right _ _ (le_refl _)]
  simp

private theorem fill_spec {C : Codec} : ∀ (ls : List Str) (v : Arr),
    (∃ w, List.Forall₂ (Holds C) ls w ∧ ls.mapM (readLine C) = .ok w ∧
      fillFrom C (v ++ List.replicate ls.length 0) v.length ls = (v ++ w, none)) ∨
    (∃ good bad rest w, ls = good ++ bad :: rest ∧ List.Forall₂ (Holds C) good w ∧ (∀ x, ¬ Holds C bad x) ∧
      ls.mapM (readLine C) = .error .valueError ∧
      fillFrom C (v ++ List.replicate ls.length 0) v.length ls = (v ++ (w ++ List.replicate (rest.length + 1) 0), some .valueError)) := by
  intro ls
  induction ls with
  | nil => intro v; exact Or.inl ⟨[], .nil, rfl, by simp [fillFrom]⟩
  | cons l ls ih =>
    intro v
    rcases hl : readLine C l with e | x
    · obtain ⟨rfl, hn⟩ := readLine_err hl
      refine Or.inr ⟨[], l, ls, [], rfl, .nil, hn, ?_, ?_⟩
      · rw [List.mapM_cons, hl]; rfl
      · simp [fillFrom, hl]
    · have hx := readLine_ok.1 hl
      have step : fillFrom C (v ++ List.replicate (l :: ls).length 0) v.length (l :: ls) =
          fillFrom C ((v ++ [x]) ++ List.replicate ls.length 0) (v ++ [x]).length ls := by
        conv_lhs => rw [fillFrom, hl]
        simp only [List.length_cons, set_next]
        simp
      rcases ih (v ++ [x]) with ⟨w, h1, h2, h3⟩ | ⟨good, bad, rest, w, rfl, h1, h2, h3, h4⟩
      · refine Or.inl ⟨x :: w, .cons hx h1, ?_, ?_⟩
        · rw [List.mapM_cons, hl, h2]; rfl
        · rw [step, h3]; simp
      · refine Or.inr ⟨l :: good, bad, rest, x :: w, rfl, .cons hx h1, h2, ?_, ?_⟩
        · rw [List.mapM_cons, hl, h3]; rfl
        · rw [step, h4]; simp

private theorem lines_spec (C : Codec) (s : Str) :
    (∃ w, List.Forall₂ (Holds C) (splitNL s) w ∧ readValues C s = .ok w ∧ fillLines C s = (w, none)) ∨
    (∃ good bad rest w, splitNL s = good ++ bad :: rest ∧ List.Forall₂ (Holds C) good w ∧ (∀ x, ¬ Holds C bad x) ∧
      readValues C s = .error .valueError ∧ fillLines C s = (w ++ List.replicate (rest.length + 1) 0, some .valueError)) := by
  have h := fill_spec (C := C) (splitNL s) []
  simp only [List.nil_append, List.length_nil] at h
  exact h

/-! ### Sequences -/

private theorem seq_append (a b : List Op) (pf : ParamFile) : seqOps (a ++ b) pf =
    match seqOps a pf with
    | (pf', some e) => (pf', some e)
    | (pf', none) => seqOps b pf' := by
  induction a generalizing pf with
  | nil => rfl
  | cons o os ih =>
    rw [List.cons_append]
    simp only [seqOps]
    rcases o pf with ⟨q, _ | e⟩
    · exact ih q
    · rfl

/-- What is known of one attribute after a failing statement. -/
private def Stuck (C : Codec) (get : Str → Str → Res Str) (s : Slot) (pf pf' : ParamFile) : Prop :=
  (s.Same pf pf' ∧ s.Unreadable C get) ∨ s.Half C get pf' ∨ (s.Says C get pf' ∧ s.Unfit pf')

/-- One statement that sets attribute `s`. -/
private structure Sets (C : Codec) (get : Str → Str → Res Str) (s : Slot) (o : Op) : Prop where
  others : ∀ pf x, x ≠ s → x.Same pf (o pf).1
  ok : ∀ pf, (o pf).2 = none → s.Says C get (o pf).1
  stuck : ∀ pf e, (o pf).2 = some e → Stuck C get s pf (o pf).1

private theorem same_refl (s : Slot) (a : ParamFile) : s.Same a a := by cases s <;> rfl
private theorem same_trans {s : Slot} {a b c : ParamFile} (h : s.Same a b) (k : s.Same b c) : s.Same a c := by
  cases s <;> exact Eq.trans h k
private theorem says_same {C : Codec} {get : Str → Str → Res Str} {s : Slot} {a b : ParamFile} (h : s.Same a b)
    (k : s.Says C get a) : s.Says C get b := by
  obtain ⟨t, ht, k⟩ := k
  refine ⟨t, ht, ?_⟩
  cases s <;> simp only [Slot.Same, Slot.array, Slot.int] at h k ⊢ <;> rw [← h] <;> exact k

private theorem same_ext {a b : ParamFile} (h : ∀ x : Slot, x.Same a b) : a = b := by
  obtain ⟨a1, a2, a3, a4, a5, a6⟩ := a
  obtain ⟨b1, b2, b3, b4, b5, b6⟩ := b
  have h1 : a1 = b1 := h .radii
  have h2 : a2 = b2 := funext fun p => h (.dist p)
  have h3 : a3 = b3 := funext fun p => h (.nbasis p)
  have h4 : a4 = b4 := funext fun p => h (.degree p)
  have h5 : a5 = b5 := funext fun p => h (.npoints p)
  have h6 : a6 = b6 := funext fun p => h (.deformations p)
  rw [h1, h2, h3, h4, h5, h6]

private theorem seq_spec {C : Codec} {get : Str → Str → Res Str} : ∀ (l : List (Slot × Op)),
    (∀ x ∈ l, Sets C get x.1 x.2) → (l.map Prod.fst).Nodup → ∀ pf,
    ((seqOps (l.map Prod.snd) pf).2 = none → ∀ x ∈ l.map Prod.fst, x.Says C get (seqOps (l.map Prod.snd) pf).1) ∧
    (∀ x, x ∉ l.map Prod.fst → x.Same pf (seqOps (l.map Prod.snd) pf).1) ∧
    (∀ e, (seqOps (l.map Prod.snd) pf).2 = some e → ∃ pre s post, l.map Prod.fst = pre ++ s :: post ∧
      (∀ x ∈ pre, x.Says C get (seqOps (l.map Prod.snd) pf).1) ∧ (∀ x ∈ post, x.Same pf (seqOps (l.map Prod.snd) pf).1) ∧
      Stuck C get s pf (seqOps (l.map Prod.snd) pf).1) := by
  intro l
  induction l with
  | nil =>
    intro _ _ pf
    exact ⟨by simp, fun x _ => same_refl x pf, by simp [seqOps]⟩
  | cons a l ih =>
    intro hs hn pf
    obtain ⟨s, o⟩ := a
    have ha := hs (s, o) (by simp)
    simp only [List.map_cons, List.nodup_cons] at hn
    rcases ho : o pf with ⟨q, e⟩
    have ho1 : (o pf).1 = q := by rw [ho]
    have ho2 : (o pf).2 = e := by rw [ho]
    cases e with
    | some e =>
      have hrun : seqOps (((s, o) :: l).map Prod.snd) pf = (q, some e) := by simp [seqOps, ho]
      rw [hrun]
      refine ⟨by simp, ?_, ?_⟩
      · intro x hx
        have := ha.others pf x (by intro h; apply hx; simp [h])
        rwa [ho1] at this
      · intro e' _
        refine ⟨[], s, l.map Prod.fst, rfl, by simp, ?_, ?_⟩
        · intro x hx
          have := ha.others pf x (by rintro rfl; exact hn.1 hx)
          rwa [ho1] at this
        · have := ha.stuck pf e ho2
          rwa [ho1] at this
    | none =>
      have hrun : seqOps (((s, o) :: l).map Prod.snd) pf = seqOps (l.map Prod.snd) q := by simp [seqOps, ho]
      rw [hrun]
      obtain ⟨i1, i2, i3⟩ := ih (fun x hx => hs x (by simp [hx])) hn.2 q
      have hsays : s.Says C get (seqOps (l.map Prod.snd) q).1 := by
        apply says_same (i2 s hn.1)
        have := ha.ok pf ho2
        rwa [ho1] at this
      have hoth : ∀ x, x ≠ s → x.Same pf q := by
        intro x hx
        have := ha.others pf x hx
        rwa [ho1] at this
      refine ⟨?_, ?_, ?_⟩
      · intro h x hx
        simp only [List.map_cons, List.mem_cons] at hx
        rcases hx with rfl | hx
        · exact hsays
        · exact i1 h x hx
      · intro x hx
        simp only [List.map_cons, List.mem_cons, not_or] at hx
        exact same_trans (hoth x hx.1) (i2 x hx.2)
      · intro e he
        obtain ⟨pre, s', post, h1, h2, h3, h4⟩ := i3 e he
        have hmem : ∀ x ∈ l.map Prod.fst, x ≠ s := by
          intro x hx h; exact hn.1 (h ▸ hx)
        refine ⟨s :: pre, s', post, by simp [h1], ?_, ?_, ?_⟩
        · intro x hx
          rcases List.mem_cons.1 hx with rfl | hx
          · exact hsays
          · exact h2 x hx
        · intro x hx
          exact same_trans (hoth x (hmem x (by rw [h1]; simp [hx]))) (h3 x hx)
        · rcases h4 with ⟨a, b⟩ | h4
          · exact Or.inl ⟨same_trans (hoth s' (hmem s' (by rw [h1]; simp))) a, b⟩
          · exact Or.inr h4

/-! ### The statements -/

private theorem getInt_cases (C : Codec) (st : Config.St) (p : PName) (o : Str) :
    (∃ e, Config.get st p.section' o = .error e ∧ getInt C st p o = .error e) ∨
    (∃ t, Config.get st p.section' o = .ok t ∧ C.parseInt t = none ∧ getInt C st p o = .error .valueError) ∨
    (∃ t n, Config.get st p.section' o = .ok t ∧ C.parseInt t = some n ∧ getInt C st p o = .ok n) := by
  unfold getInt readInt
  rcases hg : Config.get st p.section' o with e | t
  · exact Or.inl ⟨e, rfl, rfl⟩
  · rcases hp : C.parseInt t with _ | n
    · exact Or.inr (Or.inl ⟨t, rfl, hp, by simp [bind, Except.bind, hp]⟩)
    · exact Or.inr (Or.inr ⟨t, n, rfl, hp, by simp [bind, Except.bind, hp]⟩)

private theorem sets_radii (C : Codec) (st : Config.St) : Sets C (Config.get st) .radii (opRadii C st) := by
  refine ⟨fun pf x hx => ?_, fun pf h => ?_, fun pf e h => ?_⟩
  · unfold opRadii
    split
    · exact same_refl _ _
    · cases x <;> first | exact absurd rfl hx | rfl
  · unfold opRadii at h ⊢
    rcases hg : Config.get st origSection c!"Radial sections" with e | s
    · simp [hg] at h
    · simp only [hg] at h ⊢
      rcases lines_spec C s with ⟨w, h1, _, h2⟩ | ⟨_, _, _, _, _, _, _, _, h2⟩
      · exact ⟨s, hg, Or.inl ⟨w, by simp [Slot.array, h2], h1⟩⟩
      · rw [h2] at h; cases h
  · unfold opRadii at h ⊢
    rcases hg : Config.get st origSection c!"Radial sections" with e | s
    · simp only [hg]
      exact Or.inl ⟨same_refl _ _, Or.inl ⟨e, hg⟩⟩
    · simp only [hg] at h ⊢
      rcases lines_spec C s with ⟨w, h1, _, h2⟩ | ⟨good, bad, rest, w, a, b, c, _, h2⟩
      · rw [h2] at h; cases h
      · exact Or.inr (Or.inl ⟨s, good, bad, rest, w, hg, a, b, c, by simp [Slot.array, h2]⟩)

private theorem sets_dist (C : Codec) (st : Config.St) (p : PName) : Sets C (Config.get st) (.dist p) (opDist C st p) := by
  refine ⟨fun pf x hx => ?_, fun pf h => ?_, fun pf e h => ?_⟩
  · unfold opDist
    split
    · exact same_refl _ _
    · cases x with
      | dist q =>
        have : q ≠ p := by rintro rfl; exact hx rfl
        simp [Slot.Same, this]
      | _ => rfl
  · unfold opDist at h ⊢
    rcases hg : Config.get st origSection (c!"Radial distribution of " ++ p.str) with e | s
    · rw [hg] at h; cases h
    · rw [hg] at h
      simp only at h ⊢
      rcases lines_spec C s with ⟨w, h1, _, h2⟩ | ⟨_, _, _, _, _, _, _, _, h2⟩
      · exact ⟨s, hg, Or.inl ⟨w, by simp [Slot.array, h2], h1⟩⟩
      · rw [h2] at h; cases h
  · unfold opDist at h ⊢
    rcases hg : Config.get st origSection (c!"Radial distribution of " ++ p.str) with e | s
    · simp only
      exact Or.inl ⟨same_refl _ _, Or.inl ⟨e, hg⟩⟩
    · rw [hg] at h
      simp only at h ⊢
      rcases lines_spec C s with ⟨w, h1, _, h2⟩ | ⟨good, bad, rest, w, a, b, c, _, h2⟩
      · rw [h2] at h; cases h
      · exact Or.inr (Or.inl ⟨s, good, bad, rest, w, hg, a, b, c, by simp [Slot.array, h2]⟩)

private theorem len_fit {a : ParamFile} (h : ∃ n, (∃ r, a.radii = some r ∧ r.length = n) ∧ ∀ p, ∃ v, a.parameters p = some v ∧ v.length = n) :
    (opLengths a).2 = none := by
  obtain ⟨n, ⟨r, hr, hn⟩, hp⟩ := h
  unfold opLengths
  rw [if_pos]
  have hk : ∀ p, lenOf (a.parameters p) = n := by
    intro p
    obtain ⟨v, hv, e⟩ := hp p
    simp [lenOf, hv, e]
  have h0 : lenOf a.radii = n := by simp [lenOf, hr, hn]
  simp only [hk, h0, and_self]

private theorem sets_camber (C : Codec) (st : Config.St) :
    Sets C (Config.get st) (.dist .camber) (seqOps [opDist C st .camber, opLengths]) := by
  have hd := sets_dist C st .camber
  have hl : ∀ a, (opLengths a).1 = a := by intro a; unfold opLengths; split <;> rfl
  have run : ∀ pf, seqOps [opDist C st .camber, opLengths] pf =
      match (opDist C st .camber pf).2 with
      | some e => ((opDist C st .camber pf).1, some e)
      | none => ((opDist C st .camber pf).1, (opLengths (opDist C st .camber pf).1).2) := by
    intro pf
    rcases ho : opDist C st .camber pf with ⟨q, _ | e⟩
    · rcases hq : opLengths q with ⟨q', _ | e⟩ <;> (have := hl q; rw [hq] at this; simp only at this; subst this; simp [seqOps, ho, hq])
    · simp [seqOps, ho]
  have one : ∀ pf, (seqOps [opDist C st .camber, opLengths] pf).1 = (opDist C st .camber pf).1 := by
    intro pf; rw [run]; split <;> rfl
  refine ⟨fun pf x hx => ?_, fun pf h => ?_, fun pf e h => ?_⟩
  · rw [one]; exact hd.others pf x hx
  · rw [one]
    apply hd.ok
    rw [run] at h
    split at h
    · cases h
    · assumption
  · rw [one]
    rw [run] at h
    split at h
    · rename_i e' he
      exact hd.stuck pf e' he
    · rename_i he
      refine Or.inr (Or.inr ⟨hd.ok pf he, Or.inl ⟨rfl, fun hn => ?_⟩⟩)
      simp only at h
      rw [len_fit hn] at h
      cases h

private theorem sets_degree (C : Codec) (st : Config.St) (p : PName) : Sets C (Config.get st) (.degree p) (opDegree C st p) := by
  refine ⟨fun pf x hx => ?_, fun pf h => ?_, fun pf e h => ?_⟩
  · unfold opDegree
    split
    · exact same_refl _ _
    · cases x with
      | degree q =>
        have : q ≠ p := by rintro rfl; exact hx rfl
        simp [Slot.Same, this]
      | _ => rfl
  · rcases getInt_cases C st p c!"spline degree" with ⟨e, h1, h2⟩ | ⟨t, h1, h2, h3⟩ | ⟨t, n, h1, h2, h3⟩
    · simp [opDegree, h2] at h
    · simp [opDegree, h3] at h
    · refine ⟨t, h1, Or.inr ⟨n, by simp [opDegree, h3, Slot.int], h2⟩⟩
  · rcases getInt_cases C st p c!"spline degree" with ⟨e, h1, h2⟩ | ⟨t, h1, h2, h3⟩ | ⟨t, n, h1, h2, h3⟩
    · refine Or.inl ⟨by simp [opDegree, h2, Slot.Same], Or.inl ⟨e, h1⟩⟩
    · refine Or.inl ⟨by simp [opDegree, h3, Slot.Same], Or.inr ⟨t, h1, Or.inr ⟨h2, p, Or.inl rfl⟩⟩⟩
    · simp [opDegree, h3] at h

private theorem sets_npoints (C : Codec) (st : Config.St) (p : PName) : Sets C (Config.get st) (.npoints p) (opNpoints C st p) := by
  refine ⟨fun pf x hx => ?_, fun pf h => ?_, fun pf e h => ?_⟩
  · unfold opNpoints
    split
    · exact same_refl _ _
    · cases x with
      | npoints q =>
        have : q ≠ p := by rintro rfl; exact hx rfl
        simp [Slot.Same, this]
      | _ => rfl
  · rcases getInt_cases C st p c!"spline npoints" with ⟨e, h1, h2⟩ | ⟨t, h1, h2, h3⟩ | ⟨t, n, h1, h2, h3⟩
    · simp [opNpoints, h2] at h
    · simp [opNpoints, h3] at h
    · refine ⟨t, h1, Or.inr ⟨n, by simp [opNpoints, h3, Slot.int], h2⟩⟩
  · rcases getInt_cases C st p c!"spline npoints" with ⟨e, h1, h2⟩ | ⟨t, h1, h2, h3⟩ | ⟨t, n, h1, h2, h3⟩
    · refine Or.inl ⟨by simp [opNpoints, h2, Slot.Same], Or.inl ⟨e, h1⟩⟩
    · refine Or.inl ⟨by simp [opNpoints, h3, Slot.Same], Or.inr ⟨t, h1, Or.inr ⟨h2, p, Or.inr (Or.inl rfl)⟩⟩⟩
    · simp [opNpoints, h3] at h

private theorem sets_nbasis (C : Codec) (st : Config.St) (p : PName) : Sets C (Config.get st) (.nbasis p) (opNbasis C st p) := by
  refine ⟨fun pf x hx => ?_, fun pf h => ?_, fun pf e h => ?_⟩
  · unfold opNbasis
    split
    · exact same_refl _ _
    · cases x with
      | nbasis q =>
        have : q ≠ p := by rintro rfl; exact hx rfl
        simp [Slot.Same, this]
      | _ => rfl
  · rcases getInt_cases C st p c!"number of control points" with ⟨e, h1, h2⟩ | ⟨t, h1, h2, h3⟩ | ⟨t, n, h1, h2, h3⟩
    · simp [opNbasis, h2] at h
    · simp [opNbasis, h3] at h
    · refine ⟨t, h1, Or.inr ⟨n, by simp [opNbasis, h3, Slot.int], h2⟩⟩
  · rcases getInt_cases C st p c!"number of control points" with ⟨e, h1, h2⟩ | ⟨t, h1, h2, h3⟩ | ⟨t, n, h1, h2, h3⟩
    · refine Or.inl ⟨by simp [opNbasis, h2, Slot.Same], Or.inl ⟨e, h1⟩⟩
    · refine Or.inl ⟨by simp [opNbasis, h3, Slot.Same], Or.inr ⟨t, h1, Or.inr ⟨h2, p, Or.inr (Or.inr rfl)⟩⟩⟩
    · simp [opNbasis, h3] at h

/-- The cases of the deformations. -/
private theorem deform_cases (C : Codec) (st : Config.St) (p : PName) (pf : ParamFile) :
    (∃ e, Config.get st p.section' c!"control points Y-deformations" = .error e ∧ opDeform C st p pf = (pf, some e)) ∨
    (Config.get st p.section' c!"control points Y-deformations" = .ok [] ∧ opDeform C st p pf = (pf, some .valueError)) ∨
    (∃ t, Config.get st p.section' c!"control points Y-deformations" = .ok t ∧ t ≠ [] ∧
      ((∃ good bad rest w, splitNL t = good ++ bad :: rest ∧ List.Forall₂ (Holds C) good w ∧ (∀ x, ¬ Holds C bad x) ∧
        readValues C t = .error .valueError ∧
        opDeform C st p pf = ({ pf with deformations := fun q => if q = p then w ++ List.replicate (rest.length + 1) 0 else pf.deformations q },
          some .valueError)) ∨
      (∃ w, List.Forall₂ (Holds C) (splitNL t) w ∧ readValues C t = .ok w ∧
        opDeform C st p pf = ({ pf with deformations := fun q => if q = p then w else pf.deformations q },
          if (w.length : Int) ≠ pf.nbasis p then some .valueError else none)))) := by
  unfold opDeform
  rcases hg : Config.get st p.section' c!"control points Y-deformations" with e | t
  · exact Or.inl ⟨e, rfl, rfl⟩
  · by_cases ht : t = []
    · subst ht
      exact Or.inr (Or.inl ⟨rfl, by simp⟩)
    · refine Or.inr (Or.inr ⟨t, rfl, ht, ?_⟩)
      simp only [if_neg ht]
      rcases lines_spec C t with ⟨w, h1, h3, h2⟩ | ⟨good, bad, rest, w, a, b, c, d, h2⟩
      · refine Or.inr ⟨w, h1, h3, ?_⟩
        simp only [h2]
        split <;> simp_all
      · refine Or.inl ⟨good, bad, rest, w, a, b, c, d, ?_⟩
        simp only [h2]

private theorem sets_deform (C : Codec) (st : Config.St) (p : PName) : Sets C (Config.get st) (.deformations p) (opDeform C st p) := by
  refine ⟨fun pf x hx => ?_, fun pf h => ?_, fun pf e h => ?_⟩
  · have key : ∀ w : Arr, x.Same pf { pf with deformations := fun q => if q = p then w else pf.deformations q } := by
      intro w
      cases x with
      | deformations q =>
        have : q ≠ p := by rintro rfl; exact hx rfl
        simp [Slot.Same, this]
      | _ => rfl
    rcases deform_cases C st p pf with ⟨e, _, h⟩ | ⟨_, h⟩ | ⟨t, _, _, ⟨_, _, _, _, _, _, _, _, h⟩ | ⟨_, _, _, h⟩⟩
    · rw [h]; exact same_refl _ _
    · rw [h]; exact same_refl _ _
    · rw [h]; exact key _
    · rw [h]; exact key _
  · rcases deform_cases C st p pf with ⟨e, _, k⟩ | ⟨_, k⟩ | ⟨t, g, _, ⟨_, _, _, _, _, _, _, _, k⟩ | ⟨w, h1, _, k⟩⟩
    · rw [k] at h; cases h
    · rw [k] at h; cases h
    · rw [k] at h; cases h
    · rw [k]; exact ⟨t, g, Or.inl ⟨w, by simp [Slot.array], h1⟩⟩
  · rcases deform_cases C st p pf with ⟨e, g, k⟩ | ⟨g, k⟩ | ⟨t, g, _, ⟨good, bad, rest, w, a, b, c, _, k⟩ | ⟨w, h1, _, k⟩⟩
    · rw [k]; exact Or.inl ⟨same_refl _ _, Or.inl ⟨e, g⟩⟩
    · rw [k]; exact Or.inl ⟨same_refl _ _, Or.inr ⟨[], g, Or.inl ⟨p, rfl, rfl⟩⟩⟩
    · rw [k]; exact Or.inr (Or.inl ⟨t, good, bad, rest, w, g, a, b, c, by simp [Slot.array]⟩)
    · rw [k] at h ⊢
      refine Or.inr (Or.inr ⟨⟨t, g, Or.inl ⟨w, by simp [Slot.array], h1⟩⟩, Or.inr ⟨p, rfl, ?_⟩⟩)
      simp only at h ⊢
      split at h
      · simpa using by assumption
      · cases h

/-- The statements of `read_parameters` after parsing, with the attribute each one sets. -/
private def plan (C : Codec) (st : Config.St) : List (Slot × Op) :=
  [(.radii, opRadii C st), (.dist .chord, opDist C st .chord), (.dist .pitch, opDist C st .pitch), (.dist .rake, opDist C st .rake),
    (.dist .skew, opDist C st .skew), (.dist .camber, seqOps [opDist C st .camber, opLengths])] ++
  (PName.all.map fun p => [(Slot.degree p, opDegree C st p), (Slot.npoints p, opNpoints C st p), (Slot.nbasis p, opNbasis C st p),
    (Slot.deformations p, opDeform C st p)]).flatten

private theorem plan_slots (C : Codec) (st : Config.St) : (plan C st).map Prod.fst = order := rfl

private theorem plan_sets (C : Codec) (st : Config.St) : ∀ x ∈ plan C st, Sets C (Config.get st) x.1 x.2 := by
  intro x hx
  simp only [plan, List.mem_append, List.mem_cons, List.not_mem_nil, or_false, List.mem_flatten, List.mem_map] at hx
  rcases hx with (rfl | rfl | rfl | rfl | rfl | rfl) | ⟨l, ⟨p, _, rfl⟩, hx⟩
  · exact sets_radii C st
  · exact sets_dist C st _
  · exact sets_dist C st _
  · exact sets_dist C st _
  · exact sets_dist C st _
  · exact sets_camber C st
  · simp only [List.mem_cons, List.not_mem_nil, or_false] at hx
    rcases hx with rfl | rfl | rfl | rfl
    · exact sets_degree C st p
    · exact sets_npoints C st p
    · exact sets_nbasis C st p
    · exact sets_deform C st p

private theorem seq_nest (a b : Op) (l : List Op) (pf : ParamFile) : seqOps (a :: b :: l) pf = seqOps (seqOps [a, b] :: l) pf := by
  rw [show a :: b :: l = [a, b] ++ l from rfl, seq_append]
  conv_rhs => rw [seqOps]
  rcases seqOps [a, b] pf with ⟨q, _ | e⟩ <;> rfl

private theorem plan_run (C : Codec) (st : Config.St) (pf : ParamFile) :
    seqOps (opRadii C st :: PName.all.map (opDist C st) ++ opLengths :: (PName.all.map (opsSpline C st)).flatten) pf =
      seqOps ((plan C st).map Prod.snd) pf := by
  have h1 : opRadii C st :: PName.all.map (opDist C st) ++ opLengths :: (PName.all.map (opsSpline C st)).flatten =
      [opRadii C st, opDist C st .chord, opDist C st .pitch, opDist C st .rake, opDist C st .skew] ++
        (opDist C st .camber :: opLengths :: (PName.all.map (opsSpline C st)).flatten) := rfl
  have h2 : (plan C st).map Prod.snd = [opRadii C st, opDist C st .chord, opDist C st .pitch, opDist C st .rake, opDist C st .skew] ++
      (seqOps [opDist C st .camber, opLengths] :: (PName.all.map (opsSpline C st)).flatten) := rfl
  rw [h1, h2, seq_append, seq_append]
  rcases seqOps [opRadii C st, opDist C st .chord, opDist C st .pitch, opDist C st .rake, opDist C st .skew] pf with ⟨q, _ | e⟩
  · exact seq_nest _ _ _ _
  · rfl

/-! ### The outcome -/

private theorem opDist_ok {C : Codec} {st : Config.St} {p : PName} {v : Arr} (pf : ParamFile) (h : readDist C st p = .ok v) :
    opDist C st p pf = ({ pf with parameters := fun q => if q = p then some v else pf.parameters q }, none) := by
  unfold readDist at h
  unfold opDist
  rcases hg : Config.get st origSection (c!"Radial distribution of " ++ p.str) with e | s
  · rw [hg] at h; cases h
  · rw [hg] at h
    replace h : readValues C s = .ok v := h
    rcases lines_spec C s with ⟨w, h1, h3, h2⟩ | ⟨_, _, _, _, _, _, _, h3, h2⟩
    · rw [h3] at h; obtain rfl := Except.ok.inj h
      simp only [h2]
    · rw [h3] at h; cases h

private theorem opDist_err {C : Codec} {st : Config.St} {p : PName} {e : PyErr} (pf : ParamFile) (h : readDist C st p = .error e) :
    (opDist C st p pf).2 = some e := by
  unfold readDist at h
  unfold opDist
  rcases hg : Config.get st origSection (c!"Radial distribution of " ++ p.str) with e' | s
  · rw [hg] at h; obtain rfl := Except.error.inj (show Except.error e' = Except.error e from h); rfl
  · rw [hg] at h
    replace h : readValues C s = .error e := h
    rcases lines_spec C s with ⟨w, h1, h3, h2⟩ | ⟨_, _, _, _, _, _, _, h3, h2⟩
    · rw [h3] at h; cases h
    · rw [h3] at h; obtain rfl := Except.error.inj h
      simp only [h2]

/-- The object with the B-spline of one parameter replaced. -/
private def updSpline (pf : ParamFile) (p : PName) (x : Int × Int × Int × Arr) : ParamFile :=
  { pf with
    degree := fun q => if q = p then x.1 else pf.degree q
    npoints := fun q => if q = p then x.2.1 else pf.npoints q
    nbasis := fun q => if q = p then x.2.2.1 else pf.nbasis q
    deformations := fun q => if q = p then x.2.2.2 else pf.deformations q }

private theorem spline_run (C : Codec) (st : Config.St) (p : PName) (pf : ParamFile) :
    (∀ x, readSpline C st p = .ok x → seqOps (opsSpline C st p) pf = (updSpline pf p x, none)) ∧
    (∀ e, readSpline C st p = .error e → (seqOps (opsSpline C st p) pf).2 = some e) := by
  have hr : readSpline C st p = (getInt C st p c!"spline degree" >>= fun a => getInt C st p c!"spline npoints" >>= fun b =>
      getInt C st p c!"number of control points" >>= fun c => Config.get st p.section' c!"control points Y-deformations" >>= fun d =>
      if d = [] then throw .valueError else readValues C d >>= fun v => if (v.length : Int) ≠ c then throw .valueError else pure (a, b, c, v)) := by
    unfold readSpline getInt
    simp only [bind, Except.bind]
    repeat' (first | rfl | split)
    all_goals simp_all [throw, throwThe, MonadExceptOf.throw, pure, Except.pure]
  rw [hr]
  rcases ha : getInt C st p c!"spline degree" with e | a
  · exact ⟨fun x h => (by cases h), fun e' h => by obtain rfl := Except.error.inj (show Except.error e = Except.error e' from h); simp [opsSpline, seqOps, opDegree, ha]⟩
  rcases hb : getInt C st p c!"spline npoints" with e | b
  · exact ⟨fun x h => (by cases h), fun e' h => by obtain rfl := Except.error.inj (show Except.error e = Except.error e' from h); simp [opsSpline, seqOps, opDegree, ha, opNpoints, hb]⟩
  rcases hc : getInt C st p c!"number of control points" with e | c
  · exact ⟨fun x h => (by cases h), fun e' h => by obtain rfl := Except.error.inj (show Except.error e = Except.error e' from h); simp [opsSpline, seqOps, opDegree, ha, opNpoints, hb, opNbasis, hc]⟩
  have run : seqOps (opsSpline C st p) pf = opDeform C st p { pf with
      degree := fun q => if q = p then a else pf.degree q
      npoints := fun q => if q = p then b else pf.npoints q
      nbasis := fun q => if q = p then c else pf.nbasis q } := by
    simp only [opsSpline, seqOps, opDegree, ha, opNpoints, hb, opNbasis, hc]
    split <;> simp_all
  rw [run]
  rcases deform_cases C st p { pf with
      degree := fun q => if q = p then a else pf.degree q
      npoints := fun q => if q = p then b else pf.npoints q
      nbasis := fun q => if q = p then c else pf.nbasis q } with ⟨e, g, k⟩ | ⟨g, k⟩ | ⟨t, g, ht, ⟨good, bad, rest, w, _, _, _, d, k⟩ | ⟨w, h1, d, k⟩⟩
  · rw [k, g]
    exact ⟨fun x h => (by cases h), fun e' h => by obtain rfl := Except.error.inj (show Except.error e = Except.error e' from h); rfl⟩
  · rw [k, g]
    exact ⟨fun x h => (by cases h), fun e' h => by obtain rfl := Except.error.inj (show Except.error PyErr.valueError = Except.error e' from h); rfl⟩
  · rw [k, g]
    simp only [bind, Except.bind, if_neg ht, d]
    exact ⟨fun x h => (by cases h), fun e' h => by obtain rfl := Except.error.inj h; rfl⟩
  · rw [k, g]
    simp only [bind, Except.bind, if_neg ht, d, if_true]
    by_cases hl : (w.length : Int) ≠ c
    · rw [if_pos hl, if_pos hl]
      exact ⟨fun x h => (by cases h), fun e' h => by obtain rfl := Except.error.inj (show Except.error PyErr.valueError = Except.error e' from h); rfl⟩
    · rw [if_neg hl, if_neg hl]
      refine ⟨fun x h => ?_, fun e' h => by cases h⟩
      obtain rfl := Except.ok.inj h
      rfl

private theorem seq_all {α : Type} {ops : PName → Op} {f : PName → Res α} {upd : ParamFile → PName → α → ParamFile}
    (hok : ∀ pf p x, f p = .ok x → ops p pf = (upd pf p x, none)) (herr : ∀ pf p e, f p = .error e → (ops p pf).2 = some e) (pf : ParamFile) :
    (∀ g, forAll f = .ok g → seqOps (PName.all.map ops) pf = (PName.all.foldl (fun q p => upd q p (g p)) pf, none)) ∧
    (∀ e, forAll f = .error e → (seqOps (PName.all.map ops) pf).2 = some e) := by
  have go : ∀ (l : List PName) (pf : ParamFile) (e : PyErr),
      (∀ g : PName → α, (∀ p ∈ l, f p = .ok (g p)) → seqOps (l.map ops) pf = (l.foldl (fun q p => upd q p (g p)) pf, none)) ∧
      ((∃ pre p post, l = pre ++ p :: post ∧ (∀ q ∈ pre, ∃ x, f q = .ok x) ∧ f p = .error e) → (seqOps (l.map ops) pf).2 = some e) := by
    intro l
    induction l with
    | nil => intro pf e; exact ⟨fun g _ => rfl, fun ⟨pre, p, post, h, _⟩ => by simp at h⟩
    | cons a l ih =>
      intro pf e
      constructor
      · intro g hg
        have h1 := hok pf a (g a) (hg a (by simp))
        simp only [List.map_cons, seqOps, h1, List.foldl_cons]
        exact (ih _ e).1 g fun p hp => hg p (by simp [hp])
      · rintro ⟨pre, p, post, h, h1, h2⟩
        cases pre with
        | nil =>
          simp only [List.nil_append, List.cons.injEq] at h
          obtain ⟨rfl, rfl⟩ := h
          have := herr pf a e h2
          rcases ho : ops a pf with ⟨q, e'⟩
          rw [ho] at this
          simp only at this
          subst this
          simp [seqOps, ho]
        | cons b pre =>
          simp only [List.cons_append, List.cons.injEq] at h
          obtain ⟨rfl, rfl⟩ := h
          obtain ⟨x, hx⟩ := h1 a (by simp)
          have h3 := hok pf a x hx
          simp only [List.map_cons, seqOps, h3]
          exact (ih _ e).2 ⟨pre, p, post, rfl, fun q hq => h1 q (by simp [hq]), h2⟩
  constructor
  · intro g hg
    exact (go PName.all pf .valueError).1 g fun p _ => forAll_inv hg p
  · intro e he
    apply (go PName.all pf e).2
    unfold forAll at he
    rcases h1 : f .chord with e' | x1
    · rw [h1] at he; obtain rfl := Except.error.inj (show Except.error e' = Except.error e from he)
      exact ⟨[], .chord, [.pitch, .rake, .skew, .camber], rfl, by simp, h1⟩
    rcases h2 : f .pitch with e' | x2
    · rw [h1, h2] at he; obtain rfl := Except.error.inj (show Except.error e' = Except.error e from he)
      exact ⟨[.chord], .pitch, [.rake, .skew, .camber], rfl, by simp [h1], h2⟩
    rcases h3 : f .rake with e' | x3
    · rw [h1, h2, h3] at he; obtain rfl := Except.error.inj (show Except.error e' = Except.error e from he)
      exact ⟨[.chord, .pitch], .rake, [.skew, .camber], rfl, by simp [h1, h2], h3⟩
    rcases h4 : f .skew with e' | x4
    · rw [h1, h2, h3, h4] at he; obtain rfl := Except.error.inj (show Except.error e' = Except.error e from he)
      exact ⟨[.chord, .pitch, .rake], .skew, [.camber], rfl, by simp [h1, h2, h3], h4⟩
    rcases h5 : f .camber with e' | x5
    · rw [h1, h2, h3, h4, h5] at he; obtain rfl := Except.error.inj (show Except.error e' = Except.error e from he)
      exact ⟨[.chord, .pitch, .rake, .skew], .camber, [], rfl, by simp [h1, h2, h3, h4], h5⟩
    rw [h1, h2, h3, h4, h5] at he
    cases he

private theorem seq_flatten (f : PName → List Op) : ∀ (l : List PName) (pf : ParamFile),
    seqOps (l.map f).flatten pf = seqOps (l.map fun p => seqOps (f p)) pf := by
  intro l
  induction l with
  | nil => intro pf; rfl
  | cons a l ih =>
    intro pf
    simp only [List.map_cons, List.flatten_cons, seq_append]
    conv_rhs => rw [seqOps]
    rcases seqOps (f a) pf with ⟨q, _ | e⟩
    · exact ih q
    · rfl

/-- The outcome of a read. -/
private theorem readInto_outcome (C : Codec) (t : Str) (pf : ParamFile) :
    (∀ q, readText C t = .ok q → readInto C t pf = (q, none)) ∧ (∀ e, readText C t = .error e → (readInto C t pf).2 = some e) := by
  unfold readText readInto
  rcases hc : Config.read t with e | st
  · exact ⟨fun q h => (by cases h), fun e' h => by obtain rfl := Except.error.inj (show Except.error e = Except.error e' from h); rfl⟩
  simp only [bind, Except.bind]
  rcases hg : Config.get st origSection c!"Radial sections" with e | s
  · refine ⟨fun q h => (by cases h), fun e' h => ?_⟩
    obtain rfl := Except.error.inj h
    simp only [List.cons_append, seqOps, opRadii, hg]
  rcases lines_spec C s with ⟨r, h1, h3, h2⟩ | ⟨_, _, _, _, _, _, _, h3, h2⟩
  swap
  · simp only [h3]
    refine ⟨fun q h => (by cases h), fun e' h => ?_⟩
    obtain rfl := Except.error.inj h
    simp only [List.cons_append, seqOps, opRadii, hg, h2]
  simp only [h3]
  have hrad : opRadii C st pf = ({ pf with radii := some r }, none) := by simp only [opRadii, hg, h2]
  obtain ⟨d1, d2⟩ := seq_all (ops := opDist C st) (f := readDist C st)
    (upd := fun pf p v => { pf with parameters := fun q => if q = p then some v else pf.parameters q })
    (fun pf p x h => opDist_ok pf h) (fun pf p e h => opDist_err pf h) { pf with radii := some r }
  simp only [List.cons_append, seqOps, hrad, seq_append]
  rcases hd : forAll (readDist C st) with e | dist
  · refine ⟨fun q h => (by cases h), fun e' h => ?_⟩
    obtain rfl := Except.error.inj h
    have := d2 e hd
    rcases hs : seqOps (PName.all.map (opDist C st)) { pf with radii := some r } with ⟨q, e'⟩
    rw [hs] at this
    simp only at this
    subst this
    rfl
  rw [d1 dist hd]
  simp only
  have hP : (PName.all.foldl (fun q p => ({ q with parameters := fun q' => if q' = p then some (dist p) else q.parameters q' } : ParamFile))
      { pf with radii := some r }) = { pf with radii := some r, parameters := fun p => some (dist p) } := by
    apply same_ext
    intro x
    cases x with
    | dist p => cases p <;> rfl
    | _ => rfl
  rw [hP]
  by_cases hl : (r.length = (dist .chord).length ∧ (dist .chord).length = (dist .pitch).length ∧
      (dist .pitch).length = (dist .rake).length ∧ (dist .rake).length = (dist .skew).length ∧
      (dist .skew).length = (dist .camber).length)
  swap
  · rw [if_pos hl]
    refine ⟨fun q h => (by cases h), fun e' h => ?_⟩
    obtain rfl := Except.error.inj h
    have : opLengths { pf with radii := some r, parameters := fun p => some (dist p) } =
        ({ pf with radii := some r, parameters := fun p => some (dist p) }, some .valueError) := by
      unfold opLengths
      rw [if_neg]
      exact hl
    rw [this]
  rw [if_neg (not_not.2 hl)]
  have hlen : opLengths { pf with radii := some r, parameters := fun p => some (dist p) } =
      ({ pf with radii := some r, parameters := fun p => some (dist p) }, none) := by
    unfold opLengths
    rw [if_pos]
    exact hl
  rw [hlen]
  simp only [seq_flatten]
  obtain ⟨s1, s2⟩ := seq_all (ops := fun p => seqOps (opsSpline C st p)) (f := readSpline C st) (upd := updSpline)
    (fun pf p x h => (spline_run C st p pf).1 x h) (fun pf p e h => (spline_run C st p pf).2 e h)
    { pf with radii := some r, parameters := fun p => some (dist p) }
  rcases hs : forAll (readSpline C st) with e | sp
  · refine ⟨fun q h => (by cases h), fun e' h => ?_⟩
    obtain rfl := Except.error.inj h
    exact s2 e hs
  · refine ⟨fun q h => ?_, fun e' h => (by cases h)⟩
    obtain rfl := Except.ok.inj h
    rw [s1 sp hs]
    congr 1
    apply same_ext
    intro x
    cases x with
    | degree p => cases p <;> rfl
    | npoints p => cases p <;> rfl
    | nbasis p => cases p <;> rfl
    | deformations p => cases p <;> rfl
    | _ => rfl

/-! ### Checking -/

private theorem check_one (r : Arr) (pf : ParamFile) (p : PName) : checkOne r pf p =
    match opCheck r p pf with
    | (q, none) => .ok q
    | (_, some e) => .error e := by
  unfold checkOne opCheck
  simp only
  split
  · rfl
  · split
    · rfl
    · rfl

private theorem check_seq (r : Arr) : ∀ (l : List PName) (pf : ParamFile), l.foldlM (checkOne r) pf =
    match seqOps (l.map (opCheck r)) pf with
    | (q, none) => .ok q
    | (_, some e) => .error e := by
  intro l
  induction l with
  | nil => intro pf; rfl
  | cons a l ih =>
    intro pf
    rw [List.foldlM_cons, check_one]
    simp only [List.map_cons, seqOps]
    rcases opCheck r a pf with ⟨q, _ | e⟩
    · exact ih q
    · rfl

private theorem check_into (pf : ParamFile) : pf.checkParams =
    match checkInto pf with
    | (q, none) => .ok q
    | (_, some e) => .error e := by
  unfold checkParams checkInto
  rcases pf.radii with _ | r
  · rfl
  · exact check_seq r PName.all pf

/-- What the check may do to the object: a distribution that was missing may be replaced by zeros. -/
private structure Filled (r : Arr) (a b : ParamFile) : Prop where
  radii : b.radii = a.radii
  degree : b.degree = a.degree
  npoints : b.npoints = a.npoints
  nbasis : b.nbasis = a.nbasis
  deformations : b.deformations = a.deformations
  parameters : ∀ p, b.parameters p = a.parameters p ∨ (a.parameters p = none ∧ b.parameters p = some (List.replicate r.length 0))

private theorem filled_seq (r : Arr) : ∀ (l : List PName) (pf : ParamFile), Filled r pf (seqOps (l.map (opCheck r)) pf).1 := by
  intro l
  induction l with
  | nil => intro pf; exact ⟨rfl, rfl, rfl, rfl, rfl, fun p => Or.inl rfl⟩
  | cons a l ih =>
    intro pf
    have h1 : Filled r pf (opCheck r a pf).1 := by
      have : (opCheck r a pf).1 = { pf with parameters := fun q => if q = a then some ((pf.parameters a).getD (List.replicate r.length 0)) else pf.parameters q } := by
        unfold opCheck
        simp only
        split
        · rfl
        · split <;> rfl
      rw [this]
      refine ⟨rfl, rfl, rfl, rfl, rfl, fun p => ?_⟩
      simp only
      split
      · rename_i e
        subst e
        rcases hp : pf.parameters p with _ | v
        · exact Or.inr ⟨rfl, rfl⟩
        · exact Or.inl rfl
      · exact Or.inl rfl
    simp only [List.map_cons, seqOps]
    rcases ho : opCheck r a pf with ⟨q, _ | e⟩
    · rw [ho] at h1
      have h2 := ih q
      simp only at h1 h2 ⊢
      refine ⟨h2.radii.trans h1.radii, h2.degree.trans h1.degree, h2.npoints.trans h1.npoints, h2.nbasis.trans h1.nbasis,
        h2.deformations.trans h1.deformations, fun p => ?_⟩
      rcases h2.parameters p with e2 | ⟨e2, e3⟩ <;> rcases h1.parameters p with f2 | ⟨f2, f3⟩
      · exact Or.inl (e2.trans f2)
      · exact Or.inr ⟨f2, e2.trans f3⟩
      · exact Or.inr ⟨f2.symm.trans e2, e3⟩
      · rw [f3] at e2; cases e2
    · rw [ho] at h1
      exact h1

/-! ## C93: what a read leaves in the object, also when it fails -/

/-- A read succeeds exactly if the file describes parameters, and then the object holds these and nothing of what it held
before. -/
theorem C93_success (C : Codec) (t : Str) (pf pf' : ParamFile) : readInto C t pf = (pf', none) ↔ readText C t = .ok pf' := by
  obtain ⟨h1, h2⟩ := readInto_outcome C t pf
  refine ⟨fun h => ?_, h1 pf'⟩
  rcases hr : readText C t with e | q
  · have := h2 e hr; rw [h] at this; cases this
  · have := h1 q hr; rw [h] at this
    rw [(Prod.mk.inj this).1]

/-- A read fails, with the same exception, whatever the object held before. -/
theorem C93_refused (C : Codec) (t : Str) (pf : ParamFile) (e : PyErr) : (readInto C t pf).2 = some e ↔ readText C t = .error e := by
  obtain ⟨h1, h2⟩ := readInto_outcome C t pf
  refine ⟨fun h => ?_, h2 e⟩
  rcases hr : readText C t with e' | q
  · rw [h2 e' hr] at h; rw [Option.some.inj h]
  · rw [h1 q hr] at h; cases h

example (pf : ParamFile) : readInto tenths HandFile.fileSample.text pf = (HandFile.paramSample, none) :=
  (C93_success _ _ _ _).2 ((HandFile.C90_reads tenths tenths_lawful _ HandFile.fileSample_good _).2 HandFile.fileSample_states)

/-- The attributes, each once. -/
theorem slots_complete : (∀ s, s ∈ order) ∧ order.Nodup := by
  refine ⟨fun s => ?_, by decide⟩
  rcases s with _ | p | p | p | p | p
  · decide
  all_goals (cases p <;> decide)

/-- After a successful read every attribute is what the file says. -/
theorem C93_all_read (C : Codec) (t : Str) (st : Config.St) (hst : Config.read t = .ok st) (pf pf' : ParamFile)
    (h : readInto C t pf = (pf', none)) : ∀ s : Slot, s.Says C (Config.get st) pf' := by
  intro s
  have hr : readInto C t pf = seqOps ((plan C st).map Prod.snd) pf := by
    unfold readInto; rw [hst]; exact plan_run C st pf
  have := (seq_spec (plan C st) (plan_sets C st) (by rw [plan_slots]; exact slots_complete.2) pf).1
  rw [← hr, h, plan_slots] at this
  exact this rfl s (slots_complete.1 s)

/-- A failing read. Either the file cannot be parsed and the object is untouched; or the attributes before some point of the
reading order are those of the file, those after it are the old ones, and the attribute at that point is

* the old one, because the file has no usable value for it, or
* an array that was read up to the first line that is not a number and is zero from there on, or
* read, but does not fit the others. -/
theorem C93_failure (C : Codec) (t : Str) (pf pf' : ParamFile) (e : PyErr) (h : readInto C t pf = (pf', some e)) :
    (Config.read t = .error e ∧ pf' = pf) ∨
    ∃ st, Config.read t = .ok st ∧ ∃ pre s post, order = pre ++ s :: post ∧
      (∀ x ∈ pre, x.Says C (Config.get st) pf') ∧ (∀ x ∈ post, x.Same pf pf') ∧
      ((s.Same pf pf' ∧ s.Unreadable C (Config.get st)) ∨ s.Half C (Config.get st) pf' ∨
        (s.Says C (Config.get st) pf' ∧ s.Unfit pf')) := by
  rcases hst : Config.read t with e' | st
  · refine Or.inl ?_
    unfold readInto at h
    rw [hst] at h
    simp only [Prod.mk.injEq, Option.some.injEq] at h
    exact ⟨by rw [h.2], h.1.symm⟩
  · refine Or.inr ⟨st, rfl, ?_⟩
    have hr : readInto C t pf = seqOps ((plan C st).map Prod.snd) pf := by
      unfold readInto; rw [hst]; exact plan_run C st pf
    have := (seq_spec (plan C st) (plan_sets C st) (by rw [plan_slots]; exact slots_complete.2) pf).2.2 e
    rw [← hr, h, plan_slots] at this
    exact this rfl

/-- The check of `write_parameters`: the same verdict as before; if it fails, the object keeps everything except that
missing distributions may have become zeros. -/
theorem C93_check (pf pf' : ParamFile) (e : Option PyErr) (h : checkInto pf = (pf', e)) :
    (e = none ↔ pf.Consistent) ∧ (e = none → pf' = pf.filled) ∧ (e ≠ none → e = some .valueError) ∧
    pf'.radii = pf.radii ∧ pf'.degree = pf.degree ∧ pf'.npoints = pf.npoints ∧ pf'.nbasis = pf.nbasis ∧
    pf'.deformations = pf.deformations ∧
    ∀ p, pf'.parameters p = pf.parameters p ∨
      (pf.parameters p = none ∧ pf'.parameters p = some (List.replicate (pf.radii.getD []).length 0)) := by
  have hc := check_into pf
  rw [h] at hc
  have hf : (pf.radii = none ∧ pf' = pf) ∨ ∃ r, pf.radii = some r ∧ Filled r pf pf' := by
    unfold checkInto at h
    rcases hr : pf.radii with _ | r
    · simp only [hr, Prod.mk.injEq] at h
      exact Or.inl ⟨rfl, h.1.symm⟩
    · simp only [hr] at h
      have := filled_seq r PName.all pf
      rw [h] at this
      exact Or.inr ⟨r, rfl, this⟩
  refine ⟨?_, ?_, ?_, ?_⟩
  · by_cases hcon : pf.Consistent
    · rw [C42_accepts pf hcon] at hc
      cases e with
      | none => simp [hcon]
      | some e => cases hc
    · rw [C42_rejects pf hcon] at hc
      cases e with
      | none => cases hc
      | some e => simp [hcon]
  · rintro rfl
    by_cases hcon : pf.Consistent
    · rw [C42_accepts pf hcon] at hc
      exact (Except.ok.inj hc).symm
    · rw [C42_rejects pf hcon] at hc
      cases hc
  · intro he
    cases e with
    | none => exact absurd rfl he
    | some e =>
      by_cases hcon : pf.Consistent
      · rw [C42_accepts pf hcon] at hc; cases hc
      · rw [C42_rejects pf hcon] at hc
        rw [Except.error.inj hc]
  · rcases hf with ⟨hr, rfl⟩ | ⟨r, hr, hF⟩
    · exact ⟨rfl, rfl, rfl, rfl, rfl, fun p => Or.inl rfl⟩
    · refine ⟨hF.radii, hF.degree, hF.npoints, hF.nbasis, hF.deformations, fun p => ?_⟩
      rw [hr]
      exact hF.parameters p

/-- Reading never changes an existing file, and no file but the one asked for. -/
theorem C93_files (C : Codec) (fs : FS) (path : Str) (pf : ParamFile) :
    (fs path ≠ none → (readParametersInto C fs path pf).1 = fs) ∧
    ∀ q, q ≠ path → (readParametersInto C fs path pf).1 q = fs q := by
  unfold readParametersInto
  rcases hp : fs path with _ | t
  · refine ⟨fun h => absurd rfl h, fun q hq => ?_⟩
    have : ∀ a : ParamFile, (writeInto C fs path a).1 q = fs q := by
      intro a
      unfold writeInto
      rcases checkInto a with ⟨b, _ | e⟩
      · simp [hq]
      · rfl
    have hw := this { pf with radii := some defaultRadii }
    simp only
    rcases hk : writeInto C fs path { pf with radii := some defaultRadii } with ⟨fs', b, _ | e⟩
    · rw [hk] at hw; exact hw
    · rw [hk] at hw; exact hw
  · exact ⟨fun _ => rfl, fun q _ => rfl⟩

/-- A missing file and an object that does not fit the default radii: nothing is written, the call fails, and the radii of
the object are lost. -/
theorem C93_missing (C : Codec) (fs : FS) (path : Str) (pf : ParamFile) (hm : fs path = none)
    (hc : ¬ ({ pf with radii := some defaultRadii } : ParamFile).Consistent) :
    ∃ pf', readParametersInto C fs path pf = (fs, pf', some .valueError) ∧ pf'.radii = some defaultRadii ∧
      pf'.degree = pf.degree ∧ pf'.npoints = pf.npoints ∧ pf'.nbasis = pf.nbasis ∧ pf'.deformations = pf.deformations ∧
      ∀ p, pf'.parameters p = pf.parameters p ∨ (pf.parameters p = none ∧ pf'.parameters p = some (List.replicate 8 0)) := by
  rcases hk : checkInto { pf with radii := some defaultRadii } with ⟨pf', e⟩
  obtain ⟨h1, _, h3, h4, h5, h6, h7, h8, h9⟩ := C93_check _ _ _ hk
  have he : e = some .valueError := h3 (fun h => hc (h1.1 h))
  subst he
  refine ⟨pf', ?_, h4, h5, h6, h7, h8, h9⟩
  unfold readParametersInto writeInto
  simp only [hm, hk]

/-- Whatever two objects went through before, a read of the same existing file has the same outcome for both; if it
succeeds, they are equal afterwards. -/
theorem C93_history (C : Codec) (before before' : List (FS × Str)) (pf0 pf0' : ParamFile) (fs : FS) (path : Str) (t : Str)
    (ht : fs path = some t) :
    let after := fun (l : List (FS × Str)) (a : ParamFile) => l.foldl (fun a c => (readParametersInto C c.1 c.2 a).2.1) a
    let a := readParametersInto C fs path (after before pf0)
    let b := readParametersInto C fs path (after before' pf0')
    a.2.2 = b.2.2 ∧ (a.2.2 = none → a.2.1 = b.2.1 ∧ ∀ p, ∃ r v, a.2.1.radii = some r ∧ a.2.1.parameters p = some v ∧ v.length = r.length) := by
  intro after a b
  have ha : a.2 = readInto C t (after before pf0) := by simp only [a, readParametersInto, ht]
  have hb : b.2 = readInto C t (after before' pf0') := by simp only [b, readParametersInto, ht]
  rcases hr : readText C t with e | q
  · have h1 := (C93_refused C t (after before pf0) e).2 hr
    have h2 := (C93_refused C t (after before' pf0') e).2 hr
    rw [ha, hb, h1, h2]
    exact ⟨rfl, fun h => by cases h⟩
  · have h1 := (C93_success C t (after before pf0) q).2 hr
    have h2 := (C93_success C t (after before' pf0') q).2 hr
    rw [ha, hb, h1, h2]
    refine ⟨rfl, fun _ => ⟨rfl, fun p => ?_⟩⟩
    obtain ⟨r, hr', _, hv, _⟩ := C41_consistent C t q hr
    obtain ⟨v, hv', hl⟩ := hv p
    exact ⟨r, v, hr', hv', hl⟩

private theorem lines_of {C : Codec} {t : Str} {v : Arr} (h : List.Forall₂ (Holds C) (splitNL t) v) :
    fillLines C t = (v, none) := by
  have fun' : ∀ (ls : List Str) (a b : Arr), List.Forall₂ (Holds C) ls a → List.Forall₂ (Holds C) ls b → a = b := by
    intro ls
    induction ls with
    | nil => intro a b h k; cases h; cases k; rfl
    | cons l ls ih =>
      intro a b h k
      cases h with
      | cons h1 h2 =>
        cases k with
        | cons k1 k2 =>
          rw [ih _ _ h2 k2, Option.some.inj (h1.2.symm.trans k1.2)]
  rcases lines_spec C t with ⟨w, h1, _, h2⟩ | ⟨good, bad, rest, w, a, _, c, _, _⟩
  · rw [h2, fun' _ _ _ h h1]
  · exfalso
    rw [a] at h
    have : ∀ (g : List Str) (v : Arr), List.Forall₂ (Holds C) (g ++ bad :: rest) v → False := by
      intro g
      induction g with
      | nil => intro v h; cases h with | cons h1 _ => exact c _ h1
      | cons l g ih => intro v h; cases h with | cons _ h2 => exact ih _ h2
    exact this good v h

theorem write_consistent {C : Codec} {fs : FS} {path : Str} {a : ParamFile} (h : a.Consistent) :
    writeInto C fs path a = (fun q => if q = path then some (text C a.filled) else fs q, a.filled, none) := by
  rcases hk : checkInto a with ⟨q, e⟩
  obtain ⟨h1, h2, _⟩ := C93_check _ _ _ hk
  obtain rfl := h1.2 h
  obtain rfl := h2 rfl
  unfold writeInto
  rw [hk]

/-- A failing read is not undone: if the radii and distributions of the file are fine but its first B-spline section is not,
the call fails and the object describes a blade that is in no file: the new radii and distributions with the old
deformations. `write_parameters` then writes it without complaint. -/
theorem C93_mixed (C : Codec) (t : Str) (st : Config.St) (hst : Config.read t = .ok st) (pf : ParamFile) (tr : Str) (r : Arr)
    (hr : Config.get st c!"Original parameters" c!"Radial sections" = .ok tr) (hr' : List.Forall₂ (Holds C) (splitNL tr) r)
    (td : PName → Str) (d : PName → Arr)
    (hd : ∀ p, Config.get st c!"Original parameters" (c!"Radial distribution of " ++ p.str) = .ok (td p))
    (hd' : ∀ p, List.Forall₂ (Holds C) (splitNL (td p)) (d p)) (hl : ∀ p, (d p).length = r.length)
    (hx : (Slot.degree .chord).Unreadable C (Config.get st)) (hb : ∀ p, pf.nbasis p = ((pf.deformations p).length : Int))
    (fs : FS) (path : Str) :
    ∃ pf' e, readInto C t pf = (pf', some e) ∧ pf'.radii = some r ∧ (∀ p, pf'.parameters p = some (d p)) ∧
      pf'.deformations = pf.deformations ∧ pf'.nbasis = pf.nbasis ∧ pf'.degree = pf.degree ∧ pf'.npoints = pf.npoints ∧
      writeInto C fs path pf' = (fun q => if q = path then some (text C pf') else fs q, pf', none) := by
  set q : ParamFile := { pf with radii := some r, parameters := fun p => some (d p) } with hq
  have hdist : ∀ (a : ParamFile) (p : PName), opDist C st p a =
      ({ a with parameters := fun q => if q = p then some (d p) else a.parameters q }, none) := by
    intro a p
    unfold opDist
    rw [show Config.get st origSection (c!"Radial distribution of " ++ p.str) = _ from hd p]
    simp only [lines_of (hd' p)]
  have hrad : opRadii C st pf = ({ pf with radii := some r }, none) := by
    unfold opRadii
    rw [show Config.get st origSection c!"Radial sections" = _ from hr]
    simp only [lines_of hr']
  have hlen : opLengths q = (q, none) := by
    unfold opLengths
    rw [if_pos]
    simp only [hq, lenOf, Option.getD_some, hl, and_self]
  obtain ⟨e, he⟩ : ∃ e, opDegree C st .chord q = (q, some e) := by
    unfold opDegree
    rcases getInt_cases C st .chord c!"spline degree" with ⟨e, h1, h2⟩ | ⟨t, h1, h2, h3⟩ | ⟨t, n, h1, h2, h3⟩
    · exact ⟨e, by rw [h2]⟩
    · exact ⟨_, by rw [h3]⟩
    · exfalso
      rcases hx with ⟨e, hx⟩ | ⟨t', hx, ⟨p, h, _⟩ | ⟨hn, _⟩⟩
      · rw [show Config.get st PName.chord.section' c!"spline degree" = _ from hx] at h1; cases h1
      · cases h
      · rw [show Config.get st PName.chord.section' c!"spline degree" = _ from hx] at h1
        obtain rfl := Except.ok.inj h1
        rw [hn] at h2; cases h2
  have hrun : readInto C t pf = (q, some e) := by
    unfold readInto
    rw [hst]
    have e1 : opRadii C st :: PName.all.map (opDist C st) ++ opLengths :: (PName.all.map (opsSpline C st)).flatten =
      opRadii C st :: (PName.all.map (opDist C st) ++ opLengths :: opDegree C st .chord ::
        ([opNpoints C st .chord, opNbasis C st .chord, opDeform C st .chord] ++
          ([PName.pitch, .rake, .skew, .camber].map (opsSpline C st)).flatten)) := rfl
    simp only [e1, seqOps, hrad]
    rw [seq_append]
    have e2 : seqOps (PName.all.map (opDist C st)) { pf with radii := some r } = (q, none) := by
      simp only [PName.all, List.map_cons, List.map_nil, seqOps, hdist]
      congr 1
      apply same_ext
      intro x
      cases x with
      | dist p => cases p <;> rfl
      | _ => rfl
    rw [e2]
    simp only [seqOps, hlen, he]
  have hcon : q.Consistent := ⟨⟨r, rfl, fun p v hv => by rw [← Option.some.inj hv]; exact hl p⟩, hb⟩
  have hfill : q.filled = q := rfl
  refine ⟨q, e, hrun, rfl, fun p => rfl, rfl, rfl, rfl, rfl, ?_⟩
  have := write_consistent (C := C) (fs := fs) (path := path) hcon
  rw [hfill] at this
  exact this

/-- Nor are numbers lost only by a later failure: if the list of radii itself is broken at some line, the object keeps its old
distributions, its radii are the numbers before that line and zero from there on, and as long as their number is right
`write_parameters` accepts it. -/
theorem C93_zero_padded (C : Codec) (t : Str) (st : Config.St) (hst : Config.read t = .ok st) (pf : ParamFile) (hc : pf.Consistent)
    (tr : Str) (hr : Config.get st c!"Original parameters" c!"Radial sections" = .ok tr) (good : List Str) (bad : Str) (rest : List Str)
    (v : Arr) (hs : splitNL tr = good ++ bad :: rest) (hg : List.Forall₂ (Holds C) good v) (hbad : ∀ x, ¬ Holds C bad x)
    (hn : ∀ r, pf.radii = some r → r.length = (splitNL tr).length) (fs : FS) (path : Str) :
    ∃ pf', readInto C t pf = (pf', some .valueError) ∧ pf'.radii = some (v ++ List.replicate (rest.length + 1) 0) ∧
      pf'.parameters = pf.parameters ∧ pf'.deformations = pf.deformations ∧ pf'.nbasis = pf.nbasis ∧ pf'.degree = pf.degree ∧
      pf'.npoints = pf.npoints ∧ ∃ pf'', writeInto C fs path pf' = (fun q => if q = path then some (text C pf'') else fs q, pf'', none) ∧
        pf''.radii = some (v ++ List.replicate (rest.length + 1) 0) := by
  have huniq : ∀ (g g' : List Str) (w v : Arr) (b b' : Str) (l l' : List Str), g ++ b :: l = g' ++ b' :: l' → List.Forall₂ (Holds C) g w →
      List.Forall₂ (Holds C) g' v → (∀ x, ¬ Holds C b x) → (∀ x, ¬ Holds C b' x) → w = v ∧ l.length = l'.length := by
    intro g
    induction g with
    | nil =>
      intro g' w v b b' l l' e hw hv hb hb'
      cases hw
      cases g' with
      | nil => cases hv; simp at e; exact ⟨rfl, by rw [e.2]⟩
      | cons a g' => cases hv with | cons h1 _ => simp at e; rw [← e.1] at h1; exact absurd h1 (hb _)
    | cons a g ih =>
      intro g' w v b b' l l' e hw hv hb hb'
      cases hw with
      | cons h1 h2 =>
        cases g' with
        | nil => simp at e; rw [e.1] at h1; exact absurd h1 (hb' _)
        | cons a' g' =>
          cases hv with
          | cons k1 k2 =>
            simp only [List.cons_append, List.cons.injEq] at e
            obtain ⟨i1, i2⟩ := ih g' _ _ b b' l l' e.2 h2 k2 hb hb'
            rw [← e.1] at k1
            exact ⟨by rw [i1, Option.some.inj (h1.2.symm.trans k1.2)], i2⟩
  have hf : fillLines C tr = (v ++ List.replicate (rest.length + 1) 0, some .valueError) := by
    rcases lines_spec C tr with ⟨w, h1, _, _⟩ | ⟨good', bad', rest', w, a, b, c, _, h2⟩
    · exfalso
      rw [hs] at h1
      have : ∀ (g : List Str) (v : Arr), List.Forall₂ (Holds C) (g ++ bad :: rest) v → False := by
        intro g
        induction g with
        | nil => intro v h; cases h with | cons h1 _ => exact hbad _ h1
        | cons l g ih => intro v h; cases h with | cons _ h2 => exact ih _ h2
      exact this good w h1
    · obtain ⟨i1, i2⟩ := huniq good' good w v bad' bad rest' rest (a.symm.trans hs) b hg c hbad
      rw [h2, i1, i2]
  have hlen : (v ++ List.replicate (rest.length + 1) (0 : ℝ)).length = (splitNL tr).length := by
    rw [hs]
    simp [hg.length_eq]
  set q : ParamFile := { pf with radii := some (v ++ List.replicate (rest.length + 1) 0) } with hq
  have hrun : readInto C t pf = (q, some .valueError) := by
    unfold readInto
    rw [hst]
    simp only [List.cons_append, seqOps]
    have : opRadii C st pf = (q, some .valueError) := by
      unfold opRadii
      rw [show Config.get st origSection c!"Radial sections" = _ from hr]
      simp only [hf, hq]
    rw [this]
  have hcon : q.Consistent := by
    obtain ⟨⟨r, h1, h2⟩, h3⟩ := hc
    refine ⟨⟨_, rfl, fun p w hw => ?_⟩, h3⟩
    rw [hlen, ← hn r h1]
    exact h2 p w hw
  exact ⟨q, hrun, rfl, rfl, rfl, rfl, rfl, rfl, q.filled, write_consistent hcon, rfl⟩

/-! ### Examples -/

/-- Three radii are expected; the second line is blank. -/
def gapFile : HandFile.File := ⟨[], [⟨c!"Original parameters", [], [],
  [⟨c!"Radial sections", c!" ", '=', c!" ", c!"5", [], [.empty [], .value c!" " c!"7" []]⟩]⟩]⟩

theorem gapFile_good : gapFile.Good := by
  refine ⟨by simp [gapFile], ?_, by decide⟩
  intro s hs
  simp only [gapFile, List.mem_cons, List.not_mem_nil, or_false] at hs
  subst hs
  refine ⟨by decide, HandFile.blanks_of rfl, by simp, ?_, by decide⟩
  intro o ho
  simp only [List.mem_cons, List.not_mem_nil, or_false] at ho
  subst ho
  refine HandFile.opt_of (by decide) (by decide) rfl rfl rfl rfl ?_
  intro q hq
  simp only [List.mem_cons, List.not_mem_nil, or_false] at hq
  rcases hq with rfl | rfl
  · exact HandFile.blanks_of rfl
  · exact ⟨HandFile.blanks_of rfl, by simp, HandFile.tight_of rfl, by simp, by simp, by simp, HandFile.blanks_of rfl⟩

private theorem holds_five : Holds tenths c!"5" 0.5 := by
  refine ⟨by decide, ?_⟩
  simp [tenths, intValue, natValue, Nat.ofDigits]
  norm_num

private theorem holds_none (x : ℝ) : ¬ Holds tenths [] x := by
  rintro ⟨_, h⟩
  rw [tenths_lawful.parse_nil] at h
  cases h

private theorem gapFile_lookup : ∃ st, Config.read gapFile.text = .ok st ∧
    Config.get st c!"Original parameters" c!"Radial sections" = .ok c!"5\n\n7" := by
  obtain ⟨st, h1, h2⟩ := HandFile.get_file gapFile_good
  refine ⟨st, h1, ?_⟩
  rw [h2, show gapFile.says c!"Original parameters" c!"Radial sections" = some [c!"5", [], c!"7"] from by decide]
  rfl

/-- An object with three radii. -/
def threeRadii : ParamFile := { ParamFile.init with radii := some [0.3, 0.6, 0.9] }

theorem threeRadii_consistent : threeRadii.Consistent :=
  ⟨⟨[0.3, 0.6, 0.9], rfl, fun p v hv => (by cases hv)⟩, fun p => by simp [threeRadii, ParamFile.init]⟩

/-- After the failing read the radii are `0.5, 0, 0`, and they can be written. -/
example (fs : FS) (path : Str) : ∃ pf', readInto tenths gapFile.text threeRadii = (pf', some .valueError) ∧ pf'.radii = some [0.5, 0, 0] ∧
    ∃ pf'', writeInto tenths fs path pf' = (fun q => if q = path then some (text tenths pf'') else fs q, pf'', none) ∧ pf''.radii = some [0.5, 0, 0] := by
  obtain ⟨st, h1, h2⟩ := gapFile_lookup
  obtain ⟨pf', a, b, _, _, _, _, _, c⟩ := C93_zero_padded tenths gapFile.text st h1 threeRadii threeRadii_consistent c!"5\n\n7" h2 [c!"5"] [] [c!"7"] [0.5]
    (by decide) (.cons holds_five .nil) holds_none (fun r hr => by rw [← Option.some.inj hr]; decide) fs path
  exact ⟨pf', a, b, c⟩

/-- C93_failure on this file: the radii are half read, everything else is old. -/
example : ∃ pf', readInto tenths gapFile.text threeRadii = (pf', some .valueError) := by
  obtain ⟨st, h1, h2⟩ := gapFile_lookup
  obtain ⟨pf', a, _⟩ := C93_zero_padded tenths gapFile.text st h1 threeRadii threeRadii_consistent c!"5\n\n7" h2 [c!"5"] [] [c!"7"] [0.5]
    (by decide) (.cons holds_five .nil) holds_none (fun r hr => by rw [← Option.some.inj hr]; decide) (fun _ => none) []
  exact ⟨pf', a⟩

/-- A file without B-spline sections. -/
def headFile : HandFile.File := ⟨[], [HandFile.origSample]⟩

theorem headFile_good : headFile.Good := by
  refine ⟨by simp [headFile], ?_, by decide⟩
  intro s hs
  simp only [headFile, List.mem_cons, List.not_mem_nil, or_false] at hs
  subst hs
  exact HandFile.fileSample_good.secs _ (by simp [HandFile.fileSample])

private theorem holds_tenth (s : Str) (x : ℝ) (h1 : s ≠ []) (h2 : manyWords s = false) (h3 : (intValue s : ℝ) / 10 = x) : Holds tenths s x := by
  refine ⟨h2, ?_⟩
  simp [tenths, h1, h3]

/-- Reading it into a new object fails and leaves two radii with ten zero deformations per parameter. -/
example (fs : FS) (path : Str) : ∃ pf' e, readInto tenths headFile.text threeRadii = (pf', some e) ∧ pf'.radii = some [0.5, 1] ∧
    (∀ p, pf'.parameters p = some [0, 0.1]) ∧ (∀ p, pf'.deformations p = List.replicate 10 0) ∧
    writeInto tenths fs path pf' = (fun q => if q = path then some (text tenths pf') else fs q, pf', none) := by
  obtain ⟨st, h1, h2⟩ := HandFile.get_file headFile_good
  obtain ⟨pf', e, a, b, c, d, _, _, _, f⟩ := C93_mixed tenths headFile.text st h1 threeRadii c!"5\n01" [0.5, 1]
    (by rw [h2, show headFile.says c!"Original parameters" c!"Radial sections" = some [c!"5", c!"01"] from by decide]; rfl)
    (.cons holds_five (.cons (holds_tenth _ _ (by simp) (by decide) (by simp [intValue, natValue, Nat.ofDigits])) .nil))
    (fun _ => c!"0\n1") (fun _ => [0, 0.1])
    (fun p => by
      rw [h2, show headFile.says c!"Original parameters" (c!"Radial distribution of " ++ p.str) = some [c!"0", c!"1"] from by cases p <;> decide]; rfl)
    (fun p => .cons (holds_tenth _ _ (by simp) (by decide) (by simp [intValue, natValue, Nat.ofDigits]))
      (.cons (holds_tenth _ _ (by simp) (by decide) (by simp [intValue, natValue, Nat.ofDigits]; norm_num)) .nil))
    (fun p => rfl) (Or.inl ⟨.parseError, by
      rw [h2, show headFile.says (Slot.degree PName.chord).place.1 (Slot.degree PName.chord).place.2 = none from by decide]⟩)
    (fun p => by simp [threeRadii, ParamFile.init]) fs path
  exact ⟨pf', e, a, b, c, fun p => by rw [d]; rfl, f⟩

/-- An object with two chord lengths cannot be given the eight default radii. -/
example (C : Codec) : ∃ pf', readParametersInto C (fun _ => none) c!"a.prm" HandFile.paramSample = (fun _ => none, pf', some .valueError) ∧
    pf'.radii = some defaultRadii := by
  obtain ⟨pf', h1, h2, _⟩ := C93_missing C (fun _ => none) c!"a.prm" HandFile.paramSample rfl (by
    rintro ⟨⟨r, h1, h2⟩, _⟩
    have := h2 .chord _ rfl
    rw [← Option.some.inj h1] at this
    simp [defaultRadii] at this)
  exact ⟨pf', h1, h2⟩

/-- Whatever the two objects were, and whatever was read before. -/
example (before : List (FS × Str)) (a b : ParamFile) :
    (readParametersInto tenths (fun _ => some HandFile.fileSample.text) c!"x" (before.foldl (fun a c => (readParametersInto tenths c.1 c.2 a).2.1) a)).2.1 =
    (readParametersInto tenths (fun _ => some HandFile.fileSample.text) c!"x" b).2.1 := by
  have h := C93_history tenths before [] a b (fun _ => some HandFile.fileSample.text) c!"x" _ rfl
  simp only [List.foldl_nil] at h
  have hs : ∀ q, readInto tenths HandFile.fileSample.text q = (HandFile.paramSample, none) := fun q =>
    (C93_success _ _ _ _).2 ((HandFile.C90_reads tenths tenths_lawful _ HandFile.fileSample_good _).2 HandFile.fileSample_states)
  exact (h.2 (by simp only [readParametersInto, hs])).1

end ParamFile
end
end BladeX
