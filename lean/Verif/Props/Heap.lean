import Verif.Lemmas.Heap
import Verif.Lemmas.BladeSection
import Verif.Props.Blade

/-! # C66: profiles that share arrays, blades that share profiles -/

namespace BladeX
noncomputable section
open Spec Classical

namespace Heap

theorem separate_iff {h : Heap} {ids : List Nat} : Separate h ids ↔ ids.Nodup ∧ (∀ o ∈ ids, h.Own o) ∧
    ∀ o ∈ ids, ∀ p ∈ ids, o ≠ p → (cells h o).Disjoint (cells h p) := by
  unfold Separate Own
  rw [List.nodup_flatMap]
  constructor
  · rintro ⟨h1, ⟨h2, h3⟩, h4⟩
    refine ⟨h1, fun o ho => ⟨h2 o ho, fun c hc => h4 c (List.mem_flatMap.2 ⟨o, ho, hc⟩)⟩, ?_⟩
    intro o ho p hp hne
    have : Std.Symm (Function.onFun List.Disjoint (cells h)) := ⟨fun a b hd => List.Disjoint.symm hd⟩
    exact h3.forall ho hp hne
  · rintro ⟨h1, h2, h3⟩
    refine ⟨h1, ⟨fun o ho => (h2 o ho).1, h1.pairwise_of_forall_ne fun a ha b hb hne => h3 a ha b hb hne⟩, ?_⟩
    intro c hc
    obtain ⟨o, ho, hc⟩ := List.mem_flatMap.1 hc
    exact (h2 o ho).2 c hc

theorem cells_frame {o p : Nat} {h h' : Heap} (hf : Frame o h h') (hp : p ≠ o) : cells h' p = cells h p := by
  unfold cells; rw [hf.obj p hp]

/-- What one call on an object leaves of the other objects. -/
theorem load_frame {o p : Nat} {h h' : Heap} (hf : Frame o h h') (hp : p ≠ o) (hO : h.Own p) (hd : (cells h o).Disjoint (cells h p)) :
    h'.load p = h.load p := by
  have key : ∀ c ∈ cells h p, h'.cell c = h.cell c := fun c hc => hf.cell c (hO.2 c hc) fun hm => hd hm hc
  simp only [cells, List.mem_append] at key
  unfold load
  rw [hf.obj p hp]
  congr 1 <;> exact List.map_congr_left fun c hc => key c (by tauto)

theorem separate_frame {o : Nat} {h h' : Heap} {ids : List Nat} (hf : Frame o h h') (hO' : h'.Own o) (hS : Separate h ids) : Separate h' ids := by
  rw [separate_iff] at hS ⊢
  obtain ⟨h1, h2, h3⟩ := hS
  refine ⟨h1, ?_, ?_⟩
  · intro p hp
    by_cases hpo : p = o
    · rw [hpo]; exact hO'
    · unfold Own
      rw [cells_frame hf hpo]
      exact ⟨(h2 p hp).1, fun c hc => ((h2 p hp).2 c hc).trans_le hf.next⟩
  · have key : o ∈ ids → ∀ p ∈ ids, p ≠ o → (cells h' o).Disjoint (cells h' p) := by
      intro ho p hp hpo c hc hc'
      rw [cells_frame hf hpo] at hc'
      rcases hf.new c hc with hn | hn
      · exact h3 o ho p hp (Ne.symm hpo) hn hc'
      · have := (h2 p hp).2 c hc'; omega
    intro p hp q hq hne
    by_cases hpo : p = o
    · subst hpo; exact key hp q hq (Ne.symm hne)
    · by_cases hqo : q = o
      · subst hqo; exact (key hq p hp hpo).symm
      · rw [cells_frame hf hpo, cells_frame hf hqo]
        exact h3 p hp q hq hne

end Heap

/-- **C66** profiles that share no array behave as values of their own: for every program of calls on them the outcome and what is seen of
every profile afterwards are those of the value-level description, and the memory outside their arrays keeps its numbers. -/
theorem C66_program (ids : List Nat) (h : Heap) (hS : Separate h ids) (prog : List (Nat × Heap.Stmt)) (hp : ∀ x ∈ prog, x.1 ∈ ids) :
    (Heap.runProgram prog h).2 = (runValues prog h.load).2 ∧
    (∀ o ∈ ids, (Heap.runProgram prog h).1.load o = (runValues prog h.load).1 o) ∧
    Separate (Heap.runProgram prog h).1 ids ∧
    ∀ c, c < h.next → c ∉ ids.flatMap (cells h) → (Heap.runProgram prog h).1.cell c = h.cell c := by
  suffices H : ∀ (prog : List (Nat × Heap.Stmt)) (h : Heap) (v : Nat → Profile), Separate h ids → (∀ x ∈ prog, x.1 ∈ ids) →
      (∀ o ∈ ids, h.load o = v o) →
      (Heap.runProgram prog h).2 = (runValues prog v).2 ∧
      (∀ o ∈ ids, (Heap.runProgram prog h).1.load o = (runValues prog v).1 o) ∧
      Separate (Heap.runProgram prog h).1 ids ∧
      ∀ c, c < h.next → c ∉ ids.flatMap (cells h) → (Heap.runProgram prog h).1.cell c = h.cell c from
    H prog h h.load hS hp fun _ _ => rfl
  intro prog
  induction prog with
  | nil => intro h v hS _ hv; exact ⟨rfl, hv, hS, fun _ _ _ => rfl⟩
  | cons x prog ih =>
    obtain ⟨o, s⟩ := x
    intro h v hS hp hv
    have ho : o ∈ ids := hp (o, s) (by simp)
    obtain ⟨s1, s2, s3⟩ := Heap.separate_iff.1 hS
    obtain ⟨hf, hO', hok, herr⟩ := Heap.run_load s (s2 o ho)
    simp only [Heap.runProgram, runValues]
    rw [hv o ho] at hok herr
    rcases hval : s.value (v o) with e | Q
    · rw [herr e hval]
      exact ⟨rfl, hv, hS, fun _ _ _ => rfl⟩
    · obtain ⟨k1, k2⟩ := hok Q hval
      rcases hrun : s.run o h with ⟨h', r⟩
      rw [hrun] at hf hO' k1 k2
      simp only at hf hO' k1 k2 ⊢
      subst k1
      simp only
      have hS' := Heap.separate_frame hf hO' hS
      obtain ⟨g1, g2, g3, g4⟩ := ih h' (fun q => if q = o then Q else v q) hS' (fun x hx => hp x (List.mem_cons_of_mem _ hx)) (by
        intro p hp
        by_cases hpo : p = o
        · subst hpo; simp [k2]
        · rw [Heap.load_frame hf hpo (s2 p hp) (s3 o ho p hp (Ne.symm hpo)), hv p hp]; simp [hpo])
      refine ⟨g1, g2, g3, ?_⟩
      intro c hc hn
      rw [g4 c (hc.trans_le hf.next) ?_, hf.cell c hc fun hm => hn (List.mem_flatMap.2 ⟨o, ho, hm⟩)]
      intro hm
      obtain ⟨p, hpi, hm⟩ := List.mem_flatMap.1 hm
      by_cases hpo : p = o
      · subst hpo
        rcases hf.new c hm with hm | hm
        · exact hn (List.mem_flatMap.2 ⟨p, hpi, hm⟩)
        · omega
      · rw [Heap.cells_frame hf hpo] at hm
        exact hn (List.mem_flatMap.2 ⟨p, hpi, hm⟩)

/-- **C66** whatever is shared: after `translate` every number of the memory is moved by the first component as often as it lies in one of the
two `x` arrays, and by the second as often as it lies in one of the two `y` arrays; `reflect` changes its sign, and `scale` without translation
multiplies it, as often as it lies in one of the four. -/
theorem C66_shared_exact (h : Heap) (o : Nat) (v : Pt) (f : ℝ) (c : Nat) :
    let kx := holders c (h.obj o).xup (h.obj o).xdown
    let ky := holders c (h.obj o).yup (h.obj o).ydown
    (((Heap.Stmt.translate v).run o h).1.cell c = h.cell c + kx * v.1 + ky * v.2) ∧
    ((Heap.Stmt.reflect.run o h).1.cell c = h.cell c * (-1) ^ (kx + ky)) ∧
    (((Heap.Stmt.scale f false).run o h).1.cell c = h.cell c * f ^ (kx + ky)) ∧
    (∀ ref, (h.load o).referencePoint = .ok ref → ((Heap.Stmt.scale f true).run o h).1.cell c =
      (h.cell c - (kx * ref.1 + ky * ref.2)) * f ^ (kx + ky) + (kx * ref.1 + ky * ref.2)) := by
  have ht : ∀ (h : Heap) (v : Pt), (h.translate o v).cell c =
      h.cell c + holders c (h.obj o).xup (h.obj o).xdown * v.1 + holders c (h.obj o).yup (h.obj o).ydown * v.2 := by
    intro h v
    simp only [Heap.translate, Heap.inPlace, holders]
    by_cases c1 : c ∈ (h.obj o).xup <;> by_cases c2 : c ∈ (h.obj o).xdown <;> by_cases c3 : c ∈ (h.obj o).yup <;>
      by_cases c4 : c ∈ (h.obj o).ydown <;> simp [c1, c2, c3, c4] <;> ring
  have hm : ∀ (h : Heap) (f : ℝ), (h.mulAll o f).cell c =
      h.cell c * f ^ (holders c (h.obj o).xup (h.obj o).xdown + holders c (h.obj o).yup (h.obj o).ydown) := by
    intro h f
    simp only [Heap.mulAll, Heap.inPlace, holders]
    by_cases c1 : c ∈ (h.obj o).xup <;> by_cases c2 : c ∈ (h.obj o).xdown <;> by_cases c3 : c ∈ (h.obj o).yup <;>
      by_cases c4 : c ∈ (h.obj o).ydown <;> simp [c1, c2, c3, c4] <;> ring
  refine ⟨ht h v, hm h (-1), hm h f, ?_⟩
  intro ref href
  simp only [Heap.Stmt.run, href]
  rw [ht, hm, ht]
  have e1 : ∀ w : Pt, (h.translate o w).obj o = h.obj o := fun _ => rfl
  have e2 : ∀ (k : Heap) (g : ℝ), (k.mulAll o g).obj o = k.obj o := fun _ _ => rfl
  rw [e2, e1]
  simp only [Prod.fst_neg, Prod.snd_neg]
  ring

/-- **C66** (consequence) a profile whose two `x` arrays are the same array, and share nothing with the `y` arrays: `translate` moves the
abscissae by twice the vector while the ordinates are moved once, `reflect` changes the ordinates only. -/
theorem C66_shared_abscissae (h : Heap) (o : Nat) (v : Pt) (hx : (h.obj o).xdown = (h.obj o).xup)
    (hd1 : (h.obj o).xup.Disjoint (h.obj o).yup) (hd2 : (h.obj o).xup.Disjoint (h.obj o).ydown) (hd3 : (h.obj o).yup.Disjoint (h.obj o).ydown) :
    (((Heap.Stmt.translate v).run o h).1.load o).xup = (h.load o).xup.map (· + 2 * v.1) ∧
    (((Heap.Stmt.translate v).run o h).1.load o).yup = (h.load o).yup.map (· + v.2) ∧
    ((Heap.Stmt.reflect.run o h).1.load o).xup = (h.load o).xup ∧
    ((Heap.Stmt.reflect.run o h).1.load o).yup = (h.load o).yup.map (- ·) := by
  have eo1 : ((Heap.Stmt.translate v).run o h).1.obj o = h.obj o := rfl
  have eo2 : (Heap.Stmt.reflect.run o h).1.obj o = h.obj o := rfl
  simp only [Heap.load, Heap.read, eo1, eo2, List.map_map]
  refine ⟨?_, ?_, ?_, ?_⟩
  · refine List.map_congr_left fun c hc => ?_
    have n1 : c ∉ (h.obj o).yup := fun hm => hd1 hc hm
    have n2 : c ∉ (h.obj o).ydown := fun hm => hd2 hc hm
    rw [(C66_shared_exact h o v 0 c).1]
    simp [holders, hx, hc, n1, n2]
  · refine List.map_congr_left fun c hc => ?_
    have n1 : c ∉ (h.obj o).xup := fun hm => hd1 hm hc
    have n2 : c ∉ (h.obj o).ydown := fun hm => hd3 hc hm
    rw [(C66_shared_exact h o v 0 c).1]
    simp [holders, hx, hc, n1, n2]
  · refine List.map_congr_left fun c hc => ?_
    have n1 : c ∉ (h.obj o).yup := fun hm => hd1 hc hm
    have n2 : c ∉ (h.obj o).ydown := fun hm => hd2 hc hm
    rw [(C66_shared_exact h o v 0 c).2.1]
    simp [holders, hx, hc, n1, n2]
  · refine List.map_congr_left fun c hc => ?_
    have n1 : c ∉ (h.obj o).xup := fun hm => hd1 hm hc
    have n2 : c ∉ (h.obj o).ydown := fun hm => hd3 hc hm
    rw [(C66_shared_exact h o v 0 c).2.1]
    simp [holders, hx, hc, n1, n2]

namespace Heap

/-- The statements of the loop body are those of the value-level description. -/
theorem steps_value (b : Blade) (S : List Profile) (refl : Bool) (i : Nat) :
    Blade.sectionSteps { b with sections := S } refl i =
      (sectionStmts b S.length refl i).map fun s P => (do (← s).value P : Res Profile) := by
  simp only [Blade.sectionSteps, sectionStmts, List.map_cons, List.map_nil, List.cons.injEq, and_true]
  refine ⟨?_, ?_, ?_, ?_, ?_, ?_, ?_, ?_⟩
  · rfl
  · funext P
    rcases getIdx b.chord i <;> rfl
  · funext P
    rcases b.thickness with _ | t
    · rfl
    · simp only; rcases getIdx t i <;> rfl
  · funext P
    rcases b.camber with _ | t
    · rfl
    · simp only
      split_ifs
      · rcases getIdx t i <;> rfl
      · rfl
  · funext P
    cases refl <;> rfl
  · funext P
    rcases getIdx b.pitch i with _ | p
    · rfl
    rcases getIdx b.radii i with _ | r
    · rfl
    simp only [bind, Except.bind]
    rcases Blade.pitchAngle p r <;> rfl
  · funext P
    rcases getIdx b.radii i with _ | r
    · rfl
    rcases getIdx b.skew i <;> rfl
  · funext P
    rcases getIdx b.pitch i with _ | p
    · rfl
    rcases getIdx b.radii i with _ | r
    · rfl
    rcases getIdx b.skew i with _ | s
    · rfl
    simp only [bind, Except.bind]
    rcases Blade.inducedRake p r s with _ | ir
    · rfl
    simp only
    rcases getIdx b.rake i <;> rfl

theorem runStmts_load {o : Nat} : ∀ (l : List (Res Stmt)) (h : Heap), h.Own o →
    Frame o h (runStmts o l h).1 ∧ (runStmts o l h).1.Own o ∧
    ((runStmts o l h).1.load o, (runStmts o l h).2) = Blade.runSteps (l.map fun s P => (do (← s).value P : Res Profile)) (h.load o) := by
  intro l
  induction l with
  | nil => intro h hO; exact ⟨Frame.refl o h, hO, rfl⟩
  | cons s l ih =>
    intro h hO
    rcases s with e | s
    · exact ⟨Frame.refl o h, hO, rfl⟩
    · obtain ⟨hf, hO', hok, herr⟩ := run_load s hO
      simp only [runStmts, List.map_cons, Blade.runSteps]
      show _ ∧ _ ∧ _ = (match s.value (h.load o) with | .ok Q => _ | .error e => _)
      rcases hval : s.value (h.load o) with e | Q
      · rw [herr e hval]
        exact ⟨Frame.refl o h, hO, rfl⟩
      · obtain ⟨k1, k2⟩ := hok Q hval
        rcases hrun : s.run o h with ⟨h', r⟩
        rw [hrun] at hf hO' k1 k2
        simp only at hf hO' k1 k2 ⊢
        subst k1
        simp only
        obtain ⟨g1, g2, g3⟩ := ih h' hO'
        exact ⟨hf.trans g1, g2, by rw [g3, k2]⟩

theorem sectionLoop_load (b : Blade) (S : List Profile) (refl : Bool) (all : List Nat) : ∀ (ids : List Nat) (i : Nat) (h : Heap), Separate h all →
    (∀ o ∈ ids, o ∈ all) → ids.Nodup →
    ((ids.map (sectionLoop b S.length refl i ids h).1.load, (sectionLoop b S.length refl i ids h).2) =
      Blade.sectionLoop { b with sections := S } refl i (ids.map h.load)) ∧
    Separate (sectionLoop b S.length refl i ids h).1 all ∧
    ∀ p ∈ all, p ∉ ids → (sectionLoop b S.length refl i ids h).1.load p = h.load p := by
  intro ids
  induction ids with
  | nil => intro i h hS _ _; exact ⟨rfl, hS, fun _ _ _ => rfl⟩
  | cons o ids ih =>
    intro i h hS hsub hnd
    obtain ⟨s1, s2, s3⟩ := separate_iff.1 hS
    have ho := hsub o (by simp)
    obtain ⟨hno, hnd'⟩ := List.nodup_cons.1 hnd
    obtain ⟨hf, hO', heq⟩ := runStmts_load (sectionStmts b S.length refl i) h (s2 o ho)
    rw [← steps_value] at heq
    have hother : ∀ p ∈ all, p ≠ o → (runStmts o (sectionStmts b S.length refl i) h).1.load p = h.load p :=
      fun p hp hpo => load_frame hf hpo (s2 p hp) (s3 o ho p hp (Ne.symm hpo))
    have hS' := separate_frame hf hO' hS
    simp only [sectionLoop, List.map_cons, Blade.sectionLoop]
    rw [← heq]
    rcases hrun : runStmts o (sectionStmts b S.length refl i) h with ⟨h', r⟩
    rw [hrun] at hother hS' hO'
    simp only at hother hS' hO' ⊢
    have hmap : ids.map h'.load = ids.map h.load :=
      List.map_congr_left fun p hp => hother p (hsub p (List.mem_cons_of_mem _ hp)) (by rintro rfl; exact hno hp)
    cases r with
    | error e =>
      refine ⟨by simp [hmap], hS', ?_⟩
      intro p hp hpn
      exact hother p hp (by rintro rfl; exact hpn (by simp))
    | ok u =>
      obtain ⟨g1, g2, g3⟩ := ih (i + 1) h' hS' (fun p hp => hsub p (List.mem_cons_of_mem _ hp)) hnd'
      rw [hmap] at g1
      simp only
      refine ⟨?_, g2, ?_⟩
      · rw [← g1, g3 o ho hno]
      · intro p hp hpn
        simp only [List.mem_cons, not_or] at hpn
        rw [g3 p hp hpn.2, hother p hp hpn.1]

end Heap

/-- **C66** a blade whose section objects share nothing: `apply_transformations` gives the coordinates, or the exception, of the value-level
description (C46-C48) and leaves the sections it describes; profiles that are not sections of the blade are not touched. -/
theorem C66_blade (b : Blade) (ids others : List Nat) (h : Heap) (refl : Bool) (hS : Separate h (ids ++ others)) (b' : Blade) (r : Res Unit)
    (hv : Blade.applyTransformations refl { b with sections := ids.map h.load } = (b', r)) :
    ∃ h', Heap.applyTransformations b ids refl h = (h', r.map fun _ => (b'.coordsUp, b'.coordsDown)) ∧
      ids.map h'.load = b'.sections ∧ others.map h'.load = others.map h.load ∧ Separate h' (ids ++ others) := by
  have hnd : ids.Nodup := (List.nodup_append'.1 hS.1).1
  have hdis : ids.Disjoint others := (List.nodup_append'.1 hS.1).2.2
  obtain ⟨g1, g2, g3⟩ := Heap.sectionLoop_load b (ids.map h.load) refl (ids ++ others) ids 0 h hS (fun o ho => List.mem_append_left _ ho) hnd
  have hlen : (ids.map h.load).length = ids.length := by simp
  rw [hlen] at g1 g2 g3
  unfold Blade.applyTransformations at hv
  simp only at hv
  rw [← g1] at hv
  unfold Heap.applyTransformations
  rcases hrun : Heap.sectionLoop b ids.length refl 0 ids h with ⟨h', r'⟩
  rw [hrun] at hv g2 g3
  have hoth : others.map h'.load = others.map h.load :=
    List.map_congr_left fun p hp => g3 p (by simp [hp]) fun hm => hdis hm hp
  cases r' with
  | error e =>
    simp only [Prod.mk.injEq] at hv
    obtain ⟨rfl, rfl⟩ := hv
    exact ⟨h', rfl, rfl, hoth, g2⟩
  | ok u =>
    simp only at hv ⊢
    rcases hc : Blade.cylindrical (ids.map h'.load) b.radii with e | ⟨up, down⟩
    · rw [hc] at hv
      simp only [Prod.mk.injEq] at hv
      obtain ⟨rfl, rfl⟩ := hv
      exact ⟨h', rfl, rfl, hoth, g2⟩
    · rw [hc] at hv
      simp only [Prod.mk.injEq] at hv
      obtain ⟨rfl, rfl⟩ := hv
      exact ⟨h', rfl, rfl, hoth, g2⟩

/-- **C66** two blades with sections of their own (the documented correct usage): transforming the first does not change what the second
computes. Two blades with the same sections (the documented incorrect usage): the second transforms the sections left by the first. -/
theorem C66_two_blades (b₁ b₂ : Blade) (ids₁ ids₂ : List Nat) (h : Heap) (refl₁ refl₂ : Bool) (B₁ B₂ B₂' : Blade) (r₁ r₂ r₂' : Res Unit)
    (h1 : Blade.applyTransformations refl₁ { b₁ with sections := ids₁.map h.load } = (B₁, r₁))
    (h2 : Blade.applyTransformations refl₂ { b₂ with sections := ids₂.map h.load } = (B₂, r₂))
    (h2' : Blade.applyTransformations refl₂ { b₂ with sections := B₁.sections } = (B₂', r₂')) :
    (Separate h (ids₁ ++ ids₂) →
      (Heap.applyTransformations b₂ ids₂ refl₂ (Heap.applyTransformations b₁ ids₁ refl₁ h).1).2 = r₂.map fun _ => (B₂.coordsUp, B₂.coordsDown)) ∧
    (Separate h ids₁ →
      (Heap.applyTransformations b₂ ids₁ refl₂ (Heap.applyTransformations b₁ ids₁ refl₁ h).1).2 =
        r₂'.map fun _ => (B₂'.coordsUp, B₂'.coordsDown)) := by
  constructor
  · intro hS
    obtain ⟨h', e1, -, e3, e4⟩ := C66_blade b₁ ids₁ ids₂ h refl₁ hS B₁ r₁ h1
    rw [e1]
    have hS' : Separate h' (ids₂ ++ ids₁) := by
      have hp : (ids₁ ++ ids₂).Perm (ids₂ ++ ids₁) := List.perm_append_comm
      refine ⟨hp.nodup_iff.1 e4.1, ((hp.flatMap_right _).nodup_iff).1 e4.2.1, fun c hc => e4.2.2 c (((hp.flatMap_right _).mem_iff).2 hc)⟩
    obtain ⟨h'', e5, -⟩ := C66_blade b₂ ids₂ ids₁ h' refl₂ hS' B₂ r₂ (by rw [e3]; exact h2)
    rw [e5]
  · intro hS
    obtain ⟨h', e1, e2, -, e4⟩ := C66_blade b₁ ids₁ [] h refl₁ (by simpa using hS) B₁ r₁ h1
    rw [e1]
    obtain ⟨h'', e5, -⟩ := C66_blade b₂ ids₁ [] h' refl₂ e4 B₂' r₂' (by rw [e2]; exact h2')
    rw [e5]

namespace Heap

theorem same_object (b : Blade) (S : List Profile) (refl : Bool) (o : Nat) : ∀ (n i : Nat) (h h' : Heap), h.Own o →
    sectionLoop b S.length refl i (List.replicate n o) h = (h', .ok ()) →
    ∃ Q : Nat → Profile, Q 0 = h.load o ∧ Q n = h'.load o ∧
      ∀ j, j < n → Blade.runSteps (Blade.sectionSteps { b with sections := S } refl (i + j)) (Q j) = (Q (j + 1), .ok ()) := by
  intro n
  induction n with
  | zero =>
    intro i h h' _ hrun
    simp only [List.replicate_zero, sectionLoop, Prod.mk.injEq, and_true] at hrun
    subst hrun
    exact ⟨fun _ => h.load o, rfl, rfl, fun j hj => by omega⟩
  | succ n ih =>
    intro i h h' hO hrun
    obtain ⟨hf, hO', heq⟩ := runStmts_load (sectionStmts b S.length refl i) h hO
    rw [← steps_value] at heq
    simp only [List.replicate_succ, sectionLoop] at hrun
    rcases hr : runStmts o (sectionStmts b S.length refl i) h with ⟨k, r⟩
    rw [hr] at hrun heq hO'
    simp only at hrun heq hO'
    cases r with
    | error e => simp at hrun
    | ok u =>
      simp only at hrun
      obtain ⟨Q, q1, q2, q3⟩ := ih (i + 1) k h' hO' hrun
      refine ⟨fun j => if j = 0 then h.load o else Q (j - 1), by simp, by simpa using q2, ?_⟩
      intro j hj
      rcases j with _ | j
      · simp only [Nat.add_zero, if_true, Nat.zero_add, Nat.one_ne_zero, if_false, Nat.sub_self]
        rw [← heq, q1]
      · have := q3 j (by omega)
        simp only [Nat.add_one_ne_zero, if_false, Nat.add_sub_cancel]
        rw [show i + (j + 1) = i + 1 + j by omega]
        exact this

end Heap

/-- **C66** a blade all of whose `n` sections are the same profile object (such as `[profile] * n`): when `apply_transformations` succeeds the
object has gone through the transformations of all the sections one after the other, the sections all show the result, and the distances
between its points are those of the profile times the product of all the chord lengths. -/
theorem C66_same_object (b : Blade) (n o : Nat) (h h' : Heap) (refl : Bool) (hO : Separate h [o]) (up down : Face)
    (hrun : Heap.applyTransformations b (List.replicate n o) refl h = (h', .ok (up, down)))
    (hl : b.radii.length = n ∧ b.chord.length = n ∧ b.pitch.length = n ∧ b.rake.length = n ∧ b.skew.length = n)
    (ht : b.thickness = none) (hf : b.camber = none) (hU : (h.load o).Uniform) :
    Blade.cylindrical (List.replicate n (h'.load o)) b.radii = .ok (up, down) ∧
    (h'.load o).upper.length = (h.load o).upper.length ∧
    ∀ (i j : Nat) (p q p' q' : Pt), (h.load o).upper[i]? = some p → (h.load o).upper[j]? = some q →
      (h'.load o).upper[i]? = some p' → (h'.load o).upper[j]? = some q' → dist2 p' q' = |b.chord.prod| * dist2 p q := by
  obtain ⟨hr, hc, hp, hk, hs⟩ := hl
  have hown : h.Own o := (Heap.separate_iff.1 hO).2.1 o (by simp)
  unfold Heap.applyTransformations at hrun
  rw [List.length_replicate] at hrun
  rcases hloop : Heap.sectionLoop b n refl 0 (List.replicate n o) h with ⟨k, r⟩
  rw [hloop] at hrun
  cases r with
  | error e => simp at hrun
  | ok u =>
    simp only [Prod.mk.injEq] at hrun
    obtain ⟨rfl, hcyl⟩ := hrun
    rw [List.map_replicate] at hcyl
    obtain ⟨Q, q1, q2, q3⟩ := Heap.same_object b (List.replicate n (h.load o)) refl o n 0 h k hown (by simpa using hloop)
    refine ⟨hcyl, ?_⟩
    have key : ∀ m, m ≤ n → (Q m).Uniform ∧ (Q m).upper.length = (h.load o).upper.length ∧
        ∀ (i j : Nat) (p q p' q' : Pt), (h.load o).upper[i]? = some p → (h.load o).upper[j]? = some q →
          (Q m).upper[i]? = some p' → (Q m).upper[j]? = some q' → dist2 p' q' = |(b.chord.take m).prod| * dist2 p q := by
      intro m
      induction m with
      | zero =>
        intro _
        rw [q1]
        refine ⟨hU, rfl, ?_⟩
        intro i j p q p' q' e1 e2 e3 e4
        rw [e1] at e3; rw [e2] at e4
        obtain rfl := Option.some.inj e3
        obtain rfl := Option.some.inj e4
        simp
      | succ m ih =>
        intro hm
        obtain ⟨u1, u2, u3⟩ := ih (by omega)
        have hstep := q3 m (by omega)
        rw [Nat.zero_add] at hstep
        have i1 : b.radii[m]? = some b.radii[m] := List.getElem?_eq_getElem (by omega)
        have i2 : b.pitch[m]? = some b.pitch[m] := List.getElem?_eq_getElem (by omega)
        have i3 : b.rake[m]? = some b.rake[m] := List.getElem?_eq_getElem (by omega)
        have i4 : b.skew[m]? = some b.skew[m] := List.getElem?_eq_getElem (by omega)
        have i5 : b.chord[m]? = some b.chord[m] := List.getElem?_eq_getElem (by omega)
        obtain ⟨g1, g2⟩ := Blade.section_plain (b := { b with sections := List.replicate n (h.load o) }) ht hf (refl := refl) (i := m)
          i1 i2 i3 i4 i5 u1
        obtain ⟨hr0, ref, href⟩ := g1 ⟨_, hstep⟩
        obtain ⟨R, w1, w2, -, w4, -⟩ := g2 ref hr0 href
        obtain rfl : R = Q (m + 1) := by rw [hstep] at w1; exact (Prod.mk.inj w1).1.symm
        refine ⟨w4, by rw [w2, List.length_map, u2], ?_⟩
        intro i j p q p' q' e1 e2 e3 e4
        rw [w2, List.getElem?_map, Option.map_eq_some_iff] at e3 e4
        obtain ⟨p1, f1, rfl⟩ := e3
        obtain ⟨q0, f2, rfl⟩ := e4
        rw [(C46_placed_geometry refl b.radii[m] b.chord[m] b.pitch[m] b.rake[m] b.skew[m] ref p1 q0 hr0 0).2.1,
          u3 i j p q p1 q0 e1 e2 f1 f2, List.prod_take_succ _ _ (by omega), abs_mul]
        ring
    obtain ⟨-, k2, k3⟩ := key n le_rfl
    rw [q2] at k2 k3
    refine ⟨k2, ?_⟩
    rwa [← hc, List.take_length] at k3

namespace Heap

/-- Converse of `same_object`. -/
theorem same_object_runs (b : Blade) (S : List Profile) (refl : Bool) (o : Nat) : ∀ (n i : Nat) (h : Heap) (Q : Nat → Profile), h.Own o →
    Q 0 = h.load o → (∀ j, j < n → Blade.runSteps (Blade.sectionSteps { b with sections := S } refl (i + j)) (Q j) = (Q (j + 1), .ok ())) →
    ∃ h', sectionLoop b S.length refl i (List.replicate n o) h = (h', .ok ()) ∧ h'.load o = Q n := by
  intro n
  induction n with
  | zero => intro i h Q _ hq _; exact ⟨h, rfl, hq.symm⟩
  | succ n ih =>
    intro i h Q hO hq hrun
    obtain ⟨hf, hO', heq⟩ := runStmts_load (sectionStmts b S.length refl i) h hO
    rw [← steps_value] at heq
    have h0 := hrun 0 (by omega)
    rw [Nat.add_zero, hq, ← heq] at h0
    simp only [List.replicate_succ, sectionLoop]
    rcases hr : runStmts o (sectionStmts b S.length refl i) h with ⟨k, r⟩
    rw [hr] at h0 hO'
    simp only [Prod.mk.injEq] at h0 hO'
    obtain ⟨h0, rfl⟩ := h0
    simp only
    refine ih (i + 1) k (fun j => Q (j + 1)) hO' h0.symm ?_
    intro j hj
    have := hrun (j + 1) (by omega)
    rwa [show i + (j + 1) = i + 1 + j by omega] at this

end Heap

/-- **C66** the case of `C66_same_object` does arise: for every closed profile, and radii different from 0, the call succeeds. -/
theorem C66_same_object_succeeds (b : Blade) (n o : Nat) (h : Heap) (refl : Bool) (hO : Separate h [o])
    (hl : b.radii.length = n ∧ b.chord.length = n ∧ b.pitch.length = n ∧ b.rake.length = n ∧ b.skew.length = n) (hn : 0 < n)
    (hr0 : ∀ r ∈ b.radii, r ≠ 0) (ht : b.thickness = none) (hf : b.camber = none) (hU : (h.load o).Uniform)
    (le te : Pt) (hE : (h.load o).Ends le te le te) :
    ∃ h' up down, Heap.applyTransformations b (List.replicate n o) refl h = (h', .ok (up, down)) := by
  obtain ⟨hr, hc, hp, hk, hs⟩ := hl
  have hown : h.Own o := (Heap.separate_iff.1 hO).2.1 o (by simp)
  have hstep : ∀ m, m < n → ∀ P : Profile, (P.Uniform ∧ ∃ x y, P.Ends x y x y) → ∃ R : Profile, (R.Uniform ∧ ∃ x y, R.Ends x y x y) ∧
      Blade.runSteps (Blade.sectionSteps { b with sections := List.replicate n (h.load o) } refl m) P = (R, .ok ()) := by
    rintro m hm P ⟨u1, x, y, e⟩
    have i1 : b.radii[m]? = some b.radii[m] := List.getElem?_eq_getElem (by omega)
    have i2 : b.pitch[m]? = some b.pitch[m] := List.getElem?_eq_getElem (by omega)
    have i3 : b.rake[m]? = some b.rake[m] := List.getElem?_eq_getElem (by omega)
    have i4 : b.skew[m]? = some b.skew[m] := List.getElem?_eq_getElem (by omega)
    have i5 : b.chord[m]? = some b.chord[m] := List.getElem?_eq_getElem (by omega)
    obtain ⟨-, g2⟩ := Blade.section_plain (b := { b with sections := List.replicate n (h.load o) }) ht hf (refl := refl) (i := m)
      i1 i2 i3 i4 i5 u1
    have href := Profile.referencePoint_ends ⟨u1.1, u1.2.2⟩ e
    rw [if_neg (by norm_num)] at href
    obtain ⟨R, w1, w2, w3, w4, -⟩ := g2 _ (hr0 _ (List.getElem_mem _)) href
    exact ⟨R, ⟨w4, _, _, e.map _ w2 w3⟩, w1⟩
  have hseq : ∀ m, m ≤ n → ∃ Q : Nat → Profile, Q 0 = h.load o ∧ ((Q m).Uniform ∧ ∃ x y, (Q m).Ends x y x y) ∧
      ∀ j, j < m → Blade.runSteps (Blade.sectionSteps { b with sections := List.replicate n (h.load o) } refl j) (Q j) = (Q (j + 1), .ok ()) := by
    intro m
    induction m with
    | zero => intro _; exact ⟨fun _ => h.load o, rfl, ⟨hU, le, te, hE⟩, fun j hj => by omega⟩
    | succ m ih =>
      intro hm
      obtain ⟨Q, q1, q2, q3⟩ := ih (by omega)
      obtain ⟨R, r1, r2⟩ := hstep m (by omega) (Q m) q2
      refine ⟨fun j => if j ≤ m then Q j else R, by simp [q1], by simpa using r1, ?_⟩
      intro j hj
      simp only
      rcases Nat.lt_or_ge j m with h1 | h1
      · rw [if_pos (by omega), if_pos (by omega)]
        exact q3 j h1
      · obtain rfl : j = m := by omega
        rw [if_pos le_rfl, if_neg (by omega)]
        exact r2
  obtain ⟨Q, q1, q2, q3⟩ := hseq n le_rfl
  obtain ⟨h', e1, e2⟩ := Heap.same_object_runs b (List.replicate n (h.load o)) refl o n 0 h Q hown q1 (by simpa using q3)
  rw [List.length_replicate] at e1
  have hcyl := (Blade.cylindrical_ok (ss := List.replicate n (h'.load o)) (rs := b.radii) (by simp [hr])
    (up := (List.zipWith (fun P r => (Profile.upper P).map (wrap r)) (List.replicate n (h'.load o)) b.radii).reverse)
    (down := (List.zipWith (fun P r => (Profile.lower P).map (wrap r)) (List.replicate n (h'.load o)) b.radii).reverse)).2 (by
      refine ⟨by simp; omega, ?_, ?_, rfl, rfl⟩
      · intro i P r h1 h2
        have hP := List.eq_of_mem_replicate (List.mem_of_getElem? h1)
        rw [hP, e2]
        exact ⟨hr0 r (List.mem_of_getElem? h2), q2.1.1, q2.1.2.2⟩
      · intro P hP R hR
        rw [List.eq_of_mem_replicate hP, List.eq_of_mem_replicate hR]
        exact ⟨rfl, rfl⟩)
  have hfin : Heap.applyTransformations b (List.replicate n o) refl h = (h', Blade.cylindrical (List.replicate n (h'.load o)) b.radii) := by
    unfold Heap.applyTransformations
    rw [List.length_replicate, e1]
    simp only
    rw [List.map_replicate]
  rw [hcyl] at hfin
  exact ⟨h', _, _, hfin⟩

/-- Two profile objects of three points per surface, each with its own arrays; the second one is a copy of the first. -/
def Sample.heap : Heap where
  cell := fun c => ([0, 1 / 2, 1, 0, 1 / 2, 1, 0, 1 / 10, 0, 0, -1 / 10, 0, 0, 1 / 2, 1, 0, 1 / 2, 1, 0, 1 / 10, 0, 0, -1 / 10, 0] : List ℝ).getD c 0
  next := 24
  obj := fun o => if o = 0 then { xup := [0, 1, 2], xdown := [3, 4, 5], yup := [6, 7, 8], ydown := [9, 10, 11] }
    else { xup := [12, 13, 14], xdown := [15, 16, 17], yup := [18, 19, 20], ydown := [21, 22, 23] }

/-- The same memory with both `x` attributes of the object 0 being the same array. -/
def Sample.sharedHeap : Heap := Sample.heap.setObj 0 { xup := [0, 1, 2], xdown := [0, 1, 2], yup := [6, 7, 8], ydown := [9, 10, 11] }

theorem Sample.heap_separate : Separate Sample.heap [0, 1] := by
  refine ⟨by decide, ?_, ?_⟩
  · show ([0, 1, 2, 3, 4, 5, 6, 7, 8, 9, 10, 11, 12, 13, 14, 15, 16, 17, 18, 19, 20, 21, 22, 23] : List Nat).Nodup
    decide
  · show ∀ c ∈ ([0, 1, 2, 3, 4, 5, 6, 7, 8, 9, 10, 11, 12, 13, 14, 15, 16, 17, 18, 19, 20, 21, 22, 23] : List Nat), c < 24
    decide

example : Separate Sample.heap [0, 1] ∧ ∀ x ∈ [(0, Heap.Stmt.translate (1, 2)), (1, Heap.Stmt.reflect), (0, Heap.Stmt.rotate (some 1) none)], x.1 ∈ [0, 1] :=
  ⟨Sample.heap_separate, by simp⟩

example : (((Heap.Stmt.translate (3, 0)).run 0 Sample.sharedHeap).1.load 0).xup = [6, 13 / 2, 7] := by
  have := (C66_shared_abscissae Sample.sharedHeap 0 (3, 0) rfl
    (show ([0, 1, 2] : List Nat).Disjoint [6, 7, 8] by simp [List.Disjoint]) (show ([0, 1, 2] : List Nat).Disjoint [9, 10, 11] by simp [List.Disjoint])
    (show ([6, 7, 8] : List Nat).Disjoint [9, 10, 11] by simp [List.Disjoint])).1
  rw [this]
  simp [Heap.load, Heap.read, Sample.sharedHeap, Sample.heap, Heap.setObj]
  norm_num

/-- Two blades can be transformed on the sample memory: both usages of `C66_two_blades` have instances. -/
example : Separate Sample.heap ([0] ++ [1]) ∧ Separate Sample.heap [0] ∧
    ∃ h' up down, Heap.applyTransformations Sample.blade2 (List.replicate 2 0) true Sample.heap = (h', .ok (up, down)) := by
  have h0 : Separate Sample.heap [0] := by
    refine ⟨by decide, ?_, ?_⟩
    · show ([0, 1, 2, 3, 4, 5, 6, 7, 8, 9, 10, 11] : List Nat).Nodup
      decide
    · show ∀ c ∈ ([0, 1, 2, 3, 4, 5, 6, 7, 8, 9, 10, 11] : List Nat), c < 24
      decide
  refine ⟨Sample.heap_separate, h0, ?_⟩
  refine C66_same_object_succeeds Sample.blade2 2 0 Sample.heap true h0 (by simp [Sample.blade2]) (by norm_num) (by simp [Sample.blade2]) rfl rfl
    (by simp [Heap.load, Heap.read, Sample.heap, Profile.Uniform]) (0, 0) (1, 0)
    (by simp [Heap.load, Heap.read, Sample.heap, Profile.Ends, Profile.upper, Profile.lower])

end
end BladeX
