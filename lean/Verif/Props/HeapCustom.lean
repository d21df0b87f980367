import Verif.Model.HeapCustom
import Verif.Props.Heap
import Verif.Props.Custom
import Verif.Lemmas.American
import Verif.Props.ProfileEdges

/-! # C129: the arrays given to `CustomProfile` are overwritten by the blade -/

namespace BladeX
noncomputable section
open Classical Spec

namespace Heap

private theorem runStmts_cons {o : Nat} {x : Res Stmt} {l : List (Res Stmt)} {h h' : Heap} (hr : runStmts o (x :: l) h = (h', .ok ())) :
    ∃ s k, x = .ok s ∧ s.run o h = (k, .ok ()) ∧ runStmts o l k = (h', .ok ()) := by
  rcases x with e | s
  · simp [runStmts] at hr
  · rcases hs : s.run o h with ⟨k, r⟩
    simp only [runStmts, hs] at hr
    cases r with
    | error e => simp at hr
    | ok u => exact ⟨s, k, rfl, hs, hr⟩

/-- A rotation leaves the old arrays alone, and the object holds new ones. -/
private theorem rotate_old {o : Nat} {r d : Option ℝ} {h k : Heap} (hr : (Stmt.rotate r d).run o h = (k, .ok ())) :
    h.next ≤ k.next ∧ (∀ c < h.next, k.cell c = h.cell c) ∧ ∀ c ∈ cells k o, h.next ≤ c := by
  simp only [Stmt.run] at hr
  rcases hq : (h.load o).rotate r d with e | Q
  · rw [hq] at hr; simp at hr
  rw [hq] at hr
  simp only [Prod.mk.injEq, and_true] at hr
  subst hr
  refine ⟨by simp only [assignX, assignY, setObj, alloc_next]; omega, ?_, ?_⟩
  · intro c hc
    simp only [assignY, setObj]
    rw [alloc_cell (by simp [assignX, setObj]; omega), alloc_cell (by simp [assignX, setObj]; omega)]
    simp only [assignX, setObj]
    rw [alloc_cell (by simp; omega), alloc_cell hc]
  · intro c hc
    simp only [cells, assignX, assignY, setObj, if_true, List.mem_append, alloc_mem, alloc_next] at hc
    omega

/-- One turn of the loop: the arrays which the section held before are left as the reflection leaves them. -/
private theorem section_overwrites {b : Blade} {n i o : Nat} {refl : Bool} {h h' : Heap} (hO : h.Own o) (ht : b.thickness = none) (hf : b.camber = none)
    {c : ℝ} (hc : b.chord[i]? = some c) (hr : runStmts o (sectionStmts b n refl i) h = (h', .ok ())) :
    ∃ ref, (h.load o).referencePoint = .ok ref ∧
      h'.read (h.obj o).xup = (h.read (h.obj o).xup).map (fun x => (if refl then -c else c) * (x - ref.1)) ∧
      h'.read (h.obj o).xdown = (h.read (h.obj o).xdown).map (fun x => (if refl then -c else c) * (x - ref.1)) ∧
      h'.read (h.obj o).yup = (h.read (h.obj o).yup).map (fun y => (if refl then -c else c) * (y - ref.2)) ∧
      h'.read (h.obj o).ydown = (h.read (h.obj o).ydown).map (fun y => (if refl then -c else c) * (y - ref.2)) := by
  unfold sectionStmts at hr
  rw [ht, hf] at hr
  obtain ⟨s1, k1, e1, r1, hr⟩ := runStmts_cons hr
  obtain ⟨s2, k2, e2, r2, hr⟩ := runStmts_cons hr
  obtain ⟨s3, k3, e3, r3, hr⟩ := runStmts_cons hr
  obtain ⟨s4, k4, e4, r4, hr⟩ := runStmts_cons hr
  obtain ⟨s5, k5, e5, r5, hr⟩ := runStmts_cons hr
  obtain ⟨s6, k6, e6, r6, hr⟩ := runStmts_cons hr
  obtain ⟨s7, k7, e7, r7, hr⟩ := runStmts_cons hr
  obtain ⟨s8, k8, e8, r8, hr⟩ := runStmts_cons hr
  obtain rfl := Except.ok.inj e1
  obtain rfl := Except.ok.inj e3
  obtain rfl := Except.ok.inj e4
  obtain rfl := Except.ok.inj e5
  rw [show getIdx b.chord i = .ok c by simp [getIdx, hc]] at e2
  obtain rfl := Except.ok.inj e2
  have hk8 : k8 = h' := by simpa [runStmts] using hr
  subst hk8
  -- the calls up to the reflection act on the arrays of the caller
  simp only [Stmt.run] at r1
  rcases href : (h.load o).referencePoint with e | ref
  · rw [href] at r1; simp at r1
  rw [href] at r1
  simp only [Prod.mk.injEq, and_true] at r1
  subst r1
  obtain ⟨l1, O1⟩ := translate_load hO (-ref)
  have href1 := (C06_reference_translate_reflect (h.load o) ref (-ref) href).1
  rw [add_neg_cancel] at href1
  simp only [Stmt.run] at r2
  rw [l1, href1] at r2
  simp only [Prod.mk.injEq, and_true] at r2
  subst r2
  obtain ⟨l2, O2⟩ := translate_load O1 (-0)
  obtain ⟨l3, O3⟩ := mulAll_load O2 c
  obtain ⟨l4, O4⟩ := translate_load O3 0
  obtain rfl : _ = k3 := (Prod.mk.inj r3).1
  obtain rfl : _ = k4 := (Prod.mk.inj r4).1
  have h5 : k5.load o = { h.load o with
      xup := (h.load o).xup.map fun x => (if refl then -c else c) * (x - ref.1), xdown := (h.load o).xdown.map fun x => (if refl then -c else c) * (x - ref.1),
      yup := (h.load o).yup.map fun x => (if refl then -c else c) * (x - ref.2), ydown := (h.load o).ydown.map fun x => (if refl then -c else c) * (x - ref.2) } ∧
      k5.obj o = h.obj o ∧ k5.Own o := by
    cases refl with
    | false =>
      obtain rfl : _ = k5 := (Prod.mk.inj r5).1
      refine ⟨?_, rfl, O4⟩
      rw [l4, l3, l2, l1]
      simp only [Profile.translate, Profile.mulAll, List.map_map]
      congr 1 <;> refine List.map_congr_left fun x _ => ?_ <;> simp <;> ring
    | true =>
      obtain rfl : _ = k5 := (Prod.mk.inj r5).1
      obtain ⟨l5, O5⟩ := mulAll_load O4 (-1)
      refine ⟨?_, rfl, O5⟩
      rw [l5, l4, l3, l2, l1]
      simp only [Profile.translate, Profile.mulAll, List.map_map]
      congr 1 <;> refine List.map_congr_left fun x _ => ?_ <;> simp <;> ring
  obtain ⟨h5, ob5, O5⟩ := h5
  -- the rotation assigns new arrays
  obtain ⟨rad, deg, rfl⟩ : ∃ rad deg, s6 = .rotate rad deg := by
    obtain ⟨_, _, e6⟩ := Profile.bndA.1 e6
    obtain ⟨_, _, e6⟩ := Profile.bndA.1 e6
    obtain ⟨_, _, e6⟩ := Profile.bndA.1 e6
    exact ⟨_, _, (Except.ok.inj e6).symm⟩
  obtain ⟨n6, c6, new6⟩ := rotate_old r6
  have O6 := (run_load (Stmt.rotate rad deg) O5).2.1
  rw [r6] at O6
  simp only at O6
  have f7 := (run_load s7 O6).1
  have O7 := (run_load s7 O6).2.1
  rw [r7] at f7 O7
  simp only at f7 O7
  have f8 := (run_load s8 O7).1
  rw [r8] at f8
  simp only at f8
  have ff := f7.trans f8
  have hold : ∀ a : List Nat, (∀ x ∈ a, x ∈ cells k5 o) → k8.read a = k5.read a := by
    intro a ha
    refine List.map_congr_left fun x hx => ?_
    have hlt := O5.2 x (ha x hx)
    rw [ff.cell x (by omega) (fun hm => by have := new6 x hm; omega), c6 x hlt]
  have hmem : ∀ a : List Nat, a = (h.obj o).xup ∨ a = (h.obj o).xdown ∨ a = (h.obj o).yup ∨ a = (h.obj o).ydown → ∀ x ∈ a, x ∈ cells k5 o := by
    intro a ha x hx
    simp only [cells, ob5, List.mem_append]
    rcases ha with rfl | rfl | rfl | rfl <;> tauto
  refine ⟨ref, rfl, ?_, ?_, ?_, ?_⟩
  · rw [hold _ (hmem _ (by tauto))]
    have := congrArg Profile.xup h5
    simp only [load, ob5] at this
    exact this
  · rw [hold _ (hmem _ (by tauto))]
    have := congrArg Profile.xdown h5
    simp only [load, ob5] at this
    exact this
  · rw [hold _ (hmem _ (by tauto))]
    have := congrArg Profile.yup h5
    simp only [load, ob5] at this
    exact this
  · rw [hold _ (hmem _ (by tauto))]
    have := congrArg Profile.ydown h5
    simp only [load, ob5] at this
    exact this

private theorem separate_tail {h : Heap} {o : Nat} {ids : List Nat} (hS : Separate h (o :: ids)) : Separate h ids := by
  obtain ⟨s1, s2, s3⟩ := hS
  simp only [List.flatMap_cons, List.nodup_append'] at s2
  exact ⟨(List.nodup_cons.1 s1).2, s2.2.1, fun c hc => s3 c (by simp only [List.flatMap_cons, List.mem_append]; exact Or.inr hc)⟩

/-- What no section holds is left alone. -/
private theorem sectionLoop_old (b : Blade) (n : Nat) (refl : Bool) : ∀ (ids : List Nat) (i : Nat) (h : Heap), Separate h ids →
    h.next ≤ (sectionLoop b n refl i ids h).1.next ∧
    ∀ c < h.next, (∀ o ∈ ids, c ∉ cells h o) → (sectionLoop b n refl i ids h).1.cell c = h.cell c := by
  intro ids
  induction ids with
  | nil => intro i h _; exact ⟨le_rfl, fun _ _ _ => rfl⟩
  | cons o ids ih =>
    intro i h hS
    obtain ⟨s1, s2, s3⟩ := separate_iff.1 hS
    obtain ⟨hf, hO', _⟩ := runStmts_load (sectionStmts b n refl i) h (s2 o (by simp))
    have hS' := separate_frame hf hO' hS
    simp only [sectionLoop]
    rcases hrun : runStmts o (sectionStmts b n refl i) h with ⟨k, r⟩
    rw [hrun] at hf hS'
    simp only at hf hS'
    cases r with
    | error e => exact ⟨hf.next, fun c hc hn => hf.cell c hc (hn o (by simp))⟩
    | ok u =>
      obtain ⟨g1, g2⟩ := ih (i + 1) k (separate_tail hS')
      refine ⟨hf.next.trans g1, fun c hc hn => ?_⟩
      simp only
      rw [g2 c (lt_of_lt_of_le hc hf.next) ?_, hf.cell c hc (hn o (by simp))]
      intro p hp
      have hpo : p ≠ o := by rintro rfl; exact (List.nodup_cons.1 s1).1 hp
      rw [cells_frame hf hpo]
      exact hn p (by simp [hp])

private theorem sectionLoop_overwrites (b : Blade) (n : Nat) (refl : Bool) (ht : b.thickness = none) (hf : b.camber = none) :
    ∀ (ids : List Nat) (i : Nat) (h h' : Heap), Separate h ids → sectionLoop b n refl i ids h = (h', .ok ()) →
    ∀ (j o : Nat) (c : ℝ), ids[j]? = some o → b.chord[i + j]? = some c →
    ∃ ref, (h.load o).referencePoint = .ok ref ∧
      h'.read (h.obj o).xup = (h.read (h.obj o).xup).map (fun x => (if refl then -c else c) * (x - ref.1)) ∧
      h'.read (h.obj o).xdown = (h.read (h.obj o).xdown).map (fun x => (if refl then -c else c) * (x - ref.1)) ∧
      h'.read (h.obj o).yup = (h.read (h.obj o).yup).map (fun y => (if refl then -c else c) * (y - ref.2)) ∧
      h'.read (h.obj o).ydown = (h.read (h.obj o).ydown).map (fun y => (if refl then -c else c) * (y - ref.2)) := by
  intro ids
  induction ids with
  | nil => intro i h h' _ _ j o c ho; simp at ho
  | cons o ids ih =>
    intro i h h' hS hrun j p c hp hc
    obtain ⟨s1, s2, s3⟩ := separate_iff.1 hS
    have hOo := s2 o (by simp)
    obtain ⟨hfr, hO', _⟩ := runStmts_load (sectionStmts b n refl i) h hOo
    have hS' := separate_frame hfr hO' hS
    simp only [sectionLoop] at hrun
    rcases hr : runStmts o (sectionStmts b n refl i) h with ⟨k, r⟩
    rw [hr] at hrun hfr hS'
    simp only at hfr hS'
    cases r with
    | error e => simp at hrun
    | ok u =>
      simp only at hrun
      rcases j with _ | j
      · obtain rfl : o = p := by simpa using hp
        obtain ⟨ref, e0, e1, e2, e3, e4⟩ := section_overwrites hOo ht hf (by simpa using hc) hr
        have hold : ∀ a : List Nat, (∀ x ∈ a, x ∈ cells h o) → h'.read a = k.read a := by
          intro a ha
          refine List.map_congr_left fun x hx => ?_
          have := (sectionLoop_old b n refl ids (i + 1) k (separate_tail hS')).2 x (lt_of_lt_of_le (hOo.2 x (ha x hx)) hfr.next) (by
            intro q hq
            have hqo : q ≠ o := by rintro rfl; exact (List.nodup_cons.1 s1).1 hq
            rw [cells_frame hfr hqo]
            exact fun hm => s3 o (by simp) q (by simp [hq]) (Ne.symm hqo) (ha x hx) hm)
          rw [hrun] at this
          exact this
        refine ⟨ref, e0, ?_, ?_, ?_, ?_⟩
        · rw [hold _ (fun x hx => by simp [cells, hx]), e1]
        · rw [hold _ (fun x hx => by simp [cells, hx]), e2]
        · rw [hold _ (fun x hx => by simp [cells, hx]), e3]
        · rw [hold _ (fun x hx => by simp [cells, hx]), e4]
      · have hpm : p ∈ ids := List.mem_of_getElem? (by simpa using hp)
        have hpo : p ≠ o := by rintro rfl; exact (List.nodup_cons.1 s1).1 hpm
        have hl := load_frame hfr hpo (s2 p (by simp [hpm])) (s3 o (by simp) p (by simp [hpm]) (Ne.symm hpo))
        have hob := hfr.obj p hpo
        have := ih (i + 1) k h' (separate_tail hS') hrun j p c (by simpa using hp) (by rw [← hc]; congr 1; omega)
        rw [hl, hob] at this
        have r1 : k.read (h.obj p).xup = h.read (h.obj p).xup := by have := congrArg Profile.xup hl; simp only [load, hob] at this; exact this
        have r2 : k.read (h.obj p).xdown = h.read (h.obj p).xdown := by have := congrArg Profile.xdown hl; simp only [load, hob] at this; exact this
        have r3 : k.read (h.obj p).yup = h.read (h.obj p).yup := by have := congrArg Profile.yup hl; simp only [load, hob] at this; exact this
        have r4 : k.read (h.obj p).ydown = h.read (h.obj p).ydown := by have := congrArg Profile.ydown hl; simp only [load, hob] at this; exact this
        rw [r1, r2, r3, r4] at this
        exact this

end Heap

/-- **C129** a profile made from numpy arrays holds these arrays themselves: it shows their numbers now and after every later change of the arrays, whoever makes it; if the
numbers are refused nothing happens. -/
theorem C129_kept (american : Profile → Res Arr) (A : Arrays) (o : Nat) (h h' : Heap) (r : Res Unit) (hn : h.newCustom american A o = (h', r)) :
    (r = .ok () ↔ ∃ Q, Custom.ctor american (h.kwargs A) = .ok Q) ∧ h'.cell = h.cell ∧ h'.next = h.next ∧ (∀ p, p ≠ o → h'.obj p = h.obj p) ∧
    (r = .ok () → ∀ k : Heap, k.obj o = h'.obj o → (k.load o).xup = k.read A.xup ∧ (k.load o).yup = k.read A.yup ∧ (k.load o).xdown = k.read A.xdown ∧
      (k.load o).ydown = k.read A.ydown) := by
  unfold Heap.newCustom at hn
  rcases hc : Custom.ctor american (h.kwargs A) with e | Q
  · rw [hc] at hn
    simp only [Prod.mk.injEq] at hn
    obtain ⟨rfl, rfl⟩ := hn
    exact ⟨by simp, rfl, rfl, fun _ _ => rfl, fun h => by cases h⟩
  · rw [hc] at hn
    simp only [Prod.mk.injEq] at hn
    obtain ⟨rfl, rfl⟩ := hn
    refine ⟨by simp, rfl, rfl, fun p hp => by simp [Heap.setObj, hp], fun _ k hk => ?_⟩
    simp [Heap.load, hk, Heap.setObj]

/-- **C129** `apply_transformations` overwrites the arrays from which the sections were made: when it has succeeded (sections sharing nothing, no distributions of thickness and
camber) the array given as `xup` to section `i` holds the chord length, or with `reflect` minus the chord length, times the distance from the reference point; so do the other three. -/
theorem C129_overwritten (b : Blade) (ids : List Nat) (refl : Bool) (h h' : Heap) (F : Face × Face) (hS : Separate h ids) (ht : b.thickness = none)
    (hf : b.camber = none) (hrun : Heap.applyTransformations b ids refl h = (h', .ok F)) (i o : Nat) (c : ℝ) (ho : ids[i]? = some o) (hc : b.chord[i]? = some c) :
    ∃ ref, (h.load o).referencePoint = .ok ref ∧
      h'.read (h.obj o).xup = (h.read (h.obj o).xup).map (fun x => (if refl then -c else c) * (x - ref.1)) ∧
      h'.read (h.obj o).xdown = (h.read (h.obj o).xdown).map (fun x => (if refl then -c else c) * (x - ref.1)) ∧
      h'.read (h.obj o).yup = (h.read (h.obj o).yup).map (fun y => (if refl then -c else c) * (y - ref.2)) ∧
      h'.read (h.obj o).ydown = (h.read (h.obj o).ydown).map (fun y => (if refl then -c else c) * (y - ref.2)) := by
  unfold Heap.applyTransformations at hrun
  rcases hl : Heap.sectionLoop b ids.length refl 0 ids h with ⟨k, r⟩
  rw [hl] at hrun
  cases r with
  | error e => simp at hrun
  | ok u =>
    simp only [Prod.mk.injEq] at hrun
    obtain ⟨rfl, _⟩ := hrun
    exact Heap.sectionLoop_overwrites b ids.length refl ht hf ids 0 h k hS hl i o c ho (by simpa using hc)

/-- **C129** arrays that no section holds (copies handed to `CustomProfile` instead of the arrays themselves) are left alone, whatever happens. -/
theorem C129_copies_safe (b : Blade) (ids : List Nat) (refl : Bool) (h : Heap) (hS : Separate h ids) (a : List Nat)
    (ha : ∀ c ∈ a, c < h.next ∧ ∀ o ∈ ids, c ∉ cells h o) : (Heap.applyTransformations b ids refl h).1.read a = h.read a := by
  refine List.map_congr_left fun c hc => ?_
  have := (Heap.sectionLoop_old b ids.length refl ids 0 h hS).2 c (ha c hc).1 (ha c hc).2
  unfold Heap.applyTransformations
  rcases hl : Heap.sectionLoop b ids.length refl 0 ids h with ⟨k, r⟩
  rw [hl] at this
  cases r <;> exact this

/-- **C129** hence the arrays can not be used again: with the default `reflect=True` and a positive chord, making another profile of the same four arrays is refused with
`ValueError`, if somewhere between its ends the foil had any thickness. -/
theorem C129_second_refused (american : Profile → Res Arr) (A : Arrays) (o : Nat) (h0 h h' : Heap) (b : Blade) (ids : List Nat) (F : Face × Face)
    (hnew : h0.newCustom american A o = (h, .ok ())) (hS : Separate h ids) (ht : b.thickness = none) (hf : b.camber = none)
    (hrun : Heap.applyTransformations b ids true h = (h', .ok F)) (i : Nat) (c : ℝ) (ho : ids[i]? = some o) (hc : b.chord[i]? = some c) (hpos : 0 < c)
    (hl : A.yup.length = A.xup.length ∧ A.xdown.length = A.xup.length ∧ A.ydown.length = A.xup.length)
    (j : Nat) (u d : ℝ) (hj0 : 0 < j) (hj1 : j + 1 < A.xup.length) (hu : (h0.read A.yup)[j]? = some u) (hd : (h0.read A.ydown)[j]? = some d) (hlt : d < u) (q : Nat) :
    h'.newCustom american A q = (h', .error .valueError) := by
  obtain ⟨k1, k2, _, _, k5⟩ := C129_kept american A o h0 h _ hnew
  obtain ⟨Q, hQ⟩ := k1.1 rfl
  have hob : h.obj o = { xup := A.xup, xdown := A.xdown, yup := A.yup, ydown := A.ydown, par := Q.par, chordLine := Q.chordLine, camberLine := Q.camberLine } := by
    unfold Heap.newCustom at hnew
    rw [hQ] at hnew
    rw [← (Prod.mk.inj hnew).1]
    simp [Heap.setObj]
  obtain ⟨ref, _, e1, e2, e3, e4⟩ := C129_overwritten b ids true h h' F hS ht hf hrun i o c ho hc
  rw [hob] at e1 e2 e3 e4
  simp only [if_true] at e1 e2 e3 e4
  have hrd : ∀ a, h.read a = h0.read a := fun a => by simp [Heap.read, k2]
  rw [hrd] at e1 e2 e3 e4
  have hrefuse := (C15_check_iff (h'.read A.xup) (h'.read A.yup) (h'.read A.xdown) (h'.read A.ydown) A.xup.length (by omega)
    (by simp [Heap.read]) (by simp [Heap.read, hl.1]) (by simp [Heap.read, hl.2.1]) (by simp [Heap.read, hl.2.2])).2 (by
      intro hok
      have := hok.interior j (-c * (u - ref.2)) (-c * (d - ref.2)) hj0 hj1 (by rw [e3, List.getElem?_map, hu]; rfl) (by rw [e4, List.getElem?_map, hd]; rfl)
      nlinarith)
  have hct : Custom.ctor american (h'.kwargs A) = .error .valueError := by
    unfold Custom.ctor
    rw [if_pos (by simp [Heap.kwargs, Custom.coordKeys])]
    rw [show (h'.kwargs A).arr "xup" = some (h'.read A.xup) by simp [Heap.kwargs], show (h'.kwargs A).arr "yup" = some (h'.read A.yup) by simp [Heap.kwargs],
      show (h'.kwargs A).arr "xdown" = some (h'.read A.xdown) by simp [Heap.kwargs], show (h'.kwargs A).arr "ydown" = some (h'.read A.ydown) by simp [Heap.kwargs], hrefuse]
    rfl
  unfold Heap.newCustom
  rw [hct]

/-- **C129** without reflection another profile of the same four arrays, if it can be made at all, is the first one enlarged by the chord length and moved with its reference point to the origin: a
blade made of it applies the chord twice. -/
theorem C129_second_scaled (american : Profile → Res Arr) (A : Arrays) (o : Nat) (h0 h h' h'' : Heap) (b : Blade) (ids : List Nat) (F : Face × Face)
    (hnew : h0.newCustom american A o = (h, .ok ())) (hS : Separate h ids) (ht : b.thickness = none) (hf : b.camber = none)
    (hrun : Heap.applyTransformations b ids false h = (h', .ok F)) (i : Nat) (c : ℝ) (ho : ids[i]? = some o) (hc : b.chord[i]? = some c) (q : Nat)
    (hnew' : h'.newCustom american A q = (h'', .ok ())) :
    ∃ ref, (h.load o).referencePoint = .ok ref ∧
      (h''.load q).xup = (h.load o).xup.map (fun x => c * (x - ref.1)) ∧ (h''.load q).xdown = (h.load o).xdown.map (fun x => c * (x - ref.1)) ∧
      (h''.load q).yup = (h.load o).yup.map (fun y => c * (y - ref.2)) ∧ (h''.load q).ydown = (h.load o).ydown.map (fun y => c * (y - ref.2)) := by
  obtain ⟨k1, _, _, _, k5⟩ := C129_kept american A o h0 h _ hnew
  obtain ⟨_, c2, _, _, c5⟩ := C129_kept american A q h' h'' _ hnew'
  obtain ⟨Q, hQ⟩ := k1.1 rfl
  have hob : h.obj o = { xup := A.xup, xdown := A.xdown, yup := A.yup, ydown := A.ydown, par := Q.par, chordLine := Q.chordLine, camberLine := Q.camberLine } := by
    unfold Heap.newCustom at hnew
    rw [hQ] at hnew
    rw [← (Prod.mk.inj hnew).1]
    simp [Heap.setObj]
  obtain ⟨ref, hr, e1, e2, e3, e4⟩ := C129_overwritten b ids false h h' F hS ht hf hrun i o c ho hc
  rw [hob] at e1 e2 e3 e4
  simp only [Bool.false_eq_true, if_false] at e1 e2 e3 e4
  have hrd : ∀ a, h''.read a = h'.read a := fun a => by simp [Heap.read, c2]
  obtain ⟨a1, a2, a3, a4⟩ := k5 rfl h rfl
  obtain ⟨b1, b2, b3, b4⟩ := c5 rfl h'' rfl
  exact ⟨ref, hr, by rw [b1, hrd, e1, a1], by rw [b3, hrd, e2, a3], by rw [b2, hrd, e3, a2], by rw [b4, hrd, e4, a4]⟩

/-! ### The hypotheses are met -/

/-- The arrays of the first object of the sample memory. -/
def Sample.arrays : Arrays := { xup := [0, 1, 2], xdown := [3, 4, 5], yup := [6, 7, 8], ydown := [9, 10, 11] }

/-- A blade of one section (its profile is object 0). -/
def Sample.blade1 : Blade := { sections := [], radii := [1], chord := [2], pitch := [1], rake := [0], skew := [0], thickness := none, camber := none, coordsUp := [], coordsDown := [], upper := none, lower := none, tip := none, root := none }

example (american : Profile → Res Arr) (refl : Bool) : ∃ h h' F, Sample.heap.newCustom american Sample.arrays 0 = (h, .ok ()) ∧ Separate h [0] ∧
    Heap.applyTransformations Sample.blade1 [0] refl h = (h', .ok F) ∧
    (Sample.heap.read Sample.arrays.yup)[1]? = some ((1 : ℝ) / 10) ∧ (Sample.heap.read Sample.arrays.ydown)[1]? = some ((-1 : ℝ) / 10) ∧
    (refl = true → h'.newCustom american Sample.arrays 5 = (h', .error .valueError)) := by
  have rx : Sample.heap.read [0, 1, 2] = [0, 1 / 2, 1] := by simp [Heap.read, Sample.heap]
  have rxd : Sample.heap.read [3, 4, 5] = [0, 1 / 2, 1] := by simp [Heap.read, Sample.heap]
  have ry : Sample.heap.read [6, 7, 8] = [0, 1 / 10, 0] := by simp [Heap.read, Sample.heap]
  have ryd : Sample.heap.read [9, 10, 11] = [0, -1 / 10, 0] := by simp [Heap.read, Sample.heap]
  obtain ⟨k1, _, k3⟩ := C15_ctor american (Sample.heap.kwargs Sample.arrays) (by simp [Heap.kwargs, Custom.coordKeys]) [0, 1 / 2, 1] [0, 1 / 10, 0] [0, 1 / 2, 1] [0, -1 / 10, 0]
    (by simp [Heap.kwargs, Sample.arrays, rx]) (by simp [Heap.kwargs, Sample.arrays, ry]) (by simp [Heap.kwargs, Sample.arrays, rxd]) (by simp [Heap.kwargs, Sample.arrays, ryd])
    rfl rfl rfl (0, 0) (1, 0) (0, 0) (1, 0) (by simp [Profile.Ends, Profile.upper, Profile.lower]) (by simp [dist2])
  have hex : ∃ Q, Custom.ctor american (Sample.heap.kwargs Sample.arrays) = .ok Q := by
    refine k3.resolve_left ?_
    rw [k1]
    rintro (h | h | h)
    · apply h
      refine ⟨?_, ?_, ?_, ?_, ?_⟩
      · intro i u d h0 h1 hu hd
        obtain rfl : i = 1 := by simp at h1; omega
        have e1 : u = 1 / 10 := by simpa using hu.symm
        have e2 : d = -1 / 10 := by simpa using hd.symm
        rw [e1, e2]; norm_num
      all_goals
        intro a b ha hb
        simp at ha hb
        subst ha; subst hb
        norm_num [Near]
    · norm_num at h
    · norm_num at h
  obtain ⟨Q, hQ⟩ := hex
  set h : Heap := Sample.heap.setObj 0 { xup := [0, 1, 2], xdown := [3, 4, 5], yup := [6, 7, 8], ydown := [9, 10, 11], par := Q.par, chordLine := Q.chordLine, camberLine := Q.camberLine } with hh
  have hnew : Sample.heap.newCustom american Sample.arrays 0 = (h, .ok ()) := by
    unfold Heap.newCustom; rw [hQ]; rfl
  have hcells : cells h 0 = [0, 1, 2, 3, 4, 5, 6, 7, 8, 9, 10, 11] := by simp [cells, hh, Heap.setObj]
  have hS : Separate h [0] := by
    refine ⟨by decide, ?_, ?_⟩
    · simp only [List.flatMap_cons, List.flatMap_nil, List.append_nil, hcells]; decide
    · simp only [List.flatMap_cons, List.flatMap_nil, List.append_nil, hcells]
      show ∀ c ∈ ([0, 1, 2, 3, 4, 5, 6, 7, 8, 9, 10, 11] : List Nat), c < 24
      decide
  have hload : h.load 0 = { xup := [0, 1 / 2, 1], xdown := [0, 1 / 2, 1], yup := [0, 1 / 10, 0], ydown := [0, -1 / 10, 0], par := Q.par, chordLine := Q.chordLine, camberLine := Q.camberLine } := by
    have hr : ∀ a, h.read a = Sample.heap.read a := fun a => rfl
    simp only [Heap.load, hr]
    simp only [hh, Heap.setObj, if_true, rx, rxd, ry, ryd]
  have hU : (h.load 0).Uniform := by rw [hload]; simp [Profile.Uniform]
  have hE : (h.load 0).Ends (0, 0) (1, 0) (0, 0) (1, 0) := by rw [hload]; simp [Profile.Ends, Profile.upper, Profile.lower]
  obtain ⟨b', hb'⟩ := (C46_defined { Sample.blade1 with sections := [0].map h.load } refl (by simp [Blade.WellFormed, Sample.blade1]) rfl rfl
    (by simpa using hU)).2 ⟨by simp, by simp [Sample.blade1], by
      intro P hP
      obtain rfl : P = h.load 0 := by simpa using hP
      rw [Profile.referencePoint_ends ⟨hU.1, hU.2.2⟩ hE, if_neg (by norm_num)]
      exact ⟨_, rfl⟩, by simp⟩
  obtain ⟨h', e1, _⟩ := C66_blade Sample.blade1 [0] [] h refl (by simpa using hS) b' _ hb'
  have f1 : (Sample.heap.read Sample.arrays.yup)[1]? = some ((1 : ℝ) / 10) := by rw [show Sample.arrays.yup = [6, 7, 8] from rfl, ry]; rfl
  have f2 : (Sample.heap.read Sample.arrays.ydown)[1]? = some ((-1 : ℝ) / 10) := by rw [show Sample.arrays.ydown = [9, 10, 11] from rfl, ryd]; rfl
  refine ⟨h, h', _, hnew, hS, e1, f1, f2, ?_⟩
  rintro rfl
  exact C129_second_refused american Sample.arrays 0 _ h h' Sample.blade1 [0] _ hnew hS rfl rfl e1 0 2 rfl rfl two_pos ⟨rfl, rfl, rfl⟩ 1 _ _ one_pos (by simp [Sample.arrays]) f1 f2 (by norm_num) 5

/-- Arrays beside those of the sections (C129_copies_safe). -/
example : ∀ c ∈ [12, 13, 14], c < Sample.heap.next ∧ ∀ o ∈ [0], c ∉ cells Sample.heap o := by
  intro c hc
  simp only [List.mem_cons, List.not_mem_nil, or_false] at hc
  rcases hc with rfl | rfl | rfl <;> simp [Sample.heap, cells]

end
end BladeX
