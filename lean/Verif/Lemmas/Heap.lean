import Verif.Spec.Heap
import Verif.Lemmas.Blade
import Mathlib.Data.List.Nodup
import Mathlib.Tactic.Linarith
import Mathlib.Tactic.Ring

/-! # Lemmas on the memory model -/

namespace BladeX
noncomputable section
open Spec Classical

namespace Heap

theorem read_inPlace_self (g : ℝ → ℝ) (a : List Nat) (h : Heap) : (inPlace g a h).read a = (h.read a).map g := by
  unfold read inPlace
  rw [List.map_map]
  exact List.map_congr_left fun c hc => by simp [hc]

theorem read_inPlace_other (g : ℝ → ℝ) {a b : List Nat} (h : Heap) (hd : b.Disjoint a) : (inPlace g a h).read b = h.read b := by
  unfold read inPlace
  exact List.map_congr_left fun c hc => by
    have : c ∉ a := fun hm => hd hc hm
    simp [this]

@[simp] theorem obj_inPlace (g : ℝ → ℝ) (a : List Nat) (h : Heap) : (inPlace g a h).obj = h.obj := rfl
@[simp] theorem next_inPlace (g : ℝ → ℝ) (a : List Nat) (h : Heap) : (inPlace g a h).next = h.next := rfl

/-- The arrays of one object are in use and share nothing among themselves. -/
def Own (h : Heap) (o : Nat) : Prop := (cells h o).Nodup ∧ ∀ c ∈ cells h o, c < h.next

theorem own_disjoint {h : Heap} {o : Nat} (hO : h.Own o) :
    (h.obj o).xup.Disjoint (h.obj o).xdown ∧ (h.obj o).xup.Disjoint (h.obj o).yup ∧ (h.obj o).xup.Disjoint (h.obj o).ydown ∧
    (h.obj o).xdown.Disjoint (h.obj o).yup ∧ (h.obj o).xdown.Disjoint (h.obj o).ydown ∧ (h.obj o).yup.Disjoint (h.obj o).ydown := by
  have h1 := hO.1
  unfold cells at h1
  simp only [List.nodup_append', List.disjoint_append_left] at h1
  tauto

/-- A call on the object `o` reaches only the arrays of `o` and new arrays. -/
structure Frame (o : Nat) (h h' : Heap) : Prop where
  next : h.next ≤ h'.next
  obj : ∀ p, p ≠ o → h'.obj p = h.obj p
  cell : ∀ c, c < h.next → c ∉ cells h o → h'.cell c = h.cell c
  new : ∀ c ∈ cells h' o, c ∈ cells h o ∨ h.next ≤ c

theorem Frame.refl (o : Nat) (h : Heap) : Frame o h h := ⟨le_rfl, fun _ _ => rfl, fun _ _ _ => rfl, fun _ hc => Or.inl hc⟩

theorem Frame.trans {o : Nat} {h1 h2 h3 : Heap} (a : Frame o h1 h2) (b : Frame o h2 h3) : Frame o h1 h3 where
  next := a.next.trans b.next
  obj p hp := (b.obj p hp).trans (a.obj p hp)
  cell c hc hn := by
    rw [b.cell c (hc.trans_le a.next) ?_, a.cell c hc hn]
    intro hm
    rcases a.new c hm with h | h
    · exact hn h
    · omega
  new c hc := by
    rcases b.new c hc with h | h
    · exact a.new c h
    · exact Or.inr (a.next.trans h)

theorem frame_inPlace {o : Nat} {g : ℝ → ℝ} {a : List Nat} {h : Heap} (ha : ∀ c ∈ a, c ∈ cells h o) : Frame o h (inPlace g a h) where
  next := le_rfl
  obj _ _ := rfl
  cell c _ hn := by simp only [inPlace]; rw [if_neg fun hm => hn (ha c hm)]
  new c hc := Or.inl hc

theorem cells_inPlace (g : ℝ → ℝ) (a : List Nat) (h : Heap) (o : Nat) : cells (inPlace g a h) o = cells h o := rfl

theorem own_inPlace {g : ℝ → ℝ} {a : List Nat} {h : Heap} {o : Nat} (hO : h.Own o) : (inPlace g a h).Own o := hO

/-- Four in-place updates of the four arrays. -/
theorem four {o : Nat} {h : Heap} (hO : h.Own o) (g1 g2 g3 g4 : ℝ → ℝ) :
    let h' := inPlace g4 (h.obj o).ydown (inPlace g3 (h.obj o).yup (inPlace g2 (h.obj o).xdown (inPlace g1 (h.obj o).xup h)))
    h'.load o = { h.load o with
      xup := (h.load o).xup.map g1, xdown := (h.load o).xdown.map g2, yup := (h.load o).yup.map g3, ydown := (h.load o).ydown.map g4 } ∧
    h'.Own o := by
  obtain ⟨d1, d2, d3, d4, d5, d6⟩ := own_disjoint hO
  refine ⟨?_, hO⟩
  simp only [load, obj_inPlace]
  congr 1
  · rw [read_inPlace_other _ _ d3, read_inPlace_other _ _ d2, read_inPlace_other _ _ d1, read_inPlace_self]
  · rw [read_inPlace_other _ _ d5, read_inPlace_other _ _ d4, read_inPlace_self, read_inPlace_other _ _ d1.symm]
  · rw [read_inPlace_other _ _ d6, read_inPlace_self, read_inPlace_other _ _ d4.symm, read_inPlace_other _ _ d2.symm]
  · rw [read_inPlace_self, read_inPlace_other _ _ d6.symm, read_inPlace_other _ _ d5.symm, read_inPlace_other _ _ d3.symm]

theorem frame_four {o : Nat} {h : Heap} (g1 g2 g3 g4 : ℝ → ℝ) :
    Frame o h (inPlace g4 (h.obj o).ydown (inPlace g3 (h.obj o).yup (inPlace g2 (h.obj o).xdown (inPlace g1 (h.obj o).xup h)))) := by
  have e1 : Frame o h (inPlace g1 (h.obj o).xup h) := frame_inPlace (by intro c hc; simp [cells, hc])
  have e2 := e1.trans (frame_inPlace (g := g2) (a := (h.obj o).xdown) (by intro c hc; simp [cells, hc]))
  have e3 := e2.trans (frame_inPlace (g := g3) (a := (h.obj o).yup) (by intro c hc; simp [cells, hc]))
  exact e3.trans (frame_inPlace (g := g4) (a := (h.obj o).ydown) (by intro c hc; simp [cells, hc]))

theorem translate_load {o : Nat} {h : Heap} (hO : h.Own o) (v : Pt) : (h.translate o v).load o = (h.load o).translate v ∧ (h.translate o v).Own o :=
  four hO _ _ _ _

theorem mulAll_load {o : Nat} {h : Heap} (hO : h.Own o) (f : ℝ) : (h.mulAll o f).load o = (h.load o).mulAll f ∧ (h.mulAll o f).Own o :=
  four hO _ _ _ _

theorem frame_translate (o : Nat) (h : Heap) (v : Pt) : Frame o h (h.translate o v) := frame_four (· + v.1) (· + v.1) (· + v.2) (· + v.2)
theorem frame_mulAll (o : Nat) (h : Heap) (f : ℝ) : Frame o h (h.mulAll o f) := frame_four (· * f) (· * f) (· * f) (· * f)

theorem alloc_mem {l : Arr} {h : Heap} {c : Nat} : c ∈ (alloc l h).1 ↔ h.next ≤ c ∧ c < h.next + l.length := by
  simp only [alloc, List.mem_map, List.mem_range]
  constructor
  · rintro ⟨i, hi, rfl⟩; omega
  · rintro ⟨h1, h2⟩; exact ⟨c - h.next, by omega, by omega⟩

theorem alloc_nodup (l : Arr) (h : Heap) : (alloc l h).1.Nodup :=
  List.Nodup.map (fun a b hab => by simpa using hab) List.nodup_range

theorem alloc_read (l : Arr) (h : Heap) : (alloc l h).2.read (alloc l h).1 = l := by
  simp only [alloc, read, List.map_map]
  apply List.ext_getElem
  · simp
  · intro i h1 h2
    simp only [List.getElem_map, List.getElem_range, Function.comp]
    rw [if_neg (by omega), Nat.add_sub_cancel_left, List.getD_eq_getElem?_getD, List.getElem?_eq_getElem h2]; rfl

theorem alloc_read_old {l : Arr} {h : Heap} {a : List Nat} (ha : ∀ c ∈ a, c < h.next) : (alloc l h).2.read a = h.read a := by
  simp only [alloc, read]
  exact List.map_congr_left fun c hc => by simp [ha c hc]

@[simp] theorem alloc_next (l : Arr) (h : Heap) : (alloc l h).2.next = h.next + l.length := rfl
@[simp] theorem alloc_obj (l : Arr) (h : Heap) : (alloc l h).2.obj = h.obj := rfl

theorem alloc_cell {l : Arr} {h : Heap} {c : Nat} (hc : c < h.next) : (alloc l h).2.cell c = h.cell c := by simp [alloc, hc]

theorem assignX_frame (o : Nat) (P : Profile) (h : Heap) : Frame o h (h.assignX o P) where
  next := by simp [assignX, setObj]; omega
  obj p hp := by simp [assignX, setObj, hp]
  cell c hc _ := by
    simp only [assignX, setObj]
    rw [alloc_cell (by simp; omega), alloc_cell hc]
  new c hc := by
    simp only [cells, assignX, setObj, if_true, List.mem_append, alloc_mem, alloc_next] at hc ⊢
    rcases hc with ((hc | hc) | hc) | hc <;> first | (right; omega) | (left; tauto)

theorem assignY_frame (o : Nat) (P : Profile) (h : Heap) : Frame o h (h.assignY o P) where
  next := by simp [assignY, setObj]; omega
  obj p hp := by simp [assignY, setObj, hp]
  cell c hc _ := by
    simp only [assignY, setObj]
    rw [alloc_cell (by simp; omega), alloc_cell hc]
  new c hc := by
    simp only [cells, assignY, setObj, if_true, List.mem_append, alloc_mem, alloc_next] at hc ⊢
    rcases hc with ((hc | hc) | hc) | hc <;> first | (right; omega) | (left; tauto)

theorem assignX_load {o : Nat} {h : Heap} (hO : h.Own o) (P : Profile) :
    (h.assignX o P).load o = { h.load o with xup := P.xup, xdown := P.xdown } ∧ (h.assignX o P).Own o := by
  have hlt := hO.2
  have hn := hO.1
  simp only [cells, List.mem_append] at hlt
  simp only [cells, List.nodup_append'] at hn
  constructor
  · simp only [load, assignX, setObj, if_true]
    congr 1
    · show ((alloc P.xdown (alloc P.xup h).2).2.read (alloc P.xup h).1) = P.xup
      rw [alloc_read_old (by intro c hc; rw [alloc_mem] at hc; simpa using hc.2), alloc_read]
    · exact alloc_read _ _
    · show ((alloc P.xdown (alloc P.xup h).2).2.read (h.obj o).yup) = h.read (h.obj o).yup
      rw [alloc_read_old (by intro c hc; have := hlt c (by tauto); simp; omega), alloc_read_old (by intro c hc; exact hlt c (by tauto))]
    · show ((alloc P.xdown (alloc P.xup h).2).2.read (h.obj o).ydown) = h.read (h.obj o).ydown
      rw [alloc_read_old (by intro c hc; have := hlt c (by tauto); simp; omega), alloc_read_old (by intro c hc; exact hlt c (by tauto))]
  · constructor
    · simp only [cells, assignX, setObj, if_true, List.nodup_append', alloc_nodup, true_and]
      simp only [List.disjoint_append_left]
      obtain ⟨⟨⟨n1, n2, n3⟩, n4, n5⟩, n6, n7⟩ := hn
      simp only [List.disjoint_append_left] at n5 n7
      refine ⟨⟨?_, n4, ?_, ?_⟩, n6, ⟨?_, ?_⟩, n7.2⟩
      · intro c h1 h2; rw [alloc_mem] at h1 h2; simp at h2; omega
      · intro c h1 h2; rw [alloc_mem] at h1; have := hlt c (by tauto); omega
      · intro c h1 h2; rw [alloc_mem] at h1; have := hlt c (by tauto); simp at h1; omega
      · intro c h1 h2; rw [alloc_mem] at h1; have := hlt c (by tauto); omega
      · intro c h1 h2; rw [alloc_mem] at h1; have := hlt c (by tauto); simp at h1; omega
    · intro c hc
      simp only [cells, assignX, setObj, if_true, List.mem_append, alloc_mem, alloc_next] at hc ⊢
      rcases hc with ((hc | hc) | hc) | hc
      · omega
      · omega
      · have := hlt c (by tauto); omega
      · have := hlt c (by tauto); omega

theorem assignY_load {o : Nat} {h : Heap} (hO : h.Own o) (P : Profile) :
    (h.assignY o P).load o = { P with xup := (h.load o).xup, xdown := (h.load o).xdown } ∧ (h.assignY o P).Own o := by
  have hlt := hO.2
  have hn := hO.1
  simp only [cells, List.mem_append] at hlt
  simp only [cells, List.nodup_append'] at hn
  constructor
  · simp only [load, assignY, setObj, if_true]
    congr 1
    · show ((alloc P.ydown (alloc P.yup h).2).2.read (h.obj o).xup) = h.read (h.obj o).xup
      rw [alloc_read_old (by intro c hc; have := hlt c (by tauto); simp; omega), alloc_read_old (by intro c hc; exact hlt c (by tauto))]
    · show ((alloc P.ydown (alloc P.yup h).2).2.read (h.obj o).xdown) = h.read (h.obj o).xdown
      rw [alloc_read_old (by intro c hc; have := hlt c (by tauto); simp; omega), alloc_read_old (by intro c hc; exact hlt c (by tauto))]
    · show ((alloc P.ydown (alloc P.yup h).2).2.read (alloc P.yup h).1) = P.yup
      rw [alloc_read_old (by intro c hc; rw [alloc_mem] at hc; simpa using hc.2), alloc_read]
    · exact alloc_read _ _
  · constructor
    · simp only [cells, assignY, setObj, if_true, List.nodup_append', alloc_nodup, true_and]
      simp only [List.disjoint_append_left]
      obtain ⟨⟨⟨n1, n2, n3⟩, n4, n5⟩, n6, n7⟩ := hn
      refine ⟨⟨⟨n1, n2, n3⟩, ?_, ?_⟩, ⟨?_, ?_⟩, ?_⟩
      · intro c h1 h2; rw [alloc_mem] at h2; have := hlt c (by tauto); omega
      · intro c h1 h2; rw [alloc_mem] at h2; have := hlt c (by tauto); omega
      · intro c h1 h2; rw [alloc_mem] at h2; have := hlt c (by tauto); simp at h2; omega
      · intro c h1 h2; rw [alloc_mem] at h2; have := hlt c (by tauto); simp at h2; omega
      · intro c h1 h2; rw [alloc_mem] at h1 h2; simp at h2; omega
    · intro c hc
      simp only [cells, assignY, setObj, if_true, List.mem_append, alloc_mem, alloc_next] at hc ⊢
      rcases hc with ((hc | hc) | hc) | hc
      · have := hlt c (by tauto); omega
      · have := hlt c (by tauto); omega
      · omega
      · omega

theorem chordLine_x {P Q : Profile} {n : Option Int} (h : P.computeChordLine n = .ok Q) : Q.xup = P.xup ∧ Q.xdown = P.xdown := by
  unfold Profile.computeChordLine at h
  rcases h1 : P.updateEdges with e | e
  · rw [h1] at h; simp [bind, Except.bind] at h
  rcases h2 : P.effectiveN n with e' | m
  · rw [h1, h2] at h
    by_cases h3 : e.2.1 - e.1.1 = 0 <;>
      simp [bind, Except.bind, pure, Except.pure, throw, throwThe, MonadExceptOf.throw, h3] at h
  rw [h1, h2] at h
  by_cases h3 : e.2.1 - e.1.1 = 0
  · simp [bind, Except.bind, pure, Except.pure, throw, throwThe, MonadExceptOf.throw, h3] at h
  · cases m with
    | none =>
      simp [bind, Except.bind, pure, Except.pure, throw, throwThe, MonadExceptOf.throw, h3] at h
      subst h; exact ⟨rfl, rfl⟩
    | some k =>
      rcases h4 : linspace e.1.1 e.2.1 k with e' | xs
      · simp [bind, Except.bind, pure, Except.pure, throw, throwThe, MonadExceptOf.throw, h3, h4] at h
      · simp [bind, Except.bind, pure, Except.pure, throw, throwThe, MonadExceptOf.throw, h3, h4] at h
        subst h; exact ⟨rfl, rfl⟩

theorem camberLine_x {P Q : Profile} {n : Option Int} (h : P.computeCamberLine n = .ok Q) : Q.xup = P.xup ∧ Q.xdown = P.xdown := by
  unfold Profile.computeCamberLine at h
  rcases h2 : P.effectiveN n with e' | m
  · rw [h2] at h; simp [bind, Except.bind] at h
  rw [h2] at h
  cases m with
  | none =>
    simp only [bind, Except.bind, pure, Except.pure] at h
    split at h
    · cases h
    split at h
    · cases h
    · obtain rfl := Except.ok.inj h; exact ⟨rfl, rfl⟩
  | some k =>
    simp only [bind, Except.bind, pure, Except.pure] at h
    split at h
    · cases h
    split at h
    · cases h
    split at h
    · cases h
    · obtain rfl := Except.ok.inj h; exact ⟨rfl, rfl⟩

theorem setCamber_x {P Q : Profile} {c : ℝ} (h : P.setCamberLineMax c = .ok Q) (hx : npEqAll P.xup P.xdown = .ok true) :
    Q.xup = P.xup ∧ Q.xdown = P.xdown := by
  unfold Profile.setCamberLineMax Profile.maxCamber at h
  rcases h1 : P.computeChordLine (some 500) with e | P1
  · rw [h1] at h; simp [bind, Except.bind] at h
  rcases h2 : P1.computeCamberLine (some 500) with e | P2
  · simp [h1, h2, bind, Except.bind] at h
  obtain ⟨a1, b1⟩ := chordLine_x h1
  obtain ⟨a2, b2⟩ := camberLine_x h2
  have hk : P2.effectiveN none = .ok none := by
    unfold Profile.effectiveN
    rw [a2, b2, a1, b1, hx]
    simp [bind, Except.bind, pure, Except.pure]
  have key : ∀ pc R, P2.deformCamberLine pc none = .ok R → R.xup = P.xup ∧ R.xdown = P.xdown := by
    intro pc R hR
    unfold Profile.deformCamberLine at hR
    rcases h3 : P2.computeCamberLine none with e | P3
    · rw [h3] at hR; simp [bind, Except.bind] at hR
    obtain ⟨a3, b3⟩ := camberLine_x h3
    simp only [h3, hk, bind, Except.bind, pure, Except.pure] at hR
    split at hR
    · cases hR
    split at hR
    · cases hR
    split at hR
    · cases hR
    · obtain rfl := Except.ok.inj hR
      exact ⟨a3.trans (a2.trans a1), b3.trans (b2.trans b1)⟩
  simp only [h1, h2, bind, Except.bind, pure, Except.pure] at h
  split at h
  · cases h
  · rename_i v hv
    split at hv
    · cases hv
    split at hv
    · cases hv
    obtain rfl := Except.ok.inj hv
    split at h
    · cases h
    · exact key _ _ h

/-- One call on an object that shares nothing. -/
theorem run_load (s : Stmt) {o : Nat} {h : Heap} (hO : h.Own o) :
    Frame o h (s.run o h).1 ∧ (s.run o h).1.Own o ∧
    (∀ Q, s.value (h.load o) = .ok Q → (s.run o h).2 = .ok () ∧ (s.run o h).1.load o = Q) ∧
    (∀ e, s.value (h.load o) = .error e → s.run o h = (h, .error e)) := by
  cases s with
  | skip =>
    exact ⟨Frame.refl o h, hO, fun Q hQ => ⟨rfl, by simpa [Stmt.value, Stmt.run] using hQ⟩, fun e he => by simp [Stmt.value] at he⟩
  | translate v =>
    obtain ⟨h1, h2⟩ := translate_load hO v
    exact ⟨frame_translate o h v, h2, fun Q hQ => ⟨rfl, by simp only [Stmt.value, Except.ok.injEq] at hQ; rw [← hQ]; exact h1⟩,
      fun e he => by simp [Stmt.value] at he⟩
  | translateRef =>
    rcases hr : (h.load o).referencePoint with e | ref
    · have : Stmt.translateRef.run o h = (h, .error e) := by simp only [Stmt.run]; rw [hr]
      rw [this]
      refine ⟨Frame.refl o h, hO, ?_, ?_⟩
      · intro Q hQ; simp [Stmt.value, hr, bind, Except.bind] at hQ
      · intro e' he; simp [Stmt.value, hr, bind, Except.bind] at he; rw [he]
    · have : Stmt.translateRef.run o h = (h.translate o (-ref), .ok ()) := by simp only [Stmt.run]; rw [hr]
      rw [this]
      obtain ⟨h1, h2⟩ := translate_load hO (-ref)
      refine ⟨frame_translate o h _, h2, ?_, ?_⟩
      · intro Q hQ
        simp only [Stmt.value, hr, bind, Except.bind, pure, Except.pure, Except.ok.injEq] at hQ
        exact ⟨rfl, by rw [← hQ]; exact h1⟩
      · intro e' he; simp [Stmt.value, hr, bind, Except.bind, pure, Except.pure] at he
  | scale f b =>
    cases b with
    | false =>
      obtain ⟨h1, h2⟩ := mulAll_load hO f
      refine ⟨frame_mulAll o h f, h2, ?_, ?_⟩
      · intro Q hQ
        simp only [Stmt.value, Profile.scale, Bool.false_eq_true, if_false, pure, Except.pure, Except.ok.injEq] at hQ
        exact ⟨rfl, by rw [← hQ]; exact h1⟩
      · intro e he; simp [Stmt.value, Profile.scale, pure, Except.pure] at he
    | true =>
      rcases hr : (h.load o).referencePoint with e | ref
      · have : (Stmt.scale f true).run o h = (h, .error e) := by simp only [Stmt.run]; rw [hr]
        rw [this]
        refine ⟨Frame.refl o h, hO, ?_, ?_⟩
        · intro Q hQ; simp [Stmt.value, Profile.scale, hr, bind, Except.bind] at hQ
        · intro e' he; simp [Stmt.value, Profile.scale, hr, bind, Except.bind] at he; rw [he]
      · have : (Stmt.scale f true).run o h = (((h.translate o (-ref)).mulAll o f).translate o ref, .ok ()) := by simp only [Stmt.run]; rw [hr]
        rw [this]
        obtain ⟨h1, h2⟩ := translate_load hO (-ref)
        obtain ⟨h3, h4⟩ := mulAll_load h2 f
        obtain ⟨h5, h6⟩ := translate_load h4 ref
        refine ⟨((frame_translate o h _).trans (frame_mulAll o _ f)).trans (frame_translate o _ _), h6, ?_, ?_⟩
        · intro Q hQ
          simp only [Stmt.value, Profile.scale, if_true, hr, bind, Except.bind, pure, Except.pure, Except.ok.injEq] at hQ
          exact ⟨rfl, by rw [← hQ, h5, h3, h1]⟩
        · intro e' he; simp [Stmt.value, Profile.scale, hr, bind, Except.bind, pure, Except.pure] at he
  | setThickness t =>
    rcases hr : (h.load o).maxThickness with e | old
    · have : (Stmt.setThickness t).run o h = (h, .error e) := by simp only [Stmt.run]; rw [hr]
      rw [this]
      refine ⟨Frame.refl o h, hO, ?_, ?_⟩
      · intro Q hQ; simp [Stmt.value, Profile.setThicknessMax, hr, bind, Except.bind] at hQ
      · intro e' he; simp [Stmt.value, Profile.setThicknessMax, hr, bind, Except.bind] at he; rw [he]
    · obtain ⟨h1, h2⟩ := four hO id id (· * (if old ≠ 0 then t / old else 0)) (· * (if old ≠ 0 then t / old else 0))
      have hid : ∀ (a : List Nat) (k : Heap), inPlace id a k = k := by intro a k; simp [inPlace]
      simp only [hid] at h1 h2
      have hf := frame_four (o := o) (h := h) id id (· * (if old ≠ 0 then t / old else 0)) (· * (if old ≠ 0 then t / old else 0))
      simp only [hid] at hf
      have : (Stmt.setThickness t).run o h = (inPlace (· * (if old ≠ 0 then t / old else 0)) (h.obj o).ydown
          (inPlace (· * (if old ≠ 0 then t / old else 0)) (h.obj o).yup h), .ok ()) := by simp only [Stmt.run]; rw [hr]; rfl
      rw [this]
      refine ⟨hf, h2, ?_, ?_⟩
      · intro Q hQ
        simp only [Stmt.value, Profile.setThicknessMax, hr, bind, Except.bind, pure, Except.pure, Except.ok.injEq] at hQ
        refine ⟨rfl, ?_⟩
        rw [← hQ]
        simpa using h1
      · intro e' he; simp [Stmt.value, Profile.setThicknessMax, hr, bind, Except.bind, pure, Except.pure] at he
  | setCamber c =>
    rcases hr : (h.load o).setCamberLineMax c with e | Q
    · have : (Stmt.setCamber c).run o h = (h, .error e) := by simp only [Stmt.run]; rw [hr]
      rw [this]
      refine ⟨Frame.refl o h, hO, ?_, ?_⟩
      · intro Q hQ; simp [Stmt.value, hr] at hQ
      · intro e' he; simp [Stmt.value, hr] at he; rw [he]
    · by_cases hx : npEqAll (h.load o).xup (h.load o).xdown = .ok true
      · have : (Stmt.setCamber c).run o h = (h.assignY o Q, .ok ()) := by simp only [Stmt.run]; rw [hr]; simp only; rw [if_pos hx]
        rw [this]
        obtain ⟨h1, h2⟩ := assignY_load hO Q
        refine ⟨assignY_frame o Q h, h2, ?_, ?_⟩
        · intro Q' hQ
          simp only [Stmt.value, hr, Except.ok.injEq] at hQ
          obtain ⟨e1, e2⟩ := setCamber_x hr hx
          refine ⟨rfl, ?_⟩
          rw [h1, ← hQ, ← e1, ← e2]
        · intro e' he; simp [Stmt.value, hr] at he
      · have : (Stmt.setCamber c).run o h = ((h.assignX o Q).assignY o Q, .ok ()) := by simp only [Stmt.run]; rw [hr]; simp only; rw [if_neg hx]
        rw [this]
        obtain ⟨h1, h2⟩ := assignX_load hO Q
        obtain ⟨h3, h4⟩ := assignY_load h2 Q
        refine ⟨(assignX_frame o Q h).trans (assignY_frame o Q _), h4, ?_, ?_⟩
        · intro Q' hQ
          simp only [Stmt.value, hr, Except.ok.injEq] at hQ
          exact ⟨rfl, by rw [h3, h1, ← hQ]⟩
        · intro e' he; simp [Stmt.value, hr] at he
  | reflect =>
    obtain ⟨h1, h2⟩ := mulAll_load hO (-1)
    exact ⟨frame_mulAll o h _, h2, fun Q hQ => ⟨rfl, by simp only [Stmt.value, Except.ok.injEq] at hQ; rw [← hQ]; exact h1⟩,
      fun e he => by simp [Stmt.value] at he⟩
  | rotate r d =>
    rcases hr : (h.load o).rotate r d with e | Q
    · have : (Stmt.rotate r d).run o h = (h, .error e) := by simp only [Stmt.run]; rw [hr]
      rw [this]
      refine ⟨Frame.refl o h, hO, ?_, ?_⟩
      · intro Q hQ; simp [Stmt.value, hr] at hQ
      · intro e' he; simp [Stmt.value, hr] at he; rw [he]
    · have : (Stmt.rotate r d).run o h = ((h.assignX o Q).assignY o Q, .ok ()) := by simp only [Stmt.run]; rw [hr]
      rw [this]
      obtain ⟨h1, h2⟩ := assignX_load hO Q
      obtain ⟨h3, h4⟩ := assignY_load h2 Q
      refine ⟨(assignX_frame o Q h).trans (assignY_frame o Q _), h4, ?_, ?_⟩
      · intro Q' hQ
        simp only [Stmt.value, hr, Except.ok.injEq] at hQ
        exact ⟨rfl, by rw [h3, h1, ← hQ]⟩
      · intro e' he; simp [Stmt.value, hr] at he

end Heap
end
end BladeX
