import Verif.Spec.PropellerLife
import Verif.Props.Propeller
import Verif.Props.Export

/-! # C117: what the files of a propeller contain (`bladex/propeller.py`) -/

namespace BladeX
noncomputable section
open Spec Classical

namespace Propeller
variable {σ β τ υ : Type}

theorem shell_ok (b : Blade) (fs : List Face) :
    shell b = .ok fs ↔ ∃ u l r t, b.upper = some u ∧ b.lower = some l ∧ b.root = some r ∧ b.tip = some t ∧ fs = [u, l, r, t] := by
  unfold shell
  rcases h1 : b.upper with _ | u <;> rcases h2 : b.lower with _ | l <;> rcases h4 : b.root with _ | r <;> rcases h3 : b.tip with _ | t <;>
    simp [sewFace, bind, Except.bind, pure, Except.pure, eq_comm]

theorem shell_error (b : Blade) (h : ¬ b.HasFaces) : shell b = .error .typeError := by
  unfold Blade.HasFaces at h
  unfold shell
  rcases h1 : b.upper with _ | u <;> rcases h2 : b.lower with _ | l <;> rcases h4 : b.root with _ | r <;> rcases h3 : b.tip with _ | t <;>
    simp [sewFace, bind, Except.bind, pure, Except.pure, h1, h2, h3, h4] at h ⊢

theorem shells_ok (bs : List Blade) (s : List (List Face)) : bs.mapM shell = .ok s ↔ ShellsOf bs s := by
  rw [Blade.mapM_ok, ShellsOf, List.forall₂_iff_get]
  constructor
  · rintro ⟨h1, h2⟩
    refine ⟨h1.symm, fun i hi hj => (shell_ok _ _).1 (h2 i _ _ (List.getElem?_eq_getElem hi) (List.getElem?_eq_getElem hj))⟩
  · rintro ⟨h1, h2⟩
    refine ⟨h1.symm, fun i a c ha hc => ?_⟩
    obtain ⟨hi, rfl⟩ := List.getElem?_eq_some_iff.1 ha
    obtain ⟨hj, rfl⟩ := List.getElem?_eq_some_iff.1 hc
    exact (shell_ok _ _).2 (h2 i hi hj)

theorem shells_error (bs : List Blade) (h : ∃ b ∈ bs, ¬ b.HasFaces) : bs.mapM shell = .error .typeError := by
  induction bs with
  | nil => obtain ⟨b, hb, _⟩ := h; cases hb
  | cons b bs ih =>
    by_cases hb : b.HasFaces
    · have hr : ∃ b ∈ bs, ¬ b.HasFaces := by
        obtain ⟨c, hc, hn⟩ := h
        rcases List.mem_cons.1 hc with rfl | hc
        · exact absurd hb hn
        · exact ⟨c, hc, hn⟩
      rcases hs : shell b with e | fs
      · exfalso
        obtain ⟨a1, a2, a3, a4⟩ := hb
        obtain ⟨u, hu⟩ := Option.ne_none_iff_exists'.1 a1
        obtain ⟨l, hl⟩ := Option.ne_none_iff_exists'.1 a2
        obtain ⟨t, ht⟩ := Option.ne_none_iff_exists'.1 a3
        obtain ⟨r, hr⟩ := Option.ne_none_iff_exists'.1 a4
        rw [(shell_ok b _).2 ⟨u, l, r, t, hu, hl, hr, ht, rfl⟩] at hs
        cases hs
      · simp [List.mapM_cons, hs, ih hr, bind, Except.bind]
    · simp [List.mapM_cons, shell_error b hb, bind, Except.bind]

theorem has_shells (bs : List Blade) (h : ∀ b ∈ bs, b.HasFaces) : ∃ s, ShellsOf bs s := by
  induction bs with
  | nil => exact ⟨[], .nil⟩
  | cons b bs ih =>
    obtain ⟨s, hs⟩ := ih fun c hc => h c (List.mem_cons_of_mem _ hc)
    obtain ⟨a1, a2, a3, a4⟩ := h b List.mem_cons_self
    obtain ⟨u, hu⟩ := Option.ne_none_iff_exists'.1 a1
    obtain ⟨l, hl⟩ := Option.ne_none_iff_exists'.1 a2
    obtain ⟨t, ht⟩ := Option.ne_none_iff_exists'.1 a3
    obtain ⟨r, hr⟩ := Option.ne_none_iff_exists'.1 a4
    exact ⟨_ :: s, .cons ⟨u, l, r, t, hu, hl, hr, ht, rfl⟩ hs⟩

/-- A solid not made yet. -/
theorem solid_made (K : Kernel σ β τ υ) (p : Propeller τ υ) (sh : Res σ) (h : p.solidCache = none) (t : τ) :
    (p.solid K sh).2 = .ok t ↔ MadeFrom K p.blades sh t := by
  have := (C56_first_access { p with shapeCache := none } K sh h rfl).1 t
  have e : (({ p with shapeCache := none } : Propeller τ υ).solid K sh).2 = (p.solid K sh).2 := by
    simp only [solid, h]
    split <;> rfl
  rw [e] at this
  rw [this]
  unfold MadeFrom
  constructor
  · rintro ⟨s, xs, h1, h2, h3, h4⟩
    refine ⟨s, xs, h1, List.forall₂_iff_get.2 ⟨h2.symm, fun i hi hj => h3 i _ _ (List.getElem?_eq_getElem hi) (List.getElem?_eq_getElem hj)⟩, h4⟩
  · rintro ⟨s, xs, h1, h2, h4⟩
    obtain ⟨g1, g2⟩ := List.forall₂_iff_get.1 h2
    refine ⟨s, xs, h1, g1.symm, fun i b x hb hx => ?_, h4⟩
    obtain ⟨hi, rfl⟩ := List.getElem?_eq_some_iff.1 hb
    obtain ⟨hj, rfl⟩ := List.getElem?_eq_some_iff.1 hx
    exact g2 i hi hj

theorem solid_blades (K : Kernel σ β τ υ) (p : Propeller τ υ) (sh : Res σ) : (p.solid K sh).1.blades = p.blades ∧ (p.solid K sh).1.shapeCache = p.shapeCache := by
  unfold solid
  split
  · exact ⟨rfl, rfl⟩
  · split <;> exact ⟨rfl, rfl⟩

theorem shape_blades (K : Kernel σ β τ υ) (p : Propeller τ υ) (sh : Res σ) : (p.shape K sh).1.blades = p.blades := by
  unfold shape
  split
  · rfl
  · have := solid_blades K p sh
    split <;> rename_i q _ hq <;> rw [hq] at this <;> exact this.1

/-- Nothing made yet. -/
def Fresh (p : Propeller τ υ) : Prop := p.solidCache = none ∧ p.shapeCache = none

/-- The solid `t` was made; the shape is there or not yet. -/
def Holds (K : Kernel σ β τ υ) (t : τ) (p : Propeller τ υ) : Prop := p.solidCache = some t ∧ (p.shapeCache = none ∨ p.shapeCache = some (K.sew t))

theorem Holds.shape {K : Kernel σ β τ υ} {t : τ} {p : Propeller τ υ} (h : Holds K t p) (sh : Res σ) :
    (p.shape K sh).2 = .ok (K.sew t) ∧ Holds K t (p.shape K sh).1 := by
  obtain ⟨h1, h2⟩ := h
  unfold Propeller.shape
  rcases h2 with h2 | h2
  · simp [h2, Propeller.solid, h1, Holds]
  · simp [h2, h1, Holds]

theorem Holds.solid {K : Kernel σ β τ υ} {t : τ} {p : Propeller τ υ} (h : Holds K t p) (sh : Res σ) : Holds K t (p.solid K sh).1 := by
  obtain ⟨h1, h2⟩ := h
  simp [Propeller.solid, h1, Holds, h2]

theorem Fresh.solid {K : Kernel σ β τ υ} {p : Propeller τ υ} (h : Fresh p) (sh : Res σ) :
    (∀ t, MadeFrom K p.blades sh t → (p.solid K sh).2 = .ok t ∧ Holds K t (p.solid K sh).1) ∧
    ((∀ t, ¬ MadeFrom K p.blades sh t) → ∃ e, p.solid K sh = (p, .error e)) := by
  constructor
  · intro t ht
    have e := (solid_made K p sh h.1 t).2 ht
    refine ⟨e, ?_⟩
    unfold Propeller.solid at e ⊢
    rw [h.1] at e ⊢
    simp only at e ⊢
    split at e
    · obtain rfl := Except.ok.inj e
      exact ⟨rfl, Or.inl h.2⟩
    · cases e
  · intro hn
    rcases hs : p.solid K sh with ⟨q, (e | t)⟩
    · have := (C56_first_access p K sh h.1 h.2).2.1 e (by rw [hs])
      rw [hs] at this
      exact ⟨e, by rw [← this]⟩
    · exact absurd ((solid_made K p sh h.1 t).1 (by rw [hs])) (hn t)

theorem Fresh.shape {K : Kernel σ β τ υ} {p : Propeller τ υ} (h : Fresh p) (sh : Res σ) :
    (∀ t, MadeFrom K p.blades sh t → (p.shape K sh).2 = .ok (K.sew t) ∧ Holds K t (p.shape K sh).1) ∧
    ((∀ t, ¬ MadeFrom K p.blades sh t) → ∃ e, p.shape K sh = (p, .error e)) := by
  obtain ⟨a, b⟩ := h.solid (K := K) sh
  constructor
  · intro t ht
    obtain ⟨h1, h2⟩ := a t ht
    unfold Propeller.shape
    rw [h.2]
    rcases hs : p.solid K sh with ⟨q, (e | t')⟩
    · rw [hs] at h1; cases h1
    · rw [hs] at h1 h2
      obtain rfl := Except.ok.inj h1
      exact ⟨rfl, h2.1, Or.inr rfl⟩
  · intro hn
    obtain ⟨e, he⟩ := b hn
    refine ⟨e, ?_⟩
    unfold Propeller.shape
    rw [h.2, he]

theorem step_export_error (K : Kernel σ β τ υ) (w : World τ υ) (sh : Res σ) (wr : Bool) (path : Str) {p : Propeller τ υ} {e : PyErr}
    (h : w.prop.shape K sh = (p, .error e)) : w.step K (.export sh wr path) = ({ w with prop := p }, .error e) := by
  simp only [World.step, h]

theorem step_export_ok (K : Kernel σ β τ υ) (w : World τ υ) (sh : Res σ) (wr : Bool) (path : Str) {p : Propeller τ υ} {s : υ}
    (h : w.prop.shape K sh = (p, .ok s)) : w.step K (.export sh wr path) =
      ({ prop := p, files := if wr then fun q => if q = path then some (.shape s) else w.files q else w.files }, .ok ()) := by
  simp only [World.step, h]

theorem run_append (K : Kernel σ β τ υ) (w : World τ υ) (a c : List (Event σ)) : w.run K (a ++ c) = (w.run K a).run K c := by
  induction a generalizing w with
  | nil => rfl
  | cons e a ih => exact ih _

theorem step_blades (K : Kernel σ β τ υ) (w : World τ υ) (e : Event σ) : (w.step K e).1.prop.blades = bladesAfter w.prop.blades [e] := by
  cases e with
  | change f => rfl
  | solid sh => exact (solid_blades K w.prop sh).1
  | shape sh => exact shape_blades K w.prop sh
  | «export» sh wr path =>
    have := shape_blades K w.prop sh
    rcases hs : w.prop.shape K sh with ⟨q, (e | s)⟩ <;> rw [hs] at this
    · rw [step_export_error K w sh wr path hs]; exact this
    · rw [step_export_ok K w sh wr path hs]; exact this
  | tmp wr path => rfl

theorem bladesAfter_cons (bs : List Blade) (e : Event σ) (es : List (Event σ)) : bladesAfter bs (e :: es) = bladesAfter (bladesAfter bs [e]) es := by
  cases e <;> rfl

theorem run_blades (K : Kernel σ β τ υ) (w : World τ υ) (es : List (Event σ)) : (w.run K es).prop.blades = bladesAfter w.prop.blades es := by
  induction es generalizing w with
  | nil => rfl
  | cons e es ih => rw [World.run, ih, step_blades, ← bladesAfter_cons]

theorem step_files (K : Kernel σ β τ υ) (w : World τ υ) (e : Event σ) (path : Str) (h : writesTo e ≠ some path) :
    (w.step K e).1.files path = w.files path := by
  cases e with
  | change f => rfl
  | solid sh => rfl
  | shape sh => rfl
  | «export» sh wr q =>
    rcases hs : w.prop.shape K sh with ⟨p, (e | s)⟩
    · rw [step_export_error K w sh wr q hs]
    · rw [step_export_ok K w sh wr q hs]
      cases wr
      · rfl
      · have : path ≠ q := by rintro rfl; exact h rfl
        simp [this]
  | tmp wr q =>
    simp only [World.step, tmpStl]
    split
    · rfl
    · cases wr
      · rfl
      · have : path ≠ q := by rintro rfl; exact h rfl
        simp [this]

theorem run_files (K : Kernel σ β τ υ) (w : World τ υ) (es : List (Event σ)) (path : Str) (h : ∀ e ∈ es, writesTo e ≠ some path) :
    (w.run K es).files path = w.files path := by
  induction es generalizing w with
  | nil => rfl
  | cons e es ih => rw [World.run, ih _ fun e' h' => h e' (List.mem_cons_of_mem _ h'), step_files K w e path (h e List.mem_cons_self)]

theorem Fresh.step {K : Kernel σ β τ υ} {w : World τ υ} (h : Fresh w.prop) (e : Event σ)
    (hn : ∀ sh, needsSolid e = some sh → ∀ t, ¬ MadeFrom K w.prop.blades sh t) : Fresh (w.step K e).1.prop := by
  cases e with
  | change f => exact h
  | solid sh =>
    obtain ⟨e, he⟩ := (h.solid (K := K) sh).2 (hn sh rfl)
    simp only [World.step, he]; exact h
  | shape sh =>
    obtain ⟨e, he⟩ := (h.shape (K := K) sh).2 (hn sh rfl)
    simp only [World.step, he]; exact h
  | «export» sh wr q =>
    obtain ⟨e, he⟩ := (h.shape (K := K) sh).2 (hn sh rfl)
    simp only [World.step, he]; exact h
  | tmp wr q => exact h

theorem Fresh.run {K : Kernel σ β τ υ} {w : World τ υ} (h : Fresh w.prop) (es : List (Event σ))
    (hn : ∀ a e c sh, es = a ++ e :: c → needsSolid e = some sh → ∀ t, ¬ MadeFrom K (bladesAfter w.prop.blades a) sh t) : Fresh (w.run K es).prop := by
  induction es generalizing w with
  | nil => exact h
  | cons e es ih =>
    refine ih (h.step e fun sh hs t => hn [] e es sh rfl hs t) fun a e' c sh he hs t => ?_
    rw [step_blades, ← bladesAfter_cons]
    exact hn (e :: a) e' c sh (by rw [he]; rfl) hs t

theorem Holds.step {K : Kernel σ β τ υ} {t : τ} {w : World τ υ} (h : Holds K t w.prop) (e : Event σ) : Holds K t (w.step K e).1.prop := by
  cases e with
  | change f => exact h
  | solid sh => exact h.solid sh
  | shape sh => exact (h.shape sh).2
  | «export» sh wr q =>
    obtain ⟨h1, h2⟩ := h.shape sh
    rcases hs : w.prop.shape K sh with ⟨p, (e | s)⟩ <;> rw [hs] at h2
    · rw [step_export_error K w sh wr q hs]; exact h2
    · rw [step_export_ok K w sh wr q hs]; exact h2
  | tmp wr q => exact h

theorem Holds.run {K : Kernel σ β τ υ} {t : τ} {w : World τ υ} (h : Holds K t w.prop) (es : List (Event σ)) : Holds K t (w.run K es).prop := by
  induction es generalizing w with
  | nil => exact h
  | cons e es ih => exact ih (h.step e)

theorem Fresh.makes {K : Kernel σ β τ υ} {w : World τ υ} (h : Fresh w.prop) (e : Event σ) {sh : Res σ} (hs : needsSolid e = some sh) {t : τ}
    (ht : MadeFrom K w.prop.blades sh t) : Holds K t (w.step K e).1.prop := by
  cases e with
  | change f => cases hs
  | solid sh' => cases hs; exact ((h.solid (K := K) sh).1 t ht).2
  | shape sh' => cases hs; exact ((h.shape (K := K) sh).1 t ht).2
  | «export» sh' wr q =>
    cases hs
    have := ((h.shape (K := K) sh).1 t ht).2
    rcases hx : w.prop.shape K sh with ⟨p, (e | s)⟩ <;> rw [hx] at this
    · rw [step_export_error K w sh wr q hx]; exact this
    · rw [step_export_ok K w sh wr q hx]; exact this
  | tmp wr q => cases hs

/-- **C117** `tmp_stl`: if every blade has its four faces it never raises and the file gets, blade by blade, the upper, the lower, the root and the tip face as they
are now, without the shaft (an empty compound without blades); otherwise it raises `TypeError` and no file changes. -/
theorem C117_tmp_stl (wr : Bool) (fs : Str → Option (CadFile υ)) (path : Str) (p : Propeller τ υ) :
    ((∀ b ∈ p.blades, b.HasFaces) → ∃ fs' s, p.tmpStl wr fs path = (fs', .ok ()) ∧ ShellsOf p.blades s ∧ Written wr fs fs' path (.shells s)) ∧
    ((∃ b ∈ p.blades, ¬ b.HasFaces) → p.tmpStl wr fs path = (fs, .error .typeError)) := by
  constructor
  · intro h
    obtain ⟨s, hs⟩ := has_shells _ h
    refine ⟨_, s, by rw [tmpStl, (shells_ok _ _).2 hs], hs, ?_⟩
    cases wr
    · simp [Written]
    · simp only [Written, if_true]
      exact ⟨by simp, by simp, fun q hq => by simp [hq]⟩
  · intro h
    rw [tmpStl, shells_error _ h]

/-- **C117** `tmp_stl` follows the blades: after any session, a file last written by `tmp_stl` holds the shells of the blades as they were at that call. -/
theorem C117_tmp_current (K : Kernel σ β τ υ) (w : World τ υ) (a c : List (Event σ)) (path : Str) (s : List (List Face))
    (hs : ShellsOf (bladesAfter w.prop.blades a) s) (hc : ∀ e ∈ c, writesTo e ≠ some path) :
    (w.run K (a ++ .tmp true path :: c)).files path = some (.shells s) := by
  rw [run_append, World.run, run_files K _ c path hc]
  have hb := run_blades K w a
  rw [World.step, tmpStl, hb, (shells_ok _ _).2 hs]
  simp

/-- **C117** `export_iges` and `export_stl` do not: in a session with a new propeller let `e₁` be the first call that needs the solid and can make one, from the blades
of that moment. Every later successful or unsuccessful change of blades or shaft is ignored: a file last written by an export from then on holds the shape sewn from
that first solid. -/
theorem C117_export_first (K : Kernel σ β τ υ) (w : World τ υ) (h : w.prop.solidCache = none ∧ w.prop.shapeCache = none) (a₁ : List (Event σ)) (e₁ : Event σ)
    (a₂ c : List (Event σ)) (sh₁ sh : Res σ) (path : Str) (t : τ)
    (hn : ∀ a e d s, a₁ = a ++ e :: d → needsSolid e = some s → ∀ t, ¬ MadeFrom K (bladesAfter w.prop.blades a) s t)
    (hs : needsSolid e₁ = some sh₁) (ht : MadeFrom K (bladesAfter w.prop.blades a₁) sh₁ t) (hc : ∀ e ∈ c, writesTo e ≠ some path) :
    (w.run K (a₁ ++ e₁ :: a₂ ++ .export sh true path :: c)).files path = some (.shape (K.sew t)) ∧
    (e₁ = .export sh₁ true path → (w.run K (a₁ ++ e₁ :: c)).files path = some (.shape (K.sew t))) := by
  have hf : Fresh (w.run K a₁).prop := Fresh.run h a₁ hn
  have hb := run_blades K w a₁
  constructor
  · have hh := ((hf.makes e₁ hs (by rw [hb]; exact ht)).run a₂).shape sh
    rw [run_append, run_append, World.run, World.run, run_files K _ c path hc]
    generalize ((w.run K a₁).step K e₁).1.run K a₂ = v at hh ⊢
    rcases hx : v.prop.shape K sh with ⟨p, (e | s)⟩
    · rw [hx] at hh; cases hh.1
    · rw [step_export_ok K v sh true path hx]
      rw [hx] at hh
      obtain rfl := Except.ok.inj hh.1
      simp
  · rintro rfl
    have hh := (hf.shape (K := K) sh₁).1 t (by rw [hb]; exact ht)
    rw [run_append, World.run, run_files K _ c path hc]
    generalize w.run K a₁ = v at hh ⊢
    rcases hx : v.prop.shape K sh₁ with ⟨p, (e | s)⟩
    · rw [hx] at hh; cases hh.1
    · rw [step_export_ok K v sh₁ true path hx]
      rw [hx] at hh
      obtain rfl := Except.ok.inj hh.1
      simp

/-- **C117** Files that no call names (with a writable path) keep their content, and a call that raises changes no file. -/
theorem C117_other_files (K : Kernel σ β τ υ) (w : World τ υ) (es : List (Event σ)) (path : Str) :
    ((∀ e ∈ es, writesTo e ≠ some path) → (w.run K es).files path = w.files path) ∧
    ∀ e x, (w.step K e).2 = .error x → (w.step K e).1.files = w.files := by
  refine ⟨run_files K w es path, fun e x he => ?_⟩
  cases e with
  | change f => rfl
  | solid sh => rfl
  | shape sh => rfl
  | «export» sh wr q =>
    rcases hs : w.prop.shape K sh with ⟨p, (e | s)⟩
    · rw [step_export_error K w sh wr q hs]
    · rw [step_export_ok K w sh wr q hs] at he; cases he
  | tmp wr q =>
    simp only [World.step, tmpStl] at he ⊢
    split at he
    · rfl
    · cases he

/-- **C117** The file `tmp_stl` writes for a new propeller with `n` blades: `n` shells, the `i`-th holding the four faces of the built blade turned by `2 pi i / n` about
the `x` axis; turning the whole file by `2 pi / n` gives the same shells, one place further. -/
theorem C117_new (occ : Face → Bool) (b B : Blade) (n : Int) (refl : Bool) (p : Propeller τ υ) (h : Propeller.new occ b n refl = (B, .ok p))
    (fs : Str → Option (CadFile υ)) (path : Str) :
    ∃ fs' s u l r t, p.tmpStl true fs path = (fs', .ok ()) ∧ fs' path = some (.shells s) ∧ s.length = n.toNat ∧ B.upper = some u ∧ B.lower = some l ∧
      B.root = some r ∧ B.tip = some t ∧
      (∀ (i : Nat) (S : List Face), s[i]? = some S → S = [u, l, r, t].map fun F => F.map (·.map (rotX (2 * Real.pi * i / n)))) ∧
      ∀ (i : Nat) (S S' : List Face), i < n.toNat → s[i]? = some S → s[(i + 1) % n.toNat]? = some S' →
        S.map (fun F => F.map (·.map (rotX (2 * Real.pi / n)))) = S' := by
  have hb : b.build occ refl = (B, .ok ()) := by
    rcases hx : b.build occ refl with ⟨B', (e | u)⟩
    · rw [((C55_blades occ b B' n refl).1 e hx)] at h
      cases (Prod.mk.inj h).2
    · obtain ⟨p', h', _⟩ := (C55_blades (τ := τ) (υ := υ) occ b B' n refl).2 hx
      rw [h] at h'
      rw [(Prod.mk.inj h').1]
  obtain ⟨p', h', hlen, _, _, hall⟩ := (C55_blades (τ := τ) (υ := υ) occ b B n refl).2 hb
  obtain rfl : p = p' := by rw [h] at h'; exact Except.ok.inj (Prod.mk.inj h').2
  obtain ⟨a1, a2, a3, a4⟩ := (Blade.build_has hb).2
  obtain ⟨u, hu⟩ := Option.ne_none_iff_exists'.1 a1
  obtain ⟨l, hl⟩ := Option.ne_none_iff_exists'.1 a2
  obtain ⟨t, ht⟩ := Option.ne_none_iff_exists'.1 a3
  obtain ⟨r, hr⟩ := Option.ne_none_iff_exists'.1 a4
  have hfaces : ∀ bi ∈ p.blades, bi.HasFaces := by
    intro bi hbi
    obtain ⟨i, hi⟩ := List.getElem?_of_mem hbi
    obtain ⟨-, ⟨f1, f2, f3, f4⟩, -⟩ := hall i bi hi
    refine ⟨?_, ?_, ?_, ?_⟩
    · rw [f1, hu]; simp
    · rw [f2, hl]; simp
    · rw [f3, ht]; simp
    · rw [f4, hr]; simp
  obtain ⟨fs', s, h1, h2, h3⟩ := (C117_tmp_stl true fs path p).1 hfaces
  obtain ⟨g1, g2⟩ := List.forall₂_iff_get.1 h2
  have shells : ∀ (i : Nat) (S : List Face), s[i]? = some S → S = [u, l, r, t].map fun F => F.map (·.map (rotX (2 * Real.pi * i / n))) := by
    intro i S hS
    obtain ⟨hi, rfl⟩ := List.getElem?_eq_some_iff.1 hS
    have hip : i < p.blades.length := by omega
    obtain ⟨-, ⟨f1, f2, f3, f4⟩, -⟩ := hall i _ (List.getElem?_eq_getElem hip)
    obtain ⟨u', l', r', t', e1, e2, e3, e4, e5⟩ := g2 i hip hi
    simp only [List.get_eq_getElem] at e1 e2 e3 e4 e5
    rw [f1, hu] at e1; rw [f2, hl] at e2; rw [f4, hr] at e3; rw [f3, ht] at e4
    rw [e5, ← Option.some.inj e1, ← Option.some.inj e2, ← Option.some.inj e3, ← Option.some.inj e4]
    rfl
  refine ⟨fs', s, u, l, r, t, h1, ?_, by omega, hu, hl, hr, ht, shells, ?_⟩
  · simpa [Written] using h3 |>.1
  · intro i S S' hi hS hS'
    rw [shells i S hS, shells _ S' hS', List.map_map]
    refine List.map_congr_left fun F _ => ?_
    simp only [Function.comp, List.map_map]
    refine List.map_congr_left fun row _ => ?_
    simp only [Function.comp, List.map_map]
    refine List.map_congr_left fun q _ => ?_
    simp only [Function.comp]
    rw [(C49_rotations _ _ q q).1.2.2.1]
    have hn : 0 < n := by omega
    have hn0 : (n : ℝ) ≠ 0 := by exact_mod_cast hn.ne'
    have hnn : ((n.toNat : ℕ) : ℝ) = (n : ℝ) := by
      rw [← Int.cast_natCast, Int.toNat_of_nonneg hn.le]
    rcases Nat.lt_or_ge (i + 1) n.toNat with hlt | hge
    · rw [Nat.mod_eq_of_lt hlt]
      congr 1; push_cast; ring
    · have e : i + 1 = n.toNat := by omega
      have e' : (i : ℝ) + 1 = n := by rw [← hnn, ← e]; push_cast; ring
      rw [e, Nat.mod_self]
      have := Propeller.rotX_period 0 1 q
      rw [show (0 : ℝ) + ((1 : ℤ) : ℝ) * (2 * Real.pi) = 2 * Real.pi / n + 2 * Real.pi * i / n by
        have : 2 * Real.pi / n + 2 * Real.pi * i / n = 2 * Real.pi * ((i : ℝ) + 1) / n := by ring
        rw [this, e']; field_simp; push_cast; ring] at this
      rw [add_comm, this]
      simp

/-- Not vacuous: a propeller with five blades is exported, all blades are taken out of it, it is exported again (the shaft now failing) and written with `tmp_stl`. The
second export still holds the five blades, the file of `tmp_stl` holds none. -/
example : ∃ (p : Propeller (List (List Face)) (List (List Face))) (B : Blade), Propeller.new (fun _ => true) Sample.blade2 5 true = (B, .ok p) ∧
    ∃ K : Kernel Unit (List Face) (List (List Face)) (List (List Face)), ∃ s : List (List Face), s.length = 5 ∧
      let w := World.run K ⟨p, fun _ => none⟩ [.export (.ok ()) true c!"a.stl", .change (fun _ => []), .export (.error .exception) true c!"b.stl",
        .tmp true c!"c.stl"]
      w.files c!"a.stl" = some (.shape s) ∧ w.files c!"b.stl" = some (.shape s) ∧ w.files c!"c.stl" = some (.shells []) := by
  obtain ⟨B, h, hF, _⟩ := Sample.blade2_builds true
  obtain ⟨p, hp, hlen, h1, h2, hall⟩ := (C55_blades (τ := List (List Face)) (υ := List (List Face)) (fun _ => true) Sample.blade2 B 5 true).2 h
  obtain ⟨K, hK⟩ : ∃ K : Kernel Unit (List Face) (List (List Face)) (List (List Face)),
      K = { assemble := fun f => some f, fuse := fun _ xs => some xs, sew := id } := ⟨_, rfl⟩
  obtain ⟨a1, a2, a3, a4⟩ := hF
  obtain ⟨xs, hx⟩ : ∃ xs, List.Forall₂ (fun (b : Blade) x => ∃ u l t r, b.upper = some u ∧ b.lower = some l ∧ b.tip = some t ∧ b.root = some r ∧
      K.assemble [u, l, t, r] = some x) p.blades xs := by
    have hfaces : ∀ bi ∈ p.blades, bi.HasFaces := by
      intro bi hbi
      obtain ⟨i, hi⟩ := List.getElem?_of_mem hbi
      obtain ⟨-, ⟨f1, f2, f3, f4⟩, -⟩ := hall i bi hi
      refine ⟨?_, ?_, ?_, ?_⟩
      · rw [f1]; simpa using a1
      · rw [f2]; simpa using a2
      · rw [f3]; simpa using a3
      · rw [f4]; simpa using a4
    generalize p.blades = bs at hfaces
    induction bs with
    | nil => exact ⟨[], .nil⟩
    | cons b bs ih =>
      obtain ⟨xs, hxs⟩ := ih fun c hc => hfaces c (List.mem_cons_of_mem _ hc)
      obtain ⟨c1, c2, c3, c4⟩ := hfaces b List.mem_cons_self
      obtain ⟨u, hu⟩ := Option.ne_none_iff_exists'.1 c1
      obtain ⟨l, hl⟩ := Option.ne_none_iff_exists'.1 c2
      obtain ⟨t, ht⟩ := Option.ne_none_iff_exists'.1 c3
      obtain ⟨r, hr⟩ := Option.ne_none_iff_exists'.1 c4
      exact ⟨_ :: xs, .cons ⟨u, l, t, r, hu, hl, ht, hr, by rw [hK]⟩ hxs⟩
  have hm : MadeFrom K p.blades (.ok ()) xs := ⟨(), xs, rfl, hx, by rw [hK]⟩
  have hs : K.sew xs = xs := by rw [hK]; rfl
  refine ⟨p, B, hp, K, xs, by rw [← hx.length_eq]; simpa using hlen, ?_⟩
  intro w
  have e1 := (C117_export_first K ⟨p, fun _ => none⟩ ⟨h1, h2⟩ [] (.export (.ok ()) true c!"a.stl") []
    [.change (fun _ => []), .export (.error .exception) true c!"b.stl", .tmp true c!"c.stl"] (.ok ()) (.ok ()) c!"a.stl" xs
    (by intro a e d s h; simp at h) rfl hm (by simp [writesTo])).2 rfl
  have e2 := (C117_export_first K ⟨p, fun _ => none⟩ ⟨h1, h2⟩ [] (.export (.ok ()) true c!"a.stl") [.change (fun _ => [])]
    [.tmp true c!"c.stl"] (.ok ()) (.error .exception) c!"b.stl" xs
    (by intro a e d s h; simp at h) rfl hm (by simp [writesTo])).1
  have e3 := C117_tmp_current K ⟨p, fun _ => none⟩ [.export (.ok ()) true c!"a.stl", .change (fun _ => []), .export (.error .exception) true c!"b.stl"] []
    c!"c.stl" [] .nil (by simp)
  rw [hs] at e1 e2
  exact ⟨e1, e2, e3⟩

end Propeller
end
end BladeX
