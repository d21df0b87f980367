import Verif.Spec.Redesign
import Verif.Props.CustomRoundtrip
import Verif.Props.Blade
import Verif.Lemmas.ProfileLife

/-! # C120: redesigning a blade through the parameters of its sections (tutorial 6) -/

namespace BladeX
noncomputable section
open Spec Classical Custom

theorem redesign_params (p : Params) (dt dc : ℝ) :
    (Redesignable p dt dc → checkParameters (redesignKw p dt dc) = .ok ⟨p.chordLength, p.chordPerc, p.camberMax * dc, p.camberPerc, p.thicknessMax * dt, p.thicknessPerc⟩) ∧
    (¬ Redesignable p dt dc → checkParameters (redesignKw p dt dc) = .error .valueError) := by
  constructor
  · rintro ⟨h1, h2, h3, h4⟩
    simp [checkParameters, redesignKw, require, bind, Except.bind, pure, Except.pure, h1, h2, not_lt.2 h3, not_lt.2 h4]
  · intro h
    simp only [checkParameters, redesignKw, require, bind, Except.bind, pure, Except.pure, throw, throwThe, MonadExceptOf.throw]
    simp only [Redesignable] at h
    by_cases c3 : p.camberMax * dc < 0
    · simp [c3]
    · by_cases c4 : p.thicknessMax * dt < 0
      · simp [c3, c4]
      · by_cases c1 : p.camberPerc.length = p.chordPerc.length
        · have c2 : p.thicknessPerc.length ≠ p.chordPerc.length := fun c2 => h ⟨c1, c2, not_lt.1 c3, not_lt.1 c4⟩
          simp [c3, c4, c1, c2]
        · simp [c3, c4, c1]

/-- **C120** The new section: accepted exactly if there are as many camber and thickness as chord percentages and neither maximum has become negative (`ValueError`
otherwise); it then has the same abscissae, `dc` times the camber and `dt` times the thickness at every station, and keeps the multiplied parameters. -/
theorem C120_section (american : Profile → Res Arr) (p : Params) (dt dc : ℝ) :
    (Redesignable p dt dc → ∃ Q, ctor american (redesignKw p dt dc) = .ok Q ∧ Redesigned p dt dc Q ∧ Q.Uniform ∧
      Q.par = some ⟨p.chordLength, p.chordPerc, p.camberMax * dc, p.camberPerc, p.thicknessMax * dt, p.thicknessPerc⟩ ∧ Q.xdown = Q.xup) ∧
    (¬ Redesignable p dt dc → ctor american (redesignKw p dt dc) = .error .valueError) := by
  have hk1 : ¬ (redesignKw p dt dc).keys.toFinset = coordKeys := by
    show ¬ ["chord_perc", "chord_len", "thickness_max", "camber_max", "thickness_perc", "camber_perc"].toFinset = coordKeys
    unfold coordKeys
    decide
  have hk2 : (redesignKw p dt dc).keys.toFinset = paramKeys := by
    show ["chord_perc", "chord_len", "thickness_max", "camber_max", "thickness_perc", "camber_perc"].toFinset = paramKeys
    unfold paramKeys
    decide
  constructor
  · intro h
    obtain ⟨h1, h2, -, -⟩ := id h
    rw [ctor, if_neg hk1, if_pos hk2, (redesign_params p dt dc).1 h]
    refine ⟨_, (show (_ : Res Profile) = _ from british_eq _ _ (by simp only; omega)), ⟨?_, ?_, ?_⟩, ?_, rfl, rfl⟩
    · simp [Profile.upper, h1, h2]
    · simp [Profile.lower, h1, h2]
    · intro j x c t hx hc ht
      simp only [Profile.upper, Profile.lower, List.getElem?_zip_eq_some, List.getElem?_map, List.getElem?_zipWith, hx, hc, ht, Option.map_some]
      constructor <;> refine ⟨trivial, ?_⟩ <;> simp only [Option.some.injEq] <;> ring
    · simp [Profile.Uniform, h1, h2]
  · intro h
    rw [ctor, if_neg hk1, if_pos hk2, (redesign_params p dt dc).2 h]
    rfl

/-- A statement that keeps the parameters. -/
def KeepsPar (f : Profile → Res Profile) : Prop := ∀ P Q p, P.par = some p → f P = .ok Q → Q.par = some p

theorem keeps_steps (b : Blade) (refl : Bool) (i : Nat) : ∀ f ∈ b.sectionSteps refl i, KeepsPar f := by
  have foil : ∀ (P : Profile) (p : Params), P.par = some p → ∃ s : Foil, s.view = P :=
    fun P p h => ⟨⟨P.xup, P.xdown, P.yup, P.ydown, p, P.chordLine, P.camberLine, none, none⟩, by cases P; simp_all [Foil.view]⟩
  have bnd : ∀ {α : Type} (x : Res α) (k : α → Res Profile) (Q : Profile), (x >>= k) = .ok Q → ∃ a, x = .ok a ∧ k a = .ok Q := by
    intro α x k Q h
    rcases x with e | a
    · cases h
    · exact ⟨a, rfl, h⟩
  intro f hf
  simp only [Blade.sectionSteps, List.mem_cons, List.not_mem_nil, or_false] at hf
  rcases hf with rfl | rfl | rfl | rfl | rfl | rfl | rfl | rfl
  · intro P Q p hp h
    obtain ⟨a, -, h⟩ := bnd _ _ _ h
    rw [← Except.ok.inj h]; exact hp
  · intro P Q p hp h
    obtain ⟨a, -, h⟩ := bnd _ _ _ h
    obtain ⟨s, rfl⟩ := foil P p hp
    rcases Foil.scale_run a true s with ⟨_, _, _, he, _⟩ | ⟨Q', hq, hk, _⟩
    · rw [h] at he; cases he
    · rw [h] at hq; rw [Except.ok.inj hq, hk, hp]
  · intro P Q p hp h
    rcases ht : b.thickness with _ | t
    · simp only [ht] at h; rw [← Except.ok.inj h]; exact hp
    · simp only [ht] at h
      obtain ⟨a, -, h⟩ := bnd _ _ _ h
      obtain ⟨s, rfl⟩ := foil P p hp
      rcases Foil.setThicknessMax_run a s with ⟨_, _, he⟩ | ⟨Q', _, hq, hk⟩
      · rw [h] at he; cases he
      · rw [h] at hq; rw [Except.ok.inj hq, hk, hp]
  · intro P Q p hp h
    rcases hc : b.camber with _ | c
    · simp only [hc] at h; rw [← Except.ok.inj h]; exact hp
    · simp only [hc] at h
      split at h
      · obtain ⟨a, -, h⟩ := bnd _ _ _ h
        obtain ⟨s, rfl⟩ := foil P p hp
        rcases Foil.setCamberLineMax_run a s with ⟨_, _, _, he, _⟩ | ⟨_, Q', _, _, hq, hk⟩
        · rw [h] at he; cases he
        · rw [h] at hq; rw [Except.ok.inj hq, hk, hp]
      · rw [← Except.ok.inj h]; exact hp
  · intro P Q p hp h
    rw [← Except.ok.inj h]
    split <;> exact hp
  · intro P Q p hp h
    obtain ⟨_, -, h⟩ := bnd _ _ _ h
    obtain ⟨_, -, h⟩ := bnd _ _ _ h
    obtain ⟨_, -, h⟩ := bnd _ _ _ h
    rw [Foil.rotate_par h]; exact hp
  · intro P Q p hp h
    obtain ⟨_, -, h⟩ := bnd _ _ _ h
    obtain ⟨_, -, h⟩ := bnd _ _ _ h
    rw [← Except.ok.inj h]; exact hp
  · intro P Q p hp h
    obtain ⟨_, -, h⟩ := bnd _ _ _ h
    obtain ⟨_, -, h⟩ := bnd _ _ _ h
    obtain ⟨_, -, h⟩ := bnd _ _ _ h
    obtain ⟨_, -, h⟩ := bnd _ _ _ h
    obtain ⟨_, -, h⟩ := bnd _ _ _ h
    rw [← Except.ok.inj h]; exact hp

theorem keeps_run (fs : List (Profile → Res Profile)) (hf : ∀ f ∈ fs, KeepsPar f) (P : Profile) (p : Params) (hp : P.par = some p) :
    (Blade.runSteps fs P).1.par = some p := by
  induction fs generalizing P with
  | nil => exact hp
  | cons f fs ih =>
    rw [Blade.runSteps]
    rcases h : f P with e | Q
    · exact hp
    · exact ih (fun g hg => hf g (List.mem_cons_of_mem _ hg)) Q (hf f List.mem_cons_self P Q p hp h)

theorem keeps_loop (b : Blade) (refl : Bool) (Ps : List Profile) : ∀ (k i : Nat) (P : Profile) (p : Params), Ps[i]? = some P → P.par = some p →
    ∃ Q, (b.sectionLoop refl k Ps).1[i]? = some Q ∧ Q.par = some p := by
  induction Ps with
  | nil => intro k i P p h; simp at h
  | cons R Ps ih =>
    intro k i P p h hp
    rw [Blade.sectionLoop]
    have hr := keeps_run _ (keeps_steps b refl k) R
    rcases hs : Blade.runSteps (b.sectionSteps refl k) R with ⟨Q, (e | u)⟩
    · simp only
      rw [hs] at hr
      cases i with
      | zero =>
        obtain rfl : R = P := by simpa using h
        exact ⟨Q, rfl, hr p hp⟩
      | succ i => exact ⟨P, by simpa using h, hp⟩
    · simp only
      rw [hs] at hr
      cases i with
      | zero =>
        obtain rfl : R = P := by simpa using h
        exact ⟨Q, rfl, hr p hp⟩
      | succ i =>
        obtain ⟨Q', h1, h2⟩ := ih (k + 1) i P p (by simpa using h) hp
        exact ⟨Q', by simpa using h1, h2⟩

/-- **C120** Transforming a blade does not touch the parameters of its sections: after `apply_transformations` (also one that failed half-way, and with given thickness or
camber) they are those the section objects had before, although the coordinates have been scaled, rotated and moved. -/
theorem C120_parameters (b : Blade) (refl : Bool) (i : Nat) (P : Profile) (p : Params) (h : b.sections[i]? = some P) (hp : P.par = some p) :
    ∃ Q, (b.applyTransformations refl).1.sections[i]? = some Q ∧ Q.par = some p := by
  obtain ⟨Q, h1, h2⟩ := keeps_loop b refl b.sections 0 i P p h hp
  refine ⟨Q, ?_, h2⟩
  rw [Blade.applyTransformations]
  split
  · rename_i hs; rw [hs] at h1; exact h1
  · rename_i hs
    rw [hs] at h1
    split <;> exact h1

theorem loop_length (b : Blade) (refl : Bool) (Ps : List Profile) : ∀ k : Nat, (b.sectionLoop refl k Ps).1.length = Ps.length := by
  induction Ps with
  | nil => intro k; rfl
  | cons R Ps ih =>
    intro k
    rw [Blade.sectionLoop]
    rcases hs : Blade.runSteps (b.sectionSteps refl k) R with ⟨Q, (e | u)⟩
    · rfl
    · simp [ih (k + 1)]

theorem apply_length (b : Blade) (refl : Bool) : (b.applyTransformations refl).1.sections.length = b.sections.length := by
  have h1 := loop_length b refl b.sections 0
  rw [Blade.applyTransformations]
  split
  · rename_i hs; rw [hs] at h1; exact h1
  · rename_i hs
    rw [hs] at h1
    split <;> exact h1

theorem sameX_reference {Q : Profile} (hU : Q.Uniform) (hx : Q.xdown = Q.xup) (h0 : Q.xup ≠ []) : ∃ ref, Q.referencePoint = .ok ref := by
  obtain ⟨xu, xd, yu, yd, par, cl, cm⟩ := Q
  simp only at hx h0
  subst hx
  obtain ⟨h1, h2, h3⟩ := hU
  simp only at h1 h2 h3
  have e : ∀ (l : Arr), l.length = xd.length → ∃ a b, getFirst l = .ok a ∧ getLast l = .ok b := by
    intro l hl
    have hl0 : l ≠ [] := by rintro rfl; exact h0 (List.length_eq_zero_iff.1 hl.symm)
    rcases l with _ | ⟨a, l⟩
    · exact absurd rfl hl0
    · exact ⟨a, (a :: l).getLast (by simp), rfl, by simp [getLast, List.getLast?_eq_some_getLast]⟩
  obtain ⟨a, b, ha, hb⟩ := e xd rfl
  obtain ⟨c, d, hc, hd⟩ := e yu (by omega)
  obtain ⟨p, q, -, hq⟩ := e yd (by omega)
  simp only [Profile.referencePoint, Profile.updateEdges, ha, hb, hc, hd, hq, bind, Except.bind, pure, Except.pure, sub_self, abs_zero]
  rw [if_neg (by norm_num), if_neg (by norm_num)]
  by_cases hdq : d = q
  · rw [if_pos hdq]; exact ⟨_, rfl⟩
  · rw [if_neg hdq]; exact ⟨_, rfl⟩

/-- **C120** The blade of tutorial 6: the sections of a blade with `n` stations each are redesigned from their parameters, taken before or after `apply_transformations`
(whatever that did), and put on a blade with the chords multiplied by `fc` and the pitch by `fp`. The new blade is accepted, can be transformed if no radius is zero, and
at every station `j` of every section `i` its upper and lower points are `|fc chord| dt thickness` apart, the point half-way between them being the camber point
`dc camber` of the new section at its place on the blade. -/
theorem C120_blade (american : Profile → Res Arr) (b : Blade) (hW : b.WellFormed) (hne : b.sections ≠ []) (before refl refl₀ : Bool) (n : Nat) (hn : n ≠ 0)
    (dt dc fc fp : ℝ) (hp : ∀ P ∈ b.sections, ∃ p, P.par = some p ∧ p.chordPerc.length = n ∧ Redesignable p dt dc) (hr : ∀ r ∈ b.radii, r ≠ 0) :
    ∃ (Qs : List Profile) (B B' : Blade),
      List.Forall₂ (fun P Q => ∃ p, P.par = some p ∧ ctor american (redesignKw p dt dc) = .ok Q)
        (if before then b.sections else (b.applyTransformations refl₀).1.sections) Qs ∧
      Blade.new Qs b.radii (b.chord.map (· * fc)) (b.pitch.map (· * fp)) b.rake b.skew none none = .ok B ∧ B.applyTransformations refl = (B', .ok ()) ∧
      ∀ (i j : Nat) (P : Profile) (p : Params) (r c s κ σ x k t : ℝ), b.sections[i]? = some P → P.par = some p → b.radii[i]? = some r → b.chord[i]? = some c →
        b.pitch[i]? = some s → b.rake[i]? = some κ → b.skew[i]? = some σ →
        p.chordPerc[j]? = some x → p.camberPerc[j]? = some k → p.thicknessPerc[j]? = some t →
        ∃ R ref Q u l, Qs[i]? = some R ∧ R.referencePoint = .ok ref ∧ B'.sections[i]? = some Q ∧ Q.upper[j]? = some u ∧ Q.lower[j]? = some l ∧
          dist2 u l = |c * fc| * |dt * (p.thicknessMax * t)| ∧
          mid u l = placed refl r (c * fc) (s * fp) κ σ ref (x * p.chordLength, dc * (p.camberMax * k)) := by
  obtain ⟨wr, wc, wp, wk, ws⟩ := id hW
  obtain ⟨Ss, hSs⟩ : ∃ Ss, Ss = (if before then b.sections else (b.applyTransformations refl₀).1.sections) := ⟨_, rfl⟩
  have hlen : Ss.length = b.sections.length := by
    rw [hSs]; split
    · rfl
    · exact apply_length b refl₀
  have hpar : ∀ (i : Nat) (P : Profile) (p : Params), b.sections[i]? = some P → P.par = some p → ∃ S, Ss[i]? = some S ∧ S.par = some p := by
    intro i P p h h'
    rw [hSs]; split
    · exact ⟨P, h, h'⟩
    · exact C120_parameters b refl₀ i P p h h'
  rw [← hSs]
  -- the new section for every old one
  have hex : ∀ i : Nat, i < b.sections.length → ∃ (S Q : Profile) (p : Params), Ss[i]? = some S ∧ S.par = some p ∧ p.chordPerc.length = n ∧
      b.sections[i]?.bind Profile.par = some p ∧ ctor american (redesignKw p dt dc) = .ok Q ∧ Redesigned p dt dc Q ∧ Q.Uniform ∧ Q.xdown = Q.xup := by
    intro i hi
    have hP := List.getElem?_eq_getElem hi
    obtain ⟨p, h1, h2, h3⟩ := hp _ (List.getElem_mem hi)
    obtain ⟨S, hS, hS'⟩ := hpar i _ p hP h1
    obtain ⟨Q, q1, q2, q3, -, q4⟩ := (C120_section american p dt dc).1 h3
    exact ⟨S, Q, p, hS, hS', h2, by rw [hP]; exact h1, q1, q2, q3, q4⟩
  haveI : Nonempty Profile := ⟨Sample.foil⟩
  haveI : Nonempty Params := ⟨Sample.params⟩
  choose! S Q p hS hSp hpn hbp hQ hQr hQU hQx using hex
  obtain ⟨Qs, hQs⟩ : ∃ Qs : List Profile, Qs = (List.range b.sections.length).map Q := ⟨_, rfl⟩
  have hQl : Qs.length = b.sections.length := by simp [hQs]
  have hQi : ∀ i, i < b.sections.length → Qs[i]? = some (Q i) := by
    intro i hi; simp [hQs, hi]
  have hmem : ∀ R ∈ Qs, ∃ i, i < b.sections.length ∧ R = Q i := by
    intro R hR
    simp only [hQs, List.mem_map, List.mem_range] at hR
    obtain ⟨i, hi, rfl⟩ := hR
    exact ⟨i, hi, rfl⟩
  have hF : List.Forall₂ (fun P Q => ∃ p, P.par = some p ∧ ctor american (redesignKw p dt dc) = .ok Q) Ss Qs := by
    refine List.forall₂_iff_get.2 ⟨by omega, fun i h1 h2 => ?_⟩
    have hi : i < b.sections.length := by omega
    have e1 : Ss[i] = S i := Option.some.inj ((List.getElem?_eq_getElem h1).symm.trans (hS i hi))
    have e2 : Qs[i] = Q i := Option.some.inj ((List.getElem?_eq_getElem h2).symm.trans (hQi i hi))
    refine ⟨p i, ?_, ?_⟩
    · rw [List.get_eq_getElem, e1]; exact hSp i hi
    · rw [List.get_eq_getElem, e2]; exact hQ i hi
  have hnew : ∃ B, Blade.new Qs b.radii (b.chord.map (· * fc)) (b.pitch.map (· * fp)) b.rake b.skew none none = .ok B ∧ B.sections = Qs ∧ B.radii = b.radii ∧
      B.chord = b.chord.map (· * fc) ∧ B.pitch = b.pitch.map (· * fp) ∧ B.rake = b.rake ∧ B.skew = b.skew ∧ B.thickness = none ∧ B.camber = none := by
    refine ⟨⟨Qs, b.radii, b.chord.map (· * fc), b.pitch.map (· * fp), b.rake, b.skew, none, none, [], [], none, none, none, none⟩,
      by rw [Blade.new, if_pos (by simp only [List.length_map]; omega)], rfl, rfl, rfl, rfl, rfl, rfl, rfl, rfl⟩
  obtain ⟨B, hB, b1, b2, b3, b4, b5, b6, b7, b8⟩ := hnew
  have hBW : B.WellFormed := by
    simp only [Blade.WellFormed, b1, b2, b3, b4, b5, b6, List.length_map]; omega
  have hBU : ∀ P ∈ B.sections, P.Uniform := by
    intro P hP
    rw [b1] at hP
    obtain ⟨i, hi, rfl⟩ := hmem P hP
    exact hQU i hi
  have hup : ∀ R ∈ Qs, R.upper.length = n := by
    intro R hR
    obtain ⟨i, hi, rfl⟩ := hmem R hR
    rw [(hQr i hi).1, hpn i hi]
  obtain ⟨B', hB'⟩ := (C46_defined B refl hBW b7 b8 hBU).2 ⟨by
      rw [b1]; intro h0; rw [h0] at hQl
      exact hne (List.length_eq_zero_iff.1 hQl.symm), by rw [b2]; exact hr, by
      intro R hR
      rw [b1] at hR
      obtain ⟨i, hi, rfl⟩ := hmem R hR
      refine sameX_reference (hQU i hi) (hQx i hi) ?_
      intro h0
      have := hup _ hR
      simp [Profile.upper, h0] at this
      exact hn this.symm, by
      intro P hP R hR
      rw [b1] at hP hR
      rw [hup P hP, hup R hR]⟩
  refine ⟨Qs, B, B', hF, hB, hB', ?_⟩
  obtain ⟨-, -, hpl⟩ := C46_placed B B' refl hBW b7 b8 hBU hB'
  intro i j P q r c s κ σ x k t hP hq hri hci hsi hκi hσi hx hk ht
  have hi : i < b.sections.length := (List.getElem?_eq_some_iff.1 hP).1
  have hpq : q = p i := by
    have := hbp i hi
    rw [hP] at this
    exact Option.some.inj (hq.symm.trans this)
  subst hpq
  obtain ⟨ref, R, e1, e2, e3, e4, e5, -⟩ := hpl i (Q i) r (c * fc) (s * fp) κ σ (by rw [b1]; exact hQi i hi) (by rw [b2]; exact hri)
    (by rw [b3, List.getElem?_map, hci]; rfl) (by rw [b4, List.getElem?_map, hsi]; rfl) (by rw [b5]; exact hκi) (by rw [b6]; exact hσi)
  obtain ⟨f1, f2⟩ := (hQr i hi).2.2 j x k t hx hk ht
  refine ⟨Q i, ref, R, _, _, hQi i hi, e1, e3, by rw [e4, List.getElem?_map, f1]; rfl, by rw [e5, List.getElem?_map, f2]; rfl, ?_, ?_⟩
  · rw [(C46_placed_geometry refl r (c * fc) (s * fp) κ σ ref _ _ e2 0).2.1]
    congr 1
    rw [dist2, ← Real.sqrt_sq_eq_abs]
    congr 1
    ring
  · simp only [mid, placed]
    ext <;> simp only <;> ring

/-- A blade whose two sections were built from parameters. -/
example : ∃ b : Blade, b.WellFormed ∧ b.sections ≠ [] ∧ (∀ P ∈ b.sections, ∃ p, P.par = some p ∧ p.chordPerc.length = 4 ∧ Redesignable p 2 (1/2)) ∧
    (∀ r ∈ b.radii, r ≠ 0) ∧ ¬ Redesignable Sample.params (-1) 1 := by
  obtain ⟨Q, -, -, -, hpar, -⟩ := (C120_section (fun _ => .ok []) Sample.params 1 1).1 (by norm_num [Redesignable, Sample.params])
  have h : ∃ p, Q.par = some p ∧ p.chordPerc.length = 4 ∧ Redesignable p 2 (1/2) := ⟨_, hpar, by simp [Sample.params], by norm_num [Redesignable, Sample.params]⟩
  refine ⟨⟨[Q, Q], [1, 2], [1, 1], [1, 1], [0, 0], [0, 0], none, none, [], [], none, none, none, none⟩, ?_, by simp, ?_, ?_, ?_⟩
  · simp [Blade.WellFormed]
  · intro P hP
    have : P = Q := by simpa using hP
    subst this; exact h
  · simp
  · norm_num [Redesignable, Sample.params]

end
end BladeX
