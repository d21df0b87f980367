import Verif.Lemmas.BladeSection
import Mathlib.Analysis.SpecialFunctions.Trigonometric.Bounds

/-! # C44 - C48: construction of a blade, pitch angles, placement of the sections -/

namespace BladeX
noncomputable section
open Spec Classical

/-- **C44** the constructor succeeds exactly when there is one radius, chord, pitch, rake and skew per section, and raises `ValueError`
otherwise; it stores its arguments unchanged, without coordinates or faces. The lengths of thickness and camber are not looked at. -/
theorem C44_constructor (S : List Profile) (r c p k s : Arr) (t f : Option Arr) :
    ((∃ b, Blade.new S r c p k s t f = .ok b) ↔
      r.length = S.length ∧ c.length = S.length ∧ p.length = S.length ∧ k.length = S.length ∧ s.length = S.length) ∧
    ((∀ b, Blade.new S r c p k s t f ≠ .ok b) → Blade.new S r c p k s t f = .error .valueError) ∧
    ∀ b, Blade.new S r c p k s t f = .ok b → b.WellFormed ∧ b.sections = S ∧ b.radii = r ∧ b.chord = c ∧ b.pitch = p ∧ b.rake = k ∧
      b.skew = s ∧ b.thickness = t ∧ b.camber = f ∧ b.coordsUp = [] ∧ b.coordsDown = [] ∧ b.upper = none ∧ b.lower = none ∧
      b.tip = none ∧ b.root = none := by
  unfold Blade.new
  simp only
  split_ifs with h
  · refine ⟨⟨fun _ => h, fun _ => ⟨_, rfl⟩⟩, fun h' => absurd rfl (h' _), ?_⟩
    intro b hb
    obtain rfl := Except.ok.inj hb
    exact ⟨h, rfl, rfl, rfl, rfl, rfl, rfl, rfl, rfl, rfl, rfl, rfl, rfl, rfl, rfl⟩
  · refine ⟨⟨?_, fun h' => absurd h' h⟩, fun _ => rfl, ?_⟩
    · rintro ⟨b, hb⟩; cases hb
    · intro b hb; cases hb

example : ∃ b, Blade.new [Sample.foil, Sample.openTE] [1, 2] [1, 1] [1, 1] [0, 0] [0, 0] (some [1, 2, 3]) none = .ok b :=
  (C44_constructor _ _ _ _ _ _ _ _).1.2 (by simp)

example : Blade.new [Sample.foil, Sample.openTE] [1, 2] [1, 1] [1, 1] [0, 0] [0] none none = .error .valueError :=
  (C44_constructor _ _ _ _ _ _ _ _).2.1 (by
    intro b hb
    have := (C44_constructor _ _ _ _ _ _ _ _).1.1 ⟨b, hb⟩
    simp at this)

/-- The blade cut off after its first `j` sections. -/
def Blade.first (j : Nat) (b : Blade) : Blade :=
  { b with sections := b.sections.take j, radii := b.radii.take j, chord := b.chord.take j, pitch := b.pitch.take j,
           rake := b.rake.take j, skew := b.skew.take j }

namespace Blade

theorem getIdx_take {α : Type*} {l : List α} {i j : Nat} (h : i < j) : getIdx (l.take j) i = getIdx l i := by
  unfold getIdx
  rw [List.getElem?_take_of_lt h]

theorem steps_first {b : Blade} (hk : b.camber = none) {refl : Bool} {i j : Nat} (h : i < j) :
    sectionSteps (b.first j) refl i = sectionSteps b refl i := by
  simp only [sectionSteps, first, hk, getIdx_take h]

theorem sectionLoop_congr {b b' : Blade} {refl : Bool} : ∀ (Ps : List Profile) (i : Nat),
    (∀ j, i ≤ j → j < i + Ps.length → sectionSteps b refl j = sectionSteps b' refl j) →
    sectionLoop b refl i Ps = sectionLoop b' refl i Ps := by
  intro Ps
  induction Ps with
  | nil => intro i _; rfl
  | cons P Ps ih =>
    intro i h
    simp only [sectionLoop]
    rw [h i le_rfl (by simp), ih (i + 1) (fun j h1 h2 => h j (by omega) (by simp at h2 ⊢; omega))]

theorem sectionLoop_append {b : Blade} {refl : Bool} : ∀ (A B : List Profile) (i : Nat) (Qs : List Profile),
    sectionLoop b refl i A = (Qs, .ok ()) → sectionLoop b refl i (A ++ B) =
      (Qs ++ (sectionLoop b refl (i + A.length) B).1, (sectionLoop b refl (i + A.length) B).2) := by
  intro A
  induction A with
  | nil =>
    intro B i Qs h
    simp only [sectionLoop, Prod.mk.injEq, and_true] at h
    subst h
    simp
  | cons P Ps ih =>
    intro B i Qs h
    simp only [sectionLoop, List.cons_append] at h ⊢
    rcases hr : runSteps (sectionSteps b refl i) P with ⟨Q, (e | u)⟩
    · rw [hr] at h; simp at h
    · rw [hr] at h
      simp only [Prod.mk.injEq] at h
      obtain ⟨rfl, h2⟩ := h
      have := ih B (i + 1) (sectionLoop b refl (i + 1) Ps).1 (Prod.ext rfl h2)
      simp only [this]
      rw [show i + (P :: Ps).length = i + 1 + Ps.length by simp; omega]
      rfl

end Blade

/-- **C44** a thickness array that is too short goes unnoticed by the constructor. Applying the transformations then never ends
normally; when everything before that point goes through, `IndexError` is raised, the sections for which there is a thickness have been
transformed, the next one is left half-way (moved and multiplied by its chord), the others are untouched. -/
theorem C44_short_thickness (b : Blade) (refl : Bool) (hW : b.WellFormed) (t : Arr) (ht : b.thickness = some t)
    (hlt : t.length < b.sections.length) :
    (b.applyTransformations refl).2 ≠ .ok () ∧
    (b.camber = none → ∀ b₁, (b.first t.length).applyTransformations refl = (b₁, .ok ()) →
      ∀ P ref c, b.sections[t.length]? = some P → P.referencePoint = .ok ref → b.chord[t.length]? = some c →
        b.applyTransformations refl = ({ b with
          sections := b₁.sections ++ (P.translate (-ref)).mulAll c :: b.sections.drop (t.length + 1) }, .error .indexError)) := by
  obtain ⟨hr, hc, hp, hk, hs⟩ := hW
  have hnone : getIdx t t.length = .error .indexError := by
    unfold getIdx
    rw [List.getElem?_eq_none (le_refl _)]
  have hstep : ∀ P ref c, P.referencePoint = .ok ref → b.chord[t.length]? = some c →
      Blade.runSteps (Blade.sectionSteps b refl t.length) P = ((P.translate (-ref)).mulAll c, .error .indexError) := by
    intro P ref c hP hc'
    have h1 := (Blade.head_ok (refl := refl) hc' (P := P)).2 ref hP
    rw [show (Blade.sectionSteps b refl t.length) = (Blade.sectionSteps b refl t.length).take 2 ++
      (Blade.sectionSteps b refl t.length).drop 2 from rfl]
    have happ : ∀ (fs gs : List (Profile → Res Profile)) (P Q : Profile), fs.foldlM (fun P f => f P) P = (.ok Q : Res Profile) →
        Blade.runSteps (fs ++ gs) P = Blade.runSteps gs Q := by
      intro fs
      induction fs with
      | nil =>
        intro gs P Q h
        simp only [List.foldlM_nil, pure, Except.pure, Except.ok.injEq] at h
        subst h; rfl
      | cons f fs ih =>
        intro gs P Q h
        simp only [List.foldlM_cons, bind, Except.bind] at h
        simp only [List.cons_append, Blade.runSteps]
        rcases hfP : f P with e | R
        · rw [hfP] at h; cases h
        · rw [hfP] at h; exact ih gs R Q h
    rw [happ _ _ _ _ h1]
    simp only [Blade.sectionSteps, List.drop_succ_cons, List.drop_zero, Blade.runSteps, ht, hnone, bind, Except.bind]
  constructor
  · intro h
    obtain ⟨ss, up, down, h1, h2, h3⟩ := (Blade.apply_ok hr).1 (Prod.ext rfl h : b.applyTransformations refl = (_, .ok ()))
    obtain ⟨hl, hall⟩ := (Blade.sectionLoop_ok _ _ _).1 h1
    have hP := List.getElem?_eq_getElem hlt
    have hQ : ss[t.length]? = some (ss[t.length]'(by omega)) := List.getElem?_eq_getElem (by omega)
    have hrun := hall t.length _ _ hP hQ
    rw [Nat.zero_add, Blade.runSteps_ok, Blade.steps_split] at hrun
    rcases hx : ((List.take 2 (Blade.sectionSteps b refl t.length)).foldlM (fun P f => f P) b.sections[t.length] : Res Profile) with e | R
    · rw [hx] at hrun; cases hrun
    · rw [hx] at hrun
      simp only [bind, Except.bind] at hrun
      have : ((List.take 2 (List.drop 2 (Blade.sectionSteps b refl t.length))).foldlM (fun P f => f P) R : Res Profile) =
          .error .indexError := by
        simp [Blade.sectionSteps, ht, hnone, bind, Except.bind]
      rw [this] at hrun
      cases hrun
  · intro hcam b₁ hb₁ P ref c hP href hc'
    have hr' : (b.first t.length).radii.length = (b.first t.length).sections.length := by simp [Blade.first, hr]
    obtain ⟨ss, up, down, h1, h2, rfl⟩ := (Blade.apply_ok hr').1 hb₁
    have hsec : b.sections = b.sections.take t.length ++ P :: b.sections.drop (t.length + 1) := by
      conv_lhs => rw [← List.take_append_drop t.length b.sections]
      congr 1
      rw [List.drop_eq_getElem_cons hlt]
      congr 1
      rw [List.getElem?_eq_getElem hlt] at hP
      exact Option.some.inj hP
    have hlen : (b.sections.take t.length).length = t.length := by simp; omega
    have hcg : Blade.sectionLoop b refl 0 (b.sections.take t.length) = (ss, .ok ()) := by
      rw [← h1]
      refine Blade.sectionLoop_congr _ _ ?_
      intro j _ hj
      exact (Blade.steps_first hcam (by omega)).symm
    have happ := Blade.sectionLoop_append _ (P :: b.sections.drop (t.length + 1)) 0 ss hcg
    rw [← hsec, hlen, Nat.zero_add] at happ
    have hl2 : Blade.sectionLoop b refl t.length (P :: b.sections.drop (t.length + 1)) =
        ((P.translate (-ref)).mulAll c :: b.sections.drop (t.length + 1), .error .indexError) := by
      simp only [Blade.sectionLoop, hstep P ref c href hc']
    rw [hl2] at happ
    unfold Blade.applyTransformations
    rw [happ]

/-- Non-vacuity: two sections, one thickness. -/
def Sample.blade2 : Blade where
  sections := [Sample.foil, Sample.foil]
  radii := [1, 2]
  chord := [1, 3]
  pitch := [2, 4]
  rake := [0, 1]
  skew := [0, 10]
  thickness := none
  camber := none
  coordsUp := []
  coordsDown := []
  upper := none
  lower := none
  tip := none
  root := none

/-- **C45** the pitch angle `a` of a section satisfies `tan a = P / (2 pi r)` and lies strictly between -90 and 90 degrees, on the side
of the sign of the pitch for a positive radius; a radius zero has none. -/
theorem C45_pitch_angle (P r : ℝ) :
    (r ≠ 0 → ∃ a, Blade.pitchAngle P r = .ok a ∧ Real.tan a = P / (2 * Real.pi * r) ∧ -(Real.pi / 2) < a ∧ a < Real.pi / 2 ∧
      (0 < r → (0 < a ↔ 0 < P) ∧ (a < 0 ↔ P < 0))) ∧
    (r = 0 → Blade.pitchAngle P r = .error .nonFinite) := by
  constructor
  · intro hr
    refine ⟨Real.arctan (P / (2 * Real.pi * r)), by simp [Blade.pitchAngle, hr], Real.tan_arctan _, Real.neg_pi_div_two_lt_arctan _,
      Real.arctan_lt_pi_div_two _, ?_⟩
    intro hr0
    have hpos : 0 < 2 * Real.pi * r := by positivity
    constructor
    · conv_lhs => rw [← Real.arctan_zero, Real.arctan_strictMono.lt_iff_lt]
      exact div_pos_iff_of_pos_right hpos
    · conv_lhs => rw [← Real.arctan_zero, Real.arctan_strictMono.lt_iff_lt, div_neg_iff]
      constructor
      · rintro (⟨_, h⟩ | ⟨h, _⟩)
        · linarith
        · exact h
      · intro h; exact Or.inr ⟨h, hpos⟩
  · intro hr
    simp [Blade.pitchAngle, hr]

/-- **C45** the rake induced by a skew of `s` degrees is the skew in radians times `P / (2 pi)`: the radius does not matter (as long as
it is not zero), and it is the displacement along the pitch line for the arc `r * skew`. -/
theorem C45_induced_rake (P r s : ℝ) (hr : r ≠ 0) :
    Blade.inducedRake P r s = .ok (Real.pi * s / 180 * (P / (2 * Real.pi))) ∧
    ∃ a, Blade.pitchAngle P r = .ok a ∧ Blade.inducedRake P r s = .ok (r * (Real.pi * s / 180) * Real.tan a) := by
  have h1 : Blade.inducedRake P r s = .ok (Real.pi * s / 180 * (P / (2 * Real.pi))) := by
    rw [Blade.inducedRake_ok hr]; congr 1; ring
  obtain ⟨a, ha, ht, _⟩ := (C45_pitch_angle P r).1 hr
  refine ⟨h1, a, ha, ?_⟩
  rw [h1, ht]
  have := Real.pi_ne_zero
  congr 1
  field_simp

example : Blade.inducedRake 2 5 0 = .ok 0 := by
  rw [(C45_induced_rake 2 5 0 (by norm_num)).1]; simp

/-- **C46** every point `p` of section `i` is placed (before the cylinder map) by the closed form `placed` of the specification. -/
theorem C46_placed (b b' : Blade) (refl : Bool) (hW : b.WellFormed) (ht : b.thickness = none) (hf : b.camber = none)
    (hU : ∀ P ∈ b.sections, P.Uniform) (h : b.applyTransformations refl = (b', .ok ())) :
    b'.sections.length = b.sections.length ∧
    (b'.radii = b.radii ∧ b'.chord = b.chord ∧ b'.pitch = b.pitch ∧ b'.rake = b.rake ∧ b'.skew = b.skew) ∧
    ∀ (i : Nat) (P : Profile) (r c p k s : ℝ), b.sections[i]? = some P → b.radii[i]? = some r → b.chord[i]? = some c →
      b.pitch[i]? = some p → b.rake[i]? = some k → b.skew[i]? = some s →
      ∃ ref Q, P.referencePoint = .ok ref ∧ r ≠ 0 ∧ b'.sections[i]? = some Q ∧
        Q.upper = P.upper.map (placed refl r c p k s ref) ∧ Q.lower = P.lower.map (placed refl r c p k s ref) ∧ Q.Uniform := by
  obtain ⟨ss, up, down, h1, h2, rfl⟩ := (Blade.apply_ok hW.1).1 h
  obtain ⟨hl, hall⟩ := (Blade.sectionLoop_ok _ _ _).1 h1
  refine ⟨hl, ⟨rfl, rfl, rfl, rfl, rfl⟩, ?_⟩
  intro i P r c p k s hP hr hc hp hk hs
  have hi : i < ss.length := by rw [hl]; exact (List.getElem?_eq_some_iff.1 hP).1
  have hrun := hall i P ss[i] hP (List.getElem?_eq_getElem hi)
  rw [Nat.zero_add] at hrun
  have hPU := hU P (List.mem_of_getElem? hP)
  obtain ⟨g1, g2⟩ := Blade.section_plain ht hf (refl := refl) hr hp hk hs hc hPU
  obtain ⟨hr0, ref, href⟩ := g1 ⟨_, hrun⟩
  obtain ⟨Q, hQ, hu, hlo, hQU, _⟩ := g2 ref hr0 href
  obtain rfl : ss[i] = Q := by rw [hrun] at hQ; exact (Prod.mk.inj hQ).1
  exact ⟨ref, _, href, hr0, List.getElem?_eq_getElem hi, hu, hlo, hQU⟩

/-- **C46** in particular a section's reference point comes to lie at minus the total rake, at the arc `-r * skew`; the placement
multiplies distances by the chord; and the chord direction (the first axis of the section) gets the slope of the pitch line: moving `a`
along it advances by `P / (2 pi r)` times the arc travelled. -/
theorem C46_placed_geometry (refl : Bool) (r c P k s : ℝ) (ref p q : Pt) (hr : r ≠ 0) (a : ℝ) :
    placed refl r c P k s ref ref = (-(k + Real.pi * s / 180 * P / (2 * Real.pi)), -(r * (Real.pi * s / 180))) ∧
    dist2 (placed refl r c P k s ref p) (placed refl r c P k s ref q) = |c| * dist2 p q ∧
    (placed refl r c P k s ref (p.1 + a, p.2)).1 - (placed refl r c P k s ref p).1 = P / (2 * Real.pi * r) *
      ((placed refl r c P k s ref (p.1 + a, p.2)).2 - (placed refl r c P k s ref p).2) ∧
    (0 < r → 0 < c → 0 < a → (placed false r c P k s ref p).2 < (placed false r c P k s ref (p.1 + a, p.2)).2) := by
  set φ := Real.arctan (P / (2 * Real.pi * r)) with hφ
  have hcs := Real.sin_sq_add_cos_sq φ
  have hcos : 0 < Real.cos φ := Real.cos_arctan_pos _
  have htan : Real.sin φ = P / (2 * Real.pi * r) * Real.cos φ := by
    rw [← Real.tan_mul_cos hcos.ne', hφ, Real.tan_arctan]
  refine ⟨?_, ?_, ?_, ?_⟩
  · simp [placed, ← hφ]
  · unfold dist2
    rw [show |c| = Real.sqrt (c ^ 2) from (Real.sqrt_sq_eq_abs c).symm, ← Real.sqrt_mul (sq_nonneg c)]
    congr 1
    cases refl
    · simp only [placed, ← hφ, Bool.false_eq_true, if_false]
      linear_combination (c ^ 2 * ((p.1 - q.1) ^ 2 + (p.2 - q.2) ^ 2)) * hcs
    · simp only [placed, ← hφ, if_true]
      linear_combination (c ^ 2 * ((p.1 - q.1) ^ 2 + (p.2 - q.2) ^ 2)) * hcs
  · cases refl
    · simp only [placed, ← hφ, htan, Bool.false_eq_true, if_false]; ring
    · simp only [placed, ← hφ, htan, if_true]; ring
  · intro _ hc ha
    simp only [placed, ← hφ, Bool.false_eq_true, if_false]
    have : 0 < Real.cos φ * (c * a) := by positivity
    nlinarith

/-- **C46** when does `apply_transformations` succeed: there is a section, no radius is zero, every section has a reference point (its
edge abscissae agree) and all sections have the same number of points. -/
theorem C46_defined (b : Blade) (refl : Bool) (hW : b.WellFormed) (ht : b.thickness = none) (hf : b.camber = none)
    (hU : ∀ P ∈ b.sections, P.Uniform) :
    (∃ b', b.applyTransformations refl = (b', .ok ())) ↔
      b.sections ≠ [] ∧ (∀ r ∈ b.radii, r ≠ 0) ∧ (∀ P ∈ b.sections, ∃ ref, P.referencePoint = .ok ref) ∧
      ∀ P ∈ b.sections, ∀ Q ∈ b.sections, P.upper.length = Q.upper.length := by
  obtain ⟨wr, wc, wp, wk, ws⟩ := id hW
  have look : ∀ (i : Nat), i < b.sections.length → ∃ P r c p k s, b.sections[i]? = some P ∧ b.radii[i]? = some r ∧
      b.chord[i]? = some c ∧ b.pitch[i]? = some p ∧ b.rake[i]? = some k ∧ b.skew[i]? = some s := by
    intro i hi
    exact ⟨_, _, _, _, _, _, List.getElem?_eq_getElem hi, List.getElem?_eq_getElem (by omega), List.getElem?_eq_getElem (by omega),
      List.getElem?_eq_getElem (by omega), List.getElem?_eq_getElem (by omega), List.getElem?_eq_getElem (by omega)⟩
  constructor
  · rintro ⟨b', h⟩
    obtain ⟨_, _, hpl⟩ := C46_placed b b' refl hW ht hf hU h
    obtain ⟨ss, up, down, h1, h2, rfl⟩ := (Blade.apply_ok wr).1 h
    obtain ⟨hl, hall⟩ := (Blade.sectionLoop_ok _ _ _).1 h1
    obtain ⟨k1, k2, k3, _⟩ := (Blade.cylindrical_ok (by omega)).1 h2
    have key : ∀ P ∈ b.sections, (∃ ref, P.referencePoint = .ok ref) ∧ ∃ Q ∈ ss, Q.upper.length = P.upper.length := by
      intro P hP
      obtain ⟨i, hi⟩ := List.getElem?_of_mem hP
      obtain ⟨P', r, c, p, k, s, e1, e2, e3, e4, e5, e6⟩ := look i (List.getElem?_eq_some_iff.1 hi).1
      rw [hi] at e1
      obtain rfl := Option.some.inj e1
      obtain ⟨ref, Q, f1, _, f3, f4, _⟩ := hpl i P r c p k s hi e2 e3 e4 e5 e6
      exact ⟨⟨ref, f1⟩, Q, List.mem_of_getElem? f3, by rw [f4]; simp⟩
    refine ⟨?_, ?_, fun P hP => (key P hP).1, ?_⟩
    · rintro h0
      rw [h0] at hl
      exact k1 (List.length_eq_zero_iff.1 hl)
    · intro r hr
      obtain ⟨i, hi⟩ := List.getElem?_of_mem hr
      have hi' : i < ss.length := by rw [hl, ← wr]; exact (List.getElem?_eq_some_iff.1 hi).1
      exact (k2 i _ r (List.getElem?_eq_getElem hi') hi).1
    · intro P hP Q hQ
      obtain ⟨_, P', hP', e1⟩ := key P hP
      obtain ⟨_, Q', hQ', e2⟩ := key Q hQ
      rw [← e1, ← e2]
      exact (k3 P' hP' Q' hQ').1
  · rintro ⟨h1, h2, h3, h4⟩
    have stepEx : ∀ i (hi : i < b.sections.length), ∃ Q, Blade.runSteps (Blade.sectionSteps b refl i) b.sections[i] = (Q, .ok ()) ∧
        Q.Uniform ∧ Q.upper.length = b.sections[i].upper.length ∧ Q.lower.length = b.sections[i].lower.length := by
      intro i hi
      obtain ⟨P, r, c, p, k, s, e1, e2, e3, e4, e5, e6⟩ := look i hi
      rw [List.getElem?_eq_getElem hi] at e1
      obtain rfl := Option.some.inj e1
      have hPm : b.sections[i] ∈ b.sections := List.getElem_mem hi
      obtain ⟨ref, href⟩ := h3 _ hPm
      obtain ⟨Q, q1, q2, q3, q4, _⟩ := (Blade.section_plain ht hf (refl := refl) e2 e4 e5 e6 e3 (hU _ hPm)).2 ref
        (h2 r (List.mem_of_getElem? e2)) href
      exact ⟨Q, q1, q4, by rw [q2]; simp, by rw [q3]; simp⟩
    have stepEx' : ∀ i, ∃ Q, ∀ hi : i < b.sections.length,
        Blade.runSteps (Blade.sectionSteps b refl i) b.sections[i] = (Q, .ok ()) ∧
        Q.Uniform ∧ Q.upper.length = b.sections[i].upper.length ∧ Q.lower.length = b.sections[i].lower.length := by
      intro i
      by_cases hi : i < b.sections.length
      · obtain ⟨Q, hQ⟩ := stepEx i hi
        exact ⟨Q, fun _ => hQ⟩
      · exact ⟨Sample.foil, fun h => absurd h hi⟩
    choose f hfa using stepEx'
    have hf1 := fun i hi => (hfa i hi).1
    have hf2 := fun i hi => (hfa i hi).2.1
    have hf3 := fun i hi => (hfa i hi).2.2.1
    have hf4 := fun i hi => (hfa i hi).2.2.2
    let ss := (List.range b.sections.length).map f
    have hloop : Blade.sectionLoop b refl 0 b.sections = (ss, .ok ()) := by
      rw [Blade.sectionLoop_ok]
      refine ⟨by simp [ss], ?_⟩
      intro j P Q hP hQ
      obtain ⟨hj, rfl⟩ := List.getElem?_eq_some_iff.1 hP
      simp only [ss, List.getElem?_map, List.getElem?_range hj, Option.map_some, Option.some.injEq] at hQ
      subst hQ
      rw [Nat.zero_add]
      exact hf1 j hj
    have hlo : ∀ P ∈ b.sections, P.lower.length = P.upper.length := by
      intro P hP
      obtain ⟨u1, u2, u3⟩ := hU P hP
      simp only [Profile.lower, Profile.upper, List.length_zip]
      omega
    have hcyl : Blade.cylindrical ss b.radii = .ok
        ((List.zipWith (fun P r => (Profile.upper P).map (wrap r)) ss b.radii).reverse,
         (List.zipWith (fun P r => (Profile.lower P).map (wrap r)) ss b.radii).reverse) := by
      rw [Blade.cylindrical_ok (by simp [ss, wr])]
      refine ⟨?_, ?_, ?_, rfl, rfl⟩
      · intro h0
        apply h1
        have := congrArg List.length h0
        simpa [ss] using this
      · intro i P r hP hr
        have hi : i < b.sections.length := by rw [← wr]; exact (List.getElem?_eq_some_iff.1 hr).1
        simp only [ss, List.getElem?_map, List.getElem?_range hi, Option.map_some, Option.some.injEq] at hP
        subst hP
        exact ⟨h2 r (List.mem_of_getElem? hr), (hf2 i hi).1, (hf2 i hi).2.2⟩
      · intro P hP Q hQ
        obtain ⟨i, hi, rfl⟩ := List.mem_map.1 hP
        obtain ⟨j, hj, rfl⟩ := List.mem_map.1 hQ
        rw [List.mem_range] at hi hj
        have e := h4 _ (List.getElem_mem hi) _ (List.getElem_mem hj)
        refine ⟨by rw [hf3 i hi, hf3 j hj, e], ?_⟩
        rw [hf4 i hi, hf4 j hj, hlo _ (List.getElem_mem hi), hlo _ (List.getElem_mem hj), e]
    exact ⟨_, (Blade.apply_ok wr).2 ⟨ss, _, _, hloop, hcyl, rfl⟩⟩

theorem Sample.foil_uniform : Sample.foil.Uniform := by simp [Sample.foil, Profile.Uniform]

theorem Sample.foil_reference : Sample.foil.referencePoint = .ok (1/2, 0) := by
  rw [Profile.referencePoint_ends (a := (0, 0)) (b := (1, 0)) (c := (0, 0)) (d := (1, 0))
    ⟨Sample.foil_uniform.1, Sample.foil_uniform.2.2⟩ (by simp [Sample.foil, Profile.Ends, Profile.upper, Profile.lower])]
  rw [if_neg (by norm_num)]
  norm_num [mid]

theorem Sample.blade2_applies (refl : Bool) : ∃ b', Sample.blade2.applyTransformations refl = (b', .ok ()) := by
  rw [C46_defined _ _ (by simp [Sample.blade2, Blade.WellFormed]) rfl rfl (by simp [Sample.blade2, Sample.foil_uniform])]
  refine ⟨by simp [Sample.blade2], by simp [Sample.blade2], ?_, by simp [Sample.blade2]⟩
  simp [Sample.blade2, Sample.foil_reference]


end
end BladeX
