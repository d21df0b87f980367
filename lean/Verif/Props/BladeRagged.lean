import Verif.Lemmas.BladeRagged
import Verif.Props.Export

/-! # C113: coordinates left by a failing `apply_transformations` -/

namespace BladeX
noncomputable section
open Spec Classical
namespace ListBlade

/-- **C113** `apply_transformations` has the outcome of the model without containers, whatever the sections; on success the blade is that model's
blade, with both coordinate attributes numpy arrays; on failure it differs from it in the coordinates only. -/
theorem C113_same_outcome (refl : Bool) (B : ListBlade) :
    (apply refl B).2 = (B.b.applyTransformations refl).2 ∧
    ((apply refl B).2 = .ok () → (apply refl B).1 = ⟨(B.b.applyTransformations refl).1, true, true⟩) ∧
    { (apply refl B).1.b with coordsUp := [], coordsDown := [] } = { (B.b.applyTransformations refl).1 with coordsUp := [], coordsDown := [] } := by
  rcases hl : Blade.sectionLoop B.b refl 0 B.b.sections with ⟨ss, (e | ⟨⟩)⟩
  · have h1 : apply refl B = ({ B with b := { B.b with sections := ss } }, .error e) := by simp only [apply, hl]
    have h2 : B.b.applyTransformations refl = ({ B.b with sections := ss }, .error e) := by simp only [Blade.applyTransformations, hl]
    rw [h1, h2]
    exact ⟨rfl, fun h => (by cases h), rfl⟩
  · have h1 : apply refl B = planarToCylindrical { B with b := { B.b with sections := ss } } := by simp only [apply, hl]
    obtain ⟨p1, p2⟩ := planar_eq { B with b := { B.b with sections := ss } }
    rcases hc : Blade.cylindrical ss B.b.radii with e | ⟨up, down⟩
    · obtain ⟨u, d, a, p3⟩ := p2 e hc
      have h2 : B.b.applyTransformations refl = ({ B.b with sections := ss, coordsUp := [], coordsDown := [] }, .error e) := by
        simp only [Blade.applyTransformations, hl, hc]
      rw [h1, p3, h2]
      exact ⟨rfl, fun h => (by cases h), rfl⟩
    · have p3 := p1 up down hc
      have h2 : B.b.applyTransformations refl = ({ B.b with sections := ss, coordsUp := up, coordsDown := down }, .ok ()) := by
        simp only [Blade.applyTransformations, hl, hc]
      rw [h1, p3, h2]
      exact ⟨rfl, fun _ => rfl, rfl⟩

/-- What relates the two models along a history. -/
def Matches (B : ListBlade) : Prop :=
  (B.b.coordsUp = [] ∧ B.b.coordsDown = [] ∧ B.upArr = false ∧ B.downArr = false) ∨ (B.b.coordsUp ≠ [] ∧ B.upArr = true ∧ B.downArr = true)

theorem stack_rows {F : Face} {m : Nat} (h0 : F ≠ []) (h : ∀ l ∈ F, l.length = m) : Blade.npStack F = .ok F :=
  Blade.npStack_ok.2 ⟨rfl, h0, fun a ha c hc => (h a ha).trans (h c hc).symm⟩

theorem step_refines {n m : Nat} {s : Arr} {t : Option Arr} {B : ListBlade} (hS : Blade.Sound n m s t B.b) (hM : Matches B) (a : Action) :
    (a.run B).1.b = (a.plain.run B.b).1 ∧ Matches (a.run B).1 ∧ ((a.run B).2 = (a.plain.run B.b).2 ∨ ∃ f, a = .scale f ∧ f.val = 0) := by
  have hmp : ∀ (g : Pt3 → Pt3) {F : Face}, F ≠ [] → mapPts g F ≠ [] := by
    intro g F hF
    simpa [mapPts] using hF
  have happly : ∀ refl, ((apply refl B).1.b = (B.b.applyTransformations refl).1) ∧ Matches (apply refl B).1 := by
    intro refl
    rcases hl : Blade.sectionLoop B.b refl 0 B.b.sections with ⟨ss, (e | ⟨⟩)⟩
    · have h1 : apply refl B = ({ B with b := { B.b with sections := ss } }, .error e) := by simp only [apply, hl]
      have h2 : B.b.applyTransformations refl = ({ B.b with sections := ss }, .error e) := by simp only [Blade.applyTransformations, hl]
      rw [h1, h2]
      exact ⟨rfl, hM⟩
    · obtain ⟨l1, l2⟩ := Blade.loop_pts (m := m) hS.camb (refl := refl) B.b.sections 0 hS.pts
      rw [hl] at l1 l2
      simp only at l1 l2
      obtain ⟨w1, -⟩ := hS.wf
      have hss : ss ≠ [] := by
        rintro rfl
        have := hS.len; have := hS.pos
        simp only [List.length_nil] at l1
        omega
      have hpl : ∀ P ∈ ss, P.upper.length = m ∧ P.lower.length = m := by
        intro P hP
        obtain ⟨⟨u1, u2, u3⟩, hm⟩ := l2 P hP
        refine ⟨hm, ?_⟩
        simp only [Profile.upper, Profile.lower, List.length_zip] at hm ⊢
        omega
      have hc := (Blade.cylindrical_ok (up := (List.zipWith (fun P r => (Profile.upper P).map (wrap r)) ss B.b.radii).reverse)
        (down := (List.zipWith (fun P r => (Profile.lower P).map (wrap r)) ss B.b.radii).reverse) (by rw [w1, l1])).2
        ⟨hss, fun i P r hP hr => ⟨hS.radii r (List.mem_of_getElem? hr), (l2 P (List.mem_of_getElem? hP)).1.1, (l2 P (List.mem_of_getElem? hP)).1.2.2⟩,
          fun P hP Q hQ => ⟨(hpl P hP).1.trans (hpl Q hQ).1.symm, (hpl P hP).2.trans (hpl Q hQ).2.symm⟩, rfl, rfl⟩
      have h2 : (B.b.applyTransformations refl).2 = .ok () := by simp only [Blade.applyTransformations, hl, hc]
      obtain ⟨c1, c2, -⟩ := C113_same_outcome refl B
      rw [c2 (c1.trans h2)]
      refine ⟨rfl, Or.inr ⟨?_, rfl, rfl⟩⟩
      simp only [Blade.applyTransformations, hl, hc]
      intro h
      have h3 := congrArg List.length h
      have := hS.len; have := hS.pos
      simp only [List.length_reverse, List.length_zipWith, List.length_nil, w1, l1] at h3
      omega
  cases a with
  | apply refl => exact ⟨(happly refl).1, (happly refl).2, Or.inl (C113_same_outcome refl B).1⟩
  | build occ refl =>
    obtain ⟨a1, a2⟩ := happly refl
    obtain ⟨c1, c2, -⟩ := C113_same_outcome refl B
    simp only [Action.run, Action.plain, Blade.Action.run, build, build_eq]
    rcases hb : B.b.applyTransformations refl with ⟨b', (e | ⟨⟩)⟩ <;> rw [hb] at c1 c2 a1 <;>
      rcases hB : apply refl B with ⟨B', o⟩ <;> rw [hB] at c1 c2 a1 a2 <;> simp only at c1 c2 a1 a2 <;> subst c1 a1
    · exact ⟨rfl, a2, Or.inl rfl⟩
    · refine ⟨rfl, ?_, Or.inl rfl⟩
      have h3 := c2 rfl
      rcases a2 with ⟨-, -, h4, -⟩ | ⟨h4, -⟩
      · rw [h3] at h4; cases h4
      · refine Or.inr ⟨?_, by rw [h3], by rw [h3]⟩
        simp only
        rw [(faces_coords occ B'.b).1]
        exact h4
  | rotate deg rad axis =>
    simp only [Action.run, Action.plain, Blade.Action.run, rotate, Blade.rotate]
    by_cases h0 : B.b.coordsUp = []
    · rw [if_pos h0, if_pos h0]; exact ⟨rfl, hM, Or.inl rfl⟩
    rw [if_neg h0, if_neg h0]
    rcases Blade.angle deg rad with e | ⟨t, c, s⟩
    · exact ⟨rfl, hM, Or.inl rfl⟩
    simp only
    rcases Blade.rotMatrix axis c s with _ | f
    · exact ⟨rfl, hM, Or.inl rfl⟩
    simp only
    rcases hS.rect with ⟨h, -⟩ | ⟨r1, r2, r3, r4⟩
    · exact absurd h h0
    have hd0 : B.b.coordsDown ≠ [] := by
      intro h
      rw [h] at r2
      have := hS.pos
      simp at r2
      omega
    rw [einsum, einsum, stack_rows h0 r3, stack_rows hd0 r4]
    simp only [Except.map]
    refine ⟨trivial, Or.inr ⟨?_, rfl, rfl⟩, Or.inl trivial⟩
    rw [(onFaces_coords _ _).1]
    exact hmp f h0
  | mirror args kwargs =>
    refine ⟨rfl, ?_, Or.inl rfl⟩
    obtain ⟨m1, m2⟩ := mirror_coords args kwargs B.b
    rcases hM with ⟨h1, h2, h3⟩ | ⟨h1, h2⟩
    · exact Or.inl ⟨m1.trans h1, m2.trans h2, h3⟩
    · exact Or.inr ⟨fun h => h1 (m1.symm.trans h), h2⟩
  | scale f =>
    simp only [Action.run, Action.plain, Blade.Action.run, scale, Blade.scale]
    have hz : ∀ k, (List.replicate k ([] : Face)).flatten = [] := fun k => by simp
    have hun : B.b.coordsUp = [] → B.b.upper = none := fun h => by
      by_contra hne
      exact hS.up hne h
    have hcase : ∀ b' : Blade, b' = { B.b with coordsUp := [], coordsDown := [] } → B.b.coordsUp = [] → B.b.coordsDown = [] → b' = B.b := by
      rintro b' rfl h1 h2
      obtain ⟨b, x, y⟩ := B
      obtain ⟨S, r, c, p, k, s', t', f', cu, cd, u, l, ti, ro⟩ := b
      simp only at h1 h2
      subst h1 h2
      rfl
    rcases hM with ⟨h1, h2, h3, h4⟩ | ⟨h0, h1, h2⟩
    · have hb : { B.b with coordsUp := mapPts (Blade.scalePt f.val) B.b.coordsUp, coordsDown := mapPts (Blade.scalePt f.val) B.b.coordsDown } = B.b :=
        hcase _ (by simp only [h1, h2, mapPts, List.map_nil]) h1 h2
      rw [hb]
      have hof : ∀ g, Blade.onFaces g B.b = (B.b, .error .typeError) := by intro g; simp only [Blade.onFaces, hun h1]
      rw [h1, h2, h3, h4]
      by_cases hf : f.val = 0
      · rw [if_pos hf]
        cases f with
        | int n =>
          simp only [times, Bool.false_eq_true, if_false, hz]
          rw [if_pos hf, hcase _ rfl h1 h2]
          exact ⟨rfl, Or.inl ⟨h1, h2, rfl, rfl⟩, Or.inl rfl⟩
        | float x =>
          simp only [times, Bool.false_eq_true, if_false]
          exact ⟨trivial, Or.inl ⟨h1, h2, h3, h4⟩, Or.inr ⟨_, rfl, hf⟩⟩
      · rw [if_neg hf, hof]
        cases f with
        | int n =>
          simp only [times, Bool.false_eq_true, if_false, hz]
          rw [if_neg hf, hcase _ rfl h1 h2, hof]
          exact ⟨rfl, Or.inl ⟨h1, h2, rfl, rfl⟩, Or.inl rfl⟩
        | float x =>
          simp only [times, Bool.false_eq_true, if_false]
          exact ⟨trivial, Or.inl ⟨h1, h2, h3, h4⟩, Or.inl trivial⟩
    · rw [h1, h2]
      simp only [times, if_true]
      split_ifs
      · exact ⟨rfl, Or.inr ⟨hmp _ h0, rfl, rfl⟩, Or.inl rfl⟩
      · refine ⟨rfl, Or.inr ⟨?_, rfl, rfl⟩, Or.inl rfl⟩
        simp only
        rw [(onFaces_coords _ _).1]
        exact hmp _ h0
  | exportPpg F w fs path D Dhub nB norm =>
    refine ⟨rfl, ?_, Or.inl rfl⟩
    simp only [Action.run]
    obtain ⟨ss, -, h3 | ⟨-, -, -, h3⟩⟩ := Blade.export_states F w fs path D Dhub nB norm hS.wf <;> rw [h3] <;> exact hM
  | reset => exact ⟨rfl, Or.inl ⟨rfl, rfl, rfl, rfl⟩, Or.inl rfl⟩

/-- **C113** for a blade of sections with equally many points, non-zero radii and no camber distribution the containers make no difference: after
every history the blade is the one of the model without containers, its coordinates are numpy arrays if there are any and empty Python lists otherwise, and
every further call has the outcome of that model (only the scaling by zero of a blade without coordinates may differ in its exception). -/
theorem C113_equal_sections (S : List Profile) (r c p k s : Arr) (t : Option Arr) (b₀ : Blade) (h : Blade.new S r c p k s t none = .ok b₀)
    (hne : S ≠ []) (hr : ∀ x ∈ r, x ≠ 0) (m : Nat) (hS : ∀ P ∈ S, P.Uniform ∧ P.upper.length = m) (as : List Action) :
    ∃ B₀, ListBlade.new S r c p k s t none = .ok B₀ ∧ (B₀.life as).b = b₀.life (as.map Action.plain) ∧
      ((B₀.life as).b.coordsUp ≠ [] → (B₀.life as).upArr = true ∧ (B₀.life as).downArr = true) ∧
      ((B₀.life as).b.coordsUp = [] → (B₀.life as).b.coordsDown = [] ∧ (B₀.life as).upArr = false ∧ (B₀.life as).downArr = false) ∧
      ∀ a : Action, (a.run (B₀.life as)).2 = (a.plain.run (b₀.life (as.map Action.plain))).2 ∨ ∃ f, a = .scale f ∧ f.val = 0 := by
  have key : ∀ (as : List Action) (B : ListBlade), Blade.Sound S.length m s t B.b → Matches B →
      (B.life as).b = B.b.life (as.map Action.plain) ∧ Matches (B.life as) ∧ Blade.Sound S.length m s t (B.life as).b := by
    intro as
    induction as with
    | nil => intro B hB hM; exact ⟨rfl, hM, hB⟩
    | cons a as ih =>
      intro B hB hM
      obtain ⟨h1, h2, -⟩ := step_refines hB hM a
      have h3 : Blade.Sound S.length m s t (a.run B).1.b := by rw [h1]; exact Blade.run_sound hB _
      obtain ⟨h4, h5⟩ := ih (a.run B).1 h3 h2
      refine ⟨?_, h5⟩
      rw [h1] at h4
      exact h4
  refine ⟨⟨b₀, false, false⟩, by rw [ListBlade.new, h]; rfl, ?_⟩
  have h0 := (Blade.new_sound S r c p k s t b₀ h hne hr m hS).1
  have hb : b₀.coordsUp = [] ∧ b₀.coordsDown = [] := by
    unfold Blade.new at h
    simp only at h
    split_ifs at h
    obtain rfl := Except.ok.inj h
    exact ⟨rfl, rfl⟩
  obtain ⟨k1, k2, k3⟩ := key as ⟨b₀, false, false⟩ h0 (Or.inl ⟨hb.1, hb.2, rfl, rfl⟩)
  refine ⟨k1, fun hne' => ?_, fun he => ?_, fun a => ?_⟩
  · rcases k2 with ⟨h1, -⟩ | h1
    · exact absurd h1 hne'
    · exact h1.2
  · rcases k2 with ⟨-, h1⟩ | h1
    · exact h1
    · exact absurd he h1.1
  · have h1 := (step_refines k3 k2 a).2.2
    rw [k1] at h1
    exact h1


/-- **C113** sections that are each in order but do not all have the same number of points: `apply_transformations` raises `ValueError` after
everything has been computed. Every section has been placed, and both coordinate attributes are Python lists (not arrays) holding exactly the points
a successful call would have stored; parameters and faces are as before. -/
theorem C113_unequal (B : ListBlade) (refl : Bool) (hW : B.b.WellFormed) (ht : B.b.thickness = none) (hf : B.b.camber = none)
    (hU : ∀ P ∈ B.b.sections, P.Uniform) (hr : ∀ r ∈ B.b.radii, r ≠ 0) (href : ∀ P ∈ B.b.sections, ∃ ref, P.referencePoint = .ok ref)
    (hd : ∃ P ∈ B.b.sections, ∃ Q ∈ B.b.sections, P.upper.length ≠ Q.upper.length) :
    ∃ ss up down, apply refl B = (⟨{ B.b with sections := ss, coordsUp := up, coordsDown := down }, false, false⟩, .error .valueError) ∧
      ss.length = B.b.sections.length ∧ up.length = B.b.sections.length ∧ down.length = B.b.sections.length ∧
      ∀ (i : Nat) (P : Profile) (r c p k s : ℝ), B.b.sections[i]? = some P → B.b.radii[i]? = some r → B.b.chord[i]? = some c →
        B.b.pitch[i]? = some p → B.b.rake[i]? = some k → B.b.skew[i]? = some s →
        ∃ ref Q, P.referencePoint = .ok ref ∧ ss[i]? = some Q ∧
          Q.upper = P.upper.map (placed refl r c p k s ref) ∧ Q.lower = P.lower.map (placed refl r c p k s ref) ∧
          up[B.b.sections.length - 1 - i]? = some (P.upper.map fun q => wrap r (placed refl r c p k s ref q)) ∧
          down[B.b.sections.length - 1 - i]? = some (P.lower.map fun q => wrap r (placed refl r c p k s ref q)) := by
  obtain ⟨ss, hl, hlen, hpl⟩ := loop_plain B.b refl hW ht hf hU hr href
  obtain ⟨hcnt, hU'⟩ := loop_counts hf (refl := refl) B.b.sections 0 hU
  rw [hl] at hcnt hU'
  simp only at hcnt hU'
  have hrl : B.b.radii.length = ss.length := hW.1.trans hlen.symm
  obtain ⟨P, hP, Q, hQ, hne⟩ := hd
  have hup : ∀ P : Profile, P.Uniform → P.upper.length = P.xup.length := by
    rintro P ⟨u1, u2, u3⟩
    simp only [Profile.upper, List.length_zip]; omega
  rw [hup P (hU P hP), hup Q (hU Q hQ)] at hne
  have hget : ∀ R ∈ B.b.sections, ∃ R' ∈ ss, R'.xup.length = R.xup.length := by
    intro R hR
    have : R.xup.length ∈ ss.map (fun P => P.xup.length) := by rw [hcnt]; exact List.mem_map_of_mem hR
    obtain ⟨R', h1, h2⟩ := List.mem_map.1 this
    exact ⟨R', h1, h2⟩
  obtain ⟨P', hP', eP⟩ := hget P hP
  obtain ⟨Q', hQ', eQ⟩ := hget Q hQ
  have hpl2 := planar_ragged { B with b := { B.b with sections := ss } } hrl hr hU' hP' hQ' (by rw [eP, eQ]; exact hne)
  have hln : ∀ f, (laid f ss B.b.radii).length = B.b.sections.length := by
    intro f
    simp only [laid, List.length_reverse, List.length_zipWith, hlen, hW.1]
    omega
  refine ⟨ss, laid Profile.upper ss B.b.radii, laid Profile.lower ss B.b.radii, ?_, hlen, hln _, hln _, ?_⟩
  · simp only [apply, hl]
    exact hpl2
  · intro i P r c p k s h1 h2 h3 h4 h5 h6
    obtain ⟨ref, Q, q1, q2, q3, q4⟩ := hpl i P r c p k s h1 h2 h3 h4 h5 h6
    have hi : i < B.b.sections.length := (List.getElem?_eq_some_iff.1 h1).1
    have hat : ∀ f : Profile → List Pt, (laid f ss B.b.radii)[B.b.sections.length - 1 - i]? = some ((f Q).map (wrap r)) := by
      intro f
      have hzl : (List.zipWith (fun P r => (f P).map (wrap r)) ss B.b.radii).length = B.b.sections.length := by
        have := hln f; simpa [laid] using this
      rw [laid, List.getElem?_reverse (by omega), hzl]
      rw [show B.b.sections.length - 1 - (B.b.sections.length - 1 - i) = i by omega, List.getElem?_zipWith, q2, h2]
    refine ⟨ref, Q, q1, q2, q3, q4, ?_, ?_⟩
    · rw [hat Profile.upper, q3, List.map_map]; rfl
    · rw [hat Profile.lower, q4, List.map_map]; rfl

/-- **C113** what such a blade does afterwards, while it has no faces: `rotate` gets past its check for missing coordinates and then always raises
`ValueError`, changing nothing; `scale` raises `TypeError`, with a `float` changing nothing, with an `int` different from zero after repeating the lists
of sections that many times; `plot` draws the blade. -/
theorem C113_unequal_after (B : ListBlade) (refl : Bool) (hW : B.b.WellFormed) (ht : B.b.thickness = none) (hf : B.b.camber = none)
    (hU : ∀ P ∈ B.b.sections, P.Uniform) (hr : ∀ r ∈ B.b.radii, r ≠ 0) (href : ∀ P ∈ B.b.sections, ∃ ref, P.referencePoint = .ok ref)
    (hd : ∃ P ∈ B.b.sections, ∃ Q ∈ B.b.sections, P.upper.length ≠ Q.upper.length) (hn : B.b.upper = none) (B' : ListBlade)
    (h : (apply refl B).1 = B') :
    (∀ deg rad axis, rotate deg rad axis B' = (B', .error .valueError)) ∧
    (∀ x, scale (.float x) B' = (B', .error .typeError)) ∧
    (∀ n : Int, n ≠ 0 → scale (.int n) B' = (⟨{ B'.b with
        coordsUp := (List.replicate n.toNat B'.b.coordsUp).flatten
        coordsDown := (List.replicate n.toNat B'.b.coordsDown).flatten }, false, false⟩, .error .typeError)) ∧
    (∃ cs, B'.b.plotted = .ok cs ∧ cs.length = 2 * B.b.sections.length ∧
      ∀ i < B.b.sections.length, cs[2 * i]? = B'.b.coordsUp[i]? ∧ cs[2 * i + 1]? = B'.b.coordsDown[i]?) := by
  obtain ⟨ss, up, down, he, l1, l2, l3, hpt⟩ := C113_unequal B refl hW ht hf hU hr href hd
  rw [he] at h
  subst h
  obtain ⟨wr, wc, wp, wk, ws⟩ := id hW
  obtain ⟨P, hP, Q, hQ, hne⟩ := hd
  have hpos : 0 < B.b.sections.length := List.length_pos_of_mem hP
  have hup0 : up ≠ [] := by rintro rfl; simp at l2; omega
  have hget : ∀ R ∈ B.b.sections, ∃ l ∈ up, l.length = R.upper.length := by
    intro R hR
    obtain ⟨i, hi, rfl⟩ := List.mem_iff_getElem.1 hR
    obtain ⟨ref, Q, q1, q2, q3, q4, q5, q6⟩ := hpt i _ _ _ _ _ _ (List.getElem?_eq_getElem hi) (List.getElem?_eq_getElem (show i < B.b.radii.length by omega))
      (List.getElem?_eq_getElem (show i < B.b.chord.length by omega)) (List.getElem?_eq_getElem (show i < B.b.pitch.length by omega))
      (List.getElem?_eq_getElem (show i < B.b.rake.length by omega)) (List.getElem?_eq_getElem (show i < B.b.skew.length by omega))
    exact ⟨_, List.mem_of_getElem? q5, by simp⟩
  obtain ⟨a, ha, hal⟩ := hget P hP
  obtain ⟨c, hc, hcl⟩ := hget Q hQ
  have hst : ∀ f, einsum f up = .error .valueError := by
    intro f
    rw [einsum]
    rcases hs : Blade.npStack up with e | d
    · unfold Blade.npStack at hs
      split at hs
      · cases hs; rfl
      · split_ifs at hs
        cases hs; rfl
    · obtain ⟨-, -, h⟩ := Blade.npStack_ok.1 hs
      exact absurd (hal.symm.trans ((h a ha c hc).trans hcl)) hne
  refine ⟨?_, ?_, ?_, ?_⟩
  · intro deg rad axis
    rw [rotate]
    simp only
    rw [if_neg hup0]
    rcases ha : Blade.angle deg rad with e | ⟨t, c, s⟩
    · simp only
      unfold Blade.angle at ha
      split_ifs at ha
      · cases ha; rfl
      · split at ha <;> cases ha
        rfl
    simp only
    rcases Blade.rotMatrix axis c s with _ | f
    · rfl
    · simp only
      rw [hst]
  · intro x
    simp [scale, times]
  · intro n hn0
    have h0 : (Factor.int n).val ≠ 0 := by simpa [Factor.val] using hn0
    simp only [scale, times, Bool.false_eq_true, if_false]
    rw [if_neg h0]
    simp only [Blade.onFaces, hn]
  · have := (C74_plot { B.b with sections := ss, coordsUp := up, coordsDown := down } (Or.inr ⟨l2.trans l1.symm, l3.trans l1.symm⟩)).2 hup0
    simp only [l1] at this
    exact this

/-- What stays true of a blade of unequal sections. -/
structure Unequal (cs : List Nat) (B : ListBlade) : Prop where
  wf : B.b.WellFormed
  counts : B.b.sections.map (fun P => P.xup.length) = cs
  unif : ∀ P ∈ B.b.sections, P.Uniform
  camb : B.b.camber = none
  radii : ∀ r ∈ B.b.radii, r ≠ 0
  up : B.b.upper = none
  lo : B.b.lower = none
  ti : B.b.tip = none
  ro : B.b.root = none

theorem apply_unequal {cs : List Nat} {B : ListBlade} (h : Unequal cs B) (hd : ∃ a ∈ cs, ∃ c ∈ cs, a ≠ c) (refl : Bool) :
    Unequal cs (apply refl B).1 ∧ (apply refl B).2 ≠ .ok () := by
  obtain ⟨hcnt, hU'⟩ := loop_counts h.camb (refl := refl) B.b.sections 0 h.unif
  have hlen : (Blade.sectionLoop B.b refl 0 B.b.sections).1.length = B.b.sections.length := by
    have := congrArg List.length hcnt; simpa using this
  have hwf : ∀ ss : List Profile, ss.length = B.b.sections.length → ∀ b' : Blade, b'.sections = ss → b'.radii = B.b.radii → b'.chord = B.b.chord →
      b'.pitch = B.b.pitch → b'.rake = B.b.rake → b'.skew = B.b.skew → b'.WellFormed := by
    intro ss hs b' e0 e1 e2 e3 e4 e5
    have := h.wf
    simpa only [Blade.WellFormed, e0, e1, e2, e3, e4, e5, hs] using this
  rcases hl : Blade.sectionLoop B.b refl 0 B.b.sections with ⟨ss, (e | ⟨⟩)⟩
  · rw [hl] at hcnt hU' hlen
    have h1 : apply refl B = ({ B with b := { B.b with sections := ss } }, .error e) := by simp only [apply, hl]
    rw [h1]
    exact ⟨⟨hwf ss hlen _ rfl rfl rfl rfl rfl rfl, hcnt.trans h.counts, hU', h.camb, h.radii, h.up, h.lo, h.ti, h.ro⟩, fun h => (by cases h)⟩
  · rw [hl] at hcnt hU' hlen
    simp only at hcnt hU' hlen
    obtain ⟨a, ha, c, hc, hac⟩ := hd
    rw [← h.counts, ← hcnt] at ha hc
    obtain ⟨P, hP, rfl⟩ := List.mem_map.1 ha
    obtain ⟨Q, hQ, rfl⟩ := List.mem_map.1 hc
    have h1 : apply refl B = planarToCylindrical { B with b := { B.b with sections := ss } } := by simp only [apply, hl]
    rw [h1, planar_ragged { B with b := { B.b with sections := ss } } (h.wf.1.trans hlen.symm) h.radii hU' hP hQ hac]
    exact ⟨⟨hwf ss hlen _ rfl rfl rfl rfl rfl rfl, hcnt.trans h.counts, hU', h.camb, h.radii, h.up, h.lo, h.ti, h.ro⟩, fun h => (by cases h)⟩

theorem noFaces_move {b : Blade} (h : b.upper = none) (f : Pt3 → Pt3) : Blade.onFaces f b = (b, .error .typeError) := by
  simp only [Blade.onFaces, h]

theorem run_unequal {cs : List Nat} {B : ListBlade} (h : Unequal cs B) (hd : ∃ a ∈ cs, ∃ c ∈ cs, a ≠ c) (a : Action) :
    Unequal cs (a.run B).1 ∧
    ((∃ F w fs path D Dhub nB norm, a = .exportPpg F w fs path D Dhub nB norm) ∨ a = .reset ∨ (a.run B).2 ≠ .ok ()) := by
  obtain ⟨h1, h2, h3, h4, h5, h6, h7, h8, h9⟩ := id h
  cases a with
  | apply refl => exact ⟨(apply_unequal h hd refl).1, Or.inr (Or.inr (apply_unequal h hd refl).2)⟩
  | build occ refl =>
    obtain ⟨k1, k2⟩ := apply_unequal h hd refl
    simp only [Action.run, build]
    rcases hB : apply refl B with ⟨B', (e | ⟨⟩)⟩
    · rw [hB] at k1
      exact ⟨k1, Or.inr (Or.inr fun h => (by cases h))⟩
    · rw [hB] at k2
      exact absurd rfl k2
  | rotate deg rad axis =>
    simp only [Action.run, rotate]
    split_ifs
    · exact ⟨h, Or.inr (Or.inr fun h => (by cases h))⟩
    rcases Blade.angle deg rad with e | ⟨t, c, s⟩
    · exact ⟨h, Or.inr (Or.inr fun h => (by cases h))⟩
    simp only
    rcases Blade.rotMatrix axis c s with _ | f
    · exact ⟨h, Or.inr (Or.inr fun h => (by cases h))⟩
    simp only
    rcases einsum f B.b.coordsUp with e | u
    · exact ⟨h, Or.inr (Or.inr fun h => (by cases h))⟩
    simp only
    rcases einsum f B.b.coordsDown with e | d
    · exact ⟨⟨h1, h2, h3, h4, h5, h6, h7, h8, h9⟩, Or.inr (Or.inr fun h => (by cases h))⟩
    simp only [Blade.onFaces, h6]
    exact ⟨⟨h1, h2, h3, h4, h5, rfl, h7, h8, h9⟩, Or.inr (Or.inr fun h => (by cases h))⟩
  | mirror args kwargs =>
    simp only [Action.run, mirror, Blade.mirror]
    split_ifs
    · exact ⟨h, Or.inr (Or.inr fun h => (by cases h))⟩
    rcases Blade.mirrorPlane args kwargs with e | ⟨p, n⟩
    · exact ⟨h, Or.inr (Or.inr fun h => (by cases h))⟩
    simp only
    rw [noFaces_move h6]
    exact ⟨h, Or.inr (Or.inr fun h => (by cases h))⟩
  | scale f =>
    simp only [Action.run, scale]
    rcases times B.upArr B.b.coordsUp f with e | u
    · exact ⟨h, Or.inr (Or.inr fun h => (by cases h))⟩
    simp only
    rcases times B.downArr B.b.coordsDown f with e | d
    · exact ⟨⟨h1, h2, h3, h4, h5, h6, h7, h8, h9⟩, Or.inr (Or.inr fun h => (by cases h))⟩
    simp only
    split_ifs
    · exact ⟨⟨h1, h2, h3, h4, h5, h6, h7, h8, h9⟩, Or.inr (Or.inr fun h => (by cases h))⟩
    · simp only [Blade.onFaces, h6]
      exact ⟨⟨h1, h2, h3, h4, h5, rfl, h7, h8, h9⟩, Or.inr (Or.inr fun h => (by cases h))⟩
  | exportPpg F w fs path D Dhub nB norm =>
    refine ⟨?_, Or.inl ⟨F, w, fs, path, D, Dhub, nB, norm, rfl⟩⟩
    simp only [Action.run]
    obtain ⟨ss, hss, hx⟩ := Blade.export_states F w fs path D Dhub nB norm h1
    have hs : ss.length = B.b.sections.length ∧ ss.map (fun P => P.xup.length) = cs ∧ ∀ P ∈ ss, P.Uniform := by
      rcases hss with rfl | ⟨hl, hp⟩
      · exact ⟨rfl, h2, h3⟩
      · refine ⟨hl, ?_, ?_⟩
        · rw [← h2]
          apply List.ext_getElem (by simp [hl])
          intro i x1 x2
          simp only [List.length_map] at x1 x2
          obtain ⟨Q, hQ, e1, -⟩ := hp i _ (List.getElem?_eq_getElem x1)
          obtain ⟨_, rfl⟩ := List.getElem?_eq_some_iff.1 hQ
          simp [e1]
        · intro P hP
          obtain ⟨i, hi, rfl⟩ := List.mem_iff_getElem.1 hP
          obtain ⟨Q, hQ, e1, e2, e3, e4⟩ := hp i _ (List.getElem?_eq_getElem hi)
          have := h3 Q (List.mem_of_getElem? hQ)
          simpa [Profile.Uniform, e1, e2, e3, e4] using this
    obtain ⟨s1, s2, s3⟩ := hs
    rcases hx with hx | ⟨-, -, hD, hx⟩
    · rw [hx]
      refine ⟨?_, s2, s3, h4, h5, h6, h7, h8, h9⟩
      simpa only [Blade.WellFormed, s1] using h1
    · rw [hx]
      refine ⟨?_, s2, s3, h4, ?_, h6, h7, h8, h9⟩
      · simpa [Blade.WellFormed, Blade.absToNorm, s1] using h1
      · intro x hx
        simp only [Blade.absToNorm, List.mem_map] at hx
        obtain ⟨y, hy, rfl⟩ := hx
        exact div_ne_zero (mul_ne_zero (h5 y hy) two_ne_zero) hD
  | reset => exact ⟨⟨h1, h2, h3, h4, h5, rfl, rfl, rfl, rfl⟩, Or.inr (Or.inl rfl)⟩

/-- **C113** a blade whose sections do not all have the same number of points never gets a face: whatever is called on it, in whatever order, no call
except `export_ppg` and `reset` ever succeeds, no solid can be made, and the sections keep their numbers of points. -/
theorem C113_unequal_forever (S : List Profile) (r c p k s : Arr) (t : Option Arr) (B₀ : ListBlade) (h : ListBlade.new S r c p k s t none = .ok B₀)
    (hr : ∀ x ∈ r, x ≠ 0) (hU : ∀ P ∈ S, P.Uniform) (hd : ∃ P ∈ S, ∃ Q ∈ S, P.upper.length ≠ Q.upper.length) (as : List Action) :
    ((B₀.life as).b.upper = none ∧ (B₀.life as).b.lower = none ∧ (B₀.life as).b.tip = none ∧ (B₀.life as).b.root = none) ∧
    (B₀.life as).b.sections.map (fun P => P.upper.length) = S.map (fun P => P.upper.length) ∧
    (∃ e, (B₀.life as).b.generateSolid = .error e) ∧
    ∀ a : Action, (∃ F w fs path D Dhub nB norm, a = .exportPpg F w fs path D Dhub nB norm) ∨ a = .reset ∨ ∃ e, (a.run (B₀.life as)).2 = .error e := by
  have hup : ∀ P : Profile, P.Uniform → P.upper.length = P.xup.length := by
    rintro P ⟨u1, u2, u3⟩
    simp only [Profile.upper, List.length_zip]; omega
  have hcs : ∃ a ∈ S.map (fun P => P.xup.length), ∃ c ∈ S.map (fun P => P.xup.length), a ≠ c := by
    obtain ⟨P, hP, Q, hQ, hne⟩ := hd
    rw [hup P (hU P hP), hup Q (hU Q hQ)] at hne
    exact ⟨_, List.mem_map_of_mem hP, _, List.mem_map_of_mem hQ, hne⟩
  have h0 : Unequal (S.map fun P => P.xup.length) B₀ := by
    rw [ListBlade.new] at h
    unfold Blade.new at h
    simp only at h
    split_ifs at h with hw
    · obtain rfl := Except.ok.inj (show Except.ok _ = Except.ok B₀ from h)
      exact ⟨hw, rfl, hU, rfl, hr, rfl, rfl, rfl, rfl⟩
    · cases h
  have key : ∀ (as : List Action) (B : ListBlade), Unequal (S.map fun P => P.xup.length) B → Unequal (S.map fun P => P.xup.length) (B.life as) := by
    intro as
    induction as with
    | nil => intro B hB; exact hB
    | cons a as ih => intro B hB; exact ih (a.run B).1 (run_unequal hB hcs a).1
  have hB := key as B₀ h0
  refine ⟨⟨hB.up, hB.lo, hB.ti, hB.ro⟩, ?_, ⟨.typeError, by simp [Blade.generateSolid, hB.up]⟩, ?_⟩
  · rw [List.map_congr_left fun P hP => hup P (hB.unif P hP), hB.counts]
    exact (List.map_congr_left fun P hP => hup P (hU P hP)).symm
  · intro a
    rcases (run_unequal hB hcs a).2 with h1 | h1 | h1
    · exact Or.inl h1
    · exact Or.inr (Or.inl h1)
    · refine Or.inr (Or.inr ?_)
      rcases hx : (a.run (B₀.life as)).2 with e | ⟨⟩
      · exact ⟨e, rfl⟩
      · exact absurd hx h1

/-- The sections the loop can place although the lower surface is longer than the upper one. -/
def Longer (P : Profile) : Prop := P.xup.length = P.yup.length ∧ P.xdown.length = P.ydown.length ∧ P.xup.length ≤ P.xdown.length

theorem rotate_longer {P : Profile} (h : Longer P) (a : ℝ) :
    ∃ Q, P.rotate (some a) none = .ok Q ∧ Longer Q ∧ Q.xup.length = P.xup.length ∧ Q.xdown.length = P.xdown.length := by
  obtain ⟨h1, h2, h3⟩ := h
  have hlen : ∀ (n : Nat) (xs ys : Arr), xs.length = ys.length → (Profile.rotCols (Real.cos a) (Real.sin a) n xs ys).length = xs.length := by
    intro n xs ys h
    simp [Profile.rotCols, h]
  refine ⟨_, by
    rw [Profile.rotate]
    simp only [Option.isSome_some, Option.isSome_none, Bool.false_eq_true, and_false, if_false, pure_bind]
    rw [if_neg (by simpa using h1), if_neg (by simpa using h2), if_neg (by omega)]
    rfl, ⟨?_, ?_, ?_⟩, ?_, ?_⟩ <;> simp [hlen _ _ _ h1, hlen _ _ _ h2, h3]

theorem section_longer {b : Blade} (ht : b.thickness = none) (hk : b.camber = none) {refl : Bool} {i : Nat} {r c p k s : ℝ}
    (h1 : b.radii[i]? = some r) (h2 : b.pitch[i]? = some p) (h3 : b.rake[i]? = some k) (h4 : b.skew[i]? = some s)
    (h5 : b.chord[i]? = some c) {P : Profile} (hU : Longer P) (hr : r ≠ 0) {ref : Pt} (href : P.referencePoint = .ok ref) :
    ∃ Q, Blade.runSteps (Blade.sectionSteps b refl i) P = (Q, .ok ()) ∧ Longer Q ∧ Q.xup.length = P.xup.length ∧ Q.xdown.length = P.xdown.length := by
  have g1 := Blade.getIdx_ok.2 h1
  have g2 := Blade.getIdx_ok.2 h2
  have g3 := Blade.getIdx_ok.2 h3
  have g4 := Blade.getIdx_ok.2 h4
  obtain ⟨R, hR⟩ : ∃ R, R = (P.translate (-ref)).mulAll c := ⟨_, rfl⟩
  obtain ⟨R', hR'⟩ : ∃ R', R' = if refl then R.reflect else R := ⟨_, rfl⟩
  have hl : R'.xup.length = P.xup.length ∧ R'.yup.length = P.yup.length ∧ R'.xdown.length = P.xdown.length ∧ R'.ydown.length = P.ydown.length := by
    rw [hR', hR]
    cases refl <;> simp [Profile.translate, Profile.mulAll, Profile.reflect]
  obtain ⟨l1, l2, l3, l4⟩ := hl
  have hL : Longer R' := by
    obtain ⟨u1, u2, u3⟩ := hU
    exact ⟨by rw [l1, l2, u1], by rw [l3, l4, u2], by rw [l1, l3]; exact u3⟩
  obtain ⟨Q, hQ, ⟨q1, q2, q3⟩, q4, q5⟩ := rotate_longer hL (Real.pi / 2 - Real.arctan (p / (2 * Real.pi * r)))
  refine ⟨(Q.translate (0, -(r * radians s Real.pi))).translate (-(k + Real.pi * s / 180 * p / (2 * Real.pi)), 0), ?_, ?_, ?_, ?_⟩
  · rw [Blade.runSteps_ok, Blade.steps_split, (Blade.head_ok (refl := refl) h5 (P := P)).2 ref href, ← hR]
    have hmid : (((Blade.sectionSteps b refl i).drop 2).take 2).foldlM (fun P f => f P) R = (.ok R : Res Profile) := by
      simp [Blade.sectionSteps, ht, hk, bind, Except.bind, pure, Except.pure]
    show (do
      let S ← (((Blade.sectionSteps b refl i).drop 2).take 2).foldlM (fun P f => f P) R
      ((Blade.sectionSteps b refl i).drop 4).foldlM (fun P f => f P) S : Res Profile) = _
    rw [hmid]
    simp only [Blade.sectionSteps, List.drop_succ_cons, List.drop_zero, List.foldlM_cons, bind, Except.bind, g1, g2, g3, g4, Blade.pitchAngle,
        hr, if_false, ← hR', hQ, pure, Except.pure, Blade.inducedRake_ok hr, List.foldlM_nil]
  · simpa [Longer, Profile.translate] using ⟨q1, q2, q3⟩
  · simp [Profile.translate, q4, l1]
  · simp [Profile.translate, q5, l3]

theorem laid_lengths {f : Profile → List Pt} {ss : List Profile} {rs : Arr} (h : rs.length = ss.length) :
    (laid f ss rs).map List.length = (ss.map fun P => (f P).length).reverse := by
  rw [laid, List.map_reverse]
  congr 1
  apply List.ext_getElem
  · simp [h]
  · intro i h1 h2
    simp

/-- Rows of different lengths cannot be stacked. -/
theorem stack_unequal {F : Face} (h : ∃ a ∈ F, ∃ c ∈ F, a.length ≠ c.length) : Blade.npStack F = .error .valueError := by
  rcases hs : Blade.npStack F with e | d
  · unfold Blade.npStack at hs
    split at hs
    · cases hs; rfl
    · split_ifs at hs
      cases hs; rfl
  · obtain ⟨-, -, h3⟩ := Blade.npStack_ok.1 hs
    obtain ⟨a, ha, c, hc, hne⟩ := h
    exact absurd (h3 a ha c hc) hne

theorem mem_lengths {F : Face} {l : List Nat} (h : F.map List.length = l.reverse) {n m : Nat} (hn : n ∈ l) (hm : m ∈ l) (hne : n ≠ m) :
    ∃ a ∈ F, ∃ c ∈ F, a.length ≠ c.length := by
  have key : ∀ k ∈ l, ∃ a ∈ F, a.length = k := by
    intro k hk
    have : k ∈ F.map List.length := by rw [h]; exact List.mem_reverse.2 hk
    exact List.mem_map.1 this
  obtain ⟨a, ha, rfl⟩ := key n hn
  obtain ⟨c, hc, rfl⟩ := key m hm
  exact ⟨a, ha, c, hc, hne⟩

/-- **C113** sections whose upper surfaces all have `m` points while the lower ones, never shorter, do not all have the same number: `apply_transformations` raises
`ValueError` and leaves two Python lists. `rotate` then turns the upper coordinates, which become an array, and raises `ValueError` at the lower ones, which it leaves;
after that `scale` by a `float` multiplies the upper coordinates and raises `TypeError` at the lower ones. Nothing else of the blade changes. -/
theorem C113_half_rotated (B : ListBlade) (refl : Bool) (hW : B.b.WellFormed) (ht : B.b.thickness = none) (hf : B.b.camber = none) (m : Nat)
    (hP : ∀ P ∈ B.b.sections, P.xup.length = m ∧ P.yup.length = m ∧ P.xdown.length = P.ydown.length ∧ m ≤ P.xdown.length)
    (hr : ∀ r ∈ B.b.radii, r ≠ 0) (href : ∀ P ∈ B.b.sections, ∃ ref, P.referencePoint = .ok ref)
    (hd : ∃ P ∈ B.b.sections, ∃ Q ∈ B.b.sections, P.xdown.length ≠ Q.xdown.length) :
    ∃ ss up down, apply refl B = (⟨{ B.b with sections := ss, coordsUp := up, coordsDown := down }, false, false⟩, .error .valueError) ∧
      up.map List.length = (B.b.sections.map fun P => P.xup.length).reverse ∧ down.map List.length = (B.b.sections.map fun P => P.xdown.length).reverse ∧
      ∀ (deg rad : Option ℝ) (axis : Str) (t c s : ℝ) (f : Pt3 → Pt3), Blade.angle deg rad = .ok (t, c, s) → Blade.rotMatrix axis c s = some f →
        rotate deg rad axis (apply refl B).1 =
          (⟨{ B.b with sections := ss, coordsUp := up.map (List.map f), coordsDown := down }, true, false⟩, .error .valueError) ∧
        ∀ x : ℝ, scale (.float x) (rotate deg rad axis (apply refl B).1).1 =
          (⟨{ B.b with sections := ss, coordsUp := up.map (List.map fun q => Blade.scalePt x (f q)), coordsDown := down }, true, false⟩,
            .error .typeError) := by
  obtain ⟨wr, wc, wp, wk, ws⟩ := id hW
  have stepEx : ∀ i, ∃ Q, ∀ hi : i < B.b.sections.length,
      Blade.runSteps (Blade.sectionSteps B.b refl i) B.b.sections[i] = (Q, .ok ()) ∧ Longer Q ∧ Q.xup.length = B.b.sections[i].xup.length ∧
        Q.xdown.length = B.b.sections[i].xdown.length := by
    intro i
    by_cases hi : i < B.b.sections.length
    · have hPm : B.b.sections[i] ∈ B.b.sections := List.getElem_mem hi
      obtain ⟨ref, hre⟩ := href _ hPm
      obtain ⟨a1, a2, a3, a4⟩ := hP _ hPm
      obtain ⟨Q, q⟩ := section_longer ht hf (refl := refl) (List.getElem?_eq_getElem (show i < B.b.radii.length by omega))
        (List.getElem?_eq_getElem (show i < B.b.pitch.length by omega)) (List.getElem?_eq_getElem (show i < B.b.rake.length by omega))
        (List.getElem?_eq_getElem (show i < B.b.skew.length by omega)) (List.getElem?_eq_getElem (show i < B.b.chord.length by omega))
        (P := B.b.sections[i]) ⟨a1.trans a2.symm, a3, by omega⟩ (hr _ (List.getElem_mem _)) hre
      exact ⟨Q, fun _ => q⟩
    · exact ⟨Sample.foil, fun h => absurd h hi⟩
  choose g hg using stepEx
  obtain ⟨ss, hss⟩ : ∃ ss, ss = (List.range B.b.sections.length).map g := ⟨_, rfl⟩
  have hl : Blade.sectionLoop B.b refl 0 B.b.sections = (ss, .ok ()) := by
    rw [Blade.sectionLoop_ok]
    refine ⟨by simp [hss], ?_⟩
    intro j P Q hP hQ
    obtain ⟨hj, rfl⟩ := List.getElem?_eq_some_iff.1 hP
    simp only [hss, List.getElem?_map, List.getElem?_range hj, Option.map_some, Option.some.injEq] at hQ
    subst hQ
    rw [Nat.zero_add]
    exact (hg j hj).1
  have hlen : ss.length = B.b.sections.length := by simp [hss]
  have hLs : ∀ Q ∈ ss, Longer Q := by
    intro Q hQ
    rw [hss] at hQ
    obtain ⟨i, hi, rfl⟩ := List.mem_map.1 hQ
    exact (hg i (List.mem_range.1 hi)).2.1
  have hu : ss.map (fun P => P.xup.length) = B.b.sections.map fun P => P.xup.length := by
    apply List.ext_getElem (by simp [hlen])
    intro i h1 h2
    simp only [List.length_map] at h1 h2
    simp [hss, (hg i h2).2.2.1]
  have hdn : ss.map (fun P => P.xdown.length) = B.b.sections.map fun P => P.xdown.length := by
    apply List.ext_getElem (by simp [hlen])
    intro i h1 h2
    simp only [List.length_map] at h1 h2
    simp [hss, (hg i h2).2.2.2]
  have hrl : B.b.radii.length = ss.length := wr.trans hlen.symm
  have hup : (laid Profile.upper ss B.b.radii).map List.length = (B.b.sections.map fun P => P.xup.length).reverse := by
    rw [laid_lengths hrl, ← hu]
    congr 1
    refine List.map_congr_left fun P hP => ?_
    obtain ⟨u1, u2, u3⟩ := hLs P hP
    simp only [Profile.upper, List.length_zip]; omega
  have hdown : (laid Profile.lower ss B.b.radii).map List.length = (B.b.sections.map fun P => P.xdown.length).reverse := by
    rw [laid_lengths hrl, ← hdn]
    congr 1
    refine List.map_congr_left fun P hP => ?_
    obtain ⟨u1, u2, u3⟩ := hLs P hP
    simp only [Profile.lower, List.length_zip]; omega
  obtain ⟨P, hPm, Q, hQm, hne⟩ := hd
  have hstd := stack_unequal (mem_lengths hdown (List.mem_map_of_mem hPm) (List.mem_map_of_mem hQm) hne)
  have hrows : ∀ l ∈ laid Profile.upper ss B.b.radii, l.length = m := by
    intro l hlm
    have h1 : l.length ∈ (laid Profile.upper ss B.b.radii).map List.length := List.mem_map_of_mem hlm
    rw [hup, List.mem_reverse] at h1
    obtain ⟨R, hR, e⟩ := List.mem_map.1 h1
    exact e.symm.trans (hP R hR).1
  have hun : laid Profile.upper ss B.b.radii ≠ [] := by
    intro h
    rw [h] at hup
    have := congrArg List.length hup
    simp only [List.map_nil, List.length_nil, List.length_reverse, List.length_map] at this
    rw [List.length_eq_zero_iff.1 this.symm] at hPm
    simp at hPm
  have hst := stack_rows hun hrows
  have hlists : lists (List.zip ss.reverse B.b.radii.reverse) [] [] =
      ((laid Profile.upper ss B.b.radii, laid Profile.lower ss B.b.radii), .ok ()) := by
    rw [lists_good, zip_reverse hrl, zip_reverse hrl]
    · simp
    · rintro ⟨P, r⟩ hs
      obtain ⟨u1, u2, u3⟩ := hLs P (List.mem_reverse.1 (List.of_mem_zip hs).1)
      exact ⟨hr r (List.mem_reverse.1 (List.of_mem_zip hs).2), u1, u2⟩
  have hap : apply refl B = (⟨{ B.b with sections := ss, coordsUp := laid Profile.upper ss B.b.radii, coordsDown := laid Profile.lower ss B.b.radii },
      false, false⟩, .error .valueError) := by
    simp only [apply, hl, planarToCylindrical, hlists, hstd]
  refine ⟨ss, _, _, hap, hup, hdown, ?_⟩
  intro deg rad axis t c s f ha hm
  have hrot : rotate deg rad axis (apply refl B).1 = (⟨{ B.b with sections := ss, coordsUp := mapPts f (laid Profile.upper ss B.b.radii), coordsDown := laid Profile.lower ss B.b.radii }, true, false⟩, .error .valueError) := by
    rw [hap, rotate]
    simp only
    rw [if_neg hun, ha]
    simp only [hm, einsum, hst, hstd, Except.map]
  refine ⟨hrot, fun x => ?_⟩
  rw [hrot]
  simp only [scale, times, if_true, Bool.false_eq_true, if_false, Factor.val]
  simp [mapPts, List.map_map, Function.comp_def]

/-- A blade whose root section has four stations and whose tip section has three. -/
private def uneven : ListBlade where
  b := { sections := [Sample.foil, Sample.openTE], radii := [1, 2], chord := [1, 1/2], pitch := [1, 1], rake := [0, 1/10], skew := [0, 10],
         thickness := none, camber := none, coordsUp := [], coordsDown := [], upper := none, lower := none, tip := none, root := none }
  upArr := false
  downArr := false

private theorem openTE_reference : ∃ ref, Sample.openTE.referencePoint = .ok ref := by
  rw [Profile.referencePoint_ends (a := (0, 0)) (b := (1, 1/10)) (c := (0, 0)) (d := (1, -1/10)) ⟨by simp [Sample.openTE], by simp [Sample.openTE]⟩
    ⟨by simp [Sample.openTE, Profile.upper], by simp [Sample.openTE, Profile.upper], by simp [Sample.openTE, Profile.lower],
      by simp [Sample.openTE, Profile.lower]⟩]
  rw [if_neg (by norm_num)]
  exact ⟨_, rfl⟩

/-- Such a blade meets the hypotheses of `C113_unequal`, `C113_unequal_after` and `C113_unequal_forever`. -/
example : uneven.b.WellFormed ∧ uneven.b.thickness = none ∧ uneven.b.camber = none ∧ (∀ P ∈ uneven.b.sections, P.Uniform) ∧
    (∀ r ∈ uneven.b.radii, r ≠ 0) ∧ (∀ P ∈ uneven.b.sections, ∃ ref, P.referencePoint = .ok ref) ∧
    (∃ P ∈ uneven.b.sections, ∃ Q ∈ uneven.b.sections, P.upper.length ≠ Q.upper.length) ∧ uneven.b.upper = none ∧
    ListBlade.new [Sample.foil, Sample.openTE] [1, 2] [1, 1/2] [1, 1] [0, 1/10] [0, 10] none none = .ok uneven := by
  refine ⟨by simp [uneven, Blade.WellFormed], rfl, rfl, by simp [uneven, Sample.foil, Sample.openTE, Profile.Uniform], by simp [uneven], ?_, ?_, rfl, ?_⟩
  · intro P hP
    simp only [uneven, List.mem_cons, List.not_mem_nil, or_false] at hP
    rcases hP with rfl | rfl
    · exact ⟨_, Sample.foil_reference⟩
    · exact openTE_reference
  · exact ⟨Sample.foil, by simp [uneven], Sample.openTE, by simp [uneven], by simp [Sample.foil, Sample.openTE, Profile.upper]⟩
  · simp [ListBlade.new, Blade.new, uneven, Except.map]

/-- A section with one station more on its lower surface. -/
private def longLower : Profile := { Sample.foil with xdown := [0, 1/4, 1/2, 3/4, 1], ydown := [0, 0, 0, 0, 0] }

private theorem longLower_reference : ∃ ref, longLower.referencePoint = .ok ref := by
  rw [Profile.referencePoint_ends (a := (0, 0)) (b := (1, 0)) (c := (0, 0)) (d := (1, 0)) ⟨by simp [longLower, Sample.foil], by simp [longLower, Sample.foil]⟩
    ⟨by simp [longLower, Sample.foil, Profile.upper], by simp [longLower, Sample.foil, Profile.upper], by simp [longLower, Profile.lower],
      by simp [longLower, Profile.lower]⟩]
  rw [if_neg (by norm_num)]
  exact ⟨_, rfl⟩

/-- A blade meeting the hypotheses of `C113_half_rotated`. -/
example : ∃ B : ListBlade, ListBlade.new [Sample.foil, longLower] [1, 2] [1, 1/2] [1, 1] [0, 1/10] [0, 10] none none = .ok B ∧ B.b.WellFormed ∧
    B.b.thickness = none ∧ B.b.camber = none ∧
    (∀ P ∈ B.b.sections, P.xup.length = 4 ∧ P.yup.length = 4 ∧ P.xdown.length = P.ydown.length ∧ 4 ≤ P.xdown.length) ∧ (∀ r ∈ B.b.radii, r ≠ 0) ∧
    (∀ P ∈ B.b.sections, ∃ ref, P.referencePoint = .ok ref) ∧ (∃ P ∈ B.b.sections, ∃ Q ∈ B.b.sections, P.xdown.length ≠ Q.xdown.length) ∧
    (∃ t c s f, Blade.angle (some 30) none = .ok (t, c, s) ∧ Blade.rotMatrix "x".toList c s = some f) := by
  refine ⟨_, by simp [ListBlade.new, Blade.new, Except.map]; rfl, by simp [Blade.WellFormed], rfl, rfl, by simp [longLower, Sample.foil], by simp, ?_, ?_, ?_⟩
  · intro P hP
    simp only [List.mem_cons, List.not_mem_nil, or_false] at hP
    rcases hP with rfl | rfl
    · exact ⟨_, Sample.foil_reference⟩
    · exact longLower_reference
  · exact ⟨Sample.foil, by simp, longLower, by simp, by simp [longLower, Sample.foil]⟩
  · exact ⟨_, _, _, _, rfl, rfl⟩

/-- The hypotheses of `C113_equal_sections` can be met. -/
example : ∃ b₀, Blade.new [Sample.foil, Sample.foil] [1, 2] [1, 1] [1, 1] [0, 0] [0, 0] none none = .ok b₀ ∧ [Sample.foil, Sample.foil] ≠ [] ∧
    (∀ x ∈ ([1, 2] : Arr), x ≠ 0) ∧ ∀ P ∈ [Sample.foil, Sample.foil], P.Uniform ∧ P.upper.length = 4 := by
  refine ⟨_, by rw [Blade.new, if_pos (by simp)], by simp, by simp, ?_⟩
  simp [Sample.foil, Profile.Uniform, Profile.upper]

end ListBlade
end
end BladeX
