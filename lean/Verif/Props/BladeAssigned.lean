import Verif.Lemmas.BladeAssigned
import Verif.Props.Blade
import Verif.Props.Units

/-! # C135: attributes of a blade assigned after construction -/

namespace BladeX
noncomputable section
open Spec Classical
open Blade (runSteps sectionSteps sectionLoop cylindrical)
namespace AssignedBlade

theorem loop_eq {a : AssignedBlade} {b : Blade} {refl : Bool} : ∀ (Ps pre : List Profile),
    (∀ i, pre.length ≤ i → i < pre.length + Ps.length → a.steps refl i = sectionSteps b refl i) →
    a.loop refl (List.range' pre.length Ps.length) (pre ++ Ps) =
      (pre ++ (sectionLoop b refl pre.length Ps).1, (sectionLoop b refl pre.length Ps).2) := by
  intro Ps
  induction Ps with
  | nil => intro pre _; simp [loop, sectionLoop]
  | cons P Ps ih =>
    intro pre h
    have hs := h pre.length le_rfl (by simp)
    simp only [List.length_cons, List.range'_succ, loop]
    have e : (pre ++ P :: Ps)[pre.length]? = some P := by simp
    rw [e]
    simp only [hs, sectionLoop]
    rcases hr : runSteps (sectionSteps b refl pre.length) P with ⟨Q, (e' | u)⟩
    · simp
    · simp only
      have e2 : (pre ++ P :: Ps).set pre.length Q = (pre ++ [Q]) ++ Ps := by simp
      have hl : (pre ++ [Q]).length = pre.length + 1 := by simp
      have := ih (pre ++ [Q]) (fun i h1 h2 => h i (by omega) (by simp only [List.length_cons]; omega))
      rw [e2, ← hl, this]
      simp

/-- With one value per section the statements are those of `Model/Blade.lean`. -/
theorem steps_wellformed {a : AssignedBlade} (hW : a.b.WellFormed) (hn : a.n = a.b.sections.length) (refl : Bool) {i : Nat}
    (hi : i < a.n) : a.steps refl i = sectionSteps a.b refl i := by
  obtain ⟨wr, wc, wp, wk, ws⟩ := hW
  have hr := List.getElem?_eq_getElem (l := a.b.radii) (i := i) (by omega)
  have hp := List.getElem?_eq_getElem (l := a.b.pitch) (i := i) (by omega)
  have hk := List.getElem?_eq_getElem (l := a.b.rake) (i := i) (by omega)
  have hs := List.getElem?_eq_getElem (l := a.b.skew) (i := i) (by omega)
  obtain ⟨h1, h2⟩ := angles_of hr hs (by omega) (.inl ⟨by omega, hp⟩)
  have e1 := Blade.getIdx_ok.2 hr
  have e2 := Blade.getIdx_ok.2 hp
  have e3 := Blade.getIdx_ok.2 hk
  have e4 := Blade.getIdx_ok.2 hs
  unfold steps sectionSteps
  rw [h1, h2, hn]
  simp only [e1, e2, e3, e4, bind, Except.bind]
  rfl

theorem apply_wellformed {a : AssignedBlade} (hW : a.b.WellFormed) (hn : a.n = a.b.sections.length) (refl : Bool) :
    apply refl a = (⟨(a.b.applyTransformations refl).1, a.n⟩, (a.b.applyTransformations refl).2) := by
  have := loop_eq (a := a) (b := a.b) (refl := refl) a.b.sections [] (fun i _ h => steps_wellformed hW hn refl (by simpa [hn] using h))
  simp only [List.length_nil, List.nil_append, Prod.mk.eta] at this
  unfold apply Blade.applyTransformations
  rw [hn, List.range_eq_range', this]
  rcases sectionLoop a.b refl 0 a.b.sections with ⟨ss, (e | u)⟩
  · rfl
  · simp only
    rcases cylindrical ss a.b.radii with e | ⟨up, down⟩ <;> rfl

end AssignedBlade
open AssignedBlade

namespace Sample

theorem trio_uniform : trio.Uniform := by simp [Profile.Uniform, trio]
theorem trio_reference : trio.referencePoint = .ok (1, 0) := by
  rw [C06_reference_is_midpoint _ trio_ref.updateEdges]; simp [mid]

/-- A blade of two sections whose radii are no longer those of the distributions: three values each. -/
def longer : AssignedBlade :=
  ⟨{ trioBlade none none with radii := [1, 2, 3], chord := [1, 1, 1], pitch := [2, 4, 6], rake := [0, 1, 2], skew := [0, 10, 20] }, 2⟩

/-- The same with a third section and `n_sections` still two. -/
def longerStill : AssignedBlade :=
  ⟨{ trioBlade none none with sections := [trio, trio, trio], radii := [1, 2, 3], chord := [1, 1, 1], pitch := [2], rake := [0, 1, 2], skew := [0, 10, 20] }, 2⟩

end Sample

/-- **C135** Redesigning a blade object: when sections and distributions are assigned to the attributes of an existing blade, as many as it has sections,
`apply_transformations` does what it does on a new blade made of them: the same sections and coordinates, or the same exception. The four faces stay those of
the old design. -/
theorem C135_like_new (old : Blade) (S : List Profile) (r c p k s : Arr) (t f : Option Arr) (new : Blade)
    (hnew : Blade.new S r c p k s t f = .ok new) (refl : Bool) (new' : Blade) (res : Res Unit)
    (h : new.applyTransformations refl = (new', res)) :
    ∃ a', apply refl ⟨{ old with sections := S, radii := r, chord := c, pitch := p, rake := k, skew := s, thickness := t, camber := f }, S.length⟩ =
        (a', res) ∧ a'.b.sections = new'.sections ∧
      (res = .ok () → a'.b.coordsUp = new'.coordsUp ∧ a'.b.coordsDown = new'.coordsDown) ∧
      a'.b.upper = old.upper ∧ a'.b.lower = old.lower ∧ a'.b.tip = old.tip ∧ a'.b.root = old.root := by
  unfold Blade.new at hnew
  simp only at hnew
  split at hnew
  case isFalse => cases hnew
  rename_i hl
  obtain rfl := Except.ok.inj hnew
  rw [apply_wellformed (by exact ⟨hl.1, hl.2.1, hl.2.2.1, hl.2.2.2.1, hl.2.2.2.2⟩) rfl]
  unfold Blade.applyTransformations at h ⊢
  have e : ∀ (i : Nat) (Ps : List Profile) (b₁ b₂ : Blade), b₁.sections = b₂.sections → b₁.radii = b₂.radii → b₁.chord = b₂.chord →
      b₁.pitch = b₂.pitch → b₁.rake = b₂.rake → b₁.skew = b₂.skew → b₁.thickness = b₂.thickness → b₁.camber = b₂.camber →
      sectionLoop b₁ refl i Ps = sectionLoop b₂ refl i Ps := by
    intro i Ps b₁ b₂ h1 h2 h3 h4 h5 h6 h7 h8
    have hs : ∀ i, sectionSteps b₁ refl i = sectionSteps b₂ refl i := by
      intro i; unfold sectionSteps; rw [h1, h2, h3, h4, h5, h6, h7, h8]
    induction Ps generalizing i with
    | nil => rfl
    | cons P Ps ih => simp only [sectionLoop, hs, ih]
  rw [e 0 S { old with sections := S, radii := r, chord := c, pitch := p, rake := k, skew := s, thickness := t, camber := f }
    { sections := S, radii := r, chord := c, pitch := p, rake := k, skew := s, thickness := t, camber := f, coordsUp := [], coordsDown := [], upper := none,
      lower := none, tip := none, root := none } rfl rfl rfl rfl rfl rfl rfl rfl]
  simp only at h ⊢
  generalize sectionLoop _ refl 0 S = L at h ⊢
  rcases L with ⟨ss, (er | u)⟩
  · simp only at h ⊢
    obtain ⟨rfl, rfl⟩ := Prod.mk.inj h
    exact ⟨_, rfl, rfl, by simp, rfl, rfl, rfl, rfl⟩
  · simp only at h ⊢
    generalize cylindrical ss r = F at h ⊢
    rcases F with er | ⟨up, down⟩
    · simp only at h ⊢
      obtain ⟨rfl, rfl⟩ := Prod.mk.inj h
      exact ⟨_, rfl, rfl, by simp, rfl, rfl, rfl, rfl⟩
    · simp only at h ⊢
      obtain ⟨rfl, rfl⟩ := Prod.mk.inj h
      exact ⟨_, rfl, rfl, fun _ => ⟨rfl, rfl⟩, rfl, rfl, rfl, rfl⟩

/-- The hypotheses are met: a blade with a face, redesigned. -/
example : ∃ new new' a', Blade.new [Sample.trio, Sample.trio] [1, 2] [1, 1] [2, 4] [0, 1] [0, 10] none none = .ok new ∧
    new.applyTransformations true = (new', .ok ()) ∧
    apply true ⟨{ { Sample.trioBlade none none with radii := [5, 6], upper := some [[(1, 2, 3)]] } with
      sections := [Sample.trio, Sample.trio], radii := [1, 2], chord := [1, 1], pitch := [2, 4], rake := [0, 1], skew := [0, 10], thickness := none, camber := none }, 2⟩ =
        (a', .ok ()) ∧ a'.b.coordsUp = new'.coordsUp ∧ a'.b.upper = some [[(1, 2, 3)]] := by
  obtain ⟨new', hn⟩ := Sample.trio_applies none none true (by
    intro i hi
    refine ⟨Sample.trio0, ?_, Sample.trio0_uniform, by simp [Sample.trio0]⟩
    interval_cases i <;> simp [Blade.sectionSteps, Sample.trioBlade, bind, Except.bind, pure, Except.pure])
  have hnew : Blade.new [Sample.trio, Sample.trio] [1, 2] [1, 1] [2, 4] [0, 1] [0, 10] none none = .ok (Sample.trioBlade none none) := by
    simp [Blade.new, Sample.trioBlade]
  obtain ⟨a', h1, _, h2, h3, _⟩ := C135_like_new { Sample.trioBlade none none with radii := [5, 6], upper := some [[(1, 2, 3)]] } _ _ _ _ _ _ _ _ _ hnew true
    new' _ hn
  exact ⟨_, new', a', hnew, hn, h1, (h2 rfl).1, h3⟩

/-- **C135** (violation) What is paired with what when the lengths differ: the loop transforms the first `n` sections (`n`, the number of sections at
construction), each with the values of its own index; then the sections and the radii are paired from their last entries on. Coordinates `j` belong to the
section `S - 1 - j` on the cylinder of the radius `R - 1 - j`; sections from `n` on are laid on the cylinder as they are given. -/
theorem C135_pairing (a a' : AssignedBlade) (refl : Bool) (ht : a.b.thickness = none) (hf : a.b.camber = none)
    (hU : ∀ P ∈ a.b.sections, P.Uniform) (h : apply refl a = (a', .ok ())) (S R : Nat) (hS : S = a.b.sections.length) (hR : R = a.b.radii.length) :
    a.n ≤ S ∧ a'.n = a.n ∧ a'.b.coordsUp.length = min S R ∧ a'.b.coordsDown.length = min S R ∧ 0 < min S R ∧
    ∀ (j : Nat) (P : Profile) (ρ : ℝ), j < min S R → a.b.sections[S - 1 - j]? = some P → a.b.radii[R - 1 - j]? = some ρ → ρ ≠ 0 ∧
      (a.n ≤ S - 1 - j → a'.b.coordsUp[j]? = some (P.upper.map (wrap ρ)) ∧ a'.b.coordsDown[j]? = some (P.lower.map (wrap ρ))) ∧
      (S - 1 - j < a.n → ∃ ref r c p k s, P.referencePoint = .ok ref ∧ a.b.radii[S - 1 - j]? = some r ∧ a.b.chord[S - 1 - j]? = some c ∧
        (a.b.pitch[S - 1 - j]? = some p ∨ a.b.pitch = [p]) ∧ a.b.rake[S - 1 - j]? = some k ∧ a.b.skew[S - 1 - j]? = some s ∧
        a'.b.coordsUp[j]? = some (P.upper.map fun q => wrap ρ (placed refl r c p k s ref q)) ∧
        a'.b.coordsDown[j]? = some (P.lower.map fun q => wrap ρ (placed refl r c p k s ref q))) := by
  obtain ⟨ss, up, down, h1, h2, rfl⟩ := apply_ok.1 h
  obtain ⟨l1, l2, l3⟩ := (loop_ok a refl _ _ _ List.nodup_range).1 h1
  have hn : a.n ≤ S := by
    rcases Nat.eq_zero_or_pos a.n with h0 | h0
    · omega
    · have := l2 (a.n - 1) (by simp; omega)
      omega
  rw [cylindrical_drop] at h2
  set m := min ss.length a.b.radii.length with hm
  have hm' : m = min S R := by rw [hm, l1, hS, hR]
  have hlen : (a.b.radii.drop (a.b.radii.length - m)).length = (ss.drop (ss.length - m)).length := by
    simp only [List.length_drop]; omega
  obtain ⟨c1, c2, c3, c4, c5⟩ := (Blade.cylindrical_ok hlen).1 h2
  have hd : (ss.drop (ss.length - m)).length = m := by simp only [List.length_drop]; omega
  have hpos : 0 < m := by
    rcases Nat.eq_zero_or_pos m with h0 | h0
    · exact absurd (List.length_eq_zero_iff.1 (hd.trans h0)) c1
    · exact h0
  have look : ∀ (j : Nat) (Q : Profile) (ρ : ℝ), j < m → ss[S - 1 - j]? = some Q → a.b.radii[R - 1 - j]? = some ρ →
      ρ ≠ 0 ∧ up[j]? = some (Q.upper.map (wrap ρ)) ∧ down[j]? = some (Q.lower.map (wrap ρ)) := by
    intro j Q ρ hj hQ hρ
    have e1 : (ss.drop (ss.length - m))[m - 1 - j]? = some Q := by
      rw [List.getElem?_drop, show ss.length - m + (m - 1 - j) = S - 1 - j by omega]; exact hQ
    have e2 : (a.b.radii.drop (a.b.radii.length - m))[m - 1 - j]? = some ρ := by
      rw [List.getElem?_drop, show a.b.radii.length - m + (m - 1 - j) = R - 1 - j by omega]; exact hρ
    refine ⟨(c2 _ _ _ e1 e2).1, ?_, ?_⟩
    · rw [c4, List.getElem?_reverse (by simp only [List.length_zipWith, hlen, hd]; omega), List.length_zipWith, hlen, hd, min_self,
        List.getElem?_zipWith, e1, e2]
    · rw [c5, List.getElem?_reverse (by simp only [List.length_zipWith, hlen, hd]; omega), List.length_zipWith, hlen, hd, min_self,
        List.getElem?_zipWith, e1, e2]
  refine ⟨hn, rfl, ?_, ?_, by omega, ?_⟩
  · show up.length = _
    rw [c4, List.length_reverse, List.length_zipWith, hlen, hd]; omega
  · show down.length = _
    rw [c5, List.length_reverse, List.length_zipWith, hlen, hd]; omega
  · intro j P ρ hj hP hρ
    have hlt : S - 1 - j < ss.length := by omega
    have hQ := List.getElem?_eq_getElem hlt
    obtain ⟨k1, k2⟩ := l3 _ P _ hP hQ
    obtain ⟨g0, g1, g2⟩ := look j _ ρ (by omega) hQ hρ
    refine ⟨g0, ?_, ?_⟩
    · intro hle
      have := k2 (by simp; omega)
      rw [this] at g1 g2
      exact ⟨g1, g2⟩
    · intro hlt'
      have hrun := k1 (by simp; omega)
      obtain ⟨r, c, p, k, s, e1, e2, e3, e4, e5, e6, e7⟩ := steps_entries hrun
      rw [steps_solo ht hf refl e1 e2 e3 e4 e6 e7] at hrun
      have hPU := hU P (List.mem_of_getElem? hP)
      obtain ⟨p1, p2⟩ := Blade.section_plain (b := solo r c p k s) (i := 0) rfl rfl (refl := refl) rfl rfl rfl rfl rfl hPU
      obtain ⟨hr0, ref, href⟩ := p1 ⟨_, hrun⟩
      obtain ⟨Q, q1, q2, q3, _⟩ := p2 ref hr0 href
      obtain rfl : ss[S - 1 - j] = Q := by rw [hrun] at q1; exact (Prod.mk.inj q1).1
      refine ⟨ref, r, c, p, k, s, href, e1, e2, e5, e3, e4, ?_, ?_⟩
      · show up[j]? = _
        rw [g1, q2, List.map_map]; rfl
      · show down[j]? = _
        rw [g2, q3, List.map_map]; rfl

/-- **C135** (violation) None of this raises an exception: it is enough that every distribution has at least `n` values, that the skew angles are as many as
the radii and the pitches too (or only one), and that the sections would do for any blade. -/
theorem C135_accepts (a : AssignedBlade) (refl : Bool) (ht : a.b.thickness = none) (hf : a.b.camber = none)
    (hU : ∀ P ∈ a.b.sections, P.Uniform) (h0 : a.b.sections ≠ []) (h0' : a.b.radii ≠ []) (hS : a.n ≤ a.b.sections.length)
    (hc : a.n ≤ a.b.chord.length) (hr : a.n ≤ a.b.radii.length) (hk : a.n ≤ a.b.rake.length) (hs : a.b.skew.length = a.b.radii.length)
    (hp : a.b.pitch.length = a.b.radii.length ∨ a.b.pitch.length = 1) (hz : ∀ r ∈ a.b.radii, r ≠ 0)
    (href : ∀ P ∈ a.b.sections, ∃ ref, P.referencePoint = .ok ref)
    (heq : ∀ P ∈ a.b.sections, ∀ Q ∈ a.b.sections, P.upper.length = Q.upper.length) : ∃ a', apply refl a = (a', .ok ()) := by
  have step : ∀ i, i < a.n → ∀ P, a.b.sections[i]? = some P → ∃ Q, runSteps (a.steps refl i) P = (Q, .ok ()) ∧ Q.Uniform ∧
      Q.upper.length = P.upper.length := by
    intro i hi P hP
    have gr := List.getElem?_eq_getElem (l := a.b.radii) (i := i) (by omega)
    have gc := List.getElem?_eq_getElem (l := a.b.chord) (i := i) (by omega)
    have gk := List.getElem?_eq_getElem (l := a.b.rake) (i := i) (by omega)
    have gs := List.getElem?_eq_getElem (l := a.b.skew) (i := i) (by omega)
    obtain ⟨p, gp⟩ : ∃ p, a.b.pitch.length = a.b.radii.length ∧ a.b.pitch[i]? = some p ∨ a.b.pitch = [p] := by
      rcases hp with hp | hp
      · exact ⟨_, .inl ⟨hp, List.getElem?_eq_getElem (by omega)⟩⟩
      · obtain ⟨y, hy⟩ := List.length_eq_one_iff.1 hp
        exact ⟨y, .inr hy⟩
    obtain ⟨g1, g2⟩ := angles_of gr gs hs gp
    rw [steps_solo ht hf refl gr gc gk gs g1 g2]
    have hm := List.mem_of_getElem? hP
    obtain ⟨ref, hr⟩ := href P hm
    obtain ⟨Q, q1, q2, _, q4, _⟩ := (Blade.section_plain (b := solo a.b.radii[i] a.b.chord[i] p a.b.rake[i] a.b.skew[i]) (i := 0) rfl rfl
      (refl := refl) rfl rfl rfl rfl rfl (hU P hm)).2 ref (hz _ (List.getElem_mem _)) hr
    exact ⟨Q, q1, q4, by rw [q2]; simp⟩
  let T : Nat → Profile → Profile := fun i P => if i < a.n then (runSteps (a.steps refl i) P).1 else P
  have hT : ∀ i P, a.b.sections[i]? = some P → (T i P).Uniform ∧ (T i P).upper.length = P.upper.length := by
    intro i P hP
    by_cases hi : i < a.n
    · obtain ⟨Q, q1, q2, q3⟩ := step i hi P hP
      simp only [T, hi, if_true, q1]
      exact ⟨q2, q3⟩
    · simp only [T, hi, if_false]
      exact ⟨hU P (List.mem_of_getElem? hP), trivial⟩
  have hget : ∀ (j : Nat), (a.b.sections.mapIdx T)[j]? = (a.b.sections[j]?).map (T j) := fun j => by simp
  have hloop : a.loop refl (List.range a.n) a.b.sections = (a.b.sections.mapIdx T, .ok ()) := by
    rw [loop_ok _ _ _ _ _ List.nodup_range]
    refine ⟨by simp, fun i hi => by have := List.mem_range.1 hi; omega, ?_⟩
    intro j P Q hP hQ
    rw [hget, hP] at hQ
    obtain rfl := Option.some.inj hQ
    constructor
    · intro hj
      have hj' := List.mem_range.1 hj
      obtain ⟨Q, q1, _⟩ := step j hj' P hP
      simp only [T, hj', if_true, q1]
    · intro hj
      have hj' : ¬ j < a.n := fun h => hj (List.mem_range.2 h)
      simp only [T, hj', if_false]
  have hmem : ∀ Q ∈ a.b.sections.mapIdx T, ∃ P ∈ a.b.sections, Q.Uniform ∧ Q.upper.length = P.upper.length := by
    intro Q hQ
    obtain ⟨j, hj⟩ := List.getElem?_of_mem hQ
    rw [hget] at hj
    rcases hP : a.b.sections[j]? with _ | P
    · rw [hP] at hj; cases hj
    · rw [hP] at hj
      obtain rfl := Option.some.inj hj
      obtain ⟨t1, t2⟩ := hT j P hP
      exact ⟨P, List.mem_of_getElem? hP, t1, t2⟩
  have hpos : 0 < a.b.sections.length := List.length_pos_of_ne_nil h0
  have hpos' : 0 < a.b.radii.length := List.length_pos_of_ne_nil h0'
  have hcyl : ∃ F, cylindrical (a.b.sections.mapIdx T) a.b.radii = .ok F := by
    rw [cylindrical_drop]
    set m := min (a.b.sections.mapIdx T).length a.b.radii.length with hm
    have hml : (a.b.sections.mapIdx T).length = a.b.sections.length := by simp
    have hlen : (a.b.radii.drop (a.b.radii.length - m)).length = ((a.b.sections.mapIdx T).drop ((a.b.sections.mapIdx T).length - m)).length := by
      simp only [List.length_drop]; omega
    refine ⟨(_, _), (Blade.cylindrical_ok hlen).2 ⟨?_, ?_, ?_, rfl, rfl⟩⟩
    · intro h
      have := congrArg List.length h
      simp only [List.length_drop, List.length_nil] at this
      omega
    · intro i P r hP hr
      obtain ⟨P', hP', u1, u2⟩ := hmem P (List.mem_of_mem_drop (List.mem_of_getElem? hP))
      exact ⟨hz r (List.mem_of_mem_drop (List.mem_of_getElem? hr)), by have := u1; unfold Profile.Uniform at this; omega,
        by have := u1; unfold Profile.Uniform at this; omega⟩
    · intro P hP Q hQ
      obtain ⟨P', hP', u1, u2⟩ := hmem P (List.mem_of_mem_drop hP)
      obtain ⟨Q', hQ', v1, v2⟩ := hmem Q (List.mem_of_mem_drop hQ)
      have e := heq P' hP' Q' hQ'
      have e1 : P.upper.length = P.lower.length := by
        have := u1; unfold Profile.Uniform at this; simp only [Profile.upper, Profile.lower, List.length_zip]; omega
      have e2 : Q.upper.length = Q.lower.length := by
        have := v1; unfold Profile.Uniform at this; simp only [Profile.upper, Profile.lower, List.length_zip]; omega
      omega
  obtain ⟨⟨up, down⟩, hF⟩ := hcyl
  exact ⟨_, apply_ok.2 ⟨_, up, down, hloop, hF, rfl⟩⟩

/-- The hypotheses of the two theorems above are met: three sections where the constructor saw two, one pitch for all. The last section, the first in the
coordinates, is laid on the cylinder as given; the second is placed with its own values. -/
example : ∃ a', apply true Sample.longerStill = (a', .ok ()) ∧ a'.b.coordsUp.length = 3 ∧
    a'.b.coordsUp[0]? = some (Sample.trio.upper.map (wrap 3)) ∧
    a'.b.coordsUp[1]? = some (Sample.trio.upper.map fun q => wrap 2 (placed true 2 1 2 1 10 (1, 0) q)) := by
  have hU : ∀ P ∈ Sample.longerStill.b.sections, P.Uniform := by
    intro P hP
    simp only [Sample.longerStill, List.mem_cons, List.not_mem_nil, or_false, or_self] at hP
    subst hP; exact Sample.trio_uniform
  obtain ⟨a', h⟩ := C135_accepts Sample.longerStill true rfl rfl hU (by simp [Sample.longerStill]) (by simp [Sample.longerStill]) (by simp [Sample.longerStill])
    (by simp [Sample.longerStill]) (by simp [Sample.longerStill]) (by simp [Sample.longerStill]) rfl (.inr rfl)
    (by intro r hr; simp only [Sample.longerStill, List.mem_cons, List.not_mem_nil, or_false] at hr; rcases hr with rfl | rfl | rfl <;> norm_num)
    (by
      intro P hP
      simp only [Sample.longerStill, List.mem_cons, List.not_mem_nil, or_false, or_self] at hP
      subst hP; exact ⟨_, Sample.trio_reference⟩)
    (by
      intro P hP Q hQ
      simp only [Sample.longerStill, List.mem_cons, List.not_mem_nil, or_false, or_self] at hP hQ
      rw [hP, hQ])
  obtain ⟨_, _, h1, _, _, h2⟩ := C135_pairing _ a' true rfl rfl hU h 3 3 rfl rfl
  obtain ⟨_, g1, _⟩ := h2 0 Sample.trio 3 (by norm_num) rfl rfl
  obtain ⟨_, _, g2⟩ := h2 1 Sample.trio 2 (by norm_num) rfl rfl
  obtain ⟨ref, r, c, p, k, s, e0, e1, e2, e3, e4, e5, e6, _⟩ := g2 (by decide)
  rw [Sample.trio_reference] at e0
  cases e0; cases e1; cases e2; cases e4; cases e5
  have hp : p = 2 := by
    rcases e3 with e3 | e3
    · cases e3
    · have : [(2:ℝ)] = [p] := e3
      simpa using this.symm
  subst hp
  exact ⟨a', h, h1, (g1 (by decide)).1, e6⟩

/-- **C135** (violation) Distributions with `m` values too many, assigned to a blade of `n` sections, shift the radii: section `i` gets chord, pitch, rake and
skew of index `i`, its pitch angle from radius `i`, and is then laid on the cylinder of radius `i + m`. -/
theorem C135_shifted (a : AssignedBlade) (refl : Bool) (ht : a.b.thickness = none) (hf : a.b.camber = none)
    (hU : ∀ P ∈ a.b.sections, P.Uniform) (hn : a.n = a.b.sections.length) (h0 : 0 < a.n) (m : Nat) (hr : a.b.radii.length = a.n + m)
    (hc : a.b.chord.length = a.n + m) (hk : a.b.rake.length = a.n + m) (hs : a.b.skew.length = a.n + m) (hp : a.b.pitch.length = a.n + m)
    (hz : ∀ r ∈ a.b.radii, r ≠ 0) (href : ∀ P ∈ a.b.sections, ∃ ref, P.referencePoint = .ok ref)
    (heq : ∀ P ∈ a.b.sections, ∀ Q ∈ a.b.sections, P.upper.length = Q.upper.length) :
    ∃ a', apply refl a = (a', .ok ()) ∧ a'.b.coordsUp.length = a.n ∧ a'.b.coordsDown.length = a.n ∧
      ∀ (i : Nat) (P : Profile) (r c p k s ρ : ℝ) (ref : Pt), a.b.sections[i]? = some P → P.referencePoint = .ok ref → a.b.radii[i]? = some r →
        a.b.chord[i]? = some c → a.b.pitch[i]? = some p → a.b.rake[i]? = some k → a.b.skew[i]? = some s → a.b.radii[i + m]? = some ρ →
        a'.b.coordsUp[a.n - 1 - i]? = some (P.upper.map fun q => wrap ρ (placed refl r c p k s ref q)) ∧
        a'.b.coordsDown[a.n - 1 - i]? = some (P.lower.map fun q => wrap ρ (placed refl r c p k s ref q)) ∧
        ∀ q ∈ (P.upper ++ P.lower).map fun q => wrap ρ (placed refl r c p k s ref q), q.2.1 ^ 2 + q.2.2 ^ 2 = ρ ^ 2 := by
  obtain ⟨a', h⟩ := C135_accepts a refl ht hf hU (by intro h; rw [h] at hn; simp at hn; omega) (by intro h; rw [h] at hr; simp at hr; omega)
    (by omega) (by omega) (by omega) (by omega) (by omega) (.inl (by omega)) hz href heq
  obtain ⟨_, _, l1, l2, _, hpair⟩ := C135_pairing a a' refl ht hf hU h _ _ rfl rfl
  rw [← hn, hr] at l1 l2
  refine ⟨a', h, by omega, by omega, ?_⟩
  intro i P r c p k s ρ ref hP href gr gc gp gk gs gρ
  have hi := (List.getElem?_eq_some_iff.1 hP).1
  obtain ⟨_, _, q⟩ := hpair (a.n - 1 - i) P ρ (by omega) (by rw [show a.b.sections.length - 1 - (a.n - 1 - i) = i by omega]; exact hP)
    (by rw [show a.b.radii.length - 1 - (a.n - 1 - i) = i + m by omega]; exact gρ)
  rw [show a.b.sections.length - 1 - (a.n - 1 - i) = i by omega] at q
  obtain ⟨ref', r', c', p', k', s', e0, e1, e2, e3, e4, e5, e6, e7⟩ := q (by omega)
  rw [href] at e0; obtain rfl := Except.ok.inj e0
  rw [gr] at e1; obtain rfl := Option.some.inj e1
  rw [gc] at e2; obtain rfl := Option.some.inj e2
  rw [gk] at e4; obtain rfl := Option.some.inj e4
  rw [gs] at e5; obtain rfl := Option.some.inj e5
  have : p = p' := by
    rcases e3 with e3 | e3
    · rw [gp] at e3; exact Option.some.inj e3
    · rw [e3] at gp hp
      have : i = 0 := by
        have := (List.getElem?_eq_some_iff.1 gp).1
        simpa using this
      subst this
      simpa using gp.symm
  subst this
  refine ⟨e6, e7, ?_⟩
  intro q hq
  obtain ⟨x, _, rfl⟩ := List.mem_map.1 hq
  simp only [wrap]
  have := Real.sin_sq_add_cos_sq ((placed refl r c p k s ref x).2 / ρ)
  linear_combination ρ ^ 2 * this

/-- The hypotheses are met: two sections, three values. The tip section, with chord, pitch, rake and skew of radius 2, lies on the cylinder of radius 3. -/
example : ∃ a', apply true Sample.longer = (a', .ok ()) ∧ a'.b.coordsUp.length = 2 ∧
    a'.b.coordsUp[0]? = some (Sample.trio.upper.map fun q => wrap 3 (placed true 2 1 4 1 10 (1, 0) q)) := by
  have hS : ∀ P ∈ Sample.longer.b.sections, P = Sample.trio := by
    intro P hP
    simpa [Sample.longer, Sample.trioBlade] using hP
  obtain ⟨a', h1, h2, _, h3⟩ := C135_shifted Sample.longer true rfl rfl (fun P hP => by rw [hS P hP]; exact Sample.trio_uniform) rfl (by decide) 1 rfl rfl rfl rfl rfl
    (by intro r hr; simp only [Sample.longer, List.mem_cons, List.not_mem_nil, or_false] at hr; rcases hr with rfl | rfl | rfl <;> norm_num)
    (fun P hP => by rw [hS P hP]; exact ⟨_, Sample.trio_reference⟩) (fun P hP Q hQ => by rw [hS P hP, hS Q hQ])
  exact ⟨a', h1, h2, (h3 1 Sample.trio 2 1 4 1 10 3 (1, 0) rfl Sample.trio_reference rfl rfl rfl rfl rfl rfl).1⟩

/-- **C135** Arrays that are too short are noticed, but late: with fewer sections, radii, chord lengths, rakes or skew angles than `n`, or with pitches that are
neither one nor as many as the radii (two or more), an exception is raised; coordinates and faces stay, the sections before the missing value have been transformed. -/
theorem C135_refused (a : AssignedBlade) (refl : Bool)
    (h : a.b.sections.length < a.n ∨ a.b.radii.length < a.n ∨ a.b.chord.length < a.n ∨ a.b.rake.length < a.n ∨ a.b.skew.length < a.n ∨
      (0 < a.n ∧ a.b.pitch.length ≠ a.b.radii.length ∧ a.b.pitch.length ≠ 1 ∧ a.b.radii.length ≠ 1)) :
    ∃ a' e, apply refl a = (a', .error e) ∧ a'.b.coordsUp = a.b.coordsUp ∧ a'.b.coordsDown = a.b.coordsDown ∧ a'.b.upper = a.b.upper ∧
      a'.b.lower = a.b.lower ∧ a'.b.tip = a.b.tip ∧ a'.b.root = a.b.root ∧ a'.b.sections.length = a.b.sections.length := by
  have hfail : ∀ ss, a.loop refl (List.range a.n) a.b.sections ≠ (ss, .ok ()) := by
    intro ss hss
    obtain ⟨l1, l2, l3⟩ := (loop_ok a refl _ _ _ List.nodup_range).1 hss
    have entry : ∀ i, i < a.n → i < a.b.sections.length ∧ i < a.b.radii.length ∧ i < a.b.chord.length ∧ i < a.b.rake.length ∧
        i < a.b.skew.length ∧ ∃ t, pitchAngleAt a.b i = .ok t ∨ (a.b.radii.getD i 1 = 0 ∧ ∃ m, bLen a.b.pitch.length a.b.radii.length = .ok m) := by
      intro i hi
      have h1 := l2 i (List.mem_range.2 hi)
      have h2 : i < ss.length := by omega
      have hrun := (l3 i _ _ (List.getElem?_eq_getElem h1) (List.getElem?_eq_getElem h2)).1 (List.mem_range.2 hi)
      obtain ⟨r, c, p, k, s, e1, e2, e3, e4, e5, e6, e7⟩ := steps_entries hrun
      refine ⟨h1, (List.getElem?_eq_some_iff.1 e1).1, (List.getElem?_eq_some_iff.1 e2).1, (List.getElem?_eq_some_iff.1 e3).1,
        (List.getElem?_eq_some_iff.1 e4).1, ?_⟩
      by_cases hr : r = 0
      · refine ⟨0, .inr ⟨by rw [List.getD_eq_getElem?_getD, e1]; simpa using hr, ?_⟩⟩
        rcases hm : bLen a.b.pitch.length a.b.radii.length with e | m
        · rw [pitchAngleAt, hm, Blade.pitchAngle, if_pos hr] at e6
          unfold bLen at hm
          split_ifs at hm
          cases hm
          cases e6
        · exact ⟨m, rfl⟩
      · exact ⟨_, .inl (by rw [e6, Blade.pitchAngle, if_neg hr])⟩
    rcases Nat.eq_zero_or_pos a.n with h0 | h0
    · omega
    · have h1 := entry (a.n - 1) (by omega)
      obtain ⟨_, _, _, _, _, t, h2⟩ := entry 0 h0
      have hm : ∃ m, bLen a.b.pitch.length a.b.radii.length = .ok m := by
        rcases h2 with h2 | h2
        · unfold pitchAngleAt at h2
          rw [Profile.bndA] at h2
          obtain ⟨m, hm, _⟩ := h2
          exact ⟨m, hm⟩
        · exact h2.2
      obtain ⟨m, hm⟩ := hm
      rw [bLen_ok] at hm
      omega
  have hlen : ∀ (is : List Nat) (ss : List Profile), (a.loop refl is ss).1.length = ss.length := by
    intro is
    induction is with
    | nil => intro ss; rfl
    | cons i is ih =>
      intro ss
      simp only [loop]
      split
      · rfl
      · rename_i P hP
        rcases runSteps (a.steps refl i) P with ⟨Q, (e | u)⟩
        · simp
        · simp [ih]
  have hl := hlen (List.range a.n) a.b.sections
  unfold apply
  rcases hL : a.loop refl (List.range a.n) a.b.sections with ⟨ss, (e | u)⟩
  · rw [hL] at hl
    exact ⟨_, e, rfl, rfl, rfl, rfl, rfl, rfl, rfl, hl⟩
  · exact absurd hL (hfail ss)

/-- The hypotheses are met: a third section for which there are no values, and three pitches for two radii. -/
example : (∃ a' e, apply true ⟨{ Sample.trioBlade none none with sections := [Sample.trio, Sample.trio, Sample.trio] }, 3⟩ = (a', .error e)) ∧
    ∃ a' e, apply false ⟨{ Sample.trioBlade none none with pitch := [2, 4, 6] }, 2⟩ = (a', .error e) := by
  obtain ⟨a', e, h, _⟩ := C135_refused ⟨{ Sample.trioBlade none none with sections := [Sample.trio, Sample.trio, Sample.trio] }, 3⟩ true
    (.inr (.inl (by simp [Sample.trioBlade])))
  obtain ⟨a'', e', h', _⟩ := C135_refused ⟨{ Sample.trioBlade none none with pitch := [2, 4, 6] }, 2⟩ false
    (.inr (.inr (.inr (.inr (.inr (by simp [Sample.trioBlade]))))))
  exact ⟨⟨a', e, h⟩, a'', e', h'⟩

/-- **C135** A single pitch counts for all sections: a one-element array assigned to `pitch` does what a constant array as long as the radii does. -/
theorem C135_one_pitch (b : Blade) (n : Nat) (p : ℝ) (refl : Bool) :
    ∃ b', apply refl ⟨{ b with pitch := [p] }, n⟩ = (⟨{ b' with pitch := [p] }, n⟩, (apply refl ⟨{ b with pitch := List.replicate b.radii.length p }, n⟩).2) ∧
      (apply refl ⟨{ b with pitch := List.replicate b.radii.length p }, n⟩).1 = ⟨b', n⟩ := by
  have key : ∀ i, pitchAngleAt { b with pitch := [p] } i = pitchAngleAt { b with pitch := List.replicate b.radii.length p } i ∧
      inducedRakeAt { b with pitch := [p] } i = inducedRakeAt { b with pitch := List.replicate b.radii.length p } i := by
    intro i
    have hb : bLen 1 b.radii.length = .ok b.radii.length := by rw [bLen_ok]; omega
    have hb' : bLen b.radii.length b.radii.length = .ok b.radii.length := by rw [bLen_ok]; omega
    have he : bEntry [p] i = .ok p := by rw [bEntry_ok]; exact .inr rfl
    have he' : i < b.radii.length ∨ b.radii.length = 1 → bEntry (List.replicate b.radii.length p) i = .ok p := by
      intro hi
      rw [bEntry_ok]
      by_cases h1 : b.radii.length = 1
      · right; rw [h1]; rfl
      · left; exact ⟨by rw [List.length_replicate]; exact h1, by rw [List.getElem?_replicate, if_pos (by omega)]⟩
    constructor
    · unfold pitchAngleAt
      simp only [List.length_cons, List.length_nil, List.length_replicate, Nat.zero_add]
      rw [hb, hb', he]
      simp only [bind, Except.bind]
      by_cases hi : b.radii.length ≤ i
      · simp only [hi, if_true]; rfl
      · simp only [hi, if_false]
        rw [he' (.inl (by omega))]
    · unfold inducedRakeAt
      simp only [List.length_cons, List.length_nil, List.length_replicate, Nat.zero_add]
      rw [hb, hb', he]
      simp only [bind, Except.bind]
      rcases hk : bLen b.radii.length b.skew.length with e | k
      · rfl
      · simp only
        rcases hl : bLen k b.radii.length with e | l
        · rfl
        · simp only
          by_cases hi : l ≤ i
          · simp only [hi, if_true]; rfl
          · simp only [hi, if_false]
            rw [he' (by rw [bLen_ok] at hk hl; omega)]
  have hst : ∀ i, steps ⟨{ b with pitch := [p] }, n⟩ refl i = steps ⟨{ b with pitch := List.replicate b.radii.length p }, n⟩ refl i := by
    intro i
    unfold steps
    simp only [(key i).1, (key i).2]
  have hloop : ∀ (is : List Nat) (ss : List Profile), loop ⟨{ b with pitch := [p] }, n⟩ refl is ss =
      loop ⟨{ b with pitch := List.replicate b.radii.length p }, n⟩ refl is ss := by
    intro is
    induction is with
    | nil => intro ss; rfl
    | cons i is ih => intro ss; simp only [loop, hst, ih]
  unfold apply
  rw [hloop]
  simp only
  generalize loop _ refl (List.range n) b.sections = L
  rcases L with ⟨ss, (e | u)⟩
  · exact ⟨_, rfl, rfl⟩
  · simp only
    generalize cylindrical ss b.radii = F
    rcases F with e | ⟨up, down⟩
    · exact ⟨_, rfl, rfl⟩
    · exact ⟨_, rfl, rfl⟩

/-- Met by the blade above with the pitches 2 and 2. -/
example : ∃ b', apply true ⟨{ Sample.trioBlade none none with pitch := [2] }, 2⟩ =
    (⟨{ b' with pitch := [2] }, 2⟩, (apply true ⟨{ Sample.trioBlade none none with pitch := [2, 2] }, 2⟩).2) ∧
      (apply true ⟨{ Sample.trioBlade none none with pitch := [2, 2] }, 2⟩).1 = ⟨b', 2⟩ :=
  C135_one_pitch (Sample.trioBlade none none) 2 2 true

end
end BladeX
