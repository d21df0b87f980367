import Verif.Props.Blade

/-! # C52: applying the transformations again -/

namespace BladeX
noncomputable section
open Spec Classical

/-- A history of calls of `apply_transformations(reflect=...)`, each possibly preceded by `reset()`: pairs (reset first, reflect).
The history stops at the first exception. -/
def Blade.applyMany : List (Bool × Bool) → Blade.Call
  | [], b => (b, .ok ())
  | (re, refl) :: L, b =>
    match Blade.applyTransformations refl (if re then b.reset else b) with
    | (b', .ok ()) => Blade.applyMany L b'
    | (b', .error e) => (b', .error e)

/-- A section closed at both edges: the two surfaces start at the same point and end at the same point. -/
def Profile.ClosedEdges (P : Profile) : Prop :=
  P.upper.head? = P.lower.head? ∧ P.upper.getLast? = P.lower.getLast? ∧ P.upper ≠ []

namespace Blade

theorem ite_reset {b : Blade} {re : Bool} : (if re then b.reset else b).sections = b.sections ∧
    (if re then b.reset else b).radii = b.radii ∧ (if re then b.reset else b).chord = b.chord ∧
    (if re then b.reset else b).pitch = b.pitch ∧ (if re then b.reset else b).rake = b.rake ∧
    (if re then b.reset else b).skew = b.skew ∧ (if re then b.reset else b).thickness = b.thickness ∧
    (if re then b.reset else b).camber = b.camber := by
  cases re <;> simp [reset]

theorem apply_keeps {b b' : Blade} {refl : Bool} (hW : b.WellFormed) (h : b.applyTransformations refl = (b', .ok ())) :
    b'.thickness = b.thickness ∧ b'.camber = b.camber := by
  obtain ⟨ss, up, down, h1, h2, rfl⟩ := (Blade.apply_ok hW.1).1 h
  exact ⟨rfl, rfl⟩

theorem look {b : Blade} (hW : b.WellFormed) (i : Nat) (hi : i < b.sections.length) : ∃ P r c p k s, b.sections[i]? = some P ∧
    b.radii[i]? = some r ∧ b.chord[i]? = some c ∧ b.pitch[i]? = some p ∧ b.rake[i]? = some k ∧ b.skew[i]? = some s := by
  obtain ⟨wr, wc, wp, wk, ws⟩ := hW
  exact ⟨_, _, _, _, _, _, List.getElem?_eq_getElem hi, List.getElem?_eq_getElem (by omega), List.getElem?_eq_getElem (by omega),
    List.getElem?_eq_getElem (by omega), List.getElem?_eq_getElem (by omega), List.getElem?_eq_getElem (by omega)⟩

theorem apply_uniform {b b' : Blade} {refl : Bool} (hW : b.WellFormed) (ht : b.thickness = none) (hf : b.camber = none)
    (hU : ∀ P ∈ b.sections, P.Uniform) (h : b.applyTransformations refl = (b', .ok ())) :
    b'.WellFormed ∧ ∀ Q ∈ b'.sections, Q.Uniform ∧ ∃ P ∈ b.sections, ∃ g : Pt → Pt, Q.upper = P.upper.map g ∧ Q.lower = P.lower.map g := by
  obtain ⟨hl, ⟨e1, e2, e3, e4, e5⟩, hp⟩ := C46_placed b b' refl hW ht hf hU h
  refine ⟨?_, ?_⟩
  · obtain ⟨wr, wc, wp, wk, ws⟩ := hW
    exact ⟨by rw [e1, hl, wr], by rw [e2, hl, wc], by rw [e3, hl, wp], by rw [e4, hl, wk], by rw [e5, hl, ws]⟩
  · intro Q hQ
    obtain ⟨i, hi⟩ := List.getElem?_of_mem hQ
    have hi' : i < b.sections.length := by rw [← hl]; exact (List.getElem?_eq_some_iff.1 hi).1
    obtain ⟨P, r, c, p, k, s, g1, g2, g3, g4, g5, g6⟩ := look hW i hi'
    obtain ⟨ref, Q', _, _, q1, q2, q3, q4⟩ := hp i P r c p k s g1 g2 g3 g4 g5 g6
    rw [hi] at q1
    obtain rfl := Option.some.inj q1
    exact ⟨q4, P, List.mem_of_getElem? g1, _, q2, q3⟩

end Blade

/-- **C52** applying the transformations `n` times multiplies the distances between the points of a section `n` times by its chord
length: a section with unit chord and chord length `c` has the chord `|c| ^ n`, not `|c|`; calling `reset` in between (which leaves the
sections alone) makes no difference. -/
theorem C52_apply_many (L : List (Bool × Bool)) (b b' : Blade) (hW : b.WellFormed) (ht : b.thickness = none) (hf : b.camber = none)
    (hU : ∀ P ∈ b.sections, P.Uniform) (h : b.applyMany L = (b', .ok ())) :
    ∀ (i : Nat) (P : Profile) (c : ℝ), b.sections[i]? = some P → b.chord[i]? = some c →
      ∃ (Q : Profile) (g : Pt → Pt), b'.sections[i]? = some Q ∧ Q.upper = P.upper.map g ∧ Q.lower = P.lower.map g ∧
        ∀ p q, dist2 (g p) (g q) = |c| ^ L.length * dist2 p q := by
  induction L generalizing b with
  | nil =>
    simp only [Blade.applyMany, Prod.mk.injEq, and_true] at h
    subst h
    intro i P c hP _
    exact ⟨P, id, hP, by simp, by simp, by simp⟩
  | cons x L ih =>
    obtain ⟨re, refl⟩ := x
    intro i P c hP hc
    obtain ⟨s1, s2, s3, s4, s5, s6, s7, s8⟩ := Blade.ite_reset (b := b) (re := re)
    simp only [Blade.applyMany] at h
    set b0 := (if re then b.reset else b) with hb0
    have hW0 : b0.WellFormed := by
      obtain ⟨wr, wc, wp, wk, ws⟩ := hW
      exact ⟨by rw [s1, s2, wr], by rw [s1, s3, wc], by rw [s1, s4, wp], by rw [s1, s5, wk], by rw [s1, s6, ws]⟩
    have hU0 : ∀ P ∈ b0.sections, P.Uniform := by rw [s1]; exact hU
    rcases ha : b0.applyTransformations refl with ⟨b1, (e | u)⟩
    · rw [ha] at h; simp at h
    · rw [ha] at h
      simp only at h
      have ht0 : b0.thickness = none := by rw [s7, ht]
      have hf0 : b0.camber = none := by rw [s8, hf]
      obtain ⟨hW1, hU1⟩ := Blade.apply_uniform hW0 ht0 hf0 hU0 ha
      obtain ⟨k1, k2⟩ := Blade.apply_keeps hW0 ha
      obtain ⟨hl, ⟨e1, e2, e3, e4, e5⟩, hp⟩ := C46_placed b0 b1 refl hW0 ht0 hf0 hU0 ha
      have hi : i < b0.sections.length := by rw [s1]; exact (List.getElem?_eq_some_iff.1 hP).1
      obtain ⟨P', r, c', p, k, s, g1, g2, g3, g4, g5, g6⟩ := Blade.look hW0 i hi
      obtain rfl : P = P' := by rw [s1, hP] at g1; exact Option.some.inj g1
      obtain rfl : c = c' := by rw [s3, hc] at g3; exact Option.some.inj g3
      obtain ⟨ref, Q, _, hr, q1, q2, q3, q4⟩ := hp i P r c p k s g1 g2 g3 g4 g5 g6
      obtain ⟨R, g, r1, r2, r3, r4⟩ := ih b1 hW1 (by rw [k1, ht0]) (by rw [k2, hf0]) (fun Q hQ => (hU1 Q hQ).1) h i Q c q1
        (by rw [e2, g3])
      refine ⟨R, g ∘ placed refl r c p k s ref, r1, ?_, ?_, ?_⟩
      · rw [r2, q2, List.map_map]
      · rw [r3, q3, List.map_map]
      · intro p1 p2
        simp only [Function.comp]
        rw [r4, (C46_placed_geometry refl r c p k s ref p1 p2 hr 0).2.1, List.length_cons, pow_succ]
        ring

/-- **C52** for sections closed at both edges a repeated application raises nothing: if the transformations can be applied once they can
be applied any number of times, so the change goes unnoticed. -/
theorem C52_never_refused (L : List (Bool × Bool)) (b b₁ : Blade) (refl : Bool) (hW : b.WellFormed) (ht : b.thickness = none)
    (hf : b.camber = none) (hU : ∀ P ∈ b.sections, P.Uniform) (hC : ∀ P ∈ b.sections, P.ClosedEdges)
    (h : b.applyTransformations refl = (b₁, .ok ())) : ∃ b', b.applyMany L = (b', .ok ()) := by
  induction L generalizing b b₁ refl with
  | nil => exact ⟨b, rfl⟩
  | cons x L ih =>
    obtain ⟨re, refl'⟩ := x
    obtain ⟨s1, s2, s3, s4, s5, s6, s7, s8⟩ := Blade.ite_reset (b := b) (re := re)
    simp only [Blade.applyMany]
    set b0 := (if re then b.reset else b) with hb0
    have hW0 : b0.WellFormed := by
      obtain ⟨wr, wc, wp, wk, ws⟩ := hW
      exact ⟨by rw [s1, s2, wr], by rw [s1, s3, wc], by rw [s1, s4, wp], by rw [s1, s5, wk], by rw [s1, s6, ws]⟩
    have hU0 : ∀ P ∈ b0.sections, P.Uniform := by rw [s1]; exact hU
    have ht0 : b0.thickness = none := by rw [s7, ht]
    have hf0 : b0.camber = none := by rw [s8, hf]
    have h0 : ∃ b1, b0.applyTransformations refl' = (b1, .ok ()) := by
      rw [C46_defined b0 refl' hW0 ht0 hf0 hU0, s1, s2]
      exact (C46_defined b refl hW ht hf hU).1 ⟨_, h⟩
    obtain ⟨b1, ha⟩ := h0
    rw [ha]
    simp only
    obtain ⟨hW1, hU1⟩ := Blade.apply_uniform hW0 ht0 hf0 hU0 ha
    obtain ⟨k1, k2⟩ := Blade.apply_keeps hW0 ha
    obtain ⟨hl, ⟨e1, _⟩, _⟩ := C46_placed b0 b1 refl' hW0 ht0 hf0 hU0 ha
    obtain ⟨d1, d2, d3, d4⟩ := (C46_defined b0 refl' hW0 ht0 hf0 hU0).1 ⟨_, ha⟩
    have hC1 : ∀ Q ∈ b1.sections, Q.ClosedEdges := by
      intro Q hQ
      obtain ⟨_, P, hP, g, hu, hlo⟩ := hU1 Q hQ
      obtain ⟨c1, c2, c3⟩ := hC P (by rw [← s1]; exact hP)
      refine ⟨?_, ?_, ?_⟩
      · rw [hu, hlo, List.head?_map, List.head?_map, c1]
      · rw [hu, hlo, List.getLast?_map, List.getLast?_map, c2]
      · rw [hu]; simpa using c3
    have hagain : ∃ b2, b1.applyTransformations refl' = (b2, .ok ()) := by
      rw [C46_defined b1 refl' hW1 (by rw [k1, ht0]) (by rw [k2, hf0]) (fun Q hQ => (hU1 Q hQ).1)]
      refine ⟨?_, ?_, ?_, ?_⟩
      · intro h0
        rw [h0] at hl
        exact d1 (List.length_eq_zero_iff.1 hl.symm)
      · rw [e1]; exact d2
      · intro Q hQ
        obtain ⟨c1, c2, c3⟩ := hC1 Q hQ
        obtain ⟨u1, u2, u3⟩ := (hU1 Q hQ).1
        obtain ⟨a, ha'⟩ : ∃ a, Q.upper.head? = some a := by
          cases hq : Q.upper with
          | nil => exact absurd hq c3
          | cons x l => exact ⟨x, rfl⟩
        obtain ⟨z, hz⟩ : ∃ z, Q.upper.getLast? = some z := ⟨_, List.getLast?_eq_some_getLast c3⟩
        rw [Profile.referencePoint_ends (a := a) (b := z) (c := a) (d := z) ⟨u1, u3⟩ ⟨ha', hz, by rw [← c1, ha'], by rw [← c2, hz]⟩]
        rw [if_neg (by norm_num)]
        exact ⟨_, rfl⟩
      · intro P hP Q hQ
        obtain ⟨_, P', hP', g, hu, _⟩ := hU1 P hP
        obtain ⟨_, Q', hQ', g', hu', _⟩ := hU1 Q hQ
        rw [hu, hu', List.length_map, List.length_map]
        exact d4 P' hP' Q' hQ'
    obtain ⟨b2, hb2⟩ := hagain
    exact ih b1 b2 refl' hW1 (by rw [k1, ht0]) (by rw [k2, hf0]) (fun Q hQ => (hU1 Q hQ).1) hC1 hb2

/-- **C52** `reset` clears coordinates and faces and leaves the sections (and everything else) as they are. -/
theorem C52_reset (b : Blade) : ¬ b.reset.HasCoords ∧ b.reset.upper = none ∧ b.reset.lower = none ∧ b.reset.tip = none ∧
    b.reset.root = none ∧ b.reset.sections = b.sections ∧ b.reset.radii = b.radii ∧ b.reset.chord = b.chord ∧
    b.reset.pitch = b.pitch ∧ b.reset.rake = b.rake ∧ b.reset.skew = b.skew ∧ b.reset.thickness = b.thickness ∧
    b.reset.camber = b.camber := by
  simp [Blade.reset, Blade.HasCoords]

/-- Non-vacuity: with chord lengths 1 and 3 the second section has a chord 9 times as long after two applications. -/
example : ∃ b' Q, Sample.blade2.applyMany [(false, true), (true, true)] = (b', .ok ()) ∧ b'.sections[1]? = some Q ∧
    ∃ g : Pt → Pt, Q.upper = Sample.foil.upper.map g ∧ dist2 (g (0, 0)) (g (1, 0)) = 9 := by
  have hW : Sample.blade2.WellFormed := by simp [Sample.blade2, Blade.WellFormed]
  have hU : ∀ P ∈ Sample.blade2.sections, P.Uniform := by simp [Sample.blade2, Sample.foil_uniform]
  obtain ⟨b₁, h₁⟩ := Sample.blade2_applies true
  obtain ⟨b', h⟩ := C52_never_refused [(false, true), (true, true)] _ b₁ true hW rfl rfl hU
    (by simp [Sample.blade2, Profile.ClosedEdges, Sample.foil, Profile.upper, Profile.lower]) h₁
  obtain ⟨Q, g, hQ, hu, _, hd⟩ := C52_apply_many _ _ b' hW rfl rfl hU h 1 Sample.foil 3 rfl rfl
  refine ⟨b', Q, h, hQ, g, hu, ?_⟩
  rw [hd]
  norm_num [dist2]

end
end BladeX
