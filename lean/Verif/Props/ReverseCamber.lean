import Verif.Props.ReverseWire
import Verif.Props.ReverseEdges

/-! # C119: the camber points of `ReversePropellerBladeX` (`reversepropellerbladex.py`) -/

namespace BladeX
noncomputable section
open Spec Classical

namespace Reverse

theorem lastHit_eq (prev : Option Pt3) (ps : List Pt3) : lastHit prev ps = match ps.getLast? with | some p => some p | none => prev := by
  induction ps generalizing prev with
  | nil => rfl
  | cons p ps ih =>
    rw [lastHit, ih]
    rcases ps with _ | ⟨q, ps⟩
    · rfl
    · simp [List.getLast?_cons_cons, List.getLast?_eq_some_getLast]

/-- The value of the Python variable after the plane number `i`. -/
def hitAt (hits : Nat → List Pt3) : Nat → Option Pt3
  | 0 => none
  | i + 1 => lastHit (hitAt hits i) (hits (i + 1))

theorem hitAt_latest (hits : Nat → List Pt3) (i : Nat) (p : Pt3) : hitAt hits i = some p ↔ LatestHit hits i p := by
  induction i with
  | zero =>
    constructor
    · intro h; cases h
    · rintro ⟨j, h1, h2, _⟩; omega
  | succ i ih =>
    rw [hitAt, lastHit_eq]
    rcases hl : (hits (i + 1)).getLast? with _ | q
    · simp only
      rw [ih]
      constructor
      · rintro ⟨j, h1, h2, h3, h4⟩
        refine ⟨j, h1, by omega, h3, fun j' a b => ?_⟩
        rcases Nat.lt_or_ge i j' with hj | hj
        · rw [show j' = i + 1 by omega]; exact List.getLast?_eq_none_iff.1 hl
        · exact h4 j' a hj
      · rintro ⟨j, h1, h2, h3, h4⟩
        have : j ≠ i + 1 := by rintro rfl; rw [hl] at h3; cases h3
        exact ⟨j, h1, by omega, h3, fun j' a b => h4 j' a (by omega)⟩
    · simp only
      constructor
      · intro h
        exact ⟨i + 1, by omega, le_rfl, by rw [hl, h], fun j' a b => by omega⟩
      · rintro ⟨j, h1, h2, h3, h4⟩
        have : j = i + 1 := by
          by_contra hj
          rw [h4 (i + 1) (by omega) le_rfl] at hl
          cases hl
        subst this
        rw [← h3, hl]

theorem hitAt_some (hits : Nat → List Pt3) (h : hits 1 ≠ []) (i : Nat) (hi : 1 ≤ i) : ∃ p, hitAt hits i = some p := by
  induction i, hi using Nat.le_induction with
  | base =>
    rw [hitAt, lastHit_eq]
    rcases hl : (hits 1).getLast? with _ | p
    · exact absurd (List.getLast?_eq_none_iff.1 hl) h
    · exact ⟨p, rfl⟩
  | succ i hi ih =>
    obtain ⟨p, hp⟩ := ih
    rw [hitAt, lastHit_eq, hp]
    rcases (hits (i + 1)).getLast? with _ | q
    · exact ⟨p, rfl⟩
    · exact ⟨q, rfl⟩

/-- The point of the camber line made from two points on the two halves. -/
def camberAt (G : PlaneCut) (t b : Pt3) : Pt3 := G.curve (G.halfway (min (G.nearest t) (G.nearest b)) (max (G.nearest t) (G.nearest b)))

theorem inner_points (m : Nat) (hm : m = 498) : ((linspaceN 0 1 500).drop 1).dropLast = (List.range' 1 m).map fun i : Nat => (i : ℝ) / 499 := by
  have hlen : (linspaceN 0 1 500).length = 500 := by rw [linspaceN, List.length_map, List.length_range]
  have hget : ∀ j : Nat, j < 500 → (linspaceN 0 1 500)[j]? = some ((j : ℝ) / 499) := by
    intro j hj
    rw [linspaceN_get hj]
    norm_num
  generalize linspaceN 0 1 500 = L at hlen hget
  refine List.ext_getElem? fun i => ?_
  rw [List.getElem?_map]
  rcases Nat.lt_or_ge i m with h | h
  · rw [List.getElem?_dropLast, List.getElem?_drop, List.length_drop, hlen, if_pos (by omega), hget _ (by omega), List.getElem?_range' h]
    simp
  · rw [List.getElem?_eq_none (by rw [List.length_dropLast, List.length_drop, hlen]; omega), List.getElem?_eq_none (by simpa using h)]
    rfl

theorem array_eq (m : Nat) (hm : m = 498) (R : ℝ) (le te : Pt3) (cut : ℝ → Res PlaneCut) : camberArray R le te cut =
    match camberLoop R le te cut ((List.range' 1 m).map fun i : Nat => (i : ℝ) / 499) (none, none) with
    | .error e => .error e
    | .ok ps => .ok (le :: ps ++ [te]) := by
  unfold camberArray
  rw [inner_points m hm]
  clear hm
  rcases camberLoop R le te cut ((List.range' 1 m).map fun i : Nat => (i : ℝ) / 499) (none, none) with e | ps <;> rfl

theorem loop_error (R : ℝ) (le te : Pt3) (cut : ℝ → Res PlaneCut) (m : Nat) {e : PyErr} (h : camberStep R le te cut (((1 : Nat) : ℝ) / 499) (none, none) = .error e) :
    camberLoop R le te cut ((List.range' 1 (m + 1)).map fun i : Nat => (i : ℝ) / 499) (none, none) = .error e := by
  rw [List.range'_succ, List.map_cons, camberLoop, h]

theorem loop_ok (R : ℝ) (le te : Pt3) (cut : ℝ → Res PlaneCut) (G : Nat → PlaneCut) (ht : ∀ s, chordTangent R le te s ≠ (0, 0, 0))
    (T B : Nat → Pt3) : ∀ (n a : Nat), (∀ i : Nat, a < i → i ≤ a + n → cut ((i : ℝ) / 499) = .ok (G i)) →
    (∀ i : Nat, a < i → i ≤ a + n → hitAt (fun j => (G j).topHits) i = some (T i) ∧ hitAt (fun j => (G j).bottomHits) i = some (B i)) →
    camberLoop R le te cut ((List.range' (a + 1) n).map fun i : Nat => (i : ℝ) / 499)
      (hitAt (fun j => (G j).topHits) a, hitAt (fun j => (G j).bottomHits) a) = .ok ((List.range' (a + 1) n).map fun i => camberAt (G i) (T i) (B i)) := by
  intro n
  induction n with
  | zero => intro a _ _; rfl
  | succ n ih =>
    intro a hG hh
    obtain ⟨h1, h2⟩ := hh (a + 1) (by omega) (by omega)
    have step : camberStep R le te cut (((a + 1 : Nat) : ℝ) / 499) (hitAt (fun j => (G j).topHits) a, hitAt (fun j => (G j).bottomHits) a) =
        .ok ((some (T (a + 1)), some (B (a + 1))), camberAt (G (a + 1)) (T (a + 1)) (B (a + 1))) := by
      rw [hitAt] at h1 h2
      simp only [camberStep, if_neg (ht _), hG (a + 1) (by omega) (by omega), h1, h2]
      rfl
    rw [List.range'_succ, List.map_cons, List.map_cons, camberLoop, step]
    simp only
    rw [← h1, ← h2, ih (a + 1) (fun i x y => hG i (by omega) (by omega)) (fun i x y => hh i (by omega) (by omega))]

/-- **C119** Which sections get a camber line, for a kernel that can cut every plane: if leading and trailing edge have the same axial coordinate and the same `y` there is
no chord (`RuntimeError`); otherwise only the first plane counts: if it meets the upper and the lower half there is a camber line, if it misses one of them
`UnboundLocalError`. -/
theorem C119_accepts (R : ℝ) (hR : 0 < R) (le te : Pt3) (hle : |le.2.1| ≤ R) (hte : |te.2.1| ≤ R) (cut : ℝ → Res PlaneCut) (G : Nat → PlaneCut)
    (hG : ∀ i : Nat, 1 ≤ i → i ≤ 498 → cut ((i : ℝ) / 499) = .ok (G i)) :
    (le.1 = te.1 ∧ le.2.1 = te.2.1 → camberArray R le te cut = .error .runtimeError) ∧
    (¬ (le.1 = te.1 ∧ le.2.1 = te.2.1) → (G 1).topHits ≠ [] → (G 1).bottomHits ≠ [] → ∃ P, camberArray R le te cut = .ok P) ∧
    (¬ (le.1 = te.1 ∧ le.2.1 = te.2.1) → (G 1).topHits = [] ∨ (G 1).bottomHits = [] → camberArray R le te cut = .error .unboundLocal) := by
  have bound : ∀ y : ℝ, |y| ≤ R → -1 ≤ y / R ∧ y / R ≤ 1 := by
    intro y hy
    obtain ⟨h1, h2⟩ := abs_le.1 hy
    exact ⟨by rw [le_div_iff₀ hR]; linarith, by rw [div_le_iff₀ hR]; linarith⟩
  have ht : ¬ (le.1 = te.1 ∧ le.2.1 = te.2.1) → ∀ s, chordTangent R le te s ≠ (0, 0, 0) := by
    intro h s h0
    simp only [chordTangent, Prod.mk.injEq] at h0
    obtain ⟨h1, h2, h3⟩ := h0
    refine h ⟨by linarith, ?_⟩
    have ha : Real.arcsin (te.2.1 / R) - Real.arcsin (le.2.1 / R) = 0 := by
      by_contra hne
      set a := Real.arcsin (te.2.1 / R) - Real.arcsin (le.2.1 / R)
      set x := a * s + Real.arcsin (le.2.1 / R)
      have c : Real.cos x = 0 := by
        rcases mul_eq_zero.1 h2 with h | h
        · exact absurd h (mul_ne_zero hne hR.ne')
        · exact h
      have d : Real.sin x = 0 := by
        rcases mul_eq_zero.1 h3 with h | h
        · exact absurd h (mul_ne_zero (neg_ne_zero.2 hne) hR.ne')
        · exact h
      have := Real.sin_sq_add_cos_sq x
      rw [c, d] at this
      norm_num at this
    have := (Real.arcsin_inj (bound _ hte).1 (bound _ hte).2 (bound _ hle).1 (bound _ hle).2).1 (sub_eq_zero.1 ha)
    field_simp at this
    exact this.symm
  obtain ⟨m, hm⟩ : ∃ m, m + 1 = 498 := ⟨497, rfl⟩
  have arr := array_eq (m + 1) hm R le te cut
  generalize camberArray R le te cut = A at arr ⊢
  refine ⟨?_, ?_, ?_⟩
  · rintro ⟨h1, h2⟩
    have h0 : chordTangent R le te (((1 : Nat) : ℝ) / 499) = (0, 0, 0) := by
      simp [chordTangent, h1, h2]
    rw [arr, loop_error R le te cut m (e := .runtimeError) (by rw [camberStep, if_pos h0])]
  · intro h h1 h2
    choose! T hT using hitAt_some (fun j => (G j).topHits) h1
    choose! B hB using hitAt_some (fun j => (G j).bottomHits) h2
    have := loop_ok R le te cut G (ht h) T B (m + 1) 0 (fun i a b => hG i (by omega) (by omega)) (fun i a b => ⟨hT i (by omega), hB i (by omega)⟩)
    have e : (none, none) = (hitAt (fun j => (G j).topHits) 0, hitAt (fun j => (G j).bottomHits) 0) := rfl
    rw [arr, e, this]
    exact ⟨_, rfl⟩
  · intro h h12
    rw [arr, loop_error R le te cut m (e := .unboundLocal)]
    rw [camberStep, if_neg (ht h _), hG 1 le_rfl (by omega)]
    rcases h12 with h1 | h2
    · simp [h1, lastHit]
    · simp only [h2, lastHit]
      rcases lastHit none (G 1).topHits with _ | _ <;> rfl

/-- **C119** The camber points: 500, from the leading to the trailing edge; the point on plane `i` lies half way, along the curve in which this plane cuts the cylinder,
between the points nearest to the last point found on the upper half and the last found on the lower half. If a plane misses one of the halves, the point found on an
earlier plane is used. -/
theorem C119_points (R : ℝ) (le te : Pt3) (cut : ℝ → Res PlaneCut) (P : List Pt3) (h : camberArray R le te cut = .ok P) :
    P.length = 500 ∧ P[0]? = some le ∧ P[499]? = some te ∧
    ∃ G : Nat → PlaneCut, ∀ i : Nat, 1 ≤ i → i ≤ 498 → cut ((i : ℝ) / 499) = .ok (G i) ∧
      ∃ t b, LatestHit (fun j => (G j).topHits) i t ∧ LatestHit (fun j => (G j).bottomHits) i b ∧
        P[i]? = some ((G i).curve ((G i).halfway (min ((G i).nearest t) ((G i).nearest b)) (max ((G i).nearest t) ((G i).nearest b)))) := by
  obtain ⟨G, hGd⟩ : ∃ G : Nat → PlaneCut, ∀ i : Nat, ∀ g, cut ((i : ℝ) / 499) = .ok g → G i = g :=
    ⟨fun i => match cut ((i : ℝ) / 499) with | .ok g => g | .error _ => ⟨fun _ => (0, 0, 0), [], [], fun _ => 0, fun _ _ => 0⟩, fun i g hg => by simp only [hg]⟩
  have loop : ∀ (n a : Nat) (ps : List Pt3), camberLoop R le te cut ((List.range' (a + 1) n).map fun i : Nat => (i : ℝ) / 499)
      (hitAt (fun j => (G j).topHits) a, hitAt (fun j => (G j).bottomHits) a) = .ok ps → ps.length = n ∧
      ∀ i : Nat, i < n → cut (((a + 1 + i : Nat) : ℝ) / 499) = .ok (G (a + 1 + i)) ∧
        ∃ t b, hitAt (fun j => (G j).topHits) (a + 1 + i) = some t ∧ hitAt (fun j => (G j).bottomHits) (a + 1 + i) = some b ∧
          ps[i]? = some (camberAt (G (a + 1 + i)) t b) := by
    intro n
    induction n with
    | zero =>
      intro a ps hp
      obtain rfl := Except.ok.inj (show Except.ok [] = Except.ok ps from hp)
      exact ⟨rfl, fun i hi => by omega⟩
    | succ n ih =>
      intro a ps hp
      rw [List.range'_succ, List.map_cons, camberLoop] at hp
      rcases hs : camberStep R le te cut (((a + 1 : Nat) : ℝ) / 499) (hitAt (fun j => (G j).topHits) a, hitAt (fun j => (G j).bottomHits) a) with e | ⟨v, p⟩
      · rw [hs] at hp; cases hp
      · rw [hs] at hp
        simp only at hp
        have hcut : cut (((a + 1 : Nat) : ℝ) / 499) = .ok (G (a + 1)) ∧ ∃ t b, hitAt (fun j => (G j).topHits) (a + 1) = some t ∧
            hitAt (fun j => (G j).bottomHits) (a + 1) = some b ∧ v = (some t, some b) ∧ p = camberAt (G (a + 1)) t b := by
          rw [camberStep] at hs
          split at hs
          · cases hs
          · rcases hc : cut (((a + 1 : Nat) : ℝ) / 499) with e | g
            · rw [hc] at hs; cases hs
            · have hg := hGd (a + 1) g hc
              rw [hc] at hs
              simp only at hs
              rw [← hg] at hs ⊢
              rw [hitAt, hitAt]
              rcases h1 : lastHit (hitAt (fun j => (G j).topHits) a) (G (a + 1)).topHits with _ | t <;>
                rcases h2 : lastHit (hitAt (fun j => (G j).bottomHits) a) (G (a + 1)).bottomHits with _ | b <;> simp only [h1, h2] at hs
              · cases hs
              · cases hs
              · cases hs
              · have := Except.ok.inj hs
                exact ⟨rfl, t, b, rfl, rfl, (Prod.mk.inj this).1.symm, (Prod.mk.inj this).2.symm⟩
        obtain ⟨c0, t, b, ht, hb, rfl, rfl⟩ := hcut
        rcases hr : camberLoop R le te cut ((List.range' (a + 1 + 1) n).map fun i : Nat => (i : ℝ) / 499) (some t, some b) with e | qs
        · rw [hr] at hp; cases hp
        · rw [hr] at hp
          obtain rfl := Except.ok.inj hp
          obtain ⟨l, hall⟩ := ih (a + 1) qs (by rw [ht, hb]; exact hr)
          refine ⟨by rw [List.length_cons, l], fun i hi => ?_⟩
          cases i with
          | zero => exact ⟨c0, t, b, ht, hb, rfl⟩
          | succ i =>
            have := hall i (by omega)
            rw [show a + 1 + (i + 1) = a + 1 + 1 + i by omega]
            simpa using this
  obtain ⟨m, hm⟩ : ∃ m, m = 498 := ⟨498, rfl⟩
  rw [array_eq m hm] at h
  rcases hl : camberLoop R le te cut ((List.range' 1 m).map fun i : Nat => (i : ℝ) / 499) (none, none) with e | ps
  · rw [hl] at h; cases h
  · rw [hl] at h
    obtain rfl := Except.ok.inj h
    obtain ⟨l, hall⟩ := loop m 0 ps hl
    refine ⟨by simp [l, hm], rfl, ?_, G, fun i h1 h2 => ?_⟩
    · rw [List.cons_append, List.getElem?_cons_succ, List.getElem?_append_right (by omega), l, hm]
      rfl
    obtain ⟨c, t, b, ht, hb, hp⟩ := hall (i - 1) (by omega)
    rw [show 0 + 1 + (i - 1) = i by omega] at c ht hb hp
    refine ⟨c, t, b, (hitAt_latest _ _ _).1 ht, (hitAt_latest _ _ _).1 hb, ?_⟩
    obtain ⟨k, rfl⟩ : ∃ k, i = k + 1 := ⟨i - 1, by omega⟩
    rw [List.cons_append, List.getElem?_cons_succ, List.getElem?_append_left (by omega)]
    exact hp

/-- **C119** Which half is called the upper one does not matter for the camber points. -/
theorem C119_swap (R : ℝ) (le te : Pt3) (cut : ℝ → Res PlaneCut) :
    camberArray R le te (fun s => (cut s).map fun G => { G with topHits := G.bottomHits, bottomHits := G.topHits }) = camberArray R le te cut := by
  have step : ∀ s v, camberStep R le te (fun s => (cut s).map fun G => { G with topHits := G.bottomHits, bottomHits := G.topHits }) s (v.2, v.1) =
      (camberStep R le te cut s v).map fun r => ((r.1.2, r.1.1), r.2) := by
    intro s v
    simp only [camberStep]
    split
    · rfl
    · rcases cut s with e | G
      · rfl
      · simp only [Except.map]
        rcases lastHit v.1 G.topHits with _ | t <;> rcases lastHit v.2 G.bottomHits with _ | b
        · rfl
        · rfl
        · rfl
        · simp only [min_comm (G.nearest b), max_comm (G.nearest b)]
  have loop : ∀ ss v, camberLoop R le te (fun s => (cut s).map fun G => { G with topHits := G.bottomHits, bottomHits := G.topHits }) ss (v.2, v.1) =
      camberLoop R le te cut ss v := by
    intro ss
    induction ss with
    | nil => intro v; rfl
    | cons s ss ih =>
      intro v
      rw [camberLoop, camberLoop, step]
      rcases camberStep R le te cut s v with e | ⟨v', p⟩
      · rfl
      · show (match camberLoop R le te (fun s => (cut s).map fun G => { G with topHits := G.bottomHits, bottomHits := G.topHits }) ss (v'.2, v'.1) with
          | .error e => Except.error e
          | .ok ps => Except.ok (p :: ps)) = _
        rw [ih v']
        simp only
        rcases camberLoop R le te cut ss v' with _ | _ <;> rfl
  obtain ⟨m, hm⟩ : ∃ m, m = 498 := ⟨498, rfl⟩
  rw [array_eq m hm, array_eq m hm]
  rw [loop _ (none, none)]

/-- **C119** If every plane meets each half in one point of its curve, at the parameters `u i` and `w i`, and the curves are measured by their length, then the camber
point on it has the parameter half way between the two. -/
theorem C119_middle (R : ℝ) (le te : Pt3) (cut : ℝ → Res PlaneCut) (G : Nat → PlaneCut) (u w : Nat → ℝ)
    (hG : ∀ i : Nat, 1 ≤ i → i ≤ 498 → cut ((i : ℝ) / 499) = .ok (G i) ∧ (G i).topHits = [(G i).curve (u i)] ∧ (G i).bottomHits = [(G i).curve (w i)] ∧
      (G i).nearest ((G i).curve (u i)) = u i ∧ (G i).nearest ((G i).curve (w i)) = w i ∧ ∀ a b, (G i).halfway a b = (a + b) / 2)
    (P : List Pt3) (h : camberArray R le te cut = .ok P) :
    ∀ i : Nat, 1 ≤ i → i ≤ 498 → P[i]? = some ((G i).curve ((u i + w i) / 2)) := by
  intro i h1 h2
  obtain ⟨-, -, -, G', hp⟩ := C119_points R le te cut P h
  have eqG : ∀ j : Nat, 1 ≤ j → j ≤ 498 → G' j = G j := by
    intro j a b
    exact Except.ok.inj ((hp j a b).1.symm.trans (hG j a b).1)
  obtain ⟨-, t, b, ⟨j, j1, j2, j3, j4⟩, ⟨k, k1, k2, k3, k4⟩, e⟩ := hp i h1 h2
  have ji : j = i := by
    by_contra hne
    have := j4 i (by omega) le_rfl
    simp only [eqG i h1 h2, (hG i h1 h2).2.1] at this
    cases this
  have ki : k = i := by
    by_contra hne
    have := k4 i (by omega) le_rfl
    simp only [eqG i h1 h2, (hG i h1 h2).2.2.1] at this
    cases this
  subst ji
  subst ki
  obtain ⟨-, g1, g2, g3, g4, g5⟩ := hG _ h1 h2
  simp only [eqG _ h1 h2] at e j3 k3
  rw [g1] at j3
  rw [g2] at k3
  obtain rfl := Option.some.inj (show some ((G _).curve (u _)) = some t from j3)
  obtain rfl := Option.some.inj (show some ((G _).curve (w _)) = some b from k3)
  rw [e, g3, g4, g5, min_add_max]

/-- **C119** The seam: if a plane cuts the cylinder in a circle whose parameter starts between the two halves of the section (the upper half at the angle `δ₁` after the
start, the lower half at the angle `δ₂` before it), the camber point is not between them but diametrically opposite, on the other side of the cylinder. -/
theorem C119_seam (R : ℝ) (le te : Pt3) (cut : ℝ → Res PlaneCut) (G : Nat → PlaneCut) (x θ δ₁ δ₂ : Nat → ℝ)
    (hG : ∀ i : Nat, 1 ≤ i → i ≤ 498 → cut ((i : ℝ) / 499) = .ok (G i) ∧
      (∀ a, (G i).curve a = (x i, R * Real.sin (θ i + a), R * Real.cos (θ i + a))) ∧
      (G i).topHits = [(x i, R * Real.sin (θ i + δ₁ i), R * Real.cos (θ i + δ₁ i))] ∧
      (G i).bottomHits = [(x i, R * Real.sin (θ i - δ₂ i), R * Real.cos (θ i - δ₂ i))] ∧
      (∀ a, 0 ≤ a → a < 2 * Real.pi → (G i).nearest ((G i).curve a) = a) ∧ (∀ a b, (G i).halfway a b = (a + b) / 2) ∧
      0 < δ₁ i ∧ δ₁ i < Real.pi ∧ 0 < δ₂ i ∧ δ₂ i < Real.pi)
    (P : List Pt3) (h : camberArray R le te cut = .ok P) :
    ∀ i : Nat, 1 ≤ i → i ≤ 498 →
      P[i]? = some (x i, -(R * Real.sin (θ i + (δ₁ i - δ₂ i) / 2)), -(R * Real.cos (θ i + (δ₁ i - δ₂ i) / 2))) := by
  intro i h1 h2
  have key := C119_middle R le te cut G (fun i => δ₁ i) (fun i => 2 * Real.pi - δ₂ i) ?_ P h i h1 h2
  · rw [key, (hG i h1 h2).2.1]
    have : θ i + (δ₁ i + (2 * Real.pi - δ₂ i)) / 2 = θ i + (δ₁ i - δ₂ i) / 2 + Real.pi := by ring
    rw [this, Real.sin_add_pi, Real.cos_add_pi]
    rw [mul_neg, mul_neg]
  · intro j a b
    obtain ⟨c, cv, th, bh, nr, hf, p1, p2, p3, p4⟩ := hG j a b
    refine ⟨c, by rw [th, cv], ?_, nr _ (by linarith) (by linarith), nr _ (by linarith [Real.pi_pos]) (by linarith), hf⟩
    rw [bh, cv, show θ j + (2 * Real.pi - δ₂ j) = θ j - δ₂ j + 2 * Real.pi by ring, Real.sin_add_two_pi, Real.cos_add_two_pi]

/-- Not vacuous: the section of a thin blade along the top of a cylinder of radius 1, cut by planes across the axis; with the start of the circles at the top, all inner
camber points lie on the bottom of the cylinder. -/
example : ∃ (cut : ℝ → Res PlaneCut) (P : List Pt3), camberArray 1 (0, 0, 1) (1, 0, 1) cut = .ok P ∧
    ∀ i : Nat, 1 ≤ i → i ≤ 498 → P[i]? = some ((i : ℝ) / 499, 0, -1) := by
  obtain ⟨cut, hc⟩ : ∃ cut : ℝ → Res PlaneCut, cut = fun s => .ok {
      curve := fun a => (s, 1 * Real.sin (0 + a), 1 * Real.cos (0 + a))
      topHits := [(s, 1 * Real.sin (0 + 1), 1 * Real.cos (0 + 1))]
      bottomHits := [(s, 1 * Real.sin (0 - 1), 1 * Real.cos (0 - 1))]
      nearest := fun p => if h : ∃ a, 0 ≤ a ∧ a < 2 * Real.pi ∧ (s, 1 * Real.sin (0 + a), 1 * Real.cos (0 + a)) = p then h.choose else 0
      halfway := fun a b => (a + b) / 2 } := ⟨_, rfl⟩
  obtain ⟨P, hP⟩ := (C119_accepts 1 one_pos (0, 0, 1) (1, 0, 1) (by norm_num) (by norm_num) cut _ fun i _ _ => by rw [hc]).2.1 (by norm_num)
    (by simp) (by simp)
  refine ⟨cut, P, hP, ?_⟩
  have := C119_seam 1 (0, 0, 1) (1, 0, 1) cut _ (fun i => (i : ℝ) / 499) (fun _ => 0) (fun _ => 1) (fun _ => 1) (fun i _ _ => ⟨by rw [hc], fun a => rfl, rfl, rfl, ?_,
    fun a b => rfl, one_pos, by linarith [Real.two_le_pi], one_pos, by linarith [Real.two_le_pi]⟩) P hP
  · intro i a b
    rw [this i a b]
    simp
  · intro a a0 a1
    have hex : ∃ a' : ℝ, 0 ≤ a' ∧ a' < 2 * Real.pi ∧ ((i : ℝ) / 499, 1 * Real.sin (0 + a'), 1 * Real.cos (0 + a')) =
        ((i : ℝ) / 499, 1 * Real.sin (0 + a), 1 * Real.cos (0 + a)) := ⟨a, a0, a1, rfl⟩
    simp only [dif_pos hex]
    obtain ⟨c0, c1, c2⟩ := hex.choose_spec
    generalize hex.choose = c at c0 c1 c2
    simp only [Prod.mk.injEq, one_mul, zero_add, true_and] at c2
    have hz : Real.cos (c - a) = 1 := by
      rw [Real.cos_sub, c2.1, c2.2]
      nlinarith [Real.sin_sq_add_cos_sq a]
    have := (Real.cos_eq_one_iff_of_lt_of_lt (by linarith) (by linarith)).1 hz
    linarith

end Reverse
end
end BladeX
