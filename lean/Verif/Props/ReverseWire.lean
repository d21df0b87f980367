import Verif.Spec.ReverseWire
import Verif.Lemmas.Reverse
import Mathlib.Data.List.Perm.Basic

/-! # C118: the upper and the lower half of a section (`reversepropellerbladex.py`) -/

namespace BladeX
noncomputable section
open Spec Classical

namespace Reverse

theorem touches_iff (e f : SecEdge) : e.touches f = true ↔ Adjoin e f := by
  simp only [SecEdge.touches, decide_eq_true_eq, Adjoin]
  constructor
  · rintro (h | h | h | h)
    · exact ⟨e.start, Or.inl rfl, Or.inl h⟩
    · exact ⟨e.start, Or.inl rfl, Or.inr h⟩
    · exact ⟨e.stop, Or.inr rfl, Or.inl h⟩
    · exact ⟨e.stop, Or.inr rfl, Or.inr h⟩
  · rintro ⟨p, (rfl | rfl), (h | h)⟩ <;> simp [h]

theorem adjoin_symm {e f : SecEdge} (h : Adjoin e f) : Adjoin f e := by
  obtain ⟨p, a, b⟩ := h
  exact ⟨p, b, a⟩

/-- What is reached from the edges of the wire stays the same while it grows. -/
theorem grow_spec (es : List SecEdge) (e : SecEdge) : ∀ (n : Nat) (w r : List SecEdge), r.length ≤ n → (w ++ r).Perm es →
    (∀ a ∈ w, Relation.ReflTransGen (fun a b => b ∈ es ∧ Adjoin a b) e a) → e ∈ w →
    ((growWire n w r).2 = [] ↔ ∀ a ∈ es, Relation.ReflTransGen (fun a b => b ∈ es ∧ Adjoin a b) e a) := by
  have stuck : ∀ w r : List SecEdge, (w ++ r).Perm es → e ∈ w → (∀ a ∈ w, Relation.ReflTransGen (fun a b => b ∈ es ∧ Adjoin a b) e a) →
      (∀ a ∈ r, ∀ b ∈ w, ¬ Adjoin a b) → (r = [] ↔ ∀ a ∈ es, Relation.ReflTransGen (fun a b => b ∈ es ∧ Adjoin a b) e a) := by
    intro w r hp he hw hn
    constructor
    · rintro rfl a ha
      exact hw a (by simpa using hp.mem_iff.2 ha)
    · intro h
      have hin : ∀ a, Relation.ReflTransGen (fun a b => b ∈ es ∧ Adjoin a b) e a → a ∈ w := by
        intro a ha
        induction ha with
        | refl => exact he
        | tail _ hbc ih =>
          rcases List.mem_append.1 (hp.mem_iff.2 hbc.1) with h' | h'
          · exact h'
          · exact absurd (adjoin_symm hbc.2) (hn _ h' _ ih)
      rcases r with _ | ⟨a, r⟩
      · rfl
      · exact absurd (⟨a.start, Or.inl rfl, Or.inl rfl⟩ : Adjoin a a) (hn a List.mem_cons_self a (hin a (h a (hp.mem_iff.1 (by simp)))))
  intro n
  induction n with
  | zero =>
    intro w r hr hp hw he
    obtain rfl := List.length_eq_zero_iff.1 (Nat.le_zero.1 hr)
    exact stuck w [] hp he hw (by simp)
  | succ n ih =>
    intro w r hr hp hw he
    rw [growWire]
    split
    · rename_i hf
      refine stuck w r hp he hw fun a ha b hb hj => ?_
      have := List.find?_eq_none.1 hf a ha
      exact this (List.any_eq_true.2 ⟨b, hb, (touches_iff a b).2 hj⟩)
    · rename_i f hf
      have hfr := List.mem_of_find?_eq_some hf
      obtain ⟨b, hb, hj⟩ := List.any_eq_true.1 (List.find?_some (p := fun e : SecEdge => w.any e.touches) hf)
      have hp' : (f :: w ++ r.erase f).Perm es := by
        refine List.Perm.trans ?_ hp
        exact (List.perm_middle.symm.trans (List.Perm.append_left w (List.perm_cons_erase hfr).symm))
      refine ih _ _ ?_ hp' ?_ (List.mem_cons_of_mem _ he)
      · rw [List.length_erase_of_mem hfr]; omega
      · intro a ha
        rcases List.mem_cons.1 ha with rfl | ha
        · exact (hw b hb).tail ⟨hp.mem_iff.1 (by simp [hfr]), adjoin_symm ((touches_iff _ _).1 hj)⟩
        · exact hw a ha

theorem connected_from (e : SecEdge) (es : List SecEdge) :
    Connected (e :: es) ↔ ∀ a ∈ e :: es, Relation.ReflTransGen (fun a b => b ∈ e :: es ∧ Adjoin a b) e a := by
  constructor
  · exact fun h => h e List.mem_cons_self
  · intro h a ha b hb
    refine Relation.ReflTransGen.trans ?_ (h b hb)
    have rev : ∀ x, Relation.ReflTransGen (fun a b => b ∈ e :: es ∧ Adjoin a b) e x → Relation.ReflTransGen (fun a b => b ∈ e :: es ∧ Adjoin a b) x e := by
      intro x hx
      have mem : ∀ y, Relation.ReflTransGen (fun a b => b ∈ e :: es ∧ Adjoin a b) e y → y ∈ e :: es := by
        intro y hy
        induction hy with
        | refl => exact List.mem_cons_self
        | tail _ h _ => exact h.1
      induction hx with
      | refl => exact .refl
      | tail hy hxy ih => exact Relation.ReflTransGen.head ⟨mem _ hy, adjoin_symm hxy.2⟩ ih
    exact rev a (h a ha)

/-- **C118** A wire can be made exactly from edges that are connected and of which there is at least one; it has all of them. Otherwise `RuntimeError`. -/
theorem C118_wire (es : List SecEdge) :
    (es ≠ [] ∧ Connected es → makeWire es = .ok es) ∧ (¬ (es ≠ [] ∧ Connected es) → makeWire es = .error .runtimeError) := by
  rcases es with _ | ⟨e, es⟩
  · simp [makeWire]
  · have key := grow_spec (e :: es) e es.length [e] es le_rfl (List.Perm.refl _) (by simp [Relation.ReflTransGen.refl]) (by simp)
    rw [← connected_from] at key
    constructor
    · rintro ⟨_, h⟩
      rw [makeWire, if_pos (key.2 h)]
    · intro h
      rw [makeWire, if_neg fun hc => h ⟨by simp, key.1 hc⟩]

theorem deal_get (es : List SecEdge) : ∀ c : Nat,
    (∀ e, e ∈ (dealEdges c es).1 ↔ ∃ i : Nat, (c + i) % 2 = 0 ∧ es[i]? = some e) ∧
    (∀ e, e ∈ (dealEdges c es).2 ↔ ∃ i : Nat, (c + i) % 2 = 1 ∧ es[i]? = some e) := by
  induction es with
  | nil => intro c; simp [dealEdges]
  | cons a es ih =>
    intro c
    obtain ⟨h1, h2⟩ := ih (c + 1)
    have shift : ∀ (q : Nat) (e : SecEdge), (∃ i : Nat, (c + i) % 2 = q ∧ (a :: es)[i]? = some e) ↔
        (c % 2 = q ∧ a = e) ∨ ∃ i : Nat, (c + 1 + i) % 2 = q ∧ es[i]? = some e := by
      intro q e
      constructor
      · rintro ⟨i, hi, he⟩
        cases i with
        | zero => exact Or.inl ⟨hi, by simpa using he⟩
        | succ i => exact Or.inr ⟨i, by rw [← hi]; congr 1; omega, by simpa using he⟩
      · rintro (⟨hq, rfl⟩ | ⟨i, hi, he⟩)
        · exact ⟨0, hq, rfl⟩
        · exact ⟨i + 1, by rw [← hi]; congr 1; omega, by simpa using he⟩
    rw [dealEdges]
    rcases Nat.mod_two_eq_zero_or_one c with hc | hc
    · rw [if_pos (by omega)]
      refine ⟨fun e => ?_, fun e => ?_⟩
      · rw [List.mem_cons, h1, shift]; constructor
        · rintro (rfl | h)
          · exact Or.inl ⟨hc, rfl⟩
          · exact Or.inr h
        · rintro (⟨_, rfl⟩ | h)
          · exact Or.inl rfl
          · exact Or.inr h
      · rw [h2, shift]
        exact ⟨Or.inr, fun h => h.resolve_left (by omega)⟩
    · rw [if_neg (by omega)]
      refine ⟨fun e => ?_, fun e => ?_⟩
      · rw [h1, shift]
        exact ⟨Or.inr, fun h => h.resolve_left (by omega)⟩
      · rw [List.mem_cons, h2, shift]; constructor
        · rintro (rfl | h)
          · exact Or.inl ⟨hc, rfl⟩
          · exact Or.inr h
        · rintro (⟨_, rfl⟩ | h)
          · exact Or.inl rfl
          · exact Or.inr h

/-- **C118** Which edges go where, and when a section is accepted: the first, third, ... edge in the order of the explorer make the upper half, the second, fourth, ...
the lower half; the section is accepted exactly if there are two edges or more and the whole section and both halves are connected. Otherwise `RuntimeError`. -/
theorem C118_split (es : List SecEdge) :
    (∀ e, e ∈ (dealEdges 0 es).1 ↔ ∃ i : Nat, i % 2 = 0 ∧ es[i]? = some e) ∧ (∀ e, e ∈ (dealEdges 0 es).2 ↔ ∃ i : Nat, i % 2 = 1 ∧ es[i]? = some e) ∧
    (2 ≤ es.length ∧ Connected es ∧ Connected (dealEdges 0 es).1 ∧ Connected (dealEdges 0 es).2 →
      sectionWires es = .ok (es, (dealEdges 0 es).1, (dealEdges 0 es).2)) ∧
    (¬ (2 ≤ es.length ∧ Connected es ∧ Connected (dealEdges 0 es).1 ∧ Connected (dealEdges 0 es).2) → sectionWires es = .error .runtimeError) := by
  have hg := deal_get es 0
  simp only [Nat.zero_add] at hg
  refine ⟨hg.1, hg.2, ?_, ?_⟩
  · rintro ⟨hl, h0, h1, h2⟩
    have n0 : es ≠ [] := by rintro rfl; simp at hl
    have n1 : (dealEdges 0 es).1 ≠ [] := List.ne_nil_of_mem ((hg.1 _).2 ⟨0, rfl, List.getElem?_eq_getElem (by omega)⟩)
    have n2 : (dealEdges 0 es).2 ≠ [] := List.ne_nil_of_mem ((hg.2 _).2 ⟨1, rfl, List.getElem?_eq_getElem (by omega)⟩)
    rw [sectionWires, (C118_wire _).1 ⟨n0, h0⟩, (C118_wire _).1 ⟨n1, h1⟩, (C118_wire _).1 ⟨n2, h2⟩]
    rfl
  · intro h
    rw [sectionWires]
    by_cases h0 : es ≠ [] ∧ Connected es
    · rw [(C118_wire _).1 h0]
      by_cases h1 : (dealEdges 0 es).1 ≠ [] ∧ Connected (dealEdges 0 es).1
      · rw [(C118_wire _).1 h1]
        have h2 : ¬ ((dealEdges 0 es).2 ≠ [] ∧ Connected (dealEdges 0 es).2) := by
          rintro ⟨n2, h2⟩
          refine h ⟨?_, h0.2, h1.2, h2⟩
          obtain ⟨e, he⟩ := List.exists_mem_of_ne_nil _ n2
          obtain ⟨i, hi, hei⟩ := (hg.2 e).1 he
          have := (List.getElem?_eq_some_iff.1 hei).1
          omega
        rw [(C118_wire _).2 h2]
        rfl
      · rw [(C118_wire _).2 h1]
        rfl
    · rw [(C118_wire _).2 h0]
      rfl

theorem closed_get (v : Nat → Pt3) (k i : Nat) (e : SecEdge) : (closedSection v k)[i]? = some e ↔ i < k ∧ e = ⟨v i, v ((i + 1) % k)⟩ := by
  rw [closedSection, List.getElem?_map]
  rcases Nat.lt_or_ge i k with h | h
  · rw [List.getElem?_range h]
    simp [h, eq_comm]
  · rw [List.getElem?_eq_none (by simpa using h)]
    simp [Nat.not_lt.2 h]

/-- **C118** For a closed section with `k` different corners, its edges in order, the two halves are accepted exactly for two and for three edges; every other section of
this kind, such as one whose upper and lower face consist of two patches each, ends in `RuntimeError`. -/
theorem C118_closed (v : Nat → Pt3) (k : Nat) (hv : ∀ i j : Nat, i < k → j < k → v i = v j → i = j) :
    (k = 2 → sectionWires (closedSection v k) = .ok (closedSection v k, [⟨v 0, v 1⟩], [⟨v 1, v 0⟩])) ∧
    (k = 3 → sectionWires (closedSection v k) = .ok (closedSection v k, [⟨v 0, v 1⟩, ⟨v 2, v 0⟩], [⟨v 1, v 2⟩])) ∧
    (k ≠ 2 → k ≠ 3 → sectionWires (closedSection v k) = .error .runtimeError) := by
  have single : ∀ e : SecEdge, Connected [e] := by
    intro e a ha b hb
    rw [List.mem_singleton.1 ha, List.mem_singleton.1 hb]
  refine ⟨?_, ?_, ?_⟩
  · rintro rfl
    have e : closedSection v 2 = [⟨v 0, v 1⟩, ⟨v 1, v 0⟩] := rfl
    refine (C118_split _).2.2.1 ⟨by rw [e]; simp, ?_, single _, single _⟩
    rw [e, connected_from]
    intro a ha
    rcases List.mem_cons.1 ha with rfl | ha
    · exact .refl
    · rw [List.mem_singleton.1 ha]
      exact .single ⟨by simp, v 0, Or.inl rfl, Or.inr rfl⟩
  · rintro rfl
    have e : closedSection v 3 = [⟨v 0, v 1⟩, ⟨v 1, v 2⟩, ⟨v 2, v 0⟩] := rfl
    refine (C118_split _).2.2.1 ⟨by rw [e]; simp, ?_, ?_, single _⟩
    · rw [e, connected_from]
      intro a ha
      simp only [List.mem_cons, List.not_mem_nil, or_false] at ha
      rcases ha with rfl | rfl | rfl
      · exact .refl
      · exact .single ⟨by simp, v 1, Or.inr rfl, Or.inl rfl⟩
      · exact .single ⟨by simp, v 0, Or.inl rfl, Or.inr rfl⟩
    · show Connected [⟨v 0, v 1⟩, ⟨v 2, v 0⟩]
      rw [connected_from]
      intro a ha
      rcases List.mem_cons.1 ha with rfl | ha
      · exact .refl
      · rw [List.mem_singleton.1 ha]
        exact .single ⟨by simp, v 0, Or.inl rfl, Or.inr rfl⟩
  · intro h2 h3
    refine (C118_split _).2.2.2 ?_
    rintro ⟨hl, _, _, hc⟩
    have hl' : 2 ≤ k := by simpa [closedSection] using hl
    have hg := (C118_split (closedSection v k)).2.1
    have m1 := (hg _).2 ⟨1, rfl, (closed_get v k 1 _).2 ⟨by omega, rfl⟩⟩
    have m3 := (hg _).2 ⟨3, rfl, (closed_get v k 3 _).2 ⟨by omega, rfl⟩⟩
    have hj : ∀ i j : Nat, i < k → j < k → i % 2 = 1 → j % 2 = 1 → Adjoin ⟨v i, v ((i + 1) % k)⟩ ⟨v j, v ((j + 1) % k)⟩ → i = j := by
      intro i j hi hj oi oj hjn
      have si := Nat.mod_lt (i + 1) (show 0 < k by omega)
      have sj := Nat.mod_lt (j + 1) (show 0 < k by omega)
      have ei : (i + 1) % k = i + 1 ∨ (i + 1) % k = 0 := by
        rcases Nat.lt_or_ge (i + 1) k with h | h
        · exact Or.inl (Nat.mod_eq_of_lt h)
        · exact Or.inr (by rw [show i + 1 = k by omega, Nat.mod_self])
      have ej : (j + 1) % k = j + 1 ∨ (j + 1) % k = 0 := by
        rcases Nat.lt_or_ge (j + 1) k with h | h
        · exact Or.inl (Nat.mod_eq_of_lt h)
        · exact Or.inr (by rw [show j + 1 = k by omega, Nat.mod_self])
      obtain ⟨p, hp, hq⟩ := hjn
      simp only at hp hq
      rcases hp with rfl | rfl <;> rcases hq with hq | hq
      · exact hv i j hi hj hq
      · have := hv i _ hi sj hq; omega
      · have := hv _ j si hj hq; omega
      · have := hv _ _ si sj hq
        have ek : ∀ m, m < k → (m + 1) % k = 0 → m + 1 = k := by
          intro m hm h0
          rcases Nat.lt_or_ge (m + 1) k with h | h
          · rw [Nat.mod_eq_of_lt h] at h0; omega
          · omega
        rcases ei with ei | ei <;> rcases ej with ej | ej
        · omega
        · omega
        · omega
        · have := ek i hi ei; have := ek j hj ej; omega
    have hpath : ∀ a, Relation.ReflTransGen (fun a b => b ∈ (dealEdges 0 (closedSection v k)).2 ∧ Adjoin a b) ⟨v 1, v ((1 + 1) % k)⟩ a →
        a = ⟨v 1, v ((1 + 1) % k)⟩ := by
      intro a ha
      induction ha with
      | refl => rfl
      | tail _ h ih =>
        rw [ih] at h
        obtain ⟨j, oj, hjj⟩ := (hg _).1 h.1
        obtain ⟨hjk, rfl⟩ := (closed_get v k j _).1 hjj
        obtain rfl := hj 1 j (by omega) hjk rfl oj h.2
        rfl
    have := hpath _ (hc _ m1 _ m3)
    have := hv 3 1 (by omega) (by omega) (SecEdge.mk.inj this).1
    omega

/-- **C118** The edges of a section that is accepted: the trailing edge where an edge of the upper half begins, the leading edge where one ends; they are the two corners
the upper half shares with the lower half. -/
theorem C118_edges (v : Nat → Pt3) (k : Nat) (hv : ∀ i j : Nat, i < k → j < k → v i = v j → i = j) (wire top bottom : List SecEdge)
    (h : sectionWires (closedSection v k) = .ok (wire, top, bottom)) :
    ∃ te le, sectionEnds (closedSection v k) = .ok (te, le) ∧ te ≠ le ∧ (∃ e ∈ top, te = e.start) ∧ (∃ e ∈ top, le = e.stop) ∧ ∀ p, Vertex top p ∧ Vertex bottom p ↔ p = te ∨ p = le := by
  obtain ⟨h2, h3, hn⟩ := C118_closed v k hv
  by_cases k2 : k = 2
  · have e := h2 k2
    rw [h] at e
    obtain ⟨-, rfl, rfl⟩ : _ ∧ _ ∧ _ := by simpa using Except.ok.inj e
    subst k2
    have n01 : v 0 ≠ v 1 := fun hh => by have := hv 0 1 (by omega) (by omega) hh; omega
    refine ⟨v 0, v 1, ?_, n01, by simp, by simp, ?_⟩
    · rw [sectionEnds, h]
      simp [bind, Except.bind, wireEnds, n01, n01.symm, pure, Except.pure]
    · intro p
      simp only [Vertex, List.mem_singleton, exists_eq_left]
      exact ⟨fun hh => hh.1, fun hh => ⟨hh, hh.symm⟩⟩
  · by_cases k3 : k = 3
    · have e := h3 k3
      rw [h] at e
      obtain ⟨-, rfl, rfl⟩ : _ ∧ _ ∧ _ := by simpa using Except.ok.inj e
      subst k3
      have n01 : v 0 ≠ v 1 := fun hh => by have := hv 0 1 (by omega) (by omega) hh; omega
      have n02 : v 0 ≠ v 2 := fun hh => by have := hv 0 2 (by omega) (by omega) hh; omega
      have n12 : v 1 ≠ v 2 := fun hh => by have := hv 1 2 (by omega) (by omega) hh; omega
      refine ⟨v 2, v 1, ?_, n12.symm, by simp, by simp, ?_⟩
      · rw [sectionEnds, h]
        simp [bind, Except.bind, wireEnds, n01, n01.symm, n02, n02.symm, n12, n12.symm, pure, Except.pure]
      · intro p
        simp only [Vertex, List.mem_cons, List.not_mem_nil, or_false, exists_eq_or_imp, exists_eq_left]
        constructor
        · rintro ⟨(rfl | rfl) | (rfl | rfl), hb⟩
          · exact hb.elim (fun hh => absurd hh n01) fun hh => absurd hh n02
          · exact Or.inr rfl
          · exact Or.inl rfl
          · exact hb.elim (fun hh => absurd hh n01) fun hh => absurd hh n02
        · rintro (rfl | rfl)
          · exact ⟨Or.inr (Or.inl rfl), Or.inr rfl⟩
          · exact ⟨Or.inl (Or.inr rfl), Or.inl rfl⟩
    · rw [hn k2 k3] at h
      cases h

/-- Not vacuous: a section with the two corners of a foil is accepted, the same section with each half divided in two is not. -/
example : ∃ v : Nat → Pt3, (∀ i j : Nat, i < 4 → j < 4 → v i = v j → i = j) ∧
    sectionWires (closedSection v 2) = .ok (closedSection v 2, [⟨v 0, v 1⟩], [⟨v 1, v 0⟩]) ∧
    sectionWires (closedSection v 4) = .error .runtimeError := by
  have inj : ∀ i j : Nat, ((i : ℝ), (0 : ℝ), (1 : ℝ)) = ((j : ℝ), (0 : ℝ), (1 : ℝ)) → i = j := by
    intro i j h
    exact_mod_cast (Prod.mk.inj h).1
  exact ⟨fun i => (i, 0, 1), fun i j _ _ h => inj i j h, (C118_closed _ 2 fun i j _ _ h => inj i j h).1 rfl,
    (C118_closed _ 4 fun i j _ _ h => inj i j h).2.2 (by omega) (by omega)⟩

end Reverse
end
end BladeX
