import Verif.Model.BladeAssigned
import Verif.Lemmas.BladeSection
import Verif.Lemmas.American

/-! # Lemmas on blades with assigned attributes -/

namespace BladeX
noncomputable section
open Spec Classical
namespace AssignedBlade
open Blade

theorem bEntry_ok {v : Arr} {i : Nat} {x : ℝ} : bEntry v i = .ok x ↔ (v.length ≠ 1 ∧ v[i]? = some x) ∨ v = [x] := by
  unfold bEntry
  rw [getIdx_ok]
  by_cases h : v.length = 1
  · obtain ⟨y, rfl⟩ := List.length_eq_one_iff.1 h
    simp
  · simp only [h, if_false, ne_eq, not_false_eq_true, true_and]
    constructor
    · exact Or.inl
    · rintro (h' | rfl)
      · exact h'
      · simp at h

theorem bLen_ok {m k l : Nat} : bLen m k = .ok l ↔ (m = k ∧ l = m) ∨ (m = 1 ∧ l = k) ∨ (k = 1 ∧ l = m) := by
  unfold bLen
  split_ifs with h1 h2 h3
  · simp only [Except.ok.injEq]; omega
  · simp only [Except.ok.injEq]; omega
  · simp only [Except.ok.injEq]; omega
  · simp only [reduceCtorEq, false_iff]; omega

theorem loop_ok (a : AssignedBlade) (refl : Bool) : ∀ (is : List Nat) (ss ts : List Profile), is.Nodup →
    (a.loop refl is ss = (ts, .ok ()) ↔ ts.length = ss.length ∧ (∀ i ∈ is, i < ss.length) ∧
      (∀ (j : Nat) (P Q : Profile), ss[j]? = some P → ts[j]? = some Q →
        (j ∈ is → runSteps (a.steps refl j) P = (Q, .ok ())) ∧ (j ∉ is → Q = P))) := by
  intro is
  induction is with
  | nil =>
    intro ss ts _
    simp only [loop, Prod.mk.injEq, and_true, List.not_mem_nil, false_imp_iff, implies_true, not_false_eq_true, true_imp_iff, true_and]
    constructor
    · rintro rfl
      exact ⟨rfl, fun j P Q h1 h2 => by rw [h1] at h2; exact (Option.some.inj h2).symm⟩
    · rintro ⟨hl, h⟩
      apply List.ext_getElem hl.symm
      intro j h1 h2
      exact (h j _ _ (List.getElem?_eq_getElem h1) (List.getElem?_eq_getElem h2)).symm
  | cons i is ih =>
    intro ss ts hnd
    obtain ⟨hni, hnd⟩ := List.nodup_cons.1 hnd
    simp only [loop]
    rcases hs : ss[i]? with _ | P
    · simp only [Prod.mk.injEq, reduceCtorEq, and_false, false_iff]
      rintro ⟨_, h, _⟩
      have := h i (by simp)
      rw [List.getElem?_eq_none_iff] at hs
      omega
    · have hlt := (List.getElem?_eq_some_iff.1 hs).1
      rcases hr : runSteps (a.steps refl i) P with ⟨Q, (e | u)⟩
      · simp only [hr, Prod.mk.injEq, reduceCtorEq, and_false, false_iff]
        rintro ⟨hl, _, h⟩
        have hlt' : i < ts.length := by omega
        have := (h i P ts[i] hs (List.getElem?_eq_getElem hlt')).1 (by simp)
        rw [hr] at this
        simp at this
      · simp only [hr, ih _ _ hnd, List.length_set]
        constructor
        · rintro ⟨h1, h2, h3⟩
          refine ⟨h1, ?_, ?_⟩
          · intro j hj
            rcases List.mem_cons.1 hj with rfl | hj
            · exact hlt
            · exact h2 j hj
          · intro j P' Q' hP hQ
            by_cases hij : i = j
            · subst hij
              rw [hs] at hP
              obtain rfl := Option.some.inj hP
              have := (h3 i Q Q' (by simp [hlt]) hQ).2 hni
              subst this
              exact ⟨fun _ => hr, fun h => absurd (by simp) h⟩
            · have := h3 j P' Q' (by simp [hij, hP]) hQ
              refine ⟨fun h => this.1 ?_, fun h => this.2 ?_⟩
              · rcases List.mem_cons.1 h with rfl | h
                · exact absurd rfl hij
                · exact h
              · intro h'; exact h (by simp [h'])
        · rintro ⟨h1, h2, h3⟩
          refine ⟨h1, fun j hj => h2 j (by simp [hj]), ?_⟩
          intro j P' Q' hP hQ
          by_cases hij : i = j
          · subst hij
            have := (h3 i P Q' hs hQ).1 (by simp)
            rw [hr] at this
            obtain rfl : Q = Q' := (Prod.mk.inj this).1
            simp [hlt] at hP
            exact ⟨fun h => absurd h hni, fun _ => hP⟩
          · simp only [ne_eq, hij, not_false_eq_true, List.getElem?_set_ne] at hP
            have := h3 j P' Q' hP hQ
            refine ⟨fun h => this.1 (by simp [h]), fun h => this.2 ?_⟩
            intro h'
            rcases List.mem_cons.1 h' with rfl | h'
            · exact hij rfl
            · exact h h'

theorem apply_ok {a a' : AssignedBlade} {refl : Bool} : apply refl a = (a', .ok ()) ↔
    ∃ ss up down, a.loop refl (List.range a.n) a.b.sections = (ss, .ok ()) ∧ cylindrical ss a.b.radii = .ok (up, down) ∧
      a' = { a with b := { a.b with sections := ss, coordsUp := up, coordsDown := down } } := by
  unfold apply
  rcases h : a.loop refl (List.range a.n) a.b.sections with ⟨ss, (e | u)⟩
  · simp
  · simp only
    rcases hc : cylindrical ss a.b.radii with e | ⟨up, down⟩
    · simp only [Prod.mk.injEq, reduceCtorEq, and_false, false_iff]
      rintro ⟨ss', up', down', h1, h2, _⟩
      obtain rfl : ss = ss' := h1.1
      rw [hc] at h2; cases h2
    · simp only [Prod.mk.injEq, and_true]
      constructor
      · rintro rfl; exact ⟨ss, up, down, rfl, hc, rfl⟩
      · rintro ⟨ss', up', down', h1, h2, rfl⟩
        obtain rfl := h1
        rw [hc] at h2
        obtain ⟨rfl, rfl⟩ := Prod.mk.inj (Except.ok.inj h2)
        rfl

/-- Only the last sections and radii are laid on cylinders, as many as there are of both. -/
theorem cylindrical_drop (ss : List Profile) (rs : Arr) :
    cylindrical ss rs = cylindrical (ss.drop (ss.length - min ss.length rs.length)) (rs.drop (rs.length - min ss.length rs.length)) := by
  unfold cylindrical
  have : List.zip ss.reverse rs.reverse = List.zip (ss.drop (ss.length - min ss.length rs.length)).reverse
      (rs.drop (rs.length - min ss.length rs.length)).reverse := by
    rw [List.zip_eq_zip_take_min, List.length_reverse, List.length_reverse, List.take_reverse, List.take_reverse]
  rw [this]

/-- A blade of one section, for the loop body of one index. -/
def solo (r c p k s : ℝ) : Blade :=
  { sections := [], radii := [r], chord := [c], pitch := [p], rake := [k], skew := [s], thickness := none, camber := none, coordsUp := [],
    coordsDown := [], upper := none, lower := none, tip := none, root := none }

theorem steps_solo {a : AssignedBlade} (ht : a.b.thickness = none) (hf : a.b.camber = none) (refl : Bool) {i : Nat} {r c p k s : ℝ}
    (hr : a.b.radii[i]? = some r) (hc : a.b.chord[i]? = some c) (hk : a.b.rake[i]? = some k) (hs : a.b.skew[i]? = some s)
    (hp : pitchAngleAt a.b i = pitchAngle p r) (hi : inducedRakeAt a.b i = inducedRake p r s) :
    a.steps refl i = sectionSteps (solo r c p k s) refl 0 := by
  have e1 := getIdx_ok.2 hr
  have e2 := getIdx_ok.2 hc
  have e3 := getIdx_ok.2 hk
  have e4 := getIdx_ok.2 hs
  have f : ∀ x : ℝ, getIdx [x] 0 = .ok x := fun x => rfl
  unfold steps sectionSteps
  simp only [ht, hf, hp, hi, e1, e2, e3, e4, solo, f, bind, Except.bind]

theorem steps_entries {a : AssignedBlade} {refl : Bool} {i : Nat} {P Q : Profile} (h : runSteps (a.steps refl i) P = (Q, .ok ())) :
    ∃ r c p k s, a.b.radii[i]? = some r ∧ a.b.chord[i]? = some c ∧ a.b.rake[i]? = some k ∧ a.b.skew[i]? = some s ∧
      (a.b.pitch[i]? = some p ∨ a.b.pitch = [p]) ∧ pitchAngleAt a.b i = pitchAngle p r ∧ inducedRakeAt a.b i = inducedRake p r s := by
  rw [runSteps_ok] at h
  simp only [steps, List.foldlM_cons, Profile.bndA] at h
  obtain ⟨_, _, _, ⟨c, hc, _⟩, _, _, _, _, _, _, _, ⟨t, ht, _⟩, _, ⟨r, hr, s, hs, _⟩, _, ⟨k, hk, ir, hir, _⟩, _⟩ := h
  have hr' := getIdx_ok.1 hr
  have hs' := getIdx_ok.1 hs
  have radii : bEntry a.b.radii i = .ok r := by
    rw [bEntry_ok]
    by_cases h1 : a.b.radii.length = 1
    · right
      obtain ⟨y, hy⟩ := List.length_eq_one_iff.1 h1
      rw [hy] at hr' ⊢
      have := (List.getElem?_eq_some_iff.1 hr').1
      obtain rfl : i = 0 := by simpa using this
      simpa using hr'
    · exact .inl ⟨h1, hr'⟩
  have skew : bEntry a.b.skew i = .ok s := by
    rw [bEntry_ok]
    by_cases h1 : a.b.skew.length = 1
    · right
      obtain ⟨y, hy⟩ := List.length_eq_one_iff.1 h1
      rw [hy] at hs' ⊢
      have := (List.getElem?_eq_some_iff.1 hs').1
      obtain rfl : i = 0 := by simpa using this
      simpa using hs'
    · exact .inl ⟨h1, hs'⟩
  have ht' := ht
  unfold pitchAngleAt at ht
  rw [Profile.bndA] at ht
  obtain ⟨m, hm, ht⟩ := ht
  split at ht
  · cases ht
  rename_i him
  rw [Profile.bndA] at ht
  obtain ⟨p, hp, ht⟩ := ht
  refine ⟨r, c, p, k, s, hr', getIdx_ok.1 hc, getIdx_ok.1 hk, hs', ?_, ?_, ?_⟩
  · rcases bEntry_ok.1 hp with h1 | h1
    · exact .inl h1.2
    · exact .inr h1
  · rw [pitchAngleAt, hm]
    simp only [bind, Except.bind, him, if_false, hp, radii]
  · unfold inducedRakeAt at hir ⊢
    rw [Profile.bndA] at hir
    obtain ⟨k1, hk1, hir⟩ := hir
    rw [hm] at hir
    rw [hk1, hm]
    simp only [bind, Except.bind] at hir ⊢
    split at hir
    · cases hir
    rename_i l hl
    split at hir
    · cases hir
    rename_i hil
    simp only [hl, hil, if_false, hp, radii, skew]

theorem angles_of {b : Blade} {i : Nat} {r p s : ℝ} (hr : b.radii[i]? = some r) (hs : b.skew[i]? = some s)
    (hl : b.skew.length = b.radii.length) (hp : b.pitch.length = b.radii.length ∧ b.pitch[i]? = some p ∨ b.pitch = [p]) :
    pitchAngleAt b i = pitchAngle p r ∧ inducedRakeAt b i = inducedRake p r s := by
  have hi := (List.getElem?_eq_some_iff.1 hr).1
  have one : ∀ {v : Arr} {x : ℝ}, v[i]? = some x → bEntry v i = .ok x := by
    intro v x hv
    rw [bEntry_ok]
    by_cases h1 : v.length = 1
    · right
      obtain ⟨y, hy⟩ := List.length_eq_one_iff.1 h1
      rw [hy] at hv ⊢
      have := (List.getElem?_eq_some_iff.1 hv).1
      obtain rfl : i = 0 := by simpa using this
      simpa using hv
    · exact .inl ⟨h1, hv⟩
  have hm : bLen b.pitch.length b.radii.length = .ok b.radii.length := by
    rw [bLen_ok]
    rcases hp with h | h
    · left; exact ⟨h.1, h.1.symm⟩
    · right; left; exact ⟨by rw [h]; rfl, rfl⟩
  have hp' : bEntry b.pitch i = .ok p := by
    rcases hp with h | h
    · exact one h.2
    · rw [bEntry_ok]; exact .inr h
  have hk : bLen b.radii.length b.skew.length = .ok b.radii.length := by rw [bLen_ok]; omega
  have hkk : bLen b.radii.length b.radii.length = .ok b.radii.length := by rw [bLen_ok]; omega
  have hn : ¬ b.radii.length ≤ i := by omega
  constructor
  · rw [pitchAngleAt, hm]
    simp only [bind, Except.bind, hn, if_false, hp', one hr]
  · rw [inducedRakeAt, hk, hm]
    simp only [bind, Except.bind, hkk, hn, if_false, hp', one hr, one hs]

end AssignedBlade
end
end BladeX
