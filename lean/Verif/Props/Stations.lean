import Verif.Spec.Station
import Verif.Props.BladeCylinder
import Verif.Props.Units
import Verif.Props.ThicknessSensitivity

/-! # C146: the stations of a blade do not influence each other -/

namespace BladeX

open Spec Profile
noncomputable section

private theorem getIdx_congr {a b : Arr} {i j : Nat} (h : a[i]? = b[j]?) : getIdx a i = getIdx b j := by
  unfold getIdx; rw [h]

/-- Stations given by the same data go through the same statements. -/
theorem Spec.SameStation.steps {b c : Blade} {i j : Nat} (h : SameStation b i c j) (refl : Bool) :
    Blade.sectionSteps b refl i = Blade.sectionSteps c refl j := by
  obtain ⟨-, h2, h3, h4, h5, h6, h7, h8, h9⟩ := h
  unfold Blade.sectionSteps
  rw [getIdx_congr h2, getIdx_congr h3, getIdx_congr h4, getIdx_congr h5, getIdx_congr h6]
  rcases hb : b.thickness with _ | t <;> rcases hc : c.thickness with _ | t' <;>
    simp only [hb, hc, Option.map_none, Option.map_some, reduceCtorEq] at h7
  · rcases kb : b.camber with _ | f <;> rcases kc : c.camber with _ | f' <;>
      simp only [kb, kc, Option.isSome_none, Option.isSome_some, reduceCtorEq, Option.map_some, forall_const] at h8 h9
    · rfl
    by_cases hi : i + 1 < b.sections.length
    · simp only [hi, h9.1.1 hi, if_true]
      rw [getIdx_congr (Option.some.inj (h9.2 hi))]
    · have hj : ¬ j + 1 < c.sections.length := fun h => hi (h9.1.2 h)
      simp only [hi, hj, if_false]
  · have ht := getIdx_congr (Option.some.inj h7)
    rcases kb : b.camber with _ | f <;> rcases kc : c.camber with _ | f' <;>
      simp only [kb, kc, Option.isSome_none, Option.isSome_some, reduceCtorEq, Option.map_some, forall_const] at h8 h9
    · simp only [ht]
    by_cases hi : i + 1 < b.sections.length
    · simp only [ht, hi, h9.1.1 hi, if_true]
      rw [getIdx_congr (Option.some.inj (h9.2 hi))]
    · have hj : ¬ j + 1 < c.sections.length := fun h => hi (h9.1.2 h)
      simp only [ht, hi, hj, if_false]

/-- **C146** Two blades, one station of each given by the same data: after `apply_transformations` the two stations have the same points and the
same section, whatever the other stations are. -/
theorem C146_local (b b' c c' : Blade) (refl : Bool) (hW : b.WellFormed) (hW' : c.WellFormed) (h : b.applyTransformations refl = (b', .ok ()))
    (h' : c.applyTransformations refl = (c', .ok ())) (i j : Nat) (hi : i < b.sections.length) (hS : SameStation b i c j) :
    b'.coordsUp[b.sections.length - 1 - i]? = c'.coordsUp[c.sections.length - 1 - j]? ∧
    b'.coordsDown[b.sections.length - 1 - i]? = c'.coordsDown[c.sections.length - 1 - j]? ∧
    b'.sections[i]? = c'.sections[j]? ∧ (b'.sections[i]?).isSome ∧ (b'.coordsUp[b.sections.length - 1 - i]?).isSome := by
  have hj : j < c.sections.length := by
    have := hS.sections
    rw [List.getElem?_eq_getElem hi] at this
    exact (List.getElem?_eq_some_iff.1 this.symm).1
  obtain ⟨-, -, k⟩ := C48_reversed b b' refl hW h
  obtain ⟨-, -, k'⟩ := C48_reversed c c' refl hW' h'
  obtain ⟨ss, up, down, h1, h2, rfl⟩ := (Blade.apply_ok hW.1).1 h
  obtain ⟨ss', up', down', h1', h2', rfl⟩ := (Blade.apply_ok hW'.1).1 h'
  obtain ⟨hl, hall⟩ := (Blade.sectionLoop_ok _ _ _).1 h1
  obtain ⟨hl', hall'⟩ := (Blade.sectionLoop_ok _ _ _).1 h1'
  have q1 : ss[i]? = some (ss[i]'(by omega)) := List.getElem?_eq_getElem _
  have q2 : ss'[j]? = some (ss'[j]'(by omega)) := List.getElem?_eq_getElem _
  have p1 : b.sections[i]? = some b.sections[i] := List.getElem?_eq_getElem _
  have p2 : c.sections[j]? = some b.sections[i] := by rw [← hS.sections, p1]
  have e1 := hall i _ _ p1 q1
  have e2 := hall' j _ _ p2 q2
  rw [Nat.zero_add, hS.steps refl] at e1
  rw [Nat.zero_add, e1] at e2
  have eq : ss[i]'(by omega) = ss'[j]'(by omega) := congrArg Prod.fst e2
  have r1 : b.radii[i]? = some (b.radii[i]'(by have := hW.1; omega)) := List.getElem?_eq_getElem _
  have r2 : c.radii[j]? = some (b.radii[i]'(by have := hW.1; omega)) := by rw [← hS.radius, r1]
  obtain ⟨a1, a2, -⟩ := k i _ _ q1 r1
  obtain ⟨a3, a4, -⟩ := k' j _ _ q2 r2
  refine ⟨?_, ?_, ?_, ?_, ?_⟩
  · exact a1.trans (by rw [eq]; exact a3.symm)
  · exact a2.trans (by rw [eq]; exact a4.symm)
  · exact q1.trans (by rw [eq]; exact q2.symm)
  · rw [show ({ b with sections := ss, coordsUp := up, coordsDown := down } : Blade).sections[i]? = _ from q1]; rfl
  · rw [a1]; rfl

/-- **C146** A blade put together from stations of blades that went through, all with the same numbers of points: it goes through. (With
`C146_local`: with the points the stations had there.) -/
theorem C146_assembled (b : Blade) (refl : Bool) (hW : b.WellFormed) (hne : b.sections ≠ []) (n m : Nat)
    (h : ∀ i < b.sections.length, ∃ (c c' : Blade) (j : Nat) (up down : List Pt3), c.WellFormed ∧ c.applyTransformations refl = (c', .ok ()) ∧
      SameStation b i c j ∧ c'.coordsUp[c.sections.length - 1 - j]? = some up ∧ c'.coordsDown[c.sections.length - 1 - j]? = some down ∧
      up.length = n ∧ down.length = m) :
    ∃ b', b.applyTransformations refl = (b', .ok ()) := by
  have look : ∀ i, ∃ Q : Profile, ∀ hi : i < b.sections.length, Blade.runSteps (Blade.sectionSteps b refl i) b.sections[i] = (Q, .ok ()) ∧
      Q.xup.length = Q.yup.length ∧ Q.xdown.length = Q.ydown.length ∧ Q.upper.length = n ∧ Q.lower.length = m ∧
      b.radii[i]'(by have := hW.1; omega) ≠ 0 := by
    intro i
    by_cases hi : i < b.sections.length
    swap
    · exact ⟨Sample.foil, fun h => absurd h hi⟩
    obtain ⟨c, c', j, up, down, hWc, hc, hS, u1, u2, u3, u4⟩ := h i hi
    have p1 : b.sections[i]? = some b.sections[i] := List.getElem?_eq_getElem _
    have p2 : c.sections[j]? = some b.sections[i] := by rw [← hS.sections, p1]
    have hj : j < c.sections.length := (List.getElem?_eq_some_iff.1 p2).1
    obtain ⟨-, -, k⟩ := C48_reversed c c' refl hWc hc
    obtain ⟨ss, up', down', h1, h2, rfl⟩ := (Blade.apply_ok hWc.1).1 hc
    obtain ⟨hl, hall⟩ := (Blade.sectionLoop_ok _ _ _).1 h1
    have q1 : ss[j]? = some (ss[j]'(by omega)) := List.getElem?_eq_getElem _
    have r1 : b.radii[i]? = some (b.radii[i]'(by have := hW.1; omega)) := List.getElem?_eq_getElem _
    have r2 : c.radii[j]? = some (b.radii[i]'(by have := hW.1; omega)) := by rw [← hS.radius, r1]
    obtain ⟨-, d2, -, -⟩ := (Blade.cylindrical_ok (by rw [hl]; exact hWc.1)).1 h2
    obtain ⟨e1, e2, e3⟩ := d2 j _ _ q1 r2
    obtain ⟨a1, a2, -⟩ := k j _ _ q1 r2
    refine ⟨ss[j]'(by omega), fun _ => ⟨?_, e2, e3, ?_, ?_, e1⟩⟩
    · have := hall j _ _ p2 q1
      rw [Nat.zero_add] at this
      rw [hS.steps refl]; exact this
    · have : some up = some _ := u1.symm.trans a1
      rw [← u3, Option.some.inj this]; simp
    · have : some down = some _ := u2.symm.trans a2
      rw [← u4, Option.some.inj this]; simp
  choose g hg using look
  set ss := (List.range b.sections.length).map g with hss
  have hsl : ss.length = b.sections.length := by simp [hss]
  have hget : ∀ (i : Nat) (Q : Profile), ss[i]? = some Q → i < b.sections.length ∧ Q = g i := by
    intro i Q hQ
    simp only [hss, List.getElem?_map, List.getElem?_range', Option.map_eq_some_iff] at hQ
    obtain ⟨k, hk, rfl⟩ := hQ
    obtain ⟨hlt, rfl⟩ := List.getElem?_eq_some_iff.1 hk
    simp only [List.length_range] at hlt
    exact ⟨hlt, by simp⟩
  have hloop : Blade.sectionLoop b refl 0 b.sections = (ss, .ok ()) := by
    refine (Blade.sectionLoop_ok _ _ _).2 ⟨hsl, ?_⟩
    intro i P Q hP hQ
    obtain ⟨hi, rfl⟩ := hget i Q hQ
    rw [List.getElem?_eq_getElem hi] at hP
    rw [← Option.some.inj hP, Nat.zero_add]
    exact (hg i hi).1
  obtain ⟨up, down, hcyl⟩ : ∃ up down, Blade.cylindrical ss b.radii = .ok (up, down) := by
    refine ⟨_, _, (Blade.cylindrical_ok (by rw [hsl]; exact hW.1)).2 ⟨?_, ?_, ?_, rfl, rfl⟩⟩
    · intro h0
      rw [h0] at hsl
      exact hne (List.length_eq_zero_iff.1 hsl.symm)
    · intro i P r hP hr
      obtain ⟨hi, rfl⟩ := hget i P hP
      obtain ⟨-, g2, g3, -, -, g6⟩ := hg i hi
      obtain ⟨_, rfl⟩ := List.getElem?_eq_some_iff.1 hr
      exact ⟨g6, g2, g3⟩
    · intro P hP Q hQ
      obtain ⟨i, hi⟩ := List.getElem?_of_mem hP
      obtain ⟨j, hj⟩ := List.getElem?_of_mem hQ
      obtain ⟨hi', rfl⟩ := hget i P hi
      obtain ⟨hj', rfl⟩ := hget j Q hj
      obtain ⟨-, -, -, g4, g5, -⟩ := hg i hi'
      obtain ⟨-, -, -, g4', g5', -⟩ := hg j hj'
      exact ⟨by rw [g4, g4'], by rw [g5, g5']⟩
  exact ⟨_, (Blade.apply_ok hW.1).2 ⟨ss, _, _, hloop, hcyl, rfl⟩⟩

/-- **C146** Taking stations out of a blade, repeating them or putting them in another order: if the blade `c` goes through and every station of `b` is
given by the data of a station of `c`, then `b` goes through and every station has the points it has in `c`. -/
theorem C146_selected (b c c' : Blade) (refl : Bool) (hW : b.WellFormed) (hne : b.sections ≠ []) (hWc : c.WellFormed)
    (hc : c.applyTransformations refl = (c', .ok ())) (f : Nat → Nat) (hS : ∀ i < b.sections.length, SameStation b i c (f i)) :
    ∃ b', b.applyTransformations refl = (b', .ok ()) ∧ b'.coordsUp.length = b.sections.length ∧ b'.coordsDown.length = b.sections.length ∧
      ∀ i < b.sections.length, b'.coordsUp[b.sections.length - 1 - i]? = c'.coordsUp[c.sections.length - 1 - f i]? ∧
        b'.coordsDown[b.sections.length - 1 - i]? = c'.coordsDown[c.sections.length - 1 - f i]? ∧
        b'.sections[i]? = c'.sections[f i]? := by
  obtain ⟨-, -, k⟩ := C48_reversed c c' refl hWc hc
  obtain ⟨ss, up, down, h1, h2, e⟩ := (Blade.apply_ok hWc.1).1 hc
  obtain ⟨hl, -⟩ := (Blade.sectionLoop_ok _ _ _).1 h1
  obtain ⟨d1, -, d3, -⟩ := (Blade.cylindrical_ok (by rw [hl]; exact hWc.1)).1 h2
  obtain ⟨Q0, hQ0⟩ := List.exists_mem_of_ne_nil _ d1
  have hcs : c'.sections = ss := by rw [e]
  obtain ⟨b', hb⟩ := C146_assembled b refl hW hne Q0.upper.length Q0.lower.length (by
    intro i hi
    have hj : f i < c.sections.length := by
      have := (hS i hi).sections
      rw [List.getElem?_eq_getElem hi] at this
      exact (List.getElem?_eq_some_iff.1 this.symm).1
    have q1 : ss[f i]? = some (ss[f i]'(by omega)) := List.getElem?_eq_getElem _
    have hr : c.radii[f i]? = some (c.radii[f i]'(by have := hWc.1; omega)) := List.getElem?_eq_getElem _
    obtain ⟨a1, a2, -⟩ := k (f i) _ _ (by rw [hcs]; exact q1) hr
    obtain ⟨z1, z2⟩ := d3 _ (List.mem_of_getElem? q1) Q0 hQ0
    exact ⟨c, c', f i, _, _, hWc, hc, hS i hi, a1, a2, by simpa using z1, by simpa using z2⟩)
  obtain ⟨l1, l2, -⟩ := C48_reversed b b' refl hW hb
  refine ⟨b', hb, l1, l2, ?_⟩
  intro i hi
  obtain ⟨m1, m2, m3, -⟩ := C146_local b b' c c' refl hW hWc hb hc i (f i) hi (hS i hi)
  exact ⟨m1, m2, m3⟩

/-! ### Non-vacuity -/

/-- The sample blade with the two stations exchanged and the outer one repeated: three stations with the points they had. -/
example : ∃ (b b' c' : Blade), b.radii = [2, 1, 2] ∧ (Sample.trioBlade (some [1/2, 3/5]) none).applyTransformations true = (c', .ok ()) ∧
    b.applyTransformations true = (b', .ok ()) ∧ b'.coordsUp[0]? = c'.coordsUp[0]? ∧ b'.coordsUp[1]? = c'.coordsUp[1]? ∧
    b'.coordsUp[2]? = c'.coordsUp[0]? := by
  have href := C06_reference_is_midpoint _ Sample.trio_ref.updateEdges
  obtain ⟨c', hc⟩ := (C145_defined (Sample.trioBlade (some [1/2, 3/5]) none) true (by simp [Sample.trioBlade, Blade.WellFormed]) _ rfl rfl
    (by simp [Sample.trioBlade, Sample.trio, Profile.SameX])).2
      ⟨by simp [Sample.trioBlade], by simp [Sample.trioBlade], by
        intro P hP
        have : P = Sample.trio := by simpa [Sample.trioBlade] using hP
        subst this
        exact ⟨_, href⟩, by simp [Sample.trioBlade], by simp [Sample.trioBlade]⟩
  obtain ⟨b', hb, -, -, h⟩ := C146_selected { Sample.trioBlade none none with
      sections := [Sample.trio, Sample.trio, Sample.trio], radii := [2, 1, 2], chord := [1, 1, 1], pitch := [4, 2, 4], rake := [1, 0, 1],
      skew := [10, 0, 10], thickness := some [3/5, 1/2, 3/5] }
    _ c' true (by simp [Blade.WellFormed]) (by simp) (by simp [Sample.trioBlade, Blade.WellFormed]) hc (fun i => if i = 1 then 0 else 1) (by
      intro i hi
      simp only [List.length_cons, List.length_nil] at hi
      interval_cases i <;> constructor <;> simp [Sample.trioBlade])
  refine ⟨_, b', c', rfl, hc, hb, (h 2 (by simp)).1, (h 1 (by simp)).1, (h 0 (by simp)).1⟩

/-- With camber arrays: two blades with the same first station, the first of two and of three. -/
example : SameStation (Sample.trioBlade none (some [1/10, 0])) 0
    { Sample.trioBlade none none with
      sections := [Sample.trio, Sample.foil, Sample.trio], radii := [1, 5, 6], chord := [1, 7, 8], pitch := [2, 4, 4], rake := [0, 1, 1],
      skew := [0, 10, 10], camber := some [1/10, 2] } 0 := by
  constructor <;> simp [Sample.trioBlade]

end
end BladeX
