import Verif.Lemmas.Csv
import Verif.Props.ReverseMore

/-! # C78: the file of `save_global_parameters`; C79: `display_cylinder` and `display_section` -/

namespace BladeX
noncomputable section
open Classical Spec Reverse

namespace ReversePropeller

/-- The four records of a section. -/
def secRecords (strArr : Arr → Str) (j : Nat) (s : Section) : List (List Str) :=
  [[c!"x section" ++ strNat j ++ c!" upper coordinates: ", strArr s.xup], [c!"x section" ++ strNat j ++ c!" lower coordinates: ", strArr s.xdown],
   [c!"y section" ++ strNat j ++ c!" upper coordinates: ", strArr s.yup], [c!"y section" ++ strNat j ++ c!" lower coordinates: ", strArr s.ydown]]

def allRecords (strArr : Arr → Str) : Nat → List Section → List (List Str)
  | _, [] => []
  | j, s :: l => secRecords strArr j s ++ allRecords strArr (j + 1) l

theorem allRecords_length (strArr : Arr → Str) : ∀ (l : List Section) (j : Nat), (allRecords strArr j l).length = 4 * l.length
  | [], _ => rfl
  | s :: l, j => by simp only [allRecords, List.length_append, allRecords_length strArr l, secRecords, List.length_cons, List.length_nil]; ring

theorem allRecords_get (strArr : Arr → Str) : ∀ (l : List Section) (j i k : Nat) (s : Section), l[i]? = some s → k < 4 →
    (allRecords strArr j l)[4 * i + k]? = (secRecords strArr (j + i) s)[k]?
  | s' :: l, j, 0, k, s, h, hk => by
    simp only [List.getElem?_cons_zero, Option.some.injEq] at h
    subst h
    simp only [allRecords, mul_zero, zero_add, add_zero]
    rw [List.getElem?_append_left (by simpa [secRecords] using hk)]
  | s' :: l, j, i + 1, k, s, h, hk => by
    simp only [List.getElem?_cons_succ] at h
    simp only [allRecords]
    rw [List.getElem?_append_right (by simp [secRecords]; omega)]
    rw [show 4 * (i + 1) + k - (secRecords strArr j s').length = 4 * i + k by simp [secRecords]; omega,
      allRecords_get strArr l (j + 1) i k s h hk, show j + 1 + i = j + (i + 1) by ring]

/-- The text after the sections is the text before and something whose records are the records of the sections. -/
theorem allSectionRows_spec (strArr : Arr → Str) (p : ReversePropeller) : ∀ (l : List Section) (j : Nat) (acc : Str),
    (∀ i : Nat, i < l.length → p.sections[j + i]? = l[i]?) →
    ∃ t, allSectionRows strArr p j l.length acc = (acc ++ t, .ok ()) ∧ csvRecords t = some (allRecords strArr j l)
  | [], j, acc, _ => ⟨[], by simp [allSectionRows], by simp [csvRecords, csvRead, allRecords]⟩
  | s :: l, j, acc, h => by
    have h0 : p.sections[j]? = some s := by simpa using h 0 (by simp)
    have hs : sectionRows strArr p j = .ok (Csv.row (c!"x section" ++ strNat j ++ c!" upper coordinates: ") (strArr s.xup) ++
        Csv.row (c!"x section" ++ strNat j ++ c!" lower coordinates: ") (strArr s.xdown) ++
        Csv.row (c!"y section" ++ strNat j ++ c!" upper coordinates: ") (strArr s.yup) ++
        Csv.row (c!"y section" ++ strNat j ++ c!" lower coordinates: ") (strArr s.ydown)) := by
      simp only [sectionRows, getIdx, h0, bind, Except.bind, pure, Except.pure]
    simp only [List.length_cons, allSectionRows, hs]
    obtain ⟨t, ht, hr⟩ := allSectionRows_spec strArr p l (j + 1) (acc ++ (Csv.row (c!"x section" ++ strNat j ++ c!" upper coordinates: ") (strArr s.xup) ++
        Csv.row (c!"x section" ++ strNat j ++ c!" lower coordinates: ") (strArr s.xdown) ++
        Csv.row (c!"y section" ++ strNat j ++ c!" upper coordinates: ") (strArr s.yup) ++
        Csv.row (c!"y section" ++ strNat j ++ c!" lower coordinates: ") (strArr s.ydown))) (by
      intro i hi
      have := h (i + 1) (by simpa using hi)
      rw [show j + 1 + i = j + (i + 1) by ring, this, List.getElem?_cons_succ])
    refine ⟨_, by rw [ht, List.append_assoc], ?_⟩
    simp only [List.append_assoc]
    rw [Csv.read_row, Csv.read_row, Csv.read_row, Csv.read_row, hr]
    simp [allRecords, secRecords]

end ReversePropeller

open ReversePropeller

/-- **C78** The records of the saved file: radii, pitch angles, pitches, skew angles, rakes, chord lengths, then for every section the upper and
lower abscissae and the upper and lower ordinates. -/
def Spec.SavedRecords (strList strArr : Arr → Str) (p : ReversePropeller) (r : List (List Str)) : Prop :=
  r.length = 6 + 4 * p.radii.length ∧
  r[0]? = some [c!"Radii list: ", strList p.radii] ∧
  r[1]? = some [c!"Pitch angles list: ", strList (p.sections.map fun s => s.stored.pitchAngle)] ∧
  r[2]? = some [c!"Pitch list: ", strList (p.sections.map fun s => s.stored.pitch)] ∧
  r[3]? = some [c!"Skew angles list: ", strList (p.sections.map fun s => s.stored.skewAngle)] ∧
  r[4]? = some [c!"Rake list: ", strList (p.sections.map fun s => s.stored.rake)] ∧
  r[5]? = some [c!"Chord length list: ", strList (p.sections.map fun s => s.stored.chord)] ∧
  ∀ (j : Nat) (s : Section), p.sections[j]? = some s →
    r[6 + 4 * j]? = some [c!"x section" ++ (toString j).toList ++ c!" upper coordinates: ", strArr s.xup] ∧
    r[6 + 4 * j + 1]? = some [c!"x section" ++ (toString j).toList ++ c!" lower coordinates: ", strArr s.xdown] ∧
    r[6 + 4 * j + 2]? = some [c!"y section" ++ (toString j).toList ++ c!" upper coordinates: ", strArr s.yup] ∧
    r[6 + 4 * j + 3]? = some [c!"y section" ++ (toString j).toList ++ c!" lower coordinates: ", strArr s.ydown]

/-- All the numbers of the object that are saved are of the kind `F` (numbers that the rendering tells apart, such as floats). -/
def Spec.NumbersIn (F : ℝ → Prop) (p : ReversePropeller) : Prop :=
  (∀ x ∈ p.radii, F x) ∧ ∀ s ∈ p.sections, (∀ x ∈ s.xup, F x) ∧ (∀ x ∈ s.xdown, F x) ∧ (∀ x ∈ s.yup, F x) ∧ (∀ x ∈ s.ydown, F x) ∧
    F s.stored.pitchAngle ∧ F s.stored.pitch ∧ F s.stored.skewAngle ∧ F s.stored.rake ∧ F s.stored.chord

/-- **C78** For every object of either class, saving to a path that can be written succeeds, changes this file only, and reading the file as
CSV gives back exactly the records above, whatever characters the renderings of the numbers contain (commas, quotes, line breaks). A path that
cannot be written raises `OSError` and changes nothing. -/
theorem C78_saved (kind : Kind) (interp : List Pt → Res (ℝ → ℝ)) (geom : ℝ → Res SectionGeom) (radii : Arr) (n : Int) (p : ReversePropeller)
    (hp : ReversePropeller.new kind interp geom radii n = .ok p) (strList strArr : Arr → Str) (fs : ParamFile.FS) (path : Str) :
    (∃ fs' t r, p.saveGlobalParameters strList strArr true fs path = (fs', .ok ()) ∧ fs' path = some t ∧ (∀ q, q ≠ path → fs' q = fs q) ∧
      csvRecords t = some r ∧ SavedRecords strList strArr p r) ∧
    p.saveGlobalParameters strList strArr false fs path = (fs, .error .osError) := by
  obtain ⟨hr, hlen, _⟩ := C72_sections kind interp geom radii n p hp
  refine ⟨?_, rfl⟩
  obtain ⟨t, ht, hrec⟩ := allSectionRows_spec strArr p p.sections 0 (propertyRows strList p) (by intro i _; simp)
  have hl : p.radii.length = p.sections.length := by rw [hr, hlen]
  refine ⟨fun q => if q = path then some (propertyRows strList p ++ t) else fs q, propertyRows strList p ++ t,
    [[c!"Radii list: ", strList p.radii], [c!"Pitch angles list: ", strList (p.sections.map fun s => s.stored.pitchAngle)],
      [c!"Pitch list: ", strList (p.sections.map fun s => s.stored.pitch)], [c!"Skew angles list: ", strList (p.sections.map fun s => s.stored.skewAngle)],
      [c!"Rake list: ", strList (p.sections.map fun s => s.stored.rake)],
      [c!"Chord length list: ", strList (p.sections.map fun s => s.stored.chord)]] ++ allRecords strArr 0 p.sections, ?_, if_pos rfl,
    fun q hq => if_neg hq, ?_, ?_⟩
  · simp only [saveGlobalParameters, if_true, hl, ht]
  · simp only [propertyRows, List.append_assoc]
    rw [Csv.read_row, Csv.read_row, Csv.read_row, Csv.read_row, Csv.read_row, Csv.read_row, hrec]
    simp
  · refine ⟨?_, rfl, rfl, rfl, rfl, rfl, rfl, ?_⟩
    · rw [List.length_append, allRecords_length, hl]; rfl
    · intro j s hj
      have g : ∀ k, k < 4 → ∀ pre : List (List Str), pre.length = 6 →
          (pre ++ allRecords strArr 0 p.sections)[6 + 4 * j + k]? = (secRecords strArr j s)[k]? := by
        intro k hk pre hpre
        rw [List.getElem?_append_right (by omega), show 6 + 4 * j + k - pre.length = 4 * j + k by omega, allRecords_get strArr _ 0 j k s hj hk, zero_add]
      exact ⟨g 0 (by norm_num) _ rfl, g 1 (by norm_num) _ rfl, g 2 (by norm_num) _ rfl, g 3 (by norm_num) _ rfl⟩

/-- **C78** If different lists are rendered differently, two objects saved to equal files have the same radii, the same sections and the same
properties, the linear skew excepted, which is not saved. -/
theorem C78_determines {kind kind' : Kind} {interp interp' : List Pt → Res (ℝ → ℝ)} {geom geom' : ℝ → Res SectionGeom} {radii radii' : Arr} {n n' : Int}
    {p p' : ReversePropeller} (hp : ReversePropeller.new kind interp geom radii n = .ok p) (hp' : ReversePropeller.new kind' interp' geom' radii' n' = .ok p')
    (strList strArr : Arr → Str) (F : ℝ → Prop) (hF : NumbersIn F p) (hF' : NumbersIn F p')
    (hL : ∀ a b : Arr, (∀ x ∈ a, F x) → (∀ x ∈ b, F x) → strList a = strList b → a = b)
    (hA : ∀ a b : Arr, (∀ x ∈ a, F x) → (∀ x ∈ b, F x) → strArr a = strArr b → a = b)
    (fs fs' : ParamFile.FS) (path path' : Str)
    (h : (p.saveGlobalParameters strList strArr true fs path).1 path = (p'.saveGlobalParameters strList strArr true fs' path').1 path') :
    p.radii = p'.radii ∧ p.sections.length = p'.sections.length ∧
    ∀ (j : Nat) (s s' : Section), p.sections[j]? = some s → p'.sections[j]? = some s' →
      s.xup = s'.xup ∧ s.xdown = s'.xdown ∧ s.yup = s'.yup ∧ s.ydown = s'.ydown ∧ s.stored.pitchAngle = s'.stored.pitchAngle ∧
      s.stored.pitch = s'.stored.pitch ∧ s.stored.skewAngle = s'.stored.skewAngle ∧ s.stored.rake = s'.stored.rake ∧ s.stored.chord = s'.stored.chord := by
  obtain ⟨⟨f1, t, r, e1, e2, _, e3, e4⟩, _⟩ := C78_saved kind interp geom radii n p hp strList strArr fs path
  obtain ⟨⟨f1', t', r', e1', e2', _, e3', e4'⟩, _⟩ := C78_saved kind' interp' geom' radii' n' p' hp' strList strArr fs' path'
  obtain ⟨hr, hlen, _⟩ := C72_sections kind interp geom radii n p hp
  obtain ⟨hr', hlen', _⟩ := C72_sections kind' interp' geom' radii' n' p' hp'
  rw [e1, e1'] at h
  simp only [e2, e2', Option.some.injEq] at h
  subst h
  rw [e3] at e3'
  obtain rfl := Option.some.inj e3'
  obtain ⟨_, a0, a1, a2, a3, a4, a5, a6⟩ := e4
  obtain ⟨_, b0, b1, b2, b3, b4, b5, b6⟩ := e4'
  have two : ∀ {i : Nat} {x y x' y' : Str}, r[i]? = some [x, y] → r[i]? = some [x', y'] → y = y' := by
    intro i x y x' y' h h'
    rw [h] at h'
    simpa using (by simpa using h' : x = x' ∧ y = y').2
  have hrad : p.radii = p'.radii := hL _ _ hF.1 hF'.1 (two a0 b0)
  refine ⟨hrad, by rw [hlen, hlen', ← hr, ← hr', hrad], ?_⟩
  intro j s s' hs hs'
  obtain ⟨c0, c1, c2, c3⟩ := a6 j s hs
  obtain ⟨d0, d1, d2, d3⟩ := b6 j s' hs'
  have prop : ∀ f : Section → ℝ, (∀ s ∈ p.sections, F (f s)) → (∀ s ∈ p'.sections, F (f s)) →
      strList (p.sections.map f) = strList (p'.sections.map f) → f s = f s' := by
    intro f h1 h2 hf
    have := congrArg (fun l : Arr => l[j]?) (hL _ _ (by simpa using h1) (by simpa using h2) hf)
    simpa [hs, hs'] using this
  have g := hF.2
  have g' := hF'.2
  have m := List.mem_of_getElem? hs
  have m' := List.mem_of_getElem? hs'
  exact ⟨hA _ _ (g s m).1 (g' s' m').1 (two c0 d0), hA _ _ (g s m).2.1 (g' s' m').2.1 (two c1 d1),
    hA _ _ (g s m).2.2.1 (g' s' m').2.2.1 (two c2 d2), hA _ _ (g s m).2.2.2.1 (g' s' m').2.2.2.1 (two c3 d3),
    prop (fun s => s.stored.pitchAngle) (fun s h => (g s h).2.2.2.2.1) (fun s h => (g' s h).2.2.2.2.1) (two a1 b1),
    prop (fun s => s.stored.pitch) (fun s h => (g s h).2.2.2.2.2.1) (fun s h => (g' s h).2.2.2.2.2.1) (two a2 b2),
    prop (fun s => s.stored.skewAngle) (fun s h => (g s h).2.2.2.2.2.2.1) (fun s h => (g' s h).2.2.2.2.2.2.1) (two a3 b3),
    prop (fun s => s.stored.rake) (fun s h => (g s h).2.2.2.2.2.2.2.1) (fun s h => (g' s h).2.2.2.2.2.2.2.1) (two a4 b4),
    prop (fun s => s.stored.chord) (fun s h => (g s h).2.2.2.2.2.2.2.2) (fun s h => (g' s h).2.2.2.2.2.2.2.2) (two a5 b5)⟩

/-- The hypotheses on the renderings can be met: numbers 0 and 1, written one character each. -/
example : ∃ (F : ℝ → Prop) (str : Arr → Str), F 0 ∧ F 1 ∧
    ∀ a b : Arr, (∀ x ∈ a, F x) → (∀ x ∈ b, F x) → str a = str b → a = b := by
  refine ⟨fun x => x = 0 ∨ x = 1, fun a => a.map fun x => if x = 0 then '0' else '1', by simp, by simp, ?_⟩
  intro a
  induction a with
  | nil => intro b _ _ h; cases b with
    | nil => rfl
    | cons y b => simp at h
  | cons x a ih =>
    intro b ha hb h
    cases b with
    | nil => simp at h
    | cons y b =>
      simp only [List.map_cons, List.cons.injEq] at h
      have e := ih b (fun x hx => ha x (by simp [hx])) (fun x hx => hb x (by simp [hx])) h.2
      rcases ha x (by simp) with rfl | rfl <;> rcases hb y (by simp) with rfl | rfl <;> simp_all

/-- The quoting matters: a rendering with a comma and a line break, as of a list or of a long numpy row, is read back. -/
example : csvRecords (Csv.row c!"Rake list: " c!"[1.0,\n\"2.0\"]" ++ Csv.row c!"" c!"x") = some [[c!"Rake list: ", c!"[1.0,\n\"2.0\"]"], [c!"", c!"x"]] := by
  rw [Csv.read_row, ← List.append_nil (Csv.row c!"" c!"x"), Csv.read_row]
  simp [csvRecords, csvRead]

/-! ## C79 -/

/-- **C79** The two display methods: `ValueError` exactly for a radius that was not given to the constructor; for a radius that was, they show the
blade (the cylinder), the cylinder and the section (and the camber line) of the first section with this radius - unless the radii were given as
a Python list and the radius as a Python number, when they always fail. -/
theorem C79_display (given : RadiiGiven) (radius : ℝ) (p : ReversePropeller) :
    (radius ∉ p.radii → p.displayCylinder given radius = .error .valueError ∧ p.displaySection given radius = .error .valueError) ∧
    (radius ∈ p.radii → given ≠ .listPlain → ∃ i : Nat, p.radii[i]? = some radius ∧ (∀ j < i, p.radii[j]? ≠ some radius) ∧
      p.displayCylinder given radius = .ok [.blade, .cylinder i, .sectionLine i] ∧
      p.displaySection given radius = .ok [.cylinder i, .sectionLine i, .camberLine i]) ∧
    (∃ e, p.displayCylinder .listPlain radius = .error e ∧ p.displaySection .listPlain radius = .error e) := by
  refine ⟨?_, ?_, ?_⟩
  · intro h
    simp [displayCylinder, displaySection, radiusIndex, h, bind, Except.bind]
  · intro h hg
    have hlt : p.radii.findIdx (fun r => decide (r = radius)) < p.radii.length := List.findIdx_lt_length_of_exists ⟨radius, h, by simp⟩
    refine ⟨p.radii.findIdx fun r => decide (r = radius), ?_, ?_, ?_, ?_⟩
    · have := List.findIdx_getElem (w := hlt)
      rw [List.getElem?_eq_getElem hlt, Option.some.injEq]
      simpa using this
    · intro j hj hc
      have := List.not_of_lt_findIdx hj
      have hj' : j < p.radii.length := hj.trans hlt
      rw [List.getElem?_eq_getElem hj', Option.some.injEq] at hc
      simp [hc] at this
    · simp [displayCylinder, radiusIndex, h, hg, bind, Except.bind, pure, Except.pure]
    · simp [displaySection, radiusIndex, h, hg, bind, Except.bind, pure, Except.pure]
  · by_cases h : radius ∈ p.radii <;> simp [displayCylinder, displaySection, radiusIndex, h, bind, Except.bind]

/-- Hypotheses met: the second of the radii 300, 400, 400. -/
example : ∃ p : ReversePropeller, p.displaySection .array 400 = .ok [.cylinder 1, .sectionLine 1, .camberLine 1] ∧
    p.displaySection .listPlain 400 = .error .indexError := by
  refine ⟨⟨.bladeX, [300, 400, 400], 10, []⟩, ?_, ?_⟩
  · have : RadiiGiven.array ≠ RadiiGiven.listPlain := by simp
    norm_num [displaySection, radiusIndex, List.findIdx_cons, bind, Except.bind, pure, Except.pure, this]
  · norm_num [displaySection, radiusIndex, bind, Except.bind]

end
end BladeX
