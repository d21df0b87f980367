import Verif.Model.Show
import Verif.Props.BladeAssigned
import Verif.Lemmas.Ppg

/-! # C137: what is printed -/

namespace BladeX
noncomputable section
open Classical

theorem concatAll_eq (l : List (Str × Str)) : concatAll l = (l.map fun p => p.1 ++ p.2).flatten := by
  have : ∀ (l : List (Str × Str)) (s : Str), l.foldl (fun s p => s ++ (p.1 ++ p.2)) s = s ++ (l.map fun p => p.1 ++ p.2).flatten := by
    intro l
    induction l with
    | nil => intro s; simp
    | cons p l ih => intro s; simp [ih]
  simpa [concatAll] using this l []

/-- A label has one `=`, and it comes after text without `=`. -/
def IsLabel (l : Str) : Prop := ∃ u v, l = u ++ '=' :: v ∧ '=' ∉ u

theorem cut_unique {a a' u r r' : Str} (ha : '=' ∉ a) (ha' : '=' ∉ a') (hu : '=' ∉ u) (h : a ++ (u ++ '=' :: r) = a' ++ (u ++ '=' :: r')) : a = a' := by
  have hs : ∀ (x y t t' : Str), '=' ∉ x → '=' ∉ y → x ++ '=' :: t = y ++ '=' :: t' → x = y := by
    intro x
    induction x with
    | nil =>
      intro y t t' _ hy h
      cases y with
      | nil => rfl
      | cons c y => simp only [List.nil_append, List.cons_append, List.cons.injEq] at h; exact absurd (List.mem_cons.2 (.inl h.1)) hy
    | cons c x ih =>
      intro y t t' hx hy h
      cases y with
      | nil => simp only [List.nil_append, List.cons_append, List.cons.injEq] at h; exact absurd (List.mem_cons.2 (.inl h.1.symm)) hx
      | cons d y =>
        simp only [List.cons_append, List.cons.injEq] at h
        simp only [List.mem_cons, not_or] at hx hy
        rw [h.1, ih y t t' hx.2 hy.2 h.2]
  have := hs (a ++ u) (a' ++ u) r r' (by simp [ha, hu]) (by simp [ha', hu]) (by simpa using h)
  exact List.append_cancel_right this

/-- Labels and `=`-free values: the values can be read off the text. -/
theorem values_unique : ∀ (ls vs vs' : List Str), (∀ l ∈ ls, IsLabel l) → vs.length = ls.length → vs'.length = ls.length →
    (∀ v ∈ vs, '=' ∉ v) → (∀ v ∈ vs', '=' ∉ v) → ((ls.zip vs).map fun p => p.1 ++ p.2).flatten = ((ls.zip vs').map fun p => p.1 ++ p.2).flatten → vs = vs' := by
  intro ls
  induction ls with
  | nil =>
    intro vs vs' _ h1 h2 _ _ _
    rw [List.length_eq_zero_iff.1 h1, List.length_eq_zero_iff.1 h2]
  | cons l ls ih =>
    intro vs vs' hl h1 h2 hv hv' h
    match vs, vs', h1, h2 with
    | v :: vs, v' :: vs', h1, h2 =>
      simp only [List.zip_cons_cons, List.map_cons, List.flatten_cons, List.append_assoc] at h
      have h := List.append_cancel_left h
      simp only [List.length_cons, Nat.add_right_cancel_iff] at h1 h2
      have e : v = v' := by
        match ls, vs, vs', h1, h2 with
        | [], [], [], _, _ => simpa using h
        | m :: ls, w :: vs, w' :: vs', _, _ =>
          obtain ⟨u, t, rfl, hu⟩ := hl m (by simp)
          simp only [List.zip_cons_cons, List.map_cons, List.flatten_cons, List.append_assoc, List.cons_append] at h
          exact cut_unique (hv v (by simp)) (hv' v' (by simp)) hu h
      subst e
      rw [ih vs vs' (fun l h => hl l (by simp [h])) h1 h2 (fun v h => hv v (by simp [h])) (fun v h => hv' v (by simp [h])) (List.append_cancel_left h)]

open AssignedBlade in
/-- **C137** Printing a blade made by the constructor (no radius zero) always works and shows the number of sections, the radii and the four distributions as
they are stored, the pitch angles `arctan (pitch / (2 π radius))` and the induced rake `pitch * skew / 360`. -/
theorem C137_blade_text (S : Shower) (P : List Profile) (r c p k s : Arr) (t f : Option Arr) (b : Blade) (h : Blade.new P r c p k s t f = .ok b)
    (hr : ∀ x ∈ r, x ≠ 0) :
    show' S ⟨b, P.length⟩ = .ok (c!"Blade number of sections = " ++ S.int P.length ++ c!"\nBlade radii sections = " ++ S.arr (some r) ++
      c!"\nChord lengths of the sectional profiles = " ++ S.arr (some c) ++
      c!"\nRadial distribution of the pitch (in unit lengths) = " ++ S.arr (some p) ++
      c!"\nRadial distribution of the rake (in unit length) = " ++ S.arr (some k) ++
      c!"\nRadial distribution of the skew angles (in degrees) = " ++ S.arr (some s) ++
      c!"\nPitch angles (in radians) for the sections = " ++ S.arr (some (List.zipWith (fun p r => Real.arctan (p / (2 * Real.pi * r))) p r)) ++
      c!"\nInduced rake from skew (in unit length) for the sections = " ++ S.arr (some (List.zipWith (fun p s => p * s / 360) p s))) := by
  unfold Blade.new at h
  simp only at h
  split at h
  case isFalse => cases h
  rename_i hl
  replace h := Except.ok.inj h
  obtain ⟨h1, _, h3, _, h5⟩ := hl
  have key : ∀ i < r.length, ∃ x y z, r[i]? = some x ∧ p[i]? = some y ∧ s[i]? = some z := fun i hi =>
    ⟨_, _, _, List.getElem?_eq_getElem hi, List.getElem?_eq_getElem (by omega), List.getElem?_eq_getElem (by omega)⟩
  have q1 : b.radii = r := by rw [← h]
  have q2 : b.pitch = p := by rw [← h]
  have q3 : b.skew = s := by rw [← h]
  have q4 : b.chord = c := by rw [← h]
  have q5 : b.rake = k := by rw [← h]
  clear h
  have e1 : pitchAngles b = .ok (List.zipWith (fun p r => Real.arctan (p / (2 * Real.pi * r))) p r) := by
    unfold pitchAngles
    rw [show bLen b.pitch.length b.radii.length = .ok r.length by rw [bLen_ok, q1, q2]; left; omega]
    show (List.range r.length).mapM (pitchAngleAt b) = _
    rw [Blade.mapM_range_ok]
    refine ⟨by rw [List.length_zipWith]; omega, ?_⟩
    intro i d hd
    have hi := (List.getElem?_eq_some_iff.1 hd).1
    rw [List.length_zipWith] at hi
    obtain ⟨x, y, z, g1, g2, g3⟩ := key i (by omega)
    rw [(angles_of (b := b) (by rw [q1]; exact g1) (by rw [q3]; exact g3) (by rw [q1, q3]; omega) (.inl ⟨by rw [q1, q2]; omega, by rw [q2]; exact g2⟩)).1, Blade.pitchAngle,
      if_neg (hr x (List.mem_of_getElem? g1))]
    rw [List.getElem?_zipWith, g1, g2] at hd
    rw [← Option.some.inj hd]
  have e2 : inducedRakes b = .ok (List.zipWith (fun p s => p * s / 360) p s) := by
    unfold inducedRakes
    rw [show bLen b.radii.length b.skew.length = .ok r.length by rw [bLen_ok, q1, q3]; left; omega,
      show bLen b.pitch.length b.radii.length = .ok r.length by rw [bLen_ok, q1, q2]; left; omega]
    simp only [bind, Except.bind]
    rw [show bLen r.length r.length = .ok r.length by rw [bLen_ok]; omega]
    show (List.range r.length).mapM (inducedRakeAt b) = _
    rw [Blade.mapM_range_ok]
    refine ⟨by rw [List.length_zipWith]; omega, ?_⟩
    intro i d hd
    have hi := (List.getElem?_eq_some_iff.1 hd).1
    rw [List.length_zipWith] at hi
    obtain ⟨x, y, z, g1, g2, g3⟩ := key i (by omega)
    have hx := hr x (List.mem_of_getElem? g1)
    rw [(angles_of (b := b) (by rw [q1]; exact g1) (by rw [q3]; exact g3) (by rw [q1, q3]; omega) (.inl ⟨by rw [q1, q2]; omega, by rw [q2]; exact g2⟩)).2, Blade.inducedRake, Blade.pitchAngle, if_neg hx]
    have hpi := Real.pi_ne_zero
    have : x * radians z Real.pi * Real.tan (Real.arctan (y / (2 * Real.pi * x))) = y * z / 360 := by
      rw [Real.tan_arctan, radians]; field_simp; ring
    rw [List.getElem?_zipWith, g2, g3] at hd
    rw [← Option.some.inj hd]
    simp only [bind, Except.bind, pure, Except.pure, this]
  unfold show'
  rw [e1, e2]
  simp only [bind, Except.bind, pure, Except.pure, concatAll, List.foldl_cons, List.foldl_nil, q1, q2, q3, q4, q5, List.nil_append]
  simp only [List.append_assoc]

namespace Sample
/-- A printer that shows only whether an array is there and how long it is. -/
def shower : Shower := ⟨fun v => match v with | none => c!"None" | some v => List.replicate v.length '*', fun n => List.replicate n.natAbs '|'⟩
theorem shower_ok : (∀ n, '=' ∉ shower.int n) ∧ ∀ v, '=' ∉ shower.arr v := by
  constructor
  · intro n h; have := List.eq_of_mem_replicate h; exact absurd this (by decide)
  · intro v h
    cases v with
    | none => exact absurd h (by decide)
    | some v => have := List.eq_of_mem_replicate h; exact absurd this (by decide)
end Sample

/-- The hypotheses are met. -/
example : ∃ s, AssignedBlade.show' Sample.shower ⟨Sample.trioBlade none none, 2⟩ = .ok s := by
  have h : Blade.new [Sample.trio, Sample.trio] [1, 2] [1, 1] [2, 4] [0, 1] [0, 10] none none = .ok (Sample.trioBlade none none) := by
    simp [Blade.new, Sample.trioBlade]
  have t := C137_blade_text Sample.shower _ _ _ _ _ _ _ _ _ h (by
    intro x hx
    simp only [List.mem_cons, List.not_mem_nil, or_false] at hx
    rcases hx with rfl | rfl <;> norm_num)
  exact ⟨_, t⟩

open AssignedBlade in
/-- **C137** The text of a blade is unambiguous and shows no more: when numbers and arrays are printed without the character `=`, two blades with the same text
have the same number of sections as printed and every array printed alike; and blades with equal numbers of sections, radii and distributions have the same text,
whatever their sections, thickness, camber, coordinates and faces. -/
theorem C137_blade_unambiguous (S : Shower) (hi : ∀ n, '=' ∉ S.int n) (ha : ∀ v, '=' ∉ S.arr v) (a a' : AssignedBlade) :
    (∀ s, show' S a = .ok s → show' S a' = .ok s → S.int a.n = S.int a'.n ∧ S.arr (some a.b.radii) = S.arr (some a'.b.radii) ∧
      S.arr (some a.b.chord) = S.arr (some a'.b.chord) ∧ S.arr (some a.b.pitch) = S.arr (some a'.b.pitch) ∧
      S.arr (some a.b.rake) = S.arr (some a'.b.rake) ∧ S.arr (some a.b.skew) = S.arr (some a'.b.skew)) ∧
    (a.n = a'.n → a.b.radii = a'.b.radii → a.b.chord = a'.b.chord → a.b.pitch = a'.b.pitch → a.b.rake = a'.b.rake → a.b.skew = a'.b.skew →
      show' S a = show' S a') := by
  constructor
  · intro s h h'
    unfold show' at h h'
    rw [Profile.bndA] at h h'
    obtain ⟨g, _, h⟩ := h
    obtain ⟨g', _, h'⟩ := h'
    rw [Profile.bndA] at h h'
    obtain ⟨k, _, h⟩ := h
    obtain ⟨k', _, h'⟩ := h'
    have e := (Except.ok.inj h).trans (Except.ok.inj h').symm
    rw [concatAll_eq, concatAll_eq] at e
    have := values_unique [c!"Blade number of sections = ", c!"\nBlade radii sections = ", c!"\nChord lengths of the sectional profiles = ",
      c!"\nRadial distribution of the pitch (in unit lengths) = ", c!"\nRadial distribution of the rake (in unit length) = ",
      c!"\nRadial distribution of the skew angles (in degrees) = ", c!"\nPitch angles (in radians) for the sections = ",
      c!"\nInduced rake from skew (in unit length) for the sections = "]
      [S.int a.n, S.arr (some a.b.radii), S.arr (some a.b.chord), S.arr (some a.b.pitch), S.arr (some a.b.rake), S.arr (some a.b.skew), S.arr (some g), S.arr (some k)]
      [S.int a'.n, S.arr (some a'.b.radii), S.arr (some a'.b.chord), S.arr (some a'.b.pitch), S.arr (some a'.b.rake), S.arr (some a'.b.skew), S.arr (some g'),
        S.arr (some k')]
      (by
        intro l hl
        simp only [List.mem_cons, List.not_mem_nil, or_false] at hl
        rcases hl with rfl | rfl | rfl | rfl | rfl | rfl | rfl | rfl
        · exact ⟨c!"Blade number of sections ", c!" ", rfl, by decide⟩
        · exact ⟨c!"\nBlade radii sections ", c!" ", rfl, by decide⟩
        · exact ⟨c!"\nChord lengths of the sectional profiles ", c!" ", rfl, by decide⟩
        · exact ⟨c!"\nRadial distribution of the pitch (in unit lengths) ", c!" ", rfl, by decide⟩
        · exact ⟨c!"\nRadial distribution of the rake (in unit length) ", c!" ", rfl, by decide⟩
        · exact ⟨c!"\nRadial distribution of the skew angles (in degrees) ", c!" ", rfl, by decide⟩
        · exact ⟨c!"\nPitch angles (in radians) for the sections ", c!" ", rfl, by decide⟩
        · exact ⟨c!"\nInduced rake from skew (in unit length) for the sections ", c!" ", rfl, by decide⟩)
      rfl rfl
      (by simp only [List.mem_cons, List.not_mem_nil, or_false]; rintro v (rfl | rfl | rfl | rfl | rfl | rfl | rfl | rfl) <;> first | exact hi _ | exact ha _)
      (by simp only [List.mem_cons, List.not_mem_nil, or_false]; rintro v (rfl | rfl | rfl | rfl | rfl | rfl | rfl | rfl) <;> first | exact hi _ | exact ha _) e
    simp only [List.cons.injEq] at this
    exact ⟨this.1, this.2.1, this.2.2.1, this.2.2.2.1, this.2.2.2.2.1, this.2.2.2.2.2.1⟩
  · intro h1 h2 h3 h4 h5 h6
    have e1 : pitchAngles a.b = pitchAngles a'.b := by
      unfold pitchAngles
      have : pitchAngleAt a.b = pitchAngleAt a'.b := by funext i; unfold pitchAngleAt; rw [h2, h4]
      rw [this, h2, h4]
    have e2 : inducedRakes a.b = inducedRakes a'.b := by
      unfold inducedRakes
      have : inducedRakeAt a.b = inducedRakeAt a'.b := by funext i; unfold inducedRakeAt; rw [h2, h4, h6]
      rw [this, h2, h4, h6]
    unfold show'
    rw [e1, e2, h1, h2, h3, h4, h5, h6]

/-- The hypotheses are met, and the two parts apply: a blade with other sections and a thickness prints alike. -/
example : AssignedBlade.show' Sample.shower ⟨Sample.trioBlade none none, 2⟩ =
    AssignedBlade.show' Sample.shower ⟨{ Sample.trioBlade (some [1, 1]) none with sections := [] }, 2⟩ :=
  (C137_blade_unambiguous Sample.shower Sample.shower_ok.1 Sample.shower_ok.2 _ _).2 rfl rfl rfl rfl rfl rfl

open AssignedBlade in
/-- **C137** (violation) A blade whose arrays were assigned with lengths that do not go together cannot even be printed: `ValueError`. -/
theorem C137_blade_unprintable (S : Shower) (a : AssignedBlade) (h : a.b.pitch.length ≠ a.b.radii.length) (h1 : a.b.pitch.length ≠ 1) (h2 : a.b.radii.length ≠ 1) :
    show' S a = .error .valueError := by
  unfold show' pitchAngles
  rw [show bLen a.b.pitch.length a.b.radii.length = .error .valueError by unfold bLen; rw [if_neg h, if_neg h1, if_neg h2]]
  rfl

/-- The hypotheses are met. -/
example : AssignedBlade.show' Sample.shower ⟨{ Sample.trioBlade none none with pitch := [2, 4, 6] }, 2⟩ = .error .valueError :=
  C137_blade_unprintable _ _ (by simp [Sample.trioBlade]) (by simp) (by simp [Sample.trioBlade])

/-- **C137** The text of a parameter object is unambiguous: two objects with the same text have every array and number printed alike, that is, the radii and,
for each of the five parameters, the distribution (or `None`), degree, number of points, number of basis functions and deformations. -/
theorem C137_params_unambiguous (S : Shower) (hi : ∀ n, '=' ∉ S.int n) (ha : ∀ v, '=' ∉ S.arr v) (x y : ParamFile) (h : x.show' S = y.show' S) :
    S.arr x.radii = S.arr y.radii ∧ ∀ p : PName, S.arr (x.parameters p) = S.arr (y.parameters p) ∧ S.int (x.degree p) = S.int (y.degree p) ∧
      S.int (x.npoints p) = S.int (y.npoints p) ∧ S.int (x.nbasis p) = S.int (y.nbasis p) ∧
      S.arr (some (x.deformations p)) = S.arr (some (y.deformations p)) := by
  unfold ParamFile.show' at h
  rw [concatAll_eq, concatAll_eq] at h
  let vals : ParamFile → List Str := fun z => S.arr z.radii :: PName.all.flatMap fun p =>
    [S.arr (z.parameters p), S.int (z.degree p), S.int (z.npoints p), S.int (z.nbasis p), S.arr (some (z.deformations p))]
  let labels : List Str := c!"radii = " :: PName.all.flatMap fun p => [c!"\n\n" ++ p.str ++ c!" = ", c!"\n" ++ p.str ++ c!" degree = ",
    c!"\n" ++ p.str ++ c!" npoints = ", c!"\n" ++ p.str ++ c!" nbasis = ", c!"\n" ++ p.str ++ c!" control points deformations = "]
  have hz : ∀ z : ParamFile, (c!"radii = ", S.arr z.radii) :: PName.all.flatMap (ParamFile.showOne S z) = labels.zip (vals z) := fun z => rfl
  rw [hz, hz] at h
  have hv : ∀ z, ∀ v ∈ vals z, '=' ∉ v := by
    intro z v hv
    rcases List.mem_cons.1 hv with rfl | hv
    · exact ha _
    · obtain ⟨p, _, hv⟩ := List.mem_flatMap.1 hv
      simp only [List.mem_cons, List.not_mem_nil, or_false] at hv
      rcases hv with rfl | rfl | rfl | rfl | rfl <;> first | exact hi _ | exact ha _
  have := values_unique labels (vals x) (vals y) (by
      intro l hl
      rcases List.mem_cons.1 hl with rfl | hl
      · exact ⟨c!"radii ", c!" ", rfl, by decide⟩
      · obtain ⟨p, _, hl⟩ := List.mem_flatMap.1 hl
        simp only [List.mem_cons, List.not_mem_nil, or_false] at hl
        have hp : '=' ∉ p.str := by cases p <;> decide
        rcases hl with rfl | rfl | rfl | rfl | rfl
        · exact ⟨c!"\n\n" ++ p.str ++ c!" ", c!" ", by simp, by simp [hp]⟩
        · exact ⟨c!"\n" ++ p.str ++ c!" degree ", c!" ", by simp, by simp [hp]⟩
        · exact ⟨c!"\n" ++ p.str ++ c!" npoints ", c!" ", by simp, by simp [hp]⟩
        · exact ⟨c!"\n" ++ p.str ++ c!" nbasis ", c!" ", by simp, by simp [hp]⟩
        · exact ⟨c!"\n" ++ p.str ++ c!" control points deformations ", c!" ", by simp, by simp [hp]⟩)
    rfl rfl (hv x) (hv y) h
  simp only [vals, PName.all, List.flatMap_cons, List.flatMap_nil, List.cons_append, List.nil_append, List.append_nil, List.cons.injEq, and_true] at this
  refine ⟨this.1, fun p => ?_⟩
  cases p <;> simp [this]

/-- The hypotheses are met, and the conclusion says something: an object with another degree prints differently. -/
example : ParamFile.init.show' Sample.shower ≠ ({ ParamFile.init with degree := fun _ => 2 } : ParamFile).show' Sample.shower := by
  intro h
  have := ((C137_params_unambiguous Sample.shower Sample.shower_ok.1 Sample.shower_ok.2 _ _ h).2 .chord).2.1
  exact absurd this (by decide)

/-- **C137** The text of a parameter object, in full: the radii, then for chord, pitch, rake, skew and camber, in this order, an empty line and five lines. -/
theorem C137_params_text (S : Shower) (x : ParamFile) :
    let five (name : Str) (p : PName) : Str :=
      c!"\n\n" ++ name ++ c!" = " ++ S.arr (x.parameters p) ++ c!"\n" ++ name ++ c!" degree = " ++ S.int (x.degree p) ++
      c!"\n" ++ name ++ c!" npoints = " ++ S.int (x.npoints p) ++ c!"\n" ++ name ++ c!" nbasis = " ++ S.int (x.nbasis p) ++
      c!"\n" ++ name ++ c!" control points deformations = " ++ S.arr (some (x.deformations p))
    x.show' S = c!"radii = " ++ S.arr x.radii ++ five c!"chord" .chord ++ five c!"pitch" .pitch ++ five c!"rake" .rake ++ five c!"skew" .skew ++
      five c!"camber" .camber := by
  intro five
  unfold ParamFile.show'
  rw [concatAll_eq, List.map_cons, List.flatten_cons]
  have h5 (p : PName) : ((ParamFile.showOne S x p).map fun p => p.1 ++ p.2).flatten = five p.str p := by
    unfold ParamFile.showOne
    simp only [List.map_cons, List.map_nil, List.flatten_cons, List.flatten_nil, List.append_nil, five]
    generalize c!"\n\n" = a
    generalize c!"\n" = b
    generalize c!" = " = c
    generalize c!" degree = " = d
    generalize c!" npoints = " = e
    generalize c!" nbasis = " = f
    generalize c!" control points deformations = " = g
    simp only [List.append_assoc]
  rw [List.map_flatMap]
  clear_value five
  simp only [PName.all, List.flatMap_cons, List.flatMap_nil, List.flatten_append, List.append_nil, h5, PName.str]
  generalize c!"radii = " = r
  simp only [List.append_assoc]

/-- A new object, with numbers and arrays printed as in `Sample.shower`. -/
example : (ParamFile.init.show' Sample.shower).take 8 = c!"radii = " := by
  rw [C137_params_text]
  rfl

end
end BladeX
