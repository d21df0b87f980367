import Verif.Props.Propeller
import Verif.Props.BladeCylinder
import Verif.Props.BladeSymmetry
import Verif.Props.RoundedBlade

/-! # C101: when points of a section, or of different blades of a propeller, coincide -/

namespace BladeX
noncomputable section
open Spec Classical
open Blade (scalePt conversion)

/-- The points of a section: those of its upper and of its lower surface. -/
def Spec.onSection (Q : Profile) (p : Pt) : Prop := p ∈ Q.upper ∨ p ∈ Q.lower

/-- The points of the stored coordinates of a blade. -/
def Spec.stored (b : Blade) : Set Pt3 := {q | ∃ l, (l ∈ b.coordsUp ∨ l ∈ b.coordsDown) ∧ q ∈ l}

/-- The points its four faces are spanned by. -/
def Spec.spanned (b : Blade) : Set Pt3 :=
  {q | ∃ F, (b.upper = some F ∨ b.lower = some F ∨ b.tip = some F ∨ b.root = some F) ∧ ∃ l ∈ F, q ∈ l}

namespace Blade

theorem wrap_eq_iff {r : ℝ} (hr : r ≠ 0) (p q : Pt) :
    wrap r p = wrap r q ↔ p.1 = q.1 ∧ ∃ z : ℤ, p.2 - q.2 = 2 * Real.pi * r * z := by
  constructor
  · intro h
    simp only [wrap, Prod.mk.injEq] at h
    obtain ⟨h1, h2, h3⟩ := h
    refine ⟨h1, ?_⟩
    have s := mul_left_cancel₀ hr h2
    have c := mul_left_cancel₀ hr h3
    have hc : Real.cos (p.2 / r - q.2 / r) = 1 := by
      rw [Real.cos_sub, s, c]
      have := Real.sin_sq_add_cos_sq (q.2 / r)
      nlinarith
    obtain ⟨z, hz⟩ := (Real.cos_eq_one_iff _).1 hc
    refine ⟨z, ?_⟩
    field_simp at hz
    linarith
  · rintro ⟨h1, z, hz⟩
    have e : p.2 / r = q.2 / r + z * (2 * Real.pi) := by
      field_simp
      linarith
    simp only [wrap, h1, e, Real.sin_add_int_mul_two_pi, Real.cos_add_int_mul_two_pi]

theorem wrap_radius {r r' : ℝ} {p q : Pt} (h : wrap r p = wrap r' q) : |r| = |r'| := by
  simp only [wrap, Prod.mk.injEq] at h
  obtain ⟨_, h2, h3⟩ := h
  have a := Real.sin_sq_add_cos_sq (p.2 / r)
  have b := Real.sin_sq_add_cos_sq (q.2 / r')
  have : r ^ 2 = r' ^ 2 := by
    have e1 : r ^ 2 = (r * Real.sin (p.2 / r)) ^ 2 + (r * Real.cos (p.2 / r)) ^ 2 := by linear_combination (-r ^ 2) * a
    have e2 : r' ^ 2 = (r' * Real.sin (q.2 / r')) ^ 2 + (r' * Real.cos (q.2 / r')) ^ 2 := by linear_combination (-r' ^ 2) * b
    rw [e1, e2, h2, h3]
  exact (sq_eq_sq_iff_abs_eq_abs r r').1 this

theorem rot_wrap (r t : ℝ) (hr : r ≠ 0) (p : Pt) : rotX t (wrap r p) = wrap r (p.1, p.2 - r * t) := by
  have h := wrap_shift r 0 t hr p
  simp only [add_zero] at h
  rw [h]
  simp [shiftX]

/-- What the stored points are. -/
theorem stored_iff {b b' : Blade} {refl : Bool} (hW : b.WellFormed) (h : b.applyTransformations refl = (b', .ok ())) (q : Pt3) :
    q ∈ stored b' ↔ ∃ (i : Nat) (Q : Profile) (r : ℝ) (p : Pt), b'.sections[i]? = some Q ∧ b.radii[i]? = some r ∧ onSection Q p ∧
      q = wrap r p := by
  obtain ⟨l1, l2, hall⟩ := C48_reversed b b' refl hW h
  have hs : b'.sections.length = b.sections.length := by
    obtain ⟨ss, up, down, h1, h2, rfl⟩ := (Blade.apply_ok hW.1).1 h
    exact ((Blade.sectionLoop_ok _ _ _).1 h1).1
  constructor
  · rintro ⟨l, hl, hq⟩
    rcases hl with hl | hl
    · obtain ⟨j, hj, rfl⟩ := List.mem_iff_getElem.1 hl
      have hi : b.sections.length - 1 - j < b'.sections.length := by omega
      have hi' : b.sections.length - 1 - j < b.radii.length := by have := hW.1; omega
      obtain ⟨e1, _, _⟩ := hall _ _ _ (List.getElem?_eq_getElem hi) (List.getElem?_eq_getElem hi')
      rw [show b.sections.length - 1 - (b.sections.length - 1 - j) = j by omega, List.getElem?_eq_getElem hj] at e1
      rw [Option.some.inj e1] at hq
      obtain ⟨p, hp, rfl⟩ := List.mem_map.1 hq
      exact ⟨_, _, _, p, List.getElem?_eq_getElem hi, List.getElem?_eq_getElem hi', Or.inl hp, rfl⟩
    · obtain ⟨j, hj, rfl⟩ := List.mem_iff_getElem.1 hl
      have hi : b.sections.length - 1 - j < b'.sections.length := by omega
      have hi' : b.sections.length - 1 - j < b.radii.length := by have := hW.1; omega
      obtain ⟨_, e1, _⟩ := hall _ _ _ (List.getElem?_eq_getElem hi) (List.getElem?_eq_getElem hi')
      rw [show b.sections.length - 1 - (b.sections.length - 1 - j) = j by omega, List.getElem?_eq_getElem hj] at e1
      rw [Option.some.inj e1] at hq
      obtain ⟨p, hp, rfl⟩ := List.mem_map.1 hq
      exact ⟨_, _, _, p, List.getElem?_eq_getElem hi, List.getElem?_eq_getElem hi', Or.inr hp, rfl⟩
  · rintro ⟨i, Q, r, p, hQ, hr, hp, rfl⟩
    obtain ⟨e1, e2, _⟩ := hall i Q r hQ hr
    rcases hp with hp | hp
    · exact ⟨_, Or.inl (List.mem_of_getElem? e1), List.mem_map_of_mem hp⟩
    · exact ⟨_, Or.inr (List.mem_of_getElem? e2), List.mem_map_of_mem hp⟩

end Blade

/-- **C101** after the transformations, points of a section laid on the cylinder coincide exactly if their abscissae agree and their
ordinates differ by a whole number of circumferences of the cylinder; sections whose radii differ in absolute value never meet. -/
theorem C101_sections (b b' : Blade) (refl : Bool) (hW : b.WellFormed) (h : b.applyTransformations refl = (b', .ok ())) :
    (∀ q, q ∈ stored b' ↔ ∃ (i : Nat) (Q : Profile) (r : ℝ) (p : Pt), b'.sections[i]? = some Q ∧ b.radii[i]? = some r ∧ onSection Q p ∧
      q = wrap r p) ∧
    ∀ (i j : Nat) (Q Q' : Profile) (r r' : ℝ) (p p' : Pt), b'.sections[i]? = some Q → b.radii[i]? = some r → onSection Q p →
      b'.sections[j]? = some Q' → b.radii[j]? = some r' → onSection Q' p' →
      (|r| ≠ |r'| → wrap r p ≠ wrap r' p') ∧
      (r = r' → (wrap r p = wrap r' p' ↔ p.1 = p'.1 ∧ ∃ z : ℤ, p.2 - p'.2 = 2 * Real.pi * r * z)) := by
  refine ⟨Blade.stored_iff hW h, ?_⟩
  intro i j Q Q' r r' p p' hQ hr hp hQ' hr' hp'
  refine ⟨fun hne he => hne (Blade.wrap_radius he), ?_⟩
  rintro rfl
  exact Blade.wrap_eq_iff ((C48_reversed b b' refl hW h).2.2 i Q r hQ hr).2.2 p p'

/-- **C101** in particular, a section whose ordinates spread over less than one circumference of its cylinder is laid on it without
overlapping: different points of the plane section stay different. -/
theorem C101_no_overlap (b b' : Blade) (refl : Bool) (hW : b.WellFormed) (h : b.applyTransformations refl = (b', .ok ()))
    (i : Nat) (Q : Profile) (r : ℝ) (hQ : b'.sections[i]? = some Q) (hr : b.radii[i]? = some r)
    (hs : ∀ p p', onSection Q p → onSection Q p' → |p.2 - p'.2| < 2 * Real.pi * |r|) (p p' : Pt) (hp : onSection Q p)
    (hp' : onSection Q p') (he : wrap r p = wrap r p') : p = p' := by
  have hr0 := ((C48_reversed b b' refl hW h).2.2 i Q r hQ hr).2.2
  obtain ⟨h1, z, hz⟩ := (Blade.wrap_eq_iff hr0 p p').1 he
  have hlt := hs p p' hp hp'
  rw [hz, abs_mul, abs_mul, abs_of_pos (by positivity : (0 : ℝ) < 2 * Real.pi)] at hlt
  have hpos : 0 < 2 * Real.pi * |r| := mul_pos (by positivity) (abs_pos.2 hr0)
  have hz1 : |(z : ℝ)| < 1 := by
    by_contra hc
    rw [not_lt] at hc
    nlinarith
  have hz0 : z = 0 := by
    have : |z| < 1 := by exact_mod_cast hz1
    exact Int.abs_lt_one_iff.1 this
  rw [hz0] at hz
  refine Prod.ext h1 ?_
  simp at hz
  linarith

theorem Propeller.new_build {τ υ : Type} {occ : Face → Bool} {b B : Blade} {n : Int} {refl : Bool} {p : Propeller τ υ}
    (h : Propeller.new occ b n refl = (B, .ok p)) : b.build occ refl = (B, .ok ()) := by
  rcases hx : b.build occ refl with ⟨B', (e | u)⟩
  · rw [((C55_blades occ b B' n refl).1 e hx)] at h
    cases (Prod.mk.inj h).2
  · obtain ⟨p', h', _⟩ := (C55_blades (τ := τ) (υ := υ) occ b B' n refl).2 hx
    rw [h] at h'
    rw [(Prod.mk.inj h').1]

theorem Blade.stored_moved {f : Pt3 → Pt3} {b b' : Blade} (h : b.coordsMoved f b') : stored b' = f '' stored b := by
  ext q
  constructor
  · rintro ⟨l, hl, hq⟩
    rw [h.1, h.2] at hl
    rcases hl with hl | hl
    · obtain ⟨l', h1, rfl⟩ := List.mem_map.1 hl
      obtain ⟨q', h2, rfl⟩ := List.mem_map.1 hq
      exact ⟨q', ⟨l', Or.inl h1, h2⟩, rfl⟩
    · obtain ⟨l', h1, rfl⟩ := List.mem_map.1 hl
      obtain ⟨q', h2, rfl⟩ := List.mem_map.1 hq
      exact ⟨q', ⟨l', Or.inr h1, h2⟩, rfl⟩
  · rintro ⟨q', ⟨l, hl, hq⟩, rfl⟩
    refine ⟨l.map f, ?_, List.mem_map_of_mem hq⟩
    rw [h.1, h.2]
    rcases hl with hl | hl
    · exact Or.inl (List.mem_map_of_mem hl)
    · exact Or.inr (List.mem_map_of_mem hl)

theorem Blade.spanned_moved {f : Pt3 → Pt3} {b b' : Blade} (h : b.facesMoved f b') : spanned b' = f '' spanned b := by
  obtain ⟨h1, h2, h3, h4⟩ := h
  have one : ∀ (x y : Option Face) (q : Pt3), y = x.map (·.map (·.map f)) →
      ((∃ F, y = some F ∧ ∃ l ∈ F, q ∈ l) ↔ ∃ q', (∃ F, x = some F ∧ ∃ l ∈ F, q' ∈ l) ∧ f q' = q) := by
    intro x y q hy
    subst hy
    rcases x with _ | F
    · simp
    · simp only [Option.map_some, Option.some.injEq, exists_eq_left', List.mem_map]
      constructor
      · rintro ⟨l, ⟨l', hl', rfl⟩, hq⟩
        obtain ⟨q', hq', rfl⟩ := List.mem_map.1 hq
        exact ⟨q', ⟨l', hl', hq'⟩, rfl⟩
      · rintro ⟨q', ⟨l', hl', hq'⟩, rfl⟩
        exact ⟨_, ⟨l', hl', rfl⟩, List.mem_map_of_mem hq'⟩
  ext q
  have e1 := one _ _ q h1
  have e2 := one _ _ q h2
  have e3 := one _ _ q h3
  have e4 := one _ _ q h4
  simp only [spanned, Set.mem_setOf_eq, Set.mem_image, or_and_right, exists_or] at *
  rw [e1, e2, e3, e4]

/-- The faces of a built blade are spanned by its stored points, in millimetres. -/
theorem Blade.spanned_build {occ : Face → Bool} {b B : Blade} {refl : Bool} (h : b.build occ refl = (B, .ok ())) :
    spanned B = scalePt conversion '' stored B := by
  obtain ⟨b₁, u0, d0, u1, d1, h1, g1, g2, g3, g4, _, _, _, _, _, _, rfl⟩ := build_ok.1 h
  ext q
  constructor
  · rintro ⟨F, hF, l, hl, hq⟩
    have key : ∀ G : List (List Pt3), l ∈ mapPts (scalePt conversion) G → ∃ l' ∈ G, ∃ q' ∈ l', scalePt conversion q' = q := by
      intro G hG
      obtain ⟨l', hl', rfl⟩ := List.mem_map.1 hG
      obtain ⟨q', hq', rfl⟩ := List.mem_map.1 hq
      exact ⟨l', hl', q', hq', rfl⟩
    have up : l ∈ mapPts (scalePt conversion) b₁.coordsUp → q ∈ scalePt conversion '' stored b₁ := fun hG => by
      obtain ⟨l', hl', q', hq', e⟩ := key _ hG
      exact ⟨q', ⟨l', Or.inl hl', hq'⟩, e⟩
    have dn : l ∈ mapPts (scalePt conversion) b₁.coordsDown → q ∈ scalePt conversion '' stored b₁ := fun hG => by
      obtain ⟨l', hl', q', hq', e⟩ := key _ hG
      exact ⟨q', ⟨l', Or.inr hl', hq'⟩, e⟩
    simp only [Option.some.injEq] at hF
    have res : q ∈ scalePt conversion '' stored b₁ := by
      rcases hF with rfl | rfl | rfl | rfl
      · exact up hl
      · exact dn hl
      · rcases List.mem_pair.1 hl with rfl | rfl
        · exact up (List.mem_of_getLast? g1)
        · exact dn (List.mem_of_getLast? g2)
      · rcases List.mem_pair.1 hl with rfl | rfl
        · exact up (List.mem_of_mem_head? g3)
        · exact dn (List.mem_of_mem_head? g4)
    exact res
  · rintro ⟨q', ⟨l, hl, hq⟩, rfl⟩
    rcases hl with hl | hl
    · exact ⟨_, Or.inl rfl, _, List.mem_map_of_mem hl, List.mem_map_of_mem hq⟩
    · exact ⟨_, Or.inr (Or.inl rfl), _, List.mem_map_of_mem hl, List.mem_map_of_mem hq⟩

/-- **C101** the blades `i` and `j` of a propeller (positive, pairwise different radii) have a stored point in common exactly if, on some
section, there are two points with the same abscissa whose ordinates differ by `(i - j) / n` circumferences of the cylinder plus a whole
number of them; and the faces of the two blades have a spanning point in common in exactly the same cases. -/
theorem C101_blades {τ υ : Type} (occ : Face → Bool) (b B : Blade) (n : Int) (refl : Bool) (p : Propeller τ υ) (hW : b.WellFormed)
    (hpos : ∀ r ∈ b.radii, 0 < r) (hnd : b.radii.Nodup) (h : Propeller.new occ b n refl = (B, .ok p)) (i j : Nat) (bi bj : Blade)
    (hi : p.blades[i]? = some bi) (hj : p.blades[j]? = some bj) :
    ((∃ q, q ∈ stored bi ∧ q ∈ stored bj) ↔ ∃ (s : Nat) (Q : Profile) (r : ℝ) (u v : Pt), B.sections[s]? = some Q ∧
      b.radii[s]? = some r ∧ onSection Q u ∧ onSection Q v ∧ u.1 = v.1 ∧
      ∃ z : ℤ, u.2 - v.2 = 2 * Real.pi * r * (((i : ℝ) - j) / n + z)) ∧
    ((∃ q, q ∈ spanned bi ∧ q ∈ spanned bj) ↔ ∃ q, q ∈ stored bi ∧ q ∈ stored bj) := by
  have hb := Propeller.new_build h
  obtain ⟨p', h', hlen, _, _, hall⟩ := (C55_blades (τ := τ) (υ := υ) occ b B n refl).2 hb
  obtain rfl : p = p' := by rw [h] at h'; exact Except.ok.inj (Prod.mk.inj h').2
  obtain ⟨ci, fi, _⟩ := hall i bi hi
  obtain ⟨cj, fj, _⟩ := hall j bj hj
  obtain ⟨b₁, u0, d0, u1, d1, h1, _, _, _, _, _, _, _, _, _, _, hB⟩ := Blade.build_ok.1 hb
  have hst : stored B = stored b₁ := by rw [hB]; rfl
  have hsec : B.sections = b₁.sections := by rw [hB]
  have hmem := Blade.stored_iff hW h1
  have ri := Blade.stored_moved ci
  have rj := Blade.stored_moved cj
  constructor
  · rw [ri, rj, hst, hsec]
    constructor
    · rintro ⟨_, ⟨a, ha, rfl⟩, ⟨c, hc, he⟩⟩
      obtain ⟨s, Q, r, u, hQ, hr, hu, rfl⟩ := (hmem a).1 ha
      obtain ⟨s', Q', r', v, hQ', hr', hv, rfl⟩ := (hmem c).1 hc
      have r0 := hpos r (List.mem_of_getElem? hr)
      have r0' := hpos r' (List.mem_of_getElem? hr')
      rw [Blade.rot_wrap _ _ r0.ne', Blade.rot_wrap _ _ r0'.ne'] at he
      have hrr := Blade.wrap_radius he
      rw [abs_of_pos r0, abs_of_pos r0'] at hrr
      subst hrr
      obtain rfl : s' = s := by
        exact (List.getElem?_inj (List.getElem?_eq_some_iff.1 hr').1 hnd).1 (hr'.trans hr.symm)
      obtain rfl : Q' = Q := Option.some.inj (hQ'.symm.trans hQ)
      obtain ⟨e1, z, hz⟩ := (Blade.wrap_eq_iff r0.ne' _ _).1 he
      refine ⟨s', Q', r', u, v, hQ, hr, hu, hv, e1.symm, -z, ?_⟩
      simp only at hz
      push_cast
      linear_combination -hz
    · rintro ⟨s, Q, r, u, v, hQ, hr, hu, hv, e1, z, hz⟩
      have r0 := hpos r (List.mem_of_getElem? hr)
      refine ⟨rotX (2 * Real.pi * i / n) (wrap r u), ⟨_, (hmem _).2 ⟨s, Q, r, u, hQ, hr, hu, rfl⟩, rfl⟩,
        wrap r v, (hmem _).2 ⟨s, Q, r, v, hQ, hr, hv, rfl⟩, ?_⟩
      rw [Blade.rot_wrap _ _ r0.ne', Blade.rot_wrap _ _ r0.ne', Blade.wrap_eq_iff r0.ne']
      refine ⟨e1.symm, -z, ?_⟩
      push_cast
      linear_combination -hz
  · have hinj : Function.Injective (scalePt conversion) := by
      intro x y hxy
      simp only [scalePt, conversion, Prod.mk.injEq] at hxy
      obtain ⟨x1, x2, x3⟩ := hxy
      refine Prod.ext ?_ (Prod.ext ?_ ?_) <;> linarith
    have comm : ∀ t q, rotX t (scalePt conversion q) = scalePt conversion (rotX t q) := by
      intro t q
      simp only [rotX, scalePt, Prod.mk.injEq]
      refine ⟨trivial, ?_, ?_⟩ <;> ring
    have si : spanned bi = scalePt conversion '' stored bi := by
      rw [Blade.spanned_moved fi, Blade.spanned_build hb, ri, Set.image_image, Set.image_image]
      simp only [comm]
    have sj : spanned bj = scalePt conversion '' stored bj := by
      rw [Blade.spanned_moved fj, Blade.spanned_build hb, rj, Set.image_image, Set.image_image]
      simp only [comm]
    rw [si, sj]
    constructor
    · rintro ⟨_, ⟨a, ha, rfl⟩, ⟨c, hc, he⟩⟩
      obtain rfl := hinj he
      exact ⟨c, ha, hc⟩
    · rintro ⟨q, h1, h2⟩
      exact ⟨scalePt conversion q, ⟨q, h1, rfl⟩, ⟨q, h2, rfl⟩⟩

/-- **C101** so if the points of every section with equal abscissae have ordinates differing by less than the `n`-th part of the
circumference of its cylinder, no two blades of the propeller touch, neither in the stored points nor in the points their faces are
spanned by. -/
theorem C101_disjoint {τ υ : Type} (occ : Face → Bool) (b B : Blade) (n : Int) (refl : Bool) (p : Propeller τ υ) (hW : b.WellFormed)
    (hpos : ∀ r ∈ b.radii, 0 < r) (hnd : b.radii.Nodup) (h : Propeller.new occ b n refl = (B, .ok p))
    (hs : ∀ (s : Nat) (Q : Profile) (r : ℝ) (u v : Pt), B.sections[s]? = some Q → b.radii[s]? = some r → onSection Q u → onSection Q v →
      u.1 = v.1 → |u.2 - v.2| < 2 * Real.pi * r / n)
    (i j : Nat) (bi bj : Blade) (hi : p.blades[i]? = some bi) (hj : p.blades[j]? = some bj) (hij : i ≠ j) :
    Disjoint (stored bi) (stored bj) ∧ Disjoint (spanned bi) (spanned bj) := by
  obtain ⟨k1, k2⟩ := C101_blades occ b B n refl p hW hpos hnd h i j bi bj hi hj
  have hb := Propeller.new_build h
  obtain ⟨p', h', hlen, _⟩ := (C55_blades (τ := τ) (υ := υ) occ b B n refl).2 hb
  obtain rfl : p = p' := by rw [h] at h'; exact Except.ok.inj (Prod.mk.inj h').2
  have li := (List.getElem?_eq_some_iff.1 hi).1
  have lj := (List.getElem?_eq_some_iff.1 hj).1
  have hn : 0 < n := by omega
  have hnR : (0 : ℝ) < n := by exact_mod_cast hn
  have no : ¬ ∃ q, q ∈ stored bi ∧ q ∈ stored bj := by
    rw [k1]
    rintro ⟨s, Q, r, u, v, hQ, hr, hu, hv, e, z, hz⟩
    have r0 := hpos r (List.mem_of_getElem? hr)
    have hlt := hs s Q r u v hQ hr hu hv e
    have e2 : 2 * Real.pi * r * (((i : ℝ) - j) / n + z) = 2 * Real.pi * r / n * (((i : ℤ) - j + n * z : ℤ) : ℝ) := by
      push_cast
      field_simp
    have hpos' : 0 < 2 * Real.pi * r / n := by positivity
    rw [hz, e2, abs_mul, abs_of_pos hpos'] at hlt
    have h1 : |(((i : ℤ) - j + n * z : ℤ) : ℝ)| < 1 := by
      by_contra hc
      rw [not_lt] at hc
      nlinarith
    have h2 : ((i : ℤ) - j + n * z) = 0 := Int.abs_lt_one_iff.1 (by exact_mod_cast h1)
    have h3 : (n : ℤ) ∣ (j : ℤ) - i := ⟨z, by omega⟩
    have h4 : |(j : ℤ) - i| < n := by rw [abs_lt]; omega
    have := Int.eq_zero_of_abs_lt_dvd h3 h4
    omega
  refine ⟨Set.disjoint_left.2 fun q h1 h2 => no ⟨q, h1, h2⟩, Set.disjoint_left.2 fun q h1 h2 => no (k2.1 ⟨q, h1, h2⟩)⟩

/-- **C101** in terms of what the user passes (no thickness or camber distribution): if `|c| * D < 2 pi r / n` for every section, `D` bounding
the distances between the points of the section, `c` its chord and `r` its radius, no two blades touch. -/
theorem C101_from_inputs {τ υ : Type} (occ : Face → Bool) (b B : Blade) (n : Int) (refl : Bool) (p : Propeller τ υ) (hW : b.WellFormed)
    (ht : b.thickness = none) (hf : b.camber = none) (hU : ∀ P ∈ b.sections, P.Uniform)
    (hpos : ∀ r ∈ b.radii, 0 < r) (hnd : b.radii.Nodup) (h : Propeller.new occ b n refl = (B, .ok p))
    (hs : ∀ (s : Nat) (P : Profile) (r c : ℝ), b.sections[s]? = some P → b.radii[s]? = some r → b.chord[s]? = some c →
      ∃ D, (∀ u v, onSection P u → onSection P v → dist2 u v ≤ D) ∧ |c| * D < 2 * Real.pi * r / n)
    (i j : Nat) (bi bj : Blade) (hi : p.blades[i]? = some bi) (hj : p.blades[j]? = some bj) (hij : i ≠ j) :
    Disjoint (stored bi) (stored bj) ∧ Disjoint (spanned bi) (spanned bj) := by
  refine C101_disjoint occ b B n refl p hW hpos hnd h ?_ i j bi bj hi hj hij
  intro s Q r u v hQ hr hu hv e
  obtain ⟨b₁, u0, d0, u1, d1, h1, _, _, _, _, _, _, _, _, _, _, hB⟩ := Blade.build_ok.1 (Propeller.new_build h)
  have hsec : B.sections = b₁.sections := by rw [hB]
  rw [hsec] at hQ
  obtain ⟨hlen, _, hpl⟩ := C46_placed b b₁ refl hW ht hf hU h1
  obtain ⟨w1, w2, w3, w4, w5⟩ := hW
  have hsl := (List.getElem?_eq_some_iff.1 hQ).1
  rw [hlen] at hsl
  obtain ⟨ref, Q', _, hr0, hQ', eu, el, _⟩ := hpl s _ r _ _ _ _ (List.getElem?_eq_getElem hsl) hr
    (List.getElem?_eq_getElem (by omega : s < b.chord.length)) (List.getElem?_eq_getElem (by omega : s < b.pitch.length))
    (List.getElem?_eq_getElem (by omega : s < b.rake.length)) (List.getElem?_eq_getElem (by omega : s < b.skew.length))
  obtain rfl : Q = Q' := Option.some.inj (hQ.symm.trans hQ')
  obtain ⟨D, hD, hc⟩ := hs s _ r _ (List.getElem?_eq_getElem hsl) hr (List.getElem?_eq_getElem (by omega : s < b.chord.length))
  have src : ∀ w, onSection Q w → ∃ w', onSection b.sections[s] w' ∧
      placed refl r b.chord[s] b.pitch[s] b.rake[s] b.skew[s] ref w' = w := by
    rintro w (hw | hw)
    · rw [eu] at hw
      obtain ⟨w', h1, h2⟩ := List.mem_map.1 hw
      exact ⟨w', Or.inl h1, h2⟩
    · rw [el] at hw
      obtain ⟨w', h1, h2⟩ := List.mem_map.1 hw
      exact ⟨w', Or.inr h1, h2⟩
  obtain ⟨u', hu', rfl⟩ := src u hu
  obtain ⟨v', hv', rfl⟩ := src v hv
  have hd := (C46_placed_geometry refl r b.chord[s] b.pitch[s] b.rake[s] b.skew[s] ref u' v' hr0 0).2.1
  set U := placed refl r b.chord[s] b.pitch[s] b.rake[s] b.skew[s] ref u' with hUdef
  set V := placed refl r b.chord[s] b.pitch[s] b.rake[s] b.skew[s] ref v' with hVdef
  have hUV : dist2 U V = |U.2 - V.2| := by
    rw [dist2, e]
    simp only [sub_self, ne_eq, OfNat.ofNat_ne_zero, not_false_eq_true, zero_pow, zero_add]
    exact Real.sqrt_sq_eq_abs _
  rw [← hUV, hd]
  exact lt_of_le_of_lt (mul_le_mul_of_nonneg_left (hD u' v' hu' hv') (abs_nonneg _)) hc

/-- The blade of `Sample.blade2` with other chords and pitches. -/
def Sample.bladeCP (c1 c2 p1 p2 : ℝ) : Blade := { Sample.blade2 with chord := [c1, c2], pitch := [p1, p2] }

theorem Sample.bladeCP_builds (c1 c2 p1 p2 : ℝ) (refl : Bool) :
    ∃ b', (Sample.bladeCP c1 c2 p1 p2).build (fun _ => true) refl = (b', .ok ()) := by
  have hW : (Sample.bladeCP c1 c2 p1 p2).WellFormed := by simp [Sample.bladeCP, Sample.blade2, Blade.WellFormed]
  have hU : ∀ P ∈ (Sample.bladeCP c1 c2 p1 p2).sections, P.Uniform := by simp [Sample.bladeCP, Sample.blade2, Sample.foil_uniform]
  obtain ⟨b₁, h⟩ : ∃ b', (Sample.bladeCP c1 c2 p1 p2).applyTransformations refl = (b', .ok ()) := by
    rw [C46_defined _ _ hW rfl rfl hU]
    refine ⟨by simp [Sample.bladeCP, Sample.blade2], by simp [Sample.bladeCP, Sample.blade2], ?_, by simp [Sample.bladeCP, Sample.blade2]⟩
    simp [Sample.bladeCP, Sample.blade2, Sample.foil_reference]
  obtain ⟨b', h1, _⟩ := C48_build_defined (fun _ => true) (fun _ => rfl) _ b₁ refl hW h (by
    intro Q hQ
    obtain ⟨hlen, _, hp⟩ := C46_placed _ b₁ refl hW rfl rfl hU h
    obtain ⟨i, hi⟩ := List.getElem?_of_mem hQ
    have hl : i < (Sample.bladeCP c1 c2 p1 p2).sections.length := by rw [← hlen]; exact (List.getElem?_eq_some_iff.1 hi).1
    obtain ⟨w1, w2, w3, w4, w5⟩ := id hW
    obtain ⟨ref, Q', _, _, hQ', eu, el, u1, u2, u3⟩ := hp i _ _ _ _ _ _ (List.getElem?_eq_getElem hl)
      (List.getElem?_eq_getElem (by omega : i < (Sample.bladeCP c1 c2 p1 p2).radii.length))
      (List.getElem?_eq_getElem (by omega : i < (Sample.bladeCP c1 c2 p1 p2).chord.length))
      (List.getElem?_eq_getElem (by omega : i < (Sample.bladeCP c1 c2 p1 p2).pitch.length))
      (List.getElem?_eq_getElem (by omega : i < (Sample.bladeCP c1 c2 p1 p2).rake.length))
      (List.getElem?_eq_getElem (by omega : i < (Sample.bladeCP c1 c2 p1 p2).skew.length))
    obtain rfl : Q = Q' := Option.some.inj (hi.symm.trans hQ')
    simp only [Profile.upper, Profile.lower, List.length_zip]
    omega)
  exact ⟨b', h1⟩

theorem Sample.bladeCP_propeller (c1 c2 p1 p2 : ℝ) (n : Nat) (refl : Bool) :
    ∃ B p, (Propeller.new (fun _ => true) (Sample.bladeCP c1 c2 p1 p2) n refl : Blade × Res (Propeller Unit Unit)) = (B, .ok p) ∧
      p.blades.length = n := by
  obtain ⟨B, hB⟩ := Sample.bladeCP_builds c1 c2 p1 p2 refl
  obtain ⟨p, hp, hl, _⟩ := (C55_blades (τ := Unit) (υ := Unit) (fun _ => true) _ B n refl).2 hB
  exact ⟨B, p, hp, by simpa using hl⟩

private theorem foil_points (u : Pt) (h : onSection Sample.foil u) : 0 ≤ u.1 ∧ u.1 ≤ 1 ∧ -1/10 ≤ u.2 ∧ u.2 ≤ 1/4 := by
  simp only [onSection, Profile.upper, Profile.lower, Sample.foil, List.zip_cons_cons, List.zip_nil_right, List.mem_cons,
    List.not_mem_nil, or_false] at h
  rcases h with (rfl | rfl | rfl | rfl) | (rfl | rfl | rfl | rfl) <;> norm_num

private theorem foil_dist (u v : Pt) (hu : onSection Sample.foil u) (hv : onSection Sample.foil v) : dist2 u v ≤ 5/4 := by
  obtain ⟨a1, a2, a3, a4⟩ := foil_points u hu
  obtain ⟨b1, b2, b3, b4⟩ := foil_points v hv
  rw [dist2, Real.sqrt_le_iff]
  refine ⟨by norm_num, ?_⟩
  nlinarith [mul_nonneg (sub_nonneg.2 a1) (sub_nonneg.2 b1)]

/-- Four blades of two sections, chords 1/2 and 3/4 at radii 1 and 2: no two of them touch. -/
example : ∃ B p, (Propeller.new (fun _ => true) (Sample.bladeCP (1/2) (3/4) 2 4) 4 true : Blade × Res (Propeller Unit Unit)) = (B, .ok p) ∧
    p.blades.length = 4 ∧ ∀ (i j : Nat) (bi bj : Blade), p.blades[i]? = some bi → p.blades[j]? = some bj → i ≠ j →
      Disjoint (stored bi) (stored bj) ∧ Disjoint (spanned bi) (spanned bj) := by
  obtain ⟨B, p, hp, hl⟩ := Sample.bladeCP_propeller (1/2) (3/4) 2 4 4 true
  refine ⟨B, p, hp, hl, ?_⟩
  intro i j bi bj hi hj hij
  refine C101_from_inputs _ _ _ _ _ p (by simp [Sample.bladeCP, Sample.blade2, Blade.WellFormed]) rfl rfl
    (by simp [Sample.bladeCP, Sample.blade2, Sample.foil_uniform]) (by simp [Sample.bladeCP, Sample.blade2])
    (by simp [Sample.bladeCP, Sample.blade2]) hp ?_ i j bi bj hi hj hij
  intro s P r c hP hr hc
  have hpi := Real.pi_gt_three
  have hs : s < 2 := (List.getElem?_eq_some_iff.1 hr).1
  interval_cases s
  · simp [Sample.bladeCP, Sample.blade2] at hP hr hc
    subst hP hr hc
    refine ⟨5/4, foil_dist, ?_⟩
    norm_num [abs_of_pos]
    linarith
  · simp [Sample.bladeCP, Sample.blade2] at hP hr hc
    subst hP hr hc
    refine ⟨5/4, foil_dist, ?_⟩
    norm_num [abs_of_pos]
    linarith

/-- **C101** nothing checks the room: a propeller of two blades whose root chord is half the circumference (and with pitch 0) is built
without complaint, and its two blades touch. -/
theorem C101_touching_accepted : ∃ b B p, b.WellFormed ∧
    (Propeller.new (fun _ => true) b 2 false : Blade × Res (Propeller Unit Unit)) = (B, .ok p) ∧
    ∃ b0 b1, p.blades[0]? = some b0 ∧ p.blades[1]? = some b1 ∧ ¬ Disjoint (stored b0) (stored b1) ∧ ¬ Disjoint (spanned b0) (spanned b1) := by
  obtain ⟨B, p, hp, hl⟩ := Sample.bladeCP_propeller Real.pi 1 0 0 2 false
  have hW : (Sample.bladeCP Real.pi 1 0 0).WellFormed := by simp [Sample.bladeCP, Sample.blade2, Blade.WellFormed]
  have h0 : 0 < p.blades.length := by omega
  have h1 : 1 < p.blades.length := by omega
  refine ⟨_, B, p, hW, hp, _, _, List.getElem?_eq_getElem h0, List.getElem?_eq_getElem h1, ?_⟩
  obtain ⟨k1, k2⟩ := C101_blades _ _ _ _ _ p hW (by simp [Sample.bladeCP, Sample.blade2]) (by simp [Sample.bladeCP, Sample.blade2]) hp 0 1 _ _
    (List.getElem?_eq_getElem h0) (List.getElem?_eq_getElem h1)
  have hex : ∃ q, q ∈ stored p.blades[0] ∧ q ∈ stored p.blades[1] := by
    rw [k1]
    obtain ⟨b₁, u0, d0, u1, d1, g1, _, _, _, _, _, _, _, _, _, _, hB⟩ := Blade.build_ok.1 (Propeller.new_build hp)
    have hsec : B.sections = b₁.sections := by rw [hB]
    obtain ⟨hlen, _, hpl⟩ := C46_placed _ b₁ false hW rfl rfl (by simp [Sample.bladeCP, Sample.blade2, Sample.foil_uniform]) g1
    obtain ⟨ref, Q, _, _, hQ, eu, el, _⟩ := hpl 0 Sample.foil 1 Real.pi 0 0 0 rfl rfl rfl rfl rfl rfl
    refine ⟨0, Q, 1, placed false 1 Real.pi 0 0 0 ref (0, 0), placed false 1 Real.pi 0 0 0 ref (1, 0), by rw [hsec]; exact hQ, rfl, ?_, ?_, ?_, 0, ?_⟩
    · left; rw [eu]; exact List.mem_map_of_mem (by simp [Sample.foil, Profile.upper])
    · left; rw [eu]; exact List.mem_map_of_mem (by simp [Sample.foil, Profile.upper])
    · simp [placed]
    · simp [placed]; ring
  obtain ⟨q, q1, q2⟩ := hex
  obtain ⟨q', q3, q4⟩ := k2.2 ⟨q, q1, q2⟩
  exact ⟨fun h => Set.disjoint_left.1 h q1 q2, fun h => Set.disjoint_left.1 h q3 q4⟩

/-- The root section of the sample blade does not overlap itself. -/
example : ∃ b' Q, Sample.blade2.applyTransformations true = (b', .ok ()) ∧ b'.sections[0]? = some Q ∧
    ∀ p p', onSection Q p → onSection Q p' → wrap 1 p = wrap 1 p' → p = p' := by
  obtain ⟨b', h⟩ := Sample.blade2_applies true
  have hW : Sample.blade2.WellFormed := by simp [Sample.blade2, Blade.WellFormed]
  obtain ⟨_, _, hpl⟩ := C46_placed Sample.blade2 b' true hW rfl rfl (by simp [Sample.blade2, Sample.foil_uniform]) h
  obtain ⟨ref, Q, _, _, hQ, eu, el, _⟩ := hpl 0 Sample.foil 1 1 2 0 0 rfl rfl rfl rfl rfl rfl
  refine ⟨b', Q, h, hQ, ?_⟩
  refine C101_no_overlap Sample.blade2 b' true hW h 0 Q 1 hQ rfl ?_
  have src : ∀ w, onSection Q w → ∃ w', onSection Sample.foil w' ∧ placed true 1 1 2 0 0 ref w' = w := by
    rintro w (hw | hw)
    · rw [eu] at hw
      obtain ⟨w', h1, h2⟩ := List.mem_map.1 hw
      exact ⟨w', Or.inl h1, h2⟩
    · rw [el] at hw
      obtain ⟨w', h1, h2⟩ := List.mem_map.1 hw
      exact ⟨w', Or.inr h1, h2⟩
  intro u v hu hv
  obtain ⟨u', hu', rfl⟩ := src u hu
  obtain ⟨v', hv', rfl⟩ := src v hv
  have hd := (C46_placed_geometry true 1 1 2 0 0 ref u' v' one_ne_zero 0).2.1
  have hpi := Real.pi_gt_three
  have hle : |(placed true 1 1 2 0 0 ref u').2 - (placed true 1 1 2 0 0 ref v').2| ≤
      dist2 (placed true 1 1 2 0 0 ref u') (placed true 1 1 2 0 0 ref v') := by
    rw [dist2, ← Real.sqrt_sq_eq_abs]
    exact Real.sqrt_le_sqrt (le_add_of_nonneg_left (sq_nonneg _))
  have h5 := foil_dist u' v' hu' hv'
  rw [hd] at hle
  simp only [abs_one, one_mul, mul_one] at hle ⊢
  linarith

end
end BladeX
