import Verif.Props.Blade
import Verif.Lemmas.BladeBuild
import Mathlib.Tactic.IntervalCases

/-! # C47, C48: the generated coordinates and the faces -/

namespace BladeX
noncomputable section
open Spec Classical

/-- **C48** after a successful `apply_transformations` there is one list of points per section for either surface, in reversed order:
the entry `n - 1 - i` consists of the points of section `i` (as the sections are afterwards), laid on the cylinder of its radius. -/
theorem C48_reversed (b b' : Blade) (refl : Bool) (hW : b.WellFormed) (h : b.applyTransformations refl = (b', .ok ())) :
    b'.coordsUp.length = b.sections.length ∧ b'.coordsDown.length = b.sections.length ∧
    ∀ (i : Nat) (Q : Profile) (r : ℝ), b'.sections[i]? = some Q → b.radii[i]? = some r →
      b'.coordsUp[b.sections.length - 1 - i]? = some (Q.upper.map (wrap r)) ∧
      b'.coordsDown[b.sections.length - 1 - i]? = some (Q.lower.map (wrap r)) ∧ r ≠ 0 := by
  obtain ⟨ss, up, down, h1, h2, rfl⟩ := (Blade.apply_ok hW.1).1 h
  obtain ⟨hl, _⟩ := (Blade.sectionLoop_ok _ _ _).1 h1
  have hlr : b.radii.length = ss.length := by rw [hl, hW.1]
  obtain ⟨k1, k2, k3, rfl, rfl⟩ := (Blade.cylindrical_ok hlr).1 h2
  refine ⟨by simp [hlr, hl], by simp [hlr, hl], ?_⟩
  intro i Q r hQ hr
  have hi : i < b.sections.length := by rw [← hl]; exact (List.getElem?_eq_some_iff.1 hQ).1
  refine ⟨?_, ?_, (k2 i Q r hQ hr).1⟩
  · simp only
    rw [List.getElem?_reverse (by simp [hlr, hl]; omega)]
    simp only [List.length_zipWith, hlr, hl, min_self]
    rw [show b.sections.length - 1 - (b.sections.length - 1 - i) = i by omega, List.getElem?_zipWith, hQ, hr]
  · simp only
    rw [List.getElem?_reverse (by simp [hlr, hl]; omega)]
    simp only [List.length_zipWith, hlr, hl, min_self]
    rw [show b.sections.length - 1 - (b.sections.length - 1 - i) = i by omega, List.getElem?_zipWith, hQ, hr]

/-- **C47** every generated point lies on the cylinder of the radius of its section, around the `x` axis, and keeps the abscissa of the
plane section. -/
theorem C47_on_cylinder (b b' : Blade) (refl : Bool) (hW : b.WellFormed) (h : b.applyTransformations refl = (b', .ok ()))
    (i : Nat) (r : ℝ) (hr : b.radii[i]? = some r) (l : List Pt3)
    (hl : b'.coordsUp[b.sections.length - 1 - i]? = some l ∨ b'.coordsDown[b.sections.length - 1 - i]? = some l) (q : Pt3) (hq : q ∈ l) :
    q.2.1 ^ 2 + q.2.2 ^ 2 = r ^ 2 ∧ ∃ Q p, b'.sections[i]? = some Q ∧ p ∈ Q.points ∧ q = wrap r p ∧ q.1 = p.1 := by
  obtain ⟨h1, h2, h3⟩ := C48_reversed b b' refl hW h
  have hlen : b'.sections.length = b.sections.length := by
    obtain ⟨ss, up, down, g1, g2, rfl⟩ := (Blade.apply_ok hW.1).1 h
    exact ((Blade.sectionLoop_ok _ _ _).1 g1).1
  have hi : i < b'.sections.length := by rw [hlen, ← hW.1]; exact (List.getElem?_eq_some_iff.1 hr).1
  have hQ := List.getElem?_eq_getElem hi
  obtain ⟨e1, e2, _⟩ := h3 i _ r hQ hr
  have hmem : ∃ p ∈ b'.sections[i].points, q = wrap r p := by
    rcases hl with hl | hl
    · rw [e1] at hl
      obtain rfl := Option.some.inj hl
      obtain ⟨p, hp, rfl⟩ := List.mem_map.1 hq
      exact ⟨p, by simp [Profile.points, hp], rfl⟩
    · rw [e2] at hl
      obtain rfl := Option.some.inj hl
      obtain ⟨p, hp, rfl⟩ := List.mem_map.1 hq
      exact ⟨p, by simp [Profile.points, hp], rfl⟩
  obtain ⟨p, hp, rfl⟩ := hmem
  refine ⟨?_, _, p, hQ, hp, rfl, rfl⟩
  simp only [wrap]
  have := Real.sin_sq_add_cos_sq (p.2 / r)
  linear_combination r ^ 2 * this

/-- **C47** the cylinder map: the straight distance of two points is that of their abscissae and of the chord of the arc between them,
hence never more than the distance in the plane, with equality for points of the same ordinate; ordinates that differ by the full
circumference give the same point; the ordinate 0 lies in the direction of the `z` axis. -/
theorem C47_distances (r : ℝ) (hr : 0 < r) (p q : Pt) :
    distSq3 (wrap r p) (wrap r q) = (p.1 - q.1) ^ 2 + (2 * r * Real.sin ((p.2 - q.2) / (2 * r))) ^ 2 ∧
    distSq3 (wrap r p) (wrap r q) ≤ (p.1 - q.1) ^ 2 + (p.2 - q.2) ^ 2 ∧
    wrap r (p.1, p.2 + 2 * Real.pi * r) = wrap r p ∧ wrap r (p.1, 0) = (p.1, 0, r) := by
  have hr' : r ≠ 0 := hr.ne'
  have main : distSq3 (wrap r p) (wrap r q) = (p.1 - q.1) ^ 2 + (2 * r * Real.sin ((p.2 - q.2) / (2 * r))) ^ 2 := by
    set A := (p.2 + q.2) / (2 * r) with hA
    set B := (p.2 - q.2) / (2 * r) with hB
    have e1 : p.2 / r = A + B := by rw [hA, hB]; field_simp; ring
    have e2 : q.2 / r = A - B := by rw [hA, hB]; field_simp; ring
    simp only [distSq3, wrap, e1, e2, Real.sin_add, Real.sin_sub, Real.cos_add, Real.cos_sub]
    have h1 := Real.sin_sq_add_cos_sq A
    linear_combination 4 * r ^ 2 * Real.sin B ^ 2 * h1
  refine ⟨main, ?_, ?_, ?_⟩
  · rw [main]
    have h1 : |Real.sin ((p.2 - q.2) / (2 * r))| ≤ |(p.2 - q.2) / (2 * r)| := Real.abs_sin_le_abs
    have h2 : (2 * r * Real.sin ((p.2 - q.2) / (2 * r))) ^ 2 ≤ (p.2 - q.2) ^ 2 := by
      rw [sq_le_sq, abs_mul]
      calc |2 * r| * |Real.sin ((p.2 - q.2) / (2 * r))| ≤ |2 * r| * |(p.2 - q.2) / (2 * r)| :=
            mul_le_mul_of_nonneg_left h1 (abs_nonneg _)
        _ = |p.2 - q.2| := by rw [← abs_mul]; congr 1; field_simp
    linarith
  · have e : (p.2 + 2 * Real.pi * r) / r = p.2 / r + 2 * Real.pi := by field_simp
    simp [wrap, e]
  · simp [wrap]

/-- **C48** the faces made by `build`: upper and lower face pass through the coordinates times 1000, in order. The face called *tip* is
made of the two curves of the first (innermost) section, the face called *root* of those of the last. -/
theorem C48_faces (occ : Face → Bool) (b b' : Blade) (refl : Bool) (hW : b.WellFormed) (h : b.build occ refl = (b', .ok ())) :
    b'.upper = some (b'.coordsUp.map (·.map fun p => (p.1 * 1000, p.2.1 * 1000, p.2.2 * 1000))) ∧
    b'.lower = some (b'.coordsDown.map (·.map fun p => (p.1 * 1000, p.2.1 * 1000, p.2.2 * 1000))) ∧
    ∃ Q₀ Q₁ r₀ r₁, b'.sections.head? = some Q₀ ∧ b.radii.head? = some r₀ ∧ b'.sections.getLast? = some Q₁ ∧ b.radii.getLast? = some r₁ ∧
      b'.tip = some [Q₀.upper.map (fun p => Blade.scalePt 1000 (wrap r₀ p)), Q₀.lower.map (fun p => Blade.scalePt 1000 (wrap r₀ p))] ∧
      b'.root = some [Q₁.upper.map (fun p => Blade.scalePt 1000 (wrap r₁ p)), Q₁.lower.map (fun p => Blade.scalePt 1000 (wrap r₁ p))] := by
  obtain ⟨b₁, u0, d0, u1, d1, h1, g1, g2, g3, g4, _, _, _, _, _, _, rfl⟩ := Blade.build_ok.1 h
  refine ⟨rfl, rfl, ?_⟩
  obtain ⟨l1, l2, hall⟩ := C48_reversed b b₁ refl hW h1
  have hlen : b₁.sections.length = b.sections.length := by
    obtain ⟨ss, up, down, y1, y2, y3⟩ := (Blade.apply_ok hW.1).1 h1
    rw [y3]
    exact ((Blade.sectionLoop_ok _ _ _).1 y1).1
  have hpos : 0 < b.sections.length := by
    rw [← l1]
    rcases hc : b₁.coordsUp with _ | ⟨a, as⟩
    · rw [hc] at g1; simp [mapPts] at g1
    · simp
  have hr := hW.1
  have e0 : b₁.sections[0]? = some b₁.sections[0] := List.getElem?_eq_getElem (by omega)
  have r0 : b.radii[0]? = some b.radii[0] := List.getElem?_eq_getElem (by omega)
  have e1 : b₁.sections[b.sections.length - 1]? = some b₁.sections[b.sections.length - 1] := List.getElem?_eq_getElem (by omega)
  have r1 : b.radii[b.sections.length - 1]? = some b.radii[b.sections.length - 1] := List.getElem?_eq_getElem (by omega)
  obtain ⟨a1, a2, _⟩ := hall 0 _ _ e0 r0
  obtain ⟨c1, c2, _⟩ := hall (b.sections.length - 1) _ _ e1 r1
  rw [Nat.sub_zero] at a1 a2
  rw [Nat.sub_self] at c1 c2
  refine ⟨b₁.sections[0], b₁.sections[b.sections.length - 1], b.radii[0], b.radii[b.sections.length - 1], ?_, ?_, ?_, ?_, ?_, ?_⟩
  · rw [List.head?_eq_getElem?]; exact e0
  · rw [List.head?_eq_getElem?]; exact r0
  · rw [List.getLast?_eq_getElem?]
    simp only [hlen]; exact e1
  · rw [List.getLast?_eq_getElem?]; simp only [hr]; exact r1
  · rw [mapPts, List.getLast?_map, List.getLast?_eq_getElem?, l1, a1] at g1
    rw [mapPts, List.getLast?_map, List.getLast?_eq_getElem?, l2, a2] at g2
    simp only [Option.map_some, Option.some.injEq, List.map_map] at g1 g2
    simp only [← g1, ← g2]; rfl
  · rw [mapPts, List.head?_map, List.head?_eq_getElem?, c1] at g3
    rw [mapPts, List.head?_map, List.head?_eq_getElem?, c2] at g4
    simp only [Option.map_some, Option.some.injEq, List.map_map] at g3 g4
    simp only [← g3, ← g4]; rfl

/-- **C48** `build` after a successful `apply_transformations` depends on nothing but the CAD kernel: with a kernel that accepts the four
faces it succeeds for sections with as many upper as lower points. -/
theorem C48_build_defined (occ : Face → Bool) (hocc : ∀ F, occ F = true) (b b₁ : Blade) (refl : Bool) (hW : b.WellFormed)
    (h : b.applyTransformations refl = (b₁, .ok ())) (hU : ∀ Q ∈ b₁.sections, Q.upper.length = Q.lower.length) :
    ∃ b', b.build occ refl = (b', .ok ()) ∧ b'.HasFaces ∧ b'.HasCoords ∧ b'.coordsUp = b₁.coordsUp ∧ b'.coordsDown = b₁.coordsDown ∧
      b'.sections = b₁.sections := by
  obtain ⟨l1, l2, hall⟩ := C48_reversed b b₁ refl hW h
  obtain ⟨ss, up, down, g1, g2, rfl⟩ := (Blade.apply_ok hW.1).1 h
  obtain ⟨hl, _⟩ := (Blade.sectionLoop_ok _ _ _).1 g1
  have hlr : b.radii.length = ss.length := by rw [hl, hW.1]
  obtain ⟨k1, _⟩ := (Blade.cylindrical_ok hlr).1 g2
  have hpos : 0 < b.sections.length := by rw [← hl]; exact List.length_pos_iff.2 k1
  simp only at l1 l2 hall hU
  have e0 : ss[0]? = some ss[0] := List.getElem?_eq_getElem (by omega)
  have r0 : b.radii[0]? = some b.radii[0] := List.getElem?_eq_getElem (by omega)
  have e1 : ss[b.sections.length - 1]? = some ss[b.sections.length - 1] := List.getElem?_eq_getElem (by omega)
  have r1 : b.radii[b.sections.length - 1]? = some b.radii[b.sections.length - 1] := List.getElem?_eq_getElem (by omega)
  obtain ⟨a1, a2, _⟩ := hall 0 _ _ e0 r0
  obtain ⟨c1, c2, _⟩ := hall (b.sections.length - 1) _ _ e1 r1
  rw [Nat.sub_zero] at a1 a2
  rw [Nat.sub_self] at c1 c2
  let u0 := ss[0].upper.map (fun p => Blade.scalePt Blade.conversion (wrap b.radii[0] p))
  let d0 := ss[0].lower.map (fun p => Blade.scalePt Blade.conversion (wrap b.radii[0] p))
  let u1 := ss[b.sections.length - 1].upper.map (fun p => Blade.scalePt Blade.conversion (wrap b.radii[b.sections.length - 1] p))
  let d1 := ss[b.sections.length - 1].lower.map (fun p => Blade.scalePt Blade.conversion (wrap b.radii[b.sections.length - 1] p))
  refine ⟨_, Blade.build_ok.2 ⟨_, u0, d0, u1, d1, h, ?_, ?_, ?_, ?_, ?_, ?_, hocc _, hocc _, hocc _, hocc _, rfl⟩, ?_, ?_, rfl, rfl, rfl⟩
  · simp [mapPts, List.getLast?_eq_getElem?, l1, a1, u0, Function.comp_def]
  · simp [mapPts, List.getLast?_eq_getElem?, l2, a2, d0, Function.comp_def]
  · simp [mapPts, List.head?_eq_getElem?, c1, u1, Function.comp_def]
  · simp [mapPts, List.head?_eq_getElem?, c2, d1, Function.comp_def]
  · simpa [u0, d0, u1, d1] using hU _ (List.getElem_mem (by omega))
  · simpa [u0, d0, u1, d1] using hU _ (List.getElem_mem (by omega))
  · simp [Blade.HasFaces]
  · intro h0
    simp only at h0
    rw [h0] at l1
    simp at l1
    omega

/-- The sample blade can be built. -/
theorem Sample.blade2_builds (refl : Bool) : ∃ b', Sample.blade2.build (fun _ => true) refl = (b', .ok ()) ∧ b'.HasFaces ∧ b'.HasCoords := by
  obtain ⟨b₁, h⟩ := Sample.blade2_applies refl
  have hW : Sample.blade2.WellFormed := by simp [Sample.blade2, Blade.WellFormed]
  obtain ⟨hlen, _, hp⟩ := C46_placed Sample.blade2 b₁ refl hW rfl rfl (by simp [Sample.blade2, Sample.foil_uniform]) h
  obtain ⟨b', h1, h2, h3, _⟩ := C48_build_defined (fun _ => true) (fun _ => rfl) _ b₁ refl hW h (by
    intro Q hQ
    obtain ⟨i, hi⟩ := List.getElem?_of_mem hQ
    have hi2 : i < 2 := by
      have := (List.getElem?_eq_some_iff.1 hi).1
      rw [hlen] at this; exact this
    have hU : ∃ Q', b₁.sections[i]? = some Q' ∧ Q'.Uniform := by
      interval_cases i
      · obtain ⟨_, Q', _, _, e, _, _, hU⟩ := hp 0 Sample.foil 1 1 2 0 0 rfl rfl rfl rfl rfl rfl
        exact ⟨Q', e, hU⟩
      · obtain ⟨_, Q', _, _, e, _, _, hU⟩ := hp 1 Sample.foil 2 3 4 1 10 rfl rfl rfl rfl rfl rfl
        exact ⟨Q', e, hU⟩
    obtain ⟨Q', e, u1, u2, u3⟩ := hU
    rw [hi] at e
    obtain rfl := Option.some.inj e
    simp only [Profile.upper, Profile.lower, List.length_zip]
    omega)
  exact ⟨b', h1, h2, h3⟩

end
end BladeX
