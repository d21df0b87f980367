import Verif.Lemmas.Edges
import Mathlib.Analysis.Real.Pi.Bounds

/-! # C05, C06, C07: scaling, reference point, edge check -/

namespace BladeX
open Spec

/-- **C07** on non-empty arrays the edge check raises `ValueError` exactly when the first or the last abscissae differ
by more than `1e-4`; there is no other way to fail, and otherwise leading and trailing edge are as documented. -/
theorem C07_edge_check (P : Profile) {xu0 xd0 xu1 xd1 yu0 yu1 yd1 : ℝ}
    (h1 : P.xup.head? = some xu0) (h2 : P.xdown.head? = some xd0) (h3 : P.xup.getLast? = some xu1)
    (h4 : P.xdown.getLast? = some xd1) (h5 : P.yup.head? = some yu0) (h6 : P.yup.getLast? = some yu1)
    (h7 : P.ydown.getLast? = some yd1) :
    (P.updateEdges = .error .valueError ↔ |xu0 - xd0| > 1e-4 ∨ |xu1 - xd1| > 1e-4) ∧
    (P.referencePoint = .error .valueError ↔ |xu0 - xd0| > 1e-4 ∨ |xu1 - xd1| > 1e-4) ∧
    (|xu0 - xd0| ≤ 1e-4 → |xu1 - xd1| ≤ 1e-4 →
      P.updateEdges = .ok ((xu0, yu0), (xu1, (yu1 + yd1) / 2))) := by
  have := Profile.updateEdges_of h1 h2 h3 h4 h5 h6 h7
  refine ⟨?_, ?_, ?_⟩
  · rw [this]; split_ifs with hc <;> simp [hc]
  · unfold Profile.referencePoint
    rw [this]; split_ifs with hc <;> simp [hc, bind, Except.bind, pure, Except.pure]
  · intro a b
    rw [this, if_neg]
    push Not; exact ⟨a, b⟩

/-- **C07** empty abscissae raise `IndexError`, and no profile with an empty array passes. -/
theorem C07_edge_empty (P : Profile) :
    (P.xup = [] ∨ P.xdown = [] → P.updateEdges = .error .indexError) ∧
    (P.yup = [] ∨ P.ydown = [] → ∀ e, P.updateEdges ≠ .ok e) := by
  constructor
  · rintro (h | h)
    · simp [Profile.updateEdges, h, getFirst, bind, Except.bind]
    · unfold Profile.updateEdges
      rw [h]
      rcases P.xup with _ | ⟨x, xs⟩ <;> simp [getFirst, bind, Except.bind]
  · rintro h e he
    obtain ⟨_, _, _, _, _, _, _, _, _, _, _, h5, _, h7, _⟩ := Profile.updateEdges_ok he
    rcases h with h | h
    · simp [h] at h5
    · simp [h] at h7

example : Sample.foil.updateEdges = .ok ((0, 0), (1, 0)) := by
  rw [(C07_edge_check Sample.foil (xu0 := 0) (xd0 := 0) (xu1 := 1) (xd1 := 1) (yu0 := 0) (yu1 := 0) (yd1 := 0)
    rfl rfl rfl rfl rfl rfl rfl).2.2 (by norm_num) (by norm_num)]
  norm_num

/-- **C06** the reference point is the midpoint of leading edge and trailing edge. -/
theorem C06_reference_is_midpoint (P : Profile) {le te : Pt} (h : P.updateEdges = .ok (le, te)) :
    P.referencePoint = .ok (mid le te) := by
  unfold Profile.referencePoint
  rw [h]
  simp [bind, Except.bind, pure, Except.pure, mid]
  constructor <;> ring

/-- **C06** the reference point follows translations and the point reflection, for every profile it exists for. -/
theorem C06_reference_translate_reflect (P : Profile) (ref v : Pt) (h : P.referencePoint = .ok ref) :
    (P.translate v).referencePoint = .ok (ref + v) ∧ P.reflect.referencePoint = .ok (-ref) := by
  unfold Profile.referencePoint at h
  rcases he : P.updateEdges with _ | e
  · rw [he] at h; simp [bind, Except.bind] at h
  obtain ⟨xu0, xd0, xu1, xd1, yu0, yu1, yd1, h1, h2, h3, h4, h5, h6, h7, c1, c2, rfl⟩ := Profile.updateEdges_ok he
  rw [he] at h
  simp only [bind, Except.bind, pure, Except.pure, Except.ok.injEq] at h
  subst h
  constructor
  · have := (C07_edge_check (P.translate v) (xu0 := xu0 + v.1) (xd0 := xd0 + v.1) (xu1 := xu1 + v.1)
      (xd1 := xd1 + v.1) (yu0 := yu0 + v.2) (yu1 := yu1 + v.2) (yd1 := yd1 + v.2)
      (by simp [Profile.translate, h1]) (by simp [Profile.translate, h2]) (by simp [Profile.translate, h3])
      (by simp [Profile.translate, h4]) (by simp [Profile.translate, h5]) (by simp [Profile.translate, h6])
      (by simp [Profile.translate, h7])).2.2 (by simpa using c1) (by simpa using c2)
    rw [C06_reference_is_midpoint _ this]
    congr 1
    ext <;> simp [mid] <;> ring
  · have := (C07_edge_check P.reflect (xu0 := -xu0) (xd0 := -xd0) (xu1 := -xu1)
      (xd1 := -xd1) (yu0 := -yu0) (yu1 := -yu1) (yd1 := -yd1)
      (by simp [Profile.reflect, h1]) (by simp [Profile.reflect, h2]) (by simp [Profile.reflect, h3])
      (by simp [Profile.reflect, h4]) (by simp [Profile.reflect, h5]) (by simp [Profile.reflect, h6])
      (by simp [Profile.reflect, h7])).2.2
      (by rw [show -xu0 - -xd0 = -(xu0 - xd0) by ring, abs_neg]; exact c1)
      (by rw [show -xu1 - -xd1 = -(xu1 - xd1) by ring, abs_neg]; exact c2)
    rw [C06_reference_is_midpoint _ this]
    congr 1
    ext <;> simp [mid] <;> ring

/-- **C06** for a closed profile (both surfaces share their first and their last point) the reference point follows
every rotation. -/
theorem C06_reference_rotate_closed (P : Profile) (hU : P.Uniform) (a b : Pt) (hE : P.Ends a b a b) (t : ℝ) :
    ∃ Q, P.rotate (some t) none = .ok Q ∧
      P.referencePoint = .ok (mid a b) ∧ Q.referencePoint = .ok (rot t (mid a b)) := by
  obtain ⟨Q, hQ, hu, hl, hQU, _⟩ := Profile.rotate_uniform P hU t
  refine ⟨Q, hQ, ?_, ?_⟩
  · rw [Profile.referencePoint_ends ⟨hU.1, hU.2.2⟩ hE, if_neg (by norm_num)]
    congr 2; ext <;> simp
  · rw [Profile.referencePoint_ends ⟨hQU.1, hQU.2.2⟩ (hE.map (rot t) hu hl), if_neg (by norm_num)]
    congr 1; ext <;> simp [mid, rot] <;> ring

example : Sample.foil.Ends (0, 0) (1, 0) (0, 0) (1, 0) := by
  simp [Sample.foil, Profile.Ends, Profile.upper, Profile.lower]

/-- **C06** (counterexample) with an open trailing edge a rotation by 90 degrees makes the edge check itself fail. -/
theorem C06_open_trailing_edge_fails :
    ∃ (P : Profile) (ref : Pt), P.Uniform ∧ P.referencePoint = .ok ref ∧
      ∃ Q, P.rotate none (some 90) = .ok Q ∧ Q.referencePoint = .error .valueError := by
  have hU : Sample.openTE.Uniform := by simp [Sample.openTE, Profile.Uniform]
  have hE : Sample.openTE.Ends (0, 0) (1, 1/10) (0, 0) (1, -1/10) := by
    simp [Sample.openTE, Profile.Ends, Profile.upper, Profile.lower]
  obtain ⟨Q, hQ, hu, hl, hQU, _⟩ := Profile.rotate_uniform Sample.openTE hU (Real.pi * 90 / 180)
  refine ⟨Sample.openTE, (1/2, 0), hU, ?_, Q, by rw [Profile.rotate_deg]; exact hQ, ?_⟩
  · rw [Profile.referencePoint_ends ⟨hU.1, hU.2.2⟩ hE, if_neg (by norm_num)]
    norm_num [mid]
  · rw [Profile.referencePoint_ends ⟨hQU.1, hQU.2.2⟩ (hE.map _ hu hl), if_pos]
    right
    rw [show Real.pi * 90 / 180 = Real.pi / 2 by ring]
    norm_num [rot]

/-- **C06** (counterexample) with an open trailing edge and a rotation small enough to pass the edge check, the
reference point is not the rotated reference point. -/
theorem C06_open_trailing_edge_drifts :
    ∃ (P Q : Profile) (ref ref' : Pt) (t : ℝ), P.Uniform ∧ P.referencePoint = .ok ref ∧
      P.rotate (some t) none = .ok Q ∧ Q.referencePoint = .ok ref' ∧ ref' ≠ rot t ref := by
  have hU : Sample.openTE.Uniform := by simp [Sample.openTE, Profile.Uniform]
  have hE : Sample.openTE.Ends (0, 0) (1, 1/10) (0, 0) (1, -1/10) := by
    simp [Sample.openTE, Profile.Ends, Profile.upper, Profile.lower]
  set t := Real.arcsin (1 / 10000) with ht
  have hs : Real.sin t = 1 / 10000 := Real.sin_arcsin (by norm_num) (by norm_num)
  obtain ⟨Q, hQ, hu, hl, hQU, _⟩ := Profile.rotate_uniform Sample.openTE hU t
  refine ⟨Sample.openTE, Q, (1/2, 0), mid (rot t (0, 0)) ((rot t (1, 1/10)).1,
    ((rot t (1, 1/10)).2 + (rot t (1, -1/10)).2) / 2), t, hU, ?_, hQ, ?_, ?_⟩
  · rw [Profile.referencePoint_ends ⟨hU.1, hU.2.2⟩ hE, if_neg (by norm_num)]
    norm_num [mid]
  · rw [Profile.referencePoint_ends ⟨hQU.1, hQU.2.2⟩ (hE.map _ hu hl), if_neg]
    push Not
    simp only [rot, hs]
    constructor
    · norm_num
    · rw [abs_le]; constructor <;> norm_num <;> linarith
  · intro h
    have := congrArg Prod.fst h
    simp only [rot, mid, hs] at this
    norm_num at this
    linarith

/-- **C05** `scale(f)`: fails exactly when the edge check fails (with the same exception), otherwise maps every point
`p` to `ref + f (p - ref)`. -/
theorem C05_scale_points (P : Profile) (f : ℝ) :
    (∀ e, P.referencePoint = .error e → P.scale f = .error e) ∧
    (∀ ref, P.referencePoint = .ok ref → ∃ Q, P.scale f = .ok Q ∧
      Q.upper = P.upper.map (homothety ref f) ∧ Q.lower = P.lower.map (homothety ref f) ∧ Q.par = P.par) := by
  constructor
  · intro e he; exact Profile.scale_error he
  · intro ref href
    exact ⟨_, Profile.scale_eq href, Profile.scaled_upper _ _ _, Profile.scaled_lower _ _ _, rfl⟩

/-- **C05** every distance between two profile points is multiplied by `|f|`. -/
theorem C05_scale_distances (P Q : Profile) (f : ℝ) (h : P.scale f = .ok Q) :
    Q.points.length = P.points.length ∧
    ∀ i j (hi : i < P.points.length) (hj : j < P.points.length)
      (hi' : i < Q.points.length) (hj' : j < Q.points.length),
      dist2 (Q.points[i]) (Q.points[j]) = |f| * dist2 (P.points[i]) (P.points[j]) := by
  rcases hr : P.referencePoint with e | ref
  · rw [Profile.scale_error hr] at h; cases h
  obtain ⟨Q', hQ', hu, hl, _⟩ := (C05_scale_points P f).2 ref hr
  obtain rfl : Q' = Q := by rw [h] at hQ'; exact (Except.ok.inj hQ').symm
  have hp : Q'.points = P.points.map (homothety ref f) := by simp [Profile.points, hu, hl]
  refine ⟨by simp [hp], ?_⟩
  intro i j hi hj hi' hj'
  simp only [hp, List.getElem_map]
  generalize P.points[i] = p
  generalize P.points[j] = q
  unfold dist2 homothety
  rw [← Real.sqrt_sq_eq_abs, ← Real.sqrt_mul (sq_nonneg f)]
  congr 1
  simp only
  ring

/-- **C05** when both surfaces share the abscissae of their first and last point, the reference point is left in place
by every factor, and scalings compose multiplicatively. -/
theorem C05_scale_reference (P : Profile) (hs : P.Shaped) (a b c d : Pt) (hE : P.Ends a b c d)
    (h1 : a.1 = c.1) (h2 : b.1 = d.1) (f g : ℝ) :
    ∃ ref Q, P.referencePoint = .ok ref ∧ P.scale f = .ok Q ∧ Q.referencePoint = .ok ref ∧
      Q.scale g = P.scale (f * g) := by
  have hr : P.referencePoint = .ok (mid a (b.1, (b.2 + d.2) / 2)) := by
    rw [Profile.referencePoint_ends hs hE, if_neg (by norm_num [h1, h2])]
  set ref := mid a (b.1, (b.2 + d.2) / 2) with href
  have hQ := Profile.scale_eq (f := f) hr
  set Q := ((P.translate (-ref)).mulAll f).translate ref with hQdef
  have hQs : Q.Shaped := Profile.translate_shaped _ (Profile.mulAll_shaped _ (Profile.translate_shaped _ hs))
  have hQE : Q.Ends _ _ _ _ := hE.map (homothety ref f) (Profile.scaled_upper _ _ _) (Profile.scaled_lower _ _ _)
  have hQr : Q.referencePoint = .ok ref := by
    rw [Profile.referencePoint_ends hQs hQE, if_neg (by simp [homothety, h1, h2]; norm_num)]
    congr 1
    simp only [href, mid, homothety]
    ext <;> simp <;> ring
  refine ⟨ref, Q, hr, hQ, hQr, ?_⟩
  rw [Profile.scale_eq hQr, Profile.scale_eq hr]
  congr 1
  simp only [hQdef, Profile.translate, Profile.mulAll, List.map_map, Profile.mk.injEq]
  refine ⟨?_, ?_, ?_, ?_, trivial, trivial, trivial⟩ <;>
  · congr 1; funext x; simp only [Function.comp]; simp; ring

/-- **C05** of any profile of four lists of equal sides: whenever the profile obtained by `scale(f)` still passes the
edge check, its reference point is the one it was scaled about, and scaling it by `g` gives what scaling the original
by `f * g` gives. -/
theorem C05_scale_compose (P Q : Profile) (hs : P.Shaped) (a b c d : Pt) (hE : P.Ends a b c d) (f g : ℝ) (r : Pt)
    (h : P.scale f = .ok Q) (hq : Q.referencePoint = .ok r) :
    P.referencePoint = .ok r ∧ Q.scale g = P.scale (f * g) := by
  rcases hr : P.referencePoint with e | ref
  · rw [Profile.scale_error hr] at h; cases h
  have hr0 := hr
  have hQ := Profile.scale_eq (f := f) hr
  obtain rfl := Except.ok.inj (h.symm.trans hQ)
  set Q := ((P.translate (-ref)).mulAll f).translate ref with hQdef
  have hQs : Q.Shaped := Profile.translate_shaped _ (Profile.mulAll_shaped _ (Profile.translate_shaped _ hs))
  have hQE : Q.Ends _ _ _ _ := hE.map (homothety ref f) (Profile.scaled_upper _ _ _) (Profile.scaled_lower _ _ _)
  have href : ref = mid a (b.1, (b.2 + d.2) / 2) := by
    rw [Profile.referencePoint_ends hs hE] at hr
    split at hr
    · cases hr
    · exact (Except.ok.inj hr).symm
  have hQr : Q.referencePoint = .ok ref := by
    have hq' := hq
    rw [Profile.referencePoint_ends hQs hQE] at hq' ⊢
    split at hq'
    · cases hq'
    · rename_i hn
      rw [if_neg hn]
      congr 1
      simp only [href, mid, homothety]
      ext <;> simp <;> ring
  obtain rfl := Except.ok.inj (hq.symm.trans hQr)
  refine ⟨rfl, ?_⟩
  rw [Profile.scale_eq hQr, Profile.scale_eq hr0]
  congr 1
  simp only [hQdef, Profile.translate, Profile.mulAll, List.map_map, Profile.mk.injEq]
  refine ⟨?_, ?_, ?_, ?_, trivial, trivial, trivial⟩ <;>
  · congr 1; funext x; simp only [Function.comp]; simp; ring

/-- **C05** (limit of the claim) with abscissae that agree only within the tolerance, scaling up can push the profile
out of the tolerance, so that the reference point is no longer available. -/
theorem C05_scale_tolerance_lost :
    ∃ (P Q : Profile) (ref : Pt), P.Uniform ∧ P.referencePoint = .ok ref ∧ P.scale 2 = .ok Q ∧
      Q.referencePoint = .error .valueError := by
  let P : Profile := { xup := [0, 1], xdown := [1/10000, 1], yup := [0, 0], ydown := [0, 0] }
  have hU : P.Uniform := by simp [P, Profile.Uniform]
  have hE : P.Ends (0, 0) (1, 0) (1/10000, 0) (1, 0) := by simp [P, Profile.Ends, Profile.upper, Profile.lower]
  have hr : P.referencePoint = .ok (1/2, 0) := by
    rw [Profile.referencePoint_ends ⟨hU.1, hU.2.2⟩ hE, if_neg (by norm_num [abs_of_neg])]
    simp [mid]
  refine ⟨P, _, _, hU, hr, Profile.scale_eq hr, ?_⟩
  rw [Profile.referencePoint_ends (Profile.translate_shaped _ (Profile.mulAll_shaped _
      (Profile.translate_shaped _ ⟨hU.1, hU.2.2⟩)))
    (hE.map _ (Profile.scaled_upper _ _ _) (Profile.scaled_lower _ _ _)), if_pos]
  left
  norm_num [homothety, abs_of_neg]

/-- **C05** with `translate=False` every point is multiplied by the factor. -/
theorem C05_scale_plain (P : Profile) (f : ℝ) :
    ∃ Q, P.scale f false = .ok Q ∧ Q.upper = P.upper.map (fun p => (f * p.1, f * p.2)) ∧
      Q.lower = P.lower.map (fun p => (f * p.1, f * p.2)) :=
  ⟨P.mulAll f, by simp [Profile.scale, pure, Except.pure], Profile.mulAll_upper _ _, Profile.mulAll_lower _ _⟩

example : ∃ Q, Sample.foil.scale 3 = .ok Q ∧ Q.upper = [(-1, 0), (-1/4, 3/5), (1/2, 3/4), (2, 0)] := by
  have hr : Sample.foil.referencePoint = .ok (1/2, 0) := by
    rw [Profile.referencePoint_ends (by simp [Sample.foil, Profile.Shaped]) (a := (0, 0)) (b := (1, 0)) (c := (0, 0))
      (d := (1, 0)) (by simp [Sample.foil, Profile.Ends, Profile.upper, Profile.lower]), if_neg (by norm_num)]
    simp [mid]
  obtain ⟨Q, hQ, hu, _⟩ := (C05_scale_points Sample.foil 3).2 _ hr
  refine ⟨Q, hQ, ?_⟩
  rw [hu]
  norm_num [Sample.foil, Profile.upper, homothety]

end BladeX
