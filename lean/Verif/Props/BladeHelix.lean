import Mathlib.Analysis.SpecialFunctions.Trigonometric.Deriv
import Mathlib.Analysis.SpecialFunctions.Trigonometric.Angle
import Verif.Spec.Helix
import Verif.Props.BladeCylinder
import Verif.Props.ProfileEdges

/-! # What the pitch means: nose-tail lines are screw lines (C109) -/

namespace BladeX
noncomputable section
open Classical Spec

/-- The cosine and the sine of the pitch angle. -/
theorem cos_pitch {r P : ℝ} (hr : 0 < r) :
    Real.cos (Real.arctan (P / (2 * Real.pi * r))) = r / helixSpeed r P ∧
      Real.sin (Real.arctan (P / (2 * Real.pi * r))) = P / (2 * Real.pi) / helixSpeed r P ∧ 0 < helixSpeed r P := by
  have hpi := Real.pi_pos
  have hs : 0 < helixSpeed r P := Real.sqrt_pos.2 (by positivity)
  have hc : Real.cos (Real.arctan (P / (2 * Real.pi * r))) = r / helixSpeed r P := by
    rw [Real.cos_arctan]
    have e : 1 + (P / (2 * Real.pi * r)) ^ 2 = (r ^ 2 + (P / (2 * Real.pi)) ^ 2) / r ^ 2 := by field_simp
    rw [e, Real.sqrt_div' _ (by positivity), Real.sqrt_sq hr.le, one_div_div]
    rfl
  refine ⟨hc, ?_, hs⟩
  rw [← Real.tan_mul_cos (Real.cos_arctan_pos _).ne', hc, Real.tan_arctan]
  field_simp

/-- The placed point on the cylinder, measured from the screw line. -/
theorem wrap_placed (refl : Bool) {r : ℝ} (hr : 0 < r) (c P k s : ℝ) (ref p : Pt) (e : ℝ) (he : e = if refl then -c else c) :
    wrap r (placed refl r c P k s ref p) =
      shiftX (-(e * (p.2 - ref.2) * helixSpeed r P / r))
        (helix r P k (e * (p.1 - ref.1 + P / (2 * Real.pi * r) * (p.2 - ref.2)) / helixSpeed r P - Real.pi * s / 180)) := by
  obtain ⟨h1, h2, h3⟩ := cos_pitch (P := P) hr
  have hpi := Real.pi_pos
  have hsq : helixSpeed r P ^ 2 = r ^ 2 + (P / (2 * Real.pi)) ^ 2 := Real.sq_sqrt (by positivity)
  obtain ⟨S, hS⟩ : ∃ S, S = helixSpeed r P := ⟨_, rfl⟩
  rw [← hS] at h1 h2 h3 hsq ⊢
  have ang : (placed refl r c P k s ref p).2 / r =
      e * (p.1 - ref.1 + P / (2 * Real.pi * r) * (p.2 - ref.2)) / S - Real.pi * s / 180 := by
    simp only [placed, ← he, h1, h2]
    field_simp
  have ax : (placed refl r c P k s ref p).1 = P * ((e * (p.1 - ref.1 + P / (2 * Real.pi * r) * (p.2 - ref.2)) / S - Real.pi * s / 180) /
      (2 * Real.pi)) - k + -(e * (p.2 - ref.2) * S / r) := by
    simp only [placed, ← he, h1, h2]
    have hS2 : S = (r ^ 2 + (P / (2 * Real.pi)) ^ 2) / S := by rw [← hsq]; field_simp
    rw [show e * (p.2 - ref.2) * S / r = e * (p.2 - ref.2) * ((r ^ 2 + (P / (2 * Real.pi)) ^ 2) / S) / r by rw [← hS2]]
    field_simp
    ring
  simp only [wrap, shiftX, helix, ang, ax]

/-- **C109** every generated point, measured from the screw line of its section: for a section with radius `r`, chord `c`, pitch `P`, rake `k`
and skew `s` (degrees) the point at `(x, y)` from the reference point of the given profile, times the chord (negated if `reflect`), stands at
the axial distance `-y S / r` from the screw line of radius `r`, pitch `P` and offset `k`, at the angle `(x + P / (2 pi r) y) / S - s`,
where `S` is the length of the screw line per radian. -/
theorem C109_points (b b' : Blade) (refl : Bool) (hW : b.WellFormed) (ht : b.thickness = none) (hf : b.camber = none)
    (hU : ∀ P ∈ b.sections, P.Uniform) (h : b.applyTransformations refl = (b', .ok ()))
    (i : Nat) (P : Profile) (r c p k s : ℝ) (hP : b.sections[i]? = some P) (hr : b.radii[i]? = some r) (hc : b.chord[i]? = some c)
    (hp : b.pitch[i]? = some p) (hk : b.rake[i]? = some k) (hs : b.skew[i]? = some s) (hr0 : 0 < r) :
    ∃ ref, P.referencePoint = .ok ref ∧
      ∀ f : Pt → Pt3, (∀ q : Pt, f q =
        let x := (if refl then -c else c) * (q.1 - ref.1)
        let y := (if refl then -c else c) * (q.2 - ref.2)
        shiftX (-(y * helixSpeed r p / r)) (helix r p k ((x + p / (2 * Real.pi * r) * y) / helixSpeed r p - Real.pi * s / 180))) →
      b'.coordsUp[b.sections.length - 1 - i]? = some (P.upper.map f) ∧ b'.coordsDown[b.sections.length - 1 - i]? = some (P.lower.map f) := by
  obtain ⟨hl, -, hpl⟩ := C46_placed b b' refl hW ht hf hU h
  obtain ⟨ref, Q, h1, h2, h3, h4, h5, -⟩ := hpl i P r c p k s hP hr hc hp hk hs
  obtain ⟨-, -, h6⟩ := C48_reversed b b' refl hW h
  obtain ⟨h7, h8, -⟩ := h6 i Q r h3 hr
  refine ⟨ref, h1, ?_⟩
  intro f hf
  have e : ∀ q, wrap r (placed refl r c p k s ref q) = f q := by
    intro q
    rw [wrap_placed refl hr0 c p k s ref q _ rfl, hf]
    simp only
    congr 3
    ring
  constructor
  · rw [h7, h4, List.map_map]; congr 1; exact List.map_congr_left fun q _ => e q
  · rw [h8, h5, List.map_map]; congr 1; exact List.map_congr_left fun q _ => e q

/-- **C109** the number called `helixSpeed` is the length of the screw line per radian: the norm of its velocity, at every angle. -/
theorem C109_length (r P k θ : ℝ) :
    ∃ vx vy vz : ℝ, HasDerivAt (fun t => (helix r P k t).1) vx θ ∧ HasDerivAt (fun t => (helix r P k t).2.1) vy θ ∧
      HasDerivAt (fun t => (helix r P k t).2.2) vz θ ∧ Real.sqrt (vx ^ 2 + vy ^ 2 + vz ^ 2) = helixSpeed r P := by
  refine ⟨P / (2 * Real.pi), r * Real.cos θ, r * -Real.sin θ, ?_, (Real.hasDerivAt_sin θ).const_mul r, (Real.hasDerivAt_cos θ).const_mul r, ?_⟩
  · have := (((hasDerivAt_id θ).div_const (2 * Real.pi)).const_mul P).sub_const k
    refine this.congr_deriv ?_
    ring
  · unfold helixSpeed
    congr 1
    have := Real.sin_sq_add_cos_sq θ
    linear_combination r ^ 2 * this

/-- **C109** a point of the section at the height of the reference point (on the nose-tail line) lies on the screw line; the angle between
two such points is their distance in the given profile times the chord, measured along the screw line; the point of the reference point
itself stands at minus the skew angle. -/
theorem C109_nose_tail (b b' : Blade) (refl : Bool) (hW : b.WellFormed) (ht : b.thickness = none) (hf : b.camber = none)
    (hU : ∀ P ∈ b.sections, P.Uniform) (h : b.applyTransformations refl = (b', .ok ()))
    (i : Nat) (P : Profile) (r c p k s : ℝ) (hP : b.sections[i]? = some P) (hr : b.radii[i]? = some r) (hc : b.chord[i]? = some c)
    (hp : b.pitch[i]? = some p) (hk : b.rake[i]? = some k) (hs : b.skew[i]? = some s) (hr0 : 0 < r) (ref : Pt)
    (href : P.referencePoint = .ok ref) :
    ∃ (up down : List Pt3) (θ : ℝ → ℝ), b'.coordsUp[b.sections.length - 1 - i]? = some up ∧
      b'.coordsDown[b.sections.length - 1 - i]? = some down ∧
      (∀ (j : Nat) (x : ℝ), P.upper[j]? = some (x, ref.2) → up[j]? = some (helix r p k (θ x))) ∧
      (∀ (j : Nat) (x : ℝ), P.lower[j]? = some (x, ref.2) → down[j]? = some (helix r p k (θ x))) ∧
      (∀ x x' : ℝ, |θ x - θ x'| * helixSpeed r p = |c| * |x - x'|) ∧ θ ref.1 = -(Real.pi * s / 180) := by
  obtain ⟨ref', h1, h2⟩ := C109_points b b' refl hW ht hf hU h i P r c p k s hP hr hc hp hk hs hr0
  rw [href] at h1
  obtain rfl := Except.ok.inj h1
  obtain ⟨h3, h4⟩ := h2 _ (fun q => rfl)
  have hS : 0 < helixSpeed r p := (cos_pitch hr0).2.2
  refine ⟨_, _, fun x => (if refl then -c else c) * (x - ref.1) / helixSpeed r p - Real.pi * s / 180, h3, h4, ?_, ?_, ?_, ?_⟩
  · intro j x hj
    rw [List.getElem?_map, hj]
    simp [shiftX]
  · intro j x hj
    rw [List.getElem?_map, hj]
    simp [shiftX]
  · intro x x'
    have e : ((if refl then -c else c) * (x - ref.1) / helixSpeed r p - Real.pi * s / 180) -
        ((if refl then -c else c) * (x' - ref.1) / helixSpeed r p - Real.pi * s / 180) =
        (if refl then -c else c) * (x - x') / helixSpeed r p := by field_simp; ring
    have e2 : |(if refl then -c else c : ℝ)| = |c| := by split <;> simp
    rw [e, abs_div, abs_mul, e2, abs_of_pos hS, div_mul_cancel₀ _ hS.ne']
  · simp

/-- **C109** for closed sections with a horizontal nose-tail line: both edges of the section lie on the screw line of its pitch, symmetrically
about minus the skew angle, and the length of the screw line from edge to edge is the chord of the blade times the chord of the profile. -/
theorem C109_edges (b b' : Blade) (refl : Bool) (hW : b.WellFormed) (ht : b.thickness = none) (hf : b.camber = none)
    (hU : ∀ P ∈ b.sections, P.Uniform) (h : b.applyTransformations refl = (b', .ok ()))
    (i : Nat) (P : Profile) (r c p k s : ℝ) (hP : b.sections[i]? = some P) (hr : b.radii[i]? = some r) (hc : b.chord[i]? = some c)
    (hp : b.pitch[i]? = some p) (hk : b.rake[i]? = some k) (hs : b.skew[i]? = some s) (hr0 : 0 < r) (x₀ x₁ y : ℝ)
    (hE : P.Ends (x₀, y) (x₁, y) (x₀, y) (x₁, y)) :
    ∃ (up : List Pt3) (θ₀ θ₁ : ℝ), b'.coordsUp[b.sections.length - 1 - i]? = some up ∧ up.head? = some (helix r p k θ₀) ∧
      up.getLast? = some (helix r p k θ₁) ∧ (θ₀ + θ₁) / 2 = -(Real.pi * s / 180) ∧ |θ₁ - θ₀| * helixSpeed r p = |c| * |x₁ - x₀| := by
  have hUP := hU P (List.mem_of_getElem? hP)
  obtain ⟨ref, h1, h2⟩ := C109_points b b' refl hW ht hf hU h i P r c p k s hP hr hc hp hk hs hr0
  rw [Profile.referencePoint_ends ⟨hUP.1, hUP.2.2⟩ hE, if_neg (by norm_num)] at h1
  obtain rfl := Except.ok.inj h1
  obtain ⟨h3, h4⟩ := h2 _ (fun q => rfl)
  have hS : 0 < helixSpeed r p := (cos_pitch hr0).2.2
  have e2 : |(if refl then -c else c : ℝ)| = |c| := by split <;> simp
  refine ⟨_, (if refl then -c else c) * (x₀ - (x₀ + x₁) / 2) / helixSpeed r p - Real.pi * s / 180,
    (if refl then -c else c) * (x₁ - (x₀ + x₁) / 2) / helixSpeed r p - Real.pi * s / 180, h3, ?_, ?_, ?_, ?_⟩
  · rw [List.head?_map, hE.1]
    simp [shiftX, mid]
  · rw [List.getLast?_map, hE.2.1]
    simp [shiftX, mid]
  · field_simp; ring
  · rw [show ((if refl then -c else c) * (x₁ - (x₀ + x₁) / 2) / helixSpeed r p - Real.pi * s / 180) -
        ((if refl then -c else c) * (x₀ - (x₀ + x₁) / 2) / helixSpeed r p - Real.pi * s / 180) =
        (if refl then -c else c) * (x₁ - x₀) / helixSpeed r p by field_simp; ring, abs_div, abs_mul, e2, abs_of_pos hS,
      div_mul_cancel₀ _ hS.ne']

/-- A point off the screw surface by less than the pitch is on it only if it is not off at all. -/
private theorem off_helicoid {r P k θ d : ℝ} (hr : 0 < r) (hd : |d| < |P|) : OnHelicoid P k (shiftX d (helix r P k θ)) ↔ d = 0 := by
  constructor
  · rintro ⟨r', θ', hr', e⟩
    have hpi := Real.pi_pos
    have e1 : P * (θ / (2 * Real.pi)) - k + d = P * (θ' / (2 * Real.pi)) - k := congrArg Prod.fst e
    have e2 : r * Real.sin θ = r' * Real.sin θ' := congrArg (fun q : Pt3 => q.2.1) e
    have e3 : r * Real.cos θ = r' * Real.cos θ' := congrArg (fun q : Pt3 => q.2.2) e
    have e4 : r = r' := by
      have a := Real.sin_sq_add_cos_sq θ
      have a' := Real.sin_sq_add_cos_sq θ'
      have : r ^ 2 = r' ^ 2 := by
        calc r ^ 2 = (r * Real.sin θ) ^ 2 + (r * Real.cos θ) ^ 2 := by linear_combination -r ^ 2 * a
          _ = r' ^ 2 := by rw [e2, e3]; linear_combination r' ^ 2 * a'
      exact (pow_left_inj₀ hr.le hr'.le two_ne_zero).1 this
    subst e4
    have e5 : (θ : Real.Angle) = θ' := Real.Angle.cos_sin_inj (mul_left_cancel₀ hr.ne' e3) (mul_left_cancel₀ hr.ne' e2)
    obtain ⟨n, hn⟩ := Real.Angle.angle_eq_iff_two_pi_dvd_sub.1 e5
    have hθ : θ = θ' + 2 * Real.pi * n := by linarith
    have hd' : d = P * -(n : ℝ) := by
      rw [hθ] at e1
      have : P * ((θ' + 2 * Real.pi * n) / (2 * Real.pi)) = P * (θ' / (2 * Real.pi)) + P * n := by field_simp
      linarith
    rw [hd', abs_mul, abs_neg] at hd
    have hn1 : |(n : ℝ)| < 1 := by
      by_contra hc
      have := mul_le_mul_of_nonneg_left (not_lt.1 hc) (abs_nonneg P)
      linarith
    have hn0 : n = 0 := by
      have : |n| < 1 := by exact_mod_cast hn1
      exact abs_eq_zero.1 (by have := abs_nonneg n; omega)
    rw [hd', hn0]; simp
  · rintro rfl
    exact ⟨r, θ, hr, by simp [shiftX]⟩

/-- **C109** a blade with uniform pitch and uniform rake: whatever the radii, chords and skew angles, all points at the height of the
reference point of their profile lie on one and the same screw surface, and every other point that stands less than one pitch away in
the axial direction does not. -/
theorem C109_screw_surface (b b' : Blade) (refl : Bool) (hW : b.WellFormed) (ht : b.thickness = none) (hf : b.camber = none)
    (hU : ∀ P ∈ b.sections, P.Uniform) (h : b.applyTransformations refl = (b', .ok ())) (p k : ℝ) (hp : ∀ x ∈ b.pitch, x = p)
    (hk : ∀ x ∈ b.rake, x = k) (hr : ∀ x ∈ b.radii, 0 < x) (i : Nat) (P : Profile) (r c : ℝ) (hP : b.sections[i]? = some P)
    (hr' : b.radii[i]? = some r) (hc : b.chord[i]? = some c) :
    ∃ (ref : Pt) (up down : List Pt3), P.referencePoint = .ok ref ∧ b'.coordsUp[b.sections.length - 1 - i]? = some up ∧
      b'.coordsDown[b.sections.length - 1 - i]? = some down ∧
      ∀ (j : Nat) (q : Pt) (q' : Pt3), P.upper[j]? = some q ∧ up[j]? = some q' ∨ P.lower[j]? = some q ∧ down[j]? = some q' →
        (q.2 = ref.2 → OnHelicoid p k q') ∧
        (c ≠ 0 → |c * (q.2 - ref.2)| * helixSpeed r p / r < |p| → OnHelicoid p k q' → q.2 = ref.2) := by
  have hi : i < b.sections.length := (List.getElem?_eq_some_iff.1 hP).1
  obtain ⟨w1, w2, w3, w4, w5⟩ := id hW
  have hip : i < b.pitch.length := by omega
  have hik : i < b.rake.length := by omega
  have his : i < b.skew.length := by omega
  have hp' : b.pitch[i]? = some p := by rw [List.getElem?_eq_getElem hip, hp _ (List.getElem_mem hip)]
  have hk' : b.rake[i]? = some k := by rw [List.getElem?_eq_getElem hik, hk _ (List.getElem_mem hik)]
  have hr0 : 0 < r := hr r (List.mem_of_getElem? hr')
  obtain ⟨ref, h1, h2⟩ := C109_points b b' refl hW ht hf hU h i P r c p k _ hP hr' hc hp' hk' (List.getElem?_eq_getElem his) hr0
  obtain ⟨h3, h4⟩ := h2 _ (fun q => rfl)
  have hS : 0 < helixSpeed r p := (cos_pitch hr0).2.2
  have e2 : |(if refl then -c else c : ℝ)| = |c| := by split <;> simp
  refine ⟨ref, _, _, h1, h3, h4, ?_⟩
  intro j q q' hq
  have e : q' = shiftX (-((if refl then -c else c) * (q.2 - ref.2) * helixSpeed r p / r)) (helix r p k (((if refl then -c else c) * (q.1 - ref.1) +
      p / (2 * Real.pi * r) * ((if refl then -c else c) * (q.2 - ref.2))) / helixSpeed r p - Real.pi * b.skew[i] / 180)) := by
    rcases hq with ⟨a1, a2⟩ | ⟨a1, a2⟩
    · rw [List.getElem?_map, a1] at a2
      exact (Option.some.inj a2).symm
    · rw [List.getElem?_map, a1] at a2
      exact (Option.some.inj a2).symm
  constructor
  · intro e0
    rw [e, e0]
    exact ⟨r, _, hr0, by simp [shiftX]; rfl⟩
  · intro hc0 hlt hon
    rw [e] at hon
    have hd : |-((if refl then -c else c) * (q.2 - ref.2) * helixSpeed r p / r)| < |p| := by
      rw [abs_neg, abs_div, abs_mul, abs_mul, e2, abs_of_pos hS, abs_of_pos hr0, ← abs_mul]
      exact hlt
    have hz := (off_helicoid hr0 hd).1 hon
    have hcc : (if refl then -c else c : ℝ) ≠ 0 := by split <;> simpa using hc0
    have : (if refl then -c else c) * (q.2 - ref.2) = 0 := by
      have h0 : (if refl then -c else c) * (q.2 - ref.2) * helixSpeed r p / r = 0 := neg_eq_zero.1 hz
      rcases div_eq_zero_iff.1 h0 with h0 | h0
      · rcases mul_eq_zero.1 h0 with h0 | h0
        · exact h0
        · exact absurd h0 hS.ne'
      · exact absurd h0 hr0.ne'
    rcases mul_eq_zero.1 this with h0 | h0
    · exact absurd h0 hcc
    · linarith

/-! ### Non-vacuity -/

/-- A blade of uniform pitch without rake, with skew. -/
def Sample.screwBlade : Blade := { Sample.blade2 with pitch := [3, 3], rake := [0, 0] }

theorem Sample.screwBlade_applies (refl : Bool) : ∃ b', Sample.screwBlade.applyTransformations refl = (b', .ok ()) := by
  refine (C46_defined Sample.screwBlade refl ⟨rfl, rfl, rfl, rfl, rfl⟩ rfl rfl ?_).2 ⟨by simp [Sample.screwBlade, Sample.blade2], ?_, ?_, ?_⟩
  · simp [Sample.screwBlade, Sample.blade2, Sample.foil_uniform]
  · simp [Sample.screwBlade, Sample.blade2]
  · intro P hP
    have : P = Sample.foil := by simpa [Sample.screwBlade, Sample.blade2] using hP
    exact ⟨_, this ▸ Sample.foil_reference⟩
  · simp [Sample.screwBlade, Sample.blade2]

/-- Both edges of the tip section of the sample blade are on the screw surface of pitch 3 although its skew is 10 degrees. -/
example (refl : Bool) : ∃ b', Sample.screwBlade.applyTransformations refl = (b', .ok ()) ∧
    ∃ up a z, b'.coordsUp[0]? = some up ∧ up[0]? = some a ∧ up[3]? = some z ∧ OnHelicoid 3 0 a ∧ OnHelicoid 3 0 z := by
  obtain ⟨b', h⟩ := Sample.screwBlade_applies refl
  obtain ⟨ref, up, down, h1, h2, h3, h4⟩ := C109_screw_surface Sample.screwBlade b' refl ⟨rfl, rfl, rfl, rfl, rfl⟩ rfl rfl
    (by simp [Sample.screwBlade, Sample.blade2, Sample.foil_uniform]) h 3 0 (by simp [Sample.screwBlade, Sample.blade2])
    (by simp [Sample.screwBlade, Sample.blade2]) (by simp [Sample.screwBlade, Sample.blade2]) 1 Sample.foil 2 3 rfl rfl rfl
  rw [Sample.foil_reference] at h1
  obtain rfl := Except.ok.inj h1
  obtain ⟨up', down', θ, g1, -, g3, -, -, -⟩ := C109_nose_tail Sample.screwBlade b' refl ⟨rfl, rfl, rfl, rfl, rfl⟩ rfl rfl
    (by simp [Sample.screwBlade, Sample.blade2, Sample.foil_uniform]) h 1 Sample.foil 2 3 3 0 10 rfl rfl rfl rfl rfl rfl (by norm_num) _
    Sample.foil_reference
  rw [h2] at g1
  obtain rfl := Option.some.inj g1
  have k0 := g3 0 0 (by simp [Sample.foil, Profile.upper])
  have k3 := g3 3 1 (by simp [Sample.foil, Profile.upper])
  exact ⟨b', h, up, _, _, h2, k0, k3, (h4 0 (0, 0) _ (Or.inl ⟨by simp [Sample.foil, Profile.upper], k0⟩)).1 rfl,
    (h4 3 (1, 0) _ (Or.inl ⟨by simp [Sample.foil, Profile.upper], k3⟩)).1 rfl⟩

example (refl : Bool) : ∃ b', Sample.screwBlade.applyTransformations refl = (b', .ok ()) ∧
    ∃ (up : List Pt3) (θ₀ θ₁ : ℝ), b'.coordsUp[0]? = some up ∧ up.head? = some (helix 2 3 0 θ₀) ∧ up.getLast? = some (helix 2 3 0 θ₁) ∧
      (θ₀ + θ₁) / 2 = -(Real.pi * 10 / 180) ∧ |θ₁ - θ₀| * helixSpeed 2 3 = |(3 : ℝ)| * |(1 : ℝ) - 0| := by
  obtain ⟨b', h⟩ := Sample.screwBlade_applies refl
  exact ⟨b', h, C109_edges Sample.screwBlade b' refl ⟨rfl, rfl, rfl, rfl, rfl⟩ rfl rfl
    (by simp [Sample.screwBlade, Sample.blade2, Sample.foil_uniform]) h 1 Sample.foil 2 3 3 0 10 rfl rfl rfl rfl rfl rfl (by norm_num) 0 1 0
    (by simp [Sample.foil, Profile.Ends, Profile.upper, Profile.lower])⟩

end
end BladeX
