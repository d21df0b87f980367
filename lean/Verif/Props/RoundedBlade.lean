import Verif.Lemmas.RoundedPlace
import Verif.Lemmas.American

/-! # Blades in rounded arithmetic (`bladex/blade.py`, `bladex/propeller.py`) -/

namespace BladeX
open Spec
namespace Rounded

variable {L : Library} {ε : ℝ}

/-! ### On the cylinder -/

/-- Distance from the axis of the propeller. -/
noncomputable def axisDist (p : Pt3) : ℝ := Real.sqrt (p.2.1 ^ 2 + p.2.2 ^ 2)

private theorem axisDist_eq (p : Pt3) : axisDist p = dist2 p.2 (0, 0) := by simp [axisDist, dist2]

private theorem dist2_comm (p q : Pt) : dist2 p q = dist2 q p := by
  unfold dist2; congr 1; ring

private theorem wrap_axis (h : Accurate L ε) (he : ε ≤ 1 / 1000) (r : ℝ) (p : Pt) : |axisDist (wrapPt L r p) - (|r|)| ≤ ε * (2.85 * |r|) := by
  have h0 := eps_nonneg h
  have R := h.sound.rounds
  have co : ∀ {g g' : ℝ}, |g' - g| ≤ ε → |g| ≤ 1 → |L.fl (r * g') - r * g| ≤ ε * (2.001 * |r|) := by
    intro g g' h1 h2
    have t1 : |r * g' - r * g| ≤ ε * |r| := by
      rw [← mul_sub, abs_mul, mul_comm]; exact mul_le_mul_of_nonneg_right h1 (abs_nonneg r)
    have t2 := rnd R he t1 (b := |r|) (by rw [abs_mul]; nlinarith [abs_nonneg r])
    linarith
  set t := L.fl (p.2 / r)
  have d := dist2_le (p := (wrapPt L r p).2) (q := (r * Real.sin t, r * Real.cos t)) (d := ε * (2.001 * |r|)) (by positivity)
    (co (h.sound.sine t) (Real.abs_sin_le_one t)) (co (h.sound.cosine t) (Real.abs_cos_le_one t))
  have e : dist2 (r * Real.sin t, r * Real.cos t) (0, 0) = |r| := by
    simp only [dist2, sub_zero]
    rw [show (r * Real.sin t) ^ 2 + (r * Real.cos t) ^ 2 = r ^ 2 by linear_combination r ^ 2 * Real.sin_sq_add_cos_sq t, Real.sqrt_sq_eq_abs]
  rw [axisDist_eq]
  have a1 := dist2_triangle (wrapPt L r p).2 (r * Real.sin t, r * Real.cos t) (0, 0)
  have a2 := dist2_triangle (r * Real.sin t, r * Real.cos t) (wrapPt L r p).2 (0, 0)
  rw [dist2_comm (r * Real.sin t, r * Real.cos t) (wrapPt L r p).2] at a2
  rw [e] at a1 a2
  have : 0 ≤ ε * |r| := by positivity
  rw [abs_le]
  constructor <;> linarith

private theorem turn_axis (h : Accurate L ε) (he : ε ≤ 1 / 1000) (a : ℝ) (p : Pt3) : |axisDist (turnPt L a p) - axisDist p| ≤ 7 * ε * axisDist p := by
  have h0 := eps_nonneg h
  have n := rotPt_near h.sound a p.2
  have e : dist2 (rot a p.2) (0, 0) = dist2 p.2 (0, 0) := by
    have := dist2_rot a p.2 (0, 0)
    rwa [show rot a (0, 0) = (0, 0) by simp [rot]] at this
  have a1 := dist2_triangle (turnPt L a p).2 (rot a p.2) (0, 0)
  have a2 := dist2_triangle (rot a p.2) (turnPt L a p).2 (0, 0)
  rw [dist2_comm (rot a p.2) (turnPt L a p).2] at a2
  rw [e] at a1 a2
  have n' : dist2 (turnPt L a p).2 (rot a p.2) ≤ ε * 6.01 * dist2 p.2 (0, 0) := n.trans (mul_le_mul_of_nonneg_right (unit_le h0 he) (dist2_nonneg _ _))
  have : 0 ≤ ε * dist2 p.2 (0, 0) := mul_nonneg h0 (dist2_nonneg _ _)
  rw [axisDist_eq, axisDist_eq, abs_le]
  constructor <;> linarith

private theorem turn_eq (as : List ℝ) (F : Face) : turn L as F = mapPts (fun p => as.foldl (fun p a => turnPt L a p) p) F := by
  unfold turn
  induction as generalizing F with
  | nil => simp [mapPts]
  | cons a as ih =>
    rw [List.foldl_cons, ih]
    simp [mapPts, Function.comp_def]

private theorem turns_axis (h : Accurate L ε) (he : ε ≤ 1 / 1000) (r : ℝ) (as : List ℝ) (p : Pt3) (k : ℕ) (hp : |axisDist p - (|r|)| ≤ ((1 + 7 * ε) ^ k - 1) * |r|) :
    |axisDist (as.foldl (fun p a => turnPt L a p) p) - (|r|)| ≤ ((1 + 7 * ε) ^ (k + as.length) - 1) * |r| := by
  have h0 := eps_nonneg h
  induction as generalizing p k with
  | nil => exact hp
  | cons a as ih =>
    rw [List.foldl_cons, List.length_cons, show k + (as.length + 1) = (k + 1) + as.length by omega]
    apply ih
    have t := turn_axis h he a p
    have u : axisDist p ≤ (1 + 7 * ε) ^ k * |r| := by linarith [(abs_le.1 hp).2]
    have v := abs_sub_le (axisDist (turnPt L a p)) (axisDist p) (|r|)
    have := mul_le_mul_of_nonneg_left u (show 0 ≤ 7 * ε by positivity)
    rw [pow_succ]
    nlinarith

private theorem zip_rev {α β γ : Type} {f : α → β → γ} {ss : List α} {rs : List β} (hl : rs.length = ss.length) {i : Nat} {s : α} {r : β} (h1 : ss[i]? = some s)
    (h2 : rs[i]? = some r) : (List.zipWith f ss rs).reverse[ss.length - 1 - i]? = some (f s r) := by
  have hi := (List.getElem?_eq_some_iff.1 h1).1
  have hlen : (List.zipWith f ss rs).length = ss.length := by simp [hl]
  rw [List.getElem?_reverse (by omega), hlen, show ss.length - 1 - (ss.length - 1 - i) = i by omega, List.getElem?_zipWith, h1, h2]

/-- **C96** Whatever sections were placed, each computed point of a section is on the cylinder of its radius `r`, up to `7 ε r`; and after
`n` turns about the axis up to `((1 + 7ε)^(n+1) - 1) r`. -/
theorem C96_on_cylinder (h : Accurate L ε) (he : ε ≤ 1 / 1000) (ss : List Profile) (rs : Arr) (hl : rs.length = ss.length) (up down : Face)
    (hc : cylindrical L ss rs = .ok (up, down)) (as : List ℝ) (i : Nat) (r : ℝ) (hr : rs[i]? = some r) (l : List Pt3)
    (hF : (turn L as up)[rs.length - 1 - i]? = some l ∨ (turn L as down)[rs.length - 1 - i]? = some l) :
    ∀ p ∈ l, |axisDist p - (|r|)| ≤ ((1 + 7 * ε) ^ (as.length + 1) - 1) * |r| := by
  obtain ⟨_, _, _, rfl, rfl⟩ := (cylindrical_ok hl).1 hc
  have hi : i < ss.length := by rw [← hl]; exact (List.getElem?_eq_some_iff.1 hr).1
  have hs := List.getElem?_eq_getElem hi
  intro p hp
  have key : ∀ q : Pt, |axisDist (as.foldl (fun p a => turnPt L a p) (wrapPt L r q)) - (|r|)| ≤ ((1 + 7 * ε) ^ (as.length + 1) - 1) * |r| := by
    intro q
    rw [add_comm as.length 1]
    apply turns_axis h he
    have := wrap_axis h he r q
    have : 0 ≤ ε * |r| := mul_nonneg (eps_nonneg h) (abs_nonneg r)
    linarith
  rw [hl, turn_eq, turn_eq, mapPts, mapPts, List.getElem?_map, List.getElem?_map, zip_rev hl hs hr, zip_rev hl hs hr] at hF
  simp only [Option.map_some, Option.some.injEq] at hF
  rcases hF with rfl | rfl
  · simp only [List.map_map, List.mem_map] at hp
    obtain ⟨q, _, rfl⟩ := hp
    exact key q
  · simp only [List.map_map, List.mem_map] at hp
    obtain ⟨q, _, rfl⟩ := hp
    exact key q

/-! ### Edges -/

private theorem placeSection_maps (h : Rounds L.fl ε) {refl : Bool} {r c p k s : ℝ} {P Q : Profile} (hP : P.Uniform) (hQ : placeSection L refl r c p k s P = .ok Q) :
    ∃ g : Pt → Pt, Q.Uniform ∧ Q.upper = P.upper.map g ∧ Q.lower = P.lower.map g ∧ ∀ q, L.fl (g q).1 = (g q).1 := by
  rcases h1 : referencePoint L.toMachine P with e | ref
  · unfold placeSection at hQ; rw [h1] at hQ; cases hQ
  rcases h2 : pitchAngle L p r with e | a
  · unfold placeSection at hQ; rw [h1, h2] at hQ; cases hQ
  have h3 : inducedRake L p r s = .ok (L.fl (L.fl (r * L.radians s) * L.tan a)) := by
    unfold inducedRake; rw [h2]; rfl
  obtain ⟨Q', hQ', U, a1, a2⟩ := placeSection_ok refl (c := c) (k := k) hP h1 h2 h3
  obtain rfl := Except.ok.inj (hQ.symm.trans hQ')
  exact ⟨_, U, a1, a2, fun q => h.twice _⟩

private theorem placeAt_ok {refl : Bool} {b : Blade} {i : Nat} {P : Profile} {r c p k s : ℝ} (h1 : b.sections[i]? = some P) (h2 : b.radii[i]? = some r)
    (h3 : b.chord[i]? = some c) (h4 : b.pitch[i]? = some p) (h5 : b.rake[i]? = some k) (h6 : b.skew[i]? = some s) :
    placeAt L refl b i = placeSection L refl r c p k s P := by
  unfold placeAt
  rw [Blade.getIdx_ok.2 h1, Blade.getIdx_ok.2 h2, Blade.getIdx_ok.2 h3, Blade.getIdx_ok.2 h4, Blade.getIdx_ok.2 h5, Blade.getIdx_ok.2 h6]
  rfl

private theorem look {b : Blade} (hW : b.WellFormed) {i : Nat} (hi : i < b.sections.length) :
    ∃ P r c p k s, b.sections[i]? = some P ∧ b.radii[i]? = some r ∧ b.chord[i]? = some c ∧ b.pitch[i]? = some p ∧ b.rake[i]? = some k ∧ b.skew[i]? = some s := by
  obtain ⟨wr, wc, wp, wk, ws⟩ := hW
  exact ⟨_, _, _, _, _, _, List.getElem?_eq_getElem hi, List.getElem?_eq_getElem (by omega), List.getElem?_eq_getElem (by omega),
    List.getElem?_eq_getElem (by omega), List.getElem?_eq_getElem (by omega), List.getElem?_eq_getElem (by omega)⟩

/-- The computed coordinates, section by section. -/
private theorem generate_ok {refl : Bool} {b : Blade} (hW : b.WellFormed) {up down : Face} :
    generate L refl b = .ok (up, down) ↔ ∃ ss : List Profile, ss.length = b.sections.length ∧ (∀ (i : Nat) (Q : Profile), ss[i]? = some Q → placeAt L refl b i = .ok Q) ∧
      cylindrical L ss b.radii = .ok (up, down) := by
  unfold generate
  simp only [Profile.bndA, Blade.mapM_ok, List.length_range]
  constructor
  · rintro ⟨ss, ⟨h1, h2⟩, h3⟩
    refine ⟨ss, h1, fun i Q hQ => h2 i i Q ?_ hQ, h3⟩
    have := (List.getElem?_eq_some_iff.1 hQ).1
    rw [List.getElem?_range (by omega)]
  · rintro ⟨ss, h1, h2, h3⟩
    refine ⟨ss, ⟨h1, fun i a Q ha hQ => ?_⟩, h3⟩
    have hlt := (List.getElem?_eq_some_iff.1 hQ).1
    rw [List.getElem?_range (by omega)] at ha
    obtain rfl := Option.some.inj ha
    exact h2 _ _ hQ

/-- **C96** Where the two surfaces of a given section meet exactly at the edges, the computed surfaces of the blade meet exactly
along the leading and the trailing edge, also after turning. -/
theorem C96_closed (h : Accurate L ε) (b : Blade) (refl : Bool) (hW : b.WellFormed) (up down : Face) (hg : generate L refl b = .ok (up, down))
    (as : List ℝ) (i : Nat) (P : Profile) (hi : b.sections[i]? = some P) (hU : P.Uniform) (e₀ e₁ : Pt) (hE : P.Ends e₀ e₁ e₀ e₁) :
    ∃ lu ld q₀ q₁, (turn L as up)[b.sections.length - 1 - i]? = some lu ∧ (turn L as down)[b.sections.length - 1 - i]? = some ld ∧
      lu.head? = some q₀ ∧ ld.head? = some q₀ ∧ lu.getLast? = some q₁ ∧ ld.getLast? = some q₁ := by
  obtain ⟨ss, hl, hpl, hc⟩ := (generate_ok hW).1 hg
  have hlr : b.radii.length = ss.length := by rw [hl, hW.1]
  obtain ⟨_, _, _, rfl, rfl⟩ := (cylindrical_ok hlr).1 hc
  have hlt := (List.getElem?_eq_some_iff.1 hi).1
  obtain ⟨P', r, c, p, k, s, k1, k2, k3, k4, k5, k6⟩ := look hW hlt
  rw [hi] at k1
  obtain rfl := Option.some.inj k1
  have hs : ss[i]? = some ss[i] := List.getElem?_eq_getElem (by omega)
  have := hpl i _ hs
  rw [placeAt_ok hi k2 k3 k4 k5 k6] at this
  obtain ⟨g, _, a1, a2, _⟩ := placeSection_maps h.sound.rounds hU this
  obtain ⟨E1, E2, E3, E4⟩ := hE.map g a1 a2
  set T : Pt3 → Pt3 := fun p => as.foldl (fun p a => turnPt L a p) p
  refine ⟨(ss[i].upper.map (wrapPt L r)).map T, (ss[i].lower.map (wrapPt L r)).map T, T (wrapPt L r (g e₀)), T (wrapPt L r (g e₁)), ?_, ?_, ?_, ?_, ?_, ?_⟩
  · rw [← hl, turn_eq, mapPts, List.getElem?_map, zip_rev hlr hs k2]; rfl
  · rw [← hl, turn_eq, mapPts, List.getElem?_map, zip_rev hlr hs k2]; rfl
  · rw [List.map_map, List.head?_map, E1]; rfl
  · rw [List.map_map, List.head?_map, E3]; rfl
  · rw [List.map_map, List.getLast?_map, E2]; rfl
  · rw [List.map_map, List.getLast?_map, E4]; rfl

/-! ### Accuracy -/

private theorem forall₂_map {α β γ : Type} {R : β → γ → Prop} {f : α → β} {g : α → γ} {l : List α} (h : ∀ a ∈ l, R (f a) (g a)) : List.Forall₂ R (l.map f) (l.map g) := by
  rw [List.forall₂_map_left_iff, List.forall₂_map_right_iff]
  exact List.forall₂_same.2 h

/-- The section with its computed and its exact coordinates. -/
private theorem both (h : Accurate L ε) (he : ε ≤ 1 / 1000) (b b' : Blade) (refl : Bool) (hW : b.WellFormed) (ht : b.thickness = none) (hf : b.camber = none)
    (hU : ∀ P ∈ b.sections, P.Uniform) (hx : b.applyTransformations refl = (b', .ok ())) (A : ℝ)
    (hA : ∀ P ∈ b.sections, ∀ q ∈ P.points, |q.1| ≤ A ∧ |q.2| ≤ A)
    (hp : ∀ (i : Nat) (p r : ℝ), b.pitch[i]? = some p → b.radii[i]? = some r → 16 * ε * |p / (2 * Real.pi * r)| ≤ 1) :
    ∃ up down, generate L refl b = .ok (up, down) ∧ ∀ (i : Nat) (P : Profile) (r c p k s : ℝ), b.sections[i]? = some P → b.radii[i]? = some r →
      b.chord[i]? = some c → b.pitch[i]? = some p → b.rake[i]? = some k → b.skew[i]? = some s → ∃ g G : Pt → Pt,
        up[b.sections.length - 1 - i]? = some (P.upper.map fun q => wrapPt L r (g q)) ∧ down[b.sections.length - 1 - i]? = some (P.lower.map fun q => wrapPt L r (g q)) ∧
        b'.coordsUp[b.sections.length - 1 - i]? = some (P.upper.map fun q => wrap r (G q)) ∧ b'.coordsDown[b.sections.length - 1 - i]? = some (P.lower.map fun q => wrap r (G q)) ∧
        (∀ q, L.fl (g q).1 = (g q).1) ∧ ∀ q ∈ P.points, Within (ε * size A r c p k s) (wrapPt L r (g q)) (wrap r (G q)) := by
  obtain ⟨l1, _, hpl⟩ := C46_placed b b' refl hW ht hf hU hx
  obtain ⟨_, _, hcyl⟩ := C48_reversed b b' refl hW hx
  obtain ⟨_, _, _, hlen⟩ := (C46_defined b refl hW ht hf hU).1 ⟨b', hx⟩
  have hne : b.sections ≠ [] := ((C46_defined b refl hW ht hf hU).1 ⟨b', hx⟩).1
  have sec : ∀ i, i < b.sections.length → ∃ (Q : Profile) (g : Pt → Pt), ∀ (P : Profile) (r c p k s : ℝ), b.sections[i]? = some P → b.radii[i]? = some r →
      b.chord[i]? = some c → b.pitch[i]? = some p → b.rake[i]? = some k → b.skew[i]? = some s → ∃ ref, P.referencePoint = .ok ref ∧ r ≠ 0 ∧
        placeAt L refl b i = .ok Q ∧ Q.Uniform ∧ Q.upper = P.upper.map g ∧ Q.lower = P.lower.map g ∧ (∀ q, L.fl (g q).1 = (g q).1) ∧
        ∀ q ∈ P.points, Within (ε * size A r c p k s) (wrapPt L r (g q)) (wrap r (placed refl r c p k s ref q)) := by
    intro i hi
    obtain ⟨P, r, c, p, k, s, k1, k2, k3, k4, k5, k6⟩ := look hW hi
    obtain ⟨ref, _, e1, e2, _⟩ := hpl i P r c p k s k1 k2 k3 k4 k5 k6
    obtain ⟨Q, g, a1, a2, a3, a4, a5, a6⟩ := point_near h he refl (c := c) (k := k) (s := s) e2 (hU P (List.mem_of_getElem? k1)) e1 (hA P (List.mem_of_getElem? k1)) (hp i p r k4 k2)
    refine ⟨Q, g, fun P' r' c' p' k' s' j1 j2 j3 j4 j5 j6 => ?_⟩
    obtain rfl := Option.some.inj (k1.symm.trans j1)
    obtain rfl := Option.some.inj (k2.symm.trans j2)
    obtain rfl := Option.some.inj (k3.symm.trans j3)
    obtain rfl := Option.some.inj (k4.symm.trans j4)
    obtain rfl := Option.some.inj (k5.symm.trans j5)
    obtain rfl := Option.some.inj (k6.symm.trans j6)
    exact ⟨ref, e1, e2, by rw [placeAt_ok k1 k2 k3 k4 k5 k6]; exact a1, a2, a3, a4, a5, a6⟩
  haveI : Nonempty Profile := ⟨b.sections.head hne⟩
  choose! Q g hQg using sec
  set ss := (List.range b.sections.length).map Q with hss
  have hsl : ss.length = b.sections.length := by simp [hss]
  have hsi : ∀ {i : Nat}, i < b.sections.length → ss[i]? = some (Q i) := by
    intro i hi
    rw [hss, List.getElem?_map, List.getElem?_range hi]; rfl
  have hlr : b.radii.length = ss.length := by rw [hsl, hW.1]
  have lens : ∀ T ∈ ss, ∃ P ∈ b.sections, T.Uniform ∧ T.upper.length = P.upper.length ∧ T.lower.length = P.lower.length := by
    intro T hT
    obtain ⟨i, hi, rfl⟩ := List.mem_map.1 hT
    have hi' := List.mem_range.1 hi
    obtain ⟨P, r, c, p, k, s, k1, k2, k3, k4, k5, k6⟩ := look hW hi'
    obtain ⟨_, _, _, _, a2, a3, a4, _⟩ := hQg i hi' P r c p k s k1 k2 k3 k4 k5 k6
    exact ⟨P, List.mem_of_getElem? k1, a2, by rw [a3]; simp, by rw [a4]; simp⟩
  have hcy := (cylindrical_ok (L := L) (up := (List.zipWith (fun P r => (Profile.upper P).map (wrapPt L r)) ss b.radii).reverse)
    (down := (List.zipWith (fun P r => (Profile.lower P).map (wrapPt L r)) ss b.radii).reverse) hlr).2 ⟨by
      intro e
      rw [e] at hsl
      exact hne (List.length_eq_zero_iff.1 hsl.symm), by
      intro i T r hT hr
      have hi : i < b.sections.length := by rw [← hW.1]; exact (List.getElem?_eq_some_iff.1 hr).1
      obtain ⟨P, r', c, p, k, s, k1, k2, k3, k4, k5, k6⟩ := look hW hi
      obtain rfl := Option.some.inj (k2.symm.trans hr)
      obtain ⟨_, _, e2, _, a2, _⟩ := hQg i hi P r' c p k s k1 k2 k3 k4 k5 k6
      rw [hsi hi] at hT
      obtain rfl := Option.some.inj hT
      exact ⟨e2, a2.1, a2.2.2⟩, by
      intro T hT T' hT'
      obtain ⟨P, hP, u1, u2, u3⟩ := lens T hT
      obtain ⟨P', hP', v1, v2, v3⟩ := lens T' hT'
      have same : ∀ R : Profile, R.Uniform → R.lower.length = R.upper.length := by
        intro R hR
        simp only [Profile.lower, Profile.upper, List.length_zip, ← hR.1, ← hR.2.2, hR.2.1, min_self]
      rw [same T u1, same T' v1, u2, v2, hlen P hP P' hP']
      exact ⟨rfl, rfl⟩, rfl, rfl⟩
  refine ⟨_, _, (generate_ok hW).2 ⟨ss, hsl, ?_, hcy⟩, ?_⟩
  · intro i T hT
    have hi : i < b.sections.length := by rw [← hsl]; exact (List.getElem?_eq_some_iff.1 hT).1
    obtain ⟨P, r, c, p, k, s, k1, k2, k3, k4, k5, k6⟩ := look hW hi
    rw [hsi hi] at hT
    obtain rfl := Option.some.inj hT
    exact (hQg i hi P r c p k s k1 k2 k3 k4 k5 k6).choose_spec.2.2.1
  · intro i P r c p k s k1 k2 k3 k4 k5 k6
    have hi := (List.getElem?_eq_some_iff.1 k1).1
    obtain ⟨ref, e1, e2, a1, a2, a3, a4, a5, a6⟩ := hQg i hi P r c p k s k1 k2 k3 k4 k5 k6
    obtain ⟨ref', R, f1, _, f3, f4, f5, _⟩ := hpl i P r c p k s k1 k2 k3 k4 k5 k6
    obtain rfl := Except.ok.inj (e1.symm.trans f1)
    obtain ⟨c1, c2, _⟩ := hcyl i R r f3 k2
    refine ⟨g i, placed refl r c p k s ref, ?_, ?_, ?_, ?_, a5, a6⟩
    · rw [← hsl, zip_rev hlr (hsi hi) k2, a3, List.map_map]; rfl
    · rw [← hsl, zip_rev hlr (hsi hi) k2, a4, List.map_map]; rfl
    · rw [c1, f4, List.map_map]; rfl
    · rw [c2, f5, List.map_map]; rfl

/-- **C96** Accuracy of `apply_transformations`: if it succeeds in exact arithmetic it succeeds in rounded arithmetic, and every computed coordinate
of a section of radius `r`, chord `c`, pitch `p`, rake `k` and skew `s` is within `ε size` of the exact one, provided the pitch angle is
not within about `16 ε` of a right angle. -/
theorem C96_accuracy (h : Accurate L ε) (he : ε ≤ 1 / 1000) (b b' : Blade) (refl : Bool) (hW : b.WellFormed) (ht : b.thickness = none) (hf : b.camber = none)
    (hU : ∀ P ∈ b.sections, P.Uniform) (hx : b.applyTransformations refl = (b', .ok ())) (A : ℝ)
    (hA : ∀ P ∈ b.sections, ∀ q ∈ P.points, |q.1| ≤ A ∧ |q.2| ≤ A)
    (hp : ∀ (i : Nat) (p r : ℝ), b.pitch[i]? = some p → b.radii[i]? = some r → 16 * ε * |p / (2 * Real.pi * r)| ≤ 1) :
    ∃ up down, generate L refl b = .ok (up, down) ∧ ∀ (i : Nat) (r c p k s : ℝ), b.radii[i]? = some r → b.chord[i]? = some c →
      b.pitch[i]? = some p → b.rake[i]? = some k → b.skew[i]? = some s →
      ∃ lu ld eu ed, up[b.sections.length - 1 - i]? = some lu ∧ down[b.sections.length - 1 - i]? = some ld ∧
        b'.coordsUp[b.sections.length - 1 - i]? = some eu ∧ b'.coordsDown[b.sections.length - 1 - i]? = some ed ∧
        List.Forall₂ (Within (ε * size A r c p k s)) lu eu ∧ List.Forall₂ (Within (ε * size A r c p k s)) ld ed := by
  obtain ⟨up, down, hg, hall⟩ := both h he b b' refl hW ht hf hU hx A hA hp
  refine ⟨up, down, hg, ?_⟩
  intro i r c p k s k2 k3 k4 k5 k6
  obtain ⟨P, _, _, _, _, _, k1, _⟩ := look hW (show i < b.sections.length by rw [← hW.1]; exact (List.getElem?_eq_some_iff.1 k2).1)
  obtain ⟨g, G, a1, a2, a3, a4, _, a6⟩ := hall i P r c p k s k1 k2 k3 k4 k5 k6
  exact ⟨_, _, _, _, a1, a2, a3, a4, forall₂_map fun q hq => a6 q (List.mem_append_left _ hq), forall₂_map fun q hq => a6 q (List.mem_append_right _ hq)⟩

private theorem bladeAngle_near (h : Accurate L ε) (he : ε ≤ 1 / 1000) {n m : Nat} (hm : m < n) :
    |bladeAngle L n m - 2 * Real.pi * m / n| ≤ ε * 26 := by
  have h0 := eps_nonneg h
  have R := h.sound.rounds
  have hn : (0 : ℝ) < n := by exact_mod_cast (by omega : 0 < n)
  have hp := Real.pi_pos
  have m0 : (0 : ℝ) ≤ m := Nat.cast_nonneg m
  have e1 : |L.fl ((m : ℝ) * 2) - m * 2| ≤ ε * (m * 2) := rnd0 R (abs_of_nonneg (by positivity)).le
  have e2 := prd h0 he e1 (abs_of_nonneg (by positivity)).le h.circle (abs_of_pos hp).le (by positivity)
  have e3 := rnd R he e2 (b := m * 2 * Real.pi) (abs_of_nonneg (by positivity)).le
  have q0 : 0 ≤ (m : ℝ) * 2 * Real.pi := by positivity
  have e4 : |L.fl (L.fl ((m : ℝ) * 2) * L.pi) - m * 2 * Real.pi| ≤ ε * (3.01 * (m * 2 * Real.pi)) :=
    e3.trans (mul_le_mul_of_nonneg_left (by nlinarith) h0)
  have e5 : |L.fl (L.fl ((m : ℝ) * 2) * L.pi) / n - m * 2 * Real.pi / n| ≤ ε * (3.01 * (m * 2 * Real.pi / n)) := by
    rw [← sub_div, abs_div, abs_of_pos hn, div_le_iff₀ hn]
    refine e4.trans (le_of_eq ?_)
    field_simp
  have e6 := rnd R he e5 (b := m * 2 * Real.pi / n) (abs_of_nonneg (by positivity)).le
  have e7 : (m : ℝ) * 2 * Real.pi / n ≤ 6.3 := by
    rw [div_le_iff₀ hn]
    have : (m : ℝ) ≤ n := by exact_mod_cast hm.le
    nlinarith [pi_le]
  rw [show 2 * Real.pi * m / n = m * 2 * Real.pi / n by ring]
  exact e6.trans (mul_le_mul_of_nonneg_left (by nlinarith) h0)

/-- **C96** Accuracy of the propeller: the coordinates of blade `m` of `n` blades are within `ε (2 size + 33 |r|)` of those of the exact
blade turned by the `m`-th part of the full circle. -/
theorem C96_propeller (h : Accurate L ε) (he : ε ≤ 1 / 1000) (b b' : Blade) (refl : Bool) (hW : b.WellFormed) (ht : b.thickness = none) (hf : b.camber = none)
    (hU : ∀ P ∈ b.sections, P.Uniform) (hx : b.applyTransformations refl = (b', .ok ())) (A : ℝ)
    (hA : ∀ P ∈ b.sections, ∀ q ∈ P.points, |q.1| ≤ A ∧ |q.2| ≤ A)
    (hp : ∀ (i : Nat) (p r : ℝ), b.pitch[i]? = some p → b.radii[i]? = some r → 16 * ε * |p / (2 * Real.pi * r)| ≤ 1) (n m : Nat) (hm : m < n) :
    ∃ up down, generate L refl b = .ok (up, down) ∧ ∀ (i : Nat) (r c p k s : ℝ), b.radii[i]? = some r → b.chord[i]? = some c →
      b.pitch[i]? = some p → b.rake[i]? = some k → b.skew[i]? = some s →
      ∃ lu ld eu ed, (turn L [bladeAngle L n m] up)[b.sections.length - 1 - i]? = some lu ∧ (turn L [bladeAngle L n m] down)[b.sections.length - 1 - i]? = some ld ∧
        b'.coordsUp[b.sections.length - 1 - i]? = some eu ∧ b'.coordsDown[b.sections.length - 1 - i]? = some ed ∧
        List.Forall₂ (Within (ε * (2 * size A r c p k s + 33 * |r|))) lu (eu.map (rotX (2 * Real.pi * m / n))) ∧
        List.Forall₂ (Within (ε * (2 * size A r c p k s + 33 * |r|))) ld (ed.map (rotX (2 * Real.pi * m / n))) := by
  obtain ⟨up, down, hg, hall⟩ := both h he b b' refl hW ht hf hU hx A hA hp
  refine ⟨up, down, hg, ?_⟩
  intro i r c p k s k2 k3 k4 k5 k6
  obtain ⟨P, _, _, _, _, _, k1, _⟩ := look hW (show i < b.sections.length by rw [← hW.1]; exact (List.getElem?_eq_some_iff.1 k2).1)
  obtain ⟨g, G, a1, a2, a3, a4, a5, a6⟩ := hall i P r c p k s k1 k2 k3 k4 k5 k6
  have h0 := eps_nonneg h
  have key : ∀ q ∈ P.points, Within (ε * (2 * size A r c p k s + 33 * |r|)) (turnPt L (bladeAngle L n m) (wrapPt L r (g q))) (rotX (2 * Real.pi * m / n) (wrap r (G q))) := by
    intro q hq
    obtain ⟨w1, w2, w3⟩ := a6 q hq
    have s0 : 0 ≤ ε * size A r c p k s := (abs_nonneg _).trans w1
    have hr0 := abs_nonneg r
    have er : 0 ≤ ε * |r| := by positivity
    have hα := bladeAngle_near h he hm
    set α := bladeAngle L n m
    set β := 2 * Real.pi * m / n
    set X := wrapPt L r (g q) with hX
    set Y := wrap r (G q)
    have ax := wrap_axis h he r (g q)
    rw [← hX, axisDist_eq] at ax
    have ρ : dist2 X.2 (0, 0) ≤ 1.003 * |r| := by
      have := (abs_le.1 ax).2
      nlinarith
    have d := dist2_le s0 w2 w3
    have n1 := rotPt_near h.sound α X.2
    have n2 := rot_angle α β X.2
    have n3 := dist2_rot β X.2 Y.2
    have t1 : unit ε ε * dist2 X.2 (0, 0) ≤ ε * 6.01 * (1.003 * |r|) := mul_le_mul (unit_le h0 he) ρ (dist2_nonneg _ _) (by positivity)
    have t2 : |α - β| * dist2 X.2 (0, 0) ≤ ε * 26 * (1.003 * |r|) := mul_le_mul hα ρ (dist2_nonneg _ _) (by positivity)
    have t3 := dist2_triangle (rotPt L.toMachine (L.cos α) (L.sin α) X.2) (rot α X.2) (rot β Y.2)
    have t4 := dist2_triangle (rot α X.2) (rot β X.2) (rot β Y.2)
    have total : dist2 (turnPt L α X).2 (rotX β Y).2 ≤ ε * (2 * size A r c p k s + 33 * |r|) := by
      have e : dist2 (turnPt L α X).2 (rotX β Y).2 = dist2 (rotPt L.toMachine (L.cos α) (L.sin α) X.2) (rot β Y.2) := rfl
      rw [e]
      linarith
    refine ⟨?_, (abs_fst_le _ _).trans total, (abs_snd_le _ _).trans total⟩
    have e : (turnPt L α X).1 = X.1 := a5 q
    rw [e]
    refine w1.trans ?_
    linarith
  refine ⟨_, _, _, _, by rw [turn_eq, mapPts, List.getElem?_map, a1]; rfl, by rw [turn_eq, mapPts, List.getElem?_map, a2]; rfl, a3, a4, ?_, ?_⟩
  · simp only [List.map_map]
    exact forall₂_map fun q hq => key q (List.mem_append_left _ hq)
  · simp only [List.map_map]
    exact forall₂_map fun q hq => key q (List.mem_append_right _ hq)

/-- **C96** In double precision (every operation and library function good to `2^-52`), for chord, arc of the skew, rake and radius of
at most `D` with sections in the unit square and a pitch line not steeper than `10 : 1`, every coordinate of every blade of the propeller
is within `10^-12 D` of its exact place. -/
theorem C96_double (h : Accurate L ε) (he : ε ≤ (1 / 2) ^ 52) (b b' : Blade) (refl : Bool) (hW : b.WellFormed) (ht : b.thickness = none) (hf : b.camber = none)
    (hU : ∀ P ∈ b.sections, P.Uniform) (hx : b.applyTransformations refl = (b', .ok ())) (hA : ∀ P ∈ b.sections, ∀ q ∈ P.points, |q.1| ≤ 1 ∧ |q.2| ≤ 1)
    (D : ℝ) (hD : ∀ (i : Nat) (r c p k s : ℝ), b.radii[i]? = some r → b.chord[i]? = some c → b.pitch[i]? = some p → b.rake[i]? = some k → b.skew[i]? = some s →
      |r| ≤ D ∧ |c| ≤ D ∧ |k| ≤ D ∧ |r * (Real.pi * s / 180)| ≤ D ∧ |p / (2 * Real.pi * r)| ≤ 10) (n m : Nat) (hm : m < n) :
    ∃ up down, generate L refl b = .ok (up, down) ∧ ∀ i, i < b.sections.length →
      ∃ lu ld eu ed, (turn L [bladeAngle L n m] up)[b.sections.length - 1 - i]? = some lu ∧ (turn L [bladeAngle L n m] down)[b.sections.length - 1 - i]? = some ld ∧
        b'.coordsUp[b.sections.length - 1 - i]? = some eu ∧ b'.coordsDown[b.sections.length - 1 - i]? = some ed ∧
        List.Forall₂ (Within (10⁻¹ ^ 12 * D)) lu (eu.map (rotX (2 * Real.pi * m / n))) ∧
        List.Forall₂ (Within (10⁻¹ ^ 12 * D)) ld (ed.map (rotX (2 * Real.pi * m / n))) := by
  have h0 := eps_nonneg h
  have he' : ε ≤ 1 / 1000 := he.trans (by norm_num)
  obtain ⟨up, down, hg, hall⟩ := C96_propeller h he' b b' refl hW ht hf hU hx 1 hA (by
    intro i p r k4 k2
    obtain ⟨_, _, c, _, k, s, _, _, k3, _, k5, k6⟩ := look hW (show i < b.sections.length by rw [← hW.1]; exact (List.getElem?_eq_some_iff.1 k2).1)
    obtain ⟨_, _, _, _, d5⟩ := hD i r c p k s k2 k3 k4 k5 k6
    have : ε * |p / (2 * Real.pi * r)| ≤ (1 / 1000) * 10 := mul_le_mul he' d5 (abs_nonneg _) (by norm_num)
    have e52 : (1 / 2 : ℝ) ^ 52 ≤ 1 / 1000000 := by norm_num
    have : ε * |p / (2 * Real.pi * r)| ≤ (1 / 1000000) * 10 := mul_le_mul (he.trans e52) d5 (abs_nonneg _) (by norm_num)
    linarith) n m hm
  refine ⟨up, down, hg, ?_⟩
  intro i hi
  obtain ⟨P, r, c, p, k, s, k1, k2, k3, k4, k5, k6⟩ := look hW hi
  obtain ⟨d1, d2, d3, d4, d5⟩ := hD i r c p k s k2 k3 k4 k5 k6
  obtain ⟨lu, ld, eu, ed, b1, b2, b3, b4, b5, b6⟩ := hall i r c p k s k2 k3 k4 k5 k6
  have D0 : 0 ≤ D := (abs_nonneg _).trans d1
  have le : ε * (2 * size 1 r c p k s + 33 * |r|) ≤ 10⁻¹ ^ 12 * D := by
    have x2 : 1 + (p / (2 * Real.pi * r)) ^ 2 ≤ 101 := by
      rw [← sq_abs]
      have := pow_le_pow_left₀ (abs_nonneg _) d5 2
      norm_num at this ⊢
      linarith
    have sx : |r * (Real.pi * s / 180)| * (1 + (p / (2 * Real.pi * r)) ^ 2) ≤ D * 101 := mul_le_mul d4 x2 (by positivity) D0
    have tot : 2 * size 1 r c p k s + 33 * |r| ≤ 2500 * D := by
      unfold size
      linarith
    calc _ ≤ ε * (2500 * D) := mul_le_mul_of_nonneg_left tot h0
      _ ≤ (1 / 2) ^ 52 * (2500 * D) := mul_le_mul_of_nonneg_right he (by positivity)
      _ ≤ _ := by nlinarith
  have w : ∀ x y, Within (ε * (2 * size 1 r c p k s + 33 * |r|)) x y → Within (10⁻¹ ^ 12 * D) x y :=
    fun x y hxy => ⟨hxy.1.trans le, hxy.2.1.trans le, hxy.2.2.trans le⟩
  exact ⟨lu, ld, eu, ed, b1, b2, b3, b4, b5.imp w, b6.imp w⟩

/-! ### A machine -/

/-- Truncating arithmetic with `p` binary digits, library functions truncated too. -/
noncomputable def chopLib (p : ℕ) : Library :=
  { fl := Chop.chop p, dot := fun a x b y => Chop.chop p (Chop.chop p (a * x) + Chop.chop p (b * y)), cos := fun a => Chop.chop p (Real.cos a),
    sin := fun a => Chop.chop p (Real.sin a), arctan := fun x => Chop.chop p (Real.arctan x), tan := fun a => Chop.chop p (Real.tan a),
    radians := fun d => Chop.chop p (Real.pi * d / 180), pi := Chop.chop p Real.pi }

theorem chopLib_accurate (p : ℕ) (hp : 2 ≤ p) : Accurate (chopLib p) ((1 / 2) ^ (p - 2)) := by
  have e : (1 / 2 : ℝ) ^ (p - 2) = 2 * (1 / 2) ^ (p - 1) := by
    rw [show p - 1 = (p - 2) + 1 by omega, pow_succ]; ring
  have hs := chop_sound p (by omega)
  set u : ℝ := (1 / 2) ^ (p - 1)
  have hu : 0 ≤ u := by positivity
  have R := Chop.rounds (p := p) (by omega)
  have up : ∀ x : ℝ, |Chop.chop p x - x| ≤ 2 * u * |x| := fun x => (R.near x).trans (by nlinarith [mul_nonneg hu (abs_nonneg x)])
  rw [e]
  refine ⟨⟨⟨R.mono, R.odd, R.twice, up⟩, hs.dots, fun a => (hs.cosine a).trans (by linarith), fun a => (hs.sine a).trans (by linarith)⟩, ?_,
    fun a => up _, fun d => up _, ?_⟩
  · intro x
    refine (R.near _).trans ?_
    have : |Real.arctan x| ≤ 2 := by
      have h1 := Real.neg_pi_div_two_lt_arctan x
      have h2 := Real.arctan_lt_pi_div_two x
      rw [abs_le]
      constructor <;> linarith [pi_le]
    nlinarith
  · have := up Real.pi
    rwa [abs_of_pos (a := Real.pi) Real.pi_pos] at this

private theorem foil_square : ∀ P ∈ Sample.blade2.sections, ∀ q ∈ P.points, |q.1| ≤ 1 ∧ |q.2| ≤ 1 := by
  intro P hP q hq
  obtain rfl : P = Sample.foil := by simpa [Sample.blade2] using hP
  simp [Sample.foil, Profile.points, Profile.upper, Profile.lower] at hq
  rcases hq with rfl | rfl | rfl | rfl | rfl | rfl | rfl | rfl <;> norm_num [abs_le]

private theorem steep {p r : ℝ} (h : (p = 2 ∧ r = 1) ∨ (p = 4 ∧ r = 2)) : |p / (2 * Real.pi * r)| ≤ 1 := by
  have := Real.pi_gt_three
  rcases h with ⟨rfl, rfl⟩ | ⟨rfl, rfl⟩ <;> rw [abs_of_pos (by positivity), div_le_one (by positivity)] <;> linarith

/-- Two sections, three blades, double precision: the coordinates of the last blade are computed and good to `4e-12`. -/
example : ∃ (L : Library) (b' : Blade), Sample.blade2.applyTransformations true = (b', .ok ()) ∧
    ∃ up down, generate L true Sample.blade2 = .ok (up, down) ∧ ∀ i, i < 2 → ∃ lu ld eu ed,
      (turn L [bladeAngle L 3 2] up)[2 - 1 - i]? = some lu ∧ (turn L [bladeAngle L 3 2] down)[2 - 1 - i]? = some ld ∧
      b'.coordsUp[2 - 1 - i]? = some eu ∧ b'.coordsDown[2 - 1 - i]? = some ed ∧
      List.Forall₂ (Within (10⁻¹ ^ 12 * 4)) lu (eu.map (rotX (2 * Real.pi * (2 : ℕ) / (3 : ℕ)))) ∧
      List.Forall₂ (Within (10⁻¹ ^ 12 * 4)) ld (ed.map (rotX (2 * Real.pi * (2 : ℕ) / (3 : ℕ)))) := by
  obtain ⟨b', hb⟩ := Sample.blade2_applies true
  refine ⟨chopLib 54, b', hb, ?_⟩
  have := C96_double (chopLib_accurate 54 (by norm_num)) le_rfl Sample.blade2 b' true (by simp [Sample.blade2, Blade.WellFormed]) rfl rfl
    (by simp [Sample.blade2, Sample.foil_uniform]) hb foil_square 4 (by
      intro i r c p k s k2 k3 k4 k5 k6
      have pp := Real.pi_pos
      have hi : i < 2 := (List.getElem?_eq_some_iff.1 k2).1
      interval_cases i
      · simp [Sample.blade2] at k2 k3 k4 k5 k6
        subst k2 k3 k4 k5 k6
        refine ⟨by norm_num, by norm_num, by norm_num, by norm_num, (steep (.inl ⟨rfl, rfl⟩)).trans (by norm_num)⟩
      · simp [Sample.blade2] at k2 k3 k4 k5 k6
        subst k2 k3 k4 k5 k6
        refine ⟨by norm_num, by norm_num, by norm_num, ?_, (steep (.inr ⟨rfl, rfl⟩)).trans (by norm_num)⟩
        rw [abs_of_pos (by positivity)]
        linarith [pi_le]) 3 2 (by norm_num)
  exact this

/-- The hypotheses of the other statements are met by the same blade; single precision (24 digits). -/
example : ∃ (L : Library) (ε : ℝ) (up down : Face), Accurate L ε ∧ 0 < ε ∧ ε ≤ 1 / 1000 ∧ generate L false Sample.blade2 = .ok (up, down) ∧
    (∀ l, (turn L [0.3, 1.2] up)[1]? = some l → ∀ p ∈ l, |axisDist p - 1| ≤ (1 + 7 * ε) ^ 3 - 1) ∧
    ∃ lu ld q, (turn L [0.3, 1.2] up)[1]? = some lu ∧ (turn L [0.3, 1.2] down)[1]? = some ld ∧ lu.head? = some q ∧ ld.head? = some q := by
  have h := chopLib_accurate 24 (by norm_num)
  obtain ⟨b', hb⟩ := Sample.blade2_applies false
  have hW : Sample.blade2.WellFormed := by simp [Sample.blade2, Blade.WellFormed]
  obtain ⟨up, down, hg, -⟩ := C96_accuracy h (by norm_num) Sample.blade2 b' false hW rfl rfl
    (by simp [Sample.blade2, Sample.foil_uniform]) hb 1 foil_square (by
      intro i p r k4 k2
      have hi : i < 2 := (List.getElem?_eq_some_iff.1 k2).1
      have hs : |p / (2 * Real.pi * r)| ≤ 1 := by
        interval_cases i
        · simp [Sample.blade2] at k2 k4
          subst k2 k4
          exact steep (.inl ⟨rfl, rfl⟩)
        · simp [Sample.blade2] at k2 k4
          subst k2 k4
          exact steep (.inr ⟨rfl, rfl⟩)
      have := mul_le_mul_of_nonneg_left hs (show (0 : ℝ) ≤ 16 * (1 / 2) ^ (24 - 2) by positivity)
      refine this.trans ?_
      norm_num)
  refine ⟨_, _, up, down, h, by positivity, by norm_num, hg, ?_, ?_⟩
  · obtain ⟨ss, hl, _, hc⟩ := (generate_ok hW).1 hg
    intro l hl' p hp
    have := C96_on_cylinder h (by norm_num) ss Sample.blade2.radii (by rw [hl]; exact hW.1) up down hc [0.3, 1.2] 0 1 rfl l (.inl hl') p hp
    simpa using this
  · obtain ⟨lu, ld, q, _, a1, a2, a3, a4, _⟩ := C96_closed h Sample.blade2 false hW up down hg [0.3, 1.2] 0 Sample.foil rfl Sample.foil_uniform (0, 0) (1, 0)
      ⟨rfl, rfl, rfl, rfl⟩
    exact ⟨lu, ld, q, a1, a2, a3, a4⟩

end Rounded
end BladeX
