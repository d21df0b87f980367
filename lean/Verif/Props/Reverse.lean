import Verif.Lemmas.Reverse
import Verif.Props.BladeCylinder

/-! # C59 - C62: reverse engineering of sections -/

namespace BladeX
noncomputable section
open Spec Classical Reverse

/-- **C59** the normalisation of a section (its midpoint being the midpoint of the edges) succeeds whenever the edges do not lie at the same
angle and there is a camber line: the edges come to (0,0) and (1,0), the midpoint to (1/2,0), the chord length is the distance of the edges, and
every point of the section gets its coordinates in the frame of the chord. -/
theorem C59_normalised (le te : Pt) (foil camber : List Pt) (h : le.2 ≠ te.2) (hc : camber ≠ []) :
    ∃ e, extract le te (mid le te) foil camber = .ok e ∧ e.leading = (0, 0) ∧ e.trailing = (1, 0) ∧ e.mid = (1 / 2, 0) ∧
      0 < e.chord ∧ e.chord ^ 2 = (le.1 - te.1) ^ 2 + (le.2 - te.2) ^ 2 ∧ e.foil.map (chordFrame le te) = foil ∧
      Real.tan e.pitchAngle * (le.1 - te.1) = (if le.1 = te.1 then 0 else le.2 - te.2) ∧ e.skew = (mid le te).2 ∧
      e.rake + e.induced = (mid le te).1 ∧ e.induced * (le.2 - te.2) = e.skew * (le.1 - te.1) := by
  have hmid : mid le te = ((le.1 + te.1) / 2, (le.2 + te.2) / 2) := rfl
  obtain ⟨c, hce⟩ : ∃ c, setEnds (camber.map (frame le te)) = .ok c := by
    match camber, hc with
    | [p], _ => exact ⟨_, setEnds_one _⟩
    | p :: q :: l, _ =>
      obtain ⟨_, _, _, _, h⟩ := setEnds_ok (l := (p :: q :: l).map (frame le te)) (by simp)
      exact ⟨_, h⟩
  have hd : le.2 - te.2 ≠ 0 := sub_ne_zero.2 h
  refine ⟨ex le te foil c, ?_, rfl, rfl, rfl, len_pos h, len_sq le te, ?_, ?_, rfl, ?_, ?_⟩
  · rw [hmid, extract_ok h, hce]; rfl
  · simp only [ex, List.map_map]
    conv_rhs => rw [← List.map_id foil]
    apply List.map_congr_left
    intro p _
    exact chordFrame_frame h p
  · simp only [ex]
    split_ifs with h0
    · rw [h0]; ring
    · have h0' := sub_ne_zero.2 h0
      have hl := len_pos h
      have hsin : Real.sin (atan2 (le.2 - te.2) (le.1 - te.1)) = (le.2 - te.2) / len le te := sin_atan2 _ _
      have hcos : Real.cos (atan2 (le.2 - te.2) (le.1 - te.1)) = (le.1 - te.1) / len le te := cos_atan2 (Or.inr hd)
      rw [Real.tan_eq_sin_div_cos, hsin, hcos]
      field_simp
  · simp only [ex, mid]; ring
  · simp only [ex]; field_simp

/-- **C59** the camber line: its points get their coordinates in the frame of the chord, then the abscissa of the first becomes 0 and that of
the last 1 whatever they were, and all are put in the order of their abscissae. -/
theorem C59_camber (le te p q : Pt) (foil m : List Pt) (h : le.2 ≠ te.2) (e : Extracted)
    (he : extract le te (mid le te) foil (p :: (m ++ [q])) = .ok e) :
    ∃ p' q' m', chordFrame le te p' = p ∧ chordFrame le te q' = q ∧ m'.map (chordFrame le te) = m ∧
      e.camber.Perm ((0, p'.2) :: (m' ++ [(1, q'.2)])) ∧ e.camber.Pairwise fun a b => a.1 ≤ b.1 := by
  have hmid : mid le te = ((le.1 + te.1) / 2, (le.2 + te.2) / 2) := rfl
  obtain ⟨p', q', m', hl, hs⟩ := setEnds_ok (l := (p :: (m ++ [q])).map (frame le te)) (by simp)
  rw [hmid, extract_ok h, hs] at he
  obtain rfl := Except.ok.inj he
  have hl' : frame le te p = p' ∧ m.map (frame le te) ++ [frame le te q] = m' ++ [q'] := by simpa using hl
  obtain ⟨hm', hq'⟩ := List.append_inj' hl'.2 rfl
  refine ⟨p', q', m', ?_, ?_, ?_, List.mergeSort_perm _ _, sorted_lex _⟩
  · rw [← hl'.1, chordFrame_frame h]
  · rw [← (List.cons.inj hq').1, chordFrame_frame h]
  · rw [← hm', List.map_map]
    conv_rhs => rw [← List.map_id m]
    apply List.map_congr_left
    intro x _
    exact chordFrame_frame h x

/-- **C59** no section with both edges at the same angle is accepted (the division by the tangent of the pitch angle is not finite). -/
theorem C59_refused (le te mid : Pt) (foil camber : List Pt) :
    (le.2 = te.2 → extract le te mid foil camber = .error .nonFinite) ∧
    (le.2 ≠ te.2 → mid = Spec.mid le te → extract le te mid foil [] = .error .indexError) := by
  refine ⟨fun h => extract_flat h _ _ _, ?_⟩
  rintro h rfl
  have hmid : Spec.mid le te = ((le.1 + te.1) / 2, (le.2 + te.2) / 2) := rfl
  rw [hmid, extract_ok h]
  rfl

example : ∃ e, extract (2, 3) (1, -1) (3 / 2, 1) [(0, 0), (1, 1)] [(2, 3), (1, 0), (1, -1)] = .ok e ∧ e.leading = (0, 0) := by
  have : ((3 / 2, 1) : Pt) = mid (2, 3) (1, -1) := by norm_num [mid]
  rw [this]
  obtain ⟨e, h1, h2, _⟩ := C59_normalised (2, 3) (1, -1) [(0, 0), (1, 1)] [(2, 3), (1, 0), (1, -1)] (by norm_num) (by simp)
  exact ⟨e, h1, h2⟩

/-- The edges of the section lie on the cylinder at angles between -pi and pi. -/
def EdgesInRange (refl : Bool) (r c P k s : ℝ) : Prop :=
  (-Real.pi < angleOn refl r c P k s (0, 0) ∧ angleOn refl r c P k s (0, 0) ≤ Real.pi) ∧
    -Real.pi < angleOn refl r c P k s (1, 0) ∧ angleOn refl r c P k s (1, 0) ≤ Real.pi

/-- What is stored, from the images of the edges in the plane. -/
theorem stored_of_edges {R r c P k s : ℝ} {refl : Bool} (hr : 0 < r) (hc : c ≠ 0) (hR : R = 1000 * r) {le te : Pt} (δ : ℝ)
    (h : (le = (1000 * (placed refl r c P k s (1 / 2, 0) (0, 0)).1, 1000 * (placed refl r c P k s (1 / 2, 0) (0, 0)).2 + δ) ∧
          te = (1000 * (placed refl r c P k s (1 / 2, 0) (1, 0)).1, 1000 * (placed refl r c P k s (1 / 2, 0) (1, 0)).2 + δ)) ∨
         (te = (1000 * (placed refl r c P k s (1 / 2, 0) (0, 0)).1, 1000 * (placed refl r c P k s (1 / 2, 0) (0, 0)).2 + δ) ∧
          le = (1000 * (placed refl r c P k s (1 / 2, 0) (1, 0)).1, 1000 * (placed refl r c P k s (1 / 2, 0) (1, 0)).2 + δ))) :
    le.2 ≠ te.2 ∧ |2 * Real.pi * R * ((le.1 - te.1) / (le.2 - te.2))| / 1000 = |P| ∧
    (le.2 + te.2) / 2 = -(R * (Real.pi * s / 180)) + δ ∧
    -((le.1 + te.1) / 2 - ((le.2 + te.2) / 2 - δ) * ((le.1 - te.1) / (le.2 - te.2))) / 1000 = k ∧
    len le te / 1000 = |c| := by
  obtain ⟨h1, h2, h3, h4, h5⟩ := placed_edges refl P k s hr hc
  set A := placed refl r c P k s (1 / 2, 0) (0, 0)
  set B := placed refl r c P k s (1 / 2, 0) (1, 0)
  have hpi := Real.pi_pos
  have key : le.2 ≠ te.2 ∧ (le.1 - te.1) / (le.2 - te.2) = P / (2 * Real.pi * r) ∧ (le.1 + te.1) / 2 = 1000 * ((A.1 + B.1) / 2) ∧
      (le.2 + te.2) / 2 = 1000 * ((A.2 + B.2) / 2) + δ ∧ (le.1 - te.1) ^ 2 + (le.2 - te.2) ^ 2 = (1000 * c) ^ 2 := by
    rcases h with ⟨rfl, rfl⟩ | ⟨rfl, rfl⟩
    · refine ⟨?_, ?_, by simp only; ring, by simp only; ring, by simp only; linear_combination 1000 ^ 2 * h5⟩
      · simp only; intro h; apply h3; linarith
      · have e1 : 1000 * A.1 - 1000 * B.1 = P / (2 * Real.pi * r) * (1000 * A.2 + δ - (1000 * B.2 + δ)) := by linear_combination 1000 * h4
        simp only
        rw [e1, mul_div_assoc, div_self, mul_one]
        intro h; apply h3; linarith
    · refine ⟨?_, ?_, by simp only; ring, by simp only; ring, by simp only; linear_combination 1000 ^ 2 * h5⟩
      · simp only; intro h; apply h3; linarith
      · have e1 : 1000 * B.1 - 1000 * A.1 = P / (2 * Real.pi * r) * (1000 * B.2 + δ - (1000 * A.2 + δ)) := by linear_combination -1000 * h4
        simp only
        rw [e1, mul_div_assoc, div_self, mul_one]
        intro h; apply h3; linarith
  obtain ⟨k1, k2, k3, k4, k5⟩ := key
  refine ⟨k1, ?_, ?_, ?_, ?_⟩
  · rw [k2, hR, show 2 * Real.pi * (1000 * r) * (P / (2 * Real.pi * r)) = 1000 * P by field_simp, abs_mul]
    norm_num
  · rw [k4, h2, hR]; ring
  · rw [k3, k4, k2, h1, h2]; field_simp; ring
  · rw [len, k5, Real.sqrt_sq_eq_abs, abs_mul]; norm_num

/-- **C60** one section of `ReversePropellerBladeX`: if the kernel delivers the two edges of a blade section (in either order) built from
radius `r`, chord `c`, pitch `P`, rake `k` and skew `s` in degrees, and the edges lie at angles between -pi and pi, then the stored
values are exactly these (pitch and chord up to sign, the skew in metres being minus the arc). -/
theorem C60_section (interp : List Pt → Res (ℝ → ℝ)) (n : Nat) (refl : Bool) (r c P k s : ℝ) (G : SectionGeom) (S : Section)
    (hr : 0 < r) (hc : c ≠ 0) (hrange : EdgesInRange refl r c P k s)
    (hG : (G.leading = onBlade refl r c P k s (0, 0) ∧ G.trailing = onBlade refl r c P k s (1, 0)) ∨
      (G.trailing = onBlade refl r c P k s (0, 0) ∧ G.leading = onBlade refl r c P k s (1, 0)))
    (h : sectionBladeX interp n (1000 * r) G = .ok S) :
    S.stored.pitch = |P| ∧ S.stored.chord = |c| ∧ S.stored.rake = k ∧ S.stored.skewAngle = s ∧
      S.stored.skew = -(r * (Real.pi * s / 180)) := by
  obtain ⟨_, _, hR, _, _, t, b, yu, yd, _, _, _, rfl⟩ := sectionBladeX_ok.1 h
  have u0 := unrolled_wrap (q := placed refl r c P k s (1 / 2, 0) (0, 0)) hr hrange.1
  have u1 := unrolled_wrap (q := placed refl r c P k s (1 / 2, 0) (1, 0)) hr hrange.2
  rw [← onBlade_eq] at u0 u1
  obtain ⟨_, h1, h2, h3, h4⟩ := stored_of_edges (refl := refl) (P := P) (k := k) (s := s) hr hc rfl 0
    (le := unrolled (1000 * r) G.leading) (te := unrolled (1000 * r) G.trailing) (by
      rcases hG with ⟨g1, g2⟩ | ⟨g1, g2⟩
      · left; rw [g1, g2, u0, u1]; simp
      · right; rw [g1, g2, u0, u1]; simp)
  refine ⟨h1, h4, ?_, ?_, ?_⟩
  · simpa using h3
  · simp only [h2]; field_simp; ring
  · simp only [h2]; ring

/-- **C60** the reported pitch angle is the complement of the blade's own pitch angle `arctan (P / (2 pi r))` (default reflection, positive
chord, leading edge first). -/
theorem C60_pitch_angle (interp : List Pt → Res (ℝ → ℝ)) (n : Nat) (r c P k s : ℝ) (G : SectionGeom) (S : Section)
    (hr : 0 < r) (hc : 0 < c) (hrange : EdgesInRange true r c P k s)
    (hG : G.leading = onBlade true r c P k s (0, 0) ∧ G.trailing = onBlade true r c P k s (1, 0))
    (h : sectionBladeX interp n (1000 * r) G = .ok S) :
    S.stored.pitchAngle = Real.pi / 2 - Real.arctan (P / (2 * Real.pi * r)) := by
  obtain ⟨_, _, hR, _, _, t, b, yu, yd, _, _, _, rfl⟩ := sectionBladeX_ok.1 h
  have u0 := unrolled_wrap (q := placed true r c P k s (1 / 2, 0) (0, 0)) hr hrange.1
  have u1 := unrolled_wrap (q := placed true r c P k s (1 / 2, 0) (1, 0)) hr hrange.2
  rw [← onBlade_eq] at u0 u1
  simp only [hG.1, hG.2, u0, u1, placed, if_true]
  have h1 := Real.neg_pi_div_two_lt_arctan (P / (2 * Real.pi * r))
  have h2 := Real.arctan_lt_pi_div_two (P / (2 * Real.pi * r))
  have hpi := Real.pi_pos
  have := atan2_polar (ρ := 1000 * c) (t := Real.pi / 2 - Real.arctan (P / (2 * Real.pi * r))) (by positivity) ⟨by linarith, by linarith⟩
  rw [Real.sin_pi_div_two_sub, Real.cos_pi_div_two_sub] at this
  rw [← this]
  congr 1
  · ring
  · ring

theorem new_section {kind : Kind} {interp : List Pt → Res (ℝ → ℝ)} {geom : ℝ → Res SectionGeom} {radii : Arr} {n : Int} {p : ReversePropeller}
    (h : ReversePropeller.new kind interp geom radii n = .ok p) :
    0 ≤ n ∧ p.kind = kind ∧ p.radii = radii ∧ p.numPoints = n.toNat ∧ p.sections.length = radii.length ∧
    ∀ (i : Nat) (R : ℝ), radii[i]? = some R → ∃ G S, geom R = .ok G ∧ section' kind interp n.toNat R G = .ok S ∧ p.sections[i]? = some S := by
  unfold ReversePropeller.new at h
  by_cases hn : n < 0
  · simp [hn, bind, Except.bind, throw, throwThe, MonadExceptOf.throw] at h
  simp only [if_neg hn, bind, Except.bind, pure, Except.pure] at h
  split at h
  · cases h
  rename_i ss hss
  obtain rfl := Except.ok.inj h
  obtain ⟨h1, h2⟩ := Blade.mapM_ok.1 hss
  refine ⟨not_lt.1 hn, rfl, rfl, rfl, h1, ?_⟩
  intro i R hR
  have hi : i < ss.length := by rw [h1]; exact (List.getElem?_eq_some_iff.1 hR).1
  have := h2 i R ss[i] hR (List.getElem?_eq_getElem hi)
  cases hg : geom R with
  | error e => rw [hg] at this; cases this
  | ok G => rw [hg] at this; exact ⟨G, ss[i], rfl, this, List.getElem?_eq_getElem hi⟩

theorem upper_row (occ : Face → Bool) (b b' : Blade) (refl : Bool) (hW : b.WellFormed) (ht : b.thickness = none) (hf : b.camber = none)
    (hU : ∀ Q ∈ b.sections, Q.Uniform ∧ Q.Ends (0, 0) (1, 0) (0, 0) (1, 0)) (hb : b.build occ refl = (b', .ok ()))
    (i : Nat) (r c P k s : ℝ) (hr : b.radii[i]? = some r) (hc : b.chord[i]? = some c) (hP : b.pitch[i]? = some P) (hk : b.rake[i]? = some k)
    (hs : b.skew[i]? = some s) :
    ∃ F row, b'.upper = some F ∧ F[b.sections.length - 1 - i]? = some row ∧ row.head? = some (onBlade refl r c P k s (0, 0)) ∧
      row.getLast? = some (onBlade refl r c P k s (1, 0)) := by
  obtain ⟨b₁, h1, hb1⟩ : ∃ b₁, b.applyTransformations refl = (b₁, .ok ()) ∧ b'.coordsUp = b₁.coordsUp := by
    obtain ⟨b₁, u0, d0, u1, d1, h1, g1, g2, g3, g4, _, _, _, _, _, _, rfl⟩ := Blade.build_ok.1 hb
    exact ⟨b₁, h1, rfl⟩
  obtain ⟨hF, _⟩ := C48_faces occ b b' refl hW hb
  obtain ⟨hlen, _, hpl⟩ := C46_placed b b₁ refl hW ht hf (fun Q hQ => (hU Q hQ).1) h1
  obtain ⟨_, _, hrow⟩ := C48_reversed b b₁ refl hW h1
  have hi : i < b.sections.length := by rw [← hW.1]; exact (List.getElem?_eq_some_iff.1 hr).1
  have hsi : b.sections[i]? = some b.sections[i] := List.getElem?_eq_getElem hi
  obtain ⟨hUi, hEi⟩ := hU _ (List.getElem_mem hi)
  obtain ⟨ref, Q, href, _, hQ, hup, _, _⟩ := hpl i _ r c P k s hsi hr hc hP hk hs
  obtain ⟨hrowi, _, _⟩ := hrow i Q r hQ hr
  have href' : ref = (1 / 2, 0) := by
    rw [Profile.referencePoint_ends ⟨hUi.1, hUi.2.2⟩ hEi, if_neg (by norm_num)] at href
    rw [← Except.ok.inj href]; norm_num [mid]
  subst href'
  have ob : ∀ p, onBlade refl r c P k s p = ((wrap r (placed refl r c P k s (1 / 2, 0) p)).1 * 1000,
      (wrap r (placed refl r c P k s (1 / 2, 0) p)).2.1 * 1000, (wrap r (placed refl r c P k s (1 / 2, 0) p)).2.2 * 1000) := by
    intro p
    rw [onBlade_eq]
    simp only [mul_comm]
  refine ⟨_, (Q.upper.map (wrap r)).map fun p => (p.1 * 1000, p.2.1 * 1000, p.2.2 * 1000), hF, by rw [hb1, List.getElem?_map, hrowi]; rfl, ?_, ?_⟩
  · rw [hup]
    simp only [List.head?_map, hEi.1, Option.map_some]
    rw [ob]
  · rw [hup]
    simp only [List.getLast?_map, hEi.2.1, Option.map_some]
    rw [ob]

/-- **C60** the round trip: a blade with sections on the unit chord is built, and reverse engineered at its own radii (in millimetres),
the kernel finding as edges of the section at radius `i` the end points of the corresponding row of the upper face. Then pitch, chord,
rake and skew are those of the blade. -/
theorem C60_round_trip (occ : Face → Bool) (b b' : Blade) (refl : Bool) (hW : b.WellFormed) (ht : b.thickness = none) (hf : b.camber = none)
    (hU : ∀ Q ∈ b.sections, Q.Uniform ∧ Q.Ends (0, 0) (1, 0) (0, 0) (1, 0)) (hb : b.build occ refl = (b', .ok ()))
    (interp : List Pt → Res (ℝ → ℝ)) (geom : ℝ → Res SectionGeom) (n : Int) (rp : ReversePropeller)
    (hrp : ReversePropeller.new .bladeX interp geom (b.radii.map (1000 * ·)) n = .ok rp)
    (i : Nat) (r c P k s : ℝ) (hr : b.radii[i]? = some r) (hc : b.chord[i]? = some c) (hP : b.pitch[i]? = some P) (hk : b.rake[i]? = some k)
    (hs : b.skew[i]? = some s) (hr0 : 0 < r) (hc0 : c ≠ 0) (hrange : EdgesInRange refl r c P k s)
    (hkernel : ∀ F row G, b'.upper = some F → F[b.sections.length - 1 - i]? = some row → geom (1000 * r) = .ok G →
      (row.head? = some G.leading ∧ row.getLast? = some G.trailing) ∨ (row.head? = some G.trailing ∧ row.getLast? = some G.leading)) :
    ∃ S, rp.sections[i]? = some S ∧ S.stored.pitch = |P| ∧ S.stored.chord = |c| ∧ S.stored.rake = k ∧ S.stored.skewAngle = s := by
  obtain ⟨_, _, _, _, _, hsec⟩ := new_section hrp
  obtain ⟨G, S, hG, hS, hSi⟩ := hsec i (1000 * r) (by rw [List.getElem?_map, hr]; rfl)
  refine ⟨S, hSi, ?_⟩
  obtain ⟨F, row, hF, hrow, e1, e2⟩ := upper_row occ b b' refl hW ht hf hU hb i r c P k s hr hc hP hk hs
  have := hkernel F row G hF hrow hG
  rw [e1, e2] at this
  simp only [Option.some.injEq] at this
  obtain ⟨a1, a2, a3, a4, _⟩ := C60_section interp n.toNat refl r c P k s G S hr0 hc0 hrange
    (by rcases this with ⟨q1, q2⟩ | ⟨q1, q2⟩
        · exact Or.inl ⟨q1.symm, q2.symm⟩
        · exact Or.inr ⟨q1.symm, q2.symm⟩) hS
  exact ⟨a1, a2, a3, a4⟩

/-- The hypotheses of the round trip are met by a blade with two sections. -/
example : ∃ b' geom rp, Sample.blade2.build (fun _ => true) true = (b', .ok ()) ∧
    ReversePropeller.new .bladeX (fun _ => .ok fun _ => 0) geom (Sample.blade2.radii.map (1000 * ·)) 7 = .ok rp ∧
    EdgesInRange true 1 1 2 0 0 ∧
    ∀ F row G, b'.upper = some F → F[Sample.blade2.sections.length - 1 - 0]? = some row → geom (1000 * 1) = .ok G →
      row.head? = some G.leading ∧ row.getLast? = some G.trailing := by
  obtain ⟨b', hb, _⟩ := Sample.blade2_builds true
  have angle : ∀ (r c P s : ℝ), 0 < r → 0 < c → c ≤ 3 * r → 0 ≤ s → s ≤ 10 → EdgesInRange true r c P 0 s ∧ EdgesInRange true r c P 1 s := by
    intro r c P s hr hc hcr hs hs'
    have h1 := Real.cos_le_one (Real.arctan (P / (2 * Real.pi * r)))
    have h2 := (Real.cos_arctan_pos (P / (2 * Real.pi * r))).le
    have hpi := Real.pi_gt_three
    have h3 : Real.pi * s / 180 ≤ Real.pi / 18 := by
      rw [show Real.pi / 18 = Real.pi * 10 / 180 by ring]; gcongr
    have h4 : 0 ≤ Real.pi * s / 180 := by positivity
    have h5 : 0 ≤ Real.cos (Real.arctan (P / (2 * Real.pi * r))) * c ∧ Real.cos (Real.arctan (P / (2 * Real.pi * r))) * c ≤ 3 * r :=
      ⟨by positivity, by nlinarith⟩
    have e0 : ∀ k, angleOn true r c P k s (0, 0) = Real.cos (Real.arctan (P / (2 * Real.pi * r))) * c / (2 * r) - Real.pi * s / 180 := by
      intro k; simp only [angleOn, placed, if_true]; field_simp; ring
    have e1 : ∀ k, angleOn true r c P k s (1, 0) = -(Real.cos (Real.arctan (P / (2 * Real.pi * r))) * c / (2 * r)) - Real.pi * s / 180 := by
      intro k; simp only [angleOn, placed, if_true]; field_simp; ring
    have h6 : Real.cos (Real.arctan (P / (2 * Real.pi * r))) * c / (2 * r) ≤ 3 / 2 := by
      rw [div_le_div_iff₀ (by positivity) (by norm_num)]; linarith [h5.2]
    have h7 : 0 ≤ Real.cos (Real.arctan (P / (2 * Real.pi * r))) * c / (2 * r) := div_nonneg h5.1 (by positivity)
    refine ⟨⟨⟨?_, ?_⟩, ?_, ?_⟩, ⟨?_, ?_⟩, ?_, ?_⟩ <;> first | rw [e0] | rw [e1]
    all_goals linarith
  let G1 : SectionGeom := ⟨onBlade true 1 1 2 0 0 (0, 0), onBlade true 1 1 2 0 0 (1, 0), fun _ => 0, fun _ => 0, fun _ => 0, fun _ => 0⟩
  let G2 : SectionGeom := ⟨onBlade true 2 3 4 1 10 (0, 0), onBlade true 2 3 4 1 10 (1, 0), fun _ => 0, fun _ => 0, fun _ => 0, fun _ => 0⟩
  have ok : ∀ (r c P k s : ℝ), 0 < r → c ≠ 0 → EdgesInRange true r c P k s →
      (unrolled (1000 * r) (onBlade true r c P k s (0, 0))).2 ≠ (unrolled (1000 * r) (onBlade true r c P k s (1, 0))).2 := by
    intro r c P k s hr hc hrange
    have u0 := unrolled_wrap (q := placed true r c P k s (1 / 2, 0) (0, 0)) hr hrange.1
    have u1 := unrolled_wrap (q := placed true r c P k s (1 / 2, 0) (1, 0)) hr hrange.2
    rw [← onBlade_eq] at u0 u1
    rw [u0, u1]
    exact (stored_of_edges (refl := true) (P := P) (k := k) (s := s) hr hc rfl 0 (Or.inl ⟨by simp, by simp⟩)).1
  have hr1 := (angle 1 1 2 0 (by norm_num) (by norm_num) (by norm_num) (by norm_num) (by norm_num)).1
  have hr2 := (angle 2 3 4 10 (by norm_num) (by norm_num) (by norm_num) (by norm_num) (by norm_num)).2
  obtain ⟨S1, hS1⟩ := sectionBladeX_total (interp := fun _ => .ok fun _ => 0) (fun l => ⟨_, rfl⟩) (n := 7) (by norm_num) (by norm_num)
    (R := 1000 * 1) (by norm_num) (G := G1) (ok 1 1 2 0 0 (by norm_num) (by norm_num) hr1)
  obtain ⟨S2, hS2⟩ := sectionBladeX_total (interp := fun _ => .ok fun _ => 0) (fun l => ⟨_, rfl⟩) (n := 7) (by norm_num) (by norm_num)
    (R := 1000 * 2) (by norm_num) (G := G2) (ok 2 3 4 1 10 (by norm_num) (by norm_num) hr2)
  refine ⟨b', fun R => if R = 1000 * 1 then .ok G1 else .ok G2, ⟨.bladeX, [1000 * 1, 1000 * 2], 7, [S1, S2]⟩, hb, ?_, hr1, ?_⟩
  · simp only [ReversePropeller.new, Sample.blade2, List.map_cons, List.map_nil, List.mapM_cons, List.mapM_nil, bind, Except.bind, pure,
      Except.pure, if_true, if_neg (show ¬ ((7 : Int) < 0) by norm_num), if_neg (show ¬ ((1000 : ℝ) * 2 = 1000 * 1) by norm_num), section',
      show ((7 : Int).toNat) = 7 from rfl, hS1, hS2]
  · intro F row G h1 h2 h3
    obtain ⟨F', row', e1, e2, e3, e4⟩ := upper_row _ _ _ _ (by simp [Sample.blade2, Blade.WellFormed]) rfl rfl (by
      simp only [Sample.blade2, List.mem_cons, List.not_mem_nil, or_false, or_self, forall_eq]
      exact ⟨Sample.foil_uniform, by simp [Sample.foil, Profile.Ends, Profile.upper, Profile.lower]⟩) hb 0 1 1 2 0 0 rfl rfl rfl rfl rfl
    simp only [if_true] at h3
    obtain rfl := Except.ok.inj h3
    rw [h1] at e1
    obtain rfl := Option.some.inj e1
    rw [h2] at e2
    obtain rfl := Option.some.inj e2
    exact ⟨e3, e4⟩

end
end BladeX
