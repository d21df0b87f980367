import Verif.Props.ReverseShape

/-! # C62, C64, C72: the generic class, the reconstruction methods, the shape of the results -/

namespace BladeX
noncomputable section
open Spec Classical Reverse

theorem rotX_wrap (r : ℝ) (hr : r ≠ 0) (q : Pt) : rotX Real.pi (1000 * (wrap r q).1, 1000 * (wrap r q).2.1, 1000 * (wrap r q).2.2) =
    (1000 * (wrap r (q.1, q.2 + Real.pi * r)).1, 1000 * (wrap r (q.1, q.2 + Real.pi * r)).2.1,
      1000 * (wrap r (q.1, q.2 + Real.pi * r)).2.2) := by
  have e : (q.2 + Real.pi * r) / r = q.2 / r + Real.pi := by field_simp
  simp only [rotX, wrap, e, Real.cos_pi, Real.sin_pi, Real.sin_add_pi, Real.cos_add_pi]
  simp

/-- **C62** `ReversePropeller` on the same section turned by 180 degrees about the axis (it measures angles from the negative `z` axis): pitch,
chord and rake are those of the blade, the skew angle has the opposite sign. -/
theorem C62_section (interp : List Pt → Res (ℝ → ℝ)) (n : Nat) (refl : Bool) (r c P k s : ℝ) (G : SectionGeom) (S : Section)
    (hr : 0 < r) (hc : c ≠ 0)
    (h0 : -Real.pi ≤ angleOn refl r c P k s (0, 0) ∧ angleOn refl r c P k s (0, 0) < Real.pi)
    (h1 : -Real.pi ≤ angleOn refl r c P k s (1, 0) ∧ angleOn refl r c P k s (1, 0) < Real.pi)
    (hG : (G.leading = rotX Real.pi (onBlade refl r c P k s (0, 0)) ∧ G.trailing = rotX Real.pi (onBlade refl r c P k s (1, 0))) ∨
      (G.trailing = rotX Real.pi (onBlade refl r c P k s (0, 0)) ∧ G.leading = rotX Real.pi (onBlade refl r c P k s (1, 0))))
    (h : sectionGeneric interp n (1000 * r) G = .ok S) :
    S.stored.pitch = |P| ∧ S.stored.chord = |c| ∧ S.stored.rake = k ∧ S.stored.skewAngle = -s ∧
      S.stored.skew = -(r * (Real.pi * s / 180)) := by
  obtain ⟨hR, _, _, f, yu, yd, _, _, _, _, rfl⟩ := sectionGeneric_ok.1 h
  have key : ∀ p, (-Real.pi ≤ angleOn refl r c P k s p ∧ angleOn refl r c P k s p < Real.pi) →
      unrolledPos (1000 * r) (rotX Real.pi (onBlade refl r c P k s p)) =
        (1000 * (placed refl r c P k s (1 / 2, 0) p).1, 1000 * (placed refl r c P k s (1 / 2, 0) p).2 + Real.pi * (1000 * r)) := by
    intro p hp
    rw [onBlade_eq, rotX_wrap r hr.ne', unrolledPos_wrap hr]
    · apply Prod.ext
      · rfl
      · simp only; ring
    · have e : ((placed refl r c P k s (1 / 2, 0) p).2 + Real.pi * r) / r = angleOn refl r c P k s p + Real.pi := by
        simp only [angleOn]; field_simp
      simp only [e]
      exact ⟨by linarith [hp.1], by linarith [hp.2]⟩
  obtain ⟨_, g1, g2, g3, g4⟩ := stored_of_edges (refl := refl) (P := P) (k := k) (s := s) hr hc rfl (Real.pi * (1000 * r))
    (le := unrolledPos (1000 * r) G.leading) (te := unrolledPos (1000 * r) G.trailing) (by
      rcases hG with ⟨q1, q2⟩ | ⟨q1, q2⟩
      · left; rw [q1, q2, key _ h0, key _ h1]; exact ⟨rfl, rfl⟩
      · right; rw [q1, q2, key _ h0, key _ h1]; exact ⟨rfl, rfl⟩)
  have hpi := Real.pi_pos
  refine ⟨g1, g4, g3, ?_, ?_⟩
  · simp only [g2]; field_simp; ring
  · simp only [g2]; ring

/-- **C62** on the blade as it is built (not turned), both edges at angles in `[0, pi)`: the skew angle is `-s - 180` and the rake is wrong by
half the pitch. -/
theorem C62_unrotated (interp : List Pt → Res (ℝ → ℝ)) (n : Nat) (refl : Bool) (r c P k s : ℝ) (G : SectionGeom) (S : Section)
    (hr : 0 < r) (hc : c ≠ 0)
    (h0 : 0 ≤ angleOn refl r c P k s (0, 0) ∧ angleOn refl r c P k s (0, 0) < Real.pi)
    (h1 : 0 ≤ angleOn refl r c P k s (1, 0) ∧ angleOn refl r c P k s (1, 0) < Real.pi)
    (hG : G.leading = onBlade refl r c P k s (0, 0) ∧ G.trailing = onBlade refl r c P k s (1, 0))
    (h : sectionGeneric interp n (1000 * r) G = .ok S) :
    S.stored.pitch = |P| ∧ S.stored.chord = |c| ∧ S.stored.rake = k - P / 2 ∧ S.stored.skewAngle = -s - 180 := by
  obtain ⟨hR, _, _, f, yu, yd, _, _, _, _, rfl⟩ := sectionGeneric_ok.1 h
  have hpi := Real.pi_pos
  have u0 := unrolledPos_wrap (q := placed refl r c P k s (1 / 2, 0) (0, 0)) hr ⟨h0.1, by have := h0.2; simp only [angleOn] at this; linarith⟩
  have u1 := unrolledPos_wrap (q := placed refl r c P k s (1 / 2, 0) (1, 0)) hr ⟨h1.1, by have := h1.2; simp only [angleOn] at this; linarith⟩
  rw [← onBlade_eq] at u0 u1
  obtain ⟨g0, g1, g2, g3, g4⟩ := stored_of_edges (refl := refl) (P := P) (k := k) (s := s) hr hc rfl 0
    (le := unrolledPos (1000 * r) G.leading) (te := unrolledPos (1000 * r) G.trailing) (by
      left; rw [hG.1, hG.2, u0, u1]; simp)
  obtain ⟨_, _, p3, p4, _⟩ := placed_edges refl P k s hr hc
  have hcot : ((unrolledPos (1000 * r) G.leading).1 - (unrolledPos (1000 * r) G.trailing).1) /
      ((unrolledPos (1000 * r) G.leading).2 - (unrolledPos (1000 * r) G.trailing).2) = P / (2 * Real.pi * r) := by
    rw [hG.1, hG.2, u0, u1]
    simp only
    rw [← mul_sub, ← mul_sub, p4]
    field_simp
  refine ⟨g1, g4, ?_, ?_⟩
  · simp only
    rw [hcot] at g3 ⊢
    rw [← g3]
    field_simp
    ring
  · simp only [g2]; field_simp; ring

/-- **C62** a section of the blade as it is built whose edges lie on the two sides of the `z` axis: the reported chord is not the chord (its arc
is replaced by the rest of the circle), except if the arc is half the circle. -/
theorem C62_seam (interp : List Pt → Res (ℝ → ℝ)) (n : Nat) (refl : Bool) (r c P k s : ℝ) (G : SectionGeom) (S : Section)
    (hr : 0 < r) (hc : c ≠ 0)
    (h0 : 0 ≤ angleOn refl r c P k s (0, 0) ∧ angleOn refl r c P k s (0, 0) < Real.pi)
    (h1 : -Real.pi < angleOn refl r c P k s (1, 0) ∧ angleOn refl r c P k s (1, 0) < 0)
    (hG : G.leading = onBlade refl r c P k s (0, 0) ∧ G.trailing = onBlade refl r c P k s (1, 0))
    (h : sectionGeneric interp n (1000 * r) G = .ok S) :
    S.stored.chord ^ 2 = c ^ 2 + 4 * Real.pi * r * (Real.pi * r - |c| * Real.cos (Real.arctan (P / (2 * Real.pi * r)))) ∧
    (S.stored.chord = |c| ↔ |c| * Real.cos (Real.arctan (P / (2 * Real.pi * r))) = Real.pi * r) := by
  obtain ⟨hR, _, _, f, yu, yd, _, _, _, _, rfl⟩ := sectionGeneric_ok.1 h
  have hpi := Real.pi_pos
  set C := Real.cos (Real.arctan (P / (2 * Real.pi * r))) with hC
  have hCpos : 0 < C := Real.cos_arctan_pos _
  have u0 := unrolledPos_wrap (q := placed refl r c P k s (1 / 2, 0) (0, 0)) hr ⟨h0.1, by have := h0.2; simp only [angleOn] at this; linarith⟩
  have u1 := unrolledPos_wrap (q := ((placed refl r c P k s (1 / 2, 0) (1, 0)).1, (placed refl r c P k s (1 / 2, 0) (1, 0)).2 + 2 * Real.pi * r)) hr
    (by
      have e : ((placed refl r c P k s (1 / 2, 0) (1, 0)).2 + 2 * Real.pi * r) / r = angleOn refl r c P k s (1, 0) + 2 * Real.pi := by
        simp only [angleOn]; field_simp
      simp only [e]; exact ⟨by linarith [h1.1], by linarith [h1.2]⟩)
  rw [← onBlade_eq] at u0
  have hw : wrap r ((placed refl r c P k s (1 / 2, 0) (1, 0)).1, (placed refl r c P k s (1 / 2, 0) (1, 0)).2 + 2 * Real.pi * r) =
      wrap r (placed refl r c P k s (1 / 2, 0) (1, 0)) := (C47_distances r hr _ (0, 0)).2.2.1
  rw [hw, ← onBlade_eq] at u1
  obtain ⟨_, _, p3, p4, p5⟩ := placed_edges refl P k s hr hc
  set A := placed refl r c P k s (1 / 2, 0) (0, 0) with hA
  set B := placed refl r c P k s (1 / 2, 0) (1, 0) with hB
  have hdiff : A.2 - B.2 = |c| * C := by
    have hpos : 0 < A.2 - B.2 := by
      have a1 : 0 ≤ A.2 := by
        have := h0.1; simp only [angleOn, ← hA] at this
        have h' := mul_nonneg this hr.le
        rwa [div_mul_cancel₀ _ hr.ne'] at h'
      have a2 : B.2 < 0 := by
        have := h1.2; simp only [angleOn, ← hB] at this
        by_contra hneg
        exact absurd (div_nonneg (not_lt.1 hneg) hr.le) (not_le.2 this)
      linarith
    have e : A.2 - B.2 = -(C * (if refl = true then -c else c)) := by
      simp only [hA, hB, placed, ← hC]; ring
    have : |A.2 - B.2| = |c| * C := by
      rw [e, abs_neg, abs_mul, abs_of_pos hCpos, mul_comm]
      cases refl <;> simp
    rw [← this, abs_of_pos hpos]
  have hchord : (len (unrolledPos (1000 * r) G.leading) (unrolledPos (1000 * r) G.trailing) / 1000) ^ 2 =
      c ^ 2 + 4 * Real.pi * r * (Real.pi * r - |c| * C) := by
    rw [div_pow, len_sq, hG.1, hG.2, u0, u1]
    simp only
    rw [← hdiff]
    field_simp
    linear_combination p5
  refine ⟨hchord, ?_⟩
  have hnn : 0 ≤ len (unrolledPos (1000 * r) G.leading) (unrolledPos (1000 * r) G.trailing) / 1000 :=
    div_nonneg (Real.sqrt_nonneg _) (by norm_num)
  have hsq : (len (unrolledPos (1000 * r) G.leading) (unrolledPos (1000 * r) G.trailing) / 1000 = |c|) ↔
      (len (unrolledPos (1000 * r) G.leading) (unrolledPos (1000 * r) G.trailing) / 1000) ^ 2 = c ^ 2 := by
    rw [← sq_abs c]
    exact (sq_eq_sq₀ hnn (abs_nonneg c)).symm
  simp only
  rw [hsq, hchord]
  have h4 : (4 * Real.pi * r) ≠ 0 := by positivity
  constructor
  · intro h
    have : 4 * Real.pi * r * (Real.pi * r - |c| * C) = 0 := by linarith
    rcases mul_eq_zero.1 this with h' | h'
    · exact absurd h' h4
    · linarith
  · intro h
    rw [h]; ring

/-- **C64** on every object both constructors can produce (indeed on every state of such an object) the three reconstruction methods raise
`AttributeError`, whatever the rest of their bodies would do. -/
theorem C64_reconstruct {α : Type} (p : ReversePropeller) (rest : Res α) :
    p.reconstructSections rest = .error .attributeError ∧ p.reconstructBlade rest = .error .attributeError ∧
    p.reconstructPropeller rest = .error .attributeError := by
  have h1 : p.hasAttr c!"num_sections" = false := by
    have : ∀ k b, ¬ (c!"num_sections" ∈ ReversePropeller.attrNames k b ∨ c!"num_sections" ∈ ReversePropeller.classNames) := by
      intro k b; cases k <;> cases b <;> decide
    exact decide_eq_false (this _ _)
  have h2 : p.hasAttr c!"recons_blade" = false := by
    have : ∀ k b, ¬ (c!"recons_blade" ∈ ReversePropeller.attrNames k b ∨ c!"recons_blade" ∈ ReversePropeller.classNames) := by
      intro k b; cases k <;> cases b <;> decide
    exact decide_eq_false (this _ _)
  simp [ReversePropeller.reconstructSections, ReversePropeller.reconstructBlade, ReversePropeller.reconstructPropeller,
    ReversePropeller.getAttr, h1, h2, bind, Except.bind]

/-- The attributes that the methods do use exist. -/
example (p : ReversePropeller) : p.hasAttr c!"xup" = true ∧ p.hasAttr c!"radii_list" = true := by
  have : ∀ k b, c!"xup" ∈ ReversePropeller.attrNames k b ∧ c!"radii_list" ∈ ReversePropeller.attrNames k b := by
    intro k b; cases k <;> cases b <;> decide
  exact ⟨decide_eq_true (Or.inl (this _ _).1), decide_eq_true (Or.inl (this _ _).2)⟩

/-- **C72** every object of either class has one section per radius, in their order; each section has `n` equally spaced abscissae from 0 to
1 common to both surfaces, `n` ordinates per surface, and both surfaces meet the chord at both ends. -/
theorem C72_sections (kind : Kind) (interp : List Pt → Res (ℝ → ℝ)) (geom : ℝ → Res SectionGeom) (radii : Arr) (n : Int) (p : ReversePropeller)
    (h : ReversePropeller.new kind interp geom radii n = .ok p) :
    p.radii = radii ∧ p.sections.length = radii.length ∧
    ∀ S ∈ p.sections, S.xup.length = n.toNat ∧ S.xdown = S.xup ∧ (∀ j < n.toNat, S.xup[j]? = some ((j : ℝ) / ((n : ℝ) - 1))) ∧
      S.yup.length = n.toNat ∧ S.ydown.length = n.toNat ∧ S.yup.head? = some 0 ∧ S.yup.getLast? = some 0 ∧
      S.ydown.head? = some 0 ∧ S.ydown.getLast? = some 0 := by
  obtain ⟨hn, _, hr, _, hlen, hsec⟩ := new_section h
  refine ⟨hr, hlen, ?_⟩
  intro S hS
  obtain ⟨i, hi⟩ := List.getElem?_of_mem hS
  have hi' : i < radii.length := by rw [← hlen]; exact (List.getElem?_eq_some_iff.1 hi).1
  obtain ⟨G, S', _, hS', hi''⟩ := hsec i _ (List.getElem?_eq_getElem hi')
  obtain rfl : S = S' := by rw [hi] at hi''; exact Option.some.inj hi''
  have hcast : ((n.toNat : ℕ) : ℝ) = (n : ℝ) := by
    have : ((n.toNat : ℕ) : ℤ) = n := Int.toNat_of_nonneg hn
    exact_mod_cast congrArg (fun z : ℤ => (z : ℝ)) this
  have res : ∀ l v, resample interp n.toNat l = .ok v → v.length = n.toNat ∧ v.head? = some 0 ∧ v.getLast? = some 0 := by
    intro l v hv
    obtain ⟨_, f, _, _, hz⟩ := resample_ok.1 hv
    obtain ⟨z1, z2, z3, _⟩ := zeroEnds_get hz
    have hl : ((linspaceN 0 1 n.toNat).map f).length = n.toNat := by simp [linspaceN]
    rw [hl] at z1 z3
    exact ⟨z1, by rw [List.head?_eq_getElem?, z2], by rw [List.getLast?_eq_getElem?, z1, z3]⟩
  have grid : (linspaceN 0 1 n.toNat).length = n.toNat := by simp [linspaceN]
  cases kind with
  | bladeX =>
    obtain ⟨_, _, _, _, _, t, b, yu, yd, _, hu, hd, rfl⟩ := sectionBladeX_ok.1 hS'
    obtain ⟨a1, a2, a3⟩ := res _ _ hu
    obtain ⟨b1, b2, b3⟩ := res _ _ hd
    exact ⟨grid, rfl, fun j hj => by rw [linspaceN_get hj, hcast], a1, b1, a2, a3, b2, b3⟩
  | generic =>
    obtain ⟨_, _, _, f, yu, yd, _, _, hu, hd, rfl⟩ := sectionGeneric_ok.1 hS'
    obtain ⟨a1, a2, a3⟩ := res _ _ hu
    obtain ⟨b1, b2, b3⟩ := res _ _ hd
    exact ⟨grid, rfl, fun j hj => by rw [linspaceN_get hj, hcast], a1, b1, a2, a3, b2, b3⟩

/-- **C72** numbers of points that the constructors refuse: negative ones always, and, as soon as there is a radius whose section the kernel
delivers, `ReversePropellerBladeX` refuses 0 (unless the division by the tangent fails before), 1 and everything above 500. -/
theorem C72_refused (kind : Kind) (interp : List Pt → Res (ℝ → ℝ)) (geom : ℝ → Res SectionGeom) (radii : Arr) (n : Int) :
    (n < 0 → ReversePropeller.new kind interp geom radii n = .error .valueError) ∧
    (∀ R Rs G, radii = R :: Rs → geom R = .ok G →
      (n = 1 → ReversePropeller.new .bladeX interp geom radii n = .error .zeroDivision) ∧
      (500 < n → ReversePropeller.new .bladeX interp geom radii n = .error .runtimeError) ∧
      (n = 0 → (unrolled R G.leading).2 ≠ (unrolled R G.trailing).2 →
        ReversePropeller.new .bladeX interp geom radii n = .error .indexError)) := by
  constructor
  · intro hn
    simp [ReversePropeller.new, hn, bind, Except.bind, throw, throwThe, MonadExceptOf.throw]
  · rintro R Rs G rfl hG
    have hcons : ∀ (m : Nat) (e : PyErr), 0 ≤ n → n.toNat = m → sectionBladeX interp m R G = .error e →
        ReversePropeller.new .bladeX interp geom (R :: Rs) n = .error e := by
      intro m e hn hm he
      simp only [ReversePropeller.new, if_neg (not_lt.2 hn), List.mapM_cons, bind, Except.bind, hG, section', hm, he]
    refine ⟨?_, ?_, ?_⟩
    · rintro rfl
      refine hcons 1 _ (by norm_num) rfl ?_
      simp [sectionBladeX, bind, Except.bind, throw, throwThe, MonadExceptOf.throw, pure, Except.pure]
    · intro hn
      refine hcons n.toNat _ (by omega) rfl ?_
      simp [sectionBladeX, bind, Except.bind, throw, throwThe, MonadExceptOf.throw, show 500 < n.toNat by omega]
    · rintro rfl hd
      refine hcons 0 _ le_rfl rfl ?_
      simp only [sectionBladeX, bind, Except.bind, extract_ok hd, List.range_zero, List.map_nil, setEnds_nil]
      simp [pure, Except.pure]

/-- **C72** `ReversePropellerBladeX` accepts every other number of points: with an interpolation that never fails, a kernel that delivers every
section, non-zero radii and edges at different angles, the object is constructed for all `n` from 2 to 500. -/
theorem C72_accepted (interp : List Pt → Res (ℝ → ℝ)) (hi : ∀ l, ∃ f, interp l = .ok f) (geom : ℝ → Res SectionGeom) (radii : Arr)
    (hg : ∀ R ∈ radii, R ≠ 0 ∧ ∃ G, geom R = .ok G ∧ (unrolled R G.leading).2 ≠ (unrolled R G.trailing).2) (n : Int) (h2 : 2 ≤ n) (h5 : n ≤ 500) :
    ∃ p, ReversePropeller.new .bladeX interp geom radii n = .ok p := by
  have : ∀ l : Arr, (∀ R ∈ l, R ≠ 0 ∧ ∃ G, geom R = .ok G ∧ (unrolled R G.leading).2 ≠ (unrolled R G.trailing).2) →
      ∃ ss, (l.mapM fun r => do section' .bladeX interp n.toNat r (← geom r)) = .ok ss := by
    intro l
    induction l with
    | nil => intro _; exact ⟨[], rfl⟩
    | cons R l ih =>
      intro hl
      obtain ⟨ss, hss⟩ := ih fun R' hR' => hl R' (by simp [hR'])
      obtain ⟨hR, G, hG, hd⟩ := hl R (by simp)
      obtain ⟨S, hS⟩ := sectionBladeX_total hi (n := n.toNat) (by omega) (by omega) hR hd
      refine ⟨S :: ss, ?_⟩
      simp only [bind, Except.bind, section'] at hss
      simp only [List.mapM_cons, bind, Except.bind, hG, section', hS, hss, pure, Except.pure]
  obtain ⟨ss, hss⟩ := this radii hg
  refine ⟨⟨.bladeX, radii, n.toNat, ss⟩, ?_⟩
  simp only [ReversePropeller.new, if_neg (show ¬ n < 0 by omega), hss]
  rfl

/-- **C72** `ReversePropeller` accepts every positive number of points under the same conditions (angles from 0 to 2 pi); without any radius
both classes accept every number that is not negative. -/
theorem C72_accepted_generic (interp : List Pt → Res (ℝ → ℝ)) (hi : ∀ l, ∃ f, interp l = .ok f) (geom : ℝ → Res SectionGeom) (n : Int) :
    (∀ radii : Arr, (∀ R ∈ radii, R ≠ 0 ∧ ∃ G, geom R = .ok G ∧ (unrolledPos R G.leading).2 ≠ (unrolledPos R G.trailing).2) → 1 ≤ n →
      ∃ p, ReversePropeller.new .generic interp geom radii n = .ok p) ∧
    (0 ≤ n → ∀ kind, ∃ p, ReversePropeller.new kind interp geom [] n = .ok p ∧ p.sections = []) := by
  constructor
  · intro radii hg h1
    have : ∀ l : Arr, (∀ R ∈ l, R ≠ 0 ∧ ∃ G, geom R = .ok G ∧ (unrolledPos R G.leading).2 ≠ (unrolledPos R G.trailing).2) →
        ∃ ss, (l.mapM fun r => do section' .generic interp n.toNat r (← geom r)) = .ok ss := by
      intro l
      induction l with
      | nil => intro _; exact ⟨[], rfl⟩
      | cons R l ih =>
        intro hl
        obtain ⟨ss, hss⟩ := ih fun R' hR' => hl R' (by simp [hR'])
        obtain ⟨hR, G, hG, hd⟩ := hl R (by simp)
        obtain ⟨S, hS⟩ := sectionGeneric_total hi (n := n.toNat) (by omega) hR hd
        refine ⟨S :: ss, ?_⟩
        simp only [bind, Except.bind, section'] at hss
        simp only [List.mapM_cons, bind, Except.bind, hG, section', hS, hss, pure, Except.pure]
    obtain ⟨ss, hss⟩ := this radii hg
    refine ⟨⟨.generic, radii, n.toNat, ss⟩, ?_⟩
    simp only [ReversePropeller.new, if_neg (show ¬ n < 0 by omega), hss]
    rfl
  · intro h0 kind
    refine ⟨⟨kind, [], n.toNat, []⟩, ?_, rfl⟩
    simp only [ReversePropeller.new, if_neg (not_lt.2 h0)]
    rfl

/-- The hypotheses of C62 are met: a section of chord 1 at radius 1, unturned and turned (every interpolation defined). -/
example : ∃ G G' S S', (G.leading = onBlade true 1 1 0 0 0 (0, 0) ∧ G.trailing = onBlade true 1 1 0 0 0 (1, 0)) ∧
    (G'.leading = rotX Real.pi (onBlade true 1 1 0 0 0 (0, 0)) ∧ G'.trailing = rotX Real.pi (onBlade true 1 1 0 0 0 (1, 0))) ∧
    angleOn true 1 1 0 0 0 (0, 0) = 1 / 2 ∧ angleOn true 1 1 0 0 0 (1, 0) = -1 / 2 ∧
    sectionGeneric (fun _ => .ok fun _ => 0) 9 (1000 * 1) G = .ok S ∧ sectionGeneric (fun _ => .ok fun _ => 0) 9 (1000 * 1) G' = .ok S' := by
  have hpi := Real.pi_gt_three
  have a0 : angleOn true 1 1 0 0 0 (0, 0) = 1 / 2 := by simp [angleOn, placed]
  have a1 : angleOn true 1 1 0 0 0 (1, 0) = -1 / 2 := by norm_num [angleOn, placed]
  have w : ∀ (q : Pt), (0 ≤ q.2 ∧ q.2 < 2 * Real.pi) →
      unrolledPos (1000 * 1) (1000 * (wrap 1 q).1, 1000 * (wrap 1 q).2.1, 1000 * (wrap 1 q).2.2) = (1000 * q.1, 1000 * q.2) :=
    fun q hq => unrolledPos_wrap one_pos (by simpa using hq)
  have p0 : placed true 1 1 0 0 0 (1 / 2, 0) (0, 0) = (0, 1 / 2) := by simp [placed]
  have p1 : placed true 1 1 0 0 0 (1 / 2, 0) (1, 0) = (0, -1 / 2) := by norm_num [placed]
  have t0 : unrolledPos (1000 * 1) (onBlade true 1 1 0 0 0 (0, 0)) = (1000 * 0, 1000 * (1 / 2)) := by
    rw [onBlade_eq, p0]; exact w (0, 1 / 2) ⟨by norm_num, by simp only; linarith⟩
  have t1 : unrolledPos (1000 * 1) (onBlade true 1 1 0 0 0 (1, 0)) = (1000 * 0, 1000 * (-1 / 2 + 2 * Real.pi)) := by
    have := w (0, -1 / 2 + 2 * Real.pi) ⟨by simp only; linarith, by simp only; linarith⟩
    rw [onBlade_eq, p1, ← this]
    have e : wrap 1 (0, -1 / 2 + 2 * Real.pi) = wrap 1 (0, -1 / 2) := by
      have := (C47_distances 1 one_pos (0, -1 / 2) (0, 0)).2.2.1
      simpa using this
    rw [e]
  have s0 : unrolledPos (1000 * 1) (rotX Real.pi (onBlade true 1 1 0 0 0 (0, 0))) = (1000 * 0, 1000 * (1 / 2 + Real.pi * 1)) := by
    rw [onBlade_eq, p0, rotX_wrap 1 one_ne_zero]; exact w (0, 1 / 2 + Real.pi * 1) ⟨by simp only; linarith, by simp only; linarith⟩
  have s1 : unrolledPos (1000 * 1) (rotX Real.pi (onBlade true 1 1 0 0 0 (1, 0))) = (1000 * 0, 1000 * (-1 / 2 + Real.pi * 1)) := by
    rw [onBlade_eq, p1, rotX_wrap 1 one_ne_zero]; exact w (0, -1 / 2 + Real.pi * 1) ⟨by simp only; linarith, by simp only; linarith⟩
  have total : ∀ G : SectionGeom, (unrolledPos (1000 * 1) G.leading).2 ≠ (unrolledPos (1000 * 1) G.trailing).2 →
      ∃ S, sectionGeneric (fun _ => .ok fun _ => 0) 9 (1000 * 1) G = .ok S := by
    intro G hd
    exact sectionGeneric_total (fun _ => ⟨_, rfl⟩) (by norm_num) (by norm_num) hd
  let G : SectionGeom := ⟨onBlade true 1 1 0 0 0 (0, 0), onBlade true 1 1 0 0 0 (1, 0), fun _ => 0, fun _ => 0, fun _ => 0, fun _ => 0⟩
  let G' : SectionGeom := ⟨rotX Real.pi (onBlade true 1 1 0 0 0 (0, 0)), rotX Real.pi (onBlade true 1 1 0 0 0 (1, 0)), fun _ => 0, fun _ => 0,
    fun _ => 0, fun _ => 0⟩
  obtain ⟨S, hS⟩ := total G (by simp only [G]; rw [t0, t1]; simp only; intro h; linarith)
  obtain ⟨S', hS'⟩ := total G' (by simp only [G']; rw [s0, s1]; simp only; intro h; linarith)
  exact ⟨G, G', S, S', ⟨rfl, rfl⟩, ⟨rfl, rfl⟩, a0, a1, hS, hS'⟩

end
end BladeX
