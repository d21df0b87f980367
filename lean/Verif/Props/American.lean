import Verif.Lemmas.American
import Verif.Props.CustomRoundtrip

/-! # C80: american thickness -/

namespace BladeX
noncomputable section
open Classical Spec Profile

/-- **C80** The american thickness of an airfoil of one length, with an exact root finder: at every station there is a point `Q i` on the lower
curve (the interpolant of the lower surface) on the normal of the mean line through the point of abscissa `x_i - min x` (vertically from the
station's own abscissa where the mean line is horizontal), and the thickness is twice its distance from the mean line. Only station 1
may be an exception: if its mirror image would lie before the first abscissa, the thickness of station 2 is taken. -/
theorem C80_thickness (curve : Arr → Arr → Res (ℝ → ℝ)) (newton : (Arr → Arr) → Arr → Res Arr) (hn : ExactSolver newton) (P : Profile)
    (hu : P.yup.length = P.xup.length) (hd : P.ydown.length = P.xup.length) (hx : P.xdown.length = P.xup.length)
    (hcam : ¬ MaxOf ((List.range P.xup.length).map P.meanY) 0) (t : Arr) (h : P.americanThickness curve newton = .ok t) :
    ∃ (f : ℝ → ℝ) (mn : ℝ) (Q : Nat → Pt), curve P.xdown P.ydown = .ok f ∧ MinOf P.xup mn ∧ t.length = P.xup.length ∧
      (∀ i < P.xup.length, (Q i).2 = f (Q i).1 ∧ (P.meanSlope i = 0 → (Q i).1 = P.xdown.getD i 0) ∧
        (P.meanSlope i ≠ 0 → ((Q i).1 - (P.xup.getD i 0 - mn)) * 1 + ((Q i).2 - P.meanY i) * P.meanSlope i = 0)) ∧
      (∀ i < P.xup.length, i ≠ 1 → t[i]? = some (2 * dist2 (P.xup.getD i 0 - mn, P.meanY i) (Q i))) ∧
      (2 * (P.xup.getD 1 0 - mn) - (Q 1).1 < P.xup.getD 0 0 → 3 ≤ P.xup.length ∧ t[1]? = t[2]?) ∧
      (P.xup.getD 0 0 ≤ 2 * (P.xup.getD 1 0 - mn) - (Q 1).1 → t[1]? = some (2 * dist2 (P.xup.getD 1 0 - mn, P.meanY 1) (Q 1))) := by
  unfold americanThickness at h
  simp only [bndA] at h
  obtain ⟨p, hp, h⟩ := h
  obtain ⟨mn, hmn, l1, l2, hch, hX, hC, mc, hmc, hcm⟩ := partialParams_ok hu hd hp
  have hcm0 : p.camberMax ≠ 0 := by
    rw [hcm]; intro h0; rw [abs_eq_zero] at h0; exact hcam (h0 ▸ hmc)
  replace hC := hC hcm0
  rw [if_neg (by simp [l2, hx])] at h
  split_ifs at h with hs
  · exact absurd h (by simp [throw, throwThe, MonadExceptOf.throw, bind, Except.bind])
  simp only [bndA] at h
  obtain ⟨f, hf, xd, hxd, x0, hx0, st, hst, h⟩ := h
  obtain rfl := Except.ok.inj h
  obtain ⟨hl, hQ⟩ := amXdown_spec hn (by rw [l1, hx]) hxd
  obtain ⟨q1, hq1, hfix⟩ := amFix_ok hst
  have hgetD : ∀ i < P.xup.length, P.xdown[i]? = some (P.xdown.getD i 0) := by
    intro i hi; rw [← hx] at hi; simp [hi]
  have hxdD : ∀ i < P.xup.length, xd[i]? = some (xd.getD i 0) := by
    intro i hi; rw [← hx, ← hl] at hi; simp [hi]
  have hn1 : 1 < P.xup.length := by
    have := List.getElem?_eq_some_iff.1 hq1
    obtain ⟨h1, _⟩ := this
    simpa [hl, hx] using h1
  have hx0' : P.xup.getD 0 0 = x0 := by
    unfold getFirst at hx0
    rw [List.getD_eq_getElem?_getD, ← List.head?_eq_getElem?]
    cases hh : P.xup.head? with
    | none => simp [hh] at hx0
    | some v => simpa [hh] using hx0
  have hstat : ∀ i < P.xup.length, (xd.mapIdx (amStation f p))[i]? = some (amStation f p i (xd.getD i 0)) := by
    intro i hi; rw [List.getElem?_mapIdx, hxdD i hi]; rfl
  have hdist : ∀ i < P.xup.length, √(((amStation f p i (xd.getD i 0)).1.1 - (amStation f p i (xd.getD i 0)).2.1) ^ 2 +
      ((amStation f p i (xd.getD i 0)).1.2 - (amStation f p i (xd.getD i 0)).2.2) ^ 2) =
      2 * dist2 (P.xup.getD i 0 - mn, P.meanY i) (xd.getD i 0, f (xd.getD i 0)) := by
    intro i hi
    simp only [amStation, dist2]
    rw [show (2 : ℝ) = √(2 ^ 2) by rw [Real.sqrt_sq (by norm_num)], ← Real.sqrt_mul (by positivity)]
    congr 1
    rw [Real.sqrt_sq (by norm_num), ← hX i hi, ← hC i hi]
    ring
  have hup1 : q1.1.1 = 2 * (P.xup.getD 1 0 - mn) - xd.getD 1 0 := by
    rw [hstat 1 hn1] at hq1
    obtain rfl := Option.some.inj hq1
    simp only [amStation]
    rw [← hX 1 hn1]; ring
  refine ⟨f, mn, fun i => (xd.getD i 0, f (xd.getD i 0)), hf, hmn, ?_, ?_, ?_, ?_, ?_⟩
  · rcases hfix with ⟨_, q2, _, rfl⟩ | ⟨_, rfl⟩ <;> simp [hl, hx]
  · intro i hi
    refine ⟨rfl, ?_, ?_⟩
    · intro hm
      have := (hQ i _ (hgetD i hi)).1 (by rw [amHorizontal_iff, amSlope_eq hch hX hC hi, hm])
      rw [hxdD i hi] at this
      exact Option.some.inj this
    · intro hm
      rw [← amSlope_eq hch hX hC hi] at hm
      obtain ⟨y, hy, he⟩ := (hQ i _ (hgetD i hi)).2 (by rwa [amHorizontal_iff])
      rw [hxdD i hi] at hy
      obtain rfl := Option.some.inj hy
      rw [amEquation_zero hm] at he
      rw [← amSlope_eq hch hX hC hi]
      simp only
      rw [← hX i hi, ← hC i hi]
      linarith
  · intro i hi h1
    rw [List.getElem?_map]
    rcases hfix with ⟨_, q2, _, rfl⟩ | ⟨_, rfl⟩
    · rw [List.getElem?_set_ne (Ne.symm h1), hstat i hi, Option.map_some, hdist i hi]
    · rw [hstat i hi, Option.map_some, hdist i hi]
  · intro hc
    rw [hx0'] at hc
    rcases hfix with ⟨_, q2, hq2, rfl⟩ | ⟨h1, rfl⟩
    · obtain ⟨h3, _⟩ := List.getElem?_eq_some_iff.1 hq2
      have h3' : 2 < P.xup.length := by simpa [hl, hx] using h3
      refine ⟨h3', ?_⟩
      rw [List.getElem?_map, List.getElem?_map, List.getElem?_set_self (by simpa [hl, hx] using hn1), List.getElem?_set_ne (by norm_num), hq2]
    · exact absurd (hup1 ▸ hc) h1
  · intro hc
    rw [hx0'] at hc
    rcases hfix with ⟨h1, _⟩ | ⟨_, rfl⟩
    · rw [hup1] at h1; exact absurd hc (not_le.2 h1)
    · rw [List.getElem?_map, hstat 1 hn1, Option.map_some, hdist 1 hn1]

/-- **C80** In the reference position (both surfaces over the same abscissae, the least of them 0) the foot `Q i` of every station lies on the
normal of the mean line through its point of abscissa `x_i`. -/
theorem C80_reference (curve : Arr → Arr → Res (ℝ → ℝ)) (newton : (Arr → Arr) → Arr → Res Arr) (hn : ExactSolver newton) (P : Profile)
    (hu : P.yup.length = P.xup.length) (hd : P.ydown.length = P.xup.length) (hx : P.xdown = P.xup) (h0 : MinOf P.xup 0)
    (hcam : ¬ MaxOf ((List.range P.xup.length).map P.meanY) 0) (t : Arr) (h : P.americanThickness curve newton = .ok t) :
    ∃ f, curve P.xdown P.ydown = .ok f ∧ ∀ i < P.xup.length, i ≠ 1 → ∃ q : Pt, q.2 = f q.1 ∧
      (q.1 - P.xup.getD i 0) * 1 + (q.2 - P.meanY i) * P.meanSlope i = 0 ∧
      t[i]? = some (2 * dist2 (P.xup.getD i 0, P.meanY i) q) := by
  obtain ⟨f, mn, Q, hf, hmn, _, hQ, ht, _⟩ := C80_thickness curve newton hn P hu hd (by rw [hx]) hcam t h
  obtain rfl : mn = 0 := le_antisymm (hmn.2 _ h0.1) (h0.2 _ hmn.1)
  refine ⟨f, hf, fun i hi h1 => ⟨Q i, (hQ i hi).1, ?_, by simpa using ht i hi h1⟩⟩
  by_cases hm : P.meanSlope i = 0
  · rw [(hQ i hi).2.1 hm, hx, hm]; ring
  · simpa using (hQ i hi).2.2 hm

/-- **C80** The american convention on an airfoil without camber is the british one. -/
theorem C80_zero_camber (american american' : Profile → Res Arr) (P : Profile) (hu : P.yup.length = P.xup.length)
    (hd : P.ydown.length = P.xup.length) (hcam : MaxOf ((List.range P.xup.length).map P.meanY) 0) :
    P.generateParameters american .american = P.generateParameters american' .british := by
  rw [← meanY_list hu hd, ← npMax_ok_iff] at hcam
  unfold generateParameters
  rw [bzip_eq_len (by rw [hu, hd])]
  simp only [bind, Except.bind, hcam, abs_zero, or_true, true_or, if_true]

/-- **C80** What `generate_parameters('american')` stores for an airfoil with camber: the maximum of the american thickness, and the
thickness in parts of it. -/
theorem C80_stored (american : Profile → Res Arr) (P Q : Profile) (hu : P.yup.length = P.xup.length)
    (hd : P.ydown.length = P.xup.length) (hcam : ¬ MaxOf ((List.range P.xup.length).map P.meanY) 0)
    (h : P.generateParameters american .american = .ok Q) :
    ∃ t p, american P = .ok t ∧ Q.par = some p ∧ MaxOf t p.thicknessMax ∧
      ((∀ x ∈ t, 0 ≤ x) → t.length = P.xup.length → p.thicknessPerc.map (fun q => q * p.thicknessMax) = t) := by
  unfold generateParameters at h
  simp only [bndA] at h
  obtain ⟨e, _, mn, hmn, perc, hperc, cam, hc, mc, hmc, t, ht, tm, htm, h⟩ := h
  rw [bzip_eq_len (by rw [hu, hd])] at hc
  obtain rfl := Except.ok.inj hc
  rw [npMax_ok_iff, meanY_list hu hd] at hmc
  have h0 : |mc| ≠ 0 := by
    intro h0; rw [abs_eq_zero] at h0; exact hcam (h0 ▸ hmc)
  have hne : Convention.american ≠ Convention.british := by simp
  simp only [h0, hne, or_self, if_false, if_true] at ht
  obtain rfl := Except.ok.inj h
  rw [npMax_ok_iff] at htm
  refine ⟨t, _, ht, rfl, htm, ?_⟩
  intro hpos hl
  simp only
  split_ifs with hz
  · subst hz
    have : t = List.replicate P.xup.length 0 := by
      rw [List.eq_replicate_iff]
      exact ⟨hl, fun x hx => le_antisymm (htm.2 x hx) (hpos x hx)⟩
    rw [this]; simp
  · rw [List.map_map]
    conv_rhs => rw [← List.map_id t]
    apply List.map_congr_left
    intro x _
    simp only [Function.comp, id]
    field_simp

/-- Two vectors on the normal of direction `(1, m)`, of the same length, both pointing down, are equal. -/
theorem normal_unique {c p q : Pt} {m : ℝ} (hp : (p.1 - c.1) * 1 + (p.2 - c.2) * m = 0) (hq : (q.1 - c.1) * 1 + (q.2 - c.2) * m = 0)
    (hd : dist2 p c = dist2 c q) (hp' : p.2 ≤ c.2) (hq' : q.2 ≤ c.2) : p = q := by
  unfold dist2 at hd
  rw [Real.sqrt_inj (by positivity) (by positivity)] at hd
  have e1 : p.1 - c.1 = -(p.2 - c.2) * m := by linarith
  have e2 : c.1 - q.1 = (q.2 - c.2) * m := by linarith
  rw [e1, e2] at hd
  have e3 : (c.2 - p.2) ^ 2 = (c.2 - q.2) ^ 2 := by
    have : (1 + m ^ 2) * (c.2 - p.2) ^ 2 = (1 + m ^ 2) * (c.2 - q.2) ^ 2 := by linarith
    exact mul_left_cancel₀ (by positivity) this
  have e4 : c.2 - p.2 = c.2 - q.2 := by
    rw [sq_eq_sq₀ (by linarith) (by linarith)] at e3; exact e3
  have e5 : p.2 = q.2 := by linarith
  refine Prod.ext ?_ e5
  rw [e5] at e1
  linarith

/-- The values stored besides the thickness do not depend on the convention. -/
theorem partial_of_generate {american : Profile → Res Arr} {P Q : Profile} {c : Convention} {p : Params}
    (h : P.generateParameters american c = .ok Q) (hp : Q.par = some p) :
    P.partialParams = .ok ⟨p.chordLength, p.chordPerc, p.camberMax, p.camberPerc, 0, []⟩ ∧
    (p.thicknessPerc.length = P.xup.length ∨ ∃ t, (american P = .ok t ∨ bzip (fun a b => |a - b|) P.yup P.ydown = .ok t) ∧
      p.thicknessPerc.length = t.length) := by
  unfold generateParameters at h
  simp only [bndA] at h
  obtain ⟨e, he, mn, hmn, perc, hperc, cam, hc, mc, hmc, t, ht, tm, htm, h⟩ := h
  obtain rfl := Except.ok.inj h
  obtain rfl := Option.some.inj hp
  refine ⟨?_, ?_⟩
  · unfold partialParams
    simp only [he, hmn, hperc, hc, hmc, bind, Except.bind, pure, Except.pure]
  · simp only
    split_ifs with h0
    · left; simp
    · right
      refine ⟨t, ?_, by simp⟩
      split_ifs at ht with h1 h2
      · exact .inr ht
      · exact .inl ht

/-- **C80** Measuring and rebuilding agree: from the parameters that `generate_parameters('american')` stores for an airfoil in the reference
position, the orthogonal construction puts the lower point of every station (station 1 excepted) exactly onto the lower curve, at the
foot where the thickness was measured, provided this foot lies below the mean line. -/
theorem C80_rebuilt (curve : Arr → Arr → Res (ℝ → ℝ)) (newton : (Arr → Arr) → Arr → Res Arr) (hn : ExactSolver newton) (P Q : Profile)
    (hu : P.yup.length = P.xup.length) (hd : P.ydown.length = P.xup.length) (hx : P.xdown = P.xup) (h0 : MinOf P.xup 0)
    (hcam : ¬ MaxOf ((List.range P.xup.length).map P.meanY) 0)
    (h : P.generateParameters (americanThickness curve newton) .american = .ok Q) (p : Params) (hp : Q.par = some p)
    (st : List (Pt × Pt)) (hst : Custom.orthCoordinates p = .ok st) :
    ∃ f, curve P.xdown P.ydown = .ok f ∧ ∀ i < P.xup.length, i ≠ 1 → ∃ q U L : Pt, q.2 = f q.1 ∧
      (q.1 - P.xup.getD i 0) * 1 + (q.2 - P.meanY i) * P.meanSlope i = 0 ∧
      (∀ th, p.thicknessPerc[i]? = some th → th * p.thicknessMax = 2 * dist2 (P.xup.getD i 0, P.meanY i) q) ∧
      st[i]? = some (U, L) ∧ mid U L = (P.xup.getD i 0, P.meanY i) ∧ (q.2 ≤ P.meanY i → L = q) := by
  obtain ⟨t, p', ht, hp', htm, hperc⟩ := C80_stored _ P Q hu hd hcam h
  obtain rfl : p' = p := by rw [hp] at hp'; exact (Option.some.inj hp').symm
  obtain ⟨f, mn', Q', hf, hmn', hlt, _⟩ := C80_thickness curve newton hn P hu hd (by rw [hx]) hcam t ht
  obtain ⟨f', hf', hfoot⟩ := C80_reference curve newton hn P hu hd hx h0 hcam t ht
  obtain rfl : f' = f := by rw [hf] at hf'; exact (Except.ok.inj hf').symm
  obtain ⟨hpp, hlen⟩ := partial_of_generate h hp
  obtain ⟨mn, hmn, l1, l2, hch, hX, hC, mc, hmc, hcm⟩ := partialParams_ok hu hd hpp
  simp only at l1 l2 hch hX hC hcm
  obtain rfl : mn = 0 := le_antisymm (hmn.2 _ h0.1) (h0.2 _ hmn.1)
  have hcm0 : p'.camberMax ≠ 0 := by
    rw [hcm]; intro h0; rw [abs_eq_zero] at h0; exact hcam (h0 ▸ hmc)
  replace hC := hC hcm0
  have hpos : ∀ x ∈ t, 0 ≤ x := by
    unfold americanThickness at ht
    simp only [bndA] at ht
    obtain ⟨p0, _, ht⟩ := ht
    have thr : ∀ {α β : Type} {e : PyErr} {k : α → Res β} {z : β}, ¬ ((throw e : Res α) >>= k) = .ok z := by
      intro α β e k z; simp [throw, throwThe, MonadExceptOf.throw, bind, Except.bind]
    split_ifs at ht <;> first | exact absurd ht thr | skip
    · simp only [bndA] at ht
      obtain ⟨_, _, _, _, _, _, _, _, ht⟩ := ht
      obtain rfl := Except.ok.inj ht
      simp only [List.mem_map]
      rintro x ⟨q, _, rfl⟩
      positivity
  replace hperc := hperc hpos hlt
  have l3 : p'.thicknessPerc.length = P.xup.length := by
    have := congrArg List.length hperc
    rw [List.length_map] at this
    rw [this, hlt]
  obtain ⟨_, hst2, _⟩ := C20_orthogonal p' (by rw [l2, l1]) (by rw [l3, l1]) st hst
  have hdef : ¬ Custom.slopeUndefined p' := by
    intro hc
    simp [Custom.orthCoordinates, hc, bind, Except.bind, throw, throwThe, MonadExceptOf.throw] at hst
  refine ⟨f', hf, fun i hi h1 => ?_⟩
  obtain ⟨q, hq1, hq2, hq3⟩ := hfoot i hi h1
  obtain ⟨U, L, hUL, s, c, th, slope, es, ec, et, hs0, hs1, hmid, _, hdL, hort, hle⟩ := hst2 i h1 (by rw [l1]; exact hi)
  have eX : s * p'.chordLength = P.xup.getD i 0 := by
    have := hX i hi; rw [List.getD_eq_getElem?_getD, es] at this; simpa using this
  have eC : c * p'.camberMax = P.meanY i := by
    have := hC i hi; rw [List.getD_eq_getElem?_getD, ec] at this; simpa using this
  have eT : p'.thicknessMax * th = 2 * dist2 (P.xup.getD i 0, P.meanY i) q := by
    have := congrArg (fun l : Arr => l[i]?) hperc
    simp only [List.getElem?_map, et, hq3, Option.map_some, Option.some.injEq] at this
    linarith
  rw [eX, eC] at hmid
  refine ⟨q, U, L, hq1, hq2, ?_, hUL, hmid, ?_⟩
  · intro th' e
    rw [et] at e
    obtain rfl := Option.some.inj e
    rw [← eT]; ring
  intro hbelow
  have hslope : slope = P.meanSlope i := by
    unfold meanSlope
    split_ifs with hi0
    · exact hs0 hi0
    · have hpred : i - 1 < P.xup.length := by omega
      have gs : p'.chordPerc[i - 1]? = some (p'.chordPerc.getD (i - 1) 0) := by simp [l1 ▸ hpred]
      have gc : p'.camberPerc[i - 1]? = some (p'.camberPerc.getD (i - 1) 0) := by simp [l2 ▸ hpred]
      have := hs1 _ _ (Nat.pos_of_ne_zero hi0) gs gc
      have b := hX (i - 1) hpred
      rw [eX, eC, hX (i - 1) hpred, hC (i - 1) hpred] at this
      have hne : P.xup.getD i 0 - P.xup.getD (i - 1) 0 ≠ 0 := by
        intro hz
        apply hdef
        refine ⟨i, Nat.pos_of_ne_zero hi0, by rw [l1]; exact hi, .inl ?_⟩
        have a := hX i hi
        have : (p'.chordPerc.getD i 0 - p'.chordPerc.getD (i - 1) 0) * p'.chordLength = 0 := by rw [sub_mul, a, b]; linarith
        exact (mul_eq_zero.1 this).resolve_right hch
      rw [eq_div_iff hne]
      linarith
  have m1 : (U.1 + L.1) / 2 = P.xup.getD i 0 := congrArg Prod.fst hmid
  have m2 : (U.2 + L.2) / 2 = P.meanY i := congrArg Prod.snd hmid
  have hTp : 0 ≤ p'.thicknessMax * th := by rw [eT]; unfold dist2; positivity
  apply normal_unique (c := (P.xup.getD i 0, P.meanY i)) (m := slope)
  · simp only
    rw [← m1, ← m2]; linarith
  · simp only; rw [hslope]; exact hq2
  · rw [eX, eC] at hdL
    rw [hdL, abs_of_nonneg hTp, eT]; ring
  · have := hle hTp
    simp only; rw [← m2]; linarith
  · exact hbelow

/-- **C80** When the american thickness is defined: three stations or more, consecutive abscissae distinct, a lower curve, and a foot on every
inclined normal that the root finder is able to find. -/
theorem C80_defined (curve : Arr → Arr → Res (ℝ → ℝ)) (newton : (Arr → Arr) → Arr → Res Arr) (hn : ExactSolver newton)
    (hcomp : ∀ g x, (∃ r : Arr, r.length = x.length ∧ ∀ v ∈ g r, v = 0) → ∃ r, newton g x = .ok r) (P : Profile)
    (hu : P.yup.length = P.xup.length) (hd : P.ydown.length = P.xup.length) (hx : P.xdown.length = P.xup.length) (h3 : 3 ≤ P.xup.length)
    (le te : Pt) (he : P.updateEdges = .ok (le, te)) (hc : dist2 le te ≠ 0)
    (hcam : ¬ MaxOf ((List.range P.xup.length).map P.meanY) 0)
    (hdist : ∀ i, i + 1 < P.xup.length → P.xup.getD (i + 1) 0 ≠ P.xup.getD i 0)
    (f : ℝ → ℝ) (hf : curve P.xdown P.ydown = .ok f) (mn : ℝ) (hmn : MinOf P.xup mn)
    (hfoot : ∀ i < P.xup.length, P.meanSlope i ≠ 0 → ∃ x, (x - (P.xup.getD i 0 - mn)) * 1 + (f x - P.meanY i) * P.meanSlope i = 0) :
    ∃ t, P.americanThickness curve newton = .ok t := by
  have hne : P.xup ≠ [] := by rintro h; rw [h] at h3; simp at h3
  obtain ⟨p, hp⟩ : ∃ p, P.partialParams = .ok p := by
    unfold partialParams
    have e1 : npMin P.xup = .ok mn := npMin_ok_iff.2 hmn
    have e2 : bzip (fun a b => (a + b) / 2) P.yup P.ydown = .ok ((List.range P.xup.length).map P.meanY) := by
      rw [bzip_eq_len (by rw [hu, hd]), meanY_list hu hd]
    obtain ⟨mc, hmc⟩ : ∃ mc, npMax ((List.range P.xup.length).map P.meanY) = .ok mc := npMax_exists (by simpa using hne)
    have e3 : √((le.1 - te.1) ^ 2 + (le.2 - te.2) ^ 2) ≠ 0 := hc
    simp only [he, e1, e2, hmc, divScalar, if_neg e3, bind, Except.bind, pure, Except.pure]
    exact ⟨_, rfl⟩
  obtain ⟨mn', hmn', l1, l2, hch, hX, hC, mc, hmc, hcm⟩ := partialParams_ok hu hd hp
  obtain rfl : mn' = mn := le_antisymm (hmn'.2 _ hmn.1) (hmn.2 _ hmn'.1)
  have hcm0 : p.camberMax ≠ 0 := by
    rw [hcm]; intro h0; rw [abs_eq_zero] at h0; exact hcam (h0 ▸ hmc)
  replace hC := hC hcm0
  have hs : ¬ Custom.slopeUndefined p := by
    rintro ⟨i, i0, i1, h | h⟩
    · obtain ⟨j, rfl⟩ : ∃ j, i = j + 1 := ⟨i - 1, by omega⟩
      rw [l1] at i1
      have a := hX _ i1
      have b := hX j (by omega)
      apply hdist j i1
      simp only [Nat.add_sub_cancel] at h
      rw [sub_eq_zero.1 h, b] at a
      linarith
    · exact hch h
  have hin : ∀ i ∈ amInclined p, ∃ x, amEquation f p i x = 0 := by
    intro i hi
    simp only [amInclined, List.mem_filter, List.mem_range, decide_eq_true_eq] at hi
    obtain ⟨hi1, hi2⟩ := hi
    rw [l1] at hi1
    rw [amHorizontal_iff] at hi2
    have hm := hi2
    rw [amSlope_eq hch hX hC hi1] at hm
    obtain ⟨x, hx⟩ := hfoot i hi1 hm
    refine ⟨x, (amEquation_zero hi2).2 ?_⟩
    rw [amSlope_eq hch hX hC hi1, hX i hi1, mul_comm p.camberMax, hC i hi1]
    linarith
  choose! z hz using hin
  obtain ⟨r, hr⟩ := hcomp (fun x => List.zipWith (amEquation f p) (amInclined p) x) ((amInclined p).map fun i => P.xdown.getD i 0)
    ⟨(amInclined p).map z, by simp, by
      intro v hv
      rw [List.zipWith_map_right, List.zipWith_self] at hv
      simp only [List.mem_map] at hv
      obtain ⟨i, hi, rfl⟩ := hv
      exact hz i hi⟩
  have hr1 := (hn _ _ _ hr).1
  obtain ⟨xd, hxd⟩ : ∃ xd, amXdown newton f P p = .ok xd := by
    unfold amXdown
    simp only [hr, bind, Except.bind, hr1, ne_eq, not_true, if_false, pure, Except.pure]
    exact ⟨_, rfl⟩
  obtain ⟨hl, _⟩ := amXdown_spec hn (by rw [l1, hx]) hxd
  obtain ⟨x0, hx0⟩ : ∃ x0, getFirst P.xup = .ok x0 := by
    cases hxx : P.xup with
    | nil => exact absurd hxx hne
    | cons a l => exact ⟨a, rfl⟩
  have hl' : (xd.mapIdx (amStation f p)).length = P.xup.length := by simp [hl, hx]
  obtain ⟨st, hst⟩ : ∃ st, amFix x0 (xd.mapIdx (amStation f p)) = .ok st := by
    unfold amFix
    have g1 : getIdx (xd.mapIdx (amStation f p)) 1 = .ok (xd.mapIdx (amStation f p))[1] := by
      rw [getIdx, List.getElem?_eq_getElem]
    have g2 : getIdx (xd.mapIdx (amStation f p)) 2 = .ok (xd.mapIdx (amStation f p))[2] := by
      rw [getIdx, List.getElem?_eq_getElem]
    simp only [g1, g2, bind, Except.bind, pure, Except.pure]
    split_ifs <;> exact ⟨_, rfl⟩
  unfold americanThickness
  simp only [hp, bind, Except.bind, l2, hx, ne_eq, not_true, or_self, if_false, hs, hf, hxd, hx0, hst, pure, Except.pure]
  exact ⟨_, rfl⟩

/-! ## A concrete airfoil -/

/-- A root finder that finds a root whenever there is one. -/
def Sample.solver (g : Arr → Arr) (x : Arr) : Res Arr :=
  if h : ∃ r : Arr, r.length = x.length ∧ ∀ v ∈ g r, v = 0 then .ok h.choose else .error .runtimeError

theorem Sample.solver_exact : ExactSolver Sample.solver := by
  intro g x r h
  unfold Sample.solver at h
  split_ifs at h with hr
  obtain rfl := Except.ok.inj h
  exact hr.choose_spec

theorem Sample.solver_complete (g : Arr → Arr) (x : Arr) (h : ∃ r : Arr, r.length = x.length ∧ ∀ v ∈ g r, v = 0) :
    ∃ r, Sample.solver g x = .ok r := by
  unfold Sample.solver
  rw [dif_pos h]
  exact ⟨_, rfl⟩

/-- Lower surface on the x-axis, upper surface `y = x + 1`, moved by `d` along the x-axis. -/
def Sample.wedge (d : ℝ) : Profile := { xup := [d, d + 1, d + 2], xdown := [d, d + 1, d + 2], yup := [1, 2, 3], ydown := [0, 0, 0] }

/-- Hypotheses of C80 met: the american thickness of the wedge is defined, wherever it stands. -/
theorem Sample.wedge_defined (d : ℝ) : ∃ t, (Sample.wedge d).americanThickness (fun _ _ => .ok fun _ => 0) Sample.solver = .ok t := by
  refine C80_defined _ _ Sample.solver_exact Sample.solver_complete (Sample.wedge d) rfl rfl rfl (by simp [Sample.wedge]) (d, 1) (d + 2, 3 / 2) ?_ ?_ ?_ ?_
    (fun _ => 0) rfl d ?_ ?_
  · rw [Profile.updateEdges_of (P := Sample.wedge d) (xu0 := d) (xd0 := d) (xu1 := d + 2) (xd1 := d + 2) (yu0 := 1) (yu1 := 3) (yd1 := 0)]
    all_goals norm_num [Sample.wedge]
  · unfold dist2
    rw [Real.sqrt_ne_zero']
    norm_num
  · intro h
    have := h.2 (meanY (Sample.wedge d) 0) (List.mem_map.2 ⟨0, by simp [Sample.wedge], rfl⟩)
    norm_num [meanY, Sample.wedge] at this
  · intro i hi
    have : i < 2 := by simp [Sample.wedge] at hi; omega
    interval_cases i <;> simp [Sample.wedge]
  · constructor
    · simp [Sample.wedge]
    · simp [Sample.wedge]
  · intro i hi hm
    refine ⟨((Sample.wedge d).xup.getD i 0 - d) + (Sample.wedge d).meanY i * (Sample.wedge d).meanSlope i, by ring⟩

theorem Sample.wedge_camber (d : ℝ) : ¬ MaxOf ((List.range (Sample.wedge d).xup.length).map (Sample.wedge d).meanY) 0 := by
  intro h
  have := h.2 (meanY (Sample.wedge d) 0) (List.mem_map.2 ⟨0, by simp [Sample.wedge], rfl⟩)
  norm_num [meanY, Sample.wedge] at this

/-- **C80** (violation) The american thickness depends on where the airfoil stands: moving the wedge along the x-axis by 10 changes its first
thickness from 1 to the root of 401, because the station abscissae are measured from the least abscissa and the lower curve is not. -/
theorem C80_not_translation_invariant (newton : (Arr → Arr) → Arr → Res Arr) (hn : ExactSolver newton) (t t' : Arr)
    (h : (Sample.wedge 0).americanThickness (fun _ _ => .ok fun _ => 0) newton = .ok t)
    (h' : ((Sample.wedge 0).translate (10, 0)).americanThickness (fun _ _ => .ok fun _ => 0) newton = .ok t') :
    t[0]? = some 1 ∧ t'[0]? = some (√401) := by
  have first : ∀ (d : ℝ) (t : Arr), (Sample.wedge d).americanThickness (fun _ _ => .ok fun _ => 0) newton = .ok t → t[0]? = some √(1 + 4 * d ^ 2) := by
    intro d t h
    obtain ⟨f, mn, Q, hf, hmn, _, hQ, ht, _⟩ := C80_thickness _ newton hn (Sample.wedge d) rfl rfl rfl (Sample.wedge_camber d) t h
    obtain rfl := Except.ok.inj hf
    have hm : mn = d := by
      have h1 := hmn.2 d (by simp [Sample.wedge])
      have h2 := hmn.1
      simp only [Sample.wedge, List.mem_cons, List.not_mem_nil, or_false] at h2
      rcases h2 with h2 | h2 | h2 <;> linarith
    subst hm
    have n3 : 0 < (Sample.wedge mn).xup.length := by simp [Sample.wedge]
    have q2 := (hQ 0 n3).1
    have q1 := (hQ 0 n3).2.1 (by simp [meanSlope])
    rw [ht 0 n3 (by norm_num)]
    congr 1
    unfold dist2
    rw [q1, q2, show (2 : ℝ) = √(2 ^ 2) by rw [Real.sqrt_sq (by norm_num)], ← Real.sqrt_mul (by positivity)]
    congr 1
    norm_num [Sample.wedge, meanY]
    ring
  refine ⟨by have := first 0 t h; simpa using this, ?_⟩
  have e : (Sample.wedge 0).translate (10, 0) = Sample.wedge 10 := by
    norm_num [Sample.wedge, Profile.translate]
  rw [e] at h'
  rw [first 10 t' h']
  norm_num

/-- Hypotheses met. -/
example : ∃ t t', (Sample.wedge 0).americanThickness (fun _ _ => .ok fun _ => 0) Sample.solver = .ok t ∧
    ((Sample.wedge 0).translate (10, 0)).americanThickness (fun _ _ => .ok fun _ => 0) Sample.solver = .ok t' := by
  have e : (Sample.wedge 0).translate (10, 0) = Sample.wedge 10 := by
    norm_num [Sample.wedge, Profile.translate]
  obtain ⟨t, ht⟩ := Sample.wedge_defined 0
  obtain ⟨t', ht'⟩ := Sample.wedge_defined 10
  exact ⟨t, t', ht, by rw [e, ht']⟩

/-- Hypotheses of C80_stored and C80_rebuilt met by the wedge. -/
example : ∃ Q p st, (Sample.wedge 0).generateParameters (americanThickness (fun _ _ => .ok fun _ => 0) Sample.solver) .american = .ok Q ∧
    Q.par = some p ∧ Custom.orthCoordinates p = .ok st ∧ (Sample.wedge 0).xdown = (Sample.wedge 0).xup ∧ MinOf (Sample.wedge 0).xup 0 := by
  obtain ⟨t, ht⟩ := Sample.wedge_defined 0
  obtain ⟨f, mn, Q, _, hmn, hl, _⟩ := C80_thickness _ _ Sample.solver_exact (Sample.wedge 0) rfl rfl rfl (Sample.wedge_camber 0) t ht
  have he : (Sample.wedge 0).updateEdges = .ok ((0, 1), (2, 3 / 2)) := by
    rw [Profile.updateEdges_of (P := Sample.wedge 0) (xu0 := 0) (xd0 := 0) (xu1 := 2) (xd1 := 2) (yu0 := 1) (yu1 := 3) (yd1 := 0)]
    all_goals norm_num [Sample.wedge]
  have hmin : MinOf (Sample.wedge 0).xup 0 := by constructor <;> simp [Sample.wedge]
  have e1 := npMin_ok_iff.2 hmin
  have e2 : bzip (fun a b => (a + b) / 2) (Sample.wedge 0).yup (Sample.wedge 0).ydown = .ok [1/2, 1, 3/2] := by
    norm_num [bzip, Sample.wedge]
  have e3 : npMax [1/2, 1, 3/2] = .ok (3/2) := by norm_num [npMax]
  have e4 : √(((0 : ℝ) - 2) ^ 2 + (1 - 3/2) ^ 2) ≠ 0 := by rw [Real.sqrt_ne_zero']; norm_num
  have htne : t ≠ [] := by rintro rfl; simp [Sample.wedge] at hl
  obtain ⟨tm, htm⟩ := npMax_exists htne
  have hc : |(3/2 : ℝ)| ≠ 0 := by norm_num
  have hne : Convention.american ≠ Convention.british := by simp
  have hgen : ∃ p : Params, (Sample.wedge 0).generateParameters (americanThickness (fun _ _ => .ok fun _ => 0) Sample.solver) .american =
      .ok { Sample.wedge 0 with par := some p } ∧ p.chordLength = √(((0 : ℝ) - 2) ^ 2 + (1 - 3/2) ^ 2) ∧
      p.chordPerc = ((Sample.wedge 0).xup.map (· - 0)).map (· / √(((0 : ℝ) - 2) ^ 2 + (1 - 3/2) ^ 2)) := by
    unfold generateParameters
    simp only [he, e1, e2, e3, bind, Except.bind, divScalar, if_neg e4, if_neg hc, hc, hne, or_self, if_false, if_true, ht, htm, pure, Except.pure]
    exact ⟨_, rfl, rfl, rfl⟩
  obtain ⟨p, hgen, hp1, hp2⟩ := hgen
  have hdef : ¬ Custom.slopeUndefined p := by
    rintro ⟨i, h0, h1, h2 | h2⟩
    · rw [hp2] at h1 h2
      have : i < 3 := by simpa [Sample.wedge] using h1
      have pos : ¬ √(((0 : ℝ) - 2) ^ 2 + (1 - 3/2) ^ 2) = 0 := e4
      interval_cases i <;>
      · simp only [Sample.wedge, List.map_cons, List.map_nil, List.getD_cons_succ, List.getD_cons_zero, Nat.sub_self, Nat.reduceSub] at h2
        rw [← sub_div, div_eq_zero_iff] at h2
        rcases h2 with h2 | h2
        · norm_num at h2
        · exact pos h2
    · exact e4 (hp1 ▸ h2)
  suffices hs : ∃ st, Custom.orthCoordinates p = .ok st from
    let ⟨st, hst⟩ := hs
    ⟨_, p, st, hgen, rfl, hst, rfl, hmin⟩
  unfold Custom.orthCoordinates
  rw [if_neg hdef, show p.chordPerc.length = 3 by rw [hp2]; simp [Sample.wedge], show List.range 3 = [0, 1, 2] from rfl]
  simp only [bind, Except.bind, pure, Except.pure, getIdx, List.map_cons, List.map_nil, List.getElem?_cons_succ, List.getElem?_cons_zero]
  split_ifs <;> exact ⟨_, rfl⟩

/-! ## The coordinates generated in the american convention -/

/-- **C80** `generate_coordinates('american')`: the abscissae are those of the orthogonal construction, but the lower ordinate of station `i` is
that of the lower curve (the interpolant of the orthogonal points) above the chord station, and the upper ordinate makes their mean the camber. -/
theorem C80_coordinates (curve : Arr → Arr → Res (ℝ → ℝ)) (P Q : Profile) (p : Params) (hC : p.camberPerc.length = p.chordPerc.length)
    (h : Custom.generateCoordinates (Custom.curveOnChord curve) P p .american = .ok Q) :
    ∃ st f, Custom.orthCoordinates p = .ok st ∧ curve (st.map (·.2.1)) (st.map (·.2.2)) = .ok f ∧
      Q.xup = st.map (·.1.1) ∧ Q.xdown = st.map (·.2.1) ∧ Q.ydown = p.chordPerc.map (fun s => f (s * p.chordLength)) ∧
      Q.yup = List.zipWith (fun c s => 2 * (c * p.camberMax) - f (s * p.chordLength)) p.camberPerc p.chordPerc := by
  simp only [Custom.generateCoordinates, Custom.americanCoordinates, Custom.curveOnChord, bndA] at h
  obtain ⟨st, hst, yd, ⟨f, hf, hyd⟩, yu, hyu, h⟩ := h
  obtain rfl := Except.ok.inj hyd
  obtain rfl := Except.ok.inj h
  refine ⟨st, f, hst, hf, rfl, rfl, rfl, ?_⟩
  rw [bzip_eq_len (by simp [hC])] at hyu
  obtain rfl := Except.ok.inj hyu
  simp only
  rw [List.zipWith_map_right]
  congr 1
  funext c s
  ring

/-- Parameters whose orthogonal lower points lie on the line `y = x / 3`. -/
def Sample.slanted : Params := ⟨2, [0, 1/2, 1], 1, [0, 1, 2/3], √2, [0, 1, 0]⟩

theorem Sample.slanted_orth : Custom.orthCoordinates Sample.slanted = .ok [((0, 0), (0, 0)), ((1/2, 3/2), (3/2, 1/2)), ((2, 2/3), (2, 2/3))] := by
  have hdef : ¬ Custom.slopeUndefined Sample.slanted := by
    rintro ⟨i, h0, h1, h2 | h2⟩
    · have : i < 3 := by simpa [Sample.slanted] using h1
      interval_cases i <;> norm_num [Sample.slanted] at h2
    · norm_num [Sample.slanted] at h2
  have s0 : Custom.orthStation Sample.slanted 0 = ((0, 0), (0, 0)) := by
    simp [Custom.orthStation, Custom.camberSlopes, Sample.slanted]
  have q : √2 * √2 = 2 := by norm_num
  have s1 : Custom.orthStation Sample.slanted 1 = ((1/2, 3/2), (3/2, 1/2)) := by
    have e : (Custom.camberSlopes Sample.slanted).getD 1 0 = 1 := by norm_num [Custom.camberSlopes, Sample.slanted]
    have es : Real.sin (Real.arctan 1) = √2 / 2 := by rw [Real.arctan_one, Real.sin_pi_div_four]
    have ec : Real.cos (Real.arctan 1) = √2 / 2 := by rw [Real.arctan_one, Real.cos_pi_div_four]
    unfold Custom.orthStation
    rw [e]
    simp only [es, ec]
    simp only [Sample.slanted, List.getD_cons_succ, List.getD_cons_zero, Prod.mk.injEq]
    refine ⟨⟨?_, ?_⟩, ?_, ?_⟩ <;> linarith
  have s2 : Custom.orthStation Sample.slanted 2 = ((2, 2/3), (2, 2/3)) := by
    norm_num [Custom.orthStation, Sample.slanted]
  have r3 : (List.range Sample.slanted.chordPerc.length).map (Custom.orthStation Sample.slanted) =
      [((0, 0), (0, 0)), ((1/2, 3/2), (3/2, 1/2)), ((2, 2/3), (2, 2/3))] := by
    rw [← s0, ← s1, ← s2]; rfl
  unfold Custom.orthCoordinates
  rw [if_neg hdef, r3]
  norm_num [getIdx, bind, Except.bind, pure, Except.pure]

/-- **C80** (violation) The point that the american convention returns for the lower surface need not lie on the lower surface: with these
parameters every orthogonal lower point lies on the line `y = x / 3`, which is then the lower curve, but the second lower point returned is
`(3/2, 1/3)`. -/
theorem C80_point_off_surface (curve : Arr → Arr → Res (ℝ → ℝ)) (P : Profile) (hcurve : curve [0, 3/2, 2] [0, 1/2, 2/3] = .ok fun x => x / 3) :
    ∃ Q, Custom.generateCoordinates (Custom.curveOnChord curve) P Sample.slanted .american = .ok Q ∧
      Q.xdown[1]? = some (3/2) ∧ Q.ydown[1]? = some (1/3) ∧ (fun x : ℝ => x / 3) (3/2) ≠ 1/3 := by
  simp only [Custom.generateCoordinates, Custom.americanCoordinates, Custom.curveOnChord, Sample.slanted_orth, bind, Except.bind, pure, Except.pure,
    List.map_cons, List.map_nil, hcurve]
  rw [bzip_eq_len (by simp [Sample.slanted])]
  refine ⟨_, rfl, rfl, ?_, by norm_num⟩
  norm_num [Sample.slanted]

/-- Hypothesis met by an interpolating curve fit: the line itself on this data. -/
example : ∃ curve : Arr → Arr → Res (ℝ → ℝ), Interpolating curve ∧ curve [0, 3/2, 2] [0, 1/2, 2/3] = .ok fun x => x / 3 := by
  refine ⟨fun xs ys => if xs = [0, 3/2, 2] ∧ ys = [0, 1/2, 2/3] then .ok (fun x => x / 3) else .error .linAlgError, ?_, by simp⟩
  intro xs ys f h i x y hx hy
  simp only at h
  split_ifs at h with hc
  obtain rfl := Except.ok.inj h
  obtain ⟨rfl, rfl⟩ := hc
  rcases i with _ | _ | _ | i <;> simp at hx hy <;> subst hx <;> subst hy <;> norm_num

end
end BladeX
