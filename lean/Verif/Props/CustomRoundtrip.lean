import Verif.Props.Custom

/-! # C17 - C20: coordinates and parameters of `CustomProfile` -/

namespace BladeX
open Spec Custom

/-- The british coordinates, in closed form. -/
theorem british_eq (P : Profile) (p : Params) (h : p.camberPerc.length = p.thicknessPerc.length) :
    britishCoordinates P p = .ok { P with
      xup := p.chordPerc.map (· * p.chordLength)
      xdown := p.chordPerc.map (· * p.chordLength)
      yup := List.zipWith (fun c t => c * p.camberMax + p.thicknessMax / 2 * t) p.camberPerc p.thicknessPerc
      ydown := List.zipWith (fun c t => c * p.camberMax - p.thicknessMax / 2 * t) p.camberPerc p.thicknessPerc } := by
  simp only [britishCoordinates, bzip_eq_len h, bind, Except.bind, pure, Except.pure]

theorem MinOf.unique {l : List ℝ} {a b : ℝ} (ha : MinOf l a) (hb : MinOf l b) : a = b :=
  le_antisymm (ha.2 _ hb.1) (hb.2 _ ha.1)

/-- **C19** a profile constructed from parameters has, at every station, the prescribed abscissa on both surfaces, mean
ordinate `camber_max * camber_perc` and gap `thickness_max * thickness_perc`; all four arrays have the length of the
percentages. With a non-negative thickness percentage the upper surface is not below the lower one. -/
theorem C19_british (american : Profile → Res Arr) (kw : Kwargs) (hk : kw.keys.toFinset =
      {"chord_perc", "camber_perc", "thickness_perc", "camber_max", "thickness_max", "chord_len"})
    (Q : Profile) (hQ : ctor american kw = .ok Q) :
    ∃ p, Q.par = some p ∧ Q.xup.length = p.chordPerc.length ∧ Q.Uniform ∧ Q.xdown = Q.xup ∧
      ∀ (i : Nat) (s c t : ℝ), p.chordPerc[i]? = some s → p.camberPerc[i]? = some c → p.thicknessPerc[i]? = some t →
        ∃ x u d, Q.xup[i]? = some x ∧ Q.xdown[i]? = some x ∧ Q.yup[i]? = some u ∧ Q.ydown[i]? = some d ∧
          x = s * p.chordLength ∧ (u + d) / 2 = p.camberMax * c ∧ u - d = p.thicknessMax * t ∧ (0 ≤ t → d ≤ u) := by
  have hne : kw.keys.toFinset ≠ coordKeys := by rw [hk]; decide
  obtain ⟨h1, h2⟩ := C16_ctor american kw hk
  rcases h2 with h2 | ⟨Q', p, hQ', hp, a1, a2, a3, a4, a5, a6⟩
  · rw [h2] at hQ; cases hQ
  rw [hQ] at hQ'
  cases hQ'
  have hnot : ¬ ctor american kw = .error .valueError := by rw [hQ]; simp
  rw [h1] at hnot
  simp only [a1, a2, a3, a4, a5, a6, reduceCtorEq, false_or, Option.some.injEq, exists_eq_left', Option.map_some, ne_eq,
    not_or, not_not, not_lt] at hnot
  obtain ⟨c1, c2, c3, c4⟩ := hnot
  have hct : p.camberPerc.length = p.thicknessPerc.length := by rw [c3, c4]
  have hrun : ctor american kw = britishCoordinates { xup := [], xdown := [], yup := [], ydown := [], par := some p } p := by
    unfold ctor
    rw [if_neg hne, if_pos (show kw.keys.toFinset = paramKeys from hk)]
    simp only [checkParameters, a1, a2, a3, a4, a5, a6, require, bind, Except.bind, pure, Except.pure, throw, throwThe,
      MonadExceptOf.throw, not_lt.2 c1, not_lt.2 c2, c3, c4, ne_eq, not_true_eq_false, if_false]
  rw [british_eq _ _ hct, hQ] at hrun
  have hQe := Except.ok.inj hrun
  subst hQe
  refine ⟨p, rfl, by simp, ⟨by simp [c3, c4], by simp, by simp [c3, c4]⟩, rfl, ?_⟩
  intro i s c t hs hc ht
  refine ⟨s * p.chordLength, c * p.camberMax + p.thicknessMax / 2 * t, c * p.camberMax - p.thicknessMax / 2 * t,
    by simp [hs], by simp [hs], by simp [List.getElem?_zipWith, hc, ht], by simp [List.getElem?_zipWith, hc, ht], rfl,
    by ring, by ring, ?_⟩
  intro h0
  have : 0 ≤ p.thicknessMax / 2 * t := by positivity
  linarith

example (american : Profile → Res Arr) : ∃ Q, ctor american Sample.paramsKw = .ok Q := by
  rcases (C16_ctor american Sample.paramsKw (by decide)).2 with h | ⟨Q, _, h, _⟩
  · have := (C16_ctor american Sample.paramsKw (by decide)).1.1 h
    exfalso
    simp [Sample.paramsKw, Sample.params] at this
    norm_num at this
  · exact ⟨Q, h⟩

/-- **C17** coordinates → british parameters → british coordinates. For a foil over common abscissae whose smallest
abscissa is 0, with upper surface not below the lower one and non-zero chord, the round trip succeeds; it returns the
original coordinates **iff** the largest camber ordinate is not zero or the camber vanishes identically. -/
theorem C17_roundtrip (american : Profile → Res Arr) (P : Profile) (h : P.SameX) (le te : Pt)
    (he : P.updateEdges = .ok (le, te)) (hc : dist2 le te ≠ 0) (h0 : MinOf P.xup 0)
    (hle : ∀ (i : Nat) (u d : ℝ), P.yup[i]? = some u → P.ydown[i]? = some d → d ≤ u) (mc : ℝ)
    (hmc : MaxOf (List.zipWith (fun a b => (a + b) / 2) P.yup P.ydown) mc) :
    ∃ Q p R, P.generateParameters american .british = .ok Q ∧ Q.par = some p ∧
      britishCoordinates Q p = .ok R ∧ R.xup = P.xup ∧ R.xdown = P.xdown ∧
      (P.SameCoords R ↔ (mc ≠ 0 ∨ ∀ y ∈ List.zipWith (fun a b => (a + b) / 2) P.yup P.ydown, y = 0)) := by
  obtain ⟨hx, hu, hd, hne⟩ := h
  obtain ⟨Q, p, hQ, hp, _, hch, ⟨mn, hmn, hperc⟩, htm, hth, ⟨mc', hmc', hcm⟩, hcam, hcam0⟩ :=
    C14_parameters american P le te he hc hu hd
  obtain rfl : mn = 0 := MinOf.unique hmn h0
  obtain rfl : mc' = mc := MaxOf.unique hmc' hmc
  have hud : P.yup.length = P.ydown.length := by omega
  have hthl : p.thicknessPerc.length = P.xup.length := by
    have := congrArg List.length hth
    simpa [hu, hd] using this
  have hcl : p.camberPerc.length = P.xup.length := by
    by_cases hz : p.camberMax = 0
    · rw [hcam0 hz]; simp
    · have := congrArg List.length (hcam hz)
      simpa [hu, hd] using this
  have hbr := british_eq Q p (by rw [hcl, hthl])
  have hxs : p.chordPerc.map (· * p.chordLength) = P.xup := by
    rw [hperc]; simp
  refine ⟨Q, p, _, hQ, hp, hbr, hxs, by simp only [hxs, hx], ?_⟩
  -- thickness and camber at each station
  have ht : ∀ i (h1 : i < p.thicknessPerc.length) (h2 : i < P.yup.length) (h3 : i < P.ydown.length),
      p.thicknessPerc[i] * p.thicknessMax = P.yup[i] - P.ydown[i] := by
    intro i h1 h2 h3
    have := List.getElem_of_eq hth (i := i) (by simpa using h1)
    simp only [List.getElem_map, List.getElem_zipWith] at this
    rw [this]
    apply abs_of_nonneg
    have := hle i _ _ (List.getElem?_eq_getElem h2) (List.getElem?_eq_getElem h3)
    linarith
  have hcb : (mc' ≠ 0 ∨ ∀ y ∈ List.zipWith (fun a b => (a + b) / 2) P.yup P.ydown, y = 0) ↔
      (∀ i (h1 : i < p.camberPerc.length) (h2 : i < P.yup.length) (h3 : i < P.ydown.length),
      p.camberPerc[i] * p.camberMax = (P.yup[i] + P.ydown[i]) / 2) := by
    by_cases hz : p.camberMax = 0
    · have hmz : mc' = 0 := by rw [hcm] at hz; simpa using hz
      simp only [hmz, ne_eq, not_true_eq_false, false_or, hz, mul_zero]
      constructor
      · intro hall i h1 h2 h3
        exact (hall _ (List.mem_of_getElem? (i := i) (by
          rw [List.getElem?_zipWith, List.getElem?_eq_getElem h2, List.getElem?_eq_getElem h3]))).symm
      · intro hall y hy
        obtain ⟨i, hi, rfl⟩ := List.getElem_of_mem hy
        have h2 : i < P.yup.length := by simp at hi; omega
        have h3 : i < P.ydown.length := by simp at hi; omega
        rw [List.getElem_zipWith, ← hall i (by omega) h2 h3]
    · have hmz : mc' ≠ 0 := by rw [hcm] at hz; simpa using hz
      simp only [hmz, ne_eq, not_false_eq_true, true_or, true_iff]
      intro i h1 h2 h3
      have := List.getElem_of_eq (hcam hz) (i := i) (by simpa using h1)
      simpa only [List.getElem_map, List.getElem_zipWith] using this
  rw [hcb]
  constructor
  · rintro ⟨_, _, y1, y2⟩ i h1 h2 h3
    have e1 := List.getElem_of_eq y1.symm h2
    have e2 := List.getElem_of_eq y2.symm h3
    simp only [List.getElem_zipWith] at e1 e2
    rw [e1, e2]; ring
  · intro hcs
    refine ⟨hxs, by simp only [hxs, hx], ?_, ?_⟩
    · apply List.ext_getElem
      · simp [hcl, hthl, hu]
      · intro i h1 h2
        have h3 : i < P.ydown.length := by omega
        simp only [List.getElem_zipWith]
        have a := hcs i (by omega) h2 h3
        have b := ht i (by omega) h2 h3
        rw [a]; linear_combination b / 2
    · apply List.ext_getElem
      · simp [hcl, hthl, hd]
      · intro i h1 h3
        have h2 : i < P.yup.length := by omega
        simp only [List.getElem_zipWith]
        have a := hcs i (by omega) h2 h3
        have b := ht i (by omega) h2 h3
        rw [a]; linear_combination - b / 2

/-- **C17** (finding) the round trip really loses information: a foil whose camber is non-positive and touches zero
comes back with its camber erased. -/
theorem C17_negative_camber_lost (american : Profile → Res Arr) :
    ∃ (P Q : Profile) (p : Params) (R : Profile), P.generateParameters american .british = .ok Q ∧ Q.par = some p ∧
      britishCoordinates Q p = .ok R ∧ ¬ P.SameCoords R ∧ R.ydown = R.yup.map (fun y => -y) := by
  set P : Profile := { xup := [0, 1/2, 1], xdown := [0, 1/2, 1], yup := [0, 1/10, 0], ydown := [0, -1/5, 0] } with hP
  have hSX : P.SameX := by simp [hP, Profile.SameX]
  have hsh : P.Shaped := by simp [hP, Profile.Shaped]
  have hE : P.Ends (0, 0) (1, 0) (0, 0) (1, 0) := by simp [hP, Profile.Ends, Profile.upper, Profile.lower]
  have hed : P.updateEdges = .ok ((0, 0), (1, (0 + 0) / 2)) := by
    rw [Profile.updateEdges_ends hsh hE, if_neg (by norm_num)]
  have hmc : MaxOf (List.zipWith (fun a b => (a + b) / 2) P.yup P.ydown) 0 := by
    constructor
    · simp [hP]
    · intro x hx
      simp [hP] at hx
      rcases hx with rfl | rfl | rfl <;> norm_num
  obtain ⟨Q, p, R, h1, h2, h3, _, _, h4⟩ := C17_roundtrip american P hSX _ _ hed (by simp [dist2])
    (by constructor <;> simp [hP]) (by
      intro i u d hu hd
      rcases i with _ | _ | _ | i <;> simp [hP] at hu hd <;> subst hu hd <;> norm_num) 0 hmc
  obtain ⟨Q', p', h1', h2', _, _, _, _, hth, ⟨mc', hm', hcm⟩, _, hz⟩ :=
    C14_parameters american P _ _ hed (by simp [dist2]) rfl rfl
  rw [h1] at h1'; cases h1'
  rw [h2] at h2'; cases h2'
  refine ⟨P, Q, p, R, h1, h2, h3, ?_, ?_⟩
  · rw [h4]
    rintro (h | h)
    · exact h rfl
    · have := h ((1/10 + -1/5) / 2) (by simp [hP])
      norm_num at this
  · have hm0 : p.camberMax = 0 := by rw [hcm, MaxOf.unique hm' hmc]; simp
    have hcl : p.camberPerc.length = p.thicknessPerc.length := by
      have := congrArg List.length hth
      rw [hz hm0]
      simp [hP] at this ⊢
      omega
    rw [british_eq _ _ hcl] at h3
    cases h3
    simp only [hm0, mul_zero, zero_add, zero_sub, List.map_zipWith]

example : Sample.foil.SameX ∧ MinOf Sample.foil.xup 0 ∧
    MaxOf (List.zipWith (fun a b => (a + b) / 2) Sample.foil.yup Sample.foil.ydown) (1/8) := by
  refine ⟨by simp [Sample.foil, Profile.SameX], ⟨by simp [Sample.foil], ?_⟩, ?_, ?_⟩
  · intro x hx; simp [Sample.foil] at hx; rcases hx with rfl | rfl | rfl | rfl <;> norm_num
  · simp [Sample.foil]; norm_num
  · intro x hx; simp [Sample.foil] at hx; rcases hx with rfl | rfl | rfl | rfl <;> norm_num


/-- **C18** normalised british parameters → coordinates → parameters is the identity (all six values), and the
coordinates are not changed by regenerating the parameters. -/
theorem C18_roundtrip (american : Profile → Res Arr) (P : Profile) (p : Params) (h : Normalised p) :
    ∃ Q R, britishCoordinates P p = .ok Q ∧ Q.generateParameters american .british = .ok R ∧
      R.par = some p ∧ Q.SameCoords R := by
  obtain ⟨lC, lT, hL, hmin, c0, c1, k0, k1, t0, t1, tn, hcm, htm⟩ := h
  have hct : p.camberPerc.length = p.thicknessPerc.length := by rw [lC, lT]
  have hbr := british_eq P p hct
  set Q : Profile := { P with
      xup := p.chordPerc.map (· * p.chordLength)
      xdown := p.chordPerc.map (· * p.chordLength)
      yup := List.zipWith (fun c t => c * p.camberMax + p.thicknessMax / 2 * t) p.camberPerc p.thicknessPerc
      ydown := List.zipWith (fun c t => c * p.camberMax - p.thicknessMax / 2 * t) p.camberPerc p.thicknessPerc } with hQ
  have hu : Q.yup.length = Q.xup.length := by simp [hQ, lC, lT]
  have hd : Q.ydown.length = Q.xup.length := by simp [hQ, lC, lT]
  have hed : Q.updateEdges = .ok ((0, 0), (p.chordLength, 0)) := by
    rw [Profile.updateEdges_of (P := Q) (xu0 := 0) (xd0 := 0) (xu1 := p.chordLength) (xd1 := p.chordLength) (yu0 := 0)
      (yu1 := 0) (yd1 := 0), if_neg (by norm_num)]
    · norm_num
    · simp [hQ, c0]
    · simp [hQ, c0]
    · simp [hQ, c1]
    · simp [hQ, c1]
    · simp [hQ, Profile.zipWith_head? _ k0 t0]
    · simp [hQ, Profile.zipWith_getLast? _ hct k1 t1]
    · simp [hQ, Profile.zipWith_getLast? _ hct k1 t1]
  have hdist : dist2 (0, 0) (p.chordLength, 0) = p.chordLength := by
    simp [dist2, Real.sqrt_sq hL.le]
  obtain ⟨R, p', hR, hp, hsc, hch, ⟨mn, hmn, hperc⟩, htm', hth, ⟨mc, hmc, hcm'⟩, hcam, hcam0⟩ :=
    C14_parameters american Q _ _ hed (by rw [hdist]; exact hL.ne') hu hd
  refine ⟨Q, R, hbr, hR, ?_, hsc⟩
  rw [hp]
  congr 1
  -- thickness and camber lists
  have eT : List.zipWith (fun a b => |a - b|) Q.yup Q.ydown = p.thicknessPerc.map (fun t => |p.thicknessMax| * t) := by
    apply List.ext_getElem
    · simp [hQ, lC, lT]
    · intro i h1 h2
      have h3 : i < p.thicknessPerc.length := by simpa using h2
      have := tn _ (List.getElem_mem h3)
      simp only [hQ, List.getElem_zipWith, List.getElem_map]
      rw [show ∀ a b : ℝ, a + b - (a - b) = 2 * b by intros; ring,
        show ∀ a b : ℝ, 2 * (a / 2 * b) = a * b by intros; ring, abs_mul, abs_of_nonneg this]
  have eC : List.zipWith (fun a b => (a + b) / 2) Q.yup Q.ydown = p.camberPerc.map (fun c => p.camberMax * c) := by
    apply List.ext_getElem
    · simp [hQ, lC, lT]
    · intro i h1 h2
      simp only [hQ, List.getElem_zipWith, List.getElem_map]
      ring
  rw [eT] at htm' hth
  rw [eC] at hmc hcam
  have hlen : ∀ l : Arr, l.head? = some 0 → (0 : ℝ) ∈ l := fun l hl => List.mem_of_head? hl
  -- thickness
  have hT : p'.thicknessMax = p.thicknessMax ∧ p'.thicknessPerc = p.thicknessPerc := by
    rcases htm with ⟨hpos, hmax⟩ | ⟨hz, hall⟩
    · rw [abs_of_pos hpos] at htm' hth
      have : p'.thicknessMax = p.thicknessMax := by
        have := MaxOf.map_mono (f := fun t => p.thicknessMax * t)
          (fun a b hab => mul_le_mul_of_nonneg_left hab hpos.le) hmax
        have := MaxOf.unique htm' this
        simpa using this
      refine ⟨this, ?_⟩
      rw [this] at hth
      have hf : (fun q : ℝ => q * p.thicknessMax) = fun t => p.thicknessMax * t := by funext q; ring
      rw [hf] at hth
      exact List.map_injective_iff.2 (fun a b hab => mul_left_cancel₀ hpos.ne' hab) hth
    · rw [hz] at htm' hth
      have h0 : p'.thicknessMax = 0 := by
        have := htm'.1
        simp at this
        exact this.2
      refine ⟨by rw [h0, hz], ?_⟩
      -- percentages are zeros because the maximum is zero
      have := C14_zero_thickness american Q _ _ hed (by rw [hdist]; exact hL.ne') hu hd hR hp h0
      rw [this]
      symm
      apply List.eq_replicate_iff.2
      exact ⟨by rw [lT]; simp [hQ], hall⟩
  have hC : p'.camberMax = p.camberMax ∧ p'.camberPerc = p.camberPerc := by
    rcases hcm with ⟨hpos, hmax⟩ | ⟨hz, hall⟩
    · have hm : mc = p.camberMax := by
        have := MaxOf.map_mono (f := fun t => p.camberMax * t)
          (fun a b hab => mul_le_mul_of_nonneg_left hab hpos.le) hmax
        have := MaxOf.unique hmc this
        simpa using this
      have hm' : p'.camberMax = p.camberMax := by rw [hcm', hm, abs_of_pos hpos]
      refine ⟨hm', ?_⟩
      have := hcam (by rw [hm']; exact hpos.ne')
      rw [hm'] at this
      have hf : (fun q : ℝ => q * p.camberMax) = fun t => p.camberMax * t := by funext q; ring
      rw [hf] at this
      exact List.map_injective_iff.2 (fun a b hab => mul_left_cancel₀ hpos.ne' hab) this
    · have hm : mc = 0 := by
        have := hmc.1
        rw [hz] at this
        simp at this
        exact this.2
      have hm' : p'.camberMax = 0 := by rw [hcm', hm, abs_zero]
      refine ⟨by rw [hm', hz], ?_⟩
      rw [hcam0 hm']
      symm
      apply List.eq_replicate_iff.2
      exact ⟨by rw [lC]; simp [hQ], hall⟩
  have hch' : p'.chordLength = p.chordLength := by rw [hch, hdist]
  have hmn0 : mn = 0 := by
    refine MinOf.unique hmn ⟨?_, ?_⟩
    · simp only [hQ]
      exact List.mem_map.2 ⟨0, hmin.1, by simp⟩
    · intro x hx
      simp only [hQ] at hx
      obtain ⟨y, hy, rfl⟩ := List.mem_map.1 hx
      exact mul_nonneg (hmin.2 _ hy) hL.le
  have hP : p'.chordPerc = p.chordPerc := by
    rw [hmn0, hch'] at hperc
    simp only [hQ, sub_zero, List.map_id'] at hperc
    exact List.map_injective_iff.2 (fun a b hab => mul_right_cancel₀ hL.ne' hab) hperc
  cases p'
  cases p
  simp only at hT hC hch' hP
  rw [hch', hP, hT.1, hT.2, hC.1, hC.2]

example : Normalised Sample.params := by
  refine ⟨rfl, rfl, ?_, ?_, rfl, rfl, rfl, rfl, rfl, rfl, ?_, Or.inl ⟨?_, ?_⟩, Or.inl ⟨?_, ?_⟩⟩
  · norm_num [Sample.params]
  · constructor
    · simp [Sample.params]
    · intro x hx; simp [Sample.params] at hx; rcases hx with rfl | rfl | rfl | rfl <;> norm_num
  · intro x hx; simp [Sample.params] at hx; rcases hx with rfl | rfl | rfl | rfl <;> norm_num
  · norm_num [Sample.params]
  · constructor
    · simp [Sample.params]
    · intro x hx; simp [Sample.params] at hx; rcases hx with rfl | rfl | rfl | rfl <;> norm_num
  · norm_num [Sample.params]
  · constructor
    · simp [Sample.params]
    · intro x hx; simp [Sample.params] at hx; rcases hx with rfl | rfl | rfl | rfl <;> norm_num


/-- One station of the orthogonal construction meets its specification. -/
theorem orthStation_spec (p : Params) (hC : p.camberPerc.length = p.chordPerc.length)
    (hT : p.thicknessPerc.length = p.chordPerc.length) (hdef : ¬ slopeUndefined p) (i : Nat)
    (hi : i < p.chordPerc.length) : OrthAt p i (orthStation p i).1 (orthStation p i).2 := by
  have gs : ∀ (l : Arr) (j : Nat) (v : ℝ), l[j]? = some v → l.getD j 0 = v := by
    intro l j v h; rw [List.getD_eq_getElem?_getD, h]; rfl
  obtain ⟨s, hs⟩ : ∃ s, p.chordPerc[i]? = some s := ⟨_, List.getElem?_eq_getElem hi⟩
  obtain ⟨c, hc⟩ : ∃ c, p.camberPerc[i]? = some c := ⟨_, List.getElem?_eq_getElem (by omega)⟩
  obtain ⟨t, ht⟩ : ∃ t, p.thicknessPerc[i]? = some t := ⟨_, List.getElem?_eq_getElem (by omega)⟩
  set m := (camberSlopes p).getD i 0 with hm
  have hmv : m = if i = 0 then 0 else (p.camberPerc.getD i 0 - p.camberPerc.getD (i - 1) 0) * p.camberMax /
      (p.chordPerc.getD i 0 - p.chordPerc.getD (i - 1) 0) / p.chordLength := by
    rw [hm, List.getD_eq_getElem?_getD]
    simp [camberSlopes, List.getElem?_map, List.getElem?_range hi]
  have hcos := Real.cos_arctan_pos m
  have hsin : Real.sin (Real.arctan m) = m * Real.cos (Real.arctan m) := by
    have := Real.tan_arctan m
    rw [Real.tan_eq_sin_div_cos] at this
    field_simp at this
    linarith
  have hsq := Real.sin_sq_add_cos_sq (Real.arctan m)
  have hU : (orthStation p i).1 = (s * p.chordLength - t * Real.sin (Real.arctan m) * p.thicknessMax / 2,
      c * p.camberMax + p.thicknessMax / 2 * t * Real.cos (Real.arctan m)) := by
    simp only [orthStation, gs _ _ _ hs, gs _ _ _ hc, gs _ _ _ ht, ← hm]
  have hL : (orthStation p i).2 = (s * p.chordLength + t * Real.sin (Real.arctan m) * p.thicknessMax / 2,
      c * p.camberMax - p.thicknessMax / 2 * t * Real.cos (Real.arctan m)) := by
    simp only [orthStation, gs _ _ _ hs, gs _ _ _ hc, gs _ _ _ ht, ← hm]
  refine ⟨s, c, t, m, hs, hc, ht, ?_, ?_, ?_, ?_, ?_, ?_, ?_⟩
  · intro h0; rw [hmv, if_pos h0]
  · intro s' c' h0 hs' hc'
    have hd := hdef
    unfold slopeUndefined at hd
    push Not at hd
    obtain ⟨d1, d2⟩ := hd i h0 hi
    rw [gs _ _ _ hs, gs _ _ _ hs'] at d1
    rw [hmv, if_neg (by omega), gs _ _ _ hs, gs _ _ _ hs', gs _ _ _ hc, gs _ _ _ hc']
    field_simp
  · rw [hU, hL]; simp only [mid]; ext <;> simp <;> ring
  · rw [hU]
    unfold dist2
    rw [show |p.thicknessMax * t| / 2 = |p.thicknessMax * t / 2| by rw [abs_div]; norm_num, ← Real.sqrt_sq_eq_abs]
    congr 1
    simp only
    linear_combination (p.thicknessMax * t / 2) ^ 2 * hsq
  · rw [hL]
    unfold dist2
    rw [show |p.thicknessMax * t| / 2 = |p.thicknessMax * t / 2| by rw [abs_div]; norm_num, ← Real.sqrt_sq_eq_abs]
    congr 1
    simp only
    linear_combination (p.thicknessMax * t / 2) ^ 2 * hsq
  · rw [hU, hL]; simp only [hsin]; ring
  · intro h0
    rw [hU, hL]
    have : 0 ≤ p.thicknessMax / 2 * t * Real.cos (Real.arctan m) := by
      have : p.thicknessMax / 2 * t * Real.cos (Real.arctan m) = (p.thicknessMax * t) / 2 * Real.cos (Real.arctan m) := by
        ring
      rw [this]; positivity
    simp only; linarith

/-- **C20** the orthogonal construction (american convention): one pair of points per station, each meeting `OrthAt`,
except that station 1 is replaced by (almost) station 2 exactly when its upper point would have a negative abscissa. -/
theorem C20_orthogonal (p : Params) (hC : p.camberPerc.length = p.chordPerc.length)
    (hT : p.thicknessPerc.length = p.chordPerc.length) (st : List (Pt × Pt)) (h : orthCoordinates p = .ok st) :
    st.length = p.chordPerc.length ∧
    (∀ i, i ≠ 1 → i < p.chordPerc.length → ∃ U L, st[i]? = some (U, L) ∧ OrthAt p i U L) ∧
    ∃ U L, OrthAt p 1 U L ∧ ((0 ≤ U.1 ∧ st[1]? = some (U, L)) ∨
      (U.1 < 0 ∧ ∃ U2 L2 : Pt, st[2]? = some (U2, L2) ∧
        st[1]? = some (U2 - ((1e-16, 1e-16) : Pt), L2 - ((1e-16, 1e-16) : Pt)))) := by
  unfold orthCoordinates at h
  simp only [bind, Except.bind, pure, Except.pure, throw, throwThe, MonadExceptOf.throw] at h
  by_cases hdef : slopeUndefined p
  · rw [if_pos hdef] at h; cases h
  rw [if_neg hdef] at h
  set raw := (List.range p.chordPerc.length).map (orthStation p) with hraw
  have hget : ∀ i, i < p.chordPerc.length → raw[i]? = some (orthStation p i) := by
    intro i hi; simp [hraw, List.getElem?_range hi]
  have hlen : raw.length = p.chordPerc.length := by simp [hraw]
  have spec := orthStation_spec p hC hT hdef
  by_cases h2 : 1 < p.chordPerc.length
  swap
  · have : raw[1]? = none := List.getElem?_eq_none (by omega)
    simp only [getIdx, this] at h; cases h
  simp only [getIdx, hget 1 h2] at h
  by_cases hneg : (orthStation p 1).1.1 < 0
  · simp only [hneg, if_true] at h
    by_cases h3 : 2 < p.chordPerc.length
    swap
    · have : raw[2]? = none := List.getElem?_eq_none (by omega)
      simp only [this] at h; cases h
    simp only [hget 2 h3] at h
    cases h
    refine ⟨by simp [hlen], ?_, _, _, spec 1 h2, Or.inr ⟨hneg, (orthStation p 2).1, (orthStation p 2).2, ?_, ?_⟩⟩
    · intro i hi hin
      refine ⟨_, _, ?_, spec i hin⟩
      rw [List.getElem?_set_ne (Ne.symm hi), hget i hin]
    · rw [List.getElem?_set_ne (by norm_num), hget 2 h3]
    · rw [List.getElem?_set_self (by omega)]
      rfl
  · simp only [hneg, if_false] at h
    obtain rfl := Except.ok.inj h
    refine ⟨hlen, ?_, _, _, spec 1 h2, Or.inl ⟨not_lt.1 hneg, hget 1 h2⟩⟩
    intro i _ hin
    exact ⟨_, _, hget i hin, spec i hin⟩

/-- **C20** the american coordinates keep the prescribed camber: whatever the interpolated lower surface is, the mean of
the two surfaces at each chord station is `camber_max * camber_perc`. -/
theorem C20_american_mean (curve : Profile → Params → Res Arr) (P Q : Profile) (p : Params)
    (h : generateCoordinates curve P p .american = .ok Q) (hl : Q.ydown.length = p.camberPerc.length)
    (i : Nat) (c d : ℝ) (hc : p.camberPerc[i]? = some c) (hd : Q.ydown[i]? = some d) :
    ∃ u, Q.yup[i]? = some u ∧ (u + d) / 2 = p.camberMax * c := by
  simp only [generateCoordinates, americanCoordinates, bind, Except.bind, pure, Except.pure] at h
  rcases ho : orthCoordinates p with e | st
  · rw [ho] at h; cases h
  rw [ho] at h
  simp only at h
  split at h
  · cases h
  rename_i yd hyd
  rcases hb : bzip (fun c d => 2 * p.camberMax * c - d) p.camberPerc yd with e | yu
  · rw [hb] at h; cases h
  rw [hb] at h
  cases h
  simp only at hl hd ⊢
  rw [bzip_eq_len hl.symm] at hb
  cases hb
  exact ⟨2 * p.camberMax * c - d, by simp [List.getElem?_zipWith, hc, hd], by ring⟩

/-- Non-vacuity: the sample parameters have an orthogonal construction. -/
example : ∃ st, orthCoordinates Sample.params = .ok st := by
  have hdef : ¬ slopeUndefined Sample.params := by
    rintro ⟨i, h0, h1, h2 | h2⟩
    · simp [Sample.params] at h1 h2
      rcases i with _ | _ | _ | _ | i
      · omega
      · norm_num at h2
      · norm_num at h2
      · norm_num at h2
      · omega
    · norm_num [Sample.params] at h2
  unfold orthCoordinates
  simp only [bind, Except.bind, pure, Except.pure, throw, throwThe, MonadExceptOf.throw, hdef, if_false]
  simp only [Sample.params, getIdx]
  simp
  split_ifs <;> exact ⟨_, rfl⟩

end BladeX
