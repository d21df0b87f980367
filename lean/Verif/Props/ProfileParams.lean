import Verif.Lemmas.Deform

/-! # C14: airfoil parameters -/

namespace BladeX
open Spec

/-- **C14** `generate_parameters('british')`: chord length, maxima and percentages in terms of the coordinates. -/
theorem C14_parameters (american : Profile → Res Arr) (P : Profile) (le te : Pt) (he : P.updateEdges = .ok (le, te))
    (hc : dist2 le te ≠ 0) (hu : P.yup.length = P.xup.length) (hd : P.ydown.length = P.xup.length) :
    ∃ Q p, P.generateParameters american .british = .ok Q ∧ Q.par = some p ∧ P.SameCoords Q ∧
      p.chordLength = dist2 le te ∧
      (∃ mn, MinOf P.xup mn ∧ p.chordPerc.map (fun q => q * p.chordLength) = P.xup.map (fun x => x - mn)) ∧
      MaxOf (List.zipWith (fun a b => |a - b|) P.yup P.ydown) p.thicknessMax ∧
      p.thicknessPerc.map (fun q => q * p.thicknessMax) = List.zipWith (fun a b => |a - b|) P.yup P.ydown ∧
      (∃ mc, MaxOf (List.zipWith (fun a b => (a + b) / 2) P.yup P.ydown) mc ∧ p.camberMax = |mc|) ∧
      (p.camberMax ≠ 0 → p.camberPerc.map (fun q => q * p.camberMax) =
        List.zipWith (fun a b => (a + b) / 2) P.yup P.ydown) ∧
      (p.camberMax = 0 → p.camberPerc = List.replicate P.xup.length 0) := by
  obtain ⟨xu0, _, _, _, _, _, _, h1, _⟩ := Profile.updateEdges_ok he
  have hne : P.xup ≠ [] := by rintro h; simp [h] at h1
  have hud : P.yup.length = P.ydown.length := by omega
  have hlen : 0 < P.xup.length := List.length_pos_iff.2 hne
  obtain ⟨mn, hmn⟩ : ∃ mn, npMin P.xup = .ok mn := by
    rcases hx : P.xup with _ | ⟨x, xs⟩
    · exact absurd hx hne
    · exact ⟨_, rfl⟩
  set th := List.zipWith (fun a b => |a - b|) P.yup P.ydown with hth
  set cb := List.zipWith (fun a b => (a + b) / 2) P.yup P.ydown with hcb
  have hthl : th.length = P.xup.length := by simp [hth, hu, hd]
  have hcbl : cb.length = P.xup.length := by simp [hcb, hu, hd]
  obtain ⟨tm, htm⟩ := npMax_exists (l := th) (by intro h; rw [h] at hthl; simp at hthl; omega)
  obtain ⟨mc, hmc⟩ := npMax_exists (l := cb) (by intro h; rw [h] at hcbl; simp at hcbl; omega)
  have e1 : bzip (fun a b => (a + b) / 2) P.yup P.ydown = .ok cb := bzip_eq_len hud
  have e2 : bzip (fun a b => |a - b|) P.yup P.ydown = .ok th := bzip_eq_len hud
  have e3 : divScalar (P.xup.map (· - mn)) (dist2 le te) = .ok ((P.xup.map (· - mn)).map (· / dist2 le te)) := by
    simp [divScalar, hc]
  have hrun : P.generateParameters american .british = .ok { P with
      par := some ⟨dist2 le te, (P.xup.map (· - mn)).map (· / dist2 le te), |mc|,
        if |mc| = 0 then List.replicate P.xup.length 0 else cb.map (· / |mc|), tm,
        if tm = 0 then List.replicate P.xup.length 0 else th.map (· / tm)⟩ } := by
    unfold Profile.generateParameters
    rw [show Real.sqrt = Real.sqrt from rfl]
    simp only [he, bind, Except.bind, hmn, e1, e2, hmc, htm, pure, Except.pure, true_or, if_true,
      show Real.sqrt ((le.1 - te.1) ^ 2 + (le.2 - te.2) ^ 2) = dist2 le te from rfl, e3]
  refine ⟨_, _, hrun, rfl, ⟨rfl, rfl, rfl, rfl⟩, rfl, ⟨mn, npMin_ok_iff.1 hmn, ?_⟩, npMax_ok_iff.1 htm, ?_,
    ⟨mc, npMax_ok_iff.1 hmc, rfl⟩, ?_, ?_⟩
  · simp only [List.map_map]
    apply List.map_congr_left
    intro x _
    simp only [Function.comp]; field_simp
  · simp only
    split_ifs with h0
    · apply List.ext_getElem
      · simp [hthl]
      · intro i h2 h3
        have hx := (npMax_ok_iff.1 htm).2 _ (List.getElem_mem h3)
        have hx0 : 0 ≤ th[i] := by simp [hth]
        simp only [List.map_replicate, List.getElem_replicate, zero_mul]
        linarith
    · rw [List.map_map]
      conv_rhs => rw [← List.map_id th]
      apply List.map_congr_left
      intro x _
      simp only [Function.comp, id]; field_simp
  · intro h0
    simp only at h0 ⊢
    rw [if_neg h0, List.map_map]
    conv_rhs => rw [← List.map_id cb]
    apply List.map_congr_left
    intro x _
    simp only [Function.comp, id]; field_simp
  · intro h0
    simp only at h0 ⊢
    rw [if_pos h0]

/-- **C14** when the thickness maximum is zero the stored thickness percentages are zeros. -/
theorem C14_zero_thickness (american : Profile → Res Arr) (P : Profile) (le te : Pt)
    (he : P.updateEdges = .ok (le, te)) (hc : dist2 le te ≠ 0) (hu : P.yup.length = P.xup.length)
    (hd : P.ydown.length = P.xup.length) {Q : Profile} {p : Params}
    (h : P.generateParameters american .british = .ok Q) (hp : Q.par = some p) (h0 : p.thicknessMax = 0) :
    p.thicknessPerc = List.replicate P.xup.length 0 := by
  have hud : P.yup.length = P.ydown.length := by omega
  have e1 : bzip (fun a b => (a + b) / 2) P.yup P.ydown = .ok _ := bzip_eq_len hud
  have e2 : bzip (fun a b => |a - b|) P.yup P.ydown = .ok _ := bzip_eq_len hud
  unfold Profile.generateParameters at h
  simp only [he, bind, Except.bind, e1, e2, pure, Except.pure, true_or, if_true] at h
  split at h
  · cases h
  split at h
  · cases h
  split at h
  · cases h
  split at h
  · cases h
  cases h
  simp only [Option.some.injEq] at hp
  subst hp
  simp only at h0 ⊢
  rw [if_pos h0]

/-- **C14** (convention) an unknown convention name fails on a cambered foil only: `_thickness` is unbound. -/
theorem C14_unknown_convention (american : Profile → Res Arr) (P : Profile) (hud : P.yup.length = P.ydown.length)
    (mc : ℝ) (hmc : MaxOf (List.zipWith (fun a b => (a + b) / 2) P.yup P.ydown) mc) :
    (mc = 0 → P.generateParameters american .other = P.generateParameters american .british) ∧
    (mc ≠ 0 → ∀ Q, P.generateParameters american .other ≠ .ok Q) := by
  have e1 : bzip (fun a b => (a + b) / 2) P.yup P.ydown = .ok _ := bzip_eq_len hud
  have hm := npMax_ok_iff.2 hmc
  unfold Profile.generateParameters
  constructor
  · intro h0
    subst h0
    simp only [e1, hm, bind, Except.bind, abs_zero, or_true, true_or, if_true]
  · intro h0 Q
    have : |mc| ≠ 0 := by simpa using h0
    simp only [e1, hm, bind, Except.bind, this, or_false, if_false, reduceCtorEq, false_or,
      throw, throwThe, MonadExceptOf.throw]
    rcases P.updateEdges with e | e
    · simp
    · simp only
      rcases npMin P.xup with e | mn
      · simp
      · simp only
        split <;> simp

/-- **C14** no history of in-place motions, of any length, touches the stored parameters. -/
theorem C14_history (P Q : Profile) (ms : List Profile.Motion) (h : P.runMotions ms = .ok Q) : Q.par = P.par := by
  unfold Profile.runMotions at h
  induction ms generalizing P with
  | nil => simp [pure, Except.pure] at h; rw [h]
  | cons m ms ih =>
    rw [List.foldlM_cons] at h
    rcases hm : Profile.Motion.run P m with e | P1
    · rw [hm] at h; simp [bind, Except.bind] at h
    · rw [hm] at h
      have h1 := ih P1 h
      rw [h1]
      cases m with
      | translate v => simp [Profile.Motion.run] at hm; rw [← hm]; rfl
      | reflect => simp [Profile.Motion.run] at hm; rw [← hm]; rfl
      | rotate r d => exact (Profile.rotate_meta _ _ _ _ hm).1
      | scale f b =>
        simp only [Profile.Motion.run, Profile.scale] at hm
        cases b
        · simp [pure, Except.pure] at hm; rw [← hm]; rfl
        · rcases hr : P.referencePoint with e | ref
          · simp [hr, bind, Except.bind] at hm
          · simp [hr, bind, Except.bind, pure, Except.pure] at hm
            rw [← hm]; rfl

/-- **C14** so the stored chord length goes stale: after `scale(f)` with `|f| ≠ 1` it differs from the distance between
the edges of the scaled profile (foils whose surfaces meet exactly in abscissa at both ends). -/
theorem C14_stale_chord (american : Profile → Res Arr) (P : Profile) (a b c d : Pt) (hs : P.Shaped)
    (hl : P.xup.length = P.xdown.length) (hE : P.Ends a b c d) (h1 : a.1 = c.1) (h2 : b.1 = d.1)
    (hne : dist2 a (b.1, (b.2 + d.2) / 2) ≠ 0) (f : ℝ) (hf : |f| ≠ 1) :
    ∃ Q R p le te, P.generateParameters american .british = .ok Q ∧ Q.scale f = .ok R ∧ R.par = some p ∧
      R.updateEdges = .ok (le, te) ∧ dist2 le te = |f| * p.chordLength ∧ p.chordLength ≠ dist2 le te := by
  have hed : P.updateEdges = .ok (a, (b.1, (b.2 + d.2) / 2)) := by
    rw [Profile.updateEdges_ends hs hE, if_neg (by rw [h1, h2]; norm_num)]
  obtain ⟨Q, p, hQ, hp, ⟨x1, x2, x3, x4⟩, hch, _⟩ := C14_parameters american P _ _ hed hne hs.1.symm (by rw [hl, hs.2])
  have hEQ : Q.Ends a b c d := by
    simpa [Profile.Ends, Profile.upper, Profile.lower, x1, x2, x3, x4] using hE
  have hsQ : Q.Shaped := by simpa [Profile.Shaped, x1, x2, x3, x4] using hs
  have href : Q.referencePoint = .ok (mid a (b.1, (b.2 + d.2) / 2)) := by
    rw [Profile.referencePoint_ends hsQ hEQ, if_neg (by rw [h1, h2]; norm_num)]
  set ref := mid a (b.1, (b.2 + d.2) / 2) with hrefd
  have hER := hEQ.map (homothety ref f) (Profile.scaled_upper Q ref f) (Profile.scaled_lower Q ref f)
  have hsR : (((Q.translate (-ref)).mulAll f).translate ref).Shaped :=
    Profile.translate_shaped _ (Profile.mulAll_shaped _ (Profile.translate_shaped _ hsQ))
  have hdist : dist2 (homothety ref f a) ((homothety ref f b).1, ((homothety ref f b).2 + (homothety ref f d).2) / 2)
      = |f| * p.chordLength := by
    rw [hch]
    unfold dist2
    simp only [homothety]
    rw [← Real.sqrt_sq_eq_abs, ← Real.sqrt_mul (sq_nonneg f)]
    congr 1; ring
  refine ⟨Q, _, p, homothety ref f a, ((homothety ref f b).1, ((homothety ref f b).2 + (homothety ref f d).2) / 2), hQ,
    Profile.scale_eq href, hp, ?_, hdist, ?_⟩
  · rw [Profile.updateEdges_ends hsR hER, if_neg]
    simp [homothety, h1, h2]
    norm_num
  · rw [hdist]
    intro h
    have hc0 : p.chordLength ≠ 0 := by rw [hch]; exact hne
    apply hf
    have : (|f| - 1) * p.chordLength = 0 := by linarith
    rcases mul_eq_zero.1 this with h | h
    · linarith
    · exact absurd h hc0

/-- Non-vacuity: the sample foil. -/
example : Sample.foil.Ends (0, 0) (1, 0) (0, 0) (1, 0) ∧ Sample.foil.Shaped ∧
    dist2 (0, 0) (1, ((0 : ℝ) + 0) / 2) ≠ 0 := by
  refine ⟨?_, ?_, ?_⟩
  · simp [Sample.foil, Profile.Ends, Profile.upper, Profile.lower]
  · simp [Sample.foil, Profile.Shaped]
  · simp [dist2]

end BladeX
