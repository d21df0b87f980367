import Verif.Spec.BladeSymmetry
import Verif.Lemmas.BladeSymmetry
import Verif.Lemmas.Measure
import Verif.Lemmas.BladeSection
import Verif.Lemmas.American
import Verif.Lemmas.Units
import Verif.Props.BladeCylinder

/-! # C81 - C85: how a blade depends on its distributions and sections -/

namespace BladeX
noncomputable section
open Spec Classical
open Profile (bndA)

/-- Laying on the cylinder commutes with translations along the axis and turns shifts of the ordinate into rotations. -/
theorem Blade.wrap_shift (r x y : ℝ) (hr : r ≠ 0) (p : Pt) :
    wrap r (p.1 + x, p.2 - r * y) = shiftX x (rotX y (wrap r p)) := by
  have e : (p.2 - r * y) / r = p.2 / r - y := by field_simp
  simp only [wrap, shiftX, rotX, e, Real.sin_sub, Real.cos_sub, Prod.mk.injEq, true_and]
  constructor <;> ring

/-- **C82, C83** rake and skew of the sections changed by `dk` and `ds` (degrees), whatever else the blade is given (also thickness and
camber): if the transformations go through for the one blade they go through for the other, and the section `i` is rotated about the `x` axis
by the change of the skew angle and shifted along it by minus the change of the rake and of the induced rake (change of the skew in radians
times `P / (2 pi)`). -/
theorem C82_rake_skew (b b' : Blade) (refl : Bool) (hW : b.WellFormed) (dk ds : Arr) (hdk : dk.length = b.sections.length)
    (hds : ds.length = b.sections.length) (h : b.applyTransformations refl = (b', .ok ())) :
    ∃ b'', (b.reskewed dk ds).applyTransformations refl = (b'', .ok ()) ∧
      b''.coordsUp.length = b.sections.length ∧ b''.coordsDown.length = b.sections.length ∧
      ∀ (i : Nat) (k s P : ℝ), dk[i]? = some k → ds[i]? = some s → b.pitch[i]? = some P → i < b.sections.length →
        b''.coordsUp[b.sections.length - 1 - i]? = (b'.coordsUp[b.sections.length - 1 - i]?).map
          (·.map fun q => shiftX (-(k + Real.pi * s / 180 * P / (2 * Real.pi))) (rotX (Real.pi * s / 180) q)) ∧
        b''.coordsDown[b.sections.length - 1 - i]? = (b'.coordsDown[b.sections.length - 1 - i]?).map
          (·.map fun q => shiftX (-(k + Real.pi * s / 180 * P / (2 * Real.pi))) (rotX (Real.pi * s / 180) q)) := by
  have hW' : (b.reskewed dk ds).WellFormed := by
    obtain ⟨h1, h2, h3, h4, h5⟩ := hW
    exact ⟨h1, h2, h3, by simp [Blade.reskewed, h4, hdk], by simp [Blade.reskewed, h5, hds]⟩
  let f : Nat → Pt3 → Pt3 := fun i q =>
    shiftX (-((dk[i]?.getD 0) + Real.pi * (ds[i]?.getD 0) / 180 * (b.pitch[i]?.getD 0) / (2 * Real.pi)))
      (rotX (Real.pi * (ds[i]?.getD 0) / 180) q)
  obtain ⟨b'', h1, l1, l2, _, _, h2⟩ := Blade.transfer (refl₂ := refl) hW hW' rfl f h (by
    intro i P₁ P₂ Q₁ r₁ r₂ hP₁ hP₂ hr₁ hr₂ hr0 hrun e1 e2
    obtain rfl : P₁ = P₂ := by
      have : b.sections[i]? = some P₂ := hP₂
      rw [hP₁] at this; exact Option.some.inj this
    obtain rfl : r₁ = r₂ := by
      have : b.radii[i]? = some r₂ := hr₂
      rw [hr₁] at this; exact Option.some.inj this
    have hi : i < b.sections.length := (List.getElem?_eq_some_iff.1 hP₁).1
    have hpi : i < b.pitch.length := by rw [hW.2.2.1]; exact hi
    have hki : i < b.rake.length := by rw [hW.2.2.2.1]; exact hi
    have hsi : i < b.skew.length := by rw [hW.2.2.2.2]; exact hi
    have gp := Blade.getIdx_ok.2 (List.getElem?_eq_getElem hpi)
    have gk := Blade.getIdx_ok.2 (List.getElem?_eq_getElem hki)
    have gs := Blade.getIdx_ok.2 (List.getElem?_eq_getElem hsi)
    have gr := Blade.getIdx_ok.2 hr₁
    have gk' : getIdx (List.zipWith (· + ·) b.rake dk) i = .ok (b.rake[i] + dk[i]) := by
      rw [Blade.getIdx_ok, List.getElem?_zipWith, List.getElem?_eq_getElem hki, List.getElem?_eq_getElem (by omega)]
    have gs' : getIdx (List.zipWith (· + ·) b.skew ds) i = .ok (b.skew[i] + ds[i]) := by
      rw [Blade.getIdx_ok, List.getElem?_zipWith, List.getElem?_eq_getElem hsi, List.getElem?_eq_getElem (by omega)]
    rw [Blade.runSteps_ok] at hrun
    simp only [Blade.sectionSteps, List.foldlM_cons, List.foldlM_nil] at hrun
    rw [bndA] at hrun; obtain ⟨R₁, t1, hrun⟩ := hrun
    rw [bndA] at hrun; obtain ⟨R₂, t2, hrun⟩ := hrun
    rw [bndA] at hrun; obtain ⟨R₃, t3, hrun⟩ := hrun
    rw [bndA] at hrun; obtain ⟨R₄, t4, hrun⟩ := hrun
    rw [bndA] at hrun; obtain ⟨R₅, t5, hrun⟩ := hrun
    rw [bndA] at hrun; obtain ⟨R₆, t6, hrun⟩ := hrun
    have hQ₁ : Q₁ = (R₆.translate (0, -(r₁ * radians b.skew[i] Real.pi))).translate
        (-(b.rake[i] + Real.pi * b.skew[i] / 180 * b.pitch[i] / (2 * Real.pi)), 0) := by
      simp only [gr, gs, gk, gp, Blade.inducedRake_ok hr0, bind, Except.bind, pure, Except.pure] at hrun
      exact (Except.ok.inj hrun).symm
    refine ⟨(R₆.translate (0, -(r₁ * radians (b.skew[i] + ds[i]) Real.pi))).translate
        (-((b.rake[i] + dk[i]) + Real.pi * (b.skew[i] + ds[i]) / 180 * b.pitch[i] / (2 * Real.pi)), 0), ?_, hr0, ?_, ?_, ?_, ?_⟩
    · rw [Blade.runSteps_ok]
      simp only [Blade.sectionSteps, List.foldlM_cons, List.foldlM_nil]
      rw [bndA]; refine ⟨R₁, t1, ?_⟩
      rw [bndA]; refine ⟨R₂, t2, ?_⟩
      rw [bndA]; refine ⟨R₃, t3, ?_⟩
      rw [bndA]; refine ⟨R₄, t4, ?_⟩
      rw [bndA]; refine ⟨R₅, t5, ?_⟩
      rw [bndA]; refine ⟨R₆, t6, ?_⟩
      simp only [Blade.reskewed, gr, gs', gk', gp, Blade.inducedRake_ok hr0, bind, Except.bind, pure, Except.pure]
    · rw [hQ₁] at e1; simpa [Profile.translate] using e1
    · rw [hQ₁] at e2; simpa [Profile.translate] using e2
    all_goals
      rw [hQ₁]
      simp only [Profile.translate_upper, Profile.translate_lower, List.map_map]
      congr 1
      funext p
      simp only [Function.comp, f, List.getElem?_eq_getElem hpi, List.getElem?_eq_getElem (show i < dk.length by omega),
        List.getElem?_eq_getElem (show i < ds.length by omega), Option.getD_some]
      rw [← Blade.wrap_shift _ _ _ hr0]
      congr 1
      ext
      · simp [radians]; ring
      · simp [radians]; ring)
  refine ⟨b'', h1, l1, l2, ?_⟩
  intro i k s P hk hs hP hi
  have := h2 i hi
  simpa only [f, hk, hs, hP, Option.getD_some] using this

theorem Blade.moved_of_entries {b' b'' : Blade} {n : Nat} (f : Pt3 → Pt3) (l1 : b''.coordsUp.length = n) (l2 : b''.coordsDown.length = n)
    (l3 : b'.coordsUp.length = n) (l4 : b'.coordsDown.length = n)
    (h : ∀ i, i < n → b''.coordsUp[n - 1 - i]? = (b'.coordsUp[n - 1 - i]?).map (·.map f) ∧
      b''.coordsDown[n - 1 - i]? = (b'.coordsDown[n - 1 - i]?).map (·.map f)) : b'.coordsMoved f b'' := by
  constructor
  all_goals
    apply List.ext_getElem?
    intro j
    rw [List.getElem?_map]
    by_cases hj : j < n
    · have := h (n - 1 - j) (by omega)
      rw [show n - 1 - (n - 1 - j) = j by omega] at this
      first | exact this.1 | exact this.2
    · rw [List.getElem?_eq_none (by omega), List.getElem?_eq_none (by omega)]; rfl

/-- **C83** adding `d` degrees to the skew of all sections of a blade of constant pitch `P` is a screw motion of the whole blade: the rotation
by `d` degrees about the axis with the advance `-P` per turn. If in addition the rake is reduced by the induced rake (`d / 360` times the
pitch) the motion is the rotation alone, for any pitch distribution. Adding `d` to the rake of all sections translates the blade by `-d`
along the axis. -/
theorem C83_screw (b b' : Blade) (refl : Bool) (hW : b.WellFormed) (d : ℝ) (h : b.applyTransformations refl = (b', .ok ())) :
    (∀ P : ℝ, (∀ p ∈ b.pitch, p = P) →
      ∃ b'', ({ b with skew := b.skew.map (· + d) } : Blade).applyTransformations refl = (b'', .ok ()) ∧
        b'.coordsMoved (fun q => shiftX (-(d / 360 * P)) (rotX (Real.pi * d / 180) q)) b'') ∧
    (∃ b'', ({ b with skew := b.skew.map (· + d), rake := List.zipWith (fun k p => k - d / 360 * p) b.rake b.pitch } :
        Blade).applyTransformations refl = (b'', .ok ()) ∧ b'.coordsMoved (rotX (Real.pi * d / 180)) b'') ∧
    (∃ b'', ({ b with rake := b.rake.map (· + d) } : Blade).applyTransformations refl = (b'', .ok ()) ∧
      b'.coordsMoved (shiftX (-d)) b'') := by
  obtain ⟨l3, l4, _⟩ := C48_reversed b b' refl hW h
  obtain ⟨w1, w2, w3, w4, w5⟩ := id hW
  have hpi := Real.pi_ne_zero
  have hadd : ∀ (a : Arr) (d : ℝ), List.zipWith (· + ·) a (List.replicate a.length d) = a.map (· + d) := by
    intro a d
    induction a with
    | nil => rfl
    | cons x a ih => simp [List.replicate_succ, ih]
  have hzero : ∀ a : Arr, List.zipWith (· + ·) a (List.replicate a.length 0) = a := by
    intro a; rw [hadd]; simp
  have hid : ∀ q : Pt3, rotX 0 q = q := by intro q; simp [rotX]
  refine ⟨?_, ?_, ?_⟩
  · intro P hP
    obtain ⟨b'', h1, l1, l2, h2⟩ := C82_rake_skew b b' refl hW (List.replicate b.rake.length 0) (List.replicate b.skew.length d)
      (by simp [w4]) (by simp [w5]) h
    have e : b.reskewed (List.replicate b.rake.length 0) (List.replicate b.skew.length d) = { b with skew := b.skew.map (· + d) } := by
      simp only [Blade.reskewed, hzero, hadd]
    rw [e] at h1
    refine ⟨b'', h1, Blade.moved_of_entries _ l1 l2 l3 l4 ?_⟩
    intro i hi
    have hpl : i < b.pitch.length := by omega
    have := h2 i 0 d P (by rw [List.getElem?_replicate, if_pos (by omega)]) (by rw [List.getElem?_replicate, if_pos (by omega)])
      (by rw [List.getElem?_eq_getElem hpl, hP _ (List.getElem_mem hpl)]) hi
    have e2 : -(0 + Real.pi * d / 180 * P / (2 * Real.pi)) = -(d / 360 * P) := by field_simp; ring
    rw [e2] at this
    exact this
  · obtain ⟨b'', h1, l1, l2, h2⟩ := C82_rake_skew b b' refl hW (b.pitch.map fun p => -(d / 360 * p)) (List.replicate b.skew.length d)
      (by simp [w3]) (by simp [w5]) h
    have e : b.reskewed (b.pitch.map fun p => -(d / 360 * p)) (List.replicate b.skew.length d) =
        { b with skew := b.skew.map (· + d), rake := List.zipWith (fun k p => k - d / 360 * p) b.rake b.pitch } := by
      simp only [Blade.reskewed, hadd, List.zipWith_map_right]
      rfl
    rw [e] at h1
    refine ⟨b'', h1, Blade.moved_of_entries _ l1 l2 l3 l4 ?_⟩
    intro i hi
    have hpl : i < b.pitch.length := by omega
    have := h2 i (-(d / 360 * b.pitch[i])) d b.pitch[i] (by rw [List.getElem?_map, List.getElem?_eq_getElem hpl]; rfl)
      (by rw [List.getElem?_replicate, if_pos (by omega)]) (List.getElem?_eq_getElem hpl) hi
    have e2 : -(-(d / 360 * b.pitch[i]) + Real.pi * d / 180 * b.pitch[i] / (2 * Real.pi)) = 0 := by field_simp; ring
    have e3 : ∀ q : Pt3, shiftX 0 q = q := by intro q; simp [shiftX]
    rw [e2] at this
    simpa only [e3] using this
  · obtain ⟨b'', h1, l1, l2, h2⟩ := C82_rake_skew b b' refl hW (List.replicate b.rake.length d) (List.replicate b.skew.length 0)
      (by simp [w4]) (by simp [w5]) h
    have e : b.reskewed (List.replicate b.rake.length d) (List.replicate b.skew.length 0) = { b with rake := b.rake.map (· + d) } := by
      simp only [Blade.reskewed, hzero, hadd]
    rw [e] at h1
    refine ⟨b'', h1, Blade.moved_of_entries _ l1 l2 l3 l4 ?_⟩
    intro i hi
    have hpl : i < b.pitch.length := by omega
    have := h2 i d 0 b.pitch[i] (by rw [List.getElem?_replicate, if_pos (by omega)]) (by rw [List.getElem?_replicate, if_pos (by omega)])
      (List.getElem?_eq_getElem hpl) hi
    simpa [hid] using this

namespace Profile

theorem translate_mulAll (P : Profile) (l : ℝ) (v : Pt) : (P.mulAll l).translate (v.1 * l, v.2 * l) = (P.translate v).mulAll l := by
  simp only [translate, mulAll, List.map_map, Profile.mk.injEq, and_true]
  refine ⟨?_, ?_, ?_, ?_⟩ <;> exact List.map_congr_left fun x _ => by simp only [Function.comp]; ring

theorem reflect_mulAll (P : Profile) (l : ℝ) : (P.mulAll l).reflect = P.reflect.mulAll l := by
  simp only [reflect, mulAll, List.map_map, Profile.mk.injEq, and_true]
  refine ⟨?_, ?_, ?_, ?_⟩ <;> exact List.map_congr_left fun x _ => by simp only [Function.comp]; ring

theorem mulAll_mulAll (P : Profile) (c l : ℝ) : (P.mulAll c).mulAll l = P.mulAll (l * c) := by
  simp only [mulAll, List.map_map, Profile.mk.injEq, and_true]
  refine ⟨?_, ?_, ?_, ?_⟩ <;> exact List.map_congr_left fun x _ => by simp only [Function.comp]; ring

theorem rotCols_mul (c s l : ℝ) (n : Nat) (xs ys : Arr) :
    rotCols c s n (xs.map (· * l)) (ys.map (· * l)) = (rotCols c s n xs ys).map fun p => (p.1 * l, p.2 * l) := by
  unfold rotCols
  apply List.ext_getElem?
  intro i
  simp only [List.zip_map, List.getElem?_mapIdx, List.getElem?_map]
  rcases (List.zip xs ys)[i]? with _ | p
  · rfl
  simp only [Option.map_some, Prod.map]
  congr 1
  split
  · ext <;> simp <;> ring
  · simp

theorem rotate_mulAll {P Q : Profile} {a l : ℝ} (h : P.rotate (some a) none = .ok Q) : (P.mulAll l).rotate (some a) none = .ok (Q.mulAll l) := by
  unfold rotate at h ⊢
  simp only [bind, Except.bind, pure, Except.pure, throw, throwThe, MonadExceptOf.throw, Option.isSome_none, Bool.false_eq_true, and_false,
    if_false, mulAll, List.length_map] at h ⊢
  split at h
  · cases h
  · split at h
    · cases h
    · split at h
      · cases h
      · obtain rfl := Except.ok.inj h
        rename_i h1 h2 h3
        rw [if_neg h1, if_neg h2, if_neg h3]
        simp only [rotCols_mul, List.map_map]
        rfl

theorem npMax_scaled {d : List ℝ} {m : ℝ} (h : npMax d = .ok m) (l : ℝ) : npMax (d.map (|l| * ·)) = .ok (|l| * m) :=
  npMax_map (fun _ _ hab => mul_le_mul_of_nonneg_left hab (abs_nonneg l)) h

theorem maxThickness_mulAll {P : Profile} {m : ℝ} (l : ℝ) (hx : P.xup = P.xdown) (h : P.maxThickness none = .ok m) :
    (P.mulAll l).maxThickness none = .ok (|l| * m) := by
  unfold maxThickness at h ⊢
  rw [effectiveN_same (P := P) hx none (by simp)] at h
  rw [effectiveN_same (P := P.mulAll l) (by simp [mulAll, hx]) none (by simp)]
  simp only [bind, Except.bind] at h ⊢
  have hb : bzip (fun a b => |a - b|) (P.mulAll l).yup (P.mulAll l).ydown = (bzip (fun a b => |a - b|) P.yup P.ydown).map fun d => d.map (|l| * ·) :=
    bzip_map _ _ _ (|l| * ·) (fun x y => by rw [← sub_mul, abs_mul, mul_comm]) _ _
  rw [hb]
  rcases he : bzip (fun a b => |a - b|) P.yup P.ydown with e | d
  · rw [he] at h; cases h
  · rw [he] at h
    exact npMax_scaled h l

theorem setThickness_mulAll {P Q : Profile} {t l : ℝ} (hl : l ≠ 0) (hx : P.xup = P.xdown) (h : P.setThicknessMax t = .ok Q) :
    (P.mulAll l).setThicknessMax (|l| * t) = .ok (Q.mulAll l) := by
  unfold setThicknessMax at h ⊢
  rcases hm : P.maxThickness none with e | m
  · rw [hm] at h; cases h
  rw [hm] at h
  rw [maxThickness_mulAll l hx hm]
  obtain rfl := Except.ok.inj h
  have hal : |l| ≠ 0 := abs_ne_zero.2 hl
  have e : (if |l| * m ≠ 0 then |l| * t / (|l| * m) else 0) = if m ≠ 0 then t / m else 0 := by
    by_cases h0 : m = 0
    · simp [h0]
    · rw [if_pos (mul_ne_zero hal h0), if_pos h0, mul_div_mul_left _ _ hal]
  simp only [bind, Except.bind, pure, Except.pure, e, mulAll, List.map_map, Except.ok.injEq, Profile.mk.injEq, and_true, true_and]
  constructor <;> exact List.map_congr_left fun x _ => by simp only [Function.comp]; ring

end Profile

/-- **C81** geometric similarity: multiplying radii, chords, pitch and rake by a number that is not zero, and the prescribed thickness (if any; for
sections whose surfaces share their abscissae) by its absolute value, the skew angles being kept, multiplies all coordinates of the blade by this
number. -/
theorem C81_similar (b b' : Blade) (refl : Bool) (hW : b.WellFormed) (ht : b.thickness = none ∨ ∀ P ∈ b.sections, P.xup = P.xdown)
    (hf : b.camber = none) (l : ℝ) (hl : l ≠ 0) (h : b.applyTransformations refl = (b', .ok ())) :
    ∃ b'', (b.enlarged l).applyTransformations refl = (b'', .ok ()) ∧ b'.coordsMoved (dilate l) b'' := by
  have hW' : (b.enlarged l).WellFormed := by simpa [Blade.enlarged, Blade.WellFormed] using hW
  apply Blade.transfer_all (refl₂ := refl) hW hW' rfl (dilate l) h
  intro i P₁ P₂ Q₁ r₁ r₂ hP₁ hP₂ hr₁ hr₂ hr0 hrun e1 e2
  obtain rfl : P₁ = P₂ := by
    have : b.sections[i]? = some P₂ := hP₂
    rw [hP₁] at this; exact Option.some.inj this
  obtain rfl : r₂ = l * r₁ := by
    have : (b.radii.map (l * ·))[i]? = some r₂ := hr₂
    rw [List.getElem?_map, hr₁] at this; exact (Option.some.inj this).symm
  have hi : i < b.sections.length := (List.getElem?_eq_some_iff.1 hP₁).1
  obtain ⟨w1, w2, w3, w4, w5⟩ := id hW
  have gr : getIdx b.radii i = .ok r₁ := Blade.getIdx_ok.2 hr₁
  have gp : getIdx b.pitch i = .ok b.pitch[i] := Blade.getIdx_ok.2 (List.getElem?_eq_getElem (by omega))
  have gk : getIdx b.rake i = .ok b.rake[i] := Blade.getIdx_ok.2 (List.getElem?_eq_getElem (by omega))
  have gs : getIdx b.skew i = .ok b.skew[i] := Blade.getIdx_ok.2 (List.getElem?_eq_getElem (by omega))
  have gc : getIdx b.chord i = .ok b.chord[i] := Blade.getIdx_ok.2 (List.getElem?_eq_getElem (by omega))
  have gr' : getIdx (b.enlarged l).radii i = .ok (l * r₁) := Blade.getIdx_ok.2 (by simp [Blade.enlarged, hr₁])
  have gp' : getIdx (b.enlarged l).pitch i = .ok (l * b.pitch[i]) := Blade.getIdx_ok.2 (by simp [Blade.enlarged, show i < b.pitch.length by omega])
  have gk' : getIdx (b.enlarged l).rake i = .ok (l * b.rake[i]) := Blade.getIdx_ok.2 (by simp [Blade.enlarged, show i < b.rake.length by omega])
  have gs' : getIdx (b.enlarged l).skew i = .ok b.skew[i] := gs
  have gc' : getIdx (b.enlarged l).chord i = .ok (l * b.chord[i]) := Blade.getIdx_ok.2 (by simp [Blade.enlarged, show i < b.chord.length by omega])
  have hlr : l * r₁ ≠ 0 := mul_ne_zero hl hr0
  rw [Blade.runSteps_ok] at hrun
  simp only [Blade.sectionSteps, List.foldlM_cons, List.foldlM_nil] at hrun
  rw [bndA] at hrun; obtain ⟨R₁, t1, hrun⟩ := hrun
  rw [bndA] at hrun; obtain ⟨R₂, t2, hrun⟩ := hrun
  rw [bndA] at hrun; obtain ⟨R₃, t3, hrun⟩ := hrun
  rw [bndA] at hrun; obtain ⟨R₄, t4, hrun⟩ := hrun
  rw [bndA] at hrun; obtain ⟨R₅, t5, hrun⟩ := hrun
  rw [bndA] at hrun; obtain ⟨R₆, t6, hrun⟩ := hrun
  rw [bndA] at t1; obtain ⟨ref, href, t1⟩ := t1
  obtain rfl := Except.ok.inj t1
  have href' : (P₁.translate (-ref)).referencePoint = .ok 0 := by
    have := (C06_reference_translate_reflect P₁ ref (-ref) href).1
    rwa [add_neg_cancel] at this
  have hz : ∀ P : Profile, P.translate 0 = P := by intro P; simp [Profile.translate]
  have hsc : ∀ c, (P₁.translate (-ref)).scale c = .ok ((P₁.translate (-ref)).mulAll c) := by
    intro c; rw [Profile.scale_eq href', neg_zero, hz, hz]
  simp only [gc, bind, Except.bind, hsc] at t2
  obtain rfl := Except.ok.inj t2
  set R₁ := P₁.translate (-ref) with hR₁
  have hx3 : b.thickness = none ∨ (R₁.mulAll b.chord[i]).xup = (R₁.mulAll b.chord[i]).xdown := by
    rcases ht with ht | ht
    · exact Or.inl ht
    · right; simp [hR₁, Profile.mulAll, Profile.translate, ht P₁ (List.mem_of_getElem? hP₁)]
  have t3' : (match (b.enlarged l).thickness with
      | none => (.ok (R₁.mulAll (l * b.chord[i])) : Res Profile)
      | some t => do (R₁.mulAll (l * b.chord[i])).setThicknessMax (← getIdx t i)) = .ok (R₃.mulAll l) := by
    rw [← Profile.mulAll_mulAll]
    rcases hT : b.thickness with _ | T
    · simp only [hT] at t3
      obtain rfl := Except.ok.inj t3
      simp [Blade.enlarged, hT]
    · simp only [hT] at t3
      rw [bndA] at t3
      obtain ⟨t, g, t3⟩ := t3
      have g' : getIdx (T.map (|l| * ·)) i = .ok (|l| * t) := by
        rw [Blade.getIdx_ok] at g ⊢; simp [g]
      have hx := hx3.resolve_left (by simp [hT])
      simp only [Blade.enlarged, hT, Option.map_some, g', bind, Except.bind]
      exact Profile.setThickness_mulAll hl hx t3
  simp only [hf] at t4
  obtain rfl := Except.ok.inj t4
  obtain rfl := Except.ok.inj t5
  simp only [gr, gp, Blade.pitchAngle, if_neg hr0, bind, Except.bind] at t6
  have t6' := Profile.rotate_mulAll (l := l) t6
  have ep : l * b.pitch[i] / (2 * Real.pi * (l * r₁)) = b.pitch[i] / (2 * Real.pi * r₁) := by
    rw [show 2 * Real.pi * (l * r₁) = l * (2 * Real.pi * r₁) by ring, mul_div_mul_left _ _ hl]
  have hQ₁ : Q₁ = (R₆.translate (0, -(r₁ * radians b.skew[i] Real.pi))).translate
      (-(b.rake[i] + Real.pi * b.skew[i] / 180 * b.pitch[i] / (2 * Real.pi)), 0) := by
    simp only [gr, gs, gk, gp, Blade.inducedRake_ok hr0, bind, Except.bind, pure, Except.pure] at hrun
    exact (Except.ok.inj hrun).symm
  refine ⟨Q₁.mulAll l, ?_, hlr, by simpa [Profile.mulAll] using e1, by simpa [Profile.mulAll] using e2, ?_, ?_⟩
  · rw [Blade.runSteps_ok]
    simp only [Blade.sectionSteps, List.foldlM_cons, List.foldlM_nil]
    rw [bndA]; refine ⟨R₁, by rw [href]; rfl, ?_⟩
    rw [bndA]; refine ⟨R₁.mulAll (l * b.chord[i]), by simp only [gc', bind, Except.bind, hsc], ?_⟩
    rw [bndA]; refine ⟨R₃.mulAll l, t3', ?_⟩
    rw [bndA]; refine ⟨R₃.mulAll l, by simp [Blade.enlarged, hf], ?_⟩
    rw [bndA]; refine ⟨(if refl then R₃.reflect else R₃).mulAll l, by cases refl <;> simp [Profile.reflect_mulAll], ?_⟩
    rw [bndA]; refine ⟨R₆.mulAll l, by
      simp only [gr', gp', Blade.pitchAngle, if_neg hlr, bind, Except.bind, ep]
      exact t6', ?_⟩
    simp only [gr', gs', gk', gp', Blade.inducedRake_ok hlr, bind, Except.bind, pure, Except.pure]
    rw [hQ₁, ← Profile.translate_mulAll, ← Profile.translate_mulAll]
    congr 3
    all_goals simp
    all_goals ring
  all_goals
    first | rw [Profile.mulAll_upper] | rw [Profile.mulAll_lower]
    simp only [List.map_map]
    refine List.map_congr_left fun p _ => ?_
    simp only [Function.comp, wrap, dilate, mul_div_mul_left _ _ hl, Prod.mk.injEq, true_and]
    constructor <;> ring

/-- The translations to the reference point undo a displacement of the section. -/
theorem Profile.translate_translate (P : Profile) (v w : Pt) : (P.translate v).translate w = P.translate (v + w) := by
  simp [Profile.translate, Function.comp_def, add_assoc]

/-- **C84** where the sections lie in their plane is immaterial: displacing each section by its own vector before the transformations gives the
very same blade, sections and coordinates, also with thickness and camber. -/
theorem C84_displaced (b b' : Blade) (refl : Bool) (hW : b.WellFormed) (vs : List Pt) (hv : vs.length = b.sections.length)
    (h : b.applyTransformations refl = (b', .ok ())) :
    (b.displaced vs).applyTransformations refl = (b', .ok ()) := by
  have hW' : (b.displaced vs).WellFormed := by simpa [Blade.displaced, Blade.WellFormed, hv] using hW
  obtain ⟨ss, up, down, h1, h2, rfl⟩ := (Blade.apply_ok hW.1).1 h
  obtain ⟨hl, hall⟩ := (Blade.sectionLoop_ok _ _ _).1 h1
  rw [Blade.apply_ok hW'.1]
  refine ⟨ss, up, down, ?_, h2, rfl⟩
  rw [Blade.sectionLoop_ok]
  refine ⟨by simp [Blade.displaced, hl, hv], ?_⟩
  intro j P Q hP hQ
  have hj : j < b.sections.length := by rw [← hl]; exact (List.getElem?_eq_some_iff.1 hQ).1
  have hP' : P = b.sections[j].translate vs[j] := by
    simp only [Blade.displaced] at hP
    rw [List.getElem?_zipWith, List.getElem?_eq_getElem hj, List.getElem?_eq_getElem (by omega)] at hP
    exact (Option.some.inj hP).symm
  have hrun := hall j _ _ (List.getElem?_eq_getElem hj) hQ
  rw [Blade.runSteps_ok] at hrun ⊢
  have hsl : (b.displaced vs).sections.length = b.sections.length := by simp [Blade.displaced, hv]
  have hst : Blade.sectionSteps (b.displaced vs) refl (0 + j) = Blade.sectionSteps b refl (0 + j) := by
    unfold Blade.sectionSteps
    rw [hsl]
    rfl
  rw [hst, hP']
  simp only [Blade.sectionSteps, List.foldlM_cons, List.foldlM_nil] at hrun ⊢
  rw [bndA] at hrun ⊢
  obtain ⟨R, t, hrun⟩ := hrun
  refine ⟨R, ?_, hrun⟩
  rw [bndA] at t ⊢
  obtain ⟨ref, e1, e2⟩ := t
  refine ⟨_, (C06_reference_translate_reflect _ ref vs[j] e1).1, ?_⟩
  rw [Profile.translate_translate]
  simpa [pure, Except.pure] using e2

/-- The reference point of a profile multiplied by a number, if the ends of its surfaces are accepted. -/
theorem Profile.mulAll_reference {P : Profile} {ref r : Pt} {f : ℝ} (h : P.referencePoint = .ok ref) (h2 : (P.mulAll f).referencePoint = .ok r) :
    r = (ref.1 * f, ref.2 * f) := by
  unfold Profile.referencePoint at h h2
  rcases he : P.updateEdges with _ | e
  · rw [he] at h; cases h
  rcases he2 : (P.mulAll f).updateEdges with _ | e2
  · rw [he2] at h2; cases h2
  rw [he] at h
  rw [he2] at h2
  simp only [bind, Except.bind, pure, Except.pure, Except.ok.injEq] at h h2
  subst h h2
  obtain ⟨xu0, xd0, xu1, xd1, yu0, yu1, yd1, h1, h2, h3, h4, h5, h6, h7, c1, c2, rfl⟩ := Profile.updateEdges_ok he
  obtain ⟨xu0', xd0', xu1', xd1', yu0', yu1', yd1', g1, g2, g3, g4, g5, g6, g7, d1, d2, rfl⟩ := Profile.updateEdges_ok he2
  simp only [Profile.mulAll, List.head?_map, List.getLast?_map, h1, h2, h3, h4, h5, h6, h7, Option.map_some, Option.some.injEq] at g1 g2 g3 g4 g5 g6 g7
  subst g1 g2 g3 g4 g5 g6 g7
  ext <;> simp <;> ring

/-- **C84** what size the sections have is immaterial too if their chords are adapted: if each section is scaled about its reference point by a
number `f i` that is not zero and its chord divided by it, the blade is the same, whatever thickness and camber are prescribed. (The edges of the
scaled sections must be accepted, as their ends are compared by the absolute tolerance `1e-4`.) -/
theorem C84_scaled (b b₂ b' : Blade) (refl : Bool) (hW : b.WellFormed) (hE : ∀ Q ∈ b₂.sections, ∃ r, Q.referencePoint = .ok r)
    (fs : Arr) (hfs : fs.length = b.sections.length) (h0 : ∀ f ∈ fs, f ≠ 0)
    (hb : b₂ = { b with sections := b₂.sections, chord := List.zipWith (· / ·) b.chord fs })
    (hS : b₂.sections.length = b.sections.length)
    (hsc : ∀ (i : Nat) (P Q : Profile) (f : ℝ), b.sections[i]? = some P → b₂.sections[i]? = some Q → fs[i]? = some f → P.scale f = .ok Q)
    (h : b.applyTransformations refl = (b', .ok ())) :
    b₂.applyTransformations refl = ({ b' with chord := List.zipWith (· / ·) b.chord fs }, .ok ()) := by
  have f1 : b₂.radii = b.radii := by rw [hb]
  have f2 : b₂.pitch = b.pitch := by rw [hb]
  have f3 : b₂.rake = b.rake := by rw [hb]
  have f4 : b₂.skew = b.skew := by rw [hb]
  have f5 : b₂.chord = List.zipWith (· / ·) b.chord fs := by rw [hb]
  have f6 : b₂.thickness = b.thickness := by rw [hb]
  have f7 : b₂.camber = b.camber := by rw [hb]
  obtain ⟨w1, w2, w3, w4, w5⟩ := id hW
  have hW' : b₂.WellFormed := by
    refine ⟨?_, ?_, ?_, ?_, ?_⟩
    · rw [f1, hS, w1]
    · rw [f5, hS]; simp [w2, hfs]
    · rw [f2, hS, w3]
    · rw [f3, hS, w4]
    · rw [f4, hS, w5]
  obtain ⟨ss, up, down, h1, h2, rfl⟩ := (Blade.apply_ok hW.1).1 h
  obtain ⟨hl, hall⟩ := (Blade.sectionLoop_ok _ _ _).1 h1
  rw [Blade.apply_ok hW'.1]
  refine ⟨ss, up, down, ?_, by rw [f1]; exact h2, by rw [hb]⟩
  rw [Blade.sectionLoop_ok]
  refine ⟨by rw [hl, hS], ?_⟩
  intro j P₂ Q hP₂ hQ
  have hj : j < b.sections.length := by rw [← hl]; exact (List.getElem?_eq_some_iff.1 hQ).1
  have hfi := List.getElem?_eq_getElem (show j < fs.length by omega)
  have hsc' := hsc j _ _ _ (List.getElem?_eq_getElem hj) hP₂ hfi
  have hfne : fs[j] ≠ 0 := h0 _ (List.getElem_mem _)
  obtain ⟨r, hr⟩ := hE P₂ (List.mem_of_getElem? hP₂)
  have hrun := hall j _ _ (List.getElem?_eq_getElem hj) hQ
  set P₁ := b.sections[j] with hP₁
  clear_value P₁
  rw [Blade.runSteps_ok] at hrun ⊢
  simp only [Blade.sectionSteps, List.foldlM_cons, List.foldlM_nil, Nat.zero_add, f1, f2, f3, f4, f6, f7, hS] at hrun ⊢
  rw [bndA] at hrun
  obtain ⟨R₁, t1, hrun⟩ := hrun
  rw [bndA] at t1; obtain ⟨ref, href, t1⟩ := t1
  obtain rfl := Except.ok.inj t1
  rw [bndA] at hrun
  obtain ⟨R₂, t2, hrun⟩ := hrun
  have gc : getIdx b.chord j = .ok b.chord[j] := Blade.getIdx_ok.2 (List.getElem?_eq_getElem (by omega))
  have gc' : getIdx b₂.chord j = .ok (b.chord[j] / fs[j]) := Blade.getIdx_ok.2 (by
    rw [f5, List.getElem?_zipWith, hfi, List.getElem?_eq_getElem (by omega)])
  have href' : (P₁.translate (-ref)).referencePoint = .ok 0 := by
    have := (C06_reference_translate_reflect P₁ ref (-ref) href).1
    rwa [add_neg_cancel] at this
  have hz : ∀ P : Profile, P.translate 0 = P := by intro P; simp [Profile.translate]
  have hP₂eq : P₂ = ((P₁.translate (-ref)).mulAll fs[j]).translate ref := by
    rw [Profile.scale_eq href] at hsc'; exact (Except.ok.inj hsc').symm
  have hcan : ∀ P : Profile, (P.translate ref).translate (-ref) = P := by
    intro P; rw [Profile.translate_translate, add_neg_cancel, hz]
  have hr0 : r = ref := by
    have h3 := (C06_reference_translate_reflect P₂ r (-ref) hr).1
    rw [hP₂eq, hcan] at h3
    have := Profile.mulAll_reference href' h3
    have h4 : r + -ref = 0 := by rw [this]; simp
    rwa [← sub_eq_add_neg, sub_eq_zero] at h4
  subst hr0
  have href2 : (P₂.translate (-r)).referencePoint = .ok 0 := by
    have := (C06_reference_translate_reflect P₂ r (-r) hr).1
    rwa [add_neg_cancel] at this
  rw [bndA]
  refine ⟨P₂.translate (-r), by rw [hr]; rfl, ?_⟩
  rw [bndA]
  refine ⟨R₂, ?_, hrun⟩
  simp only [gc, bind, Except.bind] at t2
  rw [Profile.scale_eq href', neg_zero, hz, hz] at t2
  simp only [gc', bind, Except.bind]
  rw [Profile.scale_eq href2, neg_zero, hz, hz, hP₂eq, hcan, Profile.mulAll_mulAll, ← t2, div_mul_cancel₀ _ hfne]

/-- **C85** reflecting the sections is the same as giving them the opposite chords (with any thickness, without
camber): the blade is the same apart from the chords. -/
theorem C85_reflect_is_negative_chord (b b' : Blade) (refl : Bool) (hW : b.WellFormed) (hf : b.camber = none)
    (h : b.applyTransformations refl = (b', .ok ())) :
    ({ b with chord := b.chord.map (- ·) } : Blade).applyTransformations (!refl) = ({ b' with chord := b.chord.map (- ·) }, .ok ()) := by
  obtain ⟨w1, w2, w3, w4, w5⟩ := id hW
  have hW' : ({ b with chord := b.chord.map (- ·) } : Blade).WellFormed := ⟨w1, by simpa using w2, w3, w4, w5⟩
  obtain ⟨ss, up, down, h1, h2, rfl⟩ := (Blade.apply_ok hW.1).1 h
  obtain ⟨hl, hall⟩ := (Blade.sectionLoop_ok _ _ _).1 h1
  rw [Blade.apply_ok hW'.1]
  refine ⟨ss, up, down, ?_, h2, rfl⟩
  rw [Blade.sectionLoop_ok]
  refine ⟨hl, ?_⟩
  intro j P Q hP hQ
  have hrun := hall j P Q hP hQ
  have hj : j < b.sections.length := (List.getElem?_eq_some_iff.1 hP).1
  have gc : getIdx b.chord j = .ok b.chord[j] := Blade.getIdx_ok.2 (List.getElem?_eq_getElem (by omega))
  have gc' : getIdx (b.chord.map (- ·)) j = .ok (-b.chord[j]) := Blade.getIdx_ok.2 (by
    rw [List.getElem?_map, List.getElem?_eq_getElem (by omega)]; rfl)
  rw [Blade.runSteps_ok] at hrun ⊢
  simp only [Blade.sectionSteps, List.foldlM_cons, List.foldlM_nil, Nat.zero_add, hf] at hrun ⊢
  rw [bndA] at hrun; obtain ⟨R₁, t1, hrun⟩ := hrun
  rw [bndA] at hrun; obtain ⟨R₂, t2, hrun⟩ := hrun
  rw [bndA] at hrun; obtain ⟨R₃, t3, hrun⟩ := hrun
  rw [bndA] at hrun; obtain ⟨R₄, t4, hrun⟩ := hrun
  rw [bndA] at hrun; obtain ⟨R₅, t5, hrun⟩ := hrun
  obtain rfl := Except.ok.inj t4
  obtain rfl := Except.ok.inj t5
  have t1' := t1
  rw [bndA] at t1'; obtain ⟨ref, href, e⟩ := t1'
  obtain rfl := Except.ok.inj e
  have href' : (P.translate (-ref)).referencePoint = .ok 0 := by
    have := (C06_reference_translate_reflect P ref (-ref) href).1
    rwa [add_neg_cancel] at this
  have hz : ∀ P : Profile, P.translate 0 = P := by intro P; simp [Profile.translate]
  have hsc : ∀ c, (P.translate (-ref)).scale c = .ok ((P.translate (-ref)).mulAll c) := by
    intro c; rw [Profile.scale_eq href', neg_zero, hz, hz]
  simp only [gc, bind, Except.bind, hsc] at t2
  obtain rfl := Except.ok.inj t2
  rw [bndA]; refine ⟨_, t1, ?_⟩
  rw [bndA]; refine ⟨((P.translate (-ref)).mulAll b.chord[j]).stretch (-1) (-1), ?_, ?_⟩
  · simp only [gc', bind, Except.bind, hsc, Except.ok.injEq]
    have := Profile.mulAll_mulAll (P.translate (-ref)) b.chord[j] (-1)
    rw [neg_one_mul] at this
    exact this.symm
  rw [bndA]; refine ⟨R₃.stretch (-1) (-1), ?_, ?_⟩
  · rcases hT : b.thickness with _ | T
    · simp only [hT] at t3
      obtain rfl := Except.ok.inj t3
      rfl
    · simp only [hT] at t3
      rw [bndA] at t3 ⊢
      obtain ⟨t, g, t3⟩ := t3
      refine ⟨t, g, ?_⟩
      have := Profile.setThickness_stretch (α := -1) (β := -1) (by simp) (by norm_num) t3
      simpa using this
  rw [bndA]; refine ⟨_, rfl, ?_⟩
  rw [bndA]; refine ⟨_, ?_, hrun⟩
  cases refl
  · simp only [Bool.not_false, if_true, Bool.false_eq_true, if_false, Except.ok.injEq]
    simp [Profile.reflect, Profile.stretch, Function.comp_def]
  · rfl

/-- The sections turned upside down. -/
theorem Profile.upsideDown_reference (P : Profile) (ref : Pt) (h : P.referencePoint = .ok ref) :
    ({ P with yup := P.yup.map (- ·), ydown := P.ydown.map (- ·) } : Profile).referencePoint = .ok (ref.1, -ref.2) := by
  unfold Profile.referencePoint at h
  rcases he : P.updateEdges with _ | e
  · rw [he] at h; simp [bind, Except.bind] at h
  rw [he] at h
  simp only [bind, Except.bind, pure, Except.pure, Except.ok.injEq] at h
  subst h
  obtain ⟨xu0, xd0, xu1, xd1, yu0, yu1, yd1, h1, h2, h3, h4, h5, h6, h7, c1, c2, rfl⟩ := Profile.updateEdges_ok he
  have := (C07_edge_check ({ P with yup := P.yup.map (- ·), ydown := P.ydown.map (- ·) } : Profile) (xu0 := xu0) (xd0 := xd0)
    (xu1 := xu1) (xd1 := xd1) (yu0 := -yu0) (yu1 := -yu1) (yd1 := -yd1) h1 h2 h3 h4 (by simp [h5]) (by simp [h6]) (by simp [h7])).2.2
    c1 c2
  rw [C06_reference_is_midpoint _ this]
  congr 1
  ext <;> simp [mid] <;> ring

theorem Profile.rotCols_mirror (c s : ℝ) (n : Nat) (xs ys : Arr) :
    rotCols (-c) s n (xs.map (· * (-1))) (ys.map (· * 1)) = (rotCols c s n xs ys).map fun p => (p.1 * 1, p.2 * (-1)) := by
  unfold rotCols
  apply List.ext_getElem?
  intro i
  simp only [List.zip_map, List.getElem?_mapIdx, List.getElem?_map]
  rcases (List.zip xs ys)[i]? with _ | p
  · rfl
  simp only [Option.map_some, Prod.map]
  congr 1
  split
  · ext <;> simp <;> ring
  · simp

theorem Profile.rotate_mirror {P Q : Profile} {a : ℝ} (h : P.rotate (some a) none = .ok Q) :
    (P.stretch (-1) 1).rotate (some (Real.pi - a)) none = .ok (Q.stretch 1 (-1)) := by
  unfold rotate at h ⊢
  simp only [bind, Except.bind, pure, Except.pure, throw, throwThe, MonadExceptOf.throw, Option.isSome_none, Bool.false_eq_true, and_false,
    if_false, stretch, List.length_map, Real.cos_pi_sub, Real.sin_pi_sub] at h ⊢
  split at h
  · cases h
  · split at h
    · cases h
    · split at h
      · cases h
      · obtain rfl := Except.ok.inj h
        rename_i h1 h2 h3
        rw [if_neg h1, if_neg h2, if_neg h3]
        simp only [rotCols_mirror, List.map_map]
        rfl

/-- **C85** the propeller of the other hand: the sections turned upside down, pitch and skew negated and the reflection of the sections
exchanged: all coordinates are the mirror images in the plane `y = 0` of those of the given blade (with any thickness). -/
theorem C85_other_hand (b b' : Blade) (refl : Bool) (hW : b.WellFormed) (hf : b.camber = none)
    (h : b.applyTransformations refl = (b', .ok ())) :
    ∃ b'', b.otherHand.applyTransformations (!refl) = (b'', .ok ()) ∧ b'.coordsMoved mirrorY b'' := by
  obtain ⟨w1, w2, w3, w4, w5⟩ := id hW
  have hW' : b.otherHand.WellFormed := by simp [Blade.otherHand, Blade.WellFormed, w1, w2, w3, w4, w5]
  apply Blade.transfer_all (refl₂ := !refl) hW hW' (by simp [Blade.otherHand]) mirrorY h
  intro i P₁ P₂ Q₁ r₁ r₂ hP₁ hP₂ hr₁ hr₂ hr0 hrun e1 e2
  have hP₂' : { P₁ with yup := P₁.yup.map (- ·), ydown := P₁.ydown.map (- ·) } = P₂ := by
    simp only [Blade.otherHand, List.getElem?_map, hP₁, Option.map_some, Option.some.injEq] at hP₂
    exact hP₂
  have hst : P₂ = P₁.stretch 1 (-1) := by rw [← hP₂']; simp [Profile.stretch]
  obtain rfl : r₁ = r₂ := by
    have : b.radii[i]? = some r₂ := hr₂
    rw [hr₁] at this; exact Option.some.inj this
  have hi : i < b.sections.length := (List.getElem?_eq_some_iff.1 hP₁).1
  have gr : getIdx b.radii i = .ok r₁ := Blade.getIdx_ok.2 hr₁
  have gp : getIdx b.pitch i = .ok b.pitch[i] := Blade.getIdx_ok.2 (List.getElem?_eq_getElem (by omega))
  have gk : getIdx b.rake i = .ok b.rake[i] := Blade.getIdx_ok.2 (List.getElem?_eq_getElem (by omega))
  have gs : getIdx b.skew i = .ok b.skew[i] := Blade.getIdx_ok.2 (List.getElem?_eq_getElem (by omega))
  have gc : getIdx b.chord i = .ok b.chord[i] := Blade.getIdx_ok.2 (List.getElem?_eq_getElem (by omega))
  have gr' : getIdx b.otherHand.radii i = .ok r₁ := gr
  have gp' : getIdx b.otherHand.pitch i = .ok (-b.pitch[i]) := Blade.getIdx_ok.2 (by simp [Blade.otherHand, show i < b.pitch.length by omega])
  have gk' : getIdx b.otherHand.rake i = .ok b.rake[i] := gk
  have gs' : getIdx b.otherHand.skew i = .ok (-b.skew[i]) := Blade.getIdx_ok.2 (by simp [Blade.otherHand, show i < b.skew.length by omega])
  have gc' : getIdx b.otherHand.chord i = .ok b.chord[i] := gc
  rw [Blade.runSteps_ok] at hrun
  simp only [Blade.sectionSteps, List.foldlM_cons, List.foldlM_nil] at hrun
  rw [bndA] at hrun; obtain ⟨R₁, t1, hrun⟩ := hrun
  rw [bndA] at hrun; obtain ⟨R₂, t2, hrun⟩ := hrun
  rw [bndA] at hrun; obtain ⟨R₃, t3, hrun⟩ := hrun
  rw [bndA] at hrun; obtain ⟨R₄, t4, hrun⟩ := hrun
  rw [bndA] at hrun; obtain ⟨R₅, t5, hrun⟩ := hrun
  rw [bndA] at hrun; obtain ⟨R₆, t6, hrun⟩ := hrun
  rw [bndA] at t1; obtain ⟨ref, href, t1⟩ := t1
  obtain rfl := Except.ok.inj t1
  have hz : ∀ P : Profile, P.translate 0 = P := by intro P; simp [Profile.translate]
  have hsc : ∀ (P : Profile) (ref : Pt) (c : ℝ), P.referencePoint = .ok ref →
      (P.translate (-ref)).scale c = .ok ((P.translate (-ref)).mulAll c) := by
    intro P ref c hr
    have := (C06_reference_translate_reflect P ref (-ref) hr).1
    rw [add_neg_cancel] at this
    rw [Profile.scale_eq this, neg_zero, hz, hz]
  have href2 : P₂.referencePoint = .ok (ref.1, -ref.2) := by rw [← hP₂']; exact Profile.upsideDown_reference _ _ href
  simp only [gc, bind, Except.bind, hsc _ _ _ href] at t2
  obtain rfl := Except.ok.inj t2
  simp only [hf] at t4
  obtain rfl := Except.ok.inj t4
  obtain rfl := Except.ok.inj t5
  have hR₁ : P₂.translate (-(ref.1, -ref.2)) = (P₁.translate (-ref)).stretch 1 (-1) := by
    rw [hst]
    simp [Profile.translate, Profile.stretch, Function.comp_def]
    constructor <;> (intro a _; ring)
  simp only [gr, gp, Blade.pitchAngle, if_neg hr0, bind, Except.bind] at t6
  have t6' := Profile.rotate_mirror t6
  have ep : Real.pi / 2 - Real.arctan (-b.pitch[i] / (2 * Real.pi * r₁)) = Real.pi - (Real.pi / 2 - Real.arctan (b.pitch[i] / (2 * Real.pi * r₁))) := by
    rw [neg_div, Real.arctan_neg]; ring
  have hQ₁ : Q₁ = (R₆.translate (0, -(r₁ * radians b.skew[i] Real.pi))).translate
      (-(b.rake[i] + Real.pi * b.skew[i] / 180 * b.pitch[i] / (2 * Real.pi)), 0) := by
    simp only [gr, gs, gk, gp, Blade.inducedRake_ok hr0, bind, Except.bind, pure, Except.pure] at hrun
    exact (Except.ok.inj hrun).symm
  refine ⟨Q₁.stretch 1 (-1), ?_, hr0, by simpa [Profile.stretch] using e1, by simpa [Profile.stretch] using e2, ?_, ?_⟩
  · rw [Blade.runSteps_ok]
    simp only [Blade.sectionSteps, List.foldlM_cons, List.foldlM_nil]
    rw [bndA]; refine ⟨_, by rw [href2]; rfl, ?_⟩
    rw [bndA]; refine ⟨((P₁.translate (-ref)).mulAll b.chord[i]).stretch 1 (-1), by
      simp only [gc', bind, Except.bind, hsc _ _ _ href2]
      rw [hR₁]
      simp only [Profile.mulAll, Profile.stretch, List.map_map, Except.ok.injEq, Profile.mk.injEq, and_true]
      refine ⟨?_, ?_, ?_, ?_⟩ <;> exact List.map_congr_left fun x _ => by simp only [Function.comp]; ring, ?_⟩
    rw [bndA]; refine ⟨R₃.stretch 1 (-1), ?_, ?_⟩
    · show (match b.thickness with
        | none => (.ok _ : Res Profile)
        | some t => do Profile.setThicknessMax _ (← getIdx t i)) = _
      rcases hT : b.thickness with _ | T
      · simp only [hT] at t3
        obtain rfl := Except.ok.inj t3
        rfl
      · simp only [hT] at t3 ⊢
        rw [bndA] at t3 ⊢
        obtain ⟨t, g, t3⟩ := t3
        refine ⟨t, g, ?_⟩
        have := Profile.setThickness_stretch (α := 1) (β := -1) (by simp) (by norm_num) t3
        simpa using this
    rw [bndA]; refine ⟨R₃.stretch 1 (-1), by simp [Blade.otherHand, hf], ?_⟩
    rw [bndA]; refine ⟨(if refl then R₃.reflect else R₃).stretch (-1) 1, by
      cases refl <;> simp [Profile.reflect, Profile.stretch, Function.comp_def], ?_⟩
    rw [bndA]; refine ⟨R₆.stretch 1 (-1), by
      simp only [gr', gp', Blade.pitchAngle, if_neg hr0, bind, Except.bind, ep]
      exact t6', ?_⟩
    simp only [gr', gs', gk', gp', Blade.inducedRake_ok hr0, bind, Except.bind, pure, Except.pure]
    rw [hQ₁]
    simp only [Profile.translate, Profile.stretch, radians, Except.ok.injEq, List.map_map, Profile.mk.injEq, and_true]
    refine ⟨?_, ?_, ?_, ?_⟩ <;> refine List.map_congr_left fun x _ => ?_ <;> simp only [Function.comp] <;> ring
  all_goals
    simp only [Profile.upper, Profile.lower, Profile.stretch, List.zip_map, List.map_map]
    refine List.map_congr_left fun p _ => ?_
    simp [wrap, mirrorY, neg_div]

/-- Non-vacuity: the two-section blade of `Sample`, doubled, turned by 30 degrees, displaced and mirrored. -/
theorem Sample.blade2_wf : Sample.blade2.WellFormed := by simp [Sample.blade2, Blade.WellFormed]

example : ∃ b' b'', Sample.blade2.applyTransformations true = (b', .ok ()) ∧
    (Sample.blade2.enlarged 2).applyTransformations true = (b'', .ok ()) ∧ b'.coordsMoved (dilate 2) b'' := by
  obtain ⟨b', h⟩ := Sample.blade2_applies true
  exact ⟨b', (C81_similar _ b' true Sample.blade2_wf (Or.inl rfl) rfl 2 (by norm_num) h).imp
    fun b'' hb => ⟨h, hb⟩⟩

example : ∃ b' b'', Sample.blade2.applyTransformations true = (b', .ok ()) ∧
    (Sample.blade2.reskewed [0, 1] [30, 20]).applyTransformations true = (b'', .ok ()) := by
  obtain ⟨b', h⟩ := Sample.blade2_applies true
  obtain ⟨b'', h2, _⟩ := C82_rake_skew _ b' true Sample.blade2_wf [0, 1] [30, 20] rfl rfl h
  exact ⟨b', b'', h, h2⟩

example : ∃ b', Sample.blade2.applyTransformations true = (b', .ok ()) ∧
    ∃ b'', ({ Sample.blade2 with rake := Sample.blade2.rake.map (· + 5) } : Blade).applyTransformations true = (b'', .ok ()) ∧
      b'.coordsMoved (shiftX (-5)) b'' := by
  obtain ⟨b', h⟩ := Sample.blade2_applies true
  exact ⟨b', h, (C83_screw _ b' true Sample.blade2_wf 5 h).2.2⟩

example : ∃ b', Sample.blade2.applyTransformations false = (b', .ok ()) ∧
    (Sample.blade2.displaced [(1, 2), (3, 4)]).applyTransformations false = (b', .ok ()) := by
  obtain ⟨b', h⟩ := Sample.blade2_applies false
  exact ⟨b', h, C84_displaced _ b' false Sample.blade2_wf _ rfl h⟩

example : ∃ b' b₂ b'' : Blade, Sample.blade2.applyTransformations false = (b', .ok ()) ∧
    b₂.chord = [1 / 2, 3 / 4] ∧ b₂.applyTransformations false = (b'', .ok ()) ∧ b''.coordsUp = b'.coordsUp := by
  obtain ⟨b', h⟩ := Sample.blade2_applies false
  let Q (f : ℝ) := ((Sample.foil.translate (-(1/2, 0))).mulAll f).translate (1/2, 0)
  let b₂ : Blade := { Sample.blade2 with sections := [Q 2, Q 4], chord := [1 / 2, 3 / 4] }
  have hr : ∀ f : ℝ, (Q f).referencePoint = .ok (1/2, 0) := by
    intro f
    obtain ⟨ref, Q', h1, h2, h3, _⟩ := C05_scale_reference Sample.foil ⟨Sample.foil_uniform.1, Sample.foil_uniform.2.2⟩ (0, 0) (1, 0) (0, 0) (1, 0)
      (by simp [Sample.foil, Profile.Ends, Profile.upper, Profile.lower]) rfl rfl f 1
    rw [Sample.foil_reference] at h1
    obtain rfl := Except.ok.inj h1
    rw [Profile.scale_eq Sample.foil_reference] at h2
    obtain rfl := Except.ok.inj h2
    exact h3
  have g1 := C84_scaled Sample.blade2 b₂ b' false Sample.blade2_wf
    (by
      intro R hR
      have : R = Q 2 ∨ R = Q 4 := by simpa [b₂] using hR
      rcases this with rfl | rfl <;> exact ⟨_, hr _⟩)
    [2, 4] rfl (by simp) (by simp [b₂, Sample.blade2]) (by simp [b₂, Sample.blade2])
    (by
      intro i P R f h1 h2 h3
      rcases i with _ | _ | i <;> simp [b₂, Sample.blade2] at h1 h2 h3
      all_goals
        subst h1 h2 h3
        exact Profile.scale_eq Sample.foil_reference) h
  exact ⟨b', b₂, _, h, rfl, g1, rfl⟩

example : ∃ b' b'', Sample.blade2.applyTransformations true = (b', .ok ()) ∧
    ({ Sample.blade2 with chord := [-1, -3] } : Blade).applyTransformations false = (b'', .ok ()) ∧ b''.coordsUp = b'.coordsUp := by
  obtain ⟨b', h⟩ := Sample.blade2_applies true
  have g := C85_reflect_is_negative_chord _ b' true Sample.blade2_wf rfl h
  exact ⟨b', { b' with chord := [-1, -3] }, h, by simpa [Sample.blade2] using g, rfl⟩

example : ∃ b' b'', Sample.blade2.applyTransformations true = (b', .ok ()) ∧
    Sample.blade2.otherHand.applyTransformations false = (b'', .ok ()) ∧ b'.coordsMoved mirrorY b'' := by
  obtain ⟨b', h⟩ := Sample.blade2_applies true
  obtain ⟨b'', g⟩ := C85_other_hand _ b' true Sample.blade2_wf rfl h
  exact ⟨b', b'', h, g⟩

end
end BladeX
