import Verif.Lemmas.Area
import Verif.Props.BladeShape
import Verif.Props.ProfileEdges
import Verif.Props.ProfileMotion
import Verif.Props.Inside
import Verif.Props.CustomRoundtrip
import Verif.Props.BladeCamber

/-! # C125: the area of a section -/

namespace BladeX
noncomputable section
open Spec Polygon Classical

open MeasureTheory in
/-- **C125** what the shoelace formula measures: for the outline of a foil whose upper surface `U` is nowhere below the lower one
`L`, the region strictly between the surfaces has exactly this area. -/
theorem C125_is_area (U L : List Pt) (hf : FoilOutline U L)
    (hle : ∀ x h k : ℝ, (∃ e ∈ U.zip U.tail, OnEdge (x, h) e.1 e.2) → (∃ e ∈ L.zip L.tail, OnEdge (x, k) e.1 e.2) → k ≤ h) :
    volume {p : Pt | StrictlyBetween p U L} = ENNReal.ofReal (-signedArea (U ++ L.reverse)) ∧ 0 ≤ -signedArea (U ++ L.reverse) := by
  obtain ⟨cU, cL, x₀, x₁, h01, hu0, hl0, hu1, hl1⟩ := hf
  rw [signedArea_foil U L x₀ x₁ hu0 hl0 hu1 hl1]
  rcases U with _ | ⟨u, U⟩
  · simp at hu0
  rcases L with _ | ⟨d, L⟩
  · simp at hl0
  obtain ⟨y, hy⟩ : ∃ y, (u :: U).getLast? = some y := ⟨_, List.getLast?_eq_some_getLast (by simp)⟩
  obtain ⟨z, hz⟩ : ∃ z, (d :: L).getLast? = some z := ⟨_, List.getLast?_eq_some_getLast (by simp)⟩
  rw [hy] at hu1
  rw [hz] at hl1
  simp only [List.head?_cons, Option.map_some, Option.some.injEq] at hu0 hl0 hu1 hl1
  obtain ⟨f, hf⟩ := follows_exists _ cU
  obtain ⟨g, hg⟩ := follows_exists _ cL
  obtain ⟨iU, eU⟩ := follows_integral U u y cU hy hf
  obtain ⟨iL, eL⟩ := follows_integral L d z cL hz hg
  rw [hu0, hu1] at iU eU
  rw [hl0, hl1] at iL eL
  have neU : U ≠ [] := by
    rintro rfl
    simp at hy
    rw [← hy, hu0] at hu1
    linarith
  have neL : L ≠ [] := by
    rintro rfl
    simp at hz
    rw [← hz, hl0] at hl1
    linarith
  -- heights on the broken lines are the values of `f` and `g`
  have val : ∀ {f : ℝ → ℝ} {l : List Pt} {a : Pt}, Chain (a :: l) → Follows f (a :: l) → ∀ x h : ℝ,
      (∃ e ∈ (a :: l).zip (a :: l).tail, OnEdge (x, h) e.1 e.2) → h = f x := fun hc hf x h => follows_val hc hf
  have ex : ∀ {f : ℝ → ℝ} {l : List Pt} {a w : Pt}, Chain (a :: l) → (a :: l).getLast? = some w → l ≠ [] → Follows f (a :: l) → ∀ x : ℝ,
      a.1 ≤ x → x ≤ w.1 → ∃ e ∈ (a :: l).zip (a :: l).tail, OnEdge (x, f x) e.1 e.2 := by
    intro f l a w hc hw hn hf x h0 h1
    obtain ⟨h, e, he, ho⟩ := line_point l a w hc hw hn h0 h1
    rw [← val hc hf x h ⟨e, he, ho⟩]
    exact ⟨e, he, ho⟩
  have hfg : ∀ x ∈ Set.Icc x₀ x₁, g x ≤ f x := fun x hx =>
    hle x _ _ (ex cU hy neU hf x (by rw [hu0]; exact hx.1) (by rw [hu1]; exact hx.2))
      (ex cL hz neL hg x (by rw [hl0]; exact hx.1) (by rw [hl1]; exact hx.2))
  have hset : {p : Pt | StrictlyBetween p (u :: U) (d :: L)} = regionBetween g f (Set.Icc x₀ x₁) := by
    ext p
    simp only [Set.mem_setOf_eq, regionBetween, Set.mem_Ioo]
    constructor
    · rintro (⟨⟨e, he, h, ho, hp⟩, ⟨e', he', k, ho', hp'⟩⟩ | ⟨⟨e, he, h, ho, hp⟩, ⟨e', he', k, ho', hp'⟩⟩)
      · obtain ⟨r0, r1⟩ := line_range cU hy ⟨e, he, ho⟩
        rw [hu0] at r0
        rw [hu1] at r1
        refine ⟨⟨r0, r1⟩, ?_, ?_⟩
        · rw [← val cL hg _ k ⟨e', he', ho'⟩]; exact hp'
        · rw [← val cU hf _ h ⟨e, he, ho⟩]; exact hp
      · exfalso
        have := hle p.1 h k ⟨e, he, ho⟩ ⟨e', he', ho'⟩
        linarith
    · rintro ⟨⟨r0, r1⟩, k0, k1⟩
      obtain ⟨e, he, ho⟩ := ex cU hy neU hf p.1 (by rw [hu0]; exact r0) (by rw [hu1]; exact r1)
      obtain ⟨e', he', ho'⟩ := ex cL hz neL hg p.1 (by rw [hl0]; exact r0) (by rw [hl1]; exact r1)
      exact Or.inl ⟨⟨e, he, _, ho, k1⟩, ⟨e', he', _, ho', k0⟩⟩
  have jU : IntegrableOn f (Set.Icc x₀ x₁) := (intervalIntegrable_iff_integrableOn_Icc_of_le h01.le).1 iU
  have jL : IntegrableOn g (Set.Icc x₀ x₁) := (intervalIntegrable_iff_integrableOn_Icc_of_le h01.le).1 iL
  have hint : ∫ x in Set.Icc x₀ x₁, (f - g) x = trap (u :: U) - trap (d :: L) := by
    rw [← eU, ← eL, intervalIntegral.integral_of_le h01.le, intervalIntegral.integral_of_le h01.le, ← integral_Icc_eq_integral_Ioc,
      ← integral_Icc_eq_integral_Ioc, ← integral_sub jU jL]
    rfl
  rw [neg_sub]
  constructor
  · rw [hset, ← hint]
    exact volume_regionBetween_eq_integral jL jU measurableSet_Icc hfg
  · rw [← hint]
    exact setIntegral_nonneg measurableSet_Icc fun x hx => sub_nonneg.2 (hfg x hx)

open MeasureTheory in
/-- **C125** in particular for a profile over common increasing abscissae, the upper surface nowhere below the lower one: `area` is the
area of the region between its surfaces. -/
theorem C125_profile_area (P : Profile) (h : P.SameX) (hx : P.xup.Pairwise (· < ·)) (h2 : 2 ≤ P.xup.length) (ho : P.Ordered) :
    volume {p : Pt | StrictlyBetween p P.upper P.lower} = ENNReal.ofReal P.area ∧ 0 ≤ P.area := by
  obtain ⟨hX, hu, hd, hne⟩ := h
  have hc : ∀ ys : List ℝ, ys.length = P.xup.length → Chain (P.xup.zip ys) := by
    intro ys hy
    have : ((P.xup.zip ys).map Prod.fst).Pairwise (· < ·) := by rw [List.map_fst_zip (by omega)]; exact hx
    exact List.pairwise_map.1 this
  obtain ⟨x0, h0⟩ : ∃ x0, P.xup.head? = some x0 := ⟨_, List.head?_eq_some_head hne⟩
  obtain ⟨x1, h1⟩ : ∃ x1, P.xup.getLast? = some x1 := ⟨_, List.getLast?_eq_some_getLast hne⟩
  have hh : ∀ ys : List ℝ, ys.length = P.xup.length → (P.xup.zip ys).head?.map Prod.fst = some x0 ∧
      (P.xup.zip ys).getLast?.map Prod.fst = some x1 := by
    intro ys hy
    have e : (P.xup.zip ys).map Prod.fst = P.xup := List.map_fst_zip (by omega)
    constructor
    · rw [← List.head?_map, e, h0]
    · rw [← List.getLast?_map, e, h1]
  have h01 : x0 < x1 := by
    rw [List.head?_eq_getElem?, List.getElem?_eq_getElem (by omega), Option.some.injEq] at h0
    rw [List.getLast?_eq_getElem?, List.getElem?_eq_getElem (by omega), Option.some.injEq] at h1
    rw [← h0, ← h1]
    exact List.pairwise_iff_getElem.1 hx 0 (P.xup.length - 1) (by omega) (by omega) (by omega)
  have hl : P.lower = P.xup.zip P.ydown := by rw [Profile.lower, hX]
  have hfo : FoilOutline P.upper P.lower := by
    rw [hl]
    exact ⟨hc _ hu, hc _ hd, x0, x1, h01, (hh _ hu).1, (hh _ hd).1, (hh _ hu).2, (hh _ hd).2⟩
  refine C125_is_area P.upper P.lower hfo ?_
  rw [hl]
  rintro x h k ⟨e, he, hoe⟩ hk
  obtain ⟨g, hg⟩ := follows_exists _ (hc _ hd)
  have hk' : k = g x := by
    rcases hz : P.xup.zip P.ydown with _ | ⟨a, l⟩
    · rw [hz] at hk; simp at hk
    · rw [hz] at hk hg
      exact follows_val (by rw [← hz]; exact hc _ hd) hg hk
  obtain ⟨j, hj, rfl⟩ := List.mem_iff_getElem.1 he
  have hj' : j + 1 < P.xup.length := by simp [Profile.upper] at hj; omega
  have hlt : P.xup[j] < P.xup[j + 1] := List.pairwise_iff_getElem.1 hx j (j + 1) (by omega) hj' (by omega)
  have e1 : (P.upper.zip P.upper.tail)[j] = ((P.xup[j], P.yup[j]'(by omega)), (P.xup[j + 1], P.yup[j + 1]'(by omega))) := by
    simp [Profile.upper]
  rw [e1] at hoe
  obtain ⟨r0, r1, hval⟩ := (onEdge_height (a := (P.xup[j], P.yup[j]'(by omega))) (b := (P.xup[j + 1], P.yup[j + 1]'(by omega))) hlt).1 hoe
  have hj2 : j < ((P.xup.zip P.ydown).zip (P.xup.zip P.ydown).tail).length := by simp; omega
  have e2 : ((P.xup.zip P.ydown).zip (P.xup.zip P.ydown).tail)[j] =
      ((P.xup[j], P.ydown[j]'(by omega)), (P.xup[j + 1], P.ydown[j + 1]'(by omega))) := by
    simp
  have hg' := hg _ (List.getElem_mem hj2) x (by rw [e2]; exact r0) (by rw [e2]; exact r1)
  rw [e2] at hg'
  obtain ⟨_, _, gval⟩ := (onEdge_height (a := (P.xup[j], P.ydown[j]'(by omega))) (b := (P.xup[j + 1], P.ydown[j + 1]'(by omega))) hlt).1 hg'
  rw [hk', gval, hval]
  have o1 := ho j _ _ (List.getElem?_eq_getElem (show j < P.yup.length by omega)) (List.getElem?_eq_getElem (show j < P.ydown.length by omega))
  have o2 := ho (j + 1) _ _ (List.getElem?_eq_getElem (show j + 1 < P.yup.length by omega))
    (List.getElem?_eq_getElem (show j + 1 < P.ydown.length by omega))
  simp only at r0 r1 ⊢
  generalize P.xup[j] = xa at *
  generalize P.xup[j + 1] = xb at *
  generalize P.yup[j] = ua at *
  generalize P.yup[j + 1] = ub at *
  generalize P.ydown[j] = da at *
  generalize P.ydown[j + 1] = db at *
  have hpos : 0 < xb - xa := by linarith
  have hs0 : 0 ≤ (x - xa) / (xb - xa) := div_nonneg (by linarith) hpos.le
  have hs1 : (x - xa) / (xb - xa) ≤ 1 := (div_le_one hpos).2 (by linarith)
  have ea : da + (x - xa) * ((db - da) / (xb - xa)) = da + (x - xa) / (xb - xa) * (db - da) := by ring
  have eb : ua + (x - xa) * ((ub - ua) / (xb - xa)) = ua + (x - xa) / (xb - xa) * (ub - ua) := by ring
  rw [ea, eb]
  nlinarith

namespace Profile

theorem area_app {P Q : Profile} (M : Affine) (hu : Q.upper = P.upper.map M.app) (hl : Q.lower = P.lower.map M.app) :
    Q.area = (M.a * M.d - M.b * M.c) * P.area := by
  have : Q.outline = P.outline.map M.app := by simp [outline, hu, hl]
  rw [area, this, signedArea_app, area]
  ring

theorem area_translate (P : Profile) (v : Pt) : (P.translate v).area = P.area := by
  have h : (fun p : Pt => p + v) = Affine.app ⟨1, 0, 0, 1, v⟩ := by funext p; simp [Affine.app]; ext <;> simp
  rw [area_app (P := P) ⟨1, 0, 0, 1, v⟩ (by rw [translate_upper, ← h]) (by rw [translate_lower, ← h])]
  ring

theorem area_mulAll (P : Profile) (f : ℝ) : (P.mulAll f).area = f ^ 2 * P.area := by
  have h : (fun p : Pt => (f * p.1, f * p.2)) = Affine.app ⟨f, 0, 0, f, 0⟩ := by funext p; simp [Affine.app]
  rw [area_app (P := P) ⟨f, 0, 0, f, 0⟩ (by rw [mulAll_upper, ← h]) (by rw [mulAll_lower, ← h])]
  ring

theorem area_reflect (P : Profile) : P.reflect.area = P.area := by
  have h : (fun p : Pt => (-p.1, -p.2)) = Affine.app ⟨-1, 0, 0, -1, 0⟩ := by funext p; simp [Affine.app]
  rw [area_app (P := P) ⟨-1, 0, 0, -1, 0⟩ (by rw [reflect_upper, ← h]) (by rw [reflect_lower, ← h])]
  ring

theorem area_rot {P Q : Profile} (t : ℝ) (hu : Q.upper = P.upper.map (rot t)) (hl : Q.lower = P.lower.map (rot t)) : Q.area = P.area := by
  have h : rot t = Affine.app ⟨Real.cos t, -Real.sin t, Real.sin t, Real.cos t, 0⟩ := by
    funext p; simp [Affine.app, rot, sub_eq_add_neg]
  rw [area_app (P := P) ⟨Real.cos t, -Real.sin t, Real.sin t, Real.cos t, 0⟩ (by rw [hu, h]) (by rw [hl, h])]
  have := Real.sin_sq_add_cos_sq t
  linear_combination P.area * this

theorem area_motion {P Q : Profile} (hU : P.Uniform) (m : Motion) (h : m.run P = .ok Q) : Q.area = m.areaFactor * P.area ∧ Q.Uniform := by
  cases m with
  | translate v =>
    obtain rfl := Except.ok.inj h
    exact ⟨by rw [area_translate]; simp [Motion.areaFactor], Blade.translate_uniform hU v⟩
  | reflect =>
    obtain rfl := Except.ok.inj h
    exact ⟨by rw [area_reflect]; simp [Motion.areaFactor], Blade.reflect_uniform hU⟩
  | scale f b =>
    simp only [Motion.run] at h
    cases b with
    | false =>
      simp only [scale, Bool.false_eq_true, if_false] at h
      obtain rfl := Except.ok.inj h
      exact ⟨by rw [area_mulAll]; rfl, Blade.mulAll_uniform hU f⟩
    | true =>
      rcases hr : P.referencePoint with e | ref
      · rw [scale_error hr] at h; cases h
      · rw [scale_eq hr] at h
        obtain rfl := Except.ok.inj h
        exact ⟨by rw [area_translate, area_mulAll, area_translate]; rfl,
          Blade.translate_uniform (Blade.mulAll_uniform (Blade.translate_uniform hU _) f) _⟩
  | rotate r d =>
    simp only [Motion.run] at h
    have key : ∀ t, P.rotate (some t) none = .ok Q → Q.area = 1 * P.area ∧ Q.Uniform := by
      intro t ht
      obtain ⟨Q', hQ', hU', hu, hl, _⟩ := C02_rotate_points P hU t
      obtain rfl : Q' = Q := by rw [ht] at hQ'; exact (Except.ok.inj hQ').symm
      exact ⟨by rw [area_rot t hu hl, one_mul], hU'⟩
    rcases r with _ | t <;> rcases d with _ | d
    · rw [(C03_rotate_args P none none).1 rfl] at h; cases h
    · rw [C03_rotate_degrees] at h; exact key _ h
    · exact key _ h
    · rw [(C03_rotate_args P (some t) (some d)).1 rfl] at h; cases h

theorem area_same {P : Profile} (h : P.SameX) : P.area = trap (P.xup.zip (List.zipWith (fun u d => u - d) P.yup P.ydown)) := by
  obtain ⟨hx, hu, hd, hne⟩ := h
  obtain ⟨x0, h0⟩ : ∃ x0, P.xup.head? = some x0 := ⟨_, List.head?_eq_some_head hne⟩
  obtain ⟨x1, h1⟩ : ∃ x1, P.xup.getLast? = some x1 := ⟨_, List.getLast?_eq_some_getLast hne⟩
  have hh : ∀ ys : List ℝ, ys.length = P.xup.length → (P.xup.zip ys).head?.map Prod.fst = some x0 ∧
      (P.xup.zip ys).getLast?.map Prod.fst = some x1 := by
    intro ys hy
    have e : (P.xup.zip ys).map Prod.fst = P.xup := List.map_fst_zip (by omega)
    constructor
    · rw [← List.head?_map, e, h0]
    · rw [← List.getLast?_map, e, h1]
  rw [← trap_zip P.xup P.yup P.ydown hu hd, area, outline, signedArea_foil P.upper P.lower x0 x1 (hh _ hu).1
    (by rw [lower, hx]; exact (hh _ hd).1) (hh _ hu).2 (by rw [lower, hx]; exact (hh _ hd).2), upper, lower, hx]
  ring

theorem maxCamber_coords {P Q : Profile} {n : Option Int} {v : ℝ} (h : P.maxCamber n = .ok (v, Q)) : P.SameCoords Q := by
  unfold maxCamber at h
  rw [bndA] at h
  obtain ⟨P1, h1, h⟩ := h
  rw [bndA] at h
  obtain ⟨P2, h2, h⟩ := h
  have k1 : P.SameCoords P1 := by
    unfold computeChordLine at h1
    rw [bndA] at h1
    obtain ⟨e, -, h1⟩ := h1
    split at h1
    · cases h1
    · simp only [pure_bind] at h1
      rw [bndA] at h1
      obtain ⟨m, -, h1⟩ := h1
      cases m with
      | none =>
        obtain rfl := Except.ok.inj (show Except.ok _ = Except.ok P1 from h1)
        exact ⟨rfl, rfl, rfl, rfl⟩
      | some k =>
        simp only at h1
        rw [bndA] at h1
        obtain ⟨xs, -, h1⟩ := h1
        obtain rfl := Except.ok.inj (show Except.ok _ = Except.ok P1 from h1)
        exact ⟨rfl, rfl, rfl, rfl⟩
  have k2 : P1.SameCoords P2 := by
    unfold computeCamberLine at h2
    rw [bndA] at h2
    obtain ⟨m, -, h2⟩ := h2
    cases m with
    | none =>
      simp only at h2
      rw [bndA] at h2
      obtain ⟨ys, -, h2⟩ := h2
      rw [bndA] at h2
      obtain ⟨cl, -, h2⟩ := h2
      obtain rfl := Except.ok.inj (show Except.ok _ = Except.ok P2 from h2)
      exact ⟨rfl, rfl, rfl, rfl⟩
    | some k =>
      simp only at h2
      rw [bndA] at h2
      obtain ⟨t, -, h2⟩ := h2
      rw [bndA] at h2
      obtain ⟨ys, -, h2⟩ := h2
      rw [bndA] at h2
      obtain ⟨cl, -, h2⟩ := h2
      obtain rfl := Except.ok.inj (show Except.ok _ = Except.ok P2 from h2)
      exact ⟨rfl, rfl, rfl, rfl⟩
  have k3 : P2 = Q := by
    simp only [] at h
    split at h
    · cases h
    · try simp only [pure_bind] at h
      rw [bndA] at h
      obtain ⟨w, -, h⟩ := h
      have := Except.ok.inj (show Except.ok _ = Except.ok (v, Q) from h)
      exact (Prod.mk.inj this).2
  subst k3
  obtain ⟨a1, a2, a3, a4⟩ := k1
  obtain ⟨b1, b2, b3, b4⟩ := k2
  exact ⟨by rw [b1, a1], by rw [b2, a2], by rw [b3, a3], by rw [b4, a4]⟩

theorem area_deform {P Q : Profile} (h : P.SameX) (ho : P.Ordered) (p : ℝ) (hQ : P.deformCamberLine p none = .ok Q) :
    Q.area = P.area ∧ Q.SameX ∧ Q.Ordered := by
  obtain ⟨Q', hQ', hS, _, _, hpt⟩ := C11_deform_camber P h p
  obtain rfl : Q' = Q := by rw [hQ] at hQ'; exact (Except.ok.inj hQ').symm
  obtain ⟨Q'', hQ'', hxu, _, _, hyu, hyd⟩ := deform_same h p
  obtain rfl : Q'' = Q' := by rw [hQ] at hQ''; exact (Except.ok.inj hQ'').symm
  refine ⟨?_, hS, ?_⟩
  · rw [area_same h, area_same hS, hxu, hyu, hyd]
    congr 2
    apply List.ext_getElem?
    intro i
    simp only [List.getElem?_zipWith]
    rcases hu : P.yup[i]? with _ | u
    · simp
    rcases hd : P.ydown[i]? with _ | d
    · simp
    simp only [Option.some.injEq]
    rw [abs_of_nonneg (by linarith [ho i u d hu hd])]
    ring
  · intro i u' d' h1 h2
    have hi1 := (List.getElem?_eq_some_iff.1 h1).1
    obtain ⟨hx, hu, hd, hne⟩ := h
    have hi : i < P.xup.length := by
      rw [hyu] at hi1
      simp at hi1
      omega
    obtain ⟨u, d, e1, e2, _, _, e3⟩ := hpt i _ _ (List.getElem?_eq_getElem (show i < P.yup.length by omega))
      (List.getElem?_eq_getElem (show i < P.ydown.length by omega))
    rw [h1] at e1
    rw [h2] at e2
    obtain rfl := Option.some.inj e1
    obtain rfl := Option.some.inj e2
    exact e3

theorem area_camber {P Q : Profile} (h : P.SameX) (ho : P.Ordered) (κ : ℝ) (hQ : P.setCamberLineMax κ = .ok Q) :
    Q.area = P.area ∧ Q.SameX ∧ Q.Ordered := by
  unfold setCamberLineMax at hQ
  rw [bndA] at hQ
  obtain ⟨⟨v, R⟩, h1, hQ⟩ := hQ
  simp only at hQ
  split at hQ
  · cases hQ
  · try simp only [pure_bind] at hQ
    obtain ⟨s1, s2, s3, s4⟩ := maxCamber_coords h1
    have hR : R.SameX := by
      obtain ⟨a1, a2, a3, a4⟩ := h
      exact ⟨by rw [s1, s2, a1], by rw [s1, s3, a2], by rw [s1, s4, a3], by rw [s1]; exact a4⟩
    have hRo : R.Ordered := by intro i u d; rw [s3, s4]; exact ho i u d
    obtain ⟨b1, b2, b3⟩ := area_deform hR hRo _ hQ
    refine ⟨?_, b2, b3⟩
    rw [b1, area, area, outline, outline, upper, upper, lower, lower, s1, s2, s3, s4]

theorem area_thickness {P Q : Profile} {m t : ℝ} (hm : P.maxThickness none = .ok m) (h0 : m ≠ 0) (hQ : P.setThicknessMax t = .ok Q) :
    Q.area = t / m * P.area := by
  obtain ⟨Q', hQ', _, hx1, hx2, hy1, hy2⟩ := C10_set_thickness P m t hm h0
  obtain rfl : Q' = Q := by rw [hQ] at hQ'; exact (Except.ok.inj hQ').symm
  have h : (fun p : Pt => (p.1, t / m * p.2)) = Affine.app ⟨1, 0, 0, t / m, 0⟩ := by funext p; simp [Affine.app]
  rw [area_app (P := P) ⟨1, 0, 0, t / m, 0⟩]
  · ring
  · rw [← h, upper, upper, hx1, hy1, List.zip_map_right]; rfl
  · rw [← h, lower, lower, hx2, hy2, List.zip_map_right]; rfl

end Profile

/-- **C125** after any history of translations, rotations, reflections and scalings that raises no exception, the area is multiplied
by the product of the squares of the scale factors; only scalings change it. -/
theorem C125_motions (P Q : Profile) (hU : P.Uniform) (ms : List Profile.Motion) (h : P.runMotions ms = .ok Q) :
    Q.area = (ms.map Profile.Motion.areaFactor).prod * P.area := by
  induction ms generalizing P with
  | nil =>
    obtain rfl := Except.ok.inj (show Except.ok P = Except.ok Q from h)
    simp
  | cons m ms ih =>
    unfold Profile.runMotions at h
    rw [List.foldlM_cons, Profile.bndA] at h
    obtain ⟨R, h1, h2⟩ := h
    obtain ⟨a1, a2⟩ := Profile.area_motion hU m h1
    rw [ih R a2 h2, a1, List.map_cons, List.prod_cons]
    ring

/-- **C125** `set_thickness_max(t)` multiplies the area by `t / max_thickness()`. -/
theorem C125_thickness (P Q : Profile) (m t : ℝ) (hm : P.maxThickness none = .ok m) (h0 : m ≠ 0) (hQ : P.setThicknessMax t = .ok Q) :
    Q.area = t / m * P.area := Profile.area_thickness hm h0 hQ

/-- **C125** `deform_camber_line` and `set_camber_line_max`, for surfaces over common abscissae, the upper one nowhere below the lower
one, do not change the area. -/
theorem C125_camber (P Q : Profile) (h : P.SameX) (ho : P.Ordered) (x : ℝ)
    (hQ : P.deformCamberLine x none = .ok Q ∨ P.setCamberLineMax x = .ok Q) : Q.area = P.area := by
  rcases hQ with hQ | hQ
  · exact (Profile.area_deform h ho x hQ).1
  · exact (Profile.area_camber h ho x hQ).1


/-- **C125** a `CustomProfile` made from parameters encloses chord length times maximum thickness times a coefficient that depends on
the percentages of chord and thickness alone: the trapezoidal rule of the thickness distribution. The camber does not enter. -/
theorem C125_custom (american : Profile → Res Arr) (kw : Kwargs) (hk : kw.keys.toFinset =
      {"chord_perc", "camber_perc", "thickness_perc", "camber_max", "thickness_max", "chord_len"})
    (Q : Profile) (hQ : Custom.ctor american kw = .ok Q) (s t : Arr) (L T : ℝ) (hs : kw.arr "chord_perc" = some s)
    (ht : kw.arr "thickness_perc" = some t) (hL : kw.num "chord_len" = some L) (hT : kw.num "thickness_max" = some T) :
    Q.area = L * T * trap (s.zip t) := by
  obtain ⟨h1, h2⟩ := C16_ctor american kw hk
  rcases h2 with h2 | ⟨Q', p, hQ', hp, a1, a2, a3, a4, a5, a6⟩
  · rw [h2] at hQ; cases hQ
  obtain rfl : Q = Q' := by rw [hQ] at hQ'; exact Except.ok.inj hQ'
  obtain ⟨p', hp', hlen, hU, hX, hall⟩ := C19_british american kw hk Q hQ
  obtain rfl : p = p' := by rw [hp] at hp'; exact Option.some.inj hp'
  rw [a1] at hs
  rw [a3] at ht
  rw [a6] at hL
  rw [a5] at hT
  obtain rfl := Option.some.inj hs
  obtain rfl := Option.some.inj ht
  obtain rfl := Option.some.inj hL
  obtain rfl := Option.some.inj hT
  have hnot : ¬ Custom.ctor american kw = .error .valueError := by rw [hQ]; simp
  rw [h1] at hnot
  simp only [a1, a2, a3, a4, a5, a6, reduceCtorEq, false_or, Option.some.injEq, exists_eq_left', Option.map_some, ne_eq,
    not_or, not_not, not_lt] at hnot
  obtain ⟨-, -, c3, c4⟩ := hnot
  obtain ⟨u1, u2, u3⟩ := hU
  by_cases hne : Q.xup = []
  · have e1 : p.chordPerc = [] := List.length_eq_zero_iff.1 (by rw [← hlen, hne]; rfl)
    simp [Profile.area, Profile.outline, Profile.upper, Profile.lower, hX, hne, signedArea, edges, e1, trap]
  rw [Profile.area_same ⟨hX, u1.symm, by rw [← u3, u2], hne⟩, ← trap_scale]
  congr 1
  apply List.ext_getElem?
  intro i
  simp only [List.zip, List.getElem?_zipWith, List.getElem?_map]
  by_cases hi : i < p.chordPerc.length
  · have g1 : p.chordPerc[i]? = some p.chordPerc[i] := List.getElem?_eq_getElem hi
    have g2 : p.camberPerc[i]? = some (p.camberPerc[i]'(by omega)) := List.getElem?_eq_getElem _
    have g3 : p.thicknessPerc[i]? = some (p.thicknessPerc[i]'(by omega)) := List.getElem?_eq_getElem _
    obtain ⟨x, u, d, k1, k2, k3, k4, rfl, -, k6, -⟩ := hall i _ _ _ g1 g2 g3
    rw [k1, k3, k4, g1, g3]
    simp [k6]
  · rw [List.getElem?_eq_none (show Q.xup.length ≤ i by omega), List.getElem?_eq_none (show p.chordPerc.length ≤ i by omega)]
    simp

namespace Blade

theorem area_tail {b : Blade} {refl : Bool} {i : Nat} {r p k s : ℝ} (h1 : b.radii[i]? = some r) (h2 : b.pitch[i]? = some p)
    (h3 : b.rake[i]? = some k) (h4 : b.skew[i]? = some s) {R Q : Profile} (hU : R.Uniform)
    (h : ((sectionSteps b refl i).drop 4).foldlM (fun P f => f P) R = (.ok Q : Res Profile)) : Q.area = R.area := by
  obtain ⟨t0, t1⟩ := tail_ok (refl := refl) h1 h2 h3 h4 hU
  have hr : r ≠ 0 := fun e => t0 e Q h
  obtain ⟨Q', hQ', hu, hl, _⟩ := t1 hr
  obtain rfl : Q' = Q := by rw [h] at hQ'; exact (Except.ok.inj hQ').symm
  have hcs := Real.sin_sq_add_cos_sq (Real.arctan (p / (2 * Real.pi * r)))
  cases refl with
  | false =>
    have e : placed false r 1 p k s (0, 0) = Affine.app ⟨Real.sin (Real.arctan (p / (2 * Real.pi * r))), -Real.cos (Real.arctan (p / (2 * Real.pi * r))),
        Real.cos (Real.arctan (p / (2 * Real.pi * r))), Real.sin (Real.arctan (p / (2 * Real.pi * r))),
        (-(k + Real.pi * s / 180 * p / (2 * Real.pi)), -(r * (Real.pi * s / 180)))⟩ := by
      funext q
      simp only [placed, Affine.app, Bool.false_eq_true, if_false, Prod.mk.injEq]
      constructor <;> ring
    rw [e] at hu hl
    rw [Profile.area_app _ hu hl]
    linear_combination R.area * hcs
  | true =>
    have e : placed true r 1 p k s (0, 0) = Affine.app ⟨-Real.sin (Real.arctan (p / (2 * Real.pi * r))), Real.cos (Real.arctan (p / (2 * Real.pi * r))),
        -Real.cos (Real.arctan (p / (2 * Real.pi * r))), -Real.sin (Real.arctan (p / (2 * Real.pi * r))),
        (-(k + Real.pi * s / 180 * p / (2 * Real.pi)), -(r * (Real.pi * s / 180)))⟩ := by
      funext q
      simp only [placed, Affine.app, if_true, Prod.mk.injEq]
      constructor <;> ring
    rw [e] at hu hl
    rw [Profile.area_app _ hu hl]
    linear_combination R.area * hcs

end Blade

/-- **C125** `apply_transformations` without prescribed thickness or camber: the area of section `i` is multiplied by the square of
its chord, whatever pitch, rake, skew, radius and reflection. -/
theorem C125_blade (b b' : Blade) (refl : Bool) (hW : b.WellFormed) (ht : b.thickness = none) (hf : b.camber = none)
    (hU : ∀ P ∈ b.sections, P.Uniform) (h : b.applyTransformations refl = (b', .ok ())) (i : Nat) (P Q : Profile) (c : ℝ)
    (hP : b.sections[i]? = some P) (hc : b.chord[i]? = some c) (hQ : b'.sections[i]? = some Q) : Q.area = c ^ 2 * P.area := by
  obtain ⟨wr, wc, wp, wk, ws⟩ := id hW
  have hi : i < b.sections.length := (List.getElem?_eq_some_iff.1 hP).1
  have hPU := hU P (List.mem_of_getElem? hP)
  obtain ⟨ss, up, down, h1, h2, rfl⟩ := (Blade.apply_ok hW.1).1 h
  obtain ⟨hl, hall⟩ := (Blade.sectionLoop_ok _ _ _).1 h1
  have hrun := hall i P Q hP hQ
  rw [Nat.zero_add, Blade.runSteps_ok, Blade.steps_split] at hrun
  rcases hr : P.referencePoint with e | ref
  · exfalso
    rw [Profile.bndA] at hrun
    obtain ⟨R, hR, -⟩ := hrun
    exact (Blade.head_ok (refl := refl) hc (P := P)).1 e hr R hR
  rw [(Blade.head_ok (refl := refl) hc (P := P)).2 ref hr, Profile.bndA] at hrun
  obtain ⟨R, hR, hrun⟩ := hrun
  obtain rfl := Except.ok.inj hR
  rw [Profile.bndA] at hrun
  obtain ⟨S, hS, hrun⟩ := hrun
  have : S = (P.translate (-ref)).mulAll c := by
    simp [Blade.sectionSteps, ht, hf, bind, Except.bind, pure, Except.pure] at hS
    exact hS.symm
  subst this
  have hRU := Blade.mulAll_uniform (Blade.translate_uniform hPU (-ref)) c
  rw [Blade.area_tail (List.getElem?_eq_getElem (show i < b.radii.length by omega)) (List.getElem?_eq_getElem (show i < b.pitch.length by omega))
    (List.getElem?_eq_getElem (show i < b.rake.length by omega)) (List.getElem?_eq_getElem (show i < b.skew.length by omega)) hRU hrun,
    Profile.area_mulAll, Profile.area_translate]

/-- **C125** with a prescribed thickness `τ ≥ 0` and a positive chord `c`, and with or without prescribed camber: the area of section `i`
becomes `c * τ` times its area coefficient, the area of the original section divided by its maximum thickness (original: common
abscissae, upper surface nowhere below the lower one). Pitch, rake, skew, radius, reflection and camber do not matter. -/
theorem C125_blade_thickness (b b' : Blade) (refl : Bool) (hW : b.WellFormed) (T : Arr) (ht : b.thickness = some T)
    (h : b.applyTransformations refl = (b', .ok ())) (i : Nat) (P Q : Profile) (c τ m : ℝ) (hP : b.sections[i]? = some P)
    (hc : b.chord[i]? = some c) (hτ : T[i]? = some τ) (hQ : b'.sections[i]? = some Q) (hX : P.SameX) (ho : P.Ordered) (hc0 : 0 < c)
    (hτ0 : 0 ≤ τ) (hm : P.maxThickness none = .ok m) (hm0 : m ≠ 0) : Q.area = c * τ * (P.area / m) := by
  obtain ⟨wr, wc, wp, wk, ws⟩ := id hW
  have hi : i < b.sections.length := (List.getElem?_eq_some_iff.1 hP).1
  obtain ⟨ss, up, down, h1, h2, rfl⟩ := (Blade.apply_ok hW.1).1 h
  obtain ⟨hl, hall⟩ := (Blade.sectionLoop_ok _ _ _).1 h1
  have hrun := hall i P Q hP hQ
  rw [Nat.zero_add, Blade.runSteps_ok, Blade.steps_split] at hrun
  rcases hr : P.referencePoint with e | ref
  · exfalso
    rw [Profile.bndA] at hrun
    obtain ⟨R, hR, -⟩ := hrun
    exact (Blade.head_ok (refl := refl) hc (P := P)).1 e hr R hR
  rw [(Blade.head_ok (refl := refl) hc (P := P)).2 ref hr, Profile.bndA] at hrun
  obtain ⟨R, hR, hrun⟩ := hrun
  obtain rfl := Except.ok.inj hR
  set R0 := (P.translate (-ref)).mulAll c with hR0
  have hmpos : 0 < m := lt_of_le_of_ne (Profile.maxThickness_nonneg hm) hm0.symm
  have hS1 : (P.translate (-ref)).SameX := by
    obtain ⟨a1, a2, a3, a4⟩ := hX
    exact ⟨by simp [Profile.translate, a1], by simp [Profile.translate, a2], by simp [Profile.translate, a3],
      by simpa [Profile.translate] using a4⟩
  have hR0m : R0.maxThickness none = .ok (m * |c|) := by
    have e1 := (C09_thickness_motion P hX m hm (-ref) c).1
    exact (C09_thickness_motion _ hS1 m e1 (0, 0) c).2 false R0 (by simp [Profile.scale, pure, Except.pure, hR0])
  rw [abs_of_pos hc0] at hR0m
  have hR0a : R0.area = c ^ 2 * P.area := by rw [hR0, Profile.area_mulAll, Profile.area_translate]
  have hR0X : R0.SameX := by
    obtain ⟨a1, a2, a3, a4⟩ := hX
    exact ⟨by simp [hR0, Profile.mulAll, Profile.translate, a1], by simp [hR0, Profile.mulAll, Profile.translate, a2],
      by simp [hR0, Profile.mulAll, Profile.translate, a3], by simpa [hR0, Profile.mulAll, Profile.translate] using a4⟩
  have hR0o : R0.Ordered := by
    intro j u d hu hd
    simp only [hR0, Profile.mulAll, Profile.translate, List.map_map, List.getElem?_map, Option.map_eq_some_iff, Function.comp] at hu hd
    obtain ⟨u0, hu0, rfl⟩ := hu
    obtain ⟨d0, hd0, rfl⟩ := hd
    have := ho j u0 d0 hu0 hd0
    exact mul_le_mul_of_nonneg_right (by linarith) hc0.le
  rw [Profile.bndA] at hrun
  obtain ⟨S, hS, hrun⟩ := hrun
  have hmc : m * c ≠ 0 := (mul_pos hmpos hc0).ne'
  obtain ⟨R1, hR1, _, hx1, hx2, hy1, hy2⟩ := C10_set_thickness R0 (m * c) τ hR0m hmc
  have hR1a : R1.area = c * τ * (P.area / m) := by
    rw [Profile.area_thickness hR0m hmc hR1, hR0a]
    field_simp
  have hR1X : R1.SameX := by
    obtain ⟨a1, a2, a3, a4⟩ := hR0X
    exact ⟨by rw [hx1, hx2, a1], by rw [hy1, hx1]; simpa using a2, by rw [hy2, hx1]; simpa using a3, by rw [hx1]; exact a4⟩
  have hR1o : R1.Ordered := by
    intro j u d hu hd
    rw [hy1, List.getElem?_map, Option.map_eq_some_iff] at hu
    rw [hy2, List.getElem?_map, Option.map_eq_some_iff] at hd
    obtain ⟨u0, hu0, rfl⟩ := hu
    obtain ⟨d0, hd0, rfl⟩ := hd
    exact mul_le_mul_of_nonneg_left (hR0o j u0 d0 hu0 hd0) (div_nonneg hτ0 (mul_pos hmpos hc0).le)
  have gT : getIdx T i = .ok τ := Blade.getIdx_ok.2 hτ
  have key : S.area = R1.area ∧ S.SameX := by
    rcases hf : b.camber with _ | F
    · simp [Blade.sectionSteps, ht, hf, gT, bind, Except.bind, pure, Except.pure, hR1] at hS
      subst hS
      exact ⟨rfl, hR1X⟩
    · by_cases hlast : i + 1 < b.sections.length
      · rcases gF : getIdx F i with e | κ
        · simp [Blade.sectionSteps, ht, hf, gT, gF, bind, Except.bind, pure, Except.pure, hR1, hlast] at hS
        · rcases hc' : R1.setCamberLineMax κ with e | R2
          · simp [Blade.sectionSteps, ht, hf, gT, gF, bind, Except.bind, pure, Except.pure, hR1, hlast, hc'] at hS
          · simp [Blade.sectionSteps, ht, hf, gT, gF, bind, Except.bind, pure, Except.pure, hR1, hlast, hc'] at hS
            subst hS
            obtain ⟨k1, k2, _⟩ := Profile.area_camber hR1X hR1o κ hc'
            exact ⟨k1, k2⟩
      · simp [Blade.sectionSteps, ht, hf, gT, bind, Except.bind, pure, Except.pure, hR1, hlast] at hS
        subst hS
        exact ⟨rfl, hR1X⟩
  rw [Blade.area_tail (List.getElem?_eq_getElem (show i < b.radii.length by omega)) (List.getElem?_eq_getElem (show i < b.pitch.length by omega))
    (List.getElem?_eq_getElem (show i < b.rake.length by omega)) (List.getElem?_eq_getElem (show i < b.skew.length by omega))
    (Blade.sameX_uniform key.2) hrun, key.1, hR1a]

/-- The sample foil: area, and the area after a history of motions. -/
example : Sample.foil.area = 27 / 160 ∧ ∃ Q, Sample.foil.runMotions [.translate (1, 2), .rotate none (some 30), .scale 2 false, .reflect] = .ok Q ∧
    Q.area = 27 / 40 := by
  have h0 : Sample.foil.area = 27 / 160 := by
    rw [Profile.area_same ⟨rfl, rfl, rfl, by simp [Sample.foil]⟩]
    norm_num [Sample.foil, trap]
  refine ⟨h0, ?_⟩
  obtain ⟨Q, hQ⟩ := (C03_rotate_args (Sample.foil.translate (1, 2)) none (some 30)).2
    (Blade.translate_uniform Sample.foil_uniform _) (by simp)
  have hrun : Sample.foil.runMotions [.translate (1, 2), .rotate none (some 30), .scale 2 false, .reflect] = .ok (Q.mulAll 2).reflect := by
    simp [Profile.runMotions, Profile.Motion.run, bind, Except.bind, hQ, Profile.scale, pure, Except.pure]
  refine ⟨_, hrun, ?_⟩
  rw [C125_motions _ _ Sample.foil_uniform _ hrun, h0]
  norm_num [Profile.Motion.areaFactor]

namespace Sample

theorem foil_sameX : Sample.foil.SameX := ⟨rfl, rfl, rfl, by simp [Sample.foil]⟩

theorem foil_ordered : Sample.foil.Ordered := by
  intro i u d h1 h2
  match i with
  | 0 => simp [Sample.foil] at h1 h2; linarith
  | 1 => simp [Sample.foil] at h1 h2; rw [← h1, ← h2]; norm_num
  | 2 => simp [Sample.foil] at h1 h2; rw [← h1, ← h2]; norm_num
  | 3 => simp [Sample.foil] at h1 h2; linarith
  | (i + 4) => simp [Sample.foil] at h1

theorem onStation_ordered : Sample.onStation.Ordered := by
  intro i u d h1 h2
  match i with
  | 0 => simp [Sample.onStation] at h1 h2; linarith
  | 1 => simp [Sample.onStation] at h1 h2; rw [← h1, ← h2]; norm_num
  | 2 => simp [Sample.onStation] at h1 h2; linarith
  | (i + 3) => simp [Sample.onStation] at h1

end Sample

open MeasureTheory in
/-- The region between the surfaces of the sample foil has the area 27/160; a camber deformation leaves it so. -/
example : volume {p : Pt | StrictlyBetween p Sample.foil.upper Sample.foil.lower} = ENNReal.ofReal (27 / 160) ∧
    ∃ Q, Sample.foil.deformCamberLine 30 none = .ok Q ∧ Q.area = 27 / 160 := by
  have h0 : Sample.foil.area = 27 / 160 := by
    rw [Profile.area_same Sample.foil_sameX]
    norm_num [Sample.foil, trap]
  refine ⟨?_, ?_⟩
  · rw [← h0]
    exact (C125_profile_area _ Sample.foil_sameX (by norm_num [Sample.foil]) (by simp [Sample.foil]) Sample.foil_ordered).1
  · obtain ⟨Q, hQ, _⟩ := C11_deform_camber _ Sample.foil_sameX 30
    exact ⟨Q, hQ, by rw [C125_camber _ _ Sample.foil_sameX Sample.foil_ordered 30 (Or.inl hQ), h0]⟩

/-- Sample parameters. -/
example (american : Profile → Res Arr) : ∃ Q, Custom.ctor american Sample.paramsKw = .ok Q ∧ ∃ s t L T,
    Sample.paramsKw.arr "chord_perc" = some s ∧ Sample.paramsKw.arr "thickness_perc" = some t ∧ Sample.paramsKw.num "chord_len" = some L ∧
      Sample.paramsKw.num "thickness_max" = some T ∧ Q.area = L * T * trap (s.zip t) := by
  rcases (C16_ctor american Sample.paramsKw (by decide)).2 with h | ⟨Q, p, h, _, a1, _, a3, _, a5, a6⟩
  · have := (C16_ctor american Sample.paramsKw (by decide)).1.1 h
    exfalso
    simp [Sample.paramsKw, Sample.params] at this
    norm_num at this
  · exact ⟨Q, h, _, _, _, _, a1, a3, a6, a5, C125_custom american _ (by decide) Q h _ _ _ _ a1 a3 a6 a5⟩

/-- A blade without prescribed thickness. -/
example : ∃ b', Sample.blade2.applyTransformations false = (b', .ok ()) ∧ ∀ Q, b'.sections[1]? = some Q →
    ∃ c P, Sample.blade2.chord[1]? = some c ∧ Sample.blade2.sections[1]? = some P ∧ Q.area = c ^ 2 * P.area := by
  obtain ⟨b', hb⟩ := Sample.blade2_applies false
  exact ⟨b', hb, fun Q hQ => ⟨_, _, rfl, rfl, C125_blade Sample.blade2 b' false (by simp [Sample.blade2, Blade.WellFormed]) rfl rfl
    (by simp [Sample.blade2, Sample.foil_uniform]) hb 1 _ Q _ rfl rfl hQ⟩⟩

/-- A blade with prescribed thickness and camber. -/
example : ∃ b' Q, Sample.bladeTF.applyTransformations true = (b', .ok ()) ∧ b'.sections[0]? = some Q ∧
    Q.area = 1 * (3/10) * (Sample.onStation.area / (3/10)) := by
  obtain ⟨b', hb⟩ := Sample.bladeTF_applies true
  have hl : b'.sections.length = 2 := by
    obtain ⟨ss, up, down, h1, h2, rfl⟩ := (Blade.apply_ok (b := Sample.bladeTF) rfl).1 hb
    exact ((Blade.sectionLoop_ok _ _ _).1 h1).1
  refine ⟨b', b'.sections[0], hb, List.getElem?_eq_getElem _, ?_⟩
  exact C125_blade_thickness Sample.bladeTF b' true (by simp [Sample.bladeTF, Blade.WellFormed]) _ rfl hb 0 _ _ _ _ _ rfl rfl rfl
    (List.getElem?_eq_getElem _) (Sample.onStation_ref.sameX rfl) Sample.onStation_ordered (by norm_num) (by norm_num)
    (Sample.thickness_of rfl rfl rfl) (by norm_num)

end
end BladeX
