import Verif.Model.RoundedBlade
import Verif.Lemmas.Blade
import Mathlib.Analysis.SpecialFunctions.Trigonometric.ArctanDeriv
import Mathlib.Analysis.SpecialFunctions.Trigonometric.Bounds
import Mathlib.Analysis.Real.Pi.Bounds

/-! # Elementary error estimates -/

namespace BladeX
open Spec
namespace Rounded

/-- Rounding an approximate value. -/
theorem rnd {fl : ℝ → ℝ} {ε : ℝ} (h : Rounds fl ε) (he : ε ≤ 1 / 1000) {x y a b : ℝ} (hy : |y - x| ≤ ε * a) (hx : |x| ≤ b) :
    |fl y - x| ≤ ε * (1.001 * a + b) := by
  have h0 : 0 ≤ ε := by
    have := h.near 1
    rw [abs_one, mul_one] at this
    exact (abs_nonneg _).trans this
  have h1 := h.near y
  have h2 : |y| ≤ ε * a + b := by
    have := abs_add_le (y - x) x
    rw [sub_add_cancel] at this
    linarith
  have h3 := abs_sub_le (fl y) y x
  have h4 : ε * |y| ≤ ε * (ε * a + b) := mul_le_mul_of_nonneg_left h2 h0
  have h5 : ε * (ε * a) ≤ 1 / 1000 * (ε * a) := mul_le_mul_of_nonneg_right he ((abs_nonneg _).trans hy)
  nlinarith

/-- Rounding an exact value. -/
theorem rnd0 {fl : ℝ → ℝ} {ε : ℝ} (h : Rounds fl ε) {x b : ℝ} (hx : |x| ≤ b) : |fl x - x| ≤ ε * b := by
  have h0 : 0 ≤ ε := by
    have := h.near 1
    rw [abs_one, mul_one] at this
    exact (abs_nonneg _).trans this
  exact (h.near x).trans (mul_le_mul_of_nonneg_left hx h0)

theorem prd {ε : ℝ} (h0 : 0 ≤ ε) (he : ε ≤ 1 / 1000) {x x' y y' a a' b b' : ℝ} (hy : |y - x| ≤ ε * a) (hx : |x| ≤ b) (hy' : |y' - x'| ≤ ε * a')
    (hx' : |x'| ≤ b') (ha : 0 ≤ a) : |y * y' - x * x'| ≤ ε * (a * b' + b * a' + 0.001 * (a * a')) := by
  have e : y * y' - x * x' = (y - x) * x' + x * (y' - x') + (y - x) * (y' - x') := by ring
  have t1 : |(y - x) * x'| ≤ ε * a * b' := by
    rw [abs_mul]; exact mul_le_mul hy hx' (abs_nonneg _) ((abs_nonneg _).trans hy)
  have t2 : |x * (y' - x')| ≤ b * (ε * a') := by
    rw [abs_mul]; exact mul_le_mul hx hy' (abs_nonneg _) ((abs_nonneg _).trans hx)
  have t3 : |(y - x) * (y' - x')| ≤ ε * a * (ε * a') := by
    rw [abs_mul]; exact mul_le_mul hy hy' (abs_nonneg _) ((abs_nonneg _).trans hy)
  have t4 : ε * a * (ε * a') ≤ 0.001 * a * (ε * a') := by
    apply mul_le_mul_of_nonneg_right _ ((abs_nonneg _).trans hy')
    apply mul_le_mul_of_nonneg_right _ ha
    linarith
  rw [e]
  have := abs_add_three ((y - x) * x') (x * (y' - x')) ((y - x) * (y' - x'))
  linarith

theorem abs_near {x y a b : ℝ} (h : |y - x| ≤ a) (hx : |x| ≤ b) : |y| ≤ a + b := by
  have := abs_add_le (y - x) x
  rw [sub_add_cancel] at this
  linarith

/-- The reciprocal of an approximate value. -/
theorem quo {ε : ℝ} (he : ε ≤ 1 / 1000) {P D D' : ℝ} {k : ℝ} (hk : k ≤ 10) (hD : D ≠ 0) (h : |D' - D| ≤ ε * (k * |D|)) (h0 : 0 ≤ ε) (hk0 : 0 ≤ k) :
    D' ≠ 0 ∧ |P / D' - P / D| ≤ ε * (1.02 * k * |P / D|) := by
  have hDp := abs_pos.2 hD
  have s : ε * k ≤ 1 / 100 := by nlinarith
  have lo : 0.99 * |D| ≤ |D'| := by
    have := abs_sub_abs_le_abs_sub D D'
    rw [abs_sub_comm] at this
    nlinarith
  have hD' : D' ≠ 0 := by
    rintro rfl
    rw [abs_zero] at lo
    linarith
  refine ⟨hD', ?_⟩
  have e : P / D' - P / D = (D - D') / D' * (P / D) := by field_simp
  rw [e, abs_mul, abs_div]
  have : |D - D'| / |D'| ≤ ε * (1.02 * k) := by
    rw [div_le_iff₀ (by positivity), abs_sub_comm]
    have : 0 ≤ ε * k := by positivity
    nlinarith
  calc _ ≤ ε * (1.02 * k) * |P / D| := mul_le_mul_of_nonneg_right this (abs_nonneg _)
    _ = _ := by ring

/-- The arc tangent damps relative errors. -/
theorem arctan_near {x y η : ℝ} (hη : η ≤ 1 / 10) (hη0 : 0 ≤ η) (h : |y - x| ≤ η * |x|) : |Real.arctan y - Real.arctan x| ≤ 0.6 * η := by
  have mvt : ∀ {a b : ℝ}, 0 < a → a ≤ b → b - a ≤ η * a / 0.9 → Real.arctan b - Real.arctan a ≤ 0.6 * η := by
    intro a b ha hab hb
    have := Convex.image_sub_le_mul_sub_of_deriv_le (convex_Icc a b) (f := Real.arctan) (C := 1 / (1 + a ^ 2)) Real.continuous_arctan.continuousOn
      Real.differentiable_arctan.differentiableOn (by
        intro t ht
        rw [interior_Icc] at ht
        rw [Real.deriv_arctan]
        apply one_div_le_one_div_of_le (by positivity)
        have : a ^ 2 ≤ t ^ 2 := pow_le_pow_left₀ ha.le ht.1.le 2
        linarith) a ⟨le_rfl, hab⟩ b ⟨hab, le_rfl⟩ hab
    have e : 1 / (1 + a ^ 2) * (b - a) ≤ 1 / (1 + a ^ 2) * (η * a / 0.9) := mul_le_mul_of_nonneg_left hb (by positivity)
    have e2 : 1 / (1 + a ^ 2) * (η * a / 0.9) ≤ 0.6 * η := by
      rw [div_mul_eq_mul_div, div_le_iff₀ (by positivity), one_mul]
      have : 2 * a ≤ 1 + a ^ 2 := by nlinarith [sq_nonneg (a - 1)]
      have := mul_le_mul_of_nonneg_left this hη0
      rw [div_le_iff₀ (by norm_num)]
      nlinarith
    linarith
  have pos : ∀ {x y : ℝ}, 0 < x → |y - x| ≤ η * |x| → |Real.arctan y - Real.arctan x| ≤ 0.6 * η := by
    intro x y hx h
    rw [abs_of_pos hx] at h
    obtain ⟨h1, h2⟩ := abs_le.1 h
    rcases le_total x y with hxy | hxy
    · have hm := Real.arctan_mono hxy
      rw [abs_of_nonneg (by linarith)]
      apply mvt hx hxy
      rw [le_div_iff₀ (by norm_num)]
      nlinarith
    · have hm := Real.arctan_mono hxy
      rw [abs_of_nonpos (by linarith), neg_sub]
      have hy : 0.9 * x ≤ y := by nlinarith
      have hy0 : 0 < y := by nlinarith
      apply mvt hy0 hxy
      rw [le_div_iff₀ (by norm_num)]
      nlinarith
  rcases lt_trichotomy x 0 with hx | rfl | hx
  · have := pos (x := -x) (y := -y) (by linarith) (by rw [abs_neg, show -y - -x = -(y - x) by ring, abs_neg]; exact h)
    rw [Real.arctan_neg, Real.arctan_neg, show -Real.arctan y - -Real.arctan x = -(Real.arctan y - Real.arctan x) by ring, abs_neg] at this
    exact this
  · rw [abs_zero, mul_zero] at h
    have : y = 0 := by
      have := abs_nonpos_iff.1 h
      linarith
    subst this
    rw [sub_self, abs_zero]
    linarith
  · exact pos hx h

/-- The tangent amplifies errors of the angle by `1 + tan²`. -/
theorem tan_near {x a h : ℝ} (h1 : h ≤ 1 / 10) (hx : h * |x| ≤ 1 / 4) (ha : |a - Real.arctan x| ≤ h) : |Real.tan a - x| ≤ 1.4 * h * (1 + x ^ 2) := by
  obtain ⟨d, rfl⟩ : ∃ d, a = Real.arctan x + d := ⟨a - Real.arctan x, by ring⟩
  rw [add_sub_cancel_left] at ha
  have hc : 0 < Real.cos (Real.arctan x) := Real.cos_arctan_pos _
  have hs : Real.sin (Real.arctan x) = x * Real.cos (Real.arctan x) := by
    rw [← Real.tan_mul_cos hc.ne', Real.tan_arctan]
  have sd : |Real.sin d| ≤ h := Real.abs_sin_le_abs.trans ha
  have cd : 0.99 ≤ Real.cos d := by
    have := Real.one_sub_sq_div_two_le_cos (x := d)
    have : d ^ 2 ≤ (1 / 10) ^ 2 := by rw [← sq_abs]; exact pow_le_pow_left₀ (abs_nonneg _) (ha.trans h1) 2
    linarith
  have xs : |x * Real.sin d| ≤ 1 / 4 := by
    rw [abs_mul, mul_comm]
    exact (mul_le_mul_of_nonneg_right sd (abs_nonneg x)).trans hx
  have den : 0.74 ≤ Real.cos d - x * Real.sin d := by
    have := (abs_le.1 xs).2
    linarith
  have e : Real.tan (Real.arctan x + d) - x = Real.sin d * (1 + x ^ 2) / (Real.cos d - x * Real.sin d) := by
    rw [Real.tan_eq_sin_div_cos, Real.sin_add, Real.cos_add, hs]
    rw [show x * Real.cos (Real.arctan x) * Real.cos d + Real.cos (Real.arctan x) * Real.sin d =
        Real.cos (Real.arctan x) * (x * Real.cos d + Real.sin d) by ring,
      show Real.cos (Real.arctan x) * Real.cos d - x * Real.cos (Real.arctan x) * Real.sin d =
        Real.cos (Real.arctan x) * (Real.cos d - x * Real.sin d) by ring, mul_div_mul_left _ _ hc.ne']
    rw [div_sub' (by linarith)]
    congr 1
    ring
  have hp : (0 : ℝ) < 1 + x ^ 2 := by positivity
  rw [e, abs_div, abs_mul, abs_of_pos hp, abs_of_pos (a := Real.cos d - _) (by linarith), div_le_iff₀ (by linarith)]
  have t : |Real.sin d| * (1 + x ^ 2) ≤ h * (1 + x ^ 2) := mul_le_mul_of_nonneg_right sd hp.le
  have h0 : 0 ≤ h * (1 + x ^ 2) := mul_nonneg ((abs_nonneg _).trans ha) hp.le
  nlinarith

variable {L : Library}

theorem cylinder_ok {r : ℝ} {xs ys : Arr} {l : List Pt3} :
    cylinder L r xs ys = .ok l ↔ r ≠ 0 ∧ xs.length = ys.length ∧ l = (List.zip xs ys).map (wrapPt L r) := by
  unfold cylinder
  by_cases hr : r = 0
  · simp [hr]
  · simp only [hr, if_false, ne_eq, not_false_eq_true, true_and]
    by_cases hl : xs.length = ys.length
    · simp only [hl, not_true_eq_false, if_false, true_and, Except.ok.injEq]
      exact eq_comm
    · simp [hl]

/-- The result of laying the sections on their cylinders. -/
theorem cylindrical_ok {ss : List Profile} {rs : Arr} (hl : rs.length = ss.length) {up down : Face} :
    cylindrical L ss rs = .ok (up, down) ↔ ss ≠ [] ∧
      (∀ (i : Nat) (P : Profile) (r : ℝ), ss[i]? = some P → rs[i]? = some r → r ≠ 0 ∧ P.xup.length = P.yup.length ∧ P.xdown.length = P.ydown.length) ∧
      (∀ P ∈ ss, ∀ Q ∈ ss, P.upper.length = Q.upper.length ∧ P.lower.length = Q.lower.length) ∧
      up = (List.zipWith (fun P r => (Profile.upper P).map (wrapPt L r)) ss rs).reverse ∧
      down = (List.zipWith (fun P r => (Profile.lower P).map (wrapPt L r)) ss rs).reverse := by
  have hz : List.zip ss.reverse rs.reverse = (List.zip ss rs).reverse := by
    simp only [List.zip]
    exact (List.reverse_zipWith hl.symm).symm
  unfold cylindrical
  rw [hz]
  simp only [bind, Except.bind, pure, Except.pure]
  have hmem : ∀ {i : Nat} {P : Profile} {r : ℝ}, ss[i]? = some P → rs[i]? = some r → (P, r) ∈ (List.zip ss rs) := by
    intro i P r h1 h2
    apply List.mem_of_getElem? (i := i)
    rw [List.getElem?_zip_eq_some]
    exact ⟨h1, h2⟩
  have hmem' : ∀ {P : Profile} {r : ℝ}, (P, r) ∈ (List.zip ss rs) → ∃ i : Nat, ss[i]? = some P ∧ rs[i]? = some r := by
    intro P r h
    obtain ⟨i, hi⟩ := List.getElem?_of_mem h
    rw [List.getElem?_zip_eq_some] at hi
    exact ⟨i, hi⟩
  let G : Profile × ℝ → List Pt3 × List Pt3 := fun s => (s.1.upper.map (wrapPt L s.2), s.1.lower.map (wrapPt L s.2))
  let Good : Profile × ℝ → Prop := fun s => s.2 ≠ 0 ∧ s.1.xup.length = s.1.yup.length ∧ s.1.xdown.length = s.1.ydown.length
  have hstep : ∀ (s : Profile × ℝ) (q : List Pt3 × List Pt3),
      sectionCylinder L s = .ok q ↔ Good s ∧ q = G s := by
    intro s q
    unfold sectionCylinder
    simp only [bind, Except.bind, pure, Except.pure]
    constructor
    · intro h
      split at h
      · cases h
      · rename_i u hu
        split at h
        · cases h
        · rename_i d hd
          obtain rfl := Except.ok.inj h
          obtain ⟨a1, a2, a3⟩ := cylinder_ok.1 hu
          obtain ⟨b1, b2, b3⟩ := cylinder_ok.1 hd
          refine ⟨⟨a1, a2, b2⟩, ?_⟩
          simp only [G, a3, b3]; rfl
    · rintro ⟨⟨a1, a2, a3⟩, rfl⟩
      rw [cylinder_ok.2 ⟨a1, a2, rfl⟩, cylinder_ok.2 ⟨a1, a3, rfl⟩]
      rfl
  have hmapM : ∀ (l : List (Profile × ℝ)) (r : List (List Pt3 × List Pt3)), l.mapM (sectionCylinder L) = .ok r ↔ (∀ s ∈ l, Good s) ∧ r = l.map G := by
    intro l r
    rw [Blade.mapM_ok]
    constructor
    · rintro ⟨h1, h2⟩
      constructor
      · intro s hs
        obtain ⟨i, hi⟩ := List.getElem?_of_mem hs
        have hlt : i < r.length := by rw [h1]; exact (List.getElem?_eq_some_iff.1 hi).1
        exact ((hstep s r[i]).1 (h2 i s r[i] hi (List.getElem?_eq_getElem hlt))).1
      · apply List.ext_getElem
        · simp [h1]
        · intro i hi hi'
          have hli : i < l.length := by omega
          have := ((hstep l[i] r[i]).1 (h2 i l[i] r[i] (List.getElem?_eq_getElem hli) (List.getElem?_eq_getElem hi))).2
          rw [this]; simp
    · rintro ⟨h1, rfl⟩
      refine ⟨by simp, ?_⟩
      intro i a c ha hc
      rw [List.getElem?_map, ha] at hc
      simp only [Option.map_some, Option.some.injEq] at hc
      exact (hstep a c).2 ⟨h1 a (List.mem_of_getElem? ha), hc.symm⟩
  have hup : ((List.zip ss rs).reverse.map G).map Prod.fst = (List.zipWith (fun P r => (Profile.upper P).map (wrapPt L r)) ss rs).reverse := by
    rw [List.map_map, List.map_reverse, List.map_zip_eq_zipWith]; rfl
  have hdown : ((List.zip ss rs).reverse.map G).map Prod.snd = (List.zipWith (fun P r => (Profile.lower P).map (wrapPt L r)) ss rs).reverse := by
    rw [List.map_map, List.map_reverse, List.map_zip_eq_zipWith]; rfl
  have hrad : ∀ P ∈ ss, ∃ r, (P, r) ∈ List.zip ss rs := by
    intro P hP
    obtain ⟨i, hi⟩ := List.getElem?_of_mem hP
    have hlt : i < rs.length := by rw [hl]; exact (List.getElem?_eq_some_iff.1 hi).1
    exact ⟨rs[i], hmem hi (List.getElem?_eq_getElem hlt)⟩
  have hne : (List.zip ss rs).reverse.map G ≠ [] ↔ ss ≠ [] := by
    constructor
    · rintro h rfl; simp at h
    · intro h h'
      obtain ⟨P, Ps, rfl⟩ := List.exists_cons_of_ne_nil h
      obtain ⟨r, hr⟩ := hrad P (by simp)
      have : G (P, r) ∈ (List.zip (P :: Ps) rs).reverse.map G := List.mem_map.2 ⟨(P, r), List.mem_reverse.2 hr, rfl⟩
      rw [h'] at this
      cases this
  constructor
  · intro h
    split at h
    · cases h
    · rename_i pairs hp
      obtain ⟨g1, rfl⟩ := (hmapM _ _).1 hp
      split at h
      · cases h
      · rename_i dn hdn
        split at h
        · cases h
        · rename_i u hu
          obtain ⟨rfl, rfl⟩ := Prod.mk.inj (Except.ok.inj h)
          obtain ⟨rfl, _, hd2⟩ := Blade.npStack_ok.1 hdn
          obtain ⟨rfl, hu1, hu2⟩ := Blade.npStack_ok.1 hu
          have hss : ss ≠ [] := hne.1 (by intro e; rw [e] at hu1; exact hu1 rfl)
          refine ⟨hss, ?_, ?_, hup, hdown⟩
          · intro i P r h1 h2
            exact g1 (P, r) (List.mem_reverse.2 (hmem h1 h2))
          · intro P hP Q hQ
            obtain ⟨r1, hr1⟩ := hrad P hP
            obtain ⟨r2, hr2⟩ := hrad Q hQ
            have m1 : G (P, r1) ∈ (List.zip ss rs).reverse.map G := List.mem_map.2 ⟨_, List.mem_reverse.2 hr1, rfl⟩
            have m2 : G (Q, r2) ∈ (List.zip ss rs).reverse.map G := List.mem_map.2 ⟨_, List.mem_reverse.2 hr2, rfl⟩
            have e1 := hu2 _ (List.mem_map.2 ⟨_, m1, rfl⟩) _ (List.mem_map.2 ⟨_, m2, rfl⟩)
            have e2 := hd2 _ (List.mem_map.2 ⟨_, m1, rfl⟩) _ (List.mem_map.2 ⟨_, m2, rfl⟩)
            simp only [G, List.length_map] at e1 e2
            exact ⟨e1, e2⟩
  · rintro ⟨h1, h2, h3, rfl, rfl⟩
    rw [(hmapM _ _).2 ⟨?_, rfl⟩]
    · simp only
      have len : ∀ x ∈ (List.zip ss rs).reverse.map G, ∃ P ∈ ss, x.1.length = P.upper.length ∧ x.2.length = P.lower.length := by
        intro x hx
        obtain ⟨⟨P, r⟩, hs, rfl⟩ := List.mem_map.1 hx
        exact ⟨P, (List.of_mem_zip (List.mem_reverse.1 hs)).1, by simp [G], by simp [G]⟩
      rw [Blade.npStack_ok.2 ⟨rfl, by simpa using hne.2 h1, ?_⟩]
      · simp only
        rw [Blade.npStack_ok.2 ⟨rfl, by simpa using hne.2 h1, ?_⟩]
        · simp only [hup, hdown]
        · intro a ha c hc
          obtain ⟨x, hx, rfl⟩ := List.mem_map.1 ha
          obtain ⟨y, hy, rfl⟩ := List.mem_map.1 hc
          obtain ⟨P, hP, e1, _⟩ := len x hx
          obtain ⟨Q, hQ, e2, _⟩ := len y hy
          rw [e1, e2, (h3 P hP Q hQ).1]
      · intro a ha c hc
        obtain ⟨x, hx, rfl⟩ := List.mem_map.1 ha
        obtain ⟨y, hy, rfl⟩ := List.mem_map.1 hc
        obtain ⟨P, hP, _, e1⟩ := len x hx
        obtain ⟨Q, hQ, _, e2⟩ := len y hy
        rw [e1, e2, (h3 P hP Q hQ).2]
    · rintro ⟨P, r⟩ hs
      obtain ⟨i, hi1, hi2⟩ := hmem' (List.mem_reverse.1 hs)
      exact h2 i P r hi1 hi2

end Rounded
end BladeX
