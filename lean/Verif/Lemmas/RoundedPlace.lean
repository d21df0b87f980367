import Verif.Lemmas.RoundedBlade
import Verif.Spec.RoundedBlade
import Verif.Props.Rounded
import Verif.Props.Blade
import Verif.Props.BladeCylinder

/-! # One point of a blade in rounded arithmetic -/

namespace BladeX
open Spec
namespace Rounded

variable {L : Library} {ε : ℝ}

/-! ### The parameters of a section -/

theorem pi_le : Real.pi ≤ 3.15 := Real.pi_lt_d2.le

theorem eps_nonneg (h : Accurate L ε) : 0 ≤ ε := u_nonneg h.sound.rounds

theorem pitch_near (h : Accurate L ε) (he : ε ≤ 1 / 1000) {p r : ℝ} (hr : r ≠ 0) :
    ∃ a, pitchAngle L p r = .ok a ∧ |a - Real.arctan (p / (2 * Real.pi * r))| ≤ ε * 4 := by
  have h0 := eps_nonneg h
  have R := h.sound.rounds
  have hp : (0 : ℝ) < 2 * Real.pi := by positivity
  have e1 : |2 * L.pi - 2 * Real.pi| ≤ ε * (2 * Real.pi) := by
    rw [← mul_sub, abs_mul, abs_two]; linarith [h.circle]
  have e2 := rnd R he e1 (abs_of_pos hp).le
  have e3 : |L.fl (2 * L.pi) * r - 2 * Real.pi * r| ≤ ε * (2.001 * |2 * Real.pi * r|) := by
    rw [← sub_mul, abs_mul, abs_mul (2 * Real.pi) r, abs_of_pos hp]
    nlinarith [mul_le_mul_of_nonneg_right e2 (abs_nonneg r)]
  have e4 := rnd R he e3 le_rfl
  have e5 : |L.fl (L.fl (2 * L.pi) * r) - 2 * Real.pi * r| ≤ ε * (3.01 * |2 * Real.pi * r|) :=
    e4.trans (mul_le_mul_of_nonneg_left (by nlinarith [abs_nonneg (2 * Real.pi * r)]) h0)
  have hD : 2 * Real.pi * r ≠ 0 := mul_ne_zero hp.ne' hr
  obtain ⟨_, e6⟩ := quo he (P := p) (by norm_num) hD e5 h0 (by norm_num)
  have e7 := rnd R he e6 le_rfl
  set x := p / (2 * Real.pi * r)
  have e8 := arctan_near (η := ε * 4.1) (by linarith) (by positivity) (e7.trans (show _ ≤ ε * 4.1 * |x| by nlinarith [mul_nonneg h0 (abs_nonneg x)]))
  refine ⟨_, by unfold pitchAngle; rw [if_neg hr], ?_⟩
  have := abs_sub_le (L.arctan (L.fl (p / L.fl (L.fl (2 * L.pi) * r)))) (Real.arctan (L.fl (p / L.fl (L.fl (2 * L.pi) * r)))) (Real.arctan x)
  have := h.arctangent (L.fl (p / L.fl (L.fl (2 * L.pi) * r)))
  linarith

private theorem angle_near (h : Accurate L ε) (he : ε ≤ 1 / 1000) {a φ : ℝ} (ha : |a - φ| ≤ ε * 4) (h1 : -(Real.pi / 2) ≤ φ) (h2 : φ ≤ Real.pi / 2) :
    |L.fl (L.fl (L.pi / 2) - a) - (Real.pi / 2 - φ)| ≤ ε * 11 := by
  have h0 := eps_nonneg h
  have R := h.sound.rounds
  have hp := Real.pi_pos
  have e1 : |L.pi / 2 - Real.pi / 2| ≤ ε * (Real.pi / 2) := by
    rw [← sub_div, abs_div, abs_two]; linarith [h.circle]
  have e2 := rnd R he e1 (b := Real.pi / 2) (abs_of_pos (by positivity)).le
  have e3 : |L.fl (L.pi / 2) - a - (Real.pi / 2 - φ)| ≤ ε * 7.16 := by
    rw [show L.fl (L.pi / 2) - a - (Real.pi / 2 - φ) = (L.fl (L.pi / 2) - Real.pi / 2) - (a - φ) by ring]
    have := abs_sub (L.fl (L.pi / 2) - Real.pi / 2) (a - φ)
    nlinarith [mul_le_mul_of_nonneg_left pi_le h0]
  have e4 := rnd R he e3 (b := 3.15) (by rw [abs_le]; constructor <;> linarith [pi_le])
  linarith

private theorem skew_near (h : Accurate L ε) (he : ε ≤ 1 / 1000) (r s : ℝ) :
    |L.fl (r * L.radians s) - r * (Real.pi * s / 180)| ≤ ε * (2.01 * |r * (Real.pi * s / 180)|) := by
  have h0 := eps_nonneg h
  have R := h.sound.rounds
  have e1 : |r * L.radians s - r * (Real.pi * s / 180)| ≤ ε * |r * (Real.pi * s / 180)| := by
    rw [← mul_sub, abs_mul, abs_mul r]
    nlinarith [mul_le_mul_of_nonneg_left (h.degrees s) (abs_nonneg r)]
  exact (rnd R he e1 le_rfl).trans (mul_le_mul_of_nonneg_left (by nlinarith [abs_nonneg (r * (Real.pi * s / 180))]) h0)

private theorem abs_le_half (x : ℝ) : |x| ≤ (1 + x ^ 2) / 2 := by
  rw [← sq_abs]; nlinarith [sq_nonneg (|x| - 1)]

private theorem rake_near (h : Accurate L ε) (he : ε ≤ 1 / 1000) {r s a x k : ℝ} (ha : |a - Real.arctan x| ≤ ε * 4) (hx : 16 * ε * |x| ≤ 1) :
    |L.fl (k + L.fl (L.fl (r * L.radians s) * L.tan a)) - (k + r * (Real.pi * s / 180) * x)| ≤
      ε * (8.6 * (|r * (Real.pi * s / 180)| * (1 + x ^ 2)) + |k|) := by
  have h0 := eps_nonneg h
  have R := h.sound.rounds
  have X1 := abs_le_half x
  have Xp : (0 : ℝ) < 1 + x ^ 2 := by positivity
  have t1 := tan_near (by linarith) (by linarith) ha
  set X := 1 + x ^ 2
  set S := |r * (Real.pi * s / 180)| with hS
  have S0 : 0 ≤ S := abs_nonneg _
  have SX : 0 ≤ S * X := by positivity
  have t2 : |Real.tan a| ≤ 0.51 * X := by
    have := abs_near t1 X1
    nlinarith
  have t3 : |L.tan a - x| ≤ ε * (6.2 * X) := by
    have := abs_sub_le (L.tan a) (Real.tan a) x
    have := h.tangent a
    nlinarith [mul_le_mul_of_nonneg_left t2 h0]
  have t4 := prd h0 he (skew_near h he r s) hS.ge t3 X1 (by positivity)
  have t5 : |L.fl (r * L.radians s) * L.tan a - r * (Real.pi * s / 180) * x| ≤ ε * (7.3 * (S * X)) :=
    t4.trans (mul_le_mul_of_nonneg_left (by nlinarith) h0)
  have m : |r * (Real.pi * s / 180) * x| ≤ S * X / 2 := by
    rw [abs_mul, ← hS]; nlinarith
  have t6 := rnd R he t5 m
  have t7 : |k + L.fl (L.fl (r * L.radians s) * L.tan a) - (k + r * (Real.pi * s / 180) * x)| ≤ ε * (7.9 * (S * X)) := by
    rw [add_sub_add_left_eq_sub]
    exact t6.trans (mul_le_mul_of_nonneg_left (by nlinarith) h0)
  have t8 := rnd R he t7 (b := |k| + S * X / 2) ((abs_add_le _ _).trans (by linarith))
  exact t8.trans (mul_le_mul_of_nonneg_left (by nlinarith) h0)

private theorem reference_near (h : Accurate L ε) (he : ε ≤ 1 / 1000) {P : Profile} (hP : P.Uniform) {ref : Pt} (hr : P.referencePoint = .ok ref) {A : ℝ}
    (hA : ∀ q ∈ P.points, |q.1| ≤ A ∧ |q.2| ≤ A) :
    ∃ ref', referencePoint L.toMachine P = .ok ref' ∧ |ref'.1 - ref.1| ≤ ε * (6 * A) ∧ |ref'.2 - ref.2| ≤ ε * (6 * A) ∧ |ref.1| ≤ A ∧ |ref.2| ≤ A := by
  have h0 := eps_nonneg h
  have R := h.sound.rounds
  unfold Profile.referencePoint at hr
  rcases hE : P.updateEdges with e | e
  · rw [hE] at hr; cases hr
  rw [hE] at hr
  obtain rfl := Except.ok.inj (show Except.ok _ = Except.ok ref from hr)
  obtain ⟨xu0, xd0, xu1, xd1, yu0, yu1, yd1, k1, k2, k3, k4, k5, k6, k7, d1, d2, rfl⟩ := Profile.updateEdges_ok hE
  have mem0 : ∀ {xs ys : Arr} {x y : ℝ}, xs.head? = some x → ys.head? = some y → (x, y) ∈ List.zip xs ys := by
    intro xs ys x y hx hy
    cases xs <;> cases ys <;> simp_all
  have mem1 : ∀ {xs ys : Arr} {x y : ℝ}, xs.length = ys.length → xs.getLast? = some x → ys.getLast? = some y → (x, y) ∈ List.zip xs ys := by
    intro xs ys x y hl hx hy
    have := mem0 (xs := xs.reverse) (ys := ys.reverse) (by rwa [List.head?_reverse]) (by rwa [List.head?_reverse])
    have e : List.zip xs.reverse ys.reverse = (List.zip xs ys).reverse := by
      simp only [List.zip]; exact (List.reverse_zipWith hl).symm
    rw [e] at this
    simpa using this
  obtain ⟨b1, b2⟩ := hA _ (List.mem_append_left _ (mem0 k1 k5))
  obtain ⟨b3, b4⟩ := hA _ (List.mem_append_left _ (mem1 hP.1 k3 k6))
  obtain ⟨_, b6⟩ := hA _ (List.mem_append_right _ (mem1 hP.2.2 k4 k7))
  simp only at b1 b2 b3 b4 b6
  have A0 : 0 ≤ A := (abs_nonneg _).trans b1
  have tol : ∀ {x : ℝ}, |x| ≤ 1e-4 → ¬ |L.fl x| > L.fl 1e-4 := by
    intro x hx
    obtain ⟨x1, x2⟩ := abs_le.1 hx
    have y1 := R.mono _ _ x1
    have y2 := R.mono _ _ x2
    rw [R.odd] at y1
    exact not_lt.2 (abs_le.2 ⟨y1, y2⟩)
  have half : ∀ {a b b' : ℝ} {k : ℝ}, |a| ≤ A → |b| ≤ A → 0 ≤ k → |b' - b| ≤ ε * (k * A) →
      |L.fl (0.5 * L.fl (a + b')) - (0.5 * (a + b))| ≤ ε * ((2.01 + 0.51 * k) * A) ∧ |0.5 * (a + b)| ≤ A := by
    intro a b b' k ha hb hk hb'
    have f1 : |a + b' - (a + b)| ≤ ε * (k * A) := by rwa [add_sub_add_left_eq_sub]
    have f2 := rnd R he f1 (b := 2 * A) ((abs_add_le _ _).trans (by linarith))
    have f3 : |0.5 * L.fl (a + b') - 0.5 * (a + b)| ≤ ε * (0.5 * (1.001 * (k * A) + 2 * A)) := by
      rw [← mul_sub, abs_mul, abs_of_pos (by norm_num)]; linarith
    have m : |0.5 * (a + b)| ≤ A := by
      rw [abs_mul, abs_of_pos (by norm_num)]
      have := abs_add_le a b
      linarith
    have f4 := rnd R he f3 m
    exact ⟨f4.trans (mul_le_mul_of_nonneg_left (by nlinarith [mul_nonneg hk A0]) h0), m⟩
  have z : ∀ {x : ℝ}, |x - x| ≤ ε * (0 * A) := by intro x; simp
  obtain ⟨g1, m1⟩ := half (b' := xu1) b1 b3 le_rfl z
  obtain ⟨g2, m2⟩ := half (b' := yd1) b4 b6 le_rfl z
  have hm : (yu1 + yd1) / 2 = 0.5 * (yu1 + yd1) := by ring
  obtain ⟨t, ht, hlast⟩ : ∃ t, updateEdges L.toMachine P = .ok ((xu0, yu0), (xu1, t)) ∧ |t - 0.5 * (yu1 + yd1)| ≤ ε * (2.01 * A) := by
    unfold updateEdges
    rw [getFirst_ok_iff.2 k1, getFirst_ok_iff.2 k2, getLast_ok_iff.2 k3, getLast_ok_iff.2 k4, getFirst_ok_iff.2 k5, getLast_ok_iff.2 k6,
      getLast_ok_iff.2 k7]
    simp only [bind, Except.bind, pure, Except.pure, tol d1, tol d2, if_false]
    split_ifs with heq
    · subst heq
      refine ⟨yu1, rfl, ?_⟩
      rw [show yu1 - 0.5 * (yu1 + yu1) = 0 by ring, abs_zero]
      positivity
    · exact ⟨_, rfl, g2.trans (by linarith)⟩
  obtain ⟨g3, m3⟩ := half (b' := t) b2 m2 (by norm_num) hlast
  refine ⟨_, by unfold referencePoint; rw [ht]; rfl, ?_, ?_, m1, ?_⟩
  · exact g1.trans (mul_le_mul_of_nonneg_left (by linarith) h0)
  · simp only [hm]
    exact g3.trans (mul_le_mul_of_nonneg_left (by linarith) h0)
  · simp only [hm]
    exact m3

/-! ### One point of a section -/

/-- The composition of the rounded statements on one point. -/
noncomputable def fpPlaced (L : Library) (refl : Bool) (r c k s a ir : ℝ) (ref q : Pt) : Pt :=
  let q : Pt := (L.fl (q.1 + (-ref).1), L.fl (q.2 + (-ref).2))
  let q : Pt := (L.fl (q.1 * c), L.fl (q.2 * c))
  let q : Pt := if refl then (L.fl (q.1 * -1), L.fl (q.2 * -1)) else q
  let q : Pt := rotPt L.toMachine (L.cos (L.fl (L.fl (L.pi / 2) - a))) (L.sin (L.fl (L.fl (L.pi / 2) - a))) q
  let q : Pt := (L.fl (q.1 + 0), L.fl (q.2 + L.fl (-r * L.radians s)))
  (L.fl (q.1 + -L.fl (k + ir)), L.fl (q.2 + 0))

theorem placeSection_ok (refl : Bool) {r c p k s : ℝ} {P : Profile} (hP : P.Uniform) {ref : Pt} {a ir : ℝ}
    (h1 : referencePoint L.toMachine P = .ok ref) (h2 : pitchAngle L p r = .ok a) (h3 : inducedRake L p r s = .ok ir) :
    ∃ Q, placeSection L refl r c p k s P = .ok Q ∧ Q.Uniform ∧ Q.upper = P.upper.map (fpPlaced L refl r c k s a ir ref) ∧
      Q.lower = P.lower.map (fpPlaced L refl r c k s a ir ref) := by
  obtain ⟨U1, a1, b1⟩ := translate_maps (M := L.toMachine) (-ref) P hP
  obtain ⟨U2, a2, b2⟩ := mulAll_maps (M := L.toMachine) c _ U1
  obtain ⟨P3, hP3, U3, a3, b3⟩ : ∃ P3, (if refl then reflect L.toMachine (mulAll L.toMachine c (translate L.toMachine (-ref) P)) else
      mulAll L.toMachine c (translate L.toMachine (-ref) P)) = P3 ∧ P3.Uniform ∧
      P3.upper = (mulAll L.toMachine c (translate L.toMachine (-ref) P)).upper.map (fun q => if refl then (L.fl (q.1 * -1), L.fl (q.2 * -1)) else q) ∧
      P3.lower = (mulAll L.toMachine c (translate L.toMachine (-ref) P)).lower.map (fun q => if refl then (L.fl (q.1 * -1), L.fl (q.2 * -1)) else q) := by
    cases refl
    · exact ⟨_, rfl, U2, by simp, by simp⟩
    · exact ⟨_, rfl, mulAll_maps (M := L.toMachine) (-1) _ U2⟩
  obtain ⟨P4, hP4, U4, a4, b4⟩ := rotate_maps (M := L.toMachine) (L.fl (L.fl (L.pi / 2) - a)) P3 U3
  obtain ⟨U5, a5, b5⟩ := translate_maps (M := L.toMachine) (0, L.fl (-r * L.radians s)) P4 U4
  obtain ⟨U6, a6, b6⟩ := translate_maps (M := L.toMachine) (-L.fl (k + ir), 0) _ U5
  refine ⟨_, by
    unfold placeSection
    rw [h1, h2, h3]
    simp only [bind, Except.bind]
    rw [hP3, hP4]
    rfl, U6, ?_, ?_⟩
  · rw [a6, a5, a4, a3, a2, a1]
    simp only [List.map_map]
    rfl
  · rw [b6, b5, b4, b3, b2, b1]
    simp only [List.map_map]
    rfl

theorem rot_angle (a b : ℝ) (q : Pt) : dist2 (rot a q) (rot b q) ≤ |a - b| * dist2 q (0, 0) := by
  have e : (rot a q).1 - (rot b q).1 = (Real.cos a - Real.cos b) * q.1 - (Real.sin a - Real.sin b) * q.2 := by simp only [rot]; ring
  have e' : (rot a q).2 - (rot b q).2 = (Real.sin a - Real.sin b) * q.1 + (Real.cos a - Real.cos b) * q.2 := by simp only [rot]; ring
  unfold dist2
  rw [← Real.sqrt_sq (abs_nonneg (a - b)), ← Real.sqrt_mul (sq_nonneg _)]
  apply Real.sqrt_le_sqrt
  rw [e, e', sq_abs, sub_zero, sub_zero]
  have k : (Real.cos a - Real.cos b) ^ 2 + (Real.sin a - Real.sin b) ^ 2 ≤ (a - b) ^ 2 := by
    have h1 := Real.one_sub_sq_div_two_le_cos (x := a - b)
    rw [Real.cos_sub] at h1
    have h2 := Real.sin_sq_add_cos_sq a
    have h3 := Real.sin_sq_add_cos_sq b
    nlinarith
  have := mul_le_mul_of_nonneg_right k (show (0 : ℝ) ≤ q.1 ^ 2 + q.2 ^ 2 by positivity)
  nlinarith

theorem abs_fst_le (p q : Pt) : |p.1 - q.1| ≤ dist2 p q := by
  rw [← Real.sqrt_sq_eq_abs]
  exact Real.sqrt_le_sqrt (by nlinarith [sq_nonneg (p.2 - q.2)])

theorem abs_snd_le (p q : Pt) : |p.2 - q.2| ≤ dist2 p q := by
  rw [← Real.sqrt_sq_eq_abs]
  exact Real.sqrt_le_sqrt (by nlinarith [sq_nonneg (p.1 - q.1)])

theorem dist2_le {p q : Pt} {d : ℝ} (hd : 0 ≤ d) (h1 : |p.1 - q.1| ≤ d) (h2 : |p.2 - q.2| ≤ d) : dist2 p q ≤ 1.415 * d := by
  apply Real.sqrt_le_iff.2 ⟨by positivity, ?_⟩
  have a := pow_le_pow_left₀ (abs_nonneg _) h1 2
  have b := pow_le_pow_left₀ (abs_nonneg _) h2 2
  rw [sq_abs] at a b
  nlinarith

theorem unit_le (h0 : 0 ≤ ε) (he : ε ≤ 1 / 1000) : unit ε ε ≤ ε * 6.01 := by
  unfold unit
  nlinarith [mul_nonneg h0 h0, mul_nonneg h0 (mul_nonneg h0 h0), mul_le_mul_of_nonneg_left he h0]

private theorem placed_rot (refl : Bool) {r c p k s : ℝ} (hr : r ≠ 0) {ref q : Pt} :
    placed refl r c p k s ref q =
      ((rot (Real.pi / 2 - Real.arctan (p / (2 * Real.pi * r))) ((if refl then -c else c) * (q.1 - ref.1), (if refl then -c else c) * (q.2 - ref.2))).1 +
          -(k + r * (Real.pi * s / 180) * (p / (2 * Real.pi * r))),
       (rot (Real.pi / 2 - Real.arctan (p / (2 * Real.pi * r))) ((if refl then -c else c) * (q.1 - ref.1), (if refl then -c else c) * (q.2 - ref.2))).2 +
          -(r * (Real.pi * s / 180))) := by
  have hp := Real.pi_ne_zero
  have hk : r * (Real.pi * s / 180) * (p / (2 * Real.pi * r)) = Real.pi * s / 180 * p / (2 * Real.pi) := by field_simp
  rw [hk]
  simp only [placed, rot, Real.cos_pi_div_two_sub, Real.sin_pi_div_two_sub]
  ext
  · simp only; ring
  · simp only; ring

private theorem shift_near (h : Accurate L ε) (he : ε ≤ 1 / 1000) {z Z : Pt} {C r k s x ir : ℝ} (n6 : |z.1 - Z.1| ≤ ε * (63 * C)) (n7 : |z.2 - Z.2| ≤ ε * (63 * C))
    (n8 : |Z.1| ≤ 2.83 * C) (n9 : |Z.2| ≤ 2.83 * C) (C0 : 0 ≤ C) {S X : ℝ} (hS : S = |r * (Real.pi * s / 180)|) (hX : X = 1 + x ^ 2)
    (hir : |-L.fl (k + ir) - -(k + r * (Real.pi * s / 180) * x)| ≤ ε * (8.6 * (S * X) + |k|)) :
    |L.fl (L.fl (z.1 + 0) + -L.fl (k + ir)) - (Z.1 + -(k + r * (Real.pi * s / 180) * x))| ≤ ε * (69 * C + 9.2 * (S * X) + 2.1 * |k|) ∧
    |L.fl (L.fl (z.2 + L.fl (-r * L.radians s)) + 0) - (Z.2 + -(r * (Real.pi * s / 180)))| ≤ ε * (69 * C + 4.2 * S) ∧
    |Z.2 + -(r * (Real.pi * s / 180))| ≤ 2.83 * C + S := by
  have h0 := eps_nonneg h
  have R := h.sound.rounds
  have S0 : 0 ≤ S := hS ▸ abs_nonneg _
  have sk : |L.fl (-r * L.radians s) - -(r * (Real.pi * s / 180))| ≤ ε * (2.01 * S) := by
    rw [neg_mul, R.odd, neg_sub_neg, abs_sub_comm, hS]
    exact skew_near h he r s
  have mS : |-(r * (Real.pi * s / 180))| ≤ S := by rw [abs_neg, hS]
  have X1 : |x| ≤ X / 2 := hX ▸ abs_le_half _
  have mK : |-(k + r * (Real.pi * s / 180) * x)| ≤ |k| + S * X / 2 := by
    rw [abs_neg]
    apply (abs_add_le _ _).trans
    rw [abs_mul, ← hS]
    nlinarith
  have SX : 0 ≤ S * X := by
    have : 0 ≤ X := by linarith [abs_nonneg x]
    positivity
  have hC := mul_nonneg h0 C0
  generalize -(k + r * (Real.pi * s / 180) * x) = K at *
  generalize -(r * (Real.pi * s / 180)) = T at *
  refine ⟨?_, ?_, ?_⟩
  · have o1 := rnd R he (y := z.1 + 0) (by rw [add_zero]; exact n6) n8
    have o2 : |L.fl (z.1 + 0) + -L.fl (k + ir) - (Z.1 + K)| ≤ ε * (66 * C + (8.6 * (S * X) + |k|)) := by
      rw [add_sub_add_comm]
      apply (abs_add_le _ _).trans
      linarith
    have o3 := rnd R he o2 (b := 2.83 * C + (|k| + S * X / 2)) ((abs_add_le _ _).trans (by linarith))
    exact o3.trans (mul_le_mul_of_nonneg_left (by linarith [abs_nonneg k]) h0)
  · have o1 : |z.2 + L.fl (-r * L.radians s) - (Z.2 + T)| ≤ ε * (63 * C + 2.01 * S) := by
      rw [add_sub_add_comm]
      exact (abs_add_le _ _).trans (by linarith)
    have m : |Z.2 + T| ≤ 2.83 * C + S := (abs_add_le _ _).trans (by linarith)
    have o2 := rnd R he o1 m
    have o3 := rnd R he (y := L.fl (z.2 + L.fl (-r * L.radians s)) + 0) (by rw [add_zero]; exact o2) m
    exact o3.trans (mul_le_mul_of_nonneg_left (by linarith) h0)
  · exact (abs_add_le _ _).trans (by linarith)

private theorem placed_near (h : Accurate L ε) (he : ε ≤ 1 / 1000) (refl : Bool) {r c p k s a ir : ℝ} (hr : r ≠ 0) {ref ref' q : Pt} {A : ℝ}
    (f1 : |ref'.1 - ref.1| ≤ ε * (6 * A)) (f2 : |ref'.2 - ref.2| ≤ ε * (6 * A)) (m1 : |ref.1| ≤ A) (m2 : |ref.2| ≤ A) (q1 : |q.1| ≤ A) (q2 : |q.2| ≤ A)
    (ha : |a - Real.arctan (p / (2 * Real.pi * r))| ≤ ε * 4) {S X : ℝ} (hS : S = |r * (Real.pi * s / 180)|) (hX : X = 1 + (p / (2 * Real.pi * r)) ^ 2)
    (hir : |-L.fl (k + ir) - -(k + r * (Real.pi * s / 180) * (p / (2 * Real.pi * r)))| ≤ ε * (8.6 * (S * X) + |k|)) :
    |(fpPlaced L refl r c k s a ir ref' q).1 - (placed refl r c p k s ref q).1| ≤ ε * (69 * (|c| * A) + 9.2 * (S * X) + 2.1 * |k|) ∧
    |(fpPlaced L refl r c k s a ir ref' q).2 - (placed refl r c p k s ref q).2| ≤ ε * (69 * (|c| * A) + 4.2 * S) ∧
    |(placed refl r c p k s ref q).2| ≤ 2.83 * (|c| * A) + S := by
  have h0 := eps_nonneg h
  have R := h.sound.rounds
  have A0 : 0 ≤ A := (abs_nonneg _).trans m1
  have S0 : 0 ≤ S := hS ▸ abs_nonneg _
  have C0 : 0 ≤ |c| * A := by positivity
  -- translate, scale
  have co : ∀ {x y y' : ℝ}, |x| ≤ A → |y| ≤ A → |y' - y| ≤ ε * (6 * A) →
      |L.fl (L.fl (x + -y') * c) - c * (x - y)| ≤ ε * (10.2 * (|c| * A)) ∧ |c * (x - y)| ≤ 2 * (|c| * A) := by
    intro x y y' hx hy hy'
    have m : |x - y| ≤ 2 * A := (abs_sub _ _).trans (by linarith)
    have g1 := rnd R he (show |x + -y' - (x - y)| ≤ ε * (6 * A) by rw [show x + -y' - (x - y) = -(y' - y) by ring, abs_neg]; exact hy') m
    have g2 : |L.fl (x + -y') * c - c * (x - y)| ≤ ε * (8.1 * (|c| * A)) := by
      rw [show L.fl (x + -y') * c - c * (x - y) = c * (L.fl (x + -y') - (x - y)) by ring, abs_mul]
      have := mul_le_mul_of_nonneg_left g1 (abs_nonneg c)
      nlinarith [mul_nonneg h0 C0]
    have m' : |c * (x - y)| ≤ 2 * (|c| * A) := by rw [abs_mul]; nlinarith [abs_nonneg c]
    exact ⟨(rnd R he g2 m').trans (mul_le_mul_of_nonneg_left (by linarith) h0), m'⟩
  obtain ⟨x1, x2⟩ := co q1 m1 f1
  obtain ⟨y1, y2⟩ := co q2 m2 f2
  -- reflect
  set e : ℝ := if refl then -c else c with he'
  obtain ⟨w, hw, w1, w2, w3, w4⟩ : ∃ w : Pt, w = (let q : Pt := (L.fl (L.fl (q.1 + (-ref').1) * c), L.fl (L.fl (q.2 + (-ref').2) * c));
        if refl then (L.fl (q.1 * -1), L.fl (q.2 * -1)) else q) ∧
      |w.1 - e * (q.1 - ref.1)| ≤ ε * (10.2 * (|c| * A)) ∧ |w.2 - e * (q.2 - ref.2)| ≤ ε * (10.2 * (|c| * A)) ∧
      |e * (q.1 - ref.1)| ≤ 2 * (|c| * A) ∧ |e * (q.2 - ref.2)| ≤ 2 * (|c| * A) := by
    refine ⟨_, rfl, ?_⟩
    cases refl
    · simp only [he', Bool.false_eq_true, if_false]
      exact ⟨x1, y1, x2, y2⟩
    · simp only [he', if_true, mul_neg_one, R.odd, R.twice, neg_mul, abs_neg]
      exact ⟨by rw [neg_sub_neg, abs_sub_comm]; exact x1, by rw [neg_sub_neg, abs_sub_comm]; exact y1, x2, y2⟩
  -- rotate
  have hβ := angle_near h he ha (Real.neg_pi_div_two_lt_arctan _).le (Real.arctan_lt_pi_div_two _).le
  have hφ : Real.pi / 2 - Real.arctan (p / (2 * Real.pi * r)) = Real.pi / 2 - Real.arctan (p / (2 * Real.pi * r)) := rfl
  set β := Real.pi / 2 - Real.arctan (p / (2 * Real.pi * r)) with hβd
  set β' := L.fl (L.fl (L.pi / 2) - a)
  set C := |c| * A
  set E : Pt := (e * (q.1 - ref.1), e * (q.2 - ref.2)) with hE
  have dE : dist2 E (0, 0) ≤ 2.83 * C := (dist2_le (d := 2 * C) (by positivity) (by rw [sub_zero]; exact w3) (by rw [sub_zero]; exact w4)).trans (by linarith)
  have dw : dist2 w E ≤ ε * (14.5 * C) := (dist2_le (by positivity) w1 w2).trans (by nlinarith [mul_nonneg h0 C0])
  have dw0 : dist2 w (0, 0) ≤ 2.85 * C := by
    have := dist2_triangle w E (0, 0)
    nlinarith [mul_nonneg h0 C0, mul_le_mul_of_nonneg_right he C0]
  have n1 := rotPt_near h.sound β' w
  have n2 := rot_angle β' β w
  have n3 := dist2_rot β w E
  have n4 : dist2 (rotPt L.toMachine (L.cos β') (L.sin β') w) (rot β E) ≤ ε * (63 * C) := by
    have t1 := dist2_triangle (rotPt L.toMachine (L.cos β') (L.sin β') w) (rot β' w) (rot β E)
    have t2 := dist2_triangle (rot β' w) (rot β w) (rot β E)
    have t3 : unit ε ε * dist2 w (0, 0) ≤ ε * 6.01 * (2.85 * C) :=
      mul_le_mul (unit_le h0 he) dw0 (dist2_nonneg _ _) (by positivity)
    have t4 : |β' - β| * dist2 w (0, 0) ≤ ε * 11 * (2.85 * C) := mul_le_mul hβ dw0 (dist2_nonneg _ _) (by positivity)
    nlinarith [mul_nonneg h0 C0]
  have n5 : dist2 (rot β E) (0, 0) ≤ 2.83 * C := by
    have : dist2 (rot β E) (rot β (0, 0)) = dist2 E (0, 0) := dist2_rot β E (0, 0)
    rw [show rot β (0, 0) = (0, 0) by simp [rot]] at this
    rw [this]; exact dE
  have n6 := (abs_fst_le _ _).trans n4
  have n7 := (abs_snd_le _ _).trans n4
  have n8 : |(rot β E).1| ≤ 2.83 * C := by simpa using (abs_fst_le (rot β E) (0, 0)).trans n5
  have n9 : |(rot β E).2| ≤ 2.83 * C := by simpa using (abs_snd_le (rot β E) (0, 0)).trans n5
  have hfp : fpPlaced L refl r c k s a ir ref' q =
      (L.fl (L.fl ((rotPt L.toMachine (L.cos β') (L.sin β') w).1 + 0) + -L.fl (k + ir)),
       L.fl (L.fl ((rotPt L.toMachine (L.cos β') (L.sin β') w).2 + L.fl (-r * L.radians s)) + 0)) := by
    rw [hw]; rfl
  have hpl := placed_rot refl hr (c := c) (p := p) (k := k) (s := s) (ref := ref) (q := q)
  rw [← he', ← hE, ← hβd] at hpl
  rw [hfp, hpl]
  exact shift_near h he n6 n7 n8 n9 C0 hS hX hir

/-! ### Laid on the cylinder -/

private theorem wrap_coord (h : Accurate L ε) (he : ε ≤ 1 / 1000) {g g' : ℝ → ℝ} (hg : ∀ t, |g' t - g t| ≤ ε) (hl : ∀ s t, |g s - g t| ≤ |s - t|) (h1 : ∀ t, |g t| ≤ 1)
    {r y y' a b : ℝ} (hr : r ≠ 0) (hy : |y' - y| ≤ ε * a) (hb : |y| ≤ b) :
    |L.fl (r * g' (L.fl (y' / r))) - r * g (y / r)| ≤ ε * (2.01 * |r| + 1.01 * a + 1.01 * b) := by
  have h0 := eps_nonneg h
  have R := h.sound.rounds
  have r0 := abs_pos.2 hr
  have b0 : 0 ≤ b := (abs_nonneg _).trans hb
  have e1 : |y' / r - y / r| ≤ ε * (a / |r|) := by
    rw [← sub_div, abs_div, ← mul_div_assoc]
    exact div_le_div_of_nonneg_right hy r0.le
  have e2 := rnd R he e1 (b := b / |r|) (by rw [abs_div]; exact div_le_div_of_nonneg_right hb r0.le)
  have e3 : |g' (L.fl (y' / r)) - g (y / r)| ≤ ε * (1 + (1.001 * (a / |r|) + b / |r|)) := by
    have t1 := abs_sub_le (g' (L.fl (y' / r))) (g (L.fl (y' / r))) (g (y / r))
    have t2 := hg (L.fl (y' / r))
    have t3 := (hl (L.fl (y' / r)) (y / r)).trans e2
    linarith
  have e4 : |r * g' (L.fl (y' / r)) - r * g (y / r)| ≤ ε * (|r| + 1.001 * a + b) := by
    rw [← mul_sub, abs_mul]
    have := mul_le_mul_of_nonneg_left e3 r0.le
    have e : |r| * (ε * (1 + (1.001 * (a / |r|) + b / |r|))) = ε * (|r| + 1.001 * a + b) := by field_simp; ring
    linarith
  have e5 := rnd R he e4 (b := |r|) (by rw [abs_mul]; nlinarith [h1 (y / r)])
  have ha : 0 ≤ ε * a := (abs_nonneg _).trans hy
  refine e5.trans ?_
  have : 0 ≤ ε * b := mul_nonneg h0 b0
  have : 0 ≤ ε * |r| := mul_nonneg h0 r0.le
  nlinarith

private theorem sin_lip (s t : ℝ) : |Real.sin s - Real.sin t| ≤ |s - t| := by
  rw [Real.sin_sub_sin, abs_mul, abs_mul, abs_two]
  have h1 := Real.abs_sin_le_abs (x := (s - t) / 2)
  rw [abs_div, abs_two] at h1
  have h2 := Real.abs_cos_le_one ((s + t) / 2)
  have := mul_le_mul h1 h2 (abs_nonneg _) (by positivity)
  linarith

private theorem cos_lip (s t : ℝ) : |Real.cos s - Real.cos t| ≤ |s - t| := by
  rw [← Real.sin_pi_div_two_sub, ← Real.sin_pi_div_two_sub]
  refine (sin_lip _ _).trans ?_
  rw [show Real.pi / 2 - s - (Real.pi / 2 - t) = -(s - t) by ring, abs_neg]

theorem point_near (h : Accurate L ε) (he : ε ≤ 1 / 1000) (refl : Bool) {r c p k s : ℝ} (hr : r ≠ 0) {P : Profile} (hP : P.Uniform) {ref : Pt}
    (href : P.referencePoint = .ok ref) {A : ℝ} (hA : ∀ q ∈ P.points, |q.1| ≤ A ∧ |q.2| ≤ A) (hx : 16 * ε * |p / (2 * Real.pi * r)| ≤ 1) :
    ∃ Q g, placeSection L refl r c p k s P = .ok Q ∧ Q.Uniform ∧ Q.upper = P.upper.map g ∧ Q.lower = P.lower.map g ∧
      (∀ q, L.fl (g q).1 = (g q).1) ∧ ∀ q ∈ P.points, Within (ε * size A r c p k s) (wrapPt L r (g q)) (wrap r (placed refl r c p k s ref q)) := by
  have h0 := eps_nonneg h
  obtain ⟨ref', e1, f1, f2, m1, m2⟩ := reference_near h he hP href hA
  obtain ⟨a, e2, ha⟩ := pitch_near h he (p := p) hr
  have e3 : inducedRake L p r s = .ok (L.fl (L.fl (r * L.radians s) * L.tan a)) := by
    unfold inducedRake; rw [e2]; rfl
  obtain ⟨Q, hQ, hU, hu, hl⟩ := placeSection_ok refl (c := c) (k := k) hP e1 e2 e3
  refine ⟨Q, _, hQ, hU, hu, hl, fun q => h.sound.rounds.twice _, ?_⟩
  intro q hq
  obtain ⟨q1, q2⟩ := hA q hq
  have hk := rake_near h he (r := r) (s := s) (k := k) ha hx
  rw [← abs_neg, neg_sub'] at hk
  obtain ⟨w1, w2, w3⟩ := placed_near h he refl (c := c) (k := k) hr f1 f2 m1 m2 q1 q2 ha rfl rfl hk
  have C0 : 0 ≤ |c| * A := mul_nonneg (abs_nonneg _) ((abs_nonneg _).trans q1)
  have S0 : 0 ≤ |r * (Real.pi * s / 180)| := abs_nonneg _
  have SX : |r * (Real.pi * s / 180)| ≤ |r * (Real.pi * s / 180)| * (1 + (p / (2 * Real.pi * r)) ^ 2) := by nlinarith [sq_nonneg (p / (2 * Real.pi * r))]
  have K0 := abs_nonneg k
  have r0 := abs_nonneg r
  have y1 := wrap_coord h he h.sound.sine sin_lip Real.abs_sin_le_one hr w2 w3
  have z1 := wrap_coord h he h.sound.cosine cos_lip Real.abs_cos_le_one hr w2 w3
  unfold Within size
  refine ⟨w1.trans (mul_le_mul_of_nonneg_left (by linarith) h0), y1.trans (mul_le_mul_of_nonneg_left (by linarith) h0),
    z1.trans (mul_le_mul_of_nonneg_left (by linarith) h0)⟩

end Rounded
end BladeX
