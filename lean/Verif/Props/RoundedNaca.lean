import Verif.Props.RoundedCustom
import Verif.Props.RoundedBlade
import Verif.Props.Naca
import Verif.Lemmas.RoundedNaca

/-! # NACA 4-digit foils in rounded arithmetic (`nacaprofile.py`) -/

namespace BladeX
open Spec
namespace Rounded

variable {L : NacaLibrary} {ε w : ℝ} {norm : ℝ → ℝ → ℝ} {n : Nat}

/-- What the stations of numpy are to the exact ones. -/
private def St (ε y x : ℝ) : Prop := 0 ≤ x ∧ x ≤ 1 ∧ 0 ≤ y ∧ |y - x| ≤ ε * (5.1 * x)

private theorem stations_st (h : Precise L ε) (he : ε ≤ 1e-9) (hn : 2 ≤ n) : List.Forall₂ (St ε) (stations L n) (linspaceN 0 1 n) := by
  rw [List.forall₂_iff_get]
  refine ⟨by rw [stations_length, linspaceN_length], fun i h1 h2 => ?_⟩
  have hi : i < n := by rwa [stations_length] at h1
  have hm := Naca.linspace01_mem (List.getElem_mem h2)
  obtain ⟨a, b⟩ := station_near h he hn hi (List.getElem?_eq_getElem h1)
  have e : (linspaceN 0 1 n)[i] = (i : ℝ) / ((n : ℝ) - 1) := by rw [linspaceN_getElem]; ring
  rw [e] at hm
  rw [List.get_eq_getElem, List.get_eq_getElem, e]
  exact ⟨hm.1, hm.2, b, a⟩

private theorem st_map {f g : ℝ → ℝ} {c : ℝ} {A B : Arr} (h : List.Forall₂ (St ε) A B) (hfg : ∀ y x, St ε y x → |f y - g x| ≤ c) :
    List.Forall₂ (fun a b => |a - b| ≤ c) (A.map f) (B.map g) := by
  rw [List.forall₂_map_left_iff, List.forall₂_map_right_iff]
  exact h.imp fun y x hs => hfg y x hs

/-! ### The parameters read from the digits -/

private theorem div_par (h : Precise L ε) (he : ε ≤ 1e-9) {d k : ℝ} (hd : 0 ≤ d) (hk : 0 < k) : |L.fl (L.fl d / k) - d / k| ≤ ε * (2.01 * (d / k)) := by
  have R := h.accurate.sound.rounds
  have h0 := u_nonneg R
  have p := div_nonneg hd hk.le
  have a : |L.fl d / k - d / k| ≤ ε * (d / k) := by
    rw [← sub_div, abs_div, abs_of_pos hk, mul_div_assoc', div_le_div_iff_of_pos_right hk]
    have := R.near d
    rwa [abs_of_nonneg hd] at this
  refine (rnd R (by linarith) a (b := d / k) (by rw [abs_of_nonneg p])).trans (mul_le_mul_of_nonneg_left (by linarith) h0)

private theorem div_par_zero (R : Rounds L.fl ε) (e1 : ε < 1) {d k : ℝ} (hk : 0 < k) : L.fl (L.fl d / k) = 0 ↔ d = 0 := by
  rw [fl_eq_zero (M := L.toMachine) R e1, div_eq_zero_iff, fl_eq_zero (M := L.toMachine) R e1]
  simp [hk.ne']

private theorem dig_ge {c : Char} (h : dig c ≠ 0) : 1 ≤ dig c := by
  unfold dig at *
  exact_mod_cast Nat.one_le_iff_ne_zero.2 (by exact_mod_cast h)

private theorem dig_cap {c : Char} (h : c.isDigit = true) : dig c ≤ 9 := Naca.dig_le h

/-! ### The points -/

private theorem arctan_lip (x y : ℝ) : |Real.arctan y - Real.arctan x| ≤ |y - x| := by
  have := Convex.norm_image_sub_le_of_norm_deriv_le (f := Real.arctan) (s := Set.univ) (C := 1) (x := x) (y := y)
    (fun z _ => Real.differentiableAt_arctan z) (fun z _ => by
      rw [Real.deriv_arctan, Real.norm_eq_abs, abs_of_pos (by positivity), div_le_one (by positivity)]
      nlinarith [sq_nonneg z]) convex_univ trivial trivial
  simpa [Real.norm_eq_abs] using this

private theorem sin_lip (x y : ℝ) : |Real.sin y - Real.sin x| ≤ |y - x| := by
  have := Convex.norm_image_sub_le_of_norm_deriv_le (f := Real.sin) (s := Set.univ) (C := 1) (x := x) (y := y)
    (fun z _ => Real.differentiableAt_sin) (fun z _ => by
      rw [Real.deriv_sin, Real.norm_eq_abs]; exact Real.abs_cos_le_one z) convex_univ trivial trivial
  simpa [Real.norm_eq_abs] using this

private theorem cos_lip (x y : ℝ) : |Real.cos y - Real.cos x| ≤ |y - x| := by
  have := Convex.norm_image_sub_le_of_norm_deriv_le (f := Real.cos) (s := Set.univ) (C := 1) (x := x) (y := y)
    (fun z _ => Real.differentiableAt_cos) (fun z _ => by
      rw [Real.deriv_cos, norm_neg, Real.norm_eq_abs]; exact Real.abs_sin_le_one z) convex_univ trivial trivial
  simpa [Real.norm_eq_abs] using this

private theorem trig_near (h : Precise L ε) {s' s : ℝ} (hs : |s' - s| ≤ ε * 1430) :
    Nr ε (L.sin (L.arctan s')) (Real.sin (Real.arctan s)) 1432 1 ∧ Nr ε (L.cos (L.arctan s')) (Real.cos (Real.arctan s)) 1432 1 := by
  have a1 := h.accurate.arctangent s'
  have a2 := arctan_lip s s'
  have a3 := abs_sub_le (L.arctan s') (Real.arctan s') (Real.arctan s)
  refine ⟨⟨?_, Real.abs_sin_le_one _⟩, ⟨?_, Real.abs_cos_le_one _⟩⟩
  · have := h.accurate.sound.sine (L.arctan s')
    have := sin_lip (Real.arctan s) (L.arctan s')
    have := abs_sub_le (L.sin (L.arctan s')) (Real.sin (L.arctan s')) (Real.sin (Real.arctan s))
    linarith
  · have := h.accurate.sound.cosine (L.arctan s')
    have := cos_lip (Real.arctan s) (L.arctan s')
    have := abs_sub_le (L.cos (L.arctan s')) (Real.cos (L.arctan s')) (Real.cos (Real.arctan s))
    linarith

/-- The last two operations: the product of the half-thickness with a sine or cosine, and the sum or difference with a coordinate. -/
private theorem spread_near (h : Precise L ε) (he : ε ≤ 1e-9) {c' c y' y q' q : ℝ} (hc : Nr ε c' c 1401 1) (hy : Nr ε y' y 120 2.88)
    (hq : Nr ε q' q 1432 1) : |L.fl (c' + L.fl (y' * q')) - (c + y * q)| ≤ ε * 6000 ∧ |L.fl (c' - L.fl (y' * q')) - (c - y * q)| ≤ ε * 6000 := by
  have R := h.accurate.sound.rounds
  have h0 := u_nonneg R
  have e3 : ε ≤ 1 / 1000 := by linarith
  have m : Nr ε (L.fl (y' * q')) (y * q) 4424 2.88 :=
    (hy.mul h0 e3 hq (by norm_num) (c := 4416) (d := 2.88) (by norm_num) (by norm_num)).fl R e3 (by norm_num)
  have b1 : |c + y * q| ≤ 3.88 := (abs_add_le _ _).trans (by linarith [hc.size, m.size])
  have b2 : |c - y * q| ≤ 3.88 := (abs_sub _ _).trans (by linarith [hc.size, m.size])
  exact ⟨((hc.add h0 m (c := 5825) (by norm_num) b1).fl R e3 (c := 6000) (by norm_num)).near,
    ((hc.sub h0 m (c := 5825) (by norm_num) b2).fl R e3 (c := 6000) (by norm_num)).near⟩

/-- Entry by entry the four arrays are as near as `c`. -/
structure Near (c : ℝ) (Q P : Profile) : Prop where
  xup : List.Forall₂ (fun a b => |a - b| ≤ c) Q.xup P.xup
  xdown : List.Forall₂ (fun a b => |a - b| ≤ c) Q.xdown P.xdown
  yup : List.Forall₂ (fun a b => |a - b| ≤ c) Q.yup P.yup
  ydown : List.Forall₂ (fun a b => |a - b| ≤ c) Q.ydown P.ydown

/-- **C133** For every 4-digit designation and every number of stations (below a quarter of the reciprocal of the rounding error) the computed
coordinates are within six thousand roundings of the exact ones. -/
theorem C133_points (h : Precise L ε) (he : ε ≤ 1e-9) {d0 d1 d2 d3 : Char} (h0 : d0.isDigit = true) (h1 : d1.isDigit = true)
    (h2 : d2.isDigit = true) (h3 : d3.isDigit = true) (hn : 2 ≤ n) (hs : 4 * ε * n ≤ 1) (cosine : Bool) (P : Profile)
    (hP : Naca.coords4 d0 d1 [d2, d3] n cosine = .ok P) : ∃ Q, coords4 L d0 d1 [d2, d3] n cosine = .ok Q ∧ Near (6000 * ε) Q P := by
  have R := h.accurate.sound.rounds
  have z0 := u_nonneg R
  rw [Naca.coords4_eq h0 h1 h2 h3] at hP
  obtain rfl := Except.ok.inj hP
  have S := stations_st h he hn
  have srt := stations_sorted h he hs
  obtain ⟨m, hm⟩ : ∃ m, m = dig d0 / 100 := ⟨_, rfl⟩
  obtain ⟨m', hm'⟩ : ∃ m', m' = L.fl (L.fl (dig d0) / 100) := ⟨_, rfl⟩
  obtain ⟨p, hp⟩ : ∃ p, p = dig d1 / 10 := ⟨_, rfl⟩
  obtain ⟨p', hp'⟩ : ∃ p', p' = L.fl (L.fl (dig d1) / 10) := ⟨_, rfl⟩
  obtain ⟨t, ht⟩ : ∃ t, t = (10 * dig d2 + dig d3) / 100 := ⟨_, rfl⟩
  obtain ⟨t', ht'⟩ : ∃ t', t' = L.fl (L.fl (10 * dig d2 + dig d3) / 100) := ⟨_, rfl⟩
  have n0 := Naca.dig_nonneg d0
  have n1 := Naca.dig_nonneg d1
  have n2 := Naca.dig_nonneg d2
  have n3 := Naca.dig_nonneg d3
  have c0 := dig_cap h0
  have c1 := dig_cap h1
  have c2 := dig_cap h2
  have c3 := dig_cap h3
  have t0 : 0 ≤ t := by rw [ht]; positivity
  have t1 : t ≤ 0.99 := by rw [ht]; linarith
  have em : |m' - m| ≤ ε * (2.01 * m) := by rw [hm', hm]; exact div_par h he n0 (by norm_num)
  have ep : |p' - p| ≤ ε * (2.01 * p) := by rw [hp', hp]; exact div_par h he n1 (by norm_num)
  have et : Nr ε t' t 2 0.99 := by
    refine ⟨?_, by rw [abs_of_nonneg t0]; exact t1⟩
    rw [ht', ht]
    refine (div_par h he (by positivity) (by norm_num)).trans (mul_le_mul_of_nonneg_left ?_ z0)
    rw [← ht]; linarith
  have half : ∀ y x, St ε y x → Nr ε (halfThickness L t' y) (nacaHalfThickness t x) 120 2.88 := fun y x s =>
    half_near h he et s.1 s.2.1 s.2.2.1 s.2.2.2 t0
  have stn : ∀ y x, St ε y x → Nr ε y x 1401 1 := fun y x s =>
    ⟨s.2.2.2.trans (mul_le_mul_of_nonneg_left (by linarith [s.2.1]) z0), by rw [abs_of_nonneg s.1]; exact s.2.1⟩
  have stn' : ∀ y x, St ε y x → |y - x| ≤ 6000 * ε := fun y x s => (stn y x s).near.trans (by linarith)
  unfold coords4
  simp only [Naca.digitVal_digit h0, Naca.digitVal_digit h1, Naca.numVal_digits h2 h3, bind, Except.bind, pure, Except.pure,
    div_par_zero R (by linarith) (show (0 : ℝ) < 10 by norm_num)]
  rw [← hm, ← hp, ← ht, ← hm', ← hp', ← ht']
  by_cases hz : dig d1 = 0
  · simp only [hz, if_true, true_or]
    refine ⟨_, rfl, ?_, ?_, ?_, ?_⟩ <;> simp only [symmetric, Naca.spread, Real.sin_zero, Real.cos_zero, mul_zero, mul_one, sub_zero, add_zero, List.map_id',
      zero_add, zero_sub, List.map_map]
    · exact S.imp stn'
    · exact S.imp stn'
    · exact st_map S fun y x s => (half y x s).near.trans (by nlinarith)
    · refine st_map S fun y x s => ?_
      have := (half y x s).near
      simp only [Function.comp]
      rw [show -halfThickness L t' y - -nacaHalfThickness t x = -(halfThickness L t' y - nacaHalfThickness t x) by ring, abs_neg]
      exact this.trans (by nlinarith)
  have p0 : 0.1 ≤ p := by rw [hp]; linarith [dig_ge hz]
  have p1 : p ≤ 0.9 := by rw [hp]; linarith
  have m0 : 0 ≤ m := by rw [hm]; positivity
  have m1 : m ≤ 0.09 := by rw [hm]; linarith
  have cam : ∀ y x, St ε y x → Nr ε (if y ≤ p' then camberFront L m' p' y else camberRear L m' p' y) (nacaCamber4 m p x) 1401 1 := fun y x s => by
    refine ⟨(camber_near h he m0 m1 em p0 p1 ep s.1 s.2.1 s.2.2.2).1, ?_⟩
    obtain ⟨-, -, -, -, -, -, hr⟩ := camber4_deriv m p m0 (show 0 < p by linarith) (show p < 1 by linarith)
    have := hr x s.1 s.2.1
    rw [abs_of_nonneg this.1]; linarith
  have slo : ∀ y x, St ε y x → |(if y ≤ p' then slopeFront L m' p' y else slopeRear L m' p' y) - Naca.slopeFn4 m p x| ≤ ε * 1430 := fun y x s =>
    (camber_near h he m0 m1 em p0 p1 ep s.1 s.2.1 s.2.2.2).2
  have ec : camber4 L m' p' (stations L n) = (stations L n).map fun y => if y ≤ p' then camberFront L m' p' y else camberRear L m' p' y :=
    Naca.map_split srt _ _
  have es : slope4 L m' p' (stations L n) = (stations L n).map fun y => if y ≤ p' then slopeFront L m' p' y else slopeRear L m' p' y :=
    Naca.map_split srt _ _
  have c6 : ε * 6000 = 6000 * ε := by ring
  simp only [hz, if_false, false_or]
  cases cosine
  · simp only [if_true, ec]
    refine ⟨_, rfl, ?_, ?_, ?_, ?_⟩ <;> simp only [verticalSpread, Naca.spread, Real.sin_zero, Real.cos_zero, mul_zero, mul_one, sub_zero, add_zero, List.map_id',
      zipWith_map_same]
    · exact S.imp stn'
    · exact S.imp stn'
    · refine st_map S fun y x s => ?_
      have b1 : |nacaCamber4 m p x + nacaHalfThickness t x| ≤ 3.88 := (abs_add_le _ _).trans (by linarith [(cam y x s).size, (half y x s).size])
      have := (((cam y x s).add z0 (half y x s) (c := 1521) (by norm_num) b1).fl R (by linarith) (c := 6000) (by norm_num)).near
      rwa [c6] at this
    · refine st_map S fun y x s => ?_
      have b1 : |nacaCamber4 m p x - nacaHalfThickness t x| ≤ 3.88 := (abs_sub _ _).trans (by linarith [(cam y x s).size, (half y x s).size])
      have := (((cam y x s).sub z0 (half y x s) (c := 1521) (by norm_num) b1).fl R (by linarith) (c := 6000) (by norm_num)).near
      rwa [c6] at this
  · simp only [if_true, ec, es]
    refine ⟨_, rfl, ?_, ?_, ?_, ?_⟩ <;> simp only [normalSpread, Naca.spread, zipWith_map_same, Naca.zipWith_id_map]
    · exact st_map S fun y x s => by
        have := (spread_near h he (stn y x s) (half y x s) (trig_near h (slo y x s)).1).2
        rwa [c6] at this
    · exact st_map S fun y x s => by
        have := (spread_near h he (stn y x s) (half y x s) (trig_near h (slo y x s)).1).1
        rwa [c6] at this
    · exact st_map S fun y x s => by
        have := (spread_near h he (cam y x s) (half y x s) (trig_near h (slo y x s)).2).1
        rwa [c6] at this
    · exact st_map S fun y x s => by
        have := (spread_near h he (cam y x s) (half y x s) (trig_near h (slo y x s)).2).2
        rwa [c6] at this

/-! ### The constructor -/

private theorem zip_near {c c' : ℝ} {f g : ℝ → ℝ → ℝ} {A A' B B' : Arr} (h1 : List.Forall₂ (fun a b => |a - b| ≤ c) A A')
    (h2 : List.Forall₂ (fun a b => |a - b| ≤ c) B B') (H : ∀ a a' b b', |a - a'| ≤ c → |b - b'| ≤ c → |f a b - g a' b'| ≤ c') :
    List.Forall₂ (fun a b => |a - b| ≤ c') (List.zipWith f A B) (List.zipWith g A' B') := by
  induction h1 generalizing B B' with
  | nil => simp
  | cons a _ ih =>
    cases h2 with
    | nil => simp
    | cons b t => exact List.Forall₂.cons (H _ _ _ _ a b) (ih t)

private theorem max_near {c a b : ℝ} {A B : List ℝ} (h : List.Forall₂ (fun a b => |a - b| ≤ c) A B) (ha : MaxOf A a) (hb : MaxOf B b) : |a - b| ≤ c := by
  obtain ⟨hl, hg⟩ := List.forall₂_iff_get.1 h
  obtain ⟨i, hi, ea⟩ := List.getElem_of_mem ha.1
  obtain ⟨j, hj, eb⟩ := List.getElem_of_mem hb.1
  have k1 := (abs_le.1 (hg i hi (by omega))).2
  have k2 := (abs_le.1 (hg j (by omega) hj)).1
  simp only [List.get_eq_getElem] at k1 k2
  have l1 := hb.2 _ (List.getElem_mem (show i < B.length by omega))
  have l2 := ha.2 _ (List.getElem_mem (show j < A.length by omega))
  rw [abs_le]
  constructor <;> linarith

private theorem head_near {c b : ℝ} {A B : List ℝ} (h : List.Forall₂ (fun a b => |a - b| ≤ c) A B) (hb : B.head? = some b) :
    ∃ a, A.head? = some a ∧ |a - b| ≤ c := by
  cases h with
  | nil => cases hb
  | cons x _ => obtain rfl := Option.some.inj hb; exact ⟨_, rfl, x⟩

private theorem last_near {c b : ℝ} {A B : List ℝ} (h : List.Forall₂ (fun a b => |a - b| ≤ c) A B) (hb : B.getLast? = some b) :
    ∃ a, A.getLast? = some a ∧ |a - b| ≤ c := by
  have := List.rel_reverse h
  rw [← List.head?_reverse] at hb ⊢
  exact head_near this hb

private theorem norm_le_add (x y : ℝ) : Real.sqrt (x ^ 2 + y ^ 2) ≤ |x| + |y| := by
  rw [Real.sqrt_le_left (by positivity)]
  have := sq_abs x
  have := sq_abs y
  nlinarith [abs_nonneg x, abs_nonneg y, mul_nonneg (abs_nonneg x) (abs_nonneg y)]

private theorem norm_near {x y δ : ℝ} (hx : |x + 1| ≤ δ) (hy : |y| ≤ δ) : |Real.sqrt (x ^ 2 + y ^ 2) - 1| ≤ 2 * δ := by
  have t1 := dist2_triangle (x, y) (-1, 0) (0, 0)
  have t2 := dist2_triangle (-1, 0) (x, y) (0, 0)
  have t3 : dist2 (x, y) (-1, 0) ≤ 2 * δ := by
    have := norm_le_add (x + 1) y
    simp only [dist2, sub_neg_eq_add, sub_zero]
    linarith
  have t4 : dist2 (-1, 0) (x, y) = dist2 (x, y) (-1, 0) := by unfold dist2; congr 1; dsimp only; ring
  rw [t4] at t2
  simp only [dist2, sub_zero] at t1 t2 t3
  norm_num at t1 t2
  norm_num at t3
  rw [abs_le]
  constructor <;> linarith

open Classical in
/-- Parameters of a profile near one with both edges on the unit chord. -/
private theorem gen_near {M : Machine} (R : Rounds M.fl ε) (he : ε ≤ 1e-9) (hm : Measures norm w) (hw : w < 1) {Q P : Profile} (hN : Near (6000 * ε) Q P)
    (hU : P.Uniform) (hE : P.Ends (0, 0) (1, 0) (0, 0) (1, 0)) :
    ∃ Q' q, generateParameters M norm Q = .ok Q' ∧ Q.SameCoords Q' ∧ Q'.par = some q ∧ |q.chordLength - 1| ≤ 25000 * ε + 1.1 * w ∧
      (∀ T, MaxOf (List.zipWith (fun a b => |a - b|) P.yup P.ydown) T → |T| ≤ 20 → |q.thicknessMax - T| ≤ 13000 * ε) ∧
      ∀ m, MaxOf (List.zipWith (fun a b => (a + b) / 2) P.yup P.ydown) m → |m| ≤ 20 → |q.camberMax - (|m|)| ≤ 13000 * ε := by
  have z0 := u_nonneg R
  have e3 : ε ≤ 1 / 1000 := by linarith
  have hl : P.yup.length = P.ydown.length := by have := hU.1; have := hU.2; omega
  have l1 := hN.xup.length_eq
  have l2 := hN.xdown.length_eq
  have l3 := hN.yup.length_eq
  have l4 := hN.ydown.length_eq
  have hQ : Q.Uniform := ⟨by have := hU.1; omega, by have := hU.2.1; omega, by have := hU.2.2; omega⟩
  have hlQ : Q.yup.length = Q.ydown.length := by omega
  obtain ⟨k1, k2, k3, k4⟩ := hE
  have k1 := zip_head? k1
  have k2 := zip_getLast? hU.1 k2
  have k3 := zip_head? k3
  have k4 := zip_getLast? hU.2.2 k4
  obtain ⟨xu0, a1, b1⟩ := head_near hN.xup k1.1
  obtain ⟨xd0, a2, b2⟩ := head_near hN.xdown k3.1
  obtain ⟨xu1, a3, b3⟩ := last_near hN.xup k2.1
  obtain ⟨xd1, a4, b4⟩ := last_near hN.xdown k4.1
  obtain ⟨yu0, a5, b5⟩ := head_near hN.yup k1.2
  obtain ⟨yu1, a6, b6⟩ := last_near hN.yup k2.2
  obtain ⟨yd1, a7, b7⟩ := last_near hN.ydown k4.2
  have chk : ∀ z : ℝ, |z| ≤ 12000 * ε → ¬ |M.fl z| > M.fl 1e-4 := by
    intro z hz
    obtain ⟨z1, z2⟩ := abs_le.1 (show |z| ≤ 1e-4 by linarith)
    have m1 := R.mono _ _ z2
    have m2 := R.mono _ _ z1
    rw [R.odd] at m2
    rw [not_lt, abs_le]
    exact ⟨m2, m1⟩
  have c1 := chk (xu0 - xd0) (by
    have := abs_sub_le xu0 0 xd0
    rw [abs_sub_comm 0 xd0] at this; dsimp only at b1 b2; linarith)
  have c2 := chk (xu1 - xd1) (by
    have := abs_sub_le xu1 1 xd1
    rw [abs_sub_comm 1 xd1] at this; dsimp only at b3 b4; linarith)
  obtain ⟨te, hte, hte1⟩ : ∃ te, updateEdges M Q = .ok ((xu0, yu0), (xu1, te)) ∧ |te| ≤ 6100 * ε := by
    unfold updateEdges
    rw [getFirst_ok_iff.2 a1, getFirst_ok_iff.2 a2, getLast_ok_iff.2 a3, getLast_ok_iff.2 a4, getFirst_ok_iff.2 a5,
      getLast_ok_iff.2 a6, getLast_ok_iff.2 a7]
    simp only [bind, Except.bind, pure, Except.pure, c1, c2, if_false]
    dsimp only at b6 b7
    rw [sub_zero] at b6 b7
    split
    · exact ⟨yu1, rfl, by linarith⟩
    · refine ⟨_, rfl, ?_⟩
      have s1 : |yu1 + yd1| ≤ 12000 * ε := (abs_add_le _ _).trans (by linarith)
      have s2 := abs_near (R.near (yu1 + yd1)) s1
      have s3 : |0.5 * M.fl (yu1 + yd1)| ≤ 6007 * ε := by
        rw [abs_mul, abs_of_pos (by norm_num)]
        have : ε * |yu1 + yd1| ≤ 0.001 * (12000 * ε) := mul_le_mul e3 s1 (abs_nonneg _) (by norm_num) |>.trans (by norm_num)
        linarith
      have s4 := abs_near (R.near (0.5 * M.fl (yu1 + yd1))) s3
      have : ε * |0.5 * M.fl (yu1 + yd1)| ≤ 0.001 * (6007 * ε) := mul_le_mul e3 s3 (abs_nonneg _) (by norm_num) |>.trans (by norm_num)
      linarith
  dsimp only at b1 b3 b5
  have w0 : 0 ≤ w := by
    have := hm 1 0
    norm_num at this
    exact (abs_nonneg _).trans this
  have dx : |M.fl (xu0 - xu1) + 1| ≤ 12100 * ε := by
    have : |xu0 - xu1 - (-1)| ≤ ε * 12000 := by
      rw [show xu0 - xu1 - -1 = (xu0 - 0) - (xu1 - 1) by ring]
      exact (abs_sub _ _).trans (by linarith)
    have := rnd R e3 this (show |(-1 : ℝ)| ≤ 1 by norm_num)
    rw [sub_neg_eq_add] at this
    linarith
  have dy : |M.fl (yu0 - te)| ≤ 12200 * ε := by
    have : |yu0 - te - 0| ≤ ε * 12100 := by
      rw [sub_zero] at b5 ⊢
      exact (abs_sub _ _).trans (by linarith)
    have := rnd R e3 this (show |(0 : ℝ)| ≤ 0 by norm_num)
    rw [sub_zero] at this
    linarith
  have nn := norm_near (dx.trans (show _ ≤ 12200 * ε by linarith)) dy
  have nm := hm (M.fl (xu0 - xu1)) (M.fl (yu0 - te))
  set S := Real.sqrt (M.fl (xu0 - xu1) ^ 2 + M.fl (yu0 - te) ^ 2)
  have Sb := abs_le.1 nn
  have ch : |norm (M.fl (xu0 - xu1)) (M.fl (yu0 - te)) - 1| ≤ 25000 * ε + 1.1 * w := by
    have := abs_sub_le (norm (M.fl (xu0 - xu1)) (M.fl (yu0 - te))) S 1
    have : w * S ≤ w * 1.1 := mul_le_mul_of_nonneg_left (by linarith) w0
    linarith
  have ch0 : norm (M.fl (xu0 - xu1)) (M.fl (yu0 - te)) ≠ 0 := by
    intro e
    rw [e, zero_sub, abs_neg, abs_of_pos (by linarith)] at nm
    nlinarith
  have q0 : Q.xup ≠ [] := by rintro e; rw [e] at a1; cases a1
  have len0 := List.length_pos_iff.2 q0
  have ne1 : List.zipWith (fun a b => M.fl (M.fl (a + b) / 2)) Q.yup Q.ydown ≠ [] := by
    rw [← List.length_pos_iff]; simp; have := hQ.1; omega
  have ne2 : List.zipWith (fun a b => |M.fl (a - b)|) Q.yup Q.ydown ≠ [] := by
    rw [← List.length_pos_iff]; simp; have := hQ.1; omega
  obtain ⟨mn, hmn⟩ := npMin_exists q0
  obtain ⟨mc, hmc⟩ := npMax_exists ne1
  obtain ⟨tm, htm⟩ := npMax_exists ne2
  rw [npMin_ok_iff] at hmn
  rw [npMax_ok_iff] at hmc htm
  refine ⟨_, _, (gen_ok hQ).2 ⟨_, mn, mc, tm, hte, ch0, hmn, hmc, htm, rfl⟩, ⟨rfl, rfl, rfl, rfl⟩, rfl, ch, ?_, ?_⟩
  · intro T hT hT1
    dsimp only
    have d : List.Forall₂ (fun a b => |a - b| ≤ 12000 * ε) (List.zipWith (fun a b => |a - b|) Q.yup Q.ydown)
        (List.zipWith (fun a b => |a - b|) P.yup P.ydown) := zip_near hN.yup hN.ydown fun a a' b b' x y => by
      refine (abs_abs_sub_abs_le_abs_sub _ _).trans ?_
      rw [show a - b - (a' - b') = (a - a') - (b - b') by ring]
      exact (abs_sub _ _).trans (by linarith)
    have ne3 : List.zipWith (fun a b => |a - b|) Q.yup Q.ydown ≠ [] := by
      rw [← List.length_pos_iff]; simp; have := hQ.1; omega
    obtain ⟨T', hT'⟩ := npMax_exists ne3
    rw [npMax_ok_iff] at hT'
    rw [tm_eq R hT' htm]
    have := max_near d hT' hT
    have := rnd R e3 (a := 12000) (by linarith) hT1
    linarith
  · intro m hm' hm1
    dsimp only
    have d : List.Forall₂ (fun a b => |a - b| ≤ 6000 * ε) (List.zipWith (fun a b => (a + b) / 2) Q.yup Q.ydown)
        (List.zipWith (fun a b => (a + b) / 2) P.yup P.ydown) := zip_near hN.yup hN.ydown fun a a' b b' x y => by
      rw [show (a + b) / 2 - (a' + b') / 2 = ((a - a') + (b - b')) / 2 by ring, abs_div, abs_two]
      have := abs_add_le (a - a') (b - b')
      linarith
    have ne3 : List.zipWith (fun a b => (a + b) / 2) Q.yup Q.ydown ≠ [] := by
      rw [← List.length_pos_iff]; simp; have := hQ.1; omega
    obtain ⟨m', hm''⟩ := npMax_exists ne3
    rw [npMax_ok_iff] at hm''
    rw [mc_zero R (by linarith) hm'' hmc]
    have x1 := max_near d hm'' hm'
    have x2 : |2 * m' - 2 * m| ≤ ε * 12000 := by
      rw [show 2 * m' - 2 * m = 2 * (m' - m) by ring, abs_mul, abs_two]; linarith
    have x3 := rnd R e3 x2 (show |2 * m| ≤ 40 by rw [abs_mul, abs_two]; linarith)
    have x4 : |M.fl (2 * m') / 2 - m| ≤ ε * 6030 := by
      rw [show M.fl (2 * m') / 2 - m = (M.fl (2 * m') - 2 * m) / 2 by ring, abs_div, abs_two]; linarith
    have x5 := rnd R e3 x4 hm1
    refine (abs_abs_sub_abs_le_abs_sub _ _).trans ?_
    linarith

private theorem half_cap {t x : ℝ} (t0 : 0 ≤ t) (t1 : t ≤ 0.99) (h0 : 0 ≤ x) (h1 : x ≤ 1) : nacaHalfThickness t x ≤ 2.88 := by
  have s1 : Real.sqrt x ≤ 1 := by rw [Real.sqrt_le_left (by norm_num)]; linarith
  have c3 : x ^ 3 ≤ 1 := pow_le_one₀ h0 h1
  have p2 : 0 ≤ x ^ 2 := by positivity
  have p4 : 0 ≤ x ^ 4 := by positivity
  have : 0.2969 * Real.sqrt x - 0.1260 * x - 0.3516 * x ^ 2 + 0.2843 * x ^ 3 - 0.1036 * x ^ 4 ≤ 0.5812 := by linarith
  unfold nacaHalfThickness
  nlinarith [mul_le_mul_of_nonneg_left this t0]

/-- **C133** The constructor succeeds for every 4-digit designation, and the chord length, the largest thickness and the largest camber it stores are
accurate too. -/
theorem C133_constructed (h : Precise L ε) (he : ε ≤ 1e-9) (hm : Measures norm w) (hw : w < 1) (american : Profile → Res Arr) (look : Naca.LookUp)
    {d0 d1 d2 d3 : Char} (h0 : d0.isDigit = true) (h1 : d1.isDigit = true) (h2 : d2.isDigit = true) (h3 : d3.isDigit = true) (hn : 2 ≤ n)
    (hs : 4 * ε * n ≤ 1) (cosine : Bool) :
    ∃ P Q p q, Naca.ctor american look (.str [d0, d1, d2, d3]) (.int n) cosine = .ok P ∧ naca4 L norm d0 d1 d2 d3 n cosine = .ok Q ∧
      Near (6000 * ε) Q P ∧ P.par = some p ∧ Q.par = some q ∧ |q.chordLength - p.chordLength| ≤ 25000 * ε + 1.1 * w ∧
      |q.thicknessMax - p.thicknessMax| ≤ 13000 * ε ∧ |q.camberMax - p.camberMax| ≤ 13000 * ε := by
  have hc := Naca.coords4_eq h0 h1 h2 h3 n cosine
  set y := nacaHalfThickness ((10 * dig d2 + dig d3) / 100) with hy
  set c : ℝ → ℝ := (if dig d1 = 0 then fun _ => 0 else nacaCamber4 (dig d0 / 100) (dig d1 / 10)) with hcd
  set θ : ℝ → ℝ := (if dig d1 = 0 ∨ cosine = false then fun _ => 0
        else fun a => Real.arctan (Naca.slopeFn4 (dig d0 / 100) (dig d1 / 10) a)) with hθ
  have n0 := Naca.dig_nonneg d0
  have n2 := Naca.dig_nonneg d2
  have n3 := Naca.dig_nonneg d3
  have k0 := dig_cap h0
  have k2 := dig_cap h2
  have k3 := dig_cap h3
  have cc : c 0 = 0 ∧ c 1 = 0 ∧ ∀ x, 0 ≤ x → x ≤ 1 → |c x| ≤ 0.09 := by
    rw [hcd]; split_ifs with hz
    · exact ⟨rfl, rfl, fun x _ _ => by norm_num⟩
    · refine ⟨camber4_zero (pos_of_digit hz), camber4_one (lt_one_of_digit h1), fun x x0 x1 => ?_⟩
      have := (C23_camber_line (dig d0 / 100) (dig d1 / 10) (by positivity) (pos_of_digit hz) (lt_one_of_digit h1)).2.2.2.2.2 x x0 x1
      rw [abs_of_nonneg this.1]; linarith
  have yy : ∀ x, 0 ≤ x → x ≤ 1 → |y x| ≤ 2.88 := fun x x0 x1 => by
    have t0 : 0 ≤ (10 * dig d2 + dig d3) / 100 := by positivity
    rw [hy, abs_of_nonneg (Naca.half_nonneg t0 x0 x1)]
    exact half_cap t0 (by linarith) x0 x1
  clear_value y c θ
  obtain ⟨P0, hP0⟩ : ∃ P0, P0 = Naca.spread n y c θ := ⟨_, rfl⟩
  have hU : P0.Uniform := by rw [hP0]; exact (Naca.spread_uniform n y c θ).1
  have hE : P0.Ends (0, 0) (1, 0) (0, 0) (1, 0) := by
    have := Naca.spread_ends hn (y := y) (c := c) θ (by rw [hy]; exact Naca.half_zero _) (by rw [hy]; exact Naca.half_one _)
    rwa [cc.1, cc.2.1, ← hP0] at this
  rw [← hP0] at hc
  have hed : P0.updateEdges = .ok ((0, 0), (1, (0 + 0) / 2)) := by
    rw [Profile.updateEdges_ends ⟨hU.1, hU.2.2⟩ hE, if_neg (by norm_num)]
  obtain ⟨P, p, hP, hp, sc, e1, -, e2, -, ⟨mc, e3, e4⟩, -⟩ := C14_parameters american P0 _ _ hed (by simp [dist2]) hU.1.symm
    (by rw [← hU.2.2, hU.2.1])
  obtain ⟨Q0, hQ0, hN⟩ := C133_points h he h0 h1 h2 h3 hn hs cosine P0 hc
  obtain ⟨Q, q, hQ, sq, hq, f1, f2, f3⟩ := gen_near h.accurate.sound.rounds he hm hw hN hU hE
  have T20 : |p.thicknessMax| ≤ 20 := by
    have := e2.1
    rw [hP0] at this
    simp only [Naca.spread, zipWith_map_same] at this
    obtain ⟨x, hx, ex⟩ := List.mem_map.1 this
    obtain ⟨x0, x1⟩ := Naca.linspace01_mem hx
    rw [← ex, abs_abs, show c x + y x * Real.cos (θ x) - (c x - y x * Real.cos (θ x)) = 2 * (y x * Real.cos (θ x)) by ring, abs_mul, abs_two, abs_mul]
    nlinarith [yy x x0 x1, Real.abs_cos_le_one (θ x), abs_nonneg (y x), abs_nonneg (Real.cos (θ x))]
  have m20 : |mc| ≤ 20 := by
    have := e3.1
    rw [hP0] at this
    simp only [Naca.spread, zipWith_map_same] at this
    obtain ⟨x, hx, ex⟩ := List.mem_map.1 this
    obtain ⟨x0, x1⟩ := Naca.linspace01_mem hx
    rw [← ex, show (c x + y x * Real.cos (θ x) + (c x - y x * Real.cos (θ x))) / 2 = c x by ring]
    linarith [cc.2.2 x x0 x1]
  have hch : p.chordLength = 1 := by rw [e1]; simp [dist2]
  refine ⟨P, Q, p, q, ?_, ?_, ?_, hp, hq, by rw [hch]; exact f1, f2 _ e2 T20, by rw [e4]; exact f3 _ e3 m20⟩
  · have hg : Naca.generateCoordinates look [d0, d1, d2, d3] n cosine = .ok P0 := hc
    have : ¬ ((n : Int) < 0) := by omega
    simp [Naca.ctor, Naca.checkArgs, bind, Except.bind, pure, Except.pure, throw, throwThe, MonadExceptOf.throw, hg, hP, this]
  · unfold naca4
    rw [hQ0]
    exact hQ
  · obtain ⟨s1, s2, s3, s4⟩ := sc
    obtain ⟨r1, r2, r3, r4⟩ := sq
    exact ⟨by rw [r1, s1]; exact hN.xup, by rw [r2, s2]; exact hN.xdown, by rw [r3, s3]; exact hN.yup, by rw [r4, s4]; exact hN.ydown⟩

/-- **C133** The computed upper surface is nowhere below the lower one by more than twelve thousand roundings. -/
theorem C133_order (h : Precise L ε) (he : ε ≤ 1e-9) (hm : Measures norm w) (hw : w < 1) {d0 d1 d2 d3 : Char} (h0 : d0.isDigit = true)
    (h1 : d1.isDigit = true) (h2 : d2.isDigit = true) (h3 : d3.isDigit = true) (hn : 2 ≤ n) (hs : 4 * ε * n ≤ 1) (cosine : Bool) (Q : Profile)
    (hQ : naca4 L norm d0 d1 d2 d3 n cosine = .ok Q) (i : Nat) (u d : ℝ) (hu : Q.yup[i]? = some u) (hd : Q.ydown[i]? = some d) :
    d ≤ u + 12000 * ε := by
  obtain ⟨P, Q', p, q, hP, hQ', hN, -⟩ := C133_constructed h he hm hw (fun _ => .error .valueError) (fun _ _ => (0, 0)) h0 h1 h2 h3 hn hs cosine
  obtain rfl := Except.ok.inj (hQ.symm.trans hQ')
  obtain ⟨l1, g1⟩ := List.forall₂_iff_get.1 hN.yup
  obtain ⟨l2, g2⟩ := List.forall₂_iff_get.1 hN.ydown
  obtain ⟨i1, rfl⟩ := List.getElem?_eq_some_iff.1 hu
  obtain ⟨i2, rfl⟩ := List.getElem?_eq_some_iff.1 hd
  have hm : '-' ∉ [d0, d1, d2, d3] := by
    intro hm
    simp only [List.mem_cons, List.not_mem_nil, or_false] at hm
    rcases hm with rfl | rfl | rfl | rfl
    · cases h0
    · cases h1
    · cases h2
    · cases h3
  have := C22_upper_above_lower _ _ _ n hm cosine P hP i _ _ (List.getElem?_eq_getElem (show i < P.yup.length by omega))
    (List.getElem?_eq_getElem (show i < P.ydown.length by omega))
  have k1 := (abs_le.1 (g1 i i1 (by omega))).1
  have k2 := (abs_le.1 (g2 i i2 (by omega))).2
  simp only [List.get_eq_getElem] at k1 k2
  linarith

/-- **C133** In double precision, with at most 10^15 stations: coordinates, largest thickness and largest camber to within `3e-12`. -/
theorem C133_double (h : Precise L ε) (he : ε ≤ (1 / 2) ^ 52) (hm : Measures norm w) (hw : w < 1) (american : Profile → Res Arr) (look : Naca.LookUp)
    {d0 d1 d2 d3 : Char} (h0 : d0.isDigit = true) (h1 : d1.isDigit = true) (h2 : d2.isDigit = true) (h3 : d3.isDigit = true) (hn : 2 ≤ n)
    (hs : n ≤ 10 ^ 15) (cosine : Bool) :
    ∃ P Q p q, Naca.ctor american look (.str [d0, d1, d2, d3]) (.int n) cosine = .ok P ∧ naca4 L norm d0 d1 d2 d3 n cosine = .ok Q ∧
      Near 3e-12 Q P ∧ P.par = some p ∧ Q.par = some q ∧ |q.thicknessMax - p.thicknessMax| ≤ 3e-12 ∧ |q.camberMax - p.camberMax| ≤ 3e-12 := by
  have z0 := u_nonneg h.accurate.sound.rounds
  have e : ε ≤ 2.3e-16 := he.trans (by norm_num)
  have nn : (n : ℝ) ≤ 10 ^ 15 := by exact_mod_cast hs
  have n0 : (0 : ℝ) ≤ n := Nat.cast_nonneg n
  obtain ⟨P, Q, p, q, a, b, hN, hp, hq, -, f2, f3⟩ := C133_constructed h (by linarith) hm hw american look h0 h1 h2 h3 hn (by
    have := mul_le_mul e nn n0 (by norm_num)
    norm_num at this ⊢
    linarith) cosine
  have r : ∀ a b : ℝ, |a - b| ≤ 6000 * ε → |a - b| ≤ 3e-12 := fun a b k => by linarith
  exact ⟨P, Q, p, q, a, b, ⟨hN.xup.imp r, hN.xdown.imp r, hN.yup.imp r, hN.ydown.imp r⟩, hp, hq, by linarith, by linarith⟩

/-- **C133** With position digit 0 the computed foil is exactly symmetric, whatever the rounding errors and the number of stations, and its camber is
exactly zero. -/
theorem C133_symmetric (R : Rounds L.fl ε) (e1 : ε < 1) {d0 d1 d2 d3 : Char} (h1 : d1.isDigit = true) (hz : dig d1 = 0) (cosine : Bool) (Q : Profile)
    (hQ : naca4 L norm d0 d1 d2 d3 n cosine = .ok Q) : Q.xdown = Q.xup ∧ Q.ydown = Q.yup.map (fun y => -y) ∧
      ∃ q, Q.par = some q ∧ q.camberMax = 0 ∧ ∀ c ∈ q.camberPerc, c = 0 := by
  unfold naca4 at hQ
  obtain ⟨P, hP, hQ⟩ := Profile.bndA.1 hQ
  have hsym : ∃ yt : Arr, yt.length = n ∧ P = symmetric L n yt := by
    unfold coords4 at hP
    obtain ⟨m0, -, hP⟩ := Profile.bndA.1 hP
    obtain ⟨p0, hp0, hP⟩ := Profile.bndA.1 hP
    obtain ⟨t0, -, hP⟩ := Profile.bndA.1 hP
    rw [Naca.digitVal_digit h1] at hp0
    obtain rfl := Except.ok.inj hp0
    simp only [(div_par_zero R e1 (show (0 : ℝ) < 10 by norm_num)).2 hz, if_true] at hP
    exact ⟨_, by simp [stations_length], (Except.ok.inj hP).symm⟩
  obtain ⟨yt, hl, rfl⟩ := hsym
  have hU : (symmetric L n yt).Uniform := by simp [symmetric, Profile.Uniform, stations_length, hl]
  obtain ⟨e, mn, mc, tm, a1, a2, a3, a4, a5, rfl⟩ := (gen_ok hU).1 hQ
  have z : mc = 0 := by
    obtain ⟨k, hk⟩ := List.mem_iff_getElem?.1 a4.1
    simp only [symmetric, List.zipWith_map_right, List.getElem?_zipWith] at hk
    rcases hy : yt[k]? with _ | v
    · simp [hy] at hk
    · simp only [hy, add_neg_cancel, fl_zero (M := L.toMachine) R, zero_div] at hk
      exact (Option.some.inj hk).symm
  refine ⟨rfl, rfl, _, rfl, by simp [z], ?_⟩
  intro c hc
  simp only [z, abs_zero, if_true] at hc
  exact (List.mem_replicate.1 hc).2

/-! ### A machine -/

/-- Truncating arithmetic with `p` binary digits. -/
noncomputable def chopNaca (p : ℕ) : NacaLibrary := { chopLib p with pow := fun x k => Chop.chop p (x ^ k) }

theorem chopNaca_precise (p : ℕ) (hp : 2 ≤ p) : Precise (chopNaca p) ((1 / 2) ^ (p - 2)) := by
  refine ⟨chopLib_accurate p hp, fun x k => (chopLib_accurate p hp).sound.rounds.near (x ^ k), ?_⟩
  refine Chop.chop_exact (e := 0) (k := 2 ^ (p - 1)) (by norm_num) (by norm_num) ?_
  have : (0 : ℤ) - ((p : ℤ) - 1) = -((p - 1 : ℕ) : ℤ) := by omega
  rw [this, zpow_neg, zpow_natCast]
  push_cast
  field_simp

private theorem exact_norm' : Measures (fun x y => Real.sqrt (x ^ 2 + y ^ 2)) 0 := fun x y => by simp

/-- NACA 2412 with 240 stations. -/
example (american : Profile → Res Arr) (look : Naca.LookUp) :
    ∃ P Q p q, Naca.ctor american look (.str ['2', '4', '1', '2']) (.int (240 : ℕ)) true = .ok P ∧
      naca4 (chopNaca 54) (fun x y => Real.sqrt (x ^ 2 + y ^ 2)) '2' '4' '1' '2' 240 true = .ok Q ∧
      Near 3e-12 Q P ∧ P.par = some p ∧ Q.par = some q ∧ |q.thicknessMax - p.thicknessMax| ≤ 3e-12 ∧ |q.camberMax - p.camberMax| ≤ 3e-12 :=
  C133_double (chopNaca_precise 54 (by norm_num)) le_rfl exact_norm' (by norm_num) american look rfl rfl rfl rfl (by norm_num) (by norm_num) true

/-- NACA 0012 with 40 binary digits: exactly symmetric. -/
example : ∃ Q, naca4 (chopNaca 40) (fun x y => Real.sqrt (x ^ 2 + y ^ 2)) '0' '0' '1' '2' 50 true = .ok Q ∧ Q.ydown = Q.yup.map (fun y => -y) := by
  obtain ⟨P, Q, p, q, -, hQ, -⟩ := C133_constructed (chopNaca_precise 40 (by norm_num)) (by norm_num) exact_norm' (by norm_num) (fun _ => .error .valueError)
    (fun _ _ => (0, 0)) (d0 := '0') (d1 := '0') (d2 := '1') (d3 := '2') rfl rfl rfl rfl (n := 50) (by norm_num) (by norm_num) true
  exact ⟨Q, hQ, (C133_symmetric (chopNaca_precise 40 (by norm_num)).accurate.sound.rounds (by norm_num) rfl (by simp [dig]) true Q hQ).2.1⟩

end Rounded
end BladeX
