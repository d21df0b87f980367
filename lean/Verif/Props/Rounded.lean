import Verif.Model.Rounded
import Verif.Lemmas.Edges
import Verif.Lemmas.Chop
import Mathlib.Analysis.Complex.Norm

/-! # The transformations of profiles in rounded arithmetic (`bladex/profile/baseprofile.py`, `bladex/blade.py`) -/

namespace BladeX
open Spec
namespace Rounded

variable {M : Machine} {u w : ℝ}

/-! ### One call acts on both surfaces by one map -/

theorem fl_zero (h : Rounds M.fl u) : M.fl 0 = 0 := by
  have := h.odd 0
  rw [neg_zero] at this
  linarith

theorem rotCols_eq (c s : ℝ) (n : Nat) (xs ys : Arr) (h : (List.zip xs ys).length ≤ n) :
    rotCols M c s n xs ys = (List.zip xs ys).map (rotPt M c s) := by
  unfold rotCols
  rw [mapIdx_lt_take_drop, List.take_of_length_le h, Nat.sub_eq_zero_of_le h]
  simp

theorem translate_maps (v : Pt) (P : Profile) (hP : P.Uniform) :
    (translate M v P).Uniform ∧ (translate M v P).upper = P.upper.map (fun p => (M.fl (p.1 + v.1), M.fl (p.2 + v.2))) ∧
      (translate M v P).lower = P.lower.map (fun p => (M.fl (p.1 + v.1), M.fl (p.2 + v.2))) := by
  refine ⟨by simpa [Profile.Uniform, translate] using hP, ?_, ?_⟩
  · simp only [Profile.upper, translate, List.zip_map]; rfl
  · simp only [Profile.lower, translate, List.zip_map]; rfl

theorem mulAll_maps (f : ℝ) (P : Profile) (hP : P.Uniform) :
    (mulAll M f P).Uniform ∧ (mulAll M f P).upper = P.upper.map (fun p => (M.fl (p.1 * f), M.fl (p.2 * f))) ∧
      (mulAll M f P).lower = P.lower.map (fun p => (M.fl (p.1 * f), M.fl (p.2 * f))) := by
  refine ⟨by simpa [Profile.Uniform, mulAll] using hP, ?_, ?_⟩
  · simp only [Profile.upper, mulAll, List.zip_map]; rfl
  · simp only [Profile.lower, mulAll, List.zip_map]; rfl

theorem rotate_maps (a : ℝ) (P : Profile) (hP : P.Uniform) :
    ∃ Q, rotate M a P = .ok Q ∧ Q.Uniform ∧ Q.upper = P.upper.map (rotPt M (M.cos a) (M.sin a)) ∧
      Q.lower = P.lower.map (rotPt M (M.cos a) (M.sin a)) := by
  obtain ⟨h1, h2, h3⟩ := hP
  have e1 := rotCols_eq (M := M) (M.cos a) (M.sin a) P.xup.length P.xup P.yup (by simp)
  have e2 := rotCols_eq (M := M) (M.cos a) (M.sin a) P.xup.length P.xdown P.ydown (by simp; omega)
  refine ⟨_, by
    unfold rotate
    rw [if_neg (by simpa using h1), if_neg (by simpa using h3), if_neg (by omega)]
    rfl, ?_, ?_, ?_⟩
  · simp [Profile.Uniform, e1, e2]; omega
  · simp only [Profile.upper, e1, zip_map_fst_snd]
  · simp only [Profile.lower, e2, zip_map_fst_snd]

private theorem call_maps (c : Call) (P Q : Profile) (hP : P.Uniform) (h : call M c P = .ok Q) :
    ∃ g : Pt → Pt, Q.Uniform ∧ Q.upper = P.upper.map g ∧ Q.lower = P.lower.map g := by
  cases c with
  | translate v =>
    obtain rfl := Except.ok.inj (show Except.ok (translate M v P) = Except.ok Q from h)
    exact ⟨_, translate_maps v P hP⟩
  | scale f about =>
    cases about
    · obtain rfl := Except.ok.inj (show Except.ok (mulAll M f P) = Except.ok Q from h)
      exact ⟨_, mulAll_maps f P hP⟩
    · simp only [call, scale, if_true, bind, Except.bind, pure, Except.pure] at h
      rcases hr : referencePoint M P with e | r
      · rw [hr] at h; cases h
      rw [hr] at h
      obtain rfl := Except.ok.inj h
      obtain ⟨U1, a1, b1⟩ := translate_maps (M := M) (-r) P hP
      obtain ⟨U2, a2, b2⟩ := mulAll_maps (M := M) f _ U1
      obtain ⟨U3, a3, b3⟩ := translate_maps (M := M) r _ U2
      rw [a2, a1, List.map_map, List.map_map] at a3
      rw [b2, b1, List.map_map, List.map_map] at b3
      exact ⟨_, U3, a3, b3⟩
  | reflect =>
    obtain rfl := Except.ok.inj (show Except.ok (reflect M P) = Except.ok Q from h)
    exact ⟨_, mulAll_maps (-1) P hP⟩
  | rotate a =>
    obtain ⟨Q', hQ, r⟩ := rotate_maps (M := M) a P hP
    obtain rfl := Except.ok.inj (hQ.symm.trans h)
    exact ⟨_, r⟩

/-- **C95** Whatever the rounding, a history of calls acts on the points of both surfaces by one and the same map: points that
coincide stay coincident, and no point appears or disappears. -/
theorem C95_one_map (M : Machine) (cs : List Call) (P Q : Profile) (hP : P.Uniform) (h : calls M cs P = .ok Q) :
    ∃ g : Pt → Pt, Q.Uniform ∧ Q.upper = P.upper.map g ∧ Q.lower = P.lower.map g := by
  induction cs generalizing P with
  | nil => obtain rfl := Except.ok.inj (show Except.ok P = Except.ok Q from h); exact ⟨id, hP, by simp, by simp⟩
  | cons c cs ih =>
    simp only [calls, bind, Except.bind] at h
    rcases hc : call M c P with e | P'
    · rw [hc] at h; cases h
    rw [hc] at h
    obtain ⟨g, hU, a, b⟩ := call_maps c P P' hP hc
    obtain ⟨g', hU', a', b'⟩ := ih P' hU h
    exact ⟨g' ∘ g, hU', by rw [a', a, List.map_map], by rw [b', b, List.map_map]⟩

private theorem reference_closed (h : Rounds M.fl u) {P : Profile} (hP : P.Uniform) {a b : Pt} (hE : P.Ends a b a b) :
    ∃ r, referencePoint M P = .ok r := by
  obtain ⟨h1, h2, h3, h4⟩ := hE
  have k1 := zip_head? h1
  have k2 := zip_getLast? hP.1 h2
  have k3 := zip_head? h3
  have k4 := zip_getLast? hP.2.2 h4
  have t : ¬ |M.fl 0| > M.fl 1e-4 := by
    have := h.mono 0 1e-4 (by norm_num)
    rw [fl_zero h] at this ⊢
    simpa using this
  refine ⟨(M.fl (0.5 * M.fl (a.1 + b.1)), M.fl (0.5 * M.fl (a.2 + b.2))), by
    unfold referencePoint updateEdges
    rw [getFirst_ok_iff.2 k1.1, getFirst_ok_iff.2 k3.1, getLast_ok_iff.2 k2.1, getLast_ok_iff.2 k4.1, getFirst_ok_iff.2 k1.2,
      getLast_ok_iff.2 k2.2, getLast_ok_iff.2 k4.2]
    simp only [bind, Except.bind, pure, Except.pure, sub_self, t, if_false, if_true]⟩

/-- **C95** A profile whose surfaces meet exactly at both edges keeps meeting exactly, after any history, and no call of the
history fails. -/
theorem C95_closed (h : Rounds M.fl u) (cs : List Call) (P : Profile) (hP : P.Uniform) (a b : Pt) (hE : P.Ends a b a b) :
    ∃ Q a' b', calls M cs P = .ok Q ∧ Q.Uniform ∧ Q.Ends a' b' a' b' := by
  induction cs generalizing P a b with
  | nil => exact ⟨P, a, b, rfl, hP, hE⟩
  | cons c cs ih =>
    have : ∃ P', call M c P = .ok P' := by
      cases c with
      | translate v => exact ⟨_, rfl⟩
      | scale f about =>
        cases about
        · exact ⟨_, rfl⟩
        · obtain ⟨r, hr⟩ := reference_closed h hP hE
          exact ⟨translate M r (mulAll M f (translate M (-r) P)), by simp only [call, scale, if_true, hr, bind, Except.bind, pure, Except.pure]⟩
      | reflect => exact ⟨_, rfl⟩
      | rotate a =>
        obtain ⟨Q, hQ, _⟩ := rotate_maps (M := M) a P hP
        exact ⟨Q, hQ⟩
    obtain ⟨P', hP'⟩ := this
    obtain ⟨g, hU, x, y⟩ := call_maps c P P' hP hP'
    obtain ⟨Q, a', b', hQ, r⟩ := ih P' hU _ _ (hE.map g x y)
    exact ⟨Q, a', b', by simp only [calls, hP', bind, Except.bind, hQ], r⟩

/-! ### Exact operations and order -/

/-- All coordinates are numbers of the machine. -/
def Representable (M : Machine) (P : Profile) : Prop :=
  (∀ x ∈ P.xup, M.fl x = x) ∧ (∀ x ∈ P.xdown, M.fl x = x) ∧ (∀ x ∈ P.yup, M.fl x = x) ∧ (∀ x ∈ P.ydown, M.fl x = x)

private theorem map_neg_eq (h : Rounds M.fl u) {l : Arr} (hl : ∀ x ∈ l, M.fl x = x) : l.map (fun x => M.fl (x * -1)) = l.map (· * (-1)) := by
  apply List.map_congr_left
  intro x hx
  rw [mul_neg_one, h.odd, hl x hx]

/-- **C95** `reflect()` is exact, and calling it twice gives the profile back. -/
theorem C95_reflect (h : Rounds M.fl u) (P : Profile) (hP : Representable M P) :
    reflect M P = P.reflect ∧ Representable M (reflect M P) ∧ reflect M (reflect M P) = P := by
  obtain ⟨a, b, c, d⟩ := hP
  have e : reflect M P = P.reflect := by
    simp only [reflect, mulAll, Profile.reflect, map_neg_eq h a, map_neg_eq h b, map_neg_eq h c, map_neg_eq h d]
  have rep : ∀ {l : Arr}, (∀ x ∈ l, M.fl x = x) → ∀ x ∈ l.map (· * (-1)), M.fl x = x := by
    intro l hl x hx
    obtain ⟨y, hy, rfl⟩ := List.mem_map.1 hx
    simp only [mul_neg_one]
    rw [h.odd, hl y hy]
  have back : ∀ {l : Arr}, (∀ x ∈ l, M.fl x = x) → (l.map (· * (-1))).map (fun x => M.fl (x * -1)) = l := by
    intro l hl
    rw [map_neg_eq h (rep hl), List.map_map]
    conv_rhs => rw [← List.map_id l]
    apply List.map_congr_left
    intro x _
    simp
  refine ⟨e, ?_, ?_⟩
  · rw [e]; exact ⟨rep a, rep b, rep c, rep d⟩
  · rw [e]
    simp only [reflect, mulAll, Profile.reflect, back a, back b, back c, back d]

/-- **C95** After any call of `translate`, `scale` or `reflect` the coordinates are numbers of the machine again. -/
theorem C95_representable (h : Rounds M.fl u) (c : Call) (hc : ∀ a, c ≠ .rotate a) (P Q : Profile) (hQ : call M c P = .ok Q) :
    Representable M Q := by
  have rep : ∀ (f : ℝ → ℝ) (l : Arr), ∀ x ∈ l.map (fun x => M.fl (f x)), M.fl x = x := by
    intro f l x hx
    obtain ⟨y, hy, rfl⟩ := List.mem_map.1 hx
    exact h.twice _
  cases c with
  | translate v =>
    obtain rfl := Except.ok.inj (show Except.ok (translate M v P) = Except.ok Q from hQ)
    exact ⟨rep _ _, rep _ _, rep _ _, rep _ _⟩
  | scale f about =>
    cases about
    · obtain rfl := Except.ok.inj (show Except.ok (mulAll M f P) = Except.ok Q from hQ)
      exact ⟨rep _ _, rep _ _, rep _ _, rep _ _⟩
    · simp only [call, scale, if_true, bind, Except.bind, pure, Except.pure] at hQ
      rcases hr : referencePoint M P with e | r
      · rw [hr] at hQ; cases hQ
      rw [hr] at hQ
      obtain rfl := Except.ok.inj hQ
      exact ⟨rep _ _, rep _ _, rep _ _, rep _ _⟩
  | reflect =>
    obtain rfl := Except.ok.inj (show Except.ok (reflect M P) = Except.ok Q from hQ)
    exact ⟨rep _ _, rep _ _, rep _ _, rep _ _⟩
  | rotate a => exact absurd rfl (hc a)

private theorem sorted_map {f : ℝ → ℝ} (hf : ∀ x y, x ≤ y → f x ≤ f y) {l : Arr} (hl : l.Pairwise (· ≤ ·)) : (l.map f).Pairwise (· ≤ ·) := by
  rw [List.pairwise_map]
  exact hl.imp fun {a b} hab => hf a b hab

/-- **C95** `translate` and `scale` with a non-negative factor, about the origin or about the reference point, keep the abscissae
of either surface in order (not strictly: see `C95_merge`). -/
theorem C95_order (h : Rounds M.fl u) (c : Call) (hc : (∃ v, c = .translate v) ∨ ∃ f about, 0 ≤ f ∧ c = .scale f about) (P Q : Profile)
    (hQ : call M c P = .ok Q) :
    (P.xup.Pairwise (· ≤ ·) → Q.xup.Pairwise (· ≤ ·)) ∧ (P.xdown.Pairwise (· ≤ ·) → Q.xdown.Pairwise (· ≤ ·)) := by
  have add : ∀ v : ℝ, ∀ x y, x ≤ y → M.fl (x + v) ≤ M.fl (y + v) := fun v x y hxy => h.mono _ _ (by linarith)
  have mul : ∀ f : ℝ, 0 ≤ f → ∀ x y, x ≤ y → M.fl (x * f) ≤ M.fl (y * f) := fun f hf x y hxy => h.mono _ _ (mul_le_mul_of_nonneg_right hxy hf)
  rcases hc with ⟨v, rfl⟩ | ⟨f, about, hf, rfl⟩
  · obtain rfl := Except.ok.inj (show Except.ok (translate M v P) = Except.ok Q from hQ)
    exact ⟨sorted_map (add _), sorted_map (add _)⟩
  · cases about
    · obtain rfl := Except.ok.inj (show Except.ok (mulAll M f P) = Except.ok Q from hQ)
      exact ⟨sorted_map (mul f hf), sorted_map (mul f hf)⟩
    · simp only [call, scale, if_true, bind, Except.bind, pure, Except.pure] at hQ
      rcases hr : referencePoint M P with e | r
      · rw [hr] at hQ; cases hQ
      rw [hr] at hQ
      obtain rfl := Except.ok.inj hQ
      exact ⟨fun hs => sorted_map (add _) (sorted_map (mul f hf) (sorted_map (add _) hs)),
        fun hs => sorted_map (add _) (sorted_map (mul f hf) (sorted_map (add _) hs))⟩

/-! ### Accuracy -/

private noncomputable def cx (p : Pt) : ℂ := ⟨p.1, p.2⟩

private theorem dist2_cx (p q : Pt) : dist2 p q = ‖cx p - cx q‖ := by
  rw [Complex.norm_def, Complex.normSq_apply, dist2]
  congr 1
  simp [cx]; ring

theorem dist2_triangle (p q r : Pt) : dist2 p r ≤ dist2 p q + dist2 q r := by
  simp only [dist2_cx]
  exact norm_sub_le_norm_sub_add_norm_sub _ _ _

theorem dist2_nonneg (p q : Pt) : 0 ≤ dist2 p q := Real.sqrt_nonneg _

/-- The error of one step of rounded arithmetic, relative to the distance from the origin. -/
def unit (u w : ℝ) : ℝ := 2 * ((1 + u) ^ 2 * (1 + w) - 1)

/-- The exact effect of a call on a point (`scale` about the origin). -/
private noncomputable def ex : Call → Pt → Pt
  | .translate v, p => p + v
  | .scale f _, p => (f * p.1, f * p.2)
  | .reflect, p => (-p.1, -p.2)
  | .rotate a, p => rot a p

/-- The rounded effect. -/
private noncomputable def fp (M : Machine) : Call → Pt → Pt
  | .translate v, p => (M.fl (p.1 + v.1), M.fl (p.2 + v.2))
  | .scale f _, p => (M.fl (p.1 * f), M.fl (p.2 * f))
  | .reflect, p => (M.fl (p.1 * -1), M.fl (p.2 * -1))
  | .rotate a, p => rotPt M (M.cos a) (M.sin a) p

/-- By how much a call enlarges distances, at least 1. -/
noncomputable def stretch : Call → ℝ
  | .scale f _ => max 1 |f|
  | _ => 1

/-- By how much a history enlarges distances. -/
noncomputable def growth (cs : List Call) : ℝ := (cs.map stretch).prod

private theorem stretch_ge (c : Call) : 1 ≤ stretch c := by
  cases c <;> simp [stretch]

private theorem growth_ge (cs : List Call) : 1 ≤ growth cs := by
  induction cs with
  | nil => simp [growth]
  | cons c cs ih =>
    have := stretch_ge c
    simp only [growth, List.map_cons, List.prod_cons] at ih ⊢
    nlinarith

theorem u_nonneg (h : Rounds M.fl u) : 0 ≤ u := by
  have := h.near 1
  rw [abs_one, mul_one] at this
  exact (abs_nonneg _).trans this

private theorem w_nonneg (h : Sound M u w) : 0 ≤ w := (abs_nonneg _).trans (h.cosine 0)

private theorem unit_nonneg (h : Sound M u w) : 0 ≤ unit u w := by
  have := u_nonneg h.rounds
  have := w_nonneg h
  unfold unit
  nlinarith [mul_nonneg (sq_nonneg (1 + u)) (w_nonneg h), sq_nonneg u]

private theorem u_le_unit (h : Sound M u w) : u ≤ unit u w := by
  have := u_nonneg h.rounds
  have := w_nonneg h
  unfold unit
  nlinarith [mul_nonneg (sq_nonneg (1 + u)) (w_nonneg h), sq_nonneg u]

/-- Rounding both coordinates. -/
private theorem round_pt (h : Rounds M.fl u) (p : Pt) : dist2 (M.fl p.1, M.fl p.2) p ≤ u * dist2 p (0, 0) := by
  have hu := u_nonneg h
  unfold dist2
  rw [← Real.sqrt_sq hu, ← Real.sqrt_mul (sq_nonneg u)]
  apply Real.sqrt_le_sqrt
  have s : ∀ x : ℝ, (M.fl x - x) ^ 2 ≤ u ^ 2 * x ^ 2 := by
    intro x
    rw [← sq_abs, ← sq_abs x, ← mul_pow]
    exact pow_le_pow_left₀ (abs_nonneg _) (h.near x) 2
  have := s p.1
  have := s p.2
  simp only [sub_zero]
  linarith

/-- The computed product sum. -/
private theorem dot_near (h : Sound M u w) (a x b y : ℝ) : |M.dot a x b y - (a * x + b * y)| ≤ ((1 + u) ^ 2 - 1) * (|a * x| + |b * y|) := by
  have hu := u_nonneg h.rounds
  have key : ∀ s t : ℝ, |s - a * x| ≤ u * |a * x| → |t - b * y| ≤ u * |b * y| →
      |M.fl (s + t) - (a * x + b * y)| ≤ ((1 + u) ^ 2 - 1) * (|a * x| + |b * y|) := by
    intro s t hs ht
    have h1 := h.rounds.near (s + t)
    have h2 : |s + t - (a * x + b * y)| ≤ u * (|a * x| + |b * y|) := by
      rw [show s + t - (a * x + b * y) = (s - a * x) + (t - b * y) by ring]
      exact (abs_add_le _ _).trans (by linarith)
    have h3 : |s + t| ≤ (1 + u) * (|a * x| + |b * y|) := by
      have := abs_add_le (s + t - (a * x + b * y)) (a * x + b * y)
      rw [sub_add_cancel] at this
      have := abs_add_le (a * x) (b * y)
      linarith
    have h4 := abs_sub_le (M.fl (s + t)) (s + t) (a * x + b * y)
    have h5 : u * |s + t| ≤ u * ((1 + u) * (|a * x| + |b * y|)) := mul_le_mul_of_nonneg_left h3 hu
    nlinarith
  have z : ∀ s : ℝ, |s - s| ≤ u * |s| := by
    intro s; rw [sub_self, abs_zero]; positivity
  rcases h.dots a x b y with e | e | e <;> rw [e]
  · exact key _ _ (h.rounds.near _) (h.rounds.near _)
  · exact key _ _ (z _) (h.rounds.near _)
  · exact key _ _ (h.rounds.near _) (z _)

/-- One rotated coordinate. -/
private theorem coord_near (h : Sound M u w) {c s c' s' x y L : ℝ} (hc : |c' - c| ≤ w) (hs : |s' - s| ≤ w) (h1 : |c * x| + |s * y| ≤ L) :
    |M.dot c' x s' y - (c * x + s * y)| ≤ ((1 + u) ^ 2 - 1) * L + (1 + u) ^ 2 * w * (|x| + |y|) := by
  have hu := u_nonneg h.rounds
  have hw := w_nonneg h
  have hk : 0 ≤ (1 + u) ^ 2 - 1 := by nlinarith
  have d := dot_near h c' x s' y
  have p1 : |c' * x - c * x| ≤ w * |x| := by rw [← sub_mul, abs_mul]; exact mul_le_mul_of_nonneg_right hc (abs_nonneg x)
  have p2 : |s' * y - s * y| ≤ w * |y| := by rw [← sub_mul, abs_mul]; exact mul_le_mul_of_nonneg_right hs (abs_nonneg y)
  have q1 : |c' * x| ≤ |c * x| + w * |x| := by
    have := abs_add_le (c' * x - c * x) (c * x); rw [sub_add_cancel] at this; linarith
  have q2 : |s' * y| ≤ |s * y| + w * |y| := by
    have := abs_add_le (s' * y - s * y) (s * y); rw [sub_add_cancel] at this; linarith
  have t1 := abs_sub_le (M.dot c' x s' y) (c' * x + s' * y) (c * x + s * y)
  have t2 : |c' * x + s' * y - (c * x + s * y)| ≤ w * (|x| + |y|) := by
    rw [show c' * x + s' * y - (c * x + s * y) = (c' * x - c * x) + (s' * y - s * y) by ring]
    exact (abs_add_le _ _).trans (by linarith)
  have t3 : ((1 + u) ^ 2 - 1) * (|c' * x| + |s' * y|) ≤ ((1 + u) ^ 2 - 1) * (L + w * (|x| + |y|)) := by
    apply mul_le_mul_of_nonneg_left _ hk
    linarith
  linarith

private theorem abs_dot_le {c s x y L : ℝ} (hcs : c ^ 2 + s ^ 2 = 1) (hL : 0 ≤ L) (h : x ^ 2 + y ^ 2 = L ^ 2) : |c * x| + |s * y| ≤ L := by
  rw [abs_mul, abs_mul]
  apply abs_le_of_sq_le_sq' _ hL |>.2
  have e1 := sq_abs c; have e2 := sq_abs s; have e3 := sq_abs x; have e4 := sq_abs y
  nlinarith [sq_nonneg (|c| * |y| - |s| * |x|)]

private theorem two_coords {A B C : ℝ} (hA : 0 ≤ A) (hC : 0 ≤ C) (h1 : B ^ 2 ≤ 2 * C ^ 2) (h2 : B ≤ 2 * C) :
    (A + B) ^ 2 + (A + B) ^ 2 ≤ (2 * (A + C)) ^ 2 := by
  nlinarith [mul_le_mul_of_nonneg_left h2 hA, mul_nonneg hA hC, sq_nonneg A, sq_nonneg C]

private theorem square_le {W S L : ℝ} (hS : S ^ 2 ≤ 2 * L ^ 2) : (W * S) ^ 2 ≤ 2 * (W * L) ^ 2 := by
  rw [mul_pow, mul_pow]
  have := mul_le_mul_of_nonneg_left hS (sq_nonneg W)
  linarith

private theorem twice_le {B C : ℝ} (hC : 0 ≤ C) (h1 : B ^ 2 ≤ 2 * C ^ 2) : B ≤ 2 * C :=
  (abs_le_of_sq_le_sq' (by nlinarith [sq_nonneg C]) (by linarith)).2

theorem rotPt_near (h : Sound M u w) (a : ℝ) (p : Pt) :
    dist2 (rotPt M (M.cos a) (M.sin a) p) (rot a p) ≤ unit u w * dist2 p (0, 0) := by
  have hu := u_nonneg h.rounds
  have hw := w_nonneg h
  obtain ⟨x, y⟩ := p
  have hL : 0 ≤ dist2 (x, y) (0, 0) := dist2_nonneg _ _
  have hLe : x ^ 2 + y ^ 2 = dist2 (x, y) (0, 0) ^ 2 := by
    unfold dist2; rw [Real.sq_sqrt (by positivity)]; simp
  set L := dist2 (x, y) (0, 0)
  have cs := Real.cos_sq_add_sin_sq a
  have a1 := abs_dot_le cs hL hLe
  have a2 := abs_dot_le (show Real.sin a ^ 2 + Real.cos a ^ 2 = 1 by linarith) hL hLe
  have b1 := coord_near h (h.cosine a) (show |-M.sin a - -Real.sin a| ≤ w by rw [← abs_neg]; convert h.sine a using 2; ring) (x := x) (y := y)
    (show |Real.cos a * x| + |-Real.sin a * y| ≤ L by rw [neg_mul, abs_neg]; exact a1)
  have b2 := coord_near h (h.sine a) (h.cosine a) (x := x) (y := y) a2
  have hS : (|x| + |y|) ^ 2 ≤ 2 * L ^ 2 := by
    have e3 := sq_abs x; have e4 := sq_abs y
    nlinarith [sq_nonneg (|x| - |y|)]
  have hS0 : 0 ≤ |x| + |y| := by positivity
  set S := |x| + |y|
  have hk : 0 ≤ (1 + u) ^ 2 - 1 := by nlinarith
  have hA0 : 0 ≤ ((1 + u) ^ 2 - 1) * L := mul_nonneg hk hL
  have hC0 : 0 ≤ (1 + u) ^ 2 * w * L := by positivity
  have hBC := square_le (W := (1 + u) ^ 2 * w) hS
  have hu' : unit u w * L = 2 * (((1 + u) ^ 2 - 1) * L + (1 + u) ^ 2 * w * L) := by rw [unit]; ring
  generalize ((1 + u) ^ 2 - 1) * L = A at *
  generalize (1 + u) ^ 2 * w * L = C at *
  generalize (1 + u) ^ 2 * w * S = B at *
  have hBC' := twice_le hC0 hBC
  rw [hu', dist2]
  apply Real.sqrt_le_iff.2 ⟨by linarith, ?_⟩
  simp only [rotPt, rot]
  have g1 : (M.dot (M.cos a) x (-M.sin a) y - (Real.cos a * x - Real.sin a * y)) ^ 2 ≤ (A + B) ^ 2 := by
    rw [show Real.cos a * x - Real.sin a * y = Real.cos a * x + -Real.sin a * y by ring, ← sq_abs]
    exact pow_le_pow_left₀ (abs_nonneg _) b1 2
  have g2 : (M.dot (M.sin a) x (M.cos a) y - (Real.sin a * x + Real.cos a * y)) ^ 2 ≤ (A + B) ^ 2 := by
    rw [← sq_abs]
    exact pow_le_pow_left₀ (abs_nonneg _) b2 2
  exact (add_le_add g1 g2).trans (two_coords hA0 hC0 hBC hBC')

private theorem rot_zero (a : ℝ) : rot a (0, 0) = (0, 0) := by simp [rot]

/-- The rounded call is near the exact one. -/
private theorem step_near (h : Sound M u w) (c : Call) (q : Pt) : dist2 (fp M c q) (ex c q) ≤ unit u w * dist2 (ex c q) (0, 0) := by
  have plain : ∀ p : Pt, dist2 (M.fl p.1, M.fl p.2) p ≤ unit u w * dist2 p (0, 0) := fun p =>
    (round_pt h.rounds p).trans (mul_le_mul_of_nonneg_right (u_le_unit h) (dist2_nonneg _ _))
  cases c with
  | translate v => exact plain (q + v)
  | scale f about =>
    have := plain (f * q.1, f * q.2)
    simpa [fp, ex, mul_comm] using this
  | reflect =>
    have := plain (-q.1, -q.2)
    simpa [fp, ex] using this
  | rotate a =>
    have := rotPt_near h a q
    have e : dist2 (rot a q) (0, 0) = dist2 q (0, 0) := by
      conv_lhs => rw [← rot_zero a]
      exact dist2_rot a q (0, 0)
    rw [← e] at this
    exact this

private theorem step_lip (c : Call) (p q : Pt) : dist2 (ex c p) (ex c q) ≤ stretch c * dist2 p q := by
  cases c with
  | translate v => simp [ex, stretch, dist2]
  | scale f about =>
    have e : dist2 (f * p.1, f * p.2) (f * q.1, f * q.2) = |f| * dist2 p q := by
      unfold dist2
      rw [← Real.sqrt_sq_eq_abs, ← Real.sqrt_mul (sq_nonneg f)]
      congr 1; ring
    simp only [ex, stretch, e]
    exact mul_le_mul_of_nonneg_right (le_max_right _ _) (dist2_nonneg _ _)
  | reflect =>
    simp only [ex, stretch, one_mul, dist2]
    apply le_of_eq; congr 1; ring
  | rotate a => simp [ex, stretch, dist2_rot]

private noncomputable def exs : List Call → Pt → Pt
  | [], p => p
  | c :: cs, p => exs cs (ex c p)

private noncomputable def fps (M : Machine) : List Call → Pt → Pt
  | [], p => p
  | c :: cs, p => fps M cs (fp M c p)

private theorem path_near (h : Sound M u w) (R : ℝ) (cs : List Call) (p q : Pt) (E : ℝ) (hE : 0 ≤ E) (hpq : dist2 q p ≤ E)
    (hR : ∀ k, k ≤ cs.length → dist2 (exs (cs.take k) p) (0, 0) ≤ R) :
    dist2 (fps M cs q) (exs cs p) ≤ growth cs * ((1 + unit u w) ^ cs.length * (E + R) - R) := by
  induction cs generalizing p q E with
  | nil => simpa [fps, exs, growth] using hpq
  | cons c cs ih =>
    have hd := unit_nonneg h
    set δ := unit u w with hδ
    have R1 : dist2 (ex c p) (0, 0) ≤ R := by simpa [exs] using hR 1 (by simp)
    have hR0 : 0 ≤ R := (dist2_nonneg _ _).trans R1
    have hl := stretch_ge c
    set L := stretch c with hL
    have hx : dist2 (ex c q) (ex c p) ≤ L * E := (step_lip c q p).trans (mul_le_mul_of_nonneg_left hpq (by linarith))
    have hy : dist2 (ex c q) (0, 0) ≤ R + L * E := (dist2_triangle _ (ex c p) _).trans (by linarith)
    have hz : dist2 (fp M c q) (ex c p) ≤ δ * (R + L * E) + L * E := by
      refine (dist2_triangle _ (ex c q) _).trans (add_le_add ((step_near h c q).trans ?_) hx)
      exact mul_le_mul_of_nonneg_left hy hd
    have hE' : 0 ≤ δ * (R + L * E) + L * E := by positivity
    have := ih (ex c p) (fp M c q) _ hE' hz (by
      intro k hk
      have := hR (k + 1) (by simpa using hk)
      simpa [exs] using this)
    refine this.trans ?_
    have hg := growth_ge cs
    have e : growth (c :: cs) = L * growth cs := by simp [growth, hL]
    rw [e, List.length_cons, pow_succ]
    have hp : 1 ≤ (1 + δ) ^ cs.length * (1 + δ) := by
      rw [← pow_succ]; exact one_le_pow₀ (by linarith)
    rw [show (1 + δ) ^ cs.length * (δ * (R + L * E) + L * E + R) = (1 + δ) ^ cs.length * (1 + δ) * (L * E + R) by ring]
    set D := (1 + δ) ^ cs.length * (1 + δ)
    rw [show L * growth cs * (D * (E + R) - R) = growth cs * (L * (D * (E + R) - R)) by ring]
    apply mul_le_mul_of_nonneg_left _ (by linarith)
    nlinarith [mul_nonneg (sub_nonneg.2 hl) (mul_nonneg (sub_nonneg.2 hp) hR0)]

private theorem call_plain (c : Call) (hc : ∀ f, c ≠ .scale f true) (P : Profile) (hP : P.Uniform) :
    (∃ Q, call M c P = .ok Q ∧ Q.Uniform ∧ Q.upper = P.upper.map (fp M c) ∧ Q.lower = P.lower.map (fp M c)) ∧
    ∃ X, exactCall c P = .ok X ∧ X.Uniform ∧ X.upper = P.upper.map (ex c) ∧ X.lower = P.lower.map (ex c) := by
  cases c with
  | translate v =>
    exact ⟨⟨_, rfl, translate_maps v P hP⟩, _, rfl, by simpa [Profile.Uniform, Profile.translate] using hP, P.translate_upper v, P.translate_lower v⟩
  | scale f about =>
    cases about
    · exact ⟨⟨_, rfl, mulAll_maps f P hP⟩, _, rfl, by simpa [Profile.Uniform, Profile.mulAll] using hP, P.mulAll_upper f, P.mulAll_lower f⟩
    · exact absurd rfl (hc f)
  | reflect =>
    exact ⟨⟨_, rfl, mulAll_maps (-1) P hP⟩, _, rfl, by simpa [Profile.Uniform, Profile.reflect] using hP, P.reflect_upper, P.reflect_lower⟩
  | rotate a =>
    obtain ⟨X, hX, a1, a2, a3, _⟩ := P.rotate_uniform hP a
    exact ⟨rotate_maps a P hP, X, hX, a3, a1, a2⟩

private theorem calls_plain (cs : List Call) (hc : ∀ c ∈ cs, ∀ f, c ≠ .scale f true) (P : Profile) (hP : P.Uniform) :
    ∃ Q, calls M cs P = .ok Q ∧ Q.points = P.points.map (fps M cs) := by
  induction cs generalizing P with
  | nil => exact ⟨P, rfl, by simp [fps]⟩
  | cons c cs ih =>
    obtain ⟨Q, hQ, hU, a, b⟩ := (call_plain (M := M) c (hc c (by simp)) P hP).1
    obtain ⟨Q', hQ', e⟩ := ih (fun c' h' => hc c' (by simp [h'])) Q hU
    refine ⟨Q', by simp only [calls, hQ, bind, Except.bind, hQ'], ?_⟩
    rw [e]
    simp only [Profile.points, a, b, ← List.map_append, List.map_map]
    rfl

private theorem exactCalls_plain (cs : List Call) (hc : ∀ c ∈ cs, ∀ f, c ≠ .scale f true) (P : Profile) (hP : P.Uniform) :
    ∃ Q, exactCalls cs P = .ok Q ∧ Q.points = P.points.map (exs cs) := by
  induction cs generalizing P with
  | nil => exact ⟨P, rfl, by simp [exs]⟩
  | cons c cs ih =>
    obtain ⟨Q, hQ, hU, a, b⟩ := (call_plain (M := ⟨id, fun a x b y => a * x + b * y, Real.cos, Real.sin⟩) c (hc c (by simp)) P hP).2
    obtain ⟨Q', hQ', e⟩ := ih (fun c' h' => hc c' (by simp [h'])) Q hU
    refine ⟨Q', by simp only [exactCalls, hQ, bind, Except.bind, hQ'], ?_⟩
    rw [e]
    simp only [Profile.points, a, b, ← List.map_append, List.map_map]
    rfl

/-- **C95** Accuracy of a history of translations, rotations, reflections and scalings about the origin: if the exact points stay
within `R` of the origin, the computed ones are off by at most `R ((1 + δ)^n - 1)` times the growth by scaling, where `δ` is
the unit of one step and `n` the number of calls. -/
theorem C95_error (h : Sound M u w) (cs : List Call) (hc : ∀ c ∈ cs, ∀ f, c ≠ .scale f true) (P : Profile) (hP : P.Uniform) (R : ℝ)
    (hR : ∀ (k : Nat) (X : Profile), exactCalls (cs.take k) P = .ok X → ∀ p ∈ X.points, dist2 p (0, 0) ≤ R) :
    ∃ Q X, calls M cs P = .ok Q ∧ exactCalls cs P = .ok X ∧ Q.points.length = X.points.length ∧
      ∀ (i : Nat) (a b : Pt), Q.points[i]? = some a → X.points[i]? = some b →
        dist2 a b ≤ growth cs * R * ((1 + unit u w) ^ cs.length - 1) := by
  obtain ⟨Q, hQ, eQ⟩ := calls_plain (M := M) cs hc P hP
  obtain ⟨X, hX, eX⟩ := exactCalls_plain cs hc P hP
  refine ⟨Q, X, hQ, hX, by rw [eQ, eX]; simp, ?_⟩
  intro i a b ha hb
  rw [eQ, List.getElem?_map] at ha
  rw [eX, List.getElem?_map] at hb
  rcases hp : P.points[i]? with _ | p
  · rw [hp] at ha; cases ha
  rw [hp] at ha hb
  obtain rfl := Option.some.inj ha
  obtain rfl := Option.some.inj hb
  have := path_near h R cs p p 0 le_rfl (by simp [dist2]) (by
    intro k hk
    obtain ⟨Y, hY, eY⟩ := exactCalls_plain (cs.take k) (fun c hc' => hc c (List.mem_of_mem_take hc')) P hP
    refine hR k Y hY _ ?_
    rw [eY]
    exact List.mem_map.2 ⟨p, List.mem_of_getElem? hp, rfl⟩)
  refine this.trans (le_of_eq ?_)
  ring

/-- **C95** In double precision (unit `2^-53`, library functions good to `2^-52`) up to a thousand calls cost at most
`10^-12` of the extent. -/
theorem C95_double (hu : Sound M u w) (u1 : u ≤ (1 / 2) ^ 53) (w1 : w ≤ (1 / 2) ^ 52) (cs : List Call) (hn : cs.length ≤ 1000)
    (hc : ∀ c ∈ cs, ∀ f, c ≠ .scale f true) (P : Profile) (hP : P.Uniform) (R : ℝ) (hR0 : 0 ≤ R)
    (hR : ∀ (k : Nat) (X : Profile), exactCalls (cs.take k) P = .ok X → ∀ p ∈ X.points, dist2 p (0, 0) ≤ R) :
    ∃ Q X, calls M cs P = .ok Q ∧ exactCalls cs P = .ok X ∧ Q.points.length = X.points.length ∧
      ∀ (i : Nat) (a b : Pt), Q.points[i]? = some a → X.points[i]? = some b → dist2 a b ≤ growth cs * R * 10⁻¹ ^ 12 := by
  obtain ⟨Q, X, hQ, hX, hl, hd⟩ := C95_error hu cs hc P hP R hR
  refine ⟨Q, X, hQ, hX, hl, fun i a b ha hb => (hd i a b ha hb).trans ?_⟩
  have hg := growth_ge cs
  apply mul_le_mul_of_nonneg_left _ (mul_nonneg (by linarith) hR0)
  have hd0 := unit_nonneg hu
  have hd1 : unit u w ≤ 9 * 10⁻¹ ^ 16 := by
    have h0 := u_nonneg hu.rounds
    have h1 := w_nonneg hu
    unfold unit
    have a1 : (1 + u) ^ 2 ≤ (1 + (1 / 2) ^ 53) ^ 2 := pow_le_pow_left₀ (by linarith) (by linarith) 2
    have a2 : (1 + u) ^ 2 * (1 + w) ≤ (1 + (1 / 2) ^ 53) ^ 2 * (1 + (1 / 2) ^ 52) :=
      mul_le_mul a1 (by linarith) (by linarith) (by positivity)
    norm_num at a2 ⊢
    linarith
  have e1 : (1 + unit u w) ^ cs.length ≤ (1 + 9 * 10⁻¹ ^ 16) ^ 1000 :=
    (pow_le_pow_left₀ (by linarith) (by linarith) _).trans (pow_le_pow_right₀ (by norm_num) hn)
  have e2 : ((1 : ℝ) + 9 * 10⁻¹ ^ 16) ^ 1000 ≤ 1 + 10⁻¹ ^ 12 := by
    have b : 1 + (1000 : ℕ) * (-(9 * 10⁻¹ ^ 16)) ≤ (1 + -(9 * 10⁻¹ ^ 16) : ℝ) ^ 1000 := one_add_mul_le_pow (by norm_num) 1000
    have c : ((1 : ℝ) + 9 * 10⁻¹ ^ 16) ^ 1000 * (1 + -(9 * 10⁻¹ ^ 16)) ^ 1000 ≤ 1 := by
      rw [← mul_pow]
      exact pow_le_one₀ (by norm_num) (by norm_num)
    have d : (0 : ℝ) < ((1 : ℝ) + 9 * 10⁻¹ ^ 16) ^ 1000 := by positivity
    generalize ((1 : ℝ) + 9 * 10⁻¹ ^ 16) ^ 1000 = A at *
    generalize (1 + -(9 * 10⁻¹ ^ 16) : ℝ) ^ 1000 = B at *
    have e : A * (1 + (1000 : ℕ) * (-(9 * 10⁻¹ ^ 16))) ≤ 1 := (mul_le_mul_of_nonneg_left b d.le).trans c
    norm_num at e ⊢
    linarith
  exact sub_le_iff_le_add'.2 (e1.trans e2)

/-- **C95** Translating there and back: every coordinate is off by at most `u (|x| + (1 + u) |x + v|)`. -/
theorem C95_back (h : Rounds M.fl u) (v : Pt) (P : Profile) (hP : P.Uniform) (i : Nat) (p q : Pt)
    (hp : P.points[i]? = some p) (hq : (translate M (-v) (translate M v P)).points[i]? = some q) :
    |q.1 - p.1| ≤ u * (|p.1| + (1 + u) * |p.1 + v.1|) ∧ |q.2 - p.2| ≤ u * (|p.2| + (1 + u) * |p.2 + v.2|) := by
  obtain ⟨U1, a1, b1⟩ := translate_maps (M := M) v P hP
  obtain ⟨U2, a2, b2⟩ := translate_maps (M := M) (-v) _ U1
  have e : (translate M (-v) (translate M v P)).points = P.points.map fun p : Pt =>
      (M.fl (M.fl (p.1 + v.1) + (-v).1), M.fl (M.fl (p.2 + v.2) + (-v).2)) := by
    simp only [Profile.points, a2, b2, a1, b1, List.map_map, List.map_append]
    rfl
  rw [e, List.getElem?_map, hp] at hq
  obtain rfl := Option.some.inj hq
  have hu := u_nonneg h
  have key : ∀ x v : ℝ, |M.fl (M.fl (x + v) + -v) - x| ≤ u * (|x| + (1 + u) * |x + v|) := by
    intro x v
    have h1 := h.near (x + v)
    have h2 := h.near (M.fl (x + v) + -v)
    have h3 : |M.fl (x + v) + -v - x| ≤ u * |x + v| := by
      rw [show M.fl (x + v) + -v - x = M.fl (x + v) - (x + v) by ring]; exact h1
    have h4 : |M.fl (x + v) + -v| ≤ |x| + u * |x + v| := by
      have := abs_add_le (M.fl (x + v) + -v - x) x
      rw [sub_add_cancel] at this
      linarith
    have h5 := abs_sub_le (M.fl (M.fl (x + v) + -v)) (M.fl (x + v) + -v) x
    have h6 := mul_le_mul_of_nonneg_left h4 hu
    nlinarith
  exact ⟨key _ _, key _ _⟩

/-- **C95** Whatever the precision `p ≥ 2`, moving a profile can merge two of its points: different abscissae become equal and
moving back does not separate them. -/
theorem C95_merge (p : ℕ) (hp : 2 ≤ p) (M : Machine) (hM : M.fl = Chop.chop p) :
    ∃ (P : Profile) (v : Pt), P.Uniform ∧ Representable M P ∧ P.xup.Pairwise (· < ·) ∧
      ¬ (translate M v P).xup.Pairwise (· < ·) ∧ translate M (-v) (translate M v P) ≠ P := by
  have hs : (0 : ℝ) < (2 : ℝ) ^ (0 - ((p : ℤ) - 1)) := zpow_pos (by norm_num) _
  have hs1 : (2 : ℝ) ^ (0 - ((p : ℤ) - 1)) ≤ 1 / 2 := by
    rw [show (1 / 2 : ℝ) = (2 : ℝ) ^ (-1 : ℤ) by norm_num]
    exact zpow_le_zpow_right₀ (by norm_num) (by omega)
  have hpow : ((2 : ℤ) ^ (p - 1) : ℤ) * (2 : ℝ) ^ (0 - ((p : ℤ) - 1)) = 1 := by
    push_cast
    rw [← zpow_natCast, ← zpow_add₀ (by norm_num), show ((p - 1 : ℕ) : ℤ) + (0 - ((p : ℤ) - 1)) = 0 by omega, zpow_zero]
  have hpow2 : ((2 : ℤ) ^ (p - 2) : ℤ) * (2 : ℝ) ^ (1 - ((p : ℤ) - 1)) = 1 := by
    push_cast
    rw [← zpow_natCast, ← zpow_add₀ (by norm_num), show ((p - 2 : ℕ) : ℤ) + (1 - ((p : ℤ) - 1)) = 0 by omega, zpow_zero]
  have hdouble : (2 : ℝ) ^ (1 - ((p : ℤ) - 1)) = 2 * (2 : ℝ) ^ (0 - ((p : ℤ) - 1)) := by
    rw [show (1 : ℤ) - ((p : ℤ) - 1) = 1 + (0 - ((p : ℤ) - 1)) by ring, zpow_add₀ (by norm_num), zpow_one]
  have r1 : M.fl 1 = 1 := by
    rw [hM]
    exact Chop.chop_exact (e := 0) (k := (2 : ℤ) ^ (p - 1)) (by norm_num) (by norm_num) hpow.symm
  have r2 : M.fl (1 + (2 : ℝ) ^ (0 - ((p : ℤ) - 1))) = 1 + (2 : ℝ) ^ (0 - ((p : ℤ) - 1)) := by
    rw [hM]
    refine Chop.chop_exact (e := 0) (k := (2 : ℤ) ^ (p - 1) + 1) ?_ ?_ ?_
    · rw [zpow_zero]; linarith
    · rw [zero_add, zpow_one]; linarith
    · push_cast at hpow ⊢; rw [add_mul, hpow, one_mul]
  have r3 : M.fl (1 + 2) = 3 := by
    rw [hM]
    have e : ((3 * (2 : ℤ) ^ (p - 2) : ℤ) : ℝ) * (2 : ℝ) ^ (1 - ((p : ℤ) - 1)) = 3 := by
      rw [Int.cast_mul, mul_assoc, hpow2]; norm_num
    rw [show (1 : ℝ) + 2 = 3 by norm_num]
    exact Chop.chop_exact (e := 1) (k := 3 * (2 : ℤ) ^ (p - 2)) (by norm_num) (by norm_num) e.symm
  have r4 : M.fl (1 + (2 : ℝ) ^ (0 - ((p : ℤ) - 1)) + 2) = 3 := by
    rw [hM]
    have e : ((3 * (2 : ℤ) ^ (p - 2) : ℤ) : ℝ) * (2 : ℝ) ^ (1 - ((p : ℤ) - 1)) = 3 := by
      rw [Int.cast_mul, mul_assoc, hpow2]; norm_num
    rw [Chop.chop_between (e := 1) (k := 3 * (2 : ℤ) ^ (p - 2))]
    · exact e
    · rw [zpow_one]; linarith
    · rw [show (2 : ℝ) ^ ((1 : ℤ) + 1) = 4 by norm_num]; linarith
    · rw [e]; linarith
    · rw [add_mul, e, one_mul, hdouble]; linarith
  have r0 : M.fl 0 = 0 := fl_zero (u := (1 / 2) ^ (p - 1)) (by rw [hM]; exact Chop.rounds (by omega))
  generalize (2 : ℝ) ^ (0 - ((p : ℤ) - 1)) = s at *
  refine ⟨{ xup := [1, 1 + s], xdown := [1, 1 + s], yup := [0, 0], ydown := [0, 0] }, (2, 0), ⟨rfl, rfl, rfl⟩, ?_, ?_, ?_, ?_⟩
  · refine ⟨?_, ?_, ?_, ?_⟩ <;> simp [r0, r1, r2]
  · simpa using hs
  · simp [translate, r3, r4]
  · intro hc
    have := congrArg Profile.xup hc
    simp [translate, r3, r4] at this
    linarith [this.1, this.2]

/-! ### The unit conversions of `export_ppg` -/

theorem rel_fl (h : Rounds M.fl u) {x y : ℝ} {k : ℕ} (hy : |y - x| ≤ ((1 + u) ^ k - 1) * |x|) :
    |M.fl y - x| ≤ ((1 + u) ^ (k + 1) - 1) * |x| := by
  have hu := u_nonneg h
  have h1 := h.near y
  have h2 : |y| ≤ (1 + u) ^ k * |x| := by
    have := abs_add_le (y - x) x
    rw [sub_add_cancel] at this
    linarith
  have h3 := abs_sub_le (M.fl y) y x
  have h4 := mul_le_mul_of_nonneg_left h2 hu
  rw [pow_succ]
  nlinarith

theorem rel_mul {x y c : ℝ} {K : ℝ} (hy : |y - x| ≤ K * |x|) : |y * c - x * c| ≤ K * |x * c| := by
  rw [← sub_mul, abs_mul, abs_mul, ← mul_assoc]
  exact mul_le_mul_of_nonneg_right hy (abs_nonneg c)

theorem rel_scale (h : Rounds M.fl u) {D x : ℝ} (hD : D ≠ 0) {k : ℕ} {y : ℝ} (hy : |y - x| ≤ ((1 + u) ^ k - 1) * |x|) :
    |M.fl (M.fl (y / D) * D) - x| ≤ ((1 + u) ^ (k + 2) - 1) * |x| := by
  have h1 := rel_fl h (rel_mul (c := D⁻¹) hy)
  have h2 := rel_fl h (rel_mul (c := D) h1)
  rw [mul_assoc, inv_mul_cancel₀ hD, mul_one] at h2
  rw [div_eq_mul_inv]
  exact h2

private theorem rel_radius (h : Rounds M.fl u) {D x : ℝ} (hD : D ≠ 0) {k : ℕ} {y : ℝ} (hy : |y - x| ≤ ((1 + u) ^ k - 1) * |x|) :
    |M.fl (M.fl (M.fl (M.fl (y * 2) / D) * D) / 2) - x| ≤ ((1 + u) ^ (k + 4) - 1) * |x| := by
  have h1 := rel_fl h (rel_mul (c := 2) hy)
  have h2 := rel_scale h hD h1
  have h3 := rel_fl h (rel_mul (c := 2⁻¹) h2)
  rw [mul_assoc, mul_inv_cancel₀ (by norm_num), mul_one] at h3
  rw [div_eq_mul_inv _ (2 : ℝ)]
  exact h3

private theorem exports_maps (D : ℝ) (n : ℕ) (b : Blade) :
    (exports M D n b).radii = b.radii.map ((fun x => M.fl (M.fl (M.fl (M.fl (x * 2) / D) * D) / 2))^[n]) ∧
    (exports M D n b).chord = b.chord.map ((fun x => M.fl (M.fl (x / D) * D))^[n]) ∧
    (exports M D n b).pitch = b.pitch.map ((fun x => M.fl (M.fl (x / D) * D))^[n]) ∧
    (exports M D n b).rake = b.rake.map ((fun x => M.fl (M.fl (x / D) * D))^[n]) ∧ (exports M D n b).skew = b.skew := by
  induction n generalizing b with
  | zero => simp [exports]
  | succ n ih =>
    obtain ⟨a1, a2, a3, a4, a5⟩ := ih (normToAbs M D (absToNorm M D b))
    refine ⟨?_, ?_, ?_, ?_, by rw [exports, a5]; rfl⟩
    · rw [exports, a1]; simp [normToAbs, absToNorm, Function.comp_def]
    · rw [exports, a2]; simp [normToAbs, absToNorm, Function.comp_def]
    · rw [exports, a3]; simp [normToAbs, absToNorm, Function.comp_def]
    · rw [exports, a4]; simp [normToAbs, absToNorm, Function.comp_def]

private theorem iterate_near {f : ℝ → ℝ} {m : ℕ} (hf : ∀ (x y : ℝ) (k : ℕ), |y - x| ≤ ((1 + u) ^ k - 1) * |x| → |f y - x| ≤ ((1 + u) ^ (k + m) - 1) * |x|)
    (n : ℕ) (x : ℝ) : |f^[n] x - x| ≤ ((1 + u) ^ (m * n) - 1) * |x| := by
  induction n with
  | zero => simp
  | succ n ih =>
    rw [Function.iterate_succ_apply']
    exact hf _ _ _ ih

/-- **C95** Exporting `n` times with `export_ppg` converts the parameters of the blade forth and back `n` times: the skew angles are
untouched, chords, pitches and rakes drift by at most the factor `(1 + u)^(2n)`, radii by `(1 + u)^(4n)`. -/
theorem C95_exports (h : Rounds M.fl u) (D : ℝ) (hD : D ≠ 0) (n : ℕ) (b : Blade) :
    (exports M D n b).skew = b.skew ∧
    (∀ (i : Nat) (x y : ℝ), b.radii[i]? = some x → (exports M D n b).radii[i]? = some y → |y - x| ≤ ((1 + u) ^ (4 * n) - 1) * |x|) ∧
    (∀ (i : Nat) (x y : ℝ), b.chord[i]? = some x → (exports M D n b).chord[i]? = some y → |y - x| ≤ ((1 + u) ^ (2 * n) - 1) * |x|) ∧
    (∀ (i : Nat) (x y : ℝ), b.pitch[i]? = some x → (exports M D n b).pitch[i]? = some y → |y - x| ≤ ((1 + u) ^ (2 * n) - 1) * |x|) ∧
    (∀ (i : Nat) (x y : ℝ), b.rake[i]? = some x → (exports M D n b).rake[i]? = some y → |y - x| ≤ ((1 + u) ^ (2 * n) - 1) * |x|) := by
  obtain ⟨a1, a2, a3, a4, a5⟩ := exports_maps (M := M) D n b
  have g : ∀ {f : ℝ → ℝ} {l l' : Arr} {m : ℕ}, l' = l.map (f^[n]) →
      (∀ (x y : ℝ) (k : ℕ), |y - x| ≤ ((1 + u) ^ k - 1) * |x| → |f y - x| ≤ ((1 + u) ^ (k + m) - 1) * |x|) →
      ∀ (i : Nat) (x y : ℝ), l[i]? = some x → l'[i]? = some y → |y - x| ≤ ((1 + u) ^ (m * n) - 1) * |x| := by
    intro f l l' m e hf i x y hx hy
    rw [e, List.getElem?_map, hx] at hy
    obtain rfl := Option.some.inj hy
    exact iterate_near hf n x
  exact ⟨a5, g a1 fun x y k => rel_radius h hD, g a2 fun x y k => rel_scale h hD, g a3 fun x y k => rel_scale h hD, g a4 fun x y k => rel_scale h hD⟩

/-- **C95** The export does not give the blade back exactly: with truncation to any number of digits, a chord of length 1 and a
propeller of diameter 3, the chord is shorter after every positive number of exports. -/
theorem C95_drift (p : ℕ) (hp : 1 ≤ p) (M : Machine) (hM : M.fl = Chop.chop p) (n : ℕ) (hn : 1 ≤ n) (b : Blade) (i : Nat)
    (hi : b.chord[i]? = some 1) : ∃ y, (exports M 3 n b).chord[i]? = some y ∧ y < 1 := by
  obtain ⟨-, a2, -⟩ := exports_maps (M := M) 3 n b
  refine ⟨(fun x => M.fl (M.fl (x / 3) * 3))^[n] 1, by rw [a2, List.getElem?_map, hi]; rfl, ?_⟩
  obtain ⟨k, rfl⟩ : ∃ k, n = k + 1 := ⟨n - 1, by omega⟩
  clear hn a2 hi
  have step : ∀ x : ℝ, 0 ≤ x → 0 ≤ M.fl (M.fl (x / 3) * 3) ∧ M.fl (M.fl (x / 3) * 3) ≤ x := by
    intro x hx
    rw [hM]
    have h1 : 0 ≤ Chop.chop p (x / 3) := Chop.chop_nonneg hp (by positivity)
    have h2 := Chop.chop_le (p := p) (show 0 ≤ x / 3 by positivity)
    have h3 := Chop.chop_le (p := p) (show 0 ≤ Chop.chop p (x / 3) * 3 by positivity)
    exact ⟨Chop.chop_nonneg hp (by positivity), by linarith⟩
  have : 0 ≤ (fun x => M.fl (M.fl (x / 3) * 3))^[k + 1] 1 ∧ (fun x => M.fl (M.fl (x / 3) * 3))^[k + 1] 1 < 1 := by
    induction k with
    | zero =>
      refine ⟨(step 1 (by norm_num)).1, ?_⟩
      simp only [zero_add, Function.iterate_one]
      rw [hM]
      have h1 : 0 ≤ Chop.chop p (1 / 3) := Chop.chop_nonneg hp (by positivity)
      exact (Chop.chop_le (p := p) (by positivity)).trans_lt Chop.chop_third
    | succ k ih =>
      rw [Function.iterate_succ_apply']
      obtain ⟨s1, s2⟩ := step _ ih.1
      exact ⟨s1, s2.trans_lt ih.2⟩
  exact this.2

/-! ### A machine -/

/-- Truncating arithmetic with `p` binary digits is sound. -/
theorem chop_sound (p : ℕ) (hp : 1 ≤ p) :
    Sound ⟨Chop.chop p, fun a x b y => Chop.chop p (Chop.chop p (a * x) + Chop.chop p (b * y)), fun a => Chop.chop p (Real.cos a),
      fun a => Chop.chop p (Real.sin a)⟩ ((1 / 2) ^ (p - 1)) ((1 / 2) ^ (p - 1)) := by
  have h := Chop.rounds hp
  have hu : (0 : ℝ) ≤ (1 / 2) ^ (p - 1) := by positivity
  refine ⟨h, fun a x b y => Or.inl rfl, fun a => (h.near _).trans ?_, fun a => (h.near _).trans ?_⟩
  · calc _ ≤ (1 / 2 : ℝ) ^ (p - 1) * 1 := mul_le_mul_of_nonneg_left (Real.abs_cos_le_one a) hu
      _ = _ := mul_one _
  · calc _ ≤ (1 / 2 : ℝ) ^ (p - 1) * 1 := mul_le_mul_of_nonneg_left (Real.abs_sin_le_one a) hu
      _ = _ := mul_one _

/-- A triangle and a history. -/
private def tri : Profile := { xup := [0, 1, 2], xdown := [0, 1, 2], yup := [0, 1, 0], ydown := [0, -1, 0] }

private theorem tri_uniform : tri.Uniform := ⟨rfl, rfl, rfl⟩

example : ∃ (M : Machine) (u w : ℝ) (Q : Profile), Sound M u w ∧ u ≤ (1 / 2) ^ 53 ∧
    calls M [.scale 0.3 true, .rotate 0.7, .translate (5, 1), .reflect, .scale 2 true] tri = .ok Q ∧ Q.upper.head? = Q.lower.head? ∧
    Q.upper.getLast? = Q.lower.getLast? := by
  have hs := chop_sound 54 (by norm_num)
  obtain ⟨Q, a, b, hQ, -, e1, e2, e3, e4⟩ := C95_closed hs.rounds [.scale 0.3 true, .rotate 0.7, .translate (5, 1), .reflect, .scale 2 true] tri
    tri_uniform (0, 0) (2, 0) ⟨rfl, rfl, rfl, rfl⟩
  exact ⟨_, _, _, Q, hs, le_rfl, hQ, by rw [e1, e3], by rw [e2, e4]⟩

example (M : Machine) (u w : ℝ) (h : Sound M u w) : ∃ Q X, calls M [.translate (1, 0), .reflect, .rotate 0.3] tri = .ok Q ∧
    exactCalls [.translate (1, 0), .reflect, .rotate 0.3] tri = .ok X ∧
      ∀ (i : Nat) (a b : Pt), Q.points[i]? = some a → X.points[i]? = some b → dist2 a b ≤ 3 * ((1 + unit u w) ^ 3 - 1) := by
  have hc : ∀ c ∈ [Call.translate (1, 0), .reflect, .rotate 0.3], ∀ f, c ≠ Call.scale f true := by
    intro c hc f
    simp only [List.mem_cons, List.not_mem_nil, or_false] at hc
    rcases hc with rfl | rfl | rfl <;> simp
  have len : ∀ p ∈ tri.points, dist2 p (0, 0) ≤ 3 ∧ dist2 (p + (1, 0)) (0, 0) ≤ 3 := by
    intro p hp
    simp [tri, Profile.points, Profile.upper, Profile.lower] at hp
    rcases hp with rfl | rfl | rfl | rfl | rfl | rfl <;> constructor <;> unfold dist2 <;> rw [Real.sqrt_le_iff] <;> norm_num
  obtain ⟨Q, X, hQ, hX, -, hd⟩ := C95_error h [.translate (1, 0), .reflect, .rotate 0.3] hc tri tri_uniform 3 (by
    intro k X hX q hq
    obtain ⟨X', hX', e⟩ := exactCalls_plain (List.take k [.translate (1, 0), .reflect, .rotate 0.3])
      (fun c h' => hc c (List.mem_of_mem_take h')) tri tri_uniform
    obtain rfl := Except.ok.inj (hX'.symm.trans hX)
    rw [e] at hq
    obtain ⟨p, hp, rfl⟩ := List.mem_map.1 hq
    obtain ⟨l1, l2⟩ := len p hp
    have l3 : dist2 (-(p + (1, 0)).1, -(p + (1, 0)).2) (0, 0) ≤ 3 := by
      refine le_trans (le_of_eq ?_) l2
      unfold dist2; congr 1; simp; ring
    have l4 : dist2 (rot 0.3 (-(p + (1, 0)).1, -(p + (1, 0)).2)) (0, 0) ≤ 3 := by
      rw [← rot_zero 0.3, dist2_rot]; exact l3
    rcases k with _ | _ | _ | k
    · simpa [exs] using l1
    · simpa [exs, ex] using l2
    · simpa [exs, ex] using l3
    · simpa [exs, ex] using l4)
  refine ⟨Q, X, hQ, hX, fun i a b ha hb => (hd i a b ha hb).trans (le_of_eq ?_)⟩
  simp [growth, stretch]

example : ∃ M : Machine, ∃ P : Profile, Representable M P ∧ P.xup = [1, 2] ∧ reflect M (reflect M P) = P := by
  have h := chop_sound 10 (by norm_num)
  set M : Machine := ⟨Chop.chop 10, fun a x b y => Chop.chop 10 (Chop.chop 10 (a * x) + Chop.chop 10 (b * y)), fun a => Chop.chop 10 (Real.cos a),
      fun a => Chop.chop 10 (Real.sin a)⟩
  have r1 : M.fl 1 = 1 := Chop.chop_exact (e := 0) (k := 512) (by norm_num) (by norm_num) (by norm_num)
  have r2 : M.fl 2 = 2 := Chop.chop_exact (e := 1) (k := 512) (by norm_num) (by norm_num) (by norm_num)
  have hr : Representable M { xup := [1, 2], xdown := [1, 2], yup := [1, 1], ydown := [2, 2] } := by
    refine ⟨?_, ?_, ?_, ?_⟩ <;> simp [r1, r2]
  exact ⟨M, _, hr, rfl, (C95_reflect h.rounds _ hr).2.2⟩

example : ∃ (M : Machine) (u w : ℝ), Sound M u w ∧ u ≤ (1 / 2) ^ 53 ∧ w ≤ (1 / 2) ^ 52 ∧ 0 < u :=
  ⟨_, _, _, chop_sound 54 (by norm_num), le_rfl, pow_le_pow_of_le_one (by norm_num) (by norm_num) (by norm_num), by positivity⟩

example (b : Blade) (hb : b.chord = [1, 2]) : ∃ M : Machine, (∃ u, Rounds M.fl u) ∧ ∀ n ≥ 1, ∃ y, (exports M 3 n b).chord[0]? = some y ∧ y < 1 := by
  refine ⟨⟨Chop.chop 53, fun _ _ _ _ => 0, fun _ => 0, fun _ => 0⟩, ⟨_, Chop.rounds (by norm_num)⟩, fun n hn => ?_⟩
  exact C95_drift 53 (by norm_num) _ rfl n hn b 0 (by simp [hb])

end Rounded
end BladeX
