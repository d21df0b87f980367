import Verif.Model.RoundedCustom
import Verif.Spec.RoundedCustom
import Verif.Props.Rounded
import Verif.Lemmas.Measure

/-! # Parameters and coordinates of custom profiles in rounded arithmetic (`customprofile.py`, `baseprofile.py`) -/

namespace BladeX
open Spec
namespace Rounded

variable {M : Machine} {u w : ℝ} {norm : ℝ → ℝ → ℝ}

/-! ### Signs and zeros -/

theorem fl_nonneg (h : Rounds M.fl u) {x : ℝ} (hx : 0 ≤ x) : 0 ≤ M.fl x := by
  have := h.mono 0 x hx
  rwa [fl_zero h] at this

theorem fl_eq_zero (h : Rounds M.fl u) (hu : u < 1) {x : ℝ} : M.fl x = 0 ↔ x = 0 := by
  constructor
  · intro h0
    have := h.near x
    rw [h0, zero_sub, abs_neg] at this
    by_contra hx
    have := abs_pos.2 hx
    nlinarith
  · rintro rfl; exact fl_zero h

theorem fl_pos (h : Rounds M.fl u) (hu : u < 1) {x : ℝ} (hx : 0 < x) : 0 < M.fl x :=
  lt_of_le_of_ne (fl_nonneg h hx.le) fun e => hx.ne' ((fl_eq_zero h hu).1 e.symm)

theorem rel_prod (hu : 0 ≤ u) {x y x' y' : ℝ} {k l : ℕ} (h1 : |y - x| ≤ ((1 + u) ^ k - 1) * |x|) (h2 : |y' - x'| ≤ ((1 + u) ^ l - 1) * |x'|) :
    |y * y' - x * x'| ≤ ((1 + u) ^ (k + l) - 1) * |x * x'| := by
  have e : y * y' - x * x' = (y - x) * x' + y * (y' - x') := by ring
  have h3 : |y| ≤ (1 + u) ^ k * |x| := by
    have := abs_add_le (y - x) x
    rw [sub_add_cancel] at this
    linarith
  have p2 := abs_nonneg x'
  have pl : 0 ≤ (1 + u) ^ l - 1 := by
    have := one_le_pow₀ (show (1 : ℝ) ≤ 1 + u by linarith) (n := l); linarith
  calc |y * y' - x * x'| ≤ |y - x| * |x'| + |y| * |y' - x'| := by
        rw [e, ← abs_mul, ← abs_mul]; exact abs_add_le _ _
    _ ≤ ((1 + u) ^ k - 1) * |x| * |x'| + ((1 + u) ^ k * |x|) * (((1 + u) ^ l - 1) * |x'|) := by
        gcongr
    _ = _ := by rw [abs_mul, pow_add]; ring

theorem rel_add (h : Rounds M.fl u) {x y x' y' : ℝ} {k : ℕ} (h1 : |y - x| ≤ ((1 + u) ^ k - 1) * |x|) (h2 : |y' - x'| ≤ ((1 + u) ^ k - 1) * |x'|) :
    |M.fl (y + y') - (x + x')| ≤ ((1 + u) ^ (k + 1) - 1) * (|x| + |x'|) := by
  have hu := u_nonneg h
  have n := h.near (y + y')
  have a := abs_add_le (y - x) (y' - x')
  have b := abs_add_le (y + y' - (x + x')) (x + x')
  have c := abs_add_le x x'
  rw [show y - x + (y' - x') = y + y' - (x + x') by ring] at a
  rw [sub_add_cancel] at b
  have d := abs_sub_le (M.fl (y + y')) (y + y') (x + x')
  have e : |y + y'| ≤ (1 + u) ^ k * (|x| + |x'|) := by nlinarith
  have f := mul_le_mul_of_nonneg_left e hu
  rw [pow_succ]
  nlinarith

theorem max_abs (a b : ℝ) : |(a + b) / 2| + |(a - b) / 2| = max |a| |b| := by
  rcases abs_cases a with ⟨e1, _⟩ | ⟨e1, _⟩ <;> rcases abs_cases b with ⟨e2, _⟩ | ⟨e2, _⟩ <;>
  rcases abs_cases ((a + b) / 2) with ⟨e3, _⟩ | ⟨e3, _⟩ <;> rcases abs_cases ((a - b) / 2) with ⟨e4, _⟩ | ⟨e4, _⟩ <;>
  rcases max_cases |a| |b| with ⟨e5, _⟩ | ⟨e5, _⟩ <;> rw [e3, e4, e5] <;> linarith

/-! ### The two methods -/

theorem british_ok (P : Profile) (p : Params) (h1 : p.camberPerc.length = p.chordPerc.length) (h2 : p.thicknessPerc.length = p.chordPerc.length) :
    britishCoordinates M P p = .ok { P with
      xup := p.chordPerc.map fun s => M.fl (s * p.chordLength)
      xdown := p.chordPerc.map fun s => M.fl (s * p.chordLength)
      yup := List.zipWith (fun c t => M.fl (M.fl (c * p.camberMax) + M.fl (M.fl (p.thicknessMax / 2) * t))) p.camberPerc p.thicknessPerc
      ydown := List.zipWith (fun c t => M.fl (M.fl (c * p.camberMax) - M.fl (M.fl (p.thicknessMax / 2) * t))) p.camberPerc p.thicknessPerc } := by
  unfold britishCoordinates
  rw [bzip_eq_len (by omega), bzip_eq_len (by omega)]
  rfl

/-- **C126** The coordinates computed from the parameters: the same number of points, the same abscissae on both surfaces; every
abscissa is accurate to one rounding, every ordinate to three roundings of the two terms it is the sum of; the upper surface is
nowhere below the lower one, and where the thickness is zero the surfaces meet exactly. -/
theorem C126_coordinates (h : Rounds M.fl u) (P : Profile) (p : Params) (h1 : p.camberPerc.length = p.chordPerc.length)
    (h2 : p.thicknessPerc.length = p.chordPerc.length) :
    ∃ Q, britishCoordinates M P p = .ok Q ∧ Q.par = P.par ∧ Q.Uniform ∧ Q.xup.length = p.chordPerc.length ∧ Q.xdown = Q.xup ∧
      ∀ (i : Nat) (s c t : ℝ), p.chordPerc[i]? = some s → p.camberPerc[i]? = some c → p.thicknessPerc[i]? = some t →
        ∃ x a b, Q.xup[i]? = some x ∧ Q.yup[i]? = some a ∧ Q.ydown[i]? = some b ∧
          |x - s * p.chordLength| ≤ u * |s * p.chordLength| ∧
          |a - (p.camberMax * c + p.thicknessMax * t / 2)| ≤ ((1 + u) ^ 3 - 1) * (|p.camberMax * c| + |p.thicknessMax * t / 2|) ∧
          |b - (p.camberMax * c - p.thicknessMax * t / 2)| ≤ ((1 + u) ^ 3 - 1) * (|p.camberMax * c| + |p.thicknessMax * t / 2|) ∧
          (0 ≤ p.thicknessMax → 0 ≤ t → b ≤ a) ∧ (p.thicknessMax * t = 0 → a = b) := by
  have hu := u_nonneg h
  refine ⟨_, british_ok P p h1 h2, rfl, ⟨?_, rfl, ?_⟩, by simp, rfl, ?_⟩
  · simp [h1, h2]
  · simp [h1, h2]
  intro i s c t hs hc ht
  have e1 : |M.fl (c * p.camberMax) - p.camberMax * c| ≤ ((1 + u) ^ 2 - 1) * |p.camberMax * c| := by
    have := h.near (c * p.camberMax)
    rw [mul_comm c] at this ⊢
    refine this.trans ?_
    have : 0 ≤ |p.camberMax * c| := abs_nonneg _
    nlinarith [mul_nonneg (mul_nonneg hu hu) this, mul_nonneg hu this]
  have e2 : |M.fl (M.fl (p.thicknessMax / 2) * t) - p.thicknessMax * t / 2| ≤ ((1 + u) ^ 2 - 1) * |p.thicknessMax * t / 2| := by
    have a1 : |M.fl (p.thicknessMax / 2) - p.thicknessMax / 2| ≤ ((1 + u) ^ 1 - 1) * |p.thicknessMax / 2| := by
      rw [pow_one, add_sub_cancel_left]; exact h.near _
    have := rel_fl h (rel_mul (c := t) a1)
    rw [show p.thicknessMax / 2 * t = p.thicknessMax * t / 2 by ring] at this
    exact this
  refine ⟨M.fl (s * p.chordLength), M.fl (M.fl (c * p.camberMax) + M.fl (M.fl (p.thicknessMax / 2) * t)),
    M.fl (M.fl (c * p.camberMax) - M.fl (M.fl (p.thicknessMax / 2) * t)), by simp [hs], by simp [List.getElem?_zipWith, hc, ht],
    by simp [List.getElem?_zipWith, hc, ht], h.near _, rel_add h e1 e2, ?_, ?_, ?_⟩
  · have e3 : |-M.fl (M.fl (p.thicknessMax / 2) * t) - -(p.thicknessMax * t / 2)| ≤ ((1 + u) ^ 2 - 1) * |-(p.thicknessMax * t / 2)| := by
      rw [abs_neg, neg_sub_neg, abs_sub_comm]; exact e2
    have := rel_add h e1 e3
    rw [abs_neg, ← sub_eq_add_neg, ← sub_eq_add_neg] at this
    exact this
  · intro m0 t0
    have := fl_nonneg h (mul_nonneg (fl_nonneg h (show 0 ≤ p.thicknessMax / 2 by linarith)) t0)
    exact h.mono _ _ (by linarith)
  · intro h0
    have : M.fl (M.fl (p.thicknessMax / 2) * t) = 0 := by
      rcases mul_eq_zero.1 h0 with e | e
      · rw [e, zero_div, fl_zero h, zero_mul, fl_zero h]
      · rw [e, mul_zero, fl_zero h]
    rw [this, add_zero, sub_zero]

open Classical in
theorem gen_ok {P Q : Profile} (hP : P.Uniform) : generateParameters M norm P = .ok Q ↔
    ∃ e mn mc tm, updateEdges M P = .ok e ∧ norm (M.fl (e.1.1 - e.2.1)) (M.fl (e.1.2 - e.2.2)) ≠ 0 ∧ MinOf P.xup mn ∧
      MaxOf (List.zipWith (fun a b => M.fl (M.fl (a + b) / 2)) P.yup P.ydown) mc ∧
      MaxOf (List.zipWith (fun a b => |M.fl (a - b)|) P.yup P.ydown) tm ∧
      Q = { P with par := some ⟨norm (M.fl (e.1.1 - e.2.1)) (M.fl (e.1.2 - e.2.2)),
        P.xup.map (fun x => M.fl (M.fl (x - mn) / norm (M.fl (e.1.1 - e.2.1)) (M.fl (e.1.2 - e.2.2)))), |mc|,
        if |mc| = 0 then List.replicate P.xup.length 0
          else (List.zipWith (fun a b => M.fl (M.fl (a + b) / 2)) P.yup P.ydown).map (fun c => M.fl (c / |mc|)), tm,
        if tm = 0 then List.replicate P.xup.length 0
          else (List.zipWith (fun a b => |M.fl (a - b)|) P.yup P.ydown).map (fun t => M.fl (t / tm))⟩ } := by
  have hl : P.yup.length = P.ydown.length := by have := hP.1; have := hP.2; omega
  unfold generateParameters
  rw [bzip_eq_len hl, bzip_eq_len hl]
  simp only [← npMin_ok_iff, ← npMax_ok_iff]
  rcases updateEdges M P with x | e
  · simp [bind, Except.bind]
  rcases npMin P.xup with x | mn
  · simp [bind, Except.bind]
  simp only [bind, Except.bind]
  rcases npMax (List.zipWith (fun a b => M.fl (M.fl (a + b) / 2)) P.yup P.ydown) with x | mc
  · simp only [throw, throwThe, MonadExceptOf.throw]
    constructor
    · intro h; split at h <;> cases h
    · rintro ⟨_, _, _, _, _, _, _, h, _⟩; cases h
  rcases npMax (List.zipWith (fun a b => |M.fl (a - b)|) P.yup P.ydown) with x | tm
  · simp only [throw, throwThe, MonadExceptOf.throw]
    constructor
    · intro h; split at h <;> cases h
    · rintro ⟨_, _, _, _, _, _, _, _, h, _⟩; cases h
  by_cases h0 : norm (M.fl (e.1.1 - e.2.1)) (M.fl (e.1.2 - e.2.2)) = 0
  · simp only [throw, throwThe, MonadExceptOf.throw, h0, if_true]
    constructor
    · intro h; cases h
    · rintro ⟨e', _, _, _, h1, h2, _⟩
      obtain rfl := Except.ok.inj h1
      exact absurd h0 h2
  · simp only [pure, Except.pure, h0, if_false]
    constructor
    · intro h
      exact ⟨e, mn, mc, tm, rfl, h0, rfl, rfl, rfl, (Except.ok.inj h).symm⟩
    · rintro ⟨e', mn', mc', tm', h1, -, h2, h3, h4, h5⟩
      obtain rfl := Except.ok.inj h1
      obtain rfl := Except.ok.inj h2
      obtain rfl := Except.ok.inj h3
      obtain rfl := Except.ok.inj h4
      rw [h5]

/-! ### There and back -/

open Classical in
/-- The camber at a station after the two calls, before the last addition. -/
private noncomputable def camB (M : Machine) (mc a b : ℝ) : ℝ :=
  M.fl ((if |mc| = 0 then 0 else M.fl (M.fl (M.fl (a + b) / 2) / |mc|)) * |mc|)

open Classical in
/-- Half the thickness at a station after the two calls, before the last addition. -/
private noncomputable def thB (M : Machine) (tm a b : ℝ) : ℝ :=
  M.fl (M.fl (tm / 2) * (if tm = 0 then 0 else M.fl (|M.fl (a - b)| / tm)))

private theorem zipWith_replicate {α β γ : Type} (f : α → β → γ) (x : α) (n : ℕ) (l : List β) (h : l.length ≤ n) :
    List.zipWith f (List.replicate n x) l = l.map (f x) := by
  refine List.ext_getElem? fun i => ?_
  rw [List.getElem?_zipWith, List.getElem?_map]
  rcases hi : l[i]? with _ | y
  · simp
  · obtain ⟨hlt, -⟩ := List.getElem?_eq_some_iff.1 hi
    simp [show i < n by omega]

private theorem zip_two {f : ℝ → ℝ → ℝ} {c t : ℝ → ℝ → ℝ} {A B : Arr} {C T : Arr} (hC : C = List.zipWith c A B) (hT : T = List.zipWith t A B) :
    List.zipWith f C T = List.zipWith (fun a b => f (c a b) (t a b)) A B := by
  subst hC hT
  refine List.ext_getElem? fun i => ?_
  simp only [List.getElem?_zipWith]
  rcases A[i]? with _ | a <;> rcases B[i]? with _ | b <;> rfl

private theorem zipWith_const {x : ℝ} {A B : Arr} (h : A.length = B.length) : List.replicate A.length x = List.zipWith (fun _ _ => x) A B := by
  refine List.ext_getElem (by simp [h]) fun i h1 h2 => by simp

theorem regen_ok {P : Profile} (hP : P.Uniform) {e : Pt × Pt} {mn mc tm ch : ℝ} (h1 : updateEdges M P = .ok e)
    (hch : norm (M.fl (e.1.1 - e.2.1)) (M.fl (e.1.2 - e.2.2)) = ch) (h2 : ch ≠ 0) (h3 : MinOf P.xup mn)
    (h4 : MaxOf (List.zipWith (fun a b => M.fl (M.fl (a + b) / 2)) P.yup P.ydown) mc)
    (h5 : MaxOf (List.zipWith (fun a b => |M.fl (a - b)|) P.yup P.ydown) tm) :
    ∃ Q, regenerate M norm P = .ok Q ∧ Q.xup = P.xup.map (fun x => M.fl (M.fl (M.fl (x - mn) / ch) * ch)) ∧ Q.xdown = Q.xup ∧
      Q.yup = List.zipWith (fun a b => M.fl (camB M mc a b + thB M tm a b)) P.yup P.ydown ∧
      Q.ydown = List.zipWith (fun a b => M.fl (camB M mc a b - thB M tm a b)) P.yup P.ydown := by
  have hl : P.yup.length = P.ydown.length := by have := hP.1; have := hP.2; omega
  have hg := (gen_ok (M := M) (norm := norm) hP).2 ⟨e, mn, mc, tm, h1, by rw [hch]; exact h2, h3, h4, h5, rfl⟩
  rw [hch] at hg
  have c : (if |mc| = 0 then List.replicate P.xup.length 0
          else (List.zipWith (fun a b => M.fl (M.fl (a + b) / 2)) P.yup P.ydown).map (fun c => M.fl (c / |mc|))) =
      List.zipWith (fun a b => if |mc| = 0 then 0 else M.fl (M.fl (M.fl (a + b) / 2) / |mc|)) P.yup P.ydown := by
    by_cases h0 : |mc| = 0
    · simp only [h0, if_true]; rw [hP.1, zipWith_const hl]
    · simp only [h0, if_false]; rw [List.map_zipWith]
  have t : (if tm = 0 then List.replicate P.xup.length 0
          else (List.zipWith (fun a b => |M.fl (a - b)|) P.yup P.ydown).map (fun t => M.fl (t / tm))) =
      List.zipWith (fun a b => if tm = 0 then 0 else M.fl (|M.fl (a - b)| / tm)) P.yup P.ydown := by
    by_cases h0 : tm = 0
    · simp only [h0, if_true]; rw [hP.1, zipWith_const hl]
    · simp only [h0, if_false]; rw [List.map_zipWith]
  obtain ⟨Q1, hQ1, p, hp, e1, e2, e3, e4, e5, e6⟩ : ∃ Q1, generateParameters M norm P = .ok Q1 ∧ ∃ p, Q1.par = some p ∧ p.chordLength = ch ∧
      p.chordPerc = P.xup.map (fun x => M.fl (M.fl (x - mn) / ch)) ∧ p.camberMax = |mc| ∧ p.thicknessMax = tm ∧
      p.camberPerc = List.zipWith (fun a b => if |mc| = 0 then 0 else M.fl (M.fl (M.fl (a + b) / 2) / |mc|)) P.yup P.ydown ∧
      p.thicknessPerc = List.zipWith (fun a b => if tm = 0 then 0 else M.fl (|M.fl (a - b)| / tm)) P.yup P.ydown :=
    ⟨_, hg, _, rfl, rfl, rfl, rfl, rfl, by convert c, by convert t⟩
  have hr : regenerate M norm P = britishCoordinates M Q1 p := by
    unfold regenerate
    rw [hQ1]
    simp only [bind, Except.bind, hp]
  rw [british_ok Q1 p (by simp [e2, e5, hP.1, hl]) (by simp [e2, e6, hP.1, hl])] at hr
  refine ⟨_, hr, ?_, rfl, ?_, ?_⟩
  · dsimp only; rw [e1, e2, List.map_map]; rfl
  · dsimp only; rw [e3, e4, zip_two e5 e6]; unfold camB thB; congr! 9
  · dsimp only; rw [e3, e4, zip_two e5 e6]; unfold camB thB; congr! 9

private theorem camB_near (h : Rounds M.fl u) {mc a b : ℝ} (hmc : mc ≠ 0 ∨ a + b = 0) :
    |camB M mc a b - (a + b) / 2| ≤ ((1 + u) ^ 4 - 1) * |(a + b) / 2| := by
  by_cases h0 : a + b = 0
  · unfold camB; simp [h0, fl_zero h]
  have hm := hmc.resolve_right h0
  have k1 : |M.fl (a + b) - (a + b)| ≤ ((1 + u) ^ 1 - 1) * |a + b| := by
    rw [pow_one, add_sub_cancel_left]; exact h.near _
  have k2 := rel_fl h (rel_mul (c := 2⁻¹) k1)
  rw [← div_eq_mul_inv, ← div_eq_mul_inv] at k2
  have k4 := rel_scale h (abs_ne_zero.2 hm) k2
  unfold camB
  rw [if_neg (abs_ne_zero.2 hm)]
  exact k4

private theorem thB_near (h : Rounds M.fl u) {tm a b : ℝ} (ht : tm ≠ 0 ∨ a = b) :
    |thB M tm a b - |a - b| / 2| ≤ ((1 + u) ^ 4 - 1) * |(a - b) / 2| := by
  by_cases h0 : a = b
  · unfold thB; simp [h0, fl_zero h]
  have hm := ht.resolve_right h0
  have hu := u_nonneg h
  have k1 : abs (abs (M.fl (a - b)) - abs (a - b)) ≤ ((1 + u) ^ 1 - 1) * abs (abs (a - b)) := by
    rw [pow_one, add_sub_cancel_left, abs_abs]; exact (abs_abs_sub_abs_le _ _).trans (h.near _)
  have k2 := rel_fl h (rel_mul (c := tm⁻¹) k1)
  have k3 : |M.fl (tm / 2) - tm / 2| ≤ ((1 + u) ^ 1 - 1) * |tm / 2| := by
    rw [pow_one, add_sub_cancel_left]; exact h.near _
  have k4 := rel_fl h (rel_prod hu k3 k2)
  rw [← div_eq_mul_inv, ← div_eq_mul_inv, show tm / 2 * (|a - b| / tm) = |a - b| / 2 by field_simp] at k4
  unfold thB
  rw [if_neg hm]
  rw [show |(a - b) / 2| = |(|a - b| / 2)| by rw [abs_div, abs_div, abs_abs]]
  exact k4

private theorem thB_nonneg (h : Rounds M.fl u) {tm : ℝ} (ht : 0 ≤ tm) (a b : ℝ) : 0 ≤ thB M tm a b := by
  unfold thB
  refine fl_nonneg h (mul_nonneg (fl_nonneg h (by linarith)) ?_)
  split
  · exact le_rfl
  · exact fl_nonneg h (div_nonneg (abs_nonneg _) ht)

private theorem camB_nonneg (h : Rounds M.fl u) (mc : ℝ) {a b : ℝ} (hab : 0 ≤ a + b) : 0 ≤ camB M mc a b := by
  unfold camB
  refine fl_nonneg h (mul_nonneg ?_ (abs_nonneg _))
  split
  · exact le_rfl
  · exact fl_nonneg h (div_nonneg (fl_nonneg h (by have := fl_nonneg h hab; linarith)) (abs_nonneg _))

private theorem zip_at {f : ℝ → ℝ → ℝ} {A B : Arr} {i : Nat} {a b : ℝ} (ha : A[i]? = some a) (hb : B[i]? = some b) :
    (List.zipWith f A B)[i]? = some (f a b) := by
  rw [List.getElem?_zipWith, ha, hb]

private theorem zip_mem {f : ℝ → ℝ → ℝ} {A B : Arr} {m : ℝ} (h : m ∈ List.zipWith f A B) :
    ∃ (i : Nat) (a b : ℝ), A[i]? = some a ∧ B[i]? = some b ∧ m = f a b := by
  obtain ⟨i, hi⟩ := List.mem_iff_getElem?.1 h
  rw [List.getElem?_zipWith] at hi
  rcases ha : A[i]? with _ | a <;> rcases hb : B[i]? with _ | b <;> rw [ha, hb] at hi
  · cases hi
  · cases hi
  · cases hi
  · exact ⟨i, a, b, ha, hb, (Option.some.inj hi).symm⟩

/-- The largest computed camber is zero only if the largest camber is. -/
theorem mc_zero (h : Rounds M.fl u) (hu : u < 1) {A B : Arr} {m mc : ℝ} (h1 : MaxOf (List.zipWith (fun a b => (a + b) / 2) A B) m)
    (h2 : MaxOf (List.zipWith (fun a b => M.fl (M.fl (a + b) / 2)) A B) mc) : mc = M.fl (M.fl (2 * m) / 2) := by
  have g : ∀ x y : ℝ, x ≤ y → M.fl (M.fl (2 * x) / 2) ≤ M.fl (M.fl (2 * y) / 2) := fun x y hxy => by
    have := h.mono (2 * x) (2 * y) (by linarith)
    exact h.mono _ _ (by linarith)
  obtain ⟨i, a, b, ha, hb, e⟩ := zip_mem h1.1
  obtain ⟨j, a', b', ha', hb', e'⟩ := zip_mem h2.1
  apply le_antisymm
  · have := h1.2 _ (List.mem_of_getElem? (zip_at (f := fun a b => (a + b) / 2) ha' hb'))
    have := g _ _ this
    rw [e']
    rwa [show 2 * ((a' + b') / 2) = a' + b' by ring] at this
  · have := h2.2 _ (List.mem_of_getElem? (zip_at (f := fun a b => M.fl (M.fl (a + b) / 2)) ha hb))
    rw [e, show 2 * ((a + b) / 2) = a + b by ring]
    exact this

/-- **C126** Computing the parameters of a profile and the coordinates from these parameters gives the profile back with its leftmost
point at abscissa zero: every abscissa to three roundings, every ordinate to five roundings of the larger of the two ordinates of its
station; and the lower surface still is nowhere above the upper one. The largest camber of the profile must not be zero unless all are. -/
theorem C126_back (h : Rounds M.fl u) (hu : u < 1) (P Q : Profile) (hP : P.Uniform)
    (hab : ∀ (i : Nat) (a b : ℝ), P.yup[i]? = some a → P.ydown[i]? = some b → b ≤ a)
    (hc : (∀ (i : Nat) (a b : ℝ), P.yup[i]? = some a → P.ydown[i]? = some b → (a + b) / 2 = 0) ∨
      ∃ m, MaxOf (List.zipWith (fun a b => (a + b) / 2) P.yup P.ydown) m ∧ m ≠ 0)
    (hQ : regenerate M norm P = .ok Q) :
    Q.Uniform ∧ Q.xup.length = P.xup.length ∧ Q.xdown = Q.xup ∧ ∃ mn, MinOf P.xup mn ∧
      ∀ (i : Nat) (x a b : ℝ), P.xup[i]? = some x → P.yup[i]? = some a → P.ydown[i]? = some b →
        ∃ x' a' b', Q.xup[i]? = some x' ∧ Q.yup[i]? = some a' ∧ Q.ydown[i]? = some b' ∧
          |x' - (x - mn)| ≤ ((1 + u) ^ 3 - 1) * |x - mn| ∧ |a' - a| ≤ ((1 + u) ^ 5 - 1) * max |a| |b| ∧
          |b' - b| ≤ ((1 + u) ^ 5 - 1) * max |a| |b| ∧ b' ≤ a' := by
  have hl : P.yup.length = P.ydown.length := by have := hP.1; have := hP.2; omega
  have hg : ∃ Q1, generateParameters M norm P = .ok Q1 := by
    unfold regenerate at hQ
    rcases hg : generateParameters M norm P with e | Q1
    · rw [hg] at hQ; cases hQ
    · exact ⟨Q1, rfl⟩
  obtain ⟨Q1, hg⟩ := hg
  obtain ⟨e, mn, mc, tm, h1, h2, h3, h4, h5, -⟩ := (gen_ok hP).1 hg
  obtain ⟨ch, hch⟩ : ∃ ch, norm (M.fl (e.1.1 - e.2.1)) (M.fl (e.1.2 - e.2.2)) = ch := ⟨_, rfl⟩
  rw [hch] at h2
  obtain ⟨Q', hQ', e1, e2, e3, e4⟩ := regen_ok hP h1 hch h2 h3 h4 h5
  obtain rfl := Except.ok.inj (hQ'.symm.trans hQ)
  refine ⟨⟨by simp [e1, e3, hP.1, hl], by rw [e2], by simp [e1, e2, e4, hP.1, hl]⟩, by simp [e1], e2, mn, h3, ?_⟩
  intro i x a b hx ha hb
  refine ⟨_, _, _, by rw [e1, List.getElem?_map, hx]; rfl, by rw [e3]; exact zip_at ha hb, by rw [e4]; exact zip_at ha hb, ?_, ?_⟩
  · have k1 : |M.fl (x - mn) - (x - mn)| ≤ ((1 + u) ^ 1 - 1) * |x - mn| := by
      rw [pow_one, add_sub_cancel_left]; exact h.near _
    exact rel_scale h h2 k1
  have le := hab i a b ha hb
  have tm0 : 0 ≤ tm := by
    obtain ⟨_, _, _, _, _, rfl⟩ := zip_mem h5.1
    exact abs_nonneg _
  have ht : tm ≠ 0 ∨ a = b := by
    by_cases h0 : tm = 0
    · right
      have := h5.2 _ (List.mem_of_getElem? (zip_at (f := fun a b => |M.fl (a - b)|) ha hb))
      rw [h0] at this
      have := (fl_eq_zero h hu).1 (abs_eq_zero.1 (le_antisymm this (abs_nonneg _)))
      linarith
    · exact Or.inl h0
  have hmc : mc ≠ 0 ∨ a + b = 0 := by
    rcases hc with hc | ⟨m, hm, m0⟩
    · right; have := hc i a b ha hb; linarith
    · left
      rw [mc_zero h hu hm h4]
      intro h0
      have := (fl_eq_zero h hu).1 h0
      have := (fl_eq_zero h hu).1 (show M.fl (2 * m) = 0 by linarith)
      exact m0 (by linarith)
  have k1 := camB_near h hmc
  have k2 := thB_near h ht
  have t0 := thB_nonneg h tm0 a b
  rw [abs_of_nonneg (show 0 ≤ a - b by linarith)] at k2
  have u1 := rel_add h k1 k2
  have k3 : |-thB M tm a b - -((a - b) / 2)| ≤ ((1 + u) ^ 4 - 1) * |-((a - b) / 2)| := by
    rw [abs_neg, neg_sub_neg, abs_sub_comm]; exact k2
  have u2 := rel_add h k1 k3
  rw [abs_neg, max_abs, ← sub_eq_add_neg, ← sub_eq_add_neg, show (a + b) / 2 - (a - b) / 2 = b by ring] at u2
  rw [max_abs, show (a + b) / 2 + (a - b) / 2 = a by ring] at u1
  exact ⟨u1, u2, h.mono _ _ (by linarith)⟩

private theorem edges_same (h : Rounds M.fl u) {P : Profile} (hP : P.Uniform) (hs : P.xdown = P.xup) {x0 x1 : ℝ} (h0 : P.xup.head? = some x0)
    (h1 : P.xup.getLast? = some x1) : ∃ y0 y1, updateEdges M P = .ok ((x0, y0), (x1, y1)) := by
  have hn : P.xup ≠ [] := by rintro e; rw [e] at h0; cases h0
  have l0 : 0 < P.xup.length := List.length_pos_iff.2 hn
  obtain ⟨y0, hy0⟩ : ∃ y0, P.yup.head? = some y0 := by
    rcases hh : P.yup with _ | ⟨y, ys⟩
    · have := hP.1; rw [hh] at this; simp at this; exact absurd this hn
    · exact ⟨y, rfl⟩
  obtain ⟨y1, hy1⟩ : ∃ y1, P.yup.getLast? = some y1 := by
    rcases hh : P.yup.getLast? with _ | y
    · rw [List.getLast?_eq_none_iff] at hh
      have := hP.1; rw [hh] at this; simp at this; exact absurd this hn
    · exact ⟨y, rfl⟩
  obtain ⟨d1, hd1⟩ : ∃ d1, P.ydown.getLast? = some d1 := by
    rcases hh : P.ydown.getLast? with _ | y
    · rw [List.getLast?_eq_none_iff] at hh
      have := hP.2.2; rw [hh, hs] at this; simp at this; exact absurd this hn
    · exact ⟨y, rfl⟩
  have t : ¬ |M.fl 0| > M.fl 1e-4 := by
    have := h.mono 0 1e-4 (by norm_num)
    rw [fl_zero h] at this ⊢
    simpa using this
  unfold updateEdges
  rw [hs, getFirst_ok_iff.2 h0, getLast_ok_iff.2 h1, getFirst_ok_iff.2 hy0, getLast_ok_iff.2 hy1, getLast_ok_iff.2 hd1]
  simp only [bind, Except.bind, pure, Except.pure, sub_self, t, if_false]
  split
  · exact ⟨_, _, rfl⟩
  · exact ⟨_, _, rfl⟩

private theorem norm_ne (hn : Measures norm w) (hw : w < 1) {x y : ℝ} (hx : x ≠ 0) : 0 < norm x y := by
  have h := hn x y
  have : 0 < Real.sqrt (x ^ 2 + y ^ 2) := Real.sqrt_pos.2 (by positivity)
  rw [abs_le] at h
  nlinarith [h.1]

/-- **C126** No call fails on an upright profile, and the result is upright again, with its leading edge at abscissa zero. -/
theorem C126_upright (h : Rounds M.fl u) (hu : u < 1) (hn : Measures norm w) (hw : w < 1) (P : Profile) (hP : Upright P) :
    ∃ Q, regenerate M norm P = .ok Q ∧ Upright Q ∧ Q.xup.head? = some 0 := by
  have hU := hP.uniform
  have hl : P.yup.length = P.ydown.length := by have := hU.1; have := hU.2; omega
  obtain ⟨x0, x1, g0, g1, lt, mn⟩ := hP.edges
  obtain ⟨y0, y1, he⟩ := edges_same h hU hP.same g0 g1
  have hne : P.xup ≠ [] := by rintro e; rw [e] at g0; cases g0
  have l0 := List.length_pos_iff.2 hne
  have hmn : MinOf P.xup x0 := ⟨List.mem_of_head? g0, mn⟩
  have ne1 : List.zipWith (fun a b => M.fl (M.fl (a + b) / 2)) P.yup P.ydown ≠ [] := by
    rw [← List.length_pos_iff]; simp; have := hU.1; omega
  have ne2 : List.zipWith (fun a b => |M.fl (a - b)|) P.yup P.ydown ≠ [] := by
    rw [← List.length_pos_iff]; simp; have := hU.1; omega
  obtain ⟨mc, hmc⟩ := npMax_exists ne1
  obtain ⟨tm, htm⟩ := npMax_exists ne2
  rw [npMax_ok_iff] at hmc htm
  obtain ⟨ch, hch⟩ : ∃ ch, norm (M.fl (x0 - x1)) (M.fl (y0 - y1)) = ch := ⟨_, rfl⟩
  have ch0 : 0 < ch := by
    rw [← hch]
    exact norm_ne hn hw fun e => by have := (fl_eq_zero h hu).1 e; linarith
  obtain ⟨Q, hQ, e1, e2, e3, e4⟩ := regen_ok hU he hch ch0.ne' hmn hmc htm
  have z : M.fl (M.fl (M.fl (x0 - x0) / ch) * ch) = 0 := by simp [fl_zero h]
  have pos : ∀ x, x0 ≤ x → 0 ≤ M.fl (M.fl (M.fl (x - x0) / ch) * ch) := fun x hx =>
    fl_nonneg h (mul_nonneg (fl_nonneg h (div_nonneg (fl_nonneg h (by linarith)) ch0.le)) ch0.le)
  have hd : Q.xup.head? = some 0 := by rw [e1, List.head?_map, g0, ← z]; rfl
  refine ⟨Q, hQ, ⟨⟨by simp [e1, e3, hU.1, hl], by rw [e2], by simp [e1, e2, e4, hU.1, hl]⟩, e2, ?_, ?_⟩, hd⟩
  · refine ⟨0, M.fl (M.fl (M.fl (x1 - x0) / ch) * ch), hd, by rw [e1, List.getLast?_map, g1]; rfl, ?_, ?_⟩
    · exact fl_pos h hu (mul_pos (fl_pos h hu (div_pos (fl_pos h hu (by linarith)) ch0)) ch0)
    · intro x hx
      rw [e1] at hx
      obtain ⟨x', hx', rfl⟩ := List.mem_map.1 hx
      exact pos x' (mn x' hx')
  · intro i a' b' ha' hb'
    rw [e3, List.getElem?_zipWith] at ha'
    rw [e4, List.getElem?_zipWith] at hb'
    rcases ha : P.yup[i]? with _ | a <;> rcases hb : P.ydown[i]? with _ | b <;> rw [ha, hb] at ha' hb'
    · cases ha'
    · cases ha'
    · cases ha'
    obtain rfl := Option.some.inj ha'
    obtain rfl := Option.some.inj hb'
    obtain ⟨le, c0⟩ := hP.above i a b ha hb
    have tm0 : 0 ≤ tm := by
      obtain ⟨_, _, _, _, _, rfl⟩ := zip_mem htm.1
      exact abs_nonneg _
    have t0 := thB_nonneg h tm0 a b
    have k0 := camB_nonneg h mc (show 0 ≤ a + b by linarith)
    refine ⟨h.mono _ _ (by linarith), ?_⟩
    have o := h.odd (camB M mc a b - thB M tm a b)
    have := h.mono (-(camB M mc a b - thB M tm a b)) (camB M mc a b + thB M tm a b) (by linarith)
    linarith

private theorem camber_ok {P : Profile} (hP : Upright P) : (∀ (i : Nat) (a b : ℝ), P.yup[i]? = some a → P.ydown[i]? = some b → (a + b) / 2 = 0) ∨
      ∃ m, MaxOf (List.zipWith (fun a b => (a + b) / 2) P.yup P.ydown) m ∧ m ≠ 0 := by
  have hU := hP.uniform
  have hl : P.yup.length = P.ydown.length := by have := hU.1; have := hU.2; omega
  obtain ⟨x0, x1, g0, -⟩ := hP.edges
  have hne : P.xup ≠ [] := by rintro e; rw [e] at g0; cases g0
  have l0 := List.length_pos_iff.2 hne
  have ne1 : List.zipWith (fun a b : ℝ => (a + b) / 2) P.yup P.ydown ≠ [] := by
    rw [← List.length_pos_iff]; simp; have := hU.1; omega
  obtain ⟨m, hm⟩ := npMax_exists ne1
  rw [npMax_ok_iff] at hm
  by_cases h0 : m = 0
  · left
    intro i a b ha hb
    have := hm.2 _ (List.mem_of_getElem? (zip_at (f := fun a b => (a + b) / 2) ha hb))
    have := (hP.above i a b ha hb).2
    rw [h0] at *
    linarith
  · exact Or.inr ⟨m, hm, h0⟩

private theorem drift (h : Rounds M.fl u) (hu : u < 1) (hn : Measures norm w) (hw : w < 1) (n : Nat) (P : Profile) (hP : Upright P)
    (h0 : P.xup.head? = some 0) : ∃ Q, regenerates M norm n P = .ok Q ∧ Upright Q ∧ Q.xup.length = P.xup.length ∧
      ∀ (i : Nat) (x a b : ℝ), P.xup[i]? = some x → P.yup[i]? = some a → P.ydown[i]? = some b →
        ∀ (k l : ℕ) (X A B m : ℝ), |x - X| ≤ ((1 + u) ^ k - 1) * |X| → |a - A| ≤ ((1 + u) ^ l - 1) * m → |b - B| ≤ ((1 + u) ^ l - 1) * m →
          |A| ≤ m → |B| ≤ m →
        ∃ x' a' b', Q.xup[i]? = some x' ∧ Q.yup[i]? = some a' ∧ Q.ydown[i]? = some b' ∧
          |x' - X| ≤ ((1 + u) ^ (k + 3 * n) - 1) * |X| ∧ |a' - A| ≤ ((1 + u) ^ (l + 5 * n) - 1) * m ∧
          |b' - B| ≤ ((1 + u) ^ (l + 5 * n) - 1) * m := by
  induction n generalizing P with
  | zero => exact ⟨P, rfl, hP, rfl, fun i x a b hx ha hb k l X A B m e1 e2 e3 _ _ => ⟨x, a, b, hx, ha, hb, e1, e2, e3⟩⟩
  | succ n ih =>
    obtain ⟨R, hR, hRU, hR0⟩ := C126_upright h hu hn hw P hP
    obtain ⟨-, hlen, -, mn, hmn, hpt⟩ := C126_back h hu P R hP.uniform (fun i a b ha hb => (hP.above i a b ha hb).1) (camber_ok hP) hR
    have hm0 : mn = 0 := by
      obtain ⟨x0, x1, g0, -, -, mm⟩ := hP.edges
      obtain rfl := Option.some.inj (h0.symm.trans g0)
      exact le_antisymm (hmn.2 _ (List.mem_of_head? h0)) (mm _ hmn.1)
    obtain ⟨Q, hQ, hQU, hQl, hq⟩ := ih R hRU hR0
    refine ⟨Q, by rw [regenerates, hR]; exact hQ, hQU, by rw [hQl, hlen], ?_⟩
    intro i x a b hx ha hb k l X A B m e1 e2 e3 e4 e5
    obtain ⟨x', a', b', hx', ha', hb', b1, b2, b3, -⟩ := hpt i x a b hx ha hb
    rw [hm0, sub_zero] at b1
    have u0 := u_nonneg h
    have near : ∀ {y z Z : ℝ} {j r : ℕ} {s S : ℝ}, |y - z| ≤ ((1 + u) ^ r - 1) * s → |z - Z| ≤ ((1 + u) ^ j - 1) * S →
        s ≤ (1 + u) ^ j * S → |y - Z| ≤ ((1 + u) ^ (j + r) - 1) * S := by
      intro y z Z j r s S q1 q2 q3
      have pr : 0 ≤ (1 + u) ^ r - 1 := by have := one_le_pow₀ (show (1 : ℝ) ≤ 1 + u by linarith) (n := r); linarith
      have := abs_sub_le y z Z
      have := mul_le_mul_of_nonneg_left q3 pr
      rw [pow_add]
      nlinarith
    have gx : |x| ≤ (1 + u) ^ k * |X| := by
      have := abs_add_le (x - X) X
      rw [sub_add_cancel] at this; linarith
    have gm : max |a| |b| ≤ (1 + u) ^ l * m := by
      refine max_le ?_ ?_
      · have := abs_add_le (a - A) A
        rw [sub_add_cancel] at this; linarith
      · have := abs_add_le (b - B) B
        rw [sub_add_cancel] at this; linarith
    obtain ⟨x2, a2, b2', c1, c2, c3, c4, c5, c6⟩ := hq i x' a' b' hx' ha' hb' (k + 3) (l + 5) X A B m (near b1 e1 gx) (near b2 e2 gm)
      (near b3 e3 gm) e4 e5
    refine ⟨x2, a2, b2', c1, c2, c3, ?_, ?_, ?_⟩
    · rw [show k + 3 * (n + 1) = k + 3 + 3 * n by ring]; exact c4
    · rw [show l + 5 * (n + 1) = l + 5 + 5 * n by ring]; exact c5
    · rw [show l + 5 * (n + 1) = l + 5 + 5 * n by ring]; exact c6

/-- **C126** Computing parameters and coordinates from each other `n` times: no call fails on an upright profile, which stays upright,
and after `n` rounds the abscissae, measured from the leading edge, are off by at most `(1 + u)^(3n) - 1`, the ordinates by
`(1 + u)^(5n) - 1` of the larger ordinate of the station. -/
theorem C126_again (h : Rounds M.fl u) (hu : u < 1) (hn : Measures norm w) (hw : w < 1) (n : Nat) (hn1 : 1 ≤ n) (P : Profile) (hP : Upright P) :
    ∃ Q x0, regenerates M norm n P = .ok Q ∧ Upright Q ∧ Q.xup.length = P.xup.length ∧ P.xup.head? = some x0 ∧
      ∀ (i : Nat) (x a b : ℝ), P.xup[i]? = some x → P.yup[i]? = some a → P.ydown[i]? = some b →
        ∃ x' a' b', Q.xup[i]? = some x' ∧ Q.yup[i]? = some a' ∧ Q.ydown[i]? = some b' ∧
          |x' - (x - x0)| ≤ ((1 + u) ^ (3 * n) - 1) * |x - x0| ∧ |a' - a| ≤ ((1 + u) ^ (5 * n) - 1) * max |a| |b| ∧
          |b' - b| ≤ ((1 + u) ^ (5 * n) - 1) * max |a| |b| := by
  obtain ⟨n, rfl⟩ : ∃ m, n = m + 1 := ⟨n - 1, by omega⟩
  obtain ⟨R, hR, hRU, hR0⟩ := C126_upright h hu hn hw P hP
  obtain ⟨-, hlen, -, mn, hmn, hpt⟩ := C126_back h hu P R hP.uniform (fun i a b ha hb => (hP.above i a b ha hb).1) (camber_ok hP) hR
  obtain ⟨x0, x1, g0, -, -, mm⟩ := hP.edges
  have hm0 : mn = x0 := le_antisymm (hmn.2 _ (List.mem_of_head? g0)) (mm _ hmn.1)
  subst hm0
  obtain ⟨Q, hQ, hQU, hQl, hq⟩ := drift h hu hn hw n R hRU hR0
  refine ⟨Q, mn, by rw [regenerates, hR]; exact hQ, hQU, by rw [hQl, hlen], g0, ?_⟩
  intro i x a b hx ha hb
  obtain ⟨x', a', b', hx', ha', hb', b1, b2, b3, -⟩ := hpt i x a b hx ha hb
  have := hq i x' a' b' hx' ha' hb' 3 5 (x - mn) a b (max |a| |b|) b1 b2 b3 (le_max_left _ _) (le_max_right _ _)
  rw [show 3 * (n + 1) = 3 + 3 * n by ring, show 5 * (n + 1) = 5 + 5 * n by ring]
  exact this

private theorem max_map {l : List ℝ} {m : ℝ} {g : ℝ → ℝ} (hg : ∀ x y, x ≤ y → g x ≤ g y) (h : MaxOf l m) : MaxOf (l.map g) (g m) :=
  ⟨List.mem_map_of_mem h.1, fun x hx => by obtain ⟨y, hy, rfl⟩ := List.mem_map.1 hx; exact hg _ _ (h.2 y hy)⟩

theorem tm_eq (h : Rounds M.fl u) {A B : Arr} {T tm : ℝ} (h1 : MaxOf (List.zipWith (fun a b => |a - b|) A B) T)
    (h2 : MaxOf (List.zipWith (fun a b => |M.fl (a - b)|) A B) tm) : tm = M.fl T := by
  have e : ∀ x : ℝ, |M.fl x| = M.fl |x| := by
    intro x
    rcases le_total 0 x with hx | hx
    · rw [abs_of_nonneg hx, abs_of_nonneg (fl_nonneg h hx)]
    · have := fl_nonneg h (show 0 ≤ -x by linarith)
      rw [abs_of_nonpos hx, h.odd, abs_of_nonpos (by rw [h.odd] at this; linarith)]
  have k := max_map h.mono h1
  rw [List.map_zipWith] at k
  have : (fun a b : ℝ => M.fl |a - b|) = fun a b => |M.fl (a - b)| := by funext a b; rw [e]
  rw [this] at k
  exact le_antisymm (k.2 _ h2.1) (h2.2 _ k.1)

private theorem exact_max {f : ℝ → ℝ → ℝ} {A B : Arr} (hl : A.length = B.length) (hn : A ≠ []) : ∃ T, MaxOf (List.zipWith f A B) T := by
  have ne : List.zipWith f A B ≠ [] := by
    rw [← List.length_pos_iff]; simp; rw [← hl]; simpa using List.length_pos_iff.2 hn
  obtain ⟨T, hT⟩ := npMax_exists ne
  exact ⟨T, npMax_ok_iff.1 hT⟩

/-- **C126** The parameters computed from the coordinates. The chord percentages start from exactly zero and are ordered as the
abscissae are. The largest thickness is the exact one, rounded once; the thickness percentages lie between zero and one and one of
them is exactly one. The largest camber is accurate to two roundings; the largest camber percentage is exactly one (minus one, if all cambers
are negative). -/
theorem C126_parameters (h : Rounds M.fl u) (hu : u < 1) (h1 : M.fl 1 = 1) (hn : Measures norm w) (hw : w < 1) (P Q : Profile) (hP : P.Uniform)
    (hQ : generateParameters M norm P = .ok Q) :
    ∃ p, Q.par = some p ∧ Q.xup = P.xup ∧ Q.xdown = P.xdown ∧ Q.yup = P.yup ∧ Q.ydown = P.ydown ∧
      (p.chordPerc.length = P.xup.length ∧ p.camberPerc.length = P.xup.length ∧ p.thicknessPerc.length = P.xup.length) ∧
      (MinOf p.chordPerc 0 ∧ ∀ (i j : Nat) (x x' s s' : ℝ), P.xup[i]? = some x → P.xup[j]? = some x' → x ≤ x' →
        p.chordPerc[i]? = some s → p.chordPerc[j]? = some s' → s ≤ s') ∧
      (∃ T, MaxOf (List.zipWith (fun a b => |a - b|) P.yup P.ydown) T ∧ p.thicknessMax = M.fl T ∧
        (T = 0 → ∀ t ∈ p.thicknessPerc, t = 0) ∧ (T ≠ 0 → MaxOf p.thicknessPerc 1 ∧ ∀ t ∈ p.thicknessPerc, 0 ≤ t)) ∧
      ∃ m, MaxOf (List.zipWith (fun a b => (a + b) / 2) P.yup P.ydown) m ∧ |p.camberMax - (|m|)| ≤ ((1 + u) ^ 2 - 1) * |m| ∧
        (m = 0 → ∀ c ∈ p.camberPerc, c = 0) ∧ (0 < m → MaxOf p.camberPerc 1) ∧ (m < 0 → MaxOf p.camberPerc (-1)) := by
  have hl : P.yup.length = P.ydown.length := by have := hP.1; have := hP.2; omega
  obtain ⟨e, mn, mc, tm, a1, a2, a3, a4, a5, rfl⟩ := (gen_ok hP).1 hQ
  obtain ⟨ch, hch⟩ : ∃ ch, norm (M.fl (e.1.1 - e.2.1)) (M.fl (e.1.2 - e.2.2)) = ch := ⟨_, rfl⟩
  rw [hch] at a2 ⊢
  have ch0 : 0 ≤ ch := by
    rw [← hch]
    have k := hn (M.fl (e.1.1 - e.2.1)) (M.fl (e.1.2 - e.2.2))
    have := Real.sqrt_nonneg (M.fl (e.1.1 - e.2.1) ^ 2 + M.fl (e.1.2 - e.2.2) ^ 2)
    rw [abs_le] at k
    nlinarith [k.1]
  have hne : P.xup ≠ [] := by rintro e; have := a3.1; rw [e] at this; cases this
  have hny : P.yup ≠ [] := by rintro e; have := hP.1; rw [e] at this; simp at this; exact hne this
  obtain ⟨T, hT⟩ := exact_max (f := fun a b => |a - b|) hl hny
  obtain ⟨m, hm⟩ := exact_max (f := fun a b => (a + b) / 2) hl hny
  have tT := tm_eq h hT a5
  have mM := mc_zero h hu hm a4
  have hmono : ∀ x x' : ℝ, x ≤ x' → M.fl (M.fl (x - mn) / ch) ≤ M.fl (M.fl (x' - mn) / ch) := fun x x' hx =>
    h.mono _ _ (div_le_div_of_nonneg_right (h.mono _ _ (by linarith)) ch0)
  refine ⟨_, rfl, rfl, rfl, rfl, rfl, ⟨by simp, ?_, ?_⟩, ⟨⟨?_, ?_⟩, ?_⟩, ⟨T, hT, tT, ?_, ?_⟩, m, hm, ?_, ?_, ?_, ?_⟩
  · dsimp only; split <;> simp [hP.1, hl]
  · dsimp only; split <;> simp [hP.1, hl]
  · refine List.mem_map.2 ⟨mn, a3.1, ?_⟩
    simp [fl_zero h]
  · intro s hs
    obtain ⟨x, hx, rfl⟩ := List.mem_map.1 hs
    exact fl_nonneg h (div_nonneg (fl_nonneg h (by have := a3.2 x hx; linarith)) ch0)
  · intro i j x x' s s' hx hx' le hs hs'
    dsimp only at hs hs'
    rw [List.getElem?_map, hx] at hs
    rw [List.getElem?_map, hx'] at hs'
    obtain rfl := Option.some.inj hs
    obtain rfl := Option.some.inj hs'
    exact hmono x x' le
  · intro T0 t ht
    have : tm = 0 := by rw [tT, T0, fl_zero h]
    dsimp only at ht
    rw [if_pos this] at ht
    exact List.eq_of_mem_replicate ht
  · intro T0
    have tm1 : tm ≠ 0 := fun e => T0 ((fl_eq_zero h hu).1 (by rw [← tT]; exact e))
    have tm0 : 0 ≤ tm := by
      obtain ⟨_, _, _, _, _, rfl⟩ := zip_mem a5.1
      exact abs_nonneg _
    dsimp only
    rw [if_neg tm1]
    refine ⟨?_, ?_⟩
    · have := max_map (g := fun t => M.fl (t / tm)) (fun x y hxy => h.mono _ _ (div_le_div_of_nonneg_right hxy tm0)) a5
      simp only [div_self tm1, h1] at this
      exact this
    · intro t ht
      obtain ⟨t', ht', rfl⟩ := List.mem_map.1 ht
      obtain ⟨_, _, _, _, _, rfl⟩ := zip_mem ht'
      exact fl_nonneg h (div_nonneg (abs_nonneg _) tm0)
  · dsimp only
    refine (abs_abs_sub_abs_le _ _).trans ?_
    rw [mM]
    have k1 : |M.fl (2 * m) - 2 * m| ≤ ((1 + u) ^ 1 - 1) * |2 * m| := by
      rw [pow_one, add_sub_cancel_left]; exact h.near _
    have k2 := rel_fl h (rel_mul (c := 2⁻¹) k1)
    rw [← div_eq_mul_inv, ← div_eq_mul_inv, show 2 * m / 2 = m by ring] at k2
    exact k2
  · intro m0 c hc
    have : |mc| = 0 := by rw [mM, m0]; simp [fl_zero h]
    dsimp only at hc
    rw [if_pos this] at hc
    exact List.eq_of_mem_replicate hc
  · intro m0
    have mc0 : 0 < mc := by
      rw [mM]
      have := fl_pos h hu (show 0 < 2 * m by linarith)
      exact fl_pos h hu (by linarith)
    dsimp only
    rw [if_neg (abs_pos.2 mc0.ne').ne', abs_of_pos mc0]
    have := max_map (g := fun t => M.fl (t / mc)) (fun x y hxy => h.mono _ _ (div_le_div_of_nonneg_right hxy mc0.le)) a4
    simp only [div_self mc0.ne', h1] at this
    exact this
  · intro m0
    have mc0 : mc < 0 := by
      rw [mM]
      have k := fl_pos h hu (show 0 < -(2 * m) by linarith)
      rw [h.odd] at k
      have k' := fl_pos h hu (show 0 < -(M.fl (2 * m) / 2) by linarith)
      rw [h.odd] at k'
      linarith
    dsimp only
    rw [if_neg (abs_pos.2 mc0.ne).ne', abs_of_neg mc0]
    have := max_map (g := fun t => M.fl (t / -mc)) (fun x y hxy => h.mono _ _ (div_le_div_of_nonneg_right hxy (by linarith))) a4
    simp only [div_neg, div_self mc0.ne, h.odd, h1] at this
    simp only [div_neg, h.odd]
    exact this

/-- **C126** The computed length of the chord of a profile with a sharp trailing edge. -/
theorem C126_chord (h : Rounds M.fl u) (hn : Measures norm w) (P Q : Profile) (hP : P.Uniform) (a b : Pt) (hE : P.Ends a b a b)
    (hQ : generateParameters M norm P = .ok Q) :
    ∃ p, Q.par = some p ∧ |p.chordLength - dist2 a b| ≤ ((1 + u) * (1 + w) - 1) * dist2 a b := by
  obtain ⟨e, mn, mc, tm, a1, a2, a3, a4, a5, rfl⟩ := (gen_ok hP).1 hQ
  have he : e = (a, b) := by
    obtain ⟨h1, h2, h3, h4⟩ := hE
    have k1 := zip_head? h1
    have k2 := zip_getLast? hP.1 h2
    have k3 := zip_head? h3
    have k4 := zip_getLast? hP.2.2 h4
    have t : ¬ |M.fl 0| > M.fl 1e-4 := by
      have := h.mono 0 1e-4 (by norm_num)
      rw [fl_zero h] at this ⊢
      simpa using this
    unfold updateEdges at a1
    rw [getFirst_ok_iff.2 k1.1, getFirst_ok_iff.2 k3.1, getLast_ok_iff.2 k2.1, getLast_ok_iff.2 k4.1, getFirst_ok_iff.2 k1.2,
      getLast_ok_iff.2 k2.2, getLast_ok_iff.2 k4.2] at a1
    simp only [bind, Except.bind, pure, Except.pure, sub_self, t, if_false, if_true] at a1
    exact (Except.ok.inj a1).symm
  subst he
  refine ⟨_, rfl, ?_⟩
  dsimp only
  have hu := u_nonneg h
  set X := a.1 - b.1
  set Y := a.2 - b.2
  have d : dist2 a b = Real.sqrt (X ^ 2 + Y ^ 2) := rfl
  have k := hn (M.fl X) (M.fl Y)
  have w0 : 0 ≤ w := by
    have := hn 1 0
    norm_num at this
    exact (abs_nonneg _).trans this
  have r : |Real.sqrt (M.fl X ^ 2 + M.fl Y ^ 2) - Real.sqrt (X ^ 2 + Y ^ 2)| ≤ u * Real.sqrt (X ^ 2 + Y ^ 2) := by
    have t1 := dist2_triangle (M.fl X, M.fl Y) (X, Y) (0, 0)
    have t2 := dist2_triangle (X, Y) (M.fl X, M.fl Y) (0, 0)
    have t3 : dist2 (M.fl X, M.fl Y) (X, Y) ≤ u * Real.sqrt (X ^ 2 + Y ^ 2) := by
      unfold dist2
      rw [← Real.sqrt_sq hu, ← Real.sqrt_mul (sq_nonneg u)]
      apply Real.sqrt_le_sqrt
      have q1 := h.near X
      have q2 := h.near Y
      have s1 := sq_le_sq' (by linarith [abs_nonneg (M.fl X - X)]) q1
      have s2 := sq_le_sq' (by linarith [abs_nonneg (M.fl Y - Y)]) q2
      rw [mul_pow, sq_abs, sq_abs] at s1 s2
      dsimp only
      nlinarith
    have t4 : dist2 (X, Y) (M.fl X, M.fl Y) = dist2 (M.fl X, M.fl Y) (X, Y) := by unfold dist2; congr 1; dsimp only; ring
    rw [t4] at t2
    simp only [dist2, sub_zero] at t1 t2 t3
    rw [abs_le]
    constructor <;> linarith
  rw [d]
  set S := Real.sqrt (X ^ 2 + Y ^ 2)
  set S' := Real.sqrt (M.fl X ^ 2 + M.fl Y ^ 2)
  have := abs_sub_le (norm (M.fl X) (M.fl Y)) S' S
  have s' : S' ≤ (1 + u) * S := by rw [abs_le] at r; linarith [r.2]
  nlinarith [mul_le_mul_of_nonneg_left s' w0]

/-- **C126** In double precision a thousand rounds move no coordinate by more than `10⁻¹²` of the ordinates of its station (of the
distance to the leading edge). -/
theorem C126_double (h : Rounds M.fl u) (hu : u ≤ (1 / 2) ^ 53) (hn : Measures norm w) (hw : w < 1) (n : Nat) (hn1 : 1 ≤ n) (hn2 : n ≤ 1000) (P : Profile)
    (hP : Upright P) : ∃ Q x0, regenerates M norm n P = .ok Q ∧ Upright Q ∧ P.xup.head? = some x0 ∧
      ∀ (i : Nat) (x a b : ℝ), P.xup[i]? = some x → P.yup[i]? = some a → P.ydown[i]? = some b →
        ∃ x' a' b', Q.xup[i]? = some x' ∧ Q.yup[i]? = some a' ∧ Q.ydown[i]? = some b' ∧
          |x' - (x - x0)| ≤ 1e-12 * |x - x0| ∧ |a' - a| ≤ 1e-12 * max |a| |b| ∧ |b' - b| ≤ 1e-12 * max |a| |b| := by
  have u0 := u_nonneg h
  have u1 : u < 1 := by refine lt_of_le_of_lt hu ?_; norm_num
  obtain ⟨Q, x0, hQ, hU, -, g0, hp⟩ := C126_again h u1 hn hw n hn1 P hP
  have small : ∀ k : ℕ, k ≤ 5000 → (1 + u) ^ k - 1 ≤ 1e-12 := by
    intro k hk
    have s1 : (1 + u) ^ k ≤ Real.exp (u * 5000) := by
      calc (1 + u) ^ k ≤ (Real.exp u) ^ k := by
            have := Real.add_one_le_exp u
            gcongr; linarith
        _ = Real.exp (k * u) := (Real.exp_nat_mul u k).symm
        _ ≤ _ := by
            apply Real.exp_le_exp.2
            have : (k : ℝ) ≤ 5000 := by exact_mod_cast hk
            nlinarith
    have s2 : u * 5000 ≤ 6e-13 := by
      have : (1 / 2 : ℝ) ^ 53 ≤ 1.2e-16 := by norm_num
      nlinarith
    have s3 := Real.abs_exp_sub_one_le (x := u * 5000) (by rw [abs_of_nonneg (by positivity)]; linarith)
    have s4 : Real.exp (u * 5000) - 1 ≤ 1e-12 := by
      have s5 : 0 ≤ u * 5000 := by positivity
      have s6 := Real.exp_bound' s5 (by linarith) (n := 2) (by norm_num)
      norm_num [Finset.sum_range_succ] at s6
      nlinarith
    linarith
  refine ⟨Q, x0, hQ, hU, g0, fun i x a b hx ha hb => ?_⟩
  obtain ⟨x', a', b', k1, k2, k3, k4, k5, k6⟩ := hp i x a b hx ha hb
  have m0 : 0 ≤ max |a| |b| := (abs_nonneg a).trans (le_max_left _ _)
  exact ⟨x', a', b', k1, k2, k3, k4.trans (mul_le_mul_of_nonneg_right (small _ (by omega)) (abs_nonneg _)),
    k5.trans (mul_le_mul_of_nonneg_right (small _ (by omega)) m0), k6.trans (mul_le_mul_of_nonneg_right (small _ (by omega)) m0)⟩

/-! ### A machine and a profile -/

private noncomputable def wing : Profile := { xup := [1, 2, 3], xdown := [1, 2, 3], yup := [0, 1, 0], ydown := [0, -1 / 2, 0] }

private theorem wing_upright : Upright wing := by
  refine ⟨⟨rfl, rfl, rfl⟩, rfl, ⟨1, 3, rfl, rfl, by norm_num, by simp [wing]⟩, ?_⟩
  intro i a b ha hb
  rcases i with _ | _ | _ | i <;> simp [wing] at ha hb <;> subst ha hb <;> norm_num

private noncomputable def trunc (p : ℕ) : Machine :=
  ⟨Chop.chop p, fun a x b y => Chop.chop p (Chop.chop p (a * x) + Chop.chop p (b * y)), fun a => Chop.chop p (Real.cos a),
    fun a => Chop.chop p (Real.sin a)⟩

private theorem trunc_one : (trunc 54).fl 1 = 1 := Chop.chop_exact (e := 0) (k := 2 ^ 53) (by norm_num) (by norm_num) (by norm_num)

private theorem exact_norm : Measures (fun x y => Real.sqrt (x ^ 2 + y ^ 2)) 0 := fun x y => by simp

/-- The hypotheses of the theorems hold for truncating arithmetic with 54 binary digits and a cambered profile. -/
example : ∃ Q : Profile, regenerates (trunc 54) (fun x y => Real.sqrt (x ^ 2 + y ^ 2)) 1000 wing = .ok Q ∧ ∃ a b : ℝ, Q.yup[1]? = some a ∧ Q.ydown[1]? = some b ∧
    |a - 1| ≤ 1e-12 ∧ |b + 1 / 2| ≤ 1e-12 := by
  obtain ⟨Q, x0, hQ, -, -, hp⟩ := C126_double (chop_sound 54 (by norm_num)).rounds le_rfl exact_norm (by norm_num) 1000 (by norm_num) le_rfl wing wing_upright
  obtain ⟨x, a, b, -, ha, hb, -, k1, k2⟩ := hp 1 2 1 (-1 / 2) rfl rfl rfl
  have : max |(1 : ℝ)| |(-1 / 2 : ℝ)| = 1 := by norm_num
  rw [this, mul_one] at k1 k2
  exact ⟨Q, hQ, a, b, ha, hb, k1, by rwa [show b + 1 / 2 = b - -1 / 2 by ring]⟩

example : ∃ Q : Profile, ∃ p : Params, generateParameters (trunc 54) (fun x y => Real.sqrt (x ^ 2 + y ^ 2)) wing = .ok Q ∧ Q.par = some p ∧
    MaxOf p.thicknessPerc 1 ∧ MaxOf p.camberPerc 1 ∧ MinOf p.chordPerc 0 := by
  have hr := (chop_sound 54 (by norm_num)).rounds
  have u1 : ((1 / 2 : ℝ) ^ (54 - 1)) < 1 := by norm_num
  obtain ⟨R, hR, -⟩ := C126_upright (M := trunc 54) hr u1 exact_norm (by norm_num) wing wing_upright
  have hg : ∃ Q1, generateParameters (trunc 54) (fun x y => Real.sqrt (x ^ 2 + y ^ 2)) wing = .ok Q1 := by
    unfold regenerate at hR
    rcases hg : generateParameters (trunc 54) (fun x y => Real.sqrt (x ^ 2 + y ^ 2)) wing with e | Q1
    · rw [hg] at hR; cases hR
    · exact ⟨Q1, rfl⟩
  obtain ⟨Q, hQ⟩ := hg
  obtain ⟨p, hp, -, -, -, -, -, ⟨c1, -⟩, ⟨T, hT, -, -, t2⟩, m, hm, -, -, m2, -⟩ :=
    C126_parameters (M := trunc 54) hr u1 trunc_one exact_norm (by norm_num) wing Q wing_upright.uniform hQ
  have T0 : T ≠ 0 := by
    have := hT.2 (3 / 2) (by simp [wing]; norm_num)
    linarith
  have m0 : 0 < m := by
    have := hm.2 (1 / 4) (by simp [wing]; norm_num)
    linarith
  exact ⟨Q, p, hQ, hp, (t2 T0).1, m2 m0, c1⟩

example (M : Machine) (u : ℝ) (h : Rounds M.fl u) : ∃ Q, britishCoordinates M wing ⟨2, [0, 1 / 2, 1], 1 / 3, [0, 1, 0], 1 / 7, [0, 1, 0]⟩ = .ok Q ∧
    ∃ a b : ℝ, Q.yup[2]? = some a ∧ Q.ydown[2]? = some b ∧ a = b := by
  obtain ⟨Q, hQ, -, -, -, -, hp⟩ := C126_coordinates h wing ⟨2, [0, 1 / 2, 1], 1 / 3, [0, 1, 0], 1 / 7, [0, 1, 0]⟩ rfl rfl
  obtain ⟨x, a, b, -, ha, hb, -, -, -, -, e⟩ := hp 2 1 0 0 rfl rfl rfl
  exact ⟨Q, hQ, a, b, ha, hb, e (by norm_num)⟩

example : ∃ a b : Pt, wing.Ends a b a b ∧ dist2 a b = 2 :=
  ⟨(1, 0), (3, 0), ⟨rfl, rfl, rfl, rfl⟩, by
    unfold dist2
    rw [show ((1 : ℝ), (0 : ℝ)).1 - ((3 : ℝ), (0 : ℝ)).1 = -2 by norm_num, show ((1 : ℝ), (0 : ℝ)).2 - ((3 : ℝ), (0 : ℝ)).2 = 0 by norm_num,
      show (-2 : ℝ) ^ 2 + 0 ^ 2 = 2 ^ 2 by norm_num, Real.sqrt_sq (by norm_num)]⟩

end Rounded
end BladeX
