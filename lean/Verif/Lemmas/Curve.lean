import Verif.Model.Curve
import Verif.Spec.Curve
import Verif.Lemmas.ThinPlate
import Verif.Lemmas.American

/-! # Thin-plate interpolation on the line -/

namespace BladeX
noncomputable section
open Spec Classical

namespace Curve

theorem kernel_sq (t : ℝ) : kernel |t| = (t ^ 2 * Real.log (t ^ 2)) / 2 := by
  rw [kernel, Real.log_pow, sq_abs, Real.log_abs]; push_cast; ring

/-- The only combination without moments, plus a line, that vanishes at two or more distinct nodes is zero. -/
theorem unisolvent {n : ℕ} (hn : 2 ≤ n) (x : Fin n → ℝ) (hx : Function.Injective x) (c : Fin n → ℝ) (a b : ℝ) (h0 : ∑ i, c i = 0)
    (h1 : ∑ i, c i * x i = 0) (hz : ∀ i, (∑ j, c j * kernel |x i - x j|) + a + b * x i = 0) : c = 0 ∧ a = 0 ∧ b = 0 := by
  have hc : c = 0 := by
    by_contra hc
    have hpos := Kernel.thin_plate_form_pos (d := 1) (fun i _ => x i) (fun i j h => hx (congrFun h 0)) c hc h0 (fun _ => h1)
    have hsq : ∀ i j, Kernel.sq (d := 1) (fun _ => x i) (fun _ => x j) = (x i - x j) ^ 2 := fun i j => by simp [Kernel.sq]
    simp only [hsq] at hpos
    have key : ∑ i, c i * ((∑ j, c j * kernel |x i - x j|) + a + b * x i) = 0 := Finset.sum_eq_zero fun i _ => by rw [hz, mul_zero]
    have e : ∑ i, c i * ((∑ j, c j * kernel |x i - x j|) + a + b * x i) =
        (∑ i, ∑ j, c i * c j * ((x i - x j) ^ 2 * Real.log ((x i - x j) ^ 2))) / 2 + (∑ i, c i) * a + b * ∑ i, c i * x i := by
      rw [Finset.sum_div, Finset.sum_mul, Finset.mul_sum, ← Finset.sum_add_distrib, ← Finset.sum_add_distrib]
      refine Finset.sum_congr rfl fun i _ => ?_
      rw [Finset.sum_div, mul_add, mul_add, Finset.mul_sum]
      congr 1
      · congr 1
        refine Finset.sum_congr rfl fun j _ => ?_
        rw [kernel_sq]; ring
      · ring
    rw [e, h0, h1] at key
    linarith
  subst hc
  have hl : ∀ i, a + b * x i = 0 := fun i => by simpa using hz i
  have i0 := hl ⟨0, by omega⟩
  have i1 := hl ⟨1, by omega⟩
  have hne : x ⟨0, by omega⟩ - x ⟨1, by omega⟩ ≠ 0 := sub_ne_zero.2 fun h => by have := hx h; simp at this
  have hb : b = 0 := by
    have : b * (x ⟨0, by omega⟩ - x ⟨1, by omega⟩) = 0 := by linarith
    exact (mul_eq_zero.1 this).resolve_right hne
  subst hb
  exact ⟨rfl, by linarith, rfl⟩

theorem getElem_getD (xs : Arr) (i : Fin xs.length) : xs[i] = xs.getD i 0 := by
  simp [List.getD, List.getElem?_eq_getElem i.2]

theorem value_eq (xs : Arr) (s h : ℝ) (w : Fin xs.length ⊕ Fin 2 → ℝ) (x : ℝ) :
    value xs s h w x = (∑ i : Fin xs.length, w (Sum.inl i) * kernel |x - xs[i]|) +
      (w (Sum.inr 0) - w (Sum.inr 1) * s / h) + w (Sum.inr 1) / h * x := by
  simp only [value, mono, Fin.sum_univ_two, Matrix.cons_val_zero, Matrix.cons_val_one]
  ring

/-- What the system says. -/
theorem system_mulVec (xs : Arr) (s h : ℝ) (w r : Fin xs.length ⊕ Fin 2 → ℝ) :
    (system xs s h).mulVec w = r ↔ (∀ i : Fin xs.length, value xs s h w xs[i] = r (Sum.inl i)) ∧
      (∑ i : Fin xs.length, w (Sum.inl i) = r (Sum.inr 0)) ∧
      (∑ i : Fin xs.length, w (Sum.inl i) * ((xs[i] - s) / h) = r (Sum.inr 1)) := by
  have hL : ∀ i : Fin xs.length, (system xs s h).mulVec w (Sum.inl i) = value xs s h w xs[i] := by
    intro i
    simp only [Matrix.mulVec, dotProduct, system, Fintype.sum_sum_type, Matrix.fromBlocks_apply₁₁, Matrix.fromBlocks_apply₁₂, Matrix.of_apply, value]
    congr 1 <;> exact Finset.sum_congr rfl fun _ _ => by ring
  have hR : ∀ k : Fin 2, (system xs s h).mulVec w (Sum.inr k) = ∑ i : Fin xs.length, w (Sum.inl i) * mono s h xs[i] k := by
    intro k
    simp only [Matrix.mulVec, dotProduct, system, Fintype.sum_sum_type, Matrix.fromBlocks_apply₂₁, Matrix.fromBlocks_apply₂₂, Matrix.of_apply,
      Matrix.zero_apply, zero_mul, Finset.sum_const_zero, add_zero]
    exact Finset.sum_congr rfl fun _ _ => by ring
  constructor
  · rintro rfl
    refine ⟨fun i => (hL i).symm, ?_, ?_⟩
    · rw [hR]; simp [mono]
    · rw [hR]; simp [mono]
  · rintro ⟨h1, h2, h3⟩
    funext k
    rcases k with i | k
    · rw [hL, h1]
    · rw [hR]
      fin_cases k
      · simpa [mono] using h2
      · simpa [mono] using h3

theorem scale_ne (mn mx : ℝ) : scale mn mx ≠ 0 := by
  unfold scale
  split_ifs with h
  · norm_num
  · exact h

theorem inj_of_nodup {xs : Arr} (h : xs.Nodup) : Function.Injective fun i : Fin xs.length => xs[i] := by
  intro i j hij
  exact Fin.ext ((List.Nodup.getElem_inj_iff h).1 hij)

theorem system_det {xs : Arr} (hn : 2 ≤ xs.length) (s h : ℝ) (hh : h ≠ 0) : (system xs s h).det ≠ 0 ↔ xs.Nodup := by
  constructor
  · intro hd
    by_contra hdup
    rw [List.nodup_iff_injective_getElem] at hdup
    simp only [Function.Injective, not_forall] at hdup
    obtain ⟨i, j, hij, hne⟩ := hdup
    apply hd
    refine Matrix.det_zero_of_row_eq (i := Sum.inl i) (j := Sum.inl j) (by simpa using hne) ?_
    have hij' : xs[i] = xs[j] := hij
    funext k
    rcases k with k | k
    · simp only [system, Matrix.fromBlocks_apply₁₁, Matrix.of_apply, hij']
    · simp only [system, Matrix.fromBlocks_apply₁₂, Matrix.of_apply, hij']
  · intro hnd hd
    obtain ⟨w, hw, hz⟩ := Matrix.exists_mulVec_eq_zero_iff.2 hd
    obtain ⟨h1, h2, h3⟩ := (system_mulVec xs s h w 0).1 hz
    simp only [Pi.zero_apply] at h1 h2 h3
    have h3' : ∑ i : Fin xs.length, w (Sum.inl i) * xs[i] = 0 := by
      have : ∑ i : Fin xs.length, w (Sum.inl i) * xs[i] = h * (∑ i : Fin xs.length, w (Sum.inl i) * ((xs[i] - s) / h)) +
          s * ∑ i : Fin xs.length, w (Sum.inl i) := by
        rw [Finset.mul_sum, Finset.mul_sum, ← Finset.sum_add_distrib]
        refine Finset.sum_congr rfl fun i _ => ?_
        field_simp
        ring
      rw [this, h2, h3]; ring
    obtain ⟨c0, a0, b0⟩ := unisolvent hn (fun i : Fin xs.length => xs[i]) (inj_of_nodup hnd) (fun i => w (Sum.inl i)) _ _ h2 h3'
      (fun i => by have := h1 i; rw [value_eq] at this; exact this)
    apply hw
    have w1 : w (Sum.inr 1) = 0 := by
      rw [div_eq_zero_iff] at b0
      exact b0.resolve_right hh
    have w0 : w (Sum.inr 0) = 0 := by rw [w1] at a0; simpa using a0
    funext k
    rcases k with i | k
    · exact congrFun c0 i
    · fin_cases k
      · exact w0
      · exact w1

theorem sum_range {xs : Arr} (g : Nat → ℝ → ℝ) :
    ∑ i ∈ Finset.range xs.length, g i (xs.getD i 0) = ∑ i : Fin xs.length, g i xs[i] := by
  rw [Finset.sum_range]
  refine Finset.sum_congr rfl fun i _ => ?_
  rw [getElem_getD]

theorem through_iff {xs ys : Arr} (hl : ys.length = xs.length) (f : ℝ → ℝ) :
    Through xs ys f ↔ ∀ i : Fin xs.length, f xs[i] = ys.getD i 0 := by
  constructor
  · intro h i
    have hy : (i : Nat) < ys.length := by rw [hl]; exact i.2
    rw [h i xs[i] ys[i] (List.getElem?_eq_getElem i.2) (List.getElem?_eq_getElem hy)]
    simp [List.getD, List.getElem?_eq_getElem hy]
  · intro h i x y hx hy
    obtain ⟨hi, rfl⟩ := List.getElem?_eq_some_iff.1 hx
    have := h ⟨i, hi⟩
    simp only [List.getD, hy, Option.getD_some] at this
    exact this

/-- Two thin-plate curves over the same nodes that agree there are equal. -/
theorem thin_unique {xs : Arr} (hn : 2 ≤ xs.length) (hnd : xs.Nodup) {c c' : Nat → ℝ} {a a' b b' : ℝ} {f f' : ℝ → ℝ}
    (h : ThinPlate xs c a b f) (h' : ThinPlate xs c' a' b' f') (he : ∀ i : Fin xs.length, f xs[i] = f' xs[i]) :
    (∀ i < xs.length, c i = c' i) ∧ a = a' ∧ b = b' ∧ f = f' := by
  obtain ⟨p1, p2, p3⟩ := h
  obtain ⟨q1, q2, q3⟩ := h'
  rw [Finset.sum_range] at p1 q1
  rw [sum_range fun i x => c i * x] at p2
  rw [sum_range fun i x => c' i * x] at q2
  replace p3 : ∀ x, f x = (∑ i : Fin xs.length, c i * (|x - xs[i]| ^ 2 * Real.log |x - xs[i]|)) + a + b * x := fun x => by
    rw [p3 x, sum_range fun i y => c i * (|x - y| ^ 2 * Real.log |x - y|)]
  replace q3 : ∀ x, f' x = (∑ i : Fin xs.length, c' i * (|x - xs[i]| ^ 2 * Real.log |x - xs[i]|)) + a' + b' * x := fun x => by
    rw [q3 x, sum_range fun i y => c' i * (|x - y| ^ 2 * Real.log |x - y|)]
  obtain ⟨e1, e2, e3⟩ := unisolvent hn (fun i : Fin xs.length => xs[i]) (inj_of_nodup hnd) (fun i => c i - c' i) (a - a') (b - b')
    (by rw [Finset.sum_sub_distrib, p1, q1, sub_zero])
    (by simp only [sub_mul, Finset.sum_sub_distrib]; rw [p2, q2, sub_zero])
    (fun i => by
      have := he i
      rw [p3, q3] at this
      simp only [sub_mul, Finset.sum_sub_distrib, kernel]
      linarith)
  have ec : ∀ i : Fin xs.length, c i = c' i := fun i => sub_eq_zero.1 (congrFun e1 i)
  refine ⟨fun i hi => ec ⟨i, hi⟩, sub_eq_zero.1 e2, sub_eq_zero.1 e3, ?_⟩
  funext x
  rw [p3, q3, sub_eq_zero.1 e2, sub_eq_zero.1 e3]
  congr 2
  exact Finset.sum_congr rfl fun i _ => by rw [ec i]

theorem rbf_unfold {xs ys : Arr} (hl : ys.length = xs.length) (hn : 2 ≤ xs.length) :
    ∃ s h, h ≠ 0 ∧ rbf xs ys = if (system xs s h).det = 0 then .error .linAlgError else .ok (value xs s h ((system xs s h)⁻¹.mulVec (rhs xs ys))) := by
  have hne : xs ≠ [] := by rintro rfl; simp at hn
  obtain ⟨mn, hmn⟩ := npMin_exists hne
  obtain ⟨mx, hmx⟩ := npMax_exists hne
  refine ⟨(mx + mn) / 2, scale mn mx, scale_ne _ _, ?_⟩
  unfold rbf
  rw [if_neg (by simpa using hl), if_neg (by omega)]
  simp only [hmn, hmx, bind, Except.bind, pure, Except.pure]
  split_ifs <;> rfl

/-- Result of the interpolation. -/
theorem rbf_ok {xs ys : Arr} (hl : ys.length = xs.length) (hn : 2 ≤ xs.length) (hnd : xs.Nodup) :
    ∃ f c a b, rbf xs ys = .ok f ∧ ThinPlate xs c a b f ∧ Through xs ys f := by
  obtain ⟨s, h, hh, e⟩ := rbf_unfold hl hn
  have hd := (system_det hn s h hh).2 hnd
  rw [if_neg hd] at e
  set w := (system xs s h)⁻¹.mulVec (rhs xs ys) with hw
  have hsol : (system xs s h).mulVec w = rhs xs ys := by
    rw [hw, Matrix.mulVec_mulVec, Matrix.mul_nonsing_inv _ (isUnit_iff_ne_zero.2 hd), Matrix.one_mulVec]
  obtain ⟨h1, h2, h3⟩ := (system_mulVec xs s h w _).1 hsol
  simp only [rhs, Sum.elim_inl, Sum.elim_inr] at h1 h2 h3
  refine ⟨_, fun i => if hi : i < xs.length then w (Sum.inl ⟨i, hi⟩) else 0, w (Sum.inr 0) - w (Sum.inr 1) * s / h, w (Sum.inr 1) / h, e,
    ⟨?_, ?_, ?_⟩, (through_iff hl _).2 h1⟩
  · rw [Finset.sum_range]
    simpa using h2
  · rw [sum_range fun i x => (if hi : i < xs.length then w (Sum.inl ⟨i, hi⟩) else 0) * x]
    have : ∑ i : Fin xs.length, w (Sum.inl i) * xs[i] = h * (∑ i : Fin xs.length, w (Sum.inl i) * ((xs[i] - s) / h)) +
        s * ∑ i : Fin xs.length, w (Sum.inl i) := by
      rw [Finset.mul_sum, Finset.mul_sum, ← Finset.sum_add_distrib]
      refine Finset.sum_congr rfl fun i _ => ?_
      field_simp
      ring
    rw [h2, h3] at this
    simpa using this
  · intro x
    rw [value_eq, sum_range fun i y => (if hi : i < xs.length then w (Sum.inl ⟨i, hi⟩) else 0) * (|x - y| ^ 2 * Real.log |x - y|)]
    simp [kernel]

end Curve
end
end BladeX
