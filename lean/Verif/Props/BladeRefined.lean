import Verif.Spec.BladeRefined
import Verif.Props.Blade
import Verif.Props.BladeCylinder
import Verif.Props.NacaSampling

/-! # C153: how finely the sections of a blade are sampled (`bladex/blade.py` 255-367) -/

namespace BladeX
noncomputable section
open Spec Classical

namespace Blade

theorem continuous_wrap (r : ℝ) : Continuous (wrap r) := by
  unfold wrap
  fun_prop

theorem continuous_placed (refl : Bool) (r c P k s : ℝ) (ref : Pt) : Continuous (placed refl r c P k s ref) := by
  unfold placed
  fun_prop

theorem wrap_onto (r : ℝ) (p : Pt) : (wrap r p).2.1 ^ 2 + (wrap r p).2.2 ^ 2 = r ^ 2 := by
  simp only [wrap]
  have := Real.sin_sq_add_cos_sq (p.2 / r)
  linear_combination r ^ 2 * this

theorem lower_length {P : Profile} (h : P.Uniform) : P.lower.length = P.upper.length := by
  obtain ⟨u1, u2, u3⟩ := h
  simp only [Profile.upper, Profile.lower, List.length_zip]
  omega

/-- The reference point of a sampled foil does not depend on the number of points. -/
theorem sampled_reference {U L : ℝ → Pt} {n : Nat} (hn : 2 ≤ n) {P : Profile} (h : P.SampledFrom U L n) (h0 : U 0 = L 0) (h1 : U 1 = L 1) :
    P.referencePoint = .ok (mid (U 0) (U 1)) := by
  obtain ⟨hU, hl, hp⟩ := h
  have hl' := (lower_length hU).trans hl
  have hn1 : (n : ℝ) - 1 ≠ 0 := by
    have : (2 : ℝ) ≤ n := by exact_mod_cast hn
    linarith
  have e0 : ((0 : Nat) : ℝ) / ((n : ℝ) - 1) = 0 := by simp
  have e1 : ((n - 1 : Nat) : ℝ) / ((n : ℝ) - 1) = 1 := by
    rw [Nat.cast_sub (by omega), Nat.cast_one, div_self hn1]
  obtain ⟨a1, a2⟩ := hp 0 (by omega)
  obtain ⟨b1, b2⟩ := hp (n - 1) (by omega)
  rw [e0] at a1 a2
  rw [e1] at b1 b2
  have hs : P.Shaped := ⟨hU.1, hU.2.2⟩
  rw [Profile.referencePoint_ends hs (a := U 0) (b := U 1) (c := L 0) (d := L 1)
    ⟨by rw [List.head?_eq_getElem?]; exact a1, by rw [List.getLast?_eq_getElem?, hl]; exact b1,
      by rw [List.head?_eq_getElem?]; exact a2, by rw [List.getLast?_eq_getElem?, hl']; exact b2⟩]
  rw [← h0, ← h1]
  rw [if_neg (by norm_num)]
  congr 2
  ext
  · rfl
  · show ((U 1).2 + (U 1).2) / 2 = (U 1).2
    ring

end Blade
open Blade

/-- **C153** The number of points per section only says how finely a blade is sampled. Let the sections of a design be sampled from two curves each, which share their end points
(distributions of the same length, radii not zero). Then there are two curves in space for every station, on its cylinder, continuous if the given ones are, such that for every number of points
`n ≥ 2` the blade goes through, and its coordinates are the points of these curves at the parameters `0, 1/(n-1), ..., 1`. -/
theorem C153_curves (N : Nat) (hN : 0 < N) (U L : Nat → ℝ → Pt) (h0 : ∀ i, U i 0 = L i 0) (h1 : ∀ i, U i 1 = L i 1) (r c p k s : Arr)
    (hr : r.length = N) (hc : c.length = N) (hp : p.length = N) (hk : k.length = N) (hs : s.length = N) (hz : ∀ x ∈ r, x ≠ 0) (refl : Bool) :
    ∃ up lo : Nat → ℝ → Pt3, (∀ i, Continuous (U i) → Continuous (up i)) ∧ (∀ i, Continuous (L i) → Continuous (lo i)) ∧
      (∀ (i : Nat) (ρ x : ℝ), r[i]? = some ρ → (up i x).2.1 ^ 2 + (up i x).2.2 ^ 2 = ρ ^ 2 ∧ (lo i x).2.1 ^ 2 + (lo i x).2.2 ^ 2 = ρ ^ 2) ∧
      ∀ (n : Nat) (S : List Profile), 2 ≤ n → S.length = N → (∀ (i : Nat) (P : Profile), S[i]? = some P → P.SampledFrom (U i) (L i) n) →
        ∃ b b', Blade.new S r c p k s none none = .ok b ∧ b.applyTransformations refl = (b', .ok ()) ∧
          b'.coordsUp.length = N ∧ b'.coordsDown.length = N ∧
          ∀ i : Nat, i < N → ∃ l l', b'.coordsUp[N - 1 - i]? = some l ∧ b'.coordsDown[N - 1 - i]? = some l' ∧ l.length = n ∧ l'.length = n ∧
            ∀ j : Nat, j < n → l[j]? = some (up i ((j : ℝ) / ((n : ℝ) - 1))) ∧ l'[j]? = some (lo i ((j : ℝ) / ((n : ℝ) - 1))) := by
  let g : Nat → Pt → Pt3 := fun i q =>
    wrap (r.getD i 0) (placed refl (r.getD i 0) (c.getD i 0) (p.getD i 0) (k.getD i 0) (s.getD i 0) (mid (U i 0) (U i 1)) q)
  have hg : ∀ i, Continuous (g i) := fun i => (continuous_wrap _).comp (continuous_placed _ _ _ _ _ _ _)
  have gd : ∀ (v : Arr) (i : Nat) (x : ℝ), v[i]? = some x → v.getD i 0 = x := by
    intro v i x h; rw [List.getD_eq_getElem?_getD, h]; rfl
  refine ⟨fun i x => g i (U i x), fun i x => g i (L i x), fun i h => (hg i).comp h, fun i h => (hg i).comp h, ?_, ?_⟩
  · intro i ρ x hρ
    have := gd r i ρ hρ
    simp only [g, this]
    exact ⟨wrap_onto _ _, wrap_onto _ _⟩
  intro n S hn hSN hS
  let b : Blade := { sections := S, radii := r, chord := c, pitch := p, rake := k, skew := s, thickness := none, camber := none, coordsUp := [], coordsDown := [],
                     upper := none, lower := none, tip := none, root := none }
  have hnew : Blade.new S r c p k s none none = .ok b := by
    unfold Blade.new
    simp only
    rw [if_pos ⟨by omega, by omega, by omega, by omega, by omega⟩]
  have hW : b.WellFormed := ⟨by simp only [b]; omega, by simp only [b]; omega, by simp only [b]; omega, by simp only [b]; omega, by simp only [b]; omega⟩
  have mem : ∀ P ∈ S, ∃ i, P.SampledFrom (U i) (L i) n := by
    intro P hP
    obtain ⟨i, hi⟩ := List.getElem?_of_mem hP
    exact ⟨i, hS i P hi⟩
  have hUn : ∀ P ∈ b.sections, P.Uniform := fun P hP => by obtain ⟨i, hi⟩ := mem P hP; exact hi.1
  obtain ⟨b', hb'⟩ := (C46_defined b refl hW rfl rfl hUn).2 ⟨by
      intro h
      have h' : S = [] := h
      rw [h'] at hSN; simp at hSN; omega, hz, fun P hP => by
      obtain ⟨i, hi⟩ := mem P hP
      exact ⟨_, sampled_reference hn hi (h0 i) (h1 i)⟩, fun P hP Q hQ => by
      obtain ⟨i, hi⟩ := mem P hP
      obtain ⟨i', hi'⟩ := mem Q hQ
      exact hi.2.1.trans hi'.2.1.symm⟩
  obtain ⟨_, _, hpl⟩ := C46_placed b b' refl hW rfl rfl hUn hb'
  obtain ⟨l1, l2, hrev⟩ := C48_reversed b b' refl hW hb'
  have l1' : b'.coordsUp.length = N := l1.trans hSN
  have l2' : b'.coordsDown.length = N := l2.trans hSN
  refine ⟨b, b', hnew, hb', l1', l2', ?_⟩
  intro i hi
  have hSi := List.getElem?_eq_getElem (l := S) (i := i) (by omega)
  have gr := List.getElem?_eq_getElem (l := r) (i := i) (by omega)
  have gc := List.getElem?_eq_getElem (l := c) (i := i) (by omega)
  have gp := List.getElem?_eq_getElem (l := p) (i := i) (by omega)
  have gk := List.getElem?_eq_getElem (l := k) (i := i) (by omega)
  have gs := List.getElem?_eq_getElem (l := s) (i := i) (by omega)
  have hsm := hS i _ hSi
  obtain ⟨ref, Q, q1, q2, q3, q4, q5, q6⟩ := hpl i _ _ _ _ _ _ hSi gr gc gp gk gs
  rw [sampled_reference hn hsm (h0 i) (h1 i)] at q1
  obtain rfl := Except.ok.inj q1
  obtain ⟨r1, r2, _⟩ := hrev i Q _ q3 gr
  have e : b.sections.length = N := hSN
  rw [e] at r1 r2
  refine ⟨_, _, r1, r2, ?_, ?_, ?_⟩
  · rw [List.length_map, q4, List.length_map]; exact hsm.2.1
  · rw [List.length_map, q5, List.length_map]; exact (lower_length hsm.1).trans hsm.2.1
  · intro j hj
    obtain ⟨s1, s2⟩ := hsm.2.2 j hj
    rw [List.getElem?_map, List.getElem?_map, q4, q5, List.getElem?_map, List.getElem?_map, s1, s2]
    simp only [g, gd _ _ _ gr, gd _ _ _ gc, gd _ _ _ gp, gd _ _ _ gk, gd _ _ _ gs]
    exact ⟨rfl, rfl⟩

/-- **C153** Refining keeps the points: the coordinates of the blade with `m (n-1) + 1` points per section contain those of the blade with `n`, as every `m`-th point. -/
theorem C153_refined (N : Nat) (hN : 0 < N) (U L : Nat → ℝ → Pt) (h0 : ∀ i, U i 0 = L i 0) (h1 : ∀ i, U i 1 = L i 1) (r c p k s : Arr)
    (hr : r.length = N) (hc : c.length = N) (hp : p.length = N) (hk : k.length = N) (hs : s.length = N) (hz : ∀ x ∈ r, x ≠ 0) (refl : Bool)
    (n m : Nat) (hn : 2 ≤ n) (hm : 1 ≤ m) (S S' : List Profile) (hS : S.length = N) (hS' : S'.length = N)
    (g : ∀ (i : Nat) (P : Profile), S[i]? = some P → P.SampledFrom (U i) (L i) n)
    (g' : ∀ (i : Nat) (P : Profile), S'[i]? = some P → P.SampledFrom (U i) (L i) (m * (n - 1) + 1)) :
    ∃ a a' b b', Blade.new S r c p k s none none = .ok a ∧ a.applyTransformations refl = (a', .ok ()) ∧
      Blade.new S' r c p k s none none = .ok b ∧ b.applyTransformations refl = (b', .ok ()) ∧
      ∀ i : Nat, i < N → ∃ u d u' d', a'.coordsUp[i]? = some u ∧ a'.coordsDown[i]? = some d ∧ b'.coordsUp[i]? = some u' ∧ b'.coordsDown[i]? = some d' ∧
        u.length = n ∧ d.length = n ∧ u'.length = m * (n - 1) + 1 ∧ d'.length = m * (n - 1) + 1 ∧
        ∀ j : Nat, j < n → u'[m * j]? = u[j]? ∧ d'[m * j]? = d[j]? := by
  obtain ⟨up, lo, -, -, -, H⟩ := C153_curves N hN U L h0 h1 r c p k s hr hc hp hk hs hz refl
  have hN' : 2 ≤ m * (n - 1) + 1 := by
    have := Nat.mul_le_mul hm (show 1 ≤ n - 1 by omega)
    omega
  obtain ⟨a, a', a1, a2, _, _, ha⟩ := H n S hn hS g
  obtain ⟨b, b', b1, b2, -, -, hb⟩ := H (m * (n - 1) + 1) S' hN' hS' g'
  generalize hM : m * (n - 1) + 1 = M at *
  refine ⟨a, a', b, b', a1, a2, b1, b2, fun i hi => ?_⟩
  obtain ⟨u, d, x1, x2, x3, x4, x5⟩ := ha (N - 1 - i) (by omega)
  obtain ⟨u', d', y1, y2, y3, y4, y5⟩ := hb (N - 1 - i) (by omega)
  rw [show N - 1 - (N - 1 - i) = i by omega] at x1 x2 y1 y2
  refine ⟨u, d, u', d', x1, x2, y1, y2, x3, x4, y3, y4, fun j hj => ?_⟩
  have hlt : m * j < M := by rw [← hM]; exact Nat.lt_succ_of_le (Nat.mul_le_mul_left m (by omega))
  have e : ((m * j : Nat) : ℝ) / ((M : ℝ) - 1) = (j : ℝ) / ((n : ℝ) - 1) := by
    have e1 : ((n - 1 : Nat) : ℝ) = (n : ℝ) - 1 := by rw [Nat.cast_sub (by omega)]; simp
    have e2 : (m : ℝ) ≠ 0 := by positivity
    rw [← hM]
    push_cast
    rw [e1, add_sub_cancel_right, mul_div_mul_left _ _ e2]
  obtain ⟨f1, f2⟩ := x5 j hj
  obtain ⟨f3, f4⟩ := y5 (m * j) hlt
  rw [e] at f3 f4
  exact ⟨f3.trans f1.symm, f4.trans f2.symm⟩

/-- **C153** From some number of points on, neighbouring points of a section of the blade are nearer than any given distance, and every point of its two curves is that near to a stored one. -/
theorem C153_dense (N : Nat) (hN : 0 < N) (U L : Nat → ℝ → Pt) (h0 : ∀ i, U i 0 = L i 0) (h1 : ∀ i, U i 1 = L i 1) (hUc : ∀ i, Continuous (U i))
    (hLc : ∀ i, Continuous (L i)) (r c p k s : Arr)
    (hr : r.length = N) (hc : c.length = N) (hp : p.length = N) (hk : k.length = N) (hs : s.length = N) (hz : ∀ x ∈ r, x ≠ 0) (refl : Bool) :
    ∃ up lo : Nat → ℝ → Pt3, (∀ i, Continuous (up i)) ∧ (∀ i, Continuous (lo i)) ∧ ∀ ε : ℝ, 0 < ε → ∃ M : Nat, ∀ (n : Nat) (S : List Profile), M ≤ n → S.length = N →
      (∀ (i : Nat) (P : Profile), S[i]? = some P → P.SampledFrom (U i) (L i) n) →
      ∃ b b', Blade.new S r c p k s none none = .ok b ∧ b.applyTransformations refl = (b', .ok ()) ∧
        ∀ i : Nat, i < N → ∃ l l', b'.coordsUp[N - 1 - i]? = some l ∧ b'.coordsDown[N - 1 - i]? = some l' ∧
          (∀ (j : Nat) (x y : Pt3), l[j]? = some x → l[j + 1]? = some y → dist x y < ε) ∧
          (∀ (j : Nat) (x y : Pt3), l'[j]? = some x → l'[j + 1]? = some y → dist x y < ε) ∧
          ∀ t : ℝ, 0 ≤ t → t ≤ 1 → (∃ x ∈ l, dist x (up i t) < ε) ∧ ∃ x ∈ l', dist x (lo i t) < ε := by
  obtain ⟨up, lo, cu, cl, _, H⟩ := C153_curves N hN U L h0 h1 r c p k s hr hc hp hk hs hz refl
  refine ⟨up, lo, fun i => cu i (hUc i), fun i => cl i (hLc i), fun ε hε => ?_⟩
  have uc : ∀ f : ℝ → Pt3, Continuous f → ∃ δ > 0, ∀ a ∈ Set.Icc (0 : ℝ) 1, ∀ b ∈ Set.Icc (0 : ℝ) 1, dist a b < δ → dist (f a) (f b) < ε := by
    intro f hf
    have := (isCompact_Icc (a := (0 : ℝ)) (b := 1)).uniformContinuousOn_of_continuous hf.continuousOn
    exact Metric.uniformContinuousOn_iff.1 this ε hε
  have all : ∀ K : Nat, ∃ δ > 0, ∀ i, i < K → (∀ a ∈ Set.Icc (0 : ℝ) 1, ∀ b ∈ Set.Icc (0 : ℝ) 1, dist a b < δ → dist (up i a) (up i b) < ε) ∧
      ∀ a ∈ Set.Icc (0 : ℝ) 1, ∀ b ∈ Set.Icc (0 : ℝ) 1, dist a b < δ → dist (lo i a) (lo i b) < ε := by
    intro K
    induction K with
    | zero => exact ⟨1, one_pos, fun i hi => absurd hi (by omega)⟩
    | succ K ih =>
      obtain ⟨δ, hδ, h⟩ := ih
      obtain ⟨δ1, hδ1, g1⟩ := uc _ (cu K (hUc K))
      obtain ⟨δ2, hδ2, g2⟩ := uc _ (cl K (hLc K))
      refine ⟨min δ (min δ1 δ2), lt_min hδ (lt_min hδ1 hδ2), fun i hi => ?_⟩
      rcases Nat.lt_succ_iff_lt_or_eq.1 hi with h' | rfl
      · exact ⟨fun a ha b hb hd => (h i h').1 a ha b hb (lt_of_lt_of_le hd (min_le_left _ _)),
          fun a ha b hb hd => (h i h').2 a ha b hb (lt_of_lt_of_le hd (min_le_left _ _))⟩
      · exact ⟨fun a ha b hb hd => g1 a ha b hb (lt_of_lt_of_le hd ((min_le_right _ _).trans (min_le_left _ _))),
          fun a ha b hb hd => g2 a ha b hb (lt_of_lt_of_le hd ((min_le_right _ _).trans (min_le_right _ _)))⟩
  obtain ⟨δ, hδ, hall⟩ := all N
  obtain ⟨M, hM⟩ := exists_nat_gt (1 / δ)
  refine ⟨M + 2, fun n S hn hS hSm => ?_⟩
  obtain ⟨b, b', b1, b2, _, _, hb⟩ := H n S (by omega) hS hSm
  refine ⟨b, b', b1, b2, fun i hi => ?_⟩
  obtain ⟨l, l', x1, x2, x3, x4, x5⟩ := hb i hi
  obtain ⟨hu, hl⟩ := hall i hi
  have hnR : (M : ℝ) + 1 ≤ (n : ℝ) - 1 := by
    have : ((M + 2 : Nat) : ℝ) ≤ (n : ℝ) := by exact_mod_cast hn
    push_cast at this; linarith
  have hpos : 0 < (n : ℝ) - 1 := by have : (0 : ℝ) ≤ M := Nat.cast_nonneg _; linarith
  have hstep : 1 / ((n : ℝ) - 1) < δ := by
    rw [div_lt_iff₀ hpos]
    rw [div_lt_iff₀ hδ] at hM
    nlinarith
  have mem : ∀ (j : Nat), j < n → (j : ℝ) / ((n : ℝ) - 1) ∈ Set.Icc (0 : ℝ) 1 := by
    intro j hj
    have : (j : ℝ) ≤ (n : ℝ) - 1 := by
      have : ((j + 1 : Nat) : ℝ) ≤ (n : ℝ) := by exact_mod_cast hj
      push_cast at this; linarith
    exact ⟨by positivity, by rw [div_le_one hpos]; exact this⟩
  have nb : ∀ (j : Nat), dist ((j : ℝ) / ((n : ℝ) - 1)) (((j + 1 : Nat) : ℝ) / ((n : ℝ) - 1)) < δ := by
    intro j
    rw [Real.dist_eq, ← sub_div]
    push_cast
    rw [show (j : ℝ) - (j + 1) = -1 by ring, neg_div, abs_neg, abs_of_pos (by positivity)]
    exact hstep
  have near : ∀ t : ℝ, 0 ≤ t → t ≤ 1 → ∃ j : Nat, j < n ∧ dist ((j : ℝ) / ((n : ℝ) - 1)) t < δ := by
    intro t t0 t1
    refine ⟨⌊t * ((n : ℝ) - 1)⌋₊, ?_, ?_⟩
    · have a := Nat.floor_le (show 0 ≤ t * ((n : ℝ) - 1) by positivity)
      have b : t * ((n : ℝ) - 1) < n := by nlinarith
      exact_mod_cast lt_of_le_of_lt a b
    · have a := Nat.floor_le (show 0 ≤ t * ((n : ℝ) - 1) by positivity)
      have b := Nat.lt_floor_add_one (t * ((n : ℝ) - 1))
      refine lt_of_le_of_lt ?_ hstep
      rw [Real.dist_eq, abs_sub_comm]
      set f : ℝ := (⌊t * ((n : ℝ) - 1)⌋₊ : ℝ)
      have e : t - f / ((n : ℝ) - 1) = (t * ((n : ℝ) - 1) - f) / ((n : ℝ) - 1) := by field_simp
      rw [e, abs_div, abs_of_pos hpos, abs_of_nonneg (by linarith)]
      exact div_le_div_of_nonneg_right (by linarith) hpos.le
  refine ⟨l, l', x1, x2, ?_, ?_, ?_⟩
  · intro j x y hx hy
    have a := (List.getElem?_eq_some_iff.1 hx).1
    have b := (List.getElem?_eq_some_iff.1 hy).1
    rw [(x5 j (by omega)).1] at hx
    rw [(x5 (j + 1) (by omega)).1] at hy
    cases hx; cases hy
    exact hu _ (mem _ (by omega)) _ (mem _ (by omega)) (nb j)
  · intro j x y hx hy
    have a := (List.getElem?_eq_some_iff.1 hx).1
    have b := (List.getElem?_eq_some_iff.1 hy).1
    rw [(x5 j (by omega)).2] at hx
    rw [(x5 (j + 1) (by omega)).2] at hy
    cases hx; cases hy
    exact hl _ (mem _ (by omega)) _ (mem _ (by omega)) (nb j)
  · intro t t0 t1
    obtain ⟨j, hj, hd⟩ := near t t0 t1
    exact ⟨⟨_, List.mem_of_getElem? (x5 j hj).1, hu _ (mem j hj) _ ⟨t0, t1⟩ hd⟩, ⟨_, List.mem_of_getElem? (x5 j hj).2, hl _ (mem j hj) _ ⟨t0, t1⟩ hd⟩⟩

/-- **C153** In particular for blades of NACA foils: the foils of one designation and spacing are sampled from two continuous curves with common end points, whatever the spline look-up
returns; so the theorems above apply to `NacaProfile(digits, n)` at every station. -/
theorem C153_naca (american : Profile → Res Arr) (look : Naca.LookUp) (digits : List Char) (cosine : Bool) :
    ∃ U L : ℝ → Pt, Continuous U ∧ Continuous L ∧ U 0 = L 0 ∧ U 1 = L 1 ∧
      ∀ (n : Nat) (Q : Profile), Naca.ctor american look (.str digits) (.int n) cosine = .ok Q → Q.SampledFrom U L n := by
  obtain ⟨t, c, θ, hc, hθ, _, _, H⟩ := Naca.generated_any look digits cosine
  have hy := Naca.continuous_half t
  refine ⟨fun s => (s - nacaHalfThickness t s * Real.sin (θ s), c s + nacaHalfThickness t s * Real.cos (θ s)),
    fun s => (s + nacaHalfThickness t s * Real.sin (θ s), c s - nacaHalfThickness t s * Real.cos (θ s)),
    by fun_prop, by fun_prop, by simp [Naca.half_zero], by simp [Naca.half_one], ?_⟩
  intro n Q hQ
  obtain ⟨P, hP, x1, x2, x3, x4⟩ := naca_ctor_coords hQ
  have eP := H n P hP
  have eu : Q.upper = P.upper := by simp [Profile.upper, x1, x3]
  have el : Q.lower = P.lower := by simp [Profile.lower, x2, x4]
  obtain ⟨hU, hx⟩ := Naca.spread_uniform n (nacaHalfThickness t) c θ
  rw [← eP] at hU
  refine ⟨?_, ?_, ?_⟩
  · obtain ⟨u1, u2, u3⟩ := hU
    unfold Profile.Uniform
    rw [x1, x2, x3, x4]
    exact ⟨u1, u2, u3⟩
  · rw [eu, eP]
    simp [Profile.upper, Naca.spread, linspaceN_length]
  · intro j hj
    rw [eu, el, eP]
    exact Naca.spread_get hj

/-- The hypotheses are met: a blade of two NACA 4412 sections with 11 and with 31 points. -/
example (american : Profile → Res Arr) (look : Naca.LookUp) (Q R : Profile)
    (hQ : Naca.ctor american look (.str ['4', '4', '1', '2']) (.int 11) true = .ok Q)
    (hR : Naca.ctor american look (.str ['4', '4', '1', '2']) (.int 31) true = .ok R) :
    ∃ a a' b b', Blade.new [Q, Q] [1, 2] [1, 3] [2, 4] [0, 1] [0, 10] none none = .ok a ∧ a.applyTransformations true = (a', .ok ()) ∧
      Blade.new [R, R] [1, 2] [1, 3] [2, 4] [0, 1] [0, 10] none none = .ok b ∧ b.applyTransformations true = (b', .ok ()) ∧
      ∃ u u', a'.coordsUp[0]? = some u ∧ b'.coordsUp[0]? = some u' ∧ u.length = 11 ∧ u'.length = 31 ∧ u'[15]? = u[5]? := by
  obtain ⟨U, L, _, _, h0, h1, H⟩ := C153_naca american look ['4', '4', '1', '2'] true
  have two : ∀ (P : Profile) (n : Nat), P.SampledFrom U L n → ∀ (i : Nat) (P' : Profile), [P, P][i]? = some P' → P'.SampledFrom U L n := by
    intro P n h i P' hi
    rcases i with _ | _ | i
    · obtain rfl := Option.some.inj hi; exact h
    · obtain rfl := Option.some.inj hi; exact h
    · simp at hi
  obtain ⟨a, a', b, b', a1, a2, b1, b2, h⟩ := C153_refined 2 (by norm_num) (fun _ => U) (fun _ => L) (fun _ => h0) (fun _ => h1) [1, 2] [1, 3] [2, 4] [0, 1] [0, 10]
    rfl rfl rfl rfl rfl (by norm_num) true 11 3 (by norm_num) (by norm_num) [Q, Q] [R, R] rfl rfl (two Q 11 (H 11 Q hQ)) (two R 31 (H 31 R hR))
  obtain ⟨u, d, u', d', g1, _, g3, _, g5, _, g7, _, g9⟩ := h 0 (by norm_num)
  exact ⟨a, a', b, b', a1, a2, b1, b2, u, u', g1, g3, g5, g7, (g9 5 (by norm_num)).1⟩

/-- Such foils exist. -/
example (american : Profile → Res Arr) (look : Naca.LookUp) : ∃ Q R, Naca.ctor american look (.str ['4', '4', '1', '2']) (.int 11) true = .ok Q ∧
    Naca.ctor american look (.str ['4', '4', '1', '2']) (.int 31) true = .ok R := by
  obtain ⟨Q, hQ, _⟩ := C21_four_digits american look '4' '4' '1' '2' (by decide) (by decide) (by decide) (by decide) 11 (by norm_num) true
  obtain ⟨R, hR, _⟩ := C21_four_digits american look '4' '4' '1' '2' (by decide) (by decide) (by decide) (by decide) 31 (by norm_num) true
  exact ⟨Q, R, hQ, hR⟩

end
end BladeX
