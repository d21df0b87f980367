import Verif.Props.Interp1d
import Verif.Spec.ReverseCut
import Mathlib.Analysis.Calculus.MeanValue
import Mathlib.Topology.Order.IntermediateValue

/-! # Lemmas about sections recovered with the cubic `interp1d` -/

namespace BladeX
noncomputable section
open Classical Spec Reverse

/-- The sampled points of a curve. -/
def sampled (n : Nat) (T : ℝ → Pt) : List Pt := (List.range n).map fun i : Nat => T ((i : ℝ) / ((n : ℝ) - 1))

theorem mem_sampled {n : Nat} {T : ℝ → Pt} {p : Pt} : p ∈ sampled n T ↔ ∃ i < n, T ((i : ℝ) / ((n : ℝ) - 1)) = p := by simp [sampled]

theorem sampled_ends {n : Nat} (hn : 2 ≤ n) {T : ℝ → Pt} (hTe : (T 0 = (1, 0) ∧ T 1 = (0, 0)) ∨ (T 0 = (0, 0) ∧ T 1 = (1, 0))) :
    ((0, 0) : Pt) ∈ sampled n T ∧ ((1, 0) : Pt) ∈ sampled n T := by
  have hn1 : ((n : ℝ) - 1) ≠ 0 := by
    have : (2 : ℝ) ≤ n := by exact_mod_cast hn
    linarith
  have last : ((n - 1 : Nat) : ℝ) / ((n : ℝ) - 1) = 1 := by
    rw [Nat.cast_sub (by omega), Nat.cast_one, div_self hn1]
  have zero : ((0 : Nat) : ℝ) / ((n : ℝ) - 1) = 0 := by simp
  rcases hTe with ⟨q1, q2⟩ | ⟨q1, q2⟩
  · exact ⟨mem_sampled.2 ⟨n - 1, by omega, by rw [last, q2]⟩, mem_sampled.2 ⟨0, by omega, by rw [zero, q1]⟩⟩
  · exact ⟨mem_sampled.2 ⟨0, by omega, by rw [zero, q1]⟩, mem_sampled.2 ⟨n - 1, by omega, by rw [last, q2]⟩⟩

/-- What a resampled surface is. -/
theorem resample_function {interp : List Pt → Res (ℝ → ℝ)} {n : Nat} {l : List Pt} {v : Arr} (hn : 2 ≤ n)
    (h : resample interp n l = .ok v) (h01 : ∀ p ∈ l, 0 ≤ p.1 ∧ p.1 ≤ 1) (h0 : ((0, 0) : Pt) ∈ l) (h1 : ((1, 0) : Pt) ∈ l) :
    ∃ f, interp (l.mergeSort lexLe2) = .ok f ∧ v.length = n ∧ v[0]? = some 0 ∧ v[n - 1]? = some 0 ∧
      ∀ j : Nat, 0 < j → j < n - 1 → v[j]? = some (f ((j : ℝ) / ((n : ℝ) - 1))) := by
  obtain ⟨l', f, e1, e2, e3⟩ := resample_ok.1 h
  rw [prepared_unit h01 ⟨_, h0, rfl⟩ ⟨_, h1, rfl⟩] at e1
  obtain rfl := Except.ok.inj e1
  obtain ⟨z1, z2, z3, z4⟩ := zeroEnds_get e3
  have hlen : ((linspaceN 0 1 n).map f).length = n := by simp [linspaceN]
  rw [hlen] at z1 z3 z4
  refine ⟨f, e2, z1, z2, z3, fun j hj hj' => ?_⟩
  rw [z4 j hj hj', List.getElem?_map, linspaceN_get (by omega), Option.map_some]

/-- The rows of a recovered section: the interpolations of the sampled points. -/
theorem shape_functions {interp : List Pt → Res (ℝ → ℝ)} {n : Nat} {R : ℝ} {T B : ℝ → Pt} {G : SectionGeom} {S : Section}
    (hT : ∀ t ∈ Set.Icc (0 : ℝ) 1, 0 ≤ (T t).1 ∧ (T t).1 ≤ 1) (hB : ∀ t ∈ Set.Icc (0 : ℝ) 1, 0 ≤ (B t).1 ∧ (B t).1 ≤ 1)
    (hTe : (T 0 = (1, 0) ∧ T 1 = (0, 0)) ∨ (T 0 = (0, 0) ∧ T 1 = (1, 0))) (hBe : (B 0 = (1, 0) ∧ B 1 = (0, 0)) ∨ (B 0 = (0, 0) ∧ B 1 = (1, 0)))
    (hGT : ∀ t ∈ Set.Icc (0 : ℝ) 1, frame (unrolled R G.leading) (unrolled R G.trailing) (unrolled R (G.top t)) = flipY (T t))
    (hGB : ∀ t ∈ Set.Icc (0 : ℝ) 1, frame (unrolled R G.leading) (unrolled R G.trailing) (unrolled R (G.bottom t)) = flipY (B t))
    (h : sectionBladeX interp n R G = .ok S) :
    2 ≤ n ∧ ∃ σ : ℝ, ((σ = 1 ∨ σ = -1) ∧ ((∀ p ∈ sampled n T, (∀ q ∈ sampled n T, |q.2| ≤ |p.2|) → 0 < p.2) → σ = 1) ∧
        ((∀ p ∈ sampled n T, (∀ q ∈ sampled n T, |q.2| ≤ |p.2|) → p.2 ≤ 0) → σ = -1)) ∧ ∃ fT fB,
      interp (((sampled n T).map fun p => (p.1, σ * p.2)).mergeSort lexLe2) = .ok fT ∧
      interp (((sampled n B).map fun p => (p.1, σ * p.2)).mergeSort lexLe2) = .ok fB ∧
      (S.yup.length = n ∧ S.yup[0]? = some 0 ∧ S.yup[n - 1]? = some 0 ∧
        ∀ j : Nat, 0 < j → j < n - 1 → S.yup[j]? = some (fT ((j : ℝ) / ((n : ℝ) - 1)))) ∧
      (S.ydown.length = n ∧ S.ydown[0]? = some 0 ∧ S.ydown[n - 1]? = some 0 ∧
        ∀ j : Nat, 0 < j → j < n - 1 → S.ydown[j]? = some (fB ((j : ℝ) / ((n : ℝ) - 1)))) := by
  obtain ⟨hn, hn5, _, _, _, t, b, yu, yd, ho, hu, hd, rfl⟩ := sectionBladeX_ok.1 h
  have hn1 : 0 < ((n : ℝ) - 1) := by
    have : (2 : ℝ) ≤ n := by exact_mod_cast hn
    linarith
  have hs : ∀ i < n, (i : ℝ) / ((n : ℝ) - 1) ∈ Set.Icc (0 : ℝ) 1 := by
    intro i hi
    have : (i : ℝ) + 1 ≤ n := by exact_mod_cast hi
    exact ⟨by positivity, (div_le_one hn1).2 (by linarith)⟩
  have e1 : ((List.range n).map fun i : Nat => unrolled R (G.top ((i : ℝ) / ((n : ℝ) - 1)))).map
      (frame (unrolled R G.leading) (unrolled R G.trailing)) = (sampled n T).map flipY := by
    rw [sampled, List.map_map, List.map_map]
    apply List.map_congr_left
    intro i hi
    exact hGT _ (hs i (List.mem_range.1 hi))
  have e2 : ((List.range n).map fun i : Nat => unrolled R (G.bottom ((i : ℝ) / ((n : ℝ) - 1)))).map
      (frame (unrolled R G.leading) (unrolled R G.trailing)) = (sampled n B).map flipY := by
    rw [sampled, List.map_map, List.map_map]
    apply List.map_congr_left
    intro i hi
    exact hGB _ (hs i (List.mem_range.1 hi))
  have hne : sampled n T ≠ [] := by
    intro h; have := congrArg List.length h; simp [sampled] at this; omega
  obtain ⟨σ, o1, o2⟩ := oriented_flip (B := sampled n B) hne
  rw [e1, e2, o1] at ho
  obtain ⟨rfl, rfl⟩ := Prod.mk.inj (Except.ok.inj ho)
  have key : ∀ (X : ℝ → Pt) (v : Arr), (∀ t ∈ Set.Icc (0 : ℝ) 1, 0 ≤ (X t).1 ∧ (X t).1 ≤ 1) →
      ((X 0 = (1, 0) ∧ X 1 = (0, 0)) ∨ (X 0 = (0, 0) ∧ X 1 = (1, 0))) →
      resample interp n ((sampled n X).map fun p => (p.1, σ * p.2)) = .ok v →
      ∃ f, interp (((sampled n X).map fun p => (p.1, σ * p.2)).mergeSort lexLe2) = .ok f ∧ v.length = n ∧ v[0]? = some 0 ∧ v[n - 1]? = some 0 ∧
        ∀ j : Nat, 0 < j → j < n - 1 → v[j]? = some (f ((j : ℝ) / ((n : ℝ) - 1))) := by
    intro X v hX hXe hv
    obtain ⟨m0, m1⟩ := sampled_ends hn hXe
    refine resample_function hn hv ?_ (List.mem_map.2 ⟨_, m0, by simp⟩) (List.mem_map.2 ⟨_, m1, by simp⟩)
    intro q hq
    obtain ⟨q', hq', rfl⟩ := List.mem_map.1 hq
    obtain ⟨i, hi, rfl⟩ := mem_sampled.1 hq'
    exact hX _ (hs i hi)
  obtain ⟨fT, t1, t2, t3, t4, t5⟩ := key T yu hT hTe hu
  obtain ⟨fB, b1, b2, b3, b4, b5⟩ := key B yd hB hBe hd
  exact ⟨hn, σ, o2, fT, fB, t1, b1, ⟨t2, t3, t4, t5⟩, b2, b3, b4, b5⟩

/-- Which way round a section comes out, told from the upper surface alone. -/
theorem sampled_sign {n : Nat} (hn : 3 ≤ n) {T : ℝ → Pt} {g : ℝ → ℝ} (hT : GraphOf g T) (hTe : EdgeToEdge T)
    (hd : ((sampled n T).map Prod.fst).Nodup) :
    ((∀ x, 0 < x → x < 1 → 0 < g x) → ∀ p ∈ sampled n T, (∀ q ∈ sampled n T, |q.2| ≤ |p.2|) → 0 < p.2) ∧
    ((∀ x, 0 < x → x < 1 → g x < 0) → ∀ p ∈ sampled n T, (∀ q ∈ sampled n T, |q.2| ≤ |p.2|) → p.2 ≤ 0) := by
  have hn1 : 0 < ((n : ℝ) - 1) := by
    have : (3 : ℝ) ≤ n := by exact_mod_cast hn
    linarith
  have hs : ∀ i < n, (i : ℝ) / ((n : ℝ) - 1) ∈ Set.Icc (0 : ℝ) 1 := by
    intro i hi
    have : (i : ℝ) + 1 ≤ n := by exact_mod_cast hi
    exact ⟨by positivity, (div_le_one hn1).2 (by linarith)⟩
  have hval : ∀ p ∈ sampled n T, 0 ≤ p.1 ∧ p.1 ≤ 1 ∧ p.2 = g p.1 := by
    intro p hp
    obtain ⟨i, hi, rfl⟩ := mem_sampled.1 hp
    exact hT _ (hs i hi)
  have hg : g 0 = 0 ∧ g 1 = 0 := by
    obtain ⟨m0, m1⟩ := sampled_ends (by omega) hTe (n := n)
    exact ⟨(hval _ m0).2.2.symm, (hval _ m1).2.2.symm⟩
  -- a sampled point strictly between the edges
  obtain ⟨q, hq, hq0, hq1⟩ : ∃ q ∈ sampled n T, 0 < q.1 ∧ q.1 < 1 := by
    have hmem : T ((1 : Nat) / ((n : ℝ) - 1)) ∈ sampled n T := mem_sampled.2 ⟨1, by omega, rfl⟩
    have hne : ∀ j, j < n → j ≠ 1 → (T ((j : ℝ) / ((n : ℝ) - 1))).1 ≠ (T (((1 : Nat) : ℝ) / ((n : ℝ) - 1))).1 := by
      intro j hj hj1 he
      have hl : ((sampled n T).map Prod.fst).length = n := by simp [sampled]
      have := (List.nodup_iff_injective_get.1 hd) (a₁ := ⟨j, by omega⟩) (a₂ := ⟨1, by omega⟩) (by
        simp only [List.get_eq_getElem, sampled, List.getElem_map, List.getElem_range]
        exact he)
      exact hj1 (by simpa using this)
    have z : T 0 = T (((0 : Nat) : ℝ) / ((n : ℝ) - 1)) := by simp
    have l : T 1 = T (((n - 1 : Nat) : ℝ) / ((n : ℝ) - 1)) := by
      rw [Nat.cast_sub (by omega), Nat.cast_one, div_self hn1.ne']
    have h0 := hne 0 (by omega) (by omega)
    have h1 := hne (n - 1) (by omega) (by omega)
    rw [← z] at h0
    rw [← l] at h1
    obtain ⟨a, b, _⟩ := hval _ hmem
    refine ⟨_, hmem, ?_⟩
    rcases hTe with ⟨e0, e1⟩ | ⟨e0, e1⟩
    · rw [e0] at h0; rw [e1] at h1
      exact ⟨lt_of_le_of_ne a h1, lt_of_le_of_ne b (Ne.symm h0)⟩
    · rw [e0] at h0; rw [e1] at h1
      exact ⟨lt_of_le_of_ne a h0, lt_of_le_of_ne b (Ne.symm h1)⟩
  have hcase : ∀ p ∈ sampled n T, (0 < p.1 ∧ p.1 < 1) ∨ p.2 = 0 := by
    intro p hp
    obtain ⟨a, b, e⟩ := hval p hp
    rcases a.eq_or_lt with h | h
    · right; rw [e, ← h, hg.1]
    rcases b.eq_or_lt with h' | h'
    · right; rw [e, h', hg.2]
    exact Or.inl ⟨h, h'⟩
  constructor
  · intro hpos p hp hdom
    rcases hcase p hp with ⟨a, b⟩ | h0
    · rw [(hval p hp).2.2]; exact hpos _ a b
    · have := hdom q hq
      rw [h0, abs_zero, (hval q hq).2.2] at this
      exact absurd (hpos _ hq0 hq1) (by rw [abs_nonpos_iff.1 this]; exact lt_irrefl _)
  · intro hneg p hp _
    rcases hcase p hp with ⟨a, b⟩ | h0
    · rw [(hval p hp).2.2]; exact (hneg _ a b).le
    · exact h0.le

/-- Along a steady curve the abscissa changes at most at the speed, and at least at a fixed fraction of it. -/
theorem Spec.Steady.gaps {L D : ℝ} {T : ℝ → Pt} (h : Steady L D T) (hL : 0 < L) {s t : ℝ} (hs : 0 ≤ s) (hst : s < t) (ht : t ≤ 1) :
    |(T t).1 - (T s).1| ≤ L * (t - s) ∧ L * (t - s) ≤ Real.sqrt (1 + D ^ 2) * |(T t).1 - (T s).1| := by
  obtain ⟨x', y', h⟩ := h
  have sub : ∀ z ∈ Set.Icc s t, z ∈ Set.Icc (0 : ℝ) 1 := fun z hz => ⟨hs.trans hz.1, hz.2.trans ht⟩
  obtain ⟨c, hc, e⟩ := exists_hasDerivAt_eq_slope (fun t => (T t).1) x' hst
    (fun z hz => (h z (sub z hz)).1.continuousAt.continuousWithinAt) (fun z hz => (h z (sub z (Set.Ioo_subset_Icc_self hz))).1)
  obtain ⟨-, -, hv, hsl⟩ := h c (sub c (Set.Ioo_subset_Icc_self hc))
  have hp : 0 < t - s := sub_pos.2 hst
  have ex : (T t).1 - (T s).1 = x' c * (t - s) := by rw [e]; field_simp
  rw [ex, abs_mul, abs_of_pos hp]
  have h1 : |x' c| ≤ L := by
    refine abs_le_of_sq_le_sq ?_ hL.le
    nlinarith [sq_nonneg (y' c)]
  have h2 : L ≤ Real.sqrt (1 + D ^ 2) * |x' c| := by
    apply le_of_sq_le_sq _ (by positivity)
    rw [mul_pow, Real.sq_sqrt (by positivity), sq_abs, ← hv]
    have : y' c ^ 2 ≤ (D * |x' c|) ^ 2 := sq_le_sq' (by linarith [neg_abs_le (y' c)]) ((le_abs_self _).trans hsl)
    rw [mul_pow, sq_abs] at this
    linarith
  exact ⟨mul_le_mul_of_nonneg_right h1 hp.le, by nlinarith⟩

/-- The abscissa along a steady curve grows or falls throughout. -/
theorem Spec.Steady.mono {L D : ℝ} {T : ℝ → Pt} (h : Steady L D T) (hL : 0 < L) :
    StrictMonoOn (fun t => (T t).1) (Set.Icc 0 1) ∨ StrictAntiOn (fun t => (T t).1) (Set.Icc 0 1) := by
  have hinj : Set.InjOn (fun t => (T t).1) (Set.Icc (0 : ℝ) 1) := by
    intro a ha b hb hab
    by_contra hne
    rcases lt_or_gt_of_ne hne with hlt | hlt
    · have := (h.gaps hL ha.1 hlt hb.2).2
      simp only at hab
      rw [hab, sub_self, abs_zero, mul_zero] at this
      nlinarith
    · have := (h.gaps hL hb.1 hlt ha.2).2
      simp only at hab
      rw [hab, sub_self, abs_zero, mul_zero] at this
      nlinarith
  have hc : ContinuousOn (fun t => (T t).1) (Set.Icc (0 : ℝ) 1) := by
    obtain ⟨x', y', h⟩ := h
    exact fun z hz => (h z hz).1.continuousAt.continuousWithinAt
  exact hc.strictMonoOn_of_injOn_Icc' zero_le_one hinj

/-- Accuracy at nodes whose gaps are comparable. -/
theorem nodes_accuracy {n : Nat} (hn : 4 ≤ n) {u : Nat → ℝ} {w ρ K : ℝ} {f g : ℝ → ℝ} (hρ : 0 ≤ ρ) (hw : 0 < w)
    (hgap : ∀ i, i + 1 < n → u i < u (i + 1) ∧ u (i + 1) - u i ≤ w ∧ w ≤ ρ * (u (i + 1) - u i)) (h0 : u 0 = 0) (h1 : u (n - 1) = 1)
    (hg : BendBy K 0 1 g) (hf : interp1d ((List.range n).map fun i => (u i, g (u i))) = .ok f) :
    ∀ t ∈ Set.Icc (0 : ℝ) 1, |f t - g t| ≤ (2 + 3 * ρ) / 4 * K * w ^ 2 := by
  have hmono : ∀ i j, i ≤ j → j < n → u i ≤ u j := by
    intro i j hij
    induction j, hij using Nat.le_induction with
    | base => exact fun _ => le_rfl
    | succ j hj ih => exact fun h => (ih (by omega)).trans (hgap j h).1.le
  have get : ∀ (i : Nat) (p : Pt), ((List.range n).map fun i => (u i, g (u i)))[i]? = some p → i < n ∧ p = (u i, g (u i)) := by
    intro i p h
    rw [List.getElem?_map] at h
    rcases Nat.lt_or_ge i n with hi | hi
    · rw [List.getElem?_range hi, Option.map_some] at h
      exact ⟨hi, (Option.some.inj h).symm⟩
    · rw [List.getElem?_eq_none (by simpa using hi)] at h; cases h
  have mem : ∀ p ∈ (List.range n).map fun i => (u i, g (u i)), ∃ i < n, p = (u i, g (u i)) := by
    intro p hp
    obtain ⟨i, hi, rfl⟩ := List.mem_map.1 hp
    exact ⟨i, List.mem_range.1 hi, rfl⟩
  have hI : ((List.range n).map fun i => (u i, g (u i))).Pairwise fun p q : Pt => p.1 < q.1 := by
    refine List.pairwise_map.2 ?_
    refine List.pairwise_lt_range.imp_of_mem ?_
    intro i j _ hj hij
    exact (hgap i (by have := List.mem_range.1 hj; omega)).1.trans_le (hmono _ _ hij (List.mem_range.1 hj))
  have len : ((List.range n).map fun i => (u i, g (u i))).length = n := by simp
  intro t ht
  refine C115_accuracy _ hI f g hf K 0 1 w ρ hg ?_ ?_ ?_ hρ ?_ ?_ (u 0, g (u 0)) (List.mem_map.2 ⟨0, List.mem_range.2 (by omega), rfl⟩)
    (u (n - 1), g (u (n - 1))) (List.mem_map.2 ⟨n - 1, List.mem_range.2 (by omega), rfl⟩) t (by rw [h0]; exact ht.1) (by rw [h1]; exact ht.2)
  · intro p hp
    obtain ⟨i, hi, rfl⟩ := mem p hp
    exact ⟨h0 ▸ hmono 0 i (Nat.zero_le _) hi, h1 ▸ hmono i (n - 1) (by omega) (by omega)⟩
  · intro p hp
    obtain ⟨i, hi, rfl⟩ := mem p hp
    rfl
  · intro i p q hp hq
    obtain ⟨_, rfl⟩ := get _ _ hp
    obtain ⟨h, rfl⟩ := get _ _ hq
    exact (hgap i h).2.1
  · intro p q r hp hq hr
    obtain ⟨_, rfl⟩ := get _ _ hp
    obtain ⟨_, rfl⟩ := get _ _ hq
    obtain ⟨_, rfl⟩ := get _ _ hr
    exact (hgap 0 (by omega)).2.1.trans (hgap 1 (by omega)).2.2
  · intro p q r hp hq hr
    rw [len] at hp hq hr
    obtain ⟨_, rfl⟩ := get _ _ hp
    obtain ⟨_, rfl⟩ := get _ _ hq
    obtain ⟨_, rfl⟩ := get _ _ hr
    have a := hgap (n - 3) (by omega)
    have b := hgap (n - 2) (by omega)
    rw [show n - 3 + 1 = n - 2 by omega] at a
    rw [show n - 2 + 1 = n - 1 by omega] at b
    exact b.2.1.trans a.2.2

theorem Spec.BendBy.sign {K a b σ : ℝ} {g : ℝ → ℝ} (hσ : σ = 1 ∨ σ = -1) (h : BendBy K a b g) : BendBy K a b fun t => σ * g t := by
  intro x hx
  obtain ⟨s, hs⟩ := h x hx
  refine ⟨σ * s, fun t ht => ?_⟩
  have : σ * g t - σ * g x - σ * s * (t - x) = σ * (g t - g x - s * (t - x)) := by ring
  rw [this, abs_mul]
  have : |σ| = 1 := by rcases hσ with rfl | rfl <;> norm_num
  rw [this, one_mul]
  exact hs t ht

/-- Sampling backwards. -/
theorem sampled_reverse {n : Nat} (hn : 2 ≤ n) (T : ℝ → Pt) : sampled n (fun t => T (1 - t)) = (sampled n T).reverse := by
  have hn1 : ((n : ℝ) - 1) ≠ 0 := by
    have : (2 : ℝ) ≤ n := by exact_mod_cast hn
    linarith
  apply List.ext_getElem
  · simp [sampled]
  intro i h1 h2
  have hi : i < n := by simpa [sampled] using h1
  simp only [sampled, List.getElem_reverse, List.getElem_map, List.getElem_range, List.length_map, List.length_range]
  congr 1
  rw [Nat.cast_sub (by omega), Nat.cast_sub (by omega)]
  field_simp
  push_cast
  ring

/-- The interpolation of the points sampled along a steady curve. -/
theorem sampled_accuracy {n : Nat} (hn : 4 ≤ n) {T : ℝ → Pt} {L D K σ : ℝ} {f g : ℝ → ℝ} (hσ : σ = 1 ∨ σ = -1) (hS : Steady L D T) (hL : 0 < L)
    (hT : GraphOf g T) (hTe : EdgeToEdge T) (hg : BendBy K 0 1 g)
    (hf : interp1d (((sampled n T).map fun p => (p.1, σ * p.2)).mergeSort lexLe2) = .ok f) :
    ∀ t ∈ Set.Icc (0 : ℝ) 1, |f t - σ * g t| ≤ (2 + 3 * Real.sqrt (1 + D ^ 2)) / 4 * K * (L / ((n : ℝ) - 1)) ^ 2 := by
  have hn1 : 0 < ((n : ℝ) - 1) := by
    have : (4 : ℝ) ≤ n := by exact_mod_cast hn
    linarith
  have hmem : ∀ i < n, (i : ℝ) / ((n : ℝ) - 1) ∈ Set.Icc (0 : ℝ) 1 := by
    intro i hi
    have : (i : ℝ) + 1 ≤ n := by exact_mod_cast hi
    exact ⟨by positivity, (div_le_one hn1).2 (by linarith)⟩
  have zero : ((0 : Nat) : ℝ) / ((n : ℝ) - 1) = 0 := by simp
  have last : ((n - 1 : Nat) : ℝ) / ((n : ℝ) - 1) = 1 := by
    rw [Nat.cast_sub (by omega), Nat.cast_one, div_self hn1.ne']
  have step : ∀ i : Nat, ((i + 1 : Nat) : ℝ) / ((n : ℝ) - 1) - (i : ℝ) / ((n : ℝ) - 1) = 1 / ((n : ℝ) - 1) := by
    intro i; push_cast; ring
  rw [interp1d_perm (List.mergeSort_perm _ _)] at hf
  have hL' : 0 < L / ((n : ℝ) - 1) := div_pos hL hn1
  rcases hS.mono hL with hm | hm
  · have e01 : (T 0).1 = 0 ∧ (T 1).1 = 1 := by
      rcases hTe with ⟨a, b⟩ | ⟨a, b⟩
      · have := hm (Set.left_mem_Icc.2 zero_le_one) (Set.right_mem_Icc.2 zero_le_one) zero_lt_one
        simp only [a, b] at this; norm_num at this
      · rw [a, b]; exact ⟨rfl, rfl⟩
    refine nodes_accuracy (u := fun i => (T ((i : ℝ) / ((n : ℝ) - 1))).1) hn (Real.sqrt_nonneg _) hL' ?_ ?_ ?_ (hg.sign hσ) ?_
    · intro i hi
      have lt : (i : ℝ) / ((n : ℝ) - 1) < ((i + 1 : Nat) : ℝ) / ((n : ℝ) - 1) := by
        have := step i; have : 0 < 1 / ((n : ℝ) - 1) := by positivity
        linarith
      have hlt := hm (hmem i (by omega)) (hmem (i + 1) hi) lt
      simp only at hlt
      obtain ⟨g1, g2⟩ := hS.gaps hL (hmem i (by omega)).1 lt (hmem (i + 1) hi).2
      rw [step, mul_one_div, abs_of_pos (sub_pos.2 hlt)] at g1 g2
      exact ⟨hlt, g1, g2⟩
    · rw [zero]; exact e01.1
    · rw [last]; exact e01.2
    · rw [sampled, List.map_map] at hf
      rw [← hf]
      congr 1
      apply List.map_congr_left
      intro i hi
      have := (hT _ (hmem i (List.mem_range.1 hi))).2.2
      simp only [Function.comp]
      rw [this]
  · have e01 : (T 0).1 = 1 ∧ (T 1).1 = 0 := by
      rcases hTe with ⟨a, b⟩ | ⟨a, b⟩
      · rw [a, b]; exact ⟨rfl, rfl⟩
      · have := hm (Set.left_mem_Icc.2 zero_le_one) (Set.right_mem_Icc.2 zero_le_one) zero_lt_one
        simp only [a, b] at this; norm_num at this
    have hmem' : ∀ i < n, 1 - (i : ℝ) / ((n : ℝ) - 1) ∈ Set.Icc (0 : ℝ) 1 := fun i hi =>
      ⟨by linarith [(hmem i hi).2], by linarith [(hmem i hi).1]⟩
    refine nodes_accuracy (u := fun i => (T (1 - (i : ℝ) / ((n : ℝ) - 1))).1) hn (Real.sqrt_nonneg _) hL' ?_ ?_ ?_ (hg.sign hσ) ?_
    · intro i hi
      have lt : 1 - ((i + 1 : Nat) : ℝ) / ((n : ℝ) - 1) < 1 - (i : ℝ) / ((n : ℝ) - 1) := by
        have := step i; have : 0 < 1 / ((n : ℝ) - 1) := by positivity
        linarith
      have hlt := hm (hmem' (i + 1) hi) (hmem' i (by omega)) lt
      simp only at hlt
      obtain ⟨g1, g2⟩ := hS.gaps hL (hmem' (i + 1) hi).1 lt (hmem' i (by omega)).2
      have st := step i
      have st' : (1 - (i : ℝ) / ((n : ℝ) - 1)) - (1 - ((i + 1 : Nat) : ℝ) / ((n : ℝ) - 1)) = 1 / ((n : ℝ) - 1) := by linarith
      rw [st', mul_one_div, abs_sub_comm, abs_of_pos (sub_pos.2 hlt)] at g1 g2
      exact ⟨hlt, g1, g2⟩
    · rw [zero, sub_zero]; exact e01.2
    · rw [last, sub_self]; exact e01.1
    · have hrev : ((sampled n T).map fun p => (p.1, σ * p.2)).Perm ((sampled n fun t => T (1 - t)).map fun p => (p.1, σ * p.2)) := by
        rw [sampled_reverse (by omega)]
        exact (List.reverse_perm _).symm.map _
      rw [interp1d_perm hrev, sampled, List.map_map] at hf
      rw [← hf]
      congr 1
      apply List.map_congr_left
      intro i hi
      have := (hT _ (hmem' i (List.mem_range.1 hi))).2.2
      simp only [Function.comp]
      rw [this]

end
end BladeX
