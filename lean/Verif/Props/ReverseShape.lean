import Verif.Props.Reverse

/-! # C61, C62, C64, C72: the recovered sections, the generic class, the reconstruction methods -/

namespace BladeX
noncomputable section
open Spec Classical Reverse

/-- The point of the section lies on the cylinder at an angle between -pi and pi. -/
def InRange (refl : Bool) (r c P k s : ℝ) (p : Pt) : Prop :=
  -Real.pi < angleOn refl r c P k s p ∧ angleOn refl r c P k s p ≤ Real.pi

/-- `interp` is an interpolation: the function it makes takes the given values at the given abscissae. -/
def Interpolates (interp : List Pt → Res (ℝ → ℝ)) : Prop := ∀ l f, interp l = .ok f → ∀ p ∈ l, f p.1 = p.2

theorem frame_onBlade {refl : Bool} {r c P k s : ℝ} (hr : 0 < r) (hc : c ≠ 0) (h0 : InRange refl r c P k s (0, 0))
    (h1 : InRange refl r c P k s (1, 0)) {p : Pt} (hp : InRange refl r c P k s p) :
    frame (unrolled (1000 * r) (onBlade refl r c P k s (0, 0))) (unrolled (1000 * r) (onBlade refl r c P k s (1, 0)))
      (unrolled (1000 * r) (onBlade refl r c P k s p)) = flipY p := by
  have u0 := unrolled_wrap (q := placed refl r c P k s (1 / 2, 0) (0, 0)) hr h0
  have u1 := unrolled_wrap (q := placed refl r c P k s (1 / 2, 0) (1, 0)) hr h1
  have up := unrolled_wrap (q := placed refl r c P k s (1 / 2, 0) p) hr hp
  rw [← onBlade_eq] at u0 u1 up
  rw [u0, u1, up, ← chordFrame_placed refl r c P k s p 1000, frame_chordFrame]
  exact (stored_of_edges (refl := refl) (P := P) (k := k) (s := s) hr hc rfl 0 (Or.inl ⟨by simp, by simp⟩)).1

theorem frame_onBlade' {refl : Bool} {r c P k s : ℝ} (hr : 0 < r) (hc : c ≠ 0) (h0 : InRange refl r c P k s (0, 0))
    (h1 : InRange refl r c P k s (1, 0)) {p : Pt} (hp : InRange refl r c P k s p) :
    frame (unrolled (1000 * r) (onBlade refl r c P k s (1, 0))) (unrolled (1000 * r) (onBlade refl r c P k s (0, 0)))
      (unrolled (1000 * r) (onBlade refl r c P k s p)) = (1 - p.1, p.2) := by
  have u0 := unrolled_wrap (q := placed refl r c P k s (1 / 2, 0) (0, 0)) hr h0
  have u1 := unrolled_wrap (q := placed refl r c P k s (1 / 2, 0) (1, 0)) hr h1
  have up := unrolled_wrap (q := placed refl r c P k s (1 / 2, 0) p) hr hp
  rw [← onBlade_eq] at u0 u1 up
  rw [u0, u1, up, ← chordFrame_placed' refl r c P k s p 1000, frame_chordFrame]
  exact (stored_of_edges (refl := refl) (P := P) (k := k) (s := s) hr hc rfl 0 (Or.inr ⟨by simp, by simp⟩)).1

/-- Values of a resampled surface at the abscissae of its points. -/
theorem resample_value {interp : List Pt → Res (ℝ → ℝ)} (hi : Interpolates interp) {n : Nat} (hn : 2 ≤ n) {l : List Pt} {v : Arr}
    (h : resample interp n l = .ok v) (h01 : ∀ p ∈ l, 0 ≤ p.1 ∧ p.1 ≤ 1) (h0 : (0, 0) ∈ l) (h1 : (1, 0) ∈ l) {p : Pt} (hp : p ∈ l) {j : Nat}
    (hj : j < n) (hpj : p.1 = (j : ℝ) / ((n : ℝ) - 1)) : v[j]? = some p.2 := by
  obtain ⟨l', f, e1, e2, e3⟩ := resample_ok.1 h
  rw [prepared_unit h01 ⟨_, h0, rfl⟩ ⟨_, h1, rfl⟩] at e1
  obtain rfl := Except.ok.inj e1
  have hf : ∀ q ∈ l, f q.1 = q.2 := fun q hq => hi _ f e2 q (List.mem_mergeSort.2 hq)
  obtain ⟨z1, z2, z3, z4⟩ := zeroEnds_get e3
  have hlen : ((linspaceN 0 1 n).map f).length = n := by simp [linspaceN]
  rw [hlen] at z3 z4
  have hn1 : ((n : ℝ) - 1) ≠ 0 := by
    have : (2 : ℝ) ≤ n := by exact_mod_cast hn
    linarith
  rcases Nat.eq_zero_or_pos j with rfl | hj0
  · have : p.2 = 0 := by
      rw [← hf p hp, hpj, Nat.cast_zero, zero_div]; exact hf (0, 0) h0
    rw [z2, this]
  · rcases Nat.lt_or_ge j (n - 1) with hlt | hge
    · rw [z4 j hj0 hlt, List.getElem?_map, linspaceN_get hj, Option.map_some, ← hpj, hf p hp]
    · have hjn : j = n - 1 := by omega
      have : p.2 = 0 := by
        rw [← hf p hp, hpj, hjn, Nat.cast_sub (by omega), Nat.cast_one, div_self hn1]; exact hf (1, 0) h1
      rw [hjn, z3, this]

/-- What the two theorems below have in common. -/
theorem shape_core (interp : List Pt → Res (ℝ → ℝ)) (hinterp : Interpolates interp) (n : Nat) (R : ℝ) (T B : ℝ → Pt)
    (G : SectionGeom) (S : Section)
    (hT : ∀ t, 0 ≤ (T t).1 ∧ (T t).1 ≤ 1) (hB : ∀ t, 0 ≤ (B t).1 ∧ (B t).1 ≤ 1)
    (hTe : (T 0 = (1, 0) ∧ T 1 = (0, 0)) ∨ (T 0 = (0, 0) ∧ T 1 = (1, 0))) (hBe : (B 0 = (1, 0) ∧ B 1 = (0, 0)) ∨ (B 0 = (0, 0) ∧ B 1 = (1, 0)))
    (hGT : ∀ t, frame (unrolled R G.leading) (unrolled R G.trailing) (unrolled R (G.top t)) = flipY (T t))
    (hGB : ∀ t, frame (unrolled R G.leading) (unrolled R G.trailing) (unrolled R (G.bottom t)) = flipY (B t))
    (h : sectionBladeX interp n R G = .ok S) :
    ∃ σ : ℝ, (σ = 1 ∨ σ = -1) ∧
      (∀ i j : Nat, i < n → j < n → (T ((i : ℝ) / ((n : ℝ) - 1))).1 = (j : ℝ) / ((n : ℝ) - 1) →
        S.yup[j]? = some (σ * (T ((i : ℝ) / ((n : ℝ) - 1))).2)) ∧
      (∀ i j : Nat, i < n → j < n → (B ((i : ℝ) / ((n : ℝ) - 1))).1 = (j : ℝ) / ((n : ℝ) - 1) →
        S.ydown[j]? = some (σ * (B ((i : ℝ) / ((n : ℝ) - 1))).2)) ∧
      ((∀ i : Nat, i < n → (∀ m : Nat, m < n → |(T ((m : ℝ) / ((n : ℝ) - 1))).2| ≤ |(T ((i : ℝ) / ((n : ℝ) - 1))).2|) →
        0 < (T ((i : ℝ) / ((n : ℝ) - 1))).2) → σ = 1) ∧
      ((∀ i : Nat, i < n → (∀ m : Nat, m < n → |(T ((m : ℝ) / ((n : ℝ) - 1))).2| ≤ |(T ((i : ℝ) / ((n : ℝ) - 1))).2|) →
        (T ((i : ℝ) / ((n : ℝ) - 1))).2 ≤ 0) → σ = -1) := by
  obtain ⟨hn, hn5, _, _, _, t, b, yu, yd, ho, hu, hd, rfl⟩ := sectionBladeX_ok.1 h
  set Ts : List Pt := (List.range n).map fun i : Nat => T ((i : ℝ) / ((n : ℝ) - 1)) with hTs
  set Bs : List Pt := (List.range n).map fun i : Nat => B ((i : ℝ) / ((n : ℝ) - 1)) with hBs
  have mT : ∀ p, p ∈ Ts ↔ ∃ i < n, T ((i : ℝ) / ((n : ℝ) - 1)) = p := by intro p; simp [hTs]
  have mB : ∀ p, p ∈ Bs ↔ ∃ i < n, B ((i : ℝ) / ((n : ℝ) - 1)) = p := by intro p; simp [hBs]
  have hn1 : ((n : ℝ) - 1) ≠ 0 := by
    have : (2 : ℝ) ≤ n := by exact_mod_cast hn
    linarith
  have last : ((n - 1 : Nat) : ℝ) / ((n : ℝ) - 1) = 1 := by
    rw [Nat.cast_sub (by omega), Nat.cast_one, div_self hn1]
  have zero : ((0 : Nat) : ℝ) / ((n : ℝ) - 1) = 0 := by simp
  have e1 : ((List.range n).map fun i : Nat => unrolled R (G.top ((i : ℝ) / ((n : ℝ) - 1)))).map
      (frame (unrolled R G.leading) (unrolled R G.trailing)) = Ts.map flipY := by
    rw [hTs, List.map_map, List.map_map]
    apply List.map_congr_left
    intro i _
    exact hGT _
  have e2 : ((List.range n).map fun i : Nat => unrolled R (G.bottom ((i : ℝ) / ((n : ℝ) - 1)))).map
      (frame (unrolled R G.leading) (unrolled R G.trailing)) = Bs.map flipY := by
    rw [hBs, List.map_map, List.map_map]
    apply List.map_congr_left
    intro i _
    exact hGB _
  have hne : Ts ≠ [] := by
    intro h; have := congrArg List.length h; simp [hTs] at this; omega
  obtain ⟨σ, o1, o2, o3, o4⟩ := oriented_flip (B := Bs) hne
  rw [e1, e2, o1] at ho
  obtain ⟨rfl, rfl⟩ := Prod.mk.inj (Except.ok.inj ho)
  have T0 : (1, 0) ∈ Ts := by
    rcases hTe with ⟨q1, q2⟩ | ⟨q1, q2⟩
    · exact (mT _).2 ⟨0, by omega, by rw [zero, q1]⟩
    · exact (mT _).2 ⟨n - 1, by omega, by rw [last, q2]⟩
  have T1 : (0, 0) ∈ Ts := by
    rcases hTe with ⟨q1, q2⟩ | ⟨q1, q2⟩
    · exact (mT _).2 ⟨n - 1, by omega, by rw [last, q2]⟩
    · exact (mT _).2 ⟨0, by omega, by rw [zero, q1]⟩
  have B0 : (1, 0) ∈ Bs := by
    rcases hBe with ⟨q1, q2⟩ | ⟨q1, q2⟩
    · exact (mB _).2 ⟨0, by omega, by rw [zero, q1]⟩
    · exact (mB _).2 ⟨n - 1, by omega, by rw [last, q2]⟩
  have B1 : (0, 0) ∈ Bs := by
    rcases hBe with ⟨q1, q2⟩ | ⟨q1, q2⟩
    · exact (mB _).2 ⟨n - 1, by omega, by rw [last, q2]⟩
    · exact (mB _).2 ⟨0, by omega, by rw [zero, q1]⟩
  refine ⟨σ, o2, ?_, ?_, ?_, ?_⟩
  · intro i j hi hj hij
    apply resample_value hinterp hn hu (p := ((T ((i : ℝ) / ((n : ℝ) - 1))).1, σ * (T ((i : ℝ) / ((n : ℝ) - 1))).2)) _ _ _ _ hj hij
    · intro q hq
      obtain ⟨q', hq', rfl⟩ := List.mem_map.1 hq
      obtain ⟨i', _, rfl⟩ := (mT _).1 hq'
      exact hT _
    · exact List.mem_map.2 ⟨_, T1, by simp⟩
    · exact List.mem_map.2 ⟨_, T0, by simp⟩
    · exact List.mem_map.2 ⟨_, (mT _).2 ⟨i, hi, rfl⟩, rfl⟩
  · intro i j hi hj hij
    apply resample_value hinterp hn hd (p := ((B ((i : ℝ) / ((n : ℝ) - 1))).1, σ * (B ((i : ℝ) / ((n : ℝ) - 1))).2)) _ _ _ _ hj hij
    · intro q hq
      obtain ⟨q', hq', rfl⟩ := List.mem_map.1 hq
      obtain ⟨i', _, rfl⟩ := (mB _).1 hq'
      exact hB _
    · exact List.mem_map.2 ⟨_, B1, by simp⟩
    · exact List.mem_map.2 ⟨_, B0, by simp⟩
    · exact List.mem_map.2 ⟨_, (mB _).2 ⟨i, hi, rfl⟩, rfl⟩
  · intro hd
    apply o3
    intro p hp hmax
    obtain ⟨i, hi, rfl⟩ := (mT _).1 hp
    exact hd i hi fun m hm => hmax _ ((mT _).2 ⟨m, hm, rfl⟩)
  · intro hd
    apply o4
    intro p hp hmax
    obtain ⟨i, hi, rfl⟩ := (mT _).1 hp
    exact hd i hi fun m hm => hmax _ ((mT _).2 ⟨m, hm, rfl⟩)

/-- **C61** the round trip of the shape: the kernel's section of a blade at the radius `1000 r` consists of the points into which the blade
takes the curves `T` (upper) and `B` (lower) of the original foil, which lie over the unit chord and contain both edges among the sampled points.
Then at every abscissa of the common grid at which a sampled point of the foil lies, the stored ordinate is that of the foil, times a
common sign for both surfaces; the sign is +1 if the points of the upper curve farthest from the chord lie above it, -1 if they all lie
below. -/
theorem C61_shape (interp : List Pt → Res (ℝ → ℝ)) (hinterp : Interpolates interp) (n : Nat) (refl : Bool) (r c P k s : ℝ) (T B : ℝ → Pt)
    (G : SectionGeom) (S : Section) (hr : 0 < r) (hc : c ≠ 0)
    (hrange : ∀ p, (0 ≤ p.1 ∧ p.1 ≤ 1) → (p ∈ Set.range T ∨ p ∈ Set.range B ∨ p = (0, 0) ∨ p = (1, 0)) → InRange refl r c P k s p)
    (hT : ∀ t, 0 ≤ (T t).1 ∧ (T t).1 ≤ 1) (hB : ∀ t, 0 ≤ (B t).1 ∧ (B t).1 ≤ 1)
    (hTe : (T 0 = (1, 0) ∧ T 1 = (0, 0)) ∨ (T 0 = (0, 0) ∧ T 1 = (1, 0))) (hBe : (B 0 = (1, 0) ∧ B 1 = (0, 0)) ∨ (B 0 = (0, 0) ∧ B 1 = (1, 0)))
    (hle : G.leading = onBlade refl r c P k s (0, 0)) (hte : G.trailing = onBlade refl r c P k s (1, 0))
    (hGT : ∀ t, G.top t = onBlade refl r c P k s (T t)) (hGB : ∀ t, G.bottom t = onBlade refl r c P k s (B t))
    (h : sectionBladeX interp n (1000 * r) G = .ok S) :
    ∃ σ : ℝ, (σ = 1 ∨ σ = -1) ∧
      (∀ i j : Nat, i < n → j < n → (T ((i : ℝ) / ((n : ℝ) - 1))).1 = (j : ℝ) / ((n : ℝ) - 1) →
        S.yup[j]? = some (σ * (T ((i : ℝ) / ((n : ℝ) - 1))).2)) ∧
      (∀ i j : Nat, i < n → j < n → (B ((i : ℝ) / ((n : ℝ) - 1))).1 = (j : ℝ) / ((n : ℝ) - 1) →
        S.ydown[j]? = some (σ * (B ((i : ℝ) / ((n : ℝ) - 1))).2)) ∧
      ((∀ i : Nat, i < n → (∀ m : Nat, m < n → |(T ((m : ℝ) / ((n : ℝ) - 1))).2| ≤ |(T ((i : ℝ) / ((n : ℝ) - 1))).2|) →
        0 < (T ((i : ℝ) / ((n : ℝ) - 1))).2) → σ = 1) ∧
      ((∀ i : Nat, i < n → (∀ m : Nat, m < n → |(T ((m : ℝ) / ((n : ℝ) - 1))).2| ≤ |(T ((i : ℝ) / ((n : ℝ) - 1))).2|) →
        (T ((i : ℝ) / ((n : ℝ) - 1))).2 ≤ 0) → σ = -1) := by
  have h0 := hrange (0, 0) (by norm_num) (by simp)
  have h1 := hrange (1, 0) (by norm_num) (by simp)
  apply shape_core interp hinterp n (1000 * r) T B G S hT hB hTe hBe _ _ h
  · intro t
    rw [hGT, hle, hte]
    exact frame_onBlade hr hc h0 h1 (hrange _ (hT _) (Or.inl ⟨_, rfl⟩))
  · intro t
    rw [hGB, hle, hte]
    exact frame_onBlade hr hc h0 h1 (hrange _ (hB _) (Or.inr (Or.inl ⟨_, rfl⟩)))

/-- **C61** if the kernel's "leading" end of the upper curve is the trailing edge of the blade, the recovered section runs backwards: the
stored ordinate at the abscissa `j / (n - 1)` is (up to the common sign) the one of the foil at `1 - j / (n - 1)`. -/
theorem C61_exchanged (interp : List Pt → Res (ℝ → ℝ)) (hinterp : Interpolates interp) (n : Nat) (refl : Bool) (r c P k s : ℝ) (T B : ℝ → Pt)
    (G : SectionGeom) (S : Section) (hr : 0 < r) (hc : c ≠ 0)
    (hrange : ∀ p, (0 ≤ p.1 ∧ p.1 ≤ 1) → (p ∈ Set.range T ∨ p ∈ Set.range B ∨ p = (0, 0) ∨ p = (1, 0)) → InRange refl r c P k s p)
    (hT : ∀ t, 0 ≤ (T t).1 ∧ (T t).1 ≤ 1) (hB : ∀ t, 0 ≤ (B t).1 ∧ (B t).1 ≤ 1)
    (hTe : (T 0 = (1, 0) ∧ T 1 = (0, 0)) ∨ (T 0 = (0, 0) ∧ T 1 = (1, 0))) (hBe : (B 0 = (1, 0) ∧ B 1 = (0, 0)) ∨ (B 0 = (0, 0) ∧ B 1 = (1, 0)))
    (hle : G.leading = onBlade refl r c P k s (1, 0)) (hte : G.trailing = onBlade refl r c P k s (0, 0))
    (hGT : ∀ t, G.top t = onBlade refl r c P k s (T t)) (hGB : ∀ t, G.bottom t = onBlade refl r c P k s (B t))
    (h : sectionBladeX interp n (1000 * r) G = .ok S) :
    ∃ σ : ℝ, (σ = 1 ∨ σ = -1) ∧
      (∀ i j : Nat, i < n → j < n → (T ((i : ℝ) / ((n : ℝ) - 1))).1 = 1 - (j : ℝ) / ((n : ℝ) - 1) →
        S.yup[j]? = some (σ * (T ((i : ℝ) / ((n : ℝ) - 1))).2)) ∧
      (∀ i j : Nat, i < n → j < n → (B ((i : ℝ) / ((n : ℝ) - 1))).1 = 1 - (j : ℝ) / ((n : ℝ) - 1) →
        S.ydown[j]? = some (σ * (B ((i : ℝ) / ((n : ℝ) - 1))).2)) := by
  have h0 := hrange (0, 0) (by norm_num) (by simp)
  have h1 := hrange (1, 0) (by norm_num) (by simp)
  obtain ⟨σ, s1, s2, s3, _⟩ := shape_core interp hinterp n (1000 * r) (fun t => (1 - (T t).1, -(T t).2)) (fun t => (1 - (B t).1, -(B t).2)) G S
    (fun t => ⟨by linarith [(hT t).2], by linarith [(hT t).1]⟩) (fun t => ⟨by linarith [(hB t).2], by linarith [(hB t).1]⟩)
    (by rcases hTe with ⟨q1, q2⟩ | ⟨q1, q2⟩
        · right; simp [q1, q2]
        · left; simp [q1, q2])
    (by rcases hBe with ⟨q1, q2⟩ | ⟨q1, q2⟩
        · right; simp [q1, q2]
        · left; simp [q1, q2])
    (by
      intro t
      rw [hGT, hle, hte, frame_onBlade' hr hc h0 h1 (hrange _ (hT _) (Or.inl ⟨_, rfl⟩))]
      simp [flipY])
    (by
      intro t
      rw [hGB, hle, hte, frame_onBlade' hr hc h0 h1 (hrange _ (hB _) (Or.inr (Or.inl ⟨_, rfl⟩)))]
      simp [flipY]) h
  refine ⟨-σ, ?_, ?_, ?_⟩
  · rcases s1 with rfl | rfl
    · right; rfl
    · left; norm_num
  · intro i j hi hj hij
    rw [s2 i j hi hj (by simp only; rw [hij]; ring)]
    congr 1; ring
  · intro i j hi hj hij
    rw [s3 i j hi hj (by simp only; rw [hij]; ring)]
    congr 1; ring

/-- An interpolation: defined where the points are those of a function. -/
def Sample.exactInterp (l : List Pt) : Res (ℝ → ℝ) :=
  if ∀ p ∈ l, ∀ q ∈ l, p.1 = q.1 → p.2 = q.2 then .ok fun x => ((l.find? fun p => decide (p.1 = x)).getD (0, 0)).2 else .error .valueError

theorem Sample.exactInterp_interpolates : Interpolates Sample.exactInterp := by
  intro l f h p hp
  unfold Sample.exactInterp at h
  split_ifs at h with hf
  obtain rfl := Except.ok.inj h
  have : ∃ q, l.find? (fun q => decide (q.1 = p.1)) = some q := by
    rcases hq : l.find? (fun q => decide (q.1 = p.1)) with _ | q
    · rw [List.find?_eq_none] at hq
      exact absurd (decide_eq_true rfl) (hq p hp)
    · exact ⟨q, hq⟩
  obtain ⟨q, hq⟩ := this
  simp only [hq, Option.getD_some]
  have h1 := List.find?_some hq
  exact hf q (List.mem_of_find?_eq_some hq) p hp (by simpa using h1)

/-- The hypotheses of C61 are met: a lens-shaped foil of a blade with radius 1, chord 1, pitch 2, sampled at five points. -/
example : ∃ (T B : ℝ → Pt) (G : SectionGeom) (S : Section),
    (∀ p, (0 ≤ p.1 ∧ p.1 ≤ 1) → (p ∈ Set.range T ∨ p ∈ Set.range B ∨ p = (0, 0) ∨ p = (1, 0)) → InRange true 1 1 2 0 0 p) ∧
    (∀ t, 0 ≤ (T t).1 ∧ (T t).1 ≤ 1) ∧ (∀ t, 0 ≤ (B t).1 ∧ (B t).1 ≤ 1) ∧ T 0 = (1, 0) ∧ T 1 = (0, 0) ∧ B 0 = (1, 0) ∧ B 1 = (0, 0) ∧
    (∀ t, G.top t = onBlade true 1 1 2 0 0 (T t)) ∧ (∀ t, G.bottom t = onBlade true 1 1 2 0 0 (B t)) ∧
    G.leading = onBlade true 1 1 2 0 0 (0, 0) ∧ G.trailing = onBlade true 1 1 2 0 0 (1, 0) ∧
    sectionBladeX Sample.exactInterp 5 (1000 * 1) G = .ok S ∧ (T (1 / 2)).2 = 1 / 4 := by
  let clip : ℝ → ℝ := fun t => max 0 (min 1 (1 - t))
  have hclip : ∀ t, 0 ≤ clip t ∧ clip t ≤ 1 := fun t => ⟨le_max_left _ _, max_le (by norm_num) (min_le_left _ _)⟩
  have hprod : ∀ x : ℝ, 0 ≤ x ∧ x ≤ 1 → 0 ≤ x * (1 - x) ∧ x * (1 - x) ≤ 1 / 4 := fun x hx =>
    ⟨mul_nonneg hx.1 (by linarith [hx.2]), by nlinarith [sq_nonneg (x - 1 / 2)]⟩
  let T : ℝ → Pt := fun t => (clip t, clip t * (1 - clip t))
  let B : ℝ → Pt := fun t => (clip t, -(clip t * (1 - clip t)) / 2)
  let G : SectionGeom := ⟨onBlade true 1 1 2 0 0 (0, 0), onBlade true 1 1 2 0 0 (1, 0), fun _ => 0, fun t => onBlade true 1 1 2 0 0 (T t),
    fun t => onBlade true 1 1 2 0 0 (B t), fun _ => onBlade true 1 1 2 0 0 (0, 0)⟩
  have hT : ∀ t, 0 ≤ (T t).1 ∧ (T t).1 ≤ 1 := hclip
  have hB : ∀ t, 0 ≤ (B t).1 ∧ (B t).1 ≤ 1 := hclip
  have c0 : clip 0 = 1 := by norm_num [clip]
  have c1 : clip 1 = 0 := by norm_num [clip]
  have T0 : T 0 = (1, 0) := by simp [T, c0]
  have T1 : T 1 = (0, 0) := by simp [T, c1]
  have B0 : B 0 = (1, 0) := by simp [B, c0]
  have B1 : B 1 = (0, 0) := by simp [B, c1]
  have hrange : ∀ p : Pt, (0 ≤ p.1 ∧ p.1 ≤ 1) → (p ∈ Set.range T ∨ p ∈ Set.range B ∨ p = (0, 0) ∨ p = (1, 0)) → InRange true 1 1 2 0 0 p := by
    intro p hx hp
    have hy : |p.2| ≤ 1 := by
      rcases hp with ⟨t, rfl⟩ | ⟨t, rfl⟩ | rfl | rfl
      · obtain ⟨a, b⟩ := hprod _ (hclip t)
        rw [abs_le]; exact ⟨by simp only [T]; linarith, by simp only [T]; linarith⟩
      · obtain ⟨a, b⟩ := hprod _ (hclip t)
        rw [abs_le]; exact ⟨by simp only [B]; linarith, by simp only [B]; linarith⟩
      · norm_num
      · norm_num
    have hpi := Real.pi_gt_three
    have h1 := Real.abs_cos_le_one (Real.arctan (2 / (2 * Real.pi * 1)))
    have h2 := Real.abs_sin_le_one (Real.arctan (2 / (2 * Real.pi * 1)))
    have e : angleOn true 1 1 2 0 0 p = -(Real.cos (Real.arctan (2 / (2 * Real.pi * 1))) * (p.1 - 1 / 2)) -
        Real.sin (Real.arctan (2 / (2 * Real.pi * 1))) * p.2 := by
      simp only [angleOn, placed, if_true]; ring
    have a1 : |Real.cos (Real.arctan (2 / (2 * Real.pi * 1))) * (p.1 - 1 / 2)| ≤ 1 * 1 := by
      rw [abs_mul]; exact mul_le_mul h1 (by rw [abs_le]; constructor <;> linarith [hx.1, hx.2]) (abs_nonneg _) (by norm_num)
    have a2 : |Real.sin (Real.arctan (2 / (2 * Real.pi * 1))) * p.2| ≤ 1 * 1 := by
      rw [abs_mul]; exact mul_le_mul h2 hy (abs_nonneg _) (by norm_num)
    rw [abs_le] at a1 a2
    unfold InRange
    rw [e]
    constructor <;> linarith [a1.1, a1.2, a2.1, a2.2]
  have r0 := hrange (0, 0) (by norm_num) (by simp)
  have r1 := hrange (1, 0) (by norm_num) (by simp)
  have hd : (unrolled (1000 * 1) G.leading).2 ≠ (unrolled (1000 * 1) G.trailing).2 := by
    have u0 := unrolled_wrap (q := placed true 1 1 2 0 0 (1 / 2, 0) (0, 0)) one_pos r0
    have u1 := unrolled_wrap (q := placed true 1 1 2 0 0 (1 / 2, 0) (1, 0)) one_pos r1
    rw [← onBlade_eq] at u0 u1
    simp only [G]
    rw [u0, u1]
    exact (stored_of_edges (refl := true) (P := 2) (k := 0) (s := 0) one_pos one_ne_zero rfl 0 (Or.inl ⟨by simp, by simp⟩)).1
  have e1 : ((List.range 5).map fun i : Nat => unrolled (1000 * 1) (G.top ((i : ℝ) / (((5 : Nat) : ℝ) - 1)))).map
      (frame (unrolled (1000 * 1) G.leading) (unrolled (1000 * 1) G.trailing)) =
      ((List.range 5).map fun i : Nat => T ((i : ℝ) / (((5 : Nat) : ℝ) - 1))).map flipY := by
    rw [List.map_map, List.map_map]
    apply List.map_congr_left
    intro i _
    exact frame_onBlade one_pos one_ne_zero r0 r1 (hrange _ (hT _) (Or.inl ⟨_, rfl⟩))
  have e2 : ((List.range 5).map fun i : Nat => unrolled (1000 * 1) (G.bottom ((i : ℝ) / (((5 : Nat) : ℝ) - 1)))).map
      (frame (unrolled (1000 * 1) G.leading) (unrolled (1000 * 1) G.trailing)) =
      ((List.range 5).map fun i : Nat => B ((i : ℝ) / (((5 : Nat) : ℝ) - 1))).map flipY := by
    rw [List.map_map, List.map_map]
    apply List.map_congr_left
    intro i _
    exact frame_onBlade one_pos one_ne_zero r0 r1 (hrange _ (hB _) (Or.inr (Or.inl ⟨_, rfl⟩)))
  obtain ⟨σ, o1, -⟩ := oriented_flip (T := (List.range 5).map fun i : Nat => T ((i : ℝ) / (((5 : Nat) : ℝ) - 1)))
    (B := (List.range 5).map fun i : Nat => B ((i : ℝ) / (((5 : Nat) : ℝ) - 1))) (by simp)
  have res : ∀ (X : ℝ → Pt) (g : ℝ → ℝ), (∀ t, 0 ≤ (X t).1 ∧ (X t).1 ≤ 1) → X 0 = (1, 0) → X 1 = (0, 0) → (∀ t, (X t).2 = g (X t).1) →
      ∃ v, resample Sample.exactInterp 5 (((List.range 5).map fun i : Nat => X ((i : ℝ) / (((5 : Nat) : ℝ) - 1))).map fun p => (p.1, σ * p.2)) = .ok v := by
    intro X g h01 h0 h1 hg
    have hm : ∀ p ∈ ((List.range 5).map fun i : Nat => X ((i : ℝ) / (((5 : Nat) : ℝ) - 1))).map fun p => (p.1, σ * p.2),
        (0 ≤ p.1 ∧ p.1 ≤ 1) ∧ p.2 = σ * g p.1 := by
      intro p hp
      obtain ⟨q, hq, rfl⟩ := List.mem_map.1 hp
      obtain ⟨i, _, rfl⟩ := List.mem_map.1 hq
      exact ⟨h01 _, by simp only [hg]⟩
    have m0 : ((0 : ℝ), (0 : ℝ)) ∈ ((List.range 5).map fun i : Nat => X ((i : ℝ) / (((5 : Nat) : ℝ) - 1))).map fun p => (p.1, σ * p.2) :=
      List.mem_map.2 ⟨(0, 0), List.mem_map.2 ⟨4, by simp, by norm_num [h1]⟩, by simp⟩
    have m1 : ((1 : ℝ), (0 : ℝ)) ∈ ((List.range 5).map fun i : Nat => X ((i : ℝ) / (((5 : Nat) : ℝ) - 1))).map fun p => (p.1, σ * p.2) :=
      List.mem_map.2 ⟨(1, 0), List.mem_map.2 ⟨0, by simp, by norm_num [h0]⟩, by simp⟩
    obtain ⟨_, _, _, _, hz⟩ := zeroEnds_ok (l := (linspaceN 0 1 5).map _) (by simp [linspaceN])
    refine ⟨_, resample_ok.2 ⟨_, _, prepared_unit (fun p hp => (hm p hp).1) ⟨_, m0, rfl⟩ ⟨_, m1, rfl⟩, if_pos ?_, hz⟩⟩
    intro p hp q hq hpq
    rw [(hm p (List.mem_mergeSort.1 hp)).2, (hm q (List.mem_mergeSort.1 hq)).2, hpq]
  obtain ⟨yu, hu⟩ := res T (fun x => x * (1 - x)) hT T0 T1 (fun _ => rfl)
  obtain ⟨yd, hdn⟩ := res B (fun x => -(x * (1 - x)) / 2) hB B0 B1 (fun _ => rfl)
  obtain ⟨p, q, m, hl, hc⟩ := setEnds_ok (l := ((List.range 5).map fun i => unrolledPos (1000 * 1) (G.camber i)).map
    (frame (unrolled (1000 * 1) G.leading) (unrolled (1000 * 1) G.trailing))) (by simp)
  refine ⟨T, B, G, _, hrange, hT, hB, T0, T1, B0, B1, fun _ => rfl, fun _ => rfl, rfl, rfl,
    sectionBladeX_ok.2 ⟨by norm_num, by norm_num, by norm_num, hd, ⟨_, _, hc, if_pos ?_⟩, _, _, yu, yd, by rw [e1, e2, o1], hu, hdn, rfl⟩,
    by norm_num [T, clip]⟩
  have same : ∀ x ∈ p :: (m ++ [q]), x = p := by
    rw [← hl]
    intro x hx
    simp only [G, List.map_map, Function.comp_def, List.mem_map] at hx
    obtain ⟨_, _, rfl⟩ := hx
    have : p ∈ p :: (m ++ [q]) := by simp
    rw [← hl] at this
    simp only [G, List.map_map, Function.comp_def, List.mem_map] at this
    obtain ⟨_, _, h⟩ := this
    exact h
  have hy : ∀ x ∈ (0, p.2) :: (m ++ [(1, q.2)]), x.2 = p.2 := by
    intro x hx
    simp only [List.mem_cons, List.mem_append, List.not_mem_nil, or_false] at hx
    rcases hx with rfl | hx | rfl
    · rfl
    · rw [same x (by simp [hx])]
    · simp only; rw [same q (by simp)]
  intro x hx y hy' _
  rw [hy x (List.mem_mergeSort.1 hx), hy y (List.mem_mergeSort.1 hy')]

end
end BladeX
