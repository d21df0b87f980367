import Verif.Lemmas.InterpRange
import Verif.Lemmas.American

/-! # C115: sections recovered with the cubic interpolation -/

namespace BladeX
noncomputable section
open Classical Spec Reverse

/-- **C115** what `interp1d` does beyond the first and the last abscissa is immaterial to both reverse propellers. -/
theorem C115_in_range (interp : List Pt → Res (ℝ → ℝ)) (h : LikeInterp1d interp) (n : Nat) (R : ℝ) (G : SectionGeom) :
    sectionBladeX interp n R G = sectionBladeX interp1d n R G ∧ sectionGeneric interp n R G = sectionGeneric interp1d n R G :=
  ⟨sectionBladeX_like h n R G, sectionGeneric_like h n R G⟩

theorem Cut.zero {refl : Bool} {r c P k s : ℝ} {T B : ℝ → Pt} {G : SectionGeom} (h : Cut refl r c P k s T B G) :
    InRange refl r c P k s (0, 0) ∧ InRange refl r c P k s (1, 0) := by
  have h0 := h.topRange 0 ⟨le_rfl, zero_le_one⟩
  have h1 := h.topRange 1 ⟨zero_le_one, le_rfl⟩
  rcases h.topEnds with ⟨a, b⟩ | ⟨a, b⟩
  · rw [a] at h0; rw [b] at h1; exact ⟨h1, h0⟩
  · rw [a] at h0; rw [b] at h1; exact ⟨h0, h1⟩

theorem Cut.frames {refl : Bool} {r c P k s : ℝ} {T B : ℝ → Pt} {G : SectionGeom} (h : Cut refl r c P k s T B G) :
    (∀ t ∈ Set.Icc (0 : ℝ) 1, frame (unrolled (1000 * r) G.leading) (unrolled (1000 * r) G.trailing) (unrolled (1000 * r) (G.top t)) = flipY (T t)) ∧
    ∀ t ∈ Set.Icc (0 : ℝ) 1, frame (unrolled (1000 * r) G.leading) (unrolled (1000 * r) G.trailing) (unrolled (1000 * r) (G.bottom t)) = flipY (B t) := by
  obtain ⟨h0, h1⟩ := Cut.zero h
  constructor
  · intro t ht
    rw [h.leading, h.trailing, h.top t ht]
    exact frame_onBlade h.radius h.chord h0 h1 (h.topRange t ht)
  · intro t ht
    rw [h.leading, h.trailing, h.bottom t ht]
    exact frame_onBlade h.radius h.chord h0 h1 (h.bottomRange t ht)

theorem Cut.angles {refl : Bool} {r c P k s : ℝ} {T B : ℝ → Pt} {G : SectionGeom} (h : Cut refl r c P k s T B G) :
    (unrolled (1000 * r) G.leading).2 ≠ (unrolled (1000 * r) G.trailing).2 := by
  obtain ⟨h0, h1⟩ := Cut.zero h
  have u0 := unrolled_wrap (q := placed refl r c P k s (1 / 2, 0) (0, 0)) h.radius h0
  have u1 := unrolled_wrap (q := placed refl r c P k s (1 / 2, 0) (1, 0)) h.radius h1
  rw [← onBlade_eq] at u0 u1
  rw [h.leading, h.trailing, u0, u1]
  exact (stored_of_edges (refl := refl) (P := P) (k := k) (s := s) h.radius h.chord rfl 0 (Or.inl ⟨by simp, by simp⟩)).1

theorem spread_nodup {n : Nat} {T : ℝ → Pt} (σ : ℝ) :
    (((sampled n T).map fun p => (p.1, σ * p.2)).map Prod.fst).Nodup ↔
      ∀ i j, i < j → j < n → (T ((i : ℝ) / ((n : ℝ) - 1))).1 ≠ (T ((j : ℝ) / ((n : ℝ) - 1))).1 := by
  simp only [sampled, List.map_map, Function.comp_def, List.Nodup, List.pairwise_map]
  rw [List.pairwise_iff_getElem]
  simp only [List.length_range, List.getElem_range]
  exact ⟨fun h i j hij hj => h i j (by omega) hj hij, fun h i j _ hj hij => h i j hij hj⟩

/-- A surface can be resampled exactly when its sampled points lie between the edges at different abscissae. -/
theorem resample_accepts {n : Nat} (hn : 4 ≤ n) {T : ℝ → Pt} (hTe : EdgeToEdge T) (σ : ℝ) :
    (∃ v, resample interp1d n ((sampled n T).map fun p => (p.1, σ * p.2)) = .ok v) ↔ Spread n T := by
  obtain ⟨m0, m1⟩ := sampled_ends (n := n) (by omega) hTe
  have m0' : ((0, 0) : Pt) ∈ (sampled n T).map fun p => (p.1, σ * p.2) := List.mem_map.2 ⟨_, m0, by simp⟩
  have m1' : ((1, 0) : Pt) ∈ (sampled n T).map fun p => (p.1, σ * p.2) := List.mem_map.2 ⟨_, m1, by simp⟩
  have len : ((sampled n T).map fun p => (p.1, σ * p.2)).length = n := by simp [sampled]
  constructor
  · rintro ⟨v, hv⟩
    obtain ⟨l', f, e1, e2, e3⟩ := resample_ok.1 hv
    obtain ⟨-, hnd⟩ := (C115_defined _).1.1 ⟨f, e2⟩
    unfold prepared at e1
    have hsl : 2 ≤ (((sampled n T).map fun p => (p.1, σ * p.2)).mergeSort lexLe2).length := by rw [List.length_mergeSort, len]; omega
    obtain ⟨p, q, m, hl, hs⟩ := setEnds_ok hsl
    rw [hs] at e1
    obtain rfl := Except.ok.inj e1
    have hsort := sorted_lex ((sampled n T).map fun p => (p.1, σ * p.2))
    have hmem : ∀ x, x ∈ (sampled n T).map (fun p => (p.1, σ * p.2)) ↔ x = p ∨ x ∈ m ∨ x = q := by
      intro x
      rw [← List.mem_mergeSort (le := lexLe2), hl]
      simp
    rw [hl] at hsort
    have hpq : p.1 ≤ q.1 := (List.pairwise_cons.1 hsort).1 q (by simp)
    have hpm : ∀ x ∈ m, p.1 ≤ x.1 := fun x hx => (List.pairwise_cons.1 hsort).1 x (by simp [hx])
    have hmq : ∀ x ∈ m, x.1 ≤ q.1 := fun x hx => (List.pairwise_append.1 (List.pairwise_cons.1 hsort).2).2.2 x hx q (by simp)
    have hm0 : ∀ x ∈ m, x.1 ≠ 0 ∧ x.1 ≠ 1 := by
      intro x hx
      simp only [List.map_cons, List.map_append, List.map_nil, List.nodup_cons, List.mem_append, List.mem_map, List.nodup_append,
        List.mem_singleton] at hnd
      obtain ⟨h1, h2⟩ := hnd
      refine ⟨fun h => h1 (Or.inl ⟨x, hx, h⟩), fun h => ?_⟩
      exact h2.2.2 x.1 ⟨x, hx, rfl⟩ 1 rfl h
    have hp : p.1 = 0 := by
      rcases (hmem _).1 m0' with h | h | h
      · rw [← h]
      · exact absurd rfl (hm0 _ h).1
      · rcases (hmem _).1 m1' with h' | h' | h'
        · rw [← h, ← h'] at hpq; norm_num at hpq
        · have := hmq _ h'; rw [← h] at this; norm_num at this
        · rw [← h'] at h; simp at h
    have hq : q.1 = 1 := by
      rcases (hmem _).1 m1' with h | h | h
      · rw [← h] at hp; norm_num at hp
      · exact absurd rfl (hm0 _ h).2
      · rw [← h]
    refine ⟨?_, ?_⟩
    · intro i hi
      have hx : ((T ((i : ℝ) / ((n : ℝ) - 1))).1, σ * (T ((i : ℝ) / ((n : ℝ) - 1))).2) ∈ (sampled n T).map fun p => (p.1, σ * p.2) :=
        List.mem_map.2 ⟨_, mem_sampled.2 ⟨i, hi, rfl⟩, rfl⟩
      rcases (hmem _).1 hx with h | h | h
      · rw [← h] at hp hpq; simp only at hp hpq
        exact ⟨hp.ge, hpq.trans hq.le⟩
      · have x1 := hpm _ h; have x2 := hmq _ h
        rw [hp] at x1; rw [hq] at x2
        exact ⟨x1, x2⟩
      · rw [← h] at hq hpq; simp only at hq hpq
        exact ⟨hp ▸ hpq, hq.le⟩
    · rw [← spread_nodup σ, ← ((List.mergeSort_perm ((sampled n T).map fun p => (p.1, σ * p.2)) lexLe2).map Prod.fst).nodup_iff, hl]
      simpa [hp, hq] using hnd
  · rintro ⟨h01, hd⟩
    have hm : ∀ p ∈ (sampled n T).map fun p => (p.1, σ * p.2), 0 ≤ p.1 ∧ p.1 ≤ 1 := by
      intro p hp
      obtain ⟨q, hq, rfl⟩ := List.mem_map.1 hp
      obtain ⟨i, hi, rfl⟩ := mem_sampled.1 hq
      exact h01 i hi
    obtain ⟨f, hf⟩ := (C115_defined (((sampled n T).map fun p => (p.1, σ * p.2)).mergeSort lexLe2)).1.2 ⟨by rw [List.length_mergeSort, len]; exact hn,
      (((List.mergeSort_perm _ lexLe2).map Prod.fst).nodup_iff).2 ((spread_nodup σ).2 hd)⟩
    obtain ⟨_, _, _, _, hz⟩ := zeroEnds_ok (l := (linspaceN 0 1 n).map f) (by simp [linspaceN]; omega)
    exact ⟨_, resample_ok.2 ⟨_, _, prepared_unit hm ⟨_, m0', rfl⟩ ⟨_, m1', rfl⟩, hf, hz⟩⟩

theorem setEnds_range (k : Nat) (C : Nat → Pt) :
    setEnds ((List.range (k + 2)).map C) = .ok ((0, (C 0).2) :: ((List.range k).map (fun i => C (i + 1)) ++ [(1, (C (k + 1)).2)])) := by
  have e : (List.range (k + 2)).map C = C 0 :: ((List.range k).map (fun i => C (i + 1)) ++ [C (k + 1)]) := by
    rw [List.range_succ_eq_map, List.map_cons, List.range_succ, List.map_append, List.map_append, List.map_map]
    rfl
  rw [e]
  obtain ⟨p, q, m, hl, hh⟩ := setEnds_ok (l := C 0 :: ((List.range k).map (fun i => C (i + 1)) ++ [C (k + 1)])) (by simp)
  obtain ⟨hp, hl'⟩ := List.cons.inj hl
  obtain ⟨hm, hq⟩ := List.append_inj' hl' rfl
  obtain ⟨hq, -⟩ := List.cons.inj hq
  rw [hh, ← hp, ← hm, ← hq]

/-- The camber points can be interpolated exactly when the inner ones lie at different abscissae, away from those of the edges. -/
theorem camber_accepts {n : Nat} (hn : 2 ≤ n) (C : Nat → Pt) :
    (∃ c f, setEnds ((List.range n).map C) = .ok c ∧ interp1d (c.mergeSort lexLe2) = .ok f) ↔ 4 ≤ n ∧
      ∀ i, 0 < i → i < n - 1 → (C i).1 ≠ 0 ∧ (C i).1 ≠ 1 ∧ ∀ j, i < j → j < n - 1 → (C i).1 ≠ (C j).1 := by
  obtain ⟨k, rfl⟩ : ∃ k, n = k + 2 := ⟨n - 2, by omega⟩
  have hs := setEnds_range k C
  have key : (∃ c f, setEnds ((List.range (k + 2)).map C) = .ok c ∧ interp1d (c.mergeSort lexLe2) = .ok f) ↔
      4 ≤ k + 2 ∧ (((0, (C 0).2) :: ((List.range k).map (fun i => C (i + 1)) ++ [(1, (C (k + 1)).2)])).map Prod.fst).Nodup := by
    rw [hs]
    constructor
    · rintro ⟨c, f, h1, h2⟩
      obtain rfl := Except.ok.inj h1
      obtain ⟨a, b⟩ := (C115_defined _).1.1 ⟨f, h2⟩
      refine ⟨by simpa using a, (((List.mergeSort_perm _ lexLe2).map Prod.fst).nodup_iff).1 b⟩
    · rintro ⟨a, b⟩
      obtain ⟨f, hf⟩ := (C115_defined (((0, (C 0).2) :: ((List.range k).map (fun i => C (i + 1)) ++ [(1, (C (k + 1)).2)])).mergeSort lexLe2)).1.2
        ⟨by simpa using a, (((List.mergeSort_perm _ lexLe2).map Prod.fst).nodup_iff).2 b⟩
      exact ⟨_, f, rfl, hf⟩
  rw [key]
  apply and_congr_right
  intro _
  simp only [List.map_cons, List.map_append, List.map_nil, List.nodup_cons, List.mem_append, List.mem_map, List.nodup_append, List.mem_singleton,
    List.map_map, Function.comp_def, List.mem_range, List.not_mem_nil, not_false_eq_true, List.nodup_nil, true_and, and_true]
  have hnd : ((List.range k).map fun i => (C (i + 1)).1).Nodup ↔ ∀ i j, i < j → j < k → (C (i + 1)).1 ≠ (C (j + 1)).1 := by
    rw [List.Nodup, List.pairwise_map, List.pairwise_iff_getElem]
    simp only [List.length_range, List.getElem_range]
    exact ⟨fun h i j hij hj => h i j (by omega) hj hij, fun h i j _ hj hij => h i j hij hj⟩
  rw [hnd]
  constructor
  · rintro ⟨h1, h2, h3⟩ i hi0 hi
    obtain ⟨i, rfl⟩ := Nat.exists_eq_succ_of_ne_zero hi0.ne'
    refine ⟨fun h => h1 (Or.inl ⟨i, by omega, h⟩), fun h => h3 _ ⟨i, by omega, rfl⟩ 1 rfl h, fun j hij hj => ?_⟩
    obtain ⟨j, rfl⟩ := Nat.exists_eq_succ_of_ne_zero (show j ≠ 0 by omega)
    exact h2 i j (by omega) (by omega)
  · intro h
    refine ⟨?_, fun i j hij hj => (h (i + 1) (by omega) (by omega)).2.2 (j + 1) (by omega) (by omega), ?_⟩
    · rintro (⟨i, hi, h0⟩ | h0)
      · exact (h (i + 1) (by omega) (by omega)).1 h0
      · norm_num at h0
    · rintro x ⟨i, hi, rfl⟩ y rfl h1
      exact (h (i + 1) (by omega) (by omega)).2.1 h1

/-- **C115** which sections are accepted: between 4 and 500 points, the sampled points of both surfaces between the edges and at different abscissae, the
inner camber points (coordinates `C i` along and across the chord) at different abscissae, none of them that of an edge. Everything else with at least two and at most
500 points raises `ValueError`. -/
theorem C115_accepts (n : Nat) (refl : Bool) (r c P k s : ℝ) (T B : ℝ → Pt) (C : Nat → Pt) (G : SectionGeom) (h : Cut refl r c P k s T B G)
    (hC : ∀ i < n, unrolledPos (1000 * r) (G.camber i) = chordFrame (unrolled (1000 * r) G.leading) (unrolled (1000 * r) G.trailing) (C i)) :
    ((∃ S, sectionBladeX interp1d n (1000 * r) G = .ok S) ↔ (4 ≤ n ∧ n ≤ 500) ∧ Spread n T ∧ Spread n B ∧
      ∀ i, 0 < i → i < n - 1 → (C i).1 ≠ 0 ∧ (C i).1 ≠ 1 ∧ ∀ j, i < j → j < n - 1 → (C i).1 ≠ (C j).1) ∧
    (2 ≤ n → n ≤ 500 → (¬ ∃ S, sectionBladeX interp1d n (1000 * r) G = .ok S) → sectionBladeX interp1d n (1000 * r) G = .error .valueError) := by
  have hd := Cut.angles h
  have hR : 1000 * r ≠ 0 := by have := h.radius; positivity
  constructor
  swap
  · intro h2 h5 hno
    cases hS : sectionBladeX interp1d n (1000 * r) G with
    | ok S => exact absurd ⟨S, hS⟩ hno
    | error e =>
      obtain ⟨l, hl⟩ := sectionBladeX_error h2 h5 hR hd hS
      rw [interp1d_error hl]
  have hcam : (((List.range n).map fun i => unrolledPos (1000 * r) (G.camber i)).map (frame (unrolled (1000 * r) G.leading) (unrolled (1000 * r) G.trailing))) =
      (List.range n).map C := by
    rw [List.map_map]
    apply List.map_congr_left
    intro i hi
    simp only [Function.comp]
    rw [hC i (List.mem_range.1 hi), frame_chordFrame hd]
  obtain ⟨fT, fB⟩ := Cut.frames h
  have hs : 2 ≤ n → ∀ i < n, (i : ℝ) / ((n : ℝ) - 1) ∈ Set.Icc (0 : ℝ) 1 := by
    intro hn i hi
    have hn1 : 0 < ((n : ℝ) - 1) := by
      have : (2 : ℝ) ≤ n := by exact_mod_cast hn
      linarith
    have : (i : ℝ) + 1 ≤ n := by exact_mod_cast hi
    exact ⟨by positivity, (div_le_one hn1).2 (by linarith)⟩
  have e1 : 2 ≤ n → ((List.range n).map fun i : Nat => unrolled (1000 * r) (G.top ((i : ℝ) / ((n : ℝ) - 1)))).map
      (frame (unrolled (1000 * r) G.leading) (unrolled (1000 * r) G.trailing)) = (sampled n T).map flipY := by
    intro hn
    rw [sampled, List.map_map, List.map_map]
    apply List.map_congr_left
    intro i hi
    exact fT _ (hs hn i (List.mem_range.1 hi))
  have e2 : 2 ≤ n → ((List.range n).map fun i : Nat => unrolled (1000 * r) (G.bottom ((i : ℝ) / ((n : ℝ) - 1)))).map
      (frame (unrolled (1000 * r) G.leading) (unrolled (1000 * r) G.trailing)) = (sampled n B).map flipY := by
    intro hn
    rw [sampled, List.map_map, List.map_map]
    apply List.map_congr_left
    intro i hi
    exact fB _ (hs hn i (List.mem_range.1 hi))
  have hne : 2 ≤ n → sampled n T ≠ [] := by
    intro hn h; have := congrArg List.length h; simp [sampled] at this; omega
  constructor
  · rintro ⟨S, hS⟩
    obtain ⟨hn, hn5, _, _, hcc, t, b, yu, yd, ho, hu, hdn, rfl⟩ := sectionBladeX_ok.1 hS
    rw [hcam] at hcc
    obtain ⟨hn4, hcc⟩ := (camber_accepts hn C).1 hcc
    obtain ⟨σ, o1, -⟩ := oriented_flip (B := sampled n B) (hne hn)
    rw [e1 hn, e2 hn, o1] at ho
    obtain ⟨rfl, rfl⟩ := Prod.mk.inj (Except.ok.inj ho)
    exact ⟨⟨hn4, hn5⟩, (resample_accepts hn4 h.topEnds σ).1 ⟨_, hu⟩, (resample_accepts hn4 h.bottomEnds σ).1 ⟨_, hdn⟩, hcc⟩
  · rintro ⟨⟨hn4, hn5⟩, hT, hB, hcc⟩
    have hn : 2 ≤ n := by omega
    obtain ⟨σ, o1, -⟩ := oriented_flip (B := sampled n B) (hne hn)
    obtain ⟨yu, hu⟩ := (resample_accepts hn4 h.topEnds σ).2 hT
    obtain ⟨yd, hdn⟩ := (resample_accepts hn4 h.bottomEnds σ).2 hB
    exact ⟨_, sectionBladeX_ok.2 ⟨hn, hn5, hR, hd, by rw [hcam]; exact (camber_accepts hn C).2 ⟨hn4, hcc⟩, _, _, yu, yd, by rw [e1 hn, e2 hn, o1], hu, hdn, rfl⟩⟩

/-- What can be interpolated has at least four points, at different abscissae. -/
theorem sampled_nodup {n : Nat} {X : ℝ → Pt} {σ : ℝ} {f : ℝ → ℝ}
    (h : interp1d (((sampled n X).map fun p => (p.1, σ * p.2)).mergeSort lexLe2) = .ok f) : 3 ≤ n ∧ ((sampled n X).map Prod.fst).Nodup := by
  obtain ⟨h1, h2⟩ := (C115_defined _).1.1 ⟨f, h⟩
  refine ⟨by simp [sampled] at h1; omega, ?_⟩
  have := ((List.mergeSort_perm ((sampled n X).map fun p => (p.1, σ * p.2)) lexLe2).map Prod.fst).nodup_iff.1 h2
  rw [List.map_map] at this
  exact this

/-- **C115** a foil whose surfaces are cubic polynomials of the abscissa is recovered exactly (up to a common sign), at every point of the common grid; upside up
if the upper surface lies above the chord, upside down if it lies below. -/
theorem C115_exact (n : Nat) (refl : Bool) (r c P k s : ℝ) (T B : ℝ → Pt) (G : SectionGeom) (S : Section) (h : Cut refl r c P k s T B G)
    (pT pB : Cubic) (hT : GraphOf pT.eval T) (hB : GraphOf pB.eval B) (hS : sectionBladeX interp1d n (1000 * r) G = .ok S) :
    ∃ σ : ℝ, (σ = 1 ∨ σ = -1) ∧ S.yup.length = n ∧ S.ydown.length = n ∧
      (∀ j : Nat, j < n → S.yup[j]? = some (σ * pT.eval ((j : ℝ) / ((n : ℝ) - 1))) ∧ S.ydown[j]? = some (σ * pB.eval ((j : ℝ) / ((n : ℝ) - 1)))) ∧
      ((∀ x, 0 < x → x < 1 → 0 < pT.eval x) → σ = 1) ∧ ((∀ x, 0 < x → x < 1 → pT.eval x < 0) → σ = -1) := by
  obtain ⟨fT, fB⟩ := Cut.frames h
  obtain ⟨hn, σ, ⟨hσ, hs1, hs2⟩, fT, fB, hfT, hfB, ⟨a1, a2, a3, a4⟩, b1, b2, b3, b4⟩ := shape_functions (fun t ht => ⟨(hT t ht).1, (hT t ht).2.1⟩)
    (fun t ht => ⟨(hB t ht).1, (hB t ht).2.1⟩) h.topEnds h.bottomEnds fT fB hS
  have hs : ∀ i < n, (i : ℝ) / ((n : ℝ) - 1) ∈ Set.Icc (0 : ℝ) 1 := by
    intro i hi
    have hn1 : 0 < ((n : ℝ) - 1) := by
      have : (2 : ℝ) ≤ n := by exact_mod_cast hn
      linarith
    have : (i : ℝ) + 1 ≤ n := by exact_mod_cast hi
    exact ⟨by positivity, (div_le_one hn1).2 (by linarith)⟩
  have key : ∀ (X : ℝ → Pt) (p : Cubic) (f : ℝ → ℝ) (v : Arr), GraphOf p.eval X → EdgeToEdge X →
      interp1d (((sampled n X).map fun p => (p.1, σ * p.2)).mergeSort lexLe2) = .ok f → v[0]? = some 0 → v[n - 1]? = some 0 →
      (∀ j : Nat, 0 < j → j < n - 1 → v[j]? = some (f ((j : ℝ) / ((n : ℝ) - 1)))) →
      ∀ j : Nat, j < n → v[j]? = some (σ * p.eval ((j : ℝ) / ((n : ℝ) - 1))) := by
    intro X p f v hX hXe hf v0 v1 vj j hj
    let q : Cubic := ⟨σ * p.a, σ * p.b, σ * p.c, σ * p.d⟩
    have hq : ∀ t, q.eval t = σ * p.eval t := fun t => by simp only [q, Cubic.eval]; ring
    have e := C115_cubic _ f hf q (by
      intro z hz
      obtain ⟨y, hy, rfl⟩ := List.mem_map.1 (List.mem_mergeSort.1 hz)
      obtain ⟨i, hi, rfl⟩ := mem_sampled.1 hy
      simp only
      rw [hq, (hX _ (hs i hi)).2.2])
    have ends : p.eval 0 = 0 ∧ p.eval 1 = 0 := by
      have g0 := (hX 0 ⟨le_rfl, zero_le_one⟩).2.2
      have g1 := (hX 1 ⟨zero_le_one, le_rfl⟩).2.2
      rcases hXe with ⟨x0, x1⟩ | ⟨x0, x1⟩
      · rw [x0] at g0; rw [x1] at g1; exact ⟨g1.symm, g0.symm⟩
      · rw [x0] at g0; rw [x1] at g1; exact ⟨g0.symm, g1.symm⟩
    rcases Nat.eq_zero_or_pos j with rfl | hj0
    · rw [v0, Nat.cast_zero, zero_div, ends.1, mul_zero]
    · rcases Nat.lt_or_ge j (n - 1) with hlt | hge
      · rw [vj j hj0 hlt, e, hq]
      · have hjn : j = n - 1 := by omega
        have hn1 : ((n : ℝ) - 1) ≠ 0 := by
          have : (2 : ℝ) ≤ n := by exact_mod_cast hn
          linarith
        rw [hjn, v1, Nat.cast_sub (by omega), Nat.cast_one, div_self hn1, ends.2, mul_zero]
  obtain ⟨q1, q2⟩ := sampled_sign (sampled_nodup hfT).1 hT h.topEnds (sampled_nodup hfT).2
  exact ⟨σ, hσ, a1, b1, fun j hj => ⟨key T pT fT _ hT h.topEnds hfT a2 a3 a4 j hj, key B pB fB _ hB h.bottomEnds hfB b2 b3 b4 j hj⟩,
    fun hp => hs1 (q1 hp), fun hp => hs2 (q2 hp)⟩

/-- **C115** a foil whose upper surface is the graph of a function with slope at most `D` and second derivative at most `K`, sampled in equal steps along its length `L`: the
recovered ordinates depart from the foil's (up to a common sign, +1 if the upper surface lies above the chord, -1 if below) by at most `(2 + 3 √(1 + D²)) / 4 · K · (L / (n - 1))²`; the same for the lower surface. -/
theorem C115_converges (n : Nat) (refl : Bool) (r c P k s : ℝ) (T B : ℝ → Pt) (G : SectionGeom) (S : Section) (h : Cut refl r c P k s T B G)
    (gT gB : ℝ → ℝ) (hT : GraphOf gT T) (hB : GraphOf gB B) (LT LB DT DB KT KB : ℝ) (hLT : 0 < LT) (hLB : 0 < LB) (sT : Steady LT DT T) (sB : Steady LB DB B)
    (kT : BendBy KT 0 1 gT) (kB : BendBy KB 0 1 gB) (hS : sectionBladeX interp1d n (1000 * r) G = .ok S) :
    ∃ σ : ℝ, (σ = 1 ∨ σ = -1) ∧ ((∀ x, 0 < x → x < 1 → 0 < gT x) → σ = 1) ∧ ((∀ x, 0 < x → x < 1 → gT x < 0) → σ = -1) ∧ ∀ j : Nat, j < n →
      (∃ y, S.yup[j]? = some y ∧ |y - σ * gT ((j : ℝ) / ((n : ℝ) - 1))| ≤ (2 + 3 * Real.sqrt (1 + DT ^ 2)) / 4 * KT * (LT / ((n : ℝ) - 1)) ^ 2) ∧
      (∃ y, S.ydown[j]? = some y ∧ |y - σ * gB ((j : ℝ) / ((n : ℝ) - 1))| ≤ (2 + 3 * Real.sqrt (1 + DB ^ 2)) / 4 * KB * (LB / ((n : ℝ) - 1)) ^ 2) := by
  obtain ⟨fT, fB⟩ := Cut.frames h
  obtain ⟨hn, σ, ⟨hσ, hs1, hs2⟩, fT, fB, hfT, hfB, ⟨a1, a2, a3, a4⟩, b1, b2, b3, b4⟩ := shape_functions (fun t ht => ⟨(hT t ht).1, (hT t ht).2.1⟩)
    (fun t ht => ⟨(hB t ht).1, (hB t ht).2.1⟩) h.topEnds h.bottomEnds fT fB hS
  have hn4 : 4 ≤ n := by
    have := interp1d_length hfT
    simpa [sampled] using this
  have hn1 : 0 < ((n : ℝ) - 1) := by
    have : (2 : ℝ) ≤ n := by exact_mod_cast hn
    linarith
  have hs : ∀ i < n, (i : ℝ) / ((n : ℝ) - 1) ∈ Set.Icc (0 : ℝ) 1 := by
    intro i hi
    have : (i : ℝ) + 1 ≤ n := by exact_mod_cast hi
    exact ⟨by positivity, (div_le_one hn1).2 (by linarith)⟩
  have key : ∀ (X : ℝ → Pt) (g f : ℝ → ℝ) (L D K : ℝ) (v : Arr), GraphOf g X → EdgeToEdge X → 0 < L → Steady L D X → BendBy K 0 1 g →
      interp1d (((sampled n X).map fun p => (p.1, σ * p.2)).mergeSort lexLe2) = .ok f → v[0]? = some 0 → v[n - 1]? = some 0 →
      (∀ j : Nat, 0 < j → j < n - 1 → v[j]? = some (f ((j : ℝ) / ((n : ℝ) - 1)))) →
      ∀ j : Nat, j < n → ∃ y, v[j]? = some y ∧ |y - σ * g ((j : ℝ) / ((n : ℝ) - 1))| ≤ (2 + 3 * Real.sqrt (1 + D ^ 2)) / 4 * K * (L / ((n : ℝ) - 1)) ^ 2 := by
    intro X g f L D K v hX hXe hL hSt hK hf v0 v1 vj j hj
    have acc := sampled_accuracy hn4 hσ hSt hL hX hXe hK hf
    have hK0 : 0 ≤ K := hK.nonneg zero_lt_one
    have hb : 0 ≤ (2 + 3 * Real.sqrt (1 + D ^ 2)) / 4 * K * (L / ((n : ℝ) - 1)) ^ 2 := by positivity
    have ends : g 0 = 0 ∧ g 1 = 0 := by
      have g0 := (hX 0 ⟨le_rfl, zero_le_one⟩).2.2
      have g1 := (hX 1 ⟨zero_le_one, le_rfl⟩).2.2
      rcases hXe with ⟨x0, x1⟩ | ⟨x0, x1⟩
      · rw [x0] at g0; rw [x1] at g1; exact ⟨g1.symm, g0.symm⟩
      · rw [x0] at g0; rw [x1] at g1; exact ⟨g0.symm, g1.symm⟩
    rcases Nat.eq_zero_or_pos j with rfl | hj0
    · refine ⟨0, v0, ?_⟩
      rw [Nat.cast_zero, zero_div, ends.1, mul_zero, sub_zero, abs_zero]; exact hb
    · rcases Nat.lt_or_ge j (n - 1) with hlt | hge
      · exact ⟨_, vj j hj0 hlt, acc _ (hs j hj)⟩
      · have hjn : j = n - 1 := by omega
        refine ⟨0, by rw [hjn]; exact v1, ?_⟩
        rw [hjn, Nat.cast_sub (by omega), Nat.cast_one, div_self hn1.ne', ends.2, mul_zero, sub_zero, abs_zero]; exact hb
  obtain ⟨q1, q2⟩ := sampled_sign (sampled_nodup hfT).1 hT h.topEnds (sampled_nodup hfT).2
  exact ⟨σ, hσ, fun hp => hs1 (q1 hp), fun hp => hs2 (q2 hp), fun j hj => ⟨key T gT fT LT DT KT _ hT h.topEnds hLT sT kT hfT a2 a3 a4 j hj, key B gB fB LB DB KB _ hB h.bottomEnds hLB sB kB hfB b2 b3 b4 j hj⟩⟩

/-- **C115** the class for BladeX blades constructs an object with at least one radius only for 4 to 500 points per surface. -/
theorem C115_too_few (geom : ℝ → Res SectionGeom) (radii : Arr) (n : Int) (p : ReversePropeller) (hne : radii ≠ [])
    (h : ReversePropeller.new .bladeX interp1d geom radii n = .ok p) : 4 ≤ n ∧ n ≤ 500 := by
  obtain ⟨r, rs, rfl⟩ := List.exists_cons_of_ne_nil hne
  unfold ReversePropeller.new at h
  rcases lt_or_ge n 0 with hn | hn
  · rw [if_pos hn] at h; cases h
  rw [if_neg (not_lt.2 hn)] at h
  simp only [pure_bind] at h
  rw [List.mapM_cons] at h
  obtain ⟨ss, h1, -⟩ := (Profile.bndA).1 h
  obtain ⟨S, h2, -⟩ := (Profile.bndA).1 h1
  obtain ⟨G, -, h3⟩ := (Profile.bndA).1 h2
  obtain ⟨hn2, hn5, _, _, ⟨c, f, hc, hf⟩, -⟩ := sectionBladeX_ok.1 (show sectionBladeX interp1d n.toNat r G = .ok S from h3)
  have h4 := interp1d_length hf
  rw [List.length_mergeSort] at h4
  have hl : c.length = n.toNat := by
    obtain ⟨p, q, m, hl, hh⟩ := setEnds_ok (l := ((List.range n.toNat).map fun i => unrolledPos r (G.camber i)).map
      (frame (unrolled r G.leading) (unrolled r G.trailing))) (by simpa using hn2)
    rw [hh] at hc
    obtain rfl := Except.ok.inj hc
    have := congrArg List.length hl
    simp only [List.length_map, List.length_range, List.length_cons, List.length_append] at this ⊢
    omega
  omega

/-- A list with both edges and points between them. -/
theorem resample_edges {n : Nat} (U : List Pt) (hU : ∀ p ∈ U, 0 < p.1 ∧ p.1 < 1) :
    (∃ v, resample interp1d n ((0, 0) :: (1, 0) :: U) = .ok v) ↔ 0 < n ∧ 2 ≤ U.length ∧ (U.map Prod.fst).Nodup := by
  have h01 : ∀ p ∈ ((0, 0) : Pt) :: (1, 0) :: U, 0 ≤ p.1 ∧ p.1 ≤ 1 := by
    intro p hp
    rcases List.mem_cons.1 hp with rfl | hp
    · norm_num
    · rcases List.mem_cons.1 hp with rfl | hp
      · norm_num
      · exact ⟨(hU p hp).1.le, (hU p hp).2.le⟩
  have hprep := prepared_unit h01 ⟨(0, 0), by simp, rfl⟩ ⟨(1, 0), by simp, rfl⟩
  have hnd : ((((0, 0) : Pt) :: (1, 0) :: U).map Prod.fst).Nodup ↔ (U.map Prod.fst).Nodup := by
    simp only [List.map_cons, List.nodup_cons, List.mem_cons, List.mem_map]
    constructor
    · exact fun h => h.2.2
    · refine fun h => ⟨?_, ?_, h⟩
      · rintro (h0 | ⟨p, hp, h0⟩)
        · norm_num at h0
        · exact (hU p hp).1.ne' h0
      · rintro ⟨p, hp, h0⟩
        exact (hU p hp).2.ne h0
  constructor
  · rintro ⟨v, hv⟩
    obtain ⟨l', f, e1, e2, e3⟩ := resample_ok.1 hv
    rw [hprep] at e1
    obtain rfl := Except.ok.inj e1
    obtain ⟨a, b⟩ := (C115_defined _).1.1 ⟨f, e2⟩
    refine ⟨?_, by simpa using a, hnd.1 ((((List.mergeSort_perm _ lexLe2).map Prod.fst).nodup_iff).1 b)⟩
    rcases Nat.eq_zero_or_pos n with rfl | h
    · simp [linspaceN, zeroEnds] at e3
    · exact h
  · rintro ⟨hn, h2, h3⟩
    obtain ⟨f, hf⟩ := (C115_defined ((((0, 0) : Pt) :: (1, 0) :: U).mergeSort lexLe2)).1.2 ⟨by simpa using h2,
      (((List.mergeSort_perm _ lexLe2).map Prod.fst).nodup_iff).2 (hnd.2 h3)⟩
    obtain ⟨v, hv⟩ : ∃ v, zeroEnds ((linspaceN 0 1 n).map f) = .ok v := by
      match hl : (linspaceN 0 1 n).map f with
      | [] => have := congrArg List.length hl; simp [linspaceN] at this; omega
      | x :: xs => exact ⟨_, rfl⟩
    exact ⟨v, resample_ok.2 ⟨_, _, hprep, hf, hv⟩⟩

theorem splitFoil_eq (f : ℝ → ℝ) (e : Extracted) : splitFoil f e =
    (e.leading :: e.trailing :: e.foil.filter (fun p => decide (0.005 < p.1 ∧ p.1 < 0.995 ∧ (f p.1 < p.2 ↔ true = true))),
     e.leading :: e.trailing :: e.foil.filter (fun p => decide (0.005 < p.1 ∧ p.1 < 0.995 ∧ (f p.1 < p.2 ↔ false = true)))) := by
  simp only [splitFoil, List.filter_filter]
  congr 3
  · apply List.filter_congr
    intro p _
    by_cases h : 0.005 < p.1 ∧ p.1 < 0.995
    · have e : min (max p.1 0) 1 = p.1 := by
        rw [max_eq_left (by linarith [h.1, show (0 : ℝ) < 0.005 by norm_num]), min_eq_left (by linarith [h.2, show (0.995 : ℝ) < 1 by norm_num])]
      by_cases hh : f p.1 < p.2
      · simp [h.1, h.2, e, hh]
      · simp [h.1, h.2, e, hh, not_lt.1 hh]
    · rw [decide_eq_false h, Bool.and_false]
      exact (decide_eq_false fun hh => h ⟨hh.1, hh.2.1⟩).symm
  · apply List.filter_congr
    intro p _
    by_cases h : 0.005 < p.1 ∧ p.1 < 0.995
    · have e : min (max p.1 0) 1 = p.1 := by
        rw [max_eq_left (by linarith [h.1, show (0 : ℝ) < 0.005 by norm_num]), min_eq_left (by linarith [h.2, show (0.995 : ℝ) < 1 by norm_num])]
      by_cases hh : f p.1 < p.2
      · simp [h.1, h.2, e, hh]
      · simp [h.1, h.2, e, hh, not_lt.1 hh]
    · rw [decide_eq_false h, Bool.and_false]
      exact (decide_eq_false fun hh => h ⟨hh.1, hh.2.1⟩).symm

/-- **C115** which sections the general class accepts: with `F i` the points of the section and `C i` the camber points in coordinates along and across the chord, at least one point is asked for,
the camber points (the first and the last moved onto the edges) can be interpolated, and of the points of the section with abscissae between
0.005 and 0.995 at least two lie above the camber line, at different abscissae, and at least two on it or below, at different abscissae. -/
theorem C115_accepts_generic (n : Nat) (R : ℝ) (G : SectionGeom) (F : Nat → Pt) (C : Nat → Pt) (hR : R ≠ 0)
    (hd : (unrolledPos R G.leading).2 ≠ (unrolledPos R G.trailing).2)
    (hF : ∀ i : Nat, i < 1000 → unrolledPos R (G.whole ((i : ℝ) / 999)) = chordFrame (unrolledPos R G.leading) (unrolledPos R G.trailing) (F i))
    (hC : ∀ i < 500, unrolledPos R (G.camber i) = chordFrame (unrolledPos R G.leading) (unrolledPos R G.trailing) (C i)) :
    (∃ S, sectionGeneric interp1d n R G = .ok S) ↔ 0 < n ∧
      ∃ f, interp1d ((0, (C 0).2) :: ((List.range 498).map (fun i => C (i + 1)) ++ [(1, (C 499).2)])) = .ok f ∧
        ∀ side : Bool, let U := ((List.range 1000).map F).filter fun p => decide (0.005 < p.1 ∧ p.1 < 0.995 ∧ (f p.1 < p.2 ↔ side = true))
          2 ≤ U.length ∧ (U.map Prod.fst).Nodup := by
  have hcam : (((List.range 500).map fun i => unrolledPos R (G.camber i)).map (frame (unrolledPos R G.leading) (unrolledPos R G.trailing))) =
      (List.range 500).map C := by
    rw [List.map_map]
    apply List.map_congr_left
    intro i hi
    simp only [Function.comp]
    rw [hC i (List.mem_range.1 hi), frame_chordFrame hd]
  have hfoil : (((List.range 1000).map fun i : Nat => unrolledPos R (G.whole ((i : ℝ) / 999))).map
      (frame (unrolledPos R G.leading) (unrolledPos R G.trailing))) = (List.range 1000).map F := by
    rw [List.map_map]
    apply List.map_congr_left
    intro i hi
    simp only [Function.comp]
    rw [hF i (List.mem_range.1 hi), frame_chordFrame hd]
  have hs := setEnds_range 498 C
  have hsplit : ∀ (f : ℝ → ℝ) (c : List Pt), splitFoil f (ex (unrolledPos R G.leading) (unrolledPos R G.trailing)
      ((List.range 1000).map fun i : Nat => unrolledPos R (G.whole ((i : ℝ) / 999))) c) =
      ((0, 0) :: (1, 0) :: ((List.range 1000).map F).filter fun p => decide (0.005 < p.1 ∧ p.1 < 0.995 ∧ (f p.1 < p.2 ↔ true = true)),
       (0, 0) :: (1, 0) :: ((List.range 1000).map F).filter fun p => decide (0.005 < p.1 ∧ p.1 < 0.995 ∧ (f p.1 < p.2 ↔ false = true))) := by
    intro f c
    generalize ((List.range 1000).map fun i : Nat => unrolledPos R (G.whole ((i : ℝ) / 999))) = L at hfoil ⊢
    generalize (List.range 1000).map F = L' at hfoil ⊢
    subst hfoil
    rw [splitFoil_eq]
    rfl
  have hU : ∀ (f : ℝ → ℝ) (side : Bool), ∀ p ∈ ((List.range 1000).map F).filter fun p => decide (0.005 < p.1 ∧ p.1 < 0.995 ∧ (f p.1 < p.2 ↔ side = true)),
      0 < p.1 ∧ p.1 < 1 := by
    intro f side p hp
    have := of_decide_eq_true (List.mem_filter.1 hp).2
    exact ⟨by linarith [this.1, show (0 : ℝ) < 0.005 by norm_num], by linarith [this.2.1, show (0.995 : ℝ) < 1 by norm_num]⟩
  constructor
  · rintro ⟨S, hS⟩
    obtain ⟨_, _, c, f, yu, yd, e1, e2, e3, e4, -⟩ := sectionGeneric_ok.1 hS
    rw [hcam, hs] at e1
    obtain rfl := Except.ok.inj e1
    rw [hsplit] at e3 e4
    obtain ⟨a1, a2⟩ := (resample_edges _ (hU f true)).1 ⟨_, e3⟩
    obtain ⟨-, b2⟩ := (resample_edges _ (hU f false)).1 ⟨_, e4⟩
    refine ⟨a1, f, (interp1d_perm (List.mergeSort_perm _ lexLe2)).symm.trans e2, ?_⟩
    intro side
    cases side
    · exact b2
    · exact a2
  · rintro ⟨hn, f, hf, hside⟩
    obtain ⟨yu, hu⟩ := (resample_edges (n := n) _ (hU f true)).2 ⟨hn, hside true⟩
    obtain ⟨yd, hdn⟩ := (resample_edges (n := n) _ (hU f false)).2 ⟨hn, hside false⟩
    refine ⟨_, sectionGeneric_ok.2 ⟨hR, hd, _, f, yu, yd, by rw [hcam]; exact hs, (interp1d_perm (List.mergeSort_perm _ lexLe2)).trans hf, ?_, ?_, rfl⟩⟩
    · rw [hsplit]; exact hu
    · rw [hsplit]; exact hdn

/-! ### The hypotheses are met -/

/-- The points of a foil with ordinates at most 1 lie in the range of the angles, on a blade with radius 1, chord 1 and pitch `P`. -/
theorem Sample.inRange {P : ℝ} {p : Pt} (hx : 0 ≤ p.1 ∧ p.1 ≤ 1) (hy : |p.2| ≤ 1) : InRange true 1 1 P 0 0 p := by
  have hpi := Real.pi_gt_three
  have h1 := Real.abs_cos_le_one (Real.arctan (P / (2 * Real.pi * 1)))
  have h2 := Real.abs_sin_le_one (Real.arctan (P / (2 * Real.pi * 1)))
  have e : angleOn true 1 1 P 0 0 p = -(Real.cos (Real.arctan (P / (2 * Real.pi * 1))) * (p.1 - 1 / 2)) -
      Real.sin (Real.arctan (P / (2 * Real.pi * 1))) * p.2 := by
    simp only [angleOn, placed, if_true]; ring
  have a1 : |Real.cos (Real.arctan (P / (2 * Real.pi * 1))) * (p.1 - 1 / 2)| ≤ 1 * 1 := by
    rw [abs_mul]; exact mul_le_mul h1 (by rw [abs_le]; constructor <;> linarith [hx.1, hx.2]) (abs_nonneg _) (by norm_num)
  have a2 : |Real.sin (Real.arctan (P / (2 * Real.pi * 1))) * p.2| ≤ 1 * 1 := by
    rw [abs_mul]; exact mul_le_mul h2 hy (abs_nonneg _) (by norm_num)
  rw [abs_le] at a1 a2
  unfold InRange
  rw [e]
  constructor <;> linarith [a1.1, a1.2, a2.1, a2.2]

/-- The edges of that blade on the plane. -/
def Sample.le (P : ℝ) : Pt := unrolled (1000 * 1) (onBlade true 1 1 P 0 0 (0, 0))

def Sample.te (P : ℝ) : Pt := unrolled (1000 * 1) (onBlade true 1 1 P 0 0 (1, 0))

/-- The section of that blade with the curves `T` and `B`; the camber points have the abscissae `(i + 1) / 1000`. -/
def Sample.geom (P : ℝ) (T B : ℝ → Pt) : SectionGeom where
  leading := onBlade true 1 1 P 0 0 (0, 0)
  trailing := onBlade true 1 1 P 0 0 (1, 0)
  whole := fun _ => 0
  top := fun t => onBlade true 1 1 P 0 0 (T t)
  bottom := fun t => onBlade true 1 1 P 0 0 (B t)
  camber := fun i => (((Sample.le P).1 + (Sample.te P).1) / 2 + ((1 / 2 - ((i : ℝ) + 1) / 1000) * len (Sample.le P) (Sample.te P) ^ 2 +
    ((Sample.le P).2 + (Sample.te P).2) / 2 * ((Sample.le P).2 - (Sample.te P).2)) / ((Sample.le P).1 - (Sample.te P).1), 0, 1)

theorem Sample.cut (P : ℝ) {T B : ℝ → Pt} (hT : ∀ t ∈ Set.Icc (0 : ℝ) 1, (0 ≤ (T t).1 ∧ (T t).1 ≤ 1) ∧ |(T t).2| ≤ 1)
    (hB : ∀ t ∈ Set.Icc (0 : ℝ) 1, (0 ≤ (B t).1 ∧ (B t).1 ≤ 1) ∧ |(B t).2| ≤ 1) (eT : EdgeToEdge T) (eB : EdgeToEdge B) :
    Cut true 1 1 P 0 0 T B (Sample.geom P T B) where
  radius := one_pos
  chord := one_ne_zero
  leading := rfl
  trailing := rfl
  top := fun _ _ => rfl
  bottom := fun _ _ => rfl
  topEnds := eT
  bottomEnds := eB
  topRange := fun t ht => Sample.inRange (hT t ht).1 (hT t ht).2
  bottomRange := fun t ht => Sample.inRange (hB t ht).1 (hB t ht).2

/-- The section is accepted with 4 to 500 points, if both surfaces run steadily along the chord. -/
theorem Sample.accepted {P : ℝ} (hP : P ≠ 0) {T B : ℝ → Pt} (hcut : Cut true 1 1 P 0 0 T B (Sample.geom P T B)) {n : Nat} (hn : 4 ≤ n) (hn5 : n ≤ 500) (sT : Spread n T) (sB : Spread n B) :
    ∃ S, sectionBladeX interp1d n (1000 * 1) (Sample.geom P T B) = .ok S := by
  have hd := Cut.angles hcut
  have u0 := unrolled_wrap (q := placed true 1 1 P 0 0 (1 / 2, 0) (0, 0)) one_pos (Cut.zero hcut).1
  have u1 := unrolled_wrap (q := placed true 1 1 P 0 0 (1 / 2, 0) (1, 0)) one_pos (Cut.zero hcut).2
  rw [← onBlade_eq] at u0 u1
  have hst := (stored_of_edges (R := 1000 * 1) (refl := true) (r := 1) (c := 1) (P := P) (k := 0) (s := 0) one_pos one_ne_zero rfl (le := Sample.le P) (te := Sample.te P) 0
    (Or.inl ⟨by rw [Sample.le, u0, add_zero], by rw [Sample.te, u1, add_zero]⟩)).2.1
  have hd1 : (Sample.le P).1 - (Sample.te P).1 ≠ 0 := by
    intro h
    rw [h] at hst; apply hP; simpa using hst.symm
  have hlen : 0 < len (Sample.le P) (Sample.te P) := len_pos hd
  have hat : atan2 0 1 = 0 := by
    have : (⟨1, 0⟩ : ℂ) = 1 := rfl
    rw [atan2, this, Complex.arg_one]
  refine ((C115_accepts n true 1 1 P 0 0 T B (fun i => frame (Sample.le P) (Sample.te P) (unrolledPos (1000 * 1) ((Sample.geom P T B).camber i))) _ hcut
    (fun i _ => (chordFrame_frame hd _).symm)).1).2 ⟨⟨hn, hn5⟩, sT, sB, ?_⟩
  have e : ∀ i, (frame (Sample.le P) (Sample.te P) (unrolledPos (1000 * 1) ((Sample.geom P T B).camber i))).1 = ((i : ℝ) + 1) / 1000 := by
    intro i
    simp only [Sample.geom, unrolledPos, hat, lt_irrefl, if_false, mul_zero, frame]
    field_simp
    ring
  intro i hi0 hi
  rw [e]
  have hi5 : (i : ℝ) ≤ 498 := by exact_mod_cast (show i ≤ 498 by omega)
  refine ⟨by positivity, by intro h; linarith [show ((i : ℝ) + 1) / 1000 < 1 by rw [div_lt_one (by norm_num)]; linarith], ?_⟩
  intro j hij _ h
  rw [e] at h
  have : (i : ℝ) < j := by exact_mod_cast hij
  have : ((i : ℝ) + 1) / 1000 < ((j : ℝ) + 1) / 1000 := by gcongr
  linarith

/-- The flat lower surface. -/
def Sample.flat (t : ℝ) : Pt := (1 - t, 0)

theorem Sample.flat_ok : (∀ t ∈ Set.Icc (0 : ℝ) 1, (0 ≤ (Sample.flat t).1 ∧ (Sample.flat t).1 ≤ 1) ∧ |(Sample.flat t).2| ≤ 1) ∧ EdgeToEdge Sample.flat := by
  refine ⟨fun t ht => ?_, Or.inl ⟨by simp [Sample.flat], by simp [Sample.flat]⟩⟩
  simp only [Sample.flat, abs_zero]
  exact ⟨⟨by linarith [ht.2], by linarith [ht.1]⟩, zero_le_one⟩

theorem Sample.spread_of_mono {X : ℝ → Pt} (h01 : ∀ t ∈ Set.Icc (0 : ℝ) 1, 0 ≤ (X t).1 ∧ (X t).1 ≤ 1) (hm : StrictAntiOn (fun t => (X t).1) (Set.Icc 0 1))
    {n : Nat} (hn : 2 ≤ n) : Spread n X := by
  have hn1 : 0 < ((n : ℝ) - 1) := by
    have : (2 : ℝ) ≤ n := by exact_mod_cast hn
    linarith
  have hs : ∀ i < n, (i : ℝ) / ((n : ℝ) - 1) ∈ Set.Icc (0 : ℝ) 1 := by
    intro i hi
    have : (i : ℝ) + 1 ≤ n := by exact_mod_cast hi
    exact ⟨by positivity, (div_le_one hn1).2 (by linarith)⟩
  refine ⟨fun i hi => h01 _ (hs i hi), fun i j hij hj => ne_of_gt (hm (hs i (by omega)) (hs j hj) ?_)⟩
  have : (i : ℝ) < j := by exact_mod_cast hij
  gcongr

theorem Sample.line_anti : StrictAntiOn (fun t : ℝ => (1 - t : ℝ)) (Set.Icc 0 1) := fun a _ b _ h => by simp only; linarith

/-- A parabola over a flat lower surface (C115_accepts, C115_exact, C115_too_few). -/
example : ∃ (T : ℝ → Pt) (S : Section), Cut true 1 1 2 0 0 T Sample.flat (Sample.geom 2 T Sample.flat) ∧ GraphOf (Cubic.mk 0 1 (-1) 0).eval T ∧
    GraphOf (Cubic.mk 0 0 0 0).eval Sample.flat ∧ sectionBladeX interp1d 9 (1000 * 1) (Sample.geom 2 T Sample.flat) = .ok S ∧ T (1 / 2) = (1 / 2, 1 / 4) := by
  let T : ℝ → Pt := fun t => (1 - t, (1 - t) * t)
  have hT : ∀ t ∈ Set.Icc (0 : ℝ) 1, (0 ≤ (T t).1 ∧ (T t).1 ≤ 1) ∧ |(T t).2| ≤ 1 := by
    intro t ht
    refine ⟨⟨by simp only [T]; linarith [ht.2], by simp only [T]; linarith [ht.1]⟩, ?_⟩
    rw [abs_le]; simp only [T]
    constructor <;> nlinarith [ht.1, ht.2, mul_nonneg ht.1 (sub_nonneg.2 ht.2)]
  have hcut := Sample.cut 2 hT Sample.flat_ok.1 (Or.inl ⟨by simp [T], by simp [T]⟩) Sample.flat_ok.2
  obtain ⟨S, hS⟩ := Sample.accepted two_ne_zero hcut (n := 9) (by norm_num) (by norm_num)
    (Sample.spread_of_mono (fun t ht => (hT t ht).1) Sample.line_anti (by norm_num))
    (Sample.spread_of_mono (fun t ht => (Sample.flat_ok.1 t ht).1) Sample.line_anti (by norm_num))
  refine ⟨T, S, hcut, fun t ht => ⟨(hT t ht).1.1, (hT t ht).1.2, ?_⟩, fun t ht => ⟨(Sample.flat_ok.1 t ht).1.1, (Sample.flat_ok.1 t ht).1.2, ?_⟩, hS, ?_⟩
  · simp only [T, Cubic.eval]; ring
  · simp only [Sample.flat, Cubic.eval]; ring
  · simp only [T]; norm_num

/-- The arc of a unit circle over the unit chord, run through at constant speed. -/
def Sample.arc (t : ℝ) : Pt := (1 / 2 + Real.sin (Real.pi / 6 * (1 - 2 * t)), Real.cos (Real.pi / 6 * (1 - 2 * t)) - Real.sqrt 3 / 2)

/-- Its ordinate over the abscissa. -/
def Sample.arcHeight (x : ℝ) : ℝ := Real.sqrt (1 - (x - 1 / 2) ^ 2) - Real.sqrt 3 / 2

theorem Sample.arc_steady : Steady (Real.pi / 3) 1 Sample.arc := by
  refine ⟨fun t => -(Real.pi / 3) * Real.cos (Real.pi / 6 * (1 - 2 * t)), fun t => Real.pi / 3 * Real.sin (Real.pi / 6 * (1 - 2 * t)), fun t ht => ?_⟩
  have hin : HasDerivAt (fun t : ℝ => Real.pi / 6 * (1 - 2 * t)) (-(Real.pi / 3)) t := by
    have := (((hasDerivAt_id t).const_mul 2).const_sub 1).const_mul (Real.pi / 6)
    exact this.congr_deriv (by ring)
  refine ⟨?_, ?_, ?_, ?_⟩
  · have := (hin.sin).const_add (1 / 2)
    exact this.congr_deriv (by ring)
  · have := (hin.cos).sub_const (Real.sqrt 3 / 2)
    exact this.congr_deriv (by ring)
  · have := Real.sin_sq_add_cos_sq (Real.pi / 6 * (1 - 2 * t))
    linear_combination (Real.pi / 3) ^ 2 * this
  · have hpi := Real.pi_pos
    set u := Real.pi / 6 * (1 - 2 * t) with hu
    have hul : -(Real.pi / 6) ≤ u := by rw [hu]; nlinarith [ht.2]
    have huu : u ≤ Real.pi / 6 := by rw [hu]; nlinarith [ht.1]
    have hc : Real.cos (Real.pi / 6) ≤ Real.cos u := by
      rw [← Real.cos_abs u]
      exact Real.cos_le_cos_of_nonneg_of_le_pi (abs_nonneg _) (by linarith) (abs_le.2 ⟨hul, huu⟩)
    have h3 : (1 : ℝ) ≤ Real.sqrt 3 := Real.one_le_sqrt.2 (by norm_num)
    rw [Real.cos_pi_div_six] at hc
    have hs1 : Real.sin u ≤ 1 / 2 := by rw [← Real.sin_pi_div_six]; exact Real.sin_le_sin_of_le_of_le_pi_div_two (by linarith) (by linarith) huu
    have hs2 : -(1 / 2) ≤ Real.sin u := by
      rw [← Real.sin_pi_div_six, ← Real.sin_neg]; exact Real.sin_le_sin_of_le_of_le_pi_div_two (by linarith) (by linarith) hul
    rw [one_mul, abs_mul, abs_mul, abs_neg, abs_of_nonneg (by linarith : 0 ≤ Real.cos u)]
    exact mul_le_mul_of_nonneg_left ((abs_le.2 ⟨hs2, hs1⟩).trans (by linarith)) (abs_nonneg _)

theorem Sample.arc_bend : BendBy 2 0 1 Sample.arcHeight := by
  intro x hx
  set u := x - 1 / 2 with hu
  have hu1 : u ^ 2 ≤ 1 / 4 := by nlinarith [hx.1, hx.2]
  set w := Real.sqrt (1 - u ^ 2) with hw
  have hw2 : w ^ 2 = 1 - u ^ 2 := Real.sq_sqrt (by linarith)
  have hw1 : 4 / 5 ≤ w := Real.le_sqrt_of_sq_le (by linarith)
  refine ⟨-u / w, fun t ht => ?_⟩
  set v := t - 1 / 2 with hv
  have hv1 : v ^ 2 ≤ 1 / 4 := by nlinarith [ht.1, ht.2]
  set z := Real.sqrt (1 - v ^ 2) with hz
  have hz2 : z ^ 2 = 1 - v ^ 2 := Real.sq_sqrt (by linarith)
  have hz1 : 4 / 5 ≤ z := Real.le_sqrt_of_sq_le (by linarith)
  have htx : t - x = v - u := by rw [hu, hv]; ring
  have e : Sample.arcHeight t - Sample.arcHeight x - -u / w * (t - x) = -((u - v) ^ 2 + (w - z) ^ 2) / (2 * w) := by
    simp only [Sample.arcHeight, ← hu, ← hv, ← hw, ← hz, htx]
    field_simp
    nlinarith
  rw [e, htx, abs_div, abs_neg, abs_of_nonneg (by positivity : 0 ≤ (u - v) ^ 2 + (w - z) ^ 2), abs_of_pos (by linarith : 0 < 2 * w), div_le_iff₀ (by linarith)]
  have hd : (w - z) ^ 2 * (w + z) ^ 2 = (u - v) ^ 2 * (u + v) ^ 2 := by
    have : (w - z) * (w + z) = -((u - v) * (u + v)) := by linear_combination hw2 - hz2
    rw [← mul_pow, this, neg_sq, mul_pow]
  have huv : (u + v) ^ 2 ≤ 1 := by nlinarith [sq_nonneg (u - v)]
  have hwz : 2 ≤ (w + z) ^ 2 := by nlinarith
  have h1 : 2 * (w - z) ^ 2 ≤ (u - v) ^ 2 := by nlinarith [sq_nonneg (w - z), sq_nonneg (u - v)]
  nlinarith [sq_nonneg (u - v)]

/-- The arc over a flat lower surface (C115_converges): every number of points from 4 to 500. -/
theorem Sample.arc_ok (n : Nat) (hn : 4 ≤ n) (hn5 : n ≤ 500) : ∃ S : Section, Cut true 1 1 2 0 0 Sample.arc Sample.flat (Sample.geom 2 Sample.arc Sample.flat) ∧
    GraphOf Sample.arcHeight Sample.arc ∧ GraphOf (fun _ => 0) Sample.flat ∧ Steady (Real.pi / 3) 1 Sample.arc ∧ Steady 1 0 Sample.flat ∧
    BendBy 2 0 1 Sample.arcHeight ∧ BendBy 0 0 1 (fun _ => 0) ∧ sectionBladeX interp1d n (1000 * 1) (Sample.geom 2 Sample.arc Sample.flat) = .ok S := by
  have hpi := Real.pi_pos
  have hmono := Sample.arc_steady.mono (by positivity)
  have e0 : Sample.arc 0 = (1, 0) := by
    simp only [Sample.arc, mul_zero, sub_zero, mul_one, Real.sin_pi_div_six, Real.cos_pi_div_six, sub_self]; norm_num
  have e1 : Sample.arc 1 = (0, 0) := by
    simp only [Sample.arc, show Real.pi / 6 * (1 - 2 * 1) = -(Real.pi / 6) by ring, Real.sin_neg, Real.cos_neg, Real.sin_pi_div_six, Real.cos_pi_div_six, sub_self]; norm_num
  have hanti : StrictAntiOn (fun t => (Sample.arc t).1) (Set.Icc 0 1) := by
    rcases hmono with h | h
    · have := h (Set.left_mem_Icc.2 zero_le_one) (Set.right_mem_Icc.2 zero_le_one) zero_lt_one
      simp only [e0, e1] at this; norm_num at this
    · exact h
  have hx : ∀ t ∈ Set.Icc (0 : ℝ) 1, 0 ≤ (Sample.arc t).1 ∧ (Sample.arc t).1 ≤ 1 := by
    intro t ht
    have a := hanti.antitoneOn ht (Set.right_mem_Icc.2 zero_le_one) ht.2
    have b := hanti.antitoneOn (Set.left_mem_Icc.2 zero_le_one) ht ht.1
    simp only [e0, e1] at a b
    exact ⟨a, b⟩
  have hc : ∀ t ∈ Set.Icc (0 : ℝ) 1, 0 ≤ Real.cos (Real.pi / 6 * (1 - 2 * t)) := fun t ht =>
    Real.cos_nonneg_of_mem_Icc ⟨by nlinarith [ht.2], by nlinarith [ht.1]⟩
  have h3 : 0 ≤ Real.sqrt 3 ∧ Real.sqrt 3 ≤ 2 := ⟨Real.sqrt_nonneg _, by rw [Real.sqrt_le_left (by norm_num)]; norm_num⟩
  have hA : ∀ t ∈ Set.Icc (0 : ℝ) 1, (0 ≤ (Sample.arc t).1 ∧ (Sample.arc t).1 ≤ 1) ∧ |(Sample.arc t).2| ≤ 1 := by
    intro t ht
    refine ⟨hx t ht, ?_⟩
    rw [abs_le]; simp only [Sample.arc]
    have := Real.cos_le_one (Real.pi / 6 * (1 - 2 * t)); have := hc t ht
    constructor <;> linarith [h3.1, h3.2]
  have hcut := Sample.cut 2 hA Sample.flat_ok.1 (Or.inl ⟨e0, e1⟩) Sample.flat_ok.2
  obtain ⟨S, hS⟩ := Sample.accepted two_ne_zero hcut hn hn5 (Sample.spread_of_mono hx hanti (by omega))
    (Sample.spread_of_mono (fun t ht => (Sample.flat_ok.1 t ht).1) Sample.line_anti (by omega))
  refine ⟨S, hcut, fun t ht => ⟨(hx t ht).1, (hx t ht).2, ?_⟩, fun t ht => ⟨(Sample.flat_ok.1 t ht).1.1, (Sample.flat_ok.1 t ht).1.2, rfl⟩, Sample.arc_steady, ?_,
    Sample.arc_bend, fun x _ => ⟨0, fun t _ => by simp⟩, hS⟩
  · simp only [Sample.arc, Sample.arcHeight, add_sub_cancel_left]
    rw [← Real.cos_sq', Real.sqrt_sq (hc t ht)]
  · refine ⟨fun _ => -1, fun _ => 0, fun t _ => ⟨?_, hasDerivAt_const t 0, by norm_num, by simp⟩⟩
    exact ((hasDerivAt_id t).const_sub 1).congr_deriv (by norm_num)

/-- The point of the cylinder of radius 1000 with the coordinates `q` along and across a chord from the angle 1 to the angle 2 (C115_accepts_generic). -/
def Sample.wrapped (q : Pt) : Pt3 := (1000 * q.2, 1000 * Real.sin (1 + q.1), 1000 * Real.cos (1 + q.1))

theorem Sample.wrapped_unrolled {q : Pt} (h : 0 ≤ q.1 ∧ q.1 ≤ 1) : unrolledPos 1000 (Sample.wrapped q) = (1000 * q.2, 1000 * (1 + q.1)) := by
  have hpi := Real.pi_gt_three
  have e := atan2_pos (ρ := 1000) (t := 1 + q.1) (by norm_num) ⟨by linarith, by linarith⟩
  exact Prod.ext rfl (congrArg (1000 * ·) e)

/-- A section of the general class which is accepted: straight camber line, the points of the section above and below it. -/
example : ∃ (G : SectionGeom) (S : Section), sectionGeneric interp1d 7 1000 G = .ok S := by
  let W : ℝ → Pt := fun t => if t ≤ 1 / 2 then (1 / 100 + t, 1 / 10) else (t - 49 / 100, -(1 / 10))
  have hW : ∀ t : ℝ, 0 ≤ t → t ≤ 1 → 1 / 100 ≤ (W t).1 ∧ (W t).1 ≤ 51 / 100 := by
    intro t h0 h1
    simp only [W]
    split_ifs with h
    · exact ⟨by simp only; linarith, by simp only; linarith⟩
    · have := not_le.1 h
      exact ⟨by simp only; linarith, by simp only; linarith⟩
  let C : Nat → Pt := fun i => ((i : ℝ) / 499, 0)
  have hC : ∀ i < 500, 0 ≤ (C i).1 ∧ (C i).1 ≤ 1 := by
    intro i hi
    have : (i : ℝ) ≤ 499 := by exact_mod_cast (show i ≤ 499 by omega)
    exact ⟨by simp only [C]; positivity, by simp only [C]; rw [div_le_one (by norm_num)]; exact this⟩
  let G : SectionGeom := ⟨Sample.wrapped (0, 0), Sample.wrapped (1, 0), fun t => Sample.wrapped (W t), fun _ => 0, fun _ => 0, fun i => Sample.wrapped (C i)⟩
  have hle : unrolledPos 1000 G.leading = (0, 1000) := by
    simp only [G]; rw [Sample.wrapped_unrolled (by norm_num)]; norm_num
  have hte : unrolledPos 1000 G.trailing = (0, 2000) := by
    simp only [G]; rw [Sample.wrapped_unrolled (by norm_num)]; norm_num
  have hfr : ∀ q : Pt, (1000 * q.2, 1000 * (1 + q.1)) = chordFrame (0, 1000) (0, 2000) q := by
    intro q; simp only [chordFrame]; apply Prod.ext <;> simp only <;> ring
  have hs : ∀ i : Nat, i < 1000 → 0 ≤ (i : ℝ) / 999 ∧ (i : ℝ) / 999 ≤ 1 := by
    intro i hi
    have : (i : ℝ) ≤ 999 := by exact_mod_cast (show i ≤ 999 by omega)
    exact ⟨by positivity, by rw [div_le_one (by norm_num)]; exact this⟩
  refine ⟨G, (C115_accepts_generic 7 1000 G (fun i => W ((i : ℝ) / 999)) C (by norm_num) (by rw [hle, hte]; norm_num) ?_ ?_).2 ⟨by norm_num, ?_⟩⟩
  · intro i hi
    obtain ⟨a, b⟩ := hW _ (hs i hi).1 (hs i hi).2
    rw [hle, hte]
    simp only [G]
    rw [Sample.wrapped_unrolled ⟨by linarith, by linarith⟩, hfr]
  · intro i hi
    rw [hle, hte]
    simp only [G]
    rw [Sample.wrapped_unrolled (hC i hi), hfr]
  obtain ⟨c, f, h1, h2⟩ := (camber_accepts (n := 500) (by norm_num) C).2 ⟨by norm_num, by
    intro i hi0 hi
    have h1 : (0 : ℝ) < i := by exact_mod_cast hi0
    have h2 : (i : ℝ) < 499 := by exact_mod_cast (show i < 499 by omega)
    refine ⟨by simp only [C]; positivity, ?_, ?_⟩
    · simp only [C]; intro h; rw [div_eq_one_iff_eq (by norm_num)] at h; linarith
    · intro j hij _ h
      have : (i : ℝ) < j := by exact_mod_cast hij
      simp only [C] at h
      rw [div_left_inj' (by norm_num)] at h
      linarith⟩
  rw [setEnds_range 498 C] at h1
  obtain rfl := Except.ok.inj h1
  rw [interp1d_perm (List.mergeSort_perm _ lexLe2)] at h2
  have hf : ∀ t, f t = 0 := by
    intro t
    rw [C115_cubic _ f h2 ⟨0, 0, 0, 0⟩ (by
      intro p hp
      have : p.2 = 0 := by
        rcases List.mem_cons.1 hp with rfl | hp
        · rfl
        · rcases List.mem_append.1 hp with hp | hp
          · obtain ⟨i, -, rfl⟩ := List.mem_map.1 hp; rfl
          · rw [List.mem_singleton] at hp; subst hp; rfl
      rw [this]; simp [Cubic.eval])]
    simp [Cubic.eval]
  refine ⟨f, h2, ?_⟩
  intro side
  simp only [hf]
  have hin : ∀ i : Nat, i < 1000 → ((0 < (W ((i : ℝ) / 999)).2 ↔ side = true)) → W ((i : ℝ) / 999) ∈ ((List.range 1000).map fun i : Nat => W ((i : ℝ) / 999)).filter
      fun p => decide (0.005 < p.1 ∧ p.1 < 0.995 ∧ (0 < p.2 ↔ side = true)) := by
    intro i hi h
    obtain ⟨a, b⟩ := hW _ (hs i hi).1 (hs i hi).2
    refine List.mem_filter.2 ⟨List.mem_map.2 ⟨i, List.mem_range.2 hi, rfl⟩, decide_eq_true ⟨?_, ?_, h⟩⟩
    · norm_num at a ⊢; linarith
    · norm_num at b ⊢; linarith
  constructor
  · obtain ⟨i, hi, h1, h2, hne⟩ : ∃ i : Nat, i + 1 < 1000 ∧ (0 < (W ((i : ℝ) / 999)).2 ↔ side = true) ∧ (0 < (W (((i + 1 : Nat) : ℝ) / 999)).2 ↔ side = true) ∧
        W ((i : ℝ) / 999) ≠ W (((i + 1 : Nat) : ℝ) / 999) := by
      cases side
      · exact ⟨600, by norm_num, by norm_num [W], by norm_num [W], by norm_num [W]⟩
      · exact ⟨0, by norm_num, by norm_num [W], by norm_num [W], by norm_num [W]⟩
    have hsub : [W ((i : ℝ) / 999), W (((i + 1 : Nat) : ℝ) / 999)] ⊆ ((List.range 1000).map fun i : Nat => W ((i : ℝ) / 999)).filter
        fun p => decide (0.005 < p.1 ∧ p.1 < 0.995 ∧ (0 < p.2 ↔ side = true)) := by
      intro p hp
      rcases List.mem_cons.1 hp with rfl | hp
      · exact hin i (by omega) h1
      · rw [List.mem_singleton] at hp; subst hp
        exact hin (i + 1) (by omega) h2
    exact (List.subperm_of_subset (List.nodup_cons.2 ⟨by simpa using hne, List.nodup_singleton _⟩) hsub).length_le
  · refine List.pairwise_map.2 (List.Pairwise.imp_of_mem (R := fun p q : Pt => (0 < p.2 ↔ 0 < q.2) → p.1 ≠ q.1) ?_ (List.Pairwise.filter _ ?_))
    · intro p q hp hq h
      have a := (of_decide_eq_true (List.mem_filter.1 hp).2).2.2
      have b := (of_decide_eq_true (List.mem_filter.1 hq).2).2.2
      exact h (a.trans b.symm)
    · refine List.pairwise_map.2 (List.pairwise_lt_range.imp ?_)
      intro i j hij h
      have hlt : (i : ℝ) / 999 < (j : ℝ) / 999 := by
        have : (i : ℝ) < j := by exact_mod_cast hij
        gcongr
      simp only [W] at h ⊢
      split_ifs at h ⊢ with p q q
      · exact ne_of_lt (by simp only; linarith)
      · norm_num at h
      · linarith
      · exact ne_of_lt (by simp only; linarith)

end
end BladeX
