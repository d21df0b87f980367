import Verif.Props.ReverseMore
import Verif.Props.ReverseEdges

/-! # C92: which surface the generic class takes for the upper one -/

namespace BladeX
noncomputable section
open Spec Classical Reverse

/-- The angle at which the point lies on the section, turned by half a turn, is between 0 and 2 pi. -/
def TurnedInRange (refl : Bool) (r c P k s : ℝ) (p : Pt) : Prop :=
  -Real.pi ≤ angleOn refl r c P k s p ∧ angleOn refl r c P k s p < Real.pi

theorem unrolledPos_turned {refl : Bool} {r c P k s : ℝ} (hr : 0 < r) {p : Pt} (hp : TurnedInRange refl r c P k s p) :
    unrolledPos (1000 * r) (rotX Real.pi (onBlade refl r c P k s p)) =
      (1000 * (placed refl r c P k s (1 / 2, 0) p).1, 1000 * (placed refl r c P k s (1 / 2, 0) p).2 + Real.pi * (1000 * r)) := by
  rw [onBlade_eq, rotX_wrap r hr.ne', unrolledPos_wrap hr]
  · apply Prod.ext
    · rfl
    · simp only; ring
  · have e : ((placed refl r c P k s (1 / 2, 0) p).2 + Real.pi * r) / r = angleOn refl r c P k s p + Real.pi := by
      simp only [angleOn]; field_simp
    simp only [e]
    exact ⟨by linarith [hp.1], by linarith [hp.2]⟩

theorem frame_shift (le te p : Pt) (d : ℝ) : frame (le.1, le.2 + d) (te.1, te.2 + d) (p.1, p.2 + d) = frame le te p := by
  have : len (le.1, le.2 + d) (te.1, te.2 + d) = len le te := by
    unfold len; simp only; congr 2; ring
  unfold frame
  rw [this]
  apply Prod.ext
  · simp only; congr 2; ring
  · simp only; congr 1; ring

theorem frame_turned {refl : Bool} {r c P k s : ℝ} (hr : 0 < r) (hc : c ≠ 0) (h0 : TurnedInRange refl r c P k s (0, 0))
    (h1 : TurnedInRange refl r c P k s (1, 0)) {p : Pt} (hp : TurnedInRange refl r c P k s p) :
    frame (unrolledPos (1000 * r) (rotX Real.pi (onBlade refl r c P k s (0, 0))))
        (unrolledPos (1000 * r) (rotX Real.pi (onBlade refl r c P k s (1, 0))))
        (unrolledPos (1000 * r) (rotX Real.pi (onBlade refl r c P k s p))) = flipY p ∧
    frame (unrolledPos (1000 * r) (rotX Real.pi (onBlade refl r c P k s (1, 0))))
        (unrolledPos (1000 * r) (rotX Real.pi (onBlade refl r c P k s (0, 0))))
        (unrolledPos (1000 * r) (rotX Real.pi (onBlade refl r c P k s p))) = (1 - p.1, p.2) := by
  have shift := frame_shift (1000 * (placed refl r c P k s (1 / 2, 0) (0, 0)).1, 1000 * (placed refl r c P k s (1 / 2, 0) (0, 0)).2)
    (1000 * (placed refl r c P k s (1 / 2, 0) (1, 0)).1, 1000 * (placed refl r c P k s (1 / 2, 0) (1, 0)).2)
    (1000 * (placed refl r c P k s (1 / 2, 0) p).1, 1000 * (placed refl r c P k s (1 / 2, 0) p).2) (Real.pi * (1000 * r))
  have shift' := frame_shift (1000 * (placed refl r c P k s (1 / 2, 0) (1, 0)).1, 1000 * (placed refl r c P k s (1 / 2, 0) (1, 0)).2)
    (1000 * (placed refl r c P k s (1 / 2, 0) (0, 0)).1, 1000 * (placed refl r c P k s (1 / 2, 0) (0, 0)).2)
    (1000 * (placed refl r c P k s (1 / 2, 0) p).1, 1000 * (placed refl r c P k s (1 / 2, 0) p).2) (Real.pi * (1000 * r))
  rw [unrolledPos_turned hr h0, unrolledPos_turned hr h1, unrolledPos_turned hr hp]
  constructor
  · refine shift.trans ?_
    rw [← chordFrame_placed refl r c P k s p 1000, frame_chordFrame]
    exact (stored_of_edges (refl := refl) (P := P) (k := k) (s := s) hr hc rfl 0 (Or.inl ⟨by simp, by simp⟩)).1
  · refine shift'.trans ?_
    rw [← chordFrame_placed' refl r c P k s p 1000, frame_chordFrame]
    exact (stored_of_edges (refl := refl) (P := P) (k := k) (s := s) hr hc rfl 0 (Or.inr ⟨by simp, by simp⟩)).1

/-- What the theorems below have in common. -/
theorem generic_core {interp : List Pt → Res (ℝ → ℝ)} (hinterp : Interpolates interp) {n : Nat} {R : ℝ} {G : SectionGeom} {S : Section}
    (W : ℝ → Pt) (C : Nat → Pt)
    (hW : ∀ i : Nat, i < 1000 →
      frame (unrolledPos R G.leading) (unrolledPos R G.trailing) (unrolledPos R (G.whole ((i : ℝ) / 999))) = W ((i : ℝ) / 999))
    (hC : ∀ m : Nat, m < 500 → frame (unrolledPos R G.leading) (unrolledPos R G.trailing) (unrolledPos R (G.camber m)) = C m)
    (h : sectionGeneric interp n R G = .ok S) :
    ∃ f : ℝ → ℝ, (∀ m : Nat, 0 < m → m < 499 → f (C m).1 = (C m).2) ∧ f 0 = (C 0).2 ∧ f 1 = (C 499).2 ∧
      ∀ i j : Nat, i < 1000 → j < n → (W ((i : ℝ) / 999)).1 = (j : ℝ) / ((n : ℝ) - 1) → 0.005 < (W ((i : ℝ) / 999)).1 →
        (W ((i : ℝ) / 999)).1 < 0.995 →
        (f (W ((i : ℝ) / 999)).1 < (W ((i : ℝ) / 999)).2 → S.yup[j]? = some (W ((i : ℝ) / 999)).2) ∧
        ((W ((i : ℝ) / 999)).2 ≤ f (W ((i : ℝ) / 999)).1 → S.ydown[j]? = some (W ((i : ℝ) / 999)).2) := by
  obtain ⟨_, _, c, f, yu, yd, hc, hf, hu, hd, rfl⟩ := sectionGeneric_ok.1 h
  set le := unrolledPos R G.leading
  set te := unrolledPos R G.trailing
  have hfoil : ∀ i : Nat, i < 1000 →
      W ((i : ℝ) / 999) ∈ ((List.range 1000).map fun i : Nat => unrolledPos R (G.whole ((i : ℝ) / 999))).map (frame le te) :=
    fun i hi => List.mem_map.2 ⟨_, List.mem_map.2 ⟨i, List.mem_range.2 hi, rfl⟩, hW i hi⟩
  generalize ((List.range 1000).map fun i : Nat => unrolledPos R (G.whole ((i : ℝ) / 999))) = foil at hu hd hfoil
  have hcl : (((List.range 500).map fun i => unrolledPos R (G.camber i)).map (frame le te)).length = 500 := by
    rw [List.length_map, List.length_map, List.length_range]
  have hcg : ∀ m : Nat, m < 500 → (((List.range 500).map fun i => unrolledPos R (G.camber i)).map (frame le te))[m]? = some (C m) := by
    intro m hm
    rw [List.getElem?_map, List.getElem?_map, List.getElem?_range hm, Option.map_some, Option.map_some, hC m hm]
  obtain ⟨p, q, mm, e1, e2⟩ := setEnds_ok (l := ((List.range 500).map fun i => unrolledPos R (G.camber i)).map (frame le te))
    (by rw [hcl]; norm_num)
  rw [e2] at hc
  obtain rfl := Except.ok.inj hc
  rw [e1] at hcl hcg
  have hml : mm.length = 498 := by simpa using hcl
  have hcam : ∀ x ∈ (0, p.2) :: (mm ++ [(1, q.2)]), f x.1 = x.2 := fun x hx => hinterp _ f hf x (List.mem_mergeSort.2 hx)
  refine ⟨f, ?_, ?_, ?_, ?_⟩
  · intro m h0 h1
    obtain ⟨k, rfl⟩ : ∃ k, m = k + 1 := ⟨m - 1, by omega⟩
    have := hcg (k + 1) (by omega)
    rw [List.getElem?_cons_succ, List.getElem?_append_left (by omega)] at this
    exact hcam _ (by simp [List.mem_of_getElem? this])
  · have := hcg 0 (by norm_num)
    obtain rfl := Option.some.inj this
    exact hcam (0, (C 0).2) (by simp)
  · have := hcg 499 (by norm_num)
    rw [List.getElem?_cons_succ, List.getElem?_append_right (by omega), hml] at this
    obtain rfl := Option.some.inj this
    exact hcam (1, (C 499).2) (by simp)
  · intro i j hi hj hij lo hiq
    have hn : 2 ≤ n := by
      by_contra hlt
      have hn1 : n = 1 := by omega
      subst hn1
      rw [hij] at lo
      norm_num at lo
    have hmin : min (max (W ((i : ℝ) / 999)).1 0) 1 = (W ((i : ℝ) / 999)).1 := by
      have a : (0 : ℝ) ≤ (W ((i : ℝ) / 999)).1 := le_trans (by norm_num) lo.le
      have b : (W ((i : ℝ) / 999)).1 ≤ 1 := hiq.le.trans (by norm_num)
      rw [max_eq_left a, min_eq_left b]
    have hmem := hfoil i hi
    have key : ∀ (Q : Pt → Bool) (v : Arr),
        resample interp n (((0, 0) : Pt) :: (1, 0) :: ((foil.map (frame le te)).filter fun p => decide (0.005 < p.1 ∧ p.1 < 0.995)).filter Q) = .ok v →
        Q (W ((i : ℝ) / 999)) = true → v[j]? = some (W ((i : ℝ) / 999)).2 := by
      intro Q v hv hQ
      apply resample_value hinterp hn hv _ (by simp) (by simp) _ hj hij
      · intro x hx
        simp only [List.mem_cons] at hx
        rcases hx with rfl | rfl | hx
        · norm_num
        · norm_num
        · have := (List.mem_filter.1 (List.mem_filter.1 hx).1).2
          obtain ⟨a, b⟩ := of_decide_eq_true this
          exact ⟨le_trans (by norm_num) a.le, b.le.trans (by norm_num)⟩
      · exact List.mem_cons_of_mem _ (List.mem_cons_of_mem _ (List.mem_filter.2 ⟨List.mem_filter.2 ⟨hmem, decide_eq_true ⟨lo, hiq⟩⟩, hQ⟩))
    constructor
    · intro hlt
      exact key (fun p => decide (f (min (max p.1 0) 1) < p.2)) _ hu (decide_eq_true (by rw [hmin]; exact hlt))
    · intro hle
      exact key (fun p => !decide (f (min (max p.1 0) 1) < p.2)) _ hd (by simp [hmin, hle])

/-- **C92** a section of a blade, turned by half a turn as the class expects it, the kernel's leading edge being that of the foil: its points are
the places of the points `W t` of the foil and `C m` of its camber line. There is a line `g` through the camber points (the two last ones moved to the
abscissae 0 and 1) such that, away from the edges, every sampled point of the foil *below* `g` gives a value of `yup`, every one on or above it
a value of `ydown`, in both cases with the opposite sign: the section comes out mirrored in its chord. -/
theorem C92_mirrored (interp : List Pt → Res (ℝ → ℝ)) (hinterp : Interpolates interp) (n : Nat) (refl : Bool) (r c P k s : ℝ) (W : ℝ → Pt)
    (C : Nat → Pt) (G : SectionGeom) (S : Section) (hr : 0 < r) (hc : c ≠ 0)
    (h0 : TurnedInRange refl r c P k s (0, 0)) (h1 : TurnedInRange refl r c P k s (1, 0))
    (hW : ∀ t, TurnedInRange refl r c P k s (W t)) (hC : ∀ m, TurnedInRange refl r c P k s (C m))
    (hle : G.leading = rotX Real.pi (onBlade refl r c P k s (0, 0))) (hte : G.trailing = rotX Real.pi (onBlade refl r c P k s (1, 0)))
    (hGW : ∀ t, G.whole t = rotX Real.pi (onBlade refl r c P k s (W t)))
    (hGC : ∀ m, G.camber m = rotX Real.pi (onBlade refl r c P k s (C m)))
    (h : sectionGeneric interp n (1000 * r) G = .ok S) :
    ∃ g : ℝ → ℝ, (∀ m : Nat, 0 < m → m < 499 → g (C m).1 = (C m).2) ∧ g 0 = (C 0).2 ∧ g 1 = (C 499).2 ∧
      ∀ i j : Nat, i < 1000 → j < n → ∀ x y : ℝ, W ((i : ℝ) / 999) = (x, y) → x = (j : ℝ) / ((n : ℝ) - 1) → 0.005 < x → x < 0.995 →
        (y < g x → S.yup[j]? = some (-y)) ∧ (g x ≤ y → S.ydown[j]? = some (-y)) := by
  obtain ⟨f, f1, f2, f3, f4⟩ := generic_core hinterp (fun t => flipY (W t)) (fun m => flipY (C m))
    (fun i _ => by rw [hle, hte, hGW]; exact (frame_turned hr hc h0 h1 (hW _)).1)
    (fun m _ => by rw [hle, hte, hGC]; exact (frame_turned hr hc h0 h1 (hC _)).1) h
  simp only [flipY] at f1 f2 f3 f4
  refine ⟨fun x => -f x, fun m a b => by simp only [f1 m a b, neg_neg], by simp only [f2, neg_neg], by simp only [f3, neg_neg], ?_⟩
  intro i j hi hj x y hxy hx lo hiq
  obtain ⟨a, b⟩ := f4 i j hi hj (by rw [hxy]; exact hx) (by rw [hxy]; exact lo) (by rw [hxy]; exact hiq)
  rw [hxy] at a b
  exact ⟨fun hlt => a (by simp only; linarith), fun hle => b (by simp only; linarith)⟩

/-- **C92** if the kernel's leading edge (the edge farther along the axis) is the trailing edge of the foil, the section comes out reversed along
its chord instead: upper stays upper, and the ordinate at the abscissa `j / (n - 1)` is that of the foil at `1 - j / (n - 1)`. -/
theorem C92_reversed (interp : List Pt → Res (ℝ → ℝ)) (hinterp : Interpolates interp) (n : Nat) (refl : Bool) (r c P k s : ℝ) (W : ℝ → Pt)
    (C : Nat → Pt) (G : SectionGeom) (S : Section) (hr : 0 < r) (hc : c ≠ 0)
    (h0 : TurnedInRange refl r c P k s (0, 0)) (h1 : TurnedInRange refl r c P k s (1, 0))
    (hW : ∀ t, TurnedInRange refl r c P k s (W t)) (hC : ∀ m, TurnedInRange refl r c P k s (C m))
    (hle : G.leading = rotX Real.pi (onBlade refl r c P k s (1, 0))) (hte : G.trailing = rotX Real.pi (onBlade refl r c P k s (0, 0)))
    (hGW : ∀ t, G.whole t = rotX Real.pi (onBlade refl r c P k s (W t)))
    (hGC : ∀ m, G.camber m = rotX Real.pi (onBlade refl r c P k s (C m)))
    (h : sectionGeneric interp n (1000 * r) G = .ok S) :
    ∃ g : ℝ → ℝ, (∀ m : Nat, 0 < m → m < 499 → g (C m).1 = (C m).2) ∧ g 1 = (C 0).2 ∧ g 0 = (C 499).2 ∧
      ∀ i j : Nat, i < 1000 → j < n → ∀ x y : ℝ, W ((i : ℝ) / 999) = (x, y) → 1 - x = (j : ℝ) / ((n : ℝ) - 1) → 0.005 < x → x < 0.995 →
        (g x < y → S.yup[j]? = some y) ∧ (y ≤ g x → S.ydown[j]? = some y) := by
  obtain ⟨f, f1, f2, f3, f4⟩ := generic_core hinterp (fun t => (1 - (W t).1, (W t).2)) (fun m => (1 - (C m).1, (C m).2))
    (fun i _ => by rw [hle, hte, hGW]; exact (frame_turned hr hc h0 h1 (hW _)).2)
    (fun m _ => by rw [hle, hte, hGC]; exact (frame_turned hr hc h0 h1 (hC _)).2) h
  simp only at f1 f2 f3 f4
  refine ⟨fun x => f (1 - x), fun m a b => f1 m a b, by simp only [sub_self, f2], by simp only [sub_zero, f3], ?_⟩
  intro i j hi hj x y hxy hx lo hiq
  obtain ⟨a, b⟩ := f4 i j hi hj (by rw [hxy]; exact hx) (by rw [hxy]; simp only; norm_num at hiq ⊢; linarith)
    (by rw [hxy]; simp only; norm_num at lo ⊢; linarith)
  rw [hxy] at a b
  exact ⟨a, b⟩

/-- **C92** which of the two happens: whenever the edge search of the class finds the two edges of the section (in either order), then for a blade
of positive pitch built with the default reflection the edge it calls leading is the foil's own leading edge, so that the section comes out
mirrored; for negative pitch it is the trailing one and the section comes out reversed. -/
theorem C92_which_edge (r c P k s : ℝ) (hr : 0 < r) (hc : 0 < c) (E : EdgeGeom) (leading trailing : Pt3)
    (hE : findEdges E = .ok (leading, trailing))
    (h : (leading = rotX Real.pi (onBlade true r c P k s (0, 0)) ∧ trailing = rotX Real.pi (onBlade true r c P k s (1, 0))) ∨
      (trailing = rotX Real.pi (onBlade true r c P k s (0, 0)) ∧ leading = rotX Real.pi (onBlade true r c P k s (1, 0)))) :
    (0 < P → leading = rotX Real.pi (onBlade true r c P k s (0, 0)) ∧ trailing = rotX Real.pi (onBlade true r c P k s (1, 0))) ∧
    (P < 0 → leading = rotX Real.pi (onBlade true r c P k s (1, 0)) ∧ trailing = rotX Real.pi (onBlade true r c P k s (0, 0))) := by
  have hle := (C75_edges E).2.2 _ _ hE
  obtain ⟨_, _, _, h4, _⟩ := placed_edges true P k s hr hc.ne'
  have hC : 0 < Real.cos (Real.arctan (P / (2 * Real.pi * r))) := Real.cos_arctan_pos _
  have hpi := Real.pi_pos
  have h2 : (placed true r c P k s (1 / 2, 0) (0, 0)).2 - (placed true r c P k s (1 / 2, 0) (1, 0)).2 =
      c * Real.cos (Real.arctan (P / (2 * Real.pi * r))) := by
    simp only [placed, if_true]; ring
  have e : ∀ p, (rotX Real.pi (onBlade true r c P k s p)).1 = 1000 * (placed true r c P k s (1 / 2, 0) p).1 := fun p => rfl
  have hpos : 0 < c * Real.cos (Real.arctan (P / (2 * Real.pi * r))) := mul_pos hc hC
  constructor
  · intro hP
    have : 0 < P / (2 * Real.pi * r) := by positivity
    have := mul_pos this hpos
    rw [← h2, ← h4] at this
    rcases h with h | ⟨q1, q2⟩
    · exact h
    · rw [q1, q2, e, e] at hle; linarith
  · intro hP
    have : P / (2 * Real.pi * r) < 0 := div_neg_of_neg_of_pos hP (by positivity)
    have := mul_neg_of_neg_of_pos this hpos
    rw [← h2, ← h4] at this
    rcases h with ⟨q1, q2⟩ | ⟨q1, q2⟩
    · rw [q1, q2, e, e] at hle; linarith
    · exact ⟨q2, q1⟩

/-- A lens: the foil above its chord on the way to the leading edge, below it on the way back. -/
def Sample.lens (t : ℝ) : Pt :=
  if t ≤ 1 / 2 then (max 0 (min 1 (1 - 2 * t)), max 0 (min 1 (1 - 2 * t)) * (1 - max 0 (min 1 (1 - 2 * t))))
  else (max 0 (min 1 (2 * t - 1)), -(max 0 (min 1 (2 * t - 1)) * (1 - max 0 (min 1 (2 * t - 1))) / 2))

theorem Sample.lens_bounds (t : ℝ) : (0 ≤ (lens t).1 ∧ (lens t).1 ≤ 1) ∧ |(lens t).2| ≤ 1 ∧
    (0 ≤ (lens t).2 → (lens t).2 = (lens t).1 * (1 - (lens t).1)) ∧
    ((lens t).2 < 0 → (lens t).2 = -((lens t).1 * (1 - (lens t).1) / 2)) := by
  have clip : ∀ u : ℝ, 0 ≤ max 0 (min 1 u) ∧ max 0 (min 1 u) ≤ 1 := fun u => ⟨le_max_left _ _, max_le (by norm_num) (min_le_left _ _)⟩
  unfold lens
  split_ifs with h
  · obtain ⟨a, b⟩ := clip (1 - 2 * t)
    have p := mul_nonneg a (sub_nonneg.2 b)
    refine ⟨⟨a, b⟩, ?_, fun _ => rfl, fun h => absurd h (not_lt.2 p)⟩
    simp only
    rw [abs_of_nonneg p]
    nlinarith
  · obtain ⟨a, b⟩ := clip (2 * t - 1)
    set x := max 0 (min 1 (2 * t - 1))
    have p := mul_nonneg a (sub_nonneg.2 b)
    refine ⟨⟨a, b⟩, ?_, fun h => ?_, fun _ => rfl⟩
    · simp only
      rw [abs_neg, abs_of_nonneg (by linarith)]
      nlinarith
    · simp only at h ⊢
      have : x * (1 - x) = 0 := by linarith
      rw [this]; norm_num

/-- The hypotheses of C92 are met: the lens on a blade with radius 1, chord 1 and pitch 2, its chord as camber line, four points per surface. The
lower ordinate at 1/3 comes out with the opposite sign in `yup`, the upper one in `ydown`. -/
example : ∃ (G : SectionGeom) (S : Section), G.leading = rotX Real.pi (onBlade true 1 1 2 0 0 (0, 0)) ∧
    G.trailing = rotX Real.pi (onBlade true 1 1 2 0 0 (1, 0)) ∧
    (∀ t, G.whole t = rotX Real.pi (onBlade true 1 1 2 0 0 (Sample.lens t))) ∧
    (∀ m, G.camber m = rotX Real.pi (onBlade true 1 1 2 0 0 (min 1 ((m : ℝ) / 3), 0))) ∧
    sectionGeneric Sample.exactInterp 4 (1000 * 1) G = .ok S ∧ S.yup[1]? = some (1 / 9 : ℝ) ∧ S.ydown[1]? = some (-(2 / 9) : ℝ) := by
  have hrange : ∀ p : Pt, (0 ≤ p.1 ∧ p.1 ≤ 1) → |p.2| ≤ 1 → TurnedInRange true 1 1 2 0 0 p := by
    intro p hx hy
    have hpi := Real.pi_gt_three
    have h1 := Real.abs_cos_le_one (Real.arctan (2 / (2 * Real.pi * 1)))
    have h2 := Real.abs_sin_le_one (Real.arctan (2 / (2 * Real.pi * 1)))
    have e : angleOn true 1 1 2 0 0 p = -(Real.cos (Real.arctan (2 / (2 * Real.pi * 1))) * (p.1 - 1 / 2)) -
        Real.sin (Real.arctan (2 / (2 * Real.pi * 1))) * p.2 := by
      simp only [angleOn, placed, if_true]; ring
    have a1 : |Real.cos (Real.arctan (2 / (2 * Real.pi * 1))) * (p.1 - 1 / 2)| ≤ 1 * 1 := by
      rw [abs_mul]; exact mul_le_mul h1 (by rw [abs_le]; constructor <;> linarith [hx.1, hx.2]) (abs_nonneg _) (by norm_num)
    have a2 : |Real.sin (Real.arctan (2 / (2 * Real.pi * 1))) * p.2| ≤ 1 * 1 := by
      rw [abs_mul]; exact mul_le_mul h2 hy (abs_nonneg _) (by norm_num)
    rw [abs_le] at a1 a2
    unfold TurnedInRange
    rw [e]
    constructor <;> linarith [a1.1, a1.2, a2.1, a2.2]
  have r0 := hrange (0, 0) (by norm_num) (by norm_num)
  have r1 := hrange (1, 0) (by norm_num) (by norm_num)
  have rW : ∀ t, TurnedInRange true 1 1 2 0 0 (Sample.lens t) := fun t => hrange _ (Sample.lens_bounds t).1 (Sample.lens_bounds t).2.1
  have rC : ∀ m : Nat, TurnedInRange true 1 1 2 0 0 (min 1 ((m : ℝ) / 3), 0) := fun m =>
    hrange _ ⟨le_min (by norm_num) (by positivity), min_le_left _ _⟩ (by norm_num)
  let G : SectionGeom := ⟨rotX Real.pi (onBlade true 1 1 2 0 0 (0, 0)), rotX Real.pi (onBlade true 1 1 2 0 0 (1, 0)),
    fun t => rotX Real.pi (onBlade true 1 1 2 0 0 (Sample.lens t)), fun _ => 0, fun _ => 0,
    fun m => rotX Real.pi (onBlade true 1 1 2 0 0 (min 1 ((m : ℝ) / 3), 0))⟩
  have hd : (unrolledPos (1000 * 1) G.leading).2 ≠ (unrolledPos (1000 * 1) G.trailing).2 := by
    simp only [G]
    rw [unrolledPos_turned one_pos r0, unrolledPos_turned one_pos r1]
    exact (stored_of_edges (refl := true) (P := 2) (k := 0) (s := 0) one_pos one_ne_zero rfl (Real.pi * (1000 * 1)) (Or.inl ⟨rfl, rfl⟩)).1
  have fW : ∀ t, frame (unrolledPos (1000 * 1) G.leading) (unrolledPos (1000 * 1) G.trailing) (unrolledPos (1000 * 1) (G.whole t)) =
      flipY (Sample.lens t) := fun t => (frame_turned one_pos one_ne_zero r0 r1 (rW t)).1
  have fC : ∀ m, frame (unrolledPos (1000 * 1) G.leading) (unrolledPos (1000 * 1) G.trailing) (unrolledPos (1000 * 1) (G.camber m)) =
      flipY (min 1 ((m : ℝ) / 3), 0) := fun m => (frame_turned one_pos one_ne_zero r0 r1 (rC m)).1
  set le := unrolledPos (1000 * 1) G.leading with hle
  set te := unrolledPos (1000 * 1) G.trailing with hte
  -- the camber line
  obtain ⟨p, q, m, hl, hc⟩ := setEnds_ok (l := ((List.range 500).map fun i => unrolledPos (1000 * 1) (G.camber i)).map (frame le te))
    (by rw [List.length_map, List.length_map, List.length_range]; norm_num)
  have hzero : ∀ x ∈ p :: (m ++ [q]), x.2 = 0 := by
    rw [← hl]
    intro x hx
    obtain ⟨_, hy, rfl⟩ := List.mem_map.1 hx
    obtain ⟨i, _, rfl⟩ := List.mem_map.1 hy
    rw [fC]; simp [flipY]
  have hzero' : ∀ x ∈ ((0, p.2) :: (m ++ [(1, q.2)])).mergeSort lexLe2, x.2 = 0 := by
    intro x hx
    rw [List.mem_mergeSort] at hx
    simp only [List.mem_cons, List.mem_append, List.not_mem_nil, or_false] at hx
    rcases hx with rfl | hx | rfl
    · exact hzero p (by simp)
    · exact hzero x (by simp [hx])
    · exact hzero q (by simp)
  obtain ⟨f, hf, hf0⟩ : ∃ f, Sample.exactInterp (((0, p.2) :: (m ++ [(1, q.2)])).mergeSort lexLe2) = .ok f ∧ ∀ x, f x = 0 := by
    refine ⟨_, if_pos fun x hx y hy _ => by rw [hzero' x hx, hzero' y hy], ?_⟩
    intro x
    generalize ((0, p.2) :: (m ++ [(1, q.2)])).mergeSort lexLe2 = l at hzero'
    cases hq : l.find? (fun p => decide (p.1 = x)) with
    | none => rfl
    | some y => exact hzero' y (List.mem_of_find?_eq_some hq)
  have hfoil : ∀ x ∈ ((List.range 1000).map fun i : Nat => unrolledPos (1000 * 1) (G.whole ((i : ℝ) / 999))).map (frame le te),
      ∃ t, x = flipY (Sample.lens t) := by
    intro x hx
    obtain ⟨_, hy, rfl⟩ := List.mem_map.1 hx
    obtain ⟨i, _, rfl⟩ := List.mem_map.1 hy
    exact ⟨_, fW _⟩
  have total : ∀ foil : List Pt, (∀ x ∈ foil.map (frame le te), ∃ t, x = flipY (Sample.lens t)) →
      ∃ yu yd, resample Sample.exactInterp 4 (splitFoil f (ex le te foil ((0, p.2) :: (m ++ [(1, q.2)])))).1 = .ok yu ∧
        resample Sample.exactInterp 4 (splitFoil f (ex le te foil ((0, p.2) :: (m ++ [(1, q.2)])))).2 = .ok yd := by
    intro foil hfoil
    have one : ∀ (Q : Pt → Bool) (g : ℝ → ℝ), g 0 = 0 → g 1 = 0 →
        (∀ t, Q (flipY (Sample.lens t)) = true → -(Sample.lens t).2 = g (Sample.lens t).1) →
        ∃ v, resample Sample.exactInterp 4 (((0, 0) : Pt) :: (1, 0) ::
          ((foil.map (frame le te)).filter fun p => decide (0.005 < p.1 ∧ p.1 < 0.995)).filter Q) = .ok v := by
      intro Q g g0 g1 hg
      have hm : ∀ x ∈ (((0, 0) : Pt) :: (1, 0) :: ((foil.map (frame le te)).filter fun p => decide (0.005 < p.1 ∧ p.1 < 0.995)).filter Q),
          (0 ≤ x.1 ∧ x.1 ≤ 1) ∧ x.2 = g x.1 := by
        intro x hx
        simp only [List.mem_cons] at hx
        rcases hx with rfl | rfl | hx
        · exact ⟨by norm_num, g0.symm⟩
        · exact ⟨by norm_num, g1.symm⟩
        · obtain ⟨h1, h2⟩ := List.mem_filter.1 hx
          obtain ⟨t, rfl⟩ := hfoil x (List.mem_filter.1 h1).1
          exact ⟨(Sample.lens_bounds t).1, hg t h2⟩
      obtain ⟨_, _, _, _, hz⟩ := zeroEnds_ok (l := (linspaceN 0 1 4).map _) (by simp [linspaceN])
      refine ⟨_, resample_ok.2 ⟨_, _, prepared_unit (fun p hp => (hm p hp).1) ⟨(0, 0), by simp, rfl⟩ ⟨(1, 0), by simp, rfl⟩, if_pos ?_, hz⟩⟩
      intro a ha b hb hab
      rw [(hm a (List.mem_mergeSort.1 ha)).2, (hm b (List.mem_mergeSort.1 hb)).2, hab]
    obtain ⟨yu, hu⟩ := one (fun p => decide (f (min (max p.1 0) 1) < p.2)) (fun x => x * (1 - x) / 2) (by norm_num) (by norm_num) (by
      intro t ht
      have ht' := of_decide_eq_true ht
      rw [hf0] at ht'
      simp only [flipY] at ht'
      rw [(Sample.lens_bounds t).2.2.2 (by linarith), neg_neg])
    obtain ⟨yd, hdn⟩ := one (fun p => !decide (f (min (max p.1 0) 1) < p.2)) (fun x => -(x * (1 - x))) (by norm_num) (by norm_num) (by
      intro t ht
      have ht' : ¬ (f (min (max (flipY (Sample.lens t)).1 0) 1) < (flipY (Sample.lens t)).2) := by simpa using ht
      rw [hf0] at ht'
      simp only [flipY] at ht'
      rw [(Sample.lens_bounds t).2.2.1 (by linarith)])
    exact ⟨yu, yd, hu, hdn⟩
  obtain ⟨yu, yd, hu, hdn⟩ := total _ hfoil
  have hS := sectionGeneric_ok.2 ⟨by norm_num, hd, _, f, yu, yd, hc, hf, hu, hdn, rfl⟩
  obtain ⟨g, g1, g2, g3, g4⟩ := C92_mirrored Sample.exactInterp Sample.exactInterp_interpolates 4 true 1 1 2 0 0 Sample.lens
    (fun m => (min 1 ((m : ℝ) / 3), 0)) G _ one_pos one_ne_zero r0 r1 rW rC rfl rfl (fun _ => rfl) (fun _ => rfl) hS
  have hg : g (1 / 3) = 0 := by
    have := g1 1 (by norm_num) (by norm_num)
    rw [show min (1 : ℝ) (((1 : Nat) : ℝ) / 3) = 1 / 3 by norm_num] at this
    exact this
  refine ⟨G, _, rfl, rfl, fun _ => rfl, fun _ => rfl, hS, ?_, ?_⟩
  · have e : Sample.lens (((666 : Nat) : ℝ) / 999) = (1 / 3, -(1 / 9)) := by
      unfold Sample.lens
      rw [if_neg (by norm_num), show (2 * (((666 : Nat) : ℝ) / 999) - 1 : ℝ) = 1 / 3 by norm_num, min_eq_right (by norm_num),
        max_eq_right (by norm_num)]
      norm_num
    have := (g4 666 1 (by norm_num) (by norm_num) _ _ e (by norm_num) (by norm_num) (by norm_num)).1 (by rw [hg]; norm_num)
    rw [this]; norm_num
  · have e : Sample.lens (((333 : Nat) : ℝ) / 999) = (1 / 3, 2 / 9) := by
      unfold Sample.lens
      rw [if_pos (by norm_num), show (1 - 2 * (((333 : Nat) : ℝ) / 999) : ℝ) = 1 / 3 by norm_num, min_eq_right (by norm_num),
        max_eq_right (by norm_num)]
      norm_num
    exact (g4 333 1 (by norm_num) (by norm_num) _ _ e (by norm_num) (by norm_num) (by norm_num)).2 (by rw [hg]; norm_num)

end
end BladeX
