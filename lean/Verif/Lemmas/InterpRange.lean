import Verif.Lemmas.InterpShape

/-! # The program asks the cubic `interp1d` only inside its range, and what happens when it refuses -/

namespace BladeX
noncomputable section
open Classical Spec Reverse

theorem interp1d_error {l : List Pt} {e : PyErr} (h : interp1d l = .error e) : e = .valueError := by
  rw [interp1d_def] at h
  split_ifs at h
  cases h; rfl

theorem interp1d_length {l : List Pt} {f : ℝ → ℝ} (h : interp1d l = .ok f) : 4 ≤ l.length := by
  rw [interp1d_def] at h
  split_ifs at h with hc
  exact hc.1

theorem setEnds_mem {l l' : List Pt} (h : setEnds l = .ok l') (h2 : 2 ≤ l'.length) : (∃ y, ((0, y) : Pt) ∈ l') ∧ ∃ z, ((1, z) : Pt) ∈ l' := by
  match l, h with
  | [], h => cases h
  | [p], h =>
    rw [setEnds_one] at h
    obtain rfl := Except.ok.inj h
    simp at h2
  | p :: q :: m, h =>
    obtain ⟨a, b, m', e1, e2⟩ := setEnds_ok (l := p :: q :: m) (by simp)
    rw [e2] at h
    obtain rfl := Except.ok.inj h
    exact ⟨⟨a.2, by simp⟩, ⟨b.2, by simp⟩⟩

theorem linspaceN_mem {n : Nat} {t : ℝ} (h : t ∈ linspaceN 0 1 n) : 0 ≤ t ∧ t ≤ 1 := by
  obtain ⟨j, hj⟩ := List.mem_iff_getElem?.1 h
  have hlen : j < n := by
    have : j < (linspaceN 0 1 n).length := (List.getElem?_eq_some_iff.1 hj).1
    simpa [linspaceN] using this
  rw [linspaceN_get hlen] at hj
  obtain rfl := Option.some.inj hj
  rcases Nat.lt_or_ge 1 n with h1 | h1
  · have hn1 : 0 < ((n : ℝ) - 1) := by
      have : (2 : ℝ) ≤ n := by exact_mod_cast h1
      linarith
    have : (j : ℝ) + 1 ≤ n := by exact_mod_cast hlen
    exact ⟨by positivity, (div_le_one hn1).2 (by linarith)⟩
  · have : j = 0 := by omega
    subst this; simp

theorem resample_like {interp : List Pt → Res (ℝ → ℝ)} (h : LikeInterp1d interp) (n : Nat) (l : List Pt) :
    resample interp n l = resample interp1d n l := by
  unfold resample
  cases hs : setEnds (l.mergeSort lexLe2) with
  | error e => rfl
  | ok l' =>
    simp only [bind, Except.bind]
    cases hi : interp1d l' with
    | error e => rw [(h l').1 e hi]
    | ok f =>
      obtain ⟨f', e1, e2⟩ := (h l').2 f hi
      obtain ⟨⟨y, hy⟩, z, hz⟩ := setEnds_mem hs (by have := interp1d_length hi; omega)
      rw [e1]
      simp only
      congr 1
      apply List.map_congr_left
      intro t ht
      obtain ⟨t0, t1⟩ := linspaceN_mem ht
      exact e2 t ⟨_, hy, t0⟩ ⟨_, hz, t1⟩

theorem like_const {interp : List Pt → Res (ℝ → ℝ)} (h : LikeInterp1d interp) {α : Type} (l : List Pt) (k : Res α) :
    (interp l >>= fun _ => k) = (interp1d l >>= fun _ => k) := by
  cases hi : interp1d l with
  | error e => rw [(h l).1 e hi]
  | ok f => obtain ⟨f', e1, -⟩ := (h l).2 f hi; rw [e1]; rfl

theorem sectionBladeX_like {interp : List Pt → Res (ℝ → ℝ)} (h : LikeInterp1d interp) (n : Nat) (R : ℝ) (G : SectionGeom) :
    sectionBladeX interp n R G = sectionBladeX interp1d n R G := by
  simp only [sectionBladeX, resample_like h, like_const h]

theorem extract_camber {le te mid : Pt} {foil camber : List Pt} {e : Extracted} (h : extract le te mid foil camber = .ok e) :
    ∃ c, ∃ F : Pt → Pt, setEnds (camber.map F) = .ok c ∧ e.camber = c.mergeSort lexLe2 := by
  simp only [extract, bind, Except.bind, pure, Except.pure, throw, throwThe, MonadExceptOf.throw] at h
  split at h
  · cases h
  split at h
  · cases h
  split at h
  · cases h
  · rename_i c hc
    obtain rfl := Except.ok.inj h
    exact ⟨c, _, hc, rfl⟩

theorem splitFoil_congr {f f' : ℝ → ℝ} (h : ∀ t, 0 ≤ t → t ≤ 1 → f' t = f t) (e : Extracted) : splitFoil f' e = splitFoil f e := by
  have : ∀ x : ℝ, f' (min (max x 0) 1) = f (min (max x 0) 1) := fun x =>
    h _ (le_min (le_max_right _ _) zero_le_one) (min_le_right _ _)
  simp only [splitFoil, this]

theorem sectionGeneric_like {interp : List Pt → Res (ℝ → ℝ)} (h : LikeInterp1d interp) (n : Nat) (R : ℝ) (G : SectionGeom) :
    sectionGeneric interp n R G = sectionGeneric interp1d n R G := by
  simp only [sectionGeneric, resample_like h]
  generalize hE : extract _ _ _ _ _ = E
  rcases E with e' | e
  · rfl
  simp only [bind, Except.bind]
  obtain ⟨c, F, hc, hcam⟩ := extract_camber hE
  cases hi : interp1d e.camber with
  | error e' => rw [(h _).1 e' hi]
  | ok f =>
    obtain ⟨f', e1, e2⟩ := (h _).2 f hi
    have h4 := interp1d_length hi
    rw [hcam, List.length_mergeSort] at h4
    obtain ⟨⟨y, hy⟩, z, hz⟩ := setEnds_mem hc (by omega)
    have : ∀ t, 0 ≤ t → t ≤ 1 → f' t = f t := fun t t0 t1 =>
      e2 t ⟨_, hcam ▸ List.mem_mergeSort.2 hy, t0⟩ ⟨_, hcam ▸ List.mem_mergeSort.2 hz, t1⟩
    rw [e1]
    simp only [splitFoil_congr this]

/-- Errors of a chain. -/
theorem bndE {α β : Type} {x : Res α} {k : α → Res β} {e : PyErr} : (x >>= k) = .error e ↔ x = .error e ∨ ∃ y, x = .ok y ∧ k y = .error e := by
  cases x with
  | error e' => simp [bind, Except.bind]
  | ok y => simp [bind, Except.bind]

theorem resample_error {interp : List Pt → Res (ℝ → ℝ)} {n : Nat} (hn : 0 < n) {l : List Pt} (hl : l ≠ []) {e : PyErr} (h : resample interp n l = .error e) :
    ∃ l', interp l' = .error e := by
  by_contra hno
  push Not at hno
  unfold resample at h
  rcases bndE.1 h with h1 | ⟨l', h1, h2⟩
  · have : (l.mergeSort lexLe2) ≠ [] := by
      intro h; apply hl; have := congrArg List.length h; simpa using this
    match l.mergeSort lexLe2, this, h1 with
    | [p], _, h1 => rw [setEnds_one] at h1; cases h1
    | p :: q :: m, _, h1 =>
      obtain ⟨_, _, _, _, h3⟩ := setEnds_ok (l := p :: q :: m) (by simp)
      rw [h3] at h1; cases h1
  · rcases bndE.1 h2 with h3 | ⟨f, _, h4⟩
    · exact hno _ h3
    · match hv : (linspaceN 0 1 n).map f with
      | [] => have := congrArg List.length hv; simp [linspaceN] at this; omega
      | x :: xs => rw [hv, zeroEnds] at h4; cases h4

theorem transformTopBottom_total (e : Extracted) {top bottom : List Pt} (h : top ≠ []) :
    ∃ t b, transformTopBottom e top bottom = .ok (t, b) ∧ t.length = top.length ∧ b.length = bottom.length := by
  unfold transformTopBottom
  set f := fun p => normalized e.chord (rotated e.pitchAngle (shifted e.skew e.induced e.rake p))
  have hlt : argmax ((top.map f).map fun p => |p.2|) < (top.map f).length := by
    simpa using argmax_lt (l := (top.map f).map fun p => |p.2|) (by simpa using h)
  have hg : getIdx (top.map f) (argmax ((top.map f).map fun p => |p.2|)) = .ok (top.map f)[argmax ((top.map f).map fun p => |p.2|)] := by
    simp only [getIdx, List.getElem?_eq_getElem hlt]
  simp only [hg, bind, Except.bind, pure, Except.pure]
  split_ifs
  · exact ⟨_, _, rfl, by simp, by simp⟩
  · exact ⟨_, _, rfl, by simp, by simp⟩

/-- When the number of points, the radius and the edges are in order, only the interpolation can raise. -/
theorem sectionBladeX_error {interp : List Pt → Res (ℝ → ℝ)} {n : Nat} (hn : 2 ≤ n) (hn' : n ≤ 500) {R : ℝ} (hR : R ≠ 0) {G : SectionGeom}
    (hd : (unrolled R G.leading).2 ≠ (unrolled R G.trailing).2) {e : PyErr} (h : sectionBladeX interp n R G = .error e) : ∃ l, interp l = .error e := by
  by_contra hno
  push Not at hno
  unfold sectionBladeX at h
  rw [if_neg (by omega), if_neg (by omega)] at h
  simp only [pure_bind] at h
  obtain ⟨c, hc⟩ : ∃ c, setEnds (((List.range n).map fun i => unrolledPos R (G.camber i)).map (frame (unrolled R G.leading) (unrolled R G.trailing))) = .ok c := by
    obtain ⟨_, _, _, _, h⟩ := setEnds_ok (l := ((List.range n).map fun i => unrolledPos R (G.camber i)).map
      (frame (unrolled R G.leading) (unrolled R G.trailing))) (by simpa using hn)
    exact ⟨_, h⟩
  rw [extract_ok hd, hc] at h
  rcases bndE.1 h with h1 | ⟨E, h1, h⟩
  · cases h1
  obtain rfl := Except.ok.inj h1
  rcases bndE.1 h with h1 | ⟨f, h1, h⟩
  · exact hno _ h1
  rcases bndE.1 h with h2 | ⟨s, h2, h⟩
  · have hcot : cot (atan2 ((unrolled R G.leading).2 - (unrolled R G.trailing).2) ((unrolled R G.leading).1 - (unrolled R G.trailing).1)) ≠ .error e := by
      have hl := len_pos hd
      rw [cot, if_neg (by rw [sin_atan2]; have := sub_ne_zero.2 hd; have := hl; unfold len at this; positivity)]
      exact fun h => by cases h
    simp only [storeBladeX, if_neg hR, pure_bind] at h2
    rcases bndE.1 h2 with h3 | ⟨_, _, h3⟩
    · exact hcot h3
    · cases h3
  obtain ⟨t, b, h3, l1, l2⟩ := transformTopBottom_total (ex (unrolled R G.leading) (unrolled R G.trailing)
    ((List.range 1000).map fun i : Nat => unrolledPos R (G.whole ((i : ℝ) / 999))) c)
    (top := (List.range n).map fun i : Nat => unrolled R (G.top ((i : ℝ) / ((n : ℝ) - 1))))
    (bottom := (List.range n).map fun i : Nat => unrolled R (G.bottom ((i : ℝ) / ((n : ℝ) - 1)))) (by simp; omega)
  rw [h3] at h
  rcases bndE.1 h with h4 | ⟨tb, h4, h⟩
  · cases h4
  obtain rfl := Except.ok.inj h4
  rcases bndE.1 h with h5 | ⟨yu, h5, h⟩
  · obtain ⟨l', hl'⟩ := resample_error (by omega) (by rintro rfl; simp at l1; omega) h5
    exact hno _ hl'
  rcases bndE.1 h with h5 | ⟨yu, h5, h⟩
  · obtain ⟨l', hl'⟩ := resample_error (by omega) (by rintro rfl; simp at l2; omega) h5
    exact hno _ hl'
  cases h

end
end BladeX
