import Verif.Spec.American
import Verif.Lemmas.Lists
import Verif.Lemmas.Edges
import Verif.Lemmas.Blade

/-! # Lemmas on the american thickness -/

namespace BladeX
noncomputable section
open Classical Spec Blade

namespace Profile

theorem bndA {α β : Type} {x : Res α} {k : α → Res β} {z : β} : (x >>= k) = .ok z ↔ ∃ y, x = .ok y ∧ k y = .ok z := by
  cases x <;> simp [bind, Except.bind]

theorem scatter_spec (g : Nat → Bool) : ∀ (a : Arr) (s : Nat) (r : Arr), r.length = ((List.range' s a.length).filter g).length →
    (scatter ((List.range' s a.length).map g) a r).length = a.length ∧
    ∀ (i : Nat) (x : ℝ), a[i]? = some x →
      (g (s + i) = false → (scatter ((List.range' s a.length).map g) a r)[i]? = some x) ∧
      (g (s + i) = true → ∃ (y : ℝ) (k : Nat), (scatter ((List.range' s a.length).map g) a r)[i]? = some y ∧ r[k]? = some y ∧
        ((List.range' s a.length).filter g)[k]? = some (s + i))
  | [], s, r, _ => by simp [scatter]
  | x0 :: a, s, r, h => by
    simp only [List.length_cons, List.range'_succ, List.map_cons, List.filter_cons] at h ⊢
    cases hg : g s with
    | false =>
      simp only [hg, Bool.false_eq_true, if_false] at h ⊢
      obtain ⟨h1, h2⟩ := scatter_spec g a (s + 1) r h
      rw [scatter]
      refine ⟨by simp [h1], ?_⟩
      intro i x hx
      cases i with
      | zero =>
        simp only [List.getElem?_cons_zero, Option.some.injEq] at hx
        refine ⟨fun _ => by simp [hx], fun hc => by simp [hg] at hc⟩
      | succ i =>
        simp only [List.getElem?_cons_succ] at hx ⊢
        have := h2 i x hx
        rw [show s + 1 + i = s + (i + 1) by ring] at this
        exact this
    | true =>
      simp only [hg, if_true, List.length_cons] at h ⊢
      cases r with
      | nil => simp at h
      | cons y r =>
        simp only [List.length_cons, add_left_inj] at h
        obtain ⟨h1, h2⟩ := scatter_spec g a (s + 1) r h
        rw [scatter]
        refine ⟨by simp [h1], ?_⟩
        intro i x hx
        cases i with
        | zero =>
          refine ⟨fun hc => by simp [hg] at hc, fun _ => ⟨y, 0, by simp, by simp, by simp⟩⟩
        | succ i =>
          simp only [List.getElem?_cons_succ] at hx ⊢
          have := h2 i x hx
          rw [show s + 1 + i = s + (i + 1) by ring] at this
          refine ⟨this.1, fun hc => ?_⟩
          obtain ⟨y', k, e1, e2, e3⟩ := this.2 hc
          exact ⟨y', k + 1, e1, by simpa using e2, by simpa using e3⟩

theorem amXdown_spec {newton : (Arr → Arr) → Arr → Res Arr} (hn : ExactSolver newton) {f : ℝ → ℝ} {P : Profile} {p : Params} {xd : Arr}
    (hl : p.chordPerc.length = P.xdown.length) (h : amXdown newton f P p = .ok xd) :
    xd.length = P.xdown.length ∧ ∀ (i : Nat) (x : ℝ), P.xdown[i]? = some x →
      (amHorizontal p i → xd[i]? = some x) ∧ (¬ amHorizontal p i → ∃ y, xd[i]? = some y ∧ amEquation f p i y = 0) := by
  unfold amXdown at h
  simp only [bndA] at h
  obtain ⟨r, hr, h⟩ := h
  obtain ⟨hr1, hr2⟩ := hn _ _ _ hr
  rw [if_neg (by simp [hr1])] at h
  simp only [pure, Except.pure, bind, Except.bind, Except.ok.injEq] at h
  subst h
  simp only [List.length_map, amInclined] at hr1
  rw [hl, List.range_eq_range'] at hr1 ⊢
  obtain ⟨h1, h2⟩ := scatter_spec (fun i => decide (¬ amHorizontal p i)) P.xdown 0 r hr1
  refine ⟨h1, ?_⟩
  intro i x hx
  obtain ⟨a1, a2⟩ := h2 i x hx
  simp only [zero_add] at a1 a2
  refine ⟨fun hh => a1 (by simp [hh]), fun hh => ?_⟩
  obtain ⟨y, k, e1, e2, e3⟩ := a2 (by simp [hh])
  refine ⟨y, e1, ?_⟩
  apply hr2
  rw [List.mem_iff_getElem?]
  refine ⟨k, ?_⟩
  rw [List.getElem?_zipWith, amInclined, hl, List.range_eq_range', e3, e2]

theorem amFix_ok {x0 : ℝ} {st st' : List (Pt × Pt)} (h : amFix x0 st = .ok st') :
    ∃ q1, st[1]? = some q1 ∧ ((q1.1.1 < x0 ∧ ∃ q2, st[2]? = some q2 ∧ st' = st.set 1 q2) ∨ (¬ q1.1.1 < x0 ∧ st' = st)) := by
  unfold amFix at h
  simp only [bndA] at h
  obtain ⟨q1, hq1, h⟩ := h
  refine ⟨q1, getIdx_ok.1 hq1, ?_⟩
  split_ifs at h with hc
  · simp only [bndA] at h
    obtain ⟨q2, hq2, h⟩ := h
    exact .inl ⟨hc, q2, getIdx_ok.1 hq2, (Except.ok.inj h).symm⟩
  · exact .inr ⟨hc, (Except.ok.inj h).symm⟩

theorem amHorizontal_iff (p : Params) (i : Nat) : amHorizontal p i ↔ amSlope p i = 0 := by
  unfold amHorizontal
  rw [Real.sin_arctan, div_eq_zero_iff]
  have : √(1 + amSlope p i ^ 2) ≠ 0 := by positivity
  simp [this]

theorem amEquation_zero {f : ℝ → ℝ} {p : Params} {i : Nat} {x : ℝ} (hm : amSlope p i ≠ 0) :
    amEquation f p i x = 0 ↔ (x - p.chordPerc.getD i 0 * p.chordLength) + amSlope p i * (f x - p.camberMax * p.camberPerc.getD i 0) = 0 := by
  unfold amEquation
  have e : Real.cos (Real.arctan (amSlope p i)) / Real.sin (Real.arctan (amSlope p i)) = 1 / amSlope p i := by
    rw [Real.sin_arctan, Real.cos_arctan]
    have : √(1 + amSlope p i ^ 2) ≠ 0 := by positivity
    field_simp
  rw [e]
  constructor
  · intro h; field_simp at h; linarith
  · intro h; field_simp; linarith

theorem meanY_list {P : Profile} (hu : P.yup.length = P.xup.length) (hd : P.ydown.length = P.xup.length) :
    List.zipWith (fun a b => (a + b) / 2) P.yup P.ydown = (List.range P.xup.length).map P.meanY := by
  apply List.ext_getElem
  · simp [hu, hd]
  · intro i h1 h2
    simp only [List.length_zipWith, lt_inf_iff] at h1
    simp [meanY, h1.1, h1.2]

/-- The stored values before the thickness, for an airfoil of one length: products give back the coordinates. -/
theorem partialParams_ok {P : Profile} {p : Params} (hu : P.yup.length = P.xup.length) (hd : P.ydown.length = P.xup.length)
    (h : P.partialParams = .ok p) :
    ∃ mn, MinOf P.xup mn ∧ p.chordPerc.length = P.xup.length ∧ p.camberPerc.length = P.xup.length ∧ p.chordLength ≠ 0 ∧
      (∀ i < P.xup.length, p.chordPerc.getD i 0 * p.chordLength = P.xup.getD i 0 - mn) ∧
      (p.camberMax ≠ 0 → ∀ i < P.xup.length, p.camberPerc.getD i 0 * p.camberMax = P.meanY i) ∧
      ∃ mc, MaxOf ((List.range P.xup.length).map P.meanY) mc ∧ p.camberMax = |mc| := by
  unfold partialParams at h
  simp only [bndA] at h
  obtain ⟨e, _, mn, hmn, perc, hperc, cam, hcam, mc, hmc, h⟩ := h
  obtain rfl := Except.ok.inj h
  rw [npMin_ok_iff] at hmn
  rw [bzip_eq_len (by rw [hu, hd])] at hcam
  obtain rfl := Except.ok.inj hcam
  unfold divScalar at hperc
  split_ifs at hperc with hc
  obtain rfl := Except.ok.inj hperc
  rw [npMax_ok_iff] at hmc
  refine ⟨mn, hmn, by simp, ?_, hc, ?_, ?_, mc, ?_, rfl⟩
  · simp only; split_ifs <;> simp [hu, hd]
  · intro i hi
    simp only [List.getD_eq_getElem?_getD, List.getElem?_map, List.getElem?_eq_getElem hi, Option.map_some, Option.getD_some]
    field_simp
  · intro hcm i hi
    simp only at hcm
    simp only [hcm, if_false]
    simp only [List.getD_eq_getElem?_getD, List.getElem?_map, List.getElem?_zipWith, meanY, List.getElem?_eq_getElem (hu ▸ hi : i < P.yup.length),
      List.getElem?_eq_getElem (hd ▸ hi : i < P.ydown.length), Option.map_some, Option.getD_some]
    field_simp
  · rw [← meanY_list hu hd]; exact hmc

theorem amSlope_eq {P : Profile} {p : Params} {mn : ℝ} (hc : p.chordLength ≠ 0)
    (h1 : ∀ i < P.xup.length, p.chordPerc.getD i 0 * p.chordLength = P.xup.getD i 0 - mn)
    (h2 : ∀ i < P.xup.length, p.camberPerc.getD i 0 * p.camberMax = P.meanY i) {i : Nat} (hi : i < P.xup.length) : amSlope p i = P.meanSlope i := by
  unfold amSlope meanSlope
  split_ifs with h0
  · rfl
  have a := h1 i hi
  have b := h1 (i - 1) (by omega)
  have c := h2 i hi
  have d := h2 (i - 1) (by omega)
  rw [← c, ← d, show P.xup.getD i 0 - P.xup.getD (i - 1) 0 = (p.chordPerc.getD i 0 - p.chordPerc.getD (i - 1) 0) * p.chordLength by
    rw [sub_mul, a, b]; ring]
  by_cases hz : p.chordPerc.getD i 0 - p.chordPerc.getD (i - 1) 0 = 0
  · rw [hz]; simp
  · field_simp

end Profile
end
end BladeX
