import Verif.Lemmas.Profile

namespace BladeX
open Spec

/-- Unfold the exception monad. -/
macro "res_simp" : tactic =>
  `(tactic| simp [bind, Except.bind, pure, Except.pure, throw, throwThe, MonadExceptOf.throw])

theorem zip_head? {α β} {a : List α} {b : List β} {p : α × β} (h : (List.zip a b).head? = some p) :
    a.head? = some p.1 ∧ b.head? = some p.2 := by
  cases a <;> cases b <;> simp_all
  subst h; simp

theorem zip_getLast? {α β} {a : List α} {b : List β} (hl : a.length = b.length) {p : α × β}
    (h : (List.zip a b).getLast? = some p) : a.getLast? = some p.1 ∧ b.getLast? = some p.2 := by
  constructor
  · rw [← map_fst_zip_eq hl, List.getLast?_map, h]; rfl
  · rw [← map_snd_zip_eq hl, List.getLast?_map, h]; rfl

theorem zip_head?_of {α β} {a : List α} {b : List β} {x : α} {y : β} (ha : a.head? = some x) (hb : b.head? = some y) :
    (List.zip a b).head? = some (x, y) := by
  cases a <;> cases b <;> simp_all

theorem zip_getLast?_of {α β} {a : List α} {b : List β} (hl : a.length = b.length) {x : α} {y : β}
    (ha : a.getLast? = some x) (hb : b.getLast? = some y) :
    (List.zip a b).getLast? = some (x, y) := by
  rw [List.getLast?_eq_getElem?] at *
  rw [← hl] at hb
  have : (List.zip a b).length = a.length := by simp [hl]
  rw [this, List.getElem?_zip_eq_some]
  exact ⟨ha, hb⟩

namespace Profile

theorem updateEdges_of {P : Profile} {xu0 xd0 xu1 xd1 yu0 yu1 yd1 : ℝ}
    (h1 : P.xup.head? = some xu0) (h2 : P.xdown.head? = some xd0) (h3 : P.xup.getLast? = some xu1)
    (h4 : P.xdown.getLast? = some xd1) (h5 : P.yup.head? = some yu0) (h6 : P.yup.getLast? = some yu1)
    (h7 : P.ydown.getLast? = some yd1) :
    P.updateEdges = if |xu0 - xd0| > 1e-4 ∨ |xu1 - xd1| > 1e-4 then .error .valueError
      else .ok ((xu0, yu0), (xu1, (yu1 + yd1) / 2)) := by
  rw [← getFirst_ok_iff] at h1 h2 h5
  rw [← getLast_ok_iff] at h3 h4 h6 h7
  unfold updateEdges
  simp only [h1, h2, h3, h4, h5, h6, h7, bind, Except.bind, pure, Except.pure, throw, throwThe, MonadExceptOf.throw]
  by_cases c1 : |xu0 - xd0| > 1e-4
  · simp [c1]
  · by_cases c2 : |xu1 - xd1| > 1e-4
    · simp [c1, c2]
    · rw [if_neg c1]
      simp only [c1, c2, if_false, or_self]
      split_ifs with h
      · rw [h]; congr 3; ring
      · congr 3; norm_num; ring

theorem updateEdges_ends {P : Profile} (hs : P.Shaped) {a b c d : Pt} (h : P.Ends a b c d) :
    P.updateEdges = if |a.1 - c.1| > 1e-4 ∨ |b.1 - d.1| > 1e-4 then .error .valueError
      else .ok (a, (b.1, (b.2 + d.2) / 2)) := by
  obtain ⟨h1, h2, h3, h4⟩ := h
  have k1 := zip_head? h1
  have k2 := zip_getLast? hs.1 h2
  have k3 := zip_head? h3
  have k4 := zip_getLast? hs.2 h4
  exact updateEdges_of k1.1 k3.1 k2.1 k4.1 k1.2 k2.2 k4.2

theorem referencePoint_ends {P : Profile} (hs : P.Shaped) {a b c d : Pt} (h : P.Ends a b c d) :
    P.referencePoint = if |a.1 - c.1| > 1e-4 ∨ |b.1 - d.1| > 1e-4 then .error .valueError
      else .ok (mid a (b.1, (b.2 + d.2) / 2)) := by
  unfold referencePoint
  rw [updateEdges_ends hs h]
  split_ifs with hc
  · simp [bind, Except.bind]
  · simp [bind, Except.bind, pure, Except.pure, mid]
    constructor <;> ring

theorem Ends.map {P Q : Profile} {a b c d : Pt} (h : P.Ends a b c d) (g : Pt → Pt)
    (hu : Q.upper = P.upper.map g) (hl : Q.lower = P.lower.map g) : Q.Ends (g a) (g b) (g c) (g d) := by
  obtain ⟨h1, h2, h3, h4⟩ := h
  refine ⟨?_, ?_, ?_, ?_⟩
  · rw [hu, List.head?_map, h1]; rfl
  · rw [hu, List.getLast?_map, h2]; rfl
  · rw [hl, List.head?_map, h3]; rfl
  · rw [hl, List.getLast?_map, h4]; rfl

/-- A successful edge check means all arrays are non-empty. -/
theorem updateEdges_ok {P : Profile} {e : Pt × Pt} (h : P.updateEdges = .ok e) :
    ∃ xu0 xd0 xu1 xd1 yu0 yu1 yd1, P.xup.head? = some xu0 ∧ P.xdown.head? = some xd0 ∧
      P.xup.getLast? = some xu1 ∧ P.xdown.getLast? = some xd1 ∧ P.yup.head? = some yu0 ∧
      P.yup.getLast? = some yu1 ∧ P.ydown.getLast? = some yd1 ∧ |xu0 - xd0| ≤ 1e-4 ∧ |xu1 - xd1| ≤ 1e-4 ∧
      e = ((xu0, yu0), (xu1, (yu1 + yd1) / 2)) := by
  unfold updateEdges at h
  rcases hx : getFirst P.xup with _ | xu0
  · simp [hx, bind, Except.bind] at h
  rcases hxd : getFirst P.xdown with _ | xd0
  · simp [hx, hxd, bind, Except.bind] at h
  rcases hx1 : getLast P.xup with _ | xu1
  · simp [hx, hxd, hx1, bind, Except.bind, throw, throwThe, MonadExceptOf.throw, pure, Except.pure] at h
    split_ifs at h
  rcases hxd1 : getLast P.xdown with _ | xd1
  · simp [hx, hxd, hx1, hxd1, bind, Except.bind, throw, throwThe, MonadExceptOf.throw, pure, Except.pure] at h
    split_ifs at h
  rcases hy0 : getFirst P.yup with _ | yu0
  · simp [hx, hxd, hx1, hxd1, hy0, bind, Except.bind, throw, throwThe, MonadExceptOf.throw, pure, Except.pure] at h
    split_ifs at h
  rcases hy1 : getLast P.yup with _ | yu1
  · simp [hx, hxd, hx1, hxd1, hy0, hy1, bind, Except.bind, throw, throwThe, MonadExceptOf.throw, pure,
      Except.pure] at h
    split_ifs at h
  rcases hyd : getLast P.ydown with _ | yd1
  · simp [hx, hxd, hx1, hxd1, hy0, hy1, hyd, bind, Except.bind, throw, throwThe, MonadExceptOf.throw, pure,
      Except.pure] at h
    split_ifs at h
  rw [getFirst_ok_iff] at hx hxd hy0
  rw [getLast_ok_iff] at hx1 hxd1 hy1 hyd
  have := updateEdges_of hx hxd hx1 hxd1 hy0 hy1 hyd
  rw [show P.updateEdges = .ok e from h] at this
  by_cases c : |xu0 - xd0| > 1e-4 ∨ |xu1 - xd1| > 1e-4
  · rw [if_pos c] at this; cases this
  · rw [if_neg c] at this
    push Not at c
    exact ⟨xu0, xd0, xu1, xd1, yu0, yu1, yd1, hx, hxd, hx1, hxd1, hy0, hy1, hyd, c.1, c.2, Except.ok.inj this⟩

theorem ends_of_shaped {P : Profile} (hs : P.Shaped) (h1 : P.xup ≠ []) (h2 : P.xdown ≠ []) :
    ∃ a b c d, P.Ends a b c d := by
  have hu : P.upper ≠ [] := by
    intro h; apply h1
    have := congrArg List.length h
    simp [upper, hs.1.symm] at this; exact this
  have hl : P.lower ≠ [] := by
    intro h; apply h2
    have := congrArg List.length h
    simp [lower, hs.2.symm] at this; exact this
  exact ⟨_, _, _, _, List.head?_eq_some_head hu, List.getLast?_eq_some_getLast hu,
    List.head?_eq_some_head hl, List.getLast?_eq_some_getLast hl⟩

theorem translate_shaped {P : Profile} (v : Pt) (h : P.Shaped) : (P.translate v).Shaped := by
  simpa [Shaped, translate] using h

theorem reflect_shaped {P : Profile} (h : P.Shaped) : P.reflect.Shaped := by
  simpa [Shaped, reflect] using h

theorem mulAll_shaped {P : Profile} (f : ℝ) (h : P.Shaped) : (P.mulAll f).Shaped := by
  simpa [Shaped, mulAll] using h

theorem scale_eq {P : Profile} {f : ℝ} {ref : Pt} (h : P.referencePoint = .ok ref) :
    P.scale f = .ok (((P.translate (-ref)).mulAll f).translate ref) := by
  simp [scale, h, bind, Except.bind, pure, Except.pure]

theorem scale_error {P : Profile} {f : ℝ} {e : PyErr} (h : P.referencePoint = .error e) :
    P.scale f = .error e := by
  simp [scale, h, bind, Except.bind]

theorem translate_upper (P : Profile) (v : Pt) : (P.translate v).upper = P.upper.map (· + v) := by
  simp only [upper, translate, List.zip_map]; rfl

theorem translate_lower (P : Profile) (v : Pt) : (P.translate v).lower = P.lower.map (· + v) := by
  simp only [lower, translate, List.zip_map]; rfl

theorem reflect_upper (P : Profile) : P.reflect.upper = P.upper.map (fun p => (-p.1, -p.2)) := by
  simp only [upper, reflect, List.zip_map]
  congr 1; funext p; ext <;> simp

theorem reflect_lower (P : Profile) : P.reflect.lower = P.lower.map (fun p => (-p.1, -p.2)) := by
  simp only [lower, reflect, List.zip_map]
  congr 1; funext p; ext <;> simp

theorem mulAll_upper (P : Profile) (f : ℝ) : (P.mulAll f).upper = P.upper.map (fun p => (f * p.1, f * p.2)) := by
  simp only [upper, mulAll, List.zip_map]
  congr 1; funext p; ext <;> simp [mul_comm]

theorem mulAll_lower (P : Profile) (f : ℝ) : (P.mulAll f).lower = P.lower.map (fun p => (f * p.1, f * p.2)) := by
  simp only [lower, mulAll, List.zip_map]
  congr 1; funext p; ext <;> simp [mul_comm]

theorem scaled_upper (P : Profile) (ref : Pt) (f : ℝ) :
    (((P.translate (-ref)).mulAll f).translate ref).upper = P.upper.map (homothety ref f) := by
  rw [translate_upper, mulAll_upper, translate_upper]
  simp only [List.map_map]
  congr 1; funext p
  simp only [Function.comp, homothety]
  ext <;> simp <;> ring

theorem scaled_lower (P : Profile) (ref : Pt) (f : ℝ) :
    (((P.translate (-ref)).mulAll f).translate ref).lower = P.lower.map (homothety ref f) := by
  rw [translate_lower, mulAll_lower, translate_lower]
  simp only [List.map_map]
  congr 1; funext p
  simp only [Function.comp, homothety]
  ext <;> simp <;> ring

end Profile
end BladeX
