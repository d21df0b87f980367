import Verif.Model.NacaSpline
import Verif.Lemmas.Interp1d
import Verif.Lemmas.Naca

/-! # The splines through the tables of the 5-digit series -/

namespace BladeX
noncomputable section
open Classical Spec

namespace Naca

/-- Two cubics joined at `c`. -/
def joined (p q : Cubic) (c t : ℝ) : ℝ := if t ≤ c then p.eval t else q.eval t

/-- A cubic through four points in order is their not-a-knot spline. -/
theorem spline_four {a b c d : Pt} (p : Cubic) (ha : p.eval a.1 = a.2) (hb : p.eval b.1 = b.2) (hc : p.eval c.1 = c.2) (hd : p.eval d.1 = d.2) :
    IsSpline [a, b, c, d] p.eval := by
  refine ⟨0, fun _ => p, rfl, ⟨?_, ?_, fun _ _ => rfl, fun _ _ => rfl, rfl, rfl⟩, fun _ _ _ _ _ => rfl, fun _ _ => rfl, fun _ _ => rfl⟩
  all_goals
    intro i hi
    interval_cases i <;> simp [*]

/-- Two cubics that agree up to the second derivative at the middle one of five points, each through three of them, make up their not-a-knot spline. -/
theorem spline_five {a b c d e : Pt} (p q : Cubic) (hab : a.1 < b.1) (hbc : b.1 < c.1) (hcd : c.1 < d.1) (hde : d.1 < e.1)
    (ha : p.eval a.1 = a.2) (hb : p.eval b.1 = b.2) (hc : p.eval c.1 = c.2) (hc' : q.eval c.1 = c.2) (hd : q.eval d.1 = d.2) (he : q.eval e.1 = e.2)
    (hs : p.slope c.1 = q.slope c.1) (hbd : p.bend c.1 = q.bend c.1) : IsSpline [a, b, c, d, e] (joined p q c.1) := by
  refine ⟨1, fun i => if i < 2 then p else q, rfl, ⟨?_, ?_, ?_, ?_, rfl, rfl⟩, ?_, ?_, ?_⟩
  · intro i hi; interval_cases i <;> simp [*]
  · intro i hi; interval_cases i <;> simp [*]
  · intro i hi; interval_cases i <;> simp [*]
  · intro i hi; interval_cases i <;> simp [*]
  · intro i hi t h1 h2
    interval_cases i <;> simp at h1 h2 ⊢
    · rw [joined, if_pos (by linarith)]
    · rw [joined, if_pos (by linarith)]
    · rcases h1.eq_or_lt with e | h
      · rw [joined, if_pos e.symm.le, ← e, hc, hc']
      · rw [joined, if_neg (by linarith)]
    · rw [joined, if_neg (by linarith)]
  · intro t ht
    simp at ht
    simp [joined, show t ≤ c.1 by linarith]
  · intro t ht
    simp at ht
    simp [joined, show ¬ t ≤ c.1 by linarith]

theorem splrepLike_eq {x y : Arr} {f : ℝ → ℝ} (h : Incr (x.zip y)) (hf : IsSpline (x.zip y) f) : splrepLike x y = f :=
  Spec.IsSpline.unique h (Classical.epsilon_spec ⟨f, hf⟩) hf

/-- The position parameter of the standard series: the spline through the five pairs is one cubic. -/
def standardM : Cubic := ⟨-1 / 250, 359 / 300, 7 / 10, 10 / 3⟩
/-- The position parameter of the reflexed series. -/
def reflexM : Cubic := ⟨-17 / 500, 26 / 15, -2, 32 / 3⟩
/-- The constant of the standard series up to `m = 0.2025`. -/
def standardK₀ : Cubic := ⟨17382276930007034613 / 16613438877713750, -9836173067943304903088 / 607055056591660425,
  681163507764301778120 / 8094067421222139, -3509413390965726640000 / 24282202263666417⟩
/-- The constant of the standard series from `m = 0.2025` on. -/
def standardK₁ : Cubic := ⟨-26042999369939397 / 94682737345000, 7083454870776494158 / 2100536527998825, -350434049907272920 / 28007153706651,
  1226583562167440000 / 84021461119953⟩
/-- The constant of the reflexed series. -/
def reflexK : Cubic := ⟨275438495779049 / 1404272730400, -243901416252623 / 147448636692, 16832086477875 / 3510681826, -170165942687500 / 36862159173⟩

private theorem incr_sPM : Incr ((tables false).1.zip (tables false).2.1) := by
  simp only [tables, List.zip_cons_cons, List.zip_nil_right]
  norm_num
private theorem incr_sMK : Incr ((tables false).2.1.zip (tables false).2.2) := by
  simp only [tables, List.zip_cons_cons, List.zip_nil_right]
  norm_num
private theorem incr_rPM : Incr ((tables true).1.zip (tables true).2.1) := by
  simp only [tables, List.zip_cons_cons, List.zip_nil_right]
  norm_num
private theorem incr_rMK : Incr ((tables true).2.1.zip (tables true).2.2) := by
  simp only [tables, List.zip_cons_cons, List.zip_nil_right]
  norm_num

theorem standard_m : splrepLike (tables false).1 (tables false).2.1 = standardM.eval := by
  have h : IsSpline ((tables false).1.zip (tables false).2.1) (joined standardM standardM 0.15) := by
    refine spline_five (a := (0.05, 0.0580)) (b := (0.1, 0.1260)) (c := (0.15, 0.2025)) (d := (0.2, 0.2900)) (e := (0.25, 0.3910)) standardM standardM
      ?_ ?_ ?_ ?_ ?_ ?_ ?_ ?_ ?_ ?_ rfl rfl
    all_goals (try simp only [standardM, Cubic.eval]); norm_num
  rw [splrepLike_eq incr_sPM h]
  funext t
  simp [joined]

theorem standard_k : splrepLike (tables false).2.1 (tables false).2.2 = joined standardK₀ standardK₁ 0.2025 := by
  refine splrepLike_eq incr_sMK (spline_five (a := (0.0580, 361.4)) (b := (0.1260, 51.64)) (c := (0.2025, 15.957)) (d := (0.2900, 6.643))
    (e := (0.3910, 3.230)) standardK₀ standardK₁ ?_ ?_ ?_ ?_ ?_ ?_ ?_ ?_ ?_ ?_ ?_ ?_)
  all_goals (try simp only [standardK₀, standardK₁, Cubic.eval, Cubic.slope, Cubic.bend]); norm_num

theorem reflex_m : splrepLike (tables true).1 (tables true).2.1 = reflexM.eval := by
  refine splrepLike_eq incr_rPM (spline_four (a := (0.1, 0.13)) (b := (0.15, 0.2170)) (c := (0.2, 0.318)) (d := (0.25, 0.441)) reflexM ?_ ?_ ?_ ?_)
  all_goals simp only [reflexM, Cubic.eval]; norm_num

theorem reflex_k : splrepLike (tables true).2.1 (tables true).2.2 = reflexK.eval := by
  refine splrepLike_eq incr_rMK (spline_four (a := (0.13, 51.99)) (b := (0.2170, 15.793)) (c := (0.318, 6.520)) (d := (0.441, 3.191)) reflexK ?_ ?_ ?_ ?_)
  all_goals simp only [reflexK, Cubic.eval]; norm_num

theorem splineLook_standard (p : ℝ) : splineLook false p = (standardM.eval p, joined standardK₀ standardK₁ 0.2025 (standardM.eval p)) := by
  rw [splineLook, standard_m, standard_k]

theorem splineLook_reflex (p : ℝ) : splineLook true p = (reflexM.eval p, reflexK.eval (reflexM.eval p)) := by
  rw [splineLook, reflex_m, reflex_k]

theorem splineLook_interpolates : Interpolates splineLook := by
  intro b i p m k hp hm hk
  have mem : ∀ {x y : Arr} {i : Nat} {a c : ℝ}, x[i]? = some a → y[i]? = some c → (a, c) ∈ x.zip y := by
    intro x y i a c h1 h2
    have : (x.zip y)[i]? = some (a, c) := by simp [List.getElem?_zip_eq_some, h1, h2]
    exact List.mem_of_getElem? this
  have h1 : Incr ((tables b).1.zip (tables b).2.1) := by cases b; exacts [incr_sPM, incr_rPM]
  have h2 : Incr ((tables b).2.1.zip (tables b).2.2) := by cases b; exacts [incr_sMK, incr_rMK]
  have e1 := Spec.IsSpline.interpolates h1 (Classical.epsilon_spec (Spec.IsSpline.exists (by cases b <;> simp [tables]) h1)) _ (mem hp hm)
  have e2 := Spec.IsSpline.interpolates h2 (Classical.epsilon_spec (Spec.IsSpline.exists (by cases b <;> simp [tables]) h2)) _ (mem hm hk)
  simp only [splineLook, splrepLike]
  rw [e1, e2]

end Naca
end
end BladeX
