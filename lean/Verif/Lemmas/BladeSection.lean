import Verif.Lemmas.Blade
import Verif.Props.ProfileEdges

/-! # Lemmas on the placement of one blade section -/

namespace BladeX
noncomputable section
open Spec Classical
namespace Blade

theorem reflect_uniform {P : Profile} (h : P.Uniform) : P.reflect.Uniform := by
  simpa [Profile.Uniform, Profile.reflect] using h

theorem translate_uniform {P : Profile} (h : P.Uniform) (v : Pt) : (P.translate v).Uniform := by
  simpa [Profile.Uniform, Profile.translate] using h

theorem mulAll_uniform {P : Profile} (h : P.Uniform) (f : ℝ) : (P.mulAll f).Uniform := by
  simpa [Profile.Uniform, Profile.mulAll] using h

theorem inducedRake_ok {P r s : ℝ} (hr : r ≠ 0) : inducedRake P r s = .ok (Real.pi * s / 180 * P / (2 * Real.pi)) := by
  have hp := Real.pi_ne_zero
  simp only [inducedRake, pitchAngle, hr, if_false, bind, Except.bind, pure, Except.pure, Real.tan_arctan, radians]
  congr 1
  field_simp

theorem placed_eq (refl : Bool) (r P k s : ℝ) (p : Pt) :
    (rot (Real.pi / 2 - Real.arctan (P / (2 * Real.pi * r))) (if refl then (-p.1, -p.2) else p)) +
      (0, -(r * radians s Real.pi)) + (-(k + Real.pi * s / 180 * P / (2 * Real.pi)), 0) = placed refl r 1 P k s (0, 0) p := by
  have h : radians s Real.pi = Real.pi * s / 180 := by unfold radians; ring
  cases refl
  · ext
    · simp [placed, rot, Real.cos_pi_div_two_sub, Real.sin_pi_div_two_sub]; ring
    · simp [placed, rot, Real.cos_pi_div_two_sub, Real.sin_pi_div_two_sub, h]; ring
  · ext
    · simp [placed, rot, Real.cos_pi_div_two_sub, Real.sin_pi_div_two_sub]; ring
    · simp [placed, rot, Real.cos_pi_div_two_sub, Real.sin_pi_div_two_sub, h]; ring

theorem placed_scaled (refl : Bool) (r c P k s : ℝ) (ref p : Pt) :
    placed refl r 1 P k s (0, 0) (c * (p.1 - ref.1), c * (p.2 - ref.2)) = placed refl r c P k s ref p := by
  cases refl <;> simp [placed]

/-- The last four statements: reflection, rotation, the two translations. -/
theorem tail_ok {b : Blade} {refl : Bool} {i : Nat} {r p k s : ℝ} (h1 : b.radii[i]? = some r)
    (h2 : b.pitch[i]? = some p) (h3 : b.rake[i]? = some k) (h4 : b.skew[i]? = some s) {R : Profile} (hU : R.Uniform) :
    (r = 0 → ∀ Q, ((sectionSteps b refl i).drop 4).foldlM (fun P f => f P) R ≠ (.ok Q : Res Profile)) ∧
    (r ≠ 0 → ∃ Q, ((sectionSteps b refl i).drop 4).foldlM (fun P f => f P) R = (.ok Q : Res Profile) ∧
      Q.upper = R.upper.map (placed refl r 1 p k s (0, 0)) ∧ Q.lower = R.lower.map (placed refl r 1 p k s (0, 0)) ∧
      Q.Uniform ∧ Q.xup.length = R.xup.length) := by
  have g1 := getIdx_ok.2 h1
  have g2 := getIdx_ok.2 h2
  have g3 := getIdx_ok.2 h3
  have g4 := getIdx_ok.2 h4
  constructor
  · rintro rfl Q
    simp only [sectionSteps, List.drop_succ_cons, List.drop_zero, List.foldlM_cons, bind, Except.bind, g1, g2, pitchAngle]
    simp
  · intro hr
    set R' := if refl then R.reflect else R with hR'
    have hU' : R'.Uniform := by
      rw [hR']; split
      · exact reflect_uniform hU
      · exact hU
    obtain ⟨Q, hQ, hu, hl, hQU, hlen, _⟩ := Profile.rotate_uniform R' hU' (Real.pi / 2 - Real.arctan (p / (2 * Real.pi * r)))
    refine ⟨(Q.translate (0, -(r * radians s Real.pi))).translate (-(k + Real.pi * s / 180 * p / (2 * Real.pi)), 0), ?_, ?_, ?_,
      translate_uniform (translate_uniform hQU _) _, ?_⟩
    · simp only [sectionSteps, List.drop_succ_cons, List.drop_zero, List.foldlM_cons, bind, Except.bind, g1, g2, g3, g4, pitchAngle,
        hr, if_false, ← hR', hQ, pure, Except.pure, inducedRake_ok hr, List.foldlM_nil]
    · rw [Profile.translate_upper, Profile.translate_upper, hu, hR', List.map_map, List.map_map]
      rw [show (if refl then R.reflect else R).upper = R.upper.map (fun p => if refl then (-p.1, -p.2) else p) by
        cases refl
        · simp
        · simp [Profile.reflect_upper]]
      rw [List.map_map]
      congr 1; funext q
      exact placed_eq refl r p k s q
    · rw [Profile.translate_lower, Profile.translate_lower, hl, hR', List.map_map, List.map_map]
      rw [show (if refl then R.reflect else R).lower = R.lower.map (fun p => if refl then (-p.1, -p.2) else p) by
        cases refl
        · simp
        · simp [Profile.reflect_lower]]
      rw [List.map_map]
      congr 1; funext q
      exact placed_eq refl r p k s q
    · simp only [Profile.translate, List.length_map, hlen]
      rw [hR']; split <;> simp [Profile.reflect]

/-- The first two statements: the section is moved to its reference point and multiplied by the chord. -/
theorem head_ok {b : Blade} {refl : Bool} {i : Nat} {c : ℝ} (h1 : b.chord[i]? = some c) {P : Profile} :
    (∀ e, P.referencePoint = .error e → ∀ Q, ((sectionSteps b refl i).take 2).foldlM (fun P f => f P) P ≠ (.ok Q : Res Profile)) ∧
    (∀ ref, P.referencePoint = .ok ref → 
      ((sectionSteps b refl i).take 2).foldlM (fun P f => f P) P = (.ok ((P.translate (-ref)).mulAll c) : Res Profile)) := by
  have g1 := getIdx_ok.2 h1
  constructor
  · intro e he Q
    simp [sectionSteps, bind, Except.bind, he]
  · intro ref he
    have h0 : (P.translate (-ref)).referencePoint = .ok 0 := by
      rw [(C06_reference_translate_reflect P ref (-ref) he).1]; simp
    have h2 := Profile.scale_eq (f := c) h0
    have h3 : ∀ Q : Profile, Q.translate (-0) = Q := by intro Q; simp [Profile.translate]
    have h4 : ∀ Q : Profile, Q.translate 0 = Q := by intro Q; simp [Profile.translate]
    rw [h3, h4] at h2
    simp [sectionSteps, bind, Except.bind, pure, Except.pure, he, g1, h2]

theorem scaled_points (P : Profile) (ref : Pt) (c : ℝ) :
    ((P.translate (-ref)).mulAll c).upper = P.upper.map (fun p => (c * (p.1 - ref.1), c * (p.2 - ref.2))) ∧
    ((P.translate (-ref)).mulAll c).lower = P.lower.map (fun p => (c * (p.1 - ref.1), c * (p.2 - ref.2))) := by
  constructor
  · rw [Profile.mulAll_upper, Profile.translate_upper, List.map_map]
    congr 1
  · rw [Profile.mulAll_lower, Profile.translate_lower, List.map_map]
    congr 1

theorem steps_split (b : Blade) (refl : Bool) (i : Nat) (P : Profile) :
    (sectionSteps b refl i).foldlM (fun P f => f P) P = (((sectionSteps b refl i).take 2).foldlM (fun P f => f P) P >>= fun R =>
      (((sectionSteps b refl i).drop 2).take 2).foldlM (fun P f => f P) R >>= fun S =>
        ((sectionSteps b refl i).drop 4).foldlM (fun P f => f P) S : Res Profile) := by
  conv_lhs => rw [show sectionSteps b refl i = (sectionSteps b refl i).take 2 ++ (((sectionSteps b refl i).drop 2).take 2 ++
    (sectionSteps b refl i).drop 4) from rfl]
  rw [List.foldlM_append]
  congr 1
  funext R
  rw [List.foldlM_append]

/-- The whole loop body when neither thickness nor camber is given. -/
theorem section_plain {b : Blade} (ht : b.thickness = none) (hk : b.camber = none) {refl : Bool} {i : Nat} {r c p k s : ℝ}
    (h1 : b.radii[i]? = some r) (h2 : b.pitch[i]? = some p) (h3 : b.rake[i]? = some k) (h4 : b.skew[i]? = some s)
    (h5 : b.chord[i]? = some c) {P : Profile} (hU : P.Uniform) :
    ((∃ Q, runSteps (sectionSteps b refl i) P = (Q, .ok ())) → r ≠ 0 ∧ ∃ ref, P.referencePoint = .ok ref) ∧
    (∀ ref, r ≠ 0 → P.referencePoint = .ok ref → ∃ Q, runSteps (sectionSteps b refl i) P = (Q, .ok ()) ∧
      Q.upper = P.upper.map (placed refl r c p k s ref) ∧ Q.lower = P.lower.map (placed refl r c p k s ref) ∧
      Q.Uniform ∧ Q.xup.length = P.xup.length) := by
  have hmid : ∀ R : Profile, (((sectionSteps b refl i).drop 2).take 2).foldlM (fun P f => f P) R = (.ok R : Res Profile) := by
    intro R
    simp [sectionSteps, ht, hk, bind, Except.bind, pure, Except.pure]
  have hrun : ∀ Q, runSteps (sectionSteps b refl i) P = (Q, .ok ()) ↔
      (((sectionSteps b refl i).take 2).foldlM (fun P f => f P) P >>= fun R =>
        ((sectionSteps b refl i).drop 4).foldlM (fun P f => f P) R : Res Profile) = .ok Q := by
    intro Q
    rw [runSteps_ok, steps_split]
    simp only [hmid]
    rfl
  obtain ⟨hh1, hh2⟩ := head_ok (refl := refl) h5 (P := P)
  constructor
  · rintro ⟨Q, hQ⟩
    rw [hrun] at hQ
    rcases hr : P.referencePoint with e | ref
    · exfalso
      rcases hx : (((sectionSteps b refl i).take 2).foldlM (fun P f => f P) P : Res Profile) with e' | R
      · rw [hx] at hQ; cases hQ
      · exact hh1 e hr R hx
    · refine ⟨?_, ref, rfl⟩
      intro h0
      rw [hh2 ref hr] at hQ
      exact (tail_ok h1 h2 h3 h4 (mulAll_uniform (translate_uniform hU _) _)).1 h0 Q hQ
  · intro ref hr hP
    obtain ⟨Q, hQ, hu, hl, hQU, hlen⟩ := (tail_ok (refl := refl) h1 h2 h3 h4 (mulAll_uniform (translate_uniform hU (-ref)) c)).2 hr
    refine ⟨Q, ?_, ?_, ?_, hQU, ?_⟩
    · rw [hrun, hh2 ref hP]; exact hQ
    · rw [hu, (scaled_points P ref c).1, List.map_map]
      congr 1; funext q; exact placed_scaled refl r c p k s ref q
    · rw [hl, (scaled_points P ref c).2, List.map_map]
      congr 1; funext q; exact placed_scaled refl r c p k s ref q
    · rw [hlen]; simp [Profile.mulAll, Profile.translate]

end Blade
end
end BladeX
