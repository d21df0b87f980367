import Verif.Props.ProfileMeasure
import Verif.Lemmas.American

/-! # C12: when `max_camber` is defined -/

namespace BladeX
noncomputable section
open Spec Classical

/-- **C12** `max_camber(n)` of a profile with equally many upper and lower abscissae succeeds exactly when the edges can be told (and are not
above each other), each surface has as many ordinates as abscissae, and its abscissae are pairwise different. -/
theorem C12_defined (P : Profile) (hl : P.xup.length = P.xdown.length) (n : Nat) (hn : 0 < n) :
    (∃ c, P.maxCamber (some (n : Int)) = .ok c) ↔
      (∃ le te, P.updateEdges = .ok (le, te) ∧ le.1 ≠ te.1) ∧ P.Shaped ∧ P.xup.Nodup ∧ P.xdown.Nodup := by
  have hn' : (0 : Int) < n := by omega
  constructor
  · rintro ⟨c, h⟩
    unfold Profile.maxCamber at h
    simp only [Profile.bndA] at h
    obtain ⟨P1, h1, P2, h2, -⟩ := h
    have hf := (show P1.xup = P.xup ∧ P1.xdown = P.xdown ∧ P1.yup = P.yup ∧ P1.ydown = P.ydown ∧ ∃ le te, P.updateEdges = .ok (le, te) ∧ le.1 ≠ te.1 from by
      unfold Profile.computeChordLine at h1
      rcases he : P.updateEdges with e | ⟨le, te⟩
      · rw [he] at h1; cases h1
      simp only [he, bind, Except.bind, pure, Except.pure, throw, throwThe, MonadExceptOf.throw] at h1
      by_cases hx : te.1 - le.1 = 0
      · rw [if_pos hx] at h1; cases h1
      rw [if_neg hx] at h1
      have hx' : le.1 ≠ te.1 := fun h => hx (by rw [h]; ring)
      repeat' split at h1
      all_goals first
        | cases h1; done
        | (obtain rfl := Except.ok.inj h1; exact ⟨rfl, rfl, rfl, rfl, le, te, rfl, hx'⟩))
    obtain ⟨e1, e2, e3, e4, he⟩ := hf
    refine ⟨he, ?_⟩
    have hN : P1.effectiveN (some (n : Int)) = .ok (some (n : Int)) := Profile.effectiveN_some (by rw [e1, e2, hl]) (by omega)
    unfold Profile.computeCamberLine at h2
    rw [hN] at h2
    rcases ht : P1.interpolateCoordinates (.int (n : Int)) 1 with e | t
    · simp only [bind, Except.bind, ht] at h2
      cases h2
    rw [Profile.interpolate_int hn' one_pos] at ht
    obtain ⟨_, _, _, _, _, _, _, _, hs, hu, hd, _⟩ := (Profile.interpCore_ok_iff one_pos).1 ht
    rw [Profile.Shaped, e1, e2, e3, e4] at hs
    rw [e1] at hu
    rw [e2] at hd
    exact ⟨hs, hu, hd⟩
  · rintro ⟨⟨le, te, he, hx⟩, hs, hu, hd⟩
    have hx' : te.1 - le.1 ≠ 0 := sub_ne_zero.2 hx.symm
    have hN : ∀ Q : Profile, Q.xup = P.xup → Q.xdown = P.xdown → Q.effectiveN (some (n : Int)) = .ok (some (n : Int)) :=
      fun Q h1 h2 => Profile.effectiveN_some (by rw [h1, h2, hl]) (by omega)
    have hlin : linspace le.1 te.1 (n : Int) = .ok (linspaceN le.1 te.1 n) := by
      unfold linspace; rw [if_neg (by omega)]; simp
    obtain ⟨P1, hP1⟩ : ∃ P1 : Profile, P1 = { P with chordLine := some (linspaceN le.1 te.1 n,
      (linspaceN le.1 te.1 n).map fun x => (te.2 - le.2) / (te.1 - le.1) * (x - le.1) + le.2) } := ⟨_, rfl⟩
    have hc : P.computeChordLine (some (n : Int)) = .ok P1 := by
      unfold Profile.computeChordLine
      simp only [he, hN P rfl rfl, hlin, bind, Except.bind, pure, Except.pure, hx', if_false, hP1]
    have hne : P.xup ≠ [] := by
      intro h0
      unfold Profile.updateEdges at he
      simp [h0, getFirst, bind, Except.bind] at he
    have hne' : P.xdown ≠ [] := by
      intro h0
      rw [h0] at hl
      exact hne (List.length_eq_zero_iff.1 hl)
    have ht := (Profile.interpCore_ok_iff (P := P1) (num := n) one_pos).2 ⟨_, _, _, _, by rw [hP1]; exact List.head?_eq_some_head hne,
      by rw [hP1]; exact List.getLast?_eq_some_getLast hne, by rw [hP1]; exact List.head?_eq_some_head hne',
      by rw [hP1]; exact List.getLast?_eq_some_getLast hne', by rw [hP1]; exact hs, by rw [hP1]; exact hu, by rw [hP1]; exact hd, rfl⟩
    have hcb : ∃ cl : Arr × Arr, P1.computeCamberLine (some (n : Int)) = .ok { P1 with camberLine := some cl } ∧ cl.1.length = n ∧ cl.2.length = n := by
      unfold Profile.computeCamberLine
      rw [hN P1 (by rw [hP1]) (by rw [hP1])]
      simp only [bind, Except.bind]
      rw [Profile.interpolate_int hn' one_pos, Int.toNat_natCast, ht]
      simp only
      rw [bzip_eq_len (by simp [linspaceN_length])]
      simp only [npArray2]
      rw [if_pos (by simp [linspaceN_length])]
      exact ⟨_, rfl, by simp [linspaceN_length], by simp [linspaceN_length]⟩
    obtain ⟨cl, hcl, l1, l2⟩ := hcb
    obtain ⟨ys, hys, l3⟩ : ∃ ys : Arr, P1.chordLine = some (linspaceN le.1 te.1 n, ys) ∧ ys.length = n := ⟨_, by rw [hP1], by simp [linspaceN_length]⟩
    unfold Profile.maxCamber
    simp only [hc, hcl, hys, bind, Except.bind, Option.getD_some]
    rw [if_neg (by rw [linspaceN_length, l1]; omega)]
    have hdist : Profile.camberDistances (linspaceN le.1 te.1 n, ys) cl ≠ [] := by
      intro h0
      have := congrArg List.length h0
      simp [Profile.camberDistances, linspaceN_length, l1, l2, l3] at this
      omega
    obtain ⟨m, hm⟩ := npMax_exists hdist
    simp only [pure, Except.pure, Profile.signedMax, hm, bind, Except.bind]
    split_ifs <;> exact ⟨_, rfl⟩

/-- Non-vacuity: a profile that lies obliquely. -/
example : ∃ c, ({ Sample.foil with yup := [0, 1/5, 1/4, 1/2], ydown := [0, 0, 0, 1/2] } : Profile).maxCamber (some 3) = .ok c := by
  refine (C12_defined _ (by simp [Sample.foil]) 3 (by norm_num)).2 ⟨⟨(0, 0), (1, (1/2 + 1/2) / 2), ?_, by norm_num⟩, ?_, ?_, ?_⟩
  · rw [Profile.updateEdges_of (xu0 := 0) (xd0 := 0) (xu1 := 1) (xd1 := 1) (yu0 := 0) (yu1 := 1/2) (yd1 := 1/2) rfl rfl rfl rfl rfl rfl rfl,
      if_neg (by norm_num)]
  · simp [Profile.Shaped, Sample.foil]
  · norm_num [Sample.foil]
  · norm_num [Sample.foil]

end
end BladeX
