import Verif.Model.BladeRagged
import Verif.Props.BladeLife

namespace BladeX
noncomputable section
open Spec Classical
namespace ListBlade

/-- The loop of `_planar_to_cylindrical` and the computation of `Model/Blade.lean` have the same outcome. -/
theorem lists_eq : ∀ (ss : List (Profile × ℝ)) (u d : Face),
    (∀ e, ss.mapM Blade.sectionCylinder = .error e → (lists ss u d).2 = .error e) ∧
    ∀ pairs, ss.mapM Blade.sectionCylinder = .ok pairs → lists ss u d = ((u ++ pairs.map Prod.fst, d ++ pairs.map Prod.snd), .ok ()) := by
  intro ss
  induction ss with
  | nil =>
    intro u d
    refine ⟨fun e h => (by simp [pure, Except.pure] at h), fun pairs h => ?_⟩
    obtain rfl : [] = pairs := Except.ok.inj h
    simp [lists]
  | cons s ss ih =>
    intro u d
    rw [List.mapM_cons]
    simp only [Blade.sectionCylinder, bind, Except.bind, pure, Except.pure, lists]
    rcases Blade.cylinder s.2 s.1.xup s.1.yup with e | p
    · exact ⟨fun e' h => (by cases h; rfl), fun _ h => (by cases h)⟩
    rcases Blade.cylinder s.2 s.1.xdown s.1.ydown with e | q
    · exact ⟨fun e' h => (by cases h; rfl), fun _ h => (by cases h)⟩
    simp only
    obtain ⟨h1, h2⟩ := ih (u ++ [p]) (d ++ [q])
    rcases hm : ss.mapM Blade.sectionCylinder with e | pairs
    · refine ⟨fun e' h => ?_, fun pairs h => ?_⟩
      · skip
        cases h
        exact h1 e hm
      · skip
        cases h
    · have h3 := h2 pairs hm
      refine ⟨fun e' h => ?_, fun pairs' h => ?_⟩
      · skip
        cases h
      · skip
        cases h
        rw [h3]
        simp

/-- The two models of `_planar_to_cylindrical`. -/
theorem planar_eq (B : ListBlade) :
    (∀ up down, Blade.cylindrical B.b.sections B.b.radii = .ok (up, down) →
      planarToCylindrical B = (⟨{ B.b with coordsUp := up, coordsDown := down }, true, true⟩, .ok ())) ∧
    ∀ e, Blade.cylindrical B.b.sections B.b.radii = .error e →
      ∃ u d a, planarToCylindrical B = (⟨{ B.b with coordsUp := u, coordsDown := d }, false, a⟩, .error e) := by
  obtain ⟨h1, h2⟩ := lists_eq (List.zip B.b.sections.reverse B.b.radii.reverse) [] []
  rcases hm : (List.zip B.b.sections.reverse B.b.radii.reverse).mapM Blade.sectionCylinder with e | pairs
  · have hc : Blade.cylindrical B.b.sections B.b.radii = .error e := by rw [Blade.cylindrical, hm]; rfl
    refine ⟨fun up down h => (by rw [hc] at h; cases h), fun e' h => ?_⟩
    rw [hc] at h
    cases h
    have h3 := h1 e hm
    rcases hl : lists (List.zip B.b.sections.reverse B.b.radii.reverse) [] [] with ⟨⟨u, d⟩, o⟩
    rw [hl] at h3
    obtain rfl : o = .error e := h3
    exact ⟨u, d, false, by rw [planarToCylindrical, hl]⟩
  · have h3 := h2 pairs hm
    simp only [List.nil_append] at h3
    rcases hd : Blade.npStack (pairs.map Prod.snd) with e | d'
    · have hc : Blade.cylindrical B.b.sections B.b.radii = .error e := by
        rw [Blade.cylindrical, hm]; simp [bind, Except.bind, hd]
      refine ⟨fun up down h => (by rw [hc] at h; cases h), fun e' h => ?_⟩
      rw [hc] at h
      cases h
      exact ⟨pairs.map Prod.fst, pairs.map Prod.snd, false, by rw [planarToCylindrical, h3]; simp only; rw [hd]⟩
    · rcases hu : Blade.npStack (pairs.map Prod.fst) with e | u'
      · have hc : Blade.cylindrical B.b.sections B.b.radii = .error e := by
          rw [Blade.cylindrical, hm]; simp [bind, Except.bind, hd, hu]
        refine ⟨fun up down h => (by rw [hc] at h; cases h), fun e' h => ?_⟩
        rw [hc] at h
        cases h
        exact ⟨pairs.map Prod.fst, d', true, by rw [planarToCylindrical, h3]; simp only; rw [hd]; simp only; rw [hu]⟩
      · have hc : Blade.cylindrical B.b.sections B.b.radii = .ok (u', d') := by
          rw [Blade.cylindrical, hm]; simp [bind, Except.bind, hd, hu, pure, Except.pure]
        refine ⟨fun up down h => ?_, fun e h => (by rw [hc] at h; cases h)⟩
        rw [hc] at h
        cases h
        rw [planarToCylindrical, h3]
        simp only
        rw [hd]
        simp only
        rw [hu]

/-- The build of `Model/Blade.lean` in two steps. -/
theorem build_eq (occ : Face → Bool) (refl : Bool) (b : Blade) : Blade.build occ refl b =
    match Blade.applyTransformations refl b with
    | (b, .error e) => (b, .error e)
    | (b, .ok ()) => faces occ b := rfl

theorem faces_coords (occ : Face → Bool) (b : Blade) : (faces occ b).1.coordsUp = b.coordsUp ∧ (faces occ b).1.coordsDown = b.coordsDown := by
  unfold faces
  simp only
  split
  · exact ⟨rfl, rfl⟩
  split
  · exact ⟨rfl, rfl⟩
  split
  · exact ⟨rfl, rfl⟩
  split <;> exact ⟨rfl, rfl⟩

theorem onFaces_coords (f : Pt3 → Pt3) (b : Blade) : (Blade.onFaces f b).1.coordsUp = b.coordsUp ∧ (Blade.onFaces f b).1.coordsDown = b.coordsDown := by
  unfold Blade.onFaces
  split
  · exact ⟨rfl, rfl⟩
  simp only
  split
  · exact ⟨rfl, rfl⟩
  split
  · exact ⟨rfl, rfl⟩
  split <;> exact ⟨rfl, rfl⟩

theorem mirror_coords (args : List Pt3) (kwargs : List (Str × Pt3)) (b : Blade) :
    (Blade.mirror args kwargs b).1.coordsUp = b.coordsUp ∧ (Blade.mirror args kwargs b).1.coordsDown = b.coordsDown := by
  unfold Blade.mirror
  split
  · exact ⟨rfl, rfl⟩
  split
  · exact ⟨rfl, rfl⟩
  · exact onFaces_coords _ b


/-- Good sections: the loop goes through. -/
theorem lists_good : ∀ (l : List (Profile × ℝ)) (u d : Face),
    (∀ s ∈ l, s.2 ≠ 0 ∧ s.1.xup.length = s.1.yup.length ∧ s.1.xdown.length = s.1.ydown.length) →
    lists l u d = ((u ++ l.map fun s => s.1.upper.map (wrap s.2), d ++ l.map fun s => s.1.lower.map (wrap s.2)), .ok ()) := by
  intro l
  induction l with
  | nil => intro u d _; simp [lists]
  | cons s l ih =>
    intro u d h
    obtain ⟨h1, h2, h3⟩ := h s (by simp)
    rw [lists, Blade.cylinder_ok.2 ⟨h1, h2, rfl⟩, Blade.cylinder_ok.2 ⟨h1, h3, rfl⟩]
    simp only
    rw [ih _ _ fun t ht => h t (by simp [ht])]
    simp [Profile.upper, Profile.lower]

/-- The surfaces of the sections on their cylinders, from the last section to the first. -/
def laid (f : Profile → List Pt) (ss : List Profile) (rs : Arr) : Face := (List.zipWith (fun P r => (f P).map (wrap r)) ss rs).reverse

theorem zip_reverse {ss : List Profile} {rs : Arr} (hl : rs.length = ss.length) (f : Profile → List Pt) :
    ((List.zip ss.reverse rs.reverse).map fun s => (f s.1).map (wrap s.2)) = laid f ss rs := by
  have hz : List.zip ss.reverse rs.reverse = (List.zip ss rs).reverse := by
    simp only [List.zip]
    exact (List.reverse_zipWith hl.symm).symm
  rw [hz, laid, List.map_reverse, List.map_zip_eq_zipWith]
  rfl

/-- Sections that are each in order but have different numbers of points. -/
theorem planar_ragged (B : ListBlade) (hl : B.b.radii.length = B.b.sections.length) (hr : ∀ r ∈ B.b.radii, r ≠ 0)
    (hU : ∀ P ∈ B.b.sections, P.Uniform) {P Q : Profile} (hP : P ∈ B.b.sections) (hQ : Q ∈ B.b.sections) (hd : P.xup.length ≠ Q.xup.length) :
    planarToCylindrical B = (⟨{ B.b with coordsUp := laid Profile.upper B.b.sections B.b.radii, coordsDown := laid Profile.lower B.b.sections B.b.radii },
      false, false⟩, .error .valueError) := by
  have hg : lists (List.zip B.b.sections.reverse B.b.radii.reverse) [] [] =
      ((laid Profile.upper B.b.sections B.b.radii, laid Profile.lower B.b.sections B.b.radii), .ok ()) := by
    rw [lists_good, zip_reverse hl, zip_reverse hl]
    · simp
    · rintro ⟨P, r⟩ hs
      obtain ⟨u1, u2, u3⟩ := hU P (List.mem_reverse.1 (List.of_mem_zip hs).1)
      exact ⟨hr r (List.mem_reverse.1 (List.of_mem_zip hs).2), u1, u3⟩
  have hmem : ∀ R ∈ B.b.sections, ∃ l ∈ laid Profile.lower B.b.sections B.b.radii, l.length = R.xup.length := by
    intro R hR
    obtain ⟨u1, u2, u3⟩ := hU R hR
    obtain ⟨i, hi, rfl⟩ := List.mem_iff_getElem.1 hR
    refine ⟨(List.zipWith (fun P r => (Profile.lower P).map (wrap r)) B.b.sections B.b.radii)[i]'(by simp; omega), ?_, ?_⟩
    · rw [laid, List.mem_reverse]; exact List.getElem_mem _
    · rw [List.getElem_zipWith, List.length_map, Profile.lower, List.length_zip]
      omega
  obtain ⟨a, ha, hal⟩ := hmem P hP
  obtain ⟨c, hc, hcl⟩ := hmem Q hQ
  have hst : Blade.npStack (laid Profile.lower B.b.sections B.b.radii) = .error .valueError := by
    rcases hs : Blade.npStack (laid Profile.lower B.b.sections B.b.radii) with e | d
    · unfold Blade.npStack at hs
      split at hs
      · cases hs; rfl
      · split_ifs at hs
        cases hs; rfl
    · obtain ⟨-, -, h⟩ := Blade.npStack_ok.1 hs
      exact absurd (hal.symm.trans ((h a ha c hc).trans hcl)) hd
  rw [planarToCylindrical, hg]
  simp only
  rw [hst]

/-- The loop over the sections keeps the number of points of every section, also when it fails. -/
theorem loop_counts {b : Blade} (hf : b.camber = none) {refl : Bool} : ∀ (Ps : List Profile) (i : Nat), (∀ P ∈ Ps, P.Uniform) →
    (Blade.sectionLoop b refl i Ps).1.map (fun P => P.xup.length) = Ps.map (fun P => P.xup.length) ∧
    ∀ P ∈ (Blade.sectionLoop b refl i Ps).1, P.Uniform := by
  intro Ps
  induction Ps with
  | nil => intro i _; simp [Blade.sectionLoop]
  | cons P Ps ih =>
    intro i h
    have hP := Blade.pts_iff.1 (Blade.runSteps_pts (m := P.xup.length) (fs := Blade.sectionSteps b refl i) (P := P)
      (fun f hm P Q => Blade.step_pts hf hm) (Blade.pts_iff.2 ⟨h P (by simp), rfl⟩))
    obtain ⟨h1, h2⟩ := ih (i + 1) (fun Q hQ => h Q (by simp [hQ]))
    simp only [Blade.sectionLoop]
    rcases hr : Blade.runSteps (Blade.sectionSteps b refl i) P with ⟨Q, (e | u)⟩
    · rw [hr] at hP
      refine ⟨by simp [hP.2], ?_⟩
      simp only [List.mem_cons]
      rintro R (rfl | hR)
      · exact hP.1
      · exact h R (by simp [hR])
    · rw [hr] at hP
      refine ⟨by simp only [List.map_cons, hP.2, h1], ?_⟩
      simp only [List.mem_cons]
      rintro R (rfl | hR)
      · exact hP.1
      · exact h2 R hR

/-- The loop over the sections of a plain blade. -/
theorem loop_plain (b : Blade) (refl : Bool) (hW : b.WellFormed) (ht : b.thickness = none) (hf : b.camber = none)
    (hU : ∀ P ∈ b.sections, P.Uniform) (hr : ∀ r ∈ b.radii, r ≠ 0) (href : ∀ P ∈ b.sections, ∃ ref, P.referencePoint = .ok ref) :
    ∃ ss, Blade.sectionLoop b refl 0 b.sections = (ss, .ok ()) ∧ ss.length = b.sections.length ∧
      ∀ (i : Nat) (P : Profile) (r c p k s : ℝ), b.sections[i]? = some P → b.radii[i]? = some r → b.chord[i]? = some c →
        b.pitch[i]? = some p → b.rake[i]? = some k → b.skew[i]? = some s →
        ∃ ref Q, P.referencePoint = .ok ref ∧ ss[i]? = some Q ∧
          Q.upper = P.upper.map (placed refl r c p k s ref) ∧ Q.lower = P.lower.map (placed refl r c p k s ref) := by
  obtain ⟨wr, wc, wp, wk, ws⟩ := id hW
  have stepEx' : ∀ i, ∃ Q, ∀ hi : i < b.sections.length,
      Blade.runSteps (Blade.sectionSteps b refl i) b.sections[i] = (Q, .ok ()) ∧ ∃ ref, b.sections[i].referencePoint = .ok ref ∧
        Q.upper = b.sections[i].upper.map (placed refl (b.radii[i]'(by omega)) (b.chord[i]'(by omega)) (b.pitch[i]'(by omega)) (b.rake[i]'(by omega))
          (b.skew[i]'(by omega)) ref) ∧
        Q.lower = b.sections[i].lower.map (placed refl (b.radii[i]'(by omega)) (b.chord[i]'(by omega)) (b.pitch[i]'(by omega)) (b.rake[i]'(by omega))
          (b.skew[i]'(by omega)) ref) := by
    intro i
    by_cases hi : i < b.sections.length
    · have hPm : b.sections[i] ∈ b.sections := List.getElem_mem hi
      obtain ⟨ref, hre⟩ := href _ hPm
      obtain ⟨Q, q1, q2, q3, q4, _⟩ := (Blade.section_plain ht hf (refl := refl) (List.getElem?_eq_getElem (show i < b.radii.length by omega))
        (List.getElem?_eq_getElem (show i < b.pitch.length by omega)) (List.getElem?_eq_getElem (show i < b.rake.length by omega))
        (List.getElem?_eq_getElem (show i < b.skew.length by omega)) (List.getElem?_eq_getElem (show i < b.chord.length by omega)) (hU _ hPm)).2 ref
        (hr _ (List.getElem_mem _)) hre
      exact ⟨Q, fun _ => ⟨q1, ref, hre, q2, q3⟩⟩
    · exact ⟨Sample.foil, fun h => absurd h hi⟩
  choose f hfa using stepEx'
  refine ⟨(List.range b.sections.length).map f, ?_, by simp, ?_⟩
  · rw [Blade.sectionLoop_ok]
    refine ⟨by simp, ?_⟩
    intro j P Q hP hQ
    obtain ⟨hj, rfl⟩ := List.getElem?_eq_some_iff.1 hP
    simp only [List.getElem?_map, List.getElem?_range hj, Option.map_some, Option.some.injEq] at hQ
    subst hQ
    rw [Nat.zero_add]
    exact (hfa j hj).1
  · intro i P r c p k s h1 h2 h3 h4 h5 h6
    obtain ⟨hi, rfl⟩ := List.getElem?_eq_some_iff.1 h1
    obtain ⟨_, rfl⟩ := List.getElem?_eq_some_iff.1 h2
    obtain ⟨_, rfl⟩ := List.getElem?_eq_some_iff.1 h3
    obtain ⟨_, rfl⟩ := List.getElem?_eq_some_iff.1 h4
    obtain ⟨_, rfl⟩ := List.getElem?_eq_some_iff.1 h5
    obtain ⟨_, rfl⟩ := List.getElem?_eq_some_iff.1 h6
    obtain ⟨_, ref, e1, e2, e3⟩ := hfa i hi
    exact ⟨ref, f i, e1, by simp [hi], e2, e3⟩

end ListBlade
end
end BladeX
