import Verif.Props.BladeLife
import Verif.Props.Display

/-! # C140: a build that the CAD kernel refuses (`bladex/blade.py` 184-207, `bladex/intepolatedface.py` 50-54) -/

namespace BladeX
noncomputable section
open Spec Classical

/-- The four faces that belong to the coordinates of a blade, in millimetres: upper, lower, tip and root. -/
def Spec.Belong (b : Blade) (U L T R : Face) : Prop :=
  let mm : List Pt3 → List Pt3 := List.map fun p => (p.1 * 1000, p.2.1 * 1000, p.2.2 * 1000)
  U = b.coordsUp.map mm ∧ L = b.coordsDown.map mm ∧
    (∃ u d, b.coordsUp.getLast? = some u ∧ b.coordsDown.getLast? = some d ∧ T = [mm u, mm d]) ∧
    ∃ u d, b.coordsUp.head? = some u ∧ b.coordsDown.head? = some d ∧ R = [mm u, mm d]

namespace Blade

theorem mm_eq : (fun l : List Pt3 => l.map (scalePt conversion)) = List.map fun p => (p.1 * 1000, p.2.1 * 1000, p.2.2 * 1000) := by
  funext l
  rfl

/-- `build`, the faces one after the other. -/
theorem build_faces (occ : Face → Bool) (refl : Bool) (b b₁ : Blade) (h : b.applyTransformations refl = (b₁, .ok ())) {m : Nat} (hu : b₁.coordsUp ≠ [])
    (hl : b₁.coordsDown.length = b₁.coordsUp.length) (h1 : ∀ l ∈ b₁.coordsUp, l.length = m) (h2 : ∀ l ∈ b₁.coordsDown, l.length = m) :
    ∃ U L T R, Belong b₁ U L T R ∧
      b.build occ refl = if occ U = false then (b₁, .error .runtimeError) else if occ L = false then ({ b₁ with upper := some U }, .error .runtimeError)
        else if occ T = false then ({ b₁ with upper := some U, lower := some L }, .error .runtimeError)
        else if occ R = false then ({ b₁ with upper := some U, lower := some L, tip := some T }, .error .runtimeError)
        else ({ b₁ with upper := some U, lower := some L, tip := some T, root := some R }, .ok ()) := by
  have hd : b₁.coordsDown ≠ [] := by
    intro h0; rw [h0] at hl; exact hu (List.length_eq_zero_iff.1 hl.symm)
  set mm : List Pt3 → List Pt3 := List.map fun p => (p.1 * 1000, p.2.1 * 1000, p.2.2 * 1000) with hmm
  have e : ∀ F : Face, mapPts (scalePt conversion) F = F.map mm := fun F => rfl
  have gl : ∀ F : Face, ∀ hF : F ≠ [], getLast (F.map mm) = .ok (mm (F.getLast hF)) := by
    intro F hF
    rw [getLast_ok_iff, List.getLast?_map, List.getLast?_eq_getLast_of_ne_nil hF]; rfl
  have gf : ∀ F : Face, ∀ hF : F ≠ [], getFirst (F.map mm) = .ok (mm (F.head hF)) := by
    intro F hF
    rw [getFirst_ok_iff', List.head?_map, List.head?_eq_some_head hF]; rfl
  have stack : ∀ a ∈ b₁.coordsUp, ∀ c ∈ b₁.coordsDown, (npStack [mm a, mm c] >>= makeFace occ) = if occ [mm a, mm c] = true then .ok [mm a, mm c] else .error .runtimeError := by
    intro a ha c hc
    rw [npStack_ok.2 ⟨rfl, by simp, by simp [hmm, h1 a ha, h2 c hc]⟩]
    rfl
  refine ⟨b₁.coordsUp.map mm, b₁.coordsDown.map mm, [mm (b₁.coordsUp.getLast hu), mm (b₁.coordsDown.getLast hd)],
    [mm (b₁.coordsUp.head hu), mm (b₁.coordsDown.head hd)], ⟨rfl, rfl, ⟨_, _, List.getLast?_eq_getLast_of_ne_nil hu, List.getLast?_eq_getLast_of_ne_nil hd, rfl⟩,
    ⟨_, _, List.head?_eq_some_head hu, List.head?_eq_some_head hd, rfl⟩⟩, ?_⟩
  unfold build
  rw [h]
  simp only [e]
  have t1 : (do npStack [← getLast (b₁.coordsUp.map mm), ← getLast (b₁.coordsDown.map mm)] >>= makeFace occ : Res Face) =
      if occ [mm (b₁.coordsUp.getLast hu), mm (b₁.coordsDown.getLast hd)] = true then .ok [mm (b₁.coordsUp.getLast hu), mm (b₁.coordsDown.getLast hd)]
      else .error .runtimeError := by
    rw [gl _ hu, gl _ hd]
    exact stack _ (List.getLast_mem hu) _ (List.getLast_mem hd)
  have t2 : (do npStack [← getFirst (b₁.coordsUp.map mm), ← getFirst (b₁.coordsDown.map mm)] >>= makeFace occ : Res Face) =
      if occ [mm (b₁.coordsUp.head hu), mm (b₁.coordsDown.head hd)] = true then .ok [mm (b₁.coordsUp.head hu), mm (b₁.coordsDown.head hd)]
      else .error .runtimeError := by
    rw [gf _ hu, gf _ hd]
    exact stack _ (List.head_mem hu) _ (List.head_mem hd)
  rw [t1, t2]
  unfold makeFace
  by_cases o1 : occ (b₁.coordsUp.map mm) = true
  swap
  · simp [o1]
  by_cases o2 : occ (b₁.coordsDown.map mm) = true
  swap
  · simp [o1, o2]
  by_cases o3 : occ [mm (b₁.coordsUp.getLast hu), mm (b₁.coordsDown.getLast hd)] = true
  swap
  · simp [o1, o2, o3]
  by_cases o4 : occ [mm (b₁.coordsUp.head hu), mm (b₁.coordsDown.head hd)] = true
  swap
  · simp [o1, o2, o3, o4]
  simp [o1, o2, o3, o4]

/-- `apply_transformations` does not look at the faces. -/
theorem apply_faces (b : Blade) (u l t r : Option Face) (refl : Bool) :
    ({ b with upper := u, lower := l, tip := t, root := r } : Blade).applyTransformations refl =
      ({ (b.applyTransformations refl).1 with upper := u, lower := l, tip := t, root := r }, (b.applyTransformations refl).2) := by
  have hs : ∀ i, sectionSteps { b with upper := u, lower := l, tip := t, root := r } refl i = sectionSteps b refl i := fun i => rfl
  have hl : ∀ (ps : List Profile) (i : Nat), sectionLoop { b with upper := u, lower := l, tip := t, root := r } refl i ps = sectionLoop b refl i ps := by
    intro ps
    induction ps with
    | nil => intro i; rfl
    | cons p ps ih => intro i; simp only [sectionLoop, hs, ih]
  unfold applyTransformations
  simp only [hl]
  split
  · rfl
  · split <;> rfl

end Blade

section
variable (S : List Profile) (r c p k s : Arr) (t : Option Arr) (b₀ : Blade) (h : Blade.new S r c p k s t none = .ok b₀) (hne : S ≠ []) (hr : ∀ x ∈ r, x ≠ 0)
  (m : Nat) (hS : ∀ P ∈ S, P.Uniform ∧ P.upper.length = m) (as : List Blade.Action) (occ : Face → Bool) (refl : Bool)

include h hne hr hS in
/-- **C140** `build` at any time in the life of a blade, with a kernel that accepts or refuses each of the four faces: coordinates and sections are those of
`apply_transformations` in any case; upper, lower, tip and root face are replaced in this order by those belonging to the new coordinates, up to the first that is refused,
and that one and those after it stay what they were. `RuntimeError` is raised exactly if one is refused. -/
theorem C140_refused (b₁ : Blade) (ha : (b₀.life as).applyTransformations refl = (b₁, .ok ())) :
    ∃ U L T R, Belong b₁ U L T R ∧
      (occ U = false → ∃ b₂, (b₀.life as).build occ refl = (b₂, .error .runtimeError) ∧
        b₂ = { b₁ with upper := (b₀.life as).upper, lower := (b₀.life as).lower, tip := (b₀.life as).tip, root := (b₀.life as).root }) ∧
      (occ U = true → occ L = false → ∃ b₂, (b₀.life as).build occ refl = (b₂, .error .runtimeError) ∧
        b₂ = { b₁ with upper := some U, lower := (b₀.life as).lower, tip := (b₀.life as).tip, root := (b₀.life as).root }) ∧
      (occ U = true → occ L = true → occ T = false → ∃ b₂, (b₀.life as).build occ refl = (b₂, .error .runtimeError) ∧
        b₂ = { b₁ with upper := some U, lower := some L, tip := (b₀.life as).tip, root := (b₀.life as).root }) ∧
      (occ U = true → occ L = true → occ T = true → occ R = false → ∃ b₂, (b₀.life as).build occ refl = (b₂, .error .runtimeError) ∧
        b₂ = { b₁ with upper := some U, lower := some L, tip := some T, root := (b₀.life as).root }) ∧
      (occ U = true → occ L = true → occ T = true → occ R = true → ∃ b₂, (b₀.life as).build occ refl = (b₂, .ok ()) ∧
        b₂ = { b₁ with upper := some U, lower := some L, tip := some T, root := some R }) := by
  obtain ⟨h0, h0'⟩ := Blade.new_sound S r c p k s t b₀ h hne hr m hS
  obtain ⟨hs, -⟩ := Blade.life_sound r c p k as b₀ 0 1 h0 one_ne_zero h0'
  obtain ⟨-, hc⟩ := Blade.apply_sound hs refl
  rcases hc with ⟨ss, e, hc⟩ | ⟨ss, up, down, hc, hu, l1, l2, p1, p2⟩
  · rw [ha] at hc; cases (Prod.mk.inj hc).2
  rw [ha] at hc
  obtain rfl := (Prod.mk.inj hc).1
  obtain ⟨U, L, T, R, hb, hB⟩ := Blade.build_faces occ refl _ _ ha (m := m) hu (by simp only; omega) p1 p2
  refine ⟨U, L, T, R, hb, ?_, ?_, ?_, ?_, ?_⟩ <;> intros <;> simp [hB, *]

include h hne hr hS in
/-- **C140** So a failed rebuild of a blade with four faces is not noticed by what comes later: the blade still has four faces, it is displayed and exported without
complaint, and the file holds the new upper face (if that was accepted) together with the old root face. -/
theorem C140_mixed (b₁ b₂ : Blade) (e : PyErr) (ha : (b₀.life as).applyTransformations refl = (b₁, .ok ()))
    (hb : (b₀.life as).build occ refl = (b₂, .error e)) (hF : (b₀.life as).HasFaces) (fs : CadFS) (path : Str) :
    b₂.HasFaces ∧ b₂.display.2 = .ok () ∧ (b₂.exportStl true fs path).2 = .ok () ∧ b₂.root = (b₀.life as).root ∧ (∃ F, b₂.generateSolid = .ok F) ∧
      (b₂.upper ≠ (b₀.life as).upper → b₂.upper = some (b₁.coordsUp.map (·.map fun p => (p.1 * 1000, p.2.1 * 1000, p.2.2 * 1000)))) := by
  obtain ⟨U, L, T, R, ⟨hU, -⟩, c1, c2, c3, c4, c5⟩ := C140_refused S r c p k s t b₀ h hne hr m hS as occ refl b₁ ha
  generalize b₀.life as = b at *
  obtain ⟨a1, a2, a3, a4⟩ := hF
  have fin : ∀ u l ti : Option Face, u ≠ none → l ≠ none → ti ≠ none → (u ≠ b.upper → u = some U) →
      b₂ = { b₁ with upper := u, lower := l, tip := ti, root := b.root } →
      b₂.HasFaces ∧ b₂.display.2 = .ok () ∧ (b₂.exportStl true fs path).2 = .ok () ∧ b₂.root = b.root ∧ (∃ F, b₂.generateSolid = .ok F) ∧
      (b₂.upper ≠ b.upper → b₂.upper = some (b₁.coordsUp.map (·.map fun p => (p.1 * 1000, p.2.1 * 1000, p.2.2 * 1000)))) := by
    intro u l ti n1 n2 n3 hu he
    obtain ⟨x1, y1⟩ := Option.ne_none_iff_exists'.1 n1
    obtain ⟨x2, y2⟩ := Option.ne_none_iff_exists'.1 n2
    obtain ⟨x3, y3⟩ := Option.ne_none_iff_exists'.1 n3
    obtain ⟨x4, y4⟩ := Option.ne_none_iff_exists'.1 a4
    have hd : b₂.display.2 = .ok () := by
      rw [C139_blade b₂ x1 x2 x4 x3 (by rw [he]; exact y1) (by rw [he]; exact y2) (by rw [he]; exact y4) (by rw [he]; exact y3)]
    refine ⟨⟨by rw [he]; exact n1, by rw [he]; exact n2, by rw [he]; exact n3, by rw [he]; exact a4⟩, hd,
      ((C139_blade_exported b₂ (fun _ => true) fs path).1 hd).1, by rw [he], ⟨[x1, x2, x3, x4], ?_⟩, ?_⟩
    · rw [he]; simp [Blade.generateSolid, y1, y2, y3, y4]
    · rw [he]
      intro hh
      have := hu hh
      simp only
      rw [this, hU]
  rcases hoU : occ U with _ | _
  · obtain ⟨b', g1, g2⟩ := c1 hoU
    rw [hb] at g1; obtain rfl := (Prod.mk.inj g1).1
    exact fin _ _ _ a1 a2 a3 (fun h => absurd rfl h) g2
  rcases hoL : occ L with _ | _
  · obtain ⟨b', g1, g2⟩ := c2 hoU hoL
    rw [hb] at g1; obtain rfl := (Prod.mk.inj g1).1
    exact fin _ _ _ (by simp) a2 a3 (fun _ => rfl) g2
  rcases hoT : occ T with _ | _
  · obtain ⟨b', g1, g2⟩ := c3 hoU hoL hoT
    rw [hb] at g1; obtain rfl := (Prod.mk.inj g1).1
    exact fin _ _ _ (by simp) (by simp) a3 (fun _ => rfl) g2
  rcases hoR : occ R with _ | _
  · obtain ⟨b', g1, g2⟩ := c4 hoU hoL hoT hoR
    rw [hb] at g1; obtain rfl := (Prod.mk.inj g1).1
    exact fin _ _ _ (by simp) (by simp) (by simp) (fun _ => rfl) g2
  · obtain ⟨b', g1, g2⟩ := c5 hoU hoL hoT hoR
    rw [hb] at g1; cases (Prod.mk.inj g1).2

include h hne hr hS in
/-- **C140** Calling `build` again after a refusal does not repeat the attempt: the sections have been transformed already, and the second call goes on from there, as if
`apply_transformations` had been called before. -/
theorem C140_retry (b₁ b₂ : Blade) (e : PyErr) (ha : (b₀.life as).applyTransformations refl = (b₁, .ok ()))
    (hb : (b₀.life as).build occ refl = (b₂, .error e)) (occ' : Face → Bool) (refl' : Bool) :
    b₂.sections = b₁.sections ∧ b₂.coordsUp = b₁.coordsUp ∧ b₂.coordsDown = b₁.coordsDown ∧
    (b₂.build occ' refl').2 = (b₁.build occ' refl').2 ∧ (b₂.build occ' refl').1.sections = (b₁.build occ' refl').1.sections ∧
      (b₂.build occ' refl').1.coordsUp = (b₁.build occ' refl').1.coordsUp ∧ (b₂.build occ' refl').1.coordsDown = (b₁.build occ' refl').1.coordsDown ∧
      ((b₂.build occ' refl').2 = .ok () → b₂.build occ' refl' = b₁.build occ' refl') := by
  obtain ⟨U, L, T, R, -, c1, c2, c3, c4, c5⟩ := C140_refused S r c p k s t b₀ h hne hr m hS as occ refl b₁ ha
  generalize b₀.life as = b at *
  have hx : ∃ u l ti ro, b₂ = { b₁ with upper := u, lower := l, tip := ti, root := ro } := by
    rcases hoU : occ U with _ | _
    · obtain ⟨b', g1, g2⟩ := c1 hoU
      rw [hb] at g1; obtain rfl := (Prod.mk.inj g1).1
      exact ⟨_, _, _, _, g2⟩
    rcases hoL : occ L with _ | _
    · obtain ⟨b', g1, g2⟩ := c2 hoU hoL
      rw [hb] at g1; obtain rfl := (Prod.mk.inj g1).1
      exact ⟨_, _, _, _, g2⟩
    rcases hoT : occ T with _ | _
    · obtain ⟨b', g1, g2⟩ := c3 hoU hoL hoT
      rw [hb] at g1; obtain rfl := (Prod.mk.inj g1).1
      exact ⟨_, _, _, _, g2⟩
    rcases hoR : occ R with _ | _
    · obtain ⟨b', g1, g2⟩ := c4 hoU hoL hoT hoR
      rw [hb] at g1; obtain rfl := (Prod.mk.inj g1).1
      exact ⟨_, _, _, _, g2⟩
    · obtain ⟨b', g1, g2⟩ := c5 hoU hoL hoT hoR
      rw [hb] at g1; cases (Prod.mk.inj g1).2
  obtain ⟨u, l, ti, ro, rfl⟩ := hx
  refine ⟨rfl, rfl, rfl, ?_⟩
  have key : ∀ q : Blade, q.build occ' refl' = (match q.applyTransformations refl' with
      | (q, .error e) => (q, .error e)
      | (q, .ok ()) =>
        let up := mapPts (Blade.scalePt Blade.conversion) q.coordsUp
        let down := mapPts (Blade.scalePt Blade.conversion) q.coordsDown
        match Blade.makeFace occ' up with
        | .error e => (q, .error e)
        | .ok F =>
          match Blade.makeFace occ' down with
          | .error e => ({ q with upper := some F }, .error e)
          | .ok G =>
            match (do Blade.npStack [← getLast up, ← getLast down] >>= Blade.makeFace occ') with
            | .error e => ({ q with upper := some F, lower := some G }, .error e)
            | .ok H =>
              match (do Blade.npStack [← getFirst up, ← getFirst down] >>= Blade.makeFace occ') with
              | .error e => ({ q with upper := some F, lower := some G, tip := some H }, .error e)
              | .ok K => ({ q with upper := some F, lower := some G, tip := some H, root := some K }, .ok ())) := fun q => rfl
  rw [key, key, Blade.apply_faces]
  rcases b₁.applyTransformations refl' with ⟨q, (e' | x)⟩
  · exact ⟨rfl, rfl, rfl, rfl, by intro h; cases h⟩
  simp only
  rcases Blade.makeFace occ' (mapPts (Blade.scalePt Blade.conversion) q.coordsUp) with e' | F
  · exact ⟨rfl, rfl, rfl, rfl, by intro h; cases h⟩
  simp only
  rcases Blade.makeFace occ' (mapPts (Blade.scalePt Blade.conversion) q.coordsDown) with e' | G
  · exact ⟨rfl, rfl, rfl, rfl, by intro h; cases h⟩
  simp only
  split
  · exact ⟨rfl, rfl, rfl, rfl, by intro h; cases h⟩
  · split
    · exact ⟨rfl, rfl, rfl, rfl, by intro h; cases h⟩
    · exact ⟨rfl, rfl, rfl, rfl, fun _ => rfl⟩

end

/-- The hypotheses are met: a blade of two sections is built; a second `build`, for which the kernel makes no face, raises `RuntimeError`, and afterwards the blade is
displayed and exported with its four old faces, next to new coordinates. -/
example : ∃ b₁ b₂ : Blade, Blade.new [Sample.foil, Sample.foil] [1, 2] [1, 3] [2, 4] [0, 1] [0, 10] none none = .ok Sample.blade2 ∧
    (Sample.blade2.life [.build (fun _ => true) true]).HasFaces ∧
    (Sample.blade2.life [.build (fun _ => true) true]).applyTransformations true = (b₁, .ok ()) ∧
    (Sample.blade2.life [.build (fun _ => true) true]).build (fun _ => false) true = (b₂, .error .runtimeError) ∧ b₂.display.2 = .ok () ∧
    b₂.sections = b₁.sections := by
  have hn : Blade.new [Sample.foil, Sample.foil] [1, 2] [1, 3] [2, 4] [0, 1] [0, 10] none none = .ok Sample.blade2 := by simp [Blade.new, Sample.blade2]
  have hU : ∀ P ∈ Sample.blade2.sections, P.Uniform := by simp [Sample.blade2, Sample.foil_uniform]
  have hC : ∀ P ∈ Sample.blade2.sections, P.ClosedEdges := by simp [Sample.blade2, Sample.foil, Profile.ClosedEdges, Profile.upper, Profile.lower]
  have hW : Sample.blade2.WellFormed := by simp [Sample.blade2, Blade.WellFormed]
  obtain ⟨q, hq⟩ := Sample.blade2_applies true
  obtain ⟨q2, hq2⟩ := C52_never_refused [(false, true), (false, true)] Sample.blade2 q true hW rfl rfl hU hC hq
  simp only [Blade.applyMany, hq, Bool.false_eq_true, if_false] at hq2
  have hq2 : ∃ q3, q.applyTransformations true = (q3, .ok ()) := by
    rcases hx : q.applyTransformations true with ⟨q3, (e | u)⟩
    · rw [hx] at hq2; cases (Prod.mk.inj hq2).2
    · exact ⟨q3, rfl⟩
  obtain ⟨q3, hq3⟩ := hq2
  obtain ⟨B, hB, hF, _⟩ := Sample.blade2_builds true
  have hL : Sample.blade2.life [.build (fun _ => true) true] = B := by
    show (Sample.blade2.build (fun _ => true) true).1 = B
    rw [hB]
  have hS : ∀ P ∈ [Sample.foil, Sample.foil], P.Uniform ∧ P.upper.length = Sample.foil.upper.length := by
    intro P hP
    simp only [List.mem_cons, List.not_mem_nil, or_false, or_self] at hP
    subst hP
    exact ⟨Sample.foil_uniform, rfl⟩
  have ha : ∃ b₁, (Sample.blade2.life [.build (fun _ => true) true]).applyTransformations true = (b₁, .ok ()) := by
    rw [hL]
    obtain ⟨b', u0, d0, u1, d1, g, _, _, _, _, _, _, _, _, _, _, rfl⟩ := Blade.build_ok.1 hB
    rw [hq] at g
    obtain rfl := (Prod.mk.inj g).1
    exact ⟨_, by rw [Blade.apply_faces, hq3]⟩
  obtain ⟨b₁, ha⟩ := ha
  obtain ⟨U, L, T, R, -, c1, -⟩ := C140_refused _ _ _ _ _ _ _ _ hn (by simp) (by norm_num) _ hS [.build (fun _ => true) true] (fun _ => false) true b₁ ha
  obtain ⟨b₂, hb, -⟩ := c1 rfl
  refine ⟨b₁, b₂, hn, by rw [hL]; exact hF, ha, hb, ?_, ?_⟩
  · exact (C140_mixed _ _ _ _ _ _ _ _ hn (by simp) (by norm_num) _ hS _ _ true b₁ b₂ _ ha hb (by rw [hL]; exact hF) (fun _ => none) []).2.1
  · exact (C140_retry _ _ _ _ _ _ _ _ hn (by simp) (by norm_num) _ hS _ _ true b₁ b₂ _ ha hb (fun _ => true) true).1

end
end BladeX
