import Verif.Spec.Blade
import Verif.Lemmas.Edges

/-! # Lemmas on blades -/

namespace BladeX
noncomputable section
open Spec Classical
namespace Blade

theorem getIdx_ok {α : Type*} {l : List α} {i : Nat} {x : α} : getIdx l i = .ok x ↔ l[i]? = some x := by
  unfold getIdx
  cases l[i]? <;> simp

theorem runSteps_ok {fs : List (Profile → Res Profile)} {P Q : Profile} :
    runSteps fs P = (Q, .ok ()) ↔ fs.foldlM (fun P f => f P) P = (.ok Q : Res Profile) := by
  induction fs generalizing P with
  | nil => simp [runSteps, pure, Except.pure]
  | cons f fs ih =>
    simp only [runSteps, List.foldlM_cons, bind, Except.bind]
    rcases f P with e | R
    · simp
    · simp only [ih]

theorem sectionLoop_ok {b : Blade} {refl : Bool} : ∀ (Ps : List Profile) (i : Nat) (Qs : List Profile),
    sectionLoop b refl i Ps = (Qs, .ok ()) ↔ Qs.length = Ps.length ∧
      ∀ j P Q, Ps[j]? = some P → Qs[j]? = some Q → runSteps (sectionSteps b refl (i + j)) P = (Q, .ok ()) := by
  intro Ps
  induction Ps with
  | nil =>
    intro i Qs
    simp only [sectionLoop, Prod.mk.injEq, and_true]
    constructor
    · rintro rfl; simp
    · rintro ⟨h, _⟩
      rw [List.length_nil] at h
      exact (List.length_eq_zero_iff.1 h).symm
  | cons P Ps ih =>
    intro i Qs
    simp only [sectionLoop]
    rcases hr : runSteps (sectionSteps b refl i) P with ⟨Q, (e | u)⟩
    · simp only [Prod.mk.injEq, reduceCtorEq, and_false, false_iff]
      rintro ⟨hl, h⟩
      rcases Qs with _ | ⟨Q', Qs⟩
      · cases hl
      · have := h 0 P Q' rfl rfl
        rw [Nat.add_zero, hr] at this
        simp at this
    · simp only [Prod.mk.injEq]
      constructor
      · rintro ⟨rfl, h2⟩
        obtain ⟨k1, k2⟩ := (ih (i + 1) (sectionLoop b refl (i + 1) Ps).1).1 (Prod.ext rfl h2)
        refine ⟨by simp [k1], ?_⟩
        intro j P' Q' hP hQ
        cases j with
        | zero =>
          simp only [List.getElem?_cons_zero, Option.some.injEq] at hP hQ
          subst hP hQ
          exact hr
        | succ j =>
          simp only [List.getElem?_cons_succ] at hP hQ
          have := k2 j P' Q' hP hQ
          rwa [show i + 1 + j = i + (j + 1) by omega] at this
      · rintro ⟨hl, h⟩
        rcases Qs with _ | ⟨Q', Qs⟩
        · cases hl
        · have h0 := h 0 P Q' rfl rfl
          rw [Nat.add_zero, hr] at h0
          obtain rfl : Q = Q' := (Prod.mk.inj h0).1
          have := (ih (i + 1) Qs).2 ⟨by simpa using hl, by
            intro j P' Q' hP hQ
            have := h (j + 1) P' Q' (by simpa using hP) (by simpa using hQ)
            rwa [show i + 1 + j = i + (j + 1) by omega]⟩
          rw [this]
          exact ⟨rfl, rfl⟩

theorem mapM_ok {α β : Type} {f : α → Res β} : ∀ {l : List α} {r : List β},
    l.mapM f = .ok r ↔ r.length = l.length ∧ ∀ (i : Nat) a c, l[i]? = some a → r[i]? = some c → f a = .ok c := by
  intro l
  induction l with
  | nil =>
    intro r
    simp only [List.mapM_nil, pure, Except.pure, Except.ok.injEq]
    constructor
    · rintro rfl; simp
    · rintro ⟨h, _⟩
      exact (List.length_eq_zero_iff.1 (by simpa using h)).symm
  | cons a l ih =>
    intro r
    rw [List.mapM_cons]
    simp only [bind, Except.bind, pure, Except.pure]
    constructor
    · intro h
      split at h
      · cases h
      · rename_i c hc
        split at h
        · cases h
        · rename_i cs hcs
          obtain rfl := Except.ok.inj h
          obtain ⟨h1, h2⟩ := ih.1 hcs
          refine ⟨by simp [h1], ?_⟩
          intro i a' c' ha hc'
          cases i with
          | zero =>
            simp only [List.getElem?_cons_zero, Option.some.injEq] at ha hc'
            subst ha hc'
            exact hc
          | succ i =>
            exact h2 i a' c' (by simpa using ha) (by simpa using hc')
    · rintro ⟨h1, h2⟩
      rcases r with _ | ⟨c, cs⟩
      · cases h1
      · rw [h2 0 a c rfl rfl, ih.2 ⟨by simpa using h1, fun i a' c' ha hc' =>
          h2 (i + 1) a' c' (by simpa using ha) (by simpa using hc')⟩]

theorem npStack_ok {F G : Face} : npStack F = .ok G ↔ G = F ∧ F ≠ [] ∧ ∀ a ∈ F, ∀ c ∈ F, a.length = c.length := by
  unfold npStack
  cases F with
  | nil => simp
  | cons a as =>
    simp only
    constructor
    · intro h
      split at h
      · rename_i hl
        obtain rfl := Except.ok.inj h
        refine ⟨rfl, by simp, ?_⟩
        have : ∀ c ∈ a :: as, c.length = a.length := by
          intro c hc
          rcases List.mem_cons.1 hc with rfl | hc
          · rfl
          · exact hl c hc
        intro x hx y hy
        rw [this x hx, this y hy]
      · cases h
    · rintro ⟨rfl, _, h⟩
      rw [if_pos]
      intro c hc
      exact h c (by simp [hc]) a (by simp)

theorem cylinder_ok {r : ℝ} {xs ys : Arr} {l : List Pt3} :
    cylinder r xs ys = .ok l ↔ r ≠ 0 ∧ xs.length = ys.length ∧ l = (List.zip xs ys).map (wrap r) := by
  unfold cylinder
  by_cases hr : r = 0
  · simp [hr]
  · simp only [hr, if_false, ne_eq, not_false_eq_true, true_and]
    by_cases hl : xs.length = ys.length
    · simp only [hl, not_true_eq_false, if_false, true_and, Except.ok.injEq, List.map_zip_eq_zipWith]
      constructor
      · rintro rfl; rfl
      · rintro rfl; rfl
    · simp [hl]

/-- The result of laying the sections on their cylinders. -/
theorem cylindrical_ok {ss : List Profile} {rs : Arr} (hl : rs.length = ss.length) {up down : Face} :
    cylindrical ss rs = .ok (up, down) ↔ ss ≠ [] ∧
      (∀ (i : Nat) (P : Profile) (r : ℝ), ss[i]? = some P → rs[i]? = some r → r ≠ 0 ∧ P.xup.length = P.yup.length ∧ P.xdown.length = P.ydown.length) ∧
      (∀ P ∈ ss, ∀ Q ∈ ss, P.upper.length = Q.upper.length ∧ P.lower.length = Q.lower.length) ∧
      up = (List.zipWith (fun P r => (Profile.upper P).map (wrap r)) ss rs).reverse ∧
      down = (List.zipWith (fun P r => (Profile.lower P).map (wrap r)) ss rs).reverse := by
  have hz : List.zip ss.reverse rs.reverse = (List.zip ss rs).reverse := by
    simp only [List.zip]
    exact (List.reverse_zipWith hl.symm).symm
  unfold cylindrical
  rw [hz]
  simp only [bind, Except.bind, pure, Except.pure]
  have hmem : ∀ {i : Nat} {P : Profile} {r : ℝ}, ss[i]? = some P → rs[i]? = some r → (P, r) ∈ (List.zip ss rs) := by
    intro i P r h1 h2
    apply List.mem_of_getElem? (i := i)
    rw [List.getElem?_zip_eq_some]
    exact ⟨h1, h2⟩
  have hmem' : ∀ {P : Profile} {r : ℝ}, (P, r) ∈ (List.zip ss rs) → ∃ i : Nat, ss[i]? = some P ∧ rs[i]? = some r := by
    intro P r h
    obtain ⟨i, hi⟩ := List.getElem?_of_mem h
    rw [List.getElem?_zip_eq_some] at hi
    exact ⟨i, hi⟩
  let G : Profile × ℝ → List Pt3 × List Pt3 := fun s => (s.1.upper.map (wrap s.2), s.1.lower.map (wrap s.2))
  let Good : Profile × ℝ → Prop := fun s => s.2 ≠ 0 ∧ s.1.xup.length = s.1.yup.length ∧ s.1.xdown.length = s.1.ydown.length
  have hstep : ∀ (s : Profile × ℝ) (q : List Pt3 × List Pt3),
      sectionCylinder s = .ok q ↔ Good s ∧ q = G s := by
    intro s q
    unfold sectionCylinder
    simp only [bind, Except.bind, pure, Except.pure]
    constructor
    · intro h
      split at h
      · cases h
      · rename_i u hu
        split at h
        · cases h
        · rename_i d hd
          obtain rfl := Except.ok.inj h
          obtain ⟨a1, a2, a3⟩ := cylinder_ok.1 hu
          obtain ⟨b1, b2, b3⟩ := cylinder_ok.1 hd
          refine ⟨⟨a1, a2, b2⟩, ?_⟩
          simp only [G, a3, b3]; rfl
    · rintro ⟨⟨a1, a2, a3⟩, rfl⟩
      rw [cylinder_ok.2 ⟨a1, a2, rfl⟩, cylinder_ok.2 ⟨a1, a3, rfl⟩]
      rfl
  have hmapM : ∀ (l : List (Profile × ℝ)) (r : List (List Pt3 × List Pt3)), l.mapM sectionCylinder = .ok r ↔ (∀ s ∈ l, Good s) ∧ r = l.map G := by
    intro l r
    rw [mapM_ok]
    constructor
    · rintro ⟨h1, h2⟩
      constructor
      · intro s hs
        obtain ⟨i, hi⟩ := List.getElem?_of_mem hs
        have hlt : i < r.length := by rw [h1]; exact (List.getElem?_eq_some_iff.1 hi).1
        exact ((hstep s r[i]).1 (h2 i s r[i] hi (List.getElem?_eq_getElem hlt))).1
      · apply List.ext_getElem
        · simp [h1]
        · intro i hi hi'
          have hli : i < l.length := by omega
          have := ((hstep l[i] r[i]).1 (h2 i l[i] r[i] (List.getElem?_eq_getElem hli) (List.getElem?_eq_getElem hi))).2
          rw [this]; simp
    · rintro ⟨h1, rfl⟩
      refine ⟨by simp, ?_⟩
      intro i a c ha hc
      rw [List.getElem?_map, ha] at hc
      simp only [Option.map_some, Option.some.injEq] at hc
      exact (hstep a c).2 ⟨h1 a (List.mem_of_getElem? ha), hc.symm⟩
  have hup : ((List.zip ss rs).reverse.map G).map Prod.fst = (List.zipWith (fun P r => (Profile.upper P).map (wrap r)) ss rs).reverse := by
    rw [List.map_map, List.map_reverse, List.map_zip_eq_zipWith]; rfl
  have hdown : ((List.zip ss rs).reverse.map G).map Prod.snd = (List.zipWith (fun P r => (Profile.lower P).map (wrap r)) ss rs).reverse := by
    rw [List.map_map, List.map_reverse, List.map_zip_eq_zipWith]; rfl
  have hrad : ∀ P ∈ ss, ∃ r, (P, r) ∈ List.zip ss rs := by
    intro P hP
    obtain ⟨i, hi⟩ := List.getElem?_of_mem hP
    have hlt : i < rs.length := by rw [hl]; exact (List.getElem?_eq_some_iff.1 hi).1
    exact ⟨rs[i], hmem hi (List.getElem?_eq_getElem hlt)⟩
  have hne : (List.zip ss rs).reverse.map G ≠ [] ↔ ss ≠ [] := by
    constructor
    · rintro h rfl; simp at h
    · intro h h'
      obtain ⟨P, Ps, rfl⟩ := List.exists_cons_of_ne_nil h
      obtain ⟨r, hr⟩ := hrad P (by simp)
      have : G (P, r) ∈ (List.zip (P :: Ps) rs).reverse.map G := List.mem_map.2 ⟨(P, r), List.mem_reverse.2 hr, rfl⟩
      rw [h'] at this
      cases this
  constructor
  · intro h
    split at h
    · cases h
    · rename_i pairs hp
      obtain ⟨g1, rfl⟩ := (hmapM _ _).1 hp
      split at h
      · cases h
      · rename_i dn hdn
        split at h
        · cases h
        · rename_i u hu
          obtain ⟨rfl, rfl⟩ := Prod.mk.inj (Except.ok.inj h)
          obtain ⟨rfl, _, hd2⟩ := npStack_ok.1 hdn
          obtain ⟨rfl, hu1, hu2⟩ := npStack_ok.1 hu
          have hss : ss ≠ [] := hne.1 (by intro e; rw [e] at hu1; exact hu1 rfl)
          refine ⟨hss, ?_, ?_, hup, hdown⟩
          · intro i P r h1 h2
            exact g1 (P, r) (List.mem_reverse.2 (hmem h1 h2))
          · intro P hP Q hQ
            obtain ⟨r1, hr1⟩ := hrad P hP
            obtain ⟨r2, hr2⟩ := hrad Q hQ
            have m1 : G (P, r1) ∈ (List.zip ss rs).reverse.map G := List.mem_map.2 ⟨_, List.mem_reverse.2 hr1, rfl⟩
            have m2 : G (Q, r2) ∈ (List.zip ss rs).reverse.map G := List.mem_map.2 ⟨_, List.mem_reverse.2 hr2, rfl⟩
            have e1 := hu2 _ (List.mem_map.2 ⟨_, m1, rfl⟩) _ (List.mem_map.2 ⟨_, m2, rfl⟩)
            have e2 := hd2 _ (List.mem_map.2 ⟨_, m1, rfl⟩) _ (List.mem_map.2 ⟨_, m2, rfl⟩)
            simp only [G, List.length_map] at e1 e2
            exact ⟨e1, e2⟩
  · rintro ⟨h1, h2, h3, rfl, rfl⟩
    rw [(hmapM _ _).2 ⟨?_, rfl⟩]
    · simp only
      have len : ∀ x ∈ (List.zip ss rs).reverse.map G, ∃ P ∈ ss, x.1.length = P.upper.length ∧ x.2.length = P.lower.length := by
        intro x hx
        obtain ⟨⟨P, r⟩, hs, rfl⟩ := List.mem_map.1 hx
        exact ⟨P, (List.of_mem_zip (List.mem_reverse.1 hs)).1, by simp [G], by simp [G]⟩
      rw [npStack_ok.2 ⟨rfl, by simpa using hne.2 h1, ?_⟩]
      · simp only
        rw [npStack_ok.2 ⟨rfl, by simpa using hne.2 h1, ?_⟩]
        · simp only [hup, hdown]
        · intro a ha c hc
          obtain ⟨x, hx, rfl⟩ := List.mem_map.1 ha
          obtain ⟨y, hy, rfl⟩ := List.mem_map.1 hc
          obtain ⟨P, hP, e1, _⟩ := len x hx
          obtain ⟨Q, hQ, e2, _⟩ := len y hy
          rw [e1, e2, (h3 P hP Q hQ).1]
      · intro a ha c hc
        obtain ⟨x, hx, rfl⟩ := List.mem_map.1 ha
        obtain ⟨y, hy, rfl⟩ := List.mem_map.1 hc
        obtain ⟨P, hP, _, e1⟩ := len x hx
        obtain ⟨Q, hQ, _, e2⟩ := len y hy
        rw [e1, e2, (h3 P hP Q hQ).2]
    · rintro ⟨P, r⟩ hs
      obtain ⟨i, hi1, hi2⟩ := hmem' (List.mem_reverse.1 hs)
      exact h2 i P r hi1 hi2

/-- What a successful `apply_transformations` did. -/
theorem apply_ok {b b' : Blade} {refl : Bool} (hl : b.radii.length = b.sections.length) :
    applyTransformations refl b = (b', .ok ()) ↔
      ∃ ss up down, sectionLoop b refl 0 b.sections = (ss, .ok ()) ∧ cylindrical ss b.radii = .ok (up, down) ∧
        b' = { b with sections := ss, coordsUp := up, coordsDown := down } := by
  unfold applyTransformations
  rcases h : sectionLoop b refl 0 b.sections with ⟨ss, (e | u)⟩
  · simp
  · simp only
    rcases hc : cylindrical ss b.radii with e | ⟨up, down⟩
    · simp only [Prod.mk.injEq, reduceCtorEq, and_false, false_iff]
      rintro ⟨ss', up', down', h1, h2, _⟩
      obtain rfl : ss = ss' := h1.1
      rw [hc] at h2; cases h2
    · simp only [Prod.mk.injEq, and_true]
      constructor
      · rintro rfl; exact ⟨ss, up, down, rfl, hc, rfl⟩
      · rintro ⟨ss', up', down', h1, h2, rfl⟩
        obtain rfl := h1
        rw [hc] at h2
        obtain ⟨rfl, rfl⟩ := Prod.mk.inj (Except.ok.inj h2)
        rfl

end Blade
end
end BladeX
