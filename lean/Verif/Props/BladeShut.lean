import Verif.Spec.BladeShut
import Verif.Props.BladeLife
import Verif.Props.BladeCamber
import Verif.Props.BladeOverlap
import Verif.Props.RbfPosDef

/-! # C104: blades of closed sections are closed -/

namespace BladeX
noncomputable section
open Spec Classical

namespace Profile

/-- Equally many points everywhere, the surfaces with both ends in common. -/
private def Shut (P : Profile) : Prop := P.Uniform ∧ ∃ a b, P.Ends a b a b

theorem closed_iff {P : Profile} : P.ClosedEdges ↔ ∃ a b, P.Ends a b a b := by
  unfold ClosedEdges Ends
  constructor
  · rintro ⟨h1, h2, h3⟩
    exact ⟨_, _, List.head?_eq_some_head h3, List.getLast?_eq_some_getLast h3, by rw [← h1, List.head?_eq_some_head h3],
      by rw [← h2, List.getLast?_eq_some_getLast h3]⟩
  · rintro ⟨a, b, h1, h2, h3, h4⟩
    exact ⟨by rw [h1, h3], by rw [h2, h4], by rintro h; rw [h] at h1; simp at h1⟩

/-- What ends in common mean for the four arrays. -/
private theorem shut_iff {X W Y Z : Arr} {n : Nat} (h1 : X.length = n) (h2 : W.length = n) (h3 : Y.length = n) (h4 : Z.length = n) :
    (∃ a b : Pt, (List.zip X Y).head? = some a ∧ (List.zip X Y).getLast? = some b ∧ (List.zip W Z).head? = some a ∧
      (List.zip W Z).getLast? = some b) ↔
    0 < n ∧ X[0]? = W[0]? ∧ Y[0]? = Z[0]? ∧ X[n - 1]? = W[n - 1]? ∧ Y[n - 1]? = Z[n - 1]? := by
  have e1 : (List.zip X Y).length = n := by simp; omega
  have e2 : (List.zip W Z).length = n := by simp; omega
  simp only [List.head?_eq_getElem?, List.getLast?_eq_getElem?, e1, e2, List.getElem?_zip_eq_some]
  constructor
  · rintro ⟨a, b, ⟨a1, a2⟩, ⟨b1, b2⟩, ⟨c1, c2⟩, d1, d2⟩
    refine ⟨?_, by rw [a1, c1], by rw [a2, c2], by rw [b1, d1], by rw [b2, d2]⟩
    have := (List.getElem?_eq_some_iff.1 a1).1
    omega
  · rintro ⟨h0, a1, a2, a3, a4⟩
    have g : ∀ (L : Arr) (i : Nat), L.length = n → i < n → ∃ x, L[i]? = some x := fun L i hL hi =>
      ⟨_, List.getElem?_eq_getElem (by omega)⟩
    obtain ⟨x0, hx0⟩ := g X 0 h1 h0
    obtain ⟨y0, hy0⟩ := g Y 0 h3 h0
    obtain ⟨x1, hx1⟩ := g X (n - 1) h1 (by omega)
    obtain ⟨y1, hy1⟩ := g Y (n - 1) h3 (by omega)
    exact ⟨(x0, y0), (x1, y1), ⟨hx0, hy0⟩, ⟨hx1, hy1⟩, ⟨a1 ▸ hx0, a2 ▸ hy0⟩, a3 ▸ hx1, a4 ▸ hy1⟩

/-- The last statements of `deform_camber_line`: thickness laid on either side of a line. -/
private theorem around {c Y Z : Arr} {i : Nat} (h : Y[i]? = Z[i]?) :
    (List.zipWith (· + ·) c (List.zipWith (fun a b => 0.5 * |a - b|) Y Z))[i]? =
      (List.zipWith (· - ·) c (List.zipWith (fun a b => 0.5 * |a - b|) Y Z))[i]? := by
  simp only [List.getElem?_zipWith]
  rcases hc : c[i]? with _ | x
  · simp
  rcases hy : Y[i]? with _ | y
  · simp
  rw [← h, hy]
  simp

private theorem deform_shut {P Q : Profile} {p : ℝ} (hP : P.Shut) (h : P.deformCamberLine p none = .ok Q) : Q.Shut := by
  obtain ⟨hU, a, b, hE⟩ := hP
  refine ⟨?_, ?_⟩
  · by_cases hx : P.xup = P.xdown
    · exact ((deform_points hU h).1 hx).1
    · exact ((deform_points hU h).2 hx).1
  obtain ⟨u1, u2, u3⟩ := hU
  -- the form of the result
  have key : ∃ (n : Nat) (X W Y Z c : Arr), X.length = n ∧ W.length = n ∧ Y.length = n ∧ Z.length = n ∧ c.length = n ∧
      (∃ a b : Pt, (List.zip X Y).head? = some a ∧ (List.zip X Y).getLast? = some b ∧ (List.zip W Z).head? = some a ∧
        (List.zip W Z).getLast? = some b) ∧ Q.xup = X ∧ Q.xdown = W ∧
      Q.yup = List.zipWith (· + ·) c (List.zipWith (fun a b => 0.5 * |a - b|) Y Z) ∧
      Q.ydown = List.zipWith (· - ·) c (List.zipWith (fun a b => 0.5 * |a - b|) Y Z) := by
    unfold deformCamberLine at h
    rw [bndA] at h
    obtain ⟨P1, h1, h⟩ := h
    rw [bndA] at h
    obtain ⟨m, hm, h⟩ := h
    by_cases hx : P.xup = P.xdown
    · rw [effectiveN_same hx none (by simp)] at hm
      obtain rfl := Except.ok.inj hm
      have hp1 : P1.xup = P.xup ∧ P1.xdown = P.xdown ∧ P1.yup = P.yup ∧ P1.ydown = P.ydown ∧
          (P1.camberLine.getD ([], [])).2.length = P.xup.length := by
        unfold computeCamberLine at h1
        rw [effectiveN_same hx none (by simp)] at h1
        simp only [bind, Except.bind] at h1
        rw [bzip_eq_len (by omega)] at h1
        simp only [npArray2] at h1
        rw [if_pos (by simp; omega)] at h1
        obtain rfl := Except.ok.inj (show Except.ok _ = Except.ok P1 from h1)
        refine ⟨rfl, rfl, rfl, rfl, ?_⟩
        simp; omega
      obtain ⟨e1, e2, e3, e4, e5⟩ := hp1
      simp only [bind, Except.bind, pure, Except.pure] at h
      rw [e3, e4, bzip_eq_len (by omega)] at h
      simp only at h
      rw [bzip_eq_len (by simp; omega)] at h
      simp only at h
      rw [bzip_eq_len (by simp; omega)] at h
      obtain rfl := Except.ok.inj (show Except.ok _ = Except.ok Q from h)
      exact ⟨P.xup.length, P.xup, P.xdown, P.yup, P.ydown, _, rfl, by omega, by omega, by omega, by simpa using e5, ⟨a, b, hE⟩, e1, e2,
        rfl, rfl⟩
    · rw [effectiveN_diff (by omega) hx] at hm
      obtain rfl := Except.ok.inj hm
      obtain ⟨K, hK⟩ : ∃ K : Nat, (K : Int) = 500 := ⟨500, rfl⟩
      have hKn : K = 500 := by exact_mod_cast hK
      rw [← hK] at h
      have hint : ∀ t, P.interpolateCoordinates (.int K) 1 = .ok t → t.xxUp.length = K ∧ t.xxDown.length = K ∧ t.yyUp.length = K ∧
          t.yyDown.length = K := by
        intro t ht
        rw [interpolate_int (by omega) one_pos, interpCore_ok_iff one_pos] at ht
        obtain ⟨_, _, _, _, _, _, _, _, _, _, _, rfl⟩ := ht
        simp [linspaceN_length]
      have hp1 : (P1.camberLine.getD ([], [])).2.length = K := by
        unfold computeCamberLine at h1
        rw [effectiveN_diff (by omega) hx, ← hK] at h1
        simp only [bind, Except.bind] at h1
        rcases ht : P.interpolateCoordinates (.int K) 1 with e | t
        · rw [ht] at h1; simp at h1
        · obtain ⟨l1, l2, l3, l4⟩ := hint t ht
          rw [ht] at h1
          simp only at h1
          rw [bzip_eq_len (by omega)] at h1
          simp only [npArray2] at h1
          rw [if_pos (by simp; omega)] at h1
          obtain rfl := Except.ok.inj (show Except.ok _ = Except.ok P1 from h1)
          simp; omega
      simp only [bind, Except.bind, pure, Except.pure] at h
      rcases ht : P.interpolateCoordinates (.int K) 1 with e | t
      · rw [ht] at h; simp at h
      · obtain ⟨l1, l2, l3, l4⟩ := hint t ht
        obtain ⟨-, -, -, -, -, -, k1, k2, k3, k4⟩ := C13_result P K (by omega) 1 one_pos t ht a b a b hE
        rw [ht] at h
        simp only at h
        rw [bzip_eq_len (by omega)] at h
        simp only at h
        rw [bzip_eq_len (by simp; omega)] at h
        simp only at h
        rw [bzip_eq_len (by simp; omega)] at h
        obtain rfl := Except.ok.inj (show Except.ok _ = Except.ok Q from h)
        exact ⟨K, t.xxUp, t.xxDown, t.yyUp, t.yyDown, _, l1, l2, l3, l4, by simpa using hp1, ⟨a, b, k1, k2, k3, k4⟩, rfl, rfl, rfl, rfl⟩
  obtain ⟨n, X, W, Y, Z, c, l1, l2, l3, l4, l5, hcl, q1, q2, q3, q4⟩ := key
  rw [shut_iff l1 l2 l3 l4] at hcl
  obtain ⟨h0, c1, c2, c3, c4⟩ := hcl
  unfold Ends upper lower
  rw [shut_iff (n := n) (by rw [q1, l1]) (by rw [q2, l2]) (by rw [q3]; simp; omega) (by rw [q4]; simp; omega)]
  rw [q1, q2, q3, q4]
  exact ⟨h0, c1, around c2, c3, around c4⟩

private theorem shut_map {P Q : Profile} (hP : P.Shut) (hU : Q.Uniform) (g : Pt → Pt) (hu : Q.upper = P.upper.map g)
    (hl : Q.lower = P.lower.map g) : Q.Shut := by
  obtain ⟨-, a, b, hE⟩ := hP
  exact ⟨hU, _, _, hE.map g hu hl⟩

end Profile

namespace Blade

private theorem zip_maps (X Y : Arr) (f g : ℝ → ℝ) : List.zip (X.map f) (Y.map g) = (List.zip X Y).map fun p => (f p.1, g p.2) := by
  rw [List.zip_map]; rfl

private theorem translate_shut {P : Profile} (h : P.Shut) (v : Pt) : (P.translate v).Shut :=
  Profile.shut_map h (translate_uniform h.1 v) (fun p => (p.1 + v.1, p.2 + v.2)) (by simp only [Profile.upper, Profile.translate, zip_maps])
    (by simp only [Profile.lower, Profile.translate, zip_maps])

private theorem mulAll_shut {P : Profile} (h : P.Shut) (f : ℝ) : (P.mulAll f).Shut :=
  Profile.shut_map h (mulAll_uniform h.1 f) (fun p => (p.1 * f, p.2 * f)) (by simp only [Profile.upper, Profile.mulAll, zip_maps])
    (by simp only [Profile.lower, Profile.mulAll, zip_maps])

/-- Every statement of the loop keeps the edges of the section closed. -/
private theorem step_shut {b : Blade} {refl : Bool} {i : Nat} {f : Profile → Res Profile} (hmem : f ∈ sectionSteps b refl i)
    {P Q : Profile} (hP : P.Shut) (h : f P = .ok Q) : Q.Shut := by
  simp only [sectionSteps, List.mem_cons, List.not_mem_nil, or_false] at hmem
  rcases hmem with rfl | rfl | rfl | rfl | rfl | rfl | rfl | rfl
  · simp only [Profile.bndA] at h
    obtain ⟨ref, -, h⟩ := h
    obtain rfl := Except.ok.inj (show Except.ok _ = Except.ok Q from h)
    exact translate_shut hP _
  · simp only [Profile.bndA] at h
    obtain ⟨c, -, h⟩ := h
    unfold Profile.scale at h
    simp only [if_true, Profile.bndA] at h
    obtain ⟨ref, -, h⟩ := h
    obtain rfl := Except.ok.inj (show Except.ok _ = Except.ok Q from h)
    exact translate_shut (mulAll_shut (translate_shut hP _) _) _
  · simp only at h
    rcases ht : b.thickness with _ | t
    · rw [ht] at h
      obtain rfl := Except.ok.inj (show Except.ok P = Except.ok Q from h)
      exact hP
    · rw [ht] at h
      simp only [Profile.bndA] at h
      obtain ⟨x, -, h⟩ := h
      unfold Profile.setThicknessMax at h
      rw [Profile.bndA] at h
      obtain ⟨old, -, h⟩ := h
      obtain rfl := Except.ok.inj (show Except.ok _ = Except.ok Q from h)
      refine Profile.shut_map hP (by simpa [Profile.Uniform] using hP.1) (fun p => (p.1, p.2 * (if old ≠ 0 then x / old else 0))) ?_ ?_
      · simp only [Profile.upper]
        conv_lhs => rw [show P.xup = P.xup.map id by simp]
        rw [zip_maps]; rfl
      · simp only [Profile.lower]
        conv_lhs => rw [show P.xdown = P.xdown.map id by simp]
        rw [zip_maps]; rfl
  · simp only at h
    rcases hc : b.camber with _ | t
    · rw [hc] at h
      obtain rfl := Except.ok.inj (show Except.ok P = Except.ok Q from h)
      exact hP
    · rw [hc] at h
      simp only at h
      split at h
      · simp only [Profile.bndA] at h
        obtain ⟨x, -, h⟩ := h
        unfold Profile.setCamberLineMax at h
        rw [Profile.bndA] at h
        obtain ⟨⟨v, R⟩, hR, h⟩ := h
        obtain ⟨e1, e2, e3, e4⟩ := Profile.maxCamber_points hR
        by_cases h0 : v = 0
        · rw [if_pos h0] at h; cases h
        rw [if_neg h0] at h
        exact Profile.deform_shut (P := R) (by
          simpa [Profile.Shut, Profile.Uniform, Profile.Ends, Profile.upper, Profile.lower, e1, e2, e3, e4] using hP) h
      · obtain rfl := Except.ok.inj (show Except.ok P = Except.ok Q from h)
        exact hP
  · obtain rfl := Except.ok.inj (show Except.ok _ = Except.ok Q from h)
    split
    · exact Profile.shut_map hP (reflect_uniform hP.1) (fun p => (p.1 * (-1), p.2 * (-1))) (by simp only [Profile.upper, Profile.reflect, zip_maps])
        (by simp only [Profile.lower, Profile.reflect, zip_maps])
    · exact hP
  · simp only [Profile.bndA] at h
    obtain ⟨p, -, r, -, a, -, h⟩ := h
    obtain ⟨Q', hQ', hu, hl, hU, -, -⟩ := Profile.rotate_uniform P hP.1 (Real.pi / 2 - a)
    rw [h] at hQ'
    obtain rfl := Except.ok.inj hQ'
    exact Profile.shut_map hP hU _ hu hl
  · simp only [Profile.bndA] at h
    obtain ⟨r, -, s, -, h⟩ := h
    obtain rfl := Except.ok.inj (show Except.ok _ = Except.ok Q from h)
    exact translate_shut hP _
  · simp only [Profile.bndA] at h
    obtain ⟨p, -, r, -, s, -, ir, -, k, -, h⟩ := h
    obtain rfl := Except.ok.inj (show Except.ok _ = Except.ok Q from h)
    exact translate_shut hP _

private theorem runSteps_shut : ∀ {fs : List (Profile → Res Profile)} {P : Profile},
    (∀ f ∈ fs, ∀ P Q, Profile.Shut P → f P = .ok Q → Q.Shut) → P.Shut → (runSteps fs P).1.Shut := by
  intro fs
  induction fs with
  | nil => intro P _ hP; exact hP
  | cons f fs ih =>
    intro P hfs hP
    simp only [runSteps]
    rcases hf : f P with e | Q
    · exact hP
    · exact ih (fun g hg => hfs g (by simp [hg])) (hfs f (by simp) P Q hP hf)

private theorem loop_shut {b : Blade} {refl : Bool} : ∀ (Ps : List Profile) (i : Nat), (∀ P ∈ Ps, P.Shut) →
    ∀ P ∈ (sectionLoop b refl i Ps).1, P.Shut := by
  intro Ps
  induction Ps with
  | nil => intro i _; simp [sectionLoop]
  | cons P Ps ih =>
    intro i h
    have hP := runSteps_shut (fs := sectionSteps b refl i) (P := P) (fun f hm P Q => step_shut hm) (h P (by simp))
    have h2 := ih (i + 1) (fun Q hQ => h Q (by simp [hQ]))
    simp only [sectionLoop]
    rcases hr : runSteps (sectionSteps b refl i) P with ⟨Q, (e | u)⟩
    · rw [hr] at hP
      simp only [List.mem_cons]
      rintro R (rfl | hR)
      · exact hP
      · exact h R (by simp [hR])
    · rw [hr] at hP
      simp only [List.mem_cons]
      rintro R (rfl | hR)
      · exact hP
      · exact h2 R hR

/-- The sections stay closed whatever happens; the coordinates of a successful call are closed. -/
private theorem apply_shut {b : Blade} {refl : Bool} (hW : b.WellFormed) (hS : ∀ P ∈ b.sections, P.Shut) :
    (∀ P ∈ (applyTransformations refl b).1.sections, P.Shut) ∧
    ((applyTransformations refl b).2 = .ok () → Shut (applyTransformations refl b).1.coordsUp (applyTransformations refl b).1.coordsDown) := by
  have hl := loop_shut (b := b) (refl := refl) b.sections 0 hS
  constructor
  · unfold applyTransformations
    rcases hs : sectionLoop b refl 0 b.sections with ⟨ss, (e | u)⟩
    · rw [hs] at hl; exact hl
    · rw [hs] at hl
      simp only
      split <;> exact hl
  · intro hok
    rcases h : applyTransformations refl b with ⟨b', r⟩
    rw [h] at hok
    simp only at hok
    subst hok
    obtain ⟨ss, up, down, h1, h2, rfl⟩ := (apply_ok hW.1).1 h
    rw [h1] at hl
    simp only at hl ⊢
    obtain ⟨hlen, -⟩ := (sectionLoop_ok _ _ _).1 h1
    obtain ⟨-, -, -, rfl, rfl⟩ := (cylindrical_ok (by rw [hW.1, hlen])).1 h2
    refine ⟨by simp, ?_⟩
    intro i u l hu hd
    have hi : i < b.radii.length := by
      have := (List.getElem?_eq_some_iff.1 hu).1
      simp at this; omega
    have hle : ss.length = b.radii.length := by rw [hlen, hW.1]
    rw [List.getElem?_reverse (by simp; omega)] at hu hd
    simp only [List.getElem?_zipWith, List.length_zipWith] at hu hd
    set j := min ss.length b.radii.length - 1 - i with hj
    rcases hP : ss[j]? with _ | P
    · rw [hP] at hu; simp at hu
    rcases hr : b.radii[j]? with _ | r
    · rw [hP, hr] at hu; simp at hu
    rw [hP, hr] at hu hd
    simp only [Option.some.injEq] at hu hd
    subst hu; subst hd
    obtain ⟨⟨u1, u2, u3⟩, a, c, e1, e2, e3, e4⟩ := hl P (List.mem_of_getElem? hP)
    refine ⟨?_, ?_, ?_, ?_⟩
    · intro h0
      rw [List.map_eq_nil_iff] at h0
      rw [h0] at e1; simp at e1
    · simp only [List.length_map, Profile.upper, Profile.lower, List.length_zip]; omega
    · rw [List.head?_map, List.head?_map, e1, e3]
    · rw [List.getLast?_map, List.getLast?_map, e2, e4]

private theorem shut_mapPts {U L : Face} (h : Shut U L) (f : Pt3 → Pt3) : Shut (mapPts f U) (mapPts f L) := by
  obtain ⟨h1, h2⟩ := h
  refine ⟨by simp [mapPts, h1], ?_⟩
  intro i u l hu hl
  simp only [mapPts, List.getElem?_map, Option.map_eq_some_iff] at hu hl
  obtain ⟨u', hu', rfl⟩ := hu
  obtain ⟨l', hl', rfl⟩ := hl
  obtain ⟨k1, k2, k3, k4⟩ := h2 i u' l' hu' hl'
  exact ⟨by simpa using k1, by simpa using k2, by rw [List.head?_map, List.head?_map, k3], by rw [List.getLast?_map, List.getLast?_map, k4]⟩

/-- Sections and coordinates closed. -/
private def Tight (b : Blade) : Prop :=
  (∀ P ∈ b.sections, P.Shut) ∧ ((b.coordsUp = [] ∧ b.coordsDown = []) ∨ Shut b.coordsUp b.coordsDown)

private theorem tight_move {b : Blade} (h : b.Tight) (f : Pt3 → Pt3) :
    Tight { b with coordsUp := mapPts f b.coordsUp, coordsDown := mapPts f b.coordsDown } := by
  refine ⟨h.1, ?_⟩
  rcases h.2 with ⟨h1, h2⟩ | h2
  · exact Or.inl ⟨by simp [mapPts, h1], by simp [mapPts, h2]⟩
  · exact Or.inr (shut_mapPts h2 f)

private theorem onFaces_keeps (f : Pt3 → Pt3) (b : Blade) : (onFaces f b).1.sections = b.sections ∧ (onFaces f b).1.coordsUp = b.coordsUp ∧
    (onFaces f b).1.coordsDown = b.coordsDown := by
  obtain ⟨S, r, c, p, k, s', t', f', cu, cd, u, l, ti, ro⟩ := b
  rcases u with _ | u <;> rcases l with _ | l <;> rcases ti with _ | ti <;> rcases ro with _ | ro <;> exact ⟨rfl, rfl, rfl⟩

private theorem tight_onFaces {b : Blade} (h : b.Tight) (f : Pt3 → Pt3) : (onFaces f b).1.Tight := by
  obtain ⟨e1, e2, e3⟩ := onFaces_keeps f b
  unfold Tight
  rw [e1, e2, e3]
  exact h

private theorem tight_apply {n m : Nat} {s : Arr} {t : Option Arr} {b : Blade} (hs : Sound n m s t b) (h : b.Tight) (refl : Bool) :
    (applyTransformations refl b).1.Tight := by
  obtain ⟨k1, k2⟩ := apply_shut (refl := refl) hs.wf h.1
  refine ⟨k1, ?_⟩
  rcases (apply_sound hs refl).2 with ⟨ss, e, he⟩ | ⟨ss, up, down, he, -⟩
  · rw [he]; exact h.2
  · exact Or.inr (k2 (by rw [he]))

private theorem sections_shut {b : Blade} (h : ∀ P ∈ b.sections, P.Shut) {ss : List Profile}
    (hss : ss = b.sections ∨ ss.length = b.sections.length ∧ ∀ (i : Nat) (P : Profile), ss[i]? = some P →
        ∃ Q, b.sections[i]? = some Q ∧ P.xup = Q.xup ∧ P.xdown = Q.xdown ∧ P.yup = Q.yup ∧ P.ydown = Q.ydown) : ∀ P ∈ ss, P.Shut := by
  rcases hss with rfl | ⟨hl, hp⟩
  · exact h
  · intro P hP
    obtain ⟨i, hi, rfl⟩ := List.mem_iff_getElem.1 hP
    obtain ⟨Q, hQ, e1, e2, e3, e4⟩ := hp i _ (List.getElem?_eq_getElem hi)
    have := h Q (List.mem_of_getElem? hQ)
    simpa [Profile.Shut, Profile.Uniform, Profile.Ends, Profile.upper, Profile.lower, e1, e2, e3, e4] using this

private theorem run_tight {n m : Nat} {s : Arr} {t : Option Arr} {b : Blade} (hs : Sound n m s t b) (h : b.Tight) (a : Action) :
    (a.run b).1.Tight := by
  cases a with
  | apply refl => exact tight_apply hs h refl
  | build occ refl =>
    have h' := tight_apply hs h refl
    simp only [Action.run]
    rcases build_cases occ refl b with ⟨b₁, e, h1, h2⟩ | ⟨b₁, h1, u, l, ti, ro, h2, -⟩
    · rw [h2]; rw [h1] at h'; exact h'
    · rw [h2]; rw [h1] at h'; exact h'
  | rotate deg rad axis =>
    simp only [Action.run, rotate]
    split
    · exact h
    · split
      · exact h
      · split
        · exact h
        · exact tight_onFaces (tight_move h _) _
  | mirror args kwargs =>
    simp only [Action.run, mirror]
    split
    · exact h
    · split
      · exact h
      · exact tight_onFaces h _
  | scale f =>
    simp only [Action.run, scale]
    split
    · exact tight_move h _
    · exact tight_onFaces (tight_move h _) _
  | exportPpg F w fs path D Dhub nB norm =>
    simp only [Action.run]
    obtain ⟨ss, hss, h1 | ⟨-, -, hD, h1⟩⟩ := export_states F w fs path D Dhub nB norm hs.wf
    · rw [h1]; exact ⟨sections_shut h.1 hss, h.2⟩
    · rw [h1]; exact ⟨sections_shut h.1 hss, h.2⟩
  | reset => exact ⟨h.1, Or.inl ⟨rfl, rfl⟩⟩

private theorem faces_onFaces {b : Blade} (h : b.NoFaces ∨ b.FacesShut) (f : Pt3 → Pt3) : (onFaces f b).1.NoFaces ∨ (onFaces f b).1.FacesShut := by
  rcases h with ⟨h1, h2, h3, h4⟩ | ⟨U, L, u, l, u', l', h1, h2, h3, h4, h5, h6, h7, h8, h9⟩
  · left
    unfold onFaces
    simp only [h1]
    exact ⟨h1, h2, h3, h4⟩
  · right
    unfold onFaces
    simp only [h1, h2, h6, h9]
    exact ⟨mapPts f U, mapPts f L, u.map f, l.map f, u'.map f, l'.map f, rfl, rfl, shut_mapPts h3 f,
      by simp [mapPts, List.getLast?_map, h4], by simp [mapPts, List.getLast?_map, h5], rfl, by simp [mapPts, List.head?_map, h7],
      by simp [mapPts, List.head?_map, h8], rfl⟩

private theorem faces_move {b : Blade} (h : b.NoFaces ∨ b.FacesShut) (U D : Face) :
    Blade.NoFaces { b with coordsUp := U, coordsDown := D } ∨ Blade.FacesShut { b with coordsUp := U, coordsDown := D } := h

private theorem run_faces {n m : Nat} {s : Arr} {t : Option Arr} {b : Blade} (hs : Sound n m s t b) (ht : b.Tight)
    (h : b.NoFaces ∨ b.FacesShut) (a : Action) (ha : a.KernelWorks) : (a.run b).1.NoFaces ∨ (a.run b).1.FacesShut := by
  cases a with
  | apply refl =>
    simp only [Action.run]
    rcases (apply_sound hs refl).2 with ⟨ss, e, he⟩ | ⟨ss, up, down, he, -⟩
    · rw [he]; exact h
    · rw [he]; exact h
  | build occ refl =>
    have hocc : ∀ F, occ F = true := ha
    simp only [Action.run]
    have hap := (apply_shut (refl := refl) hs.wf ht.1).2
    rcases (apply_sound hs refl).2 with ⟨ss, e, he⟩ | ⟨ss, up, down, he, h0, l1, l2, l3, l4⟩
    · have : build occ refl b = ({ b with sections := ss }, .error e) := by simp [build, he]
      rw [this]
      exact h
    · right
      have hsh : Shut up down := by rw [he] at hap; exact hap rfl
      have hd0 : down ≠ [] := by
        rintro rfl
        have := hs.pos
        simp at l2
        omega
      obtain ⟨u0, hu0⟩ : ∃ x, up.getLast? = some x := ⟨_, List.getLast?_eq_some_getLast h0⟩
      obtain ⟨d0, hd0'⟩ : ∃ x, down.getLast? = some x := ⟨_, List.getLast?_eq_some_getLast hd0⟩
      obtain ⟨u1, hu1⟩ : ∃ x, up.head? = some x := ⟨_, List.head?_eq_some_head h0⟩
      obtain ⟨d1, hd1⟩ : ∃ x, down.head? = some x := ⟨_, List.head?_eq_some_head hd0⟩
      have := build_ok (occ := occ) (b := b) (refl := refl) (b' := { b with sections := ss, coordsUp := up, coordsDown := down, upper := some (mapPts (scalePt conversion) up), lower := some (mapPts (scalePt conversion) down), tip := some [u0.map (scalePt conversion), d0.map (scalePt conversion)], root := some [u1.map (scalePt conversion), d1.map (scalePt conversion)] })
      rw [this.2 ⟨{ b with sections := ss, coordsUp := up, coordsDown := down }, u0.map (scalePt conversion), d0.map (scalePt conversion),
        u1.map (scalePt conversion), d1.map (scalePt conversion), he, by simp [mapPts, List.getLast?_map, hu0],
        by simp [mapPts, List.getLast?_map, hd0'], by simp [mapPts, List.head?_map, hu1], by simp [mapPts, List.head?_map, hd1],
        by simp [l3 _ (List.mem_of_getLast? hu0), l4 _ (List.mem_of_getLast? hd0')],
        by simp [l3 _ (List.mem_of_head? hu1), l4 _ (List.mem_of_head? hd1)], hocc _, hocc _, hocc _, hocc _, rfl⟩]
      exact ⟨_, _, _, _, _, _, rfl, rfl, shut_mapPts hsh _, by simp [mapPts, List.getLast?_map, hu0], by simp [mapPts, List.getLast?_map, hd0'],
        rfl, by simp [mapPts, List.head?_map, hu1], by simp [mapPts, List.head?_map, hd1], rfl⟩
  | rotate deg rad axis =>
    simp only [Action.run, rotate]
    split
    · exact h
    · split
      · exact h
      · split
        · exact h
        · exact faces_onFaces (faces_move h _ _) _
  | mirror args kwargs =>
    simp only [Action.run, mirror]
    split
    · exact h
    · split
      · exact h
      · exact faces_onFaces h _
  | scale f =>
    simp only [Action.run, scale]
    split
    · exact faces_move h _ _
    · exact faces_onFaces (faces_move h _ _) _
  | exportPpg F w fs path D Dhub nB norm =>
    simp only [Action.run]
    obtain ⟨ss, hss, h1 | ⟨-, -, hD, h1⟩⟩ := export_states F w fs path D Dhub nB norm hs.wf
    · rw [h1]; exact h
    · rw [h1]; exact h
  | reset => exact Or.inl ⟨rfl, rfl, rfl, rfl⟩

private theorem life_tight {n m : Nat} {s : Arr} {t : Option Arr} : ∀ (as : List Action) (b : Blade), Sound n m s t b → b.Tight →
    (b.life as).Tight := by
  intro as
  induction as with
  | nil => intro b _ h; exact h
  | cons a as ih => intro b hs h; exact ih (a.run b).1 (run_sound hs a) (run_tight hs h a)

private theorem life_faces {n m : Nat} {s : Arr} {t : Option Arr} : ∀ (as : List Action) (b : Blade), Sound n m s t b → b.Tight →
    (∀ a ∈ as, a.KernelWorks) → (b.NoFaces ∨ b.FacesShut) → ((b.life as).NoFaces ∨ (b.life as).FacesShut) := by
  intro as
  induction as with
  | nil => intro b _ _ _ h; exact h
  | cons a as ih =>
    intro b hs ht ha h
    exact ih (a.run b).1 (run_sound hs a) (run_tight hs ht a) (fun x hx => ha x (by simp [hx])) (run_faces hs ht h a (ha a (by simp)))

private theorem new_blank {S : List Profile} {r c p k s : Arr} {t f : Option Arr} {b₀ : Blade} (h : Blade.new S r c p k s t f = .ok b₀) :
    b₀.sections = S ∧ b₀.coordsUp = [] ∧ b₀.coordsDown = [] ∧ b₀.NoFaces := by
  simp only [Blade.new] at h
  split at h
  · obtain rfl := Except.ok.inj h
    exact ⟨rfl, rfl, rfl, rfl, rfl, rfl, rfl⟩
  · cases h

end Blade

/-- **C104** `apply_transformations` on a blade of closed sections, whatever the distributions (with or without thickness and camber
distributions, and although the latter resamples sections): the sections are closed afterwards, even when an exception is raised; if none
is raised, the coordinates of the blade are closed: in every section the upper and the lower surface have both ends in common. -/
theorem C104_transformed (b : Blade) (refl : Bool) (hW : b.WellFormed) (hS : ∀ P ∈ b.sections, P.Uniform ∧ P.ClosedEdges) :
    (∀ P ∈ (b.applyTransformations refl).1.sections, P.Uniform ∧ P.ClosedEdges) ∧
    ∀ b', b.applyTransformations refl = (b', .ok ()) → Shut b'.coordsUp b'.coordsDown := by
  have hS' : ∀ P ∈ b.sections, P.Shut := fun P hP => ⟨(hS P hP).1, Profile.closed_iff.1 (hS P hP).2⟩
  obtain ⟨h1, h2⟩ := Blade.apply_shut (refl := refl) hW hS'
  refine ⟨fun P hP => ⟨(h1 P hP).1, Profile.closed_iff.2 (h1 P hP).2⟩, ?_⟩
  intro b' h
  rw [h] at h2
  exact h2 rfl

/-- **C104** after every history of calls on a blade of closed sections with equally many points, non-zero radii and no camber
distribution - whatever the arguments, whichever calls raised: the sections are closed, and there are no coordinates or the coordinates
are closed. -/
theorem C104_coordinates (S : List Profile) (r c p k s : Arr) (t : Option Arr) (b₀ : Blade) (h : Blade.new S r c p k s t none = .ok b₀)
    (hne : S ≠ []) (hr : ∀ x ∈ r, x ≠ 0) (m : Nat) (hS : ∀ P ∈ S, P.Uniform ∧ P.upper.length = m ∧ P.ClosedEdges) (as : List Blade.Action) :
    (∀ P ∈ (b₀.life as).sections, P.Uniform ∧ P.ClosedEdges) ∧
    (((b₀.life as).coordsUp = [] ∧ (b₀.life as).coordsDown = []) ∨ Shut (b₀.life as).coordsUp (b₀.life as).coordsDown) := by
  have h0 := (Blade.new_sound S r c p k s t b₀ h hne hr m (fun P hP => ⟨(hS P hP).1, (hS P hP).2.1⟩)).1
  obtain ⟨e1, e2, e3, -⟩ := Blade.new_blank h
  have ht : b₀.Tight := ⟨by rw [e1]; exact fun P hP => ⟨(hS P hP).1, Profile.closed_iff.1 (hS P hP).2.2⟩, Or.inl ⟨e2, e3⟩⟩
  obtain ⟨k1, k2⟩ := Blade.life_tight as b₀ h0 ht
  exact ⟨fun P hP => ⟨(k1 P hP).1, Profile.closed_iff.2 (k1 P hP).2⟩, k2⟩

/-- **C104** and, provided the CAD kernel builds the faces asked of it, after every such history there is no face at all or the four faces
bound a body without gaps - whatever rotations (about any axis), mirrorings, scalings, repeated builds and exports came between. -/
theorem C104_faces (S : List Profile) (r c p k s : Arr) (t : Option Arr) (b₀ : Blade) (h : Blade.new S r c p k s t none = .ok b₀)
    (hne : S ≠ []) (hr : ∀ x ∈ r, x ≠ 0) (m : Nat) (hS : ∀ P ∈ S, P.Uniform ∧ P.upper.length = m ∧ P.ClosedEdges) (as : List Blade.Action)
    (has : ∀ a ∈ as, a.KernelWorks) : (b₀.life as).NoFaces ∨ (b₀.life as).FacesShut := by
  have h0 := (Blade.new_sound S r c p k s t b₀ h hne hr m (fun P hP => ⟨(hS P hP).1, (hS P hP).2.1⟩)).1
  obtain ⟨e1, e2, e3, e4⟩ := Blade.new_blank h
  have ht : b₀.Tight := ⟨by rw [e1]; exact fun P hP => ⟨(hS P hP).1, Profile.closed_iff.1 (hS P hP).2.2⟩, Or.inl ⟨e2, e3⟩⟩
  exact Blade.life_faces as b₀ h0 ht has (Or.inl e4)

namespace Blade

private theorem dist2_zero {p q : Pt} : dist2 p q = 0 ↔ p = q := by
  unfold dist2
  rw [Real.sqrt_eq_zero (by positivity)]
  constructor
  · intro h
    have h1 : (p.1 - q.1) ^ 2 = 0 := by nlinarith [sq_nonneg (p.1 - q.1), sq_nonneg (p.2 - q.2)]
    have h2 : (p.2 - q.2) ^ 2 = 0 := by nlinarith [sq_nonneg (p.1 - q.1), sq_nonneg (p.2 - q.2)]
    exact Prod.ext (by linarith [pow_eq_zero_iff two_ne_zero |>.1 h1]) (by linarith [pow_eq_zero_iff two_ne_zero |>.1 h2])
  · rintro rfl; simp

/-- Two points of a section laid on the cylinder. -/
private theorem gap_point (refl : Bool) (r c p k s : ℝ) (ref : Pt) (hr : 0 < r) (hc : c ≠ 0) (x y : Pt) (hs : |c| * dist2 x y < 2 * Real.pi * r) :
    distSq3 (wrap r (placed refl r c p k s ref x)) (wrap r (placed refl r c p k s ref y)) ≤ (c * dist2 x y) ^ 2 ∧
    (wrap r (placed refl r c p k s ref x) = wrap r (placed refl r c p k s ref y) ↔ x = y) := by
  have hd := (C46_placed_geometry refl r c p k s ref x y hr.ne' 0).2.1
  set X := placed refl r c p k s ref x
  set Y := placed refl r c p k s ref y
  have hsq : dist2 X Y ^ 2 = (X.1 - Y.1) ^ 2 + (X.2 - Y.2) ^ 2 := by unfold dist2; rw [Real.sq_sqrt (by positivity)]
  have hsq' : (c * dist2 x y) ^ 2 = dist2 X Y ^ 2 := by rw [hd, mul_pow, mul_pow, sq_abs]
  refine ⟨?_, ?_, ?_⟩
  · rw [hsq', hsq]; exact (C47_distances r hr X Y).2.1
  · intro h
    obtain ⟨h1, z, hz⟩ := (wrap_eq_iff hr.ne' X Y).1 h
    have hpr : 0 < 2 * Real.pi * r := by have := Real.pi_pos; positivity
    have hle : |X.2 - Y.2| ≤ dist2 X Y := by
      unfold dist2
      rw [← Real.sqrt_sq_eq_abs]
      exact Real.sqrt_le_sqrt (by nlinarith [sq_nonneg (X.1 - Y.1)])
    have hz0 : z = 0 := by
      rw [hz, abs_mul, abs_of_pos hpr, hd] at hle
      have hlt : |(z : ℝ)| < 1 := by
        by_contra hcon
        push Not at hcon
        have : 2 * Real.pi * r * 1 ≤ 2 * Real.pi * r * |(z : ℝ)| := mul_le_mul_of_nonneg_left hcon hpr.le
        linarith
      have : |z| < 1 := by exact_mod_cast hlt
      exact Int.abs_lt_one_iff.1 this
    have h2 : X.2 - Y.2 = 0 := by rw [hz, hz0]; simp
    have hXY : dist2 X Y = 0 := dist2_zero.2 (Prod.ext h1 (by linarith))
    rw [hd] at hXY
    rcases mul_eq_zero.1 hXY with h | h
    · exact absurd (abs_eq_zero.1 h) hc
    · exact dist2_zero.1 h
  · rintro rfl; rfl

end Blade

/-- **C104** an open edge stays open, and how far: when neither thickness nor camber is prescribed, the radius is positive, the chord length
not zero and the gaps of the section times the chord length are less than the circumference, the gap between the two surfaces at either
end of the stored section is at most the gap of the given section times the chord length, and there is none exactly if the given section
has none there. -/
theorem C104_gap (b b' : Blade) (refl : Bool) (hW : b.WellFormed) (ht : b.thickness = none) (hf : b.camber = none)
    (hU : ∀ P ∈ b.sections, P.Uniform) (h : b.applyTransformations refl = (b', .ok ())) (i : Nat) (P : Profile) (r c : ℝ)
    (hP : b.sections[i]? = some P) (hr : b.radii[i]? = some r) (hc : b.chord[i]? = some c) (hr0 : 0 < r) (hc0 : c ≠ 0)
    (u₀ u₁ l₀ l₁ : Pt) (hE : P.Ends u₀ u₁ l₀ l₁) (h0 : |c| * dist2 u₀ l₀ < 2 * Real.pi * r) (h1 : |c| * dist2 u₁ l₁ < 2 * Real.pi * r) :
    ∃ (u l : List Pt3) (x₀ x₁ y₀ y₁ : Pt3), b'.coordsUp[b.sections.length - 1 - i]? = some u ∧
      b'.coordsDown[b.sections.length - 1 - i]? = some l ∧
      u.head? = some x₀ ∧ u.getLast? = some x₁ ∧ l.head? = some y₀ ∧ l.getLast? = some y₁ ∧
      distSq3 x₀ y₀ ≤ (c * dist2 u₀ l₀) ^ 2 ∧ (x₀ = y₀ ↔ u₀ = l₀) ∧ distSq3 x₁ y₁ ≤ (c * dist2 u₁ l₁) ^ 2 ∧ (x₁ = y₁ ↔ u₁ = l₁) := by
  obtain ⟨hl, -, hp⟩ := C46_placed b b' refl hW ht hf hU h
  have hi : i < b.sections.length := (List.getElem?_eq_some_iff.1 hP).1
  obtain ⟨P', r', c', p, k, s, g1, g2, g3, g4, g5, g6⟩ := Blade.look hW i hi
  rw [hP] at g1; rw [hr] at g2; rw [hc] at g3
  obtain rfl := Option.some.inj g1
  obtain rfl := Option.some.inj g2
  obtain rfl := Option.some.inj g3
  obtain ⟨ref, Q, -, -, hQ, q1, q2, -⟩ := hp i P r c p k s hP hr hc g4 g5 g6
  obtain ⟨k1, k2, -⟩ := (C48_reversed b b' refl hW h).2.2 i Q r hQ hr
  obtain ⟨e1, e2, e3, e4⟩ := hE
  obtain ⟨a1, a2⟩ := Blade.gap_point refl r c p k s ref hr0 hc0 u₀ l₀ h0
  obtain ⟨a3, a4⟩ := Blade.gap_point refl r c p k s ref hr0 hc0 u₁ l₁ h1
  exact ⟨_, _, _, _, _, _, k1, k2, by rw [q1, List.head?_map, List.head?_map, e1]; rfl, by rw [q1, List.getLast?_map, List.getLast?_map, e2]; rfl,
    by rw [q2, List.head?_map, List.head?_map, e3]; rfl, by rw [q2, List.getLast?_map, List.getLast?_map, e4]; rfl, a1, a2, a3, a4⟩

/-- **C104** blades of 4-digit NACA sections: for all digits and either spacing (they may differ from section to section), at least one
section, `n ≥ 2` points on every surface, and one value per section of each distribution, no radius zero: construction and `build`
succeed - provided the CAD kernel builds the faces - and the faces are closed. -/
theorem C104_naca (american : Profile → Res Arr) (look : Naca.LookUp) (n : Nat) (hn : 2 ≤ n) (S : List Profile) (hne : S ≠ [])
    (hS : ∀ P ∈ S, ∃ (d0 d1 d2 d3 : Char) (cosine : Bool), d0.isDigit = true ∧ d1.isDigit = true ∧ d2.isDigit = true ∧ d3.isDigit = true ∧
      Naca.ctor american look (.str [d0, d1, d2, d3]) (.int n) cosine = .ok P)
    (r c p k s : Arr) (lr : r.length = S.length) (lc : c.length = S.length) (lp : p.length = S.length) (lk : k.length = S.length)
    (ls : s.length = S.length) (hr : ∀ x ∈ r, x ≠ 0) (occ : Face → Bool) (hocc : ∀ F, occ F = true) (refl : Bool) :
    ∃ b₀ b, Blade.new S r c p k s none none = .ok b₀ ∧ b₀.build occ refl = (b, .ok ()) ∧ b.FacesShut ∧
      b.coordsUp.length = S.length ∧ ∀ l ∈ b.coordsUp, l.length = n := by
  have key : ∀ P ∈ S, P.Uniform ∧ P.upper.length = n ∧ P.ClosedEdges ∧ ∃ ref, P.referencePoint = .ok ref := by
    intro P hP
    obtain ⟨d0, d1, d2, d3, cosine, h0, h1, h2, h3, h⟩ := hS P hP
    obtain ⟨Q, hQ, q1, q2, q3, ⟨e, q4⟩, -⟩ := C21_four_digits american look d0 d1 d2 d3 h0 h1 h2 h3 n hn cosine
    rw [h] at hQ
    obtain rfl := Except.ok.inj hQ
    refine ⟨q1, (Blade.pts_iff.2 ⟨q1, q2⟩).2, Profile.closed_iff.2 ⟨_, _, q3⟩, ?_⟩
    exact ⟨_, C06_reference_is_midpoint P q4⟩
  have hnew : ∃ b₀, Blade.new S r c p k s none none = .ok b₀ := by simp [Blade.new, lr, lc, lp, lk, ls]
  obtain ⟨b₀, hb⟩ := hnew
  obtain ⟨hsound, -⟩ := Blade.new_sound S r c p k s none b₀ hb hne hr n (fun P hP => ⟨(key P hP).1, (key P hP).2.1⟩)
  have hsec := (Blade.new_blank hb).1
  have hap : ∃ b', b₀.applyTransformations refl = (b', .ok ()) := by
    rw [C46_defined b₀ refl hsound.wf hsound.thick hsound.camb (by rw [hsec]; exact fun P hP => (key P hP).1), hsec]
    exact ⟨hne, hsound.radii, fun P hP => (key P hP).2.2.2, fun P hP Q hQ => by rw [(key P hP).2.1, (key Q hQ).2.1]⟩
  obtain ⟨b₁, hb₁⟩ := hap
  obtain ⟨b, hb2, -⟩ := C48_build_defined occ hocc b₀ b₁ refl hsound.wf hb₁ (by
    have := (Blade.apply_sound hsound refl).1.pts
    rw [hb₁] at this
    intro Q hQ
    obtain ⟨⟨u1, u2, u3⟩, -⟩ := this Q hQ
    simp only [Profile.upper, Profile.lower, List.length_zip]
    omega)
  refine ⟨b₀, b, hb, hb2, ?_, ?_⟩
  · have := C104_faces S r c p k s none b₀ hb hne hr n (fun P hP => ⟨(key P hP).1, (key P hP).2.1, (key P hP).2.2.1⟩) [.build occ refl]
      (by simpa [Blade.Action.KernelWorks] using hocc)
    have e : b₀.life [.build occ refl] = b := by simp [Blade.life, Blade.Action.run, hb2]
    rw [e] at this
    rcases this with ⟨h1, -⟩ | h
    · exact absurd h1 (Blade.build_has hb2).2.1
    · exact h
  · have := (C98_always S r c p k s none b₀ hb hne hr n (fun P hP => ⟨(key P hP).1, (key P hP).2.1⟩) [.build occ refl]).2.2.2.1
    have e : b₀.life [.build occ refl] = b := by simp [Blade.life, Blade.Action.run, hb2]
    rw [e] at this
    rcases this with ⟨h1, -⟩ | ⟨h1, -, h2, -⟩
    · exact absurd h1 (Blade.build_has hb2).1
    · exact ⟨h1, h2⟩

/-! ### The hypotheses can be met -/

/-- With thickness and camber distributions. -/
example : Sample.bladeTF.WellFormed ∧ (∀ P ∈ Sample.bladeTF.sections, P.Uniform ∧ P.ClosedEdges) ∧ Sample.bladeTF.thickness ≠ none ∧
    Sample.bladeTF.camber ≠ none ∧ ∃ b', Sample.bladeTF.applyTransformations true = (b', .ok ()) :=
  ⟨by simp [Sample.bladeTF, Blade.WellFormed],
    by simp [Sample.bladeTF, Sample.onStation, Profile.Uniform, Profile.ClosedEdges, Profile.upper, Profile.lower],
    by simp [Sample.bladeTF], by simp [Sample.bladeTF], Sample.bladeTF_applies true⟩

/-- A history of builds and motions after which there are faces. -/
example : ∃ (S : List Profile) (r c p k s : Arr) (b₀ : Blade) (as : List Blade.Action), Blade.new S r c p k s none none = .ok b₀ ∧ S ≠ [] ∧
    (∀ x ∈ r, x ≠ 0) ∧ (∀ P ∈ S, P.Uniform ∧ P.upper.length = 4 ∧ P.ClosedEdges) ∧ (∀ a ∈ as, a.KernelWorks) ∧ as.length = 3 ∧
    (b₀.life as).FacesShut := by
  have hnew : Blade.new [Sample.foil, Sample.foil] [1, 2] [1, 3] [2, 4] [0, 1] [0, 10] none none = .ok Sample.blade2 := by
    simp [Blade.new, Sample.blade2]
  have hS : ∀ P ∈ [Sample.foil, Sample.foil], P.Uniform ∧ P.upper.length = 4 ∧ P.ClosedEdges := by
    simp [Sample.foil, Profile.Uniform, Profile.ClosedEdges, Profile.upper, Profile.lower]
  have has : ∀ a ∈ [Blade.Action.build (fun _ => true) true, .rotate none (some 1) c!"x", .scale 2], a.KernelWorks := by
    simp [Blade.Action.KernelWorks]
  refine ⟨_, _, _, _, _, _, _, _, hnew, by simp, by simp, hS, has, rfl, ?_⟩
  rcases C104_faces _ _ _ _ _ _ none _ hnew (by simp) (by simp) 4 hS _ has with h | h
  · exfalso
    obtain ⟨b', hb', hF, hc⟩ := Sample.blade2_builds true
    have e : Sample.blade2.life [.build (fun _ => true) true, .rotate none (some 1) c!"x", .scale 2] =
        (Blade.scale 2 (Blade.rotate none (some 1) c!"x" b').1).1 := by simp [Blade.life, Blade.Action.run, hb']
    rw [e] at h
    obtain ⟨-, -, c1, f1⟩ := Blade.step_in_step (.rotate none (some 1) c!"x") (by simp [Blade.Op.InStep]) b' hc hF
    obtain ⟨-, -, c2, f2⟩ := Blade.step_in_step (.scale 2) (by simp [Blade.Op.InStep]) _ c1 f1
    exact f2.1 h.1
  · exact h

/-- Two sections with an open trailing edge, whose transformations succeed. -/
example : ∃ (b b' : Blade) (P : Profile), b.WellFormed ∧ b.thickness = none ∧ b.camber = none ∧ (∀ P ∈ b.sections, P.Uniform) ∧
    b.applyTransformations true = (b', .ok ()) ∧ b.sections[1]? = some P ∧ b.radii[1]? = some 1 ∧ b.chord[1]? = some 1 ∧
    P.Ends (0, 0) (1, 1/10) (0, 0) (1, -1/10) ∧ |(1 : ℝ)| * dist2 (1, 1/10) (1, -1/10) < 2 * Real.pi * 1 ∧
    ((1, 1/10) : Pt) ≠ (1, -1/10) := by
  let b : Blade := { Sample.blade2 with sections := [Sample.openTE, Sample.openTE], radii := [1, 1], chord := [1, 1] }
  have hE : Sample.openTE.Ends (0, 0) (1, 1/10) (0, 0) (1, -1/10) := by
    simp [Sample.openTE, Profile.Ends, Profile.upper, Profile.lower]
  have hU : Sample.openTE.Uniform := by simp [Sample.openTE, Profile.Uniform]
  have hW : b.WellFormed := by simp [b, Sample.blade2, Blade.WellFormed]
  have hUa : ∀ P ∈ b.sections, P.Uniform := by simp [b, hU]
  obtain ⟨b', hb'⟩ := (C46_defined b true hW rfl rfl hUa).2 ⟨by simp [b], by simp [b], by
    have e : Sample.openTE.updateEdges = .ok ((0, 0), (1, (1/10 + -1/10) / 2)) := by
      rw [Profile.updateEdges_ends ⟨hU.1, hU.2.2⟩ hE, if_neg (by norm_num)]
    simp only [b, List.mem_cons, List.not_mem_nil, or_false, or_self, forall_eq]
    exact ⟨_, C06_reference_is_midpoint _ e⟩, by simp [b]⟩
  refine ⟨b, b', Sample.openTE, hW, rfl, rfl, hUa, hb', rfl, rfl, rfl, hE, ?_, by norm_num⟩
  have : dist2 ((1, 1/10) : Pt) (1, -1/10) = 1/5 := by
    unfold dist2
    rw [show ((((1 : ℝ), (1/10 : ℝ)) : Pt).1 - (((1 : ℝ), (-1/10 : ℝ)) : Pt).1) ^ 2 + ((((1 : ℝ), (1/10 : ℝ)) : Pt).2 - (((1 : ℝ), (-1/10 : ℝ)) : Pt).2) ^ 2 = (1/5) ^ 2 by norm_num]
    exact Real.sqrt_sq (by norm_num)
  rw [this, abs_one]
  have := Real.pi_gt_three
  linarith

/-- Two NACA sections with different digits and spacing. -/
example (american : Profile → Res Arr) (look : Naca.LookUp) : ∃ P Q : Profile, ∀ R ∈ [P, Q], ∃ (d0 d1 d2 d3 : Char) (cosine : Bool),
    d0.isDigit = true ∧ d1.isDigit = true ∧ d2.isDigit = true ∧ d3.isDigit = true ∧
    Naca.ctor american look (.str [d0, d1, d2, d3]) (.int (10 : Nat)) cosine = .ok R := by
  obtain ⟨P, hP, -⟩ := C21_four_digits american look '4' '4' '1' '2' rfl rfl rfl rfl 10 (by norm_num) true
  obtain ⟨Q, hQ, -⟩ := C21_four_digits american look '0' '0' '0' '9' rfl rfl rfl rfl 10 (by norm_num) false
  refine ⟨P, Q, ?_⟩
  intro R hR
  simp only [List.mem_cons, List.not_mem_nil, or_false] at hR
  rcases hR with rfl | rfl
  · exact ⟨_, _, _, _, true, rfl, rfl, rfl, rfl, hP⟩
  · exact ⟨_, _, _, _, false, rfl, rfl, rfl, rfl, hQ⟩

end
end BladeX
