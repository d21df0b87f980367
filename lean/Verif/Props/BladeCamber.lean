import Verif.Props.BladeShape
import Verif.Props.NacaMeaning
import Verif.Lemmas.American

/-! # C97: a camber distribution resamples every section but the last -/

namespace BladeX
noncomputable section
open Spec Classical

namespace Profile

/-- `deform_camber_line` keeps the number of points over common abscissae and makes it 500 otherwise. -/
theorem deform_points {P Q : Profile} {p : ℝ} (hU : P.Uniform) (h : P.deformCamberLine p none = .ok Q) :
    (P.xup = P.xdown → Q.Uniform ∧ Q.xup.length = P.xup.length) ∧ (P.xup ≠ P.xdown → Q.Uniform ∧ Q.xup.length = 500) := by
  have hb : ∀ {f : ℝ → ℝ → ℝ} {a b d : Arr}, a.length = b.length → bzip f a b = .ok d → d.length = a.length := by
    intro f a b d hl hd
    rw [bzip_eq_len hl] at hd
    obtain rfl := Except.ok.inj hd
    simp [hl]
  obtain ⟨u1, u2, u3⟩ := hU
  unfold deformCamberLine at h
  rw [bndA] at h
  obtain ⟨P1, h1, h⟩ := h
  rw [bndA] at h
  obtain ⟨m, hm, h⟩ := h
  constructor
  · intro hx
    rw [effectiveN_same hx none (by simp)] at hm
    obtain rfl := Except.ok.inj hm
    have hp1 : P1.xup = P.xup ∧ P1.xdown = P.xdown ∧ P1.yup = P.yup ∧ P1.ydown = P.ydown ∧
        (P1.camberLine.getD ([], [])).2.length = P.xup.length := by
      unfold computeCamberLine at h1
      rw [effectiveN_same hx none (by simp)] at h1
      simp only [bind, Except.bind] at h1
      rw [bzip_eq_len (by omega)] at h1
      simp only [npArray2] at h1
      rw [if_pos (by simp; omega)] at h1
      obtain rfl := Except.ok.inj (show Except.ok _ = Except.ok P1 from h1)
      refine ⟨rfl, rfl, rfl, rfl, ?_⟩
      simp; omega
    obtain ⟨e1, e2, e3, e4, e5⟩ := hp1
    simp only [bind, Except.bind, pure, Except.pure] at h
    rw [e3, e4, bzip_eq_len (by omega)] at h
    simp only at h
    rw [bzip_eq_len (by simp; omega)] at h
    simp only at h
    rw [bzip_eq_len (by simp; omega)] at h
    obtain rfl := Except.ok.inj (show Except.ok _ = Except.ok Q from h)
    simp only [Uniform, e1, e2, List.length_zipWith, List.length_map]
    rw [e5]
    refine ⟨⟨?_, ?_, ?_⟩, trivial⟩ <;> omega
  · intro hx
    rw [effectiveN_diff (by omega) hx] at hm
    obtain rfl := Except.ok.inj hm
    obtain ⟨K, hK⟩ : ∃ K : Nat, (K : Int) = 500 := ⟨500, rfl⟩
    have hKn : K = 500 := by exact_mod_cast hK
    rw [← hK] at h
    have hint : ∀ t, P.interpolateCoordinates (.int K) 1 = .ok t → t.xxUp.length = K ∧ t.xxDown.length = K ∧ t.yyUp.length = K ∧
        t.yyDown.length = K := by
      intro t ht
      rw [interpolate_int (by omega) one_pos, interpCore_ok_iff one_pos] at ht
      obtain ⟨_, _, _, _, _, _, _, _, _, _, _, rfl⟩ := ht
      simp [linspaceN_length]
    have hp1 : (P1.camberLine.getD ([], [])).2.length = K := by
      unfold computeCamberLine at h1
      rw [effectiveN_diff (by omega) hx, ← hK] at h1
      simp only [bind, Except.bind] at h1
      rcases ht : P.interpolateCoordinates (.int K) 1 with e | t
      · rw [ht] at h1; simp at h1
      · obtain ⟨l1, l2, l3, l4⟩ := hint t ht
        rw [ht] at h1
        simp only at h1
        rw [bzip_eq_len (by omega)] at h1
        simp only [npArray2] at h1
        rw [if_pos (by simp; omega)] at h1
        obtain rfl := Except.ok.inj (show Except.ok _ = Except.ok P1 from h1)
        simp; omega
    simp only [bind, Except.bind, pure, Except.pure] at h
    rcases ht : P.interpolateCoordinates (.int K) 1 with e | t
    · rw [ht] at h; simp at h
    · obtain ⟨l1, l2, l3, l4⟩ := hint t ht
      rw [ht] at h
      simp only at h
      rw [bzip_eq_len (by omega)] at h
      simp only at h
      rw [bzip_eq_len (by simp; omega)] at h
      simp only at h
      rw [bzip_eq_len (by simp; omega)] at h
      obtain rfl := Except.ok.inj (show Except.ok _ = Except.ok Q from h)
      simp only [Uniform, List.length_zipWith, List.length_map]
      omega

/-- `max_camber` only stores the two lines. -/
theorem maxCamber_points {P Q : Profile} {n : Option Int} {v : ℝ} (h : P.maxCamber n = .ok (v, Q)) :
    Q.xup = P.xup ∧ Q.xdown = P.xdown ∧ Q.yup = P.yup ∧ Q.ydown = P.ydown := by
  unfold maxCamber at h
  simp only [bndA] at h
  obtain ⟨P1, h1, P2, h2, h⟩ := h
  have e1 : P1.xup = P.xup ∧ P1.xdown = P.xdown ∧ P1.yup = P.yup ∧ P1.ydown = P.ydown := by
    unfold computeChordLine at h1
    simp only [bndA] at h1
    obtain ⟨e, -, h1⟩ := h1
    by_cases h0 : e.2.1 - e.1.1 = 0
    · rw [if_pos h0] at h1; cases h1
    rw [if_neg h0] at h1
    simp only [bndA] at h1
    obtain ⟨m, -, h1⟩ := h1
    rcases m with _ | k
    · obtain rfl := Except.ok.inj (show Except.ok _ = Except.ok P1 from h1)
      simp
    · simp only [bndA] at h1
      obtain ⟨xs, -, h1⟩ := h1
      obtain rfl := Except.ok.inj (show Except.ok _ = Except.ok P1 from h1)
      simp
  have e2 : P2.xup = P1.xup ∧ P2.xdown = P1.xdown ∧ P2.yup = P1.yup ∧ P2.ydown = P1.ydown := by
    unfold computeCamberLine at h2
    simp only [bndA] at h2
    obtain ⟨m, -, h2⟩ := h2
    rcases m with _ | k
    · simp only [bndA] at h2
      obtain ⟨ys, -, cl, -, h2⟩ := h2
      obtain rfl := Except.ok.inj (show Except.ok _ = Except.ok P2 from h2)
      simp
    · simp only [bndA] at h2
      obtain ⟨t, -, ys, -, cl, -, h2⟩ := h2
      obtain rfl := Except.ok.inj (show Except.ok _ = Except.ok P2 from h2)
      simp
  by_cases h0 : (P2.chordLine.getD ([], [])).1.length < (P2.camberLine.getD ([], [])).1.length
  · rw [if_pos h0] at h; cases h
  rw [if_neg h0] at h
  simp only [bndA] at h
  obtain ⟨w, -, h⟩ := h
  obtain ⟨-, rfl⟩ := Prod.mk.inj (Except.ok.inj (show Except.ok _ = Except.ok (v, Q) from h))
  simp [e1, e2]

theorem setCamber_points {P Q : Profile} {c : ℝ} (hU : P.Uniform) (h : P.setCamberLineMax c = .ok Q) :
    (P.xup = P.xdown → Q.Uniform ∧ Q.xup.length = P.xup.length) ∧ (P.xup ≠ P.xdown → Q.Uniform ∧ Q.xup.length = 500) := by
  unfold setCamberLineMax at h
  rw [bndA] at h
  obtain ⟨⟨v, R⟩, hR, h⟩ := h
  obtain ⟨e1, e2, e3, e4⟩ := maxCamber_points hR
  by_cases h0 : v = 0
  · rw [if_pos h0] at h; cases h
  rw [if_neg h0] at h
  have := deform_points (P := R) (by simpa [Uniform, e1, e2, e3, e4] using hU) h
  rwa [e1, e2] at this

/-- With all stations at one abscissa there is no chord line, hence no camber. -/
private theorem setCamber_point_like {P : Profile} {c a : ℝ} (hu : ∀ x ∈ P.xup, x = a) (Q : Profile) :
    P.setCamberLineMax c ≠ .ok Q := by
  intro h
  unfold setCamberLineMax maxCamber computeChordLine at h
  simp only [bndA] at h
  obtain ⟨r, ⟨P1, ⟨e, he, h1⟩, _⟩, _⟩ := h
  have : e.2.1 - e.1.1 = 0 := by
    have key : e.1.1 = a ∧ e.2.1 = a := by
      obtain ⟨xu0, xd0, xu1, xd1, yu0, yu1, yd1, g1, g2, g3, g4, g5, g6, g7, c1, c2, rfl⟩ := updateEdges_ok he
      exact ⟨hu _ (List.mem_of_mem_head? g1), hu _ (List.mem_of_getLast? g3)⟩
    rw [key.1, key.2, sub_self]
  rw [if_pos this] at h1
  cases h1

end Profile

namespace Blade

/-- One section: the number of points afterwards. -/
private theorem section_points {b : Blade} (hW : b.WellFormed) {F : Arr} (hf : b.camber = some F) {refl : Bool} {i : Nat} {P Q : Profile}
    (hi : i < b.sections.length) (hU : P.Uniform) (h : runSteps (sectionSteps b refl i) P = (Q, .ok ())) :
    Q.Uniform ∧ Q.xup.length = if i + 1 < b.sections.length ∧ P.xup ≠ P.xdown then 500 else P.xup.length := by
  obtain ⟨w1, w2, w3, w4, w5⟩ := hW
  have g1 : b.radii[i]? = some b.radii[i] := List.getElem?_eq_getElem _
  have g2 : b.chord[i]? = some b.chord[i] := List.getElem?_eq_getElem _
  have g3 : b.pitch[i]? = some b.pitch[i] := List.getElem?_eq_getElem _
  have g4 : b.rake[i]? = some b.rake[i] := List.getElem?_eq_getElem _
  have g5 : b.skew[i]? = some b.skew[i] := List.getElem?_eq_getElem _
  rw [runSteps_ok, steps_split, Profile.bndA] at h
  obtain ⟨R, hR, h⟩ := h
  rw [Profile.bndA] at h
  obtain ⟨S, hS, h⟩ := h
  obtain ⟨k1, k2⟩ := head_ok (b := b) (refl := refl) g2 (P := P)
  rcases href : P.referencePoint with e | ref
  · exact absurd hR (k1 e href R)
  rw [k2 ref href] at hR
  obtain rfl := Except.ok.inj hR
  have hUR : ((P.translate (-ref)).mulAll b.chord[i]).Uniform := mulAll_uniform (translate_uniform hU _) _
  -- the thickness
  have hmid : ∃ T : Profile, T.Uniform ∧ T.xup = ((P.translate (-ref)).mulAll b.chord[i]).xup ∧
      T.xdown = ((P.translate (-ref)).mulAll b.chord[i]).xdown ∧
      (if i + 1 < b.sections.length then ∃ κ, T.setCamberLineMax κ = .ok S else S = T) := by
    generalize (P.translate (-ref)).mulAll b.chord[i] = R at hS hUR ⊢
    simp only [sectionSteps, List.drop_succ_cons, List.drop_zero, List.take_succ_cons, List.take_zero, List.foldlM_cons,
      List.foldlM_nil, Profile.bndA, hf] at hS
    obtain ⟨T, hT, U, hcam, hS⟩ := hS
    obtain rfl := Except.ok.inj (show Except.ok U = Except.ok S from hS)
    have hT' : T.Uniform ∧ T.xup = R.xup ∧ T.xdown = R.xdown := by
      rcases ht : b.thickness with _ | t
      · rw [ht] at hT
        obtain rfl := Except.ok.inj (show Except.ok R = Except.ok T from hT)
        exact ⟨hUR, rfl, rfl⟩
      · rw [ht] at hT
        simp only [Profile.bndA] at hT
        obtain ⟨x, -, hT⟩ := hT
        unfold Profile.setThicknessMax at hT
        rw [Profile.bndA] at hT
        obtain ⟨old, -, hT⟩ := hT
        obtain rfl := Except.ok.inj (show Except.ok _ = Except.ok T from hT)
        exact ⟨by simpa [Profile.Uniform] using hUR, rfl, rfl⟩
    refine ⟨T, hT'.1, hT'.2.1, hT'.2.2, ?_⟩
    by_cases hl : i + 1 < b.sections.length
    · rw [if_pos hl] at hcam ⊢
      simp only [Profile.bndA] at hcam
      obtain ⟨κ, -, hc⟩ := hcam
      exact ⟨κ, hc⟩
    · rw [if_neg hl] at hcam ⊢
      exact (Except.ok.inj (show Except.ok T = Except.ok U from hcam)).symm
  obtain ⟨T, hTU, hx1, hx2, hT⟩ := hmid
  have hlen : T.xup.length = P.xup.length := by rw [hx1]; simp [Profile.mulAll, Profile.translate]
  have hS' : S.Uniform ∧ S.xup.length = if i + 1 < b.sections.length ∧ P.xup ≠ P.xdown then 500 else P.xup.length := by
    by_cases hl : i + 1 < b.sections.length
    · rw [if_pos hl] at hT
      obtain ⟨κ, hκ⟩ := hT
      obtain ⟨s1, s2⟩ := Profile.setCamber_points hTU hκ
      by_cases hx : P.xup = P.xdown
      · have : T.xup = T.xdown := by rw [hx1, hx2]; simp [Profile.mulAll, Profile.translate, hx]
        obtain ⟨a1, a2⟩ := s1 this
        refine ⟨a1, ?_⟩
        rw [if_neg (by simp [hx]), a2, hlen]
      · have hc : b.chord[i] ≠ 0 := by
          intro hc
          refine Profile.setCamber_point_like (P := T) (c := κ) (a := 0) ?_ S hκ
          rw [hx1, hc]
          intro x hxm
          simp [Profile.mulAll, Profile.translate] at hxm
          exact hxm.2.symm
        have : T.xup ≠ T.xdown := by
          rw [hx1, hx2]
          intro heq
          apply hx
          have inj : Function.Injective fun x : ℝ => (x + (-ref).1) * b.chord[i] := by
            intro x y hxy
            have := mul_right_cancel₀ hc hxy
            linarith
          simp only [Profile.mulAll, Profile.translate, List.map_map] at heq
          exact List.map_injective_iff.2 inj heq
        obtain ⟨a1, a2⟩ := s2 this
        exact ⟨a1, by rw [if_pos ⟨hl, hx⟩, a2]⟩
    · rw [if_neg hl] at hT
      subst hT
      exact ⟨hTU, by rw [if_neg (fun h => hl h.1), hlen]⟩
  obtain ⟨t1, t2⟩ := tail_ok (b := b) (refl := refl) g1 g3 g4 g5 hS'.1
  by_cases hr : b.radii[i] = 0
  · exact absurd h (t1 hr Q)
  · obtain ⟨Q', hQ', _, _, hQU, hQl⟩ := t2 hr
    rw [h] at hQ'
    obtain rfl := Except.ok.inj hQ'
    exact ⟨hQU, by rw [hQl, hS'.2]⟩

end Blade

/-- **C97** a successful `apply_transformations` on a blade with a camber distribution leaves every section with the number of
points it had, except that each section before the last whose two surfaces have different abscissae has 500 points on each surface. -/
theorem C97_points (b b' : Blade) (refl : Bool) (hW : b.WellFormed) (F : Arr) (hf : b.camber = some F)
    (hU : ∀ P ∈ b.sections, P.Uniform) (h : b.applyTransformations refl = (b', .ok ())) :
    b'.sections.length = b.sections.length ∧ ∀ (i : Nat) (P : Profile), b.sections[i]? = some P →
      ∃ Q, b'.sections[i]? = some Q ∧ Q.upper.length = Q.lower.length ∧
        (P.xup ≠ P.xdown → i + 1 < b.sections.length → Q.upper.length = 500) ∧
        (P.xup = P.xdown ∨ i + 1 = b.sections.length → Q.upper.length = P.upper.length) := by
  obtain ⟨ss, up, down, h1, -, rfl⟩ := (Blade.apply_ok hW.1).1 h
  obtain ⟨hl, hs⟩ := (Blade.sectionLoop_ok _ _ _).1 h1
  refine ⟨hl, ?_⟩
  intro i P hP
  have hi : i < b.sections.length := (List.getElem?_eq_some_iff.1 hP).1
  have hQ : ss[i]? = some (ss[i]'(by omega)) := List.getElem?_eq_getElem _
  have := hs i P _ hP hQ
  rw [Nat.zero_add] at this
  have hPU := hU P (List.mem_of_getElem? hP)
  obtain ⟨hQU, hQl⟩ := Blade.section_points hW hf hi hPU this
  refine ⟨_, hQ, ?_, ?_, ?_⟩
  · obtain ⟨u1, u2, u3⟩ := hQU
    simp only [Profile.upper, Profile.lower, List.length_zip]
    omega
  · intro hx hn
    rw [if_pos ⟨hn, hx⟩] at hQl
    obtain ⟨u1, u2, u3⟩ := hQU
    simp only [Profile.upper, List.length_zip]
    omega
  · intro hx
    rw [if_neg (by rintro ⟨a1, a2⟩; rcases hx with hx | hx; exact a2 hx; omega)] at hQl
    obtain ⟨u1, u2, u3⟩ := hQU
    obtain ⟨v1, v2, v3⟩ := hPU
    simp only [Profile.upper, List.length_zip]
    omega

/-- **C97** hence `apply_transformations` can never succeed when a camber distribution is given, some section before the last has
different abscissae on its two surfaces, and the last section has any number of points but 500. -/
theorem C97_refused (b : Blade) (refl : Bool) (hW : b.WellFormed) (F : Arr) (hf : b.camber = some F)
    (hU : ∀ P ∈ b.sections, P.Uniform) (i : Nat) (P L : Profile) (hi : i + 1 < b.sections.length) (hP : b.sections[i]? = some P)
    (hx : P.xup ≠ P.xdown) (hL : b.sections.getLast? = some L) (h500 : L.upper.length ≠ 500) :
    ∃ b' e, b.applyTransformations refl = (b', .error e) := by
  rcases h : b.applyTransformations refl with ⟨b', e | u⟩
  · exact ⟨b', e, rfl⟩
  exfalso
  obtain ⟨hl, hp⟩ := C97_points b b' refl hW F hf hU h
  obtain ⟨Q, hQ, -, hQ500, -⟩ := hp i P hP
  rw [List.getLast?_eq_getElem?] at hL
  obtain ⟨M, hM, -, -, hMl⟩ := hp (b.sections.length - 1) L hL
  have hMl := hMl (Or.inr (by omega))
  obtain ⟨ss, up, down, h1, h2, rfl⟩ := (Blade.apply_ok hW.1).1 h
  have hlen := ((Blade.cylindrical_ok (by rw [hW.1]; exact hl.symm)).1 h2).2.2.1 Q (List.mem_of_getElem? hQ) M (List.mem_of_getElem? hM)
  apply h500
  rw [← hMl, ← hlen.1, hQ500 hx hi]

/-- **C97** the resampling does happen: on a profile in reference position with camber, `set_camber_line_max` succeeds, and leaves 500
points per surface when the two surfaces have different abscissae, the number there was when they have the same. -/
theorem C97_set_camber (P Q₀ : Profile) {x0 x1 u old : ℝ} (h : P.RefPosition x0 x1 u) (hU : P.Uniform)
    (hold : P.maxCamber = .ok (old, Q₀)) (h0 : old ≠ 0) (c : ℝ) :
    ∃ Q, P.setCamberLineMax c = .ok Q ∧ (P.xup ≠ P.xdown → Q.upper.length = 500 ∧ Q.lower.length = 500) ∧
      (P.xup = P.xdown → Q.upper.length = P.upper.length ∧ Q.lower.length = P.lower.length) := by
  obtain ⟨Q, _, hQ, _⟩ := C12_set_camber P Q₀ h hold h0 c
  obtain ⟨s1, s2⟩ := Profile.setCamber_points hU hQ
  refine ⟨Q, hQ, ?_, ?_⟩
  · intro hx
    obtain ⟨⟨u1, u2, u3⟩, hl⟩ := s2 hx
    simp only [Profile.upper, Profile.lower, List.length_zip]
    omega
  · intro hx
    obtain ⟨⟨u1, u2, u3⟩, hl⟩ := s1 hx
    obtain ⟨v1, v2, v3⟩ := hU
    simp only [Profile.upper, Profile.lower, List.length_zip]
    omega

/-- **C97** in particular: the surfaces of a cambered, thick 4-digit NACA profile (at least four points, default spacing) have different
abscissae and as many points as asked for. -/
theorem C97_naca_abscissae (american : Profile → Res Arr) (look : Naca.LookUp) (d0 d1 d2 d3 : Char) (h0 : d0.isDigit = true)
    (h1 : d1.isDigit = true) (h2 : d2.isDigit = true) (h3 : d3.isDigit = true) (hm : dig d0 ≠ 0) (hp : dig d1 ≠ 0)
    (ht : 10 * dig d2 + dig d3 ≠ 0) (n : Nat) (hn : 4 ≤ n) (Q : Profile)
    (h : Naca.ctor american look (.str [d0, d1, d2, d3]) (.int n) true = .ok Q) :
    Q.Uniform ∧ Q.upper.length = n ∧ Q.xup ≠ Q.xdown := by
  obtain ⟨P, hP, x1, x2, x3, x4⟩ := naca_ctor_coords h
  have hP' : Naca.coords4 d0 d1 [d2, d3] n true = .ok P := hP
  rw [Naca.coords4_eq h0 h1 h2 h3, if_neg hp, if_neg (by simp [hp])] at hP'
  have hPe := (Except.ok.inj hP').symm
  have hu := Naca.spread_uniform n (nacaHalfThickness ((10 * dig d2 + dig d3) / 100)) (nacaCamber4 (dig d0 / 100) (dig d1 / 10))
    (fun a => Real.arctan (Naca.slopeFn4 (dig d0 / 100) (dig d1 / 10) a))
  rw [← hPe] at hu
  have hQU : Q.Uniform := by
    have := hu.1
    simpa [Profile.Uniform, x1, x2, x3, x4] using this
  have hQl : Q.xup.length = n := by rw [x1]; exact hu.2
  refine ⟨hQU, ?_, ?_⟩
  · obtain ⟨u1, u2, u3⟩ := hQU
    simp only [Profile.upper, List.length_zip]
    omega
  · intro heq
    rw [x1, x2, hPe] at heq
    simp only [Naca.spread] at heq
    have hmem := List.map_inj_left.1 heq
    have p0 : 0 < dig d1 / 10 := by have := lt_of_le_of_ne (Naca.dig_nonneg d1) (Ne.symm hp); positivity
    have p1 : dig d1 / 10 < 1 := by have := Naca.dig_le h1; linarith
    have m0 : 0 < dig d0 / 100 := by have := lt_of_le_of_ne (Naca.dig_nonneg d0) (Ne.symm hm); positivity
    have t0 : 0 < (10 * dig d2 + dig d3) / 100 := by
      have := lt_of_le_of_ne (add_nonneg (mul_nonneg (by norm_num) (Naca.dig_nonneg d2)) (Naca.dig_nonneg d3)) (Ne.symm ht)
      positivity
    have hn4 : (4 : ℝ) ≤ n := by exact_mod_cast hn
    have hst : ∀ i : Nat, i < n → (i : ℝ) / ((n : ℝ) - 1) ∈ linspaceN (0 : ℝ) 1 n := by
      intro i hi
      have hi' : i < (linspaceN (0 : ℝ) 1 n).length := by rw [linspaceN_length]; exact hi
      have := linspaceN_getElem (0 : ℝ) 1 n i hi'
      have e : (i : ℝ) / ((n : ℝ) - 1) = (linspaceN (0 : ℝ) 1 n)[i] := by rw [this]; ring
      rw [e]; exact List.getElem_mem _
    -- a station inside the chord that is not the position of the highest point
    obtain ⟨x, hx, x0, x1', xp⟩ : ∃ x ∈ linspaceN (0 : ℝ) 1 n, 0 < x ∧ x < 1 ∧ x ≠ dig d1 / 10 := by
      by_cases hc : ((1 : Nat) : ℝ) / ((n : ℝ) - 1) = dig d1 / 10
      · refine ⟨_, hst 2 (by omega), by push_cast; apply div_pos <;> linarith, by push_cast; rw [div_lt_one (by linarith)]; linarith, ?_⟩
        rw [← hc]
        intro he
        have : ((n : ℝ) - 1) ≠ 0 := by linarith
        rw [div_left_inj' this] at he
        norm_num at he
      · exact ⟨_, hst 1 (by omega), by push_cast; apply div_pos <;> linarith, by push_cast; rw [div_lt_one (by linarith)]; linarith, hc⟩
    have := hmem x hx
    have hy := Naca.nacaHalf_pos t0 x0 x1'
    have hs : Real.sin (Real.arctan (Naca.slopeFn4 (dig d0 / 100) (dig d1 / 10) x)) = 0 := by
      have : nacaHalfThickness ((10 * dig d2 + dig d3) / 100) x * Real.sin (Real.arctan (Naca.slopeFn4 (dig d0 / 100) (dig d1 / 10) x)) = 0 := by
        linarith
      rcases mul_eq_zero.1 this with h | h
      · exact absurd h hy.ne'
      · exact h
    rw [Real.sin_arctan, div_eq_zero_iff] at hs
    rcases hs with hs | hs
    · have hne : 2 * (dig d1 / 10) - 2 * x ≠ 0 := by intro h; apply xp; linarith
      unfold Naca.slopeFn4 at hs
      split_ifs at hs
      · exact (mul_ne_zero (by positivity) hne) hs
      · have : (1 - dig d1 / 10) ≠ 0 := by linarith
        exact (mul_ne_zero (div_ne_zero m0.ne' (pow_ne_zero _ this)) hne) hs
    · exact absurd hs (Real.sqrt_pos.2 (by positivity)).ne'

/-- **C97** so the transformations of a blade made of two or more such profiles, each with the same number of points (not 500), are
always refused when a camber distribution is given - whatever the distributions. -/
theorem C97_naca_refused (american : Profile → Res Arr) (look : Naca.LookUp) (n : Nat) (hn : 4 ≤ n) (h500 : n ≠ 500) (b : Blade)
    (refl : Bool) (hW : b.WellFormed) (F : Arr) (hf : b.camber = some F) (h2 : 2 ≤ b.sections.length)
    (hS : ∀ P ∈ b.sections, ∃ d0 d1 d2 d3 : Char, d0.isDigit = true ∧ d1.isDigit = true ∧ d2.isDigit = true ∧ d3.isDigit = true ∧
      dig d0 ≠ 0 ∧ dig d1 ≠ 0 ∧ 10 * dig d2 + dig d3 ≠ 0 ∧
      Naca.ctor american look (.str [d0, d1, d2, d3]) (.int n) true = .ok P) :
    ∃ b' e, b.applyTransformations refl = (b', .error e) := by
  have key : ∀ P ∈ b.sections, P.Uniform ∧ P.upper.length = n ∧ P.xup ≠ P.xdown := by
    intro P hP
    obtain ⟨d0, d1, d2, d3, k0, k1, k2, k3, hm, hp, ht, h⟩ := hS P hP
    exact C97_naca_abscissae american look d0 d1 d2 d3 k0 k1 k2 k3 hm hp ht n hn P h
  have e0 : b.sections[0]? = some (b.sections[0]'(by omega)) := List.getElem?_eq_getElem _
  have hne : b.sections ≠ [] := by intro h; rw [h] at h2; simp at h2
  exact C97_refused b refl hW F hf (fun P hP => (key P hP).1) 0 _ _ (by omega) e0 (key _ (List.mem_of_getElem? e0)).2.2
    (List.getLast?_eq_some_getLast hne) (by rw [(key _ (List.getLast_mem hne)).2.1]; exact h500)

/-! ### The hypotheses can be met -/

/-- `C97_set_camber` with different abscissae on the two surfaces. -/
example : ∃ (P Q₀ : Profile) (old : ℝ), P.RefPosition 0 1 0 ∧ P.Uniform ∧ P.xup ≠ P.xdown ∧ P.maxCamber = .ok (old, Q₀) ∧ old ≠ 0 := by
  have hR : ({ xup := [0, 100/499, 200/499, 1], xdown := [0, 100/499, 300/499, 1], yup := [0, 1/5, 0, 0], ydown := [0, -1/10, 0, 0] } : Profile).RefPosition 0 1 0 := by
    refine ⟨?_, rfl, ?_, by norm_num, ?_, ?_⟩
    · simp [Profile.Shaped]
    · simp [Profile.Ends, Profile.upper, Profile.lower]
    · norm_num
    · norm_num
  obtain ⟨v, Q, c, t, hm, -, -, ht, -, hc, -, -, -, hmax⟩ := C12_max_camber_spec _ hR
  refine ⟨_, Q, v, hR, by simp [Profile.Uniform], by norm_num, hm, ?_⟩
  rintro rfl
  obtain ⟨K, hK⟩ : ∃ K : Nat, (K : Int) = 500 := ⟨500, rfl⟩
  have hi := hR.interp (n := K) (by omega)
  rw [hK, ht] at hi
  have e := Except.ok.inj hi
  have hmem : (100 / 499 : ℝ) ∈ linspaceN 0 1 K := by
    have h100 : 100 < (linspaceN (0 : ℝ) 1 K).length := by rw [linspaceN_length]; omega
    have := linspaceN_getElem (0 : ℝ) 1 K 100 h100
    have hKr : (K : ℝ) = 500 := by exact_mod_cast hK
    have h2 : (linspaceN (0 : ℝ) 1 K)[100] = 100 / 499 := by rw [this, hKr]; norm_num
    rw [← h2]; exact List.getElem_mem _
  have h1 : interpW 1 [0, 100/499, 200/499, 1] [0, 1/5, 0, 0] (100/499) = 1/5 :=
    interpW_node (i := 1) (X := [0, 100/499, 200/499, 1]) (y := [0, 1/5, 0, 0]) rfl one_pos hR.nodupUp (by simp) (by simp)
  have h2 : interpW 1 [0, 100/499, 300/499, 1] [0, -1/10, 0, 0] (100/499) = -1/10 :=
    interpW_node (i := 1) (X := [0, 100/499, 300/499, 1]) (y := [0, -1/10, 0, 0]) rfl one_pos hR.nodupDown (by simp) (by simp)
  have := hmax ((1/5 + -1/10) / 2) (by
    rw [hc, e]
    simp only [zipWith_map_same]
    exact List.mem_map.2 ⟨100/499, hmem, by rw [h1, h2]⟩)
  norm_num at this

/-- `C97_points`: the blade of `C46_thickness_camber`. -/
example : ∃ b', Sample.bladeTF.WellFormed ∧ Sample.bladeTF.camber = some [1/10, 0] ∧ (∀ P ∈ Sample.bladeTF.sections, P.Uniform) ∧
    Sample.bladeTF.applyTransformations true = (b', .ok ()) := by
  obtain ⟨b', hb⟩ := Sample.bladeTF_applies true
  refine ⟨b', by simp [Sample.bladeTF, Blade.WellFormed], rfl, ?_, hb⟩
  simp [Sample.bladeTF, Sample.onStation, Profile.Uniform]

/-- `C97_naca_refused`: two profiles NACA 2412 with 240 points (the default of the constructor). -/
example (american : Profile → Res Arr) (look : Naca.LookUp) : ∃ b : Blade, b.WellFormed ∧ b.camber = some [0.02, 0.02] ∧ b.sections.length = 2 ∧
    ∀ P ∈ b.sections, Naca.ctor american look (.str ['2', '4', '1', '2']) (.int 240) true = .ok P := by
  obtain ⟨Q, h, _⟩ := C21_four_digits american look '2' '4' '1' '2' rfl rfl rfl rfl 240 (by norm_num) true
  refine ⟨{ sections := [Q, Q], radii := [1, 2], chord := [1, 1], pitch := [1, 1], rake := [0, 0], skew := [0, 0], thickness := none, camber := some [0.02, 0.02], coordsUp := [], coordsDown := [], upper := none, lower := none, tip := none, root := none }, ?_, rfl, rfl, ?_⟩
  · simp [Blade.WellFormed]
  · intro P hP
    simp only [List.mem_cons, List.not_mem_nil, or_false, or_self] at hP
    rw [hP]; exact h

end
end BladeX
