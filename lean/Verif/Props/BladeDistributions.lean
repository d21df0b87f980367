import Verif.Spec.Distributions
import Verif.Props.BladeSymmetry
import Verif.Props.BladeShut
import Verif.Props.BladeHelix
import Verif.Props.Units

/-! # C131: what thickness and camber distributions do to a blade -/

namespace BladeX
noncomputable section
open Spec Classical
open Profile (bndA)

theorem Profile.thickened_reference {P : Profile} {ref : Pt} (h : P.referencePoint = .ok ref) (ρ : ℝ) :
    (P.thickened ref.2 ρ).referencePoint = .ok ref := by
  have h0 := h
  unfold Profile.referencePoint at h
  rcases he : P.updateEdges with _ | e
  · rw [he] at h; cases h
  rw [he] at h
  simp only [bind, Except.bind, pure, Except.pure, Except.ok.injEq] at h
  obtain ⟨xu0, xd0, xu1, xd1, yu0, yu1, yd1, h1, h2, h3, h4, h5, h6, h7, c1, c2, rfl⟩ := Profile.updateEdges_ok he
  have := (C07_edge_check (P.thickened ref.2 ρ) (xu0 := xu0) (xd0 := xd0) (xu1 := xu1) (xd1 := xd1) (yu0 := ref.2 + ρ * (yu0 - ref.2))
    (yu1 := ref.2 + ρ * (yu1 - ref.2)) (yd1 := ref.2 + ρ * (yd1 - ref.2)) h1 h2 h3 h4 (by simp [Profile.thickened, h5])
    (by simp [Profile.thickened, h6]) (by simp [Profile.thickened, h7])).2.2 c1 c2
  rw [C06_reference_is_midpoint _ this]
  congr 1
  have hy : ref.2 = (yu0 + (yu1 + yd1) / 2) / 2 := by rw [← h]; simp; ring
  have hx : ref.1 = (xu0 + xu1) / 2 := by rw [← h]; simp; ring
  ext
  · simp [mid, hx]
  · simp only [mid]
    linear_combination (-ρ) * hy

/-- **C131** A prescribed thickness only changes the sections: a blade with a thickness array (and no camber array) becomes the same blade,
coordinates and sections, as the one without it whose sections have all ordinates multiplied by a number, measured from the height of their
reference point. On common abscissae this number is the prescribed thickness over the one of the scaled section. -/
theorem C131_thickness (b b' : Blade) (refl : Bool) (hW : b.WellFormed) (T : Arr) (ht : b.thickness = some T) (hf : b.camber = none)
    (h : b.applyTransformations refl = (b', .ok ())) :
    ∃ S : List Profile, S.length = b.sections.length ∧
      (∀ (i : Nat) (P : Profile) (c : ℝ), b.sections[i]? = some P → b.chord[i]? = some c →
        ∃ ref ρ τ, P.referencePoint = .ok ref ∧ T[i]? = some τ ∧ S[i]? = some (P.thickened ref.2 ρ) ∧
          (P.xup = P.xdown → ∃ m, P.maxThickness none = .ok m ∧ ρ = if |c| * m = 0 then 0 else τ / (|c| * m))) ∧
      ({ b with thickness := none, sections := S } : Blade).applyTransformations refl = ({ b' with thickness := none }, .ok ()) := by
  obtain ⟨w1, w2, w3, w4, w5⟩ := id hW
  obtain ⟨ss, up, down, h1, h2, rfl⟩ := (Blade.apply_ok hW.1).1 h
  obtain ⟨hl, hall⟩ := (Blade.sectionLoop_ok _ _ _).1 h1
  have key : ∀ (i : Nat) (hi : i < b.sections.length), ∃ S : Profile, (∃ ref ρ τ, b.sections[i].referencePoint = .ok ref ∧ T[i]? = some τ ∧
      S = b.sections[i].thickened ref.2 ρ ∧ (b.sections[i].xup = b.sections[i].xdown → ∃ m, b.sections[i].maxThickness none = .ok m ∧
        ∀ c, b.chord[i]? = some c → ρ = if |c| * m = 0 then 0 else τ / (|c| * m))) ∧
      ∀ (S' : List Profile) (Q : Profile), ss[i]? = some Q →
        Blade.runSteps (Blade.sectionSteps ({ b with thickness := none, sections := S' } : Blade) refl i) S = (Q, .ok ()) := by
    intro i hi
    have hi' : i < ss.length := by omega
    have hrun := hall i _ _ (List.getElem?_eq_getElem hi) (List.getElem?_eq_getElem hi')
    set P := b.sections[i] with hP
    clear_value P
    have gc : getIdx b.chord i = .ok b.chord[i] := Blade.getIdx_ok.2 (List.getElem?_eq_getElem (by omega))
    rw [Blade.runSteps_ok] at hrun
    simp only [Blade.sectionSteps, List.foldlM_cons, List.foldlM_nil, Nat.zero_add, hf, ht] at hrun
    rw [bndA] at hrun; obtain ⟨R₁, t1, hrun⟩ := hrun
    rw [bndA] at hrun; obtain ⟨R₂, t2, hrun⟩ := hrun
    rw [bndA] at hrun; obtain ⟨R₃, t3, hrun⟩ := hrun
    rw [bndA] at hrun; obtain ⟨R₄, t4, hrun⟩ := hrun
    obtain rfl := Except.ok.inj t4
    rw [bndA] at t1; obtain ⟨ref, href, e⟩ := t1
    obtain rfl := Except.ok.inj e
    have hz : ∀ P : Profile, P.translate 0 = P := by intro P; simp [Profile.translate]
    have hsc : ∀ (P : Profile) (ref : Pt) (c : ℝ), P.referencePoint = .ok ref →
        (P.translate (-ref)).scale c = .ok ((P.translate (-ref)).mulAll c) := by
      intro P ref c hr
      have := (C06_reference_translate_reflect P ref (-ref) hr).1
      rw [add_neg_cancel] at this
      rw [Profile.scale_eq this, neg_zero, hz, hz]
    simp only [gc, bind, Except.bind, hsc _ _ _ href] at t2
    obtain rfl := Except.ok.inj t2
    rw [bndA] at t3
    obtain ⟨τ, gτ, t3⟩ := t3
    have hτ := Blade.getIdx_ok.1 gτ
    unfold Profile.setThicknessMax at t3
    rw [bndA] at t3
    obtain ⟨old, hold, t3⟩ := t3
    obtain rfl := Except.ok.inj t3
    set ρ : ℝ := if old ≠ 0 then τ / old else 0 with hρ
    refine ⟨P.thickened ref.2 ρ, ⟨ref, ρ, τ, href, hτ, rfl, ?_⟩, ?_⟩
    · intro hx
      have hnone : ∀ R : Profile, R.xup = R.xdown → R.maxThickness none = (bzip (fun a b => |a - b|) R.yup R.ydown >>= npMax) := by
        intro R hR
        unfold Profile.maxThickness
        rw [Profile.effectiveN_same hR none (by simp)]
        rfl
      have hb : bzip (fun a b => |a - b|) (P.translate (-ref)).yup (P.translate (-ref)).ydown = bzip (fun a b => |a - b|) P.yup P.ydown := by
        have := bzip_map (fun a b => |a - b|) (· + (-ref).2) (· + (-ref).2) id (fun x y => by simp) P.yup P.ydown
        simp only [Profile.translate]
        rw [this]
        rcases bzip (fun a b => |a - b|) P.yup P.ydown with e | d <;> simp [Except.map]
      have hPx : (P.translate (-ref)).maxThickness none = P.maxThickness none := by
        rw [hnone _ hx, hnone _ (by simp [Profile.translate, hx]), hb]
      rcases hm : P.maxThickness none with e | m
      · exfalso
        rcases hd : bzip (fun a b => |a - b|) P.yup P.ydown with e' | d
        · have hold' := hold
          rw [hnone _ (by simp [Profile.mulAll, Profile.translate, hx])] at hold'
          have hb2 : bzip (fun a b => |a - b|) ((P.translate (-ref)).mulAll b.chord[i]).yup ((P.translate (-ref)).mulAll b.chord[i]).ydown =
              (bzip (fun a b => |a - b|) (P.translate (-ref)).yup (P.translate (-ref)).ydown).map fun d => d.map (|b.chord[i]| * ·) :=
            bzip_map _ _ _ (|b.chord[i]| * ·) (fun x y => by rw [← sub_mul, abs_mul, mul_comm]) _ _
          rw [hb2, hb, hd] at hold'
          cases hold'
        · rw [hnone _ hx, hd] at hm
          have hm' : npMax d = .error e := hm
          have hd0 : d = [] := by
            by_contra hne
            obtain ⟨v, hv⟩ := npMax_exists hne
            rw [hv] at hm'; cases hm'
          have hold' := hold
          rw [hnone _ (by simp [Profile.mulAll, Profile.translate, hx])] at hold'
          have hb2 : bzip (fun a b => |a - b|) ((P.translate (-ref)).mulAll b.chord[i]).yup ((P.translate (-ref)).mulAll b.chord[i]).ydown =
              (bzip (fun a b => |a - b|) (P.translate (-ref)).yup (P.translate (-ref)).ydown).map fun d => d.map (|b.chord[i]| * ·) :=
            bzip_map _ _ _ (|b.chord[i]| * ·) (fun x y => by rw [← sub_mul, abs_mul, mul_comm]) _ _
          rw [hb2, hb, hd, hd0] at hold'
          cases hold'
      · refine ⟨m, rfl, ?_⟩
        intro c hc
        have : c = b.chord[i] := by
          rw [List.getElem?_eq_getElem (by omega)] at hc
          exact (Option.some.inj hc).symm
        subst this
        have h3 := Profile.maxThickness_mulAll b.chord[i] (P := P.translate (-ref)) (by simp [Profile.translate, hx]) (hPx.trans hm)
        rw [hold] at h3
        obtain rfl := Except.ok.inj h3
        rw [hρ]
        by_cases h0 : |b.chord[i]| * m = 0 <;> simp [h0]
    · intro S' Q hQ
      have hQ' : Q = ss[i] := by
        rw [List.getElem?_eq_getElem hi'] at hQ
        exact (Option.some.inj hQ).symm
      subst hQ'
      have href2 := Profile.thickened_reference href ρ
      rw [Blade.runSteps_ok]
      simp only [Blade.sectionSteps, List.foldlM_cons, List.foldlM_nil, hf]
      rw [bndA]; refine ⟨(P.thickened ref.2 ρ).translate (-ref), by rw [href2]; rfl, ?_⟩
      rw [bndA]; refine ⟨((P.thickened ref.2 ρ).translate (-ref)).mulAll b.chord[i], by
        simp only [gc, bind, Except.bind, hsc _ _ _ href2], ?_⟩
      rw [bndA]; refine ⟨_, rfl, ?_⟩
      rw [bndA]; refine ⟨_, rfl, ?_⟩
      have e : ((P.thickened ref.2 ρ).translate (-ref)).mulAll b.chord[i] =
          { (P.translate (-ref)).mulAll b.chord[i] with
            yup := ((P.translate (-ref)).mulAll b.chord[i]).yup.map (· * ρ), ydown := ((P.translate (-ref)).mulAll b.chord[i]).ydown.map (· * ρ) } := by
        simp only [Profile.thickened, Profile.translate, Profile.mulAll, List.map_map, Profile.mk.injEq, true_and, and_true, Prod.snd_neg]
        constructor <;> refine List.map_congr_left fun x _ => ?_ <;> simp only [Function.comp] <;> ring
      rw [e]
      exact hrun
  choose f hf1 hf2 using key
  let S : List Profile := List.ofFn fun i : Fin b.sections.length => f i.1 i.2
  have hSl : S.length = b.sections.length := by simp [S]
  have hSi : ∀ (i : Nat) (hi : i < b.sections.length), S[i]? = some (f i hi) := by
    intro i hi
    simp [S, List.getElem?_ofFn, hi]
  refine ⟨S, hSl, ?_, ?_⟩
  · intro i P c hP hc
    have hi : i < b.sections.length := (List.getElem?_eq_some_iff.1 hP).1
    obtain rfl : b.sections[i] = P := by
      rw [List.getElem?_eq_getElem hi] at hP; exact Option.some.inj hP
    obtain ⟨ref, ρ, τ, g1, g2, g3, g4⟩ := hf1 i hi
    refine ⟨ref, ρ, τ, g1, g2, by rw [hSi i hi, g3], ?_⟩
    intro hx
    obtain ⟨m, hm, hm2⟩ := g4 hx
    exact ⟨m, hm, hm2 c hc⟩
  · have hW' : ({ b with thickness := none, sections := S } : Blade).WellFormed := by
      simp only [Blade.WellFormed, hSl]
      exact hW
    rw [Blade.apply_ok hW'.1]
    refine ⟨ss, up, down, ?_, h2, rfl⟩
    rw [Blade.sectionLoop_ok]
    refine ⟨by rw [hl, hSl], ?_⟩
    intro j P Q hP hQ
    have hj : j < b.sections.length := by rw [← hSl]; exact (List.getElem?_eq_some_iff.1 hP).1
    have : P = f j hj := by rw [hSi j hj] at hP; exact (Option.some.inj hP).symm
    subst this
    rw [Nat.zero_add]
    exact hf2 j hj S Q hQ

namespace Profile

/-- Ends on the axis, in the four arrays. -/
private theorem flat_iff {X W Y Z : Arr} {n : Nat} {x₀ x₁ : ℝ} (h1 : X.length = n) (h2 : W.length = n) (h3 : Y.length = n) (h4 : Z.length = n) :
    ((List.zip X Y).head? = some (x₀, 0) ∧ (List.zip X Y).getLast? = some (x₁, 0) ∧ (List.zip W Z).head? = some (x₀, 0) ∧
      (List.zip W Z).getLast? = some (x₁, 0)) ↔
    (X[0]? = some x₀ ∧ Y[0]? = some 0) ∧ (X[n - 1]? = some x₁ ∧ Y[n - 1]? = some 0) ∧ (W[0]? = some x₀ ∧ Z[0]? = some 0) ∧
      W[n - 1]? = some x₁ ∧ Z[n - 1]? = some 0 := by
  have e1 : (List.zip X Y).length = n := by simp; omega
  have e2 : (List.zip W Z).length = n := by simp; omega
  simp only [List.head?_eq_getElem?, List.getLast?_eq_getElem?, e1, e2, List.getElem?_zip_eq_some]

/-- New camber lines keep edges that stand on the axis. -/
private theorem deform_flat {P Q : Profile} {p x₀ x₁ : ℝ} (hU : P.Uniform) (hE : P.Ends (x₀, 0) (x₁, 0) (x₀, 0) (x₁, 0))
    (h : P.deformCamberLine p none = .ok Q) : Q.Uniform ∧ Q.Ends (x₀, 0) (x₁, 0) (x₀, 0) (x₁, 0) := by
  refine ⟨?_, ?_⟩
  · by_cases hx : P.xup = P.xdown
    · exact ((deform_points hU h).1 hx).1
    · exact ((deform_points hU h).2 hx).1
  obtain ⟨u1, u2, u3⟩ := hU
  have key : ∃ (n : Nat) (X W Y Z : Arr) (g : ℝ), X.length = n ∧ W.length = n ∧ Y.length = n ∧ Z.length = n ∧
      ((List.zip X Y).head? = some (x₀, 0) ∧ (List.zip X Y).getLast? = some (x₁, 0) ∧ (List.zip W Z).head? = some (x₀, 0) ∧
        (List.zip W Z).getLast? = some (x₁, 0)) ∧ Q.xup = X ∧ Q.xdown = W ∧
      Q.yup = List.zipWith (· + ·) ((List.zipWith (fun a b => 0.5 * (a + b)) Z Y).map (· * g)) (List.zipWith (fun a b => 0.5 * |a - b|) Y Z) ∧
      Q.ydown = List.zipWith (· - ·) ((List.zipWith (fun a b => 0.5 * (a + b)) Z Y).map (· * g)) (List.zipWith (fun a b => 0.5 * |a - b|) Y Z) := by
    unfold deformCamberLine at h
    rw [bndA] at h
    obtain ⟨P1, h1, h⟩ := h
    rw [bndA] at h
    obtain ⟨m, hm, h⟩ := h
    by_cases hx : P.xup = P.xdown
    · rw [effectiveN_same hx none (by simp)] at hm
      obtain rfl := Except.ok.inj hm
      unfold computeCamberLine at h1
      rw [effectiveN_same hx none (by simp)] at h1
      simp only [bind, Except.bind] at h1
      rw [bzip_eq_len (by omega)] at h1
      simp only [npArray2] at h1
      rw [if_pos (by simp; omega)] at h1
      obtain rfl := Except.ok.inj (show Except.ok _ = Except.ok P1 from h1)
      simp only [bind, Except.bind, pure, Except.pure] at h
      rw [bzip_eq_len (by omega)] at h
      simp only at h
      rw [bzip_eq_len (by simp; omega)] at h
      simp only at h
      rw [bzip_eq_len (by simp; omega)] at h
      obtain rfl := Except.ok.inj (show Except.ok _ = Except.ok Q from h)
      exact ⟨P.xup.length, P.xup, P.xdown, P.yup, P.ydown, _, rfl, by omega, by omega, by omega, hE, rfl, rfl, rfl, rfl⟩
    · rw [effectiveN_diff (by omega) hx] at hm
      obtain rfl := Except.ok.inj hm
      obtain ⟨K, hK⟩ : ∃ K : Nat, (K : Int) = 500 := ⟨500, rfl⟩
      have hKn : K = 500 := by exact_mod_cast hK
      rw [← hK] at h
      rcases ht : P.interpolateCoordinates (.int K) 1 with e | t
      · simp only [bind, Except.bind, pure, Except.pure] at h
        rw [ht] at h; simp at h
      obtain ⟨l1, l3, l2, l4, -, -, k1, k2, k3, k4⟩ := C13_result P K (by omega) 1 one_pos t ht _ _ _ _ hE
      unfold computeCamberLine at h1
      rw [effectiveN_diff (by omega) hx, ← hK] at h1
      simp only [bind, Except.bind] at h1
      rw [ht] at h1
      simp only at h1
      rw [bzip_eq_len (by omega)] at h1
      simp only [npArray2] at h1
      rw [if_pos (by simp; omega)] at h1
      obtain rfl := Except.ok.inj (show Except.ok _ = Except.ok P1 from h1)
      simp only [bind, Except.bind, pure, Except.pure] at h
      rw [ht] at h
      simp only at h
      rw [bzip_eq_len (by omega)] at h
      simp only at h
      rw [bzip_eq_len (by simp <;> omega)] at h
      simp only at h
      rw [bzip_eq_len (by simp <;> omega)] at h
      obtain rfl := Except.ok.inj (show Except.ok _ = Except.ok Q from h)
      have hz : List.zipWith (fun a b : ℝ => 0.5 * (a + b)) t.yyDown t.yyUp = List.zipWith (fun a b : ℝ => 0.5 * (a + b)) t.yyUp t.yyDown :=
        List.zipWith_comm_of_comm (fun a b => by ring)
      exact ⟨K, t.xxUp, t.xxDown, t.yyUp, t.yyDown, p / 100 + 1, l1, l2, l3, l4, ⟨k1, k2, k3, k4⟩, rfl, rfl, by rw [hz]; rfl, by rw [hz]; rfl⟩
  obtain ⟨n, X, W, Y, Z, g, l1, l2, l3, l4, hcl, q1, q2, q3, q4⟩ := key
  rw [flat_iff l1 l2 l3 l4] at hcl
  obtain ⟨⟨a1, a2⟩, ⟨b1, b2⟩, ⟨c1, c2⟩, d1, d2⟩ := hcl
  unfold Ends upper lower
  rw [flat_iff (n := n) (by rw [q1, l1]) (by rw [q2, l2]) (by rw [q3]; simp; omega) (by rw [q4]; simp; omega)]
  rw [q1, q2, q3, q4]
  simp [List.getElem?_zipWith, a1, a2, b1, b2, c1, c2, d1, d2]

/-- The two statements about thickness and camber keep edges that stand on the axis. -/
private theorem distributions_flat {b : Blade} {refl : Bool} {i : Nat} {P Q : Profile} {x₀ x₁ : ℝ} (hU : P.Uniform)
    (hE : P.Ends (x₀, 0) (x₁, 0) (x₀, 0) (x₁, 0))
    (h : (((Blade.sectionSteps b refl i).drop 2).take 2).foldlM (fun P f => f P) P = (.ok Q : Res Profile)) :
    Q.Uniform ∧ Q.Ends (x₀, 0) (x₁, 0) (x₀, 0) (x₁, 0) := by
  simp only [Blade.sectionSteps, List.drop_succ_cons, List.drop_zero, List.take_succ_cons, List.take_zero, List.foldlM_cons, List.foldlM_nil] at h
  rw [bndA] at h
  obtain ⟨R, h1, h⟩ := h
  rw [bndA] at h
  obtain ⟨S, h2, h⟩ := h
  obtain rfl := Except.ok.inj h
  have hR : R.Uniform ∧ R.Ends (x₀, 0) (x₁, 0) (x₀, 0) (x₁, 0) := by
    rcases ht : b.thickness with _ | t
    · rw [ht] at h1
      obtain rfl := Except.ok.inj h1
      exact ⟨hU, hE⟩
    · rw [ht] at h1
      simp only [bndA] at h1
      obtain ⟨τ, -, h1⟩ := h1
      unfold setThicknessMax at h1
      rw [bndA] at h1
      obtain ⟨old, -, h1⟩ := h1
      obtain rfl := Except.ok.inj h1
      obtain ⟨u1, u2, u3⟩ := hU
      refine ⟨by simpa [Uniform] using ⟨u1, u2, u3⟩, ?_⟩
      unfold Ends upper lower at hE ⊢
      rw [flat_iff (n := P.xup.length) rfl (by omega) (by omega) (by omega)] at hE
      rw [flat_iff (n := P.xup.length) rfl (by simp; omega) (by simp; omega) (by simp; omega)]
      obtain ⟨⟨a1, a2⟩, ⟨b1, b2⟩, ⟨c1, c2⟩, d1, d2⟩ := hE
      simp [a1, a2, b1, b2, c1, c2, d1, d2]
  rcases hc : b.camber with _ | t
  · rw [hc] at h2
    obtain rfl := Except.ok.inj h2
    exact hR
  · rw [hc] at h2
    simp only at h2
    split at h2
    · simp only [bndA] at h2
      obtain ⟨x, -, h2⟩ := h2
      unfold setCamberLineMax at h2
      rw [bndA] at h2
      obtain ⟨⟨v, V⟩, hV, h2⟩ := h2
      obtain ⟨e1, e2, e3, e4⟩ := maxCamber_points hV
      by_cases h0 : v = 0
      · rw [if_pos h0] at h2; cases h2
      rw [if_neg h0] at h2
      exact deform_flat (P := V) (by simpa [Uniform, e1, e2, e3, e4] using hR.1)
        (by simpa [Ends, upper, lower, e1, e2, e3, e4] using hR.2) h2
    · obtain rfl := Except.ok.inj h2
      exact hR

end Profile

/-- **C131** The edges of a blade do not depend on its thickness and camber distributions: for a closed section with a horizontal nose-tail
line, whatever thickness and camber are prescribed, both surfaces begin and end at the two points of the screw line (radius `r`, pitch `p`,
offset `k`) at the angles given by chord and skew alone. -/
theorem C131_edges (b b' : Blade) (refl : Bool) (hW : b.WellFormed) (h : b.applyTransformations refl = (b', .ok ()))
    (i : Nat) (P : Profile) (r c p k s : ℝ) (hP : b.sections[i]? = some P) (hr : b.radii[i]? = some r) (hc : b.chord[i]? = some c)
    (hp : b.pitch[i]? = some p) (hk : b.rake[i]? = some k) (hs : b.skew[i]? = some s) (hr0 : 0 < r) (hU : P.Uniform) (x₀ x₁ y : ℝ)
    (hE : P.Ends (x₀, y) (x₁, y) (x₀, y) (x₁, y)) (θ₀ θ₁ : ℝ)
    (hθ₀ : θ₀ = -(Real.pi * s / 180) - (if refl then -c else c) * (x₁ - x₀) / 2 / helixSpeed r p)
    (hθ₁ : θ₁ = -(Real.pi * s / 180) + (if refl then -c else c) * (x₁ - x₀) / 2 / helixSpeed r p) :
    ∃ up down : List Pt3, b'.coordsUp[b.sections.length - 1 - i]? = some up ∧ b'.coordsDown[b.sections.length - 1 - i]? = some down ∧
      up.head? = some (helix r p k θ₀) ∧ down.head? = some (helix r p k θ₀) ∧
      up.getLast? = some (helix r p k θ₁) ∧ down.getLast? = some (helix r p k θ₁) := by
  obtain ⟨-, -, h6⟩ := C48_reversed b b' refl hW h
  obtain ⟨ss, up, down, h1, h2, rfl⟩ := (Blade.apply_ok hW.1).1 h
  obtain ⟨hl, hall⟩ := (Blade.sectionLoop_ok _ _ _).1 h1
  have hi : i < b.sections.length := (List.getElem?_eq_some_iff.1 hP).1
  have hi' : i < ss.length := by omega
  have hrun := hall i P ss[i] hP (List.getElem?_eq_getElem hi')
  rw [Nat.zero_add, Blade.runSteps_ok, Blade.steps_split, bndA] at hrun
  obtain ⟨R, t1, hrun⟩ := hrun
  rw [bndA] at hrun
  obtain ⟨S, t2, t3⟩ := hrun
  have href := Profile.referencePoint_ends ⟨hU.1, hU.2.2⟩ hE
  rw [if_neg (by norm_num)] at href
  rw [(Blade.head_ok hc).2 _ href] at t1
  obtain rfl := Except.ok.inj t1
  have hRE : ((P.translate (-(mid (x₀, y) ((x₁, y).1, ((x₁, y).2 + (x₁, y).2) / 2)))).mulAll c).Ends ((x₀ - (x₀ + x₁) / 2) * c, 0) ((x₁ - (x₀ + x₁) / 2) * c, 0)
      ((x₀ - (x₀ + x₁) / 2) * c, 0) ((x₁ - (x₀ + x₁) / 2) * c, 0) := by
    have := hE.map (Q := (P.translate (-(mid (x₀, y) ((x₁, y).1, ((x₁, y).2 + (x₁, y).2) / 2)))).mulAll c)
      (fun q => ((q.1 - (x₀ + x₁) / 2) * c, (q.2 - y) * c)) (by
        simp only [Profile.upper, Profile.mulAll, Profile.translate, List.map_map, List.zip_map]
        refine List.map_congr_left fun q _ => ?_
        simp [mid]; constructor <;> left <;> ring) (by
        simp only [Profile.lower, Profile.mulAll, Profile.translate, List.map_map, List.zip_map]
        refine List.map_congr_left fun q _ => ?_
        simp [mid]; constructor <;> left <;> ring)
    simpa using this
  have hRU : ((P.translate (-(mid (x₀, y) ((x₁, y).1, ((x₁, y).2 + (x₁, y).2) / 2)))).mulAll c).Uniform := by
    simpa [Profile.Uniform, Profile.mulAll, Profile.translate] using hU
  obtain ⟨hSU, hSE⟩ := Profile.distributions_flat hRU hRE t2
  obtain ⟨Q, q1, q2, q3, -, -⟩ := (Blade.tail_ok (refl := refl) hr hp hk hs hSU).2 hr0.ne'
  rw [t3] at q1
  obtain rfl := Except.ok.inj q1
  obtain ⟨h7, h8, -⟩ := h6 i ss[i] r (List.getElem?_eq_getElem hi') hr
  obtain ⟨a1, a2, a3, a4⟩ := hSE
  have hS : 0 < helixSpeed r p := (cos_pitch hr0).2.2
  have e0 : wrap r (placed refl r 1 p k s (0, 0) ((x₀ - (x₀ + x₁) / 2) * c, 0)) = helix r p k θ₀ := by
    rw [wrap_placed refl hr0 1 p k s _ _ _ rfl, hθ₀]
    simp only [sub_zero, mul_zero, zero_mul, zero_div, neg_zero, add_zero]
    have : shiftX 0 (helix r p k ((if refl then -1 else 1) * ((x₀ - (x₀ + x₁) / 2) * c) / helixSpeed r p - Real.pi * s / 180)) =
      helix r p k ((if refl then -1 else 1) * ((x₀ - (x₀ + x₁) / 2) * c) / helixSpeed r p - Real.pi * s / 180) := by simp [shiftX]
    rw [this]
    congr 1
    cases refl <;> simp <;> field_simp <;> ring
  have e1 : wrap r (placed refl r 1 p k s (0, 0) ((x₁ - (x₀ + x₁) / 2) * c, 0)) = helix r p k θ₁ := by
    rw [wrap_placed refl hr0 1 p k s _ _ _ rfl, hθ₁]
    simp only [sub_zero, mul_zero, zero_mul, zero_div, neg_zero, add_zero]
    have : shiftX 0 (helix r p k ((if refl then -1 else 1) * ((x₁ - (x₀ + x₁) / 2) * c) / helixSpeed r p - Real.pi * s / 180)) =
      helix r p k ((if refl then -1 else 1) * ((x₁ - (x₀ + x₁) / 2) * c) / helixSpeed r p - Real.pi * s / 180) := by simp [shiftX]
    rw [this]
    congr 1
    cases refl <;> simp <;> field_simp <;> ring
  refine ⟨_, _, h7, h8, ?_, ?_, ?_, ?_⟩
  · rw [q2, List.head?_map, List.head?_map, a1]; exact congrArg some e0
  · rw [q3, List.head?_map, List.head?_map, a3]; exact congrArg some e0
  · rw [q2, List.getLast?_map, List.getLast?_map, a2]; exact congrArg some e1
  · rw [q3, List.getLast?_map, List.getLast?_map, a4]; exact congrArg some e1

private theorem thickened_uniform {P : Profile} (h : P.Uniform) (y₀ ρ : ℝ) : (P.thickened y₀ ρ).Uniform := by
  simpa [Profile.Uniform, Profile.thickened] using h

/-- **C131** A prescribed thickness leaves the nose-tail line on its screw line: a point of the given profile at the height of the reference
point lies on the screw line of the section, at the same angle whatever thickness is prescribed. -/
theorem C131_nose_tail (b b' : Blade) (refl : Bool) (hW : b.WellFormed) (hf : b.camber = none)
    (hU : ∀ P ∈ b.sections, P.Uniform) (h : b.applyTransformations refl = (b', .ok ()))
    (i : Nat) (P : Profile) (r c p k s : ℝ) (hP : b.sections[i]? = some P) (hr : b.radii[i]? = some r) (hc : b.chord[i]? = some c)
    (hp : b.pitch[i]? = some p) (hk : b.rake[i]? = some k) (hs : b.skew[i]? = some s) (hr0 : 0 < r) (ref : Pt)
    (href : P.referencePoint = .ok ref) :
    ∃ up down : List Pt3, b'.coordsUp[b.sections.length - 1 - i]? = some up ∧ b'.coordsDown[b.sections.length - 1 - i]? = some down ∧
      ∀ (j : Nat) (x : ℝ) (q : Pt3), P.upper[j]? = some (x, ref.2) ∧ up[j]? = some q ∨ P.lower[j]? = some (x, ref.2) ∧ down[j]? = some q →
        q = helix r p k ((if refl then -c else c) * (x - ref.1) / helixSpeed r p - Real.pi * s / 180) := by
  -- the blade without thickness
  have plain : ∀ (b b' : Blade) (P : Profile), b.WellFormed → b.camber = none → b.thickness = none → (∀ P ∈ b.sections, P.Uniform) →
      b.applyTransformations refl = (b', .ok ()) → b.sections[i]? = some P → b.radii[i]? = some r → b.chord[i]? = some c →
      b.pitch[i]? = some p → b.rake[i]? = some k → b.skew[i]? = some s → P.referencePoint = .ok ref →
      ∃ up down : List Pt3, b'.coordsUp[b.sections.length - 1 - i]? = some up ∧ b'.coordsDown[b.sections.length - 1 - i]? = some down ∧
      ∀ (j : Nat) (x : ℝ) (q : Pt3), P.upper[j]? = some (x, ref.2) ∧ up[j]? = some q ∨ P.lower[j]? = some (x, ref.2) ∧ down[j]? = some q →
        q = helix r p k ((if refl then -c else c) * (x - ref.1) / helixSpeed r p - Real.pi * s / 180) := by
    intro b b' P hW hf ht hU h hP hr hc hp hk hs href
    obtain ⟨ref', g1, g2⟩ := C109_points b b' refl hW ht hf hU h i P r c p k s hP hr hc hp hk hs hr0
    rw [href] at g1
    obtain rfl := Except.ok.inj g1
    obtain ⟨g3, g4⟩ := g2 _ (fun q => rfl)
    refine ⟨_, _, g3, g4, ?_⟩
    rintro j x q (⟨a1, a2⟩ | ⟨a1, a2⟩)
    · rw [List.getElem?_map, a1] at a2
      rw [← Option.some.inj a2]
      simp [shiftX]
    · rw [List.getElem?_map, a1] at a2
      rw [← Option.some.inj a2]
      simp [shiftX]
  rcases ht : b.thickness with _ | T
  · exact plain b b' P hW hf ht hU h hP hr hc hp hk hs href
  obtain ⟨S, hSl, hS, hrun⟩ := C131_thickness b b' refl hW T ht hf h
  obtain ⟨ref', ρ, τ, g1, g2, g3, -⟩ := hS i P c hP hc
  rw [href] at g1
  obtain rfl := Except.ok.inj g1
  have hWS : ({ b with thickness := none, sections := S } : Blade).WellFormed := by
    simp only [Blade.WellFormed, hSl]; exact hW
  obtain ⟨up, down, k1, k2, k3⟩ := plain _ _ _ hWS hf rfl (by
    intro Q hQ
    obtain ⟨j, hj, rfl⟩ := List.mem_iff_getElem.1 (show Q ∈ S from hQ)
    have hjs : j < b.sections.length := by omega
    obtain ⟨rj, ρj, τj, -, -, m3, -⟩ := hS j b.sections[j] (b.chord[j]'(by have := hW.2.1; omega)) (List.getElem?_eq_getElem hjs) (List.getElem?_eq_getElem _)
    rw [List.getElem?_eq_getElem hj] at m3
    rw [Option.some.inj m3]
    exact thickened_uniform (hU _ (List.getElem_mem hjs)) _ _) hrun g3 hr hc hp hk hs (Profile.thickened_reference href ρ)
  refine ⟨up, down, by simpa [hSl] using k1, by simpa [hSl] using k2, ?_⟩
  rintro j x q (⟨a1, a2⟩ | ⟨a1, a2⟩)
  · refine k3 j x q (Or.inl ⟨?_, a2⟩)
    simp only [Profile.upper, List.getElem?_zip_eq_some] at a1
    simp [Profile.upper, Profile.thickened, List.getElem?_zip_eq_some, a1.1, a1.2]
  · refine k3 j x q (Or.inr ⟨?_, a2⟩)
    simp only [Profile.lower, List.getElem?_zip_eq_some] at a1
    simp [Profile.lower, Profile.thickened, List.getElem?_zip_eq_some, a1.1, a1.2]

/-- **C131** For sections on common abscissae with their reference point on the axis, the thickness array of a blade is the same as setting
the thickness of the sections beforehand: the blade of the sections after `set_thickness_max(t / |c|)`, without thickness array, has the same
coordinates and sections. -/
theorem C131_same_as_sections (b b' : Blade) (refl : Bool) (hW : b.WellFormed) (T : Arr) (ht : b.thickness = some T) (hf : b.camber = none)
    (hx : ∀ P ∈ b.sections, P.xup = P.xdown) (hc0 : ∀ c ∈ b.chord, c ≠ 0)
    (h0 : ∀ P ∈ b.sections, ∀ ref, P.referencePoint = .ok ref → ref.2 = 0) (h : b.applyTransformations refl = (b', .ok ())) :
    ∃ S : List Profile, S.length = b.sections.length ∧
      (∀ (i : Nat) (P : Profile) (c : ℝ), b.sections[i]? = some P → b.chord[i]? = some c →
        ∃ τ Q, T[i]? = some τ ∧ S[i]? = some Q ∧ P.setThicknessMax (τ / |c|) = .ok Q) ∧
      ({ b with thickness := none, sections := S } : Blade).applyTransformations refl = ({ b' with thickness := none }, .ok ()) := by
  obtain ⟨S, hSl, hS, hrun⟩ := C131_thickness b b' refl hW T ht hf h
  refine ⟨S, hSl, ?_, hrun⟩
  intro i P c hP hc
  obtain ⟨ref, ρ, τ, g1, g2, g3, g4⟩ := hS i P c hP hc
  have hPm := List.mem_of_getElem? hP
  obtain ⟨m, hm, hρ⟩ := g4 (hx P hPm)
  refine ⟨τ, _, g2, g3, ?_⟩
  have hcn : |c| ≠ 0 := abs_ne_zero.2 (hc0 c (List.mem_of_getElem? hc))
  unfold Profile.setThicknessMax
  simp only [hm, bind, Except.bind, pure, Except.pure]
  rw [h0 P hPm ref g1]
  have hr : (if m ≠ 0 then τ / |c| / m else 0) = ρ := by
    rw [hρ]
    by_cases hm0 : m = 0
    · simp [hm0]
    · rw [if_pos hm0, if_neg (mul_ne_zero hcn hm0), div_div]
  rw [hr]
  simp only [Profile.thickened, zero_add, sub_zero, mul_comm ρ]

/-- **C131** All points of a blade with a thickness array: the point `(x, y)` of the given section stands where, without the array, the point
`(x, y₀ + ρ (y - y₀))` would stand, `y₀` being the height of the reference point. -/
theorem C131_points (b b' : Blade) (refl : Bool) (hW : b.WellFormed) (T : Arr) (ht : b.thickness = some T) (hf : b.camber = none)
    (hU : ∀ P ∈ b.sections, P.Uniform) (h : b.applyTransformations refl = (b', .ok ()))
    (i : Nat) (P : Profile) (r c p k s τ : ℝ) (hP : b.sections[i]? = some P) (hr : b.radii[i]? = some r) (hc : b.chord[i]? = some c)
    (hp : b.pitch[i]? = some p) (hk : b.rake[i]? = some k) (hs : b.skew[i]? = some s) (hτ : T[i]? = some τ) :
    ∃ ref ρ, P.referencePoint = .ok ref ∧
      b'.coordsUp[b.sections.length - 1 - i]? =
        some (P.upper.map fun q => wrap r (placed refl r c p k s ref (q.1, ref.2 + ρ * (q.2 - ref.2)))) ∧
      b'.coordsDown[b.sections.length - 1 - i]? =
        some (P.lower.map fun q => wrap r (placed refl r c p k s ref (q.1, ref.2 + ρ * (q.2 - ref.2)))) ∧
      (P.xup = P.xdown → ∃ m, P.maxThickness none = .ok m ∧ ρ = if |c| * m = 0 then 0 else τ / (|c| * m)) := by
  obtain ⟨S, hSl, hS, hrun⟩ := C131_thickness b b' refl hW T ht hf h
  obtain ⟨ref, ρ, τ', g1, g2, g3, g4⟩ := hS i P c hP hc
  obtain rfl : τ' = τ := by rw [g2] at hτ; exact Option.some.inj hτ
  have hWS : ({ b with thickness := none, sections := S } : Blade).WellFormed := by
    simp only [Blade.WellFormed, hSl]; exact hW
  have hUS : ∀ Q ∈ S, Q.Uniform := by
    intro Q hQ
    obtain ⟨j, hj, rfl⟩ := List.mem_iff_getElem.1 hQ
    have hjs : j < b.sections.length := by omega
    obtain ⟨rj, ρj, τj, -, -, m3, -⟩ := hS j b.sections[j] (b.chord[j]'(by have := hW.2.1; omega)) (List.getElem?_eq_getElem hjs) (List.getElem?_eq_getElem _)
    rw [List.getElem?_eq_getElem hj] at m3
    rw [Option.some.inj m3]
    exact thickened_uniform (hU _ (List.getElem_mem hjs)) _ _
  obtain ⟨-, -, hpl⟩ := C46_placed _ _ refl hWS rfl hf hUS hrun
  obtain ⟨ref', Q, k1, -, k3, k4, k5, -⟩ := hpl i _ r c p k s g3 hr hc hp hk hs
  rw [Profile.thickened_reference g1 ρ] at k1
  obtain rfl := Except.ok.inj k1
  obtain ⟨-, -, h6⟩ := C48_reversed _ _ refl hWS hrun
  obtain ⟨h7, h8, -⟩ := h6 i Q r k3 hr
  refine ⟨_, ρ, g1, ?_, ?_, g4⟩
  · have : b'.coordsUp[S.length - 1 - i]? = some (Q.upper.map (wrap r)) := h7
    rw [← hSl, this, k4]
    simp only [Profile.upper, Profile.thickened, List.zip_map_right, List.map_map, Option.some.injEq]
    exact List.map_congr_left fun q _ => rfl
  · have : b'.coordsDown[S.length - 1 - i]? = some (Q.lower.map (wrap r)) := h8
    rw [← hSl, this, k5]
    simp only [Profile.lower, Profile.thickened, List.zip_map_right, List.map_map, Option.some.injEq]
    exact List.map_congr_left fun q _ => rfl

/-- The new ordinates after `deform_camber_line` on common abscissae. -/
private theorem deform_same {P Q : Profile} {p : ℝ} (hU : P.Uniform) (hx : P.xup = P.xdown) (h : P.deformCamberLine p none = .ok Q) :
    Q.Uniform ∧ Q.xup = P.xup ∧ Q.xdown = P.xdown ∧
      ∀ (j : Nat) (u d : ℝ), P.yup[j]? = some u → P.ydown[j]? = some d →
        Q.yup[j]? = some ((p / 100 + 1) * ((u + d) / 2) + |u - d| / 2) ∧ Q.ydown[j]? = some ((p / 100 + 1) * ((u + d) / 2) - |u - d| / 2) := by
  refine ⟨((Profile.deform_points hU h).1 hx).1, ?_⟩
  obtain ⟨u1, u2, u3⟩ := hU
  unfold Profile.deformCamberLine at h
  rw [bndA] at h
  obtain ⟨P1, h1, h⟩ := h
  rw [bndA] at h
  obtain ⟨m, hm, h⟩ := h
  rw [Profile.effectiveN_same hx none (by simp)] at hm
  obtain rfl := Except.ok.inj hm
  unfold Profile.computeCamberLine at h1
  rw [Profile.effectiveN_same hx none (by simp)] at h1
  simp only [bind, Except.bind] at h1
  rw [bzip_eq_len (by omega)] at h1
  simp only [npArray2] at h1
  rw [if_pos (by simp; omega)] at h1
  obtain rfl := Except.ok.inj (show Except.ok _ = Except.ok P1 from h1)
  simp only [bind, Except.bind, pure, Except.pure] at h
  rw [bzip_eq_len (by omega)] at h
  simp only at h
  rw [bzip_eq_len (by simp; omega)] at h
  simp only at h
  rw [bzip_eq_len (by simp; omega)] at h
  obtain rfl := Except.ok.inj (show Except.ok _ = Except.ok Q from h)
  refine ⟨rfl, rfl, ?_⟩
  intro j u d hu hd
  simp only [Option.getD_some, List.getElem?_zipWith, List.getElem?_map, hu, hd, Option.map_some, Option.some.injEq]
  constructor <;> ring

/-- **C131** All points of a section on common abscissae of a blade with a camber array, with or without a thickness array (the last section
apart, which `apply_transformations` leaves as in `C131_points`): measured from the reference point and in units of length of the blade, the
mean line is multiplied by `κ`, the prescribed camber over the one `max_camber` finds on the scaled and thickened section, and half the thickness is
laid on either side of it, the upper surface above even if the chord is negative; then the section is placed. -/
theorem C131_camber (b b' : Blade) (refl : Bool) (hW : b.WellFormed) (F : Arr) (hf : b.camber = some F)
    (h : b.applyTransformations refl = (b', .ok ())) (i : Nat) (hi : i + 1 < b.sections.length)
    (P : Profile) (r c p k s f : ℝ) (hP : b.sections[i]? = some P) (hr : b.radii[i]? = some r) (hc : b.chord[i]? = some c)
    (hp : b.pitch[i]? = some p) (hk : b.rake[i]? = some k) (hs : b.skew[i]? = some s) (hF : F[i]? = some f) (hU : P.Uniform)
    (hx : P.xup = P.xdown) :
    ∃ (ref : Pt) (ρ old : ℝ) (R₀ : Profile) (up down : List Pt3), P.referencePoint = .ok ref ∧
      (b.thickness = none → ρ = 1) ∧
      (∀ T, b.thickness = some T → ∃ τ m, T[i]? = some τ ∧ P.maxThickness none = .ok m ∧ ρ = if |c| * m = 0 then 0 else τ / (|c| * m)) ∧
      (((P.thickened ref.2 ρ).translate (-ref)).mulAll c).maxCamber = .ok (old, R₀) ∧ old ≠ 0 ∧
      b'.coordsUp[b.sections.length - 1 - i]? = some up ∧ b'.coordsDown[b.sections.length - 1 - i]? = some down ∧
      up.length = P.xup.length ∧ down.length = P.xup.length ∧
      ∀ (j : Nat) (x u d : ℝ), P.upper[j]? = some (x, u) → P.lower[j]? = some (x, d) →
        up[j]? = some (wrap r (placed refl r 1 p k s (0, 0) (c * (x - ref.1),
          f / old * (c * ρ * ((u + d) / 2 - ref.2)) + |c * ρ * (u - d)| / 2))) ∧
        down[j]? = some (wrap r (placed refl r 1 p k s (0, 0) (c * (x - ref.1),
          f / old * (c * ρ * ((u + d) / 2 - ref.2)) - |c * ρ * (u - d)| / 2))) := by
  obtain ⟨-, -, h6⟩ := C48_reversed b b' refl hW h
  obtain ⟨ss, cu, cd, h1, h2, rfl⟩ := (Blade.apply_ok hW.1).1 h
  obtain ⟨hl, hall⟩ := (Blade.sectionLoop_ok _ _ _).1 h1
  have hi' : i < ss.length := by omega
  have hrun := hall i P ss[i] hP (List.getElem?_eq_getElem hi')
  rw [Nat.zero_add, Blade.runSteps_ok, Blade.steps_split, bndA] at hrun
  obtain ⟨R, t1, hrun⟩ := hrun
  rw [bndA] at hrun
  obtain ⟨S, t2, t3⟩ := hrun
  rcases href : P.referencePoint with e | ref
  · exact absurd t1 ((Blade.head_ok hc).1 e href R)
  rw [(Blade.head_ok hc).2 _ href] at t1
  obtain rfl := Except.ok.inj t1
  simp only [Blade.sectionSteps, List.drop_succ_cons, List.drop_zero, List.take_succ_cons, List.take_zero, List.foldlM_cons, List.foldlM_nil, hf,
    if_pos hi] at t2
  rw [bndA] at t2
  obtain ⟨V, v1, t2⟩ := t2
  rw [bndA] at t2
  obtain ⟨S', v2, t2⟩ := t2
  obtain rfl := Except.ok.inj t2
  -- the thickness
  have hV : ∃ ρ, V = ((P.thickened ref.2 ρ).translate (-ref)).mulAll c ∧ (b.thickness = none → ρ = 1) ∧
      (∀ T, b.thickness = some T → ∃ τ m, T[i]? = some τ ∧ P.maxThickness none = .ok m ∧ ρ = if |c| * m = 0 then 0 else τ / (|c| * m)) := by
    have e : ∀ ρ, ((P.thickened ref.2 ρ).translate (-ref)).mulAll c =
        { (P.translate (-ref)).mulAll c with
          yup := ((P.translate (-ref)).mulAll c).yup.map (· * ρ), ydown := ((P.translate (-ref)).mulAll c).ydown.map (· * ρ) } := by
      intro ρ
      simp only [Profile.thickened, Profile.translate, Profile.mulAll, List.map_map, Profile.mk.injEq, true_and, and_true, Prod.snd_neg]
      constructor <;> refine List.map_congr_left fun x _ => ?_ <;> simp only [Function.comp] <;> ring
    rcases ht : b.thickness with _ | T
    · rw [ht] at v1
      obtain rfl := Except.ok.inj v1
      refine ⟨1, ?_, fun _ => rfl, by simp⟩
      rw [e]; simp
    · rw [ht] at v1
      simp only [bndA] at v1
      obtain ⟨τ, gτ, v1⟩ := v1
      unfold Profile.setThicknessMax at v1
      rw [bndA] at v1
      obtain ⟨o, ho, v1⟩ := v1
      obtain rfl := Except.ok.inj v1
      have hnone : ∀ R : Profile, R.xup = R.xdown → R.maxThickness none = (bzip (fun a b => |a - b|) R.yup R.ydown >>= npMax) := by
        intro R hR
        unfold Profile.maxThickness
        rw [Profile.effectiveN_same hR none (by simp)]
        rfl
      have hm : ∃ m, P.maxThickness none = .ok m := by
        rw [hnone _ hx, bzip_eq_len (by have := hU.1; have := hU.2.1; have := hU.2.2; omega)]
        refine npMax_exists ?_
        intro h0
        rw [hnone _ (by simp [Profile.mulAll, Profile.translate, hx])] at ho
        simp only [Profile.mulAll, Profile.translate, List.map_map] at ho
        rw [bzip_eq_len (by have := hU.1; have := hU.2.1; have := hU.2.2; simp; omega)] at ho
        have : List.zipWith (fun a b : ℝ => |a - b|) (List.map ((fun x => x * c) ∘ fun x => x + (-ref).2) P.yup)
            (List.map ((fun x => x * c) ∘ fun x => x + (-ref).2) P.ydown) = [] := by
          rw [List.zipWith_eq_nil_iff] at h0 ⊢
          simpa using h0
        rw [this] at ho
        cases ho
      obtain ⟨m, hm⟩ := hm
      have hb : bzip (fun a b => |a - b|) (P.translate (-ref)).yup (P.translate (-ref)).ydown = bzip (fun a b => |a - b|) P.yup P.ydown := by
        have := bzip_map (fun a b => |a - b|) (· + (-ref).2) (· + (-ref).2) id (fun x y => by simp) P.yup P.ydown
        simp only [Profile.translate]
        rw [this]
        rcases bzip (fun a b => |a - b|) P.yup P.ydown with e | d <;> simp [Except.map]
      have hPx : (P.translate (-ref)).maxThickness none = P.maxThickness none := by
        rw [hnone _ hx, hnone _ (by simp [Profile.translate, hx]), hb]
      have h3 := Profile.maxThickness_mulAll c (P := P.translate (-ref)) (by simp [Profile.translate, hx]) (hPx.trans hm)
      rw [ho] at h3
      obtain rfl := Except.ok.inj h3
      refine ⟨if |c| * m = 0 then 0 else τ / (|c| * m), ?_, by simp, ?_⟩
      · rw [e]
        have : (if |c| * m ≠ 0 then τ / (|c| * m) else 0) = if |c| * m = 0 then 0 else τ / (|c| * m) := by
          by_cases h0 : |c| * m = 0 <;> simp [h0]
        rw [this]
      · intro T' hT'
        obtain rfl := Option.some.inj hT'
        exact ⟨τ, m, Blade.getIdx_ok.1 gτ, hm, rfl⟩
  obtain ⟨ρ, rfl, hρ1, hρ2⟩ := hV
  -- the camber
  rw [bndA] at v2
  obtain ⟨f', gf, v2⟩ := v2
  obtain rfl : f' = f := by
    have := Blade.getIdx_ok.1 gf
    rw [hF] at this; exact (Option.some.inj this).symm
  unfold Profile.setCamberLineMax at v2
  rw [bndA] at v2
  obtain ⟨⟨old, R₀⟩, hR₀, v2⟩ := v2
  simp only at v2
  by_cases h0 : old = 0
  · rw [if_pos h0] at v2; cases v2
  rw [if_neg h0] at v2
  have v2' : R₀.deformCamberLine (100 * (f' - old) / old) none = .ok S' := v2
  obtain ⟨e1, e2, e3, e4⟩ := Profile.maxCamber_points hR₀
  obtain ⟨u1, u2, u3⟩ := id hU
  have hR₀U : R₀.Uniform := by
    simp only [Profile.Uniform, e1, e2, e3, e4]
    simpa [Profile.mulAll, Profile.translate, Profile.thickened] using (show _ ∧ _ ∧ _ from ⟨u1, u2, u3⟩)
  obtain ⟨d1, d2, d3, d4⟩ := deform_same hR₀U (by rw [e1, e2]; simp [Profile.mulAll, Profile.translate, Profile.thickened, hx]) v2'
  rcases hr0 : decide (r = 0) with _ | _
  swap
  · exact absurd t3 ((Blade.tail_ok (refl := refl) hr hp hk hs d1).1 (by simpa using hr0) _)
  have hrne : r ≠ 0 := by simpa using hr0
  obtain ⟨Q, q1, q2, q3, -, -⟩ := (Blade.tail_ok (refl := refl) hr hp hk hs d1).2 hrne
  rw [t3] at q1
  obtain rfl := Except.ok.inj q1
  obtain ⟨h7, h8, -⟩ := h6 i ss[i] r (List.getElem?_eq_getElem hi') hr
  have lx : S'.xup.length = P.xup.length := by rw [d2, e1]; simp [Profile.mulAll, Profile.translate, Profile.thickened]
  have fac : 100 * (f' - old) / old / 100 + 1 = f' / old := by field_simp; ring
  refine ⟨ref, ρ, old, R₀, _, _, rfl, hρ1, hρ2, hR₀, h0, h7, h8, ?_, ?_, ?_⟩
  · rw [q2]; simp only [List.length_map, Profile.upper, List.length_zip]
    have := d1.1; omega
  · rw [q3]; simp only [List.length_map, Profile.lower, List.length_zip]
    have := d1.2.1; have := d1.2.2; omega
  · intro j x u d hu hd
    simp only [Profile.upper, Profile.lower, List.getElem?_zip_eq_some] at hu hd
    obtain ⟨g1, g2⟩ := d4 j ((u - ref.2) * ρ * c) ((d - ref.2) * ρ * c)
      (by rw [e3]; simp [Profile.mulAll, Profile.translate, Profile.thickened, hu.2]; left; ring)
      (by rw [e4]; simp [Profile.mulAll, Profile.translate, Profile.thickened, hd.2]; left; ring)
    have gx : S'.xup[j]? = some (c * (x - ref.1)) := by
      rw [d2, e1]; simp [Profile.mulAll, Profile.translate, Profile.thickened, hu.1]; ring
    have gx' : S'.xdown[j]? = some (c * (x - ref.1)) := by
      rw [d3, e2]; simp [Profile.mulAll, Profile.translate, Profile.thickened, hd.1]; ring
    rw [fac] at g1 g2
    have a1 : f' / old * (((u - ref.2) * ρ * c + (d - ref.2) * ρ * c) / 2) = f' / old * (c * ρ * ((u + d) / 2 - ref.2)) := by ring
    have a2 : (u - ref.2) * ρ * c - (d - ref.2) * ρ * c = c * ρ * (u - d) := by ring
    rw [a1, a2] at g1 g2
    constructor
    · rw [q2, List.getElem?_map, List.getElem?_map, show S'.upper[j]? = some (c * (x - ref.1), _) by
        simp only [Profile.upper, List.getElem?_zip_eq_some]; exact ⟨gx, g1⟩]
      rfl
    · rw [q3, List.getElem?_map, List.getElem?_map, show S'.lower[j]? = some (c * (x - ref.1), _) by
        simp only [Profile.lower, List.getElem?_zip_eq_some]; exact ⟨gx', g2⟩]
      rfl

/-! ### Non-vacuity -/

namespace Sample

/-- With a prescribed thickness the sample blade goes through; its edges are on the screw lines of its pitch. -/
example : ∃ b' S up, (trioBlade (some [1/2, 1/2]) none).applyTransformations true = (b', .ok ()) ∧
    ({ trioBlade (some [1/2, 1/2]) none with thickness := none, sections := S } : Blade).applyTransformations true =
      ({ b' with thickness := none }, .ok ()) ∧
    b'.coordsUp[0]? = some up ∧ up.head? = some (helix 2 4 1 (-(Real.pi * 10 / 180) - -1 * (2 - 0) / 2 / helixSpeed 2 4)) := by
  obtain ⟨R, h1, h2, h3⟩ := trio0_thickness
  obtain ⟨b', hb⟩ := trio_applies (some [1/2, 1/2]) none true (by
    intro i hi
    refine ⟨R, ?_, h2, h3⟩
    interval_cases i <;> simp [Blade.sectionSteps, trioBlade, getIdx, bind, Except.bind, pure, Except.pure, h1, -one_div])
  obtain ⟨S, -, -, hS⟩ := C131_same_as_sections _ b' true (by simp [trioBlade, Blade.WellFormed]) _ rfl rfl (by simp [trioBlade, trio])
    (by simp [trioBlade]) (by
      intro P hP ref hr
      have : P = trio := by simpa [trioBlade] using hP
      subst this
      rw [C06_reference_is_midpoint _ trio_ref.updateEdges] at hr
      rw [← Except.ok.inj hr]; simp [mid]) hb
  obtain ⟨up, down, k1, -, k2, -⟩ := C131_edges _ b' true (by simp [trioBlade, Blade.WellFormed]) hb 1 trio 2 1 4 1 10 rfl rfl rfl rfl rfl rfl
    (by norm_num) (by simp [trio, Profile.Uniform]) 0 2 0 (by simp [trio, Profile.Ends, Profile.upper, Profile.lower]) _ _ rfl rfl
  obtain ⟨-, -, -⟩ := C131_nose_tail _ b' true (by simp [trioBlade, Blade.WellFormed]) rfl
    (by simp [trioBlade, trio, Profile.Uniform]) hb 1 trio 2 1 4 1 10 rfl rfl rfl rfl rfl rfl (by norm_num) _
    (C06_reference_is_midpoint _ trio_ref.updateEdges)
  exact ⟨b', S, up, hb, hS, k1, by simpa using k2⟩

/-- All points of the sample blade with a prescribed thickness: the point `(1, 1/5)` of its section is laid where `(1, 1/3)` would be. -/
example : ∃ b' up, (trioBlade (some [1/2, 1/2]) none).applyTransformations true = (b', .ok ()) ∧ b'.coordsUp[0]? = some up ∧
    up[1]? = some (wrap 2 (placed true 2 1 4 1 10 (1, 0) (1, 1/3))) := by
  obtain ⟨R, h1, h2, h3⟩ := trio0_thickness
  obtain ⟨b', hb⟩ := trio_applies (some [1/2, 1/2]) none true (by
    intro i hi
    refine ⟨R, ?_, h2, h3⟩
    interval_cases i <;> simp [Blade.sectionSteps, trioBlade, getIdx, bind, Except.bind, pure, Except.pure, h1, -one_div])
  obtain ⟨ref, ρ, g1, g2, -, g3⟩ := C131_points _ b' true (by simp [trioBlade, Blade.WellFormed]) _ rfl rfl
    (by simp [trioBlade, trio, Profile.Uniform]) hb 1 trio 2 1 4 1 10 (1/2) rfl rfl rfl rfl rfl rfl rfl
  rw [C06_reference_is_midpoint _ trio_ref.updateEdges] at g1
  have hth : trio.maxThickness none = .ok (3/10) := thickness_of rfl rfl rfl
  obtain ⟨m, hm, hρ⟩ := g3 rfl
  rw [hth] at hm
  obtain rfl := Except.ok.inj hm
  obtain rfl : ref = (1, 0) := by rw [← Except.ok.inj g1]; simp [mid]
  have hρ' : ρ = 5/3 := by rw [hρ]; norm_num
  refine ⟨b', _, hb, g2, ?_⟩
  rw [hρ']
  norm_num [trio, Profile.upper]

theorem trio_camber_applies : ∃ b', (trioBlade none (some [1/10, 0])).applyTransformations true = (b', .ok ()) := by
  obtain ⟨old, Q0, hcam, hold⟩ := trio0_camber
  obtain ⟨R2, Q', hR2, ⟨u', hR2ref⟩, _⟩ := C12_set_camber trio0 Q0 trio0_ref hcam hold (1/10)
  have hcX : trio0.SameX := trio0_ref.sameX rfl
  have hdef : Q0.deformCamberLine (100 * (1/10 - old) / old) none = .ok R2 := by
    have := hR2
    unfold Profile.setCamberLineMax at this
    simpa [hcam, bind, Except.bind, hold] using this
  have hQ0 : Q0.SameX ∧ Q0.xup = trio0.xup := by
    obtain ⟨_, Q0', _, _, e1, _, ⟨s1, s2, s3, s4⟩, _⟩ := C12_max_camber_spec trio0 trio0_ref
    rw [hcam] at e1
    obtain ⟨_, rfl⟩ := Prod.mk.inj (Except.ok.inj e1)
    obtain ⟨a1, a2, a3, a4⟩ := hcX
    exact ⟨⟨by rw [s1, s2, a1], by rw [s1, s3, a2], by rw [s1, s4, a3], by rw [s1]; exact a4⟩, s1⟩
  obtain ⟨m0, hm0, _⟩ := C09_max_thickness Q0 hQ0.1
  obtain ⟨_, hR2X, hR2x⟩ := Blade.deform_thickness hQ0.1 hm0 hdef
  exact trio_applies none (some [1/10, 0]) true (by
    intro i hi
    interval_cases i
    · refine ⟨R2, ?_, Blade.sameX_uniform hR2X, by rw [hR2x, hQ0.2]; rfl⟩
      simp [Blade.sectionSteps, trioBlade, getIdx, bind, Except.bind, pure, Except.pure, hR2, -one_div]
    · refine ⟨trio0, ?_, trio0_uniform, rfl⟩
      simp [Blade.sectionSteps, trioBlade, bind, Except.bind, pure, Except.pure])

/-- All points of the first section of the sample blade with a prescribed camber. -/
example : ∃ b' up old, (trioBlade none (some [1/10, 0])).applyTransformations true = (b', .ok ()) ∧ b'.coordsUp[1]? = some up ∧ old ≠ 0 ∧
    up[1]? = some (wrap 1 (placed true 1 1 2 0 0 (0, 0) (0, 1/10 / old * (1/20) + 3/20))) := by
  obtain ⟨b', hb⟩ := trio_camber_applies
  obtain ⟨ref, ρ, old, R0, up, down, g1, g2, -, -, g3, g4, -, -, -, g5⟩ := C131_camber _ b' true (by simp [trioBlade, Blade.WellFormed])
    _ rfl hb 0 (by simp [trioBlade]) trio 1 1 2 0 0 (1/10) rfl rfl rfl rfl rfl rfl rfl (by simp [trio, Profile.Uniform]) rfl
  rw [C06_reference_is_midpoint _ trio_ref.updateEdges] at g1
  obtain rfl : ref = (1, 0) := by rw [← Except.ok.inj g1]; simp [mid]
  obtain rfl := g2 rfl
  have := (g5 1 1 (1/5) (-1/10) (by simp [trio, Profile.upper]) (by simp [trio, Profile.lower])).1
  refine ⟨b', up, old, hb, g4, g3, ?_⟩
  rw [this]
  norm_num [abs_of_pos]

end Sample

end
end BladeX
