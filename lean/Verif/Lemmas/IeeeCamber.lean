import Verif.Lemmas.IeeeBlade
import Verif.Props.BladeShape

/-! # A profile without camber, and `set_camber_line_max` -/

namespace BladeX
noncomputable section
open Classical
namespace Ieee

theorem wild_cases {a : Ieee} (h : ¬ a.IsFinite) : a = nan ∨ ∃ s, a = inf s := by
  cases a with
  | fin x => exact absurd ⟨x, rfl⟩ h
  | inf s => exact .inr ⟨s, rfl⟩
  | nan => exact .inl rfl

theorem wild_nan : ¬ nan.IsFinite := by rintro ⟨x, hx⟩; cases hx

theorem wild_inf (s : Bool) : ¬ (inf s).IsFinite := by rintro ⟨x, hx⟩; cases hx

theorem add_wild {a : Ieee} (h : ¬ a.IsFinite) (x : ℝ) : ¬ (add a (fin x)).IsFinite := by
  rcases wild_cases h with rfl | ⟨s, rfl⟩
  · exact wild_nan
  · exact wild_inf s

theorem sub_wild {a : Ieee} (h : ¬ a.IsFinite) (x : ℝ) : ¬ (sub a (fin x)).IsFinite := by
  rcases wild_cases h with rfl | ⟨s, rfl⟩
  · exact wild_nan
  · exact wild_inf s

theorem mul_wild {a : Ieee} (h : ¬ a.IsFinite) (x : ℝ) : ¬ (mul (fin x) a).IsFinite := by
  rcases wild_cases h with rfl | ⟨s, rfl⟩
  · exact wild_nan
  · show ¬ (if x = 0 then nan else inf (decide (x < 0) != s)).IsFinite
    split
    · exact wild_nan
    · exact wild_inf _

theorem mul_zero_wild {a : Ieee} (h : ¬ a.IsFinite) : mul (fin 0) a = nan := by
  rcases wild_cases h with rfl | ⟨s, rfl⟩
  · rfl
  · simp [mul]

theorem factor_wild {a : Ieee} (h : ¬ a.IsFinite) : ¬ (add (div false a (fin 100)) (fin 1)).IsFinite := by
  refine add_wild ?_ 1
  rcases wild_cases h with rfl | ⟨s, rfl⟩
  · exact wild_nan
  · have : ((100 : ℝ) = 0) = False := by simp
    simp only [div, this, if_false]
    exact wild_inf _

theorem zip_shape {f : ℝ → ℝ → ℝ} {a b r : Arr} (h : bzip f a b = .ok r) (g : Ieee → Ieee → Ieee) {a' b' : List Ieee}
    (ha : a'.length = a.length) (hb : b'.length = b.length) :
    ∃ r', zip g a' b' = .ok r' ∧ r'.length = r.length ∧ ∀ y ∈ r', ∃ s ∈ a', ∃ t ∈ b', y = g s t := by
  unfold bzip at h
  unfold zip
  rw [ha, hb]
  by_cases hl : a.length = b.length
  · rw [if_pos hl] at h ⊢
    obtain rfl := Except.ok.inj h
    refine ⟨_, rfl, by simp [ha, hb], fun y hy => ?_⟩
    obtain ⟨i, hi⟩ := List.getElem?_of_mem hy
    rw [List.getElem?_zipWith] at hi
    rcases hx : a'[i]? with _ | x
    · simp [hx] at hi
    rcases hy : b'[i]? with _ | w
    · simp [hx, hy] at hi
    rw [hx, hy] at hi
    exact ⟨x, List.mem_of_getElem? hx, w, List.mem_of_getElem? hy, (Option.some.inj hi).symm⟩
  · rw [if_neg hl] at h ⊢
    match a, b, a', b', ha, hb with
    | [x], b, [x'], b', _, hb =>
      obtain rfl := Except.ok.inj h
      refine ⟨b'.map (g x'), rfl, by simp [hb], fun y hy => ?_⟩
      obtain ⟨w, hw, rfl⟩ := List.mem_map.1 hy
      exact ⟨x', by simp, w, hw, rfl⟩
    | [], [y], [], [y'], _, _ =>
      obtain rfl := Except.ok.inj h
      exact ⟨[], rfl, rfl, by simp⟩
    | x :: x2 :: a, [y], x' :: x2' :: a', [y'], ha, _ =>
      obtain rfl := Except.ok.inj h
      refine ⟨(x' :: x2' :: a').map fun t => g t y', rfl, ?_, fun w hw => ?_⟩
      · rw [List.length_map, List.length_map]; exact ha
      · obtain ⟨v, hv, rfl⟩ := List.mem_map.1 hw
        exact ⟨v, hv, y', by simp, rfl⟩
    | [], [], _, _, _, _ => exact absurd rfl hl
    | [], _ :: _ :: _, _, _, _, _ => cases h
    | _ :: _ :: _, [], _, _, _, _ => cases h
    | _ :: _ :: _, _ :: _ :: _, _, _, _, _ => cases h

/-- `deform_camber_line` with an infinite or undefined percentage. -/
theorem deform_wild {P R : Profile} {p : ℝ} {n : Option Int} (h : P.deformCamberLine p n = .ok R) {q : Ieee} (hq : ¬ q.IsFinite) :
    ∃ F, deformCamberLine P q n = .ok F ∧ F.xup = R.xup.map fin ∧ F.xdown = R.xdown.map fin ∧ F.yup.length = R.yup.length ∧
      F.ydown.length = R.ydown.length ∧ (∀ y ∈ F.yup ++ F.ydown, ¬ y.IsFinite) ∧
      (∀ P1 cl, P.computeCamberLine n = .ok P1 → P1.camberLine = some cl → (∀ y ∈ cl.2, y = 0) → ∀ y ∈ F.yup ++ F.ydown, y = nan) := by
  unfold Profile.deformCamberLine at h
  obtain ⟨P1, h1, h⟩ := Profile.bndA.1 h
  obtain ⟨m, h2, h⟩ := Profile.bndA.1 h
  obtain ⟨P2, h3, h⟩ := Profile.bndA.1 h
  obtain ⟨half, h4, h⟩ := Profile.bndA.1 h
  obtain ⟨yu, h5, h⟩ := Profile.bndA.1 h
  obtain ⟨yd, h6, h⟩ := Profile.bndA.1 h
  obtain rfl := Except.ok.inj h
  obtain ⟨φ, hφ⟩ : ∃ φ, φ = add (div false q (fin 100)) (fin 1) := ⟨_, rfl⟩
  have hwild : ¬ φ.IsFinite := by rw [hφ]; exact factor_wild hq
  obtain ⟨yu', e5, l5, m5⟩ := zip_shape h5 add (a' := (P1.camberLine.getD ([], [])).2.map fun y => mul (fin y) φ) (b' := half.map fin)
    (by simp) (by simp)
  obtain ⟨yd', e6, l6, m6⟩ := zip_shape h6 sub (a' := (P1.camberLine.getD ([], [])).2.map fun y => mul (fin y) φ) (b' := half.map fin)
    (by simp) (by simp)
  have hdef : deformCamberLine P q n = .ok ⟨P2.xup.map fin, P2.xdown.map fin, yu', yd'⟩ := by
    unfold deformCamberLine
    rw [h1]
    simp only [← hφ]
    show P.effectiveN n >>= _ = _
    rw [h2]
    refine Profile.bndA.2 ⟨m, rfl, ?_⟩
    refine Profile.bndA.2 ⟨P2, h3, Profile.bndA.2 ⟨half, h4, Profile.bndA.2 ⟨yu', e5, Profile.bndA.2 ⟨yd', e6, rfl⟩⟩⟩⟩
  refine ⟨_, hdef, rfl, rfl, l5, l6, ?_, ?_⟩
  · intro y hy
    rcases List.mem_append.1 hy with hy | hy
    · obtain ⟨s, hs, t, ht, rfl⟩ := m5 y hy
      obtain ⟨v, _, rfl⟩ := List.mem_map.1 hs
      obtain ⟨w, _, rfl⟩ := List.mem_map.1 ht
      exact add_wild (mul_wild hwild v) w
    · obtain ⟨s, hs, t, ht, rfl⟩ := m6 y hy
      obtain ⟨v, _, rfl⟩ := List.mem_map.1 hs
      obtain ⟨w, _, rfl⟩ := List.mem_map.1 ht
      exact sub_wild (mul_wild hwild v) w
  · intro P1' cl hP1' hcl h0 y hy
    rw [h1] at hP1'
    obtain rfl := Except.ok.inj hP1'
    rcases List.mem_append.1 hy with hy | hy
    · obtain ⟨s, hs, t, ht, rfl⟩ := m5 y hy
      obtain ⟨v, hv, rfl⟩ := List.mem_map.1 hs
      rw [hcl] at hv
      rw [h0 v hv, mul_zero_wild hwild]; rfl
    · obtain ⟨s, hs, t, ht, rfl⟩ := m6 y hy
      obtain ⟨v, hv, rfl⟩ := List.mem_map.1 hs
      rw [hcl] at hv
      rw [h0 v hv, mul_zero_wild hwild]
      cases t <;> rfl

/-- The percentage computed from an old camber of zero. -/
theorem percent_wild (w : Bool) (c : ℝ) : ¬ (div w (mul (fin 100) (sub (fin c) (fin 0))) (fin 0)).IsFinite := by
  have : mul (fin 100) (sub (fin c) (fin 0)) = fin (100 * (c - 0)) := rfl
  rw [this]
  show ¬ (if (0 : ℝ) = 0 then (if 100 * (c - 0) = 0 then nan else inf (decide (100 * (c - 0) < 0) != w)) else fin (100 * (c - 0) / 0)).IsFinite
  rw [if_pos rfl]
  split
  · exact wild_nan
  · exact wild_inf _

theorem setCamber_wild {P Q0 : Profile} (h : P.maxCamber = .ok (0, Q0)) (z w : Bool) (c : ℝ) :
    ∃ q, ¬ q.IsFinite ∧ setCamberLineMax z w P c = deformCamberLine P q := by
  refine ⟨_, percent_wild w c, ?_⟩
  unfold setCamberLineMax
  rw [(maxCamber_agrees z P (some 500)).returns _ h]
  rfl

end Ieee

theorem interpW_neg {r : ℝ} {X : List ℝ} {y : Arr} (x : ℝ) : interpW r X (y.map (- ·)) x = - interpW r X y x := by
  have := interpW_smul (r := r) (X := X) (y := y) (-1) x
  rw [show (y.map (· * (-1))) = y.map (- ·) from List.map_congr_left fun v _ => by ring] at this
  rw [this]; ring

/-- A symmetric foil has no camber. -/
theorem Profile.Symmetric.maxCamber {P : Profile} (hs : P.Symmetric) {x0 x1 u : ℝ} (h : P.RefPosition x0 x1 u) :
    ∃ Q, P.maxCamber = .ok (0, Q) := by
  obtain ⟨K, hK⟩ : ∃ K : Nat, (K : Int) = 500 := ⟨500, rfl⟩
  obtain ⟨cl, cb, hm⟩ := h.maxCamber (n := K) (by omega)
  rw [hK] at hm
  have hmean : P.meanInterp = fun _ => 0 := by
    funext x
    unfold Profile.meanInterp
    rw [hs.1, hs.2, interpW_neg]; ring
  have hpk : peak ((linspaceN x0 x1 K).map P.meanInterp) = 0 := by
    have hne : (linspaceN x0 x1 K).map P.meanInterp ≠ [] := by
      intro hc
      have := congrArg List.length hc
      simp [linspaceN_length] at this
      omega
    have := peak_mem hne
    rw [hmean] at this ⊢
    obtain ⟨_, _, h0⟩ := List.mem_map.1 this
    exact h0.symm
  rw [hpk] at hm
  exact ⟨_, hm⟩

namespace Ieee

/-- `set_camber_line_max` on a symmetric foil. -/
theorem setCamber_symmetric {P : Profile} (hs : P.Symmetric) {x0 x1 u : ℝ} (h : P.RefPosition x0 x1 u) (z w : Bool) (c : ℝ) :
    ∃ F, setCamberLineMax z w P c = .ok F ∧ F.xup = P.xup.map fin ∧ F.xdown = P.xdown.map fin ∧
      F.yup = List.replicate P.xup.length nan ∧ F.ydown = List.replicate P.xup.length nan := by
  obtain ⟨Q0, hQ0⟩ := hs.maxCamber h
  obtain ⟨q, hq, he⟩ := setCamber_wild hQ0 z w c
  have hS : P.SameX := h.sameX hs.1.symm
  obtain ⟨R, hR, hxu, hxd, _, hyu, hyd⟩ := Profile.deform_same hS 0
  obtain ⟨F, hF, e1, e2, e3, e4, _, hnan⟩ := deform_wild hR hq
  have hud : P.yup.length = P.ydown.length := by rw [hS.2.1, hS.2.2.1]
  have hcam : ∃ P1 cl, P.computeCamberLine none = .ok P1 ∧ P1.camberLine = some cl ∧ ∀ y ∈ cl.2, y = 0 := by
    unfold Profile.computeCamberLine
    rw [Profile.effectiveN_same hs.1.symm none (by simp)]
    simp only [bind, Except.bind]
    rw [bzip_eq_len hud.symm]
    have : P.xup.length = (List.zipWith (fun a b => 0.5 * (a + b)) P.ydown P.yup).length := by
      simp [hS.2.1, hS.2.2.1]
    simp only [npArray2, if_pos this]
    refine ⟨_, _, rfl, rfl, fun y hy => ?_⟩
    simp only [hs.2, List.zipWith_map_left, List.zipWith_self, List.mem_map] at hy
    obtain ⟨v, _, rfl⟩ := hy
    ring
  obtain ⟨P1, cl, h1, h2, h3⟩ := hcam
  have hall := hnan P1 cl h1 h2 h3
  have lu : R.yup.length = P.xup.length := by rw [hyu]; simp [hud, ← hS.2.2.1]
  have ld : R.ydown.length = P.xup.length := by rw [hyd]; simp [hud, ← hS.2.2.1]
  refine ⟨F, he.trans hF, by rw [e1, hxu], by rw [e2, hxd], ?_, ?_⟩
  · exact List.eq_replicate_iff.2 ⟨e3.trans lu, fun y hy => hall y (by simp [hy])⟩
  · exact List.eq_replicate_iff.2 ⟨e4.trans ld, fun y hy => hall y (by simp [hy])⟩

theorem symmetric_mulAll {P : Profile} (h : P.Symmetric) (v c : ℝ) : ((P.translate (v, 0)).mulAll c).Symmetric := by
  refine ⟨by simp [Profile.mulAll, Profile.translate, h.1], ?_⟩
  simp only [Profile.mulAll, Profile.translate, h.2, List.map_map]
  refine List.map_congr_left fun y _ => ?_
  simp only [Function.comp]; ring

/-- The first three statements of the loop body keep a section symmetric and in reference position. -/
theorem head_symmetric {b : Blade} {refl : Bool} {i : Nat} {c : ℝ} (hc : b.chord[i]? = some c) (hc0 : c ≠ 0) {P G : Profile} {x0 x1 u : ℝ}
    (hs : P.Symmetric) (h : P.RefPosition x0 x1 u)
    (hG : ((Blade.sectionSteps b refl i).take 3).foldlM (fun P f => f P) P = (.ok G : Res Profile)) :
    G.Symmetric ∧ ∃ x0 x1 u, G.RefPosition x0 x1 u := by
  have href : P.referencePoint = .ok ((x0 + x1) / 2, 0) := by
    rw [C06_reference_is_midpoint P h.updateEdges]; simp [Spec.mid]
  have hhead := (Blade.head_ok (refl := refl) hc (P := P)).2 _ href
  rw [show (-(((x0 + x1) / 2, 0) : Pt)) = (-((x0 + x1) / 2), 0) by ext <;> simp] at hhead
  rw [show (Blade.sectionSteps b refl i).take 3 = (Blade.sectionSteps b refl i).take 2 ++ ((Blade.sectionSteps b refl i).drop 2).take 1
    from rfl, List.foldlM_append, hhead] at hG
  set R0 := (P.translate (-((x0 + x1) / 2), 0)).mulAll c with hR0
  have hR0s : R0.Symmetric := symmetric_mulAll hs _ _
  have hR0r := Blade.mulAll_ref (v := -((x0 + x1) / 2)) h hc0
  rw [← hR0] at hR0r
  simp only [Blade.sectionSteps, List.drop, List.take, List.foldlM_cons, List.foldlM_nil, bind_pure] at hG
  have hG : (match b.thickness with
      | none => .ok R0
      | some t => do R0.setThicknessMax (← getIdx t i) : Res Profile) = .ok G := hG
  cases ht : b.thickness with
  | none =>
    rw [ht] at hG
    obtain rfl := Except.ok.inj hG
    exact ⟨hR0s, _, _, _, hR0r⟩
  | some t =>
    rw [ht] at hG
    obtain ⟨τ, _, hG⟩ := Profile.bndA.1 hG
    unfold Profile.setThicknessMax at hG
    obtain ⟨old, _, hG⟩ := Profile.bndA.1 hG
    obtain rfl := Except.ok.inj hG
    refine ⟨⟨hR0s.1, ?_⟩, _, _, _, (Blade.scaleY_ref hR0r _)⟩
    simp only [hR0s.2, List.map_map]
    refine List.map_congr_left fun y _ => ?_
    simp only [Function.comp]; ring

theorem add_nan (a : Ieee) : add a nan = nan := by cases a <;> rfl
theorem mul_nan (a : Ieee) : mul a nan = nan := by cases a <;> rfl

/-- Ordinates that are all `nan` spread to the abscissae in the rotation. -/
theorem tail_nan {z : Signs} {b : Blade} {refl : Bool} {i : Nat} {p r s k : ℝ} (hp : b.pitch[i]? = some p) (hr : b.radii[i]? = some r)
    (hs : b.skew[i]? = some s) (hk : b.rake[i]? = some k) {F : Foil} {n : Nat} (hg : F.Good n n) (hyu : ∀ y ∈ F.yup, y = nan)
    (hyd : ∀ y ∈ F.ydown, y = nan) :
    ∃ G, tailSteps z b refl i F = .ok G ∧ G.Good n n ∧ ∀ y ∈ G.xup ++ G.xdown ++ G.yup ++ G.ydown, y = nan := by
  set F' := (if refl then F.reflect else F) with hF'
  have hg' : F'.Good n n := by
    cases refl
    · exact hg
    · exact hg.reflect
  have hyu' : ∀ y ∈ F'.yup, y = nan := by
    cases refl
    · exact hyu
    · intro y hy
      obtain ⟨w, hw, rfl⟩ := List.mem_map.1 hy
      simp only [hyu w hw]; rfl
  have hyd' : ∀ y ∈ F'.ydown, y = nan := by
    cases refl
    · exact hyd
    · intro y hy
      obtain ⟨w, hw, rfl⟩ := List.mem_map.1 hy
      simp only [hyd w hw]; rfl
  have hcols : ∀ (C S : Ieee) (xs ys : List Ieee), xs.length = n → ys.length = n → (∀ y ∈ ys, y = nan) →
      ∀ q ∈ Foil.rotCols C S n xs ys, q = (nan, nan) := by
    intro C S xs ys h1 h2 hn q hq
    obtain ⟨j, hj⟩ := List.getElem?_of_mem hq
    unfold Foil.rotCols at hj
    rw [List.getElem?_mapIdx] at hj
    rcases hz : (List.zip xs ys)[j]? with _ | v
    · simp [hz] at hj
    rw [hz] at hj
    have hjn : j < n := by
      have := (List.getElem?_eq_some_iff.1 hz).1
      simp [h1, h2] at this; exact this
    have hv : v.2 = nan := hn _ (List.of_mem_zip (List.mem_of_getElem? hz)).2
    obtain rfl := Option.some.inj hj
    simp only [hjn, if_true, hv, mul_nan, add_nan]
  obtain ⟨G, hG, hGg, ht⟩ := tail_good (z := z) (refl := refl) hp hr hs hk hg
  rw [Foil.rotate_ok hg'] at hG
  obtain rfl := Except.ok.inj hG
  have cu := hcols (cos (sub (fin (Real.pi / 2)) (pitchAngle (z.radius i) p r))) (sin (sub (fin (Real.pi / 2)) (pitchAngle (z.radius i) p r)))
    F'.xup F'.yup hg'.xup hg'.yup hyu'
  have cd := hcols (cos (sub (fin (Real.pi / 2)) (pitchAngle (z.radius i) p r))) (sin (sub (fin (Real.pi / 2)) (pitchAngle (z.radius i) p r)))
    F'.xdown F'.ydown hg'.xdown hg'.ydown hyd'
  refine ⟨_, ht, (hGg.translate _).translate _, fun y hy => ?_⟩
  simp only [Foil.translate, List.map_map, List.mem_append, List.mem_map, Function.comp] at hy
  rcases hy with ((⟨q, hq, rfl⟩ | ⟨q, hq, rfl⟩) | ⟨q, hq, rfl⟩) | ⟨q, hq, rfl⟩
  · rw [cu q hq]; rfl
  · rw [cd q hq]; rfl
  · rw [cu q hq]; rfl
  · rw [cd q hq]; rfl

end Ieee
end
end BladeX
