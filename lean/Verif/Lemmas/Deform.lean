import Verif.Lemmas.Camber

namespace BladeX
open Spec
namespace Profile

/-- Closed form of `deform_camber_line` without interpolation. -/
theorem deform_same {P : Profile} (h : P.SameX) (p : ℝ) :
    ∃ Q, P.deformCamberLine p none = .ok Q ∧ Q.xup = P.xup ∧ Q.xdown = P.xdown ∧ Q.par = P.par ∧
      Q.yup = List.zipWith (fun u d => (p / 100 + 1) * ((u + d) / 2) + |u - d| / 2) P.yup P.ydown ∧
      Q.ydown = List.zipWith (fun u d => (p / 100 + 1) * ((u + d) / 2) - |u - d| / 2) P.yup P.ydown := by
  obtain ⟨hx, hu, hd, hne⟩ := h
  have hN : P.effectiveN none = .ok none := effectiveN_same hx.symm none (by simp)
  have hud : P.yup.length = P.ydown.length := by omega
  have hmean : bzip (fun a b => 0.5 * (a + b)) P.ydown P.yup =
    .ok (List.zipWith (fun a b => 0.5 * (a + b)) P.ydown P.yup) := bzip_eq_len hud.symm
  have hhalf : bzip (fun a b => 0.5 * |a - b|) P.yup P.ydown =
    .ok (List.zipWith (fun a b => 0.5 * |a - b|) P.yup P.ydown) := bzip_eq_len hud
  have harr : npArray2 P.xup (List.zipWith (fun a b => 0.5 * (a + b)) P.ydown P.yup) =
      .ok (P.xup, List.zipWith (fun a b => 0.5 * (a + b)) P.ydown P.yup) := by
    simp [npArray2, hud, ← hd]
  set cam := (List.zipWith (fun a b => 0.5 * (a + b)) P.ydown P.yup).map (· * (p / 100 + 1)) with hcam
  set half := List.zipWith (fun a b => 0.5 * |a - b|) P.yup P.ydown with hh
  have hl : cam.length = half.length := by simp [hcam, hh, hud]
  refine ⟨{ P with
    yup := List.zipWith (· + ·) cam half
    ydown := List.zipWith (· - ·) cam half
    camberLine := some (P.xup, cam) }, ?_, rfl, rfl, rfl, ?_, ?_⟩
  · unfold deformCamberLine computeCamberLine
    simp only [hN, bind, Except.bind, pure, Except.pure, hmean, harr, hhalf, Option.getD_some]
    rw [← hcam]
    simp only [bzip_eq_len hl]
  · apply List.ext_getElem
    · simp [hcam, hh, hud]
    · intro i h1 h2
      simp [hcam, hh]
      ring
  · apply List.ext_getElem
    · simp [hcam, hh, hud]
    · intro i h1 h2
      simp [hcam, hh]
      ring

/-- Closed form of `deform_camber_line` with interpolation, in reference position. -/
theorem deform_interp {P : Profile} {x0 x1 u : ℝ} (h : P.RefPosition x0 x1 u) (hx : P.xup ≠ P.xdown) (p : ℝ)
    {K : Nat} (hK : (K : Int) = 500) :
    ∃ Q, P.deformCamberLine p none = .ok Q ∧ Q.xup = linspaceN x0 x1 K ∧ Q.xdown = linspaceN x0 x1 K ∧
      Q.yup = (linspaceN x0 x1 K).map (fun x => (p / 100 + 1) * P.meanInterp x +
        |interpW 1 P.xup P.yup x - interpW 1 P.xdown P.ydown x| / 2) ∧
      Q.ydown = (linspaceN x0 x1 K).map (fun x => (p / 100 + 1) * P.meanInterp x -
        |interpW 1 P.xup P.yup x - interpW 1 P.xdown P.ydown x| / 2) := by
  have hN : P.effectiveN none = .ok (some 500) := effectiveN_diff h.len hx
  set S := linspaceN x0 x1 K with hS
  have hI := h.interp (n := K) (by omega)
  have hC := h.camberLine (n := K) (by omega) (m := none) (by rw [hK]; exact hN)
  rw [hK] at hI
  rw [← hS] at hI hC
  refine ⟨{ P with
    xup := S, xdown := S
    yup := S.map (fun x => (p / 100 + 1) * P.meanInterp x +
        |interpW 1 P.xup P.yup x - interpW 1 P.xdown P.ydown x| / 2)
    ydown := S.map (fun x => (p / 100 + 1) * P.meanInterp x -
        |interpW 1 P.xup P.yup x - interpW 1 P.xdown P.ydown x| / 2)
    camberLine := some (S, (S.map P.meanInterp).map (· * (p / 100 + 1))) }, ?_, rfl, rfl, rfl, rfl⟩
  unfold deformCamberLine
  simp only [hN, hC, hI, bind, Except.bind, pure, Except.pure, Option.getD_some]
  rw [bzip_eq_len (by simp)]
  simp only [zipWith_map_same, List.map_map]
  rw [bzip_eq_len (by simp), bzip_eq_len (by simp)]
  simp only [zipWith_map_same, Except.ok.injEq, mk.injEq, true_and, and_true]
  constructor
  · congr 1; funext x; simp only [Function.comp]; ring
  · congr 1; funext x; simp only [Function.comp]; ring

theorem zipWith_head? {α β γ} (f : α → β → γ) {a : List α} {b : List β} {x : α} {y : β} (ha : a.head? = some x)
    (hb : b.head? = some y) : (List.zipWith f a b).head? = some (f x y) := by
  cases a <;> cases b <;> simp_all

theorem zipWith_getLast? {α β γ} (f : α → β → γ) {a : List α} {b : List β} (hl : a.length = b.length) {x : α} {y : β}
    (ha : a.getLast? = some x) (hb : b.getLast? = some y) : (List.zipWith f a b).getLast? = some (f x y) := by
  rw [List.getLast?_eq_getElem?] at *
  rw [← hl] at hb
  have : (List.zipWith f a b).length = a.length := by simp [hl]
  rw [this, List.getElem?_zipWith, ha, hb]

theorem RefPosition.ne_nil {P : Profile} {x0 x1 u : ℝ} (h : P.RefPosition x0 x1 u) : P.xup ≠ [] := by
  rintro hc
  have := h.heads.1
  simp [hc] at this

theorem RefPosition.sameX {P : Profile} {x0 x1 u : ℝ} (h : P.RefPosition x0 x1 u) (hx : P.xup = P.xdown) :
    P.SameX := by
  refine ⟨hx.symm, h.shaped.1.symm, ?_, h.ne_nil⟩
  rw [← h.shaped.2, h.len]

/-- Scaling the camber of a foil in reference position scales `max_camber`. -/
theorem deform_maxCamber {P : Profile} {x0 x1 u : ℝ} (h : P.RefPosition x0 x1 u) (p : ℝ)
    {K : Nat} (hK : (K : Int) = 500) :
    ∃ Q, P.deformCamberLine p none = .ok Q ∧ (∃ u', Q.RefPosition x0 x1 u') ∧
      ∃ Q', Q.maxCamber (some 500) =
        .ok ((p / 100 + 1) * peak ((linspaceN x0 x1 K).map P.meanInterp), Q') := by
  obtain ⟨k1, k2, k3, k4, k5, k6, k7, k8⟩ := h.heads
  by_cases hx : P.xup = P.xdown
  · have hs := h.sameX hx
    obtain ⟨Q, hQ, hxu, hxd, _, hyu, hyd⟩ := deform_same hs p
    have hud : P.yup.length = P.ydown.length := by rw [hs.2.1, hs.2.2.1]
    have lu : Q.yup.length = P.xup.length := by rw [hyu]; simp [hud, ← hs.2.2.1]
    have ld : Q.ydown.length = P.xup.length := by rw [hyd]; simp [hud, ← hs.2.2.1]
    have hR : Q.RefPosition x0 x1 (|u|) := by
      refine ⟨⟨by rw [hxu, lu], by rw [hxd, ld, ← hx]⟩, by rw [hxu, hxd, h.len], ⟨?_, ?_, ?_, ?_⟩, h.chord,
        by rw [hxu]; exact h.nodupUp, by rw [hxd]; exact h.nodupDown⟩
      · exact zip_head?_of (by rw [hxu]; exact k1) (by rw [hyu, zipWith_head? _ k5 k7]; simp)
      · refine zip_getLast?_of (by rw [hxu, lu]) (by rw [hxu]; exact k2) ?_
        rw [hyu, zipWith_getLast? _ hud k6 k8]
        congr 1
        rw [show u - -u = 2 * u by ring, abs_mul]; norm_num
      · exact zip_head?_of (by rw [hxd]; exact k3) (by rw [hyd, zipWith_head? _ k5 k7]; simp)
      · refine zip_getLast?_of (by rw [hxd, ld, ← hx]) (by rw [hxd]; exact k4) ?_
        rw [hyd, zipWith_getLast? _ hud k6 k8]
        congr 1
        rw [show u - -u = 2 * u by ring, abs_mul]; norm_num
    refine ⟨Q, hQ, ⟨_, hR⟩, ?_⟩
    obtain ⟨cl, cb, hm⟩ := hR.maxCamber (n := K) (by omega)
    refine ⟨{ Q with chordLine := cl, camberLine := cb }, ?_⟩
    · rw [← hK, hm]
      congr 2
      rw [← peak_smul, List.map_map]
      congr 1
      apply List.map_congr_left
      intro x _
      simp only [Function.comp, meanInterp, hxu, hxd, ← hx]
      -- mean of new ordinates is the scaled mean of the old ones
      have hnew : List.zipWith (fun a b => (1/2 : ℝ) * a + (1/2) * b) Q.yup Q.ydown =
          List.zipWith (fun a b => ((p / 100 + 1) / 2) * a + ((p / 100 + 1) / 2) * b) P.yup P.ydown := by
        apply List.ext_getElem
        · simp only [List.length_zipWith, lu, ld, hs.2.1, hs.2.2.1]
        · intro i h1 h2
          simp only [List.getElem_zipWith, hyu, hyd]
          ring
      have e1 := interpW_linear (r := 1) (X := P.xup) (y := Q.yup) (z := Q.ydown) lu ld (1/2) (1/2) x
      have e2 := interpW_linear (r := 1) (X := P.xup) (y := P.yup) (z := P.ydown) hs.2.1 hs.2.2.1
        ((p / 100 + 1) / 2) ((p / 100 + 1) / 2) x
      rw [hnew, e2] at e1
      linarith
  · obtain ⟨Q, hQ, hxu, hxd, hyu, hyd⟩ := deform_interp h hx p hK
    set S := linspaceN x0 x1 K with hS
    have hSn : S.Nodup := linspaceN_nodup h.chord K
    have hSl : S.length = K := linspaceN_length _ _ _
    have first : ∀ (X y : Arr) (x v : ℝ), y.length = X.length → X.Nodup → X.head? = some x → y.head? = some v →
        interpW 1 X y x = v := by
      intro X y x v hl hn hx hv
      rw [List.head?_eq_getElem?] at hx hv
      exact interpW_node hl one_pos hn hx hv
    have last : ∀ (X y : Arr) (x v : ℝ), y.length = X.length → X.Nodup → X.getLast? = some x → y.getLast? = some v →
        interpW 1 X y x = v := by
      intro X y x v hl hn hx hv
      rw [List.getLast?_eq_getElem?] at hx hv
      rw [hl] at hv
      exact interpW_node hl one_pos hn hx hv
    have a1 := first _ _ _ _ h.shaped.1.symm h.nodupUp k1 k5
    have a2 := first _ _ _ _ h.shaped.2.symm h.nodupDown k3 k7
    have b1 := last _ _ _ _ h.shaped.1.symm h.nodupUp k2 k6
    have b2 := last _ _ _ _ h.shaped.2.symm h.nodupDown k4 k8
    have s0 : S.head? = some x0 := linspaceN_head (by omega)
    have s1 : S.getLast? = some x1 := linspaceN_last (by omega)
    have lu : Q.xup.length = Q.yup.length := by rw [hxu, hyu]; simp
    have ld : Q.xdown.length = Q.ydown.length := by rw [hxd, hyd]; simp
    have hR : Q.RefPosition x0 x1 (|u|) := by
      refine ⟨⟨lu, ld⟩, by rw [hxu, hxd], ⟨?_, ?_, ?_, ?_⟩, h.chord, by rw [hxu]; exact hSn, by rw [hxd]; exact hSn⟩
      · refine zip_head?_of (by rw [hxu]; exact s0) ?_
        rw [hyu, List.head?_map, s0]; simp [meanInterp, a1, a2]
      · refine zip_getLast?_of lu (by rw [hxu]; exact s1) ?_
        rw [hyu, List.getLast?_map, s1]
        simp only [meanInterp, b1, b2, Option.map_some, Option.some.injEq]
        rw [show u - -u = 2 * u by ring, abs_mul]; norm_num
      · refine zip_head?_of (by rw [hxd]; exact s0) ?_
        rw [hyd, List.head?_map, s0]; simp [meanInterp, a1, a2]
      · refine zip_getLast?_of ld (by rw [hxd]; exact s1) ?_
        rw [hyd, List.getLast?_map, s1]
        simp only [meanInterp, b1, b2, Option.map_some, Option.some.injEq]
        rw [show u - -u = 2 * u by ring, abs_mul]; norm_num
    refine ⟨Q, hQ, ⟨_, hR⟩, ?_⟩
    obtain ⟨cl, cb, hm⟩ := hR.maxCamber (n := K) (by omega)
    refine ⟨{ Q with chordLine := cl, camberLine := cb }, ?_⟩
    · rw [← hK, hm]
      congr 2
      rw [← peak_smul, List.map_map, ← hS]
      congr 1
      apply List.ext_getElem (by simp)
      intro i h1 h2
      have hi : i < S.length := by simpa using h1
      simp only [List.getElem_map, Function.comp]
      have n1 : interpW 1 Q.xup Q.yup S[i] = _ :=
        interpW_node (i := i) (v := Q.yup[i]'(by rw [← lu, hxu]; exact hi)) lu.symm one_pos hR.nodupUp
          (by rw [hxu]; exact List.getElem?_eq_getElem hi) (List.getElem?_eq_getElem _)
      have n2 : interpW 1 Q.xdown Q.ydown S[i] = _ :=
        interpW_node (i := i) (v := Q.ydown[i]'(by rw [← ld, hxd]; exact hi)) ld.symm one_pos hR.nodupDown
          (by rw [hxd]; exact List.getElem?_eq_getElem hi) (List.getElem?_eq_getElem _)
      rw [show Q.meanInterp S[i] = 0.5 * (interpW 1 Q.xup Q.yup S[i] + interpW 1 Q.xdown Q.ydown S[i]) from rfl,
        n1, n2]
      simp only [hyu, hyd, List.getElem_map]
      norm_num
      ring

end Profile
end BladeX
