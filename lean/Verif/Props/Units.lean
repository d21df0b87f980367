import Verif.Lemmas.Units
import Verif.Spec.Units
import Verif.Props.BladeSymmetry
import Verif.Props.BladeShape

/-! # C130: the unit of length -/

namespace BladeX
noncomputable section
open Spec Classical

/-- **C130** `interpolate_coordinates` with the support radius given in the unit of the profile does not depend on the unit: a profile
multiplied by `l > 0`, interpolated with `l` times the radius, gives `l` times the arrays. -/
theorem C130_radius_scaled (P Q : Profile) (l R : ℝ) (hl : 0 < l) (hR : 0 < R) (k : Int) (t : Profile.Interp)
    (hQ : P.scale l false = .ok Q) (h : P.interpolateCoordinates (.int k) R = .ok t) :
    ∃ t', Q.interpolateCoordinates (.int k) (l * R) = .ok t' ∧ t'.xxUp = t.xxUp.map (· * l) ∧ t'.xxDown = t.xxDown.map (· * l) ∧
      t'.yyUp = t.yyUp.map (· * l) ∧ t'.yyDown = t.yyDown.map (· * l) := by
  obtain rfl : P.mulAll l = Q := Except.ok.inj hQ
  by_cases hk : 0 < k
  · rw [Profile.interpolate_int hk hR, Profile.interpCore_ok_iff hR] at h
    obtain ⟨xu0, xu1, xd0, xd1, h1, h2, h3, h4, hs, n1, n2, rfl⟩ := h
    rw [Profile.interpolate_int hk (mul_pos hl hR)]
    refine ⟨_, (Profile.interpCore_ok_iff (mul_pos hl hR)).2 ⟨xu0 * l, xu1 * l, xd0 * l, xd1 * l, ?_, ?_, ?_, ?_, Profile.mulAll_shaped l hs, ?_, ?_, rfl⟩, ?_, ?_, ?_, ?_⟩
    · simp [Profile.mulAll, List.head?_map, h1]
    · simp [Profile.mulAll, List.getLast?_map, h2]
    · simp [Profile.mulAll, List.head?_map, h3]
    · simp [Profile.mulAll, List.getLast?_map, h4]
    · exact n1.map (mul_left_injective₀ hl.ne')
    · exact n2.map (mul_left_injective₀ hl.ne')
    · exact linspaceN_mul _ _ _ _
    · exact linspaceN_mul _ _ _ _
    · simp only [linspaceN_mul, List.map_map]
      exact List.map_congr_left fun x _ => interpW_unit hR hl n1 x
    · simp only [linspaceN_mul, List.map_map]
      exact List.map_congr_left fun x _ => interpW_unit hR hl n2 x
  · exfalso
    simp only [Profile.interpolateCoordinates, bind, Except.bind, pure, Except.pure, throw, throwThe, MonadExceptOf.throw] at h
    rw [if_pos (Or.inl (not_lt.1 hk))] at h
    cases h

/-- One surface enlarged enough: zero at the stations that are not abscissae, the ordinate at those that are. -/
theorem surface_lost {X y : Arr} (hX : X.Nodup) (hl : y.length = X.length) {l : ℝ} {S : Arr}
    (h : ∀ a ∈ X, ∀ b ∈ X ++ S, a ≠ b → 1 ≤ |a * l - b * l|) (hl0 : l ≠ 0) {s : ℝ} (hs : s ∈ S) :
    (∀ (k : Nat) (v : ℝ), X[k]? = some s → y[k]? = some v → interpW 1 (X.map (· * l)) (y.map (· * l)) (s * l) = v * l) ∧
    (s ∉ X → interpW 1 (X.map (· * l)) (y.map (· * l)) (s * l) = 0) := by
  have hX' : (X.map (· * l)).Nodup := hX.map (mul_left_injective₀ hl0)
  constructor
  · intro k v hk hv
    exact interpW_node (by simp [hl]) one_pos hX' (i := k) (by simp [hk]) (by simp [hv])
  · intro hn
    refine interpW_far one_pos (by simp [hl]) (pairwise_gap hX fun a ha b hb => h a ha b (List.mem_append_left _ hb)) ?_
    intro p hp
    obtain ⟨a, ha, rfl⟩ := List.mem_map.1 hp
    rw [abs_sub_comm]
    exact h a ha s (List.mem_append_right _ hs) (fun hh => hn (hh ▸ ha))

/-- **C130** With the default radius the interpolated surfaces of a profile break down when it is large: from some size on, the interpolated
ordinate is zero at every station that is not one of the abscissae of the surface. -/
theorem C130_lost (P : Profile) (hs : P.Shaped) (hu : P.xup ≠ []) (hd : P.xdown ≠ []) (nu : P.xup.Nodup) (nd : P.xdown.Nodup) (n : Nat)
    (hn : 0 < n) :
    ∃ L₀ > 0, ∀ l : ℝ, L₀ ≤ l → ∃ Q t, P.scale l false = .ok Q ∧ Q.interpolateCoordinates (.int n) 1 = .ok t ∧
      t.xxUp.length = n ∧ t.yyUp.length = n ∧ t.xxDown.length = n ∧ t.yyDown.length = n ∧
      (∀ (i : Nat) (x v : ℝ), t.xxUp[i]? = some x → t.yyUp[i]? = some v →
        (x ∉ Q.xup → v = 0) ∧ ∀ (k : Nat) (y : ℝ), Q.xup[k]? = some x → Q.yup[k]? = some y → v = y) ∧
      (∀ (i : Nat) (x v : ℝ), t.xxDown[i]? = some x → t.yyDown[i]? = some v →
        (x ∉ Q.xdown → v = 0) ∧ ∀ (k : Nat) (y : ℝ), Q.xdown[k]? = some x → Q.ydown[k]? = some y → v = y) := by
  obtain ⟨xu0, h1⟩ : ∃ x, P.xup.head? = some x := ⟨_, List.head?_eq_some_head hu⟩
  obtain ⟨xu1, h2⟩ : ∃ x, P.xup.getLast? = some x := ⟨_, List.getLast?_eq_some_getLast hu⟩
  obtain ⟨xd0, h3⟩ : ∃ x, P.xdown.head? = some x := ⟨_, List.head?_eq_some_head hd⟩
  obtain ⟨xd1, h4⟩ : ∃ x, P.xdown.getLast? = some x := ⟨_, List.getLast?_eq_some_getLast hd⟩
  obtain ⟨L₁, p1, g1⟩ := gap_grows P.xup (P.xup ++ linspaceN xu0 xu1 n)
  obtain ⟨L₂, p2, g2⟩ := gap_grows P.xdown (P.xdown ++ linspaceN xd0 xd1 n)
  refine ⟨max L₁ L₂, lt_max_of_lt_left p1, ?_⟩
  intro l hl
  have hl0 : 0 < l := lt_of_lt_of_le (lt_max_of_lt_left p1) hl
  have a1 : L₁ ≤ |l| := by rw [abs_of_pos hl0]; exact (le_max_left _ _).trans hl
  have a2 : L₂ ≤ |l| := by rw [abs_of_pos hl0]; exact (le_max_right _ _).trans hl
  have k1 := fun s hs' => surface_lost (X := P.xup) (y := P.yup) nu hs.1.symm (g1 l a1) hl0.ne' (s := s) hs'
  have k2 := fun s hs' => surface_lost (X := P.xdown) (y := P.ydown) nd hs.2.symm (g2 l a2) hl0.ne' (s := s) hs'
  have hinj := mul_left_injective₀ hl0.ne'
  have hi : (P.mulAll l).interpolateCoordinates (.int n) 1 = .ok ⟨(linspaceN xu0 xu1 n).map (· * l), (linspaceN xd0 xd1 n).map (· * l),
      ((linspaceN xu0 xu1 n).map (· * l)).map (interpW 1 (P.xup.map (· * l)) (P.yup.map (· * l))),
      ((linspaceN xd0 xd1 n).map (· * l)).map (interpW 1 (P.xdown.map (· * l)) (P.ydown.map (· * l)))⟩ := by
    rw [Profile.interpolate_int (by exact_mod_cast hn) one_pos, Profile.interpCore_ok_iff one_pos]
    refine ⟨xu0 * l, xu1 * l, xd0 * l, xd1 * l, ?_, ?_, ?_, ?_, Profile.mulAll_shaped l hs, nu.map hinj, nd.map hinj, ?_⟩
    · simp [Profile.mulAll, List.head?_map, h1]
    · simp [Profile.mulAll, List.getLast?_map, h2]
    · simp [Profile.mulAll, List.head?_map, h3]
    · simp [Profile.mulAll, List.getLast?_map, h4]
    · simp only [linspaceN_mul, Int.toNat_natCast]; rfl
  refine ⟨P.mulAll l, _, rfl, hi, by simp [linspaceN_length], by simp [linspaceN_length], by simp [linspaceN_length], by simp [linspaceN_length], ?_, ?_⟩
  all_goals
    intro i x v hx hv
    simp only [List.getElem?_map] at hx hv
    obtain ⟨s, hs', rfl⟩ := Option.map_eq_some_iff.1 hx
    rw [hs'] at hv
    simp only [Option.map_some, Option.some.injEq] at hv
    subst hv
    have hmem := List.mem_of_getElem? hs'
  · refine ⟨fun hnot => (k1 s hmem).2 fun hin => hnot (List.mem_map.2 ⟨s, hin, rfl⟩), ?_⟩
    intro k y hk hy
    simp only [Profile.mulAll, List.getElem?_map] at hk hy
    obtain ⟨s', e1, e2⟩ := Option.map_eq_some_iff.1 hk
    obtain ⟨v, e3, e4⟩ := Option.map_eq_some_iff.1 hy
    obtain rfl := hinj e2
    rw [← e4]
    exact (k1 s' hmem).1 k v e1 e3
  · refine ⟨fun hnot => (k2 s hmem).2 fun hin => hnot (List.mem_map.2 ⟨s, hin, rfl⟩), ?_⟩
    intro k y hk hy
    simp only [Profile.mulAll, List.getElem?_map] at hk hy
    obtain ⟨s', e1, e2⟩ := Option.map_eq_some_iff.1 hk
    obtain ⟨v, e3, e4⟩ := Option.map_eq_some_iff.1 hy
    obtain rfl := hinj e2
    rw [← e4]
    exact (k2 s' hmem).1 k v e1 e3

namespace Profile

theorem RefPosition.mulAll {P : Profile} {x0 x1 u : ℝ} (h : P.RefPosition x0 x1 u) {f : ℝ} (hf : f ≠ 0) :
    (P.mulAll f).RefPosition (x0 * f) (x1 * f) (u * f) := by
  have hinj := mul_left_injective₀ hf
  refine ⟨mulAll_shaped f h.shaped, by simp [Profile.mulAll, h.len], ?_, fun hh => h.chord (hinj hh), h.nodupUp.map hinj, h.nodupDown.map hinj⟩
  have := h.ends.map (Q := P.mulAll f) (fun p => (f * p.1, f * p.2)) (mulAll_upper P f) (mulAll_lower P f)
  simpa [mul_comm] using this

theorem RefPosition.translate {P : Profile} {x0 x1 u : ℝ} (h : P.RefPosition x0 x1 u) (a : ℝ) :
    (P.translate (a, 0)).RefPosition (x0 + a) (x1 + a) u := by
  have hinj : Function.Injective fun x : ℝ => x + a := add_left_injective a
  refine ⟨translate_shaped _ h.shaped, by simp [Profile.translate, h.len], ?_, fun hh => h.chord (hinj hh), h.nodupUp.map hinj, h.nodupDown.map hinj⟩
  have := h.ends.map (Q := P.translate (a, 0)) (fun p => p + (a, 0)) (translate_upper P _) (translate_lower P _)
  simpa using this

theorem RefPosition.scaleY {P : Profile} {x0 x1 u : ℝ} (h : P.RefPosition x0 x1 u) (c : ℝ) :
    ({ P with yup := P.yup.map (· * c), ydown := P.ydown.map (· * c) } : Profile).RefPosition x0 x1 (u * c) := by
  refine ⟨by simpa [Shaped] using h.shaped, h.len, ?_, h.chord, h.nodupUp, h.nodupDown⟩
  have := h.ends.map (Q := { P with yup := P.yup.map (· * c), ydown := P.ydown.map (· * c) }) (fun p => (p.1, p.2 * c))
    (by simp [upper, List.zip_map_right, Prod.map_def]) (by simp [lower, List.zip_map_right, Prod.map_def])
  simpa using this

/-- A foil in reference position whose abscissae are at least one apart from each other and from the stations inside the chord: the
interpolated ordinates are zero at all stations inside the chord. -/
theorem RefPosition.lost {P : Profile} {x0 x1 u : ℝ} (h : P.RefPosition x0 x1 u) {n : Nat}
    (su : P.xup.Pairwise fun a b => 1 ≤ |a - b|) (sd : P.xdown.Pairwise fun a b => 1 ≤ |a - b|)
    (fu : ∀ s ∈ linspaceN x0 x1 n, s = x0 ∨ s = x1 ∨ ∀ p ∈ P.xup, 1 ≤ |s - p|)
    (fd : ∀ s ∈ linspaceN x0 x1 n, s = x0 ∨ s = x1 ∨ ∀ p ∈ P.xdown, 1 ≤ |s - p|) :
    ∀ s ∈ linspaceN x0 x1 n, P.meanInterp s = 0 ∧ (u = 0 → interpW 1 P.xup P.yup s = 0 ∧ interpW 1 P.xdown P.ydown s = 0) := by
  intro s hs
  obtain ⟨a1, a2, a3, a4, a5, a6, a7, a8⟩ := h.heads
  have e0 : interpW 1 P.xup P.yup x0 = 0 := interpW_node h.shaped.1.symm one_pos h.nodupUp (i := 0) (by rw [← List.head?_eq_getElem?]; exact a1)
    (by rw [← List.head?_eq_getElem?]; exact a5)
  have e1 : interpW 1 P.xdown P.ydown x0 = 0 := interpW_node h.shaped.2.symm one_pos h.nodupDown (i := 0) (by rw [← List.head?_eq_getElem?]; exact a3)
    (by rw [← List.head?_eq_getElem?]; exact a7)
  have e2 : interpW 1 P.xup P.yup x1 = u := interpW_node h.shaped.1.symm one_pos h.nodupUp (i := P.xup.length - 1)
    (by rw [← List.getLast?_eq_getElem?]; exact a2) (by rw [h.shaped.1, ← List.getLast?_eq_getElem?]; exact a6)
  have e3 : interpW 1 P.xdown P.ydown x1 = -u := interpW_node h.shaped.2.symm one_pos h.nodupDown (i := P.xdown.length - 1)
    (by rw [← List.getLast?_eq_getElem?]; exact a4) (by rw [h.shaped.2, ← List.getLast?_eq_getElem?]; exact a8)
  rcases fu s hs with rfl | rfl | hu
  · exact ⟨by simp [meanInterp, e0, e1], fun _ => ⟨e0, e1⟩⟩
  · exact ⟨by simp [meanInterp, e2, e3], fun h0 => ⟨by rw [e2, h0], by rw [e3, h0, neg_zero]⟩⟩
  rcases fd s hs with rfl | rfl | hd
  · exact ⟨by simp [meanInterp, e0, e1], fun _ => ⟨e0, e1⟩⟩
  · exact ⟨by simp [meanInterp, e2, e3], fun h0 => ⟨by rw [e2, h0], by rw [e3, h0, neg_zero]⟩⟩
  have e4 := interpW_far (y := P.yup) one_pos h.shaped.1.symm su hu
  have e5 := interpW_far (y := P.ydown) one_pos h.shaped.2.symm sd hd
  exact ⟨by simp [meanInterp, e4, e5], fun _ => ⟨e4, e5⟩⟩

theorem RefPosition.camber_lost {P : Profile} {x0 x1 u : ℝ} (h : P.RefPosition x0 x1 u)
    (hz : ∀ s ∈ linspaceN x0 x1 500, P.meanInterp s = 0) :
    (∃ Q, P.maxCamber = .ok (0, Q)) ∧ ∀ c, P.setCamberLineMax c = .error .nonFinite := by
  obtain ⟨K, hK, hK'⟩ : ∃ K : Nat, (K : Int) = 500 ∧ K = 500 := ⟨500, rfl, rfl⟩
  rw [← hK'] at hz
  obtain ⟨cl, hm⟩ := h.maxCamber' (n := K) (by omega)
  rw [hK] at hm
  have h0 : peak ((linspaceN x0 x1 K).map P.meanInterp) = 0 := by
    have hne : (linspaceN x0 x1 K).map P.meanInterp ≠ [] := by
      intro hc
      have := congrArg List.length hc
      simp [linspaceN_length] at this
      omega
    obtain ⟨s, hs, e⟩ := List.mem_map.1 (peak_mem hne)
    rw [← e]; exact hz s hs
  rw [h0] at hm
  exact ⟨⟨_, hm⟩, C12_zero_camber P _ hm⟩

end Profile

/-- The abscissae of a foil that miss the stations, enlarged enough and put anywhere on the axis, are at least one apart from each other and from
the stations inside the chord. -/
theorem stations_far {X : List ℝ} {x0 x1 : ℝ} {n : Nat} (ho : OffStations x0 x1 n X) {L : ℝ}
    (h : ∀ l : ℝ, L ≤ |l| → ∀ a ∈ X, ∀ b ∈ X ++ linspaceN x0 x1 n, a ≠ b → 1 ≤ |a * l - b * l|) {l : ℝ} (hl : L ≤ |l|) (a : ℝ) :
    ∀ s ∈ linspaceN (x0 * l + a) (x1 * l + a) n, s = x0 * l + a ∨ s = x1 * l + a ∨ ∀ p ∈ X.map (fun x => x * l + a), 1 ≤ |s - p| := by
  intro s hs
  rw [linspaceN_add, linspaceN_mul, List.map_map] at hs
  obtain ⟨s', hs', rfl⟩ := List.mem_map.1 hs
  obtain ⟨j, hj, rfl⟩ := List.mem_map.1 hs'
  have hjn : j < n := List.mem_range.1 hj
  rcases Nat.eq_zero_or_pos j with rfl | hj0
  · left; simp
  rcases Nat.lt_or_ge (j + 1) n with hj1 | hj1
  · right; right
    intro p hp
    obtain ⟨x, hx, rfl⟩ := List.mem_map.1 hp
    have := h l hl x hx _ (List.mem_append_right _ hs') (fun hh => ho j hj0 hj1 (hh ▸ hx))
    simp only [Function.comp]
    rw [abs_sub_comm]
    convert this using 2
    ring
  · right; left
    obtain rfl : n = j + 1 := by omega
    have : ((j + 1 : Nat) : ℝ) - 1 ≠ 0 := by push_cast; simp; omega
    simp only [Function.comp]
    congr 2
    push_cast at this ⊢
    field_simp
    ring

/-- The size from which on a foil loses its camber: depends on the abscissae alone. -/
theorem lost_from (xu xd : Arr) (nu : xu.Nodup) (nd : xd.Nodup) (x0 x1 : ℝ) (n : Nat) (ou : OffStations x0 x1 n xu) (od : OffStations x0 x1 n xd) :
    ∃ L₀ > 0, ∀ l a : ℝ, L₀ ≤ |l| → ∀ (P : Profile) (u : ℝ), P.xup = xu.map (fun x => x * l + a) → P.xdown = xd.map (fun x => x * l + a) →
      P.RefPosition (x0 * l + a) (x1 * l + a) u →
      ∀ s ∈ linspaceN (x0 * l + a) (x1 * l + a) n, P.meanInterp s = 0 ∧
        (u = 0 → interpW 1 P.xup P.yup s = 0 ∧ interpW 1 P.xdown P.ydown s = 0) := by
  obtain ⟨L₁, p1, g1⟩ := gap_grows xu (xu ++ linspaceN x0 x1 n)
  obtain ⟨L₂, p2, g2⟩ := gap_grows xd (xd ++ linspaceN x0 x1 n)
  refine ⟨max L₁ L₂, lt_max_of_lt_left p1, ?_⟩
  intro l a hl P u hu hd hP
  have a1 : L₁ ≤ |l| := (le_max_left _ _).trans hl
  have a2 : L₂ ≤ |l| := (le_max_right _ _).trans hl
  refine hP.lost ?_ ?_ (by rw [hu]; exact stations_far ou g1 a1 a) (by rw [hd]; exact stations_far od g2 a2 a)
  · rw [hu, List.pairwise_map]
    refine nu.imp_of_mem fun ha hb hab => ?_
    have := g1 l a1 _ ha _ (List.mem_append_left _ hb) hab
    simpa using this
  · rw [hd, List.pairwise_map]
    refine nd.imp_of_mem fun ha hb hab => ?_
    have := g2 l a2 _ ha _ (List.mem_append_left _ hb) hab
    simpa using this

/-- **C130** (violation) The camber of a foil in reference position depends on the unit of length: if none of the 500 stations inside the chord is
one of its abscissae, then from some size on `max_camber()` is zero, whatever the camber is, and `set_camber_line_max` divides by it. -/
theorem C130_camber_lost (P : Profile) {x0 x1 u : ℝ} (h : P.RefPosition x0 x1 u) (ou : OffStations x0 x1 500 P.xup) (od : OffStations x0 x1 500 P.xdown) :
    ∃ L₀ > 0, ∀ l : ℝ, L₀ ≤ |l| → ∀ translate : Bool, ∃ Q, P.scale l translate = .ok Q ∧ (∃ R, Q.maxCamber = .ok (0, R)) ∧
      ∀ c, Q.setCamberLineMax c = .error .nonFinite := by
  obtain ⟨L₀, p0, hL⟩ := lost_from P.xup P.xdown h.nodupUp h.nodupDown x0 x1 500 ou od
  refine ⟨L₀, p0, ?_⟩
  intro l hl tr
  have hl0 : l ≠ 0 := by rintro rfl; simp at hl; linarith
  cases tr with
  | false =>
    have hQ := h.mulAll hl0
    have e : ∀ x : ℝ, x * l + 0 = x * l := fun x => add_zero _
    refine ⟨_, rfl, hQ.camber_lost fun s hs => ?_⟩
    exact (hL l 0 hl _ _ (by simp [Profile.mulAll]) (by simp [Profile.mulAll]) (by simpa using hQ) s (by simpa using hs)).1
  | true =>
    have href : P.referencePoint = .ok (0.5 * (x0 + x1), 0) := by
      unfold Profile.referencePoint; rw [h.updateEdges]; simp [bind, Except.bind, pure, Except.pure]
    set m := 0.5 * (x0 + x1) with hm
    have hQ := ((h.translate (-m)).mulAll hl0).translate m
    refine ⟨((P.translate (-m, 0)).mulAll l).translate (m, 0), ?_, hQ.camber_lost fun s hs => ?_⟩
    · rw [Profile.scale_eq href]; simp
    · have e : ∀ x : ℝ, (x + -m) * l + m = x * l + (m - m * l) := fun x => by ring
      refine (hL l (m - m * l) hl _ _ ?_ ?_ (by rw [← e, ← e]; exact hQ) s (by rw [← e, ← e]; exact hs)).1
      · simp only [Profile.mulAll, Profile.translate, List.map_map]
        exact List.map_congr_left fun x _ => e x
      · simp only [Profile.mulAll, Profile.translate, List.map_map]
        exact List.map_congr_left fun x _ => e x

/-- **C130** (violation) The same for the thickness of a closed foil whose surfaces have different abscissae: from some size on `max_thickness()` is
zero, and `set_thickness_max` makes the foil flat, whatever thickness is asked for, without an exception. -/
theorem C130_thickness_lost (P : Profile) {x0 x1 : ℝ} (h : P.RefPosition x0 x1 0) (hx : P.xup ≠ P.xdown)
    (ou : OffStations x0 x1 500 P.xup) (od : OffStations x0 x1 500 P.xdown) :
    ∃ L₀ > 0, ∀ l : ℝ, L₀ ≤ |l| → ∃ Q, P.scale l false = .ok Q ∧ Q.maxThickness = .ok 0 ∧
      ∀ t, ∃ R, Q.setThicknessMax t = .ok R ∧ (∀ y ∈ R.yup, y = 0) ∧ ∀ y ∈ R.ydown, y = 0 := by
  obtain ⟨L₀, p0, hL⟩ := lost_from P.xup P.xdown h.nodupUp h.nodupDown x0 x1 500 ou od
  refine ⟨L₀, p0, ?_⟩
  intro l hl
  have hl0 : l ≠ 0 := by rintro rfl; simp at hl; linarith
  have hQ := h.mulAll hl0
  rw [zero_mul] at hQ
  have hz : ∀ s ∈ linspaceN (x0 * l) (x1 * l) 500, interpW 1 (P.mulAll l).xup (P.mulAll l).yup s = 0 ∧
      interpW 1 (P.mulAll l).xdown (P.mulAll l).ydown s = 0 := fun s hs =>
    (hL l 0 hl _ _ (by simp [Profile.mulAll]) (by simp [Profile.mulAll]) (by simpa using hQ) s (by simpa using hs)).2 rfl
  have hne : (P.mulAll l).xup ≠ (P.mulAll l).xdown := fun hh => hx (List.map_injective_iff.2 (mul_left_injective₀ hl0) hh)
  have hm : (P.mulAll l).maxThickness = .ok 0 := by
    obtain ⟨K, hK, hK'⟩ : ∃ K : Nat, (K : Int) = 500 ∧ K = 500 := ⟨500, rfl, rfl⟩
    rw [← hK'] at hz
    have hi := hQ.interp (n := K) (by omega)
    unfold Profile.maxThickness
    rw [Profile.effectiveN_diff (by simp [Profile.mulAll, h.len]) hne, ← hK]
    simp only [bind, Except.bind, hi]
    rw [bzip_eq_len (by simp)]
    simp only [zipWith_map_same]
    have e : (linspaceN (x0 * l) (x1 * l) K).map (fun s => |interpW 1 (P.mulAll l).xup (P.mulAll l).yup s - interpW 1 (P.mulAll l).xdown (P.mulAll l).ydown s|) =
        (linspaceN (x0 * l) (x1 * l) K).map fun _ => 0 :=
      List.map_congr_left fun s hs => by rw [(hz s hs).1, (hz s hs).2]; simp
    rw [e]
    rw [npMax_ok_iff]
    have hne' : (linspaceN (x0 * l) (x1 * l) K) ≠ [] := by
      intro hc
      have := congrArg List.length hc
      simp [linspaceN_length] at this
      omega
    obtain ⟨s, hs⟩ := List.exists_mem_of_ne_nil _ hne'
    refine ⟨List.mem_map.2 ⟨s, hs, rfl⟩, ?_⟩
    intro y hy
    obtain ⟨_, _, e'⟩ := List.mem_map.1 hy
    exact e'.symm.le
  refine ⟨_, rfl, hm, ?_⟩
  intro t
  obtain ⟨R, h1, h2⟩ := C10_zero_thickness _ t hm
  exact ⟨R, h1, h2.1, h2.2.1⟩

/-- **C130** (violation) A blade with prescribed camber cannot be given in small units: if one of its sections other than the last is a foil in
reference position none of whose abscissae is one of the 500 stations inside the chord, then there is a size from which on no enlarged copy of the
blade (with all lengths multiplied, whatever thickness is prescribed) gets through `apply_transformations`. -/
theorem C130_blade (b : Blade) (hW : b.WellFormed) (F : Arr) (hf : b.camber = some F) (i : Nat) (P : Profile) (hP : b.sections[i]? = some P)
    (hi : i + 1 < b.sections.length) {x0 x1 u : ℝ} (h : P.RefPosition x0 x1 u) (ou : OffStations x0 x1 500 P.xup)
    (od : OffStations x0 x1 500 P.xdown) (c : ℝ) (hc : b.chord[i]? = some c) (hc0 : c ≠ 0) :
    ∃ L₀ > 0, ∀ l : ℝ, L₀ ≤ |l| → ∀ (refl : Bool) (b' : Blade), (b.enlarged l).applyTransformations refl ≠ (b', .ok ()) := by
  obtain ⟨L₀, p0, hL⟩ := lost_from P.xup P.xdown h.nodupUp h.nodupDown x0 x1 500 ou od
  refine ⟨L₀ / |c|, div_pos p0 (abs_pos.2 hc0), ?_⟩
  intro l hl refl b' hb
  have hlc : L₀ ≤ |l * c| := by
    rw [abs_mul]; exact (div_le_iff₀ (abs_pos.2 hc0)).1 hl
  have hlc0 : l * c ≠ 0 := by intro hh; rw [hh] at hlc; simp at hlc; linarith
  have hW' : (b.enlarged l).WellFormed := by simpa [Blade.enlarged, Blade.WellFormed] using hW
  obtain ⟨ss, up, down, h1, h2, rfl⟩ := (Blade.apply_ok hW'.1).1 hb
  obtain ⟨hlen, hall⟩ := (Blade.sectionLoop_ok _ _ _).1 h1
  have his : i < ss.length := by rw [hlen]; exact lt_of_le_of_lt (Nat.le_succ i) hi
  have hrun := hall i P _ hP (List.getElem?_eq_getElem his)
  rw [Nat.zero_add, Blade.runSteps_ok, Blade.steps_split] at hrun
  have href : P.referencePoint = .ok (0.5 * (x0 + x1), 0) := by
    unfold Profile.referencePoint; rw [h.updateEdges]; simp [bind, Except.bind, pure, Except.pure]
  set m := 0.5 * (x0 + x1) with hm
  rw [(Blade.head_ok (b := b.enlarged l) (i := i) (c := l * c) (by simp [Blade.enlarged, hc])).2 _ href] at hrun
  simp only [bind, Except.bind] at hrun
  set A := (P.translate (-(m, 0))).mulAll (l * c) with hA
  have hAe : A = (P.translate (-m, 0)).mulAll (l * c) := by simp [hA]
  have hAR := (h.translate (-m)).mulAll hlc0
  rw [← hAe] at hAR
  have e : ∀ x : ℝ, (x + -m) * (l * c) = x * (l * c) + -(m * (l * c)) := fun x => by ring
  have hAx : A.xup = P.xup.map (fun x => x * (l * c) + -(m * (l * c))) ∧ A.xdown = P.xdown.map (fun x => x * (l * c) + -(m * (l * c))) := by
    rw [hAe]
    simp only [Profile.mulAll, Profile.translate, List.map_map]
    exact ⟨List.map_congr_left fun x _ => e x, List.map_congr_left fun x _ => e x⟩
  rw [e, e] at hAR
  -- any profile over these abscissae in reference position is refused
  have hrefuse : ∀ (B : Profile) (w : ℝ), B.xup = A.xup → B.xdown = A.xdown →
      B.RefPosition (x0 * (l * c) + -(m * (l * c))) (x1 * (l * c) + -(m * (l * c))) w → ∀ f, B.setCamberLineMax f = .error .nonFinite := by
    intro B w b1 b2 hB
    exact (hB.camber_lost fun s hs => (hL (l * c) (-(m * (l * c))) hlc B w (b1.trans hAx.1) (b2.trans hAx.2) hB s hs).1).2
  have hcam : ∀ B : Profile, (∃ w, B.RefPosition (x0 * (l * c) + -(m * (l * c))) (x1 * (l * c) + -(m * (l * c))) w) → B.xup = A.xup → B.xdown = A.xdown →
      ∀ S, (match (b.enlarged l).camber with
        | none => (.ok B : Res Profile)
        | some c => if i + 1 < (b.enlarged l).sections.length then do B.setCamberLineMax (← getIdx c i) else .ok B) ≠ .ok S := by
    rintro B ⟨w, hB⟩ b1 b2 S
    simp only [Blade.enlarged, hf, Option.map_some, hi, if_true]
    rcases getIdx (F.map (l * ·)) i with e | v
    · exact fun hh => by cases hh
    · simp only [bind, Except.bind, hrefuse B w b1 b2 hB]
      exact fun hh => by cases hh
  rcases hmid : ((((b.enlarged l).sectionSteps refl i).drop 2).take 2).foldlM (fun P f => f P) A with e' | S
  · rw [show List.foldlM (fun P f => f P) A (List.take 2 (List.drop 2 (Blade.sectionSteps (Blade.enlarged l b) refl i))) = Except.error e' from hmid] at hrun
    cases hrun
  · simp only [Blade.sectionSteps, List.drop, List.take, List.foldlM_cons, List.foldlM_nil] at hmid
    rw [Profile.bndA] at hmid
    obtain ⟨B, t3, hmid⟩ := hmid
    rw [Profile.bndA] at hmid
    obtain ⟨S', t4, hmid⟩ := hmid
    refine hcam B ?_ ?_ ?_ S' t4
    all_goals
      rcases hT : (b.enlarged l).thickness with _ | T
      · rw [hT] at t3
        obtain rfl := Except.ok.inj t3
        first | exact ⟨_, hAR⟩ | rfl
      · rw [hT] at t3
        simp only at t3
        rw [Profile.bndA] at t3
        obtain ⟨t, _, t3⟩ := t3
        unfold Profile.setThicknessMax at t3
        rw [Profile.bndA] at t3
        obtain ⟨old, _, t3⟩ := t3
        obtain rfl := Except.ok.inj t3
        first | exact ⟨_, hAR.scaleY _⟩ | rfl

/-- **C130** (violation) The check of the edges compares abscissae with a fixed length: for a profile multiplied by `l`, the reference point (and with
it `scale`, `compute_chord_line` and everything else that asks for the edges) exists exactly if the gaps between the first and between the last
abscissae of the two surfaces, multiplied by `l`, are at most 0.0001. -/
theorem C130_edge_check (P : Profile) (hs : P.Shaped) (a b c d : ℝ) (ha : P.xup.head? = some a) (hb : P.xup.getLast? = some b)
    (hc : P.xdown.head? = some c) (hd : P.xdown.getLast? = some d) (l : ℝ) :
    ∃ Q, P.scale l false = .ok Q ∧
      ((∃ ref, Q.referencePoint = .ok ref) ↔ |l| * |a - c| ≤ 1e-4 ∧ |l| * |b - d| ≤ 1e-4) ∧
      ((∀ ref, Q.referencePoint ≠ .ok ref) → Q.referencePoint = .error .valueError) := by
  refine ⟨P.mulAll l, rfl, ?_⟩
  have hyu : P.yup ≠ [] := by
    intro h0; have := hs.1; rw [h0, List.length_nil, List.length_eq_zero_iff] at this; rw [this] at ha; simp at ha
  have hyd : P.ydown ≠ [] := by
    intro h0; have := hs.2; rw [h0, List.length_nil, List.length_eq_zero_iff] at this; rw [this] at hc; simp at hc
  obtain ⟨yu0, e0⟩ : ∃ x, P.yup.head? = some x := ⟨_, List.head?_eq_some_head hyu⟩
  obtain ⟨yu1, e1⟩ : ∃ x, P.yup.getLast? = some x := ⟨_, List.getLast?_eq_some_getLast hyu⟩
  obtain ⟨yd1, e2⟩ : ∃ x, P.ydown.getLast? = some x := ⟨_, List.getLast?_eq_some_getLast hyd⟩
  have hE := Profile.updateEdges_of (P := P.mulAll l) (xu0 := a * l) (xd0 := c * l) (xu1 := b * l) (xd1 := d * l) (yu0 := yu0 * l) (yu1 := yu1 * l)
    (yd1 := yd1 * l) (by simp [Profile.mulAll, ha]) (by simp [Profile.mulAll, hc]) (by simp [Profile.mulAll, List.getLast?_map, hb])
    (by simp [Profile.mulAll, List.getLast?_map, hd]) (by simp [Profile.mulAll, e0]) (by simp [Profile.mulAll, List.getLast?_map, e1])
    (by simp [Profile.mulAll, List.getLast?_map, e2])
  have k1 : |a * l - c * l| = |l| * |a - c| := by rw [← sub_mul, abs_mul, mul_comm]
  have k2 : |b * l - d * l| = |l| * |b - d| := by rw [← sub_mul, abs_mul, mul_comm]
  rw [k1, k2] at hE
  unfold Profile.referencePoint
  rw [hE]
  by_cases hh : |l| * |a - c| > 1e-4 ∨ |l| * |b - d| > 1e-4
  · rw [if_pos hh]
    refine ⟨⟨fun ⟨_, h⟩ => (by cases h), fun h => ?_⟩, fun _ => rfl⟩
    rcases hh with hh | hh
    · exact absurd h.1 (not_le.2 hh)
    · exact absurd h.2 (not_le.2 hh)
  · rw [if_neg hh]
    push Not at hh
    exact ⟨⟨fun _ => hh, fun _ => ⟨_, rfl⟩⟩, fun h => absurd rfl (h _)⟩

/-! ## The hypotheses can be met -/

namespace Sample

/-- Three stations at distance one. -/
def trio : Profile where
  xup := [0, 1, 2]
  xdown := [0, 1, 2]
  yup := [0, 1/5, 0]
  ydown := [0, -1/10, 0]

theorem trio_ref : trio.RefPosition 0 2 0 := by
  refine ⟨?_, rfl, ?_, by norm_num, ?_, ?_⟩
  · simp [trio, Profile.Shaped]
  · simp [trio, Profile.Ends, Profile.upper, Profile.lower]
  · norm_num [trio]
  · norm_num [trio]

theorem off_half (X : List ℝ) (hX : ∀ x ∈ X, x = 0 ∨ x = 1 ∨ x = 2) : OffStations 0 2 500 X := by
  intro j h0 h1 hm
  rcases hX _ hm with h | h | h
  · have : (j : ℝ) = 0 := by push_cast at h; linarith
    have : j = 0 := by exact_mod_cast this
    omega
  · have : (j : ℝ) * 2 = 499 := by push_cast at h; linarith
    have : j * 2 = 499 := by exact_mod_cast this
    omega
  · have : (j : ℝ) = 499 := by push_cast at h; linarith
    have : j = 499 := by exact_mod_cast this
    omega

theorem trio_off : OffStations 0 2 500 trio.xup ∧ OffStations 0 2 500 trio.xdown :=
  ⟨off_half _ (by simp [trio]), off_half _ (by simp [trio])⟩

end Sample

example : ∃ Q t, Sample.trio.scale 3 false = .ok Q ∧ Sample.trio.interpolateCoordinates (.int 7) 2 = .ok t ∧
    ∃ t', Q.interpolateCoordinates (.int 7) (3 * 2) = .ok t' ∧ t'.yyUp = t.yyUp.map (· * 3) := by
  have hi : Sample.trio.interpolateCoordinates (.int 7) 2 = .ok ⟨linspaceN 0 2 7, linspaceN 0 2 7,
      (linspaceN 0 2 7).map (interpW 2 Sample.trio.xup Sample.trio.yup), (linspaceN 0 2 7).map (interpW 2 Sample.trio.xdown Sample.trio.ydown)⟩ := by
    rw [Profile.interpolate_int (by norm_num) two_pos]
    obtain ⟨h1, h2, h3, h4, _⟩ := Sample.trio_ref.heads
    exact (Profile.interpCore_ok_iff two_pos).2 ⟨0, 2, 0, 2, h1, h2, h3, h4, Sample.trio_ref.shaped, Sample.trio_ref.nodupUp, Sample.trio_ref.nodupDown, rfl⟩
  obtain ⟨t', h1, _, _, h2, _⟩ := C130_radius_scaled Sample.trio _ 3 2 (by norm_num) (by norm_num) 7 _ rfl hi
  exact ⟨_, _, rfl, hi, t', h1, h2⟩

example : Sample.trio.Shaped ∧ Sample.trio.xup ≠ [] ∧ Sample.trio.xdown ≠ [] ∧ Sample.trio.xup.Nodup ∧ Sample.trio.xdown.Nodup :=
  ⟨Sample.trio_ref.shaped, by simp [Sample.trio], by simp [Sample.trio], Sample.trio_ref.nodupUp, Sample.trio_ref.nodupDown⟩

example : ∃ P : Profile, P.RefPosition 0 2 0 ∧ P.xup ≠ P.xdown ∧ OffStations 0 2 500 P.xup ∧ OffStations 0 2 500 P.xdown := by
  refine ⟨{ xup := [0, 1, 2], xdown := [0, 1/3, 2], yup := [0, 1/5, 0], ydown := [0, -1/10, 0] }, ⟨?_, rfl, ?_, by norm_num, ?_, ?_⟩, ?_,
    Sample.off_half _ (by simp), ?_⟩
  · simp [Profile.Shaped]
  · simp [Profile.Ends, Profile.upper, Profile.lower]
  · norm_num
  · norm_num
  · norm_num
  · intro j h0 h1 hm
    simp only [List.mem_cons, List.not_mem_nil, or_false] at hm
    push_cast at hm
    rcases hm with h | h | h
    · have : (j : ℝ) = 0 := by linarith
      have : j = 0 := by exact_mod_cast this
      omega
    · have : (j : ℝ) * 6 = 499 := by linarith
      have : j * 6 = 499 := by exact_mod_cast this
      omega
    · have : (j : ℝ) = 499 := by linarith
      have : j = 499 := by exact_mod_cast this
      omega

/-- A blade whose sections each go through, with equally many points, goes through. -/
theorem Blade.applies_of_sections {b : Blade} {refl : Bool} (hW : b.WellFormed) (hne : b.sections ≠ []) (n : Nat)
    (h : ∀ i (hi : i < b.sections.length), ∃ Q, Blade.runSteps (Blade.sectionSteps b refl i) b.sections[i] = (Q, .ok ()) ∧
      b.radii.getD i 0 ≠ 0 ∧ Q.Uniform ∧ Q.xup.length = n) : ∃ b', b.applyTransformations refl = (b', .ok ()) := by
  have hex : ∀ i, ∃ Q : Profile, ∀ (hi : i < b.sections.length), Blade.runSteps (Blade.sectionSteps b refl i) b.sections[i] = (Q, .ok ()) ∧
      b.radii.getD i 0 ≠ 0 ∧ Q.Uniform ∧ Q.xup.length = n := by
    intro i
    by_cases hi : i < b.sections.length
    · obtain ⟨Q, hQ⟩ := h i hi
      exact ⟨Q, fun _ => hQ⟩
    · exact ⟨Sample.foil, fun hh => absurd hh hi⟩
  choose g hg using hex
  let ss := (List.range b.sections.length).map g
  have hss : ∀ j Q, ss[j]? = some Q → j < b.sections.length ∧ Q = g j := by
    intro j Q hQ
    have hj : j < b.sections.length := by simpa [ss] using (List.getElem?_eq_some_iff.1 hQ).1
    simp only [ss, List.getElem?_map, List.getElem?_range hj, Option.map_some, Option.some.injEq] at hQ
    exact ⟨hj, hQ.symm⟩
  have hloop : Blade.sectionLoop b refl 0 b.sections = (ss, .ok ()) := by
    rw [Blade.sectionLoop_ok]
    refine ⟨by simp [ss], ?_⟩
    intro j P Q hP hQ
    obtain ⟨hj, rfl⟩ := hss j Q hQ
    obtain ⟨_, rfl⟩ := List.getElem?_eq_some_iff.1 hP
    rw [Nat.zero_add]
    exact (hg j hj).1
  have hlen : b.radii.length = ss.length := by rw [hW.1]; simp [ss]
  refine ⟨_, (Blade.apply_ok hW.1).2 ⟨ss, _, _, hloop, (Blade.cylindrical_ok hlen).2 ⟨?_, ?_, ?_, rfl, rfl⟩, rfl⟩⟩
  · intro h0
    have : ss.length = 0 := by rw [h0]; rfl
    simp [ss] at this
    exact hne this
  · intro i P r hP hr
    obtain ⟨hi, rfl⟩ := hss i P hP
    obtain ⟨_, h1, h2, _⟩ := hg i hi
    rw [List.getD_eq_getElem?_getD, hr] at h1
    exact ⟨h1, h2.1, h2.2.2⟩
  · intro P hP Q hQ
    obtain ⟨i, hi⟩ := List.mem_iff_getElem?.1 hP
    obtain ⟨j, hj⟩ := List.mem_iff_getElem?.1 hQ
    obtain ⟨hi', rfl⟩ := hss i P hi
    obtain ⟨hj', rfl⟩ := hss j Q hj
    obtain ⟨_, _, u1, n1⟩ := hg i hi'
    obtain ⟨_, _, u2, n2⟩ := hg j hj'
    have a1 := u1.1; have a2 := u1.2.1; have a3 := u1.2.2
    have b1 := u2.1; have b2 := u2.2.1; have b3 := u2.2.2
    simp only [Profile.upper, Profile.lower, List.length_zip]
    omega

namespace Sample

/-- Two sections over stations at distance one. -/
def trioBlade (thickness camber : Option Arr) : Blade where
  sections := [trio, trio]
  radii := [1, 2]
  chord := [1, 1]
  pitch := [2, 4]
  rake := [0, 1]
  skew := [0, 10]
  thickness := thickness
  camber := camber
  coordsUp := []
  coordsDown := []
  upper := none
  lower := none
  tip := none
  root := none

/-- The section moved with its reference point to the origin. -/
def trio0 : Profile where
  xup := [-1, 0, 1]
  xdown := [-1, 0, 1]
  yup := [0, 1/5, 0]
  ydown := [0, -1/10, 0]

theorem trio0_ref : trio0.RefPosition (-1) 1 0 := by
  refine ⟨?_, rfl, ?_, by norm_num, ?_, ?_⟩
  · simp [trio0, Profile.Shaped]
  · simp [trio0, Profile.Ends, Profile.upper, Profile.lower]
  · norm_num [trio0]
  · norm_num [trio0]

theorem trio0_uniform : trio0.Uniform := by simp [trio0, Profile.Uniform]

theorem trio_head (T F : Option Arr) (refl : Bool) (i : Nat) (hi : i < 2) :
    ((List.take 2 (Blade.sectionSteps (trioBlade T F) refl i)).foldlM (fun P f => f P) trio : Res Profile) = .ok trio0 := by
  have href : trio.referencePoint = .ok (1, 0) := by
    rw [C06_reference_is_midpoint _ trio_ref.updateEdges]; simp [mid]
  have hc : (trioBlade T F).chord[i]? = some 1 := by interval_cases i <;> rfl
  rw [(Blade.head_ok hc).2 _ href]
  simp only [Profile.mulAll, Profile.translate, trio, trio0]
  norm_num

theorem trio_applies (T F : Option Arr) (refl : Bool) (h : ∀ i < 2, ∃ R : Profile,
    ((List.take 2 (List.drop 2 (Blade.sectionSteps (trioBlade T F) refl i))).foldlM (fun P f => f P) trio0 : Res Profile) = .ok R ∧ R.Uniform ∧ R.xup.length = 3) :
    ∃ b', (trioBlade T F).applyTransformations refl = (b', .ok ()) := by
  refine Blade.applies_of_sections (by simp [trioBlade, Blade.WellFormed]) (by simp [trioBlade]) 3 ?_
  intro i hi
  have hi2 : i < 2 := hi
  obtain ⟨R, h1, h2, h3⟩ := h i hi2
  have hsec : ∀ h', (trioBlade T F).sections[i]'h' = trio := by intro h'; interval_cases i <;> rfl
  have hk : ∃ r p k s, (trioBlade T F).radii[i]? = some r ∧ (trioBlade T F).pitch[i]? = some p ∧ (trioBlade T F).rake[i]? = some k ∧
      (trioBlade T F).skew[i]? = some s ∧ r ≠ 0 := by
    interval_cases i
    · exact ⟨1, 2, 0, 0, rfl, rfl, rfl, rfl, by norm_num⟩
    · exact ⟨2, 4, 1, 10, rfl, rfl, rfl, rfl, by norm_num⟩
  obtain ⟨r, p, k, s, k1, k2, k3, k4, k5⟩ := hk
  obtain ⟨Q, hQ, _, _, hQU, hQl⟩ := (Blade.tail_ok (b := trioBlade T F) (refl := refl) k1 k2 k3 k4 h2).2 k5
  refine ⟨Q, ?_, ?_, hQU, by rw [hQl, h3]⟩
  · rw [Blade.runSteps_ok, Blade.steps_split, show (trioBlade T F).sections[i] = trio from hsec hi, trio_head T F refl i hi2]
    simp only [bind, Except.bind, h1]
    exact hQ
  · rw [List.getD_eq_getElem?_getD, k1]; exact k5

theorem trio0_thickness : ∃ R, trio0.setThicknessMax (1/2) = .ok R ∧ R.Uniform ∧ R.xup.length = 3 := by
  have hth : trio0.maxThickness none = .ok (3/10) := thickness_of rfl rfl rfl
  refine ⟨{ trio0 with yup := trio0.yup.map (· * ((1/2) / (3/10))), ydown := trio0.ydown.map (· * ((1/2) / (3/10))) }, ?_, ?_, ?_⟩
  · unfold Profile.setThicknessMax
    simp only [hth, bind, Except.bind, pure, Except.pure]
    norm_num
  · simpa [Profile.Uniform] using trio0_uniform
  · simp [trio0]

/-- With the thickness prescribed this blade goes through, so it is similar to its enlargements (C81) and has a mirror image (C85). -/
example : ∃ b' b'' b3, (trioBlade (some [1/2, 1/2]) none).applyTransformations true = (b', .ok ()) ∧
    ((trioBlade (some [1/2, 1/2]) none).enlarged (-3)).applyTransformations true = (b'', .ok ()) ∧ b'.coordsMoved (dilate (-3)) b'' ∧
    (trioBlade (some [1/2, 1/2]) none).otherHand.applyTransformations false = (b3, .ok ()) ∧ b'.coordsMoved mirrorY b3 := by
  obtain ⟨R, h1, h2, h3⟩ := trio0_thickness
  obtain ⟨b', hb⟩ := trio_applies (some [1/2, 1/2]) none true (by
    intro i hi
    refine ⟨R, ?_, h2, h3⟩
    interval_cases i <;> simp [Blade.sectionSteps, trioBlade, getIdx, bind, Except.bind, pure, Except.pure, h1, -one_div])
  obtain ⟨b'', h4, h5⟩ := C81_similar _ b' true (by simp [trioBlade, Blade.WellFormed]) (Or.inr (by simp [trioBlade, trio])) rfl (-3) (by norm_num) hb
  obtain ⟨b3, h6, h7⟩ := C85_other_hand _ b' true (by simp [trioBlade, Blade.WellFormed]) rfl hb
  exact ⟨b', b'', b3, hb, h4, h5, h6, h7⟩

theorem trio0_camber : ∃ old Q₀, trio0.maxCamber = .ok (old, Q₀) ∧ old ≠ 0 := by
  have hR := trio0_ref
  obtain ⟨v, Q, c, t, hm, -, -, ht, -, hc, -, -, -, hmax⟩ := C12_max_camber_spec _ hR
  refine ⟨v, Q, hm, ?_⟩
  rintro rfl
  obtain ⟨K, hK⟩ : ∃ K : Nat, (K : Int) = 500 := ⟨500, rfl⟩
  have hi := hR.interp (n := K) (by omega)
  rw [hK, ht] at hi
  have e := Except.ok.inj hi
  have hmem : (-1 / 499 : ℝ) ∈ linspaceN (-1) 1 K := by
    have h100 : 249 < (linspaceN (-1) 1 K).length := by rw [linspaceN_length]; omega
    have := linspaceN_getElem (-1) 1 K 249 h100
    have hKr : (K : ℝ) = 500 := by exact_mod_cast hK
    have h2 : (linspaceN (-1) 1 K)[249] = -1 / 499 := by rw [this, hKr]; norm_num
    rw [← h2]; exact List.getElem_mem _
  have hsep : ∀ i j : Fin ([-1, 0, 1] : List ℝ).length, i ≠ j → (1 : ℝ) ≤ |([-1, 0, 1] : List ℝ)[i] - ([-1, 0, 1] : List ℝ)[j]| := by
    intro i j hij
    fin_cases i <;> fin_cases j <;> simp at hij ⊢ <;> norm_num
  have key : ∀ y0 : ℝ, interpW 1 [-1, 0, 1] [0, y0, 0] (-1/499) = y0 * wendlandC2 (1/499) 1 := by
    intro y0
    obtain ⟨out, h1, h2, _⟩ := C31_separated_nodes 1 one_pos [-1, 0, 1] [0, y0, 0] rfl hsep [-1/499]
    rw [reconstruct_wendland (X := [-1, 0, 1]) (y := [0, y0, 0]) rfl one_pos hR.nodupUp] at h1
    obtain rfl := Except.ok.inj h1
    simp only [List.map_cons, List.map_nil, List.cons.injEq, and_true] at h2
    rw [h2]
    refine (Fin.sum_univ_three (fun j : Fin 3 => ([0, y0, 0] : List ℝ)[j] * wendlandC2 |-1 / 499 - ([-1, 0, 1] : List ℝ)[j]| 1)).trans ?_
    have ha : |(-1 / 499 : ℝ)| = 1 / 499 := by rw [abs_of_nonpos (by norm_num)]; norm_num
    simp [ha, -one_div]
  have h1 : interpW 1 trio0.xup trio0.yup (-1/499) = 1/5 * wendlandC2 (1/499) 1 := key _
  have h2 : interpW 1 trio0.xdown trio0.ydown (-1/499) = -1/10 * wendlandC2 (1/499) 1 := key _
  have := hmax ((1/5 * wendlandC2 (1/499) 1 + -1/10 * wendlandC2 (1/499) 1) / 2) (by
    rw [hc, e]
    simp only [zipWith_map_same]
    exact List.mem_map.2 ⟨-1/499, hmem, by rw [h1, h2]⟩)
  have hpos : 0 < wendlandC2 (1/499) 1 := by norm_num [wendlandC2]
  rw [abs_zero] at this
  have h3 : 0 < (1/5 * wendlandC2 (1/499) 1 + -1/10 * wendlandC2 (1/499) 1) / 2 := by linarith
  rw [abs_of_pos h3] at this
  linarith

end Sample

/-- **C130** (violation) Two sections with camber prescribed: given in one unit of length the blade goes through, given in a smaller unit it does not. -/
theorem C130_not_similar : ∃ (b b' : Blade) (L₀ : ℝ), b.WellFormed ∧ 0 < L₀ ∧ b.applyTransformations true = (b', .ok ()) ∧
    ∀ l : ℝ, L₀ ≤ |l| → ∀ (refl : Bool) (b'' : Blade), (b.enlarged l).applyTransformations refl ≠ (b'', .ok ()) := by
  obtain ⟨old, Q0, hcam, hold⟩ := Sample.trio0_camber
  obtain ⟨R2, Q', hR2, ⟨u', hR2ref⟩, _⟩ := C12_set_camber Sample.trio0 Q0 Sample.trio0_ref hcam hold (1/10)
  have hcX : Sample.trio0.SameX := Sample.trio0_ref.sameX rfl
  have hdef : Q0.deformCamberLine (100 * (1/10 - old) / old) none = .ok R2 := by
    have := hR2
    unfold Profile.setCamberLineMax at this
    simpa [hcam, bind, Except.bind, hold] using this
  have hQ0 : Q0.SameX ∧ Q0.xup = Sample.trio0.xup := by
    obtain ⟨_, Q0', _, _, e1, _, ⟨s1, s2, s3, s4⟩, _⟩ := C12_max_camber_spec Sample.trio0 Sample.trio0_ref
    rw [hcam] at e1
    obtain ⟨_, rfl⟩ := Prod.mk.inj (Except.ok.inj e1)
    obtain ⟨a1, a2, a3, a4⟩ := hcX
    exact ⟨⟨by rw [s1, s2, a1], by rw [s1, s3, a2], by rw [s1, s4, a3], by rw [s1]; exact a4⟩, s1⟩
  obtain ⟨m0, hm0, _⟩ := C09_max_thickness Q0 hQ0.1
  obtain ⟨_, hR2X, hR2x⟩ := Blade.deform_thickness hQ0.1 hm0 hdef
  have hW : (Sample.trioBlade none (some [1/10, 0])).WellFormed := by simp [Sample.trioBlade, Blade.WellFormed]
  obtain ⟨b', hb⟩ := Sample.trio_applies none (some [1/10, 0]) true (by
    intro i hi
    interval_cases i
    · refine ⟨R2, ?_, Blade.sameX_uniform hR2X, by rw [hR2x, hQ0.2]; rfl⟩
      simp [Blade.sectionSteps, Sample.trioBlade, getIdx, bind, Except.bind, pure, Except.pure, hR2, -one_div]
    · refine ⟨Sample.trio0, ?_, Sample.trio0_uniform, rfl⟩
      simp [Blade.sectionSteps, Sample.trioBlade, bind, Except.bind, pure, Except.pure])
  obtain ⟨L₀, p0, h⟩ := C130_blade _ hW [1/10, 0] rfl 0 Sample.trio rfl (by simp [Sample.trioBlade]) Sample.trio_ref Sample.trio_off.1
    Sample.trio_off.2 1 rfl one_ne_zero
  exact ⟨_, b', L₀, hW, p0, hb, h⟩

end
end BladeX
