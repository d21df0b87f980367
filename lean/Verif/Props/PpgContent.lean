import Verif.Props.BladePpg
import Verif.Props.CamberDefined
import Verif.Lemmas.ProfileLife

/-! # C111: what a `.ppg` file says about the blade -/

namespace BladeX
noncomputable section
open Spec Classical

namespace Blade

/-- No printed number contains a blank. -/
def Fmt.NoBlank (F : Fmt) : Prop := ∀ x, ' ' ∉ F.e8 x

/-- Words, each after a blank, can be told apart. -/
theorem words_inj : ∀ (a b : List Str), (∀ w ∈ a, ' ' ∉ w) → (∀ w ∈ b, ' ' ∉ w) → (a.map (' ' :: ·)).flatten = (b.map (' ' :: ·)).flatten →
    a = b := by
  have key : ∀ (w v x y : Str), ' ' ∉ w → ' ' ∉ v → (x = [] ∨ ∃ t, x = ' ' :: t) → (y = [] ∨ ∃ t, y = ' ' :: t) → w ++ x = v ++ y →
      w = v ∧ x = y := by
    intro w
    induction w with
    | nil =>
      intro v x y _ hv hx hy h
      cases v with
      | nil => exact ⟨rfl, by simpa using h⟩
      | cons c v =>
        rcases hx with rfl | ⟨t, rfl⟩
        · simp at h
        · simp only [List.nil_append, List.cons_append, List.cons.injEq] at h
          exact absurd (by rw [h.1]; exact List.mem_cons_self) hv
    | cons c w ih =>
      intro v x y hw hv hx hy h
      cases v with
      | nil =>
        rcases hy with rfl | ⟨t, rfl⟩
        · simp at h
        · simp only [List.nil_append, List.cons_append, List.cons.injEq] at h
          exact absurd (by simp [h.1]) hw
      | cons d v =>
        simp only [List.cons_append, List.cons.injEq] at h
        obtain ⟨rfl, h⟩ := h
        obtain ⟨rfl, rfl⟩ := ih v x y (fun k => hw (by simp [k])) (fun k => hv (by simp [k])) hx hy h
        exact ⟨rfl, rfl⟩
  have form : ∀ l : List Str, (l.map (' ' :: ·)).flatten = [] ∨ ∃ t, (l.map (' ' :: ·)).flatten = ' ' :: t := by
    intro l
    cases l with
    | nil => exact .inl rfl
    | cons c l => exact .inr ⟨_, rfl⟩
  intro a
  induction a with
  | nil =>
    intro b _ _ h
    cases b with
    | nil => rfl
    | cons w b => simp at h
  | cons w a ih =>
    intro b ha hb h
    cases b with
    | nil => simp at h
    | cons v b =>
      simp only [List.map_cons, List.flatten_cons, List.cons_append, List.cons.injEq, true_and] at h
      obtain ⟨rfl, h'⟩ := key w v _ _ (ha w (by simp)) (hb v (by simp)) (form a) (form b) h
      rw [ih b (fun x hx => ha x (by simp [hx])) (fun x hx => hb x (by simp [hx])) h']

theorem listed_inj {F : Fmt} (hB : F.NoBlank) {u v : Arr} (h : listed F.e8 u = listed F.e8 v) : u.map F.e8 = v.map F.e8 := by
  refine words_inj _ _ ?_ ?_ (by simpa [listed, List.map_map, Function.comp_def] using h) <;>
  · intro w hw
    obtain ⟨x, _, rfl⟩ := List.mem_map.1 hw
    exact hB x

end Blade

/-- The numbers in the row of a section: radius over half the diameter, chord over the diameter, skew, rake and pitch over the diameter
(as they are when the parameters are said to be normalised), thickness and camber. -/
def Spec.ppgRowOf (D : ℝ) (norm : Bool) (r c p k s th cm : ℝ) : Arr :=
  if norm then [r, c, s, k, p, th, cm] else [r / (D / 2), c / D, s, k / D, p / D, th, cm]

/-- **C111** two exports with the same text have the same printed diameters and number of blades, equally many sections, and for every section
the same printed row of seven numbers, the same printed upper abscissae, upper ordinates and lower ordinates. -/
theorem C111_determines (F : Blade.Fmt) (hF : F.OneLine) (hB : F.NoBlank) (w₁ w₂ : Bool) (fs₁ fs₂ fs₁' fs₂' : ParamFile.FS) (path₁ path₂ : Str)
    (D₁ D₂ Dh₁ Dh₂ : ℝ) (nB₁ nB₂ : Int) (norm₁ norm₂ : Bool) (b₁ b₂ b₁' b₂' : Blade) (hW₁ : b₁.WellFormed) (hW₂ : b₂.WellFormed)
    (h₁ : b₁.exportPpg F w₁ fs₁ path₁ D₁ Dh₁ nB₁ norm₁ = (b₁', fs₁', .ok ())) (h₂ : b₂.exportPpg F w₂ fs₂ path₂ D₂ Dh₂ nB₂ norm₂ = (b₂', fs₂', .ok ()))
    (heq : fs₁' path₁ = fs₂' path₂) :
    F.float D₁ = F.float D₂ ∧ F.float Dh₁ = F.float Dh₂ ∧ F.int nB₁ = F.int nB₂ ∧ b₁.sections.length = b₂.sections.length ∧
    ∀ (i : Nat) (P Q : Profile) (r c p k s r' c' p' k' s' : ℝ), b₁.sections[i]? = some P → b₁.radii[i]? = some r → b₁.chord[i]? = some c →
      b₁.pitch[i]? = some p → b₁.rake[i]? = some k → b₁.skew[i]? = some s → b₂.sections[i]? = some Q → b₂.radii[i]? = some r' →
      b₂.chord[i]? = some c' → b₂.pitch[i]? = some p' → b₂.rake[i]? = some k' → b₂.skew[i]? = some s' →
      P.xup.map F.e8 = Q.xup.map F.e8 ∧ P.yup.map F.e8 = Q.yup.map F.e8 ∧ P.ydown.map F.e8 = Q.ydown.map F.e8 ∧
      ∃ th th' cm cm' R R', P.maxThickness = .ok th ∧ Q.maxThickness = .ok th' ∧ P.maxCamber = .ok (cm, R) ∧ Q.maxCamber = .ok (cm', R') ∧
        (ppgRowOf D₁ norm₁ r c p k s th cm).map F.e8 = (ppgRowOf D₂ norm₂ r' c' p' k' s' th' cm').map F.e8 := by
  obtain ⟨_, t, ht, l1, l2, l3, _, _⟩ := C53_layout F hF w₁ fs₁ fs₁' path₁ D₁ Dh₁ nB₁ norm₁ b₁ b₁' hW₁ h₁
  obtain ⟨_, t', ht', m1, m2, m3, _, _⟩ := C53_layout F hF w₂ fs₂ fs₂' path₂ D₂ Dh₂ nB₂ norm₂ b₂ b₂' hW₂ h₂
  obtain rfl : t = t' := by rw [ht, ht'] at heq; exact Option.some.inj heq
  have hn : b₁.sections.length = b₂.sections.length := by omega
  have hh : ppgHead F D₁ Dh₁ nB₁ b₁.sections.length = ppgHead F D₂ Dh₂ nB₂ b₂.sections.length := by rw [← l2, ← m2]
  simp only [ppgHead, List.cons.injEq, List.append_cancel_left_eq, true_and] at hh
  refine ⟨hh.1, hh.2.1, hh.2.2.1, hn, ?_⟩
  intro i P Q r c p k s r' c' p' k' s' a1 a2 a3 a4 a5 a6 b1 b2 b3 b4 b5 b6
  obtain ⟨th, cm, R, x1, x2, x3, _, x5, x6, x7⟩ := l3 i P r c p k s a1 a2 a3 a4 a5 a6
  obtain ⟨th', cm', R', y1, y2, y3, _, y5, y6, y7⟩ := m3 i Q r' c' p' k' s' b1 b2 b3 b4 b5 b6
  rw [← hn] at y5 y6 y7
  have same : ∀ (j : Nat) (u v : Arr), (splitNL t)[j]? = some (listed F.e8 u ++ c!" ") → (splitNL t)[j]? = some (listed F.e8 v ++ c!" ") →
      u.map F.e8 = v.map F.e8 := by
    intro j u v hu hv
    rw [hu] at hv
    exact Blade.listed_inj hB (List.append_cancel_right (Option.some.inj hv))
  refine ⟨same _ _ _ x5 y5, same _ _ _ x6 y6, same _ _ _ x7 y7, th, th', cm, cm', R, R', x1, y1, x2, y2, ?_⟩
  rw [x3] at y3
  exact Blade.listed_inj hB (Option.some.inj y3)

/-- Non-vacuity: a way of printing that keeps zero apart from other numbers, on one line and without blanks. -/
example : ∃ F : Blade.Fmt, F.OneLine ∧ F.NoBlank ∧ F.e8 0 ≠ F.e8 1 := by
  refine ⟨⟨fun x => if x = 0 then c!"0" else c!"1", fun x => if x = 0 then c!"0" else c!"1", fun n => if n = 0 then c!"0" else c!"1"⟩,
    ⟨fun x => ?_, fun x => ?_, fun n => ?_⟩, fun x => ?_, by simp⟩ <;> simp only <;> split_ifs <;> decide

namespace Blade

theorem mapM_congr {α β : Type} {f g : α → Res β} {l : List α} (h : ∀ x ∈ l, f x = g x) : l.mapM f = l.mapM g := by
  induction l with
  | nil => rfl
  | cons x l ih => rw [List.mapM_cons, List.mapM_cons, h x (by simp), ih fun y hy => h y (by simp [hy])]

/-- The text depends on the parameters and on three of the four arrays of the sections. -/
theorem text_congr (F : Fmt) (D Dhub : ℝ) (nB : Int) {b₁ b₂ : Blade} (hr : b₁.radii = b₂.radii) (hc : b₁.chord = b₂.chord) (hp : b₁.pitch = b₂.pitch)
    (hk : b₁.rake = b₂.rake) (hs : b₁.skew = b₂.skew)
    (h : List.Forall₂ (fun P Q : Profile => P.xup = Q.xup ∧ P.yup = Q.yup ∧ P.ydown = Q.ydown) b₁.sections b₂.sections) (th ca : Arr) :
    ppgText F D Dhub nB b₁ th ca = ppgText F D Dhub nB b₂ th ca := by
  have hl := h.length_eq
  have e1 : ppgRow F b₁ th ca = ppgRow F b₂ th ca := by
    funext i
    simp only [ppgRow, hr, hc, hp, hk, hs]
  have e2 : (List.range b₁.sections.length).mapM (ppgSection F b₁) = (List.range b₁.sections.length).mapM (ppgSection F b₂) := by
    apply mapM_congr
    intro i hi
    have hi := List.mem_range.1 hi
    have hi' : i < b₂.sections.length := by omega
    obtain ⟨x1, x2, x3⟩ := (List.forall₂_iff_get.1 h).2 i hi hi'
    simp only [List.get_eq_getElem] at x1 x2 x3
    simp only [ppgSection, hr, getIdx, List.getElem?_eq_getElem hi, List.getElem?_eq_getElem hi', bind, Except.bind, x1, x2, x3]
  unfold ppgText
  simp only [e1, e2]
  rw [hl]

theorem measures_congr : ∀ {l₁ l₂ : List Profile}, List.Forall₂ (fun P Q : Profile => P.xup = Q.xup ∧ P.yup = Q.yup ∧ P.ydown = Q.ydown ∧
      P.maxThickness = Q.maxThickness ∧ P.maxCamber.map Prod.fst = Q.maxCamber.map Prod.fst) l₁ l₂ →
    ∀ {ms : List (ℝ × ℝ × Profile)} (b₁ b₂ : Blade), b₁.sections = l₁ → b₂.sections = l₂ → ppgMeasures b₁ = .ok ms → ∃ ms', ppgMeasures b₂ = .ok ms' ∧
      ms'.map (·.1) = ms.map (·.1) ∧ ms'.map (·.2.1) = ms.map (·.2.1) ∧
      List.Forall₂ (fun P Q : Profile => P.xup = Q.xup ∧ P.yup = Q.yup ∧ P.ydown = Q.ydown) (ms.map (·.2.2)) (ms'.map (·.2.2)) := by
  intro l₁ l₂ h
  unfold ppgMeasures
  induction h with
  | nil =>
    intro ms b₁ b₂ h1 h2 hm
    rw [h1] at hm
    obtain rfl : ms = [] := by cases hm; rfl
    exact ⟨[], by rw [h2]; rfl, rfl, rfl, .nil⟩
  | cons hPQ _ ih =>
    rename_i P Q l₁ l₂ _
    intro ms b₁ b₂ h1 h2 hm
    obtain ⟨x1, x2, x3, x4, x5⟩ := hPQ
    rw [h1, List.mapM_cons] at hm
    simp only [Profile.bndA] at hm
    obtain ⟨m, ⟨th, ht, c, hc, hmm⟩, ms', hms', he⟩ := hm
    obtain rfl := Except.ok.inj (show Except.ok (th, c.1, c.2) = Except.ok m from hmm)
    obtain rfl := Except.ok.inj (show Except.ok _ = Except.ok ms from he)
    obtain ⟨n', hn', k1, k2, k3⟩ := ih { b₁ with sections := l₁ } { b₂ with sections := l₂ } rfl rfl hms'
    rw [hc] at x5
    rcases hc' : Q.maxCamber with e | c'
    · rw [hc'] at x5; cases x5
    rw [hc'] at x5
    have x5' : c.1 = c'.1 := Except.ok.inj x5
    refine ⟨(th, c'.1, c'.2) :: n', ?_, by simp [k1], by simp [k2, x5'], .cons ?_ k3⟩
    · rw [h2, List.mapM_cons, ← x4, ht, hc']
      simp only [bind, Except.bind, pure, Except.pure] at hn' ⊢
      rw [hn']
    · obtain ⟨a1, _, a3, a4, _⟩ := camber_keeps (v := c.1) (Q := c.2) hc
      obtain ⟨b1, _, b3, b4, _⟩ := camber_keeps (v := c'.1) (Q := c'.2) hc'
      exact ⟨a1.trans (x1.trans b1.symm), a3.trans (x2.trans b3.symm), a4.trans (x3.trans b4.symm)⟩

end Blade

/-- **C111** the lower abscissae are not in the file: blades with the same parameters, whose sections have the same upper points and lower
ordinates and the same measured thickness and camber, give the same file, whatever their lower abscissae are. -/
theorem C111_lower_abscissae_lost (F : Blade.Fmt) (w : Bool) (fs fs' : ParamFile.FS) (path : Str) (D Dhub : ℝ) (nB : Int) (norm : Bool)
    (b₁ b₂ b₁' : Blade) (hr : b₁.radii = b₂.radii) (hc : b₁.chord = b₂.chord) (hp : b₁.pitch = b₂.pitch) (hk : b₁.rake = b₂.rake)
    (hs : b₁.skew = b₂.skew) (hS : List.Forall₂ (fun P Q : Profile => P.xup = Q.xup ∧ P.yup = Q.yup ∧ P.ydown = Q.ydown ∧
      P.maxThickness = Q.maxThickness ∧ P.maxCamber.map Prod.fst = Q.maxCamber.map Prod.fst) b₁.sections b₂.sections)
    (h : b₁.exportPpg F w fs path D Dhub nB norm = (b₁', fs', .ok ())) :
    ∃ b₂', b₂.exportPpg F w fs path D Dhub nB norm = (b₂', fs', .ok ()) := by
  rcases hm : Blade.ppgMeasures b₁ with e | ms
  · simp [Blade.exportPpg, hm] at h
  obtain ⟨ms', hm', k1, k2, k3⟩ := Blade.measures_congr hS b₁ b₂ rfl rfl hm
  unfold Blade.exportPpg at h ⊢
  rw [hm] at h
  rw [hm']
  simp only at h ⊢
  by_cases hD : norm = false ∧ D = 0
  · rw [if_pos hD] at h; simp at h
  rw [if_neg hD] at h ⊢
  rw [k1, k2]
  have e : Blade.ppgText F D Dhub nB (if norm then { b₂ with sections := ms'.map (·.2.2) } else Blade.absToNorm D { b₂ with sections := ms'.map (·.2.2) })
      (ms.map (·.1)) (ms.map (·.2.1)) =
      Blade.ppgText F D Dhub nB (if norm then { b₁ with sections := ms.map (·.2.2) } else Blade.absToNorm D { b₁ with sections := ms.map (·.2.2) })
      (ms.map (·.1)) (ms.map (·.2.1)) := by
    symm
    cases norm
    · exact Blade.text_congr F D Dhub nB (by simp [Blade.absToNorm, hr]) (by simp [Blade.absToNorm, hc]) (by simp [Blade.absToNorm, hp])
        (by simp [Blade.absToNorm, hk]) (by simp [Blade.absToNorm, hs]) k3 _ _
    · exact Blade.text_congr F D Dhub nB (b₁ := { b₁ with sections := ms.map (·.2.2) }) (b₂ := { b₂ with sections := ms'.map (·.2.2) }) hr hc hp hk hs k3 _ _
  rw [e]
  rcases ht : Blade.ppgText F D Dhub nB (if norm then { b₁ with sections := ms.map (·.2.2) } else Blade.absToNorm D { b₁ with sections := ms.map (·.2.2) })
      (ms.map (·.1)) (ms.map (·.2.1)) with e | t
  · rw [ht] at h; simp at h
  rw [ht] at h ⊢
  simp only at h ⊢
  cases w
  · simp at h
  · simp only [if_true, Prod.mk.injEq, and_true] at h ⊢
    exact ⟨_, rfl, h.2⟩

namespace Blade

/-- A profile without thickness and camber, on different abscissae above and below. -/
def Sample.flat (x : ℝ) : Profile :=
  { xup := [0, 1 / 2, 1], xdown := [0, x, 1], yup := [0, 0, 0], ydown := [0, 0, 0], par := none }

theorem Sample.flat_ref {x : ℝ} (h0 : 0 < x) (h1 : x < 1) : (Sample.flat x).RefPosition 0 1 0 := by
  refine ⟨by simp [Sample.flat, Profile.Shaped], rfl, ?_, by norm_num, ?_, ?_⟩
  · simp [Sample.flat, Profile.Ends, Profile.upper, Profile.lower]
  · norm_num [Sample.flat]
  · simp only [Sample.flat, List.nodup_cons, List.mem_cons, List.not_mem_nil, or_false, not_or, not_false_eq_true, List.nodup_nil, and_true]
    exact ⟨⟨h0.ne, by norm_num⟩, h1.ne⟩

theorem Sample.flat_measures {x : ℝ} (h0 : 0 < x) (h1 : x < 1) :
    (Sample.flat x).maxThickness = .ok 0 ∧ ∃ Q, (Sample.flat x).maxCamber = .ok (0, Q) := by
  have hR := Sample.flat_ref h0 h1
  have hz : ({ Sample.flat x with yup := (Sample.flat x).yup.map (· * 0), ydown := (Sample.flat x).ydown.map (· * 0) } : Profile) = Sample.flat x := by
    simp [Sample.flat]
  constructor
  · obtain ⟨m, hm⟩ := (C10_defined _ hR.shaped hR.len (by simp [Sample.flat])).2 (.inr ⟨hR.nodupUp, hR.nodupDown⟩)
    have := Profile.maxThickness_scale_y (c := 0) hm
    rw [hz] at this
    simpa using this
  · obtain ⟨v, Q, c, t, hm, _, _, ht, _, hc, _, _, hv, _⟩ := C12_max_camber_spec _ hR
    obtain ⟨K, hK⟩ : ∃ K : Nat, (K : Int) = 500 := ⟨500, rfl⟩
    have hi := hR.interp (n := K) (by omega)
    rw [hK, ht] at hi
    obtain rfl := Except.ok.inj hi
    rw [hc, zipWith_map_same] at hv
    obtain ⟨y, _, rfl⟩ := List.mem_map.1 hv
    have z : ∀ X : List ℝ, interpW 1 X [0, 0, 0] y = 0 := by
      intro X
      have := interpW_smul (r := 1) (X := X) (y := [0, 0, 0]) 0 y
      simpa using this
    refine ⟨Q, ?_⟩
    rw [hm]
    simp [Sample.flat, z]

end Blade

/-- Non-vacuity of the last theorem: two different blades with one and the same file. -/
example (F : Blade.Fmt) (hF : F.OneLine) (fs : ParamFile.FS) (path : Str) : ∃ b₁ b₂ b₁' b₂' : Blade, ∃ fs' : ParamFile.FS,
    b₁.WellFormed ∧ b₂.WellFormed ∧ b₁.sections.map Profile.lower ≠ b₂.sections.map Profile.lower ∧
    b₁.exportPpg F true fs path 2 1 5 false = (b₁', fs', .ok ()) ∧ b₂.exportPpg F true fs path 2 1 5 false = (b₂', fs', .ok ()) := by
  have m1 := Blade.Sample.flat_measures (x := 1 / 2) (by norm_num) (by norm_num)
  have m2 := Blade.Sample.flat_measures (x := 1 / 3) (by norm_num) (by norm_num)
  obtain ⟨b₁, hb₁⟩ : ∃ b : Blade, b = { Sample.blade2 with sections := [Blade.Sample.flat (1 / 2), Blade.Sample.flat (1 / 2)] } := ⟨_, rfl⟩
  obtain ⟨b₂, hb₂⟩ : ∃ b : Blade, b = { Sample.blade2 with sections := [Blade.Sample.flat (1 / 3), Blade.Sample.flat (1 / 3)] } := ⟨_, rfl⟩
  have w1 : b₁.WellFormed := by rw [hb₁]; simp [Sample.blade2, Blade.WellFormed]
  have w2 : b₂.WellFormed := by rw [hb₂]; simp [Sample.blade2, Blade.WellFormed]
  obtain ⟨⟨b₁', fs', h, _⟩, _⟩ := C53_restored F hF fs path 2 1 5 b₁ w1 false (by norm_num) (by
    rw [hb₁]
    simp only [List.mem_cons, List.not_mem_nil, or_false, or_self, forall_eq]
    obtain ⟨h, Q, h'⟩ := m1
    exact ⟨⟨_, h⟩, _, h'⟩)
  have hS : (Blade.Sample.flat (1 / 2)).xup = (Blade.Sample.flat (1 / 3)).xup ∧ (Blade.Sample.flat (1 / 2)).yup = (Blade.Sample.flat (1 / 3)).yup ∧
      (Blade.Sample.flat (1 / 2)).ydown = (Blade.Sample.flat (1 / 3)).ydown ∧
      (Blade.Sample.flat (1 / 2)).maxThickness = (Blade.Sample.flat (1 / 3)).maxThickness ∧
      (Blade.Sample.flat (1 / 2)).maxCamber.map Prod.fst = (Blade.Sample.flat (1 / 3)).maxCamber.map Prod.fst := by
    obtain ⟨h, Q, h'⟩ := m1
    obtain ⟨k, R, k'⟩ := m2
    exact ⟨rfl, rfl, rfl, by rw [h, k], by rw [h', k']; rfl⟩
  obtain ⟨b₂', h2⟩ := C111_lower_abscissae_lost F true fs fs' path 2 1 5 false b₁ b₂ b₁' (by rw [hb₁, hb₂]) (by rw [hb₁, hb₂]) (by rw [hb₁, hb₂])
    (by rw [hb₁, hb₂]) (by rw [hb₁, hb₂]) (by rw [hb₁, hb₂]; exact .cons hS (.cons hS .nil)) h
  refine ⟨b₁, b₂, b₁', b₂', fs', w1, w2, ?_, h, h2⟩
  rw [hb₁, hb₂]
  simp only [List.map_cons, List.map_nil, ne_eq, List.cons.injEq, and_true, and_self]
  intro hh
  have := congrArg (fun l => (l[1]?).map Prod.fst) hh
  simp [Profile.lower, Blade.Sample.flat] at this

/-- **C111** exporting after `apply_transformations` (or `build`) does not write the normalised profiles: the values listed for a section are the
coordinates of its points after they have been placed, in which every distance is the chord length times the one in the profile. -/
theorem C111_after_apply (F : Blade.Fmt) (hF : F.OneLine) (w : Bool) (fs fs' : ParamFile.FS) (path : Str) (D Dhub : ℝ) (nB : Int) (norm : Bool)
    (b b₁ b₂ : Blade) (refl : Bool) (hW : b.WellFormed) (ht : b.thickness = none) (hf : b.camber = none) (hU : ∀ P ∈ b.sections, P.Uniform)
    (h : b.applyTransformations refl = (b₁, .ok ())) (he : b₁.exportPpg F w fs path D Dhub nB norm = (b₂, fs', .ok ())) :
    ∃ t, fs' path = some t ∧ ∀ (i : Nat) (P : Profile) (r c p k s : ℝ), b.sections[i]? = some P → b.radii[i]? = some r → b.chord[i]? = some c →
      b.pitch[i]? = some p → b.rake[i]? = some k → b.skew[i]? = some s →
      ∃ ref, P.referencePoint = .ok ref ∧
        (splitNL t)[10 + b.sections.length + 4 * i + 1]? = some (listed F.e8 (P.upper.map fun q => (placed refl r c p k s ref q).1) ++ c!" ") ∧
        (splitNL t)[10 + b.sections.length + 4 * i + 2]? = some (listed F.e8 (P.upper.map fun q => (placed refl r c p k s ref q).2) ++ c!" ") ∧
        (splitNL t)[10 + b.sections.length + 4 * i + 3]? = some (listed F.e8 (P.lower.map fun q => (placed refl r c p k s ref q).2) ++ c!" ") ∧
        ∀ q q', dist2 (placed refl r c p k s ref q) (placed refl r c p k s ref q') = |c| * dist2 q q' := by
  obtain ⟨hl, ⟨g1, g2, g3, g4, g5⟩, hall⟩ := C46_placed b b₁ refl hW ht hf hU h
  have hW₁ : b₁.WellFormed := by
    obtain ⟨w1, w2, w3, w4, w5⟩ := hW
    exact ⟨by rw [g1, w1, hl], by rw [g2, w2, hl], by rw [g3, w3, hl], by rw [g4, w4, hl], by rw [g5, w5, hl]⟩
  obtain ⟨_, t, htx, _, _, l3, _, _⟩ := C53_layout F hF w fs fs' path D Dhub nB norm b₁ b₂ hW₁ he
  refine ⟨t, htx, ?_⟩
  intro i P r c p k s a1 a2 a3 a4 a5 a6
  obtain ⟨ref, Q, href, hr0, hQ, hup, hlo, hQU⟩ := hall i P r c p k s a1 a2 a3 a4 a5 a6
  obtain ⟨th, cm, R, _, _, _, _, x5, x6, x7⟩ := l3 i Q r c p k s hQ (by rw [g1, a2]) (by rw [g2, a3]) (by rw [g3, a4]) (by rw [g4, a5]) (by rw [g5, a6])
  obtain ⟨u1, u2, u3⟩ := hQU
  have e1 : Q.xup = P.upper.map fun q => (placed refl r c p k s ref q).1 := by
    have : Q.upper.map Prod.fst = Q.xup := List.map_fst_zip (by omega)
    rw [← this, hup, List.map_map]; rfl
  have e2 : Q.yup = P.upper.map fun q => (placed refl r c p k s ref q).2 := by
    have : Q.upper.map Prod.snd = Q.yup := List.map_snd_zip (by omega)
    rw [← this, hup, List.map_map]; rfl
  have e3 : Q.ydown = P.lower.map fun q => (placed refl r c p k s ref q).2 := by
    have : Q.lower.map Prod.snd = Q.ydown := List.map_snd_zip (by omega)
    rw [← this, hlo, List.map_map]; rfl
  rw [hl] at x5 x6 x7
  refine ⟨ref, href, by rw [x5, e1], by rw [x6, e2], by rw [x7, e3], fun q q' => ?_⟩
  exact (C46_placed_geometry refl r c p k s ref q q' hr0 0).2.1

namespace Blade

/-- A placed flat section can still be measured, when neither the chord nor the pitch is zero. -/
theorem Sample.flat_placed {Q : Profile} {r c p k s : ℝ} {ref : Pt} (hr : r ≠ 0) (hc : c ≠ 0) (hp : p ≠ 0)
    (h1 : Q.upper = (Sample.flat (1 / 2)).upper.map (placed true r c p k s ref))
    (h2 : Q.lower = (Sample.flat (1 / 2)).lower.map (placed true r c p k s ref)) (hU : Q.Uniform) :
    (∃ t, Q.maxThickness = .ok t) ∧ ∃ c, Q.maxCamber = .ok c := by
  obtain ⟨u1, u2, u3⟩ := hU
  set f := placed true r c p k s ref with hf
  have hup : Q.upper = [f (0, 0), f (1 / 2, 0), f (1, 0)] := by rw [h1]; simp [Sample.flat, Profile.upper]
  have hlo : Q.lower = [f (0, 0), f (1 / 2, 0), f (1, 0)] := by rw [h2]; simp [Sample.flat, Profile.lower]
  have e1 : Q.xup = [(f (0, 0)).1, (f (1 / 2, 0)).1, (f (1, 0)).1] := by
    have : Q.upper.map Prod.fst = Q.xup := List.map_fst_zip (by omega)
    rw [← this, hup]; rfl
  have e2 : Q.xdown = [(f (0, 0)).1, (f (1 / 2, 0)).1, (f (1, 0)).1] := by
    have : Q.lower.map Prod.fst = Q.xdown := List.map_fst_zip (by omega)
    rw [← this, hlo]; rfl
  have hφ : Real.sin (Real.arctan (p / (2 * Real.pi * r))) ≠ 0 := by
    rw [Real.sin_arctan]
    apply div_ne_zero
    · exact div_ne_zero hp (mul_ne_zero (mul_ne_zero two_ne_zero Real.pi_ne_zero) hr)
    · exact (Real.sqrt_pos.2 (by positivity)).ne'
  have hx : ∀ x y : ℝ, x ≠ y → (f (x, 0)).1 ≠ (f (y, 0)).1 := by
    intro x y hxy h
    simp only [hf, placed, if_true] at h
    have : Real.sin (Real.arctan (p / (2 * Real.pi * r))) * c * (x - y) = 0 := by linear_combination -h
    rcases mul_eq_zero.1 this with h | h
    · rcases mul_eq_zero.1 h with h | h
      · exact hφ h
      · exact hc h
    · exact hxy (sub_eq_zero.1 h)
  have nd : Q.xup.Nodup := by
    rw [e1]
    simp only [List.nodup_cons, List.mem_cons, List.not_mem_nil, or_false, not_or, not_false_eq_true, List.nodup_nil, and_true]
    exact ⟨⟨hx _ _ (by norm_num), hx _ _ (by norm_num)⟩, hx _ _ (by norm_num)⟩
  have hne : Q.xup ≠ [] := by rw [e1]; simp
  constructor
  · obtain ⟨m, hm, _⟩ := C09_max_thickness Q ⟨by rw [e1, e2], by omega, by omega, hne⟩
    exact ⟨m, hm⟩
  · obtain ⟨K, hK⟩ : ∃ K : Nat, (K : Int) = 500 := ⟨500, rfl⟩
    have := (C12_defined Q (by rw [e1, e2]) K (by omega)).2 ⟨⟨f (0, 0), ((f (1, 0)).1, ((f (1, 0)).2 + (f (1, 0)).2) / 2), ?_, hx _ _ (by norm_num)⟩,
      ⟨by omega, by omega⟩, nd, by rw [e2, ← e1]; exact nd⟩
    · rwa [hK] at this
    · rw [Profile.updateEdges_ends (a := f (0, 0)) (b := f (1, 0)) (c := f (0, 0)) (d := f (1, 0)) ⟨by omega, by omega⟩
        ⟨by rw [hup]; rfl, by rw [hup]; rfl, by rw [hlo]; rfl, by rw [hlo]; rfl⟩, if_neg (by norm_num)]

end Blade

/-- Non-vacuity: a blade with flat sections is placed and then exported. -/
example (F : Blade.Fmt) (hF : F.OneLine) (fs : ParamFile.FS) (path : Str) : ∃ b b₁ b₂ : Blade, ∃ fs' : ParamFile.FS, b.WellFormed ∧ b.thickness = none ∧
    b.camber = none ∧ (∀ P ∈ b.sections, P.Uniform) ∧ b.sections.length = 2 ∧ b.applyTransformations true = (b₁, .ok ()) ∧
    b₁.exportPpg F true fs path 2 1 5 false = (b₂, fs', .ok ()) := by
  obtain ⟨b, hb⟩ : ∃ b : Blade, b = { Sample.blade2 with sections := [Blade.Sample.flat (1 / 2), Blade.Sample.flat (1 / 2)] } := ⟨_, rfl⟩
  have hW : b.WellFormed := by rw [hb]; simp [Sample.blade2, Blade.WellFormed]
  have hU : ∀ P ∈ b.sections, P.Uniform := by rw [hb]; simp [Profile.Uniform, Blade.Sample.flat]
  have hR := Blade.Sample.flat_ref (x := 1 / 2) (by norm_num) (by norm_num)
  have href : (Blade.Sample.flat (1 / 2)).referencePoint = .ok (1 / 2, 0) := by
    rw [Profile.referencePoint_ends hR.shaped hR.ends, if_neg (by norm_num)]
    norm_num [mid]
  obtain ⟨b₁, h1⟩ := (C46_defined b true hW (by rw [hb]; rfl) (by rw [hb]; rfl) hU).2 ⟨by rw [hb]; simp, by rw [hb]; simp [Sample.blade2],
    by rw [hb]; simp only [List.mem_cons, List.not_mem_nil, or_false, or_self, forall_eq]; exact ⟨_, href⟩, by rw [hb]; simp⟩
  obtain ⟨hl, ⟨g1, g2, g3, g4, g5⟩, hall⟩ := C46_placed b b₁ true hW (by rw [hb]; rfl) (by rw [hb]; rfl) hU h1
  have hW₁ : b₁.WellFormed := by
    obtain ⟨w1, w2, w3, w4, w5⟩ := hW
    exact ⟨by rw [g1, w1, hl], by rw [g2, w2, hl], by rw [g3, w3, hl], by rw [g4, w4, hl], by rw [g5, w5, hl]⟩
  have hmeas : ∀ Q ∈ b₁.sections, (∃ t, Q.maxThickness = .ok t) ∧ ∃ c, Q.maxCamber = .ok c := by
    intro Q hQ
    obtain ⟨i, hi⟩ := List.getElem?_of_mem hQ
    have hlt : i < 2 := by
      have := (List.getElem?_eq_some_iff.1 hi).1
      rw [hl, hb] at this
      exact this
    obtain rfl | rfl : i = 0 ∨ i = 1 := by omega
    · obtain ⟨ref, Q', _, hr, hQ', x1, x2, x3⟩ := hall 0 (Blade.Sample.flat (1 / 2)) 1 1 2 0 0 (by rw [hb]; rfl) (by rw [hb]; rfl) (by rw [hb]; rfl)
        (by rw [hb]; rfl) (by rw [hb]; rfl) (by rw [hb]; rfl)
      obtain rfl : Q' = Q := by rw [hi] at hQ'; exact (Option.some.inj hQ').symm
      exact Blade.Sample.flat_placed hr (by norm_num) (by norm_num) x1 x2 x3
    · obtain ⟨ref, Q', _, hr, hQ', x1, x2, x3⟩ := hall 1 (Blade.Sample.flat (1 / 2)) 2 3 4 1 10 (by rw [hb]; rfl) (by rw [hb]; rfl) (by rw [hb]; rfl)
        (by rw [hb]; rfl) (by rw [hb]; rfl) (by rw [hb]; rfl)
      obtain rfl : Q' = Q := by rw [hi] at hQ'; exact (Option.some.inj hQ').symm
      exact Blade.Sample.flat_placed hr (by norm_num) (by norm_num) x1 x2 x3
  obtain ⟨⟨b₂, fs', h2, _⟩, _⟩ := C53_restored F hF fs path 2 1 5 b₁ hW₁ false (by norm_num) hmeas
  exact ⟨b, b₁, b₂, fs', hW, by rw [hb]; rfl, by rw [hb]; rfl, hU, by rw [hb]; rfl, h1, h2⟩

/-- **C53** the lines that a failing measurement leaves in a section are those that the statements of `max_camber`, executed one by one on
the object, leave there. -/
theorem C53_leftover (s : Foil) : (Foil.maxCamber (some 500) s).1.view = Blade.camberLeaves s.view := by
  have hk : ∀ s : Foil, (Foil.updateEdges s).1.view = s.view := fun s => Foil.updateEdges_keeps (f := Foil.view) (fun _ _ _ => rfl) s
  unfold Foil.maxCamber Blade.camberLeaves
  rcases Foil.computeChordLine_run (some 500) s with ⟨t, e, h1, h2⟩ | ⟨e, Q1, h1, h2, h3, h4⟩
  · rw [Act.bind_error h1, h2]
    simp only
    have : t = (Foil.computeChordLine (some 500) s).1 := by rw [h1]
    rw [this]
    unfold Foil.computeChordLine
    rcases Foil.updateEdges_run s with ⟨t', e', k1, _⟩ | ⟨e', k1, _⟩
    · rw [Act.bind_error k1]
      have := hk s
      rwa [k1] at this
    · rw [Act.bind_ok k1, Act.eval_error h2]
      rfl
  rw [Act.bind_ok h1, h3]
  simp only
  obtain ⟨s1, hs1⟩ : ∃ s1 : Foil, s1 = { s with le := some e.1, te := some e.2, chordLine := Q1.chordLine } := ⟨_, rfl⟩
  have hv : s1.view = Q1 := by rw [hs1, h4]; rfl
  rw [← hs1]
  rcases Foil.computeCamberLine_run (some 500) s1 with ⟨e', h5, h6⟩ | ⟨cl, h5, h6⟩
  · rw [Act.bind_error h5]
    rw [hv] at h6
    rw [h6]
    exact hv
  · rw [Act.bind_ok h5]
    rw [hv] at h6
    rw [h6, ← hv]
    rfl

/-- Non-vacuity of the failures: a blade whose second section has no points. -/
example (F : Blade.Fmt) (w : Bool) (fs : ParamFile.FS) (path : Str) : ∃ b : Blade, b.WellFormed ∧
    ∃ b', b.exportPpg F w fs path 2 1 5 false = (b', fs, .error .valueError) := by
  obtain ⟨E, hE⟩ : ∃ E : Profile, E = { xup := [], xdown := [], yup := [], ydown := [], par := none } := ⟨_, rfl⟩
  have hbad : E.maxThickness = .error .valueError := by
    rw [hE]
    simp [Profile.maxThickness, Profile.effectiveN, npEqAll, bzip, npMax, bind, Except.bind, pure, Except.pure]
  refine ⟨{ Sample.blade2 with sections := [Sample.foil, E] }, by simp [Sample.blade2, Blade.WellFormed], ?_⟩
  have := Blade.ppgMeasures_error (b := { Sample.blade2 with sections := [Sample.foil, E] }) (pre := [Sample.foil]) (P := E) (post := []) rfl
    (by simp only [List.mem_cons, List.not_mem_nil, or_false, forall_eq]; exact Sample.foil_measurable) (.inl hbad)
  exact ⟨_, by rw [Blade.exportPpg, this]⟩

end
end BladeX
