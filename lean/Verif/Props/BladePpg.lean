import Verif.Lemmas.Ppg
import Verif.Props.Blade
import Verif.Props.ProfileMeasure

/-! # C53: `export_ppg` -/

namespace BladeX
noncomputable section
open Spec Classical

namespace Blade

theorem measures_ok {b : Blade} {ms : List (ℝ × ℝ × Profile)} (h : ppgMeasures b = .ok ms) :
    ms.length = b.sections.length ∧ ∀ (i : Nat) P m, b.sections[i]? = some P → ms[i]? = some m →
      P.maxThickness = .ok m.1 ∧ P.maxCamber = .ok m.2 := by
  obtain ⟨h1, h2⟩ := mapM_ok.1 h
  refine ⟨h1, fun i P m hP hm => ?_⟩
  have := h2 i P m hP hm
  simp only [bind, Except.bind, pure, Except.pure] at this
  rcases ht : P.maxThickness with e | t
  · rw [ht] at this; cases this
  · rw [ht] at this
    rcases hc : P.maxCamber with e | c
    · rw [hc] at this; cases this
    · rw [hc] at this
      simp only [Except.ok.injEq] at this
      subst this
      exact ⟨rfl, rfl⟩

theorem chord_keeps {P Q : Profile} {n : Option Int} (h : P.computeChordLine n = .ok Q) :
    Q.xup = P.xup ∧ Q.xdown = P.xdown ∧ Q.yup = P.yup ∧ Q.ydown = P.ydown ∧ Q.par = P.par := by
  unfold Profile.computeChordLine at h
  simp only [bind, Except.bind, pure, Except.pure, throw, throwThe, MonadExceptOf.throw] at h
  repeat' split at h
  all_goals first
    | cases h; done
    | (obtain rfl := Except.ok.inj h; exact ⟨rfl, rfl, rfl, rfl, rfl⟩)

theorem camberLine_keeps {P Q : Profile} {n : Option Int} (h : P.computeCamberLine n = .ok Q) :
    Q.xup = P.xup ∧ Q.xdown = P.xdown ∧ Q.yup = P.yup ∧ Q.ydown = P.ydown ∧ Q.par = P.par := by
  unfold Profile.computeCamberLine at h
  simp only [bind, Except.bind, pure, Except.pure, throw, throwThe, MonadExceptOf.throw] at h
  repeat' split at h
  all_goals first
    | cases h; done
    | (obtain rfl := Except.ok.inj h; exact ⟨rfl, rfl, rfl, rfl, rfl⟩)

theorem camber_keeps {P Q : Profile} {n : Option Int} {v : ℝ} (h : P.maxCamber n = .ok (v, Q)) :
    Q.xup = P.xup ∧ Q.xdown = P.xdown ∧ Q.yup = P.yup ∧ Q.ydown = P.ydown ∧ Q.par = P.par := by
  unfold Profile.maxCamber at h
  simp only [bind, Except.bind, pure, Except.pure] at h
  rcases h1 : P.computeChordLine n with e | P1
  · rw [h1] at h; cases h
  rw [h1] at h
  simp only at h
  rcases h2 : P1.computeCamberLine n with e | P2
  · rw [h2] at h; cases h
  rw [h2] at h
  simp only at h
  have k1 := chord_keeps h1
  have k2 := camberLine_keeps h2
  have : Q = P2 := by
    simp only [throw, throwThe, MonadExceptOf.throw] at h
    repeat' split at h
    all_goals first
      | cases h; done
      | exact ((Prod.mk.inj (Except.ok.inj h)).2).symm
  subst this
  obtain ⟨a1, a2, a3, a4, a5⟩ := k1
  obtain ⟨b1, b2, b3, b4, b5⟩ := k2
  exact ⟨b1.trans a1, b2.trans a2, b3.trans a3, b4.trans a4, b5.trans a5⟩

/-- The same points and parameters; the stored lines may differ. -/
def SamePoints (Q P : Profile) : Prop :=
  Q.xup = P.xup ∧ Q.xdown = P.xdown ∧ Q.yup = P.yup ∧ Q.ydown = P.ydown ∧ Q.par = P.par

theorem leaves_same (P : Profile) : SamePoints (camberLeaves P) P := by
  unfold camberLeaves
  rcases h1 : P.computeChordLine (some 500) with e | P1
  · exact ⟨rfl, rfl, rfl, rfl, rfl⟩
  · obtain ⟨a1, a2, a3, a4, a5⟩ := chord_keeps h1
    simp only
    rcases h2 : P1.computeCamberLine (some 500) with e | P2
    · exact ⟨a1, a2, a3, a4, a5⟩
    · obtain ⟨b1, b2, b3, b4, b5⟩ := camberLine_keeps h2
      exact ⟨b1.trans a1, b2.trans a2, b3.trans a3, b4.trans a4, b5.trans a5⟩

theorem ppgSections_same : ∀ ss : List Profile, List.Forall₂ SamePoints (ppgSections ss) ss := by
  have hr : ∀ ss : List Profile, List.Forall₂ SamePoints ss ss :=
    fun ss => List.forall₂_same.2 fun _ _ => ⟨rfl, rfl, rfl, rfl, rfl⟩
  intro ss
  induction ss with
  | nil => exact .nil
  | cons P ss ih =>
    unfold ppgSections
    rcases h1 : P.maxThickness with e | t
    · exact hr _
    · simp only
      rcases h2 : P.maxCamber with e | c
      · exact .cons (leaves_same P) (hr _)
      · exact .cons (camber_keeps (v := c.1) (Q := c.2) h2) ih

/-- The section can be measured. -/
def Measurable (P : Profile) : Prop := (∃ t, P.maxThickness = .ok t) ∧ ∃ c, P.maxCamber = .ok c

theorem ppgMeasures_error {b : Blade} {pre post : List Profile} {P : Profile} {e : PyErr} (hb : b.sections = pre ++ P :: post)
    (hpre : ∀ Q ∈ pre, Measurable Q)
    (hP : P.maxThickness = .error e ∨ ((∃ t, P.maxThickness = .ok t) ∧ P.maxCamber = .error e)) : ppgMeasures b = .error e := by
  unfold ppgMeasures
  rw [hb]
  clear hb
  induction pre with
  | nil =>
    rw [List.nil_append, List.mapM_cons]
    rcases hP with h | ⟨⟨t, h⟩, h'⟩
    · rw [h]; rfl
    · rw [h, h']; rfl
  | cons Q pre ih =>
    obtain ⟨⟨t, ht⟩, c, hc⟩ := hpre Q (by simp)
    rw [List.cons_append, List.mapM_cons, ht, hc]
    have := ih fun R hR => hpre R (by simp [hR])
    simp only [bind, Except.bind, pure, Except.pure] at this ⊢
    rw [this]

theorem ppgSections_split {pre post : List Profile} {P : Profile} (hpre : ∀ Q ∈ pre, Measurable Q)
    (hP : ¬ Measurable P) : ∃ ss P', ppgSections (pre ++ P :: post) = ss ++ P' :: post ∧ SamePoints P' P ∧
      List.Forall₂ (fun Q' Q => ∃ v, Q.maxCamber = .ok (v, Q')) ss pre ∧ (∀ e, P.maxThickness = .error e → P' = P) ∧
      ((∃ t, P.maxThickness = .ok t) → P' = camberLeaves P) := by
  induction pre with
  | nil =>
    refine ⟨[], ?_⟩
    simp only [List.nil_append]
    unfold ppgSections
    rcases h1 : P.maxThickness with e | t
    · exact ⟨P, rfl, ⟨rfl, rfl, rfl, rfl, rfl⟩, .nil, fun _ _ => rfl, fun ⟨_, h⟩ => (by cases h)⟩
    · simp only
      rcases h2 : P.maxCamber with e | c
      · exact ⟨_, rfl, leaves_same P, .nil, fun _ h => (by cases h), fun _ => rfl⟩
      · exact absurd ⟨⟨t, h1⟩, c, h2⟩ hP
  | cons Q pre ih =>
    obtain ⟨ss, P', h1, h2, h3, h4, h5⟩ := ih fun R hR => hpre R (by simp [hR])
    obtain ⟨⟨t, ht⟩, c, hc⟩ := hpre Q (by simp)
    refine ⟨c.2 :: ss, P', ?_, h2, .cons ⟨c.1, hc⟩ h3, h4, h5⟩
    rw [List.cons_append, ppgSections, ht, hc]
    simp only
    rw [h1, List.cons_append]

/-- The first section that cannot be measured. -/
theorem first_unmeasurable {ss : List Profile} {P : Profile} (hP : P ∈ ss) (h : ¬ Measurable P) :
    ∃ pre Q post, ss = pre ++ Q :: post ∧ (∀ R ∈ pre, Measurable R) ∧ ¬ Measurable Q := by
  induction ss with
  | nil => cases hP
  | cons R ss ih =>
    by_cases hR : Measurable R
    · rcases List.mem_cons.1 hP with rfl | hP
      · exact absurd hR h
      · obtain ⟨pre, Q, post, h1, h2, h3⟩ := ih hP
        refine ⟨R :: pre, Q, post, by rw [h1]; rfl, ?_, h3⟩
        intro S hS
        rcases List.mem_cons.1 hS with rfl | hS
        · exact hR
        · exact h2 S hS
    · exact ⟨[], R, ss, rfl, by simp, hR⟩

/-- The sections with the lines stored by measuring them. -/
def measured (b : Blade) (ms : List (ℝ × ℝ × Profile)) : Blade := { b with sections := ms.map (·.2.2) }

theorem export_cases {F : Fmt} (hF : F.OneLine) (w : Bool) (fs : ParamFile.FS) (path : Str) (D Dhub : ℝ) (nB : Int) (norm : Bool)
    {b : Blade} (hW : b.WellFormed) {ms : List (ℝ × ℝ × Profile)} (hm : ppgMeasures b = .ok ms) (hD : norm = true ∨ D ≠ 0) :
    ∃ t, ppgText F D Dhub nB (if norm then b.measured ms else absToNorm D (b.measured ms)) (ms.map (·.1)) (ms.map (·.2.1)) = .ok t ∧
      exportPpg F w fs path D Dhub nB norm b = if w then
        (if norm then b.measured ms else normToAbs D (absToNorm D (b.measured ms)), fun q => if q = path then some t else fs q, .ok ())
      else (if norm then b.measured ms else absToNorm D (b.measured ms), fs, .error .osError) := by
  obtain ⟨hl, _⟩ := measures_ok hm
  obtain ⟨wr, wc, wp, wk, ws⟩ := hW
  have hW' : (if norm then b.measured ms else absToNorm D (b.measured ms)).WellFormed := by
    cases norm <;> simp [WellFormed, absToNorm, measured, hl, wr, wc, wp, wk, ws]
  have hs : (if norm then b.measured ms else absToNorm D (b.measured ms)).sections.length = ms.length := by
    cases norm <;> simp [absToNorm, measured]
  obtain ⟨t, ht, _⟩ := ppgText_lines hF (D := D) (Dhub := Dhub) (nB := nB) hW' (th := ms.map (·.1)) (ca := ms.map (·.2.1))
    (by rw [hs]; simp) (by rw [hs]; simp)
  refine ⟨t, ht, ?_⟩
  have hD' : ¬ (norm = false ∧ D = 0) := by
    rintro ⟨rfl, h⟩
    rcases hD with h' | h'
    · cases h'
    · exact h' h
  unfold exportPpg
  rw [hm]
  simp only [if_neg hD']
  change (match ppgText F D Dhub nB (if norm then b.measured ms else absToNorm D (b.measured ms)) _ _ with
    | .error e => _ | .ok t => _) = _
  rw [ht]
  simp only
  cases norm <;> cases w <;> rfl

end Blade

/-- **C53** a successful `export_ppg` writes exactly the named file, with `26 + 5 n` lines for `n` sections: the ten header lines, one row
per section (radius over half the diameter, chord, skew, rake and pitch over the diameter, thickness, camber), four lines per section
(radius and number of points, upper abscissae, upper ordinates, lower ordinates), and the hub with its fifteen points. -/
theorem C53_layout (F : Blade.Fmt) (hF : F.OneLine) (w : Bool) (fs fs' : ParamFile.FS) (path : Str) (D Dhub : ℝ) (nB : Int)
    (norm : Bool) (b b' : Blade) (hW : b.WellFormed) (h : b.exportPpg F w fs path D Dhub nB norm = (b', fs', .ok ())) :
    (∀ q, q ≠ path → fs' q = fs q) ∧ ∃ t, fs' path = some t ∧
      (splitNL t).length = 26 + 5 * b.sections.length ∧
      (splitNL t).take 10 = ppgHead F D Dhub nB b.sections.length ∧
      (∀ (i : Nat) (P : Profile) (r c p k s : ℝ), b.sections[i]? = some P → b.radii[i]? = some r → b.chord[i]? = some c →
        b.pitch[i]? = some p → b.rake[i]? = some k → b.skew[i]? = some s →
        ∃ th cm Q, P.maxThickness = .ok th ∧ P.maxCamber = .ok (cm, Q) ∧
          (splitNL t)[10 + i]? = some (listed F.e8
            (if norm then [r, c, s, k, p, th, cm] else [r / (D / 2), c / D, s, k / D, p / D, th, cm])) ∧
          (splitNL t)[10 + b.sections.length + 4 * i]? =
            some (F.e8 (if norm then r else r / (D / 2)) ++ c!"  " ++ F.int P.xup.length) ∧
          (splitNL t)[10 + b.sections.length + 4 * i + 1]? = some (listed F.e8 P.xup ++ c!" ") ∧
          (splitNL t)[10 + b.sections.length + 4 * i + 2]? = some (listed F.e8 P.yup ++ c!" ") ∧
          (splitNL t)[10 + b.sections.length + 4 * i + 3]? = some (listed F.e8 P.ydown ++ c!" ")) ∧
      (splitNL t)[10 + 5 * b.sections.length]? = some (c!"number of Hub offsets = " ++ F.int 15) ∧
      ∀ (j : Nat) (o : Pt), hubTable[j]? = some o →
        (splitNL t)[11 + 5 * b.sections.length + j]? = some (F.e8 o.1 ++ c!" " ++ F.e8 o.2) := by
  rcases hm : Blade.ppgMeasures b with e | ms
  · simp [Blade.exportPpg, hm] at h
  by_cases hD : norm = true ∨ D ≠ 0
  swap
  · push Not at hD
    simp [Blade.exportPpg, hm, hD.1, hD.2] at h
  obtain ⟨t, ht, hex⟩ := Blade.export_cases hF w fs path D Dhub nB norm hW hm hD
  obtain ⟨hl, hms⟩ := Blade.measures_ok hm
  cases w
  · rw [hex] at h; simp at h
  rw [hex] at h
  simp only [if_true, Prod.mk.injEq, and_true] at h
  obtain ⟨rfl, rfl⟩ := h
  refine ⟨fun q hq => by simp [hq], t, by simp, ?_⟩
  have hex' := hex
  clear hex
  obtain ⟨wr, wc, wp, wk, ws⟩ := id hW
  set B := (if norm then b.measured ms else Blade.absToNorm D (b.measured ms)) with hB
  have hs : B.sections = ms.map (·.2.2) := by cases norm <;> simp [hB, Blade.absToNorm, Blade.measured]
  have hn : B.sections.length = b.sections.length := by rw [hs]; simp [hl]
  have hr : B.radii = if norm then b.radii else b.radii.map (· * 2 / D) := by cases norm <;> simp [hB, Blade.absToNorm, Blade.measured]
  have hc : B.chord = if norm then b.chord else b.chord.map (· / D) := by cases norm <;> simp [hB, Blade.absToNorm, Blade.measured]
  have hp : B.pitch = if norm then b.pitch else b.pitch.map (· / D) := by cases norm <;> simp [hB, Blade.absToNorm, Blade.measured]
  have hk : B.rake = if norm then b.rake else b.rake.map (· / D) := by cases norm <;> simp [hB, Blade.absToNorm, Blade.measured]
  have hsk : B.skew = b.skew := by cases norm <;> simp [hB, Blade.absToNorm, Blade.measured]
  have hWB : B.WellFormed := by
    refine ⟨?_, ?_, ?_, ?_, ?_⟩ <;> rw [hn]
    · rw [hr]; split_ifs <;> simp [wr]
    · rw [hc]; split_ifs <;> simp [wc]
    · rw [hp]; split_ifs <;> simp [wp]
    · rw [hk]; split_ifs <;> simp [wk]
    · rw [hsk, ws]
  obtain ⟨t', ht', hlines⟩ := Blade.ppgText_lines hF (D := D) (Dhub := Dhub) (nB := nB) hWB (th := ms.map (·.1)) (ca := ms.map (·.2.1))
    (by rw [hn]; simp [hl]) (by rw [hn]; simp [hl])
  obtain rfl : t = t' := by rw [ht] at ht'; exact Except.ok.inj ht'
  rw [hlines, hn]
  set n := b.sections.length with hnn
  set H := ppgHead F D Dhub nB n with hH
  set R := (List.range n).map fun i => Blade.valueLine F [B.radii.getD i 0, B.chord.getD i 0, B.skew.getD i 0, B.rake.getD i 0,
        B.pitch.getD i 0, (ms.map (·.1)).getD i 0, (ms.map (·.2.1)).getD i 0] with hR
  set S := (List.range n).map (fun i => Blade.blockLines F (B.radii.getD i 0) (B.sections.getD i Sample.foil)) with hS
  have lH : H.length = 10 := rfl
  have lR : R.length = n := by simp [hR]
  have hS4 : ∀ a ∈ S, a.length = 4 := by
    intro a ha
    obtain ⟨i, _, rfl⟩ := List.mem_map.1 ha
    rfl
  have lS : S.flatten.length = 4 * n := by rw [length_blocks S hS4]; simp [hS]
  have lU : (Blade.hubLines F).length = 15 := rfl
  refine ⟨?_, ?_, ?_, ?_, ?_⟩
  · simp only [List.length_append, lH, lR, lS, lU, List.length_singleton]; omega
  · rw [List.append_assoc, List.append_assoc, List.append_assoc, ← lH, List.take_left']
    rfl
  · intro i P r c p k s hP hr' hc' hp' hk' hs'
    have hi : i < n := (List.getElem?_eq_some_iff.1 hP).1
    have hmi : ms[i]? = some (ms[i]'(by omega)) := List.getElem?_eq_getElem (by omega)
    obtain ⟨m1, m2⟩ := hms i P _ hP hmi
    refine ⟨ms[i].1, ms[i].2.1, ms[i].2.2, m1, m2, ?_, ?_⟩
    · rw [List.append_assoc, List.append_assoc, List.append_assoc, List.getElem?_append_right (by omega), lH,
        List.getElem?_append_left (by omega), hR]
      rw [List.getElem?_map, show 10 + i - 10 = i by omega, List.getElem?_range hi, Option.map_some]
      congr 1
      simp only [Blade.valueLine, listed]
      congr 1
      have e1 : (ms.map (·.1)).getD i 0 = ms[i].1 := by simp [hmi]
      have e2 : (ms.map (·.2.1)).getD i 0 = ms[i].2.1 := by simp [hmi]
      rw [e1, e2]
      cases norm
      · simp [hr, hc, hp, hk, hsk, hr', hc', hp', hk', hs', div_div_eq_mul_div]
      · simp [hr, hc, hp, hk, hsk, hr', hc', hp', hk', hs']
    · have hSi : S[i]? = some (Blade.blockLines F (B.radii.getD i 0) (B.sections.getD i Sample.foil)) := by
        simp [hS, List.getElem?_range hi]
      have look : ∀ j < 4, (H ++ R ++ S.flatten ++ Blade.hubLines F ++ [Blade.hubLine F (0.79, 0.0)])[10 + n + 4 * i + j]? =
          (Blade.blockLines F (B.radii.getD i 0) (B.sections.getD i Sample.foil))[j]? := by
        intro j hj
        rw [← getElem?_blocks S hS4 i j _ hSi hj, List.append_assoc,
          List.getElem?_append_left (by simp only [List.length_append, lH, lR, lS]; omega),
          List.getElem?_append_right (by simp only [List.length_append, lH, lR]; omega)]
        congr 1
        simp only [List.length_append, lH, lR]; omega
      obtain ⟨x1, _, x3, x4, _⟩ := Blade.camber_keeps m2
      have es : B.sections.getD i Sample.foil = ms[i].2.2 := by simp [hs, hmi]
      have er : B.radii.getD i 0 = if norm then r else r / (D / 2) := by
        rw [hr]; cases norm
        · simp [hr', div_div_eq_mul_div]
        · simp [hr']
      rw [es, er] at look
      refine ⟨?_, ?_, ?_, ?_⟩
      · rw [show 10 + n + 4 * i = 10 + n + 4 * i + 0 from rfl, look 0 (by norm_num)]
        simp [Blade.blockLines, x1]
      · rw [look 1 (by norm_num)]
        simp [Blade.blockLines, x1, Blade.valueLine, listed]
      · rw [look 2 (by norm_num)]
        simp [Blade.blockLines, x3, Blade.valueLine, listed]
      · rw [look 3 (by norm_num)]
        simp [Blade.blockLines, x4, Blade.valueLine, listed]
  · rw [List.append_assoc, List.getElem?_append_right (by simp only [List.length_append, lH, lR, lS]; omega)]
    rw [show 10 + 5 * n - (H ++ R ++ S.flatten).length = 0 by simp only [List.length_append, lH, lR, lS]; omega]
    rfl
  · intro j o ho
    rw [List.append_assoc, List.getElem?_append_right (by simp only [List.length_append, lH, lR, lS]; omega)]
    rw [show 11 + 5 * n + j - (H ++ R ++ S.flatten).length = j + 1 by simp only [List.length_append, lH, lR, lS]; omega]
    have : (Blade.hubLines F ++ [Blade.hubLine F (0.79, 0.0)])[j + 1]? = (hubTable.map (Blade.hubLine F))[j]? := by
      have e : Blade.hubLines F ++ [Blade.hubLine F (0.79, 0.0)] =
          (c!"number of Hub offsets = " ++ F.int Blade.hubOffsets.length) :: hubTable.map (Blade.hubLine F) := by
        have h3 : (-3.0 : ℝ) = -3 := by norm_num
        have h0 : (0.0 : ℝ) = 0 := by norm_num
        simp [Blade.hubLines, Blade.hubOffsets, hubTable, h3, h0]
      rw [e, List.getElem?_cons_succ]
    rw [this, List.getElem?_map, ho]
    rfl

/-- **C53** outcome and state: with measurable sections and a diameter that is not zero (or normalised parameters) the export succeeds
exactly when the file can be written, and then radii, chords, pitch, rake and skew are what they were, as are the points of the
sections. When the file cannot be written the blade is left in normalised form: radii divided by `D / 2`, chords, pitch and rake by `D`. -/
theorem C53_restored (F : Blade.Fmt) (hF : F.OneLine) (fs : ParamFile.FS) (path : Str) (D Dhub : ℝ) (nB : Int)
    (b : Blade) (hW : b.WellFormed) (norm : Bool) (hD : norm = true ∨ D ≠ 0)
    (hm : ∀ P ∈ b.sections, (∃ t, P.maxThickness = .ok t) ∧ ∃ c, P.maxCamber = .ok c) :
    (∃ b' fs', b.exportPpg F true fs path D Dhub nB norm = (b', fs', .ok ()) ∧
      b'.radii = b.radii ∧ b'.chord = b.chord ∧ b'.pitch = b.pitch ∧ b'.rake = b.rake ∧ b'.skew = b.skew ∧
      b'.sections.map Profile.upper = b.sections.map Profile.upper ∧ b'.sections.map Profile.lower = b.sections.map Profile.lower ∧
      b'.coordsUp = b.coordsUp ∧ b'.coordsDown = b.coordsDown ∧ b'.upper = b.upper ∧ b'.lower = b.lower) ∧
    (∃ b', b.exportPpg F false fs path D Dhub nB norm = (b', fs, .error .osError) ∧
      (norm = true → b'.radii = b.radii ∧ b'.chord = b.chord ∧ b'.pitch = b.pitch ∧ b'.rake = b.rake) ∧
      (norm = false → b'.radii = b.radii.map (· / (D / 2)) ∧ b'.chord = b.chord.map (· / D) ∧ b'.pitch = b.pitch.map (· / D) ∧
        b'.rake = b.rake.map (· / D)) ∧ b'.skew = b.skew ∧
      b'.sections.map Profile.upper = b.sections.map Profile.upper ∧ b'.sections.map Profile.lower = b.sections.map Profile.lower) := by
  obtain ⟨ms, hms⟩ : ∃ ms, Blade.ppgMeasures b = .ok ms := by
    have hx : ∀ P ∈ b.sections, ∃ m, (do
        let t ← P.maxThickness
        let c ← P.maxCamber
        return (t, c.1, c.2) : Res (ℝ × ℝ × Profile)) = .ok m := by
      intro P hP
      obtain ⟨⟨t, ht⟩, c, hc⟩ := hm P hP
      exact ⟨(t, c.1, c.2), by rw [ht, hc]; rfl⟩
    unfold Blade.ppgMeasures
    generalize b.sections = l at hx
    induction l with
    | nil => exact ⟨[], rfl⟩
    | cons P l ih =>
      obtain ⟨m, hm⟩ := hx P (by simp)
      obtain ⟨ms, hms⟩ := ih (fun Q hQ => hx Q (by simp [hQ]))
      refine ⟨m :: ms, ?_⟩
      rw [List.mapM_cons, hm]
      simp only [bind, Except.bind, pure, Except.pure] at hms ⊢
      rw [hms]
  obtain ⟨hl, hms'⟩ := Blade.measures_ok hms
  have hsec : ∀ (g : Profile → List Pt), (∀ P Q : Profile, Q.xup = P.xup → Q.xdown = P.xdown → Q.yup = P.yup → Q.ydown = P.ydown →
      g Q = g P) → (ms.map (·.2.2)).map g = b.sections.map g := by
    intro g hg
    apply List.ext_getElem?
    intro i
    rcases hP : b.sections[i]? with _ | P
    · have : ms[i]? = none := by rw [List.getElem?_eq_none_iff] at hP ⊢; omega
      simp [hP, this]
    · have hi := (List.getElem?_eq_some_iff.1 hP).1
      have hmi : ms[i]? = some (ms[i]'(by omega)) := List.getElem?_eq_getElem (by omega)
      obtain ⟨_, m2⟩ := hms' i P _ hP hmi
      obtain ⟨x1, x2, x3, x4, _⟩ := Blade.camber_keeps m2
      simp only [List.getElem?_map, hP, hmi, Option.map_some, hg _ _ x1 x2 x3 x4]
  have hup := hsec Profile.upper (by intro P Q h1 h2 h3 h4; simp [Profile.upper, h1, h3])
  have hlo := hsec Profile.lower (by intro P Q h1 h2 h3 h4; simp [Profile.lower, h2, h4])
  have back : ∀ (l : Arr), D ≠ 0 → (l.map (· / D)).map (· * D) = l := by
    intro l h0
    rw [List.map_map]
    conv_rhs => rw [← List.map_id l]
    apply List.map_congr_left
    intro x _
    simp [h0]
  have backr : ∀ (l : Arr), D ≠ 0 → (l.map (· * 2 / D)).map (· * D / 2) = l := by
    intro l h0
    rw [List.map_map]
    conv_rhs => rw [← List.map_id l]
    apply List.map_congr_left
    intro x _
    simp only [Function.comp, id]
    field_simp
  constructor
  · obtain ⟨t, _, hex⟩ := Blade.export_cases hF true fs path D Dhub nB norm hW hms hD
    rw [if_pos rfl] at hex
    refine ⟨_, _, hex, ?_⟩
    cases norm
    · have h0 : D ≠ 0 := by simpa using hD
      simp only [Bool.false_eq_true, if_false, Blade.normToAbs, Blade.absToNorm, Blade.measured]
      exact ⟨backr _ h0, back _ h0, back _ h0, back _ h0, trivial, hup, hlo, trivial, trivial, trivial, trivial⟩
    · simp only [if_true, Blade.measured]
      exact ⟨trivial, trivial, trivial, trivial, trivial, hup, hlo, trivial, trivial, trivial, trivial⟩
  · obtain ⟨t, _, hex⟩ := Blade.export_cases hF false fs path D Dhub nB norm hW hms hD
    rw [if_neg (by simp)] at hex
    refine ⟨_, hex, ?_⟩
    cases norm
    · simp only [Bool.false_eq_true, if_false, Blade.absToNorm, Blade.measured]
      refine ⟨by simp, fun _ => ⟨?_, trivial, trivial, trivial⟩, trivial, hup, hlo⟩
      apply List.map_congr_left
      intro x _
      rw [div_div_eq_mul_div]
    · simp only [if_true, Blade.measured]
      refine ⟨fun _ => ⟨?_, ?_, ?_, ?_⟩, by simp, ?_, hup, hlo⟩ <;> first | rfl | trivial

/-- **C53** failures before anything is written: when a section cannot be measured, no file is written, the exception is the one of the first such
section, and the blade keeps everything but the chord and camber lines of its sections: the sections before it hold the lines stored by measuring
them, its own points are what they were, the sections after it are untouched. With diameter zero (and parameters to be normalised) no file is
written either. -/
theorem C53_failures (F : Blade.Fmt) (w : Bool) (fs : ParamFile.FS) (path : Str) (D Dhub : ℝ) (nB : Int) (b : Blade) (norm : Bool) :
    (∀ P ∈ b.sections, ((∀ t, P.maxThickness ≠ .ok t) ∨ ∀ c, P.maxCamber ≠ .ok c) →
      ∃ pre Q post e ss Q', b.sections = pre ++ Q :: post ∧
        (∀ R ∈ pre, (∃ t, R.maxThickness = .ok t) ∧ ∃ c, R.maxCamber = .ok c) ∧
        (Q.maxThickness = .error e ∨ ((∃ t, Q.maxThickness = .ok t) ∧ Q.maxCamber = .error e)) ∧
        b.exportPpg F w fs path D Dhub nB norm = ({ b with sections := ss ++ Q' :: post }, fs, .error e) ∧
        List.Forall₂ (fun R' R => ∃ v, R.maxCamber = .ok (v, R')) ss pre ∧
        Q'.xup = Q.xup ∧ Q'.xdown = Q.xdown ∧ Q'.yup = Q.yup ∧ Q'.ydown = Q.ydown ∧ Q'.par = Q.par ∧
        (∀ e, Q.maxThickness = .error e → Q' = Q)) ∧
    (norm = false → D = 0 → ∃ b' e, b.exportPpg F w fs path D Dhub nB norm = (b', fs, .error e) ∧ b'.radii = b.radii ∧
      b'.chord = b.chord ∧ b'.pitch = b.pitch ∧ b'.rake = b.rake ∧ b'.skew = b.skew ∧
      b'.sections.map Profile.upper = b.sections.map Profile.upper ∧ b'.sections.map Profile.lower = b.sections.map Profile.lower) := by
  constructor
  · intro P hP h
    have hun : ¬ Blade.Measurable P := by
      rintro ⟨⟨t, ht⟩, c, hc⟩
      rcases h with h | h
      · exact h t ht
      · exact h c hc
    obtain ⟨pre, Q, post, h1, h2, h3⟩ := Blade.first_unmeasurable hP hun
    obtain ⟨e, he⟩ : ∃ e, Q.maxThickness = .error e ∨ ((∃ t, Q.maxThickness = .ok t) ∧ Q.maxCamber = .error e) := by
      rcases ht : Q.maxThickness with e | t
      · exact ⟨e, .inl rfl⟩
      · rcases hc : Q.maxCamber with e | c
        · exact ⟨e, .inr ⟨⟨t, rfl⟩, rfl⟩⟩
        · exact absurd ⟨⟨t, ht⟩, c, hc⟩ h3
    obtain ⟨ss, Q', k1, ⟨k2, k3, k4, k5, k6⟩, k7, k8, _⟩ := Blade.ppgSections_split (post := post) h2 h3
    refine ⟨pre, Q, post, e, ss, Q', h1, h2, he, ?_, k7, k2, k3, k4, k5, k6, k8⟩
    rw [Blade.exportPpg, Blade.ppgMeasures_error h1 h2 he]
    simp only
    rw [h1, k1]
  · intro hn h0
    have up : ∀ {l l' : List Profile}, List.Forall₂ Blade.SamePoints l l' → l.map Profile.upper = l'.map Profile.upper ∧
        l.map Profile.lower = l'.map Profile.lower := by
      intro l l' h
      induction h with
      | nil => exact ⟨rfl, rfl⟩
      | cons h _ ih =>
        obtain ⟨x1, x2, x3, x4, _⟩ := h
        simp [ih.1, ih.2, Profile.upper, Profile.lower, x1, x2, x3, x4]
    rcases hm : Blade.ppgMeasures b with e | ms
    · refine ⟨{ b with sections := Blade.ppgSections b.sections }, e, by simp [Blade.exportPpg, hm], rfl, rfl, rfl, rfl, rfl, ?_⟩
      exact up (Blade.ppgSections_same _)
    · refine ⟨{ b with sections := ms.map (·.2.2) }, .nonFinite, by simp [Blade.exportPpg, hm, hn, h0], rfl, rfl, rfl, rfl, rfl, ?_⟩
      apply up
      obtain ⟨hl, h2⟩ := Blade.measures_ok hm
      rw [List.forall₂_iff_get]
      refine ⟨by simp [hl], ?_⟩
      intro i hi hi'
      simp only [List.length_map] at hi
      have := h2 i _ _ (List.getElem?_eq_getElem hi') (List.getElem?_eq_getElem hi)
      simpa [Blade.SamePoints] using Blade.camber_keeps (v := ms[i].2.1) (Q := ms[i].2.2) this.2

theorem Sample.foil_measurable : (∃ t, Sample.foil.maxThickness = .ok t) ∧ ∃ c, Sample.foil.maxCamber = .ok c := by
  constructor
  · obtain ⟨m, hm, _⟩ := C09_max_thickness Sample.foil (by simp [Sample.foil, Profile.SameX])
    exact ⟨m, hm⟩
  · have hR : Sample.foil.RefPosition 0 1 0 := by
      refine ⟨?_, rfl, ?_, by norm_num, ?_, ?_⟩
      · simp [Sample.foil, Profile.Shaped]
      · simp [Sample.foil, Profile.Ends, Profile.upper, Profile.lower]
      · norm_num [Sample.foil]
      · norm_num [Sample.foil]
    obtain ⟨v, Q, c, t, hm, _⟩ := C12_max_camber_spec _ hR
    exact ⟨_, hm⟩

/-- Non-vacuity: the sample blade is exported, with any formatting of numbers that puts them on one line. -/
example (F : Blade.Fmt) (hF : F.OneLine) (fs : ParamFile.FS) (path : Str) :
    ∃ b' fs' t, Sample.blade2.exportPpg F true fs path 2 1 5 false = (b', fs', .ok ()) ∧ b'.radii = [1, 2] ∧ fs' path = some t ∧
      (splitNL t).length = 36 ∧
      (splitNL t)[16]? = some (F.e8 2 ++ c!"  " ++ F.int 4) := by
  have hW : Sample.blade2.WellFormed := by simp [Sample.blade2, Blade.WellFormed]
  obtain ⟨⟨b', fs', h, hr, _⟩, _⟩ := C53_restored F hF fs path 2 1 5 Sample.blade2 hW false (by norm_num)
    (by simp only [Sample.blade2, List.mem_cons, List.not_mem_nil, or_false, or_self, forall_eq]; exact Sample.foil_measurable)
  obtain ⟨_, t, ht, hn, _, hp, _⟩ := C53_layout F hF true fs fs' path 2 1 5 false _ b' hW h
  obtain ⟨th, cm, Q, _, _, h1, h2, _⟩ := hp 1 Sample.foil 2 3 4 1 10 rfl rfl rfl rfl rfl rfl
  refine ⟨b', fs', t, h, hr, ht, by rw [hn]; rfl, ?_⟩
  rw [show (16 : Nat) = 10 + Sample.blade2.sections.length + 4 * 1 from rfl, h2]
  norm_num [Sample.foil]

end
end BladeX
