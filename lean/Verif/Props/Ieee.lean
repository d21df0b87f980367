import Verif.Lemmas.IeeeCamber

/-! # C127: divisions by zero go on silently -/

namespace BladeX
noncomputable section
open Classical
namespace Ieee

/-- **C127**: where the exact model of `apply_transformations` finishes or raises an exception, numpy's numbers do the same. -/
theorem C127_agrees (z : Signs) (refl : Bool) (b b' : Blade) (res : Res Unit) (h : Blade.applyTransformations refl b = (b', res)) :
    (res = .ok () → applyTransformations z refl b = .ok (coords b'.coordsUp, coords b'.coordsDown)) ∧
    (∀ e, res = .error e → e ≠ .nonFinite → applyTransformations z refl b = .error e) := by
  unfold Blade.applyTransformations at h
  unfold applyTransformations
  obtain ⟨h1, h2⟩ := loop_agrees z b refl b.sections 0
  rcases hs : Blade.sectionLoop b refl 0 b.sections with ⟨ss, (e | u)⟩
  · rw [hs] at h
    obtain ⟨rfl, rfl⟩ := Prod.mk.inj h
    refine ⟨fun hc => (by cases hc), fun e' he hn => ?_⟩
    obtain rfl := Except.error.inj he
    rw [h2 ss e hs hn]; rfl
  · rw [hs] at h
    rw [h1 ss hs]
    have hc := cylindrical_agrees z ss b.radii
    rcases hy : Blade.cylindrical ss b.radii with e | ⟨up, down⟩
    · simp only [hy] at h
      obtain ⟨rfl, rfl⟩ := Prod.mk.inj h
      refine ⟨fun hc => (by cases hc), fun e' he hn => ?_⟩
      obtain rfl := Except.error.inj he
      exact hc.raises e hy hn
    · simp only [hy] at h
      obtain ⟨rfl, rfl⟩ := Prod.mk.inj h
      refine ⟨fun _ => hc.returns (up, down) hy, fun e' he => by cases he⟩

/-- **C127**: the same for `max_camber` and `set_camber_line_max`. -/
theorem C127_camber_agrees (z w : Bool) (P : Profile) (n : Option Int) (c : ℝ) :
    Agrees (fun r : ℝ × Profile => fin r.1) (P.maxCamber n) (maxCamber z P n) ∧
    Agrees ofProfile (P.setCamberLineMax c) (setCamberLineMax z w P c) :=
  ⟨maxCamber_agrees z P n, setCamber_agrees z w P c⟩

private theorem exists_list {R : Nat → α → Prop} (n : Nat) (h : ∀ j, j < n → ∃ a, R j a) :
    ∃ l : List α, l.length = n ∧ ∀ j a, l[j]? = some a → R j a := by
  induction n with
  | zero => exact ⟨[], rfl, by simp⟩
  | succ n ih =>
    obtain ⟨l, hl, hR⟩ := ih fun j hj => h j (by omega)
    obtain ⟨a, ha⟩ := h n (by omega)
    refine ⟨l ++ [a], by simp [hl], fun j c hc => ?_⟩
    by_cases hj : j < l.length
    · rw [List.getElem?_append_left hj] at hc; exact hR j c hc
    · rw [List.getElem?_append_right (by omega)] at hc
      have : j - l.length = 0 := by
        have := (List.getElem?_eq_some_iff.1 hc).1
        simp at this; omega
      rw [this] at hc
      obtain rfl : a = c := by simpa using hc
      rwa [show j = n by omega]

/-- Indexing from the end. -/
private theorem reverse_get {l : List α} {i j : Nat} (h : i + j + 1 = l.length) : l.reverse[j]? = l[i]? := by
  rw [List.getElem?_reverse (by omega)]
  congr 1; omega

private theorem signed_get (z : Signs) (rs : Arr) (i : Nat) : (signed z rs)[i]? = rs[i]?.map fun r => (r, z.radius i) := by
  simp [signed]

/-- One surface of one section. -/
private theorem surface (z : Bool) (r p : ℝ) (xs ys : List Ieee) (xs' ys' : Arr) {n : Nat} (hn1 : xs.length = n) (hn2 : ys.length = n)
    (hn3 : xs'.length = n) (hn4 : ys'.length = n) (h1 : r ≠ 0 → xs = xs'.map fin ∧ ys = ys'.map fin)
    (h2 : r = 0 → (p ≠ 0 → ∀ x ∈ xs, x.IsFinite) ∧ (p = 0 → ∀ x ∈ xs, x = nan)) :
    (r ≠ 0 → List.zipWith (wrapI (r, z)) xs ys = ((List.zip xs' ys').map (Spec.wrap (if r = 0 then 1 else r))).map pt) ∧
    (r = 0 → (List.zipWith (wrapI (r, z)) xs ys).length = (((List.zip xs' ys').map (Spec.wrap (if r = 0 then 1 else r))).map pt).length ∧
      ∀ q ∈ List.zipWith (wrapI (r, z)) xs ys, q.2.1 = nan ∧ q.2.2 = nan ∧ (p ≠ 0 → q.1.IsFinite) ∧ (p = 0 → q.1 = nan)) := by
  constructor
  · intro hr
    obtain ⟨rfl, rfl⟩ := h1 hr
    rw [if_neg hr, zipWith_fin, List.map_map]
    have : ∀ x y, wrapI (r, z) (fin x) (fin y) = (pt ∘ Spec.wrap r) (x, y) := fun x y => wrap_fin r z hr x y
    simp only [this]
    rw [List.map_zip_eq_zipWith]; rfl
  · intro hr
    obtain ⟨e1, e2⟩ := h2 hr
    refine ⟨by simp [hn1, hn2, hn3, hn4], fun q hq => ?_⟩
    obtain ⟨i, hi⟩ := List.getElem?_of_mem hq
    rw [List.getElem?_zipWith] at hi
    rcases hx : xs[i]? with _ | x
    · simp [hx] at hi
    rcases hy : ys[i]? with _ | y
    · simp [hx, hy] at hi
    rw [hx, hy] at hi
    obtain rfl := Option.some.inj hi
    subst hr
    show (wrapI (0, z) x y).2.1 = nan ∧ (wrapI (0, z) x y).2.2 = nan ∧ _
    rw [wrap_zero]
    exact ⟨rfl, rfl, fun h => e1 h x (List.mem_of_getElem? hx), fun h => e2 h x (List.mem_of_getElem? hx)⟩

/-- The run of all sections from the runs of each. -/
private theorem assemble (z : Signs) (refl : Bool) (b : Blade) (rs1 : Arr) (ss : List Profile) (up1 down1 : Face)
    (hlen : ss.length = b.sections.length) (h0 : b.radii.length = b.sections.length) (h1 : rs1.length = b.sections.length)
    (hcyl : Blade.cylindrical ss rs1 = .ok (up1, down1)) (S : Nat → Foil → Profile → Prop)
    (hsec : ∀ j P Q, b.sections[j]? = some P → ss[j]? = some Q → ∃ F n m, sectionRun z b refl j P = .ok F ∧ F.Good n m ∧
      (ofProfile Q).Good n m ∧ S j F Q) :
    ∃ up down, applyTransformations z refl b = .ok (up, down) ∧ up.length = b.sections.length ∧ down.length = b.sections.length ∧
      ∀ i j r r1, i + j + 1 = b.sections.length → b.radii[i]? = some r → rs1[i]? = some r1 → 
        ∀ c c', (up[j]? = some c ∧ (coords up1)[j]? = some c') ∨ (down[j]? = some c ∧ (coords down1)[j]? = some c') →
          ∃ F Q xs ys xs' ys' n, S i F Q ∧ ((xs = F.xup ∧ ys = F.yup ∧ xs' = Q.xup ∧ ys' = Q.yup) ∨
            (xs = F.xdown ∧ ys = F.ydown ∧ xs' = Q.xdown ∧ ys' = Q.ydown)) ∧
            xs.length = n ∧ ys.length = n ∧ xs'.length = n ∧ ys'.length = n ∧ c = List.zipWith (wrapI (r, z.radius i)) xs ys ∧
            c' = ((List.zip xs' ys').map (Spec.wrap r1)).map pt := by
  obtain ⟨hne, hshape, hsame, hup, hdown⟩ := (Blade.cylindrical_ok (by omega)).1 hcyl
  obtain ⟨Fs, hFl, hFs⟩ := exists_list (R := fun j F => ∀ P Q, b.sections[j]? = some P → ss[j]? = some Q → ∃ n m,
      sectionRun z b refl j P = .ok F ∧ F.Good n m ∧ (ofProfile Q).Good n m ∧ S j F Q) b.sections.length (by
    intro j hj
    obtain ⟨F, n, m, hF⟩ := hsec j b.sections[j] (ss[j]'(by omega)) (List.getElem?_eq_getElem hj) (List.getElem?_eq_getElem _)
    refine ⟨F, fun P Q hP hQ => ⟨n, m, ?_⟩⟩
    rw [List.getElem?_eq_getElem hj] at hP
    rw [List.getElem?_eq_getElem (by omega)] at hQ
    obtain rfl := Option.some.inj hP
    obtain rfl := Option.some.inj hQ
    exact hF)
  obtain ⟨Q0, hQ0⟩ := List.exists_mem_of_ne_nil _ hne
  have hgood : ∀ F ∈ Fs, F.xup.length = Q0.upper.length ∧ F.yup.length = Q0.upper.length ∧ F.xdown.length = Q0.lower.length ∧
      F.ydown.length = Q0.lower.length := by
    intro F hF
    obtain ⟨j, hj⟩ := List.getElem?_of_mem hF
    have hjl : j < b.sections.length := by rw [← hFl]; exact (List.getElem?_eq_some_iff.1 hj).1
    obtain ⟨n, m, _, hg, hq, _⟩ := hFs j F hj _ _ (List.getElem?_eq_getElem hjl) (List.getElem?_eq_getElem (by omega : j < ss.length))
    obtain ⟨e1, e2⟩ := hsame _ (List.getElem_mem (by omega : j < ss.length)) _ hQ0
    have a1 := hq.xup; have a2 := hq.yup; have a3 := hq.xdown; have a4 := hq.ydown
    simp only [ofProfile, List.length_map] at a1 a2 a3 a4
    simp only [Profile.upper, Profile.lower, List.length_zip, a1, a2, a3, a4, min_self] at e1 e2
    refine ⟨hg.xup.trans ?_, hg.yup.trans ?_, hg.xdown.trans ?_, hg.ydown.trans ?_⟩
    · simp only [Profile.upper, List.length_zip, ← e1]
    · simp only [Profile.upper, List.length_zip, ← e1]
    · simp only [Profile.lower, List.length_zip, ← e2]
    · simp only [Profile.lower, List.length_zip, ← e2]
  have hFne : Fs ≠ [] := by
    rintro rfl
    exact hne (List.length_eq_zero_iff.1 (by rw [hlen, ← hFl]; rfl))
  have hsl : sectionLoop z b refl 0 b.sections = .ok Fs := by
    refine sectionLoop_ok _ _ _ hFl fun j P F hP hF => ?_
    have hjl : j < b.sections.length := (List.getElem?_eq_some_iff.1 hP).1
    obtain ⟨_, _, hrun', _⟩ := hFs j F hF P _ hP (List.getElem?_eq_getElem (by omega : j < ss.length))
    rw [zero_add]; exact hrun'
  have hcy := cylindrical_ok (z := z) (rs := b.radii) (by omega) hFne hgood
  have hsg : (signed z b.radii).length = b.sections.length := by simp [signed, h0]
  refine ⟨_, _, (by unfold applyTransformations; rw [hsl]; exact hcy), by simp [hFl, hsg], by simp [hFl, hsg], ?_⟩
  intro i j r r1 hij hr hr1 c c' hcc
  have hi : i < b.sections.length := by omega
  obtain ⟨F, hF⟩ : ∃ F, Fs[i]? = some F := ⟨_, List.getElem?_eq_getElem (by omega)⟩
  obtain ⟨Q, hQ⟩ : ∃ Q, ss[i]? = some Q := ⟨_, List.getElem?_eq_getElem (by omega)⟩
  obtain ⟨n, m, _, hg, hq, hS⟩ := hFs i F hF _ Q (List.getElem?_eq_getElem hi) hQ
  have a1 := hq.xup; have a2 := hq.yup; have a3 := hq.xdown; have a4 := hq.ydown
  simp only [ofProfile, List.length_map] at a1 a2 a3 a4
  rcases hcc with ⟨hc, hc'⟩ | ⟨hc, hc'⟩
  · rw [reverse_get (i := i) (by simp [hFl, hsg]; omega), List.getElem?_zipWith, hF, signed_get, hr] at hc
    obtain rfl := Option.some.inj hc
    simp only [hup, coords] at hc'
    rw [List.getElem?_map, reverse_get (i := i) (by simp [hlen, h1]; exact hij), List.getElem?_zipWith, hQ, hr1] at hc'
    obtain rfl := Option.some.inj hc'
    exact ⟨F, Q, _, _, _, _, n, hS, .inl ⟨rfl, rfl, rfl, rfl⟩, hg.xup, hg.yup, a1, a2, rfl, rfl⟩
  · rw [reverse_get (i := i) (by simp [hFl, hsg]; omega), List.getElem?_zipWith, hF, signed_get, hr] at hc
    obtain rfl := Option.some.inj hc
    simp only [hdown, coords] at hc'
    rw [List.getElem?_map, reverse_get (i := i) (by simp [hlen, h1]; exact hij), List.getElem?_zipWith, hQ, hr1] at hc'
    obtain rfl := Option.some.inj hc'
    exact ⟨F, Q, _, _, _, _, m, hS, .inr ⟨rfl, rfl, rfl, rfl⟩, hg.xdown, hg.ydown, a3, a4, rfl, rfl⟩

/-- **C127**: sections of radius zero. If `apply_transformations` accepts the blade with other radii in their place, it also
accepts the blade itself, without an exception; sections of other radii come out the same; of a section of radius zero, on either
surface, the second and third coordinate of every point are `nan`, the first one is a number unless the pitch is zero too. -/
theorem C127_zero_radius (z : Signs) (refl : Bool) (b b' : Blade) (h0 : b.radii.length = b.sections.length)
    (h1 : b.pitch.length = b.sections.length) (h2 : b.rake.length = b.sections.length) (h3 : b.skew.length = b.sections.length)
    (h : Blade.applyTransformations refl b.withoutZeroRadius = (b', .ok ())) :
    ∃ up down, applyTransformations z refl b = .ok (up, down) ∧ up.length = b.sections.length ∧ down.length = b.sections.length ∧
      ∀ i j r p, i + j + 1 = b.sections.length → b.radii[i]? = some r → b.pitch[i]? = some p →
        ∀ c c', (up[j]? = some c ∧ (coords b'.coordsUp)[j]? = some c') ∨ (down[j]? = some c ∧ (coords b'.coordsDown)[j]? = some c') →
          (r ≠ 0 → c = c') ∧
          (r = 0 → c.length = c'.length ∧ ∀ q ∈ c, q.2.1 = nan ∧ q.2.2 = nan ∧ (p ≠ 0 → q.1.IsFinite) ∧ (p = 0 → q.1 = nan)) := by
  have hl1 : b.withoutZeroRadius.radii.length = b.withoutZeroRadius.sections.length := by simp [Blade.withoutZeroRadius, h0]
  obtain ⟨ss, up1, down1, hloop, hcyl, rfl⟩ := (Blade.apply_ok hl1).1 h
  obtain ⟨hlen, hrun⟩ := (Blade.sectionLoop_ok _ _ _).1 hloop
  have hlen : ss.length = b.sections.length := hlen
  obtain ⟨hne, hshape, hsame, hup, hdown⟩ := (Blade.cylindrical_ok (by rw [hl1]; exact hlen.symm)).1 hcyl
  -- the sections of the run with numpy's numbers
  have hsec : ∀ j P Q, b.sections[j]? = some P → ss[j]? = some Q → ∃ F n m, sectionRun z b refl j P = .ok F ∧ F.Good n m ∧
      (ofProfile Q).Good n m ∧ ∀ r p, b.radii[j]? = some r → b.pitch[j]? = some p → (r ≠ 0 → F = ofProfile Q) ∧
        (r = 0 → (p ≠ 0 → ∀ x ∈ F.xup ++ F.xdown, x.IsFinite) ∧ (p = 0 → ∀ x ∈ F.xup ++ F.xdown, x = nan)) := by
    intro j P Q hP hQ
    have hj : j < b.sections.length := (List.getElem?_eq_some_iff.1 hP).1
    obtain ⟨r, hr⟩ : ∃ r, b.radii[j]? = some r := ⟨_, List.getElem?_eq_getElem (by omega)⟩
    obtain ⟨p, hp⟩ : ∃ p, b.pitch[j]? = some p := ⟨_, List.getElem?_eq_getElem (by omega)⟩
    obtain ⟨k, hk⟩ : ∃ k, b.rake[j]? = some k := ⟨_, List.getElem?_eq_getElem (by omega)⟩
    obtain ⟨s, hs⟩ : ∃ s, b.skew[j]? = some s := ⟨_, List.getElem?_eq_getElem (by omega)⟩
    have hx := Blade.runSteps_ok.1 (hrun j P Q hP hQ)
    rw [zero_add] at hx
    have hx1 := (section_agrees z b.withoutZeroRadius refl j P).returns Q hx
    have hr1 : b.withoutZeroRadius.radii[j]? = some (if r = 0 then 1 else r) := by
      simp [Blade.withoutZeroRadius, hr]
    -- the exact head
    rw [show Blade.sectionSteps b.withoutZeroRadius refl j = (Blade.sectionSteps b.withoutZeroRadius refl j).take 4 ++
      (Blade.sectionSteps b.withoutZeroRadius refl j).drop 4 from (List.take_append_drop 4 _).symm, List.foldlM_append] at hx
    obtain ⟨H, hH, hx⟩ := Profile.bndA.1 hx
    have htail := (tail_agrees z b.withoutZeroRadius refl j H).returns Q hx
    have hhead : ∃ G, ((Blade.sectionSteps b refl j).take 3).foldlM (fun P f => f P) P = (.ok G : Res Profile) ∧
        camberStep z b j G = .ok (ofProfile H) := by
      have : (((Blade.sectionSteps b.withoutZeroRadius refl j).take 4).foldlM (fun P f => f P) P : Res Profile) =
          (((Blade.sectionSteps b refl j).take 3).foldlM (fun P f => f P) P >>= fun Q =>
          (match b.camber with
          | none => .ok Q
          | some c => if j + 1 < b.sections.length then do Q.setCamberLineMax (← getIdx c j) else .ok Q : Res Profile)) := by
        simp only [Blade.sectionSteps, List.take, List.foldlM_cons, List.foldlM_nil, bind_assoc, bind_pure]
        rfl
      rw [this] at hH
      obtain ⟨G, hG, hH⟩ := Profile.bndA.1 hH
      exact ⟨G, hG, (camberStep_agrees z b refl j G).returns H hH⟩
    obtain ⟨G, hG, hC⟩ := hhead
    have hform : sectionRun z b refl j P = tailSteps z b refl j (ofProfile H) := by
      unfold sectionRun
      rw [hG]
      show camberStep z b j G >>= _ = _
      rw [hC]
      rfl
    obtain ⟨n, m, hg1, hg2⟩ := tail_lengths (b := b.withoutZeroRadius) hp hr1 hs hk htail
    by_cases hr0 : r = 0
    · subst hr0
      obtain ⟨F, hF, hFg, e1, e2⟩ := tail_zero (z := z) (refl := refl) hp hr hs hk hg1
      refine ⟨F, n, m, hform.trans hF, hFg, hg2, fun r' p' hr' hp' => ?_⟩
      rw [hr] at hr'; rw [hp] at hp'
      obtain rfl := Option.some.inj hr'
      obtain rfl := Option.some.inj hp'
      exact ⟨fun hc => absurd rfl hc, fun _ => ⟨e1, e2⟩⟩
    · refine ⟨ofProfile Q, n, m, ?_, hg2, hg2, fun r' p' hr' hp' => ?_⟩
      · rw [hform, ← htail, tail_form hp hr hs hk, tail_form (b := b.withoutZeroRadius) hp hr1 hs hk]
        simp only [hr0, if_false]
      · rw [hr] at hr'
        obtain rfl := Option.some.inj hr'
        exact ⟨fun _ => rfl, fun hc => absurd hc hr0⟩
  obtain ⟨up, down, e1, e2, e3, e4⟩ := assemble z refl b b.withoutZeroRadius.radii ss up1 down1 hlen h0 (by rw [hl1]; rfl) hcyl
    (fun j F Q => ∀ r p, b.radii[j]? = some r → b.pitch[j]? = some p → (r ≠ 0 → F = ofProfile Q) ∧
        (r = 0 → (p ≠ 0 → ∀ x ∈ F.xup ++ F.xdown, x.IsFinite) ∧ (p = 0 → ∀ x ∈ F.xup ++ F.xdown, x = nan))) hsec
  refine ⟨up, down, e1, e2, e3, ?_⟩
  intro i j r p hij hr hp c c' hcc
  have hr1 : b.withoutZeroRadius.radii[i]? = some (if r = 0 then 1 else r) := by
    simp [Blade.withoutZeroRadius, hr]
  obtain ⟨F, Q, xs, ys, xs', ys', n, hS, hxy, l1, l2, l3, l4, rfl, rfl⟩ := e4 i j r _ hij hr hr1 c c' hcc
  obtain ⟨c1, c2⟩ := hS r p hr hp
  rcases hxy with ⟨rfl, rfl, rfl, rfl⟩ | ⟨rfl, rfl, rfl, rfl⟩
  · exact surface _ r p _ _ Q.xup Q.yup l1 l2 l3 l4 (fun h => by rw [c1 h]; exact ⟨rfl, rfl⟩)
      (fun h => ⟨fun h' x hx => (c2 h).1 h' x (by simp [hx]), fun h' x hx => (c2 h).2 h' x (by simp [hx])⟩)
  · exact surface _ r p _ _ Q.xdown Q.ydown l1 l2 l3 l4 (fun h => by rw [c1 h]; exact ⟨rfl, rfl⟩)
      (fun h => ⟨fun h' x hx => (c2 h).1 h' x (by simp [hx]), fun h' x hx => (c2 h).2 h' x (by simp [hx])⟩)

/-- **C127**: `set_camber_line_max` on a profile whose `max_camber` is zero raises nothing, whatever camber is asked for, even
zero; afterwards no ordinate is a finite number, while the abscissae are those of `deform_camber_line`. -/
theorem C127_no_camber (z w : Bool) (P Q0 R : Profile) (h : P.maxCamber = .ok (0, Q0)) (p : ℝ) (hR : P.deformCamberLine p = .ok R) (c : ℝ) :
    ∃ F, setCamberLineMax z w P c = .ok F ∧ F.xup = R.xup.map fin ∧ F.xdown = R.xdown.map fin ∧
      F.yup.length = R.yup.length ∧ F.ydown.length = R.ydown.length ∧ ∀ y ∈ F.yup ++ F.ydown, ¬ y.IsFinite := by
  obtain ⟨q, hq, he⟩ := setCamber_wild h z w c
  obtain ⟨F, hF, e1, e2, e3, e4, e5, _⟩ := deform_wild hR hq
  exact ⟨F, he.trans hF, e1, e2, e3, e4, e5⟩

/-- **C127**: on a symmetric foil in reference position every ordinate becomes `nan`. -/
theorem C127_symmetric (z w : Bool) (P : Profile) (x0 x1 u : ℝ) (h : P.RefPosition x0 x1 u) (hs : P.Symmetric) (c : ℝ) :
    ∃ F, setCamberLineMax z w P c = .ok F ∧ F.xup = P.xup.map fin ∧ F.xdown = P.xdown.map fin ∧
      F.yup = List.replicate P.xup.length nan ∧ F.ydown = List.replicate P.xup.length nan :=
  setCamber_symmetric hs h z w c

/-- **C127**: a blade of symmetric sections to which a camber distribution is given (even of zeros). If
`apply_transformations` accepts the blade without it, it also accepts it with it, without an exception; every coordinate of every
point of every section is then `nan`, except for the last section, which comes out as without the distribution. -/
theorem C127_symmetric_blade (z : Signs) (refl : Bool) (b b' : Blade) (h0 : b.radii.length = b.sections.length)
    (h1 : b.pitch.length = b.sections.length) (h2 : b.rake.length = b.sections.length) (h3 : b.skew.length = b.sections.length)
    (cs : Arr) (hcs : b.camber = some cs) (hcl : b.sections.length ≤ cs.length + 1) (hch : ∀ c ∈ b.chord, c ≠ 0)
    (hch' : b.chord.length = b.sections.length)
    (hs : ∀ P ∈ b.sections, P.Symmetric ∧ ∃ x0 x1 u, P.RefPosition x0 x1 u)
    (h : Blade.applyTransformations refl { b with camber := none } = (b', .ok ())) :
    ∃ up down, applyTransformations z refl b = .ok (up, down) ∧ up.length = b.sections.length ∧ down.length = b.sections.length ∧
      ∀ i j, i + j + 1 = b.sections.length →
        ∀ c c', (up[j]? = some c ∧ (coords b'.coordsUp)[j]? = some c') ∨ (down[j]? = some c ∧ (coords b'.coordsDown)[j]? = some c') →
          (j = 0 → c = c') ∧ (j ≠ 0 → c = List.replicate c'.length (nan, nan, nan)) := by
  obtain ⟨ss, up1, down1, hloop, hcyl, rfl⟩ := (Blade.apply_ok (b := { b with camber := none }) h0).1 h
  obtain ⟨hlen, hrun⟩ := (Blade.sectionLoop_ok _ _ _).1 hloop
  have hlen : ss.length = b.sections.length := hlen
  obtain ⟨_, hshape, _⟩ := (Blade.cylindrical_ok (by rw [hlen]; exact h0)).1 hcyl
  have hsec : ∀ j P Q, b.sections[j]? = some P → ss[j]? = some Q → ∃ F n m, sectionRun z b refl j P = .ok F ∧ F.Good n m ∧
      (ofProfile Q).Good n m ∧ (j + 1 = b.sections.length → F = ofProfile Q) ∧
        (j + 1 < b.sections.length → ∀ y ∈ F.xup ++ F.xdown ++ F.yup ++ F.ydown, y = nan) := by
    intro j P Q hP hQ
    have hj : j < b.sections.length := (List.getElem?_eq_some_iff.1 hP).1
    obtain ⟨r, hr⟩ : ∃ r, b.radii[j]? = some r := ⟨_, List.getElem?_eq_getElem (by omega)⟩
    obtain ⟨p, hp⟩ : ∃ p, b.pitch[j]? = some p := ⟨_, List.getElem?_eq_getElem (by omega)⟩
    obtain ⟨k, hk⟩ : ∃ k, b.rake[j]? = some k := ⟨_, List.getElem?_eq_getElem (by omega)⟩
    obtain ⟨s, hs'⟩ : ∃ s, b.skew[j]? = some s := ⟨_, List.getElem?_eq_getElem (by omega)⟩
    obtain ⟨ch, hc⟩ : ∃ ch, b.chord[j]? = some ch := ⟨_, List.getElem?_eq_getElem (by omega)⟩
    have hx := Blade.runSteps_ok.1 (hrun j P Q hP hQ)
    rw [zero_add] at hx
    have hx3 : (((Blade.sectionSteps b refl j).take 3).foldlM (fun P f => f P) P >>= fun G =>
        ((Blade.sectionSteps b refl j).drop 4).foldlM (fun P f => f P) G : Res Profile) = .ok Q := by
      rw [← hx]
      conv_rhs => rw [show Blade.sectionSteps { b with camber := none } refl j =
        (Blade.sectionSteps b refl j).take 3 ++ (Blade.sectionSteps { b with camber := none } refl j).drop 3 from rfl]
      rw [List.foldlM_append]
      rfl
    obtain ⟨G, hG, hx4⟩ := Profile.bndA.1 hx3
    have htail := (tail_agrees z b refl j G).returns Q hx4
    obtain ⟨n, m, hg1, hg2⟩ := tail_lengths hp hr hs' hk htail
    obtain ⟨hPs, x0, x1, u, hPr⟩ := hs P (List.mem_of_getElem? hP)
    obtain ⟨hGs, y0, y1, v, hGr⟩ := head_symmetric hc (hch _ (List.mem_of_getElem? hc)) hPs hPr hG
    by_cases hlast : j + 1 < b.sections.length
    · obtain ⟨κ, hκ⟩ : ∃ κ, cs[j]? = some κ := ⟨_, List.getElem?_eq_getElem (by omega)⟩
      obtain ⟨F, hF, e1, e2, e3, e4⟩ := setCamber_symmetric hGs hGr (z.chord j) (z.camber j) κ
      have hn : G.xup.length = n := by have := hg1.xup; simpa [ofProfile] using this
      have hm : n = m := by
        have := hg1.xdown
        rw [← this, ← hn]
        simp [ofProfile, hGs.1]
      subst hm
      have hFg : F.Good n n := ⟨by rw [e1]; simp [hn], by rw [e3]; simp [hn], by rw [e2, hGs.1]; simp [hn], by rw [e4]; simp [hn], le_rfl⟩
      obtain ⟨E, hE, hEg, hEn⟩ := tail_nan (z := z) (refl := refl) hp hr hs' hk hFg (by rw [e3]; exact fun y hy => (List.mem_replicate.1 hy).2)
        (by rw [e4]; exact fun y hy => (List.mem_replicate.1 hy).2)
      refine ⟨E, n, n, ?_, hEg, hg2, fun hc => by omega, fun _ => hEn⟩
      unfold sectionRun
      rw [hG]
      show camberStep z b j G >>= _ = _
      have : camberStep z b j G = .ok F := by
        unfold camberStep
        rw [hcs]
        simp only [hlast, if_true, Blade.getIdx_ok.2 hκ]
        exact hF
      rw [this]
      exact hE
    · refine ⟨ofProfile Q, n, m, ?_, hg2, hg2, fun _ => rfl, fun hc => absurd hc hlast⟩
      unfold sectionRun
      rw [hG]
      show camberStep z b j G >>= _ = _
      have : camberStep z b j G = .ok (ofProfile G) := by
        unfold camberStep
        rw [hcs]
        simp only [hlast, if_false]
      rw [this]
      exact htail
  obtain ⟨up, down, e1, e2, e3, e4⟩ := assemble z refl b b.radii ss up1 down1 hlen h0 h0 hcyl
    (fun j F Q => (j + 1 = b.sections.length → F = ofProfile Q) ∧
        (j + 1 < b.sections.length → ∀ y ∈ F.xup ++ F.xdown ++ F.yup ++ F.ydown, y = nan)) hsec
  refine ⟨up, down, e1, e2, e3, ?_⟩
  intro i j hij c c' hcc
  obtain ⟨r, hr⟩ : ∃ r, b.radii[i]? = some r := ⟨_, List.getElem?_eq_getElem (by omega)⟩
  have hr0 : r ≠ 0 := (hshape i (ss[i]'(by omega)) r (List.getElem?_eq_getElem (by omega)) hr).1
  obtain ⟨F, Q, xs, ys, xs', ys', n, ⟨c1, c2⟩, hxy, l1, l2, l3, l4, rfl, rfl⟩ := e4 i j r r hij hr hr c c' hcc
  constructor
  · intro hj
    have hF := c1 (by omega)
    have hx : xs = xs'.map fin ∧ ys = ys'.map fin := by
      subst hF
      rcases hxy with ⟨rfl, rfl, rfl, rfl⟩ | ⟨rfl, rfl, rfl, rfl⟩ <;> exact ⟨rfl, rfl⟩
    obtain ⟨rfl, rfl⟩ := hx
    rw [zipWith_fin, List.map_map]
    have : ∀ x y, wrapI (r, z.radius i) (fin x) (fin y) = (pt ∘ Spec.wrap r) (x, y) := fun x y => wrap_fin r _ hr0 x y
    simp only [this]
    rw [List.map_zip_eq_zipWith]; rfl
  · intro hj
    have hn := c2 (by omega)
    have hx : (∀ x ∈ xs, x = nan) ∧ ∀ y ∈ ys, y = nan := by
      rcases hxy with ⟨rfl, rfl, rfl, rfl⟩ | ⟨rfl, rfl, rfl, rfl⟩
      · exact ⟨fun x hx => hn x (by simp [hx]), fun x hx => hn x (by simp [hx])⟩
      · exact ⟨fun x hx => hn x (by simp [hx]), fun x hx => hn x (by simp [hx])⟩
    refine List.eq_replicate_iff.2 ⟨by simp [l1, l2, l3, l4], fun q hq => ?_⟩
    obtain ⟨t, ht⟩ := List.getElem?_of_mem hq
    rw [List.getElem?_zipWith] at ht
    rcases hx' : xs[t]? with _ | x
    · simp [hx'] at ht
    rcases hy' : ys[t]? with _ | y
    · simp [hx', hy'] at ht
    rw [hx', hy'] at ht
    obtain rfl := Option.some.inj ht
    rw [hx.1 x (List.mem_of_getElem? hx'), hx.2 y (List.mem_of_getElem? hy')]
    exact wrap_wild _ _ wild_nan

private theorem max_nan (a : Ieee) : max a nan = nan := by cases a <;> rfl

private theorem foldl_nan (l : List Ieee) : l.foldl max nan = nan := by
  induction l with
  | nil => rfl
  | cons a l ih => exact ih

/-- **C127**: a profile whose leading and trailing edge have the same abscissa: no exception; the ordinates of the chord line are
infinite or `nan`, `nan` at the abscissa of the leading edge, and `max_camber` is `nan`. -/
theorem C127_vertical (z : Bool) (P : Profile) (hS : P.SameX) (le te : Pt) (he : P.updateEdges = .ok (le, te)) (hv : le.1 = te.1) :
    (∃ ys, chordLine z P none = .ok (P.xup, ys) ∧ ys.length = P.xup.length ∧
      ∀ (i : Nat) x y, P.xup[i]? = some x → ys[i]? = some y → ¬ y.IsFinite ∧ (x = le.1 → y = nan)) ∧
    maxCamber z P none = .ok nan := by
  obtain ⟨hx, hyu, hyd, hne⟩ := hS
  obtain ⟨A, hA⟩ : ∃ A, A = div z (fin (te.2 - le.2)) (fin (te.1 - le.1)) := ⟨_, rfl⟩
  have hAw : ¬ A.IsFinite := by
    have : (te.1 - le.1 = 0) := by rw [hv]; ring
    rw [hA, this]
    show ¬ (if (0 : ℝ) = 0 then (if te.2 - le.2 = 0 then nan else inf (decide (te.2 - le.2 < 0) != z)) else fin ((te.2 - le.2) / 0)).IsFinite
    rw [if_pos rfl]
    split
    · exact wild_nan
    · exact wild_inf _
  have hcl : chordLine z P none = .ok (P.xup, P.xup.map fun x => add (mul A (fin (x - le.1))) (fin le.2)) := by
    unfold chordLine
    rw [he]
    show P.effectiveN none >>= _ = _
    rw [Profile.effectiveN_same hx.symm none (by simp), hA]
    rfl
  have hmul : ∀ x, ¬ (mul A (fin x)).IsFinite := by
    intro x
    rcases wild_cases hAw with rfl | ⟨s, rfl⟩
    · exact wild_nan
    · show ¬ (if x = 0 then nan else inf (decide (x < 0) != s)).IsFinite
      split
      · exact wild_nan
      · exact wild_inf _
  have hzero : add (mul A (fin (le.1 - le.1))) (fin le.2) = nan := by
    rw [sub_self]
    rcases wild_cases hAw with rfl | ⟨s, rfl⟩
    · rfl
    · simp [mul, add]
  refine ⟨⟨_, hcl, by simp, ?_⟩, ?_⟩
  · intro i x y hxi hyi
    rw [List.getElem?_map, hxi] at hyi
    obtain rfl := Option.some.inj hyi
    exact ⟨add_wild (hmul _) _, fun h => by subst h; exact hzero⟩
  · obtain ⟨xu0, xd0, xu1, xd1, yu0, yu1, yd1, h1, h2, h3, h4, h5, h6, h7, _, _, heq⟩ := Profile.updateEdges_ok he
    obtain ⟨xs, hxs⟩ : ∃ xs, P.xup = le.1 :: xs := by
      obtain ⟨rfl, _⟩ := Prod.mk.inj heq
      cases hxu : P.xup with
      | nil => rw [hxu] at h1; cases h1
      | cons a l => rw [hxu] at h1; obtain rfl := Option.some.inj h1; exact ⟨l, rfl⟩
    have hcam : ∃ P1 c cs, P.computeCamberLine none = .ok P1 ∧ P1.camberLine = some (P.xup, c :: cs) := by
      unfold Profile.computeCamberLine
      rw [Profile.effectiveN_same hx.symm none (by simp)]
      simp only [bind, Except.bind]
      have hud : P.ydown.length = P.yup.length := by rw [hyu, hyd]
      rw [bzip_eq_len hud]
      have hl : P.xup.length = (List.zipWith (fun a b => 0.5 * (a + b)) P.ydown P.yup).length := by
        simp [hyu, hyd]
      simp only [npArray2, if_pos hl]
      have hp : 0 < (List.zipWith (fun a b => 0.5 * (a + b)) P.ydown P.yup).length := by rw [← hl, hxs]; simp
      obtain ⟨c, cs, hcs⟩ := List.exists_cons_of_length_pos hp
      exact ⟨_, c, cs, rfl, by rw [hcs]⟩
    obtain ⟨P1, c, cs, hP1, hcb⟩ := hcam
    unfold maxCamber
    rw [hcl, hP1]
    simp only [bind, Except.bind, hcb, Option.getD, lt_irrefl, if_false]
    show signedMax _ _ _ = _
    rw [hxs]
    simp only [List.map_cons, hzero]
    unfold signedMax
    have hd : ∀ A B : List Ieee, ∀ X : Arr, npMax (camberDistances (le.1 :: X, nan :: A) (le.1 :: xs, c :: cs)) = .ok nan := by
      intro A B X
      show npMax (nan :: List.zipWith _ (List.zip X A) (List.zip xs cs)) = _
      exact congrArg Except.ok (foldl_nan _)
    rw [hd _ []]
    simp only [bind, Except.bind]
    split <;> rfl

/-! ## The hypotheses can be met -/

/-- A symmetric foil. -/
def symFoil : Profile := { xup := [0, 1/4, 1], xdown := [0, 1/4, 1], yup := [0, 1/5, 0], ydown := [0, -1/5, 0] }

theorem symFoil_symmetric : symFoil.Symmetric := by
  refine ⟨rfl, ?_⟩
  simp [symFoil]; norm_num

theorem symFoil_ref : symFoil.RefPosition 0 1 0 := by
  refine ⟨by simp [symFoil, Profile.Shaped], rfl, ?_, by norm_num, ?_, ?_⟩
  · simp [symFoil, Profile.Ends, Profile.upper, Profile.lower]
  · norm_num [symFoil]
  · norm_num [symFoil]

/-- `C127_symmetric`. -/
example : symFoil.RefPosition 0 1 0 ∧ symFoil.Symmetric ∧ symFoil.xup.length = 3 := ⟨symFoil_ref, symFoil_symmetric, rfl⟩

/-- `C127_no_camber`. -/
example : ∃ (Q0 R : Profile), symFoil.maxCamber = .ok (0, Q0) ∧ symFoil.deformCamberLine 0 = .ok R ∧ R.yup.length = 3 := by
  obtain ⟨Q0, h⟩ := symFoil_symmetric.maxCamber symFoil_ref
  obtain ⟨R, hR, _, _, _, hyu, _⟩ := Profile.deform_same (symFoil_ref.sameX rfl) 0
  exact ⟨Q0, R, h, hR, by rw [hyu]; simp [symFoil]⟩

/-- `C127_symmetric_blade`: two symmetric sections and a camber distribution. -/
example : ∃ (b b' : Blade), b.camber = some [1/10, 0] ∧ b.sections.length = 2 ∧ b.radii.length = 2 ∧ b.pitch.length = 2 ∧ b.rake.length = 2 ∧
    b.skew.length = 2 ∧ b.chord.length = 2 ∧ (∀ c ∈ b.chord, c ≠ 0) ∧ (∀ P ∈ b.sections, P.Symmetric ∧ ∃ x0 x1 u, P.RefPosition x0 x1 u) ∧
    Blade.applyTransformations true { b with camber := none } = (b', .ok ()) := by
  have href : symFoil.referencePoint = .ok (1/2, 0) := by
    rw [C06_reference_is_midpoint _ symFoil_ref.updateEdges]; simp [Spec.mid]
  have : ∃ b', Blade.applyTransformations true { Sample.blade2 with sections := [symFoil, symFoil] } = (b', .ok ()) := by
    rw [C46_defined _ _ (by simp [Sample.blade2, Blade.WellFormed]) rfl rfl (by simp [symFoil, Profile.Uniform])]
    exact ⟨by simp, by simp [Sample.blade2], by simp [href], by simp⟩
  obtain ⟨b', hb⟩ := this
  refine ⟨{ Sample.blade2 with sections := [symFoil, symFoil], camber := some [1/10, 0] }, b', rfl, rfl, rfl, rfl, rfl, rfl, rfl,
    by simp [Sample.blade2], fun P hP => ?_, hb⟩
  obtain rfl : P = symFoil := by simpa using hP
  exact ⟨symFoil_symmetric, 0, 1, 0, symFoil_ref⟩

/-- `C127_zero_radius`, `C127_agrees`: a blade whose first section is at the axis. -/
example : ∃ (b b' : Blade), b.radii = [0, 2] ∧ b.sections.length = 2 ∧ b.pitch.length = 2 ∧ b.rake.length = 2 ∧ b.skew.length = 2 ∧
    Blade.applyTransformations true b.withoutZeroRadius = (b', .ok ()) := by
  obtain ⟨b', h⟩ := Sample.blade2_applies true
  refine ⟨{ Sample.blade2 with radii := [0, 2] }, b', rfl, rfl, rfl, rfl, rfl, ?_⟩
  rw [← h]
  simp [Blade.withoutZeroRadius, Sample.blade2]

/-- `C127_vertical`: a foil turned upright. -/
example : ∃ (P : Profile) (le te : Pt), P.SameX ∧ P.updateEdges = .ok (le, te) ∧ le.1 = te.1 ∧ le.2 ≠ te.2 := by
  refine ⟨{ xup := [0, 1/2, 0], xdown := [0, 1/2, 0], yup := [0, 1/2, 1], ydown := [0, 1/3, 1] }, (0, 0), (0, 1),
    by simp [Profile.SameX], ?_, rfl, by norm_num⟩
  simp [Profile.updateEdges, getFirst, getLast, bind, Except.bind, pure, Except.pure]
  norm_num

end Ieee
end
end BladeX
