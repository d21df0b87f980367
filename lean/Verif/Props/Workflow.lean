import Verif.Spec.Workflow
import Verif.Props.DeformExport
import Verif.Props.DeformResponse
import Verif.Props.BladeSensitivity
import Verif.Props.BladeSymmetry
import Verif.Props.BSplineShape

/-! # C114: from the deformations of a parameter file to the points of the blade -/

namespace BladeX
noncomputable section
open Spec BSpline Classical
open Deform

/-- **C114** the blade of the workflow has the radii of the first file, its distributions for the parameters without deformations, and for the
others the distributions computed by `compute_all`. -/
theorem C114_design (C : Codec) (rbf : Option Int) (tol : PName → ℝ) (sections : List Profile) (refl : Bool) (s₀ : Deform) (b b' : Blade)
    (h : Workflow C rbf tol sections refl s₀ b b') :
    ∃ s', computeAll rbf tol s₀ = (s', .ok ()) ∧ Blade.new sections s₀.radii b.chord b.pitch b.rake b.skew none none = .ok b ∧ b.sections = sections ∧ b.radii = s₀.radii ∧ b.WellFormed ∧
      b.applyTransformations refl = (b', .ok ()) ∧ b.thickness = none ∧ b.camber = none ∧ (∀ p, (s₀.deformed p).length = s₀.radii.length) ∧
      ∀ p v, b.dist p = some v → (¬ s₀.Deforms p → v = s₀.parameters p) ∧ (s₀.Deforms p → v = s'.deformed p) := by
  obtain ⟨fs, path₀, fs₀, s', path, fs', pf, h1, h2, h3, h4, h5, h6, hC, r0, r1, r2, r3⟩ := h
  have ha : after s₀ [.all rbf tol] = s' := by simp [after, Op.call, h2]
  obtain ⟨fs'', s1, e1, -, e3, e4, e5, e6, -⟩ := C39_export C hC fs fs₀ path₀ path s₀ h1 [.all rbf tol] r0 r1 r2 (by rw [ha]; exact r3)
  rw [ha] at e1 e6
  obtain rfl : fs' = fs'' := by rw [h3] at e1; exact congrArg Prod.fst e1
  have hs : s1 = ofParam pf := by
    unfold Deform.new at e3
    rw [h4] at e3
    have := congrArg Prod.snd e3
    exact (Except.ok.inj this).symm
  subst hs
  obtain ⟨w1, w2, w3, w4⟩ := new_wf h1
  unfold Blade.new at h5
  simp only at h5
  split_ifs at h5 with hw
  obtain rfl := Except.ok.inj h5
  have key : ∀ p, (¬ s₀.Deforms p → (pf.parameters p).getD [] = s₀.parameters p) ∧ (s₀.Deforms p → (pf.parameters p).getD [] = s'.deformed p) :=
    fun p => ⟨fun hz => e5 p (by simpa [Deform.Deforms] using hz), fun hz => e6 p hz⟩
  have hr' : pf.radii.getD [] = s₀.radii := e4
  refine ⟨s', h2, ?_, rfl, e4, hw, h6, rfl, rfl, w3, ?_⟩
  · unfold Blade.new
    rw [hr'] at hw ⊢
    rw [if_pos hw]
  intro p v hv
  cases p <;> simp only [Blade.dist, Option.some.injEq, reduceCtorEq] at hv <;> subst hv
  · exact key .chord
  · exact key .pitch
  · exact key .rake
  · exact key .skew

private theorem new_fresh {C : Codec} {fs fs₀ : ParamFile.FS} {path : Str} {s₀ : Deform} (h : Deform.new C fs path = (fs₀, .ok s₀)) :
    (∀ p, s₀.deformed p = List.replicate s₀.radii.length 0) ∧ (∀ p, s₀.controlPoints p = none) ∧ ∀ p, s₀.spline p = none := by
  unfold Deform.new at h
  rcases hr : ParamFile.readParameters C fs path ParamFile.init with ⟨f, e | pf⟩
  · rw [hr] at h; have := congrArg Prod.snd h; cases this
  · rw [hr] at h
    obtain rfl := Except.ok.inj (congrArg Prod.snd h)
    exact ⟨fun _ => rfl, fun _ => rfl, fun _ => rfl⟩

private theorem same_object {C : Codec} {rbf : Option Int} {tol : PName → ℝ} {sections : List Profile} {refl : Bool} {s₀ t₀ : Deform} {b b' c c' : Blade}
    (h : Workflow C rbf tol sections refl s₀ b b') (ht : Workflow C rbf tol sections refl t₀ c c') (hsame : SameFile s₀ t₀) :
    ({ s₀ with deformations := t₀.deformations } : Deform) = t₀ := by
  have f1 := new_fresh (h.choose_spec.choose_spec.choose_spec.choose_spec.choose_spec.choose_spec.choose_spec).1
  have f2 := new_fresh (ht.choose_spec.choose_spec.choose_spec.choose_spec.choose_spec.choose_spec.choose_spec).1
  obtain ⟨c1, c2, c3, c4, c5, c6⟩ := hsame
  cases s₀; cases t₀
  simp only at c1 c2 c3 c4 c5 f1 f2
  subst c1 c2 c3 c4 c5
  simp only [Deform.mk.injEq, true_and]
  exact ⟨funext fun p => (f1.1 p).trans (f2.1 p).symm, funext fun p => (f1.2.1 p).trans (f2.2.1 p).symm, funext fun p => (f1.2.2 p).trans (f2.2.2 p).symm⟩

/-- **C114** the blade's distributions respond to the deformations by weighted means: the weights are not negative, sum to one over the control points,
belong to at most `degree + 1` neighbouring ones, and do not depend on the deformations. -/
theorem C114_response (C : Codec) (rbf : Option Int) (tol : PName → ℝ) (sections : List Profile) (refl : Bool) (s₀ : Deform) (b b' : Blade)
    (h : Workflow C rbf tol sections refl s₀ b b') :
    ∃ w : PName → Nat → Nat → ℝ, (∀ p i j, 0 ≤ w p i j) ∧
      (∀ p i, i < sections.length → ∑ j ∈ Finset.range (s₀.deformations p).length, w p i j = 1) ∧
      (∀ p i, ∃ l : Nat, ∀ j : Nat, w p i j ≠ 0 → l ≤ j ∧ (j : Int) ≤ l + s₀.degree p) ∧
      ∀ t₀ c c', Workflow C rbf tol sections refl t₀ c c' → SameButDeformations s₀ t₀ → ∀ p v u, b.dist p = some v → c.dist p = some u →
        v.length = sections.length ∧ u.length = sections.length ∧ ∀ i, i < sections.length →
          u.getD i 0 = v.getD i 0 + ∑ j ∈ Finset.range (s₀.deformations p).length, w p i j * ((t₀.deformations p).getD j 0 - (s₀.deformations p).getD j 0) := by
  obtain ⟨s', a1, -, a2, a3, a4, a5, a6, a7, a8, a9⟩ := C114_design C rbf tol sections refl s₀ b b' h
  obtain ⟨w, w1, w2, w3, w4⟩ := C86_response s₀ s' rbf tol a8 a1
  have hn : s₀.radii.length = sections.length := by rw [← a3, ← a2]; exact a4.1
  have hlen : ∀ (b : Blade), b.WellFormed → b.sections = sections → ∀ p v, b.dist p = some v → v.length = sections.length := by
    rintro b ⟨q1, q2, q3, q4, q5⟩ hs p v hv
    rw [hs] at q1 q2 q3 q4 q5
    cases p <;> simp only [Blade.dist, Option.some.injEq, reduceCtorEq] at hv <;> subst hv <;> assumption
  refine ⟨w, w1, by rw [← hn]; exact w2, w3, ?_⟩
  intro t₀ c c' ht hsame p v u hv hu
  obtain ⟨t', b1, -, b2, b3, b4, b5, b6, b7, b8, b9⟩ := C114_design C rbf tol sections refl t₀ c c' ht
  refine ⟨hlen b a4 a2 p v hv, hlen c b4 b2 p u hu, ?_⟩
  intro i hi
  have heq := same_object h ht hsame.toSameFile
  obtain ⟨t, e1, e2⟩ := w4 t₀.deformations hsame.number
  rw [heq, b1] at e1
  obtain rfl : t' = t := congrArg Prod.fst e1
  by_cases hd : s₀.Deforms p
  · rw [(a9 p v hv).2 hd, (b9 p u hu).2 ((hsame.deforms p).2 hd)]
    have := (e2 p).2 i (by omega)
    rw [List.getD_eq_getElem?_getD, this]
    rfl
  · have hd' : ¬ t₀.Deforms p := fun hh => hd ((hsame.deforms p).1 hh)
    rw [(a9 p v hv).1 hd, (b9 p u hu).1 hd', hsame.parameters]
    have z : ∀ (s : Deform), ¬ s.Deforms p → ∀ j, (s.deformations p).getD j 0 = 0 := by
      intro s hs j
      rw [List.getD_eq_getElem?_getD]
      rcases hj : (s.deformations p)[j]? with _ | x
      · rfl
      · by_contra hx
        exact hs ⟨x, List.mem_of_getElem? hj, hx⟩
    simp only [z s₀ hd, z t₀ hd', sub_self, mul_zero, Finset.sum_const_zero, add_zero]

private theorem same_section {b b' c c' : Blade} {refl : Bool} (hW : b.WellFormed) (ht : b.thickness = none) (hf : b.camber = none)
    (hU : ∀ P ∈ b.sections, P.Uniform) (h : b.applyTransformations refl = (b', .ok ())) (hWc : c.WellFormed) (htc : c.thickness = none)
    (hfc : c.camber = none) (hc : c.applyTransformations refl = (c', .ok ())) (hs : c.sections = b.sections) (hr : c.radii = b.radii) {i : Nat}
    (hi : i < b.sections.length) (he : ∀ p v u, b.dist p = some v → c.dist p = some u → u.getD i 0 = v.getD i 0) :
    c'.coordsUp[b.sections.length - 1 - i]? = b'.coordsUp[b.sections.length - 1 - i]? ∧
    c'.coordsDown[b.sections.length - 1 - i]? = b'.coordsDown[b.sections.length - 1 - i]? := by
  obtain ⟨q1, q2, q3, q4, q5⟩ := id hW
  obtain ⟨o1, o2, o3, o4, o5⟩ := id hWc
  rw [hs] at o1 o2 o3 o4 o5
  have get : ∀ (v u : Arr), v.length = b.sections.length → u.length = b.sections.length → u.getD i 0 = v.getD i 0 →
      ∃ x, v[i]? = some x ∧ u[i]? = some x := by
    intro v u hv hu hh
    rw [List.getD_eq_getElem?_getD, List.getD_eq_getElem?_getD, List.getElem?_eq_getElem (by omega), List.getElem?_eq_getElem (by omega)] at hh
    refine ⟨_, List.getElem?_eq_getElem (by omega), ?_⟩
    rw [List.getElem?_eq_getElem (by omega)]
    exact congrArg some hh
  obtain ⟨x1, y1, z1⟩ := get _ _ q2 o2 (he .chord _ _ rfl rfl)
  obtain ⟨x2, y2, z2⟩ := get _ _ q3 o3 (he .pitch _ _ rfl rfl)
  obtain ⟨x3, y3, z3⟩ := get _ _ q4 o4 (he .rake _ _ rfl rfl)
  obtain ⟨x4, y4, z4⟩ := get _ _ q5 o5 (he .skew _ _ rfl rfl)
  have hP : b.sections[i]? = some b.sections[i] := List.getElem?_eq_getElem hi
  have hri : b.radii[i]? = some (b.radii[i]'(by omega)) := List.getElem?_eq_getElem _
  obtain ⟨-, -, hpl⟩ := C46_placed b b' refl hW ht hf hU h
  obtain ⟨-, -, hplc⟩ := C46_placed c c' refl hWc htc hfc (by rw [hs]; exact hU) hc
  obtain ⟨ref, Q, m1, -, m3, m4, m5, -⟩ := hpl i _ _ _ _ _ _ hP hri y1 y2 y3 y4
  obtain ⟨ref', R, n1, -, n3, n4, n5, -⟩ := hplc i _ _ _ _ _ _ (by rw [hs]; exact hP) (by rw [hr]; exact hri) z1 z2 z3 z4
  rw [m1] at n1
  obtain rfl := Except.ok.inj n1
  obtain ⟨-, -, hcy⟩ := C48_reversed b b' refl hW h
  obtain ⟨-, -, hcyc⟩ := C48_reversed c c' refl hWc hc
  obtain ⟨c1, c2, -⟩ := hcy i Q _ m3 hri
  obtain ⟨c3, c4, -⟩ := hcyc i R _ n3 (by rw [hr]; exact hri)
  rw [hs] at c3 c4
  rw [c1, c2, c3, c4, m4, m5, n4, n5]
  exact ⟨rfl, rfl⟩

/-- **C114** the effect is local: for each section and parameter there is a window of `degree + 1` neighbouring control points, which does not depend on
the deformations, such that files whose deformations agree in these windows give exactly the same points of the section. -/
theorem C114_local (C : Codec) (rbf : Option Int) (tol : PName → ℝ) (sections : List Profile) (refl : Bool) (s₀ : Deform) (b b' : Blade)
    (h : Workflow C rbf tol sections refl s₀ b b') (hU : ∀ P ∈ sections, P.Uniform) (i : Nat) (hi : i < sections.length) :
    ∃ first : PName → Nat, ∀ t₀ c c', Workflow C rbf tol sections refl t₀ c c' → SameButDeformations s₀ t₀ →
      (∀ p (j : Nat), first p ≤ j → (j : Int) ≤ first p + s₀.degree p → (t₀.deformations p)[j]? = (s₀.deformations p)[j]?) →
      c'.coordsUp[sections.length - 1 - i]? = b'.coordsUp[sections.length - 1 - i]? ∧
      c'.coordsDown[sections.length - 1 - i]? = b'.coordsDown[sections.length - 1 - i]? := by
  obtain ⟨w, w1, w2, w3, w4⟩ := C114_response C rbf tol sections refl s₀ b b' h
  choose l hl using w3
  refine ⟨fun p => l p i, fun t₀ c c' ht hsame hagree => ?_⟩
  obtain ⟨s', a1, -, a2, a3, a4, a5, a6, a7, a8, a9⟩ := C114_design C rbf tol sections refl s₀ b b' h
  obtain ⟨t', b1, -, b2, b3, b4, b5, b6, b7, b8, b9⟩ := C114_design C rbf tol sections refl t₀ c c' ht
  have := same_section (i := i) a4 a6 a7 (by rw [a2]; exact hU) a5 b4 b6 b7 b5 (b2.trans a2.symm) (b3.trans (hsame.radii.trans a3.symm))
    (by rw [a2]; exact hi) ?_
  · rw [a2] at this; exact this
  intro p v u hv hu
  rw [(w4 t₀ c c' ht hsame p v u hv hu).2.2 i hi, add_eq_left]
  refine Finset.sum_eq_zero fun j _ => ?_
  by_cases hw : w p i j = 0
  · rw [hw, zero_mul]
  · obtain ⟨g1, g2⟩ := hl p i j hw
    rw [List.getD_eq_getElem?_getD, List.getD_eq_getElem?_getD, hagree p j g1 g2, sub_self, mul_zero]

/-- **C114** raising all deformations of the rake by `k` and all deformations of the skew by `s` turns every section about the axis by `s` degrees and
moves it along the axis by `-(k + s/360 * pitch)`: with `s = 0` the whole blade is translated by `-k`. -/
theorem C114_uniform (C : Codec) (rbf : Option Int) (tol : PName → ℝ) (sections : List Profile) (refl : Bool) (s₀ t₀ : Deform) (b b' c c' : Blade)
    (h : Workflow C rbf tol sections refl s₀ b b') (ht : Workflow C rbf tol sections refl t₀ c c') (hsame : SameButDeformations s₀ t₀) (k s : ℝ)
    (hk : t₀.deformations .rake = (s₀.deformations .rake).map (· + k)) (hs : t₀.deformations .skew = (s₀.deformations .skew).map (· + s))
    (hc : t₀.deformations .chord = s₀.deformations .chord) (hp : t₀.deformations .pitch = s₀.deformations .pitch) :
    c'.coordsUp.length = sections.length ∧ c'.coordsDown.length = sections.length ∧
    ∀ (i : Nat) (P : ℝ), b.pitch[i]? = some P →
      c'.coordsUp[sections.length - 1 - i]? = (b'.coordsUp[sections.length - 1 - i]?).map
        (·.map fun q => shiftX (-(k + s / 360 * P)) (rotX (Real.pi * s / 180) q)) ∧
      c'.coordsDown[sections.length - 1 - i]? = (b'.coordsDown[sections.length - 1 - i]?).map
        (·.map fun q => shiftX (-(k + s / 360 * P)) (rotX (Real.pi * s / 180) q)) := by
  obtain ⟨w, w1, w2, w3, w4⟩ := C114_response C rbf tol sections refl s₀ b b' h
  obtain ⟨s', a1, an, a2, a3, a4, a5, a6, a7, a8, a9⟩ := C114_design C rbf tol sections refl s₀ b b' h
  obtain ⟨t', b1, bn, b2, b3, b4, b5, b6, b7, b8, b9⟩ := C114_design C rbf tol sections refl t₀ c c' ht
  have add : ∀ p v u x, b.dist p = some v → c.dist p = some u → t₀.deformations p = (s₀.deformations p).map (· + x) →
      v.length = sections.length ∧ u = List.zipWith (· + ·) v (List.replicate sections.length x) := by
    intro p v u x hv hu hx
    obtain ⟨l1, l2, l3⟩ := w4 t₀ c c' ht hsame p v u hv hu
    refine ⟨l1, List.ext_getElem (by simp [l1, l2]) fun i i1 i2 => ?_⟩
    have := l3 i (by omega)
    rw [hx] at this
    rw [List.getElem_zipWith, List.getElem_replicate]
    rw [List.getD_eq_getElem?_getD, List.getD_eq_getElem?_getD, List.getElem?_eq_getElem i1, List.getElem?_eq_getElem (by omega)] at this
    refine this.trans (congrArg (v[i]'(by omega) + ·) ?_)
    rw [Finset.sum_congr rfl (g := fun j => w p i j * x), ← Finset.sum_mul, w2 p i (by omega), one_mul]
    intro j hj
    rw [Finset.mem_range] at hj
    simp [List.getD_eq_getElem?_getD, List.getElem?_eq_getElem hj]
  have zip0 : ∀ (v : Arr), v.length = sections.length → List.zipWith (· + ·) v (List.replicate sections.length 0) = v := by
    intro v hv
    refine List.ext_getElem (by simp [hv]) fun i i1 i2 => ?_
    simp
  have ek := (add .rake _ _ k rfl rfl hk).2
  have es := (add .skew _ _ s rfl rfl hs).2
  obtain ⟨lc, ec⟩ := add .chord _ _ 0 rfl rfl (by rw [hc]; simp)
  obtain ⟨lp, ep⟩ := add .pitch _ _ 0 rfl rfl (by rw [hp]; simp)
  rw [zip0 _ lc] at ec
  rw [zip0 _ lp] at ep
  have hcb : c = b.reskewed (List.replicate sections.length k) (List.replicate sections.length s) := by
    rw [hsame.radii, ec, ep, ek, es] at bn
    unfold Blade.new at an bn
    simp only at an bn
    split_ifs at an bn
    have e1 := Except.ok.inj an
    have e2 := Except.ok.inj bn
    rw [← e2, ← e1]
    rfl
  obtain ⟨b'', g1, g2, g3, g4⟩ := C82_rake_skew b b' refl a4 (List.replicate sections.length k) (List.replicate sections.length s) (by simp [a2])
    (by simp [a2]) a5
  rw [← hcb, b5] at g1
  obtain rfl : c' = b'' := congrArg Prod.fst g1
  rw [a2] at g2 g3 g4
  refine ⟨g2, g3, ?_⟩
  intro i P hP
  have hi : i < sections.length := by rw [← lp]; exact (List.getElem?_eq_some_iff.1 hP).1
  have := g4 i k s P (by simp [hi]) (by simp [hi]) hP hi
  rw [show Real.pi * s / 180 * P / (2 * Real.pi) = s / 360 * P by field_simp; ring] at this
  exact this

set_option maxHeartbeats 1000000 in
/-- **C114** small changes of the deformations move the blade by little: there is a constant, for the given file, such that changing no deformation by
more than `δ ≤ 1` moves no point of the blade further than the constant times `δ`. -/
theorem C114_small (C : Codec) (rbf : Option Int) (tol : PName → ℝ) (sections : List Profile) (refl : Bool) (s₀ : Deform) (b b' : Blade)
    (h : Workflow C rbf tol sections refl s₀ b b') (hU : ∀ P ∈ sections, P.Uniform) (hr : ∀ r ∈ s₀.radii, 0 < r) :
    ∃ K : ℝ, ∀ t₀ c c' δ, Workflow C rbf tol sections refl t₀ c c' → SameButDeformations s₀ t₀ → δ ≤ 1 →
      (∀ p (j : Nat) x y, (s₀.deformations p)[j]? = some x → (t₀.deformations p)[j]? = some y → |y - x| ≤ δ) → 0 ≤ δ →
      List.Forall₂ (List.Forall₂ fun p q => Real.sqrt (distSq3 p q) ≤ K * δ) b'.coordsUp c'.coordsUp ∧
      List.Forall₂ (List.Forall₂ fun p q => Real.sqrt (distSq3 p q) ≤ K * δ) b'.coordsDown c'.coordsDown := by
  obtain ⟨w, w1, w2, w3, w4⟩ := C114_response C rbf tol sections refl s₀ b b' h
  obtain ⟨s', a1, -, a2, a3, a4, a5, a6, a7, a8, a9⟩ := C114_design C rbf tol sections refl s₀ b b' h
  obtain ⟨q1, q2, q3, q4, q5⟩ := id a4
  rw [a2] at q1 q2 q3 q4 q5
  have hsec : ∀ i, ∃ K : ℝ, 0 ≤ K ∧ (i < sections.length → ∃ (P : Profile) (ref : Pt) (r ρ : ℝ) (d : Design), sections[i]? = some P ∧ P.referencePoint = .ok ref ∧
      b.radii[i]? = some r ∧ 0 < r ∧ b.HasDesign i d ∧ (∀ q ∈ P.points, dist2 q ref ≤ ρ) ∧
      ∀ (d' : Design) (δ : ℝ), δ ≤ 1 → |d.chord - d'.chord| ≤ δ → |d.pitch - d'.pitch| ≤ δ → |d.rake - d'.rake| ≤ δ →
        |d.skew - d'.skew| ≤ δ → Design.shift ρ r d d' ≤ K * δ) := by
    intro i
    by_cases hi : i < sections.length
    swap
    · exact ⟨0, le_refl _, fun h => absurd h hi⟩
    obtain ⟨-, -, hpl⟩ := C46_placed b b' refl a4 a6 a7 (by rw [a2]; exact hU) a5
    have hri : b.radii[i]? = some (b.radii[i]'(by omega)) := List.getElem?_eq_getElem _
    have hpos : 0 < b.radii[i]'(by omega) := hr _ (by rw [← a3]; exact List.getElem_mem _)
    obtain ⟨ref, Q, e1, -⟩ := hpl i sections[i] _ (b.chord[i]'(by omega)) (b.pitch[i]'(by omega)) (b.rake[i]'(by omega)) (b.skew[i]'(by omega))
      (by rw [a2]; exact List.getElem?_eq_getElem hi) hri (List.getElem?_eq_getElem _) (List.getElem?_eq_getElem _) (List.getElem?_eq_getElem _)
      (List.getElem?_eq_getElem _)
    have hρ : ∃ ρ : ℝ, 0 ≤ ρ ∧ ∀ q ∈ (sections[i]).points, dist2 q ref ≤ ρ := by
      generalize (sections[i]).points = l
      induction l with
      | nil => exact ⟨0, le_refl _, by simp⟩
      | cons a l ih =>
        obtain ⟨ρ, h0, h1⟩ := ih
        refine ⟨max ρ (dist2 a ref), le_max_of_le_left h0, ?_⟩
        intro q hq
        rcases List.mem_cons.1 hq with rfl | hq
        · exact le_max_right _ _
        · exact (h1 q hq).trans (le_max_left _ _)
    obtain ⟨ρ, h0, h1⟩ := hρ
    set d : Design := ⟨b.chord[i]'(by omega), b.pitch[i]'(by omega), b.rake[i]'(by omega), b.skew[i]'(by omega)⟩ with hd
    obtain ⟨K, hK⟩ := C106_continuous ρ _ h0 hpos d
    refine ⟨|K|, abs_nonneg _, fun _ => ⟨sections[i], ref, _, ρ, d, List.getElem?_eq_getElem hi, e1, hri, hpos,
      ⟨List.getElem?_eq_getElem _, List.getElem?_eq_getElem _, List.getElem?_eq_getElem _, List.getElem?_eq_getElem _⟩, h1, ?_⟩⟩
    intro d' δ g1 g2 g3 g4 g5
    exact (hK d' δ g1 g2 g3 g4 g5).trans (mul_le_mul_of_nonneg_right (le_abs_self _) ((abs_nonneg _).trans g2))
  choose Ks hK0 hKs using hsec
  refine ⟨∑ i ∈ Finset.range sections.length, Ks i, ?_⟩
  intro t₀ c c' δ ht hsame hδ hdef hδ0
  obtain ⟨t', b1, -, b2, b3, b4, b5, b6, b7, b8, b9⟩ := C114_design C rbf tol sections refl t₀ c c' ht
  obtain ⟨o1, o2, o3, o4, o5⟩ := id b4
  rw [b2] at o1 o2 o3 o4 o5
  have hclose : ∀ p v u, b.dist p = some v → c.dist p = some u → ∀ i (h1 : i < v.length) (h2 : i < u.length), i < sections.length →
      |v[i] - u[i]| ≤ δ := by
    intro p v u hv hu i h1 h2 hi
    have e := (w4 t₀ c c' ht hsame p v u hv hu).2.2 i hi
    rw [List.getD_eq_getElem?_getD, List.getD_eq_getElem?_getD, List.getElem?_eq_getElem h1, List.getElem?_eq_getElem h2] at e
    simp only [Option.getD_some] at e
    rw [e, sub_add_cancel_left, abs_neg]
    refine (Finset.abs_sum_le_sum_abs _ _).trans ?_
    rw [← one_mul δ, ← w2 p i hi, Finset.sum_mul]
    refine Finset.sum_le_sum fun j hj => ?_
    rw [Finset.mem_range] at hj
    rw [abs_mul, abs_of_nonneg (w1 p i j)]
    refine mul_le_mul_of_nonneg_left ?_ (w1 p i j)
    have hj' : j < (t₀.deformations p).length := by rw [hsame.number]; exact hj
    rw [List.getD_eq_getElem?_getD, List.getD_eq_getElem?_getD, List.getElem?_eq_getElem hj, List.getElem?_eq_getElem hj']
    exact hdef p j _ _ (List.getElem?_eq_getElem hj) (List.getElem?_eq_getElem hj')
  obtain ⟨l1, l2, -⟩ := C48_reversed b b' refl a4 a5
  obtain ⟨l3, l4, -⟩ := C48_reversed c c' refl b4 b5
  rw [a2] at l1 l2
  rw [b2] at l3 l4
  have main : ∀ m, m < sections.length → ∃ up down up₂ down₂, b'.coordsUp[m]? = some up ∧ b'.coordsDown[m]? = some down ∧ c'.coordsUp[m]? = some up₂ ∧
      c'.coordsDown[m]? = some down₂ ∧
      List.Forall₂ (fun p q => Real.sqrt (distSq3 p q) ≤ (∑ i ∈ Finset.range sections.length, Ks i) * δ) up up₂ ∧
      List.Forall₂ (fun p q => Real.sqrt (distSq3 p q) ≤ (∑ i ∈ Finset.range sections.length, Ks i) * δ) down down₂ := by
    intro m hm
    obtain ⟨i, hi, rfl⟩ : ∃ i, i < sections.length ∧ m = sections.length - 1 - i := ⟨sections.length - 1 - m, by omega, by omega⟩
    obtain ⟨P, ref, r, ρ, d, k1, k2, k3, k4, k5, k6, k7⟩ := hKs i hi
    set d' : Design := ⟨c.chord[i]'(by omega), c.pitch[i]'(by omega), c.rake[i]'(by omega), c.skew[i]'(by omega)⟩ with hd'
    have hsh : Design.shift ρ r d d' ≤ (∑ i ∈ Finset.range sections.length, Ks i) * δ := by
      refine (k7 d' δ hδ ?_ ?_ ?_ ?_).trans ?_
      · obtain ⟨_, e⟩ := List.getElem?_eq_some_iff.1 k5.1
        rw [← e]; exact hclose .chord _ _ rfl rfl i _ _ hi
      · obtain ⟨_, e⟩ := List.getElem?_eq_some_iff.1 k5.2.1
        rw [← e]; exact hclose .pitch _ _ rfl rfl i _ _ hi
      · obtain ⟨_, e⟩ := List.getElem?_eq_some_iff.1 k5.2.2.1
        rw [← e]; exact hclose .rake _ _ rfl rfl i _ _ hi
      · obtain ⟨_, e⟩ := List.getElem?_eq_some_iff.1 k5.2.2.2
        rw [← e]; exact hclose .skew _ _ rfl rfl i _ _ hi
      · exact mul_le_mul_of_nonneg_right (Finset.single_le_sum (fun j _ => hK0 j) (Finset.mem_range.2 hi)) hδ0
    obtain ⟨up, down, up₂, down₂, u1, u2, u3, u4, u5, u6⟩ := C106_sensitivity b b' c c' refl a4 a6 a7 (by rw [a2]; exact hU) a5 b4 b6 b7 b5
      (b2.trans a2.symm) (b3.trans (hsame.radii.trans a3.symm)) i r k3 k4 d d' k5
      ⟨List.getElem?_eq_getElem _, List.getElem?_eq_getElem _, List.getElem?_eq_getElem _, List.getElem?_eq_getElem _⟩ ρ P (by rw [a2]; exact k1) ref k2 k6
    rw [a2] at u1 u2 u3 u4
    exact ⟨up, down, up₂, down₂, u1, u2, u3, u4, u5.imp fun _ _ hh => hh.trans hsh, u6.imp fun _ _ hh => hh.trans hsh⟩
  constructor
  · refine List.forall₂_iff_get.2 ⟨by omega, fun m m1 m2 => ?_⟩
    obtain ⟨up, down, up₂, down₂, u1, u2, u3, u4, u5, u6⟩ := main m (by omega)
    obtain ⟨_, e1⟩ := List.getElem?_eq_some_iff.1 u1
    obtain ⟨_, e2⟩ := List.getElem?_eq_some_iff.1 u3
    simp only [List.get_eq_getElem, e1, e2]
    exact u5
  · refine List.forall₂_iff_get.2 ⟨by omega, fun m m1 m2 => ?_⟩
    obtain ⟨up, down, up₂, down₂, u1, u2, u3, u4, u5, u6⟩ := main m (by omega)
    obtain ⟨_, e1⟩ := List.getElem?_eq_some_iff.1 u2
    obtain ⟨_, e2⟩ := List.getElem?_eq_some_iff.1 u4
    simp only [List.get_eq_getElem, e1, e2]
    exact u6

/-- **C114** but deformations that are all zero are not the limit of small ones: without deformations of a parameter the blade has the original
distribution, with deformations of at most `δ`, however small, it has - up to `δ` - the distribution `compute_all` computes without deformations, which is
that of the fitted spline. -/
theorem C114_jump (C : Codec) (rbf : Option Int) (tol : PName → ℝ) (sections : List Profile) (refl : Bool) (s₀ t₀ : Deform) (b b' c c' : Blade)
    (h : Workflow C rbf tol sections refl s₀ b b') (ht : Workflow C rbf tol sections refl t₀ c c') (hsame : SameFile s₀ t₀) (p : PName) (v u : Arr)
    (hv : b.dist p = some v) (hu : c.dist p = some u) (hz : ¬ s₀.Deforms p) (hd : t₀.Deforms p) (δ : ℝ) (hδ : ∀ x ∈ t₀.deformations p, |x| ≤ δ) :
    v = s₀.parameters p ∧ ∃ s', computeAll rbf tol s₀ = (s', .ok ()) ∧ (s'.deformed p).length = sections.length ∧ u.length = sections.length ∧
      ∀ (i : Nat) x y, u[i]? = some x → (s'.deformed p)[i]? = some y → |x - y| ≤ δ := by
  obtain ⟨s', a1, -, a2, a3, a4, a5, a6, a7, a8, a9⟩ := C114_design C rbf tol sections refl s₀ b b' h
  obtain ⟨t', b1, -, b2, b3, b4, b5, b6, b7, b8, b9⟩ := C114_design C rbf tol sections refl t₀ c c' ht
  obtain ⟨w, w1, w2, w3, w4⟩ := C86_response s₀ s' rbf tol a8 a1
  have hn : s₀.radii.length = sections.length := by rw [← a3, ← a2]; exact a4.1
  obtain ⟨t, e1, e2⟩ := w4 t₀.deformations hsame.number
  rw [same_object h ht hsame, b1] at e1
  obtain rfl : t' = t := congrArg Prod.fst e1
  have hlen' : (s'.deformed p).length = sections.length := by
    obtain ⟨t, e1, e2⟩ := w4 s₀.deformations fun _ => rfl
    have : ({ s₀ with deformations := s₀.deformations } : Deform) = s₀ := rfl
    rw [this, a1] at e1
    obtain rfl : s' = t := congrArg Prod.fst e1
    rw [(e2 p).1, hn]
  refine ⟨(a9 p v hv).1 hz, s', a1, hlen', ?_, ?_⟩
  · rw [(b9 p u hu).2 hd, (e2 p).1, hn]
  intro i x y hx hy
  have hi : i < s₀.radii.length := by rw [hn, ← hlen']; exact (List.getElem?_eq_some_iff.1 hy).1
  rw [(b9 p u hu).2 hd, (e2 p).2 i hi, List.getD_eq_getElem?_getD, hy] at hx
  obtain rfl := Option.some.inj hx
  rw [Option.getD_some, add_sub_cancel_left]
  refine (Finset.abs_sum_le_sum_abs _ _).trans ?_
  rw [← one_mul δ, ← w2 p i hi, Finset.sum_mul]
  refine Finset.sum_le_sum fun j hj => ?_
  rw [Finset.mem_range] at hj
  rw [abs_mul, abs_of_nonneg (w1 p i j)]
  refine mul_le_mul_of_nonneg_left ?_ (w1 p i j)
  have hj' : j < (t₀.deformations p).length := by rw [hsame.number]; exact hj
  have z : (s₀.deformations p).getD j 0 = 0 := by
    rw [List.getD_eq_getElem?_getD, List.getElem?_eq_getElem hj]
    by_contra hx
    exact hz ⟨_, List.getElem_mem hj, hx⟩
  rw [z, sub_zero, List.getD_eq_getElem?_getD, List.getElem?_eq_getElem hj']
  exact hδ _ (List.getElem_mem hj')

/-! ## A family of files -/

/-- Three sections at radii 1, 2, 3; chords 1, 5, 1; two control points of degree one; both deformations of a parameter are `m / 10`. -/
def triFile (m : PName → Int) : ParamFile where
  radii := some [1, 2, 3]
  parameters := fun p => if p = .chord then some [1, 5, 1] else none
  nbasis := fun _ => 2
  degree := fun _ => 1
  npoints := fun _ => 3
  deformations := fun p => [m p / 10, m p / 10]

/-- The object `Deformation` makes from it. -/
def triObj (m : PName → Int) : Deform := ofParam (triFile m).filled

private theorem tri_consistent (m : PName → Int) : (triFile m).Consistent := by
  refine ⟨⟨_, rfl, ?_⟩, fun p => rfl⟩
  intro p v hv
  simp only [triFile] at hv
  split at hv
  · obtain rfl := Option.some.inj hv; rfl
  · cases hv

private theorem tri_rep (m : PName → Int) : (triFile m).Representable ParamFile.tenths := by
  refine ⟨?_, ?_, ?_, ⟨0, by norm_num⟩⟩
  · intro r hr x hx
    obtain rfl := Option.some.inj hr
    simp only [List.mem_cons, List.not_mem_nil, or_false] at hx
    rcases hx with rfl | rfl | rfl
    · exact ⟨10, by norm_num⟩
    · exact ⟨20, by norm_num⟩
    · exact ⟨30, by norm_num⟩
  · intro p v hv x hx
    simp only [triFile] at hv
    split at hv
    · obtain rfl := Option.some.inj hv
      simp only [List.mem_cons, List.not_mem_nil, or_false] at hx
      rcases hx with rfl | rfl | rfl
      · exact ⟨10, by norm_num⟩
      · exact ⟨50, by norm_num⟩
      · exact ⟨10, by norm_num⟩
    · cases hv
  · intro p x hx
    simp only [triFile, List.mem_cons, List.not_mem_nil, or_false, or_self] at hx
    exact ⟨m p, hx⟩

private theorem tri_steps (s : Deform) (p : PName) (a k d : ℝ) (hr : s.radii = [1, 2, 3]) (hp : s.parameters p = [a, k, a])
    (h1 : s.nbasis p = 2) (h2 : s.degree p = 1) (h3 : s.npoints p = 3) (h4 : s.deformed p = [0, 0, 0])
    (h5 : s.deformations p = [d, d]) :
    Steps s none 0.001 p ([(1, a + d), (3, a + d)], [(1, a + d), (2, a + d), (3, a + d)], [a + d, a + d, a + d]) := by
  have two : ∀ {l : List Pt} {x y : Pt}, l.length = 2 → l.head? = some x → l.getLast? = some y → l = [x, y] := by
    intro l x y hl hx hy
    match l, hl with
    | [u, v], _ =>
      simp only [List.head?_cons, Option.some.injEq] at hx
      simp only [List.getLast?_cons_cons, List.getLast?_singleton, Option.some.injEq] at hy
      rw [hx, hy]
  obtain ⟨cp, hcp⟩ := (C68_defined [1, 2, 3] [a, k, a] 1 2 none).2 (by simp)
  obtain ⟨X', Y', hd, hlen, ⟨x0, y0, xl, yl, e1, e2, e3, e4, e5, e6⟩, _⟩ := C68_optimal _ _ _ _ _ _ hcp
  rcases hd with ⟨_, rfl, rfl⟩ | ⟨hpos, _⟩
  swap
  · simp at hpos
  simp only [List.head?_cons, Option.some.injEq] at e1 e2
  simp only [List.getLast?_cons_cons, List.getLast?_singleton, Option.some.injEq] at e3 e4
  subst e1 e2 e3 e4
  have hcp2 : cp = [(1, a), (3, a)] := two (by omega) e5 e6
  refine ⟨cp, by rw [hr, hp, h1, h2]; exact hcp, by rw [h5, hcp2]; rfl, by rw [h5, hcp2]; rfl, ?_, ?_⟩
  · simp only [h2, h3]
    have hb := bspline_curve (cv := [(1, a + d), (3, a + d)]) (n := 3) (k := 1) (by simp) (by norm_num)
    generalize hg : (BSpline.scipyBspline [(1, a + d), (3, a + d)] 3 1 : Res (List Pt)) = o at hb
    subst hb
    have l1 := (C99_linear [(1, a + d), (3, a + d)] 3 1 (by simp) le_rfl (by norm_num) _ hg 1 2).1 (by
      intro i hi
      simp only [List.length_cons, List.length_nil] at hi
      have : i = 0 ∨ i = 1 := by omega
      rcases this with rfl | rfl <;> simp [clampedKnot] <;> norm_num)
    have l2 := (C99_linear [(1, a + d), (3, a + d)] 3 1 (by simp) le_rfl (by norm_num) _ hg (a + d) 0).2 (by
      intro i hi
      simp only [List.length_cons, List.length_nil] at hi
      have : i = 0 ∨ i = 1 := by omega
      rcases this with rfl | rfl <;> simp)
    refine congrArg Except.ok (List.ext_getElem (l₂ := [(1, a + d), (2, a + d), (3, a + d)]) (by simp [linspaceN_length]) fun i i1 i2 => ?_)
    simp only [List.length_cons, List.length_nil] at i2
    refine Prod.ext ((l1 i i1).trans ?_) ((l2 i i1).trans ?_)
    · have : i = 0 ∨ i = 1 ∨ i = 2 := by omega
      rcases this with rfl | rfl | rfl <;> simp <;> norm_num
    · have : i = 0 ∨ i = 1 ∨ i = 2 := by omega
      rcases this with rfl | rfl | rfl <;> simp
  · have f1 : ([(1, a + d), (2, a + d), (3, a + d)] : List Pt).find? (fun q => decide (|q.1 - 1| < 0.001)) = some (1, a + d) := by
      rw [List.find?_cons_of_pos]; norm_num
    have f2 : ([(1, a + d), (2, a + d), (3, a + d)] : List Pt).find? (fun q => decide (|q.1 - 2| < 0.001)) = some (2, a + d) := by
      rw [List.find?_cons_of_neg, List.find?_cons_of_pos]
      · norm_num
      · norm_num [abs_lt]
    have f3 : ([(1, a + d), (2, a + d), (3, a + d)] : List Pt).find? (fun q => decide (|q.1 - 3| < 0.001)) = some (3, a + d) := by
      rw [List.find?_cons_of_neg, List.find?_cons_of_neg, List.find?_cons_of_pos]
      · norm_num
      · norm_num [abs_lt]
      · norm_num [abs_lt]
    simp only [hr, h4, deformLoop, f1, f2, f3]
    simp


private theorem tri_nonEmpty (m : PName → Int) : (triFile m).NonEmpty :=
  ⟨by simp [triFile], by intro p; simp [triFile]⟩

private theorem tri_obj (m : PName → Int) : (triObj m).radii = [1, 2, 3] ∧
    (∀ p, (triObj m).parameters p = [if p = .chord then 1 else 0, if p = .chord then 5 else 0, if p = .chord then 1 else 0]) ∧
    (∀ p, (triObj m).nbasis p = 2 ∧ (triObj m).degree p = 1 ∧ (triObj m).npoints p = 3 ∧ (triObj m).deformed p = [0, 0, 0]) ∧
    ∀ p, (triObj m).deformations p = [(m p : ℝ) / 10, (m p : ℝ) / 10] := by
  refine ⟨rfl, ?_, ?_, fun p => rfl⟩
  · intro p; cases p <;> simp [triObj, ofParam, ParamFile.filled, triFile]
  · intro p; exact ⟨rfl, rfl, rfl, rfl⟩

private theorem tri_all (m : PName → Int) : ∃ s', computeAll none (fun _ => 0.001) (triObj m) = (s', .ok ()) ∧
    ∀ p, s'.deformed p = List.replicate 3 ((if p = .chord then 1 else 0) + (m p : ℝ) / 10) := by
  obtain ⟨v1, v2, v3, v4⟩ := tri_obj m
  let A : PName → ℝ := fun p => if p = .chord then 1 else 0
  let D : PName → List Pt × List Pt × Arr := fun p =>
    ([(1, A p + m p / 10), (3, A p + m p / 10)], [(1, A p + m p / 10), (2, A p + m p / 10), (3, A p + m p / 10)],
      [A p + m p / 10, A p + m p / 10, A p + m p / 10])
  have hall : ∀ p, p ∈ PName.all := by intro p; cases p <;> simp [PName.all]
  refine ⟨result (triObj m) PName.all D, (computeAll_iff ..).2 ⟨D, ?_, rfl⟩, ?_⟩
  · intro p
    exact tri_steps (triObj m) p (A p) (if p = .chord then 5 else 0) (m p / 10) v1 (v2 p) (v3 p).1 (v3 p).2.1 (v3 p).2.2.1 (v3 p).2.2.2 (v4 p)
  · intro p
    simp only [result, hall, if_true, D]
    rfl

/-- The workflow runs through for every file of the family. -/
theorem tri_workflow (m : PName → Int) (refl : Bool) : ∃ b b',
    Workflow ParamFile.tenths none (fun _ => 0.001) [Sample.foil, Sample.foil, Sample.foil] refl (triObj m) b b' := by
  obtain ⟨fs0, pf', h1, _, rfl, h3⟩ := ParamFile.C40_round_trip ParamFile.tenths ParamFile.tenths_lawful (fun _ => none) [] (triFile m)
    (tri_consistent m) (tri_nonEmpty m) (tri_rep m)
  have hnew : new ParamFile.tenths fs0 [] = (fs0, .ok (triObj m)) := by unfold new; rw [h3]; rfl
  obtain ⟨s', h, hv⟩ := tri_all m
  obtain ⟨v1, v2, v3, v4⟩ := tri_obj m
  have r0 : ParamFile.tenths.rep 0 := ⟨0, by norm_num⟩
  have r1 : ∀ x ∈ (triObj m).radii, ParamFile.tenths.rep x := fun x hx => (tri_rep m).1 _ rfl x hx
  have r2 : ∀ p, ∀ x ∈ (triObj m).parameters p, ParamFile.tenths.rep x := by
    intro p x hx
    rw [v2] at hx
    simp only [List.mem_cons, List.not_mem_nil, or_false] at hx
    split_ifs at hx
    · rcases hx with rfl | rfl | rfl
      · exact ⟨10, by norm_num⟩
      · exact ⟨50, by norm_num⟩
      · exact ⟨10, by norm_num⟩
    · rcases hx with rfl | rfl | rfl <;> exact r0
  have r3 : ∀ p, ∀ x ∈ s'.deformed p, ParamFile.tenths.rep x := by
    intro p x hx
    rw [hv] at hx
    obtain rfl := List.eq_of_mem_replicate hx
    split_ifs
    · exact ⟨10 + m p, by push_cast; ring⟩
    · exact ⟨m p, by ring⟩
  have ha : after (triObj m) [.all none fun _ => 0.001] = s' := by simp only [after, Op.call, h]
  obtain ⟨fs', s1, a, _, b, b1, c, d, _⟩ := C39_export ParamFile.tenths ParamFile.tenths_lawful fs0 fs0 [] [] (triObj m) hnew
    [.all none fun _ => 0.001] r0 r1 r2 (by rw [ha]; exact r3)
  rw [ha] at a d
  have hlen : s1.radii.length = 3 ∧ ∀ p, (s1.parameters p).length = 3 := by
    refine ⟨by rw [b1, v1]; rfl, fun p => ?_⟩
    by_cases hz : ∀ x ∈ (triObj m).deformations p, x = 0
    · rw [c p hz, v2]; rfl
    · rw [d p (by push Not at hz; exact hz), hv]; simp
  obtain ⟨pf, hpf, hs1⟩ : ∃ pf, ParamFile.readParameters ParamFile.tenths fs' [] ParamFile.init = (fs', .ok pf) ∧ s1 = ofParam pf := by
    unfold new at b
    rcases hr : ParamFile.readParameters ParamFile.tenths fs' [] ParamFile.init with ⟨f, e | pf⟩
    · rw [hr] at b; have := congrArg Prod.snd b; cases this
    · rw [hr] at b
      obtain rfl := Except.ok.inj (congrArg Prod.snd b)
      have := congrArg Prod.fst b
      exact ⟨pf, by rw [show f = fs' from this], rfl⟩
  subst hs1
  obtain ⟨B, hB⟩ := (C44_constructor [Sample.foil, Sample.foil, Sample.foil] (pf.radii.getD []) ((pf.parameters .chord).getD [])
    ((pf.parameters .pitch).getD []) ((pf.parameters .rake).getD []) ((pf.parameters .skew).getD []) none none).1.2
    ⟨hlen.1, hlen.2 .chord, hlen.2 .pitch, hlen.2 .rake, hlen.2 .skew⟩
  obtain ⟨w, w1, w2, w3, w4, w5, w6, w7, w8, _⟩ := (C44_constructor _ _ _ _ _ _ _ _).2.2 B hB
  have w2' : B.radii = [1, 2, 3] := by rw [w2]; exact b1.trans v1
  obtain ⟨b', hb'⟩ := (C46_defined B refl w w7 w8 (by rw [w1]; intro P hP; simp at hP; rw [hP]; exact Sample.foil_uniform)).2
    ⟨by rw [w1]; simp, by rw [w2']; intro r hr; simp at hr; rcases hr with rfl | rfl | rfl <;> norm_num,
      by rw [w1]; intro P hP; simp at hP; rw [hP]; exact ⟨_, Sample.foil_reference⟩,
      by rw [w1]; intro P hP Q hQ; simp at hP hQ; rw [hP, hQ]⟩
  exact ⟨B, b', fs0, [], fs0, s', [], fs', pf, hnew, h, a, hpf, hB, hb', ParamFile.tenths_lawful, r0, r1, r2, r3⟩

private theorem tri_same (m n : PName → Int) : SameFile (triObj m) (triObj n) := by
  obtain ⟨v1, v2, v3, v4⟩ := tri_obj m
  obtain ⟨u1, u2, u3, u4⟩ := tri_obj n
  exact ⟨rfl, rfl, rfl, rfl, rfl, fun p => by rw [v4, u4]; rfl⟩

private theorem tri_deforms (m : PName → Int) (p : PName) : (triObj m).Deforms p ↔ m p ≠ 0 := by
  obtain ⟨v1, v2, v3, v4⟩ := tri_obj m
  unfold Deform.Deforms
  rw [v4]
  simp

/-- C114: raising both rake deformations from 0.1 to 0.2 in such a file moves the blade by -0.1 along the axis. -/
example (refl : Bool) : ∃ s₀ t₀ b b' c c', Workflow ParamFile.tenths none (fun _ => 0.001) [Sample.foil, Sample.foil, Sample.foil] refl s₀ b b' ∧
    Workflow ParamFile.tenths none (fun _ => 0.001) [Sample.foil, Sample.foil, Sample.foil] refl t₀ c c' ∧ SameButDeformations s₀ t₀ ∧
    t₀.deformations .rake = (s₀.deformations .rake).map (· + 0.1) ∧ t₀.deformations .skew = (s₀.deformations .skew).map (· + 0) ∧
    t₀.deformations .chord = s₀.deformations .chord ∧ t₀.deformations .pitch = s₀.deformations .pitch ∧ s₀.Deforms .rake := by
  let m : PName → Int := fun p => if p = .rake then 1 else 0
  let n : PName → Int := fun p => if p = .rake then 2 else 0
  obtain ⟨b, b', hb⟩ := tri_workflow m refl
  obtain ⟨c, c', hc⟩ := tri_workflow n refl
  refine ⟨triObj m, triObj n, b, b', c, c', hb, hc, ⟨tri_same m n, fun p => ?_⟩, ?_, ?_, ?_, ?_, ?_⟩
  · rw [tri_deforms, tri_deforms]; cases p <;> simp [m, n]
  · rw [(tri_obj m).2.2.2, (tri_obj n).2.2.2]; simp [m, n]; norm_num
  · rw [(tri_obj m).2.2.2, (tri_obj n).2.2.2]; simp [m, n]
  · rw [(tri_obj m).2.2.2, (tri_obj n).2.2.2]; simp [m, n]
  · rw [(tri_obj m).2.2.2, (tri_obj n).2.2.2]; simp [m, n]
  · rw [tri_deforms]; simp [m]

/-- **C114** the jump on a file: without deformations the middle chord of the blade is 5; with both chord deformations 0.1 it is 1.1. -/
theorem C114_jump_example (refl : Bool) : ∃ s₀ t₀ b b' c c',
    Workflow ParamFile.tenths none (fun _ => 0.001) [Sample.foil, Sample.foil, Sample.foil] refl s₀ b b' ∧
    Workflow ParamFile.tenths none (fun _ => 0.001) [Sample.foil, Sample.foil, Sample.foil] refl t₀ c c' ∧ SameFile s₀ t₀ ∧
    s₀.deformations .chord = [0, 0] ∧ t₀.deformations .chord = [0.1, 0.1] ∧ b.chord = [1, 5, 1] ∧ c.chord = [1.1, 1.1, 1.1] := by
  let m : PName → Int := fun p => 0
  let n : PName → Int := fun p => if p = .chord then 1 else 0
  obtain ⟨b, b', hb⟩ := tri_workflow m refl
  obtain ⟨c, c', hc⟩ := tri_workflow n refl
  have em : (triObj m).deformations .chord = [0, 0] := by rw [(tri_obj m).2.2.2]; simp [m]
  have en : (triObj n).deformations .chord = [0.1, 0.1] := by rw [(tri_obj n).2.2.2]; simp [n]; norm_num
  obtain ⟨s', a1, -, -, -, -, -, -, -, -, a9⟩ := C114_design _ _ _ _ _ _ _ _ hb
  obtain ⟨t', b1, -, -, -, -, -, -, -, -, b9⟩ := C114_design _ _ _ _ _ _ _ _ hc
  refine ⟨triObj m, triObj n, b, b', c, c', hb, hc, tri_same m n, em, en, ?_, ?_⟩
  · rw [(a9 .chord _ rfl).1 (by rw [tri_deforms]; simp [m]), (tri_obj m).2.1]; simp
  · rw [(b9 .chord _ rfl).2 (by rw [tri_deforms]; simp [n])]
    obtain ⟨t, e1, e2⟩ := tri_all n
    rw [b1] at e1
    obtain rfl : t' = t := congrArg Prod.fst e1
    rw [e2]
    simp [n, List.replicate]
    norm_num

end
end BladeX
