import Verif.Model.Rebuild
import Verif.Props.Custom
import Verif.Props.ReverseMore
import Verif.Props.InterpShape
import Verif.Props.Blade
import Verif.Spec.ReverseEdges

/-! # C128: a blade rebuilt from what reverse engineering recovered -/

namespace BladeX
noncomputable section
open Classical Reverse Spec

/-- The recovered surfaces do not cross. -/
def Reverse.Section.Ordered (S : Section) : Prop := ∀ (j : Nat) (u d : ℝ), 0 < j → j + 1 < S.xup.length → S.yup[j]? = some u → S.ydown[j]? = some d → d ≤ u

/-- One section. -/
private theorem rebuild_section (american : Profile → Res Arr) {kind : Kind} {interp : List Pt → Res (ℝ → ℝ)} {geom : ℝ → Res SectionGeom} {radii : Arr} {n : Int}
    {p : ReversePropeller} (h : ReversePropeller.new kind interp geom radii n = .ok p) (hn : 2 ≤ n) {S : Section} (hS : S ∈ p.sections) :
    (S.Ordered → ∃ Q, Custom.ctor american S.kwargs = .ok Q ∧ Q.xup = S.xup ∧ Q.yup = S.yup ∧ Q.xdown = S.xdown ∧ Q.ydown = S.ydown ∧
      Q.Ends (0, 0) (1, 0) (0, 0) (1, 0)) ∧
    (¬ S.Ordered → Custom.ctor american S.kwargs = .error .valueError) := by
  obtain ⟨_, _, hsec⟩ := C72_sections kind interp geom radii n p h
  obtain ⟨e1, e2, e3, e4, e5, e6, e7, e8, e9⟩ := hsec S hS
  obtain ⟨N, hN⟩ : ∃ N : Nat, (N : Int) = n := ⟨n.toNat, by omega⟩
  subst hN
  simp only [Int.toNat_natCast] at e1 e3 e4 e5
  have hN2 : 2 ≤ N := by omega
  have hcast : (((N : Int) : ℝ) - 1) ≠ 0 := by
    have : (2 : ℝ) ≤ (N : ℝ) := by exact_mod_cast hN2
    push_cast; linarith
  have x0 : S.xup.head? = some 0 := by rw [List.head?_eq_getElem?, e3 0 (by omega)]; simp
  have x1 : S.xup.getLast? = some 1 := by
    rw [List.getLast?_eq_getElem?, e1, e3 (N - 1) (by omega), Nat.cast_sub (by omega)]
    congr 1
    push_cast at hcast ⊢
    exact div_self hcast
  have hE : Profile.Ends { xup := S.xup, xdown := S.xdown, yup := S.yup, ydown := S.ydown } (0, 0) (1, 0) (0, 0) (1, 0) := by
    have hz : ∀ ys : Arr, ys.length = N → ys.head? = some 0 → ys.getLast? = some 0 →
        (List.zip S.xup ys).head? = some (0, 0) ∧ (List.zip S.xup ys).getLast? = some (1, 0) := by
      intro ys hl h0 h1
      constructor
      · rw [List.head?_eq_getElem?] at x0 h0 ⊢
        rw [List.getElem?_zip_eq_some]; exact ⟨x0, h0⟩
      · rw [List.getLast?_eq_getElem?] at x1 h1 ⊢
        rw [List.getElem?_zip_eq_some]
        simp only [List.length_zip, e1, hl, min_self] at x1 h1 ⊢
        exact ⟨x1, h1⟩
    obtain ⟨a1, a2⟩ := hz S.yup e4 e6 e7
    obtain ⟨a3, a4⟩ := hz S.ydown e5 e8 e9
    refine ⟨a1, a2, ?_, ?_⟩
    · show (List.zip S.xdown S.ydown).head? = _; rw [e2]; exact a3
    · show (List.zip S.xdown S.ydown).getLast? = _; rw [e2]; exact a4
  obtain ⟨k1, k2, k3⟩ := C15_ctor american S.kwargs (by simp [Section.kwargs, Custom.coordKeys]) S.xup S.yup S.xdown S.ydown
    (by simp [Section.kwargs]) (by simp [Section.kwargs]) (by simp [Section.kwargs]) (by simp [Section.kwargs]) (by omega)
    (by rw [e2]) (by omega) _ _ _ _ hE (by simp [dist2])
  have hnear : ∀ a : ℝ, Near a a := by intro a; simp only [Near, sub_self, abs_zero]; positivity
  rw [List.head?_eq_getElem?] at e6 e8
  rw [List.getLast?_eq_getElem?] at e7 e9
  rw [e4] at e7; rw [e5] at e9
  have hok : CoordsOk S.xup S.yup S.xdown S.ydown S.xup.length ↔ S.Ordered := by
    constructor
    · intro h; exact h.interior
    · intro h
      refine ⟨h, ?_, ?_, ?_, ?_⟩
      · intro a b ha hb; rw [e2] at ha; rw [ha] at hb; obtain rfl := Option.some.inj hb; exact hnear a
      · intro a b ha hb; rw [e2] at ha; rw [ha] at hb; obtain rfl := Option.some.inj hb; exact hnear a
      · intro a b ha hb; rw [e8] at ha; rw [e6] at hb; rw [← Option.some.inj ha, ← Option.some.inj hb]; exact hnear 0
      · intro a b ha hb; rw [e1, e9] at ha; rw [e1, e7] at hb; rw [← Option.some.inj ha, ← Option.some.inj hb]; exact hnear 0
  rw [hok] at k1
  constructor
  · intro hO
    obtain ⟨Q, hQ⟩ := k3.resolve_left (by
      rw [k1]; rintro (h | h | h)
      · exact h hO
      · norm_num at h
      · norm_num at h)
    obtain ⟨q1, q2, q3, q4⟩ := k2 Q hQ
    refine ⟨Q, hQ, q1, q2, q3, q4, ?_⟩
    obtain ⟨a1, a2, a3, a4⟩ := hE
    simp only [Profile.Ends, Profile.upper, Profile.lower, q1, q2, q3, q4] at a1 a2 a3 a4 ⊢
    exact ⟨a1, a2, a3, a4⟩
  · intro hO; rw [k1]; exact Or.inl hO

private theorem mapM_first {α β : Type} {f : α → Res β} {e : PyErr} : ∀ {l : List α}, (∀ a ∈ l, f a = .error e ∨ ∃ b, f a = .ok b) →
    (∃ a ∈ l, f a = .error e) → l.mapM f = .error e := by
  intro l
  induction l with
  | nil => rintro _ ⟨a, ha, _⟩; cases ha
  | cons a l ih =>
    intro h1 h2
    rw [List.mapM_cons]
    rcases h1 a (by simp) with ha | ⟨b, hb⟩
    · rw [ha]; rfl
    · obtain ⟨x, hx, hxe⟩ := h2
      rcases List.mem_cons.1 hx with rfl | hx
      · rw [hb] at hxe; cases hxe
      · rw [hb, show (Except.ok b : Res β) >>= _ = _ from rfl]
        simp only [bind, Except.bind]
        rw [ih (fun a ha => h1 a (by simp [ha])) ⟨x, hx, hxe⟩]

private theorem mapM_every {α β : Type} {f : α → Res β} : ∀ {l : List α}, (∀ a ∈ l, ∃ b, f a = .ok b) → ∃ r, l.mapM f = .ok r := by
  intro l
  induction l with
  | nil => intro _; exact ⟨[], rfl⟩
  | cons a l ih =>
    intro h
    obtain ⟨b, hb⟩ := h a (by simp)
    obtain ⟨r, hr⟩ := ih fun a ha => h a (by simp [ha])
    exact ⟨b :: r, by rw [List.mapM_cons, hb]; simp only [bind, Except.bind]; rw [hr]; rfl⟩

/-- **C128** which recovered objects can be turned back into profiles: those in which no section has a lower ordinate above the upper one at the same station. The
profiles hold the recovered arrays. Every other object is refused with `ValueError`, by the blade too. -/
theorem C128_accepts (american : Profile → Res Arr) (kind : Kind) (interp : List Pt → Res (ℝ → ℝ)) (geom : ℝ → Res SectionGeom) (radii : Arr) (n : Int)
    (p : ReversePropeller) (h : ReversePropeller.new kind interp geom radii n = .ok p) (hn : 2 ≤ n) :
    ((∀ S ∈ p.sections, S.Ordered) → ∃ ss, p.rebuildSections american = .ok ss ∧ ss.length = radii.length ∧
      ∀ (i : Nat) (S : Section), p.sections[i]? = some S → ∃ Q, ss[i]? = some Q ∧ Q.xup = S.xup ∧ Q.yup = S.yup ∧ Q.xdown = S.xdown ∧ Q.ydown = S.ydown) ∧
    ((∃ S ∈ p.sections, ¬ S.Ordered) → p.rebuildSections american = .error .valueError ∧ p.rebuildBlade american = .error .valueError) := by
  have hr := fun S hS => rebuild_section american h hn (S := S) hS
  obtain ⟨_, hl, _⟩ := C72_sections kind interp geom radii n p h
  constructor
  · intro hO
    have : ∃ ss, p.rebuildSections american = .ok ss := by
      unfold ReversePropeller.rebuildSections
      refine mapM_every ?_
      intro S hS
      obtain ⟨Q, hQ, _⟩ := (hr S hS).1 (hO S hS)
      exact ⟨Q, hQ⟩
    obtain ⟨ss, hss⟩ := this
    obtain ⟨g1, g2⟩ := Blade.mapM_ok.1 hss
    refine ⟨ss, hss, g1.trans hl, ?_⟩
    intro i S hi
    have hi' : i < ss.length := by rw [g1]; exact (List.getElem?_eq_some_iff.1 hi).1
    obtain ⟨Q, hQ, q1, q2, q3, q4, _⟩ := (hr S (List.mem_of_getElem? hi)).1 (hO S (List.mem_of_getElem? hi))
    have := g2 i S ss[i] hi (List.getElem?_eq_getElem hi')
    rw [hQ] at this
    obtain rfl := Except.ok.inj this
    exact ⟨_, List.getElem?_eq_getElem hi', q1, q2, q3, q4⟩
  · rintro ⟨S, hS, hno⟩
    have : p.rebuildSections american = .error .valueError := by
      refine mapM_first ?_ ⟨S, hS, (hr S hS).2 hno⟩
      intro S hS
      by_cases hO : S.Ordered
      · obtain ⟨Q, hQ, _⟩ := (hr S hS).1 hO; exact Or.inr ⟨Q, hQ⟩
      · exact Or.inl ((hr S hS).2 hO)
    exact ⟨this, by rw [ReversePropeller.rebuildBlade, this]; rfl⟩

/-- **C128** the rebuilt blade: if the profiles can be rebuilt and no radius is zero, the blade is made and its transformations succeed. Station `j` of section `i`
comes to lie where a blade of the recovered chord, pitch, rake and skew has the point `(j / (n - 1), recovered ordinate)` of its section, on the cylinder of
the radius at which the section was cut. -/
theorem C128_rebuilt (american : Profile → Res Arr) (kind : Kind) (interp : List Pt → Res (ℝ → ℝ)) (geom : ℝ → Res SectionGeom) (radii : Arr) (n : Int)
    (p : ReversePropeller) (h : ReversePropeller.new kind interp geom radii n = .ok p) (hn : 2 ≤ n) (hne : radii ≠ []) (h0 : ∀ R ∈ radii, R ≠ 0)
    (hO : ∀ S ∈ p.sections, S.Ordered) (refl : Bool) :
    ∃ b b', p.rebuildBlade american = .ok b ∧ b.applyTransformations refl = (b', .ok ()) ∧ b'.coordsUp.length = radii.length ∧ b'.coordsDown.length = radii.length ∧
    ∀ (i : Nat) (R : ℝ) (S : Section), radii[i]? = some R → p.sections[i]? = some S → ∃ up down,
      b'.coordsUp[radii.length - 1 - i]? = some up ∧ b'.coordsDown[radii.length - 1 - i]? = some down ∧ up.length = n.toNat ∧ down.length = n.toNat ∧
      ∀ j : Nat, (j : Int) < n → ∃ u d, S.yup[j]? = some u ∧ S.ydown[j]? = some d ∧
        up[j]? = some (wrap (R / 1000) (placed refl (R / 1000) S.stored.chord S.stored.pitch S.stored.rake S.stored.skewAngle (1 / 2, 0) ((j : ℝ) / ((n : ℝ) - 1), u))) ∧
        down[j]? = some (wrap (R / 1000) (placed refl (R / 1000) S.stored.chord S.stored.pitch S.stored.rake S.stored.skewAngle (1 / 2, 0) ((j : ℝ) / ((n : ℝ) - 1), d))) := by
  obtain ⟨hrad, hl, hsec⟩ := C72_sections kind interp geom radii n p h
  obtain ⟨ss, hss, hsl, hmem⟩ := (C128_accepts american kind interp geom radii n p h hn).1 hO
  have hprof : ∀ (i : Nat) (S : Section) (Q : Profile), p.sections[i]? = some S → ss[i]? = some Q → Q.xup = S.xup ∧ Q.yup = S.yup ∧ Q.xdown = S.xdown ∧
      Q.ydown = S.ydown ∧ Q.Uniform ∧ Q.referencePoint = .ok (1 / 2, 0) := by
    intro i S Q hS hQ
    have hSm := List.mem_of_getElem? hS
    obtain ⟨Q', hQ', q1, q2, q3, q4, hE⟩ := (rebuild_section american h hn hSm).1 (hO S hSm)
    have := (Blade.mapM_ok.1 hss).2 i S Q hS hQ
    rw [hQ'] at this
    obtain rfl := Except.ok.inj this
    obtain ⟨e1, e2, e3, e4, e5, e6, e7, e8, e9⟩ := hsec S hSm
    have hU : Q'.Uniform := ⟨by rw [q1, q2]; omega, by rw [q1, q3, e2], by rw [q3, q4, e2]; omega⟩
    refine ⟨q1, q2, q3, q4, hU, ?_⟩
    rw [Profile.referencePoint_ends ⟨hU.1, hU.2.2⟩ hE, if_neg (by norm_num)]
    norm_num [mid]
  let b : Blade := { sections := ss, radii := p.radii.map (· / 1000), chord := p.sections.map (·.stored.chord), pitch := p.sections.map (·.stored.pitch), rake := p.sections.map (·.stored.rake), skew := p.sections.map (·.stored.skewAngle), thickness := none, camber := none, coordsUp := [], coordsDown := [], upper := none, lower := none, tip := none, root := none }
  have hb : p.rebuildBlade american = .ok b := by
    simp only [ReversePropeller.rebuildBlade, hss, bind, Except.bind, Blade.new]
    rw [if_pos (by simp [hl, hrad, hsl])]
  have hW : b.WellFormed := by simp [Blade.WellFormed, b, hrad, hl, hsl]
  have look : ∀ Q ∈ ss, ∃ S ∈ p.sections, Q.xup = S.xup ∧ Q.yup = S.yup ∧ Q.Uniform ∧ Q.referencePoint = .ok (1 / 2, 0) := by
    intro Q hQ
    obtain ⟨i, hi⟩ := List.getElem?_of_mem hQ
    have hi' : i < p.sections.length := by rw [hl, ← hsl]; exact (List.getElem?_eq_some_iff.1 hi).1
    obtain ⟨q1, q2, _, _, q5, q6⟩ := hprof i _ Q (List.getElem?_eq_getElem hi') hi
    exact ⟨_, List.getElem_mem hi', q1, q2, q5, q6⟩
  have hUall : ∀ Q ∈ b.sections, Q.Uniform := fun Q hQ => by obtain ⟨_, _, _, _, hU, _⟩ := look Q hQ; exact hU
  have hlen : ∀ Q ∈ ss, Q.upper.length = n.toNat := by
    intro Q hQ
    obtain ⟨S, hS, q1, q2, _⟩ := look Q hQ
    obtain ⟨e1, _, _, e4, _⟩ := hsec S hS
    simp [Profile.upper, q1, q2, e1, e4]
  obtain ⟨b', hb'⟩ := (C46_defined b refl hW rfl rfl hUall).2 ⟨by
      intro h; apply hne; apply List.length_eq_zero_iff.1; rw [← hsl]; exact List.length_eq_zero_iff.2 h, by
      intro r hr
      obtain ⟨R, hR, rfl⟩ := List.mem_map.1 (show r ∈ p.radii.map (· / 1000) from hr)
      rw [hrad] at hR
      exact div_ne_zero (h0 R hR) (by norm_num),
    fun Q hQ => by obtain ⟨_, _, _, _, _, hr⟩ := look Q hQ; exact ⟨_, hr⟩,
    fun P hP Q hQ => by rw [hlen P hP, hlen Q hQ]⟩
  obtain ⟨_, _, hpl⟩ := C46_placed b b' refl hW rfl rfl hUall hb'
  obtain ⟨c1, c2, hrow⟩ := C48_reversed b b' refl hW hb'
  have hbs : b.sections.length = radii.length := hsl
  rw [hbs] at c1 c2
  refine ⟨b, b', hb, hb', c1, c2, ?_⟩
  intro i R S hR hS
  have hi' : i < ss.length := by rw [hsl]; exact (List.getElem?_eq_some_iff.1 hR).1
  have hQ : ss[i]? = some ss[i] := List.getElem?_eq_getElem hi'
  have hRi : b.radii[i]? = some (R / 1000) := by
    show (p.radii.map (· / 1000))[i]? = _
    rw [List.getElem?_map, hrad, hR]; rfl
  have hfield : ∀ g : Section → ℝ, (p.sections.map g)[i]? = some (g S) := fun g => by rw [List.getElem?_map, hS]; rfl
  obtain ⟨q1, q2, q3, q4, hU, href⟩ := hprof i S _ hS hQ
  obtain ⟨ref, Q', href', _, hQ', hup, hdn, _⟩ := hpl i ss[i] (R / 1000) S.stored.chord S.stored.pitch S.stored.rake S.stored.skewAngle hQ
    hRi (hfield _) (hfield _) (hfield _) (hfield _)
  rw [href] at href'
  obtain rfl := Except.ok.inj href'
  obtain ⟨r1, r2, _⟩ := hrow i Q' (R / 1000) hQ' hRi
  rw [hbs] at r1 r2
  obtain ⟨e1, e2, e3, e4, e5, _⟩ := hsec S (List.mem_of_getElem? hS)
  refine ⟨_, _, r1, r2, by rw [hup]; simp [Profile.upper, q1, q2, e1, e4], by rw [hdn]; simp [Profile.lower, q3, q4, e2, e1, e5], ?_⟩
  intro j hj
  have hj' : j < n.toNat := by omega
  have hy : S.yup[j]? = some S.yup[j] := List.getElem?_eq_getElem (by omega)
  have hd : S.ydown[j]? = some S.ydown[j] := List.getElem?_eq_getElem (by omega)
  have hx := e3 j hj'
  refine ⟨_, _, hy, hd, ?_, ?_⟩
  · rw [hup, List.map_map, List.getElem?_map, show ss[i].upper[j]? = some ((j : ℝ) / ((n : ℝ) - 1), S.yup[j]) by
      rw [Profile.upper, q1, q2, List.getElem?_zip_eq_some]; exact ⟨hx, hy⟩]
    rfl
  · rw [hdn, List.map_map, List.getElem?_map, show ss[i].lower[j]? = some ((j : ℝ) / ((n : ℝ) - 1), S.ydown[j]) by
      rw [Profile.lower, q3, q4, e2, List.getElem?_zip_eq_some]; exact ⟨hx, hd⟩]
    rfl

/-- The kernel's section has its edges in range. -/
private theorem Spec.Cut.edges {refl : Bool} {r c P k s : ℝ} {T B : ℝ → Pt} {G : SectionGeom} (h : Cut refl r c P k s T B G) : EdgesInRange refl r c P k s := by
  have h0 := h.topRange 0 ⟨le_rfl, zero_le_one⟩
  have h1 := h.topRange 1 ⟨zero_le_one, le_rfl⟩
  rcases h.topEnds with ⟨e0, e1⟩ | ⟨e0, e1⟩
  · rw [e0] at h0; rw [e1] at h1; exact ⟨h1, h0⟩
  · rw [e0] at h0; rw [e1] at h1; exact ⟨h0, h1⟩

/-- What the object for a BladeX blade holds at the index of a radius at which a known blade was cut. -/
private theorem recovered {geom : ℝ → Res SectionGeom} {radii : Arr} {n : Int} {p : ReversePropeller}
    (h : ReversePropeller.new .bladeX interp1d geom radii n = .ok p) {i : Nat} {r : ℝ} {G : SectionGeom} (hr : radii[i]? = some (1000 * r))
    (hG : geom (1000 * r) = .ok G) : ∃ S, p.sections[i]? = some S ∧ sectionBladeX interp1d n.toNat (1000 * r) G = .ok S := by
  obtain ⟨_, _, _, _, _, hsec⟩ := new_section h
  obtain ⟨G', S, g1, g2, g3⟩ := hsec i _ hr
  rw [hG] at g1
  obtain rfl := Except.ok.inj g1
  exact ⟨S, g3, g2⟩

/-- **C128** the round trip: a section of a right-handed blade (or one without pitch) with positive chord, whose upper surface lies above the chord, is cut, recovered and rebuilt, with the
`reflect` with which the blade was made. Each station of the rebuilt blade is as near to the point of the blade at this station as the interpolation
allows (C115): chord times `(2 + 3 √(1 + D²)) / 4 · K · (L / (n - 1))²`. -/
theorem C128_round_trip (american : Profile → Res Arr) (geom : ℝ → Res SectionGeom) (radii : Arr) (n : Int)
    (p : ReversePropeller) (h : ReversePropeller.new .bladeX interp1d geom radii n = .ok p) (hn : 2 ≤ n) (h0 : ∀ R ∈ radii, R ≠ 0) (refl : Bool)
    (b b' : Blade) (hb : p.rebuildBlade american = .ok b) (hb' : b.applyTransformations refl = (b', .ok ()))
    (i : Nat) (r c P k s : ℝ) (T B : ℝ → Pt) (G : SectionGeom) (hr : radii[i]? = some (1000 * r)) (hG : geom (1000 * r) = .ok G)
    (hcut : Cut refl r c P k s T B G) (hP : 0 ≤ P) (hc : 0 < c)
    (gT gB : ℝ → ℝ) (hT : GraphOf gT T) (hB : GraphOf gB B) (LT LB DT DB KT KB : ℝ) (hLT : 0 < LT) (hLB : 0 < LB) (sT : Steady LT DT T) (sB : Steady LB DB B)
    (kT : BendBy KT 0 1 gT) (kB : BendBy KB 0 1 gB) (hup : ∀ x, 0 < x → x < 1 → 0 < gT x) :
    ∃ up down, b'.coordsUp[radii.length - 1 - i]? = some up ∧ b'.coordsDown[radii.length - 1 - i]? = some down ∧
    ∀ j : Nat, (j : Int) < n → ∃ u d, up[j]? = some u ∧ down[j]? = some d ∧
      distance3 u (wrap r (placed refl r c P k s (1 / 2, 0) ((j : ℝ) / ((n : ℝ) - 1), gT ((j : ℝ) / ((n : ℝ) - 1))))) ≤
        c * ((2 + 3 * Real.sqrt (1 + DT ^ 2)) / 4 * KT * (LT / ((n : ℝ) - 1)) ^ 2) ∧
      distance3 d (wrap r (placed refl r c P k s (1 / 2, 0) ((j : ℝ) / ((n : ℝ) - 1), gB ((j : ℝ) / ((n : ℝ) - 1))))) ≤
        c * ((2 + 3 * Real.sqrt (1 + DB ^ 2)) / 4 * KB * (LB / ((n : ℝ) - 1)) ^ 2) := by
  have hO : ∀ S ∈ p.sections, S.Ordered := by
    by_contra hno
    push_neg at hno
    rw [((C128_accepts american .bladeX interp1d geom radii n p h hn).2 hno).2] at hb
    cases hb
  have hne : radii ≠ [] := by rintro rfl; simp at hr
  obtain ⟨b1, b1', hb1, hb1', _, _, hall⟩ := C128_rebuilt american .bladeX interp1d geom radii n p h hn hne h0 hO refl
  rw [hb] at hb1
  obtain rfl := Except.ok.inj hb1
  rw [hb'] at hb1'
  obtain rfl := (Prod.mk.inj hb1').1
  obtain ⟨S, hS, hsec⟩ := recovered h hr hG
  obtain ⟨up, down, g1, g2, _, _, hj⟩ := hall i _ S hr hS
  obtain ⟨s1, s2, s3, s4, _⟩ := C60_section interp1d _ refl r c P k s G S hcut.radius hcut.chord hcut.edges (Or.inl ⟨hcut.leading, hcut.trailing⟩) hsec
  obtain ⟨σ, _, hσ, _, hacc⟩ := C115_converges _ refl r c P k s T B G S hcut gT gB hT hB LT LB DT DB KT KB hLT hLB sT sB kT kB hsec
  obtain rfl := hσ hup
  rw [abs_of_nonneg hP] at s1
  rw [abs_of_pos hc] at s2
  have hR : (1000 * r) / 1000 = r := by ring
  rw [s1, s2, s3, s4, hR] at hj
  have hcast : ((n.toNat : ℕ) : ℝ) = (n : ℝ) := by
    have : ((n.toNat : ℕ) : ℤ) = n := Int.toNat_of_nonneg (by omega)
    exact_mod_cast congrArg (fun z : ℤ => (z : ℝ)) this
  simp only [hcast, one_mul] at hacc
  have near : ∀ x y g E : ℝ, |y - g| ≤ E → distance3 (wrap r (placed refl r c P k s (1 / 2, 0) (x, y))) (wrap r (placed refl r c P k s (1 / 2, 0) (x, g))) ≤ c * E := by
    intro x y g E hE
    have k1 := (C47_distances r hcut.radius (placed refl r c P k s (1 / 2, 0) (x, y)) (placed refl r c P k s (1 / 2, 0) (x, g))).2.1
    have k2 := (C46_placed_geometry refl r c P k s (1 / 2, 0) (x, y) (x, g) hcut.radius.ne' 0).2.1
    rw [abs_of_pos hc] at k2
    have k3 : dist2 (x, y) (x, g) = |y - g| := by simp [dist2, Real.sqrt_sq_eq_abs]
    rw [k3] at k2
    calc _ ≤ Real.sqrt _ := Real.sqrt_le_sqrt k1
      _ = c * |y - g| := k2
      _ ≤ c * E := by gcongr
  refine ⟨up, down, g1, g2, ?_⟩
  intro j hjn
  obtain ⟨u, d, hu, hd, e1, e2⟩ := hj j hjn
  obtain ⟨⟨u', hu', hau⟩, d', hd', had⟩ := hacc j (by omega)
  rw [hu] at hu'; rw [hd] at hd'
  obtain rfl := Option.some.inj hu'
  obtain rfl := Option.some.inj hd'
  exact ⟨_, _, e1, e2, near _ _ _ _ hau, near _ _ _ _ had⟩

/-- **C128** exactly, for foils whose surfaces are cubic polynomials, upper above lower and above the chord: a blade cut at radii `rs`, recovered and
rebuilt passes through the points of the original at all stations. -/
theorem C128_exact (american : Profile → Res Arr) (geom : ℝ → Res SectionGeom) (rs : Arr) (n : Int) (p : ReversePropeller)
    (h : ReversePropeller.new .bladeX interp1d geom (rs.map (1000 * ·)) n = .ok p) (hn : 2 ≤ n) (hne : rs ≠ []) (refl : Bool)
    (c P k s : ℝ → ℝ) (T B : ℝ → ℝ → Pt) (G : ℝ → SectionGeom) (pT pB : ℝ → Cubic)
    (hall : ∀ r ∈ rs, geom (1000 * r) = .ok (G r) ∧ Cut refl r (c r) (P r) (k r) (s r) (T r) (B r) (G r) ∧ 0 ≤ P r ∧ 0 < c r ∧
      GraphOf (pT r).eval (T r) ∧ GraphOf (pB r).eval (B r) ∧ ∀ x, 0 < x → x < 1 → 0 < (pT r).eval x ∧ (pB r).eval x ≤ (pT r).eval x) :
    ∃ b b', p.rebuildBlade american = .ok b ∧ b.applyTransformations refl = (b', .ok ()) ∧
    ∀ (i : Nat) (r : ℝ), rs[i]? = some r → ∃ up down, b'.coordsUp[rs.length - 1 - i]? = some up ∧ b'.coordsDown[rs.length - 1 - i]? = some down ∧
      up.length = n.toNat ∧ down.length = n.toNat ∧ ∀ j : Nat, (j : Int) < n →
        up[j]? = some (wrap r (placed refl r (c r) (P r) (k r) (s r) (1 / 2, 0) ((j : ℝ) / ((n : ℝ) - 1), (pT r).eval ((j : ℝ) / ((n : ℝ) - 1))))) ∧
        down[j]? = some (wrap r (placed refl r (c r) (P r) (k r) (s r) (1 / 2, 0) ((j : ℝ) / ((n : ℝ) - 1), (pB r).eval ((j : ℝ) / ((n : ℝ) - 1))))) := by
  have hcast : ((n.toNat : ℕ) : ℝ) = (n : ℝ) := by
    have : ((n.toNat : ℕ) : ℤ) = n := Int.toNat_of_nonneg (by omega)
    exact_mod_cast congrArg (fun z : ℤ => (z : ℝ)) this
  have key : ∀ (i : Nat) (r : ℝ) (S : Section), rs[i]? = some r → p.sections[i]? = some S → S.yup.length = n.toNat ∧
      (∀ j : Nat, j < n.toNat → S.yup[j]? = some ((pT r).eval ((j : ℝ) / ((n : ℝ) - 1))) ∧ S.ydown[j]? = some ((pB r).eval ((j : ℝ) / ((n : ℝ) - 1)))) ∧
      S.stored.pitch = P r ∧ S.stored.chord = c r ∧ S.stored.rake = k r ∧ S.stored.skewAngle = s r := by
    intro i r S hr hS
    obtain ⟨hG, hcut, hP, hc, hT, hB, hord⟩ := hall r (List.mem_of_getElem? hr)
    obtain ⟨S', hS', hsec⟩ := recovered h (i := i) (r := r) (by rw [List.getElem?_map, hr]; rfl) hG
    rw [hS] at hS'
    obtain rfl := Option.some.inj hS'
    obtain ⟨s1, s2, s3, s4, _⟩ := C60_section interp1d _ refl r _ _ _ _ _ S hcut.radius hcut.chord hcut.edges (Or.inl ⟨hcut.leading, hcut.trailing⟩) hsec
    obtain ⟨σ, _, l1, l2, hj, hσ, _⟩ := C115_exact _ refl r _ _ _ _ _ _ _ S hcut _ _ hT hB hsec
    obtain rfl := hσ fun x h0 h1 => (hord x h0 h1).1
    simp only [hcast, one_mul] at hj
    exact ⟨l1, hj, by rw [s1, abs_of_nonneg hP], by rw [s2, abs_of_pos hc], s3, s4⟩
  obtain ⟨_, hl, hsec⟩ := C72_sections .bladeX interp1d geom _ n p h
  have hO : ∀ S ∈ p.sections, S.Ordered := by
    intro S hS
    obtain ⟨i, hi⟩ := List.getElem?_of_mem hS
    have hi' : i < rs.length := by
      have := (List.getElem?_eq_some_iff.1 hi).1
      rw [hl] at this; simpa using this
    obtain ⟨l1, hj, _⟩ := key i _ S (List.getElem?_eq_getElem hi') hi
    obtain ⟨_, _, _, _, _, _, hord⟩ := hall _ (List.getElem_mem hi')
    intro j u d hj0 hj1 hu hd
    rw [(hsec S hS).1] at hj1
    obtain ⟨f1, f2⟩ := hj j (by omega)
    rw [f1] at hu; rw [f2] at hd
    rw [← Option.some.inj hu, ← Option.some.inj hd]
    have hj1' : (j : ℝ) + 1 < n := by rw [← hcast]; exact_mod_cast hj1
    have hj0' : (0 : ℝ) < j := by exact_mod_cast hj0
    exact (hord _ (div_pos hj0' (by linarith)) ((div_lt_one (by linarith)).2 (by linarith))).2
  obtain ⟨b, b', hb, hb', _, _, hst⟩ := C128_rebuilt american .bladeX interp1d geom _ n p h hn (by simpa using hne) (by
    intro R hR
    obtain ⟨r, hr, rfl⟩ := List.mem_map.1 hR
    have := (hall r hr).2.1.radius
    positivity) hO refl
  refine ⟨b, b', hb, hb', ?_⟩
  intro i r hr
  have hi : i < rs.length := (List.getElem?_eq_some_iff.1 hr).1
  have hi' : i < p.sections.length := by rw [hl]; simpa using hi
  have hS : p.sections[i]? = some p.sections[i] := List.getElem?_eq_getElem hi'
  obtain ⟨up, down, g1, g2, g3, g4, hj⟩ := hst i (1000 * r) _ (by rw [List.getElem?_map, hr]; rfl) hS
  obtain ⟨_, hv, s1, s2, s3, s4⟩ := key i r _ hr hS
  rw [s1, s2, s3, s4, show (1000 * r) / 1000 = r by ring] at hj
  rw [List.length_map] at g1 g2
  refine ⟨up, down, g1, g2, g3, g4, ?_⟩
  intro j hjn
  obtain ⟨u, d, hu, hd, e1, e2⟩ := hj j hjn
  obtain ⟨f1, f2⟩ := hv j (by omega)
  rw [f1] at hu; rw [f2] at hd
  rw [Option.some.inj hu, Option.some.inj hd]
  exact ⟨e1, e2⟩

/-- **C128** a section which lies below its chord is recovered upside down (C115), and can then not be rebuilt: `ValueError`, although the surfaces of the blade
did not cross. -/
theorem C128_upside_down (american : Profile → Res Arr) (geom : ℝ → Res SectionGeom) (radii : Arr) (n : Int) (p : ReversePropeller)
    (h : ReversePropeller.new .bladeX interp1d geom radii n = .ok p) (refl : Bool)
    (i : Nat) (r c P k s : ℝ) (T B : ℝ → Pt) (G : SectionGeom) (pT pB : Cubic) (hr : radii[i]? = some (1000 * r)) (hG : geom (1000 * r) = .ok G)
    (hcut : Cut refl r c P k s T B G) (hT : GraphOf pT.eval T) (hB : GraphOf pB.eval B) (hlow : ∀ x, 0 < x → x < 1 → pB.eval x < pT.eval x ∧ pT.eval x < 0) :
    p.rebuildSections american = .error .valueError ∧ p.rebuildBlade american = .error .valueError := by
  obtain ⟨S, hS, hsec⟩ := recovered h hr hG
  have hn4 : 4 ≤ n.toNat := by
    by_contra hlt
    have := (C115_too_few geom radii n p (by rintro rfl; simp at hr) h).1
    omega
  have hcast : ((n.toNat : ℕ) : ℝ) = (n : ℝ) := by
    have : ((n.toNat : ℕ) : ℤ) = n := Int.toNat_of_nonneg (by omega)
    exact_mod_cast congrArg (fun z : ℤ => (z : ℝ)) this
  obtain ⟨σ, _, l1, l2, hj, _, hσ⟩ := C115_exact _ refl r _ _ _ _ _ _ _ S hcut _ _ hT hB hsec
  obtain rfl := hσ fun x h0 h1 => (hlow x h0 h1).2
  refine (C128_accepts american .bladeX interp1d geom radii n p h (by omega)).2 ⟨S, List.mem_of_getElem? hS, ?_⟩
  intro hO
  obtain ⟨_, _, hsecs⟩ := C72_sections .bladeX interp1d geom radii n p h
  obtain ⟨f1, f2⟩ := hj 1 (by omega)
  have := hO 1 _ _ one_pos (by rw [(hsecs S (List.mem_of_getElem? hS)).1]; omega) f1 f2
  have hn4' : (4 : ℝ) ≤ (n.toNat : ℝ) := by exact_mod_cast hn4
  have := (hlow (((1 : ℕ) : ℝ) / ((n.toNat : ℝ) - 1)) (by push_cast; exact div_pos one_pos (by linarith)) (by push_cast; rw [div_lt_one (by linarith)]; linarith)).1
  linarith

/-- **C128** a left-handed blade (negative pitch) comes back right-handed: the axial distance between the edges of a rebuilt section is the opposite of that of the section which was
cut, and not zero. -/
theorem C128_left_handed (american : Profile → Res Arr) (geom : ℝ → Res SectionGeom) (radii : Arr) (n : Int) (p : ReversePropeller)
    (h : ReversePropeller.new .bladeX interp1d geom radii n = .ok p) (hn : 2 ≤ n) (h0 : ∀ R ∈ radii, R ≠ 0) (refl : Bool)
    (b b' : Blade) (hb : p.rebuildBlade american = .ok b) (hb' : b.applyTransformations refl = (b', .ok ()))
    (i : Nat) (r c P k s : ℝ) (T B : ℝ → Pt) (G : SectionGeom) (hr : radii[i]? = some (1000 * r)) (hG : geom (1000 * r) = .ok G)
    (hcut : Cut refl r c P k s T B G) (hP : P < 0) (hc : 0 < c) :
    ∃ up u v, b'.coordsUp[radii.length - 1 - i]? = some up ∧ up.head? = some u ∧ up.getLast? = some v ∧
      v.1 - u.1 = -((wrap r (placed refl r c P k s (1 / 2, 0) (1, 0))).1 - (wrap r (placed refl r c P k s (1 / 2, 0) (0, 0))).1) ∧ v.1 - u.1 ≠ 0 := by
  have hO : ∀ S ∈ p.sections, S.Ordered := by
    by_contra hno
    push_neg at hno
    rw [((C128_accepts american .bladeX interp1d geom radii n p h hn).2 hno).2] at hb
    cases hb
  have hne : radii ≠ [] := by rintro rfl; simp at hr
  obtain ⟨b1, b1', hb1, hb1', _, _, hall⟩ := C128_rebuilt american .bladeX interp1d geom radii n p h hn hne h0 hO refl
  rw [hb] at hb1
  obtain rfl := Except.ok.inj hb1
  rw [hb'] at hb1'
  obtain rfl := (Prod.mk.inj hb1').1
  obtain ⟨S, hS, hsec⟩ := recovered h hr hG
  obtain ⟨up, down, g1, g2, g3, _, hj⟩ := hall i _ S hr hS
  obtain ⟨s1, s2, s3, s4, _⟩ := C60_section interp1d _ refl r c P k s G S hcut.radius hcut.chord hcut.edges (Or.inl ⟨hcut.leading, hcut.trailing⟩) hsec
  rw [abs_of_neg hP] at s1
  rw [abs_of_pos hc] at s2
  rw [s1, s2, s3, s4, show (1000 * r) / 1000 = r by ring] at hj
  obtain ⟨_, _, hsecs⟩ := C72_sections .bladeX interp1d geom radii n p h
  obtain ⟨_, _, _, e4, _, e6, e7, _⟩ := hsecs S (List.mem_of_getElem? hS)
  rw [List.head?_eq_getElem?] at e6
  rw [List.getLast?_eq_getElem?, e4] at e7
  obtain ⟨u0, _, a1, _, a2, _⟩ := hj 0 (by omega)
  obtain ⟨u1, _, b1, _, b2, _⟩ := hj (n.toNat - 1) (by omega)
  rw [e6] at a1; rw [e7] at b1
  rw [← Option.some.inj a1] at a2
  rw [← Option.some.inj b1] at b2
  have hn1 : ((n : ℝ) - 1) ≠ 0 := by
    have : (2 : ℝ) ≤ n := by exact_mod_cast hn
    linarith
  have hx : (((n.toNat - 1 : ℕ)) : ℝ) / ((n : ℝ) - 1) = 1 := by
    have : (((n.toNat - 1 : ℕ)) : ℤ) = n - 1 := by omega
    have : (((n.toNat - 1 : ℕ)) : ℝ) = (n : ℝ) - 1 := by exact_mod_cast congrArg (fun z : ℤ => (z : ℝ)) this
    rw [this, div_self hn1]
  rw [hx] at b2
  rw [Nat.cast_zero, zero_div] at a2
  have hsin : Real.sin (Real.arctan (-P / (2 * Real.pi * r))) = -Real.sin (Real.arctan (P / (2 * Real.pi * r))) := by
    rw [neg_div, Real.arctan_neg, Real.sin_neg]
  have hpos : 0 < Real.sin (Real.arctan (-P / (2 * Real.pi * r))) := by
    have := hcut.radius
    rw [Real.sin_arctan]
    have : 0 < -P / (2 * Real.pi * r) := by
      have : 0 < -P := by linarith
      positivity
    positivity
  refine ⟨up, _, _, g1, by rw [List.head?_eq_getElem?]; exact a2, by rw [List.getLast?_eq_getElem?, g3]; exact b2, ?_, ?_⟩
  · cases refl
    · simp only [wrap, placed, hsin, Bool.false_eq_true, if_false]; ring
    · simp only [wrap, placed, hsin, if_true]; ring
  · have hpc : 0 < Real.sin (Real.arctan (-P / (2 * Real.pi * r))) * c := by positivity
    cases refl
    · simp only [wrap, placed, Bool.false_eq_true, if_false]
      intro h; apply hpc.ne'; linear_combination h
    · simp only [wrap, placed, if_true]
      intro h; apply hpc.ne'; linear_combination -h

/-! ### The hypotheses are met -/

/-- The parabola `a (x - x²)`, from the trailing edge to the leading edge. -/
def Sample.bow (a : ℝ) (t : ℝ) : Pt := (1 - t, a * ((1 - t) * t))

/-- A blade of radius 1, chord 1 and pitch `P` with parabolic surfaces is accepted, recovered, with 9 points; this object has one section. -/
theorem Sample.bow_ok {P a b : ℝ} (hP : P ≠ 0) (ha : |a| ≤ 1) (hb : |b| ≤ 1) :
    Cut true 1 1 P 0 0 (Sample.bow a) (Sample.bow b) (Sample.geom P (Sample.bow a) (Sample.bow b)) ∧
    (∀ a : ℝ, GraphOf (Cubic.mk 0 a (-a) 0).eval (Sample.bow a)) ∧ (∀ x : ℝ, 0 < x → x < 1 → 0 < x - x ^ 2) ∧
    (∀ x, (Cubic.mk 0 a (-a) 0).eval x = a * (x - x ^ 2)) ∧ (∀ x, (Cubic.mk 0 b (-b) 0).eval x = b * (x - x ^ 2)) ∧
    ∃ p, ReversePropeller.new .bladeX interp1d (fun _ => .ok (Sample.geom P (Sample.bow a) (Sample.bow b))) [1000 * 1] 9 = .ok p := by
  have hT : ∀ a : ℝ, |a| ≤ 1 → ∀ t ∈ Set.Icc (0 : ℝ) 1, (0 ≤ (Sample.bow a t).1 ∧ (Sample.bow a t).1 ≤ 1) ∧ |(Sample.bow a t).2| ≤ 1 := by
    intro a ha t ht
    refine ⟨⟨by simp only [Sample.bow]; linarith [ht.2], by simp only [Sample.bow]; linarith [ht.1]⟩, ?_⟩
    simp only [Sample.bow]
    have h0 := mul_nonneg (sub_nonneg.2 ht.2) ht.1
    rw [abs_mul, abs_of_nonneg h0]
    have : (1 - t) * t ≤ 1 := by nlinarith [ht.1, ht.2]
    exact mul_le_one₀ ha h0 this
  have hE : ∀ a : ℝ, EdgeToEdge (Sample.bow a) := fun a => Or.inl ⟨by simp [Sample.bow], by simp [Sample.bow]⟩
  have hcut := Sample.cut P (hT a ha) (hT b hb) (hE a) (hE b)
  obtain ⟨S, hS⟩ := Sample.accepted hP hcut (n := 9) (by norm_num) (by norm_num)
    (Sample.spread_of_mono (fun t ht => (hT a ha t ht).1) Sample.line_anti (by norm_num))
    (Sample.spread_of_mono (fun t ht => (hT b hb t ht).1) Sample.line_anti (by norm_num))
  refine ⟨hcut, ?_, fun x h0 h1 => by nlinarith, fun x => by simp only [Cubic.eval]; ring, fun x => by simp only [Cubic.eval]; ring, ?_⟩
  · intro a t ht
    refine ⟨by simp only [Sample.bow]; linarith [ht.2], by simp only [Sample.bow]; linarith [ht.1], ?_⟩
    simp only [Sample.bow, Cubic.eval]; ring
  · have h9 : section' .bladeX interp1d (9 : Int).toNat (1000 * 1) (Sample.geom P (Sample.bow a) (Sample.bow b)) = .ok S := hS
    simp only [ReversePropeller.new, show ¬ ((9 : Int) < 0) by norm_num, if_false, pure_bind, List.mapM_cons, List.mapM_nil, bind, Except.bind, h9, pure, Except.pure]
    exact ⟨_, rfl⟩

/-- A parabola over a flat surface is rebuilt through its own points (C128_accepts, C128_rebuilt, C128_exact). -/
example (american : Profile → Res Arr) : ∃ p b b', ReversePropeller.new .bladeX interp1d (fun _ => .ok (Sample.geom 2 (Sample.bow 1) (Sample.bow 0))) [1000 * 1] 9 = .ok p ∧
    p.rebuildBlade american = .ok b ∧ b.applyTransformations true = (b', .ok ()) := by
  obtain ⟨h1, h2, h3, h4, h5, p, hp⟩ := Sample.bow_ok (P := 2) (a := 1) (b := 0) two_ne_zero (by norm_num) (by norm_num)
  obtain ⟨b, b', hb, hb', _⟩ := C128_exact american _ [1] 9 p hp (by norm_num) (by simp) true (fun _ => 1) (fun _ => 2) (fun _ => 0) (fun _ => 0) (fun _ => Sample.bow 1)
    (fun _ => Sample.bow 0) (fun _ => Sample.geom 2 (Sample.bow 1) (Sample.bow 0)) (fun _ => Cubic.mk 0 1 (-1) 0) (fun _ => Cubic.mk 0 0 (-0) 0) (by
      intro r hr
      obtain rfl := List.mem_singleton.1 hr
      refine ⟨rfl, h1, by norm_num, one_pos, h2 1, h2 0, fun x x0 x1 => ?_⟩
      rw [h4, h5]
      have := h3 x x0 x1
      constructor <;> linarith)
  exact ⟨p, b, b', hp, hb, hb'⟩

/-- A foil below its chord is refused (C128_accepts, C128_upside_down). -/
example (american : Profile → Res Arr) : ∃ p, ReversePropeller.new .bladeX interp1d (fun _ => .ok (Sample.geom 2 (Sample.bow (-1 / 2)) (Sample.bow (-1)))) [1000 * 1] 9 = .ok p ∧
    p.rebuildBlade american = .error .valueError := by
  obtain ⟨h1, h2, h3, h4, h5, p, hp⟩ := Sample.bow_ok (P := 2) (a := -1 / 2) (b := -1) two_ne_zero (by norm_num [abs_le]) (by norm_num)
  refine ⟨p, hp, (C128_upside_down american _ _ 9 p hp true 0 1 1 2 0 0 _ _ _ _ _ rfl rfl h1 (h2 _) (h2 _) ?_).2⟩
  intro x x0 x1
  rw [h4, h5]
  have := h3 x x0 x1
  constructor <;> linarith

/-- A left-handed blade (C128_left_handed): the hypotheses are met by a parabola over a flat surface, pitch -2. -/
example (american : Profile → Res Arr) : ∃ p b b', ReversePropeller.new .bladeX interp1d (fun _ => .ok (Sample.geom (-2) (Sample.bow 1) (Sample.bow 0))) [1000 * 1] 9 = .ok p ∧
    Cut true 1 1 (-2) 0 0 (Sample.bow 1) (Sample.bow 0) (Sample.geom (-2) (Sample.bow 1) (Sample.bow 0)) ∧
    p.rebuildBlade american = .ok b ∧ b.applyTransformations true = (b', .ok ()) := by
  obtain ⟨h1, h2, h3, h4, h5, p, hp⟩ := Sample.bow_ok (P := -2) (a := 1) (b := 0) (by norm_num) (by norm_num) (by norm_num)
  obtain ⟨S, hS, hsec⟩ := recovered hp (i := 0) (r := 1) rfl rfl
  obtain ⟨_, hl, hsecs⟩ := C72_sections .bladeX interp1d _ _ 9 p hp
  obtain ⟨σ, _, l1, l2, hj, hσ, _⟩ := C115_exact _ true 1 _ _ _ _ _ _ _ S h1 _ _ (h2 1) (h2 0) hsec
  obtain rfl := hσ fun x x0 x1 => by rw [h4]; have := h3 x x0 x1; linarith
  obtain ⟨b, b', hb, hb', _⟩ := C128_rebuilt american .bladeX interp1d _ _ 9 p hp (by norm_num) (by simp) (by simp) (by
    intro S' hS'
    obtain ⟨i, hi⟩ := List.getElem?_of_mem hS'
    have : i = 0 := by have := (List.getElem?_eq_some_iff.1 hi).1; rw [hl] at this; simpa using this
    subst this
    rw [hS] at hi
    obtain rfl := Option.some.inj hi
    intro j u d hj0 hj1 hu hd
    rw [(hsecs S (List.mem_of_getElem? hS)).1] at hj1
    obtain ⟨f1, f2⟩ := hj j (by omega)
    rw [f1] at hu; rw [f2] at hd
    rw [← Option.some.inj hu, ← Option.some.inj hd, h4, h5]
    have hj1' : (j : ℝ) + 1 < 9 := by exact_mod_cast hj1
    have hj0' : (0 : ℝ) < j := by exact_mod_cast hj0
    have := h3 ((j : ℝ) / ((((9 : Int).toNat : ℕ) : ℝ) - 1)) (div_pos hj0' (by norm_num)) (by
      rw [show (9 : Int).toNat = 9 from rfl, div_lt_one (by norm_num)]; push_cast; linarith)
    linarith) true
  exact ⟨p, b, b', hp, h1, hb, hb'⟩

/-- The arc of a circle over a flat surface (C128_round_trip): all hypotheses, with 9 points. -/
example (american : Profile → Res Arr) : ∃ p b b', ReversePropeller.new .bladeX interp1d (fun _ => .ok (Sample.geom 2 Sample.arc Sample.flat)) [1000 * 1] 9 = .ok p ∧
    p.rebuildBlade american = .ok b ∧ b.applyTransformations true = (b', .ok ()) ∧ (∀ x, 0 < x → x < 1 → 0 < Sample.arcHeight x) ∧
    ∃ up, b'.coordsUp[0]? = some up ∧ ∀ j : Nat, (j : Int) < 9 → ∃ u, up[j]? = some u ∧
      distance3 u (wrap 1 (placed true 1 1 2 0 0 (1 / 2, 0) ((j : ℝ) / 8, Sample.arcHeight ((j : ℝ) / 8)))) ≤ 1 / 10 := by
  obtain ⟨S, hcut, gT, gB, sT, sB, kT, kB, hS⟩ := Sample.arc_ok 9 (by norm_num) (by norm_num)
  obtain ⟨p, hp⟩ : ∃ p, ReversePropeller.new .bladeX interp1d (fun _ => .ok (Sample.geom 2 Sample.arc Sample.flat)) [1000 * 1] 9 = .ok p := by
    have h9 : section' .bladeX interp1d (9 : Int).toNat (1000 * 1) (Sample.geom 2 Sample.arc Sample.flat) = .ok S := hS
    simp only [ReversePropeller.new, show ¬ ((9 : Int) < 0) by norm_num, if_false, pure_bind, List.mapM_cons, List.mapM_nil, bind, Except.bind, h9, pure, Except.pure]
    exact ⟨_, rfl⟩
  have hs3 : Real.sqrt 3 ≤ 1.7321 := by rw [Real.sqrt_le_left (by norm_num)]; norm_num
  have hs2 : Real.sqrt 2 ≤ 1.4143 := by rw [Real.sqrt_le_left (by norm_num)]; norm_num
  have hpi := Real.pi_lt_d4
  have hpi0 := Real.pi_pos
  have harc : ∀ x, 0 < x → x < 1 → 0 < Sample.arcHeight x := by
    intro x x0 x1
    have : Real.sqrt 3 / 2 < Real.sqrt (1 - (x - 1 / 2) ^ 2) := by
      rw [Real.lt_sqrt (by positivity), div_pow, Real.sq_sqrt (by norm_num)]
      nlinarith
    simp only [Sample.arcHeight]; linarith
  have hbound : (2 + 3 * Real.sqrt (1 + (1 : ℝ) ^ 2)) / 4 * 2 * (Real.pi / 3 / (((9 : ℕ) : ℝ) - 1)) ^ 2 ≤ 0.055 := by
    rw [show (1 + (1 : ℝ) ^ 2) = 2 by norm_num]
    have h1 : (Real.pi / 3 / (((9 : ℕ) : ℝ) - 1)) ^ 2 ≤ 0.01714 := by
      rw [show Real.pi / 3 / (((9 : ℕ) : ℝ) - 1) = Real.pi / 24 by push_cast; ring, div_pow]
      nlinarith
    have h2 : (2 + 3 * Real.sqrt 2) / 4 * 2 ≤ 3.1215 := by linarith
    have h3 := mul_le_mul h2 h1 (sq_nonneg _) (by norm_num)
    linarith
  obtain ⟨S', hS', hsec⟩ := recovered hp (i := 0) (r := 1) rfl rfl
  obtain rfl : S = S' := by
    have : sectionBladeX interp1d 9 (1000 * 1) (Sample.geom 2 Sample.arc Sample.flat) = .ok S' := hsec
    rw [hS] at this; exact Except.ok.inj this
  obtain ⟨_, hl, hsecs⟩ := C72_sections .bladeX interp1d _ _ 9 p hp
  obtain ⟨σ, _, hσ, _, hacc⟩ := C115_converges 9 true 1 1 2 0 0 _ _ _ S hcut _ _ gT gB _ _ _ _ _ _ (by positivity) one_pos sT sB kT kB hS
  obtain rfl := hσ harc
  obtain ⟨b, b', hb, hb', _⟩ := C128_rebuilt american .bladeX interp1d _ _ 9 p hp (by norm_num) (by simp) (by simp) (by
    intro S' hS''
    obtain ⟨i, hi⟩ := List.getElem?_of_mem hS''
    have : i = 0 := by have := (List.getElem?_eq_some_iff.1 hi).1; rw [hl] at this; simpa using this
    subst this
    rw [hS'] at hi
    obtain rfl := Option.some.inj hi
    intro j u d hj0 hj1 hu hd
    rw [(hsecs S (List.mem_of_getElem? hS')).1] at hj1
    have hj9 : j + 1 < 9 := hj1
    obtain ⟨⟨u', f1, a1⟩, d', f2, a2⟩ := hacc j (by omega)
    rw [f1] at hu; rw [f2] at hd
    obtain rfl := Option.some.inj hu
    obtain rfl := Option.some.inj hd
    have a1 := (abs_le.1 (a1.trans hbound)).1
    have a2 := (abs_le.1 (a2.trans (by norm_num : _ ≤ (0 : ℝ)))).2
    have hj1' : (j : ℝ) ≤ 7 := by exact_mod_cast (by omega : j ≤ 7)
    have hj0' : (1 : ℝ) ≤ j := by exact_mod_cast hj0
    have : 0.927 ≤ Real.sqrt (1 - ((j : ℝ) / (((9 : ℕ) : ℝ) - 1) - 1 / 2) ^ 2) := by
      apply Real.le_sqrt_of_sq_le
      push_cast
      nlinarith
    simp only [Sample.arcHeight] at a1
    linarith) true
  obtain ⟨up, down, g1, _, hj⟩ := C128_round_trip american _ _ 9 p hp (by norm_num) (by simp) true b b' hb hb' 0 1 1 2 0 0 _ _ _ rfl rfl hcut (by norm_num) one_pos
    _ _ gT gB _ _ _ _ _ _ (by positivity) one_pos sT sB kT kB harc
  refine ⟨p, b, b', hp, hb, hb', harc, up, g1, fun j hjn => ?_⟩
  obtain ⟨u, _, e1, _, e2, _⟩ := hj j hjn
  refine ⟨u, e1, ?_⟩
  have e9 : (((9 : Int)) : ℝ) - 1 = 8 := by norm_num
  have e9' : (((9 : ℕ)) : ℝ) - 1 = 8 := by norm_num
  rw [e9] at e2
  rw [e9'] at hbound
  linarith

end
end BladeX
