import Verif.Lemmas.Ieee

/-! # Blades with zero radii or without camber: what the loop and the cylinder do -/

namespace BladeX
noncomputable section
open Classical
namespace Ieee

theorem mapM_all_ok {k : α → Res β} {g : α → β} (l : List α) (h : ∀ a ∈ l, k a = .ok (g a)) : l.mapM k = .ok (l.map g) := by
  induction l with
  | nil => rfl
  | cons a l ih =>
    rw [List.mapM_cons, h a (by simp), ih fun a' h' => h a' (by simp [h'])]
    rfl

/-- One point laid on the cylinder. -/
def wrapI (rz : ℝ × Bool) (x y : Ieee) : Ieee × Ieee × Ieee :=
  (x, mul (fin rz.1) (sin (div rz.2 y (fin rz.1))), mul (fin rz.1) (cos (div rz.2 y (fin rz.1))))

/-- The radii with the signs of zeros. -/
def signed (z : Signs) (rs : Arr) : List (ℝ × Bool) := rs.mapIdx fun i r => (r, z.radius i)

theorem npStack_same {F : Coords} (hne : F ≠ []) {n : Nat} (h : ∀ a ∈ F, a.length = n) : npStack F = .ok F := by
  unfold npStack
  cases F with
  | nil => exact absurd rfl hne
  | cons a as =>
    exact if_pos fun c hc => by rw [h c (by simp [hc]), h a (by simp)]

theorem cylindrical_ok {z : Signs} {ss : List Foil} {rs : Arr} (hl : rs.length = ss.length) (hne : ss ≠ []) {n m : Nat}
    (h : ∀ F ∈ ss, F.xup.length = n ∧ F.yup.length = n ∧ F.xdown.length = m ∧ F.ydown.length = m) :
    cylindrical z ss rs = .ok ((List.zipWith (fun F rz => List.zipWith (wrapI rz) F.xup F.yup) ss (signed z rs)).reverse,
      (List.zipWith (fun F rz => List.zipWith (wrapI rz) F.xdown F.ydown) ss (signed z rs)).reverse) := by
  have hl' : (signed z rs).length = ss.length := by simp [signed, hl]
  have hz : List.zip ss.reverse (signed z rs).reverse = (List.zip ss (signed z rs)).reverse := by
    simp only [List.zip]
    exact (List.reverse_zipWith hl'.symm).symm
  have hmem : ∀ s ∈ (List.zip ss (signed z rs)).reverse, s.1 ∈ ss := fun s hs => (List.of_mem_zip (List.mem_reverse.1 hs)).1
  have hm : (List.zip ss (signed z rs)).reverse.mapM sectionCylinder = .ok ((List.zip ss (signed z rs)).reverse.map fun s =>
      (List.zipWith (wrapI s.2) s.1.xup s.1.yup, List.zipWith (wrapI s.2) s.1.xdown s.1.ydown)) := by
    refine mapM_all_ok _ fun s hs => ?_
    obtain ⟨h1, h2, h3, h4⟩ := h _ (hmem s hs)
    unfold sectionCylinder cylinder
    rw [h1, h2, h3, h4]
    simp only [ne_eq, not_true_eq_false, if_false]
    rfl
  have hup : ((List.zip ss (signed z rs)).reverse.map fun s =>
      (List.zipWith (wrapI s.2) s.1.xup s.1.yup, List.zipWith (wrapI s.2) s.1.xdown s.1.ydown)).map Prod.fst =
      (List.zipWith (fun F rz => List.zipWith (wrapI rz) F.xup F.yup) ss (signed z rs)).reverse := by
    rw [List.map_map, List.map_reverse, List.map_zip_eq_zipWith]; rfl
  have hdown : ((List.zip ss (signed z rs)).reverse.map fun s =>
      (List.zipWith (wrapI s.2) s.1.xup s.1.yup, List.zipWith (wrapI s.2) s.1.xdown s.1.ydown)).map Prod.snd =
      (List.zipWith (fun F rz => List.zipWith (wrapI rz) F.xdown F.ydown) ss (signed z rs)).reverse := by
    rw [List.map_map, List.map_reverse, List.map_zip_eq_zipWith]; rfl
  have hlen : ss.length ≠ 0 := fun e => hne (List.length_eq_zero_iff.1 e)
  have hm0 : ∀ (f : Foil → ℝ × Bool → List (Ieee × Ieee × Ieee)), (List.zipWith f ss (signed z rs)).reverse ≠ [] := by
    intro f e
    have := congrArg List.length e
    simp [hl'] at this
    exact hne this
  unfold cylindrical
  show (List.zip ss.reverse (signed z rs).reverse).mapM sectionCylinder >>= _ = _
  rw [hz, hm]
  show npStack (List.map Prod.snd _) >>= _ = _
  rw [hdown, npStack_same (hm0 _) (n := m)]
  · show npStack (List.map Prod.fst _) >>= _ = _
    rw [hup, npStack_same (hm0 _) (n := n)]
    · rfl
    · intro a ha
      rw [← hup, List.map_map] at ha
      obtain ⟨s, hs, rfl⟩ := List.mem_map.1 ha
      obtain ⟨h1, h2, _⟩ := h _ (hmem s hs)
      simp [h1, h2]
  · intro a ha
    rw [← hdown, List.map_map] at ha
    obtain ⟨s, hs, rfl⟩ := List.mem_map.1 ha
    obtain ⟨_, _, h1, h2⟩ := h _ (hmem s hs)
    simp [h1, h2]

/-- A section laid on a cylinder of radius zero. -/
theorem wrap_zero (z : Bool) (x y : Ieee) : wrapI (0, z) x y = (x, nan, nan) := by
  unfold wrapI
  have : ∃ t, div z y (fin 0) = t ∧ (t = nan ∨ ∃ s, t = inf s) := by
    cases y with
    | fin v =>
      by_cases hv : v = 0
      · exact ⟨nan, by simp [div, hv], .inl rfl⟩
      · exact ⟨inf (decide (v < 0) != z), by simp [div, hv], .inr ⟨_, rfl⟩⟩
    | inf s => exact ⟨inf (s != z), by simp [div], .inr ⟨_, rfl⟩⟩
    | nan => exact ⟨nan, rfl, .inl rfl⟩
  obtain ⟨t, ht, h⟩ := this
  simp only [ht]
  rcases h with rfl | ⟨s, rfl⟩ <;> rfl

/-- An ordinate that is not finite leaves no ordinate and height on any cylinder. -/
theorem wrap_wild (rz : ℝ × Bool) (x : Ieee) {y : Ieee} (hy : ¬ y.IsFinite) : wrapI rz x y = (x, nan, nan) := by
  unfold wrapI
  have : ∃ t, div rz.2 y (fin rz.1) = t ∧ (t = nan ∨ ∃ s, t = inf s) := by
    cases y with
    | fin v => exact absurd ⟨v, rfl⟩ hy
    | inf s =>
      by_cases hv : rz.1 = 0
      · exact ⟨inf (s != rz.2), by simp [div, hv], .inr ⟨_, rfl⟩⟩
      · exact ⟨inf (decide (rz.1 < 0) != s), by simp [div, hv], .inr ⟨_, rfl⟩⟩
    | nan => exact ⟨nan, rfl, .inl rfl⟩
  obtain ⟨t, ht, h⟩ := this
  simp only [ht]
  rcases h with rfl | ⟨s, rfl⟩ <;> rfl

theorem wrap_fin (r : ℝ) (z : Bool) (hr : r ≠ 0) (x y : ℝ) : wrapI (r, z) (fin x) (fin y) = pt (Spec.wrap r (x, y)) := by
  unfold wrapI
  rw [div_fin z hr]
  rfl

theorem sectionLoop_ok {z : Signs} {b : Blade} {refl : Bool} : ∀ (Ps : List Profile) (i : Nat) (Fs : List Foil),
    Fs.length = Ps.length → (∀ j P F, Ps[j]? = some P → Fs[j]? = some F → sectionRun z b refl (i + j) P = .ok F) →
    sectionLoop z b refl i Ps = .ok Fs := by
  intro Ps
  induction Ps with
  | nil =>
    intro i Fs hl _
    rw [List.length_eq_zero_iff.1 hl]; rfl
  | cons P Ps ih =>
    intro i Fs hl h
    cases Fs with
    | nil => simp at hl
    | cons F Fs =>
      unfold sectionLoop
      rw [show sectionRun z b refl i P = .ok F from h 0 P F rfl rfl]
      show sectionLoop z b refl (i + 1) Ps >>= _ = _
      rw [ih (i + 1) Fs (by simpa using hl) fun j P' F' h1 h2 => by
        have := h (j + 1) P' F' (by simpa using h1) (by simpa using h2)
        rwa [show i + 1 + j = i + (j + 1) by omega]]
      rfl

/-- The lengths that `rotate` accepts. -/
structure Foil.Good (F : Foil) (n m : Nat) : Prop where
  xup : F.xup.length = n
  yup : F.yup.length = n
  xdown : F.xdown.length = m
  ydown : F.ydown.length = m
  le : n ≤ m

theorem Foil.Good.reflect {F : Foil} {n m : Nat} (h : F.Good n m) : F.reflect.Good n m :=
  ⟨by simp [Foil.reflect, h.xup], by simp [Foil.reflect, h.yup], by simp [Foil.reflect, h.xdown], by simp [Foil.reflect, h.ydown], h.le⟩

theorem Foil.Good.translate {F : Foil} {n m : Nat} (h : F.Good n m) (v : Ieee × Ieee) : (F.translate v).Good n m :=
  ⟨by simp [Foil.translate, h.xup], by simp [Foil.translate, h.yup], by simp [Foil.translate, h.xdown], by simp [Foil.translate, h.ydown], h.le⟩

theorem Foil.rotate_ok {F : Foil} {n m : Nat} (h : F.Good n m) (a : Ieee) : F.rotate a = .ok
    ⟨(Foil.rotCols (cos a) (sin a) n F.xup F.yup).map Prod.fst, (Foil.rotCols (cos a) (sin a) n F.xdown F.ydown).map Prod.fst,
     (Foil.rotCols (cos a) (sin a) n F.xup F.yup).map Prod.snd, (Foil.rotCols (cos a) (sin a) n F.xdown F.ydown).map Prod.snd⟩ := by
  unfold Foil.rotate
  rw [h.xup, h.yup, h.xdown, h.ydown]
  simp only [ne_eq, not_true_eq_false, if_false, not_lt.2 h.le, pure_bind]
  rfl

theorem Foil.rotate_lengths {F G : Foil} {a : Ieee} (h : F.rotate a = .ok G) : F.Good F.xup.length F.xdown.length := by
  unfold Foil.rotate at h
  by_cases h1 : F.xup.length ≠ F.yup.length
  · simp [h1, bind, Except.bind, throw, throwThe, MonadExceptOf.throw] at h
  by_cases h2 : F.xdown.length ≠ F.ydown.length
  · simp [h1, h2, bind, Except.bind, throw, throwThe, MonadExceptOf.throw] at h
  by_cases h3 : F.xdown.length < F.xup.length
  · simp [h1, h2, h3, bind, Except.bind, throw, throwThe, MonadExceptOf.throw] at h
  push Not at h1 h2 h3
  exact ⟨rfl, h1.symm, rfl, h2.symm, h3⟩

theorem Foil.Good.rotate {F : Foil} {n m : Nat} (h : F.Good n m) (a : Ieee) : ∃ G, F.rotate a = .ok G ∧ G.Good n m := by
  refine ⟨_, Foil.rotate_ok h a, ?_⟩
  constructor <;> simp [Foil.rotCols, h.xup, h.yup, h.xdown, h.ydown, h.le]

/-- The last four statements of the loop body. -/
theorem tail_form {z : Signs} {b : Blade} {refl : Bool} {i : Nat} {p r s k : ℝ} (hp : b.pitch[i]? = some p) (hr : b.radii[i]? = some r)
    (hs : b.skew[i]? = some s) (hk : b.rake[i]? = some k) (F : Foil) :
    tailSteps z b refl i F = ((if refl then F.reflect else F).rotate (sub (fin (Real.pi / 2)) (pitchAngle (z.radius i) p r)) >>= fun G =>
      .ok ((G.translate (fin 0, fin (-(r * radians s Real.pi)))).translate
        (neg (add (fin k) (inducedRake (z.radius i) p r s)), fin 0))) := by
  unfold tailSteps
  rw [Blade.getIdx_ok.2 hp, Blade.getIdx_ok.2 hr, Blade.getIdx_ok.2 hs, Blade.getIdx_ok.2 hk]
  rfl

theorem tail_good {z : Signs} {b : Blade} {refl : Bool} {i : Nat} {p r s k : ℝ} (hp : b.pitch[i]? = some p) (hr : b.radii[i]? = some r)
    (hs : b.skew[i]? = some s) (hk : b.rake[i]? = some k) {F : Foil} {n m : Nat} (h : F.Good n m) :
    ∃ G, (if refl then F.reflect else F).rotate (sub (fin (Real.pi / 2)) (pitchAngle (z.radius i) p r)) = .ok G ∧ G.Good n m ∧
      tailSteps z b refl i F = .ok ((G.translate (fin 0, fin (-(r * radians s Real.pi)))).translate
        (neg (add (fin k) (inducedRake (z.radius i) p r s)), fin 0)) := by
  have h' : (if refl then F.reflect else F).Good n m := by
    cases refl
    · exact h
    · exact h.reflect
  obtain ⟨G, hG, hg⟩ := h'.rotate (sub (fin (Real.pi / 2)) (pitchAngle (z.radius i) p r))
  exact ⟨G, hG, hg, by rw [tail_form hp hr hs hk, hG]; rfl⟩

theorem tail_lengths {z : Signs} {b : Blade} {refl : Bool} {i : Nat} {p r s k : ℝ} (hp : b.pitch[i]? = some p) (hr : b.radii[i]? = some r)
    (hs : b.skew[i]? = some s) (hk : b.rake[i]? = some k) {F G : Foil} (h : tailSteps z b refl i F = .ok G) :
    ∃ n m, F.Good n m ∧ G.Good n m := by
  rw [tail_form hp hr hs hk] at h
  obtain ⟨E, hE, h⟩ := Profile.bndA.1 h
  have hg := Foil.rotate_lengths hE
  have hF : F.Good F.xup.length F.xdown.length := by
    cases refl
    · exact hg
    · simp only [if_true] at hg
      have h1 := hg.yup; have h2 := hg.ydown; have h3 := hg.le
      simp only [Foil.reflect, List.length_map] at h1 h2 h3
      exact ⟨rfl, h1, rfl, h2, h3⟩
  obtain ⟨G', hG', hgood, ht⟩ := tail_good (z := z) (refl := refl) hp hr hs hk hF
  rw [hG'] at hE
  obtain rfl := Except.ok.inj hE
  obtain rfl := Except.ok.inj h
  exact ⟨_, _, hF, (hgood.translate _).translate _⟩

theorem ofProfile_finite (P : Profile) : ∀ x ∈ (ofProfile P).xup ++ (ofProfile P).xdown, x.IsFinite := by
  intro x hx
  simp only [ofProfile, List.mem_append, List.mem_map] at hx
  rcases hx with ⟨y, _, rfl⟩ | ⟨y, _, rfl⟩ <;> exact ⟨y, rfl⟩

/-- A section of radius zero before it is laid on the cylinder. -/
theorem tail_zero {z : Signs} {b : Blade} {refl : Bool} {i : Nat} {p s k : ℝ} (hp : b.pitch[i]? = some p) (hr : b.radii[i]? = some 0)
    (hs : b.skew[i]? = some s) (hk : b.rake[i]? = some k) {H : Profile} {n m : Nat} (h : (ofProfile H).Good n m) :
    ∃ F, tailSteps z b refl i (ofProfile H) = .ok F ∧ F.Good n m ∧
      (p ≠ 0 → ∀ x ∈ F.xup ++ F.xdown, x.IsFinite) ∧ (p = 0 → ∀ x ∈ F.xup ++ F.xdown, x = nan) := by
  obtain ⟨G, hG, hg, ht⟩ := tail_good (z := z) (refl := refl) hp hr hs hk h
  refine ⟨_, ht, (hg.translate _).translate _, fun h0 => ?_, fun h0 => ?_⟩
  · have ha : ∃ t, pitchAngle (z.radius i) p 0 = fin t := by
      unfold pitchAngle
      simp only [div, mul_zero, if_true, h0, if_false]
      exact ⟨_, rfl⟩
    obtain ⟨t, ht⟩ := ha
    have hir : ∃ v, inducedRake (z.radius i) p 0 s = fin v := by
      unfold inducedRake
      rw [ht]
      exact ⟨_, rfl⟩
    obtain ⟨v, hv⟩ := hir
    have hrefl : (if refl then (ofProfile H).reflect else ofProfile H) = ofProfile (if refl then H.reflect else H) := by
      cases refl
      · rfl
      · exact reflect_fin H
    rw [ht, hrefl] at hG
    have hG' : (ofProfile (if refl then H.reflect else H)).rotate (fin (Real.pi / 2 - t)) = .ok G := hG
    have hag := rotate_agrees (if refl then H.reflect else H) (Real.pi / 2 - t)
    rw [hG'] at hag
    have : ∃ E, G = ofProfile E := by
      rcases hE : Profile.rotate (if refl then H.reflect else H) (some (Real.pi / 2 - t)) none with e | E
      · rw [hE] at hag
        by_cases hn : e = .nonFinite
        · exfalso
          subst hn
          unfold Profile.rotate at hE
          simp only [Option.isSome_none, and_false, if_false, pure_bind, Bool.false_eq_true] at hE
          repeat' (split at hE <;> try (cases hE))
        · have := hag.raises e rfl hn
          cases this
      · rw [hE] at hag
        exact ⟨E, Except.ok.inj (hag.returns E rfl)⟩
    obtain ⟨E, rfl⟩ := this
    rw [hv]
    have e1 := translate_fin E (0, -(0 * radians s Real.pi))
    simp only at e1
    rw [e1]
    have e2 := translate_fin (E.translate (0, -(0 * radians s Real.pi))) (-(k + v), 0)
    simp only at e2
    rw [show neg (add (fin k) (fin v)) = fin (-(k + v)) from rfl, e2]
    exact ofProfile_finite _
  · have hnan : neg (add (fin k) (inducedRake (z.radius i) p 0 s)) = nan := by
      subst h0
      simp [inducedRake, pitchAngle, div, arctan, tan, mul, add, neg]
    rw [hnan]
    have hadd : ∀ y : Ieee, add y nan = nan := by intro y; cases y <;> rfl
    intro x hx
    simp only [Foil.translate, List.mem_append, List.mem_map] at hx
    rcases hx with ⟨y, _, rfl⟩ | ⟨y, _, rfl⟩ <;> exact hadd _

end Ieee
end
end BladeX
