import Verif.Model.Propeller
import Verif.Props.BladeMotion
import Verif.Lemmas.Ppg

/-! # C55 - C57 (first part): propellers -/

namespace BladeX
noncomputable section
open Spec Classical

namespace Propeller
variable {σ β τ υ : Type}

theorem turned_ok {b : Blade} (hc : b.HasCoords) (hF : b.HasFaces) (n : Int) (i : Nat) :
    ∃ b', turned b n i = .ok b' ∧ b.coordsMoved (rotX (2 * Real.pi * i / n)) b' ∧ b.facesMoved (rotX (2 * Real.pi * i / n)) b' ∧
      b'.sections = b.sections := by
  obtain ⟨b', h1, h2, h3, h4⟩ := (C49_rotate b none (some (i * 2.0 * Real.pi / (n : ℝ))) (i * 2.0 * Real.pi / (n : ℝ)) hc hF rfl).1
  have e : (i * 2.0 * Real.pi / (n : ℝ)) = 2 * Real.pi * i / n := by norm_num; ring
  rw [e] at h2 h3
  refine ⟨b', ?_, h2, h3, h4⟩
  unfold turned
  rw [h1]

end Propeller

/-- **C55** the constructor builds the blade it is given (whatever that raises it raises too) and then never fails: there are `n` blades
(none for `n ≤ 0`), the blade `i` being the built one rotated by `2 pi i / n` about the `x` axis, coordinates and faces alike. -/
theorem C55_blades {τ υ : Type} (occ : Face → Bool) (b B : Blade) (n : Int) (refl : Bool) :
    (∀ e, b.build occ refl = (B, .error e) → (Propeller.new occ b n refl : Blade × Res (Propeller τ υ)) = (B, .error e)) ∧
    (b.build occ refl = (B, .ok ()) → ∃ p : Propeller τ υ, Propeller.new occ b n refl = (B, .ok p) ∧ p.blades.length = n.toNat ∧
      p.solidCache = none ∧ p.shapeCache = none ∧
      ∀ (i : Nat) (bi : Blade), p.blades[i]? = some bi →
        B.coordsMoved (rotX (2 * Real.pi * i / n)) bi ∧ B.facesMoved (rotX (2 * Real.pi * i / n)) bi ∧ bi.sections = B.sections) := by
  constructor
  · intro e h
    unfold Propeller.new
    rw [h]
  · intro h
    obtain ⟨hc, hF⟩ := Blade.build_has h
    have hall := fun i => Propeller.turned_ok hc hF n i
    choose g hg using hall
    have hm : (List.range n.toNat).mapM (Propeller.turned B n) = .ok ((List.range n.toNat).map g) :=
      Blade.mapM_range_of fun i _ => (hg i).1
    refine ⟨{ blades := (List.range n.toNat).map g, solidCache := none, shapeCache := none }, ?_, by simp, rfl, rfl, ?_⟩
    · unfold Propeller.new
      rw [h]
      simp only [hm]
    · intro i bi hi
      obtain ⟨hlt, he⟩ := List.getElem?_eq_some_iff.1 hi
      simp only [List.getElem_map, List.getElem_range] at he
      subst he
      exact (hg i).2

/-- All points of the stored coordinates of all blades. -/
def Propeller.points {τ υ : Type} (p : Propeller τ υ) : Set Pt3 :=
  {q | ∃ b ∈ p.blades, ∃ l, (l ∈ b.coordsUp ∨ l ∈ b.coordsDown) ∧ q ∈ l}

/-- All points of all faces of all blades. -/
def Propeller.facePoints {τ υ : Type} (p : Propeller τ υ) : Set Pt3 :=
  {q | ∃ b ∈ p.blades, ∃ F, (b.upper = some F ∨ b.lower = some F ∨ b.tip = some F ∨ b.root = some F) ∧ ∃ l ∈ F, q ∈ l}

theorem Propeller.rotX_period (t : ℝ) (k : ℤ) (p : Pt3) : rotX (t + k * (2 * Real.pi)) p = rotX t p := by
  simp only [rotX, Real.cos_add_int_mul_two_pi, Real.sin_add_int_mul_two_pi]

/-- **C55** the propeller is `n`-fold symmetric: turning all its points, or all its faces, by `2 pi / n` about the `x` axis gives the same
set of points; the same holds for any multiple. -/
theorem C55_symmetric {τ υ : Type} (occ : Face → Bool) (b B : Blade) (n : Int) (hn : 0 < n) (refl : Bool) (p : Propeller τ υ)
    (h : Propeller.new occ b n refl = (B, .ok p)) (m : ℤ) :
    rotX (2 * Real.pi * m / n) '' p.points = p.points ∧ rotX (2 * Real.pi * m / n) '' p.facePoints = p.facePoints := by
  have hb : b.build occ refl = (B, .ok ()) := by
    rcases hx : b.build occ refl with ⟨B', (e | u)⟩
    · rw [((C55_blades occ b B' n refl).1 e hx)] at h
      cases (Prod.mk.inj h).2
    · obtain ⟨p', h', _⟩ := (C55_blades (τ := τ) (υ := υ) occ b B' n refl).2 hx
      rw [h] at h'
      rw [(Prod.mk.inj h').1]
  obtain ⟨p', h', hlen, _, _, hall⟩ := (C55_blades (τ := τ) (υ := υ) occ b B n refl).2 hb
  obtain rfl : p = p' := by rw [h] at h'; exact Except.ok.inj (Prod.mk.inj h').2
  have hn0 : (n : ℝ) ≠ 0 := by exact_mod_cast hn.ne'
  -- every integer multiple of the angle is that of a blade
  have exi : ∀ z : ℤ, ∃ (i : Nat) (bi : Blade), i < n.toNat ∧ p.blades[i]? = some bi ∧
      ∀ q, rotX (2 * Real.pi * z / n) q = rotX (2 * Real.pi * i / n) q := by
    intro z
    have h0 := Int.emod_nonneg z hn.ne'
    have h1 := Int.emod_lt_of_pos z hn
    have hi : (z % n).toNat < n.toNat := by omega
    refine ⟨(z % n).toNat, p.blades[(z % n).toNat]'(by omega), hi, List.getElem?_eq_getElem _, ?_⟩
    intro q
    have hz : (z : ℝ) = ((z % n).toNat : ℝ) + (n : ℝ) * ((z / n : ℤ) : ℝ) := by
      have e1 : ((z % n).toNat : ℝ) = ((z % n : ℤ) : ℝ) := by
        rw [← Int.cast_natCast, Int.toNat_of_nonneg h0]
      have e2 : ((z : ℤ) : ℝ) = ((z % n : ℤ) : ℝ) + (n : ℝ) * ((z / n : ℤ) : ℝ) := by
        rw [← Int.cast_mul, ← Int.cast_add, Int.emod_add_mul_ediv]
      rw [e2, ← e1]
    rw [← Propeller.rotX_period (2 * Real.pi * ((z % n).toNat : ℝ) / n) (z / n) q]
    congr 1
    rw [hz]; field_simp
  have comp : ∀ (i : Nat) q, rotX (2 * Real.pi * m / n) (rotX (2 * Real.pi * i / n) q) = rotX (2 * Real.pi * ((m + i : ℤ) : ℝ) / n) q := by
    intro i q
    rw [(C49_rotations _ _ q q).1.2.2.1]
    congr 1; push_cast; ring
  -- a general statement about the points of blades
  have key : ∀ (sel : Blade → Set (List Pt3)), (∀ (bi : Blade) t, B.coordsMoved (rotX t) bi → B.facesMoved (rotX t) bi →
      sel bi = (fun l => l.map (rotX t)) '' sel B) → ∀ S : Set Pt3, (∀ q, q ∈ S ↔ ∃ b ∈ p.blades, ∃ l ∈ sel b, q ∈ l) →
      ∀ m' : ℤ, rotX (2 * Real.pi * m' / n) '' S ⊆ S := by
    intro sel hsel S hS m'
    rintro _ ⟨q, hq, rfl⟩
    obtain ⟨bi, hbi, l, hl, hql⟩ := (hS q).1 hq
    obtain ⟨i, hi⟩ := List.getElem?_of_mem hbi
    obtain ⟨c1, c2, _⟩ := hall i bi hi
    rw [hsel bi _ c1 c2] at hl
    obtain ⟨l0, hl0, rfl⟩ := hl
    obtain ⟨q0, hq0, rfl⟩ := List.mem_map.1 hql
    obtain ⟨j, bj, _, hj, ej⟩ := exi (m' + i)
    obtain ⟨d1, d2, _⟩ := hall j bj hj
    refine (hS _).2 ⟨bj, List.mem_of_getElem? hj, l0.map (rotX (2 * Real.pi * j / n)), ?_, ?_⟩
    · rw [hsel bj _ d1 d2]; exact ⟨l0, hl0, rfl⟩
    · refine List.mem_map.2 ⟨q0, hq0, ?_⟩
      rw [← ej, (C49_rotations _ _ q0 q0).1.2.2.1]
      congr 1; push_cast; ring
  have both : ∀ (sel : Blade → Set (List Pt3)), (∀ (bi : Blade) t, B.coordsMoved (rotX t) bi → B.facesMoved (rotX t) bi →
      sel bi = (fun l => l.map (rotX t)) '' sel B) → ∀ S : Set Pt3, (∀ q, q ∈ S ↔ ∃ b ∈ p.blades, ∃ l ∈ sel b, q ∈ l) →
      rotX (2 * Real.pi * m / n) '' S = S := by
    intro sel hsel S hS
    apply Set.Subset.antisymm (key sel hsel S hS m)
    intro q hq
    refine ⟨rotX (2 * Real.pi * ((-m : ℤ) : ℝ) / n) q, key sel hsel S hS (-m) ⟨q, hq, rfl⟩, ?_⟩
    have := (C49_rotations 0 (-(2 * Real.pi * m / n)) q q).1.2.2.2
    rw [neg_neg] at this
    rw [← this]
    congr 2; push_cast; ring
  constructor
  · refine both (fun b => {l | l ∈ b.coordsUp ∨ l ∈ b.coordsDown}) ?_ _ ?_
    · rintro bi t ⟨h1, h2⟩ _
      ext l
      simp only [h1, h2, Set.mem_setOf_eq, List.mem_map, Set.mem_image]
      constructor
      · rintro (⟨a, ha, rfl⟩ | ⟨a, ha, rfl⟩)
        · exact ⟨a, Or.inl ha, rfl⟩
        · exact ⟨a, Or.inr ha, rfl⟩
      · rintro ⟨a, ha | ha, rfl⟩
        · exact Or.inl ⟨a, ha, rfl⟩
        · exact Or.inr ⟨a, ha, rfl⟩
    · intro q; rfl
  · refine both (fun b => {l | ∃ F, (b.upper = some F ∨ b.lower = some F ∨ b.tip = some F ∨ b.root = some F) ∧ l ∈ F}) ?_ _ ?_
    · rintro bi t _ ⟨h1, h2, h3, h4⟩
      ext l
      simp only [h1, h2, h3, h4, Set.mem_setOf_eq, Option.map_eq_some_iff, Set.mem_image]
      constructor
      · rintro ⟨F, (⟨G, hG, rfl⟩ | ⟨G, hG, rfl⟩ | ⟨G, hG, rfl⟩ | ⟨G, hG, rfl⟩), hl⟩ <;>
          obtain ⟨a, ha, rfl⟩ := List.mem_map.1 hl
        · exact ⟨a, ⟨G, Or.inl hG, ha⟩, rfl⟩
        · exact ⟨a, ⟨G, Or.inr (Or.inl hG), ha⟩, rfl⟩
        · exact ⟨a, ⟨G, Or.inr (Or.inr (Or.inl hG)), ha⟩, rfl⟩
        · exact ⟨a, ⟨G, Or.inr (Or.inr (Or.inr hG)), ha⟩, rfl⟩
      · rintro ⟨a, ⟨G, (hG | hG | hG | hG), ha⟩, rfl⟩
        · exact ⟨_, Or.inl ⟨G, hG, rfl⟩, List.mem_map.2 ⟨a, ha, rfl⟩⟩
        · exact ⟨_, Or.inr (Or.inl ⟨G, hG, rfl⟩), List.mem_map.2 ⟨a, ha, rfl⟩⟩
        · exact ⟨_, Or.inr (Or.inr (Or.inl ⟨G, hG, rfl⟩)), List.mem_map.2 ⟨a, ha, rfl⟩⟩
        · exact ⟨_, Or.inr (Or.inr (Or.inr ⟨G, hG, rfl⟩)), List.mem_map.2 ⟨a, ha, rfl⟩⟩
    · intro q
      constructor
      · rintro ⟨b, hb, F, hF, l, hl, hq⟩
        exact ⟨b, hb, l, ⟨F, hF, hl⟩, hq⟩
      · rintro ⟨b, hb, l, ⟨F, hF, hl⟩, hq⟩
        exact ⟨b, hb, F, hF, l, hl, hq⟩

example : ∃ (p : Propeller Unit Unit) (B : Blade), Propeller.new (fun _ => true) Sample.blade2 5 true = (B, .ok p) ∧ p.blades.length = 5 ∧
    p.points.Nonempty := by
  obtain ⟨B, h, hF, hc⟩ := Sample.blade2_builds true
  obtain ⟨p, hp, hlen, _, _, hall⟩ := (C55_blades (τ := Unit) (υ := Unit) (fun _ => true) Sample.blade2 B 5 true).2 h
  refine ⟨p, B, hp, by simpa using hlen, ?_⟩
  have hW : Sample.blade2.WellFormed := by simp [Sample.blade2, Blade.WellFormed]
  have h0 : p.blades[0]? = some (p.blades[0]'(by rw [hlen]; decide)) := List.getElem?_eq_getElem _
  obtain ⟨⟨c1, _⟩, _⟩ := hall 0 _ h0
  obtain ⟨b₁, h1⟩ := Sample.blade2_applies true
  obtain ⟨_, _, hrev⟩ := C48_reversed Sample.blade2 b₁ true hW h1
  obtain ⟨hl, _, hpl⟩ := C46_placed Sample.blade2 b₁ true hW rfl rfl (by simp [Sample.blade2, Sample.foil_uniform]) h1
  obtain ⟨ref, Q, _, _, e, hu, _⟩ := hpl 0 Sample.foil 1 1 2 0 0 rfl rfl rfl rfl rfl rfl
  obtain ⟨e1, _⟩ := hrev 0 Q 1 e rfl
  have hB : B.coordsUp = b₁.coordsUp := by
    unfold Blade.build at h
    rw [h1] at h
    simp only at h
    repeat' split at h
    all_goals first
      | (cases (Prod.mk.inj h).2; done)
      | (rw [← (Prod.mk.inj h).1])
  have hmem : (Q.upper.map (wrap 1)) ∈ B.coordsUp := by rw [hB]; exact List.mem_of_getElem? e1
  have hne : ∃ q, q ∈ Q.upper.map (wrap 1) := by
    rw [hu]
    exact ⟨_, by simp only [Sample.foil, Profile.upper, List.zip_cons_cons, List.map_cons]; exact List.mem_cons_self⟩
  obtain ⟨q, hq⟩ := hne
  exact ⟨_, _, List.mem_of_getElem? h0, _, Or.inl (by rw [c1]; exact List.mem_map.2 ⟨_, hmem, rfl⟩), List.mem_map.2 ⟨q, hq, rfl⟩⟩

/-! ## C56: the caller's blade, cached shapes -/

/-- **C56** constructing a propeller leaves the blade of the caller exactly as `build` leaves it, for any number of blades: the rotations
act on copies. Constructing a second propeller from it builds it again (see C52). -/
theorem C56_base_blade {τ υ : Type} (occ : Face → Bool) (b : Blade) (n : Int) (refl : Bool) :
    (Propeller.new occ b n refl : Blade × Res (Propeller τ υ)).1 = (b.build occ refl).1 := by
  rcases hx : b.build occ refl with ⟨B', (e | u)⟩
  · rw [(C55_blades occ b B' n refl).1 e hx]
  · obtain ⟨p', h', _⟩ := (C55_blades (τ := τ) (υ := υ) occ b B' n refl).2 hx
    rw [h']

/-- What can happen to a propeller between and including accesses: the attribute `solid` or `shape` is read (with a kernel and a shaft that
may behave differently every time), or the blades are changed in any way. -/
inductive Propeller.Op (σ β τ υ : Type)
  | solid (K : Kernel σ β τ υ) (shaft : Res σ)
  | shape (K : Kernel σ β τ υ) (shaft : Res σ)
  | change (f : List Blade → List Blade)

/-- What an event gives to the caller. -/
inductive Propeller.Out (τ υ : Type)
  | solid (r : Res τ)
  | shape (r : Res υ)
  | nothing

/-- One event. -/
def Propeller.step {σ β τ υ : Type} (p : Propeller τ υ) : Propeller.Op σ β τ υ → Propeller τ υ × Propeller.Out τ υ
  | .solid K shaft => ((p.solid K shaft).1, .solid (p.solid K shaft).2)
  | .shape K shaft => ((p.shape K shaft).1, .shape (p.shape K shaft).2)
  | .change f => ({ p with blades := f p.blades }, .nothing)

/-- What a history gives to the caller. -/
def Propeller.outs {σ β τ υ : Type} : Propeller τ υ → List (Propeller.Op σ β τ υ) → List (Propeller.Out τ υ)
  | _, [] => []
  | p, op :: ops => (p.step op).2 :: Propeller.outs (p.step op).1 ops

namespace Propeller
variable {σ β τ υ : Type}

theorem step_cached_solid (p : Propeller τ υ) (s : τ) (h : p.solidCache = some s) (op : Op σ β τ υ) :
    (p.step op).1.solidCache = some s ∧ (∀ r, (p.step op).2 = .solid r → r = .ok s) := by
  cases op with
  | solid K sh =>
    simp only [step, Propeller.solid, h]
    exact ⟨trivial, by intro r hr; cases hr; rfl⟩
  | shape K sh =>
    simp only [step, Propeller.shape]
    refine ⟨?_, by intro r hr; cases hr⟩
    split
    · exact h
    · simp only [Propeller.solid, h]
  | change f => exact ⟨h, by intro r hr; cases hr⟩

theorem step_cached_shape (p : Propeller τ υ) (s : υ) (h : p.shapeCache = some s) (op : Op σ β τ υ) :
    (p.step op).1.shapeCache = some s ∧ (∀ r, (p.step op).2 = .shape r → r = .ok s) := by
  cases op with
  | solid K sh =>
    simp only [step]
    refine ⟨?_, by intro r hr; cases hr⟩
    simp only [Propeller.solid]
    split
    · exact h
    · split <;> exact h
  | shape K sh =>
    simp only [step, Propeller.shape, h]
    exact ⟨trivial, by intro r hr; cases hr; rfl⟩
  | change f => exact ⟨h, by intro r hr; cases hr⟩

theorem outs_cached_solid (p : Propeller τ υ) (s : τ) (h : p.solidCache = some s) (ops : List (Op σ β τ υ)) :
    ∀ r, .solid r ∈ p.outs ops → r = .ok s := by
  induction ops generalizing p with
  | nil => intro r hr; cases hr
  | cons op ops ih =>
    intro r hr
    obtain ⟨h1, h2⟩ := step_cached_solid p s h op
    simp only [outs, List.mem_cons] at hr
    rcases hr with hr | hr
    · exact h2 r hr.symm
    · exact ih _ h1 r hr

theorem outs_cached_shape (p : Propeller τ υ) (s : υ) (h : p.shapeCache = some s) (ops : List (Op σ β τ υ)) :
    ∀ r, .shape r ∈ p.outs ops → r = .ok s := by
  induction ops generalizing p with
  | nil => intro r hr; cases hr
  | cons op ops ih =>
    intro r hr
    obtain ⟨h1, h2⟩ := step_cached_shape p s h op
    simp only [outs, List.mem_cons] at hr
    rcases hr with hr | hr
    · exact h2 r hr.symm
    · exact ih _ h1 r hr

end Propeller

/-- **C56** over every history, once an access of `solid` (or of `shape`) has succeeded, every later one succeeds with the very same result,
whatever has happened to blades, shaft file and kernel in between. -/
theorem C56_cached {σ β τ υ : Type} (p : Propeller τ υ) (ops₁ ops₂ : List (Propeller.Op σ β τ υ)) :
    (∀ K shaft s, (p.outs (ops₁ ++ [.solid K shaft])).getLast? = some (.solid (.ok s)) →
      ∀ r, .solid r ∈ (p.outs (ops₁ ++ .solid K shaft :: ops₂)).drop ops₁.length → r = .ok s) ∧
    (∀ K shaft s, (p.outs (ops₁ ++ [.shape K shaft])).getLast? = some (.shape (.ok s)) →
      ∀ r, .shape r ∈ (p.outs (ops₁ ++ .shape K shaft :: ops₂)).drop ops₁.length → r = .ok s) := by
  induction ops₁ generalizing p with
  | nil =>
    constructor
    · intro K sh s h r hr
      simp only [List.nil_append, Propeller.outs, List.getLast?_singleton, Option.some.injEq, Propeller.step,
        Propeller.Out.solid.injEq] at h
      simp only [List.nil_append, List.length_nil, List.drop_zero, Propeller.outs, List.mem_cons, Propeller.step,
        Propeller.Out.solid.injEq] at hr
      rcases hr with hr | hr
      · rw [hr, h]
      · refine Propeller.outs_cached_solid _ s ?_ ops₂ r hr
        simp only [Propeller.solid] at h ⊢
        rcases hc : p.solidCache with _ | s'
        · rw [hc] at h
          simp only at h ⊢
          split at h
          · rename_i x hx
            cases h
            rfl
          · cases h
        · rw [hc] at h
          simp only at h ⊢
          cases h
          exact hc
    · intro K sh s h r hr
      simp only [List.nil_append, Propeller.outs, List.getLast?_singleton, Option.some.injEq, Propeller.step,
        Propeller.Out.shape.injEq] at h
      simp only [List.nil_append, List.length_nil, List.drop_zero, Propeller.outs, List.mem_cons, Propeller.step,
        Propeller.Out.shape.injEq] at hr
      rcases hr with hr | hr
      · rw [hr, h]
      · refine Propeller.outs_cached_shape _ s ?_ ops₂ r hr
        simp only [Propeller.shape] at h ⊢
        rcases hc : p.shapeCache with _ | s'
        · rw [hc] at h
          simp only at h ⊢
          split at h
          · cases h
          · rename_i p' x hx
            cases h
            rfl
        · rw [hc] at h
          simp only at h ⊢
          cases h
          exact hc
  | cons op ops ih =>
    obtain ⟨i1, i2⟩ := ih (p.step op).1
    have hne : ∀ (q : Propeller τ υ) (o : Propeller.Op σ β τ υ), q.outs (ops ++ [o]) ≠ [] := by
      intro q o h
      have : (q.outs (ops ++ [o])).length = (ops ++ [o]).length := by
        clear h
        generalize ops ++ [o] = l
        induction l generalizing q with
        | nil => rfl
        | cons a l ih => simp [Propeller.outs, ih]
      rw [h] at this
      simp at this
    constructor
    · intro K sh s h r hr
      simp only [List.cons_append, Propeller.outs, List.length_cons, List.drop_succ_cons] at h hr
      rw [List.getLast?_cons_of_ne_nil (hne _ _)] at h
      exact i1 K sh s h r hr
    · intro K sh s h r hr
      simp only [List.cons_append, Propeller.outs, List.length_cons, List.drop_succ_cons] at h hr
      rw [List.getLast?_cons_of_ne_nil (hne _ _)] at h
      exact i2 K sh s h r hr

/-- **C56** the first access: on a propeller nothing has been cached for, `solid` is the fusion of the shaft with the solids of the blades as
they are at that moment, and fails with the exception of the shaft, with that of the first blade without solid, or with `RuntimeError`; a
failure leaves nothing behind. `shape` sews that solid. -/
theorem C56_first_access {σ β τ υ : Type} (p : Propeller τ υ) (K : Kernel σ β τ υ) (shaft : Res σ) (h : p.solidCache = none)
    (h' : p.shapeCache = none) :
    (∀ s, (p.solid K shaft).2 = .ok s ↔ ∃ sh bs, shaft = .ok sh ∧ bs.length = p.blades.length ∧
      (∀ (i : Nat) (b : Blade) (x : β), p.blades[i]? = some b → bs[i]? = some x →
        ∃ u l t r, b.upper = some u ∧ b.lower = some l ∧ b.tip = some t ∧ b.root = some r ∧ K.assemble [u, l, t, r] = some x) ∧
      K.fuse sh bs = some s) ∧
    (∀ e, (p.solid K shaft).2 = .error e → (p.solid K shaft).1 = p) ∧
    (p.shape K shaft).2 = (p.solid K shaft).2.map K.sew := by
  have hsol : ∀ b x, Propeller.bladeSolid K b = .ok x ↔
      ∃ u l t r, b.upper = some u ∧ b.lower = some l ∧ b.tip = some t ∧ b.root = some r ∧ K.assemble [u, l, t, r] = some x := by
    intro b x
    unfold Propeller.bladeSolid Blade.generateSolid
    rcases h1 : b.upper with _ | u <;> rcases h2 : b.lower with _ | l <;> rcases h3 : b.tip with _ | t <;>
      rcases h4 : b.root with _ | r <;> simp [bind, Except.bind]
    rcases ha : K.assemble [u, l, t, r] with _ | y <;> simp [pure, Except.pure, throw, throwThe, MonadExceptOf.throw]
  refine ⟨?_, ?_, ?_⟩
  · intro s
    simp only [Propeller.solid, h]
    rcases hs : shaft with e | sh
    · simp [bind, Except.bind]
    · rcases hb : p.blades.mapM (Propeller.bladeSolid K) with e | bs
      · simp only [bind, Except.bind, hb]
        constructor
        · intro h; cases h
        · rintro ⟨sh', bs, h1, h2, h3, h4⟩
          exfalso
          have := Blade.mapM_ok (f := Propeller.bladeSolid K) (l := p.blades) (r := bs) |>.2
            ⟨h2, fun i a c ha hc => (hsol a c).2 (h3 i a c ha hc)⟩
          rw [hb] at this
          cases this
      · obtain ⟨g1, g2⟩ := Blade.mapM_ok.1 hb
        simp only [bind, Except.bind, hb]
        constructor
        · intro hh
          rcases hf : K.fuse sh bs with _ | y
          · rw [hf] at hh; cases hh
          · rw [hf] at hh
            obtain rfl := Except.ok.inj hh
            exact ⟨sh, bs, rfl, g1, fun i b x hb hx => (hsol b x).1 (g2 i b x hb hx), hf⟩
        · rintro ⟨sh', bs', h1, h2, h3, h4⟩
          obtain rfl := Except.ok.inj h1
          have := Blade.mapM_ok (f := Propeller.bladeSolid K) (l := p.blades) (r := bs') |>.2
            ⟨h2, fun i a c ha hc => (hsol a c).2 (h3 i a c ha hc)⟩
          rw [hb] at this
          obtain rfl := Except.ok.inj this
          rw [h4]; rfl
  · intro e he
    simp only [Propeller.solid, h] at he ⊢
    split at he
    · cases he
    · rfl
  · simp only [Propeller.shape, h']
    rcases hx : p.solid K shaft with ⟨q, (e | s)⟩ <;> rfl

/-- Non-vacuity: a propeller whose solid is cached, and whose later accesses therefore ignore a broken shaft. -/
example : ∃ (p : Propeller Nat Nat) (K : Kernel Unit Unit Nat Nat) (p' : Propeller Nat Nat), p.solid K (.ok ()) = (p', .ok 7) ∧
    (p'.solid K (.error .exception)).2 = .ok 7 ∧ (p.solid K (.error .exception)).2 = .error .exception :=
  ⟨{ blades := [], solidCache := none, shapeCache := none }, { assemble := fun _ => some (), fuse := fun _ _ => some 7, sew := fun x => x },
    _, rfl, rfl, rfl⟩

/-- **C57** at this commit the methods `generate_obj` and `generate_obj_blades` raise `AttributeError` for every propeller, after every history
of accesses, before any file is written. -/
theorem C57_public_method_fails {σ β τ υ : Type} (p : Propeller τ υ) (ops : List (Propeller.Op σ β τ υ)) (fs : ParamFile.FS)
    (rest : ParamFile.FS × Res Unit) :
    (ops.foldl (fun p op => (p.step op).1) p).generateObj fs rest = (fs, .error .attributeError) ∧
    (ops.foldl (fun p op => (p.step op).1) p).generateObjBlades fs rest = (fs, .error .attributeError) := by
  generalize ops.foldl (fun p op => (p.step op).1) p = q
  have key : ∀ name : Str, name ∉ Propeller.classNames ++ [c!"shaft", c!"blades", c!"_solid", c!"_shape"] → q.hasAttr name = false := by
    intro name h
    simp only [List.mem_append, List.mem_cons, List.not_mem_nil, or_false, not_or] at h
    obtain ⟨h1, h2, h3, h4, h5⟩ := h
    simp only [Propeller.hasAttr, Propeller.attributes, List.mem_append, List.mem_cons, List.not_mem_nil, or_false, decide_eq_false_iff_not]
    rintro ((( h | h) | h) | h)
    · rcases h with h | h
      · exact h2 h
      · exact h3 h
    · split_ifs at h
      · simp only [List.mem_cons, List.not_mem_nil, or_false] at h; exact h4 h
      · cases h
    · split_ifs at h
      · simp only [List.mem_cons, List.not_mem_nil, or_false] at h; exact h5 h
      · cases h
    · exact h1 h
  constructor
  · unfold Propeller.generateObj
    rw [key _ (by decide)]; rfl
  · unfold Propeller.generateObjBlades
    rw [key _ (by decide)]; rfl

end
end BladeX
