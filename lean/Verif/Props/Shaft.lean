import Verif.Model.Shaft
import Verif.Spec.Blade
import Mathlib.Tactic.Linarith
import Mathlib.Tactic.FieldSimp
import Mathlib.Tactic.Positivity

/-! # C58, C71: shafts -/

namespace BladeX
noncomputable section
open Classical

namespace Spec

/-- The path ends in `.e`, and the last component of the path has, before that, a character other than a dot. -/
def HasExt (p e : Str) : Prop := ∃ dir base, p = dir ++ base ++ '.' :: e ∧ '/' ∉ base ∧ ∃ c ∈ base, c ≠ '.'

end Spec
open Spec

theorem rfind_none {c : Char} {s : Str} : rfind c s = none ↔ c ∉ s := by
  induction s with
  | nil => simp [rfind]
  | cons x xs ih =>
    unfold rfind
    rcases h : rfind c xs with _ | k
    · have := ih.1 h
      by_cases hx : x = c
      · simp [hx]
      · simp [hx, this, Ne.symm hx]
    · have : c ∈ xs := by
        by_contra hc
        rw [ih.2 hc] at h
        cases h
      simp [this]

theorem rfind_append {c : Char} {a b : Str} (hb : c ∉ b) : rfind c (a ++ c :: b) = some a.length := by
  induction a with
  | nil => simp [rfind, rfind_none.2 hb]
  | cons x a ih => simp [rfind, ih]

theorem rfind_some {c : Char} {s : Str} {k : Nat} (h : rfind c s = some k) : ∃ a b, s = a ++ c :: b ∧ c ∉ b ∧ a.length = k := by
  induction s generalizing k with
  | nil => simp [rfind] at h
  | cons x xs ih =>
    unfold rfind at h
    rcases hx : rfind c xs with _ | m
    · rw [hx] at h
      simp only at h
      split_ifs at h with he
      cases h
      exact ⟨[], xs, by simp [he], rfind_none.1 hx, rfl⟩
    · rw [hx] at h
      cases h
      obtain ⟨a, b, rfl, h2, h3⟩ := ih hx
      exact ⟨x :: a, b, rfl, h2, by simp [h3]⟩

/-- **C58** the extension: for any `e` without dots and slashes, it is `e` exactly when the path ends in `.e` and the last component has a
character other than a dot before it (so `.stl` and `dir/.stl` have no extension). -/
theorem C58_extension (p e : Str) (he : e ≠ []) (hd : '.' ∉ e) (hs : '/' ∉ e) : (splitext p).2.drop 1 = e ↔ HasExt p e := by
  constructor
  · intro h
    unfold splitext at h
    rcases hr : rfind '.' p with _ | d
    · rw [hr] at h
      simp only [List.drop_nil] at h
      exact absurd h.symm he
    · rw [hr] at h
      obtain ⟨a, b, hp, hb, ha⟩ := rfind_some hr
      simp only at h
      split_ifs at h with hc
      · obtain ⟨hc1, j, hj1, hj2, hj3⟩ := hc
        have hbe : b = e := by
          rw [← h, hp, ← ha]
          simp
        subst hbe
        rcases hsl : rfind '/' p with _ | s
        · unfold nameStart at hj1 hc1
          rw [hsl] at hj1 hc1
          have hn := rfind_none.1 hsl
          refine ⟨[], a, by simp [hp], fun h => hn (by rw [hp]; simp [h]), ?_⟩
          have hja : j < a.length := by omega
          refine ⟨a[j], List.getElem_mem hja, fun hEq => hj3 ?_⟩
          rw [hp, List.getElem?_append_left hja, List.getElem?_eq_getElem hja, hEq]
        · unfold nameStart at hj1 hc1
          rw [hsl] at hj1 hc1
          obtain ⟨u, v, hu, hv, hul⟩ := rfind_some hsl
          simp only at hj1 hc1
          have hle : u.length + 1 ≤ a.length := by omega
          have e1 : a = (u ++ ['/']) ++ a.drop (u.length + 1) := by
            have t : (u ++ ['/']) = a.take (u.length + 1) := by
              have h1 : p.take (u.length + 1) = u ++ ['/'] := by
                rw [hu, show u ++ '/' :: v = (u ++ ['/']) ++ v by simp]
                exact List.take_left' (by simp)
              have h2 : p.take (u.length + 1) = a.take (u.length + 1) := by
                rw [hp, List.take_append_of_le_length hle]
              rw [← h1, h2]
            rw [t, List.take_append_drop]
          set base := a.drop (u.length + 1) with hbase
          have hv' : v = base ++ '.' :: b := by
            have : u ++ '/' :: v = u ++ '/' :: (base ++ '.' :: b) := by
              rw [← hu, hp]
              conv_lhs => rw [e1]
              simp
            simpa using this
          refine ⟨u ++ ['/'], base, by rw [hp]; conv_lhs => rw [e1], fun h => hv (by rw [hv']; simp [h]), ?_⟩
          have hja : j < a.length := by omega
          refine ⟨a[j], ?_, fun hEq => hj3 ?_⟩
          · rw [hbase, List.mem_iff_getElem]
            refine ⟨j - (u.length + 1), by rw [List.length_drop]; omega, ?_⟩
            rw [List.getElem_drop]
            congr 1
            omega
          · rw [hp, List.getElem?_append_left hja, List.getElem?_eq_getElem hja, hEq]
      · simp only [List.drop_nil] at h
        exact absurd h.symm he
  · rintro ⟨dir, base, rfl, hb, c, hc, hne⟩
    have h1 : rfind '.' (dir ++ base ++ '.' :: e) = some (dir ++ base).length := rfind_append hd
    unfold splitext
    rw [h1]
    simp only
    obtain ⟨i, hi, hic⟩ := List.mem_iff_getElem.1 hc
    have hstart : nameStart (dir ++ base ++ '.' :: e) ≤ dir.length := by
      unfold nameStart
      rcases hsl : rfind '/' (dir ++ base ++ '.' :: e) with _ | s
      · simp
      · obtain ⟨u, v, hu, hv, hul⟩ := rfind_some hsl
        simp only
        by_contra hlt
        have hm : '/' ∈ base ++ '.' :: e := by
          have h3 : (dir ++ (base ++ '.' :: e))[u.length]? = some '/' := by
            rw [← List.append_assoc, hu]; simp
          rw [List.getElem?_append_right (by omega)] at h3
          exact List.mem_of_getElem? h3
        simp [hb, hs] at hm
    rw [if_pos]
    · rw [List.drop_left' rfl]; rfl
    · refine ⟨by simp only [List.length_append]; omega, dir.length + i, by omega, by simp only [List.length_append]; omega, ?_⟩
      rw [List.append_assoc, List.getElem?_append_right (by omega)]
      rw [List.getElem?_append_left (by omega)]
      simp [hi, hic, hne]

/-- **C58** the reader is chosen by the extension, case sensitively; the errors of the reader and of the sewing are passed on, a solid that
is not done raises `RuntimeError`, and for every other name `Exception` is raised without reading anything. -/
theorem C58_dispatch {κ σ : Type} (K : ShaftKernel κ σ) (p : Str) :
    (HasExt p c!"stl" → Shaft.generateSolid K p = match K.readStl p with
      | .error e => .error e
      | .ok c => match K.assemble c with
        | .error e => .error e
        | .ok none => .error .runtimeError
        | .ok (some s) => .ok s) ∧
    (HasExt p c!"iges" → Shaft.generateSolid K p = match K.readIges p with
      | .error e => .error e
      | .ok c => match K.assemble c with
        | .error e => .error e
        | .ok none => .error .runtimeError
        | .ok (some s) => .ok s) ∧
    (¬ HasExt p c!"stl" → ¬ HasExt p c!"iges" → Shaft.generateSolid K p = .error .exception) := by
  have h1 := C58_extension p c!"stl" (by decide) (by decide) (by decide)
  have h2 := C58_extension p c!"iges" (by decide) (by decide) (by decide)
  refine ⟨fun h => ?_, fun h => ?_, fun hs hi => ?_⟩
  · unfold Shaft.generateSolid
    simp only [h1.2 h, if_true, bind, Except.bind]
    rcases K.readStl p with e | c
    · rfl
    · simp only
      rcases K.assemble c with e | (_ | s) <;> rfl
  · unfold Shaft.generateSolid
    have hne : (['i', 'g', 'e', 's'] : Str) ≠ ['s', 't', 'l'] := by decide
    simp only [h2.2 h, hne, if_true, if_false, bind, Except.bind]
    rcases K.readIges p with e | c
    · rfl
    · simp only
      rcases K.assemble c with e | (_ | s) <;> rfl
  · unfold Shaft.generateSolid
    simp only [if_neg (mt h1.1 hs), if_neg (mt h2.1 hi), bind, Except.bind, throw, throwThe, MonadExceptOf.throw]

/-- `dir.v2/shaft.stl` has the extension `stl`; `shaft.STL`, `dir/.stl` and `shaft.iges/readme` are refused. -/
example : HasExt c!"dir.v2/shaft.stl" c!"stl" ∧ HasExt c!"a.stl.iges" c!"iges" :=
  ⟨⟨c!"dir.v2/", c!"shaft", rfl, by decide, 's', by decide, by decide⟩, ⟨[], c!"a.stl", rfl, by decide, 'a', by decide, by decide⟩⟩

/-- **C58** names that look like one of the formats and are refused: upper case, no base name, the extension of a directory. -/
theorem C58_refused {κ σ : Type} (K : ShaftKernel κ σ) (base : Str) (hb : '.' ∉ base) (hs : '/' ∉ base) (dir : Str) :
    Shaft.generateSolid K (dir ++ base ++ c!".STL") = .error .exception ∧
    Shaft.generateSolid K (dir ++ c!"/.stl") = .error .exception ∧
    Shaft.generateSolid K (dir ++ c!".stl/" ++ base) = .error .exception := by
  have split : ∀ {p : Str} {e : Str}, HasExt p e → ∃ q, p = q ++ '.' :: e := fun ⟨d, b, h, _⟩ => ⟨d ++ b, h⟩
  have key : ∀ (p : Str), (∀ d b e, p = d ++ b ++ '.' :: e → (e = c!"stl" ∨ e = c!"iges") → '/' ∉ b → ∀ c ∈ b, c = '.') →
      Shaft.generateSolid K p = .error .exception := by
    intro p h
    refine (C58_dispatch K p).2.2 ?_ ?_
    · rintro ⟨d, b, hp, hb, c, hc, hne⟩
      exact hne (h d b _ hp (.inl rfl) hb c hc)
    · rintro ⟨d, b, hp, hb, c, hc, hne⟩
      exact hne (h d b _ hp (.inr rfl) hb c hc)
  have last : ∀ {a b : Str} {x y : Char}, a ++ [x] = b ++ [y] → x = y := by
    intro a b x y h
    have := congrArg List.getLast? h
    simpa using this
  refine ⟨key _ fun d b e h he _ => ?_, key _ fun d b e h he hb c hc => ?_, key _ fun d b e h he hb' c hc => ?_⟩
  · rcases he with rfl | rfl
    · have h1 := congrArg List.getLast? h
      simp at h1
    · have h1 := congrArg List.getLast? h
      simp at h1
  · rcases he with rfl | rfl
    · have h1 : dir ++ ['/'] ++ c!".stl" = d ++ b ++ c!".stl" := by simpa using h
      have h2 := List.append_cancel_right h1
      rcases List.eq_nil_or_concat b with rfl | ⟨b', x, rfl⟩
      · cases hc
      · have h3 : dir ++ ['/'] = (d ++ b') ++ [x] := by simpa using h2
        have := last h3
        exact absurd (by simp [← this]) hb
    · have h1 := congrArg List.getLast? h
      simp at h1
  · have hmem : ∀ {e : Str}, dir ++ c!".stl/" ++ base = d ++ b ++ '.' :: e → '.' ∉ e → '/' ∉ e → ∀ c ∈ b, c = '.' := by
      intro e h hde hse
      exfalso
      have h1 : rfind '/' (dir ++ c!".stl" ++ '/' :: base) = some (dir ++ c!".stl").length := rfind_append hs
      have h2 : rfind '.' (d ++ b ++ '.' :: e) = some (d ++ b).length := rfind_append hde
      have h3 : rfind '.' (dir ++ '.' :: c!"stl/" ++ base) = some dir.length := by
        have : dir ++ '.' :: c!"stl/" ++ base = dir ++ '.' :: (c!"stl/" ++ base) := by simp
        rw [this]
        exact rfind_append (by simp [hb])
      have e1 : dir ++ '.' :: c!"stl/" ++ base = d ++ b ++ '.' :: e := by rw [← h]
      rw [e1, h2] at h3
      have h4 : (d ++ b).length = dir.length := by simpa using h3
      have h5 : dir ++ '.' :: (c!"stl/" ++ base) = (d ++ b) ++ '.' :: e := by rw [← e1]; simp
      have h6 := (List.append_inj h5 h4.symm).2
      have h7 : e = c!"stl/" ++ base := by simpa using h6.symm
      apply hse
      rw [h7]
      simp
    rcases he with rfl | rfl
    · exact hmem h (by decide) (by decide) c hc
    · exact hmem h (by decide) (by decide) c hc

/-- The points of a cylinder of the CAD kernel: between the two discs, and within the radius of the axis. -/
def CylinderShaft.Cyl.points (c : CylinderShaft.Cyl) : Set Pt3 :=
  {q | let w := Blade.sub3 q c.base
       let t := Blade.dot3 w c.dir
       0 ≤ t ∧ t ≤ c.height ∧ distSq3 w (t * c.dir.1, t * c.dir.2.1, t * c.dir.2.2) ≤ c.radius ^ 2}

/-- The length of a vector. -/
def Spec.len (v : Pt3) : ℝ := Real.sqrt (v.1 ^ 2 + v.2.1 ^ 2 + v.2.2 ^ 2)

/-- **C71** a cylinder shaft with positive radius and height and an orientation that is not the zero vector gives the solid cylinder that
starts at the origin point and extends by the height in the direction of the orientation vector, whose length does not matter: the points whose
projection on the axis is between 0 and the height and whose distance from the axis is at most the radius. -/
theorem C71_cylinder (r h vx vy vz ox oy oz : ℝ) (hr : 0 < r) (hh : 0 < h) (hv : (vx, vy, vz) ≠ ((0, 0, 0) : Pt3)) :
    ∃ c, (CylinderShaft.new (some r) (some h) (some [vx, vy, vz]) (some [ox, oy, oz])).generateSolid = .ok c ∧
      ∀ x y z : ℝ, (x, y, z) ∈ c.points ↔
        0 ≤ (x - ox) * vx + (y - oy) * vy + (z - oz) * vz ∧
        (x - ox) * vx + (y - oy) * vy + (z - oz) * vz ≤ h * len (vx, vy, vz) ∧
        len ((y - oy) * vz - (z - oz) * vy, (z - oz) * vx - (x - ox) * vz, (x - ox) * vy - (y - oy) * vx) ≤ r * len (vx, vy, vz) := by
  have hs : 0 < vx * vx + vy * vy + vz * vz := by
    by_contra hle
    apply hv
    have h1 : vx = 0 := by nlinarith [sq_nonneg vx, sq_nonneg vy, sq_nonneg vz]
    have h2 : vy = 0 := by nlinarith [sq_nonneg vx, sq_nonneg vy, sq_nonneg vz]
    have h3 : vz = 0 := by nlinarith [sq_nonneg vx, sq_nonneg vy, sq_nonneg vz]
    rw [h1, h2, h3]
  have hL : len (vx, vy, vz) = Real.sqrt (vx * vx + vy * vy + vz * vz) := by unfold len; congr 1; ring
  rw [hL]
  set L := Real.sqrt (vx * vx + vy * vy + vz * vz) with hLd
  have hLp : 0 < L := Real.sqrt_pos.2 hs
  have hL2 : L ^ 2 = vx * vx + vy * vy + vz * vz := Real.sq_sqrt hs.le
  refine ⟨{ base := (ox, oy, oz), dir := (vx / L, vy / L, vz / L), radius := r, height := h }, ?_, ?_⟩
  · unfold CylinderShaft.generateSolid CylinderShaft.new
    simp only [Option.getD_some, CylinderShaft.three, bind, Except.bind, Blade.unit]
    rw [if_neg hv]
    simp only [Blade.dot3]
    rw [if_neg (by push Not; exact ⟨hr, hh⟩)]
    rfl
  · intro x y z
    simp only [CylinderShaft.Cyl.points, Blade.sub3, Blade.dot3, distSq3, Set.mem_setOf_eq]
    set a := x - ox
    set b := y - oy
    set c := z - oz
    have ht : a * (vx / L) + b * (vy / L) + c * (vz / L) = (a * vx + b * vy + c * vz) / L := by field_simp
    rw [ht]
    set T := a * vx + b * vy + c * vz with hT
    have e1 : (0 ≤ T / L) ↔ 0 ≤ T := by
      constructor
      · intro h1
        have := mul_nonneg h1 hLp.le
        rwa [div_mul_cancel₀ _ hLp.ne'] at this
      · intro h1; positivity
    have e2 : T / L ≤ h ↔ T ≤ h * L := div_le_iff₀ hLp
    rw [e1, e2]
    refine and_congr_right fun _ => and_congr_right fun _ => ?_
    have e3 : (a - T / L * (vx / L)) ^ 2 + (b - T / L * (vy / L)) ^ 2 + (c - T / L * (vz / L)) ^ 2 =
        ((b * vz - c * vy) ^ 2 + (c * vx - a * vz) ^ 2 + (a * vy - b * vx) ^ 2) / L ^ 2 := by
      have e4 : (a - T / L * (vx / L)) ^ 2 + (b - T / L * (vy / L)) ^ 2 + (c - T / L * (vz / L)) ^ 2 =
          (a ^ 2 + b ^ 2 + c ^ 2) - 2 * T / L ^ 2 * (a * vx + b * vy + c * vz) + (T / L ^ 2) ^ 2 * (vx * vx + vy * vy + vz * vz) := by
        field_simp; ring
      rw [e4, ← hL2, ← hT]
      have e5 : (b * vz - c * vy) ^ 2 + (c * vx - a * vz) ^ 2 + (a * vy - b * vx) ^ 2 = (a ^ 2 + b ^ 2 + c ^ 2) * L ^ 2 - T ^ 2 := by
        rw [hL2, hT]; ring
      rw [e5]
      field_simp
      ring
    rw [e3, div_le_iff₀ (by positivity)]
    unfold len
    rw [Real.sqrt_le_left (by positivity), mul_pow]

/-- **C71** the defaults: radius 1, height 1, along the positive `x` axis from the origin (the cylinder is not centred: it occupies
`0 ≤ x ≤ 1`), each object with its own lists. -/
theorem C71_defaults : ∃ c, (CylinderShaft.new none none none none).generateSolid = .ok c ∧
    ∀ x y z : ℝ, (x, y, z) ∈ c.points ↔ 0 ≤ x ∧ x ≤ 1 ∧ y ^ 2 + z ^ 2 ≤ 1 := by
  obtain ⟨c, h1, h2⟩ := C71_cylinder 1 1 1 0 0 0 0 0 one_pos one_pos (by simp)
  refine ⟨c, h1, fun x y z => ?_⟩
  rw [h2]
  have e1 : len ((1 : ℝ), 0, 0) = 1 := by simp [len]
  have e2 : len ((y - 0) * 0 - (z - 0) * 0, (z - 0) * 1 - (x - 0) * 0, (x - 0) * 0 - (y - 0) * 1) = Real.sqrt (y ^ 2 + z ^ 2) := by
    unfold len; congr 1; ring
  rw [e1, e2]
  simp only [sub_zero, mul_one, mul_zero, add_zero, Real.sqrt_le_one]

/-- **C71** the zero vector as orientation, and anything but three coordinates, are refused when the solid is generated. -/
theorem C71_refused (r h : ℝ) (v o : Arr) :
    (v.length ≠ 3 ∨ o.length ≠ 3 → (CylinderShaft.new (some r) (some h) (some v) (some o)).generateSolid = .error .typeError) ∧
    (o.length = 3 → (CylinderShaft.new (some r) (some h) (some [0, 0, 0]) (some o)).generateSolid = .error .runtimeError) := by
  have t3 : ∀ w : Arr, w.length = 3 → ∃ p, CylinderShaft.three w = .ok p := by
    intro w hw
    match w, hw with
    | [x, y, z], _ => exact ⟨_, rfl⟩
  have tn : ∀ w : Arr, w.length ≠ 3 → CylinderShaft.three w = .error .typeError := by
    intro w hw
    unfold CylinderShaft.three
    split
    · simp at hw
    · rfl
  constructor
  · intro hvo
    unfold CylinderShaft.generateSolid CylinderShaft.new
    simp only [Option.getD_some]
    by_cases ho : o.length = 3
    · obtain ⟨p, hp⟩ := t3 o ho
      have hv : v.length ≠ 3 := by tauto
      rw [hp, tn v hv]
      rfl
    · rw [tn o ho]
      rfl
  · intro ho
    obtain ⟨p, hp⟩ := t3 o ho
    unfold CylinderShaft.generateSolid CylinderShaft.new
    simp only [Option.getD_some]
    rw [hp]
    simp [CylinderShaft.three, Blade.unit, bind, Except.bind]

/-- A shaft along a diagonal. -/
example : ((1, 2, 2) : Pt3) ≠ (0, 0, 0) ∧ Spec.len (1, 2, 2) = 3 := by
  refine ⟨by simp, ?_⟩
  unfold Spec.len
  norm_num
  rw [show (9 : ℝ) = 3 ^ 2 by norm_num, Real.sqrt_sq (by norm_num)]

end
end BladeX
