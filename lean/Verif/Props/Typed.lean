import Verif.Spec.Typed
import Verif.Props.Heap
import Verif.Lemmas.American

/-! # C88: coordinate arrays of integers -/

namespace BladeX
noncomputable section
open Spec Classical

namespace TProfile

theorem iadd_acc {a : TArr} {v : Num} (h : Accepts a v) : a.iadd v = (⟨a.vals.map (· + v.val), a.isInt⟩, .ok ()) := by
  unfold TArr.iadd
  rw [if_neg]
  rintro ⟨h1, h2⟩
  have := h h1
  rw [h2] at this
  exact absurd this (by simp)

theorem not_acc {a : TArr} {v : Num} (h : ¬ Accepts a v) : a.isInt = true ∧ v.isInt = false := by
  unfold Accepts at h
  rw [Classical.not_imp] at h
  exact ⟨h.1, by simpa using h.2⟩

theorem iadd_rej {a : TArr} {v : Num} (h : ¬ Accepts a v) : a.iadd v = (a, .error .typeError) := by
  unfold TArr.iadd; rw [if_pos (not_acc h)]

theorem imul_acc {a : TArr} {v : Num} (h : Accepts a v) : a.imul v = (⟨a.vals.map (· * v.val), a.isInt⟩, .ok ()) := by
  unfold TArr.imul
  rw [if_neg]
  rintro ⟨h1, h2⟩
  have := h h1
  rw [h2] at this
  exact absurd this (by simp)

theorem imul_rej {a : TArr} {v : Num} (h : ¬ Accepts a v) : a.imul v = (a, .error .typeError) := by
  unfold TArr.imul; rw [if_pos (not_acc h)]

end TProfile

/-- **C88** `translate`, whatever the types: it succeeds exactly when no integer array meets a float component, otherwise the exception is a
`TypeError`; the arrays are displaced in the order xup, xdown, yup, ydown up to the first that refuses, that one and the later ones keep their
numbers. No array changes its type. -/
theorem C88_translate (P : TProfile) (v : Num × Num) :
    let a := Accepts P.xup v.1
    let b := Accepts P.xdown v.1
    let c := Accepts P.yup v.2
    let d := Accepts P.ydown v.2
    let r := (TProfile.Stmt.translate v).run P
    r.2 = (if a ∧ b ∧ c ∧ d then .ok () else .error .typeError) ∧
    r.1.xup = ⟨if a then P.xup.vals.map (· + v.1.val) else P.xup.vals, P.xup.isInt⟩ ∧
    r.1.xdown = ⟨if a ∧ b then P.xdown.vals.map (· + v.1.val) else P.xdown.vals, P.xdown.isInt⟩ ∧
    r.1.yup = ⟨if a ∧ b ∧ c then P.yup.vals.map (· + v.2.val) else P.yup.vals, P.yup.isInt⟩ ∧
    r.1.ydown = ⟨if a ∧ b ∧ c ∧ d then P.ydown.vals.map (· + v.2.val) else P.ydown.vals, P.ydown.isInt⟩ ∧
    r.1.par = P.par ∧ r.1.chordLine = P.chordLine ∧ r.1.camberLine = P.camberLine := by
  simp only [TProfile.Stmt.run, TProfile.shift, TProfile.andThen, TProfile.onXup, TProfile.onXdown, TProfile.onYup, TProfile.onYdown]
  by_cases h1 : Accepts P.xup v.1
  swap
  · simp [h1, TProfile.iadd_rej h1]
  by_cases h2 : Accepts P.xdown v.1
  swap
  · simp [h1, h2, TProfile.iadd_acc h1, TProfile.iadd_rej h2]
  by_cases h3 : Accepts P.yup v.2
  swap
  · simp [h1, h2, h3, TProfile.iadd_acc h1, TProfile.iadd_acc h2, TProfile.iadd_rej h3]
  by_cases h4 : Accepts P.ydown v.2
  swap
  · simp [h1, h2, h3, h4, TProfile.iadd_acc h1, TProfile.iadd_acc h2, TProfile.iadd_acc h3, TProfile.iadd_rej h4]
  simp [h1, h2, h3, h4, TProfile.iadd_acc h1, TProfile.iadd_acc h2, TProfile.iadd_acc h3, TProfile.iadd_acc h4]

/-- **C88** the same for `scale` without translation. -/
theorem C88_scale_plain (P : TProfile) (f : Num) :
    let a := Accepts P.xup f
    let b := Accepts P.xdown f
    let c := Accepts P.yup f
    let d := Accepts P.ydown f
    let r := (TProfile.Stmt.scale f false).run P
    r.2 = (if a ∧ b ∧ c ∧ d then .ok () else .error .typeError) ∧
    r.1.xup = ⟨if a then P.xup.vals.map (· * f.val) else P.xup.vals, P.xup.isInt⟩ ∧
    r.1.xdown = ⟨if a ∧ b then P.xdown.vals.map (· * f.val) else P.xdown.vals, P.xdown.isInt⟩ ∧
    r.1.yup = ⟨if a ∧ b ∧ c then P.yup.vals.map (· * f.val) else P.yup.vals, P.yup.isInt⟩ ∧
    r.1.ydown = ⟨if a ∧ b ∧ c ∧ d then P.ydown.vals.map (· * f.val) else P.ydown.vals, P.ydown.isInt⟩ ∧
    r.1.par = P.par ∧ r.1.chordLine = P.chordLine ∧ r.1.camberLine = P.camberLine := by
  simp only [TProfile.Stmt.run, TProfile.mulAll, TProfile.andThen, TProfile.onXup, TProfile.onXdown, TProfile.onYup, TProfile.onYdown]
  by_cases h1 : Accepts P.xup f
  swap
  · simp [h1, TProfile.imul_rej h1]
  by_cases h2 : Accepts P.xdown f
  swap
  · simp [h1, h2, TProfile.imul_acc h1, TProfile.imul_rej h2]
  by_cases h3 : Accepts P.yup f
  swap
  · simp [h1, h2, h3, TProfile.imul_acc h1, TProfile.imul_acc h2, TProfile.imul_rej h3]
  by_cases h4 : Accepts P.ydown f
  swap
  · simp [h1, h2, h3, h4, TProfile.imul_acc h1, TProfile.imul_acc h2, TProfile.imul_acc h3, TProfile.imul_rej h4]
  simp [h1, h2, h3, h4, TProfile.imul_acc h1, TProfile.imul_acc h2, TProfile.imul_acc h3, TProfile.imul_acc h4]

namespace TProfile

theorem float_acc {a : TArr} (h : a.isInt = false) (v : Num) : Accepts a v := fun h' => by rw [h] at h'; exact absurd h' (by simp)

theorem acc_float {a : TArr} {x : ℝ} : Accepts a (.float x) ↔ a.isInt = false := by
  unfold Accepts Num.float
  cases a.isInt <;> simp

theorem shift_float {P : TProfile} (h : AllFloat P) (v : Num × Num) :
    AllFloat (shift v P).1 ∧ (shift v P).1.seen = P.seen.translate (v.1.val, v.2.val) ∧ (shift v P).2 = .ok () := by
  obtain ⟨h1, h2, h3, h4⟩ := h
  have k := C88_translate P v
  simp only [Stmt.run, float_acc h1, float_acc h2, float_acc h3, float_acc h4, and_self, if_true] at k
  obtain ⟨k0, k1, k2, k3, k4, k5, k6, k7⟩ := k
  refine ⟨⟨by rw [k1]; exact h1, by rw [k2]; exact h2, by rw [k3]; exact h3, by rw [k4]; exact h4⟩, ?_, k0⟩
  unfold seen Profile.translate
  rw [k1, k2, k3, k4, k5, k6, k7]

theorem mulAll_float {P : TProfile} (h : AllFloat P) (f : Num) :
    AllFloat (mulAll f P).1 ∧ (mulAll f P).1.seen = P.seen.mulAll f.val ∧ (mulAll f P).2 = .ok () := by
  obtain ⟨h1, h2, h3, h4⟩ := h
  have k := C88_scale_plain P f
  simp only [Stmt.run, float_acc h1, float_acc h2, float_acc h3, float_acc h4, and_self, if_true] at k
  obtain ⟨k0, k1, k2, k3, k4, k5, k6, k7⟩ := k
  refine ⟨⟨by rw [k1]; exact h1, by rw [k2]; exact h2, by rw [k3]; exact h3, by rw [k4]; exact h4⟩, ?_, k0⟩
  unfold seen Profile.mulAll
  rw [k1, k2, k3, k4, k5, k6, k7]

theorem seen_ofFloats (Q : Profile) : (ofFloats Q).seen = Q := rfl
theorem ofFloats_float (Q : Profile) : AllFloat (ofFloats Q) := ⟨rfl, rfl, rfl, rfl⟩

theorem andThen_ok {f g : Action} {P Q : TProfile} (h : f P = (Q, .ok ())) : andThen f g P = g Q := by unfold andThen; rw [h]
theorem andThen_err {f g : Action} {P Q : TProfile} {e : PyErr} (h : f P = (Q, .error e)) : andThen f g P = (Q, .error e) := by
  unfold andThen; rw [h]

/-- One call on a profile with float arrays. -/
theorem run_float (s : Stmt) {P : TProfile} (h : AllFloat P) :
    (∀ Q, (untyped s).value P.seen = .ok Q → ∃ P', s.run P = (P', .ok ()) ∧ P'.seen = Q ∧ AllFloat P') ∧
    (∀ e, (untyped s).value P.seen = .error e → s.run P = (P, .error e)) := by
  cases s with
  | skip => exact ⟨fun Q hQ => ⟨P, rfl, by simpa [untyped, Heap.Stmt.value] using hQ, h⟩, fun e he => by simp [untyped, Heap.Stmt.value] at he⟩
  | translate v =>
    obtain ⟨k1, k2, k3⟩ := shift_float h v
    refine ⟨fun Q hQ => ⟨_, Prod.ext rfl k3, ?_, k1⟩, fun e he => by simp [untyped, Heap.Stmt.value] at he⟩
    simp only [untyped, Heap.Stmt.value, Except.ok.injEq] at hQ
    rw [← hQ]; exact k2
  | translateRef =>
    simp only [untyped, Heap.Stmt.value, Stmt.run]
    rcases hr : P.seen.referencePoint with e | ref
    · exact ⟨fun Q hQ => by simp [bind, Except.bind] at hQ, fun e' he => by simp [bind, Except.bind] at he; rw [he]⟩
    · obtain ⟨k1, k2, k3⟩ := shift_float h (floatPair (-ref))
      refine ⟨fun Q hQ => ⟨_, Prod.ext rfl k3, ?_, k1⟩, fun e he => by simp [bind, Except.bind, pure, Except.pure] at he⟩
      simp only [bind, Except.bind, pure, Except.pure, Except.ok.injEq] at hQ
      rw [← hQ]; exact k2
  | scale f b =>
    cases b with
    | false =>
      obtain ⟨k1, k2, k3⟩ := mulAll_float h f
      refine ⟨fun Q hQ => ⟨_, Prod.ext rfl k3, ?_, k1⟩, fun e he => by simp [untyped, Heap.Stmt.value, Profile.scale, pure, Except.pure] at he⟩
      simp only [untyped, Heap.Stmt.value, Profile.scale, Bool.false_eq_true, if_false, pure, Except.pure, Except.ok.injEq] at hQ
      rw [← hQ]; exact k2
    | true =>
      simp only [untyped, Heap.Stmt.value, Stmt.run, Profile.scale, if_true]
      rcases hr : P.seen.referencePoint with e | ref
      · exact ⟨fun Q hQ => by simp [bind, Except.bind] at hQ, fun e' he => by simp [bind, Except.bind] at he; rw [he]⟩
      · obtain ⟨k1, k2, k3⟩ := shift_float h (floatPair (-ref))
        obtain ⟨l1, l2, l3⟩ := mulAll_float k1 f
        obtain ⟨m1, m2, m3⟩ := shift_float l1 (floatPair ref)
        simp only
        rw [andThen_ok (Prod.ext rfl k3), andThen_ok (Prod.ext rfl l3)]
        refine ⟨fun Q hQ => ⟨_, Prod.ext rfl m3, ?_, m1⟩, fun e he => by simp [bind, Except.bind, pure, Except.pure] at he⟩
        simp only [bind, Except.bind, pure, Except.pure, Except.ok.injEq] at hQ
        rw [← hQ, m2, l2, k2]; rfl
  | setThickness t =>
    simp only [untyped, Heap.Stmt.value, Stmt.run, Profile.setThicknessMax]
    rcases hr : P.seen.maxThickness with e | old
    · exact ⟨fun Q hQ => by simp [bind, Except.bind] at hQ, fun e' he => by simp [bind, Except.bind] at he; rw [he]⟩
    · obtain ⟨h1, h2, h3, h4⟩ := h
      simp only [andThen, onYup, onYdown, imul_acc (float_acc h3 _), imul_acc (float_acc h4 _)]
      refine ⟨fun Q hQ => ⟨_, rfl, ?_, ⟨h1, h2, h3, h4⟩⟩, fun e he => by simp [bind, Except.bind, pure, Except.pure] at he⟩
      simp only [bind, Except.bind, pure, Except.pure, Except.ok.injEq] at hQ
      rw [← hQ]; rfl
  | setCamber c =>
    simp only [untyped, Heap.Stmt.value, Stmt.run]
    rcases hr : P.seen.setCamberLineMax c with e | Q
    · exact ⟨fun Q hQ => by simp at hQ, fun e' he => by simp at he; rw [he]⟩
    · refine ⟨fun Q' hQ => ?_, fun e he => by simp at he⟩
      obtain rfl := Except.ok.inj hQ
      simp only
      split_ifs
      · exact ⟨_, rfl, rfl, ⟨h.1, h.2.1, rfl, rfl⟩⟩
      · exact ⟨_, rfl, rfl, ofFloats_float _⟩
  | reflect =>
    obtain ⟨k1, k2, k3⟩ := mulAll_float h ⟨-1, true⟩
    refine ⟨fun Q hQ => ⟨_, Prod.ext rfl k3, ?_, k1⟩, fun e he => by simp [untyped, Heap.Stmt.value] at he⟩
    simp only [untyped, Heap.Stmt.value, Except.ok.injEq] at hQ
    rw [← hQ]; exact k2
  | rotate r d =>
    simp only [untyped, Heap.Stmt.value, Stmt.run]
    rcases hr : P.seen.rotate r d with e | Q
    · exact ⟨fun Q hQ => by simp at hQ, fun e' he => by simp at he; rw [he]⟩
    · refine ⟨fun Q' hQ => ?_, fun e he => by simp at he⟩
      obtain rfl := Except.ok.inj hQ
      exact ⟨_, rfl, rfl, ofFloats_float _⟩

end TProfile

/-- **C88** a profile with float arrays: for every history of calls, with integers and floats as arguments, the outcome and the numbers are
those of the description without types, and the arrays stay float arrays. -/
theorem C88_float_program (l : List TProfile.Stmt) (P : TProfile) (h : AllFloat P) :
    AllFloat (TProfile.runAll l P).1 ∧ ((TProfile.runAll l P).1.seen, (TProfile.runAll l P).2) = runUntyped (l.map untyped) P.seen := by
  induction l generalizing P with
  | nil => exact ⟨h, rfl⟩
  | cons s l ih =>
    obtain ⟨hok, herr⟩ := TProfile.run_float s h
    simp only [TProfile.runAll, List.map_cons, runUntyped]
    rcases hv : (untyped s).value P.seen with e | Q
    · rw [TProfile.andThen_err (herr e hv)]
      exact ⟨h, rfl⟩
    · obtain ⟨P', k1, k2, k3⟩ := hok Q hv
      rw [TProfile.andThen_ok k1]
      simp only
      rw [← k2]
      exact ih P' k3

/-- **C88** after a successful `rotate` the four arrays are float arrays, whatever they were, with the numbers of the description without types;
`reflect` succeeds on every profile, with the same numbers and types as the description without types. -/
theorem C88_rotate_reflect (P : TProfile) (rad deg : Option ℝ) :
    ((TProfile.Stmt.rotate rad deg).run P).2 = (P.seen.rotate rad deg).map (fun _ => ()) ∧
    (∀ Q, P.seen.rotate rad deg = .ok Q → ((TProfile.Stmt.rotate rad deg).run P).1.seen = Q ∧ AllFloat ((TProfile.Stmt.rotate rad deg).run P).1) ∧
    (∀ e, P.seen.rotate rad deg = .error e → ((TProfile.Stmt.rotate rad deg).run P).1 = P) ∧
    (TProfile.Stmt.reflect.run P).2 = .ok () ∧ (TProfile.Stmt.reflect.run P).1.seen = P.seen.reflect ∧
    ((TProfile.Stmt.reflect.run P).1.xup.isInt = P.xup.isInt ∧ (TProfile.Stmt.reflect.run P).1.xdown.isInt = P.xdown.isInt ∧
      (TProfile.Stmt.reflect.run P).1.yup.isInt = P.yup.isInt ∧ (TProfile.Stmt.reflect.run P).1.ydown.isInt = P.ydown.isInt) := by
  have hrot : (TProfile.Stmt.rotate rad deg).run P = match P.seen.rotate rad deg with | .error e => (P, .error e) | .ok Q => (TProfile.ofFloats Q, .ok ()) := rfl
  have hk := C88_scale_plain P ⟨-1, true⟩
  have ha : ∀ a : TArr, Accepts a ⟨-1, true⟩ := fun a _ => rfl
  simp only [ha, and_self, if_true] at hk
  have hre : TProfile.Stmt.reflect.run P = (TProfile.Stmt.scale ⟨-1, true⟩ false).run P := rfl
  obtain ⟨k0, k1, k2, k3, k4, k5, k6, k7⟩ := hk
  refine ⟨?_, ?_, ?_, by rw [hre, k0], ?_, ?_⟩
  · rw [hrot]; rcases P.seen.rotate rad deg with e | Q <;> rfl
  · intro Q hQ; rw [hrot, hQ]; exact ⟨rfl, rfl, rfl, rfl, rfl⟩
  · intro e he; rw [hrot, he]
  · rw [hre]
    unfold TProfile.seen Profile.reflect
    rw [k1, k2, k3, k4, k5, k6, k7]
  · rw [hre, k1, k2, k3, k4]
    exact ⟨rfl, rfl, rfl, rfl⟩

/-- **C88** `scale` (with translation, the default) on a profile with an integer array: when the edges can be determined the exception is a
`TypeError`, and the profile is left displaced by minus its reference point in the arrays before the first integer array, and not scaled. So
`scale` succeeds exactly for float arrays. -/
theorem C88_scale (P : TProfile) (f : Num) (ref : Pt) (hr : P.seen.referencePoint = .ok ref) :
    (AllFloat P → ((TProfile.Stmt.scale f true).run P).2 = .ok ()) ∧
    (¬ AllFloat P → (TProfile.Stmt.scale f true).run P = (TProfile.Stmt.translate (.float (-ref.1), .float (-ref.2))).run P ∧
      ((TProfile.Stmt.scale f true).run P).2 = .error .typeError) := by
  constructor
  · intro h
    obtain ⟨P', k1, -⟩ := (TProfile.run_float (.scale f true) h).1 _ (by
      simp only [untyped, Heap.Stmt.value, Profile.scale, if_true, hr, bind, Except.bind, pure, Except.pure]; rfl)
    rw [k1]
  · intro h
    have k := (C88_translate P (.float (-ref.1), .float (-ref.2))).1
    simp only [TProfile.acc_float] at k
    rw [if_neg (show ¬ (P.xup.isInt = false ∧ P.xdown.isInt = false ∧ P.yup.isInt = false ∧ P.ydown.isInt = false) from h)] at k
    have e : (TProfile.Stmt.scale f true).run P = (TProfile.Stmt.translate (.float (-ref.1), .float (-ref.2))).run P := by
      conv_lhs => simp only [TProfile.Stmt.run]
      rw [hr]
      simp only
      have : TProfile.shift (TProfile.floatPair (-ref)) P = ((TProfile.shift (TProfile.floatPair (-ref)) P).1, .error .typeError) := Prod.ext rfl k
      rw [TProfile.andThen_err this, ← this]
      rfl
    exact ⟨e, by rw [e, k]⟩

/-- **C88** `set_thickness_max` refuses with a `TypeError` when one of the ordinates is an integer array: if it is the upper one nothing changes, if
only the lower one is, the upper ordinates have already been multiplied. -/
theorem C88_thickness (P : TProfile) (t old : ℝ) (h : P.seen.maxThickness = .ok old) :
    let ratio := if old ≠ 0 then t / old else 0
    let r := (TProfile.Stmt.setThickness t).run P
    (P.yup.isInt = true → r = (P, .error .typeError)) ∧
    (P.yup.isInt = false → P.ydown.isInt = true → r = ({ P with yup := ⟨P.yup.vals.map (· * ratio), false⟩ }, .error .typeError)) ∧
    (P.yup.isInt = false → P.ydown.isInt = false →
      r = ({ P with yup := ⟨P.yup.vals.map (· * ratio), false⟩, ydown := ⟨P.ydown.vals.map (· * ratio), false⟩ }, .ok ())) := by
  simp only [TProfile.Stmt.run, h, TProfile.andThen, TProfile.onYup, TProfile.onYdown]
  refine ⟨fun h1 => ?_, fun h1 h2 => ?_, fun h1 h2 => ?_⟩
  · rw [TProfile.imul_rej (by rw [TProfile.acc_float, h1]; simp)]
  · rw [TProfile.imul_acc (by rw [TProfile.acc_float, h1])]
    simp only
    rw [TProfile.imul_rej (by rw [TProfile.acc_float, h2]; simp)]
    simp only [h1]
    rfl
  · rw [TProfile.imul_acc (by rw [TProfile.acc_float, h1])]
    simp only
    rw [TProfile.imul_acc (by rw [TProfile.acc_float, h2])]
    simp only [h1, h2]
    rfl

namespace TProfile

theorem integral_map_add {a : TArr} (ha : Integral a) {v : Num} (hv : v.isInt = true → ∃ n : Int, v.val = n) : Integral (a.iadd v).1 := by
  unfold TArr.iadd
  split_ifs with h
  · exact ha
  · intro hi x hx
    simp only at hi
    obtain ⟨y, hy, rfl⟩ := List.mem_map.1 hx
    obtain ⟨n, rfl⟩ := ha hi y hy
    obtain ⟨m, hm⟩ := hv (by
      by_contra hc
      exact h ⟨hi, by simpa using hc⟩)
    exact ⟨n + m, by rw [hm]; push_cast; ring⟩

theorem integral_map_mul {a : TArr} (ha : Integral a) {v : Num} (hv : v.isInt = true → ∃ n : Int, v.val = n) : Integral (a.imul v).1 := by
  unfold TArr.imul
  split_ifs with h
  · exact ha
  · intro hi x hx
    simp only at hi
    obtain ⟨y, hy, rfl⟩ := List.mem_map.1 hx
    obtain ⟨n, rfl⟩ := ha hi y hy
    obtain ⟨m, hm⟩ := hv (by
      by_contra hc
      exact h ⟨hi, by simpa using hc⟩)
    exact ⟨n * m, by rw [hm]; push_cast; ring⟩

/-- An action keeps the integer arrays integral. -/
def Keeps (f : Action) : Prop := ∀ P, IntegralProfile P → IntegralProfile (f P).1

theorem Keeps.andThen {f g : Action} (hf : Keeps f) (hg : Keeps g) : Keeps (andThen f g) := by
  intro P hP
  have h1 := hf P hP
  unfold TProfile.andThen
  rcases hf : f P with ⟨Q, e | u⟩
  · rw [hf] at h1; exact h1
  · rw [hf] at h1; exact hg Q h1

theorem keeps_xup {f : TArr → TArr × Res Unit} (h : ∀ a, Integral a → Integral (f a).1) : Keeps (onXup f) :=
  fun P hP => ⟨h _ hP.1, hP.2.1, hP.2.2.1, hP.2.2.2⟩
theorem keeps_xdown {f : TArr → TArr × Res Unit} (h : ∀ a, Integral a → Integral (f a).1) : Keeps (onXdown f) :=
  fun P hP => ⟨hP.1, h _ hP.2.1, hP.2.2.1, hP.2.2.2⟩
theorem keeps_yup {f : TArr → TArr × Res Unit} (h : ∀ a, Integral a → Integral (f a).1) : Keeps (onYup f) :=
  fun P hP => ⟨hP.1, hP.2.1, h _ hP.2.2.1, hP.2.2.2⟩
theorem keeps_ydown {f : TArr → TArr × Res Unit} (h : ∀ a, Integral a → Integral (f a).1) : Keeps (onYdown f) :=
  fun P hP => ⟨hP.1, hP.2.1, hP.2.2.1, h _ hP.2.2.2⟩

theorem keeps_shift {v : Num × Num} (h1 : v.1.isInt = true → ∃ n : Int, v.1.val = n) (h2 : v.2.isInt = true → ∃ n : Int, v.2.val = n) : Keeps (shift v) :=
  (keeps_xup fun _ ha => integral_map_add ha h1).andThen ((keeps_xdown fun _ ha => integral_map_add ha h1).andThen
    ((keeps_yup fun _ ha => integral_map_add ha h2).andThen (keeps_ydown fun _ ha => integral_map_add ha h2)))

theorem keeps_mulAll {v : Num} (h1 : v.isInt = true → ∃ n : Int, v.val = n) : Keeps (mulAll v) :=
  (keeps_xup fun _ ha => integral_map_mul ha h1).andThen ((keeps_xdown fun _ ha => integral_map_mul ha h1).andThen
    ((keeps_yup fun _ ha => integral_map_mul ha h1).andThen (keeps_ydown fun _ ha => integral_map_mul ha h1)))

theorem float_lit (x : ℝ) : (Num.float x).isInt = true → ∃ n : Int, (Num.float x).val = n := fun h => by simp [Num.float] at h

theorem integral_ofFloats (Q : Profile) : IntegralProfile (ofFloats Q) :=
  ⟨fun h => by simp [ofFloats, TArr.float] at h, fun h => by simp [ofFloats, TArr.float] at h, fun h => by simp [ofFloats, TArr.float] at h,
    fun h => by simp [ofFloats, TArr.float] at h⟩

theorem keeps_run {s : Stmt} (hs : ArgsIntegral s) : Keeps s.run := by
  cases s with
  | skip => exact fun P hP => hP
  | translate v => exact keeps_shift hs.1 hs.2
  | translateRef =>
    intro P hP
    simp only [Stmt.run]
    rcases P.seen.referencePoint with e | ref
    · exact hP
    · exact keeps_shift (float_lit _) (float_lit _) P hP
  | scale f b =>
    cases b with
    | false => exact keeps_mulAll hs
    | true =>
      intro P hP
      simp only [Stmt.run]
      rcases P.seen.referencePoint with e | ref
      · exact hP
      · exact ((keeps_shift (float_lit _) (float_lit _)).andThen ((keeps_mulAll hs).andThen (keeps_shift (float_lit _) (float_lit _)))) P hP
  | setThickness t =>
    intro P hP
    simp only [Stmt.run]
    rcases P.seen.maxThickness with e | old
    · exact hP
    · exact ((keeps_yup fun _ ha => integral_map_mul ha (float_lit _)).andThen (keeps_ydown fun _ ha => integral_map_mul ha (float_lit _))) P hP
  | setCamber c =>
    intro P hP
    simp only [Stmt.run]
    rcases hr : P.seen.setCamberLineMax c with e | Q
    · exact hP
    · simp only
      split_ifs with hx
      · obtain ⟨e1, e2⟩ := Heap.setCamber_x hr hx
        refine ⟨?_, ?_, (integral_ofFloats Q).2.2.1, (integral_ofFloats Q).2.2.2⟩
        · show Integral ⟨Q.xup, P.xup.isInt⟩
          rw [e1]; exact hP.1
        · show Integral ⟨Q.xdown, P.xdown.isInt⟩
          rw [e2]; exact hP.2.1
      · exact integral_ofFloats Q
  | reflect => exact keeps_mulAll fun _ => ⟨-1, by simp⟩
  | rotate r d =>
    intro P hP
    simp only [Stmt.run]
    rcases P.seen.rotate r d with e | Q
    · exact hP
    · exact integral_ofFloats Q

end TProfile

/-- **C88** for every history of calls, failing or not, on every profile: an array that is still of integer type contains integers only
(nothing has been rounded into it). -/
theorem C88_no_rounding (l : List TProfile.Stmt) (hl : ∀ s ∈ l, ArgsIntegral s) (P : TProfile) (hP : IntegralProfile P) :
    IntegralProfile (TProfile.runAll l P).1 := by
  induction l generalizing P with
  | nil => exact hP
  | cons s l ih =>
    have h1 := TProfile.keeps_run (hl s (by simp)) P hP
    simp only [TProfile.runAll, TProfile.andThen]
    rcases hr : s.run P with ⟨Q, e | u⟩
    · rw [hr] at h1; exact h1
    · rw [hr] at h1; exact ih (fun s hs => hl s (List.mem_cons_of_mem _ hs)) Q h1

namespace TProfile

theorem sectionStmts_untyped (b : Blade) (ci : Bool) (n : Nat) (refl : Bool) (i : Nat) :
    (sectionStmts b ci n refl i).map (Except.map untyped) = Heap.sectionStmts b n refl i := by
  simp only [sectionStmts, Heap.sectionStmts, List.map_cons, List.map_nil, List.cons.injEq, and_true]
  refine ⟨rfl, ?_, ?_, ?_, ?_, ?_, ?_, ?_⟩
  · rcases getIdx b.chord i <;> rfl
  · rcases b.thickness with _ | t
    · rfl
    · simp only; rcases getIdx t i <;> rfl
  · rcases b.camber with _ | t
    · rfl
    · simp only
      split_ifs
      · rcases getIdx t i <;> rfl
      · rfl
  · cases refl <;> rfl
  · rcases getIdx b.pitch i with _ | p
    · rfl
    rcases getIdx b.radii i with _ | r
    · rfl
    simp only [bind, Except.bind]
    rcases Blade.pitchAngle p r <;> rfl
  · rcases getIdx b.radii i with _ | r
    · rfl
    rcases getIdx b.skew i <;> rfl
  · rcases getIdx b.pitch i with _ | p
    · rfl
    rcases getIdx b.radii i with _ | r
    · rfl
    rcases getIdx b.skew i with _ | s
    · rfl
    simp only [bind, Except.bind]
    rcases Blade.inducedRake p r s with _ | ir
    · rfl
    simp only
    rcases getIdx b.rake i <;> rfl

theorem runStmts_float : ∀ (l : List (Res Stmt)) (P : TProfile), AllFloat P → AllFloat (runStmts l P).1 ∧
    ((runStmts l P).1.seen, (runStmts l P).2) =
      Blade.runSteps ((l.map (Except.map untyped)).map fun s P => (do (← s).value P : Res Profile)) P.seen := by
  intro l
  induction l with
  | nil => intro P h; exact ⟨h, rfl⟩
  | cons s l ih =>
    intro P h
    rcases s with e | s
    · exact ⟨h, rfl⟩
    · obtain ⟨hok, herr⟩ := run_float s h
      simp only [runStmts, List.map_cons, Blade.runSteps]
      show _ ∧ _ = (match (untyped s).value P.seen with | .ok Q => _ | .error e => _)
      rcases hv : (untyped s).value P.seen with e | Q
      · rw [andThen_err (herr e hv)]; exact ⟨h, rfl⟩
      · obtain ⟨P', k1, k2, k3⟩ := hok Q hv
        rw [andThen_ok k1]
        obtain ⟨g1, g2⟩ := ih P' k3
        exact ⟨g1, by rw [g2, k2]⟩

theorem section_float (b : Blade) (ci : Bool) (S : List Profile) (refl : Bool) (i : Nat) {P : TProfile} (h : AllFloat P) :
    AllFloat (runStmts (sectionStmts b ci S.length refl i) P).1 ∧
    ((runStmts (sectionStmts b ci S.length refl i) P).1.seen, (runStmts (sectionStmts b ci S.length refl i) P).2) =
      Blade.runSteps (Blade.sectionSteps { b with sections := S } refl i) P.seen := by
  have := runStmts_float (sectionStmts b ci S.length refl i) P h
  rw [sectionStmts_untyped, ← Heap.steps_value] at this
  exact this

theorem loop_float (b : Blade) (ci : Bool) (S : List Profile) (refl : Bool) : ∀ (A : List TProfile) (i : Nat), (∀ P ∈ A, AllFloat P) →
    (∀ P ∈ (sectionLoop b ci S.length refl i A).1, AllFloat P) ∧
    ((sectionLoop b ci S.length refl i A).1.map seen, (sectionLoop b ci S.length refl i A).2) =
      Blade.sectionLoop { b with sections := S } refl i (A.map seen) := by
  intro A
  induction A with
  | nil => intro i _; exact ⟨by simp [sectionLoop], rfl⟩
  | cons P A ih =>
    intro i hA
    obtain ⟨h1, h2⟩ := section_float b ci S refl i (hA P (by simp))
    have hA' : ∀ Q ∈ A, AllFloat Q := fun Q hQ => hA Q (List.mem_cons_of_mem _ hQ)
    simp only [sectionLoop, List.map_cons, Blade.sectionLoop]
    rw [← h2]
    rcases hr : runStmts (sectionStmts b ci S.length refl i) P with ⟨Q, e | u⟩
    · rw [hr] at h1
      simp only [List.map_cons]
      exact ⟨by intro X hX; rcases List.mem_cons.1 hX with rfl | hX; exacts [h1, hA' X hX], trivial⟩
    · rw [hr] at h1
      obtain ⟨g1, g2⟩ := ih (i + 1) hA'
      simp only [List.map_cons]
      refine ⟨by intro X hX; rcases List.mem_cons.1 hX with rfl | hX; exacts [h1, g1 X hX], ?_⟩
      rw [← g2]

theorem loop_append (b : Blade) (ci : Bool) (n : Nat) (refl : Bool) (B : List TProfile) : ∀ (A : List TProfile) (i : Nat),
    sectionLoop b ci n refl i (A ++ B) =
      match sectionLoop b ci n refl i A with
      | (A', .error e) => (A' ++ B, .error e)
      | (A', .ok ()) => (A' ++ (sectionLoop b ci n refl (i + A.length) B).1, (sectionLoop b ci n refl (i + A.length) B).2) := by
  intro A
  induction A with
  | nil => intro i; simp [sectionLoop]
  | cons P A ih =>
    intro i
    simp only [List.cons_append, sectionLoop]
    rcases hr : runStmts (sectionStmts b ci n refl i) P with ⟨Q, e | u⟩
    · simp
    · simp only
      rw [ih (i + 1)]
      rw [show i + 1 + A.length = i + (P :: A).length by simp; omega]
      rcases sectionLoop b ci n refl (i + 1) A with ⟨A', e | u⟩ <;> simp

theorem runStmts_head (b : Blade) (ci : Bool) (n : Nat) (refl : Bool) (i : Nat) (P Q : TProfile) (e : PyErr)
    (h : Stmt.translateRef.run P = (Q, .error e)) : runStmts (sectionStmts b ci n refl i) P = (Q, .error e) := by
  simp only [sectionStmts, runStmts]
  exact andThen_err h

end TProfile

/-- **C88** `apply_transformations` on sections with float arrays gives the sections, and the coordinates or the exception, of the description
without types (C46-C48). -/
theorem C88_blade_float (b : Blade) (chordInt refl : Bool) (S : List TProfile) (hS : ∀ P ∈ S, AllFloat P) (b' : Blade) (r : Res Unit)
    (h : Blade.applyTransformations refl { b with sections := S.map TProfile.seen } = (b', r)) :
    ((TProfile.applyTransformations b chordInt refl S).1.map TProfile.seen = b'.sections) ∧
    (TProfile.applyTransformations b chordInt refl S).2 = r.map fun _ => (b'.coordsUp, b'.coordsDown) := by
  obtain ⟨-, g2⟩ := TProfile.loop_float b chordInt (S.map TProfile.seen) refl S 0 hS
  rw [List.length_map] at g2
  unfold Blade.applyTransformations at h
  simp only at h
  rw [← g2] at h
  unfold TProfile.applyTransformations
  rcases hl : TProfile.sectionLoop b chordInt S.length refl 0 S with ⟨S', e | u⟩
  · rw [hl] at h
    simp only [Prod.mk.injEq] at h
    obtain ⟨rfl, rfl⟩ := h
    exact ⟨rfl, rfl⟩
  · rw [hl] at h
    simp only at h ⊢
    rcases hc : Blade.cylindrical (S'.map TProfile.seen) b.radii with e | ⟨up, down⟩
    · rw [hc] at h
      simp only [Prod.mk.injEq] at h
      obtain ⟨rfl, rfl⟩ := h
      exact ⟨rfl, rfl⟩
    · rw [hc] at h
      simp only [Prod.mk.injEq] at h
      obtain ⟨rfl, rfl⟩ := h
      exact ⟨rfl, rfl⟩

/-- **C88** `apply_transformations` on sections of which `P` is the first with an integer array: it never succeeds. If the sections before `P` go
through, and the edges of `P` can be determined, the exception is a `TypeError`; the sections before `P` are then completely transformed, `P`
is displaced by minus its reference point in the arrays before its first integer array only (C88_translate), and the sections after `P` are as
they were. -/
theorem C88_blade_integer (b : Blade) (chordInt refl : Bool) (A B : List TProfile) (P : TProfile) (hA : ∀ Q ∈ A, AllFloat Q) (hP : ¬ AllFloat P) :
    (∀ c, (TProfile.applyTransformations b chordInt refl (A ++ P :: B)).2 ≠ .ok c) ∧
    ∀ (done : List Profile) (ref : Pt),
      Blade.sectionLoop { b with sections := (A ++ P :: B).map TProfile.seen } refl 0 (A.map TProfile.seen) = (done, .ok ()) →
      P.seen.referencePoint = .ok ref →
      (TProfile.applyTransformations b chordInt refl (A ++ P :: B)).2 = .error .typeError ∧
      ∃ A', A'.map TProfile.seen = done ∧ (TProfile.applyTransformations b chordInt refl (A ++ P :: B)).1 =
        A' ++ ((TProfile.Stmt.translate (.float (-ref.1), .float (-ref.2))).run P).1 :: B := by
  obtain ⟨-, g2⟩ := TProfile.loop_float b chordInt ((A ++ P :: B).map TProfile.seen) refl A 0 hA
  rw [List.length_map] at g2
  have hap := TProfile.loop_append b chordInt (A ++ P :: B).length refl (P :: B) A 0
  have key : ∀ i, (∀ e, P.seen.referencePoint = .error e → TProfile.runStmts (TProfile.sectionStmts b chordInt (A ++ P :: B).length refl i) P = (P, .error e)) ∧
      ∀ ref, P.seen.referencePoint = .ok ref → TProfile.runStmts (TProfile.sectionStmts b chordInt (A ++ P :: B).length refl i) P =
        (((TProfile.Stmt.translate (.float (-ref.1), .float (-ref.2))).run P).1, .error .typeError) := by
    intro i
    constructor
    · intro e he
      exact TProfile.runStmts_head _ _ _ _ _ _ _ _ (by simp only [TProfile.Stmt.run]; rw [he])
    · intro ref hr
      refine TProfile.runStmts_head _ _ _ _ _ _ _ _ ?_
      have k := (C88_translate P (.float (-ref.1), .float (-ref.2))).1
      simp only [TProfile.acc_float] at k
      rw [if_neg (show ¬ (P.xup.isInt = false ∧ P.xdown.isInt = false ∧ P.yup.isInt = false ∧ P.ydown.isInt = false) from hP)] at k
      rw [← k]
      simp only [TProfile.Stmt.run]
      rw [hr]
      rfl
  constructor
  · intro c hc
    unfold TProfile.applyTransformations at hc
    rw [hap] at hc
    rcases hl : TProfile.sectionLoop b chordInt (A ++ P :: B).length refl 0 A with ⟨A', e | u⟩
    · rw [hl] at hc; simp at hc
    · rw [hl] at hc
      simp only [TProfile.sectionLoop] at hc
      rcases hr : P.seen.referencePoint with e | ref
      · rw [(key _).1 e hr] at hc; simp at hc
      · rw [(key _).2 ref hr] at hc; simp at hc
  · intro done ref hd hr
    rw [hd] at g2
    unfold TProfile.applyTransformations
    rw [hap]
    rcases hl : TProfile.sectionLoop b chordInt (A ++ P :: B).length refl 0 A with ⟨A', e | u⟩
    · rw [hl] at g2; simp at g2
    · rw [hl] at g2
      simp only [Prod.mk.injEq] at g2
      simp only [TProfile.sectionLoop]
      rw [(key _).2 ref hr]
      exact ⟨rfl, A', g2.1, rfl⟩

namespace TProfile

theorem checkCoordinates_eq {a b c d : Arr} {Q : Profile} (h : Custom.checkCoordinates (some a) (some b) (some c) (some d) = .ok Q) :
    Q.xup = a ∧ Q.yup = b ∧ Q.xdown = c ∧ Q.ydown = d := by
  unfold Custom.checkCoordinates at h
  simp only [Custom.require, bind, Except.bind, pure, Except.pure, throw, throwThe, MonadExceptOf.throw] at h
  repeat' (split at h <;> try (cases h))
  exact ⟨rfl, rfl, rfl, rfl⟩

end TProfile

/-- **C88** which profiles have integer arrays: a profile made from lists of coordinates has float arrays, one made from numpy arrays has arrays of
the types given; one made from the section parameters has float arrays unless both the chord percentages are an integer array and the chord
length is an integer. -/
theorem C88_construct (xup yup xdown ydown : TProfile.Arg) (P : TProfile) (h : TProfile.ofCoordinates xup yup xdown ydown = .ok P) :
    ((∀ l, xup = .list l → P.xup = ⟨l, false⟩) ∧ (∀ a, xup = .ndarray a → P.xup = a)) ∧
    ((∀ l, yup = .list l → P.yup = ⟨l, false⟩) ∧ (∀ a, yup = .ndarray a → P.yup = a)) ∧
    ((∀ l, xdown = .list l → P.xdown = ⟨l, false⟩) ∧ (∀ a, xdown = .ndarray a → P.xdown = a)) ∧
    ((∀ l, ydown = .list l → P.ydown = ⟨l, false⟩) ∧ (∀ a, ydown = .ndarray a → P.ydown = a)) := by
  unfold TProfile.ofCoordinates at h
  rw [Profile.bndA] at h
  obtain ⟨Q, hQ, h⟩ := h
  obtain rfl := Except.ok.inj h
  obtain ⟨e1, e2, e3, e4⟩ := TProfile.checkCoordinates_eq hQ
  simp only
  rw [e1, e2, e3, e4]
  refine ⟨⟨?_, ?_⟩, ⟨?_, ?_⟩, ⟨?_, ?_⟩, ⟨?_, ?_⟩⟩ <;> (rintro x rfl; rfl)

/-- **C88** (parameters) see `C88_construct`. -/
theorem C88_construct_parameters (p : Params) (percInt lenInt : Bool) (P : TProfile) (h : TProfile.ofParameters p percInt lenInt = .ok P) :
    (AllFloat P ↔ ¬ (percInt = true ∧ lenInt = true)) ∧ P.xup.vals = p.chordPerc.map (· * p.chordLength) ∧ P.xdown = P.xup ∧
    P.yup.isInt = false ∧ P.ydown.isInt = false := by
  unfold TProfile.ofParameters at h
  rw [Profile.bndA] at h
  obtain ⟨Q, hQ, h⟩ := h
  obtain rfl := Except.ok.inj h
  unfold Custom.britishCoordinates at hQ
  simp only [Profile.bndA] at hQ
  obtain ⟨yu, -, yd, -, hQ⟩ := hQ
  obtain rfl := Except.ok.inj hQ
  refine ⟨?_, rfl, rfl, rfl, rfl⟩
  unfold AllFloat
  cases percInt <;> cases lenInt <;> simp [TProfile.ofFloats, TArr.float]

/-- The sample foils: integer abscissae refuse at once, integer lower ordinates at the end. -/
example : ¬ AllFloat Sample.intFoil ∧ IntegralProfile Sample.intFoil ∧ Sample.intFoil.seen.referencePoint = .ok (1, 0) ∧
    Sample.intLower.seen.maxThickness = .ok (3 / 2) := by
  refine ⟨fun h => absurd h.1 (by simp [Sample.intFoil]), ⟨fun _ x hx => ?_, fun _ x hx => ?_, fun h => absurd h (by simp [Sample.intFoil]), fun h => absurd h (by simp [Sample.intFoil])⟩, ?_, ?_⟩
  · simp only [Sample.intFoil, List.mem_cons, List.not_mem_nil, or_false] at hx
    rcases hx with rfl | rfl | rfl
    exacts [⟨0, by simp⟩, ⟨1, by simp⟩, ⟨2, by simp⟩]
  · simp only [Sample.intFoil, List.mem_cons, List.not_mem_nil, or_false] at hx
    rcases hx with rfl | rfl | rfl
    exacts [⟨0, by simp⟩, ⟨1, by simp⟩, ⟨2, by simp⟩]
  · simp [TProfile.seen, Sample.intFoil, Profile.referencePoint, Profile.updateEdges, getFirst, getLast, bind, Except.bind, pure, Except.pure]
    norm_num
  · simp [TProfile.seen, Sample.intLower, Profile.maxThickness, Profile.effectiveN, npEqAll, bzip, npMax, bind, Except.bind, pure, Except.pure]
    norm_num

/-- The first section goes through, the second has integer abscissae: the hypotheses of `C88_blade_integer` are met. -/
example : ∃ done, Blade.sectionLoop { Sample.blade2 with sections := ([TProfile.ofFloats Sample.foil] ++ Sample.intFoil :: []).map TProfile.seen } true 0
    ([TProfile.ofFloats Sample.foil].map TProfile.seen) = (done, .ok ()) := by
  obtain ⟨Q, hQ, -⟩ := (Blade.section_plain (b := { Sample.blade2 with sections := ([TProfile.ofFloats Sample.foil] ++ Sample.intFoil :: []).map TProfile.seen })
    (refl := true) (i := 0) rfl rfl rfl rfl rfl rfl rfl (P := Sample.foil) Sample.foil_uniform).2 (1/2, 0) (by norm_num) Sample.foil_reference
  refine ⟨[Q], ?_⟩
  simp only [List.map_cons, List.map_nil, Blade.sectionLoop, TProfile.seen_ofFloats] at hQ ⊢
  rw [hQ]

end
end BladeX
