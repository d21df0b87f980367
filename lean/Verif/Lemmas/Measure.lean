import Verif.Lemmas.Interp

namespace BladeX
open Spec

theorem bzip_map (f : ℝ → ℝ → ℝ) (k k' g : ℝ → ℝ) (h : ∀ x y, f (k x) (k' y) = g (f x y)) (a b : Arr) :
    bzip f (a.map k) (b.map k') = (bzip f a b).map (List.map g) := by
  unfold bzip
  by_cases hl : a.length = b.length
  · simp only [List.length_map, hl, if_true, Except.map]
    congr 1
    rw [List.zipWith_map, List.map_zipWith]
    congr 1; funext x y; exact h x y
  · simp only [List.length_map, hl, if_false]
    rcases a with _ | ⟨x, _ | ⟨x', a⟩⟩
    · rcases b with _ | ⟨y, _ | ⟨y', b⟩⟩ <;> simp_all [Except.map]
    · simp [Except.map, Function.comp_def, h]
    · rcases b with _ | ⟨y, _ | ⟨y', b⟩⟩ <;> simp_all [Except.map]

theorem npMax_map {l : List ℝ} {m : ℝ} {g : ℝ → ℝ} (hg : Monotone g) (h : npMax l = .ok m) :
    npMax (l.map g) = .ok (g m) := by
  rw [npMax_ok_iff] at *
  exact MaxOf.map_mono hg h

/-- The entry of `l` of largest magnitude (the first one). -/
noncomputable def peak (l : Arr) : ℝ := l.getD (argmax (l.map abs)) 0

theorem argmax_lt {l : Arr} (h : l ≠ []) : argmax l < l.length := by
  unfold argmax
  obtain ⟨m, hm⟩ := npMax_exists h
  rw [hm]
  apply List.findIdx_lt_length_of_exists
  obtain ⟨h1, _⟩ := npMax_ok_iff.1 hm
  exact ⟨m, h1, by simp⟩

theorem argmax_spec {l : Arr} {m : ℝ} (hm : npMax l = .ok m) : l[argmax l]? = some m := by
  have hne : l ≠ [] := by rintro rfl; simp [npMax] at hm
  have hlt := argmax_lt hne
  rw [List.getElem?_eq_getElem hlt]
  congr 1
  have : argmax l = l.findIdx (fun x => decide (x = m)) := by unfold argmax; rw [hm]
  have h2 := List.findIdx_getElem (p := fun x => decide (x = m)) (xs := l) (w := this ▸ hlt)
  simp only [this]
  exact of_decide_eq_true h2

theorem peak_mem {l : Arr} (h : l ≠ []) : peak l ∈ l := by
  unfold peak
  have : argmax (l.map abs) < l.length := by
    have := argmax_lt (l := l.map abs) (by simpa using h)
    simpa using this
  rw [List.getD_eq_getElem?_getD, List.getElem?_eq_getElem this]
  simp

theorem peak_abs {l : Arr} {m : ℝ} (h : npMax (l.map abs) = .ok m) : |peak l| = m := by
  have := argmax_spec h
  unfold peak
  rw [List.getElem?_map] at this
  rw [List.getD_eq_getElem?_getD]
  rcases hx : l[argmax (l.map abs)]? with _ | x
  · rw [hx] at this; simp at this
  · rw [hx] at this; simpa using this

theorem peak_max {l : Arr} : ∀ x ∈ l, |x| ≤ |peak l| := by
  intro x hx
  have hne : l.map abs ≠ [] := by intro h; simp at h; subst h; simp at hx
  obtain ⟨m, hm⟩ := npMax_exists hne
  rw [peak_abs hm]
  exact (npMax_ok_iff.1 hm).2 _ (List.mem_map_of_mem hx)

theorem peak_smul (l : Arr) (f : ℝ) : peak (l.map (f * ·)) = f * peak l := by
  rcases eq_or_ne l [] with rfl | hne
  · simp [peak]
  by_cases hf : f = 0
  · subst hf
    unfold peak
    rw [List.getD_eq_getElem?_getD, List.getElem?_map]
    rcases l[argmax (List.map abs (List.map (fun x => 0 * x) l))]? with _ | x <;> simp
  · have hab : (l.map (f * ·)).map abs = (l.map abs).map (|f| * ·) := by
      simp [Function.comp_def, abs_mul]
    obtain ⟨m, hm⟩ := npMax_exists (l := l.map abs) (by simpa using hne)
    have hm' : npMax ((l.map abs).map (|f| * ·)) = .ok (|f| * m) :=
      npMax_map (fun a b h => mul_le_mul_of_nonneg_left h (abs_nonneg f)) hm
    have harg : argmax ((l.map (f * ·)).map abs) = argmax (l.map abs) := by
      rw [hab]
      unfold argmax
      rw [hm, hm']
      simp only
      rw [List.findIdx_map]
      congr 1
      funext x
      simp [hf]
    unfold peak
    rw [harg, List.getD_eq_getElem?_getD, List.getD_eq_getElem?_getD, List.getElem?_map]
    rcases l[argmax (l.map abs)]? with _ | x <;> simp

namespace Profile

theorem effectiveN_same {P : Profile} (h : P.xup = P.xdown) (n : Option Int) (hn : n ≠ none → n ≠ some 0) :
    P.effectiveN n = .ok n := by
  unfold effectiveN
  rw [h, npEqAll_self]
  rcases n with _ | k
  · simp [bind, Except.bind, pure, Except.pure]
  · have : k ≠ 0 := fun hk => hn (by simp) (by rw [hk])
    simp [bind, Except.bind, pure, Except.pure, this]

theorem effectiveN_diff {P : Profile} (hl : P.xup.length = P.xdown.length) (h : P.xup ≠ P.xdown) :
    P.effectiveN none = .ok (some 500) := by
  unfold effectiveN npEqAll
  simp [hl, h, bind, Except.bind, pure, Except.pure]

theorem effectiveN_some {P : Profile} (hl : P.xup.length = P.xdown.length) {k : Int} (hk : k ≠ 0) :
    P.effectiveN (some k) = .ok (some k) := by
  unfold effectiveN npEqAll
  simp [hl, bind, Except.bind, pure, Except.pure, hk]

theorem effectiveN_congr {P Q : Profile} (h1 : Q.xup = P.xup) (h2 : Q.xdown = P.xdown) (n : Option Int) :
    Q.effectiveN n = P.effectiveN n := by
  unfold effectiveN; rw [h1, h2]

theorem interp_scale_y {P : Profile} {c : ℝ} {k : Int} {t : Interp}
    (h : P.interpolateCoordinates (.int k) 1 = .ok t) :
    ({ P with yup := P.yup.map (· * c), ydown := P.ydown.map (· * c) } : Profile).interpolateCoordinates (.int k) 1 =
      .ok ⟨t.xxUp, t.xxDown, t.yyUp.map (· * c), t.yyDown.map (· * c)⟩ := by
  have hk : 0 < k := by
    by_contra hk
    simp [interpolateCoordinates, bind, Except.bind, pure, Except.pure, throw, throwThe, MonadExceptOf.throw,
      not_lt.1 hk] at h
  rw [interpolate_int hk one_pos] at h ⊢
  obtain ⟨xu0, xu1, xd0, xd1, h1, h2, h3, h4, hs, n1, n2, rfl⟩ := (interpCore_ok_iff one_pos).1 h
  refine (interpCore_ok_iff one_pos).2 ⟨xu0, xu1, xd0, xd1, h1, h2, h3, h4, ?_, n1, n2, ?_⟩
  · simpa [Shaped] using hs
  · simp only [Interp.mk.injEq, List.map_map, true_and]
    constructor
    · congr 1; funext x; rw [Function.comp, interpW_smul]; ring
    · congr 1; funext x; rw [Function.comp, interpW_smul]; ring

theorem maxThickness_scale_y {P : Profile} {c m : ℝ} {n : Option Int} (h : P.maxThickness n = .ok m) :
    ({ P with yup := P.yup.map (· * c), ydown := P.ydown.map (· * c) } : Profile).maxThickness n = .ok (m * |c|) := by
  have hb : ∀ a b : Arr, bzip (fun a b => |a - b|) (a.map (· * c)) (b.map (· * c)) =
      (bzip (fun a b => |a - b|) a b).map (List.map (· * |c|)) := by
    intro a b
    apply bzip_map
    intro x y
    rw [← sub_mul, abs_mul]
  have hmono : Monotone (fun x : ℝ => x * |c|) := fun a b h => mul_le_mul_of_nonneg_right h (abs_nonneg c)
  have hNQ : ({ P with yup := P.yup.map (· * c), ydown := P.ydown.map (· * c) } : Profile).effectiveN n =
    P.effectiveN n := effectiveN_congr rfl rfl n
  unfold maxThickness at h ⊢
  rw [hNQ]
  rcases hN : P.effectiveN n with e | N
  · rw [hN] at h; simp [bind, Except.bind] at h
  rw [hN] at h
  simp only [bind, Except.bind] at h ⊢
  rcases N with _ | k
  · simp only at h ⊢
    rw [hb]
    rcases hd : bzip (fun a b => |a - b|) P.yup P.ydown with e | d
    · rw [hd] at h; simp at h
    · rw [hd] at h
      simp only [Except.map] at h ⊢
      exact npMax_map hmono h
  · simp only at h ⊢
    rcases ht : P.interpolateCoordinates (.int k) 1 with e | t
    · rw [ht] at h; simp at h
    rw [ht] at h
    rw [interp_scale_y ht]
    simp only at h ⊢
    rw [hb]
    rcases hd : bzip (fun a b => |a - b|) t.yyUp t.yyDown with e | d
    · rw [hd] at h; simp at h
    · rw [hd] at h
      simp only [Except.map] at h ⊢
      exact npMax_map hmono h

theorem bzip_forall {f : ℝ → ℝ → ℝ} {p : ℝ → Prop} (hf : ∀ x y, p (f x y)) {a b d : Arr} (h : bzip f a b = .ok d) :
    ∀ x ∈ d, p x := by
  unfold bzip at h
  split_ifs at h with hl
  · cases h
    intro x hx
    obtain ⟨i, hi, rfl⟩ := List.getElem_of_mem hx
    simp only [List.getElem_zipWith]; exact hf _ _
  · rcases a with _ | ⟨x, _ | ⟨x', a⟩⟩
    · rcases b with _ | ⟨y, _ | ⟨y', b⟩⟩
      · simp at hl
      · simp at h; subst h; simp
      · simp at h
    · simp at h; subst h
      intro z hz
      obtain ⟨w, _, rfl⟩ := List.mem_map.1 hz
      exact hf _ _
    · rcases b with _ | ⟨y, _ | ⟨y', b⟩⟩
      · simp at h
      · simp at h; subst h
        intro z hz
        simp only [List.mem_cons, List.mem_map] at hz
        rcases hz with rfl | rfl | ⟨w, _, rfl⟩ <;> exact hf _ _
      · simp at h

theorem maxThickness_nonneg {P : Profile} {m : ℝ} {n : Option Int} (h : P.maxThickness n = .ok m) : 0 ≤ m := by
  unfold maxThickness at h
  rcases hN : P.effectiveN n with e | N
  · rw [hN] at h; simp [bind, Except.bind] at h
  rw [hN] at h
  simp only [bind, Except.bind] at h
  have hf : ∀ x y : ℝ, 0 ≤ |x - y| := fun _ _ => abs_nonneg _
  rcases N with _ | k
  · simp only at h
    rcases hd : bzip (fun a b => |a - b|) P.yup P.ydown with e | d
    · rw [hd] at h; simp at h
    · rw [hd] at h
      exact bzip_forall (p := fun x => 0 ≤ x) hf hd _ (npMax_ok_iff.1 h).1
  · simp only at h
    rcases ht : P.interpolateCoordinates (.int k) 1 with e | t
    · rw [ht] at h; simp at h
    rw [ht] at h
    simp only at h
    rcases hd : bzip (fun a b => |a - b|) t.yyUp t.yyDown with e | d
    · rw [hd] at h; simp at h
    · rw [hd] at h
      exact bzip_forall (p := fun x => 0 ≤ x) hf hd _ (npMax_ok_iff.1 h).1

end Profile
end BladeX
