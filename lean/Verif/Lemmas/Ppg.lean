import Verif.Lemmas.Blade
import Verif.Spec.Ppg
import Verif.Lemmas.Text
import Verif.Lemmas.ParamFile

/-! # Lemmas for `export_ppg` -/

namespace BladeX
noncomputable section
open Classical

theorem splitNL_unlines_append {ls : List Str} {l : Str} (h : ∀ l ∈ ls, '\n' ∉ l) (hl : '\n' ∉ l) :
    splitNL (unlines ls ++ l) = ls ++ [l] := by
  induction ls with
  | nil => simpa [unlines] using splitNL_line hl
  | cons a ls ih =>
    simp only [unlines, List.map_cons, List.flatten_cons, List.append_assoc, List.singleton_append, List.cons_append]
    rw [splitNL_cons_line (h a (by simp))]
    have := ih (fun l hl => h l (by simp [hl]))
    simp only [unlines] at this
    rw [List.nil_append, this]

theorem unlines_append (a b : List Str) : unlines (a ++ b) = unlines a ++ unlines b := by simp [unlines]

theorem unlines_map {α : Type*} (f : α → Str) (l : List α) :
    unlines (l.map f) = (l.map fun x => f x ++ c!"\n").flatten := by
  simp [unlines, List.map_map, Function.comp_def]

theorem unlines_flatten (l : List (List Str)) : unlines l.flatten = (l.map unlines).flatten := by
  induction l with
  | nil => rfl
  | cons a l ih => simp [unlines_append, ih]

/-- Look-up in a concatenation of blocks of equal size. -/
theorem getElem?_blocks {α : Type*} {m : Nat} : ∀ (l : List (List α)), (∀ a ∈ l, a.length = m) →
    ∀ (i k : Nat) (a : List α), l[i]? = some a → k < m → l.flatten[m * i + k]? = a[k]? := by
  intro l
  induction l with
  | nil => intro _ i k a h; simp at h
  | cons x l ih =>
    intro h i k a ha hk
    have hx := h x (by simp)
    cases i with
    | zero =>
      simp only [List.getElem?_cons_zero, Option.some.injEq] at ha
      subst ha
      rw [List.flatten_cons, Nat.mul_zero, Nat.zero_add, List.getElem?_append_left (by omega)]
    | succ i =>
      simp only [List.getElem?_cons_succ] at ha
      rw [List.flatten_cons, List.getElem?_append_right (by rw [hx, Nat.mul_succ]; omega), hx]
      rw [show m * (i + 1) + k - m = m * i + k by rw [Nat.mul_succ]; omega]
      exact ih (fun a h' => h a (by simp [h'])) i k a ha hk

theorem length_blocks {α : Type*} {m : Nat} (l : List (List α)) (h : ∀ a ∈ l, a.length = m) : l.flatten.length = m * l.length := by
  induction l with
  | nil => simp
  | cons x l ih => simp [h x (by simp), ih (fun a h' => h a (by simp [h'])), Nat.mul_succ]; omega

namespace Blade

set_option maxRecDepth 20000 in
theorem header_eq (F : Fmt) (D Dhub : ℝ) (nB : Int) (n : Nat) : ppgHeader F D Dhub nB n = unlines (Spec.ppgHead F D Dhub nB n) := by
  unfold ppgHeader unlines Spec.ppgHead
  generalize F.float D = a1
  generalize F.float Dhub = a2
  generalize F.int n = a3
  generalize F.int nB = a4
  simp only [List.map_cons, List.map_nil, List.flatten_cons, List.flatten_nil]
  simp only [List.append_assoc]
  rfl

set_option maxRecDepth 20000 in
theorem header_oneLine {F : Fmt} (hF : F.OneLine) (D Dhub : ℝ) (nB : Int) (n : Nat) :
    ∀ l ∈ Spec.ppgHead F D Dhub nB n, '\n' ∉ l := by
  intro l hl
  simp only [Spec.ppgHead, List.mem_cons, List.not_mem_nil, or_false] at hl
  rcases hl with rfl | rfl | rfl | rfl | rfl | rfl | rfl | rfl | rfl | rfl <;>
    simp [hF.1, hF.2.1, hF.2.2]

def valueLine (F : Fmt) (v : Arr) : Str := (v.map fun x => c!" " ++ F.e8 x).flatten

theorem valueLine_oneLine {F : Fmt} (hF : F.OneLine) (v : Arr) : '\n' ∉ valueLine F v := by
  simp [valueLine, hF.1]

def hubLine (F : Fmt) (o : Pt) : Str := F.e8 o.1 ++ c!" " ++ F.e8 o.2

def hubLines (F : Fmt) : List Str := (c!"number of Hub offsets = " ++ F.int hubOffsets.length) :: hubOffsets.dropLast.map (hubLine F)

set_option maxRecDepth 20000 in
theorem hub_eq (F : Fmt) : ppgHub F = unlines (hubLines F) ++ hubLine F (0.79, 0.0) := by
  simp [ppgHub, hubLines, hubLine, hubOffsets, unlines, List.mapIdx_cons]

theorem hub_oneLine {F : Fmt} (hF : F.OneLine) : ∀ l ∈ hubLines F, '\n' ∉ l := by
  intro l hl
  simp only [hubLines, List.mem_cons] at hl
  rcases hl with rfl | hl
  · simp [hF.2.2]
  · obtain ⟨o, _, rfl⟩ := List.mem_map.1 hl
    simp [hubLine, hF.1]

/-- The block of a section. -/
def blockLines (F : Fmt) (r : ℝ) (P : Profile) : List Str :=
  [F.e8 r ++ c!"  " ++ F.int P.xup.length, valueLine F P.xup ++ c!" ", valueLine F P.yup ++ c!" ", valueLine F P.ydown ++ c!" "]

theorem block_oneLine {F : Fmt} (hF : F.OneLine) (r : ℝ) (P : Profile) : ∀ l ∈ blockLines F r P, '\n' ∉ l := by
  intro l hl
  simp only [blockLines, List.mem_cons, List.not_mem_nil, or_false] at hl
  rcases hl with rfl | rfl | rfl | rfl
  · simp [hF.1, hF.2.2]
  all_goals simp [valueLine_oneLine hF]

theorem mapM_range_ok {β : Type} {f : Nat → Res β} {n : Nat} {r : List β} :
    (List.range n).mapM f = .ok r ↔ r.length = n ∧ ∀ i c, r[i]? = some c → f i = .ok c := by
  rw [mapM_ok]
  simp only [List.length_range]
  constructor
  · rintro ⟨h1, h2⟩
    refine ⟨h1, fun i c hc => h2 i i c ?_ hc⟩
    exact List.getElem?_range (by rw [← h1]; exact (List.getElem?_eq_some_iff.1 hc).1)
  · rintro ⟨h1, h2⟩
    refine ⟨h1, fun i a c ha hc => ?_⟩
    obtain ⟨hi, rfl⟩ := List.getElem?_eq_some_iff.1 ha
    simpa using h2 i c hc

theorem mapM_range_of {β : Type} {f : Nat → Res β} {n : Nat} {g : Nat → β} (h : ∀ i < n, f i = .ok (g i)) :
    (List.range n).mapM f = .ok ((List.range n).map g) := by
  rw [mapM_range_ok]
  refine ⟨by simp, fun i c hc => ?_⟩
  obtain ⟨hi, hc'⟩ := List.getElem?_eq_some_iff.1 hc
  simp only [List.getElem_map, List.getElem_range] at hc'
  rw [h i (by simpa using hi), hc']

/-- The row of a section. -/
def rowLine (F : Fmt) (v : Arr) : Str := valueLine F v

theorem getIdx_getD {a : Arr} {i : Nat} (h : i < a.length) : getIdx a i = .ok (a.getD i 0) := by
  simp [getIdx, h]

/-- The whole text. -/
theorem ppgText_lines {F : Fmt} (hF : F.OneLine) {D Dhub : ℝ} {nB : Int} {b : Blade} (hW : b.WellFormed) {th ca : Arr}
    (ht : th.length = b.sections.length) (hc : ca.length = b.sections.length) :
    ∃ t, ppgText F D Dhub nB b th ca = .ok t ∧ splitNL t = Spec.ppgHead F D Dhub nB b.sections.length ++
      ((List.range b.sections.length).map fun i => valueLine F [b.radii.getD i 0, b.chord.getD i 0, b.skew.getD i 0, b.rake.getD i 0,
        b.pitch.getD i 0, th.getD i 0, ca.getD i 0]) ++
      ((List.range b.sections.length).map fun i => blockLines F (b.radii.getD i 0) (b.sections.getD i Sample.foil)).flatten ++
      hubLines F ++ [hubLine F (0.79, 0.0)] := by
  obtain ⟨wr, wc, wp, wk, ws⟩ := hW
  have h1 : (List.range b.sections.length).mapM (ppgRow F b th ca) = .ok ((List.range b.sections.length).map fun i =>
      valueLine F [b.radii.getD i 0, b.chord.getD i 0, b.skew.getD i 0, b.rake.getD i 0, b.pitch.getD i 0, th.getD i 0, ca.getD i 0]
        ++ c!"\n") := by
    apply mapM_range_of
    intro i hi
    rw [ppgRow, getIdx_getD (by omega), getIdx_getD (by omega), getIdx_getD (by omega), getIdx_getD (by omega), getIdx_getD (by omega),
      getIdx_getD (by omega), getIdx_getD (by omega)]
    simp [bind, Except.bind, pure, Except.pure, valueLine]
  have h2 : (List.range b.sections.length).mapM (ppgSection F b) = .ok ((List.range b.sections.length).map fun i =>
      unlines (blockLines F (b.radii.getD i 0) (b.sections.getD i Sample.foil))) := by
    apply mapM_range_of
    intro i hi
    rw [ppgSection, getIdx_getD (by omega)]
    simp [bind, Except.bind, pure, Except.pure, getIdx, hi, blockLines, unlines, ppgValues, valueLine]
  unfold ppgText
  simp only [h1, h2, bind, Except.bind, pure, Except.pure]
  refine ⟨_, rfl, ?_⟩
  rw [header_eq, hub_eq]
  have h5 : ∀ l : List Nat, (l.map fun i => unlines (blockLines F (b.radii.getD i 0) (b.sections.getD i Sample.foil))).flatten =
      unlines (l.map fun i => blockLines F (b.radii.getD i 0) (b.sections.getD i Sample.foil)).flatten := by
    intro l
    rw [unlines_flatten, List.map_map]; rfl
  rw [← unlines_map, h5, ← List.append_assoc, ← unlines_append, ← unlines_append, ← unlines_append]
  apply splitNL_unlines_append
  · intro l hl
    simp only [List.mem_append] at hl
    rcases hl with ((hl | hl) | hl) | hl
    · exact header_oneLine hF _ _ _ _ l hl
    · obtain ⟨i, _, rfl⟩ := List.mem_map.1 hl
      exact valueLine_oneLine hF _
    · obtain ⟨B, hB, hl⟩ := List.mem_flatten.1 hl
      obtain ⟨i, _, rfl⟩ := List.mem_map.1 hB
      exact block_oneLine hF _ _ l hl
    · exact hub_oneLine hF l hl
  · simp [hubLine, hF.1]

end Blade
end
end BladeX
