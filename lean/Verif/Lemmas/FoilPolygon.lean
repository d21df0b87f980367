import Verif.Spec.FoilPolygon
import Verif.Props.Inside
import Mathlib.Data.Set.Finite.Basic
import Mathlib.Data.Real.Basic

/-! # Crossings of a broken line, and affine maps -/

namespace BladeX
noncomputable section
open Spec Classical Polygon

namespace Polygon

/-- Side of the horizontal line. -/
def side (y : ℝ) (v : Pt) : Bool := decide (v.2 < y)

theorem onSegment_sub (a b : Pt) (s t : ℝ) : onSegment (onSegment a b s) b t = onSegment a b (s + t * (1 - s)) := by
  simp only [onSegment, Prod.mk.injEq]
  constructor <;> ring

/-- An edge that begins to the right of the point (or above or below it). -/
theorem cross_right {x y : ℝ} {a b : Pt} (ha : a.2 ≠ y) (hb : b.2 ≠ y) (hab : a.1 ≤ b.1) (hx : x ≤ a.1) (hn : ¬ OnEdge (x, y) a b) :
    Crosses (x, y) a b ↔ xor (side y a) (side y b) = true := by
  rw [side, side, ← sides y ha hb]
  constructor
  · rintro ⟨t, h0, h1, h2, -⟩; exact ⟨t, h0, h1, h2⟩
  · rintro ⟨t, h0, h1, h2⟩
    refine ⟨t, h0, h1, h2, ?_⟩
    have hle : x ≤ (onSegment a b t).1 := by
      simp only [onSegment]
      nlinarith
    refine lt_of_le_of_ne hle ?_
    intro e
    exact hn ⟨t, h0, h1, Prod.ext e.symm h2⟩

theorem cross_left {x y : ℝ} {a b : Pt} (ha : a.1 ≤ x) (hb : b.1 ≤ x) : ¬ Crosses (x, y) a b := by
  rintro ⟨t, h0, h1, -, h2⟩
  simp only [onSegment] at h2
  nlinarith

/-- An edge that passes above or below the point. -/
theorem cross_mid {x y h : ℝ} {a b : Pt} (hb : b.2 ≠ y) (hab : a.1 < b.1) (hn : ¬ OnEdge (x, y) a b) (hh : OnEdge (x, h) a b) :
    Crosses (x, y) a b ↔ xor (decide (h < y)) (side y b) = true := by
  have hy : h ≠ y := by rintro rfl; exact hn hh
  obtain ⟨s, s0, s1, hs⟩ := hh
  have hs1 : (onSegment a b s).1 = x := by rw [hs]
  have hs2 : (onSegment a b s).2 = h := by rw [hs]
  have k := sides y (a := onSegment a b s) (b := b) (by rw [hs2]; exact hy) hb
  rw [hs2] at k
  rw [side, ← k]
  constructor
  · rintro ⟨t, h0, h1, h2, h3⟩
    have hst : s < t := by
      by_contra hc
      have := mul_le_mul_of_nonneg_right (not_lt.1 hc) (show 0 ≤ b.1 - a.1 by linarith)
      simp only [onSegment] at hs1 h3
      nlinarith
    have hs1' : s < 1 := lt_of_lt_of_le hst h1
    have hne : (1 - s) ≠ 0 := by linarith
    refine ⟨(t - s) / (1 - s), div_nonneg (by linarith) (by linarith), by rw [div_le_one (by linarith)]; linarith, ?_⟩
    rw [onSegment_sub, div_mul_cancel₀ _ hne, show s + (t - s) = t by ring]
    exact h2
  · rintro ⟨t, h0, h1, h2⟩
    rw [onSegment_sub] at h2
    have hm := mul_nonneg h0 (show 0 ≤ 1 - s by linarith)
    refine ⟨s + t * (1 - s), by linarith, by nlinarith, h2, ?_⟩
    have ht : 0 < t := by
      rcases h0.lt_or_eq with h | h
      · exact h
      · rw [← h, zero_mul, add_zero, hs2] at h2
        exact absurd h2 hy
    have hs1'' : s < 1 := by
      rcases s1.lt_or_eq with h | h
      · exact h
      · rw [h] at h2
        simp [onSegment] at h2
        exact absurd h2 hb
    have hp : 0 < t * (1 - s) * (b.1 - a.1) := mul_pos (mul_pos ht (by linarith)) (by linarith)
    simp only [onSegment] at hs1 ⊢
    nlinarith

/-- The number of edges of the broken line that the ray meets. -/
def lineCount (p : Pt) (l : List Pt) : Nat := (l.zip l.tail).countP fun e => decide (Crosses p e.1 e.2)

theorem chain_le {a : Pt} {l : List Pt} (h : Chain (a :: l)) : ∀ v ∈ a :: l, a.1 ≤ v.1 := by
  intro v hv
  rcases List.mem_cons.1 hv with rfl | hv
  · exact le_rfl
  · exact ((List.pairwise_cons.1 h).1 v hv).le

theorem odd_cons {p a b : Pt} {E : List (Pt × Pt)} {s t : Bool} (h1 : Crosses p a b ↔ s = true)
    (h2 : Odd (E.countP fun e => decide (Crosses p e.1 e.2)) ↔ t = true) :
    Odd (((a, b) :: E).countP fun e => decide (Crosses p e.1 e.2)) ↔ xor s t = true := by
  rw [List.countP_cons]
  cases s <;> cases t
  · have k1 : ¬ Crosses p a b := fun h => by simpa using h1.1 h
    have k2 : ¬ Odd (E.countP fun e => decide (Crosses p e.1 e.2)) := fun h => by simpa using h2.1 h
    simp [k1]; simpa using k2
  · have k1 : ¬ Crosses p a b := fun h => by simpa using h1.1 h
    simp [k1]; simpa using h2
  · have k1 : Crosses p a b := h1.2 rfl
    have k2 : ¬ Odd (E.countP fun e => decide (Crosses p e.1 e.2)) := fun h => by simpa using h2.1 h
    simp [k1, Nat.odd_add_one]; simpa using k2
  · have k1 : Crosses p a b := h1.2 rfl
    simp [k1, Nat.odd_add_one]; simpa using h2

theorem line_right {x y : ℝ} : ∀ (l : List Pt) (a z : Pt), Chain (a :: l) → (a :: l).getLast? = some z → (∀ v ∈ a :: l, v.2 ≠ y) → x ≤ a.1 →
    (∀ e ∈ (a :: l).zip l, ¬ OnEdge (x, y) e.1 e.2) →
    (Odd (lineCount (x, y) (a :: l)) ↔ xor (side y a) (side y z) = true) := by
  intro l
  induction l with
  | nil =>
    intro a z _ hz _ _ _
    obtain rfl : a = z := by simpa using hz
    simp [lineCount]
  | cons b l ih =>
    intro a z hc hz hy hx hn
    obtain ⟨c1, c2⟩ := List.pairwise_cons.1 hc
    have hi := ih b z c2 (by rw [List.getLast?_cons_cons] at hz; exact hz) (fun v hv => hy v (List.mem_cons_of_mem _ hv)) (hx.trans (c1 b (by simp)).le)
      (fun e he => hn e (by rw [List.zip_cons_cons]; exact List.mem_cons_of_mem _ he))
    have hE := cross_right (hy a (by simp)) (hy b (by simp)) (c1 b (by simp)).le hx (hn (a, b) (by simp))
    simp only [lineCount, List.tail_cons, List.zip_cons_cons] at hi ⊢
    rw [odd_cons hE hi]
    cases side y a <;> cases side y b <;> cases side y z <;> simp

theorem line_left {x y : ℝ} (l : List Pt) (h : ∀ v ∈ l, v.1 ≤ x) : lineCount (x, y) l = 0 := by
  rw [lineCount, List.countP_eq_zero]
  intro e he hc
  obtain ⟨h1, h2⟩ := List.of_mem_zip (a := e.1) (b := e.2) he
  exact cross_left (h _ h1) (h _ (List.mem_of_mem_tail h2)) (by simpa using hc)

theorem onEdge_x {p a b : Pt} (h : OnEdge p a b) (hab : a.1 ≤ b.1) : a.1 ≤ p.1 ∧ p.1 ≤ b.1 := by
  obtain ⟨t, h0, h1, rfl⟩ := h
  simp only [onSegment]
  constructor <;> nlinarith

theorem line_mid {x y h : ℝ} : ∀ (l : List Pt) (a z : Pt), Chain (a :: l) → (a :: l).getLast? = some z → (∀ v ∈ a :: l, v.2 ≠ y) →
    (∀ e ∈ (a :: l).zip l, ¬ OnEdge (x, y) e.1 e.2) → (∃ e ∈ (a :: l).zip l, OnEdge (x, h) e.1 e.2) →
    (Odd (lineCount (x, y) (a :: l)) ↔ xor (decide (h < y)) (side y z) = true) := by
  intro l
  induction l with
  | nil => rintro a z _ _ _ _ ⟨e, he, -⟩; simp at he
  | cons b l ih =>
    intro a z hc hz hy hn hh
    obtain ⟨c1, c2⟩ := List.pairwise_cons.1 hc
    have hz' : (b :: l).getLast? = some z := by rw [List.getLast?_cons_cons] at hz; exact hz
    have hy' : ∀ v ∈ b :: l, v.2 ≠ y := fun v hv => hy v (List.mem_cons_of_mem _ hv)
    have hn' : ∀ e ∈ (b :: l).zip l, ¬ OnEdge (x, y) e.1 e.2 := fun e he => hn e (by rw [List.zip_cons_cons]; exact List.mem_cons_of_mem _ he)
    have hnab := hn (a, b) (by simp)
    by_cases hab : OnEdge (x, h) a b
    · have hE := cross_mid (hy b (by simp)) (c1 b (by simp)) hnab hab
      have hi := line_right l b z c2 hz' hy' (onEdge_x hab (c1 b (by simp)).le).2 hn'
      simp only [lineCount, List.tail_cons, List.zip_cons_cons] at hi ⊢
      rw [odd_cons hE hi]
      cases decide (h < y) <;> cases side y b <;> cases side y z <;> simp
    · obtain ⟨e, he, ho⟩ := hh
      rw [List.zip_cons_cons] at he
      rcases List.mem_cons.1 he with rfl | he
      · exact absurd ho hab
      have hi := ih b z c2 hz' hy' hn' ⟨e, he, ho⟩
      obtain ⟨m1, m2⟩ := List.of_mem_zip (a := e.1) (b := e.2) he
      have hbx : b.1 ≤ x := by
        have hle : e.1.1 ≤ e.2.1 := by
          have := List.pairwise_iff_getElem.1 c2
          obtain ⟨i, hi', rfl⟩ := List.mem_iff_getElem.1 he
          simp only [List.length_zip, List.length_cons] at hi'
          have := this i (i + 1) (by simp; omega) (by simp; omega) (by omega)
          simpa using this.le
        exact (chain_le c2 _ m1).trans (onEdge_x ho hle).1
      have hE : ¬ Crosses (x, y) a b := cross_left ((c1 b (by simp)).le.trans hbx) hbx
      simp only [lineCount, List.tail_cons, List.zip_cons_cons] at hi ⊢
      rw [odd_cons (s := false) (by simp [hE]) hi, Bool.false_xor]

/-- Over every abscissa of its range the line has a point. -/
theorem line_point {x : ℝ} : ∀ (l : List Pt) (a z : Pt), Chain (a :: l) → (a :: l).getLast? = some z → l ≠ [] → a.1 ≤ x → x ≤ z.1 →
    ∃ h, ∃ e ∈ (a :: l).zip l, OnEdge (x, h) e.1 e.2 := by
  intro l
  induction l with
  | nil => intro a z _ _ h; exact absurd rfl h
  | cons b l ih =>
    intro a z hc hz _ h0 h1
    obtain ⟨c1, c2⟩ := List.pairwise_cons.1 hc
    have hz' : (b :: l).getLast? = some z := by rw [List.getLast?_cons_cons] at hz; exact hz
    have hab := c1 b (by simp)
    by_cases hx : x ≤ b.1
    · refine ⟨(onSegment a b ((x - a.1) / (b.1 - a.1))).2, (a, b), by simp, (x - a.1) / (b.1 - a.1), div_nonneg (by linarith) (by linarith),
        by rw [div_le_one (by linarith)]; linarith, ?_⟩
      refine Prod.ext ?_ rfl
      have : b.1 - a.1 ≠ 0 := by linarith
      simp only [onSegment]
      field_simp
      ring
    · have hl : l ≠ [] := by
        rintro rfl
        obtain rfl : b = z := by simpa using hz'
        exact hx h1
      obtain ⟨h, e, he, ho⟩ := ih b z c2 hz' hl (not_le.1 hx).le h1
      exact ⟨h, e, by rw [List.zip_cons_cons]; exact List.mem_cons_of_mem _ he, ho⟩

/-! ## The outline of a foil -/

theorem zip_close : ∀ (A : List Pt) (a b z : Pt), (a :: A).getLast? = some z → (a :: A).zip (A ++ [b]) = (a :: A).zip A ++ [(z, b)] := by
  intro A
  induction A with
  | nil =>
    intro a b z h
    obtain rfl : a = z := by simpa using h
    simp
  | cons c A ih =>
    intro a b z h
    rw [List.getLast?_cons_cons] at h
    rw [List.cons_append, List.zip_cons_cons, ih c b z h, List.zip_cons_cons, List.cons_append]

theorem edges_two (A B : List Pt) (a b y z : Pt) (hy : (a :: A).getLast? = some y) (hz : (b :: B).getLast? = some z) :
    edges (a :: A ++ b :: B) = (a :: A).zip A ++ (y, b) :: ((b :: B).zip B ++ [(z, a)]) := by
  rw [List.cons_append, edges_cons, ← zip_wrap, show (A ++ b :: B) ++ [a] = A ++ b :: (B ++ [a]) by simp, zip_walk, zip_close A a b y hy,
    zip_wrap_close, zip_close B b a z hz]
  simp
where
  zip_wrap_close : (b :: (B ++ [a])).zip (B ++ [a]) = (b :: B).zip (B ++ [a]) := by
    have := zip_walk b a B []
    simpa using this

theorem zip_tail_concat (l : List Pt) (z a : Pt) (h : l.getLast? = some z) : (l ++ [a]).zip (l ++ [a]).tail = l.zip l.tail ++ [(z, a)] := by
  cases l with
  | nil => simp at h
  | cons b l =>
    rw [List.cons_append, List.tail_cons, List.tail_cons, ← zip_close l b a z h]
    have := zip_walk b a l []
    simpa using this

theorem zip_tail_reverse (l : List Pt) : (l.reverse.zip l.reverse.tail).Perm ((l.zip l.tail).map Prod.swap) := by
  induction l with
  | nil => simp
  | cons a l ih =>
    cases l with
    | nil => simp
    | cons b l =>
      rw [List.reverse_cons, zip_tail_concat _ b a (by simp)]
      refine ((List.perm_append_singleton (b, a) _)).trans ?_
      simpa using ih

theorem lineCount_reverse (p : Pt) (l : List Pt) : lineCount p l.reverse = lineCount p l := by
  unfold lineCount
  rw [(zip_tail_reverse l).countP_eq, List.countP_map]
  refine List.countP_congr fun e _ => ?_
  simp [crosses_swap]

theorem line_range {x h : ℝ} {a z : Pt} {l : List Pt} (hc : Chain (a :: l)) (hz : (a :: l).getLast? = some z)
    (he : ∃ e ∈ (a :: l).zip l, OnEdge (x, h) e.1 e.2) : a.1 ≤ x ∧ x ≤ z.1 := by
  obtain ⟨e, he, ho⟩ := he
  obtain ⟨m1, m2⟩ := List.of_mem_zip (a := e.1) (b := e.2) he
  have hle : e.1.1 ≤ e.2.1 := by
    have := List.pairwise_iff_getElem.1 hc
    obtain ⟨i, hi', rfl⟩ := List.mem_iff_getElem.1 he
    simp only [List.length_zip, List.length_cons] at hi'
    have := this i (i + 1) (by simp; omega) (by simp; omega) (by omega)
    simpa using this.le
  obtain ⟨k1, k2⟩ := onEdge_x ho hle
  refine ⟨(chain_le hc _ m1).trans k1, k2.trans ?_⟩
  have hm : e.2 ∈ a :: l := List.mem_cons_of_mem _ m2
  have hzl := List.getLast?_eq_some_iff.1 hz
  obtain ⟨ys, hys⟩ := hzl
  rw [hys] at hm hc
  rcases List.mem_append.1 hm with h' | h'
  · exact ((List.pairwise_append.1 hc).2.2 _ h' z (by simp)).le
  · obtain h' := List.mem_singleton.1 h'
    rw [h']

theorem line_sides {x y : ℝ} {a z : Pt} {l : List Pt} (hc : Chain (a :: l)) (hz : (a :: l).getLast? = some z) (hl : l ≠ []) (hy : ∀ v ∈ a :: l, v.2 ≠ y)
    (hn : ∀ e ∈ (a :: l).zip l, ¬ OnEdge (x, y) e.1 e.2) (h0 : a.1 ≤ x) (h1 : x ≤ z.1) :
    (Odd (lineCount (x, y) (a :: l)) ↔ xor (decide (AboveLine (x, y) (a :: l))) (side y z) = true) ∧
    (BelowLine (x, y) (a :: l) ↔ ¬ AboveLine (x, y) (a :: l)) := by
  obtain ⟨h, hh⟩ := line_point l a z hc hz hl h0 h1
  have hM := line_mid l a z hc hz hy hn hh
  have same : ∀ h', (∃ e ∈ (a :: l).zip l, OnEdge (x, h') e.1 e.2) → (h' < y ↔ h < y) := by
    intro h' hh'
    have hM' := line_mid l a z hc hz hy hn hh'
    rw [hM] at hM'
    by_cases c1 : h < y <;> by_cases c2 : h' < y <;> cases hs : side y z <;> simp [c1, c2, hs] at hM' ⊢
  have hne : ∀ h', (∃ e ∈ (a :: l).zip l, OnEdge (x, h') e.1 e.2) → h' ≠ y := by
    rintro h' ⟨e, he, ho⟩ rfl
    exact hn e he ho
  have hA : AboveLine (x, y) (a :: l) ↔ h < y := by
    constructor
    · rintro ⟨e, he, h', ho, hlt⟩
      exact (same h' ⟨e, he, ho⟩).1 hlt
    · intro hlt
      obtain ⟨e, he, ho⟩ := hh
      exact ⟨e, he, h, ho, hlt⟩
  have hB : BelowLine (x, y) (a :: l) ↔ ¬ h < y := by
    constructor
    · rintro ⟨e, he, h', ho, hlt⟩ hc'
      exact lt_asymm hlt ((same h' ⟨e, he, ho⟩).2 hc')
    · intro hlt
      have := hne h hh
      obtain ⟨e, he, ho⟩ := hh
      exact ⟨e, he, h, ho, lt_of_le_of_ne (not_lt.1 hlt) (Ne.symm this)⟩
  rw [hA, hB, hM]
  refine ⟨?_, Iff.rfl⟩
  by_cases c : h < y <;> simp [c]

theorem odd_append (p : Pt) (E F : List (Pt × Pt)) {s t : Bool} (h1 : Odd (E.countP fun e => decide (Crosses p e.1 e.2)) ↔ s = true)
    (h2 : Odd (F.countP fun e => decide (Crosses p e.1 e.2)) ↔ t = true) :
    Odd ((E ++ F).countP fun e => decide (Crosses p e.1 e.2)) ↔ xor s t = true := by
  rw [List.countP_append, Nat.odd_add]
  generalize List.countP (fun e : Pt × Pt => decide (Crosses p e.1 e.2)) E = m at *
  generalize List.countP (fun e : Pt × Pt => decide (Crosses p e.1 e.2)) F = n at *
  rw [h1, ← Nat.not_odd_iff_even, h2]
  cases s <;> cases t <;> simp

/-- Upright: the ray meets an odd number of edges exactly from the points strictly between the surfaces. -/
theorem outline_parity {U L : List Pt} (hf : FoilOutline U L) {x y : ℝ} (hb : ¬ OnBoundary (x, y) (U ++ L.reverse))
    (hy : ∀ v ∈ U ++ L.reverse, v.2 ≠ y) : Odd (crossings (x, y) (U ++ L.reverse)) ↔ StrictlyBetween (x, y) U L := by
  obtain ⟨cU, cL, x₀, x₁, h01, hu0, hl0, hu1, hl1⟩ := hf
  cases U with
  | nil => simp at hu0
  | cons u0 U =>
  cases L with
  | nil => simp at hl0
  | cons l0 L =>
  obtain ⟨un, hun⟩ : ∃ un, (u0 :: U).getLast? = some un := ⟨_, List.getLast?_eq_some_getLast (by simp)⟩
  obtain ⟨ln, hln⟩ : ∃ ln, (l0 :: L).getLast? = some ln := ⟨_, List.getLast?_eq_some_getLast (by simp)⟩
  rw [hun] at hu1
  rw [hln] at hl1
  simp only [List.head?_cons, Option.map_some, Option.some.injEq] at hu0 hl0 hu1 hl1
  obtain ⟨R, hR⟩ : ∃ R, (l0 :: L).reverse = ln :: R := by
    have : (l0 :: L).reverse.head? = some ln := by rw [List.head?_reverse]; exact hln
    exact List.head?_eq_some_iff.1 this
  have hRl : (ln :: R).getLast? = some l0 := by rw [← hR]; simp
  have hE : edges (u0 :: U ++ (l0 :: L).reverse) = (u0 :: U).zip U ++ (un, ln) :: ((ln :: R).zip R ++ [(l0, u0)]) := by
    rw [hR]; exact edges_two U R u0 ln un l0 hun hRl
  have off : ∀ e ∈ edges (u0 :: U ++ (l0 :: L).reverse), ¬ OnEdge (x, y) e.1 e.2 := fun e he ho => hb ⟨e, he, ho⟩
  rw [hE] at off
  have offU : ∀ e ∈ (u0 :: U).zip U, ¬ OnEdge (x, y) e.1 e.2 := fun e he => off e (List.mem_append_left _ he)
  have offT : ¬ OnEdge (x, y) un ln := off (un, ln) (by simp)
  have offR : ∀ e ∈ (ln :: R).zip R, ¬ OnEdge (x, y) e.1 e.2 := fun e he => off e (by simp [he])
  have offH : ¬ OnEdge (x, y) l0 u0 := off (l0, u0) (by simp)
  have offL : ∀ e ∈ (l0 :: L).zip L, ¬ OnEdge (x, y) e.1 e.2 := by
    intro e he ho
    have hp := zip_tail_reverse (l0 :: L)
    rw [hR] at hp
    simp only [List.tail_cons] at hp
    exact offR e.swap (hp.mem_iff.2 (List.mem_map_of_mem he)) ((onEdge_swap _ _ _).2 ho)
  have hyU : ∀ v ∈ u0 :: U, v.2 ≠ y := fun v hv => hy v (List.mem_append_left _ hv)
  have hyL : ∀ v ∈ l0 :: L, v.2 ≠ y := fun v hv => hy v (List.mem_append_right _ (List.mem_reverse.2 hv))
  have hyu0 := hyU u0 (by simp)
  have hyl0 := hyL l0 (by simp)
  have hyun := hyU un (List.mem_of_getLast? hun)
  have hyln := hyL ln (List.mem_of_getLast? hln)
  have hUne : U ≠ [] := by
    rintro rfl
    obtain rfl : u0 = un := by simpa using hun
    linarith
  have hLne : L ≠ [] := by
    rintro rfl
    obtain rfl : l0 = ln := by simpa using hln
    linarith
  have hRc : lineCount (x, y) (ln :: R) = lineCount (x, y) (l0 :: L) := by rw [← hR, lineCount_reverse]
  have total : ∀ {a t b h : Bool}, (Odd (lineCount (x, y) (u0 :: U)) ↔ a = true) → (Crosses (x, y) un ln ↔ t = true) →
      (Odd (lineCount (x, y) (l0 :: L)) ↔ b = true) → (Crosses (x, y) l0 u0 ↔ h = true) →
      (Odd (crossings (x, y) (u0 :: U ++ (l0 :: L).reverse)) ↔ xor a (xor t (xor b h)) = true) := by
    intro a t b h h1 h2 h3 h4
    rw [crossings, hE]
    refine odd_append _ _ _ h1 (odd_cons h2 (odd_append _ _ _ ?_ ?_))
    · rw [← hRc] at h3; exact h3
    · have := odd_cons (E := []) (t := false) h4 (by simp)
      rwa [Bool.xor_false] at this
  by_cases hx0 : x < x₀
  · have nb : ¬ StrictlyBetween (x, y) (u0 :: U) (l0 :: L) := by
      rintro (⟨⟨e, he, h, ho, -⟩, -⟩ | ⟨⟨e, he, h, ho, -⟩, -⟩) <;>
      · have := (line_range cU hun ⟨e, he, ho⟩).1
        linarith
    rw [total (line_right U u0 un cU hun hyU (by linarith) offU) (cross_right hyun hyln (by linarith) (by linarith) offT)
      (line_right L l0 ln cL hln hyL (by linarith) offL) (cross_right hyl0 hyu0 (by linarith) (by linarith) offH)]
    refine iff_of_false ?_ nb
    cases side y u0 <;> cases side y un <;> cases side y l0 <;> cases side y ln <;> simp
  by_cases hx1 : x₁ < x
  · have nb : ¬ StrictlyBetween (x, y) (u0 :: U) (l0 :: L) := by
      rintro (⟨⟨e, he, h, ho, -⟩, -⟩ | ⟨⟨e, he, h, ho, -⟩, -⟩) <;>
      · have := (line_range cU hun ⟨e, he, ho⟩).2
        linarith
    have leU : ∀ v ∈ u0 :: U, v.1 ≤ x := by
      intro v hv
      obtain ⟨ys, hys⟩ := List.getLast?_eq_some_iff.1 hun
      rw [hys] at hv cU
      rcases List.mem_append.1 hv with h' | h'
      · have := (List.pairwise_append.1 cU).2.2 _ h' un (by simp); linarith
      · rw [List.mem_singleton.1 h']; linarith
    have leL : ∀ v ∈ l0 :: L, v.1 ≤ x := by
      intro v hv
      obtain ⟨ys, hys⟩ := List.getLast?_eq_some_iff.1 hln
      rw [hys] at hv cL
      rcases List.mem_append.1 hv with h' | h'
      · have := (List.pairwise_append.1 cL).2.2 _ h' ln (by simp); linarith
      · rw [List.mem_singleton.1 h']; linarith
    have hT : ¬ Crosses (x, y) un ln := cross_left (by linarith) (by linarith)
    have hH : ¬ Crosses (x, y) l0 u0 := cross_left (by linarith) (by linarith)
    rw [total (a := false) (t := false) (b := false) (h := false) (by rw [line_left _ leU]; simp) (by simp [hT]) (by rw [line_left _ leL]; simp) (by simp [hH])]
    exact iff_of_false (by simp) nb
  · have hH : ¬ Crosses (x, y) l0 u0 := cross_left (by linarith) (by linarith)
    obtain ⟨oU, bU⟩ := line_sides (x := x) cU hun hUne hyU offU (by linarith) (by linarith)
    obtain ⟨oL, bL⟩ := line_sides (x := x) cL hln hLne hyL offL (by linarith) (by linarith)
    rw [total oU (cross_right hyun hyln (by linarith) (by linarith) offT) oL (h := false) (by simp [hH]), StrictlyBetween, bU, bL]
    by_cases c1 : AboveLine (x, y) (u0 :: U) <;> by_cases c2 : AboveLine (x, y) (l0 :: L) <;> cases side y un <;> cases side y ln <;> simp [c1, c2]

/-! ## Affine maps -/

theorem app_segment (M : Affine) (a b : Pt) (t : ℝ) : onSegment (M.app a) (M.app b) t = M.app (onSegment a b t) := by
  simp only [onSegment, Affine.app, Prod.mk.injEq]
  constructor <;> ring

theorem app_inj {M : Affine} (hM : M.Regular) {p q : Pt} (h : M.app p = M.app q) : p = q := by
  simp only [Affine.app, Prod.mk.injEq] at h
  obtain ⟨h1, h2⟩ := h
  have e1 : (M.a * M.d - M.b * M.c) * (p.1 - q.1) = 0 := by linear_combination M.d * h1 - M.b * h2
  have e2 : (M.a * M.d - M.b * M.c) * (p.2 - q.2) = 0 := by linear_combination M.a * h2 - M.c * h1
  exact Prod.ext (sub_eq_zero.1 ((mul_eq_zero.1 e1).resolve_left hM)) (sub_eq_zero.1 ((mul_eq_zero.1 e2).resolve_left hM))

theorem app_onEdge {M : Affine} (hM : M.Regular) (p a b : Pt) : OnEdge (M.app p) (M.app a) (M.app b) ↔ OnEdge p a b := by
  constructor
  · rintro ⟨t, h0, h1, h⟩
    rw [app_segment] at h
    exact ⟨t, h0, h1, app_inj hM h⟩
  · rintro ⟨t, h0, h1, h⟩
    exact ⟨t, h0, h1, by rw [app_segment, h]⟩

theorem app_triangle {M : Affine} (hM : M.Regular) (p a b c : Pt) : InTriangle (M.app p) (M.app a) (M.app b) (M.app c) ↔ InTriangle p a b c := by
  have comb : ∀ u v w : ℝ, u + v + w = 1 → M.app (u * a.1 + v * b.1 + w * c.1, u * a.2 + v * b.2 + w * c.2) =
      (u * (M.app a).1 + v * (M.app b).1 + w * (M.app c).1, u * (M.app a).2 + v * (M.app b).2 + w * (M.app c).2) := by
    intro u v w h
    simp only [Affine.app, Prod.mk.injEq]
    constructor
    · linear_combination (-M.v.1) * h
    · linear_combination (-M.v.2) * h
  constructor
  · rintro ⟨u, v, w, hu, hv, hw, h1, h2⟩
    rw [← comb u v w h1] at h2
    exact ⟨u, v, w, hu, hv, hw, h1, app_inj hM h2⟩
  · rintro ⟨u, v, w, hu, hv, hw, h1, h2⟩
    exact ⟨u, v, w, hu, hv, hw, h1, by rw [← comb u v w h1, ← h2]⟩

theorem edges_map (f : Pt → Pt) (poly : List Pt) : edges (poly.map f) = (edges poly).map fun e => (f e.1, f e.2) := by
  cases poly with
  | nil => rfl
  | cons p l =>
    rw [List.map_cons, edges_cons, edges_cons, ← List.map_cons, show List.map f l ++ [f p] = List.map f (l ++ [p]) by simp, List.zip_map]
    rfl

theorem app_boundary {M : Affine} (hM : M.Regular) (p : Pt) (poly : List Pt) : OnBoundary (M.app p) (poly.map M.app) ↔ OnBoundary p poly := by
  simp only [OnBoundary, edges_map, List.mem_map]
  constructor
  · rintro ⟨_, ⟨e, he, rfl⟩, ho⟩
    exact ⟨e, he, (app_onEdge hM _ _ _).1 ho⟩
  · rintro ⟨e, he, ho⟩
    exact ⟨_, ⟨e, he, rfl⟩, (app_onEdge hM _ _ _).2 ho⟩

theorem countP_parity {α : Type} (T C A B : α → Bool) : ∀ E : List α, (∀ e ∈ E, T e = xor (C e) (xor (A e) (B e))) →
    (Odd (E.countP T) ↔ Odd (E.countP C + E.countP A + E.countP B)) := by
  intro E
  induction E with
  | nil => intro _; simp
  | cons e E ih =>
    intro h
    have hi := ih fun f hf => h f (List.mem_cons_of_mem _ hf)
    have he := h e (by simp)
    rw [List.countP_cons, List.countP_cons, List.countP_cons, List.countP_cons]
    generalize List.countP T E = t at *
    generalize List.countP C E = c at *
    generalize List.countP A E = a at *
    generalize List.countP B E = b at *
    rw [he]
    rw [Nat.odd_iff, Nat.odd_iff] at hi ⊢
    cases C e <;> cases A e <;> cases B e <;> simp <;> omega

theorem countP_fst (A : Pt → Bool) (poly : List Pt) : ((edges poly).countP fun e => A e.1) = poly.countP A := by
  have : (edges poly).map Prod.fst = poly := by
    rw [edges_rotate_zip, List.map_fst_zip (by simp)]
  conv_rhs => rw [← this, List.countP_map]
  rfl

theorem countP_snd (A : Pt → Bool) (poly : List Pt) : ((edges poly).countP fun e => A e.2) = poly.countP A := by
  have : (edges poly).map Prod.snd = poly.rotate 1 := by
    rw [edges_rotate_zip, List.map_snd_zip (by simp)]
  rw [← (List.rotate_perm poly 1).countP_eq, ← this, List.countP_map]
  rfl

/-- Seen from a base point `o` in general position: the parity is that of the number of triangles over the edges with apex `o` that contain the point. -/
theorem apex_parity {x y : ℝ} {o : Pt} {poly : List Pt} (ho : o.2 ≠ y) (hy : ∀ v ∈ poly, v.2 ≠ y) (hov : ∀ v ∈ poly, ¬ OnEdge (x, y) o v)
    (hb : ¬ OnBoundary (x, y) poly) :
    Odd (crossings (x, y) poly) ↔ Odd ((edges poly).countP fun e => decide (InTriangle (x, y) o e.1 e.2)) := by
  have h := countP_parity (fun e : Pt × Pt => decide (InTriangle (x, y) o e.1 e.2)) (fun e => decide (Crosses (x, y) e.1 e.2))
    (fun e => decide (Crosses (x, y) o e.1)) (fun e => decide (Crosses (x, y) o e.2)) (edges poly) (by
      intro e he
      obtain ⟨m1, m2⟩ := mem_of_edges he
      have ht := triangle_parity (x := x) ho (hy _ m1) (hy _ m2) (hov _ m1) (fun h => hb ⟨e, he, h⟩) (mt (onEdge_swap _ _ _).1 (hov _ m2))
      rw [crosses_swap (x, y) o e.2] at ht
      by_cases c1 : Crosses (x, y) o e.1 <;> by_cases c2 : Crosses (x, y) e.1 e.2 <;> by_cases c3 : Crosses (x, y) o e.2 <;>
        simp only [c1, c2, c3, iff_true, iff_false, true_iff, false_iff, not_true, not_false_iff, not_not] at ht <;> simp [c1, c2, c3, ht])
  rw [h, countP_fst (fun v => decide (Crosses (x, y) o v)), countP_snd (fun v => decide (Crosses (x, y) o v)), crossings]
  rw [Nat.add_assoc, Nat.odd_add]
  simp

/-- A base point in general position. -/
theorem apex_exists (p : Pt) (poly : List Pt) (hy : ∀ v ∈ poly, v ≠ p) (M : Affine) (hM : M.Regular) :
    ∃ o : Pt, o.2 ≠ p.2 ∧ (M.app o).2 ≠ (M.app p).2 ∧ ∀ v ∈ poly, ¬ OnEdge p o v := by
  obtain ⟨s, hs⟩ := Infinite.exists_notMem_finset
    (insert 0 (insert (-M.c / M.d) (poly.map fun v => (v.2 - p.2) / (v.1 - p.1)).toFinset))
  simp only [Finset.mem_insert, List.mem_toFinset, List.mem_map, not_or, not_exists, not_and] at hs
  obtain ⟨s0, s1, s2⟩ := hs
  refine ⟨(p.1 + 1, p.2 + s), by simpa using s0, ?_, ?_⟩
  · intro h
    simp only [Affine.app] at h
    have h' : M.c + M.d * s = 0 := by linarith
    by_cases hd : M.d = 0
    · rw [hd, zero_mul, add_zero] at h'
      exact hM (by rw [hd, h']; ring)
    · apply s1
      rw [eq_div_iff hd]; linarith
  · rintro v hv ⟨t, h0, h1, h⟩
    have hp1 : (1 - t) * (p.1 + 1) + t * v.1 = p.1 := congrArg Prod.fst h
    have hp2 : (1 - t) * (p.2 + s) + t * v.2 = p.2 := congrArg Prod.snd h
    have ht : t ≠ 0 := by
      rintro rfl
      linarith
    have e1 : t * (v.1 - p.1) = -(1 - t) := by linarith
    have e2 : t * (v.2 - p.2) = -(1 - t) * s := by linarith
    have e3 : v.2 - p.2 = s * (v.1 - p.1) := by
      apply mul_left_cancel₀ ht
      rw [e2, ← e1]; ring
    by_cases hv1 : v.1 - p.1 = 0
    · rw [hv1, mul_zero] at e3
      exact hy v hv (Prod.ext (sub_eq_zero.1 hv1) (sub_eq_zero.1 e3))
    · refine s2 v hv ?_
      rw [div_eq_iff hv1, e3]

theorem app_parity {M : Affine} (hM : M.Regular) (p : Pt) (poly : List Pt) (hy : ∀ v ∈ poly, v.2 ≠ p.2) (hy' : ∀ v ∈ poly, (M.app v).2 ≠ (M.app p).2)
    (hb : ¬ OnBoundary p poly) : Odd (crossings (M.app p) (poly.map M.app)) ↔ Odd (crossings p poly) := by
  obtain ⟨o, o1, o2, o3⟩ := apex_exists p poly (fun v hv e => hy v hv (by rw [e])) M hM
  have h1 := apex_parity (x := p.1) (y := p.2) o1 hy o3 hb
  have h2 := apex_parity (x := (M.app p).1) (y := (M.app p).2) (o := M.app o) (poly := poly.map M.app) o2
    (by intro v hv; obtain ⟨w, hw, rfl⟩ := List.mem_map.1 hv; exact hy' w hw)
    (by intro v hv; obtain ⟨w, hw, rfl⟩ := List.mem_map.1 hv; exact mt (app_onEdge hM p o w).1 (o3 w hw))
    (mt (app_boundary hM p poly).1 hb)
  refine h2.trans (Iff.trans ?_ h1.symm)
  rw [edges_map, List.countP_map]
  have : ((fun e : Pt × Pt => decide (InTriangle (M.app p) (M.app o) e.1 e.2)) ∘ fun e : Pt × Pt => (M.app e.1, M.app e.2)) =
      fun e : Pt × Pt => decide (InTriangle p o e.1 e.2) := by
    funext e
    exact decide_eq_decide.2 (app_triangle hM p o e.1 e.2)
  exact iff_of_eq (congrArg (fun f => Odd (List.countP f (edges poly))) this)

end Polygon
end
end BladeX
