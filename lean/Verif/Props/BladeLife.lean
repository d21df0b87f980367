import Verif.Spec.BladeLife
import Verif.Props.BladeMotion
import Verif.Props.BladePpg
import Verif.Props.BladeTwice
import Verif.Lemmas.American

/-! # C98: every history of calls on one blade -/

namespace BladeX
noncomputable section
open Spec Classical
namespace Blade

/-- `m` points on every surface. -/
def Pts (m : Nat) (P : Profile) : Prop := P.Uniform ∧ P.upper.length = m

theorem pts_iff {m : Nat} {P : Profile} : Pts m P ↔ P.Uniform ∧ P.xup.length = m := by
  unfold Pts
  constructor
  · rintro ⟨h, h'⟩
    obtain ⟨u1, u2, u3⟩ := id h
    simp only [Profile.upper, List.length_zip] at h'
    exact ⟨h, by omega⟩
  · rintro ⟨h, h'⟩
    obtain ⟨u1, u2, u3⟩ := id h
    simp only [Profile.upper, List.length_zip]
    exact ⟨h, by omega⟩

theorem translate_pts {m : Nat} {P : Profile} (h : Pts m P) (v : Pt) : Pts m (P.translate v) := by
  rw [pts_iff] at h ⊢
  exact ⟨translate_uniform h.1 v, by simpa [Profile.translate] using h.2⟩

theorem mulAll_pts {m : Nat} {P : Profile} (h : Pts m P) (f : ℝ) : Pts m (P.mulAll f) := by
  rw [pts_iff] at h ⊢
  exact ⟨mulAll_uniform h.1 f, by simpa [Profile.mulAll] using h.2⟩

theorem step_pts {m : Nat} {b : Blade} (hf : b.camber = none) {refl : Bool} {i : Nat} {f : Profile → Res Profile}
    (hmem : f ∈ sectionSteps b refl i) {P Q : Profile} (hP : Pts m P) (h : f P = .ok Q) : Pts m Q := by
  simp only [sectionSteps, List.mem_cons, List.not_mem_nil, or_false] at hmem
  rcases hmem with rfl | rfl | rfl | rfl | rfl | rfl | rfl | rfl
  · simp only [Profile.bndA] at h
    obtain ⟨ref, -, h⟩ := h
    obtain rfl := Except.ok.inj (show Except.ok _ = Except.ok Q from h)
    exact translate_pts hP _
  · simp only [Profile.bndA] at h
    obtain ⟨c, -, h⟩ := h
    unfold Profile.scale at h
    simp only [if_true, Profile.bndA] at h
    obtain ⟨ref, -, h⟩ := h
    obtain rfl := Except.ok.inj (show Except.ok _ = Except.ok Q from h)
    exact translate_pts (mulAll_pts (translate_pts hP _) _) _
  · simp only at h
    rcases ht : b.thickness with _ | t
    · rw [ht] at h
      obtain rfl := Except.ok.inj (show Except.ok P = Except.ok Q from h)
      exact hP
    · rw [ht] at h
      simp only [Profile.bndA] at h
      obtain ⟨x, -, h⟩ := h
      unfold Profile.setThicknessMax at h
      rw [Profile.bndA] at h
      obtain ⟨old, -, h⟩ := h
      obtain rfl := Except.ok.inj (show Except.ok _ = Except.ok Q from h)
      rw [pts_iff] at hP ⊢
      exact ⟨by simpa [Profile.Uniform] using hP.1, hP.2⟩
  · simp only [hf] at h
    obtain rfl := Except.ok.inj (show Except.ok P = Except.ok Q from h)
    exact hP
  · obtain rfl := Except.ok.inj (show Except.ok _ = Except.ok Q from h)
    split
    · rw [pts_iff] at hP ⊢
      exact ⟨reflect_uniform hP.1, by simpa [Profile.reflect] using hP.2⟩
    · exact hP
  · simp only [Profile.bndA] at h
    obtain ⟨p, -, r, -, a, -, h⟩ := h
    rw [pts_iff] at hP ⊢
    obtain ⟨Q', hQ', -, -, hU, hl, -⟩ := Profile.rotate_uniform P hP.1 (Real.pi / 2 - a)
    rw [h] at hQ'
    obtain rfl := Except.ok.inj hQ'
    exact ⟨hU, hl.trans hP.2⟩
  · simp only [Profile.bndA] at h
    obtain ⟨r, -, s, -, h⟩ := h
    obtain rfl := Except.ok.inj (show Except.ok _ = Except.ok Q from h)
    exact translate_pts hP _
  · simp only [Profile.bndA] at h
    obtain ⟨p, -, r, -, s, -, ir, -, k, -, h⟩ := h
    obtain rfl := Except.ok.inj (show Except.ok _ = Except.ok Q from h)
    exact translate_pts hP _

theorem runSteps_pts {m : Nat} : ∀ {fs : List (Profile → Res Profile)} {P : Profile},
    (∀ f ∈ fs, ∀ P Q, Pts m P → f P = .ok Q → Pts m Q) → Pts m P → Pts m (runSteps fs P).1 := by
  intro fs
  induction fs with
  | nil => intro P _ hP; exact hP
  | cons f fs ih =>
    intro P hfs hP
    simp only [runSteps]
    rcases hf : f P with e | Q
    · exact hP
    · exact ih (fun g hg => hfs g (by simp [hg])) (hfs f (by simp) P Q hP hf)

theorem loop_pts {m : Nat} {b : Blade} (hf : b.camber = none) {refl : Bool} : ∀ (Ps : List Profile) (i : Nat), (∀ P ∈ Ps, Pts m P) →
    (sectionLoop b refl i Ps).1.length = Ps.length ∧ ∀ P ∈ (sectionLoop b refl i Ps).1, Pts m P := by
  intro Ps
  induction Ps with
  | nil => intro i _; simp [sectionLoop]
  | cons P Ps ih =>
    intro i h
    have hP := runSteps_pts (m := m) (fs := sectionSteps b refl i) (P := P) (fun f hm P Q => step_pts hf hm) (h P (by simp))
    obtain ⟨h1, h2⟩ := ih (i + 1) (fun Q hQ => h Q (by simp [hQ]))
    simp only [sectionLoop]
    rcases hr : runSteps (sectionSteps b refl i) P with ⟨Q, (e | u)⟩
    · rw [hr] at hP
      simp only [List.length_cons, List.mem_cons]
      refine ⟨trivial, ?_⟩
      rintro R (rfl | hR)
      · exact hP
      · exact h R (by simp [hR])
    · rw [hr] at hP
      simp only [List.length_cons, List.mem_cons, h1]
      refine ⟨trivial, ?_⟩
      rintro R (rfl | hR)
      · exact hP
      · exact h2 R hR

/-- A rectangular array of `n` sections of `m` points, or nothing. -/
def Rect (n m : Nat) (up down : Face) : Prop :=
  (up = [] ∧ down = []) ∨ (up.length = n ∧ down.length = n ∧ (∀ l ∈ up, l.length = m) ∧ ∀ l ∈ down, l.length = m)

theorem Rect.map {n m : Nat} {up down : Face} (h : Rect n m up down) (f : Pt3 → Pt3) : Rect n m (mapPts f up) (mapPts f down) := by
  rcases h with ⟨rfl, rfl⟩ | ⟨h1, h2, h3, h4⟩
  · exact Or.inl ⟨rfl, rfl⟩
  · refine Or.inr ⟨by simp [mapPts, h1], by simp [mapPts, h2], ?_, ?_⟩
    · intro l hl
      simp only [mapPts, List.mem_map] at hl
      obtain ⟨l', hl', rfl⟩ := hl
      simpa using h3 l' hl'
    · intro l hl
      simp only [mapPts, List.mem_map] at hl
      obtain ⟨l', hl', rfl⟩ := hl
      simpa using h4 l' hl'

/-- What holds of a blade throughout its life. -/
structure Sound (n m : Nat) (s : Arr) (t : Option Arr) (b : Blade) : Prop where
  wf : b.WellFormed
  len : b.sections.length = n
  pos : 0 < n
  pts : ∀ P ∈ b.sections, Pts m P
  skew : b.skew = s
  thick : b.thickness = t
  camb : b.camber = none
  radii : ∀ x ∈ b.radii, x ≠ 0
  rect : Rect n m b.coordsUp b.coordsDown
  up : b.upper ≠ none → b.coordsUp ≠ []
  lo : b.lower ≠ none → b.upper ≠ none
  ti : b.tip ≠ none → b.lower ≠ none
  ro : b.root ≠ none → b.tip ≠ none

/-- The transformations: either they stop in the loop and only the sections have changed, or they succeed. -/
theorem apply_sound {n m : Nat} {s : Arr} {t : Option Arr} {b : Blade} (h : Sound n m s t b) (refl : Bool) :
    Sound n m s t (applyTransformations refl b).1 ∧
    ((∃ ss e, applyTransformations refl b = ({ b with sections := ss }, .error e)) ∨
      ∃ ss up down, applyTransformations refl b = ({ b with sections := ss, coordsUp := up, coordsDown := down }, .ok ()) ∧ up ≠ [] ∧
        up.length = n ∧ down.length = n ∧ (∀ l ∈ up, l.length = m) ∧ ∀ l ∈ down, l.length = m) := by
  obtain ⟨l1, l2⟩ := loop_pts (m := m) h.camb (refl := refl) b.sections 0 h.pts
  obtain ⟨w1, w2, w3, w4, w5⟩ := h.wf
  rcases hl : sectionLoop b refl 0 b.sections with ⟨ss, (e | u)⟩
  · have he : applyTransformations refl b = ({ b with sections := ss }, .error e) := by simp [applyTransformations, hl]
    rw [hl] at l1 l2
    simp only at l1 l2
    rw [he]
    refine ⟨⟨?_, l1.trans h.len, h.pos, l2, h.skew, h.thick, h.camb, h.radii, h.rect, h.up, h.lo, h.ti, h.ro⟩, Or.inl ⟨ss, e, rfl⟩⟩
    simp only [WellFormed, l1]
    exact ⟨w1, w2, w3, w4, w5⟩
  · rw [hl] at l1 l2
    simp only at l1 l2
    have hss : ss ≠ [] := by
      rintro rfl
      have := h.len; have := h.pos
      simp only [List.length_nil] at l1
      omega
    have hpl : ∀ P ∈ ss, P.upper.length = m ∧ P.lower.length = m := by
      intro P hP
      obtain ⟨⟨u1, u2, u3⟩, hm⟩ := l2 P hP
      refine ⟨hm, ?_⟩
      simp only [Profile.upper, Profile.lower, List.length_zip] at hm ⊢
      omega
    have hc : cylindrical ss b.radii = .ok ((List.zipWith (fun P r => (Profile.upper P).map (wrap r)) ss b.radii).reverse,
        (List.zipWith (fun P r => (Profile.lower P).map (wrap r)) ss b.radii).reverse) := by
      rw [cylindrical_ok (by rw [w1, l1])]
      refine ⟨hss, ?_, ?_, rfl, rfl⟩
      · intro i P r hP hr
        obtain ⟨⟨u1, u2, u3⟩, -⟩ := l2 P (List.mem_of_getElem? hP)
        exact ⟨h.radii r (List.mem_of_getElem? hr), u1, u3⟩
      · intro P hP Q hQ
        rw [(hpl P hP).1, (hpl Q hQ).1, (hpl P hP).2, (hpl Q hQ).2]
        exact ⟨rfl, rfl⟩
    have hzl : ∀ (f : Profile → List Pt), (List.zipWith (fun P r => (f P).map (wrap r)) ss b.radii).reverse.length = n := by
      intro f
      simp only [List.length_reverse, List.length_zipWith, l1, w1, h.len]
      omega
    have hzm : ∀ (f : Profile → List Pt), (∀ P ∈ ss, (f P).length = m) →
        ∀ l ∈ (List.zipWith (fun P r => (f P).map (wrap r)) ss b.radii).reverse, l.length = m := by
      intro f hfm l hl
      rw [List.mem_reverse] at hl
      obtain ⟨i, hi, rfl⟩ := List.mem_iff_getElem.1 hl
      rw [List.getElem_zipWith, List.length_map]
      exact hfm _ (List.getElem_mem _)
    set up := (List.zipWith (fun P r => (Profile.upper P).map (wrap r)) ss b.radii).reverse with hup
    set down := (List.zipWith (fun P r => (Profile.lower P).map (wrap r)) ss b.radii).reverse with hdown
    have a1 : up.length = n := hzl Profile.upper
    have a2 : down.length = n := hzl Profile.lower
    have a3 : ∀ l ∈ up, l.length = m := hzm Profile.upper (fun P hP => (hpl P hP).1)
    have a4 : ∀ l ∈ down, l.length = m := hzm Profile.lower (fun P hP => (hpl P hP).2)
    have a0 : up ≠ [] := by
      intro h0
      rw [h0] at a1
      have := h.pos
      simp at a1
      omega
    have he : applyTransformations refl b = ({ b with sections := ss, coordsUp := up, coordsDown := down }, .ok ()) := by
      simp [applyTransformations, hl, hc]
    rw [he]
    refine ⟨⟨?_, l1.trans h.len, h.pos, l2, h.skew, h.thick, h.camb, h.radii, Or.inr ⟨a1, a2, a3, a4⟩, fun _ => a0, h.lo, h.ti, h.ro⟩,
      Or.inr ⟨ss, up, down, rfl, a0, a1, a2, a3, a4⟩⟩
    simp only [WellFormed, l1]
    exact ⟨w1, w2, w3, w4, w5⟩

/-- Moving the faces keeps everything else, and which of them there are. -/
theorem onFaces_sound {n m : Nat} {s : Arr} {t : Option Arr} {b : Blade} (h : Sound n m s t b) (f : Pt3 → Pt3) :
    Sound n m s t (onFaces f b).1 := by
  obtain ⟨S, r, c, p, k, s', t', f', cu, cd, u, l, ti, ro⟩ := b
  obtain ⟨h1, h2, h3, h4, h5, h6, h7, h8, h9, h10, h11, h12, h13⟩ := h
  simp only at h1 h2 h3 h4 h5 h6 h7 h8 h9 h10 h11 h12 h13
  unfold onFaces
  rcases u with _ | u
  · exact ⟨h1, h2, h3, h4, h5, h6, h7, h8, h9, h10, h11, h12, h13⟩
  rcases l with _ | l
  · exact ⟨h1, h2, h3, h4, h5, h6, h7, h8, h9, fun _ => h10 (by simp), by simp, h12, h13⟩
  rcases ti with _ | ti
  · exact ⟨h1, h2, h3, h4, h5, h6, h7, h8, h9, fun _ => h10 (by simp), by simp, by simp, h13⟩
  rcases ro with _ | ro
  · exact ⟨h1, h2, h3, h4, h5, h6, h7, h8, h9, fun _ => h10 (by simp), by simp, by simp, by simp⟩
  · exact ⟨h1, h2, h3, h4, h5, h6, h7, h8, h9, fun _ => h10 (by simp), by simp, by simp, by simp⟩

theorem move_sound {n m : Nat} {s : Arr} {t : Option Arr} {b : Blade} (h : Sound n m s t b) (f : Pt3 → Pt3) :
    Sound n m s t { b with coordsUp := mapPts f b.coordsUp, coordsDown := mapPts f b.coordsDown } :=
  ⟨h.wf, h.len, h.pos, h.pts, h.skew, h.thick, h.camb, h.radii, h.rect.map f, fun hu h0 => h.up hu (mapPts_eq_nil.1 h0), h.lo, h.ti, h.ro⟩

/-- What the four scaled arrays look like. -/
def Scaled (r c p k : Arr) (j : Nat) (q : ℝ) (b : Blade) : Prop :=
  b.radii = r.map (2 ^ j * q * ·) ∧ b.chord = c.map (q * ·) ∧ b.pitch = p.map (q * ·) ∧ b.rake = k.map (q * ·)

/-- `build`: the sections and coordinates of `apply_transformations`, and the faces as far as the kernel built them. -/
theorem build_cases (occ : Face → Bool) (refl : Bool) (b : Blade) :
    (∃ b₁ e, applyTransformations refl b = (b₁, .error e) ∧ build occ refl b = (b₁, .error e)) ∨
    ∃ b₁, applyTransformations refl b = (b₁, .ok ()) ∧ ∃ u l t r,
      (build occ refl b).1 = { b₁ with upper := u, lower := l, tip := t, root := r } ∧
      ((u = b₁.upper ∧ l = b₁.lower ∧ t = b₁.tip ∧ r = b₁.root) ∨ (u ≠ none ∧ l = b₁.lower ∧ t = b₁.tip ∧ r = b₁.root) ∨
        (u ≠ none ∧ l ≠ none ∧ t = b₁.tip ∧ r = b₁.root) ∨ (u ≠ none ∧ l ≠ none ∧ t ≠ none ∧ r = b₁.root) ∨
        (u ≠ none ∧ l ≠ none ∧ t ≠ none ∧ r ≠ none)) := by
  rcases ha : applyTransformations refl b with ⟨b₁, (e | u)⟩
  · left
    exact ⟨b₁, e, rfl, by simp [build, ha]⟩
  right
  refine ⟨b₁, rfl, ?_⟩
  unfold build
  rw [ha]
  simp only
  rcases makeFace occ (mapPts (scalePt conversion) b₁.coordsUp) with e | F1
  · exact ⟨_, _, _, _, rfl, Or.inl ⟨rfl, rfl, rfl, rfl⟩⟩
  simp only
  rcases makeFace occ (mapPts (scalePt conversion) b₁.coordsDown) with e | F2
  · exact ⟨some F1, _, _, _, rfl, Or.inr (Or.inl ⟨by simp, rfl, rfl, rfl⟩)⟩
  simp only
  generalize (do npStack [← getLast (mapPts (scalePt conversion) b₁.coordsUp), ← getLast (mapPts (scalePt conversion) b₁.coordsDown)] >>= makeFace occ) = X
  rcases X with e | F3
  · exact ⟨some F1, some F2, _, _, rfl, Or.inr (Or.inr (Or.inl ⟨by simp, by simp, rfl, rfl⟩))⟩
  simp only
  generalize (do npStack [← getFirst (mapPts (scalePt conversion) b₁.coordsUp), ← getFirst (mapPts (scalePt conversion) b₁.coordsDown)] >>= makeFace occ) = Y
  rcases Y with e | F4
  · exact ⟨some F1, some F2, some F3, _, rfl, Or.inr (Or.inr (Or.inr (Or.inl ⟨by simp, by simp, by simp, rfl⟩)))⟩
  · exact ⟨some F1, some F2, some F3, some F4, rfl, Or.inr (Or.inr (Or.inr (Or.inr ⟨by simp, by simp, by simp, by simp⟩)))⟩

theorem build_sound {n m : Nat} {s : Arr} {t : Option Arr} {b : Blade} (h : Sound n m s t b) (occ : Face → Bool) (refl : Bool) :
    Sound n m s t (build occ refl b).1 := by
  obtain ⟨h', hcase⟩ := apply_sound h refl
  rcases build_cases occ refl b with ⟨b₁, e, h1, h2⟩ | ⟨b₁, h1, u, l, ti, ro, h2, h3⟩
  · rw [h2]; rw [h1] at h'; exact h'
  · rw [h2]
    rw [h1] at h'
    simp only at h'
    have hc : b₁.coordsUp ≠ [] := by
      rcases hcase with ⟨ss, e, he⟩ | ⟨ss, up, down, he, h0, _⟩
      · rw [h1] at he; simp at he
      · rw [h1] at he
        obtain rfl := (Prod.mk.inj he).1
        exact h0
    refine ⟨h'.wf, h'.len, h'.pos, h'.pts, h'.skew, h'.thick, h'.camb, h'.radii, h'.rect, fun _ => hc, ?_, ?_, ?_⟩
    · have := h'.lo
      rcases h3 with ⟨rfl, rfl, rfl, rfl⟩ | ⟨h3, rfl, rfl, rfl⟩ | ⟨h3, h4, rfl, rfl⟩ | ⟨h3, h4, h5, rfl⟩ | ⟨h3, h4, h5, h6⟩
      · exact this
      all_goals exact fun _ => h3
    · have := h'.ti
      rcases h3 with ⟨rfl, rfl, rfl, rfl⟩ | ⟨h3, rfl, rfl, rfl⟩ | ⟨h3, h4, rfl, rfl⟩ | ⟨h3, h4, h5, rfl⟩ | ⟨h3, h4, h5, h6⟩
      · exact this
      · exact this
      all_goals exact fun _ => h4
    · have := h'.ro
      rcases h3 with ⟨rfl, rfl, rfl, rfl⟩ | ⟨h3, rfl, rfl, rfl⟩ | ⟨h3, h4, rfl, rfl⟩ | ⟨h3, h4, h5, rfl⟩ | ⟨h3, h4, h5, h6⟩
      · exact this
      · exact this
      · exact this
      all_goals exact fun _ => h5

theorem ppgText_total (F : Fmt) (D Dhub : ℝ) (nB : Int) {b : Blade} (hW : b.WellFormed) {th ca : Arr}
    (ht : th.length = b.sections.length) (hc : ca.length = b.sections.length) : ∃ t, ppgText F D Dhub nB b th ca = .ok t := by
  obtain ⟨wr, wc, wp, wk, ws⟩ := hW
  have h1 : (List.range b.sections.length).mapM (ppgRow F b th ca) = .ok ((List.range b.sections.length).map fun i =>
      valueLine F [b.radii.getD i 0, b.chord.getD i 0, b.skew.getD i 0, b.rake.getD i 0, b.pitch.getD i 0, th.getD i 0, ca.getD i 0]
        ++ c!"\n") := by
    apply mapM_range_of
    intro i hi
    rw [ppgRow, getIdx_getD (by omega), getIdx_getD (by omega), getIdx_getD (by omega), getIdx_getD (by omega), getIdx_getD (by omega),
      getIdx_getD (by omega), getIdx_getD (by omega)]
    simp [bind, Except.bind, pure, Except.pure, valueLine]
  have h2 : (List.range b.sections.length).mapM (ppgSection F b) = .ok ((List.range b.sections.length).map fun i =>
      unlines (blockLines F (b.radii.getD i 0) (b.sections.getD i Sample.foil))) := by
    apply mapM_range_of
    intro i hi
    rw [ppgSection, getIdx_getD (by omega)]
    simp [bind, Except.bind, pure, Except.pure, getIdx, hi, blockLines, unlines, ppgValues, valueLine]
  unfold ppgText
  simp only [h1, h2, bind, Except.bind, pure, Except.pure]
  exact ⟨_, rfl⟩

/-- `export_ppg`: the blade afterwards. -/
theorem export_states (F : Fmt) (w : Bool) (fs : ParamFile.FS) (path : Str) (D Dhub : ℝ) (nB : Int) (norm : Bool) {b : Blade}
    (hW : b.WellFormed) : ∃ ss, (ss = b.sections ∨ ss.length = b.sections.length ∧ ∀ (i : Nat) (P : Profile), ss[i]? = some P →
        ∃ Q, b.sections[i]? = some Q ∧ P.xup = Q.xup ∧ P.xdown = Q.xdown ∧ P.yup = Q.yup ∧ P.ydown = Q.ydown) ∧
      ((exportPpg F w fs path D Dhub nB norm b).1 = { b with sections := ss } ∨
        (w = false ∧ norm = false ∧ D ≠ 0 ∧ (exportPpg F w fs path D Dhub nB norm b).1 = absToNorm D { b with sections := ss })) := by
  unfold exportPpg
  rcases hm : ppgMeasures b with e | ms
  · refine ⟨ppgSections b.sections, Or.inr ?_, Or.inl rfl⟩
    have hf := ppgSections_same b.sections
    refine ⟨hf.length_eq, fun i P hP => ?_⟩
    obtain ⟨hi, rfl⟩ := List.getElem?_eq_some_iff.1 hP
    have hi' : i < b.sections.length := by rw [← hf.length_eq]; exact hi
    obtain ⟨x1, x2, x3, x4, _⟩ := (List.forall₂_iff_get.1 hf).2 i hi hi'
    exact ⟨_, List.getElem?_eq_getElem hi', x1, x2, x3, x4⟩
  obtain ⟨hl, hms⟩ := measures_ok hm
  refine ⟨ms.map (·.2.2), Or.inr ⟨by simp [hl], ?_⟩, ?_⟩
  · intro i P hP
    simp only [List.getElem?_map, Option.map_eq_some_iff] at hP
    obtain ⟨⟨t, c, Q⟩, hq, rfl⟩ := hP
    have hi : i < b.sections.length := by rw [← hl]; exact (List.getElem?_eq_some_iff.1 hq).1
    have hQ : b.sections[i]? = some b.sections[i] := List.getElem?_eq_getElem _
    obtain ⟨-, k⟩ := hms i _ _ hQ hq
    obtain ⟨k1, k2, k3, k4, -⟩ := camber_keeps k
    exact ⟨_, hQ, k1, k2, k3, k4⟩
  simp only
  by_cases hD : norm = false ∧ D = 0
  · rw [if_pos hD]; exact Or.inl rfl
  rw [if_neg hD]
  obtain ⟨wr, wc, wp, wk, ws⟩ := hW
  set B : Blade := { b with sections := ms.map (·.2.2) } with hB
  have hW' : (if norm then B else absToNorm D B).WellFormed := by
    cases norm <;> simp [WellFormed, absToNorm, hB, hl, wr, wc, wp, wk, ws]
  have hs : (if norm then B else absToNorm D B).sections.length = ms.length := by cases norm <;> simp [absToNorm, hB]
  obtain ⟨t, ht⟩ := ppgText_total F D Dhub nB hW' (th := ms.map (·.1)) (ca := ms.map (·.2.1)) (by rw [hs]; simp) (by rw [hs]; simp)
  rw [ht]
  simp only
  cases w
  · cases norm
    · right
      exact ⟨rfl, rfl, fun h => hD ⟨rfl, h⟩, rfl⟩
    · exact Or.inl rfl
  · cases norm
    · left
      have hD0 : D ≠ 0 := fun h => hD ⟨rfl, h⟩
      have e1 : ∀ x : ℝ, x * 2 / D * D / 2 = x := by intro x; field_simp
      have e2 : ∀ x : ℝ, x / D * D = x := by intro x; field_simp
      simp [normToAbs, absToNorm, Function.comp_def, e1, e2]
    · exact Or.inl rfl

theorem sections_sound {n m : Nat} {s : Arr} {t : Option Arr} {b : Blade} (h : Sound n m s t b) {ss : List Profile}
    (hss : ss = b.sections ∨ ss.length = b.sections.length ∧ ∀ (i : Nat) (P : Profile), ss[i]? = some P →
        ∃ Q, b.sections[i]? = some Q ∧ P.xup = Q.xup ∧ P.xdown = Q.xdown ∧ P.yup = Q.yup ∧ P.ydown = Q.ydown) :
    Sound n m s t { b with sections := ss } := by
  rcases hss with rfl | ⟨hl, hp⟩
  · exact h
  · refine ⟨?_, hl.trans h.len, h.pos, ?_, h.skew, h.thick, h.camb, h.radii, h.rect, h.up, h.lo, h.ti, h.ro⟩
    · have := h.wf
      simpa only [WellFormed, hl] using this
    · intro P hP
      obtain ⟨i, hi, rfl⟩ := List.mem_iff_getElem.1 hP
      obtain ⟨Q, hQ, e1, e2, e3, e4⟩ := hp i _ (List.getElem?_eq_getElem hi)
      have := h.pts Q (List.mem_of_getElem? hQ)
      simpa [Pts, Profile.Uniform, Profile.upper, e1, e2, e3, e4] using this

/-- Every call keeps the blade sound. -/
theorem run_sound {n m : Nat} {s : Arr} {t : Option Arr} {b : Blade} (h : Sound n m s t b) (a : Action) :
    Sound n m s t (a.run b).1 := by
  cases a with
  | apply refl => exact (apply_sound h refl).1
  | build occ refl => exact build_sound h occ refl
  | rotate deg rad axis =>
    simp only [Action.run, rotate]
    split
    · exact h
    · split
      · exact h
      · split
        · exact h
        · exact onFaces_sound (move_sound h _) _
  | mirror args kwargs =>
    simp only [Action.run, mirror]
    split
    · exact h
    · split
      · exact h
      · exact onFaces_sound h _
  | scale f =>
    simp only [Action.run, scale]
    split
    · exact move_sound h _
    · exact onFaces_sound (move_sound h _) _
  | exportPpg F w fs path D Dhub nB norm =>
    simp only [Action.run]
    obtain ⟨ss, hss, h1 | ⟨-, -, hD, h1⟩⟩ := export_states F w fs path D Dhub nB norm h.wf
    · rw [h1]; exact sections_sound h hss
    · rw [h1]
      have h' := sections_sound h hss
      refine ⟨?_, h'.len, h'.pos, h'.pts, h'.skew, h'.thick, h'.camb, ?_, h'.rect, h'.up, h'.lo, h'.ti, h'.ro⟩
      · have := h'.wf
        simpa [WellFormed, absToNorm] using this
      · intro x hx
        simp only [absToNorm, List.mem_map] at hx
        obtain ⟨y, hy, rfl⟩ := hx
        exact div_ne_zero (mul_ne_zero (h.radii y hy) two_ne_zero) hD
  | reset =>
    exact ⟨h.wf, h.len, h.pos, h.pts, h.skew, h.thick, h.camb, h.radii, Or.inl ⟨rfl, rfl⟩, by simp [Action.run, Blade.reset],
      by simp [Action.run, Blade.reset], by simp [Action.run, Blade.reset], by simp [Action.run, Blade.reset]⟩

/-- The four arrays. -/
def Same4 (b b' : Blade) : Prop := b'.radii = b.radii ∧ b'.chord = b.chord ∧ b'.pitch = b.pitch ∧ b'.rake = b.rake

theorem onFaces_same (f : Pt3 → Pt3) (b : Blade) : Same4 b (onFaces f b).1 := by
  obtain ⟨S, r, c, p, k, s', t', f', cu, cd, u, l, ti, ro⟩ := b
  rcases u with _ | u <;> rcases l with _ | l <;> rcases ti with _ | ti <;> rcases ro with _ | ro <;> exact ⟨rfl, rfl, rfl, rfl⟩

theorem apply_same (refl : Bool) (b : Blade) : Same4 b (applyTransformations refl b).1 := by
  unfold applyTransformations
  repeat' split
  all_goals exact ⟨rfl, rfl, rfl, rfl⟩

/-- Every call but a failing export keeps the four arrays. -/
theorem run_same {n m : Nat} {s : Arr} {t : Option Arr} {b : Blade} (h : Sound n m s t b) (a : Action) :
    Same4 b (a.run b).1 ∨ (a.FailsToWrite ∧ ∃ D : ℝ, D ≠ 0 ∧ (a.run b).1.radii = b.radii.map (· * 2 / D) ∧
      (a.run b).1.chord = b.chord.map (· / D) ∧ (a.run b).1.pitch = b.pitch.map (· / D) ∧ (a.run b).1.rake = b.rake.map (· / D)) := by
  cases a with
  | apply refl => exact Or.inl (apply_same refl b)
  | build occ refl =>
    left
    have := apply_same refl b
    rcases build_cases occ refl b with ⟨b₁, e, h1, h2⟩ | ⟨b₁, h1, u, l, ti, ro, h2, -⟩
    · rw [h1] at this
      simp only [Action.run, h2]; exact this
    · rw [h1] at this
      simp only [Action.run, h2]; exact this
  | rotate deg rad axis =>
    left
    simp only [Action.run, rotate]
    split
    · exact ⟨rfl, rfl, rfl, rfl⟩
    · split
      · exact ⟨rfl, rfl, rfl, rfl⟩
      · split
        · exact ⟨rfl, rfl, rfl, rfl⟩
        · exact onFaces_same _ { b with coordsUp := _, coordsDown := _ }
  | mirror args kwargs =>
    left
    simp only [Action.run, mirror]
    split
    · exact ⟨rfl, rfl, rfl, rfl⟩
    · split
      · exact ⟨rfl, rfl, rfl, rfl⟩
      · exact onFaces_same _ b
  | scale f =>
    left
    simp only [Action.run, scale]
    split
    · exact ⟨rfl, rfl, rfl, rfl⟩
    · exact onFaces_same _ { b with coordsUp := _, coordsDown := _ }
  | exportPpg F w fs path D Dhub nB norm =>
    simp only [Action.run]
    obtain ⟨ss, hss, h1 | ⟨hw, hn, hD, h1⟩⟩ := export_states F w fs path D Dhub nB norm h.wf
    · rw [h1]; exact Or.inl ⟨rfl, rfl, rfl, rfl⟩
    · rw [h1]; exact Or.inr ⟨⟨hw, hn, hD⟩, D, hD, rfl, rfl, rfl, rfl⟩
  | reset => exact Or.inl ⟨rfl, rfl, rfl, rfl⟩

theorem life_sound {n m : Nat} {s : Arr} {t : Option Arr} (r c p k : Arr) : ∀ (as : List Action) (b : Blade) (j : Nat) (q : ℝ),
    Sound n m s t b → q ≠ 0 → Scaled r c p k j q b → Sound n m s t (b.life as) ∧ ∃ (j' : Nat) (q' : ℝ), q' ≠ 0 ∧
      Scaled r c p k j' q' (b.life as) ∧ ((∀ a ∈ as, ¬ a.FailsToWrite) → j' = j ∧ q' = q) := by
  intro as
  induction as with
  | nil => intro b j q h hq hs; exact ⟨h, j, q, hq, hs, fun _ => ⟨rfl, rfl⟩⟩
  | cons a as ih =>
    intro b j q h hq hs
    have hstep : b.life (a :: as) = (a.run b).1.life as := rfl
    rw [hstep]
    have h' := run_sound h a
    rcases run_same h a with ⟨e1, e2, e3, e4⟩ | ⟨hf, D, hD, e1, e2, e3, e4⟩
    · obtain ⟨i1, j', q', i2, i3, i4⟩ := ih (a.run b).1 j q h' hq (by
        obtain ⟨s1, s2, s3, s4⟩ := hs
        exact ⟨e1.trans s1, e2.trans s2, e3.trans s3, e4.trans s4⟩)
      exact ⟨i1, j', q', i2, i3, fun hall => i4 (fun x hx => hall x (by simp [hx]))⟩
    · obtain ⟨i1, j', q', i2, i3, i4⟩ := ih (a.run b).1 (j + 1) (q / D) h' (div_ne_zero hq hD) (by
        obtain ⟨s1, s2, s3, s4⟩ := hs
        refine ⟨?_, ?_, ?_, ?_⟩
        · rw [e1, s1, List.map_map]
          apply List.map_congr_left
          intro x _
          simp only [Function.comp]
          rw [pow_succ]; ring
        · rw [e2, s2, List.map_map]; apply List.map_congr_left; intro x _; simp only [Function.comp]; ring
        · rw [e3, s3, List.map_map]; apply List.map_congr_left; intro x _; simp only [Function.comp]; ring
        · rw [e4, s4, List.map_map]; apply List.map_congr_left; intro x _; simp only [Function.comp]; ring)
      exact ⟨i1, j', q', i2, i3, fun hall => absurd hf (hall a (by simp))⟩

theorem new_sound (S : List Profile) (r c p k s : Arr) (t : Option Arr) (b₀ : Blade) (h : Blade.new S r c p k s t none = .ok b₀)
    (hne : S ≠ []) (hr : ∀ x ∈ r, x ≠ 0) (m : Nat) (hS : ∀ P ∈ S, P.Uniform ∧ P.upper.length = m) :
    Sound S.length m s t b₀ ∧ Scaled r c p k 0 1 b₀ := by
  simp only [Blade.new] at h
  split at h
  · rename_i hl
    obtain rfl := Except.ok.inj h
    obtain ⟨l1, l2, l3, l4, l5⟩ := hl
    refine ⟨⟨⟨l1, l2, l3, l4, l5⟩, rfl, List.length_pos_iff.2 hne, hS, rfl, rfl, rfl, hr, Or.inl ⟨rfl, rfl⟩, by simp, by simp, by simp,
      by simp⟩, by simp, by simp, by simp, by simp⟩
  · cases h

/-- The faces move with the coordinates. -/
theorem fits_moved {b b' : Blade} (h : b.FacesFit) (f : Pt3 → Pt3) (hf : ∀ k p, f (scalePt k p) = scalePt k (f p))
    (hc : b.coordsMoved f b') (hF : b.facesMoved f b') : b'.FacesFit := by
  obtain ⟨h0, h1, h2, ⟨u, d, h3, h4, h5⟩, u', d', h6, h7, h8⟩ := h
  have e : ∀ l : List Pt3, (l.map fun p => (p.1 * 1000, p.2.1 * 1000, p.2.2 * 1000)).map f =
      (l.map f).map fun p => (p.1 * 1000, p.2.1 * 1000, p.2.2 * 1000) := by
    intro l
    rw [List.map_map, List.map_map]
    exact List.map_congr_left fun p _ => hf 1000 p
  refine ⟨?_, ?_, ?_, ⟨u.map f, d.map f, ?_, ?_, ?_⟩, u'.map f, d'.map f, ?_, ?_, ?_⟩
  · rw [hc.1]; simpa using h0
  · rw [hF.1, h1, hc.1]; simp only [Option.map_some, List.map_map]; congr 1; exact List.map_congr_left fun l _ => e l
  · rw [hF.2.1, h2, hc.2]; simp only [Option.map_some, List.map_map]; congr 1; exact List.map_congr_left fun l _ => e l
  · rw [hc.1, List.getLast?_map, h3]; rfl
  · rw [hc.2, List.getLast?_map, h4]; rfl
  · rw [hF.2.2.1, h5]; simp only [Option.map_some, List.map_cons, List.map_nil, e]
  · rw [hc.1, List.head?_map, h6]; rfl
  · rw [hc.2, List.head?_map, h7]; rfl
  · rw [hF.2.2.2, h8]; simp only [Option.map_some, List.map_cons, List.map_nil, e]

theorem fits_has {b : Blade} (h : b.FacesFit) : b.HasCoords ∧ b.HasFaces := by
  obtain ⟨h0, h1, h2, ⟨u, d, h3, h4, h5⟩, u', d', h6, h7, h8⟩ := h
  exact ⟨h0, by rw [h1]; simp, by rw [h2]; simp, by rw [h5]; simp, by rw [h8]; simp⟩

theorem run_fits {n m : Nat} {s : Arr} {t : Option Arr} {b : Blade} (h : Sound n m s t b) (a : Action) (ha : a.Keeps)
    (hb : b.Blank ∨ b.FacesFit) : (a.run b).1.Blank ∨ (a.run b).1.FacesFit := by
  cases a with
  | apply refl => exact absurd ha id
  | mirror args kwargs => exact absurd ha id
  | reset => exact Or.inl ⟨rfl, rfl, rfl, rfl, rfl, rfl⟩
  | build occ refl =>
    have hocc : ∀ F, occ F = true := ha
    simp only [Action.run]
    rcases (apply_sound h refl).2 with ⟨ss, e, he⟩ | ⟨ss, up, down, he, h0, l1, l2, l3, l4⟩
    · have : build occ refl b = ({ b with sections := ss }, .error e) := by simp [build, he]
      rw [this]
      exact hb
    · right
      have hd0 : down ≠ [] := by
        rintro rfl
        have := h.pos
        simp at l2
        omega
      obtain ⟨u0, hu0⟩ : ∃ x, up.getLast? = some x := ⟨_, List.getLast?_eq_some_getLast h0⟩
      obtain ⟨d0, hd0'⟩ : ∃ x, down.getLast? = some x := ⟨_, List.getLast?_eq_some_getLast hd0⟩
      obtain ⟨u1, hu1⟩ : ∃ x, up.head? = some x := ⟨_, List.head?_eq_some_head h0⟩
      obtain ⟨d1, hd1⟩ : ∃ x, down.head? = some x := ⟨_, List.head?_eq_some_head hd0⟩
      have := build_ok (occ := occ) (b := b) (refl := refl) (b' := { b with sections := ss, coordsUp := up, coordsDown := down, upper := some (mapPts (scalePt conversion) up), lower := some (mapPts (scalePt conversion) down), tip := some [u0.map (scalePt conversion), d0.map (scalePt conversion)], root := some [u1.map (scalePt conversion), d1.map (scalePt conversion)] })
      rw [this.2 ⟨{ b with sections := ss, coordsUp := up, coordsDown := down }, u0.map (scalePt conversion), d0.map (scalePt conversion),
        u1.map (scalePt conversion), d1.map (scalePt conversion), he, by simp [mapPts, List.getLast?_map, hu0],
        by simp [mapPts, List.getLast?_map, hd0'], by simp [mapPts, List.head?_map, hu1], by simp [mapPts, List.head?_map, hd1],
        by simp [l3 _ (List.mem_of_getLast? hu0), l4 _ (List.mem_of_getLast? hd0')],
        by simp [l3 _ (List.mem_of_head? hu1), l4 _ (List.mem_of_head? hd1)], hocc _, hocc _, hocc _, hocc _, rfl⟩]
      exact ⟨h0, rfl, rfl, ⟨u0, d0, hu0, hd0', rfl⟩, u1, d1, hu1, hd1, rfl⟩
  | rotate deg rad axis =>
    simp only [Action.run]
    rcases hb with hb | hb
    · left
      rw [rotate_error (Or.inl (by simp [HasCoords, hb.1]))]
      exact hb
    · right
      obtain ⟨k1, k2⟩ := fits_has hb
      obtain ⟨s1, s2, -, -⟩ := step_in_step (.rotate deg rad axis) ha b k1 k2
      exact fits_moved hb _ (motion_scale _) s1 s2
  | scale f =>
    simp only [Action.run]
    rcases hb with ⟨b1, b2, b3, b4, b5, b6⟩ | hb
    · left
      have hf : f ≠ 0 := ha
      unfold scale
      simp only [hf, if_false]
      unfold onFaces
      simp only [b3]
      exact ⟨by simp [b1, mapPts], by simp [b2, mapPts], rfl, b4, b5, b6⟩
    · right
      obtain ⟨k1, k2⟩ := fits_has hb
      obtain ⟨s1, s2, -, -⟩ := step_in_step (.scale f) ha b k1 k2
      exact fits_moved hb _ (motion_scale _) s1 s2
  | exportPpg F w fs path D Dhub nB norm =>
    simp only [Action.run]
    obtain ⟨ss, -, h1 | ⟨-, -, -, h1⟩⟩ := export_states F w fs path D Dhub nB norm h.wf
    · rw [h1]; exact hb
    · rw [h1]; exact hb

theorem life_fits {n m : Nat} {s : Arr} {t : Option Arr} : ∀ (as : List Action) (b : Blade), Sound n m s t b →
    (∀ a ∈ as, a.Keeps) → (b.Blank ∨ b.FacesFit) → (b.life as).Blank ∨ (b.life as).FacesFit := by
  intro as
  induction as with
  | nil => intro b _ _ hb; exact hb
  | cons a as ih =>
    intro b h hk hb
    exact ih (a.run b).1 (run_sound h a) (fun x hx => hk x (by simp [hx])) (run_fits h a (hk a (by simp)) hb)

end Blade

/-- **C98** after every history of calls on a blade made of sections with equally many points, with non-zero radii and no camber
distribution - whatever the arguments, whichever calls raised: the sections are as many and have as many points as at the start; skew,
thickness and camber are the ones given; the radii, chord lengths, pitch and rake are the ones given, unless some export could not write
its file, and then all of them are multiplied by one common factor (and the radii by a power of two more); there are no coordinates at
all or one rectangular array of coordinates per surface, one row per section; a face exists only if coordinates exist and all faces
before it (in the order upper, lower, tip, root) exist. -/
theorem C98_always (S : List Profile) (r c p k s : Arr) (t : Option Arr) (b₀ : Blade) (h : Blade.new S r c p k s t none = .ok b₀)
    (hne : S ≠ []) (hr : ∀ x ∈ r, x ≠ 0) (m : Nat) (hS : ∀ P ∈ S, P.Uniform ∧ P.upper.length = m) (as : List Blade.Action) :
    ((b₀.life as).sections.length = S.length ∧ ∀ P ∈ (b₀.life as).sections, P.Uniform ∧ P.upper.length = m) ∧
    ((b₀.life as).skew = s ∧ (b₀.life as).thickness = t ∧ (b₀.life as).camber = none) ∧
    (∃ (j : Nat) (q : ℝ), q ≠ 0 ∧ (b₀.life as).radii = r.map (fun x => 2 ^ j * q * x) ∧ (b₀.life as).chord = c.map (fun x => q * x) ∧
      (b₀.life as).pitch = p.map (fun x => q * x) ∧ (b₀.life as).rake = k.map (fun x => q * x) ∧
      ((∀ a ∈ as, ¬ a.FailsToWrite) → j = 0 ∧ q = 1)) ∧
    (((b₀.life as).coordsUp = [] ∧ (b₀.life as).coordsDown = []) ∨
      ((b₀.life as).coordsUp.length = S.length ∧ (b₀.life as).coordsDown.length = S.length ∧
        (∀ l ∈ (b₀.life as).coordsUp, l.length = m) ∧ ∀ l ∈ (b₀.life as).coordsDown, l.length = m)) ∧
    ((b₀.life as).upper ≠ none → (b₀.life as).coordsUp ≠ []) ∧ ((b₀.life as).lower ≠ none → (b₀.life as).upper ≠ none) ∧
    ((b₀.life as).tip ≠ none → (b₀.life as).lower ≠ none) ∧ ((b₀.life as).root ≠ none → (b₀.life as).tip ≠ none) := by
  have h0 := Blade.new_sound S r c p k s t b₀ h hne hr m hS
  obtain ⟨hs, j, q, hq, ⟨q1, q2, q3, q4⟩, hall⟩ := Blade.life_sound r c p k as b₀ 0 1 h0.1 one_ne_zero h0.2
  exact ⟨⟨hs.len, hs.pts⟩, ⟨hs.skew, hs.thick, hs.camb⟩, ⟨j, q, hq, q1, q2, q3, q4, hall⟩, hs.rect, hs.up, hs.lo, hs.ti, hs.ro⟩

/-- **C98** hence at any time the solid can be generated exactly if the root face exists. -/
theorem C98_solid (S : List Profile) (r c p k s : Arr) (t : Option Arr) (b₀ : Blade) (h : Blade.new S r c p k s t none = .ok b₀)
    (hne : S ≠ []) (hr : ∀ x ∈ r, x ≠ 0) (m : Nat) (hS : ∀ P ∈ S, P.Uniform ∧ P.upper.length = m) (as : List Blade.Action) :
    (∃ F, (b₀.life as).generateSolid = .ok F) ↔ (b₀.life as).root ≠ none := by
  obtain ⟨-, -, -, -, h1, h2, h3, h4⟩ := C98_always S r c p k s t b₀ h hne hr m hS as
  generalize b₀.life as = b at *
  unfold Blade.generateSolid
  constructor
  · rintro ⟨F, hF⟩ h0
    rw [h0] at hF
    split at hF
    · rename_i e; cases e
    · cases hF
  · intro h0
    have t1 := h4 h0
    have t2 := h3 t1
    have t3 := h2 t2
    obtain ⟨u, hu⟩ := Option.ne_none_iff_exists'.1 t3
    obtain ⟨l, hl⟩ := Option.ne_none_iff_exists'.1 t2
    obtain ⟨ti, hti⟩ := Option.ne_none_iff_exists'.1 t1
    obtain ⟨ro, hro⟩ := Option.ne_none_iff_exists'.1 h0
    rw [hu, hl, hti, hro]
    exact ⟨_, rfl⟩

/-- **C98** as long as the blade is only built (with a kernel that builds every face), rotated about `x` and `z`, scaled by factors
other than zero, exported and reset - in any order, whichever of these calls raised - it is blank or its four faces belong to its
coordinates. -/
theorem C98_in_step (S : List Profile) (r c p k s : Arr) (t : Option Arr) (b₀ : Blade) (h : Blade.new S r c p k s t none = .ok b₀)
    (hne : S ≠ []) (hr : ∀ x ∈ r, x ≠ 0) (m : Nat) (hS : ∀ P ∈ S, P.Uniform ∧ P.upper.length = m) (as : List Blade.Action)
    (has : ∀ a ∈ as, a.Keeps) : (b₀.life as).Blank ∨ (b₀.life as).FacesFit := by
  obtain ⟨h0, -⟩ := Blade.new_sound S r c p k s t b₀ h hne hr m hS
  refine Blade.life_fits as b₀ h0 has (Or.inl ?_)
  simp only [Blade.new] at h
  split at h
  · obtain rfl := Except.ok.inj h
    exact ⟨rfl, rfl, rfl, rfl, rfl, rfl⟩
  · cases h

/-- **C98** `apply_transformations` is excluded there because it leaves the faces alone: on a blade whose faces belong to its coordinates
they still do afterwards exactly if the coordinates have not changed. -/
theorem C98_stale (b b' : Blade) (refl : Bool) (hF : b.FacesFit) (h : b.applyTransformations refl = (b', .ok ())) :
    (b'.upper = b.upper ∧ b'.lower = b.lower ∧ b'.tip = b.tip ∧ b'.root = b.root) ∧
    (b'.FacesFit ↔ b'.coordsUp = b.coordsUp ∧ b'.coordsDown = b.coordsDown) := by
  have hk : b'.upper = b.upper ∧ b'.lower = b.lower ∧ b'.tip = b.tip ∧ b'.root = b.root := by
    have e : b' = (b.applyTransformations refl).1 := by rw [h]
    rw [e]
    unfold Blade.applyTransformations
    repeat' split
    all_goals exact ⟨rfl, rfl, rfl, rfl⟩
  refine ⟨hk, ?_⟩
  obtain ⟨k1, k2, k3, k4⟩ := hk
  have inj : Function.Injective (List.map (List.map fun p : Pt3 => (p.1 * 1000, p.2.1 * 1000, p.2.2 * 1000))) := by
    apply List.map_injective_iff.2
    apply List.map_injective_iff.2
    rintro ⟨x, y, z⟩ ⟨x', y', z'⟩ hp
    simp only [Prod.mk.injEq] at hp ⊢
    exact ⟨by linarith [hp.1], by linarith [hp.2.1], by linarith [hp.2.2]⟩
  constructor
  · rintro ⟨g0, g1, g2, -, -⟩
    rw [k1, hF.2.1] at g1
    rw [k2, hF.2.2.1] at g2
    exact ⟨(inj (Option.some.inj g1)).symm, (inj (Option.some.inj g2)).symm⟩
  · rintro ⟨e1, e2⟩
    obtain ⟨h0, h1, h2, h3, h4⟩ := hF
    refine ⟨?_, ?_, ?_, ?_, ?_⟩
    · rw [e1]; exact h0
    · rw [k1, e1]; exact h1
    · rw [k2, e2]; exact h2
    · rw [k3, e1, e2]; exact h3
    · rw [k4, e1, e2]; exact h4

/-- A flat section, and a blade with that section alone, of chord 1, radius 1, without pitch, rake and skew. -/
private def flat : Profile where
  xup := [0, 1]
  xdown := [0, 1]
  yup := [0, 0]
  ydown := [0, 0]

private def flatBlade : Blade where
  sections := [flat]
  radii := [1]
  chord := [1]
  pitch := [0]
  rake := [0]
  skew := [0]
  thickness := none
  camber := none
  coordsUp := []
  coordsDown := []
  upper := none
  lower := none
  tip := none
  root := none

private theorem flat_new : Blade.new [flat] [1] [1] [0] [0] [0] none none = .ok flatBlade := by simp [Blade.new, flatBlade]

private theorem flat_pts : ∀ P ∈ [flat], P.Uniform ∧ P.upper.length = 2 := by simp [flat, Profile.Uniform, Profile.upper]

/-- The hypotheses of the theorems above can be met, by a history in which everything happens. -/
example : ∃ (S : List Profile) (r c p k s : Arr) (t : Option Arr) (b₀ : Blade) (as : List Blade.Action),
    Blade.new S r c p k s t none = .ok b₀ ∧ S ≠ [] ∧ (∀ x ∈ r, x ≠ 0) ∧ (∀ P ∈ S, P.Uniform ∧ P.upper.length = 2) ∧
    (∀ a ∈ as, a.Keeps) ∧ as.length = 4 ∧ (∀ a ∈ as, ¬ a.FailsToWrite) :=
  ⟨[flat], [1], [1], [0], [0], [0], none, flatBlade, [.build (fun _ => true) true, .rotate none (some 1) c!"x", .scale 2, .reset], flat_new,
    by simp, by simp, flat_pts, by simp [Blade.Action.Keeps], rfl, by simp [Blade.Action.FailsToWrite]⟩

/-- A blade that is built and then transformed again: the faces do not belong to the coordinates. -/
theorem C98_stale_example : ∃ (S : List Profile) (r c p k s : Arr) (b₀ b : Blade), Blade.new S r c p k s none none = .ok b₀ ∧
    b = b₀.life [.build (fun _ => true) false, .apply false] ∧ b.upper ≠ none ∧ ¬ b.Blank ∧ ¬ b.FacesFit := by
  refine ⟨[flat], [1], [1], [0], [0], [0], flatBlade, _, flat_new, rfl, ?_⟩
  have hW : flatBlade.WellFormed := by simp [flatBlade, Blade.WellFormed]
  have hU : ∀ P ∈ flatBlade.sections, P.Uniform := by simp [flatBlade, flat, Profile.Uniform]
  have hC : ∀ P ∈ flatBlade.sections, P.ClosedEdges := by simp [flatBlade, flat, Profile.ClosedEdges, Profile.upper, Profile.lower]
  have href : flat.referencePoint = .ok (1 / 2, 0) := by
    rw [Profile.referencePoint_ends (a := (0, 0)) (b := (1, 0)) (c := (0, 0)) (d := (1, 0)) ⟨by simp [flat], by simp [flat]⟩
      ⟨by simp [flat, Profile.upper], by simp [flat, Profile.upper], by simp [flat, Profile.lower], by simp [flat, Profile.lower]⟩]
    rw [if_neg (by norm_num)]
    norm_num [mid]
  obtain ⟨b₁, h₁⟩ : ∃ b₁, flatBlade.applyTransformations false = (b₁, .ok ()) := by
    rw [C46_defined _ _ hW rfl rfl hU]
    refine ⟨by simp [flatBlade], by simp [flatBlade], ?_, by simp [flatBlade]⟩
    intro P hP
    simp only [flatBlade, List.mem_singleton] at hP
    subst hP
    exact ⟨_, href⟩
  obtain ⟨b₂, h₂⟩ := C52_never_refused [(false, false), (false, false)] flatBlade b₁ false hW rfl rfl hU hC h₁
  simp only [Blade.applyMany, h₁, Bool.false_eq_true, if_false] at h₂
  obtain ⟨hW1, hU1⟩ := Blade.apply_uniform hW rfl rfl hU h₁
  obtain ⟨k1, k2⟩ := Blade.apply_keeps hW h₁
  obtain ⟨l1, ⟨e1, e2, e3, e4, e5⟩, hp1⟩ := C46_placed flatBlade b₁ false hW rfl rfl hU h₁
  obtain ⟨ref1, Q1, r1, -, hQ1, q1, -, -⟩ := hp1 0 flat 1 1 0 0 0 rfl rfl rfl rfl rfl rfl
  rw [href] at r1
  obtain rfl := Except.ok.inj r1
  have hc1 := ((C48_reversed flatBlade b₁ false hW h₁).2.2 0 Q1 1 hQ1 rfl).1
  -- the built blade
  set B := (flatBlade.build (fun _ => true) false).1 with hB
  have hfit : B.FacesFit ∧ ∃ u l ti ro, B = { b₁ with upper := u, lower := l, tip := ti, root := ro } := by
    rcases Blade.build_cases (fun _ => true) false flatBlade with ⟨b', e, g1, -⟩ | ⟨b', g1, u, l, ti, ro, g2, -⟩
    · rw [h₁] at g1
      simp at g1
    · rw [h₁] at g1
      obtain rfl := (Prod.mk.inj g1).1
      refine ⟨?_, u, l, ti, ro, g2⟩
      rcases C98_in_step [flat] [1] [1] [0] [0] [0] none flatBlade flat_new (by simp) (by simp) 2 flat_pts
        [.build (fun _ => true) false] (by simp [Blade.Action.Keeps]) with hb | hb
      · exfalso
        have hb1 : B.coordsUp = [] := hb.1
        rw [hB, g2] at hb1
        simp only at hb1
        rw [hb1] at hc1
        simp at hc1
      · exact hb
  obtain ⟨hfit, u, l, ti, ro, hBe⟩ := hfit
  have hlife : flatBlade.life [.build (fun _ => true) false, .apply false] = (B.applyTransformations false).1 := rfl
  rw [hlife]
  obtain ⟨b₃, h₃⟩ : ∃ b₃, B.applyTransformations false = (b₃, .ok ()) := by
    have hd : ∃ b', b₁.applyTransformations false = (b', .ok ()) := by
      rcases ha : b₁.applyTransformations false with ⟨b', (e | x)⟩
      · rw [ha] at h₂; simp at h₂
      · exact ⟨b', rfl⟩
    rw [C46_defined b₁ false hW1 k1 k2 (fun Q hQ => (hU1 Q hQ).1)] at hd
    have hwB : B.WellFormed := by rw [hBe]; exact hW1
    refine (C46_defined B false hwB (by rw [hBe]; exact k1) (by rw [hBe]; exact k2) (by rw [hBe]; exact fun Q hQ => (hU1 Q hQ).1)).2 ?_
    rw [hBe]
    exact hd
  rw [h₃]
  obtain ⟨⟨s1, s2, s3, s4⟩, hiff⟩ := C98_stale B b₃ false hfit h₃
  obtain ⟨hc, hF⟩ := Blade.fits_has hfit
  refine ⟨?_, ?_, ?_⟩
  · rw [s1, hfit.2.1]; simp
  · rintro ⟨-, -, n1, -⟩
    rw [s1, hfit.2.1] at n1
    simp at n1
  · rw [hiff]
    rintro ⟨hcu, -⟩
    have hWB : B.WellFormed := by rw [hBe]; exact hW1
    obtain ⟨l3, -, hp3⟩ := C46_placed B b₃ false hWB (by rw [hBe]; exact k1) (by rw [hBe]; exact k2)
      (by rw [hBe]; exact fun Q hQ => (hU1 Q hQ).1) h₃
    obtain ⟨ref3, Q3, -, -, hQ3, q3, -, -⟩ := hp3 0 Q1 1 1 0 0 0 (by rw [hBe]; exact hQ1) (by rw [hBe]; show b₁.radii[0]? = _; rw [e1]; rfl)
      (by rw [hBe]; show b₁.chord[0]? = _; rw [e2]; rfl) (by rw [hBe]; show b₁.pitch[0]? = _; rw [e3]; rfl)
      (by rw [hBe]; show b₁.rake[0]? = _; rw [e4]; rfl) (by rw [hBe]; show b₁.skew[0]? = _; rw [e5]; rfl)
    have hc3 := ((C48_reversed B b₃ false hWB h₃).2.2 0 Q3 1 hQ3 (by rw [hBe]; show b₁.radii[0]? = _; rw [e1]; rfl)).1
    have hn : B.sections.length = flatBlade.sections.length := by rw [hBe]; exact l1
    have hcB : B.coordsUp = b₁.coordsUp := by rw [hBe]
    rw [hn, hcu, hcB, hc1] at hc3
    have hc4 := Option.some.inj hc3
    rw [q3, q1] at hc4
    simp only [flat, Profile.upper, List.zip_cons_cons, List.zip_nil_left, List.map_cons, List.map_nil, List.cons.injEq, and_true, wrap, placed,
      Prod.mk.injEq] at hc4
    obtain ⟨⟨x1, -⟩, x2, -⟩ := hc4
    norm_num at x1 x2
    linarith

end
end BladeX
