import Verif.Lemmas.ParamFile
import Mathlib.Data.Nat.Digits.Defs
import Mathlib.Tactic.NormNum
import Mathlib.Tactic.Linarith
import Mathlib.Tactic.IntervalCases

/-! # Parameter files (`bladex/params.py`) -/

namespace BladeX
noncomputable section
namespace ParamFile

/-! ## C42: the check -/

private def upd (pf : ParamFile) (f : PName → Option Arr) : ParamFile := { pf with parameters := f }

private theorem checkOne_ok {r : Arr} {pf : ParamFile} {p : PName}
    (hv : ((pf.parameters p).getD (List.replicate r.length 0)).length = r.length)
    (hn : pf.nbasis p = ((pf.deformations p).length : Int)) :
    checkOne r pf p = .ok (upd pf fun q => if q = p then some ((pf.parameters p).getD (List.replicate r.length 0))
      else pf.parameters q) := by
  unfold checkOne
  simp only
  rw [if_neg (by simp [hv]), if_neg (by simp [hn])]
  rfl

private theorem checkOne_err {r : Arr} {pf : ParamFile} {p : PName}
    (h : ¬ (((pf.parameters p).getD (List.replicate r.length 0)).length = r.length ∧
      pf.nbasis p = ((pf.deformations p).length : Int))) : checkOne r pf p = .error .valueError := by
  unfold checkOne
  simp only
  by_cases hv : ((pf.parameters p).getD (List.replicate r.length 0)).length = r.length
  · rw [if_neg (by simp [hv]), if_pos (fun e => h ⟨hv, e⟩)]
  · rw [if_pos hv]

/-- The loop over a list of different names. -/
private theorem check_fold {r : Arr} : ∀ (l : List PName) (pf : ParamFile), l.Nodup →
    ((∀ p ∈ l, ((pf.parameters p).getD (List.replicate r.length 0)).length = r.length ∧
        pf.nbasis p = ((pf.deformations p).length : Int)) →
      l.foldlM (checkOne r) pf = .ok (upd pf fun q => if q ∈ l then
        some ((pf.parameters q).getD (List.replicate r.length 0)) else pf.parameters q)) ∧
    (¬ (∀ p ∈ l, ((pf.parameters p).getD (List.replicate r.length 0)).length = r.length ∧
        pf.nbasis p = ((pf.deformations p).length : Int)) → l.foldlM (checkOne r) pf = .error .valueError) := by
  intro l
  induction l with
  | nil => intro pf _; simp [pure, Except.pure, upd]
  | cons p l ih =>
    intro pf hn
    rw [List.nodup_cons] at hn
    rw [List.foldlM_cons]
    by_cases hp : ((pf.parameters p).getD (List.replicate r.length 0)).length = r.length ∧
        pf.nbasis p = ((pf.deformations p).length : Int)
    · rw [checkOne_ok hp.1 hp.2]
      simp only [bind, Except.bind]
      obtain ⟨i1, i2⟩ := ih (upd pf fun q => if q = p then
        some ((pf.parameters p).getD (List.replicate r.length 0)) else pf.parameters q) hn.2
      have key : ∀ q ∈ l, (if q = p then some ((pf.parameters p).getD (List.replicate r.length 0)) else pf.parameters q)
          = pf.parameters q := by
        intro q hq
        rw [if_neg]
        rintro rfl; exact hn.1 hq
      constructor
      · intro h
        rw [i1]
        · congr 1
          have : (fun q => if q ∈ l then some ((if q = p then some ((pf.parameters p).getD (List.replicate r.length 0)) else
              pf.parameters q).getD (List.replicate r.length 0)) else
              if q = p then some ((pf.parameters p).getD (List.replicate r.length 0)) else pf.parameters q) =
            fun q => if q ∈ p :: l then some ((pf.parameters q).getD (List.replicate r.length 0)) else pf.parameters q := by
            funext q
            by_cases hq : q ∈ l
            · simp only [hq, List.mem_cons, or_true, if_true, key q hq]
            · by_cases he : q = p
              · subst he; simp [hq]
              · simp [hq, he]
          simp only [upd, this]
        · intro q hq
          simp only [upd, key q hq]
          exact h q (by simp [hq])
      · intro h
        apply i2
        intro hall
        apply h
        intro q hq
        rcases List.mem_cons.1 hq with rfl | hq
        · exact hp
        · have := hall q hq
          simpa only [upd, key q hq] using this
    · constructor
      · intro h; exact absurd (h p (by simp)) hp
      · intro _
        rw [checkOne_err hp]
        rfl

private theorem consistent_iff (pf : ParamFile) {r : Arr} (hr : pf.radii = some r) : pf.Consistent ↔
    ∀ p ∈ PName.all, ((pf.parameters p).getD (List.replicate r.length 0)).length = r.length ∧
      pf.nbasis p = ((pf.deformations p).length : Int) := by
  have hall : ∀ p, p ∈ PName.all := by intro p; cases p <;> simp [PName.all]
  constructor
  · rintro ⟨⟨r', h', h⟩, hn⟩ p _
    obtain rfl : r = r' := by rw [hr] at h'; exact Option.some.inj h'
    refine ⟨?_, hn p⟩
    rcases hp : pf.parameters p with _ | v
    · simp
    · simpa using h p v hp
  · intro h
    refine ⟨⟨r, hr, ?_⟩, fun p => (h p (hall p)).2⟩
    intro p v hv
    have := (h p (hall p)).1
    rwa [hv] at this

/-- **C42**: a consistent object passes the check; afterwards missing distributions hold zeros and nothing else has
changed. -/
theorem C42_accepts (pf : ParamFile) (h : pf.Consistent) : pf.checkParams = .ok pf.filled := by
  obtain ⟨r, hr, _⟩ := h.radii
  have hall : ∀ p, p ∈ PName.all := by intro p; cases p <;> simp [PName.all]
  unfold checkParams filled
  rw [hr]
  simp only [Option.getD_some]
  rw [(check_fold (r := r) PName.all pf (by decide)).1 ((consistent_iff pf hr).1 h)]
  simp [upd, hall, hr]

/-- **C42**: every other object is refused with `ValueError`. -/
theorem C42_rejects (pf : ParamFile) (h : ¬ pf.Consistent) : pf.checkParams = .error .valueError := by
  unfold checkParams
  rcases hr : pf.radii with _ | r
  · rfl
  · exact (check_fold (r := r) PName.all pf (by decide)).2 (fun h' => h ((consistent_iff pf hr).2 h'))

/-- **C42**: a second check changes nothing more. -/
theorem C42_idempotent (pf pf' : ParamFile) (h : pf.checkParams = .ok pf') : pf'.checkParams = .ok pf' := by
  by_cases hc : pf.Consistent
  · rw [C42_accepts pf hc] at h
    obtain rfl := Except.ok.inj h
    obtain ⟨r, hr, hl⟩ := hc.radii
    rw [C42_accepts]
    · simp [filled]
    · refine ⟨⟨r, hr, ?_⟩, hc.nbasis⟩
      intro p v hv
      simp only [filled, hr, Option.getD_some, Option.some.injEq] at hv
      subst hv
      rcases hp : pf.parameters p with _ | w
      · simp
      · simpa using hl p w hp
  · rw [C42_rejects pf hc] at h; cases h

/-- An object with two radii and only the chord given. -/
def sample : ParamFile where
  radii := some [0.5, 1]
  parameters := fun p => if p = .chord then some [0.3, -0.2] else none
  nbasis := fun p => if p = .pitch then 3 else 1
  degree := fun _ => 3
  npoints := fun _ => 50
  deformations := fun p => if p = .pitch then [0.1, 0, 0.2] else [0.5]

theorem sample_consistent : sample.Consistent := by
  refine ⟨⟨_, rfl, ?_⟩, ?_⟩
  · intro p v hv
    simp only [sample] at hv
    split at hv
    · obtain rfl := Option.some.inj hv; rfl
    · cases hv
  · intro p; cases p <;> simp [sample]

example : sample.checkParams = .ok sample.filled ∧ sample.filled.parameters .rake = some [0, 0] :=
  ⟨C42_accepts _ sample_consistent, by simp [filled, sample]⟩

example : ({ sample with radii := some [0.5] } : ParamFile).checkParams = .error .valueError := by
  apply C42_rejects
  rintro ⟨⟨r, hr, h⟩, _⟩
  have := h .chord [0.3, -0.2] rfl
  simp only [Option.some.injEq] at hr
  subst hr
  simp at this

/-! ## C40: round trip -/

theorem filled_values {C : Codec} {pf : ParamFile} (hrep : pf.Representable C) {r : Arr} (hr : pf.radii = some r) (p : PName) :
    ∀ x ∈ (pf.filled.parameters p).getD [], C.rep x := by
  intro x hx
  simp only [filled, hr, Option.getD_some] at hx
  rcases hp : pf.parameters p with _ | v
  · rw [hp] at hx
    simp only [Option.getD_none] at hx
    rw [List.eq_of_mem_replicate hx]
    exact hrep.zero
  · rw [hp] at hx
    exact hrep.dist p v hp x hx

theorem filled_length {pf : ParamFile} (h : pf.Consistent) {r : Arr} (hr : pf.radii = some r) (p : PName) :
    ((pf.filled.parameters p).getD []).length = r.length := by
  obtain ⟨r', hr', hl⟩ := h.radii
  obtain rfl : r = r' := by rw [hr] at hr'; exact Option.some.inj hr'
  simp only [filled, hr, Option.getD_some]
  rcases hp : pf.parameters p with _ | v
  · simp
  · simpa using hl p v hp

theorem readText_text {C : Codec} (hC : C.Lawful) (pf : ParamFile) (hc : pf.Consistent) (hne : pf.NonEmpty)
    (hrep : pf.Representable C) : readText C (text C pf.filled) = .ok pf.filled := by
  obtain ⟨r, hr, hl⟩ := hc.radii
  have hrne : r ≠ [] := fun e => hne.radii (e ▸ hr)
  obtain ⟨r0, rs, hr0⟩ : ∃ a l, r = a :: l := List.exists_cons_of_ne_nil hrne
  have hfr : pf.filled.radii.getD [] = r := by simp [filled, hr]
  have hdne : ∀ p, (pf.filled.parameters p).getD [] ≠ [] := by
    intro p e
    have := filled_length hc hr p
    rw [e, hr0] at this
    cases this
  choose d0 ds hd using fun p => List.exists_cons_of_ne_nil (hdne p)
  have hfull : ∀ p, (pf.deformations p).take (pf.nbasis p).toNat = pf.deformations p := by
    intro p
    rw [hc.nbasis p]
    simp
  choose f0 fs hf using fun p => List.exists_cons_of_ne_nil (hne.deformations p)
  let V : Vals := {
    r := C.fmt r0
    rs := rs.map C.fmt
    d := fun p => C.fmt (d0 p)
    ds := fun p => (ds p).map C.fmt
    deg := fun p => C.fmtInt (pf.degree p)
    npt := fun p => C.fmtInt (pf.npoints p)
    nba := fun p => C.fmtInt (pf.nbasis p)
    f := fun p => C.fmt (f0 p)
    fs := fun p => (fs p).map C.fmt }
  have good1 : ∀ x, C.rep x → NoSpace (C.fmt x) ∧ C.fmt x ≠ [] ∧ (C.fmt x).head? ≠ some '#' ∧ (C.fmt x).head? ≠ some ';' :=
    fun x hx => ⟨hC.fmt_space x hx, hC.fmt_ne x hx, (hC.fmt_head x hx).1, (hC.fmt_head x hx).2⟩
  have hVr : (pf.filled.radii.getD []).map C.fmt = V.r :: V.rs := by rw [hfr, hr0]; rfl
  have hVd : ∀ p, ((pf.filled.parameters p).getD []).map C.fmt = V.d p :: V.ds p := fun p => by rw [hd p]; rfl
  have hVf : ∀ p, (pf.deformations p).map C.fmt = V.f p :: V.fs p := fun p => by rw [hf p]; rfl
  have hrr : ∀ x ∈ r, C.rep x := hrep.radii r hr
  have hdr := fun p => filled_values hrep hr p
  have hV : V.Good := by
    refine ⟨?_, ?_, ?_, ?_, ?_, ?_⟩
    · intro w hw
      rw [← hVr, hfr] at hw
      obtain ⟨x, hx, rfl⟩ := List.mem_map.1 hw
      exact good1 x (hrr x hx)
    · intro p w hw
      rw [← hVd p] at hw
      obtain ⟨x, hx, rfl⟩ := List.mem_map.1 hw
      exact good1 x (hdr p x hx)
    · intro p w hw
      rw [← hVf p] at hw
      obtain ⟨x, hx, rfl⟩ := List.mem_map.1 hw
      exact good1 x (hrep.deformations p x hx)
    · exact fun p => ⟨hC.fmtInt_space _, hC.fmtInt_ne _⟩
    · exact fun p => ⟨hC.fmtInt_space _, hC.fmtInt_ne _⟩
    · exact fun p => ⟨hC.fmtInt_space _, hC.fmtInt_ne _⟩
  have ht : text C pf.filled = unlines ([] :: ((secs V).map Config.Sec.lines).flatten) := by
    apply text_eq C pf.filled V hVr hVd
    · intro p
      change (((pf.deformations p).take (pf.nbasis p).toNat).map C.fmt) = _
      rw [hfull p]; exact hVf p
    · intro p; rfl
    · intro p; rfl
    · intro p; rfl
  obtain ⟨st, h1, h2⟩ := read_secs hV
  have hall : ∀ p, p ∈ PName.all := by intro p; cases p <;> simp [PName.all]
  have g1 : Config.get st origSection c!"Radial sections" = .ok (joinNL (r.map C.fmt)) := by
    have := h2 (origSec V) (by simp [secs]) (radGrp V.r V.rs) (by simp [origSec]) c!"Radial sections" (by simp only [radGrp]; decide)
    rw [hr0]; exact this
  have g2 : ∀ p, Config.get st origSection (c!"Radial distribution of " ++ p.str) =
      .ok (joinNL (((pf.filled.parameters p).getD []).map C.fmt)) := by
    intro p
    have := h2 (origSec V) (by simp [secs]) (distGrp p (V.d p) (V.ds p))
      (by simp only [origSec, List.mem_cons, List.mem_map]; exact Or.inr ⟨p, hall p, rfl⟩)
      (c!"Radial distribution of " ++ p.str) (by simp only [distGrp]; cases p <;> decide)
    rw [hd p]; exact this
  have hs : ∀ p, splineSec V p ∈ secs V := fun p => by
    simp only [secs, List.mem_cons, List.mem_map]; exact Or.inr ⟨p, hall p, rfl⟩
  have g3 : ∀ p, Config.get st p.section' c!"spline degree" = .ok (joinNL [C.fmtInt (pf.degree p)]) := fun p =>
    h2 (splineSec V p) (hs p) (degGrp (V.deg p)) (by simp [splineSec]) _ (by simp only [degGrp]; decide)
  have g4 : ∀ p, Config.get st p.section' c!"spline npoints" = .ok (joinNL [C.fmtInt (pf.npoints p)]) := fun p =>
    h2 (splineSec V p) (hs p) (nptGrp (V.npt p)) (by simp [splineSec]) _ (by simp only [nptGrp]; decide)
  have g5 : ∀ p, Config.get st p.section' c!"number of control points" = .ok (joinNL [C.fmtInt (pf.nbasis p)]) := fun p =>
    h2 (splineSec V p) (hs p) (nbaGrp (V.nba p)) (by simp [splineSec]) _ (by simp only [nbaGrp]; decide)
  have g6 : ∀ p, Config.get st p.section' c!"control points Y-deformations" =
      .ok (joinNL ((pf.deformations p).map C.fmt)) := fun p => by
    have := h2 (splineSec V p) (hs p) (defGrp p (V.f p) (V.fs p)) (by simp [splineSec]) c!"control points Y-deformations"
      (by simp only [defGrp]; decide)
    rw [hf p]; exact this
  have rd : forAll (readDist C st) = .ok fun p => (pf.filled.parameters p).getD [] := by
    apply forAll_ok
    intro p
    unfold readDist
    rw [g2 p]
    exact readValues_fmt hC (hdr p) (hdne p)
  have rs' : forAll (readSpline C st) = .ok fun p => (pf.degree p, pf.npoints p, pf.nbasis p, pf.deformations p) := by
    apply forAll_ok
    intro p
    unfold readSpline
    rw [g3, g4, g5, g6]
    have hnn : joinNL ((pf.deformations p).map C.fmt) ≠ [] := by
      rw [hf p, List.map_cons]
      have h0 := hC.fmt_ne (f0 p) (hrep.deformations p _ (by rw [hf p]; simp))
      cases hfs : (fs p).map C.fmt with
      | nil => simpa [joinNL] using h0
      | cons a l => simp [joinNL]
    simp [bind, Except.bind, pure, Except.pure, readInt_fmt hC, readValues_fmt hC (hrep.deformations p) (hne.deformations p),
      hnn, hc.nbasis p, throw, throwThe, MonadExceptOf.throw]
  unfold readText
  rw [ht, h1]
  simp only [bind, Except.bind]
  rw [g1]
  simp only
  rw [readValues_fmt hC hrr hrne, rd]
  simp only [filled_length hc hr, and_self, not_true_eq_false, if_false]
  simp only [pure, Except.pure, rs']
  congr 1
  simp only [filled, hr, Option.getD_some]

/-- **C40**: a consistent object, with at least one radius and one control point per spline, is written, and whatever object
then reads the file holds the same parameters (missing distributions as zeros). The other files are untouched. -/
theorem C40_round_trip (C : Codec) (hC : C.Lawful) (fs : FS) (path : Str) (pf : ParamFile) (hc : pf.Consistent)
    (hne : pf.NonEmpty) (hrep : pf.Representable C) :
    ∃ fs' pf', write C fs path pf = .ok (fs', pf') ∧ (∀ q, q ≠ path → fs' q = fs q) ∧ pf' = pf.filled ∧
      ∀ other, readParameters C fs' path other = (fs', .ok pf.filled) := by
  refine ⟨fun q => if q = path then some (text C pf.filled) else fs q, pf.filled, ?_, ?_, rfl, ?_⟩
  · unfold write
    rw [C42_accepts pf hc]
    rfl
  · intro q hq; simp [hq]
  · intro other
    unfold readParameters
    simp only [if_true]
    rw [readText_text hC pf hc hne hrep]

/-- **C40**: the arrays read back are the arrays written. -/
theorem C40_same_numbers (C : Codec) (hC : C.Lawful) (fs fs' : FS) (path : Str) (pf pf' q : ParamFile) (other : ParamFile)
    (hne : pf.NonEmpty) (hrep : pf.Representable C) (hw : write C fs path pf = .ok (fs', pf'))
    (hq : (readParameters C fs' path other).2 = .ok q) :
    q.radii = pf.radii ∧ q.degree = pf.degree ∧ q.npoints = pf.npoints ∧ q.nbasis = pf.nbasis ∧
      q.deformations = pf.deformations ∧ ∀ p v, pf.parameters p = some v → q.parameters p = some v := by
  by_cases hc : pf.Consistent
  · obtain ⟨fs1, pf1, h1, _, _, h3⟩ := C40_round_trip C hC fs path pf hc hne hrep
    rw [h1] at hw
    obtain ⟨rfl, rfl⟩ := Prod.mk.inj (Except.ok.inj hw)
    rw [h3 other] at hq
    obtain rfl := Except.ok.inj hq
    refine ⟨rfl, rfl, rfl, rfl, rfl, ?_⟩
    intro p v hv
    simp [filled, hv]
  · unfold write at hw
    rw [C42_rejects pf hc] at hw
    cases hw

/-! ### A lawful codec -/

/-- Decimal digits. -/
def natText (n : Nat) : Str := if n = 0 then ['0'] else (Nat.digits 10 n).map fun d => Char.ofNat (48 + d)

theorem digit_char {d : Nat} (h : d < 10) : (Char.ofNat (48 + d)).toNat = 48 + d ∧ isSpace (Char.ofNat (48 + d)) = false ∧
    Char.ofNat (48 + d) ≠ '#' ∧ Char.ofNat (48 + d) ≠ ';' ∧ Char.ofNat (48 + d) ≠ '-' := by
  interval_cases d <;> decide

def natValue (s : Str) : Nat := Nat.ofDigits 10 (s.map fun c => c.toNat - 48)

theorem natText_value (n : Nat) : natValue (natText n) = n := by
  unfold natValue natText
  split_ifs with h
  · subst h; decide
  · rw [List.map_map]
    have : ((Nat.digits 10 n).map ((fun c : Char => c.toNat - 48) ∘ fun d => Char.ofNat (48 + d))) = Nat.digits 10 n := by
      conv_rhs => rw [← List.map_id (Nat.digits 10 n)]
      apply List.map_congr_left
      intro d hd
      have := (digit_char (Nat.digits_lt_base (by norm_num) hd)).1
      simp only [Function.comp_apply, this]
      simp
    rw [this, Nat.ofDigits_digits]

theorem natText_chars (n : Nat) : ∀ c ∈ natText n, isSpace c = false ∧ c ≠ '#' ∧ c ≠ ';' ∧ c ≠ '-' := by
  intro c hc
  unfold natText at hc
  split_ifs at hc with h
  · obtain rfl : c = '0' := by simpa using hc
    decide
  · obtain ⟨d, hd, rfl⟩ := List.mem_map.1 hc
    exact (digit_char (Nat.digits_lt_base (by norm_num) hd)).2

theorem natText_ne (n : Nat) : natText n ≠ [] := by
  unfold natText
  split_ifs with h
  · simp
  · simpa [Nat.digits_eq_nil_iff_eq_zero] using h

/-- Signed decimal numbers (least significant digit first). -/
def intText : Int → Str
  | .ofNat n => natText n
  | .negSucc n => '-' :: natText (n + 1)

def intValue : Str → Int
  | '-' :: s => - (natValue s : Int)
  | s => natValue s

theorem intText_value (n : Int) : intValue (intText n) = n := by
  cases n with
  | ofNat n =>
    unfold intText intValue
    split
    · rename_i s heq
      exact absurd rfl ((natText_chars n '-' (by simp only at heq; rw [heq]; simp)).2.2.2)
    · simp only [natText_value]; rfl
  | negSucc n =>
    simp only [intText, intValue, natText_value]
    rfl

theorem intText_chars (n : Int) : ∀ c ∈ intText n, isSpace c = false ∧ c ≠ '#' ∧ c ≠ ';' := by
  intro c hc
  cases n with
  | ofNat n => exact ⟨(natText_chars n c hc).1, (natText_chars n c hc).2.1, (natText_chars n c hc).2.2.1⟩
  | negSucc n =>
    simp only [intText, List.mem_cons] at hc
    rcases hc with rfl | hc
    · decide
    · exact ⟨(natText_chars _ c hc).1, (natText_chars _ c hc).2.1, (natText_chars _ c hc).2.2.1⟩

theorem intText_ne (n : Int) : intText n ≠ [] := by
  cases n with
  | ofNat n => exact natText_ne n
  | negSucc n => simp [intText]

/-- Multiples of one tenth, written as a number of tenths. -/
def tenths : Codec where
  rep := fun x => ∃ m : Int, x = m / 10
  fmt := fun x => intText ⌊10 * x⌋
  parse := fun s => if s = [] then none else some ((intValue s : ℝ) / 10)
  fmtInt := intText
  parseInt := fun s => some (intValue s)

theorem tenths_lawful : tenths.Lawful where
  parse_fmt := by
    rintro _ ⟨m, rfl⟩
    have : ⌊10 * ((m : ℝ) / 10)⌋ = m := by
      rw [mul_div_cancel₀ _ (by norm_num : (10 : ℝ) ≠ 0), Int.floor_intCast]
    simp only [tenths, this, intText_ne, if_false, intText_value]
  fmt_ne := fun x _ => intText_ne _
  fmt_space := fun x _ c hc => (intText_chars _ c hc).1
  fmt_head := fun x _ => ⟨fun e => (intText_chars _ _ (List.mem_of_head? e)).2.1 rfl,
    fun e => (intText_chars _ _ (List.mem_of_head? e)).2.2 rfl⟩
  parse_nil := by simp [tenths]
  parseInt_fmt := fun n => by simp [tenths, intText_value]
  fmtInt_ne := intText_ne
  fmtInt_space := fun n c hc => (intText_chars n c hc).1

theorem sample_rep : sample.Representable tenths := by
  have h : ∀ x ∈ ([0.5, 1, 0.3, -0.2, 0.1, 0, 0.2] : Arr), tenths.rep x := by
    intro x hx
    simp only [List.mem_cons, List.not_mem_nil, or_false] at hx
    rcases hx with rfl | rfl | rfl | rfl | rfl | rfl | rfl
    · exact ⟨5, by norm_num⟩
    · exact ⟨10, by norm_num⟩
    · exact ⟨3, by norm_num⟩
    · exact ⟨-2, by norm_num⟩
    · exact ⟨1, by norm_num⟩
    · exact ⟨0, by norm_num⟩
    · exact ⟨2, by norm_num⟩
  refine ⟨?_, ?_, ?_, h 0 (by simp)⟩
  · intro r hr x hx
    obtain rfl := Option.some.inj hr
    apply h; revert hx; simp only [List.mem_cons, List.not_mem_nil, or_false]; tauto
  · intro p v hv x hx
    simp only [sample] at hv
    split at hv
    · obtain rfl := Option.some.inj hv
      apply h; revert hx; simp only [List.mem_cons, List.not_mem_nil, or_false]; tauto
    · cases hv
  · intro p x hx
    simp only [sample] at hx
    split at hx <;> (apply h; revert hx; simp only [List.mem_cons, List.not_mem_nil, or_false]; tauto)

example (fs : FS) (path : Str) : ∃ fs', write tenths fs path sample = .ok (fs', sample.filled) ∧
    readParameters tenths fs' path init = (fs', .ok sample.filled) := by
  obtain ⟨fs', pf', h1, _, rfl, h3⟩ := C40_round_trip tenths tenths_lawful fs path sample sample_consistent
    ⟨by simp [sample], by intro p; cases p <;> simp [sample]⟩ sample_rep
  exact ⟨fs', h1, h3 init⟩

/-! ## C41: what can be read is consistent -/

private theorem splitNL_ne (s : Str) : splitNL s ≠ [] := by
  induction s with
  | nil => simp [splitNL]
  | cons c s ih =>
    simp only [splitNL]
    split_ifs
    · simp
    · split <;> simp

private theorem readValues_ne {C : Codec} {s : Str} {v : Arr} (h : readValues C s = .ok v) : v ≠ [] := by
  unfold readValues at h
  rcases hs : splitNL s with _ | ⟨l, ls⟩
  · exact absurd hs (splitNL_ne s)
  · rw [hs, List.mapM_cons] at h
    simp only [bind, Except.bind] at h
    split at h
    · cases h
    · split at h
      · cases h
      · simp only [pure, Except.pure] at h
        obtain rfl := Except.ok.inj h
        simp

private theorem readSpline_len {C : Codec} {st : Config.St} {p : PName} {x : Int × Int × Int × Arr}
    (h : readSpline C st p = .ok x) : x.2.2.1 = (x.2.2.2.length : Int) ∧ x.2.2.2 ≠ [] := by
  unfold readSpline at h
  simp only [bind, Except.bind, pure, Except.pure, throw, throwThe, MonadExceptOf.throw] at h
  repeat' split at h
  all_goals first
    | cases h; done
    | skip
  rename_i v hv hlen
  obtain rfl := Except.ok.inj h
  exact ⟨(not_not.1 hlen).symm, readValues_ne hv⟩

/-- **C41**: whatever the text of the file, if it can be read then there is at least one radius, every distribution has one
value per radius and every deformation vector has as many (and at least one) entries as its number of control points. -/
theorem C41_consistent (C : Codec) (t : Str) (pf : ParamFile) (h : readText C t = .ok pf) :
    ∃ r, pf.radii = some r ∧ r ≠ [] ∧ (∀ p, ∃ v, pf.parameters p = some v ∧ v.length = r.length) ∧
      ∀ p, pf.nbasis p = ((pf.deformations p).length : Int) ∧ pf.deformations p ≠ [] := by
  unfold readText at h
  simp only [bind, Except.bind, pure, Except.pure, throw, throwThe, MonadExceptOf.throw] at h
  split at h
  · cases h
  split at h
  · cases h
  split at h
  · cases h
  rename_i radii hrad
  split at h
  · cases h
  rename_i dist hdist
  split at h
  · cases h
  rename_i hlen
  split at h
  · cases h
  rename_i sp hsp
  obtain rfl := Except.ok.inj h
  refine ⟨radii, rfl, readValues_ne hrad, ?_, ?_⟩
  · intro p
    refine ⟨dist p, rfl, ?_⟩
    have := not_not.1 hlen
    cases p <;> simp only [this]
  · intro p
    exact readSpline_len (forAll_inv hsp p)

private theorem foldlM_err {α : Type*} {f : α → Str → Res α} (hf : ∀ a l e, f a l = .error e → e = .parseError) :
    ∀ (ls : List Str) (a : α) (e : PyErr), ls.foldlM f a = .error e → e = .parseError := by
  intro ls
  induction ls with
  | nil => intro a e h; simp [pure, Except.pure] at h
  | cons l ls ih =>
    intro a e h
    rw [List.foldlM_cons] at h
    simp only [bind, Except.bind] at h
    split at h
    · rename_i e' he
      obtain rfl := Except.error.inj h
      exact hf _ _ _ he
    · exact ih _ _ h

private theorem read_err {t : Str} {e : PyErr} (h : Config.read t = .error e) : e = .parseError := by
  apply foldlM_err _ _ _ _ h
  intro st l e h
  unfold Config.step at h
  simp only at h
  repeat' split at h
  all_goals first
    | (exact (Except.error.inj h).symm)
    | cases h

private theorem get_err {st : Config.St} {a b : Str} {e : PyErr} (h : Config.get st a b = .error e) : e = .parseError := by
  unfold Config.get at h
  repeat' split at h
  all_goals first
    | (exact (Except.error.inj h).symm)
    | cases h

private theorem mapM_err {α : Type*} {f : α → Res ℝ} (hf : ∀ a e, f a = .error e → e = .valueError) :
    ∀ (ls : List α) (e : PyErr), ls.mapM f = .error e → e = .valueError := by
  intro ls
  induction ls with
  | nil => intro e h; simp [pure, Except.pure] at h
  | cons l ls ih =>
    intro e h
    rw [List.mapM_cons] at h
    simp only [bind, Except.bind, pure, Except.pure] at h
    split at h
    · rename_i e' he
      obtain rfl := Except.error.inj h
      exact hf _ _ he
    · split at h
      · rename_i e' he
        obtain rfl := Except.error.inj h
        exact ih _ he
      · cases h

private theorem readValues_err {C : Codec} {s : Str} {e : PyErr} (h : readValues C s = .error e) : e = .valueError := by
  apply mapM_err _ _ _ h
  intro a e h
  repeat' split at h
  all_goals first
    | (exact (Except.error.inj h).symm)
    | cases h

private theorem readInt_err {C : Codec} {s : Str} {e : PyErr} (h : readInt C s = .error e) : e = .valueError := by
  unfold readInt at h
  split at h
  · cases h
  · exact (Except.error.inj h).symm

private theorem forAll_err {α : Type*} {f : PName → Res α} {P : PyErr → Prop} (hf : ∀ p e, f p = .error e → P e) {e : PyErr}
    (h : forAll f = .error e) : P e := by
  unfold forAll at h
  simp only [bind, Except.bind, pure, Except.pure] at h
  repeat' split at h
  all_goals first
    | (rename_i he
       obtain rfl := Except.error.inj h
       exact hf _ _ he)
    | cases h

/-- **C41**: a file that cannot be read raises an exception of the config parser or `ValueError`, nothing else. -/
theorem C41_errors (C : Codec) (t : Str) (e : PyErr) (h : readText C t = .error e) : e = .parseError ∨ e = .valueError := by
  unfold readText at h
  simp only [bind, Except.bind, pure, Except.pure, throw, throwThe, MonadExceptOf.throw] at h
  split at h
  · rename_i he; obtain rfl := Except.error.inj h; exact Or.inl (read_err he)
  split at h
  · rename_i he; obtain rfl := Except.error.inj h; exact Or.inl (get_err he)
  split at h
  · rename_i he; obtain rfl := Except.error.inj h; exact Or.inr (readValues_err he)
  split at h
  · rename_i he
    obtain rfl := Except.error.inj h
    refine forAll_err (P := fun e => e = .parseError ∨ e = .valueError) ?_ he
    intro p e h
    unfold readDist at h
    simp only [bind, Except.bind] at h
    split at h
    · rename_i he; obtain rfl := Except.error.inj h; exact Or.inl (get_err he)
    · exact Or.inr (readValues_err h)
  split at h
  · exact Or.inr (Except.error.inj h).symm
  split at h
  · rename_i he
    obtain rfl := Except.error.inj h
    refine forAll_err (P := fun e => e = .parseError ∨ e = .valueError) ?_ he
    intro p e h
    unfold readSpline at h
    simp only [bind, Except.bind, pure, Except.pure, throw, throwThe, MonadExceptOf.throw] at h
    repeat' split at h
    all_goals first
      | (rename_i he; obtain rfl := Except.error.inj h; exact Or.inl (get_err he))
      | (rename_i he; obtain rfl := Except.error.inj h; exact Or.inr (readInt_err he))
      | (rename_i he; obtain rfl := Except.error.inj h; exact Or.inr (readValues_err he))
      | exact Or.inr (Except.error.inj h).symm
      | cases h
  · cases h

/-- **C41**: what has been read can be written again. -/
theorem C41_writable (C : Codec) (t : Str) (pf : ParamFile) (h : readText C t = .ok pf) (fs : FS) (path : Str) :
    ∃ fs', write C fs path pf = .ok (fs', pf) := by
  obtain ⟨r, hr, _, hd, hn⟩ := C41_consistent C t pf h
  have hc : pf.Consistent := by
    refine ⟨⟨r, hr, ?_⟩, fun p => (hn p).1⟩
    intro p v hv
    obtain ⟨w, hw, hl⟩ := hd p
    rw [hv] at hw
    obtain rfl := Option.some.inj hw
    exact hl
  have hfill : pf.filled = pf := by
    unfold filled
    have : (fun p => some ((pf.parameters p).getD (List.replicate (pf.radii.getD []).length 0))) = pf.parameters := by
      funext p
      obtain ⟨w, hw, _⟩ := hd p
      rw [hw]; rfl
    rw [this]
  unfold write
  rw [C42_accepts pf hc, hfill]
  exact ⟨_, rfl⟩

example : ∃ t pf, readText tenths t = .ok pf ∧ pf.parameters .chord = some [0.3, -0.2] :=
  ⟨_, _, readText_text tenths_lawful sample sample_consistent
    ⟨by simp [sample], by intro p; cases p <;> simp [sample]⟩ sample_rep, by simp [filled, sample]⟩

theorem two_words_sample : readText tenths c!"[Original parameters]\nRadial sections = 3 4\n" = .error .valueError := by
  rfl

/-! ## C43: reading a missing file -/

/-- **C43**: reading never modifies an existing file, nor any other file. -/
theorem C43_keeps_files (C : Codec) (fs : FS) (path q : Str) (pf : ParamFile) (h : fs q ≠ none ∨ q ≠ path) :
    (readParameters C fs path pf).1 q = fs q := by
  unfold readParameters
  rcases hp : fs path with _ | t
  · have hq : q ≠ path := by
      rcases h with h | h
      · rintro rfl; exact h hp
      · exact h
    simp only
    unfold write
    by_cases hc : ({ pf with radii := some defaultRadii } : ParamFile).Consistent
    · rw [C42_accepts _ hc]
      simp [bind, Except.bind, pure, Except.pure, hq]
    · rw [C42_rejects _ hc]
      rfl
  · rfl

/-- **C43**: on a missing file, a new object writes a file and holds afterwards the eight default radii `0.3, ..., 1.0`, zero
distributions and the default splines without deformation; every later read of the file, by any object, gives the same
parameters. -/
theorem C43_default (C : Codec) (hC : C.Lawful) (hrep : ∀ x, x = 0 ∨ x ∈ defaultRadii → C.rep x) (fs : FS) (path : Str)
    (hm : fs path = none) :
    ∃ fs' pf, readParameters C fs path init = (fs', .ok pf) ∧ fs' path ≠ none ∧
      pf.radii = some [0.3, 0.4, 0.5, 0.6, 0.7, 0.8, 0.9, 1.0] ∧ (∀ p, pf.parameters p = some [0, 0, 0, 0, 0, 0, 0, 0]) ∧
      (∀ p, pf.degree p = 3 ∧ pf.npoints p = 500 ∧ pf.nbasis p = 10 ∧ pf.deformations p = List.replicate 10 0) ∧
      ∀ other, readParameters C fs' path other = (fs', .ok pf) := by
  set pf : ParamFile := { init with radii := some defaultRadii } with hpf
  have hc : pf.Consistent := ⟨⟨defaultRadii, rfl, by intro p v hv; cases hv⟩, by intro p; simp [hpf, init]⟩
  have hne : pf.NonEmpty := ⟨by simp [hpf, defaultRadii], by intro p; simp [hpf, init]⟩
  have hr : pf.Representable C := by
    refine ⟨?_, ?_, ?_, hrep 0 (Or.inl rfl)⟩
    · intro r h x hx
      obtain rfl := Option.some.inj h
      exact hrep x (Or.inr hx)
    · intro p v hv; cases hv
    · intro p x hx
      rw [List.eq_of_mem_replicate hx]
      exact hrep 0 (Or.inl rfl)
  obtain ⟨fs', pf', h1, _, rfl, h3⟩ := C40_round_trip C hC fs path pf hc hne hr
  have hsome : fs' path = some (text C pf.filled) := by
    unfold write at h1
    rw [C42_accepts pf hc] at h1
    simp only [bind, Except.bind, pure, Except.pure] at h1
    obtain ⟨rfl, _⟩ := Prod.mk.inj (Except.ok.inj h1)
    simp
  refine ⟨fs', pf.filled, ?_, by simp [hsome], ?_, ?_, ?_, h3⟩
  · have h4 := h3 init
    unfold readParameters at h4 ⊢
    rw [hm]
    simp only [← hpf, h1]
    rw [hsome] at h4 ⊢
    exact h4
  · simp only [filled, hpf, defaultRadii, Option.some.injEq]
    norm_num
  · intro p
    simp [filled, hpf, init, defaultRadii, List.replicate]
  · intro p
    simp [filled, hpf, init]

/-- **C43**: an object whose distributions do not fit the eight default radii raises `ValueError` on a missing file and
writes nothing. -/
theorem C43_stale_object (C : Codec) (fs : FS) (path : Str) (pf : ParamFile) (hm : fs path = none) (p : PName) (v : Arr)
    (hv : pf.parameters p = some v) (hl : v.length ≠ 8) : readParameters C fs path pf = (fs, .error .valueError) := by
  unfold readParameters
  rw [hm]
  simp only
  unfold write
  rw [C42_rejects]
  · rfl
  · rintro ⟨⟨r, hr, h⟩, _⟩
    obtain rfl := Option.some.inj hr
    exact hl (h p v hv)

example (fs : FS) (path : Str) (hm : fs path = none) : ∃ fs' pf, readParameters tenths fs path init = (fs', .ok pf) ∧
    pf.radii = some [0.3, 0.4, 0.5, 0.6, 0.7, 0.8, 0.9, 1.0] := by
  obtain ⟨fs', pf, h1, _, h2, _⟩ := C43_default tenths tenths_lawful (by
    intro x hx
    rcases hx with rfl | hx
    · exact ⟨0, by norm_num⟩
    · simp only [defaultRadii, List.mem_cons, List.not_mem_nil, or_false] at hx
      rcases hx with rfl | rfl | rfl | rfl | rfl | rfl | rfl | rfl
      · exact ⟨3, by norm_num⟩
      · exact ⟨4, by norm_num⟩
      · exact ⟨5, by norm_num⟩
      · exact ⟨6, by norm_num⟩
      · exact ⟨7, by norm_num⟩
      · exact ⟨8, by norm_num⟩
      · exact ⟨9, by norm_num⟩
      · exact ⟨10, by norm_num⟩) fs path hm
  exact ⟨fs', pf, h1, h2⟩

example : readParameters tenths (fun _ => none) c!"a.prm" sample = ((fun _ => none), .error .valueError) :=
  C43_stale_object _ _ _ _ rfl .chord _ rfl (by simp)

end ParamFile
end
end BladeX
