import Verif.Lemmas.Config
import Verif.Spec.ParamFile

namespace BladeX
noncomputable section
open Config
namespace ParamFile

theorem unlines_nil : unlines [] = [] := rfl
theorem unlines_cons (l : Str) (ls : List Str) : unlines (l :: ls) = l ++ '\n' :: unlines ls := by
  simp [unlines]
theorem unlines_append (a b : List Str) : unlines (a ++ b) = unlines a ++ unlines b := by simp [unlines]

/-- `Radial sections = ...`. -/
def radGrp (v : Str) (vs : List Str) : Grp where
  p := c!"Radial sections "
  d := '='
  key := c!"radial sections"
  sp := 2
  v := v
  off := 19
  vs := vs
  trail := [[]]

/-- `Radial distribution of ... = ...`. -/
def distGrp (p : PName) (v : Str) (vs : List Str) : Grp where
  p := c!"Radial distribution of " ++ p.str ++ c!" "
  d := '='
  key := c!"radial distribution of " ++ p.str
  sp := (1 + p.gap).toNat + 1
  v := v
  off := 32
  vs := vs
  trail := if p = .camber then [[], []] else [[]]

def degGrp (v : Str) : Grp where
  p := c!"spline degree"
  d := ':'
  key := c!"spline degree"
  sp := 1
  v := v
  off := 1
  vs := []
  trail := [[], c!"# number of points to be evaluated with the B-Spline interpolation"]

def nptGrp (v : Str) : Grp where
  p := c!"spline npoints"
  d := ':'
  key := c!"spline npoints"
  sp := 1
  v := v
  off := 1
  vs := []
  trail := [[], c!"# number of the control points"]

def nbaGrp (v : Str) : Grp where
  p := c!"number of control points"
  d := ':'
  key := c!"number of control points"
  sp := 1
  v := v
  off := 1
  vs := []
  trail := [[], c!"# Y-deformations of the control points."]

def defGrp (p : PName) (v : Str) (vs : List Str) : Grp where
  p := c!"control points Y-deformations "
  d := '='
  key := c!"control points y-deformations"
  sp := 2
  v := v
  off := 33
  vs := vs
  trail := if p = .camber then [] else [[], []]

/-- Values as text. -/
structure Vals where
  r : Str
  rs : List Str
  d : PName → Str
  ds : PName → List Str
  deg : PName → Str
  npt : PName → Str
  nba : PName → Str
  f : PName → Str
  fs : PName → List Str

def origSec (V : Vals) : Sec where
  name := origSection
  pre := [c!"# This section describes the radial distributions of the parameters:",
    c!"# \"chord lengths\", \"pitch\", \"rake\", \"skew angles\", and \"camber\"", c!"# at given radial sections.", []]
  grps := radGrp V.r V.rs :: PName.all.map fun p => distGrp p (V.d p) (V.ds p)

def splineSec (V : Vals) (p : PName) : Sec where
  name := p.section'
  pre := [c!"# This section describes the B-Spline construction of the RADII -- " ++ upper p.str ++ c!" curve.", [],
    c!"# degree of the B-Spline curve"]
  grps := [degGrp (V.deg p), nptGrp (V.npt p), nbaGrp (V.nba p), defGrp p (V.f p) (V.fs p)]

def secs (V : Vals) : List Sec := origSec V :: PName.all.map (splineSec V)

theorem block_eq (a b : Int) (v : Str) (vs : List Str) :
    block a b (v :: vs) = unlines ((List.replicate a.toNat ' ' ++ v) :: vs.map (List.replicate b.toNat ' ' ++ ·)) := by
  simp [block, unlines, spaces, Function.comp_def]

def dv (C : Codec) (pf : ParamFile) (p : PName) : List Str := ((pf.parameters p).getD []).map C.fmt
def fv (C : Codec) (pf : ParamFile) (p : PName) : List Str := ((pf.deformations p).take (pf.nbasis p).toNat).map C.fmt

/-- The lines of a group without its trailing fillers. -/
def core (g : Grp) : List Str :=
  (g.p ++ g.d :: (List.replicate g.sp ' ' ++ g.v)) :: g.vs.map (List.replicate g.off ' ' ++ ·)

theorem lines_core (g : Grp) : unlines g.lines = unlines (core g) ++ unlines g.trail := by
  unfold Grp.lines core
  rw [← List.cons_append, unlines_append]

theorem distText_eq (C : Codec) (pf : ParamFile) (p : PName) {v : Str} {vs : List Str} (h : dv C pf p = v :: vs) :
    distText C pf p = '\n' :: unlines (core (distGrp p v vs)) := by
  unfold distText
  rw [show ((pf.parameters p).getD []).map C.fmt = v :: vs from h, block_eq]
  simp [core, distGrp, unlines_cons, List.replicate_succ]

theorem radText_eq (v : Str) (vs : List Str) :
    c!"\nRadial sections = " ++ block 1 19 (v :: vs) = '\n' :: unlines (core (radGrp v vs)) := by
  rw [block_eq]
  simp [core, radGrp, unlines_cons, List.replicate_succ]

theorem defText_eq (p : PName) (v : Str) (vs : List Str) :
    c!"control points Y-deformations = " ++ block 1 33 (v :: vs) = unlines (core (defGrp p v vs)) := by
  rw [block_eq]
  simp [core, defGrp, unlines_cons, List.replicate_succ]

theorem degText_eq (v r : Str) : c!"spline degree: " ++ (v ++ (c!"\n" ++ (c!"\n# number of points to be evaluated with the B-Spline interpolation\n" ++ r)))
    = unlines (degGrp v).lines ++ r := by
  simp [degGrp, Grp.lines, unlines_cons, unlines_nil, List.replicate_succ]

theorem nptText_eq (v r : Str) : c!"spline npoints: " ++ (v ++ (c!"\n" ++ (c!"\n# number of the control points\n" ++ r)))
    = unlines (nptGrp v).lines ++ r := by
  simp [nptGrp, Grp.lines, unlines_cons, unlines_nil, List.replicate_succ]

theorem nbaText_eq (v r : Str) : c!"number of control points: " ++ (v ++ (c!"\n" ++ (c!"\n# Y-deformations of the control points.\n" ++ r)))
    = unlines (nbaGrp v).lines ++ r := by
  simp [nbaGrp, Grp.lines, unlines_cons, unlines_nil, List.replicate_succ]

theorem headText_eq (n u r : Str) : c!"\n\n[" ++ (n ++ (c!"]\n" ++ (c!"# This section describes the B-Spline construction of the RADII -- " ++ (u ++
    (c!" curve.\n" ++ (c!"\n# degree of the B-Spline curve\n" ++ r)))))) =
    '\n' :: '\n' :: (unlines (('[' :: (n ++ [']'])) :: [c!"# This section describes the B-Spline construction of the RADII -- " ++ u ++ c!" curve.", [],
    c!"# degree of the B-Spline curve"]) ++ r) := by
  simp only [unlines_cons, unlines_nil, List.append_assoc, List.cons_append, List.nil_append]

theorem splineText_eq (C : Codec) (pf : ParamFile) (p : PName) (V : Vals) (hf : fv C pf p = V.f p :: V.fs p)
    (h1 : V.deg p = C.fmtInt (pf.degree p)) (h2 : V.npt p = C.fmtInt (pf.npoints p)) (h3 : V.nba p = C.fmtInt (pf.nbasis p)) :
    splineText C pf p ++ unlines (if p = .camber then [] else [[], []]) = '\n' :: '\n' :: unlines (splineSec V p).lines := by
  unfold splineText
  rw [show ((pf.deformations p).take (pf.nbasis p).toNat).map C.fmt = V.f p :: V.fs p from hf]
  simp only [List.append_assoc]
  rw [headText_eq, degText_eq, nptText_eq, nbaText_eq, ← h1, ← h2, ← h3, ← List.append_assoc (c!"control points Y-deformations = "),
    defText_eq p, show (if p = PName.camber then ([] : List Str) else [[], []]) = (defGrp p (V.f p) (V.fs p)).trail from rfl,
    ← lines_core]
  simp only [Sec.lines, splineSec, List.map_cons, List.map_nil, List.flatten_cons, List.flatten_nil, List.append_nil]
  simp only [unlines_cons, unlines_append, unlines_nil, List.append_assoc, List.cons_append, List.nil_append]

set_option maxRecDepth 20000 in
/-- The text of the file, line by line. -/
theorem text_eq (C : Codec) (pf : ParamFile) (V : Vals) (hr : (pf.radii.getD []).map C.fmt = V.r :: V.rs)
    (hd : ∀ p, dv C pf p = V.d p :: V.ds p) (hf : ∀ p, fv C pf p = V.f p :: V.fs p)
    (h1 : ∀ p, V.deg p = C.fmtInt (pf.degree p)) (h2 : ∀ p, V.npt p = C.fmtInt (pf.npoints p))
    (h3 : ∀ p, V.nba p = C.fmtInt (pf.nbasis p)) :
    text C pf = unlines ([] :: ((secs V).map Sec.lines).flatten) := by
  have sp := fun p => splineText_eq C pf p V (hf p) (h1 p) (h2 p) (h3 p)
  have ds := fun p => distText_eq C pf p (hd p)
  have e : ∀ (a b : Str), '\n' :: '\n' :: (a ++ b) = ('\n' :: '\n' :: a) ++ b := fun a b => by simp
  have nl2 : unlines [[], []] = ['\n', '\n'] := rfl
  have nl1 : unlines [[]] = ['\n'] := rfl
  unfold text
  simp only [List.append_assoc]
  rw [hr, ← List.append_assoc (c!"\nRadial sections = "), radText_eq]
  simp only [PName.all, List.map_cons, List.map_nil, List.flatten_cons, List.flatten_nil, List.append_nil, ds]
  simp only [secs, PName.all, List.map_cons, List.map_nil, List.flatten_cons, List.flatten_nil, List.append_nil, unlines_cons,
    unlines_append]
  have s1 := sp .chord
  have s2 := sp .pitch
  have s3 := sp .rake
  have s4 := sp .skew
  have s5 := sp .camber
  simp only [reduceCtorEq, if_false, nl2, if_true, unlines_nil, List.append_nil] at s1 s2 s3 s4 s5
  have o : unlines (origSec V).lines = c!"[Original parameters]\n" ++ (
      c!"# This section describes the radial distributions of the parameters:\n" ++ (
      c!"# \"chord lengths\", \"pitch\", \"rake\", \"skew angles\", and \"camber\"\n" ++ (
      c!"# at given radial sections.\n" ++ ('\n' :: (unlines (core (radGrp V.r V.rs)) ++ ('\n' :: (
      unlines (core (distGrp .chord (V.d .chord) (V.ds .chord))) ++ ('\n' :: (
      unlines (core (distGrp .pitch (V.d .pitch) (V.ds .pitch))) ++ ('\n' :: (
      unlines (core (distGrp .rake (V.d .rake) (V.ds .rake))) ++ ('\n' :: (
      unlines (core (distGrp .skew (V.d .skew) (V.ds .skew))) ++ ('\n' :: (
      unlines (core (distGrp .camber (V.d .camber) (V.ds .camber))) ++ ['\n', '\n']))))))))))))))) := by
    simp only [Sec.lines, origSec, PName.all, List.map_cons, List.map_nil, List.flatten_cons, List.flatten_nil, List.append_nil]
    rw [unlines_cons, unlines_append]
    simp only [unlines_append, lines_core]
    rw [show (radGrp V.r V.rs).trail = [[]] from rfl]
    simp only [distGrp, reduceCtorEq, if_false, if_true, nl1, nl2, List.append_assoc]
    simp only [unlines_cons, unlines_nil, List.append_assoc, List.cons_append, List.nil_append, origSection]
  rw [o]
  have t2 : ∀ a : Str, '\n' :: '\n' :: a = ['\n', '\n'] ++ a := fun a => rfl
  have hs : splineText C pf .chord ++ (splineText C pf .pitch ++ (splineText C pf .rake ++ (splineText C pf .skew ++
      splineText C pf .camber))) = '\n' :: '\n' :: (unlines (splineSec V .chord).lines ++ (unlines (splineSec V .pitch).lines ++
      (unlines (splineSec V .rake).lines ++ (unlines (splineSec V .skew).lines ++ unlines (splineSec V .camber).lines)))) := by
    rw [s5, t2, ← List.append_assoc (splineText C pf .skew), s4]
    simp only [List.cons_append]
    rw [t2, ← List.append_assoc (splineText C pf .rake), s3]
    simp only [List.cons_append]
    rw [t2, ← List.append_assoc (splineText C pf .pitch), s2]
    simp only [List.cons_append]
    rw [t2, ← List.append_assoc (splineText C pf .chord), s1]
    simp only [List.cons_append]
  rw [hs]
  simp only [List.append_assoc, List.cons_append, List.nil_append]

/-- The written values can be written on lines of their own. -/
structure Vals.Good (V : Vals) : Prop where
  r : ∀ w ∈ V.r :: V.rs, NoSpace w ∧ w ≠ [] ∧ w.head? ≠ some '#' ∧ w.head? ≠ some ';'
  d : ∀ p, ∀ w ∈ V.d p :: V.ds p, NoSpace w ∧ w ≠ [] ∧ w.head? ≠ some '#' ∧ w.head? ≠ some ';'
  f : ∀ p, ∀ w ∈ V.f p :: V.fs p, NoSpace w ∧ w ≠ [] ∧ w.head? ≠ some '#' ∧ w.head? ≠ some ';'
  deg : ∀ p, NoSpace (V.deg p) ∧ V.deg p ≠ []
  npt : ∀ p, NoSpace (V.npt p) ∧ V.npt p ≠ []
  nba : ∀ p, NoSpace (V.nba p) ∧ V.nba p ≠ []

theorem radGrp_good {V : Vals} (h : V.Good) : (radGrp V.r V.rs).Good where
  pne := ⟨'R', c!"adial sections ", rfl, by decide, by decide, by decide, by decide⟩
  delim := by dsimp only [radGrp, distGrp, degGrp, nptGrp, nbaGrp, defGrp, origSec, splineSec, origSection]; decide
  nodelim := by dsimp only [radGrp, distGrp, degGrp, nptGrp, nbaGrp, defGrp, origSec, splineSec, origSection]; decide
  key_eq := by dsimp only [radGrp, distGrp, degGrp, nptGrp, nbaGrp, defGrp, origSec, splineSec, origSection]; decide
  kne := by dsimp only [radGrp, distGrp, degGrp, nptGrp, nbaGrp, defGrp, origSec, splineSec, origSection]; decide
  val := ⟨(h.r V.r (by simp)).1, (h.r V.r (by simp)).2.1⟩
  vals := fun w hw => h.r w (by simp only [radGrp] at hw; simp [hw])
  off_pos := by simp [radGrp]
  trail := by simp [radGrp, Filler]

theorem distGrp_good {V : Vals} (h : V.Good) (p : PName) : (distGrp p (V.d p) (V.ds p)).Good where
  pne := ⟨'R', c!"adial distribution of " ++ p.str ++ c!" ", rfl, by decide, by decide, by decide, by decide⟩
  delim := by dsimp only [radGrp, distGrp, degGrp, nptGrp, nbaGrp, defGrp, origSec, splineSec, origSection]; decide
  nodelim := by cases p <;> (dsimp only [radGrp, distGrp, degGrp, nptGrp, nbaGrp, defGrp, origSec, splineSec, origSection]; decide)
  key_eq := by cases p <;> (dsimp only [radGrp, distGrp, degGrp, nptGrp, nbaGrp, defGrp, origSec, splineSec, origSection]; decide)
  kne := by cases p <;> (dsimp only [radGrp, distGrp, degGrp, nptGrp, nbaGrp, defGrp, origSec, splineSec, origSection]; decide)
  val := ⟨(h.d p (V.d p) (by simp)).1, (h.d p (V.d p) (by simp)).2.1⟩
  vals := fun w hw => h.d p w (by simp only [distGrp] at hw; simp [hw])
  off_pos := by simp [distGrp]
  trail := by
    intro l hl
    simp only [distGrp] at hl
    split at hl <;> simp at hl <;> exact Or.inl hl

theorem degGrp_good {v : Str} (h : NoSpace v ∧ v ≠ []) : (degGrp v).Good where
  pne := ⟨'s', c!"pline degree", rfl, by decide, by decide, by decide, by decide⟩
  delim := by dsimp only [radGrp, distGrp, degGrp, nptGrp, nbaGrp, defGrp, origSec, splineSec, origSection]; decide
  nodelim := by dsimp only [radGrp, distGrp, degGrp, nptGrp, nbaGrp, defGrp, origSec, splineSec, origSection]; decide
  key_eq := by dsimp only [radGrp, distGrp, degGrp, nptGrp, nbaGrp, defGrp, origSec, splineSec, origSection]; decide
  kne := by dsimp only [radGrp, distGrp, degGrp, nptGrp, nbaGrp, defGrp, origSec, splineSec, origSection]; decide
  val := h
  vals := by simp [degGrp]
  off_pos := by simp [degGrp]
  trail := by simp [degGrp, Filler]

theorem nptGrp_good {v : Str} (h : NoSpace v ∧ v ≠ []) : (nptGrp v).Good where
  pne := ⟨'s', c!"pline npoints", rfl, by decide, by decide, by decide, by decide⟩
  delim := by dsimp only [radGrp, distGrp, degGrp, nptGrp, nbaGrp, defGrp, origSec, splineSec, origSection]; decide
  nodelim := by dsimp only [radGrp, distGrp, degGrp, nptGrp, nbaGrp, defGrp, origSec, splineSec, origSection]; decide
  key_eq := by dsimp only [radGrp, distGrp, degGrp, nptGrp, nbaGrp, defGrp, origSec, splineSec, origSection]; decide
  kne := by dsimp only [radGrp, distGrp, degGrp, nptGrp, nbaGrp, defGrp, origSec, splineSec, origSection]; decide
  val := h
  vals := by simp [nptGrp]
  off_pos := by simp [nptGrp]
  trail := by simp [nptGrp, Filler]

theorem nbaGrp_good {v : Str} (h : NoSpace v ∧ v ≠ []) : (nbaGrp v).Good where
  pne := ⟨'n', c!"umber of control points", rfl, by decide, by decide, by decide, by decide⟩
  delim := by dsimp only [radGrp, distGrp, degGrp, nptGrp, nbaGrp, defGrp, origSec, splineSec, origSection]; decide
  nodelim := by dsimp only [radGrp, distGrp, degGrp, nptGrp, nbaGrp, defGrp, origSec, splineSec, origSection]; decide
  key_eq := by dsimp only [radGrp, distGrp, degGrp, nptGrp, nbaGrp, defGrp, origSec, splineSec, origSection]; decide
  kne := by dsimp only [radGrp, distGrp, degGrp, nptGrp, nbaGrp, defGrp, origSec, splineSec, origSection]; decide
  val := h
  vals := by simp [nbaGrp]
  off_pos := by simp [nbaGrp]
  trail := by simp [nbaGrp, Filler]

theorem defGrp_good {V : Vals} (h : V.Good) (p : PName) : (defGrp p (V.f p) (V.fs p)).Good where
  pne := ⟨'c', c!"ontrol points Y-deformations ", rfl, by decide, by decide, by decide, by decide⟩
  delim := by dsimp only [radGrp, distGrp, degGrp, nptGrp, nbaGrp, defGrp, origSec, splineSec, origSection]; decide
  nodelim := by cases p <;> (dsimp only [radGrp, distGrp, degGrp, nptGrp, nbaGrp, defGrp, origSec, splineSec, origSection]; decide)
  key_eq := by cases p <;> (dsimp only [radGrp, distGrp, degGrp, nptGrp, nbaGrp, defGrp, origSec, splineSec, origSection]; decide)
  kne := by cases p <;> (dsimp only [radGrp, distGrp, degGrp, nptGrp, nbaGrp, defGrp, origSec, splineSec, origSection]; decide)
  val := ⟨(h.f p (V.f p) (by simp)).1, (h.f p (V.f p) (by simp)).2.1⟩
  vals := fun w hw => h.f p w (by simp only [defGrp] at hw; simp [hw])
  off_pos := by simp [defGrp]
  trail := by
    intro l hl
    simp only [defGrp] at hl
    split at hl
    · simp at hl
    · simp at hl; exact Or.inl hl

theorem origSec_good {V : Vals} (h : V.Good) : (origSec V).Good where
  ne := by simp [origSec, origSection]
  nd := by dsimp only [radGrp, distGrp, degGrp, nptGrp, nbaGrp, defGrp, origSec, splineSec, origSection]; decide
  pre := by simp [origSec, Filler]
  grps := by
    intro g hg
    simp only [origSec, List.mem_cons, List.mem_map] at hg
    rcases hg with rfl | ⟨p, _, rfl⟩
    · exact radGrp_good h
    · exact distGrp_good h p
  keys := by
    simp only [origSec, PName.all, List.map_cons, List.map_nil, radGrp, distGrp]
    decide

theorem splineSec_good {V : Vals} (h : V.Good) (p : PName) : (splineSec V p).Good where
  ne := by cases p <;> simp [splineSec, PName.section']
  nd := by cases p <;> (simp only [splineSec]; decide)
  pre := by simp [splineSec, Filler]
  grps := by
    intro g hg
    simp only [splineSec, List.mem_cons, List.not_mem_nil, or_false] at hg
    rcases hg with rfl | rfl | rfl | rfl
    · exact degGrp_good (h.deg p)
    · exact nptGrp_good (h.npt p)
    · exact nbaGrp_good (h.nba p)
    · exact defGrp_good h p
  keys := by
    simp only [splineSec, List.map_cons, List.map_nil, degGrp, nptGrp, nbaGrp, defGrp]
    decide

theorem secs_good {V : Vals} (h : V.Good) : ∀ s ∈ secs V, s.Good := by
  intro s hs
  simp only [secs, List.mem_cons, List.mem_map] at hs
  rcases hs with rfl | ⟨p, _, rfl⟩
  · exact origSec_good h
  · exact splineSec_good h p

theorem secs_names (V : Vals) : ((secs V).map (·.name)).Nodup := by
  simp only [secs, PName.all, List.map_cons, List.map_nil, origSec, splineSec]
  decide

theorem grp_no_nl {g : Grp} (hg : g.Good) (hp : '\n' ∉ g.p) (ht : ∀ l ∈ g.trail, '\n' ∉ l) : ∀ l ∈ g.lines, '\n' ∉ l := by
  intro l hl
  simp only [Grp.lines, List.mem_cons, List.mem_append, List.mem_map] at hl
  have hd : '\n' ≠ g.d := by
    intro e
    have := hg.delim
    rw [← e] at this
    revert this; decide
  have hsp : ∀ n, '\n' ∉ List.replicate n ' ' := by
    intro n hm
    have := List.eq_of_mem_replicate hm
    revert this; decide
  rcases hl with rfl | ⟨w, hw, rfl⟩ | hl
  · simp only [List.mem_append, List.mem_cons, not_or]
    exact ⟨hp, hd, hsp _, hg.val.1.no_nl⟩
  · simp only [List.mem_append, not_or]
    exact ⟨hsp _, (hg.vals w hw).1.no_nl⟩
  · exact ht l hl

theorem secs_no_nl {V : Vals} (h : V.Good) : ∀ l ∈ ((secs V).map Sec.lines).flatten, '\n' ∉ l := by
  intro l hl
  simp only [List.mem_flatten, List.mem_map] at hl
  obtain ⟨_, ⟨s, hs, rfl⟩, hl⟩ := hl
  simp only [secs, List.mem_cons, List.mem_map] at hs
  rcases hs with rfl | ⟨p, _, rfl⟩
  · simp only [Sec.lines, List.mem_cons, List.mem_append, List.mem_flatten, List.mem_map] at hl
    rcases hl with rfl | hl | ⟨_, ⟨g, hg, rfl⟩, hl⟩
    · simp only [origSec, origSection]; decide
    · revert l; simp only [origSec]; decide
    · simp only [origSec, List.mem_cons, List.mem_map] at hg
      rcases hg with rfl | ⟨p, _, rfl⟩
      · exact grp_no_nl (radGrp_good h) (by simp only [radGrp]; decide) (by simp only [radGrp]; decide) l hl
      · exact grp_no_nl (distGrp_good h p) (by simp only [distGrp]; cases p <;> decide)
          (by simp only [distGrp]; cases p <;> decide) l hl
  · simp only [Sec.lines, List.mem_cons, List.mem_append, List.mem_flatten, List.mem_map] at hl
    rcases hl with rfl | hl | ⟨_, ⟨g, hg, rfl⟩, hl⟩
    · simp only [splineSec]; cases p <;> decide
    · revert l; simp only [splineSec]; cases p <;> decide
    · simp only [splineSec, List.mem_cons, List.not_mem_nil, or_false] at hg
      rcases hg with rfl | rfl | rfl | rfl
      · exact grp_no_nl (degGrp_good (h.deg p)) (by simp only [degGrp]; decide) (by simp only [degGrp]; decide) l hl
      · exact grp_no_nl (nptGrp_good (h.npt p)) (by simp only [nptGrp]; decide) (by simp only [nptGrp]; decide) l hl
      · exact grp_no_nl (nbaGrp_good (h.nba p)) (by simp only [nbaGrp]; decide) (by simp only [nbaGrp]; decide) l hl
      · exact grp_no_nl (defGrp_good h p) (by simp only [defGrp]; decide) (by simp only [defGrp]; cases p <;> decide) l hl

/-- Reading the lines of a file. -/
theorem read_secs {V : Vals} (h : V.Good) : ∃ st, Config.read (unlines ([] :: ((secs V).map Sec.lines).flatten)) = .ok st ∧
    ∀ s ∈ secs V, ∀ g ∈ s.grps, ∀ o, lower o = g.key → get st s.name o = .ok (joinNL (g.v :: g.vs)) := by
  have hnl : ∀ l ∈ ([] : Str) :: ((secs V).map Sec.lines).flatten, '\n' ∉ l := by
    intro l hl
    rcases List.mem_cons.1 hl with rfl | hl
    · simp
    · exact secs_no_nl h l hl
  obtain ⟨st, h1, h2, _, _⟩ := run_sections (secs V) {} (secs_good h) (by simp) (by simp) (secs_names V)
  refine ⟨st, ?_, ?_⟩
  · unfold Config.read
    rw [fileLines_unlines hnl, List.foldlM_cons, step_blank_none (Or.inl rfl)]
    simp only [bind, Except.bind]
    exact h1
  · intro s hs g hg o ho
    exact get_of ((secs_good h s hs).grps g hg) (h2 s hs).1 ((h2 s hs).2 g hg) ho

theorem manyWords_noSpace {w : Str} (h : NoSpace w) : manyWords w = false := by
  unfold manyWords
  rw [strip_noSpace h, List.any_eq_false]
  intro c hc
  simp [h c hc]

theorem readValues_fmt {C : Codec} (hC : C.Lawful) {xs : Arr} (hx : ∀ x ∈ xs, C.rep x) (hne : xs ≠ []) :
    readValues C (joinNL (xs.map C.fmt)) = .ok xs := by
  unfold readValues
  rw [splitNL_join]
  · clear hne
    induction xs with
    | nil => rfl
    | cons x xs ih =>
      rw [List.map_cons, List.mapM_cons, ih fun y hy => hx y (by simp [hy]),
        manyWords_noSpace (hC.fmt_space x (hx x (by simp)))]
      simp [hC.parse_fmt x (hx x (by simp)), bind, Except.bind, pure, Except.pure]
  · intro l hl
    obtain ⟨x, hm, rfl⟩ := List.mem_map.1 hl
    exact NoSpace.no_nl (hC.fmt_space x (hx x hm))
  · simpa using hne

theorem readInt_fmt {C : Codec} (hC : C.Lawful) (n : Int) : readInt C (joinNL [C.fmtInt n]) = .ok n := by
  simp [readInt, joinNL, hC.parseInt_fmt]

theorem forAll_ok {α : Type*} {f : PName → Res α} {g : PName → α} (h : ∀ p, f p = .ok (g p)) : forAll f = .ok g := by
  unfold forAll
  simp only [h, bind, Except.bind, pure, Except.pure]
  congr 1
  funext p
  cases p <;> rfl

theorem forAll_inv {α : Type*} {f : PName → Res α} {g : PName → α} (h : forAll f = .ok g) : ∀ p, f p = .ok (g p) := by
  unfold forAll at h
  simp only [bind, Except.bind, pure, Except.pure] at h
  repeat' split at h
  all_goals first
    | cases h; done
    | (obtain rfl := Except.ok.inj h
       intro p
       cases p <;> assumption)

end ParamFile
end
end BladeX
