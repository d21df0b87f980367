"""Run the model itself on numbers and compare it with recorded outputs of the program.

The Lean model works with real numbers and cannot be executed. This script makes a copy of the model's source text in a scratch
directory, with the type of real numbers replaced by `Float`, runs it with `lean --run`, and compares what it computes with the
arrays that the authors recorded from the program (/repo/tests/test_datasets/*.npy, the literals and the parameter files of
/repo/tests). It is a test of the model's faithfulness, no proof rests on it, and it writes nothing into /verif.

Only three definitions are replaced rather than translated, because over the reals they are not algorithms: the solution of a linear
system (`npSolve`), the least-squares solution (`lstsq`), and the distance of two points (`weightsMatrix` on numbers).
"""
import re, os, struct, subprocess, sys, ast
SRC = '/verif/lean/Verif/'
OUT = sys.argv[1] if len(sys.argv) > 1 else '/tmp/float_model'
DATA = '/repo/tests/test_datasets/'
FILES = ['Py', 'Model/Text', 'Model/Config', 'Model/ParamFile', 'Model/Rbf', 'Model/Profile', 'Model/Naca', 'Model/Blade',
         'Model/BSpline', 'Model/Deform']

PRELUDE = r'''
/-- Equality of floats as the program tests it. -/
unsafe def floatEqU (a b : Float) : Decidable (a = b) := if a == b then isTrue lcProof else isFalse lcProof
@[implemented_by floatEqU] def floatEq (a b : Float) : Decidable (a = b) := Classical.propDecidable _
instance : DecidableEq Float := floatEq
instance : NatCast Float := ⟨Float.ofNat⟩
instance : IntCast Float := ⟨Float.ofInt⟩
instance : HPow Float Nat Float := ⟨fun x n => Nat.repeat (· * x) n 1⟩
instance [Neg α] [Neg β] : Neg (α × β) := ⟨fun p => (-p.1, -p.2)⟩
instance : Inhabited Float := ⟨0⟩
macro:max atomic("|" noWs) a:term noWs "|" : term => `(Float.abs $a)
namespace Real
def pi : Float := 3.141592653589793
def sqrt := Float.sqrt
def cos := Float.cos
def sin := Float.sin
def tan := Float.tan
def arctan := Float.atan
def exp := Float.exp
def log := Float.log
end Real
def floorI (x : Float) : Int := x.floor.toInt64.toInt
def ceilI (x : Float) : Int := x.ceil.toInt64.toInt
/-- Gaussian elimination with partial pivoting. -/
def gauss (A : Array (Array Float)) (b : Array Float) : Option (Array Float) := Id.run do
  let n := b.size
  let mut A := A
  let mut b := b
  for k in [0:n] do
    let mut p := k
    for i in [k:n] do
      if (A[i]!)[k]!.abs > (A[p]!)[k]!.abs then p := i
    if (A[p]!)[k]! == 0 then return none
    let t := A[k]!
    A := (A.set! k A[p]!).set! p t
    let t := b[k]!
    b := (b.set! k b[p]!).set! p t
    for i in [k+1:n] do
      let f := (A[i]!)[k]! / (A[k]!)[k]!
      if f != 0 then
        let mut r := A[i]!
        for j in [k:n] do
          r := r.set! j (r[j]! - f * (A[k]!)[j]!)
        A := A.set! i r
        b := b.set! i (b[i]! - f * b[k]!)
  let mut x := Array.replicate n (0 : Float)
  for kk in [0:n] do
    let k := n - 1 - kk
    let mut s := b[k]!
    for j in [k+1:n] do
      s := s - (A[k]!)[j]! * x[j]!
    x := x.set! k (s / (A[k]!)[k]!)
  return some x
/-- Least squares by Householder reflections would be more accurate; the matrices here are well conditioned. -/
def leastSq (A : Array (Array Float)) (b : Array Float) (n : Nat) : Array Float := Id.run do
  let m := b.size
  let mut N := Array.replicate n (Array.replicate n (0 : Float))
  let mut c := Array.replicate n (0 : Float)
  for i in [0:m] do
    let r := A[i]!
    for j in [0:n] do
      if r[j]! != 0 then
        c := c.set! j (c[j]! + r[j]! * b[i]!)
        let mut row := N[j]!
        for k in [0:n] do
          row := row.set! k (row[k]! + r[j]! * r[k]!)
        N := N.set! j row
  return (gauss N c).getD c
'''

def sub(s, a, b, n=1):
    assert s.count(a) >= 1, a
    return s.replace(a, b)

def cut(s, start, end):
    i = s.index(start); j = s.index(end, i)
    return s[:i], s[i:j], s[j:]

def convert(f):
    s = open(SRC + f + '.lean').read()
    s = re.sub(r'/-.*?-/', '', s, flags=re.S)
    s = re.sub(r'^import .*$', '', s, flags=re.M)
    s = s.replace('noncomputable section', 'section').replace('open Classical', '').replace('open Lean in', 'open Lean in')
    s = s.replace('ℝ', 'Float').replace('Type*', 'Type').replace('Type _', 'Type')
    if f == 'Model/Rbf':
        a, _, c = cut(s, 'def weightsMatrix', 'def reconstructF')
        s = a + '''def weightsMatrix (b : Basis) (r : Float) (X1 X2 : List Float) : Array (Array Float) :=
  (X1.map fun x => (X2.map fun y => b.fn (x - y).abs r).toArray).toArray
def npSolve (A : Array (Array Float)) (y : Arr) : Res (Array Float) :=
  if y.length = A.size then match gauss A y.toArray with
    | some x => .ok x
    | none => .error .linAlgError
  else .error .valueError
''' + c
        s = sub(s, '{α : Type} [PseudoMetricSpace α] ', '').replace('List α', 'List Float')
        s = sub(s, '    if h : i < rbf_input.length then\n      (List.finRange original_input.length).foldl (fun acc j => acc + w j * W ⟨i, h⟩ j) v',
                   '    if i < rbf_input.length then\n      (List.range original_input.length).foldl (fun acc j => acc + w[j]! * (W[i]!)[j]!) v')
    if f == 'Model/Naca':
        s = sub(s, '⌊x⌋', 'floorI x').replace('⌈x⌉', 'ceilI x')
    if f == 'Model/Deform':
        a, _, c = cut(s, 'def sumSq', 'namespace Deform')
        s = a + c
        a, _, c = cut(s, '  List.ofFn (lstsq', 'def optimum')
        s = a + '''  (leastSq ((List.finRange V.length).map fun i => ((List.range (n - 2)).map fun j => A i (j + 1)).toArray).toArray
    ((List.finRange V.length).map fun i => V[i] - A i 0 * v0 - A i (n - 1) * vl).toArray (n - 2)).toList
''' + c
    return s

MAIN = r'''
namespace BladeX
def show1 (name : String) (a : Arr) : IO Unit := do
  IO.println (name ++ " " ++ " ".intercalate (a.map fun x => toString x.toBits))
def showErr (name : String) (r : Res α) : IO Unit := IO.println (name ++ " " ++ match r with
  | .ok _ => "ok"
  | .error e => (repr e).pretty)
def showFace (name : String) (F : Face) : IO Unit := show1 name
  (F.map fun s => s.map (·.1) ++ s.map (·.2.1) ++ s.map (·.2.2)).flatten
/-- The 5-digit look-up at the recorded position (`p = 0.15`). -/
def look : Naca.LookUp := fun b p => match (Naca.tables b).1.findIdx? (fun q => (q - p).abs < 1e-12) with
  | some i => ((Naca.tables b).2.1.getD i 0, (Naca.tables b).2.2.getD i 0)
  | none => (0, 0)
def american : Profile → Res Arr := fun _ => .error .exception
def naca (tag : String) (digits : Str) (n : Int) (cosine : Bool) : IO Unit := do
  match Naca.ctor american look (.str digits) (.int n) cosine with
  | .ok P => show1 (tag ++ "_xup") P.xup; show1 (tag ++ "_yup") P.yup; show1 (tag ++ "_xdown") P.xdown; show1 (tag ++ "_ydown") P.ydown
  | .error e => IO.println (tag ++ " ERROR " ++ (repr e).pretty)
def foil (n : Int) : Profile := match Naca.ctor american look (.str c!"0012") (.int n) with
  | .ok P => P
  | .error _ => ⟨[], [], [], [], none, none, none⟩
/-- `np.arange(a, b, s)` with `n` entries. -/
def arange (a s : Float) (n : Nat) : Arr := (List.range n).map fun i : Nat => a + (i : Float) * s
def blade10 : Res Blade := Blade.new (List.replicate 10 (foil 240)) (arange 0.4 0.1 10) (arange 0.55 0.15 4 ++ arange 1.03 (-0.03) 5 ++ [0.3])
  (arange 3 0.2 5 ++ arange 4.1 (-0.2) 5) (arange 5e-3 1e-2 8 ++ arange 0.075 (-3e-2) 2) (arange (-4) (-3) 2 ++ arange (-7) 3 8) none none
def blade2 : Res Blade := Blade.new (List.replicate 2 (foil 10)) [0.4, 0.5] [0.55, 0.7] [3, 3.2] [5e-3, 0.015] [-4, -7] none none
def after (c : Blade.Call) (r : Res Blade) : Blade × Res Unit := match r with
  | .ok b => c b
  | .error e => (⟨[], [], [], [], [], [], none, none, [], [], none, none, none, none⟩, .error e)
def parseFloat (s : Str) : Option Float :=
  let s := strip s
  let (neg, t) := match s with
    | '-' :: t => (true, t)
    | t => (false, t)
  let a := t.takeWhile Char.isDigit
  let r := t.drop a.length
  let b := match r with
    | '.' :: u => some u
    | [] => some []
    | _ => none
  match b with
  | none => none
  | some b => if b.all Char.isDigit ∧ ¬ (a = [] ∧ b = []) then
      let v := OfScientific.ofScientific ((a ++ b).foldl (fun n c => 10 * n + (c.toNat - 48)) 0) true b.length
      some (if neg then -v else v)
    else none
def parseInt (s : Str) : Option Int := (String.ofList (strip s)).toInt?
def codec : Codec := ⟨fun _ => True, fun x => (toString x).toList, parseFloat, fun n => (toString n).toList, parseInt⟩
def cps (name : String) (o : Option (List Pt)) : IO Unit := match o with
  | none => IO.println (name ++ " ERROR none")
  | some l => show1 name (l.map fun p => [p.1, p.2]).flatten
def main : IO Unit := do
  naca "naca4_0012" c!"0012" 240 true
  naca "naca4_2412_cosine" c!"2412" 240 true
  naca "naca4_2412_linear" c!"2412" 240 false
  naca "naca5_00012" c!"00012" 240 true
  naca "naca5_23012_cosine" c!"23012" 240 true
  naca "naca5_23012_linear" c!"23012" 240 false
  naca "naca5_23112" c!"23112" 240 true
  showErr "err_24512" (Naca.ctor american look (.str c!"24512") (.int 240))
  showErr "err_1234-05" (Naca.ctor american look (.str c!"1234-05") (.int 240))
  showErr "err_16-123" (Naca.ctor american look (.str c!"16-123") (.int 240))
  showErr "err_712A315" (Naca.ctor american look (.str c!"712A315") (.int 240))
  showErr "err_neg" (Naca.ctor american look (.str c!"0012") (.int (-240)))
  showErr "err_digits" (Naca.ctor american look (.int 2412) (.int 240))
  showErr "err_points" (Naca.ctor american look (.str c!"0012") (.str c!"240"))
  match Naca.checkArgs (.str c!"2412") (.float 240.5) with
  | .ok a => show1 "npoints_float" [(a.2 : Float)]
  | .error _ => IO.println "npoints_float ERROR"
  -- measurements (test_profiles.py TestBaseProfileMethods)
  match Naca.ctor american look (.str c!"2412") (.int 240) with
  | .error _ => IO.println "measure ERROR"
  | .ok P => do
    match P.maxThickness with
    | .ok t => show1 "max_thickness" [t]
    | .error e => IO.println ("max_thickness ERROR " ++ (repr e).pretty)
    match (do (← P.setThicknessMax 0.24).maxThickness) with
    | .ok t => show1 "set_thickness_max" [t]
    | .error e => IO.println ("set_thickness_max ERROR " ++ (repr e).pretty)
  match Naca.ctor american look (.str c!"3412") (.int 240) with
  | .error _ => IO.println "measure ERROR"
  | .ok P => do
    match P.maxCamber with
    | .ok t => show1 "max_camber" [t.1]
    | .error e => IO.println ("max_camber ERROR " ++ (repr e).pretty)
    match (do (← P.setCamberLineMax 0.05).maxCamber) with
    | .ok t => show1 "set_camber_max" [t.1]
    | .error e => IO.println ("set_camber_max ERROR " ++ (repr e).pretty)
  -- blades
  let cyl : Blade.Call := fun b => match Blade.cylindrical b.sections b.radii with
    | .ok (u, d) => ({ b with coordsUp := u, coordsDown := d }, .ok ())
    | .error e => (b, .error e)
  let b := (after cyl blade10).1
  showFace "planar_up" b.coordsUp; showFace "planar_down" b.coordsDown
  let b := (after (Blade.applyTransformations true) blade10).1
  showFace "reflect_up" b.coordsUp; showFace "reflect_down" b.coordsDown
  let b := (after (Blade.applyTransformations false) blade10).1
  showFace "no_reflect_up" b.coordsUp; showFace "no_reflect_down" b.coordsDown
  let b := (after (Blade.build (fun _ => true) true) blade2).1
  let r := Blade.rotate (some 90) none c!"x" b
  showFace "rotate_deg" r.1.coordsUp
  let r := Blade.rotate none (some (Real.pi / 2)) c!"x" b
  showFace "rotate_rad" r.1.coordsDown
  showErr "err_rotate_none" (Blade.rotate none none c!"x" b).2
  showErr "err_rotate_both" (Blade.rotate (some 180) (some Real.pi) c!"x" b).2
  showErr "err_rotate_empty" (after (Blade.rotate none (some 80) c!"x") blade10).2
  -- test_ndinterpolator.py
  show1 "basis_values" [gaussianSpline 1 1, multiQuadraticSpline 1 1, invMultiQuadraticSpline 1 1, thinPlateSpline 1 0.5, wendlandC2 1 2, wendlandC2 2 1]
  showErr "err_basis" (Basis.ofName "wendland")
  let x10 := (List.range 10).map fun i : Nat => (i : Float)
  let sq := x10.map fun x => x * x
  show1 "weights_matrix" ((weightsMatrix .wendland 1 x10 x10).toList.map Array.toList).flatten
  match reconstructF "beckert_wendland_c2_basis" 2 x10 sq (linspaceN 0 9 5) (List.replicate 5 0) with
  | .ok v => show1 "reconstruct_scalar" v
  | .error _ => IO.println "reconstruct_scalar ERROR"
  for (name, radius) in [("gaussian_spline", 10.0), ("multi_quadratic_biharmonic_spline", 10.0), ("inv_multi_quadratic_biharmonic_spline", 10.0),
      ("thin_plate_spline", 20.0), ("beckert_wendland_c2_basis", 20.0)] do
    let xx := linspaceN 0 9 1000
    match reconstructF name radius x10 sq xx (List.replicate 1000 0) with
    | .ok v => show1 ("nearest_" ++ name) [(argmax (xx.map fun x => -(x - 4.5).abs) : Nat), (argmax (v.map fun y => -(y - 20.25).abs) : Nat)]
    | .error _ => IO.println ("nearest_" ++ name ++ " ERROR")
  -- test_blade.py, normalisation of the lengths
  match blade10 with
  | .error _ => pure ()
  | .ok b => do
    let f := fun (b : Blade) => [b.radii.headD 0, b.chord.headD 0, b.pitch.headD 0, b.rake.headD 0]
    let one : Blade := { b with radii := [1], chord := [1], pitch := [1], rake := [1] }
    show1 "abs_to_norm" (f (Blade.absToNorm 2 one))
    show1 "norm_to_abs" (f (Blade.normToAbs 2 one))
  -- parameter files and deformations
  for k in ["parameters", "parameters_corrupt", "parameters_corrupt_2", "parameters_corrupt_3", "parameters_corrupt_4",
      "parameters_corrupt_5", "parameters_corrupt_6"] do
    let t ← IO.FS.readFile ("DATADIR" ++ k ++ ".prm")
    showErr ("read_" ++ k) (ParamFile.readText codec t.toList)
  let t ← IO.FS.readFile ("DATADIR" ++ "parameters.prm")
  match ParamFile.readText codec t.toList with
  | .error _ => IO.println "parameters ERROR"
  | .ok pf => do
    show1 "radii" (pf.radii.getD [])
    for p in PName.all do
      show1 ("par_" ++ String.ofList p.str) ((pf.parameters p).getD [])
      show1 ("int_" ++ String.ofList p.str) [Float.ofInt (pf.degree p), Float.ofInt (pf.npoints p), Float.ofInt (pf.nbasis p)]
      show1 ("def_" ++ String.ofList p.str) (pf.deformations p)
    -- the reading of what is written
    match ParamFile.readText codec (ParamFile.text codec pf) with
    | .error e => IO.println ("reread ERROR " ++ (repr e).pretty)
    | .ok q => show1 "reread" ((q.radii.getD []) ++ (PName.all.map fun p => (q.parameters p).getD []).flatten)
    let d := Deform.ofParam pf
    cps "pitch_control_points" ((Deform.computeControlPoints c!"pitch" (some 1000) d).1.controlPoints .pitch)
    cps "pitch_control_points_no_rbf" ((Deform.computeControlPoints c!"pitch" (some (-1)) d).1.controlPoints .pitch)
    cps "pitch_control_points_None" ((Deform.computeControlPoints c!"pitch" none d).1.controlPoints .pitch)
    cps "pitch_updated" ((Deform.seq [Deform.computeControlPoints c!"pitch" (some 1000), Deform.updateControlPoints c!"pitch"] d).1.controlPoints .pitch)
    cps "camber_spline" ((Deform.seq [Deform.computeControlPoints c!"camber" (some 1000), Deform.generateSpline c!"camber"] d).1.spline .camber)
    let d3 := { d with degree := fun p => if p = .rake then 3 else d.degree p }
    let steps := fun (p : PName) tol => Deform.seq [Deform.computeControlPoints p.str (some 1000), Deform.updateControlPoints p.str,
      Deform.generateSpline p.str, Deform.computeDeformed p.str tol]
    for (p, tol) in [(PName.chord, 1e-3), (.pitch, 1e-3), (.rake, 1e-2), (.skew, 1e-2), (.camber, 1e-2)] do
      let r := steps p tol d3
      showErr ("steps_" ++ String.ofList p.str) r.2
      show1 ("deformed_" ++ String.ofList p.str) (r.1.deformed p)
    showErr "err_tol" (steps .camber 1e-7 d3).2
    let all := Deform.computeAll (some 1000) (fun | .chord => 1e-3 | .pitch => 1e-3 | _ => 1e-2) d3
    showErr "compute_all" all.2
    show1 "all_camber" (all.1.deformed .camber)
    showErr "err_angle" (Deform.computeControlPoints c!"angle" (some 1000) d).2
    showErr "err_update" (Deform.updateControlPoints c!"pitch" d).2
    showErr "err_deformed_angle" (Deform.computeDeformed c!"angle" 1e-3 d).2
    showErr "err_deformed_none" (Deform.computeDeformed c!"camber" 1e-3 d).2
end BladeX
def main : IO Unit := BladeX.main
'''

def npy(f):
    b = open(DATA + f, 'rb').read()
    assert b[:6] == b'\x93NUMPY'
    n = struct.unpack('<H', b[8:10])[0] if b[6] == 1 else struct.unpack('<I', b[8:12])[0]
    o = 10 if b[6] == 1 else 12
    h = ast.literal_eval(b[o:o + n].decode())
    assert h['descr'] == '<f8', h
    k = 1
    for d in h['shape']: k *= d
    v = list(struct.unpack('<%dd' % k, b[o + n:o + n + 8 * k]))
    if h['fortran_order'] and len(h['shape']) == 2:
        r, c = h['shape']
        v = [v[j * r + i] for i in range(r) for j in range(c)]
    return v

def main():
    os.makedirs(OUT, exist_ok=True)
    text = 'import Lean\n' + PRELUDE + '\n'.join(convert(f) for f in FILES) + MAIN.replace('DATADIR', DATA)
    open(OUT + '/Main.lean', 'w').write(text)
    r = subprocess.run(['lean', '--run', OUT + '/Main.lean'], capture_output=True, text=True)
    out = {}
    for l in r.stdout.splitlines():
        w = l.split()
        if w and w[0].startswith(OUT): print(l[:400]); continue
        if len(w) > 1 and re.fullmatch(r'\d+', w[1]): out[w[0]] = [struct.unpack('<d', struct.pack('<Q', int(x)))[0] for x in w[1:]]
        elif w: out[w[0]] = ' '.join(w[1:])
    if r.stderr: print(r.stderr[:3000])
    bad = 0
    def near(name, got, want, tol):
        nonlocal bad
        if got is None or isinstance(got, str) or len(got) != len(want): ok, d = False, (got if not isinstance(got, list) else 'length %d/%d' % (len(got), len(want)))
        else: d = max([abs(a - b) for a, b in zip(got, want)] or [0]); ok = d <= tol
        print('%-7s %-34s %s' % ('ok' if ok else 'DIFFER', name, d)); bad += not ok
    def same(name, want):
        nonlocal bad
        ok = out.get(name, '').split('.')[-1] == want
        print('%-7s %-34s %s' % ('ok' if ok else 'DIFFER', name, out.get(name))); bad += not ok
    T = 1.5e-7   # np.testing.assert_almost_equal, 7 decimals
    for tag, pat in [('naca4_0012', 'naca4_0012_%s'), ('naca4_2412_cosine', 'naca4_2412_%s_cosine'), ('naca4_2412_linear', 'naca4_2412_%s_linear'),
                     ('naca5_00012', 'naca5_00012_%s'), ('naca5_23012_cosine', 'naca5_23012_%s_cosine'),
                     ('naca5_23012_linear', 'naca5_23012_%s_linear'), ('naca5_23112', 'naca5_23112_%s')]:
        for c in ['xup', 'yup', 'xdown', 'ydown']: near(tag + '_' + c, out.get(tag + '_' + c), npy(pat % c + '.npy'), T)
    for n, e in [('err_24512', 'valueError'), ('err_1234-05', 'exception'), ('err_16-123', 'exception'), ('err_712A315', 'exception'),
                 ('err_neg', 'valueError'), ('err_digits', 'typeError'), ('err_points', 'typeError')]: same(n, e)
    near('npoints_float', out.get('npoints_float'), [240], 0)
    for n, v in [('max_thickness', .12), ('set_thickness_max', .24), ('max_camber', .03), ('set_camber_max', .05)]: near(n, out.get(n), [v], 1e-4)
    near('planar_up', out.get('planar_up'), npy('planar_to_cylindrical_blade_up.npy'), T)
    near('planar_down', out.get('planar_down'), npy('planar_to_cylindrical_blade_down.npy'), T)
    for a in ['reflect', 'no_reflect']:
        for s in ['up', 'down']: near(a + '_' + s, out.get(a + '_' + s), npy('blade_%s_after_transformation_%s.npy' % (s, a)), T)
    R0 = [0.2969784, 0.2653103, 0.2146533, 0.1597801, 0.1024542, 0.0434981, -0.0166326, -0.0777027, -0.1396447, -0.202534,
          -0.409087, -0.449122, -0.4720087, -0.4872923, -0.4963637, -0.4999122, -0.4983684, -0.4920609, -0.4813081, -0.4664844,
          0.2874853, 0.2197486, 0.1649479, 0.1120097, 0.0601922, 0.0093686, -0.04036, -0.0887472, -0.1354346, -0.1799786]
    R1 = [0.23913475, 0.17512439, 0.12479053, 0.07749333, 0.03196268, -0.01239386, -0.05590447, -0.09873836, -0.14094435, -0.18246808,
          -0.3488408, -0.3576312, -0.3719492, -0.3844258, -0.3936846, -0.3989522, -0.3997457, -0.3957593, -0.3867917, -0.3726862,
          0.19572966, 0.17916459, 0.14715217, 0.11052969, 0.07079877, 0.02893379, -0.01426232, -0.05809137, -0.10194212, -0.14527558]
    near('rotate_deg', (out.get('rotate_deg') or [])[:30], R0, T)
    near('rotate_rad', (out.get('rotate_rad') or [])[30:], R1, T)
    for n in ['err_rotate_none', 'err_rotate_both', 'err_rotate_empty']: same(n, 'valueError')
    near('basis_values', out.get('basis_values'), [0.36787944117144233, 1.4142135623730951, 0.7071067811865475, 2.772588722239781, 0.1875, 0], T)
    same('err_basis', 'nameError')
    near('weights_matrix', out.get('weights_matrix'), [float(i == j) for i in range(10) for j in range(10)], 1e-6)
    near('reconstruct_scalar', out.get('reconstruct_scalar'), [0., 4.85579754, 19.1322168, 44.53940674, 81.], T)
    for n in ['gaussian_spline', 'multi_quadratic_biharmonic_spline', 'inv_multi_quadratic_biharmonic_spline', 'thin_plate_spline', 'beckert_wendland_c2_basis']:
        v = out.get('nearest_' + n) or [0, 1]
        near('nearest_' + n, v[:1], v[1:], 0)
    near('abs_to_norm', out.get('abs_to_norm'), [1.0, 0.5, 0.5, 0.5], 0)
    near('norm_to_abs', out.get('norm_to_abs'), [1.0, 2.0, 2.0, 2.0], 0)
    same('read_parameters', 'ok')
    for k in ['', '_2', '_3', '_4', '_5', '_6']: same('read_parameters_corrupt' + k, 'valueError')
    near('radii', out.get('radii'), [0.3, 0.4, 0.5, 0.6, 0.7, 0.8, 0.9, 1.0], 0)
    P = {'chord': [0.18, 0.2, 0.3, 0.37, 0.41, 0.42, 0.41, 0.1], 'pitch': [1.4, 1.5, 1.58, 1.6, 1.64, 1.61, 1.5, 1.3],
         'rake': [0.0, 0.005, 0.013, 0.02, 0.03, 0.029, 0.022, 0.01], 'skew': [3.6, -4.4, -7.4, -7.4, -5.0, -1.3, 4.1, 11.4],
         'camber': [0.015, 0.024, 0.029, 0.03, 0.03, 0.028, 0.025, 0.02]}
    for p in P: near('par_' + p, out.get('par_' + p), P[p], 0)
    near('def_skew', out.get('def_skew'), [7, 6, 5, 4, 3, 2, 1], 0)
    near('int_chord', (out.get('int_chord') or [])[:1], [3], 0)
    near('int_pitch', (out.get('int_pitch') or [])[1:2], [400], 0)
    near('int_rake', (out.get('int_rake') or [])[2:], [4], 0)
    near('reread', out.get('reread'), [0.3, 0.4, 0.5, 0.6, 0.7, 0.8, 0.9, 1.0] + sum(P.values(), []), 1e-6)
    near('pitch_control_points', out.get('pitch_control_points'), npy('pitch_control_points.npy'), T)
    for n in ['pitch_control_points_no_rbf', 'pitch_control_points_None']: near(n, out.get(n), npy('pitch_control_points_no_rbf.npy'), T)
    near('pitch_updated', out.get('pitch_updated'), npy('pitch_updated_control_points.npy'), T)
    near('camber_spline', out.get('camber_spline'), npy('camber_spline.npy'), T)
    for p in P:
        same('steps_' + p, 'ok'); near('deformed_' + p, out.get('deformed_' + p), npy('deformed_%s.npy' % p), T)
    same('err_tol', 'valueError'); same('compute_all', 'ok'); near('all_camber', out.get('all_camber'), npy('deformed_camber.npy'), T)
    for n in ['err_angle', 'err_update', 'err_deformed_angle', 'err_deformed_none']: same(n, 'valueError')
    print('%d differences' % bad)
    return bad

if __name__ == '__main__': sys.exit(1 if main() else 0)
