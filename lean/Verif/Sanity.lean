import Verif.Model.Planner
import Verif.Model.DftFft
/-!
# Running the model on floats (tests, not proofs)

These checks execute the model with Lean's `Float` (IEEE double) and compare with the definitions in
`tests/common/reference_impls.rs`.  They guard against transcription mistakes; no theorem depends on them.
-/

namespace RustDct.Sanity

instance : F64 Float where
  nat := Float.ofNat
  half := 0.5
  pi := 3.14159265358979323846
  sin := Float.sin
  cos := Float.cos
  sqrt := Float.sqrt

instance : DctNum Float Float where
  zero := 0.0
  one := 1.0
  fromF64 := id
  sqrt2 := Float.sqrt 2
  fracSqrt2 := 1 / Float.sqrt 2

def signal (n seed : Nat) : List Float :=
  (List.range n).map fun i => Float.ofNat ((i * i * 7 + i * 13 + seed * 31 + 5) % 23) - 11.3

def close (a b : List Float) : Bool :=
  a.length == b.length && (List.zipWith (fun x y => decide ((x - y).abs < 1e-8)) a b).all id

def pi : Float := F64.pi
def fl := Float.ofNat

/-- Σ_i x_i * w(i), plus table over k. -/
def table (x : List Float) (w : Float → Float → Nat → Float) : List Float :=
  (List.range x.length).map fun k =>
    ((List.range x.length).zip x).foldl (fun acc p => acc + p.2 * w (fl k) (fl p.1) p.1) 0

def ref (name : String) (x : List Float) : List Float :=
  let n := fl x.length
  let first (i : Nat) : Float := if i = 0 then 0.5 else 1
  let last (i : Nat) : Float := if i = x.length - 1 then 0.5 else 1
  match name with
  | "dct1" => table x fun k i j => Float.cos (k * i * pi / (n - 1)) * (if j = 0 ∨ j = x.length - 1 then 0.5 else 1)
  | "dct2" => table x fun k i _ => Float.cos (k * (i + 0.5) * pi / n)
  | "dct3" => table x fun k i j => Float.cos ((k + 0.5) * i * pi / n) * first j
  | "dct4" => table x fun k i _ => Float.cos ((k + 0.5) * (i + 0.5) * pi / n)
  | "dct5" => table x fun k i j => Float.cos (k * i * pi / (n - 0.5)) * first j
  | "dct6" => table x fun k i j => Float.cos (k * (i + 0.5) * pi / (n - 0.5)) * last j
  | "dct7" => table x fun k i j => Float.cos ((k + 0.5) * i * pi / (n - 0.5)) * first j
  | "dct8" => table x fun k i _ => Float.cos ((k + 0.5) * (i + 0.5) * pi / (n + 0.5))
  | "dst1" => table x fun k i _ => Float.sin ((k + 1) * (i + 1) * pi / (n + 1))
  | "dst2" => table x fun k i _ => Float.sin ((k + 1) * (i + 0.5) * pi / n)
  | "dst3" => table x fun k i j => Float.sin ((k + 0.5) * (i + 1) * pi / n) * last j
  | "dst4" => table x fun k i _ => Float.sin ((k + 0.5) * (i + 0.5) * pi / n)
  | "dst5" => table x fun k i _ => Float.sin ((k + 1) * (i + 1) * pi / (n + 0.5))
  | "dst6" => table x fun k i _ => Float.sin ((k + 1) * (i + 0.5) * pi / (n + 0.5))
  | "dst7" => table x fun k i _ => Float.sin ((k + 0.5) * (i + 1) * pi / (n + 0.5))
  | "dst8" => table x fun k i j => Float.sin ((k + 0.5) * (i + 0.5) * pi / (n - 0.5)) * last j
  | _ => []

def runs (name : String) (n scratch : Nat) (p : Proc Float) : Bool :=
  let x := signal n 3
  match p ⟨x, List.replicate scratch 0⟩ with
  | .ok m => close m.buf (ref name x) && m.scr.length == scratch
  | .panic _ _ => false

def fft (n : Nat) : Fft Float := dftFft n 3

def get {α : Type} (x : PlanM Float α) : Option α :=
  match x.run (Planner.new) with
  | .ok a _ => some a
  | .error _ _ => none

def ok1 (name : String) (n : Nat) (o : Option (Arc (Obj1 Float))) : Bool :=
  match o with
  | some a => a.val.len == n && runs name n a.val.scratchLen a.val.run
  | none => false

def planned (n : Nat) : Bool :=
  (n < 2 || ok1 "dct1" n (get (planDct1 fft n))) &&
  (match get (planDct2 fft n) with
   | some a => let o := a.val
     o.len == n && runs "dct2" n o.scratchLen o.dct2 && runs "dct3" n o.scratchLen o.dct3 &&
     runs "dst2" n o.scratchLen o.dst2 && runs "dst3" n o.scratchLen o.dst3
   | none => false) &&
  (match get (planDct4 fft n) with
   | some a => let o := a.val
     o.len == n && runs "dct4" n o.scratchLen o.dct4 && runs "dst4" n o.scratchLen o.dst4
   | none => false) &&
  ok1 "dct5" n (get (planDct5 n)) && ok1 "dct8" n (get (planDct8 n)) &&
  ok1 "dst1" n (get (planDst1 fft n)) && ok1 "dst5" n (get (planDst5 n)) && ok1 "dst8" n (get (planDst8 n)) &&
  (match get (planDct6 n) with
   | some a => let o := a.val
     o.len == n && runs "dct6" n o.scratchLen o.t6 && runs "dct7" n o.scratchLen o.t7
   | none => false) &&
  (match get (planDst6 fft n) with
   | some a => let o := a.val
     o.len == n && runs "dst6" n o.scratchLen o.t6 && runs "dst7" n o.scratchLen o.t7
   | none => false)

#guard (List.range 40).all fun n => planned (n + 1)
#guard planned 48 && planned 49 && planned 64

/-- The unplanned structs: naive type 2/3/4, FFT algorithms at small sizes, split radix over naive inners. -/
def direct (n : Nat) : Bool :=
  (match (Type2And3Naive.new n : Except Err (Type2And3Naive Float)) with
   | .ok a => let o := a.toObj
     o.len == n && runs "dct2" n o.scratchLen o.dct2 && runs "dct3" n o.scratchLen o.dct3 &&
     runs "dst2" n o.scratchLen o.dst2 && runs "dst3" n o.scratchLen o.dst3
   | .error _ => false) &&
  (match (Type4Naive.new n : Except Err (Type4Naive Float)) with
   | .ok a => let o := a.toObj
     o.len == n && runs "dct4" n o.scratchLen o.dct4 && runs "dst4" n o.scratchLen o.dst4
   | .error _ => false) &&
  (match Type2And3ConvertToFft.new (fft n) with
   | .ok a => let o := a.toObj
     o.len == n && runs "dct2" n o.scratchLen o.dct2 && runs "dct3" n o.scratchLen o.dct3 &&
     runs "dst2" n o.scratchLen o.dst2 && runs "dst3" n o.scratchLen o.dst3
   | .error _ => false) &&
  (match Dct1ConvertToFft.new (fft (2 * n)) with
   | .ok a => runs "dct1" (n + 1) a.scratchLen a.dct1
   | .error _ => false) &&
  (match Dst1ConvertToFft.new (fft (2 * (n + 1))) with
   | .ok a => runs "dst1" n a.scratchLen a.dst1
   | .error _ => false) &&
  (match Dst6And7ConvertToFft.new (fft (2 * n + 1)) with
   | .ok a => runs "dst6" n a.scratchLen a.dst6 && runs "dst7" n a.scratchLen a.dst7
   | .error _ => false) &&
  (n % 2 = 0 || match Type4ConvertToFftOdd.new (fft n) with
   | .ok a => runs "dct4" n a.scratchLen a.dct4 && runs "dst4" n a.scratchLen a.dst4
   | .error _ => false) &&
  (match (do Type4ConvertToType3Even.new (← Type2And3ConvertToFft.new (fft n)).toObj) with
   | .ok a => runs "dct4" (2 * n) a.scratchLen a.dct4 && runs "dst4" (2 * n) a.scratchLen a.dst4
   | .error _ => false)

#guard (List.range 26).all fun n => direct (n + 1)

def splitOver (q : Nat) : Bool :=
  match (do
    let h ← (Type2And3Naive.new (2 * q) : Except Err (Type2And3Naive Float))
    let r ← (Type2And3Naive.new q : Except Err (Type2And3Naive Float))
    Type2And3SplitRadix.new h.toObj r.toObj) with
  | .ok o => runs "dct2" (4 * q) o.scratchLen o.dct2 && runs "dct3" (4 * q) o.scratchLen o.dct3 &&
     runs "dst2" (4 * q) o.scratchLen o.dst2 && runs "dst3" (4 * q) o.scratchLen o.dst3
  | .error _ => false

#guard splitOver 1 && splitOver 2 && splitOver 4 && splitOver 8

/-- Reference MDCT of `a ++ b` and IMDCT, by definition. -/
def refMdct (w a b : List Float) : List Float :=
  let n := a.length
  (List.range n).map fun k =>
    ((List.range (2 * n)).zip (List.zipWith (· * ·) w (a ++ b))).foldl (fun acc p =>
      acc + p.2 * Float.cos (pi / fl n * (fl p.1 + 0.5 + fl n / 2) * (fl k + 0.5))) 0

def refImdct (w x : List Float) : List Float :=
  let n := x.length
  (List.range (2 * n)).zip w |>.map fun q => q.2 *
    ((List.range n).zip x).foldl (fun acc p =>
      acc + p.2 * Float.cos (pi / fl n * (fl q.1 + 0.5 + fl n / 2) * (fl p.1 + 0.5))) 0

def mdctOk (o : MdctObj Float) (n : Nat) (w : List Float) : Bool :=
  let a := signal n 1
  let b := signal n 2
  let c := signal n 3
  let d := signal n 4
  o.len == n &&
  (match o.mdct a b ⟨c, List.replicate o.scratchLen 7⟩ with
   | .ok m => close m.buf (refMdct w a b)
   | .panic _ _ => false) &&
  (match o.imdct c ⟨a, d, List.replicate o.scratchLen 7⟩ with
   | .ok m => close (m.outA ++ m.outB) (List.zipWith (· + ·) (a ++ d) (refImdct w c))
   | .panic _ _ => false)

def mdctAll (n : Nat) : Bool :=
  [WindowFn.mp3, WindowFn.mp3Invertible, WindowFn.vorbis, WindowFn.vorbisInvertible, WindowFn.one,
    WindowFn.invertible].all fun (w : Nat → List Float) =>
    (match MdctNaive.new n w with
     | .ok a => mdctOk a.toObj n (w (2 * n))
     | .error _ => false) &&
    (match get (planMdct fft n w) with
     | some a => mdctOk a.val n (w (2 * n))
     | none => false)

#guard (List.range 10).all fun n => mdctAll (2 * (n + 1))

end RustDct.Sanity
