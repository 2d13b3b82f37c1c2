import Verif.Base.Curve
import Verif.Base.Conc
/-
Model of `/repo/common`.
-/
namespace ZkSetup

/-- The machine: `runtime.NumCPU()` and the goroutine scheduler. Theorems hold for all of them. -/
structure Par where
  cpus : Nat
  cpus_pos : 0 < cpus
  sched : Conc.Sched

/-! ### common/parallelize.go -/

/-- The loop of `Parallelize`, `/repo/common/parallelize.go:23-39`: `left` tasks remain, `i` is the loop
variable, `extra` = `extraTasks`, `off` = `extraTasksOffset`; the result lists the `(_start, _end)` pairs. -/
def parallelLoop (per : Nat) : (left i extra off : Nat) → List (Nat × Nat)
  | 0, _, _, _ => []
  | left + 1, i, extra, off =>
    let start := i * per + off
    let stop := start + per
    if extra > 0 then (start, stop + 1) :: parallelLoop per left (i + 1) (extra - 1) (off + 1)
    else (start, stop) :: parallelLoop per left (i + 1) extra off

/-- `/repo/common/parallelize.go:9-39`: the ranges handed to `work`; `none` is the division by zero
panic for zero tasks (`maxCpus[0] == 0`). -/
def parallelRanges (nbIterations nbTasks : Nat) : Option (List (Nat × Nat)) :=
  if nbTasks = 0 then none
  else
    let per := nbIterations / nbTasks
    let (per, tasks) := if per < 1 then (1, nbIterations) else (per, nbTasks)
    some (parallelLoop per tasks 0 (nbIterations - tasks * per) 0)

/-- `work(start, end)` for a work function of the form `for i := start; i < end; i++ { body(i) }`,
the form of every caller. -/
def workRange {σ : Type} (body : Nat → Conc σ) (r : Nat × Nat) : Conc σ :=
  Conc.seqs ((List.range' r.1 (r.2 - r.1)).map body)

/-- `Parallelize`, `/repo/common/parallelize.go:9-44`: one goroutine per range, then `wg.Wait()`. -/
def parallelize {σ : Type} (nbIterations nbTasks : Nat) (body : Nat → Conc σ) : Option (Conc σ) :=
  (parallelRanges nbIterations nbTasks).map fun rs => Conc.pars (rs.map (workRange body))

/-- `Parallelize(n, ...)` with the default number of tasks `runtime.NumCPU()` and the body
`a[i] = f(i, a[i])`, run under the machine's scheduler. `NumCPU() ≥ 1`, so there is no panic branch. -/
def Par.mapIdx {G : Type} (par : Par) (n : Nat) (f : Nat → G → G) (a : List G) : List G :=
  match parallelize n par.cpus (fun i => .step fun s => s.modify i (f i)) with
  | some p => par.sched.exec p a
  | none => a

/-! ### common/utils.go -/

/-- `bits.TrailingZeros64` for `n < 2^64` (64 for 0) -/
def trailingZeros : (fuel n : Nat) → Nat
  | 0, _ => 0
  | fuel + 1, n => if n % 2 = 1 then 0 else trailingZeros fuel (n / 2) + 1

def trailingZeros64 (n : Nat) : Nat := trailingZeros 64 n

/-- `bits.Reverse64(i) >> nn` with `nn = 64 - bits.TrailingZeros64(n)`, `/repo/common/utils.go:11,14`,
`/repo/lagrange/g1.go:110,123`. -/
def revIndex (n i : Nat) : Nat :=
  ((BitVec.ofNat 64 i).reverse >>> (64 - trailingZeros64 n)).toNat

/-- `a[i], a[j] = a[j], a[i]` -/
def swap {G : Type} (i j : Nat) (a : List G) : List G :=
  match a[i]?, a[j]? with
  | some x, some y => (a.set i y).set j x
  | _, _ => a

/-- loop body of the bit reversal, `/repo/common/utils.go:14-17` -/
def bitReverseStep {G : Type} (n i : Nat) (a : List G) : List G :=
  let irev := revIndex n i
  if irev > i then swap i irev a else a

/-- `BitReverseG1`, `BitReverseG2`, `/repo/common/utils.go:9-31` (identical up to the type). -/
def bitReverse {G : Type} (a : List G) : List G :=
  (List.range a.length).foldl (fun s i => bitReverseStep a.length i s) a

section
variable {F G1 G2 GT : Type} [Field F] [AddCommGroup G1] [Module F G1] [AddCommGroup G2]
  [Module F G2] [AddCommGroup GT] [Module F GT] [DecidableEq GT]

/-- `SameRatio`, `/repo/common/utils.go:34-44`: `PairingCheck([a1,b1],[-a2,b2])`, i.e.
`e(a1,-a2)·e(b1,b2) = 1`. The error of `PairingCheck` (input slices of different lengths) cannot occur. -/
def Curve.sameRatio (C : Curve F G1 G2 GT) (a1 b1 : G1) (a2 b2 : G2) : Bool :=
  decide (C.e a1 (-a2) + C.e b1 b2 = 0)

/-! ### common/keypair.go -/

/-- `PublicKey`, `/repo/common/keypair.go:10-14` -/
structure PublicKey (G1 G2 : Type) where
  s : G1
  sx : G1
  spx : G2
  deriving DecidableEq

/-- `GenSP`, `/repo/common/keypair.go:40-48`. `HashToG2` returns an error only for an over-long
domain separation tag, which a single byte is not; the panic branch is not modelled. -/
def Curve.genSP (C : Curve F G1 G2 GT) (sG1 sxG1 : G1) (challenge : Bytes) (dst : UInt8) : G2 :=
  C.hashG2 (C.c1.rawBytes sG1 ++ C.c1.rawBytes sxG1 ++ challenge) dst

/-- `GenPublicKey`, `/repo/common/keypair.go:16-37`; `s` is the value drawn by `s.SetRandom()`. -/
def Curve.genPublicKey (C : Curve F G1 G2 GT) (x s : F) (challenge : Bytes) (dst : UInt8) :
    PublicKey G1 G2 :=
  let S := s • C.g1
  let SX := x • S
  let SP := C.genSP S SX challenge dst
  { s := S, sx := SX, spx := x • SP }

end
end ZkSetup
