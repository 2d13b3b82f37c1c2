import Verif.Model.Common
/-
Model of `/repo/lagrange`. `g1.go` and `g2.go` are identical up to the group, so one generic model serves
both. Jacobian coordinates are not modelled: a point is a group element (`FromAffine`, `FromJacobian` are
the identity). Slices are regions `[off, off+n)` of one shared list.
-/
namespace ZkSetup.Lagrange

open ZkSetup

/-- `fft.Domain` of gnark-crypto: the fields the code uses. `twiddlesInv s i` is `TwiddlesInv[s][i]`. -/
structure Domain (F : Type) where
  cardinality : Nat
  gen : F
  cardInv : F
  twiddlesInv : Nat → Nat → F

variable {F G : Type} [Field F] [AddCommGroup G] [Module F G]

/-- `butterflyG1(&a[i], &a[j])`, `/repo/lagrange/g1.go:18-23` -/
def butterfly (i j : Nat) (a : List G) : List G :=
  match a[i]?, a[j]? with
  | some x, some y => (a.set i (x + y)).set j (x - y)
  | _, _ => a

/-- `a[i].ScalarMultiplication(&a[i], &twiddle)` -/
def scaleAt (i : Nat) (w : F) (a : List G) : List G := a.modify i (w • ·)

/-- `kerDIF8G1`, `/repo/lagrange/g1.go:26-51`, on the slice `a[off : off+8]` -/
def kerDIF8 (tw : Nat → Nat → F) (off stage : Nat) : Conc (List G) :=
  Conc.seqs [
    .step (butterfly off (off + 4)),
    .step (butterfly (off + 1) (off + 5)),
    .step (butterfly (off + 2) (off + 6)),
    .step (butterfly (off + 3) (off + 7)),
    .step (scaleAt (off + 5) (tw (stage + 0) 1)),
    .step (scaleAt (off + 6) (tw (stage + 0) 2)),
    .step (scaleAt (off + 7) (tw (stage + 0) 3)),
    .step (butterfly off (off + 2)),
    .step (butterfly (off + 1) (off + 3)),
    .step (butterfly (off + 4) (off + 6)),
    .step (butterfly (off + 5) (off + 7)),
    .step (scaleAt (off + 3) (tw (stage + 1) 1)),
    .step (scaleAt (off + 7) (tw (stage + 1) 1)),
    .step (butterfly off (off + 1)),
    .step (butterfly (off + 2) (off + 3)),
    .step (butterfly (off + 4) (off + 5)),
    .step (butterfly (off + 6) (off + 7))]

/-- `const butterflyThreshold = 16`, `/repo/lagrange/g1.go:54` -/
def butterflyThreshold : Nat := 16

/-- loop body, `/repo/lagrange/g1.go:77-79` and `88-90` -/
def butterflyBody (tw : Nat → Nat → F) (off m stage i : Nat) : Conc (List G) :=
  .seq (.step (butterfly (off + i) (off + i + m))) (.step (scaleAt (off + i + m) (tw stage i)))

/-- the butterflies of one stage, `/repo/lagrange/g1.go:71-92`; `none` is the division by zero panic in
`Parallelize`. -/
def butterflies (cpus : Nat) (tw : Nat → Nat → F) (off m stage maxSplits : Nat) :
    Option (Conc (List G)) :=
  if m > butterflyThreshold ∧ stage < maxSplits then
    let numCPU := cpus / 2 ^ stage
    parallelize m numCPU (butterflyBody tw off m stage)
  else
    some (.seq (.step (butterfly off (off + m)))
      (Conc.seqs ((List.range' 1 (m - 1)).map (butterflyBody tw off m stage))))

/-- `difFFTG1`, `/repo/lagrange/g1.go:56-107`, on the slice `a[off : off+n]`. `go difFFTG1(a[m:n])` runs
concurrently with the recursive call on `a[0:m]`, and `<-chDone` waits for it. (`n = 0`, which would
panic in Go, does not occur: the top-level slice is not empty and halves of `n ≥ 2` are not empty.) -/
def difFFT (cpus : Nat) (tw : Nat → Nat → F) (maxSplits : Nat) (off n stage : Nat) :
    Option (Conc (List G)) :=
  if n ≤ 1 then some .skip
  else if n = 8 then some (kerDIF8 tw off stage)
  else do
    let m := n / 2
    let b ← butterflies cpus tw off m stage maxSplits
    if m = 1 then some b
    else
      let hi ← difFFT cpus tw maxSplits (off + m) (n - m) (stage + 1)
      let lo ← difFFT cpus tw maxSplits off m (stage + 1)
      if stage < maxSplits then some (.seq b (.par hi lo))
      else some (.seq b (.seq lo hi))
termination_by n
decreasing_by all_goals omega

/-- the ranges of the workers of `bitReversePointsG1`, `/repo/lagrange/g1.go:115-121` -/
def bitReverseRanges (n cpus : Nat) : List (Nat × Nat) :=
  (List.range cpus).map fun id =>
    (n / cpus * id, if id = cpus - 1 then n else n / cpus * (id + 1))

/-- `bitReversePointsG1`, `/repo/lagrange/g1.go:109-134`: one goroutine per range -/
def bitReversePoints (n cpus : Nat) : Conc (List G) :=
  Conc.pars ((bitReverseRanges n cpus).map (workRange fun j => .step (bitReverseStep n j)))

/-- `ecc.NextPowerOfTwo` of gnark-crypto -/
def nextPowerOfTwo (n : Nat) : Nat := if n ≤ 1 then 1 else 2 ^ (Nat.log2 (n - 1) + 1)

/-- `ConvertG1`, `ConvertG2`, `/repo/lagrange/g1.go:136-160` -/
def convert (par : Par) (dom : Domain F) (buff : List G) : Option (List G) := do
  let maxSplits := trailingZeros64 (nextPowerOfTwo par.cpus)
  let fft ← difFFT par.cpus dom.twiddlesInv maxSplits 0 buff.length 0
  let jac := par.sched.exec fft buff
  let jac := par.sched.exec (bitReversePoints jac.length par.cpus) jac
  some (par.mapIdx jac.length (fun _ p => dom.cardInv • p) jac)

end ZkSetup.Lagrange
