import Verif.Model.Cli

/-!
What the commands print on standard output. The programs of `Model/Phase1` and `Model/Phase2` again, with the calls of `fmt`
between their steps. Simplifications: standard output is a list of lines (each call of `fmt` in the modelled functions prints one
line); writing to it does not fail. What `log.Fatal` prints on standard error is not modelled.
-/
namespace ZkSetup.Console
open Phase1 (goPow2 wrap64 check)

/-- the state of a program and the lines printed so far -/
structure St (σ : Type) where
  st : σ
  out : List String

variable {σ α : Type}

/-- `fmt.Println(line)` -/
def println (line : String) : Go (St σ) Unit := ⟨fun s => (.ok (), { s with out := s.out ++ [line] })⟩

/-- a step that prints nothing -/
def quiet (x : Go σ α) : Go (St σ) α := ⟨fun s => match x.run s.st with | (r, st) => (r, { s with st := st })⟩

/-- a digit of `hex.EncodeToString` (package encoding/hex), `n < 16` -/
def hexDigit (n : Nat) : Char := "0123456789abcdef".toList.getD n '0'

/-- `hex.EncodeToString` -/
def hex (b : Bytes) : String := String.ofList (b.flatMap fun x => [hexDigit (x.toNat / 16), hexDigit (x.toNat % 16)])

/-- `/repo/phase1/phase1.go:334`, `/repo/phase2/phase2.go:243`; `i` is the loop counter, from 0 -/
def hashLine (i : Nat) (hash : Bytes) : String :=
  "Verifying contribution " ++ toString (i + 1) ++ " with Hash := " ++ hex hash

/-- `/repo/phase1/phase1.go:270`, `/repo/phase2/phase2.go:160`: `Println` puts a further space between its arguments. -/
def ownHashLine (hash : Bytes) : String := "Contribution Hash :=  " ++ hex hash

section
variable {F G1 G2 GT : Type} [Field F] [AddCommGroup G1] [Module F G1] [AddCommGroup G2] [Module F G2] [AddCommGroup GT] [Module F GT]
variable [DecidableEq G1] [DecidableEq G2] [DecidableEq GT]

/-! ### phase1.go -/

/-- `Initialize`, `/repo/phase1/phase1.go:85-149`: what it prints; it does not fail (write errors are not modelled). -/
def initializeOut (power : UInt8) : List String :=
  ["Power " ++ toString power.toNat ++ " supports up to " ++ toString (goPow2 power) ++ " constraints",
    "1. Writing TauG1", "2. Writing AlphaTauG1", "3. Writing BetaTauG1", "4. Writing TauG2", "5. Writing BetaG2",
    "Initialization has been completed successfully"]

/-- `Contribute` after the header has been read, `/repo/phase1/phase1.go:171-272`; see `Phase1.contributeBody` -/
def p1ContributeBody (C : Curve F G1 G2 GT) (par : Par) (b : Nat) (rnd : Phase1.Rand F) (header : Phase1.Header) :
    Go (St IOSt) Unit := do
  println ("Power := " ++ toString header.power.toNat ++ " and  #Contributions := " ++ toString header.contributions.toNat)
  let N := goPow2 header.power
  let header := { header with contributions := header.contributions + 1 }
  quiet (IOSt.emit header.writeTo)
  println "Sampling toxic parameters Tau, Alpha, and Beta"
  println "Processing TauG1"
  let tau1 ← quiet (Phase1.scaleG1 C par b (wrap64 (2 * N - 1)) rnd.tau none)
  println "Processing AlphaTauG1"
  let alpha1 ← quiet (Phase1.scaleG1 C par b N rnd.tau (some rnd.alpha))
  println "Processing BetaTauG1"
  let beta1 ← quiet (Phase1.scaleG1 C par b N rnd.tau (some rnd.beta))
  println "Processing TauG2"
  let tau2 ← quiet (Phase1.scaleG2 C par b N rnd.tau)
  println "Processing BetaG2"
  let betaG2 ← quiet (IOSt.onRd C.c2.decode)
  let betaG2 := rnd.beta • betaG2
  quiet (IOSt.emit (C.c2.bytes betaG2))
  -- Copy old contributions
  let nExistingContributions := (header.contributions - 1).toNat
  let c ← quiet (Phase1.copyContributions C nExistingContributions Phase1.Contribution.zero)
  -- Get hash of previous contribution
  let prevHash := if nExistingContributions = 0 then [] else c.hash
  -- Generate public keys
  let contribution : Phase1.Contribution G1 G2 :=
    { g1Tau := tau1, g1Alpha := alpha1, g1Beta := beta1, g2Tau := tau2, g2Beta := betaG2,
      pkTau := C.genPublicKey rnd.tau rnd.sTau prevHash 1,
      pkAlpha := C.genPublicKey rnd.alpha rnd.sAlpha prevHash 2,
      pkBeta := C.genPublicKey rnd.beta rnd.sBeta prevHash 3,
      hash := [] }
  let contribution := { contribution with hash := Phase1.computeHash C contribution }
  quiet (IOSt.emit (contribution.writeTo C))
  println "Contirbution has been successful!"
  println (ownHashLine contribution.hash)

/-- `Contribute`, `/repo/phase1/phase1.go:151-273`: result, contents of the output file, lines printed -/
def p1Contribute (C : Curve F G1 G2 GT) (par : Par) (b : Nat) (rnd : Phase1.Rand F) (input : Bytes) :
    Except Fail Unit × Bytes × List String :=
  match Phase1.Header.readFrom.run (Rd.file input 0) with
  | (.error e, _) => (.error e, [], [])
  | (.ok header, rd) =>
    let res := (p1ContributeBody C par b rnd header).run ⟨⟨Rd.buffered 4096 rd.rest, []⟩, []⟩
    (res.1, res.2.st.out, res.2.out)

/-- The loop over the contributions, `/repo/phase1/phase1.go:332-339`; `i` is the loop counter. See `Phase1.verifyLoop`. -/
def p1VerifyLoop (C : Curve F G1 G2 GT) : Nat → Nat → Phase1.Contribution G1 G2 → Phase1.Contribution G1 G2 → Rd →
    Go (St Unit) (Phase1.Contribution G1 G2)
  | 0, _, current, _, _ => pure current
  | n + 1, i, current, prev, rd => do
    let read := (Phase1.Contribution.readFrom C).run (current, rd)
    println (hashLine i read.2.1.hash)
    quiet (Go.lift (Phase1.verifyContribution C read.2.1 prev))
    quiet (Go.lift (check (!Phase1.isSpoiled read.1) "couldn't verify hash of contribution"))
    p1VerifyLoop C n (i + 1) read.2.1 read.2.1 read.2.2

/-- The second half of `Verify`, `/repo/phase1/phase1.go:326-374`; see `Phase1.verifyRest` -/
def p1VerifyRest (C : Curve F G1 G2 GT) (transformed : Option Bytes) (count : Nat) (rd : Rd)
    (tau1 alpha1 beta1 : G1 × G1) (tau2 : G2 × G2) (betaG2 : G2) : Go (St Unit) Unit := do
  let prev ← quiet (Go.lift (Phase1.defaultContribution C transformed))
  let current ← p1VerifyLoop C count 0 Phase1.Contribution.zero prev rd
  println "Verifying powers of TauG1"
  quiet (Go.lift (check (C.sameRatio tau1.1 tau1.2 current.g2Tau C.g2) "failed pairing check"))
  println "Verifying powers of AlphaTauG1"
  quiet (Go.lift (check (C.sameRatio alpha1.1 alpha1.2 current.g2Tau C.g2) "failed pairing check"))
  println "Verifying powers of BetaTauG1"
  quiet (Go.lift (check (C.sameRatio beta1.1 beta1.2 current.g2Tau C.g2) "failed pairing check"))
  println "Verifying powers of TauG2"
  quiet (Go.lift (check (C.sameRatio C.g1 current.g1Tau tau2.1 tau2.2) "failed pairing check"))
  println "Verifying powers of BetaG2"
  quiet (Go.lift (check (decide (betaG2 = current.g2Beta)) "failed verifying update of Beta"))
  println "Contributions verification has been successful"

/-- The first half of `Verify`, `/repo/phase1/phase1.go:296-324`; see `Phase1.readSections` -/
def p1ReadSections (C : Curve F G1 G2 GT) (par : Par) (pol : Phase1.MsmPolicy) (b : Nat) (vr : Phase1.VerifyRand F)
    (N : Int) : Go (St Rd) ((G1 × G1) × (G1 × G1) × (G1 × G1) × (G2 × G2) × G2) := do
  println "Processing TauG1"
  let tau1 ← quiet (Phase1.linearCombination C.c1 par pol b vr.tau1 (wrap64 (2 * N - 1)))
  println "Processing AlphaTauG1"
  let alpha1 ← quiet (Phase1.linearCombination C.c1 par pol b vr.alpha1 N)
  println "Processing BetaTauG1"
  let beta1 ← quiet (Phase1.linearCombination C.c1 par pol b vr.beta1 N)
  println "Processing TauG2"
  let tau2 ← quiet (Phase1.linearCombination C.c2 par pol b vr.tau2 N)
  println "Processing BetaG2"
  let betaG2 ← quiet C.c2.decode
  pure (tau1, alpha1, beta1, tau2, betaG2)

/-- `Verify`, `/repo/phase1/phase1.go:275-375`: result and lines printed -/
def p1Verify (C : Curve F G1 G2 GT) (par : Par) (pol : Phase1.MsmPolicy) (b : Nat) (vr : Phase1.VerifyRand F)
    (input : Bytes) (transformed : Option Bytes) : Except Fail Unit × List String :=
  match Phase1.Header.readFrom.run (Rd.file input 0) with
  | (.error e, _) => (.error e, [])
  | (.ok header, rd) =>
    let first := "Power := " ++ toString header.power.toNat ++ " and  #Contributions := " ++ toString header.contributions.toNat
    match (p1ReadSections C par pol b vr (goPow2 header.power)).run ⟨Rd.buffered (2 ^ 20) rd.rest, [first]⟩ with
    | (.error e, s) => (.error e, s.out)
    | (.ok (tau1, alpha1, beta1, tau2, betaG2), s) =>
      let res := (p1VerifyRest C transformed header.contributions.toNat s.st tau1 alpha1 beta1 tau2 betaG2).run ⟨(), s.out⟩
      (res.1, res.2.out)

/-! ### phase2.go -/

/-- `Contribute` on the reader and writer, `/repo/phase2/phase2.go:78-162`; see `Phase2.contributeBody`, `Phase2.contributeWith` -/
def p2ContributeBody (C : Curve F G1 G2 GT) (H : Phase2.HeaderCodec) (par : Par) (b : Nat) (rnd : Phase2.Rand F) : Go (St IOSt) Unit := do
  let read ← quiet (IOSt.onRd (Phase2.Header.read H))
  println ("Current #Contributions := " ++ toString read.contributions)
  let header := read.increment
  quiet (IOSt.emit (header.write H))
  println "Sampling toxic parameters Delta"
  println "Processing DeltaG1 and DeltaG2"
  let delta1 ← quiet (Phase2.scalePoint C.c1 rnd.delta)
  let _delta2 ← quiet (Phase2.scalePoint C.c2 rnd.delta)
  -- Process Z and PKK using δ⁻¹
  quiet (Phase2.scale C par b (wrap64 (header.domain - 1)) rnd.delta⁻¹)
  quiet (Phase2.scale C par b header.witness rnd.delta⁻¹)
  -- Copy old contributions
  let c ← quiet (Phase2.copyContributions C (wrap64 (header.contributions - 1)).toNat Phase2.Contribution.zero)
  let contribution := Phase2.newContribution C rnd delta1 (Phase2.previousHash (wrap64 (header.contributions - 1)) c)
  -- Write the contribution
  quiet (IOSt.emit (contribution.writeTo C))
  println "Contirbution has been successful!"
  println (ownHashLine contribution.hash)

/-- `Contribute`, `/repo/phase2/phase2.go:58-163`: result, contents of the output file, lines printed -/
def p2Contribute (C : Curve F G1 G2 GT) (H : Phase2.HeaderCodec) (par : Par) (b : Nat) (rnd : Phase2.Rand F) (input : Bytes) :
    Except Fail Unit × Bytes × List String :=
  let res := (p2ContributeBody C H par b rnd).run ⟨⟨Rd.buffered 4096 input, []⟩, []⟩
  (res.1, res.2.st.out, res.2.out)

/-- The loop over the contributions, `/repo/phase2/phase2.go:238-250`; `i` is the loop counter. See `Phase2.verifyLoop`. -/
def p2VerifyLoop (C : Curve F G1 G2 GT) : Nat → Nat → Phase2.Contribution G1 G2 → G1 → Bytes → Go (St (Rd × Rd)) (Phase2.Contribution G1 G2)
  | 0, _, c, _, _ => pure c
  | n + 1, i, _, prevDelta, prevHash => do
    let c ← quiet (Phase2.onInput (Phase2.Contribution.readFrom C))
    println (hashLine i c.hash)
    quiet (Go.lift (Phase2.verifyContribution C c prevDelta prevHash))
    p2VerifyLoop C n (i + 1) c c.delta c.hash

/-- `Verify` on the two readers, `/repo/phase2/phase2.go:185-258`; see `Phase2.verifyBody` -/
def p2VerifyBody (C : Curve F G1 G2 GT) (H : Phase2.HeaderCodec) (par : Par) (b : Nat) (vr : Phase2.VerifyRand F) :
    Go (St (Rd × Rd)) Unit := do
  let curHeader ← quiet (Phase2.onInput (Phase2.Header.read H))
  let orgHeader ← quiet (Phase2.onOrigin (Phase2.Header.read H))
  quiet (Go.lift (check (decide (curHeader.contributions ≠ 0)) "there are no contributions to verify"))
  quiet (Go.lift (check (curHeader.equal orgHeader)
    "there is a mismatch between origin and curren headers for phase 2"))
  -- Read [δ]₁ and [δ]₂
  let g1 ← quiet (Phase2.onOrigin C.c1.decode)
  let g2 ← quiet (Phase2.onOrigin C.c2.decode)
  let d1 ← quiet (Phase2.onInput C.c1.decode)
  let d2 ← quiet (Phase2.onInput C.c2.decode)
  -- Check δ₁ and δ₂ are consistent
  quiet (Go.lift (check (C.sameRatio g1 d1 d2 g2) "deltaG1 and deltaG2 aren't consistent"))
  println "Verifying update of Z"
  quiet (Phase2.verifyParameter C par b vr.z d2 g2 (wrap64 (curHeader.domain - 1)) "Z")
  println "Verifying update of PKK"
  quiet (Phase2.verifyParameter C par b vr.pkk d2 g2 curHeader.witness "PKK")
  println ("#Contributions := " ++ toString curHeader.contributions)
  let c ← p2VerifyLoop C curHeader.contributions.toNat 0 Phase2.Contribution.zero g1 []
  println "Verifying Delta of last contribution"
  quiet (Go.lift (check (decide (c.delta = d1))
    "delta of last contribution delta isn't the same as in parameters"))
  println "Contributions verification has been successful"

/-- `Verify`, `/repo/phase2/phase2.go:165-259`: result and lines printed -/
def p2Verify (C : Curve F G1 G2 GT) (H : Phase2.HeaderCodec) (par : Par) (b : Nat) (vr : Phase2.VerifyRand F)
    (input origin : Bytes) : Except Fail Unit × List String :=
  let res := (p2VerifyBody C H par b vr).run ⟨(Rd.buffered 4096 input, Rd.buffered 4096 origin), []⟩
  (res.1, res.2.out)

end
end ZkSetup.Console
