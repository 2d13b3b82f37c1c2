import Verif.Base.Go

/-!
How a person reads the output of the tool: the lines that begin with given words, and the hash at the end of a line.
-/
namespace ZkSetup

/-- the lines that begin with `p` -/
def linesWith (p : String) (out : List String) : List String := out.filter fun l => p.toList.isPrefixOf l.toList

/-- the word behind the last space of a line -/
def lastWord (l : String) : List Char := (l.toList.reverse.takeWhile (· ≠ ' ')).reverse

/-- value of a hexadecimal digit -/
def digitValue (c : Char) : Option Nat :=
  if '0' ≤ c ∧ c ≤ '9' then some (c.toNat - '0'.toNat)
  else if 'a' ≤ c ∧ c ≤ 'f' then some (c.toNat - 'a'.toNat + 10)
  else none

/-- the bytes written in hexadecimal digits, two per byte -/
def unhex : List Char → Option Bytes
  | [] => some []
  | [_] => none
  | a :: b :: rest =>
    (digitValue a).bind fun x => (digitValue b).bind fun y => (unhex rest).map fun r => UInt8.ofNat (16 * x + y) :: r

/-- the hashes in the output of `p1v`, `p1vt`, `p2v`, as the coordinator keeps track of them -/
def trackedHashes (out : List String) : List (Option Bytes) :=
  (linesWith "Verifying contribution " out).map fun l => unhex (lastWord l)

/-- the hashes in the output of `p1c`, `p2c`, to be attested by the contributor -/
def attestedHashes (out : List String) : List (Option Bytes) :=
  (linesWith "Contribution Hash" out).map fun l => unhex (lastWord l)

/-- the word behind the first words `p` of a line -/
def wordBehind (p : String) (l : String) : String := String.ofList ((l.toList.drop p.toList.length).takeWhile (· ≠ ' '))

/-- The numbers of contributions stated in the output of a command: the last words of the lines with the sign `#`. -/
def statedCounts (out : List String) : List String := (out.filter fun l => l.toList.contains '#').map fun l => String.ofList (lastWord l)

/-- the powers stated in the output of `p1c`, `p1v`, `p1vt` -/
def statedPowers (out : List String) : List String := (linesWith "Power := " out).map (wordBehind "Power := ")

/-- the numbers given to the hashes in the output of `p1v`, `p1vt`, `p2v` -/
def trackedNumbers (out : List String) : List String :=
  (linesWith "Verifying contribution " out).map (wordBehind "Verifying contribution ")

/-- `p1v`, `p1vt`, `p2v` report success -/
def ReportsVerified (out : List String) : Prop := "Contributions verification has been successful" ∈ out

/-- `p1c`, `p2c` report success -/
def ReportsContributed (out : List String) : Prop := "Contirbution has been successful!" ∈ out

/-- The line with which a command reports that it has done its work; `p1t` has none. -/
def successLine (command : String) (args : List String) : Option String :=
  match command, args with
  | "p1n", _ => some "Initialization has been completed successfully"
  | "p1c", _ => some "Contirbution has been successful!"
  | "p2c", _ => some "Contirbution has been successful!"
  | "p1v", _ => some "Contributions verification has been successful"
  | "p1vt", _ => some "Contributions verification has been successful"
  | "p2v", _ => some "Contributions verification has been successful"
  | "p2n", _ => some "Phase 2 has been initialized successfully"
  | "p2np", _ => some "Phase 2 has been initialized successfully"
  | "key", _ => some "Keys have been extracted successfully"
  | "keys", _ => some "Keys have been extracted successfully"
  | "sol", [session] => some (session ++ ".sol has been extracted successfully")
  | _, _ => none

/-- what stands behind the last `=` of a line -/
def behindEquals (l : String) : String := String.ofList (l.toList.reverse.takeWhile (· ≠ '=')).reverse

/-- The figures in the output of `p2n` and `p2np`: what stands behind the last `=` of the lines with the sign `#`. -/
def circuitFigures (out : List String) : List String := (out.filter fun l => l.toList.contains '#').map behindEquals

end ZkSetup
