import Verif.Base.Stream
import Verif.Model.Phase2
import Mathlib.Data.Nat.Digits.Defs
/-
The gob format, after the documentation of Go's `encoding/gob`, as far as structs of integers need it.
-/
namespace ZkSetup.Gob.Format

/-- An unsigned integer below 128 is one byte, a larger one its minimal big-endian bytes after their negated number. -/
def uint (n : Nat) : Bytes :=
  if n < 128 then [UInt8.ofNat n]
  else UInt8.ofNat (256 - (Nat.digits 256 n).length) :: (Nat.digits 256 n).reverse.map UInt8.ofNat

/-- A signed integer is the unsigned one whose lowest bit says that the others are complemented. -/
def int : Int → Bytes
  | .ofNat n => uint (2 * n)
  | .negSucc n => uint (2 * n + 1)

/-- A string is its length and its bytes (ASCII here). -/
def text (s : String) : Bytes := uint s.length ++ s.toList.map fun c => UInt8.ofNat c.toNat

/-- A slice is its length and its elements. -/
def slice (elements : List Bytes) : Bytes := uint elements.length ++ elements.flatten

/-- A struct is the sequence of its fields that are not zero, each after the difference of its number to that of the previous one,
the first number being 1, and a zero. -/
def struct (fields : List (Option Bytes)) : Bytes :=
  let present := (fields.zipIdx 1).filterMap fun f => f.1.map fun v => (f.2, v)
  ((present.zip (0 :: present.map Prod.fst)).flatMap fun f => uint (f.1.1 - f.2) ++ f.1.2) ++ uint 0

/-- a field of type `int` -/
def field (i : Int) : Option Bytes := if i = 0 then none else some (int i)

/-- A message is its length, a type number and a value. -/
def message (id : Int) (value : Bytes) : Bytes := uint (int id ++ value).length ++ (int id ++ value)

/-- The definition of a struct type is a message with the negated number and a `wireType`, whose third field is a `structType`: the
name and number of the type, then the names and types of the fields. -/
def structType (id : Nat) (name : String) (fields : List (String × Nat)) : Bytes :=
  message (-id) (struct [none, none, some (struct
    [some (struct [some (text name), some (int id)]),
      some (slice (fields.map fun f => struct [some (text f.1), some (int f.2)]))])])

/-- the number of the built-in type `int` -/
def intType : Nat := 2

end ZkSetup.Gob.Format
