import Verif.Spec.Cli
/-
The command lines that the documentation gives.
-/
namespace ZkSetup

/-- the commands with the number of their arguments, from the usage texts in `/repo/main.go` -/
def usage : List (String × Nat) :=
  [("p1n", 2), ("p1c", 2), ("p1v", 1), ("p1t", 4), ("p1vt", 2), ("p2n", 3), ("p2np", 6), ("p2c", 2), ("p2v", 2), ("key", 1), ("keys", 2),
    ("sol", 1)]

/-- the commands with the number of their arguments, from `/repo/README.md` -/
def readme : List (String × Nat) :=
  [("p1n", 2), ("p1c", 2), ("p1v", 1), ("p2n", 3), ("p2np", 6), ("p2c", 2), ("p2v", 2), ("keys", 1)]

/-- the answer to a wrong number of arguments, `/repo/actions.go` -/
def Refused (r : Except Fail Unit) : Prop := r = .error (.err "please provide the correct arguments")

end ZkSetup
