import Verif.Base.Go
/-
What it means for a command to crash.
-/
namespace ZkSetup

/-- the call ended in a run-time panic (as opposed to a returned error) -/
def Panics {α : Type} (r : Except Fail α) : Prop := ∃ m, r = .error (.panic m)

end ZkSetup
