/-
Go control flow as a pure program: a computation over mutable state `σ` either returns a value,
returns an error (`if err != nil { return err }`) or panics. State changes made before a failure
survive it, because Go code can ignore an error and carry on with the same reader
(`/repo/phase1/phase1.go:333` does).
-/
namespace ZkSetup

/-- Bytes of a file or stream. -/
abbrev Bytes := List UInt8

/-- How a Go call can fail: a returned `error`, or a run-time panic. -/
inductive Fail where
  | err (msg : String)
  | panic (msg : String)
  deriving DecidableEq, Repr

/-- A Go computation over mutable state. -/
structure Go (σ α : Type) where
  run : σ → Except Fail α × σ

namespace Go
variable {σ α β : Type}

def ret (a : α) : Go σ α := ⟨fun s => (.ok a, s)⟩

def andThen (x : Go σ α) (f : α → Go σ β) : Go σ β := ⟨fun s =>
  match x.run s with
  | (.ok a, s') => (f a).run s'
  | (.error e, s') => (.error e, s')⟩

instance : Monad (Go σ) where
  pure := ret
  bind := andThen

/-- `return err` / `panic(...)`. -/
def fail (e : Fail) : Go σ α := ⟨fun s => (.error e, s)⟩

/-- Lift a result that does not touch the state. -/
def lift (r : Except Fail α) : Go σ α := ⟨fun s => (r, s)⟩

@[simp] theorem pure_run (a : α) (s : σ) : (pure a : Go σ α).run s = (.ok a, s) := rfl
@[simp] theorem fail_run (e : Fail) (s : σ) : (fail e : Go σ α).run s = (.error e, s) := rfl
@[simp] theorem lift_run (r : Except Fail α) (s : σ) : (lift r : Go σ α).run s = (r, s) := rfl

theorem bind_run (x : Go σ α) (f : α → Go σ β) (s : σ) :
    (x >>= f).run s = match x.run s with
      | (.ok a, s') => (f a).run s'
      | (.error e, s') => (.error e, s') := rfl

theorem bind_ok {x : Go σ α} {f : α → Go σ β} {s s' : σ} {a : α} (h : x.run s = (.ok a, s')) :
    (x >>= f).run s = (f a).run s' := by rw [bind_run, h]

theorem bind_error {x : Go σ α} {f : α → Go σ β} {s s' : σ} {e : Fail}
    (h : x.run s = (.error e, s')) : (x >>= f).run s = (.error e, s') := by rw [bind_run, h]

/-- If a sequence succeeds, its first part succeeded. -/
theorem bind_eq_ok {x : Go σ α} {f : α → Go σ β} {s s'' : σ} {b : β}
    (h : (x >>= f).run s = (.ok b, s'')) :
    ∃ a s', x.run s = (.ok a, s') ∧ (f a).run s' = (.ok b, s'') := by
  rw [bind_run] at h
  cases hx : x.run s with
  | mk r s' =>
    cases r with
    | ok a => rw [hx] at h; exact ⟨a, s', rfl, h⟩
    | error e => rw [hx] at h; simp at h

end Go
end ZkSetup
