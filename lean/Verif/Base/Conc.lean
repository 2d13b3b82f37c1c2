/-
Goroutines. A concurrent program is built from atomic steps with sequencing and fork/join
(`go f(); g(); wait`). Its meaning is the set of all interleavings of its steps (`Lin`).
-/
namespace ZkSetup

/-- Concurrent programs over shared memory `σ`. -/
inductive Conc (σ : Type) where
  | skip
  | step (f : σ → σ)
  | seq (p q : Conc σ)
  | par (p q : Conc σ)

/-- `Shuffle a b c`: `c` is an interleaving of `a` and `b`. -/
inductive Shuffle {α : Type} : List α → List α → List α → Prop where
  | nil : Shuffle [] [] []
  | left {x a b c} : Shuffle a b c → Shuffle (x :: a) b (x :: c)
  | right {x a b c} : Shuffle a b c → Shuffle a (x :: b) (x :: c)

namespace Conc
variable {σ : Type}

/-- `Lin p tr`: the program `p` can execute its steps in the order `tr`. -/
inductive Lin : Conc σ → List (σ → σ) → Prop where
  | skip : Lin .skip []
  | step (f) : Lin (.step f) [f]
  | seq {p q a b} : Lin p a → Lin q b → Lin (.seq p q) (a ++ b)
  | par {p q a b c} : Lin p a → Lin q b → Shuffle a b c → Lin (.par p q) c

/-- execute a trace of steps -/
def exec (tr : List (σ → σ)) (s : σ) : σ := tr.foldl (fun s f => f s) s

/-- `p` started in `s` can end in `s'` -/
def Reaches (p : Conc σ) (s s' : σ) : Prop := ∃ tr, Lin p tr ∧ exec tr s = s'

/-- sequential reference execution: forked code runs first -/
def run : Conc σ → σ → σ
  | .skip, s => s
  | .step f, s => f s
  | .seq p q, s => q.run (p.run s)
  | .par p q, s => q.run (p.run s)

/-- all steps of a program -/
def steps : Conc σ → List (σ → σ)
  | .skip => []
  | .step f => [f]
  | .seq p q => p.steps ++ q.steps
  | .par p q => p.steps ++ q.steps

/-- the steps of any two concurrent parts commute -/
def Indep : Conc σ → Prop
  | .skip => True
  | .step _ => True
  | .seq p q => p.Indep ∧ q.Indep
  | .par p q => p.Indep ∧ q.Indep ∧ ∀ f ∈ p.steps, ∀ g ∈ q.steps, ∀ s, f (g s) = g (f s)

/-- sequential composition of a list of programs (a loop) -/
def seqs : List (Conc σ) → Conc σ
  | [] => .skip
  | p :: ps => .seq p (seqs ps)

/-- fork all, then wait for all -/
def pars : List (Conc σ) → Conc σ
  | [] => .skip
  | p :: ps => .par p (pars ps)

/-- A scheduler picks one interleaving of each program. Theorems quantify over all schedulers. -/
structure Sched where
  pick : {σ : Type} → Conc σ → List (σ → σ)
  valid : ∀ {σ : Type} (p : Conc σ), Lin p (pick p)

theorem Shuffle.of_append {α : Type} (a b : List α) : Shuffle a b (a ++ b) := by
  induction a with
  | nil =>
    induction b with
    | nil => exact .nil
    | cons x b ih => exact .right ih
  | cons x a ih => exact .left ih

theorem lin_steps (p : Conc σ) : Lin p p.steps := by
  induction p with
  | skip => exact .skip
  | step f => exact .step f
  | seq p q hp hq => exact .seq hp hq
  | par p q hp hq => exact .par hp hq (Shuffle.of_append _ _)

/-- a scheduler exists: run forks first -/
def Sched.sequential : Sched := ⟨fun p => p.steps, fun p => lin_steps p⟩

theorem exec_append (a b : List (σ → σ)) (s : σ) : exec (a ++ b) s = exec b (exec a s) := by
  simp [exec]

theorem exec_steps (p : Conc σ) (s : σ) : exec p.steps s = p.run s := by
  induction p generalizing s with
  | skip => rfl
  | step f => rfl
  | seq p q hp hq => simp [steps, run, exec_append, hp, hq]
  | par p q hp hq => simp [steps, run, exec_append, hp, hq]

theorem lin_mem {p : Conc σ} {tr} (h : Lin p tr) : ∀ f ∈ tr, f ∈ p.steps := by
  have hsh : ∀ {a b c : List (σ → σ)}, Shuffle a b c → ∀ f ∈ c, f ∈ a ∨ f ∈ b := by
    intro a b c h
    induction h with
    | nil => simp
    | left _ ih =>
      intro f hf
      simp only [List.mem_cons] at hf ⊢
      rcases hf with hf | hf
      · exact .inl (.inl hf)
      · rcases ih f hf with h | h
        · exact .inl (.inr h)
        · exact .inr h
    | right _ ih =>
      intro f hf
      simp only [List.mem_cons] at hf ⊢
      rcases hf with hf | hf
      · exact .inr (.inl hf)
      · rcases ih f hf with h | h
        · exact .inl h
        · exact .inr (.inr h)
  induction h with
  | skip => simp
  | step f => simp [steps]
  | seq _ _ h1 h2 =>
    intro f hf
    simp only [List.mem_append, steps] at *
    exact hf.elim (fun h => .inl (h1 f h)) (fun h => .inr (h2 f h))
  | par _ _ hs h1 h2 =>
    intro f hf
    simp only [List.mem_append, steps] at *
    exact (hsh hs f hf).elim (fun h => .inl (h1 f h)) (fun h => .inr (h2 f h))

theorem exec_comm (a : List (σ → σ)) (g : σ → σ) (h : ∀ f ∈ a, ∀ s, f (g s) = g (f s)) (s : σ) :
    exec a (g s) = g (exec a s) := by
  induction a generalizing s with
  | nil => rfl
  | cons f a ih =>
    have h1 : exec (f :: a) (g s) = exec a (f (g s)) := rfl
    have h2 : exec (f :: a) s = exec a (f s) := rfl
    rw [h1, h2, h f (by simp) s, ih (fun f' hf' => h f' (by simp [hf']))]

theorem exec_shuffle {a b c : List (σ → σ)} (hs : Shuffle a b c)
    (h : ∀ f ∈ a, ∀ g ∈ b, ∀ s, f (g s) = g (f s)) (s : σ) :
    exec c s = exec b (exec a s) := by
  induction hs generalizing s with
  | nil => rfl
  | @left x a b c _ ih =>
    show exec c (x s) = exec b (exec a (x s))
    exact ih (fun f hf => h f (by simp [hf])) (x s)
  | @right x a b c _ ih =>
    show exec c (x s) = exec b (x (exec a s))
    rw [ih (fun f hf g hg => h f hf g (by simp [hg])) (x s),
      exec_comm a x (fun f hf => h f hf x (by simp))]

/-- Independent concurrent parts: every interleaving has the same result. -/
theorem exec_lin {p : Conc σ} {tr} (hl : Lin p tr) (hi : p.Indep) (s : σ) :
    exec tr s = p.run s := by
  induction hl generalizing s with
  | skip => rfl
  | step f => rfl
  | seq _ _ h1 h2 => simp only [exec_append, run, h1 hi.1, h2 hi.2]
  | par l1 l2 hs h1 h2 =>
    obtain ⟨i1, i2, hc⟩ := hi
    rw [exec_shuffle hs (fun f hf g hg => hc f (lin_mem l1 f hf) g (lin_mem l2 g hg)),
      h1 i1, h2 i2]
    rfl

/-- run a program under a scheduler -/
def Sched.exec (sc : Sched) (p : Conc σ) (s : σ) : σ := Conc.exec (sc.pick p) s

theorem Sched.exec_eq (sc : Sched) (p : Conc σ) (hi : p.Indep) (s : σ) : sc.exec p s = p.run s :=
  exec_lin (sc.valid p) hi s

theorem mem_steps_seqs {ps : List (Conc σ)} {f} : f ∈ (seqs ps).steps ↔ ∃ p ∈ ps, f ∈ p.steps := by
  induction ps with
  | nil => simp [seqs, steps]
  | cons p ps ih => simp [seqs, steps, ih]

theorem mem_steps_pars {ps : List (Conc σ)} {f} : f ∈ (pars ps).steps ↔ ∃ p ∈ ps, f ∈ p.steps := by
  induction ps with
  | nil => simp [pars, steps]
  | cons p ps ih => simp [pars, steps, ih]

theorem run_seqs (ps : List (Conc σ)) (s : σ) :
    (seqs ps).run s = ps.foldl (fun s p => p.run s) s := by
  induction ps generalizing s with
  | nil => rfl
  | cons p ps ih => simp [seqs, run, ih]

theorem run_pars (ps : List (Conc σ)) (s : σ) :
    (pars ps).run s = ps.foldl (fun s p => p.run s) s := by
  induction ps generalizing s with
  | nil => rfl
  | cons p ps ih => simp [pars, run, ih]

theorem indep_seqs {ps : List (Conc σ)} (h : ∀ p ∈ ps, p.Indep) : (seqs ps).Indep := by
  induction ps with
  | nil => trivial
  | cons p ps ih => exact ⟨h p (by simp), ih fun q hq => h q (by simp [hq])⟩

/-- fork-all is independent if the forked programs are pairwise independent -/
theorem indep_pars {ps : List (Conc σ)} (h : ∀ p ∈ ps, p.Indep)
    (hp : ps.Pairwise fun p q => ∀ f ∈ p.steps, ∀ g ∈ q.steps, ∀ s, f (g s) = g (f s)) :
    (pars ps).Indep := by
  induction ps with
  | nil => trivial
  | cons p ps ih =>
    rw [List.pairwise_cons] at hp
    refine ⟨h p (by simp), ih (fun q hq => h q (by simp [hq])) hp.2, ?_⟩
    intro f hf g hg
    obtain ⟨q, hq, hgq⟩ := mem_steps_pars.mp hg
    exact hp.1 q hq f hf g hgq

end Conc

/-! ### Memory footprints on slices -/

/-- `f` only reads and writes the elements of a slice whose index satisfies `S`, and keeps the length. -/
structure Acts {G : Type} (S : Nat → Prop) (f : List G → List G) : Prop where
  len : ∀ s, (f s).length = s.length
  out : ∀ s i, ¬ S i → (f s)[i]? = s[i]?
  loc : ∀ s t : List G, s.length = t.length → (∀ i, S i → s[i]? = t[i]?) →
    ∀ i, S i → (f s)[i]? = (f t)[i]?

/-- Steps with disjoint footprints commute. -/
theorem Acts.comm {G : Type} {S T : Nat → Prop} {f g : List G → List G} (hf : Acts S f) (hg : Acts T g)
    (hd : ∀ i, S i → ¬ T i) (s : List G) : f (g s) = g (f s) := by
  apply List.ext_getElem?
  intro i
  by_cases hS : S i
  · rw [hg.out (f s) i (hd i hS)]
    exact hf.loc _ _ (hg.len s) (fun j hj => hg.out s j (hd j hj)) i hS
  · rw [hf.out (g s) i hS]
    by_cases hT : T i
    · exact (hg.loc _ _ (hf.len s) (fun j hj => hf.out s j (fun h => hd j h hj)) i hT).symm
    · rw [hg.out _ i hT, hg.out _ i hT, hf.out _ i hS]

end ZkSetup
