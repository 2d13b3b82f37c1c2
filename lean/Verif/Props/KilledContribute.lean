import Verif.Props.Rerun
import Verif.Props.OneRun
import Verif.Props.Continue
/-
C97: a contribution that was interrupted is not taken for a finished one.
-/
set_option linter.unusedSectionVars false

namespace ZkSetup

open Phase2 Cli Keys Proofs

section
variable {F G1 G2 GT : Type} [Field F] [AddCommGroup G1] [Module F G1] [AddCommGroup G2]
  [Module F G2] [AddCommGroup GT] [Module F GT] [DecidableEq G1] [DecidableEq G2] [DecidableEq GT]
variable {C : Curve F G1 G2 GT}

/-- what an interrupted `p2c` leaves of its output, once that has been created -/
theorem C97_left (hC : C.Lawful) (E : Env F G1) (hH : E.init.header.Lawful) (hB : 0 < E.batch) (d : Draws F) (f : P2File G1 G2) (hf : f.WF)
    (hs : f.NoStraddle E.init.header) (junk : Bytes) (fs : FS) (inp out : String) (hne : inp ≠ out)
    (hi : fs inp = some (f.encode C E.init.header ++ junk)) (s : Stop) (h1 : s.files = 1) :
    execKilled C s E d "p2c" [inp, out] fs
      = (.error killed, fs.set out (((f.contribute C d.contribute2).encode C E.init.header).take (s.len out))) := by
  change p2cKilled C s E d.par d.contribute2 [inp, out] fs = _
  have hc := contribute2_spec hC hH d.par E.batch hB d.contribute2 f hf hs junk
  simp [p2cKilled, p2c, arg, openFile, hi, contentsAfterCreate, hne, hc, Stop.during, h1, old, FS.set]

/-- **C97** (partial) `p2c` on the output of an interrupted `p2c`: refused exactly if 32 or more bytes are missing. The output is another file.
Missing for the full C97: up to 31 missing bytes, which are not noticed. -/
theorem C97_p2c_partial (hC : C.Lawful) (E : Env F G1) (hH : E.init.header.Lawful) (hB : 0 < E.batch) (d d' : Draws F) (f : P2File G1 G2) (hf : f.WF)
    (hs : f.NoStraddle E.init.header) (hcnt : f.records.length + 1 < 2 ^ 63 - 1)
    (hs' : (f.contribute C d.contribute2).NoStraddle E.init.header)
    (hlen : ((f.contribute C d.contribute2).encode C E.init.header).length < 2 ^ 63)
    (junk : Bytes) (fs : FS) (inp out dst : String) (hne : inp ≠ out) (hdst : out ≠ dst)
    (hi : fs inp = some (f.encode C E.init.header ++ junk)) (s : Stop) (h1 : s.files = 1)
    (hcut : s.len out < ((f.contribute C d.contribute2).encode C E.init.header).length) :
    (exec C E d' "p2c" [out, dst] (execKilled C s E d "p2c" [inp, out] fs).2).1 = .ok () ↔
      ((f.contribute C d.contribute2).encode C E.init.header).length - s.len out < 32 := by
  rw [C97_left hC E hH hB d f hf hs junk fs inp out hne hi s h1]
  have hx := C81_p2_exact_partial hC hH d'.par E.batch hB d'.contribute2 _ (contribute2_wf hC f hf d.contribute2 hcnt) hs' hlen _ hcut
  have hrec : (f.contribute C d.contribute2).records ≠ [] := by simp [P2File.contribute]
  simp only [hrec, ne_eq, not_false_eq_true, true_and] at hx
  rw [← hx]
  change (p2c C E d'.par d'.contribute2 [out, dst] _).1 = .ok () ↔ _
  simp only [p2c, arg, List.length_cons, List.length_nil, ne_eq, List.getD_cons_succ, List.getD_cons_zero, openFile, FS.set, contentsAfterCreate, hdst]
  simp only [Nat.zero_add, Nat.reduceAdd, not_true_eq_false, if_false, if_true]
  rcases Phase2.contribute C E.init.header d'.par E.batch d'.contribute2 _ with ⟨_ | hash, o⟩
  · simp [Except.map]
  · simp [Except.map]

/-- **C97** (partial) `key` on the output of an interrupted `p2c`: refused exactly if a parameter is missing. Otherwise the keys are those of
the finished contribution, though its record is missing, in part or altogether. -/
theorem C97_key_partial (hC : C.Lawful) (E : Env F G1) (hH : E.init.header.Lawful) (hK : E.keys.header = E.init.header) (hB : 0 < E.batch)
    (d : Draws F) (f : P2File G1 G2) (hf : f.WF) (hs : f.NoStraddle E.init.header) (hcnt : f.records.length + 1 < 2 ^ 63 - 1)
    (hd : f.domain ≤ 2 ^ 28) (v : Evals G1 G2) (hw : f.wires < 2 ^ 32) (ha : v.a.length = f.wires) (hb1 : v.b1.length = f.wires)
    (hb2 : v.b2.length = f.wires) (hv : v.vkk.length < 2 ^ 32) (hc : v.ckk.length < 2 ^ 32) (ck : Bytes)
    (hck : E.keys.commitmentKey v.ckk = .ok ck) (junk : Bytes) (fs : FS) (inp out : String) (hne : inp ≠ out) (hev : out ≠ "evals")
    (hi : fs inp = some (f.encode C E.init.header ++ junk)) (he : fs "evals" = some (v.encode C)) (s : Stop) (h1 : s.files = 1) :
    let g := f.contribute C d.contribute2
    let later := (execKilled C s E d "p2c" [inp, out] fs).2
    later out = some ((g.encode C E.init.header).take (s.len out)) ∧ later "evals" = some (v.encode C) ∧
    ((extractKeys C E.keys (old later out) (old later "evals")).1 = .ok () ↔
      (E.init.header.enc g.header).length + (g.params C).length ≤ s.len out) ∧
    ((E.init.header.enc g.header).length + (g.params C).length ≤ s.len out →
      extractKeys C E.keys (old later out) (old later "evals") = extractKeys C E.keys (g.encode C E.init.header) (v.encode C)) := by
  intro g later
  have hl : later = fs.set out ((g.encode C E.init.header).take (s.len out)) :=
    congrArg Prod.snd (C97_left hC E hH hB d f hf hs junk fs inp out hne hi s h1)
  have e1 : later out = some ((g.encode C E.init.header).take (s.len out)) := by simp [hl, FS.set]
  have e2 : later "evals" = some (v.encode C) := by rw [hl, set_other _ _ (Ne.symm hev), he]
  have hx := C83_cut_ph2 hC E.keys (hK ▸ hH) g (contribute2_wf hC f hf d.contribute2 hcnt) hd v hw ha hb1 hb2 hv hc ck hck (s.len out)
  rw [hK] at hx
  refine ⟨e1, e2, ?_⟩
  simp only [old, e1, e2, Option.getD_some]
  exact hx

/-- **C97** (partial) `p1c` on the output of an interrupted `p1c`: refused exactly if 32 or more bytes are missing. -/
theorem C97_p1c_partial (hC : C.Lawful) (E : Env F G1) (hB : 2 ≤ E.batch) (d d' : Draws F) (f : P1File G1 G2) (hf : f.WF) (hr : f.Regular)
    (hp : 1 ≤ f.power.toNat) (hcnt : f.records.length < 65535) (junk : Bytes) (fs : FS) (inp out dst : String) (hne : inp ≠ out) (hdst : out ≠ dst)
    (hi : fs inp = some (f.encode C ++ junk)) (s : Stop) (h1 : s.files = 1)
    (hcut : s.len out < ((f.contribute C d.contribute1).encode C).length) :
    (exec C E d' "p1c" [out, dst] (execKilled C s E d "p1c" [inp, out] fs).2).1 = .ok () ↔
      ((f.contribute C d.contribute1).encode C).length - s.len out < 32 := by
  have hl : execKilled C s E d "p1c" [inp, out] fs
      = (.error killed, fs.set out (((f.contribute C d.contribute1).encode C).take (s.len out))) := by
    change p1cKilled C s E.batch d.par d.contribute1 [inp, out] fs = _
    have hc := contribute_regular hC d.par E.batch hB d.contribute1 f hf hr hp hcnt junk
    simp [p1cKilled, p1c, arg, openFile, hi, contentsAfterCreate, hne, hc, Stop.during, h1, old, FS.set]
  rw [hl]
  have hx := C81_p1_exact_partial hC d'.par E.batch hB d'.contribute1 _ (hf.contribute hC d.contribute1 hcnt) hp _ hcut
  have hrec : (f.contribute C d.contribute1).records ≠ [] := by simp [P1File.contribute, P1File.update]
  simp only [hrec, ne_eq, not_false_eq_true, true_and] at hx
  rw [← hx]
  change (p1c C E.batch d'.par d'.contribute1 [out, dst] _).1 = .ok () ↔ _
  simp only [p1c, arg, List.length_cons, List.length_nil, ne_eq, List.getD_cons_succ, List.getD_cons_zero, openFile, FS.set, contentsAfterCreate, hdst]
  simp only [Nat.zero_add, Nat.reduceAdd, not_true_eq_false, if_false, if_true]
  rcases Phase1.contribute C d'.par E.batch d'.contribute1 _ with ⟨_ | hash, o⟩
  · simp [Except.map]
  · simp [Except.map]

end

/-! ### cases -/

namespace Toy

/-- an output of which `n` bytes have been written -/
def written (n : Nat) : Stop := ⟨1, fun _ => n, false, 0, 0⟩

/-- the toy files after `p2c ph2 next`, killed after `n` bytes -/
def nextCut (n : Nat) : Except Fail Unit × FS := execKilled curve (written n) cliEnv draws "p2c" ["ph2", "next"] done

/-- the phase 2 file of a ceremony with its evaluation file -/
def ceremonyFiles : FS := fun p =>
  if p = "ph2" then some (p2final.encode curve cliEnv.init.header ++ [5]) else if p = "evals" then some (evals5.encode curve) else none

end Toy

/-- **C97** is false: `key` and `keys` take the file of a `p2c` that was killed before it wrote its record. The key is another one than before the
contribution, and `p2v` refuses the file. And `p2c` takes a file that lacks 31 bytes; what it writes is refused by `p2v`. -/
theorem C97_false :
    (Toy.isOk (Toy.nextCut 392) = false ∧ Toy.isOk (exec Toy.curve Toy.cliEnv Toy.draws "key" ["next"] (Toy.nextCut 392).2) = true ∧
      (exec Toy.curve Toy.cliEnv Toy.draws "key" ["next"] (Toy.nextCut 392).2).2 "pk" ≠ Toy.done "pk" ∧
      Toy.isOk (exec Toy.curve Toy.cliEnv Toy.draws "keys" ["next", "s"] (Toy.nextCut 392).2) = true ∧
      Toy.isOk (exec Toy.curve Toy.cliEnv Toy.draws "p2v" ["next", "ph2"] (Toy.nextCut 392).2) = false) ∧
    (Toy.isOk (Toy.nextCut 553) = false ∧ Toy.isOk (exec Toy.curve Toy.cliEnv Toy.draws "p2c" ["next", "last"] (Toy.nextCut 553).2) = true ∧
      Toy.isOk (exec Toy.curve Toy.cliEnv Toy.draws "p2v" ["last", "ph2"]
        (exec Toy.curve Toy.cliEnv Toy.draws "p2c" ["next", "last"] (Toy.nextCut 553).2).2) = false) := by
  decide +kernel

-- the finished contribution is accepted
example : Toy.isOk (exec Toy.curve Toy.cliEnv Toy.draws "p2v" ["next", "ph2"]
    (exec Toy.curve Toy.cliEnv Toy.draws "p2c" ["ph2", "next"] Toy.done).2) = true := by decide +kernel

/-- the length of the next file of the ceremony -/
theorem Toy.next_facts : ((Toy.p2final.contribute Toy.curve Toy.draws.contribute2).encode Toy.curve Toy.cliEnv.init.header).length < 10000 ∧
    (Toy.written 100).len "next" < ((Toy.p2final.contribute Toy.curve Toy.draws.contribute2).encode Toy.curve Toy.cliEnv.init.header).length ∧
    Toy.p2final.records.length < 10 := by decide +kernel

theorem Toy.next_noStraddle : (Toy.p2final.contribute Toy.curve Toy.draws.contribute2).NoStraddle Toy.cliEnv.init.header := by
  unfold P2File.NoStraddle
  decide +kernel

theorem Toy.ceremony_ph2 : Toy.ceremonyFiles "ph2" = some (Toy.p2final.encode Toy.curve Toy.cliEnv.init.header ++ [5]) := if_pos rfl

example (d' : Draws Toy.K) := C97_p2c_partial Toy.lawful Toy.cliEnv Gob.lawful (by decide) Toy.draws d' Toy.p2final Toy.p2final_wf
  Toy.p2final_noStraddle (Nat.lt_of_lt_of_le (Nat.succ_lt_succ Toy.next_facts.2.2) (by decide)) Toy.next_noStraddle
  (Nat.lt_of_lt_of_le Toy.next_facts.1 (by decide)) [5] Toy.ceremonyFiles "ph2" "next" "last" (by decide) (by decide) Toy.ceremony_ph2
  (Toy.written 100) rfl Toy.next_facts.2.1

example (n : Nat) := C97_key_partial Toy.lawful Toy.cliEnv Gob.lawful rfl (by decide) Toy.draws Toy.p2final Toy.p2final_wf Toy.p2final_noStraddle
  (Nat.lt_of_lt_of_le (Nat.succ_lt_succ Toy.next_facts.2.2) (by decide)) (by decide +kernel) Toy.evals5 (by decide +kernel)
  (by decide +kernel) (by decide +kernel) (by decide +kernel) (by decide) (by decide) [0] rfl [5] Toy.ceremonyFiles "ph2" "next" (by decide)
  (by decide) rfl rfl (Toy.written n) rfl

example (d' : Draws Toy.K) (n : Nat) (fs : FS) (hi : fs "srs" = some (Toy.honest.encode Toy.curve ++ [5])) :=
  C97_p1c_partial Toy.lawful Toy.cliEnv (by decide) Toy.draws d' Toy.honest Toy.honest_wf Toy.honest_regular (by decide +kernel)
    (by decide +kernel) [5] fs "srs" "next" "last" (by decide) (by decide) hi (Toy.written n) rfl

end ZkSetup
