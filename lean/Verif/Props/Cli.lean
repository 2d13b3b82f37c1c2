import Verif.Proofs.Cli
import Verif.Props.Phase1
import Verif.Props.Keys
/-
Properties of the commands: C19, C45, C46.
-/
set_option linter.unusedSectionVars false

namespace ZkSetup

open Cli Phase2 Keys
open Phase1 (goPow2 wrap64 batchSize)

/-! ### C19: `p1n` -/

section
variable {F G1 G2 GT : Type} [Field F] [AddCommGroup G1] [Module F G1] [AddCommGroup G2]
  [Module F G2] [AddCommGroup GT] [Module F GT] [DecidableEq G1] [DecidableEq G2] [DecidableEq GT]
variable {C : Curve F G1 G2 GT}

theorem toByte_nat (n : Nat) (h : n < 256) : (toByte (n : Int)).toNat = n := by
  unfold toByte
  rw [show ((n : Int) % 256).toNat = n by omega]
  simp
  omega

theorem toByte_toNat (i : Int) : ((toByte i).toNat : Int) = i % 256 := by
  unfold toByte
  simp
  omega

/-- `p1n` on a number in range -/
theorem p1n_run (s out : String) (i : Int) (h : Denotes s i) (h1 : -(2 ^ 63) ≤ i) (h2 : i ≤ 26) (fs : FS) :
    p1n C [s, out] fs = (.ok (), fs.set out (Phase1.initializeFile C (toByte i))) := by
  have hs := (atoi_iff s i).mpr ⟨h, h1, by omega⟩
  unfold p1n
  simp only [List.length_cons, List.length_nil, Nat.zero_add, ne_eq, arg, List.getD_cons_zero, hs, List.getD_cons_succ]
  rw [if_neg (by simp), if_neg (by omega)]

/-- **C19**, for arguments that are not negative numbers: `p1n` creates a file exactly if it has two arguments of which the first is
a number from 0 to 26; the file is the initial file of that power, which is its first byte. In all other cases it fails and creates
nothing. -/
theorem C19_p1n_partial (hC : C.Lawful) (args : List String) (fs : FS) (hneg : ∀ s i, args.head? = some s → Denotes s i → 0 ≤ i) :
    (∃ (s out : String) (n : Nat), args = [s, out] ∧ Denotes s n ∧ n ≤ 26 ∧ (UInt8.ofNat n).toNat = n ∧
      p1n C args fs = (.ok (), fs.set out ((P1File.init C (UInt8.ofNat n)).encode C)) ∧
      ((P1File.init C (UInt8.ofNat n)).encode C).head? = some (UInt8.ofNat n)) ∨
    ((¬ ∃ (s out : String) (n : Nat), args = [s, out] ∧ Denotes s n ∧ n ≤ 26) ∧ ∃ m, p1n C args fs = (.error (.err m), fs)) := by
  by_cases hl : args.length = 2
  · obtain ⟨s, out, rfl⟩ := length_two hl
    by_cases hd : ∃ i, Denotes s i ∧ i < 2 ^ 63
    · obtain ⟨i, hi, hi63⟩ := hd
      have h0 := hneg s i rfl hi
      obtain ⟨n, rfl⟩ : ∃ n : Nat, i = n := ⟨i.toNat, by omega⟩
      have hat := (atoi_iff s n).mpr ⟨hi, by omega, hi63⟩
      by_cases hn : n ≤ 26
      · left
        have h256 : (UInt8.ofNat n).toNat = n := by simp; omega
        have hp : (UInt8.ofNat n).toNat ≤ 62 := by omega
        refine ⟨s, out, n, rfl, hi, hn, h256, ?_, rfl⟩
        rw [p1n_run s out n hi (by omega) (by omega)]
        have hb : toByte (n : Int) = UInt8.ofNat n := by
          unfold toByte
          rw [show ((n : Int) % 256).toNat = n by omega]
        rw [hb, C05_initialize_encode hC (UInt8.ofNat n) hp]
      · right
        refine ⟨?_, ?_⟩
        · rintro ⟨s', out', n', h1, h2, h3⟩
          simp only [List.cons.injEq, and_true] at h1
          obtain ⟨rfl, rfl⟩ := h1
          have := (atoi_iff s n').mpr ⟨h2, by omega, by omega⟩
          rw [hat] at this
          simp only [Except.ok.injEq, Nat.cast_inj] at this
          omega
        · refine ⟨"can't support powers larger than 26", ?_⟩
          unfold p1n
          simp only [List.length_cons, List.length_nil, Nat.zero_add, ne_eq, arg, List.getD_cons_zero, hat]
          rw [if_neg (by simp), if_pos (by omega)]
    · right
      refine ⟨?_, ?_⟩
      · rintro ⟨s', out', n', h1, h2, h3⟩
        simp only [List.cons.injEq, and_true] at h1
        obtain ⟨rfl, rfl⟩ := h1
        exact hd ⟨n', h2, by omega⟩
      · obtain ⟨m, hm⟩ := atoi_error (s := s) fun i h1 _ h3 => hd ⟨i, h1, h3⟩
        refine ⟨m, ?_⟩
        unfold p1n
        simp only [List.length_cons, List.length_nil, Nat.zero_add, ne_eq, arg, List.getD_cons_zero, hm]
        rw [if_neg (by simp)]
  · right
    refine ⟨?_, _, by unfold p1n badArgs; rw [if_pos hl]⟩
    rintro ⟨s', out', n', rfl, -⟩
    exact hl rfl

/-- **C19** is false: every negative argument (down to `-2^63`) is accepted. The power written is the argument modulo 256. -/
theorem C19_negative_accepted (s out : String) (i : Int) (h : Denotes s i) (h1 : -(2 ^ 63) ≤ i) (h2 : i < 0) (fs : FS) :
    ∃ bs : Bytes, p1n C [s, out] fs = (.ok (), fs.set out bs) ∧ ∃ p : UInt8, bs.head? = some p ∧ (p.toNat : Int) = i % 256 ∧
      (p.toNat : Int) ≠ i ∧ (62 < p.toNat → bs = [p, 0, 0] ++ C.c2.bytes C.g2) := by
  refine ⟨_, p1n_run s out i h h1 (by omega) fs, toByte i, rfl, toByte_toNat i, by rw [toByte_toNat]; omega, ?_⟩
  intro hp
  have hN : goPow2 (toByte i) = -(2 ^ 63) := by
    unfold goPow2
    rw [if_neg (by omega)]
  unfold Phase1.initializeFile
  simp only [hN]
  have h3 : (wrap64 (2 * -(2 ^ 63) - 1)).toNat = 0 := by decide
  have h4 : (-(2 ^ 63) : Int).toNat = 0 := by decide
  rw [h3, h4]
  simp only [Phase1.Header.writeTo, List.replicate_zero, Codec.encodeN, List.flatMap_nil, List.append_nil]
  rfl

/-! ### C45: which files a command changes -/

/-- **C45**, for every command of the tool: it changes no file except its outputs. -/
theorem C45_frame_partial (E : Env F G1) (d : Draws F) (command : String) (args : List String) (fs : FS) (q : String)
    (hq : q ∉ outputs command args) : (exec C E d command args fs).2 q = fs q := by
  unfold exec
  split
  · unfold p1n badArgs
    split
    · rfl
    · rename_i hl
      obtain ⟨a, b, rfl⟩ := length_two (not_not.mp hl)
      simp only [outputs, List.mem_singleton] at hq
      split
      · rfl
      · split
        · rfl
        · exact set_other _ _ hq
  · unfold p1c badArgs
    split
    · rfl
    · rename_i hl
      obtain ⟨a, b, rfl⟩ := length_two (not_not.mp hl)
      simp only [outputs, List.mem_singleton] at hq
      split
      · rfl
      · exact set_other _ _ hq
  · unfold p1v badArgs
    split <;> rfl
  · unfold p1t badArgs
    split
    · rfl
    · rename_i hl
      obtain ⟨a, b, c, d', rfl⟩ := length_four (not_not.mp hl)
      ·
        simp only [outputs, List.mem_singleton] at hq
        split
        · rfl
        · split
          · rfl
          · unfold p1tRun
            split
            · rfl
            · split
              · rfl
              · exact set_other _ _ hq
  · unfold p1vt badArgs
    split <;> rfl
  · unfold p2n badArgs
    split
    · rfl
    · rename_i hl
      obtain ⟨a, b, c, rfl⟩ := List.length_eq_three.mp (not_not.mp hl)
      ·
        simp only [outputs, List.mem_cons, List.not_mem_nil, or_false, not_or] at hq
        split
        · rfl
        · dsimp only
          split
          · exact set_other _ _ hq.1
          · unfold saveInit
            exact (set_other _ _ hq.2.2).trans ((set_other _ _ hq.2.1).trans (set_other _ _ hq.1))
  · unfold p2np badArgs
    split
    · rfl
    · rename_i hl
      obtain ⟨a, b, c, d', e, f, rfl⟩ := length_six (not_not.mp hl)
      ·
        simp only [outputs, List.mem_cons, List.not_mem_nil, or_false, not_or] at hq
        split
        · rfl
        · split
          · rfl
          · split
            · rfl
            · unfold p2npRun
              split
              · rfl
              · unfold saveInit
                exact (set_other _ _ hq.2.2).trans ((set_other _ _ hq.2.1).trans (set_other _ _ hq.1))
  · unfold p2c badArgs
    split
    · rfl
    · rename_i hl
      obtain ⟨a, b, rfl⟩ := length_two (not_not.mp hl)
      simp only [outputs, List.mem_singleton] at hq
      split
      · rfl
      · exact set_other _ _ hq
  · unfold p2v badArgs
    split <;> rfl
  · unfold key badArgs
    split
    · rfl
    · rename_i hl
      obtain ⟨a, rfl⟩ := List.length_eq_one_iff.mp (not_not.mp hl)
      ·
        simp only [outputs, List.mem_cons, List.not_mem_nil, or_false, not_or] at hq
        exact inOrder_frame (withFiles_frame fun _ _ => set_other _ _ hq.1) (withFiles_frame fun _ _ => set_other _ _ hq.2) fs
  · unfold Cli.keys badArgs
    split
    · rfl
    · rename_i hl
      obtain ⟨a, b, rfl⟩ := length_two (not_not.mp hl)
      simp only [outputs, List.map_cons, List.map_nil, List.mem_cons, List.not_mem_nil, or_false, not_or] at hq
      obtain ⟨h1, h2, h3, h4, h5, h6, h7, h8⟩ := hq
      refine inOrder_frame (withFiles_frame fun fs o => ?_) (withFiles_frame fun fs o => ?_) fs
      · unfold saveSplitPK
        simp only [arg, List.getD_cons_succ, List.getD_cons_zero]
        rw [set_other _ _ h6, set_other _ _ h5, set_other _ _ h4, set_other _ _ h3, set_other _ _ h2, set_other _ _ h1]
      · unfold saveSplitVK
        simp only [arg, List.getD_cons_succ, List.getD_cons_zero]
        cases o.commitmentKey with
        | some bs => exact (set_other _ _ h8).trans (set_other _ _ h7)
        | none => exact set_other _ _ h7
  · unfold sol badArgs
    split
    · rfl
    · rename_i hl
      obtain ⟨a, rfl⟩ := List.length_eq_one_iff.mp (not_not.mp hl)
      ·
        simp only [outputs, List.mem_singleton] at hq
        split
        · rfl
        · exact set_other _ _ hq
  · rfl

/-- **C45**, for the commands with an input and an output, if these are different: the input is unchanged. -/
theorem C45_input_unchanged_partial (E : Env F G1) (d : Draws F) (inp out r1cs a b : String) (fs : FS) (h : inp ≠ out)
    (h1 : inp ≠ "srs.lag") (h2 : inp ≠ "evals") :
    (exec C E d "p1c" [inp, out] fs).2 inp = fs inp ∧ (exec C E d "p2c" [inp, out] fs).2 inp = fs inp ∧
    (exec C E d "p1t" [inp, out, a, b] fs).2 inp = fs inp ∧ (exec C E d "p2n" [inp, r1cs, out] fs).2 inp = fs inp := by
  refine ⟨?_, ?_, ?_, ?_⟩ <;> apply C45_frame_partial <;> simp [outputs, h, h1, h2]

/-- **C45** is false for `p1c`: if input and output are the same path, then the file is destroyed (and the command fails). -/
theorem C45_p1c_same_path (E : Env F G1) (d : Draws F) (path : String) (fs : FS) (bs : Bytes) (hbs : fs path = some bs) :
    (∃ e, (exec C E d "p1c" [path, path] fs).1 = .error e) ∧ (exec C E d "p1c" [path, path] fs).2 path = some [] := by
  simp only [exec, p1c, openFile, arg, List.getD_cons_zero, List.getD_cons_succ, hbs, contentsAfterCreate, if_true]
  exact ⟨⟨_, rfl⟩, set_self _ _ _⟩

/-- **C45** is false for `p2c`: if input and output are the same path, then the file is destroyed (and the command fails).
Decoding an empty gob stream fails. -/
theorem C45_p2c_same_path (E : Env F G1) (hgob : ∃ e rd, E.init.header.dec.run (Rd.buffered 4096 []) = (.error e, rd))
    (d : Draws F) (path : String) (fs : FS) (bs : Bytes) (hbs : fs path = some bs) :
    (∃ e, (exec C E d "p2c" [path, path] fs).1 = .error e) ∧ (exec C E d "p2c" [path, path] fs).2 path = some [] := by
  obtain ⟨e, rd, he⟩ := hgob
  have hc : Phase2.contribute C E.init.header d.par E.batch d.contribute2 [] = (.error e, []) := by
    unfold Phase2.contribute Phase2.contributeBody
    have : (IOSt.onRd (Header.read E.init.header)).run ⟨Rd.buffered 4096 [], []⟩ = (.error e, ⟨rd, []⟩) := by
      unfold IOSt.onRd Header.read
      simp only [he]
    simp only [Go.bind_error this]
  simp only [exec, p2c, openFile, arg, List.getD_cons_zero, List.getD_cons_succ, hbs, contentsAfterCreate, if_true, hc]
  exact ⟨⟨_, rfl⟩, set_self _ _ _⟩

theorem decode_nil {G : Type} {c : Codec G} (hc : c.Lawful) (cap : Nat) :
    ∃ e rd, c.decode.run (Rd.buffered cap []) = (.error e, rd) := by
  have : (Rd.readFull c.size).run (Rd.buffered cap []) = (.error (.err "EOF"), (Rd.buffered cap []).adv 0) := by
    have := hc.size_pos
    unfold Rd.readFull
    simp only
    rw [if_neg (by simp [Rd.buffered]; omega)]
    rfl
  exact ⟨_, _, Go.bind_error this⟩

/-- **C45** is false for `p1t`: if input and output are the same path, then only a header is left of the file (and the command
fails), for all powers with which the command is used. -/
theorem C45_p1t_same_path (hC : C.Lawful) (E : Env F G1) (d : Draws F) (path a b : String) (i j : Int) (ha : Denotes a i)
    (hb : Denotes b j) (hj : 0 ≤ j) (hij : j ≤ i) (hi : i ≤ 62) (fs : FS) (bs : Bytes) (hbs : fs path = some bs) :
    (∃ e, (exec C E d "p1t" [path, path, a, b] fs).1 = .error e) ∧
      (exec C E d "p1t" [path, path, a, b] fs).2 path = some [UInt8.ofNat j.toNat, 0, 0] := by
  have h1 := (atoi_iff a i).mpr ⟨ha, by omega, by omega⟩
  have h2 := (atoi_iff b j).mpr ⟨hb, by omega, by omega⟩
  obtain ⟨n, rfl⟩ : ∃ n : Nat, j = n := ⟨j.toNat, by omega⟩
  have hbyte : toByte (n : Int) = UInt8.ofNat n := by
    unfold toByte
    rw [show ((n : Int) % 256).toNat = n by omega]
  have hp : (UInt8.ofNat n).toNat = n := by simp; omega
  have hpow : goPow2 (UInt8.ofNat n) = 2 ^ n := by
    unfold goPow2
    rw [hp, if_pos (by omega)]
  obtain ⟨m, hm⟩ : ∃ m, (wrap64 (2 * (2 ^ n : Int) - 1)).toNat = m + 1 := by
    have h63 : (2 : Int) ^ n ≤ 2 ^ 62 := pow_le_pow_right₀ (by omega) (by omega)
    have hpos : (0 : Int) < 2 ^ n := by positivity
    rw [wrap64_eq (by omega) (by omega)]
    exact ⟨(2 * (2 ^ n : Int) - 2).toNat, by omega⟩
  obtain ⟨e, rd, he⟩ : ∃ e rd, C.c1.decode.run (Rd.buffered 4096 []) = (.error e, rd) := decode_nil hC.codec1 4096
  have hpts : ∀ h : Bytes, h.length = 3 → Phase1.transformPoints C.c1 h 64 (m + 1) = (.error e, []) := by
    intro h hh
    unfold Phase1.transformPoints
    rw [if_neg (by omega), List.drop_eq_nil_of_le (by rw [hh]; decide), Phase1.transformPoints.loop, he]
  have ht : ∀ inp, Phase1.transform C inp (UInt8.ofNat n) (Phase1.Header.writeTo { power := UInt8.ofNat n, contributions := 0 })
      = (.error e, [UInt8.ofNat n, 0, 0]) := by
    intro inp
    unfold Phase1.transform
    simp only [hpow, hm, hpts (Phase1.Header.writeTo { power := UInt8.ofNat n, contributions := 0 }) rfl, List.append_nil]
    simp only [Phase1.Header.writeTo]
    rfl
  simp only [exec, p1t, p1tRun, openFile, arg, List.getD_cons_zero, List.getD_cons_succ, hbs, List.length_cons, List.length_nil, h1,
    h2, if_true, hbyte, ht]
  rw [if_neg (by simp), if_neg (by omega)]
  exact ⟨⟨_, rfl⟩, set_self _ _ _⟩

/-- **C45** is false for `p2n`: if the phase 1 file is also the output, then it is destroyed (and the command fails). -/
theorem C45_p2n_same_path (E : Env F G1) (d : Draws F) (path r1cs : String) (h1 : path ≠ "srs.lag") (h2 : path ≠ "evals")
    (fs : FS) (bs : Bytes) (hbs : fs path = some bs) :
    (∃ e, (exec C E d "p2n" [path, r1cs, path] fs).1 = .error e) ∧ (exec C E d "p2n" [path, r1cs, path] fs).2 path = some [] := by
  have hi : ∀ (o : Option (R1CS F)) (lag evals : Bytes), ∃ e st, initializeFiles C E.init d.par o [] lag evals = (.error e, st) ∧
      st.ph2 = [] := by
    intro o lag evals
    obtain ⟨e, h⟩ : ∃ e, (processHeader E.init.header o []).run ⟨[], lag, evals⟩ = (.error e, ⟨[], lag, evals⟩) := by
      cases o with
      | none => exact ⟨_, rfl⟩
      | some r =>
        unfold processHeader
        simp only
        cases nextPowerofTwo r.nbConstraints with
        | error e => exact ⟨e, Go.bind_error (Go.lift_run _ _)⟩
        | ok n =>
          rw [Go.bind_ok (Go.lift_run _ _)]
          exact ⟨.err "EOF", Go.bind_error (Go.lift_run _ _)⟩
    refine ⟨e, ⟨[], lag, evals⟩, ?_, rfl⟩
    unfold initializeFiles initBody
    exact Go.bind_error h
  simp only [exec, p2n, openFile, arg, List.getD_cons_zero, List.getD_cons_succ, hbs, List.length_cons, List.length_nil,
    contentsAfterCreate, if_true]
  rw [if_neg (by simp)]
  split
  · exact ⟨⟨_, rfl⟩, set_self _ _ _⟩
  · obtain ⟨e, st, hst, hph⟩ := hi (E.r1cs ‹_›) (old fs "srs.lag") (old fs "evals")
    rw [hst]
    refine ⟨⟨e, rfl⟩, ?_⟩
    show saveInit fs path st path = _
    unfold saveInit
    rw [set_other _ _ h2, set_other _ _ h1, set_self, hph]

/-! ### C46: the evaluation file -/

/-- the input of an honest initialisation: a circuit as gnark builds them and a large enough honest phase 1 file -/
structure HonestInput (C : Curve F G1 G2 GT) (E : InitEnv F) (r : R1CS F) (k : Nat) (τ α β : F) (phase1 : Bytes) : Prop where
  valid : r.Valid
  commitment : r.ValidCommitment
  domain : IsDomain r.constraints.length k
  size : k ≤ 27
  root : (E.dom (2 ^ k)).Lawful k
  header : E.header.Lawful
  srs : ∃ (f : P1File G1 G2) (junk : Bytes), f.WF ∧ f.Powers C τ α β ∧ k ≤ f.power.toNat ∧ phase1 = f.encode C ++ junk

/-- a successful `p2n` with honest input: what the output and `evals` are good for -/
theorem p2n_honest (E : Env F G1) (d : Draws F) (p1 circ out : String) (fs : FS) (phase1 rs : Bytes) (r : R1CS F) (k : Nat)
    (τ α β : F) (h : HonestInput C E.init r k τ α β phase1) (hb : 0 < E.batch) (h1 : fs p1 = some phase1) (h2 : fs circ = some rs)
    (h3 : E.r1cs rs = some r) (hp1 : p1 ≠ out) (hcirc : circ ≠ out) (ho1 : out ≠ "srs.lag") (ho2 : out ≠ "evals")
    (hok : (exec C E d "p2n" [p1, circ, out] fs).1 = .ok ()) :
    ∃ ph2 evals, (exec C E d "p2n" [p1, circ, out] fs).2 out = some ph2 ∧
      (exec C E d "p2n" [p1, circ, out] fs).2 "evals" = some evals ∧
      ∀ (steps : List (Par × Phase2.Rand F)) (final : Bytes), p2Ceremony C E.init.header E.batch steps ph2 = .ok final →
        HonestRun C E.init E.batch r k τ α β (deltaProduct (steps.map Prod.snd)) final evals := by
  have hrun : exec C E d "p2n" [p1, circ, out] fs
      = ((initializeFiles C E.init d.par (some r) phase1 (old fs "srs.lag") (old fs "evals")).1,
        saveInit fs out (initializeFiles C E.init d.par (some r) phase1 (old fs "srs.lag") (old fs "evals")).2) := by
    simp only [exec, p2n, openFile, arg, List.getD_cons_zero, List.getD_cons_succ, h1, List.length_cons, List.length_nil,
      contentsAfterCreate, set_other _ _ hcirc, h2, h3, if_neg hp1]
    rw [if_neg (by simp)]
  rw [hrun] at hok ⊢
  obtain ⟨f, junk, hf, hpw, hkp, rfl⟩ := h.srs
  generalize hst : initializeFiles C E.init d.par (some r) (f.encode C ++ junk) (old fs "srs.lag") (old fs "evals") = st at hok ⊢
  refine ⟨st.2.ph2, st.2.evals, ?_, set_self ((fs.set out st.2.ph2).set "srs.lag" st.2.lag) "evals" st.2.evals, ?_⟩
  · exact (set_other _ _ ho2).trans ((set_other _ _ ho1).trans (set_self _ _ _))
  · intro steps final hcer
    refine ⟨h.valid, h.commitment, h.domain, h.size, h.root, h.header, hb, d.par, f, junk, old fs "srs.lag", old fs "evals", st.2, steps, hf, hpw, hkp, ?_, hcer,
      rfl, rfl⟩
    rw [hst, ← hok]

/-- `key` on files from which the keys can be extracted -/
theorem key_run (E : Env F G1) (d : Draws F) (path : String) (fs : FS) (ph2 evals pk vk : Bytes) (h1 : fs path = some ph2)
    (h2 : fs "evals" = some evals) (hpath : path ≠ "pk") (hpk : extractPK C E.keys ph2 evals = (.ok (), some pk))
    (hvk : extractVK C E.keys ph2 evals = (.ok (), some vk)) :
    exec C E d "key" [path] fs = (.ok (), (fs.set "pk" pk).set "vk" vk) := by
  simp only [exec, key, inOrder, withFiles, openFile, arg, List.getD_cons_zero, h1, h2, hpk, set_other _ _ hpath,
    set_other _ _ (show "evals" ≠ "pk" by decide), hvk]
  rfl

omit [DecidableEq GT] in
theorem execAll_frame [DecidableEq GT] (E : Env F G1) (cmds : List (Command F)) (q : String)
    (h : ∀ c ∈ cmds, q ∉ outputs c.name c.args) (fs : FS) : execAll C E cmds fs q = fs q := by
  induction cmds generalizing fs with
  | nil => rfl
  | cons c cs ih =>
    rw [execAll, ih fun c' hc' => h c' (List.mem_cons_of_mem _ hc')]
    exact C45_frame_partial E c.draws c.name c.args fs q (h c List.mem_cons_self)

/-- **C46**, if no later command writes `evals`: after a successful `p2n` with honest input, any sequence of commands that do not
write `evals`, `key` on a file that is the result of a sequence of contributions to the output of `p2n` succeeds and writes the keys
of the circuit given to that `p2n`, for the trapdoor of the phase 1 file and the product of the contributions. -/
theorem C46_keys_partial (hC : C.Lawful) (E : Env F G1) (hK : E.keys.header = E.init.header) (ck : Bytes)
    (hck : E.keys.commitmentKey [] = .ok ck) (hb : 0 < E.batch) (d d' : Draws F) (p1 circ out path : String) (fs : FS)
    (phase1 rs : Bytes) (r : R1CS F) (k : Nat)
    (τ α β : F) (h : HonestInput C E.init r k τ α β phase1) (h1 : fs p1 = some phase1) (h2 : fs circ = some rs)
    (h3 : E.r1cs rs = some r) (hp1 : p1 ≠ out) (hcirc : circ ≠ out) (ho1 : out ≠ "srs.lag") (ho2 : out ≠ "evals")
    (hok : (exec C E d "p2n" [p1, circ, out] fs).1 = .ok ()) (cmds : List (Command F))
    (hcmds : ∀ c ∈ cmds, "evals" ∉ outputs c.name c.args) (hpath : path ≠ "pk") (ph2 : Bytes)
    (hph2 : (exec C E d "p2n" [p1, circ, out] fs).2 out = some ph2) (steps : List (Par × Phase2.Rand F)) (final : Bytes)
    (hcer : p2Ceremony C E.init.header E.batch steps ph2 = .ok final)
    (hfinal : execAll C E cmds (exec C E d "p2n" [p1, circ, out] fs).2 path = some final) :
    exec C E d' "key" [path] (execAll C E cmds (exec C E d "p2n" [p1, circ, out] fs).2) = (.ok (),
      ((execAll C E cmds (exec C E d "p2n" [p1, circ, out] fs).2).set "pk"
        ((trapdoorPK C r k (E.init.dom (2 ^ k)).gen τ α β (deltaProduct (steps.map Prod.snd))).encode C (E.keys.domain (2 ^ k)))).set "vk"
        ((trapdoorVK C r k (E.init.dom (2 ^ k)).gen τ α β (deltaProduct (steps.map Prod.snd))).encode C ck E.keys.noCommitment)) := by
  obtain ⟨ph2', evals, ho, hev, hrun⟩ := p2n_honest E d p1 circ out fs phase1 rs r k τ α β h hb h1 h2 h3 hp1 hcirc ho1 ho2 hok
  rw [hph2, Option.some_inj] at ho
  subst ho
  have hr := hrun steps final hcer
  have hp := C37_proving_key hC E.init E.keys hK _ r k τ α β _ final evals hr []
  have hv := C38_verifying_key hC E.init E.keys hK ck hck _ r k τ α β _ final evals hr []
  rw [List.append_nil] at hp hv
  exact key_run E d' path _ final evals _ _ hfinal (by rw [execAll_frame E cmds _ hcmds, hev]) hpath hp hv

/-- **C46** is false: `evals` of another circuit `r'` with as many wires (left by a `p2n` for `r'`) is not noticed. `key` succeeds,
and the keys it writes are neither those of `r` nor those of `r'`: they have the `A`, `B` and public points of `r'` and the `K` and `Z`
points of `r`. -/
theorem C46_wrong_evals (hC : C.Lawful) (E : Env F G1) (hK : E.keys.header = E.init.header) (ck : Bytes)
    (hck : E.keys.commitmentKey [] = .ok ck) (d : Draws F) (path : String) (fs : FS) (hpath : path ≠ "pk")
    (b b' : Nat) (r r' : R1CS F) (hw : r'.wires = r.wires) (k k' : Nat) (τ α β δ τ' α' β' δ' : F) (final final' evals evals' : Bytes)
    (h : HonestRun C E.init b r k τ α β δ final evals) (h' : HonestRun C E.init b' r' k' τ' α' β' δ' final' evals')
    (hfinal : fs path = some final) (hev : fs "evals" = some evals') :
    exec C E d "key" [path] fs = (.ok (), (fs.set "pk"
      (({ trapdoorPK C r' k' (E.init.dom (2 ^ k')).gen τ' α' β' δ with
          domain := 2 ^ k
          z := (trapdoorPK C r k (E.init.dom (2 ^ k)).gen τ α β δ).z
          k := (trapdoorPK C r k (E.init.dom (2 ^ k)).gen τ α β δ).k } : ProvingKey G1 G2).encode C (E.keys.domain (2 ^ k)))).set "vk"
      ((trapdoorVK C r' k' (E.init.dom (2 ^ k')).gen τ' α' β' δ).encode C ck E.keys.noCommitment)) := by
  obtain ⟨hwf, -, c, rest, h1, h2, rfl⟩ := h.files hC
  obtain ⟨-, rfl, -⟩ := h'.files hC
  have hw1 : r.wires < 2 ^ 32 := h.valid.size
  have hw' : r'.wires < 2 ^ 32 := h'.valid.size
  have hp : r'.shared < 2 ^ 32 := by have := h'.publicCommitment.shared_le; omega
  have e1 := extractPK_starts hC E.keys (by rw [hK]; exact h.header) _ (P2File.scaleParams_wf δ _ hwf)
    (show 2 ^ k ≤ 2 ^ 28 from Nat.pow_le_pow_right (by omega) (by have := h.size; omega)) c h1 h2
    (trapdoorEvals C r' (2 ^ k') (E.init.dom (2 ^ k')).gen τ' α' β' (E.init.cmtBytes r'.commitment))
    (by simpa [trapdoorEvals] using hw') (by simpa [trapdoorEvals] using hw') (by simpa [trapdoorEvals] using hw') rest []
  have e2 := (extractVK_starts hC E.keys (by rw [hK]; exact h.header) _ (P2File.scaleParams_wf δ _ hwf) c h1 h2
    (trapdoorEvals C r' (2 ^ k') (E.init.dom (2 ^ k')).gen τ' α' β' (E.init.cmtBytes r'.commitment)) hw1
    (by simpa [trapdoorEvals, P2File.scaleParams, trapdoorFile] using hw)
    (by simpa [trapdoorEvals, P2File.scaleParams, trapdoorFile] using hw)
    (by simpa [trapdoorEvals, P2File.scaleParams, trapdoorFile] using hw) (by simpa [trapdoorEvals] using hp) (by simp [trapdoorEvals])
    ck hck rest []).1
  rw [List.append_nil, hK] at e1 e2
  refine key_run E d path fs _ _ _ _ hfinal hev hpath (e1.trans ?_) e2
  have t1 := provingKeyOf_trapdoor hC r' k' (E.init.dom (2 ^ k')).gen τ' α' β' δ (E.init.cmtBytes r'.commitment)
  have t2 := provingKeyOf_trapdoor hC r k (E.init.dom (2 ^ k)).gen τ α β δ (E.init.cmtBytes r.commitment)
  rw [← t1, ← t2]
  simp only [provingKeyOf, P2File.scaleParams, trapdoorFile, hw]

theorem sliceOf_length {G : Type} {c : Codec G} (hc : c.Lawful) (ps : List G) : (sliceOf c.bytes ps).length = 4 + c.size * ps.length :=
  Codec.encodeSlice_length hc ps

/-- the length of a proving key in the file -/
theorem ProvingKey.encode_length (hC : C.Lawful) (domain : Bytes) (k : ProvingKey G1 G2) :
    (k.encode C domain).length = domain.length + 96 + (4 + 32 * k.a.length) + (4 + 32 * k.b1.length) + (4 + 32 * k.z.length)
      + (4 + 32 * k.k.length) + 128 + (4 + 64 * k.b2.length) + 24 + k.infinityA.length + k.infinityB.length := by
  simp only [ProvingKey.encode, List.length_append, hC.codec1.bytes_length, hC.codec2.bytes_length, hC.size1, hC.size2,
    sliceOf_length hC.codec1, sliceOf_length hC.codec2, beBytes_length, mapBytes, List.length_map]

/-- `p2c` on a file without contributions -/
theorem p2c_first (hC : C.Lawful) (E : Env F G1) (hH : E.init.header.Lawful) (hb : 0 < E.batch) (d : Draws F) (inp out : String)
    (hio : inp ≠ out) (f : P2File G1 G2) (hf : f.WF) (h0 : f.records = []) (fs : FS)
    (h : fs inp = some (f.encode C E.init.header)) :
    exec C E d "p2c" [inp, out] fs = (.ok (), fs.set out ((f.contribute C d.contribute2).encode C E.init.header)) := by
  have := C29_first_contribution hC hH d.par E.batch hb d.contribute2 f hf h0 []
  rw [List.append_nil] at this
  simp only [exec, p2c, openFile, arg, List.getD_cons_zero, List.getD_cons_succ, h, List.length_cons, List.length_nil,
    contentsAfterCreate, if_neg hio, this]
  rw [if_neg (by simp)]
  rfl

/-- `p2n` with honest input, for a circuit that commits to public wires at most -/
theorem p2n_run (hC : C.Lawful) (E : Env F G1) (d : Draws F) (p1 circ out : String) (fs : FS) (phase1 rs : Bytes) (r : R1CS F) (k : Nat)
    (τ α β : F) (h : HonestInput C E.init r k τ α β phase1) (hpc : r.PublicCommitment) (h1 : fs p1 = some phase1)
    (h2 : fs circ = some rs) (h3 : E.r1cs rs = some r) (hp1 : p1 ≠ out) (hcirc : circ ≠ out) :
    ∃ lag, exec C E d "p2n" [p1, circ, out] fs = (.ok (),
      ((fs.set out ((trapdoorFile C r k (E.init.dom (2 ^ k)).gen τ α β).encode C E.init.header)).set "srs.lag" lag).set "evals"
        ((trapdoorEvals C r (2 ^ k) (E.init.dom (2 ^ k)).gen τ α β (E.init.cmtBytes r.commitment)).encode C)) := by
  obtain ⟨f, junk, hf, hpw, hkp, rfl⟩ := h.srs
  have := init_honest hC E.init d.par r h.valid hpc f hf τ α β hpw k h.domain h.size hkp h.root junk (old fs "srs.lag")
    (old fs "evals")
  refine ⟨lagBytes C (2 ^ k) (E.init.dom (2 ^ k)).gen f, ?_⟩
  simp only [exec, p2n, openFile, arg, List.getD_cons_zero, List.getD_cons_succ, h1, List.length_cons, List.length_nil,
    contentsAfterCreate, set_other _ _ hcirc, h2, h3, if_neg hp1, this]
  rw [if_neg (by simp)]
  rfl

end

namespace Toy

/-- the circuit with the left side of the first constraint removed -/
def circuit' : R1CS K :=
  { circuit with constraints := [⟨[], [⟨1, 2⟩], [⟨1, 3⟩]⟩, ⟨[⟨4, 3⟩, ⟨2, 0⟩], [⟨1, 0⟩], [⟨1, 1⟩]⟩,
    ⟨[⟨1, 2⟩, ⟨1, 2⟩, ⟨3, 1⟩], [⟨1, 0⟩], [⟨4, 0⟩, ⟨4, 0⟩]⟩] }

/-- file `[1]` is the circuit, `[2]` is `circuit'` -/
def cliEnv : Env K K where
  init := env
  keys := keyEnv
  r1cs bs := if bs = [1] then some circuit else if bs = [2] then some circuit' else none
  parted _ _ _ _ := parted
  solidity bs := some bs
  batch := batchSize
  pol := .strict

def draws : Draws K := ⟨par, ⟨2, 3, 4, 5, 6, 7⟩, ⟨fun _ _ => 1, fun _ _ => 1, fun _ _ => 1, fun _ _ => 1⟩, p2rnd, p2vr⟩

/-- a phase 1 file of power 3 and two circuits -/
def files : FS := fun p =>
  if p = "srs" then some ((srs 3 1 5 7).encode curve) else if p = "one" then some [1] else if p = "two" then some [2] else none

theorem input (r : R1CS K) (hr : r = circuit ∨ r = circuit') :
    HonestInput curve env r 2 1 5 7 ((srs 3 1 5 7).encode curve) ∧ r.NoCommitment ∧ r.wires = circuit.wires := by
  have hsrs : ∃ (f : P1File K K) (junk : Bytes), f.WF ∧ f.Powers curve 1 5 7 ∧ 2 ≤ f.power.toNat ∧
      (srs 3 1 5 7).encode curve = f.encode curve ++ junk :=
    ⟨srs 3 1 5 7, [], srs_wf 3 (by decide) _ _ _, srs_powers 3 1 5 7, by decide, by simp⟩
  rcases hr with rfl | rfl
  · exact ⟨⟨circuit_valid, circuit_vc, circuit_domain, by decide, dom4_lawful, Gob.lawful, hsrs⟩, circuit_nc, rfl⟩
  · exact ⟨⟨⟨by decide, by decide, by decide, by decide⟩,
      ⟨⟨[], [], rfl, rfl, List.Pairwise.nil, by simp⟩, fun h => absurd rfl h⟩, circuit_domain, by decide, dom4_lawful, Gob.lawful, hsrs⟩,
      ⟨rfl, rfl⟩, rfl⟩

theorem eval_one (r : R1CS K) (h : r.constraints.length = 3) (side : R1C → List Term) (w : Nat) :
    (qap r (2 ^ 2) (env.dom (2 ^ 2)).gen side w).eval 1 = lcCoeff r.coefficients (side (r.constraint 0)) w := by
  have := (C24_interpolates r side 2 (by rw [h]; decide) dom4 dom4_lawful w).1 0 (by rw [h]; decide)
  rwa [pow_zero] at this

theorem lengths (r : R1CS K) (h : r.constraints.length = 3) (hw : r.wires = 4) (δ : K) :
    (trapdoorPK curve r 2 4 1 5 7 δ).a.length = ((List.range 4).filter fun w => decide (lcCoeff r.coefficients (r.constraint 0).l w ≠ 0)).length ∧
    (trapdoorPK curve r 2 4 1 5 7 δ).b1.length = ((List.range 4).filter fun w => decide (lcCoeff r.coefficients (r.constraint 0).r w ≠ 0)).length ∧
    (trapdoorPK curve r 2 4 1 5 7 δ).b2.length = ((List.range 4).filter fun w => decide (lcCoeff r.coefficients (r.constraint 0).r w ≠ 0)).length ∧
    (trapdoorPK curve r 2 4 1 5 7 δ).infinityA.length = 4 ∧ (trapdoorPK curve r 2 4 1 5 7 δ).infinityB.length = 4 := by
  have hl : ∀ (side : R1C → List Term) w, (qap r (2 ^ 2) 4 side w).eval 1 = lcCoeff r.coefficients (side (r.constraint 0)) w := eval_one r h
  simp only [trapdoorPK, List.length_map, List.length_range, hl, hw, and_self]

/-- the proving key with the points of both circuits is not that of the first -/
theorem mixed_ne (δ δ' : K) (n : Nat) (dom : Bytes) : ({ trapdoorPK curve circuit' 2 4 1 5 7 δ with
      domain := n
      z := (trapdoorPK curve circuit 2 4 1 5 7 δ).z
      k := (trapdoorPK curve circuit 2 4 1 5 7 δ).k } : ProvingKey K K).encode curve dom
    ≠ (trapdoorPK curve circuit 2 4 1 5 7 δ').encode curve dom := by
  intro hpk
  have hlen := congrArg List.length hpk
  rw [ProvingKey.encode_length Toy.lawful, ProvingKey.encode_length Toy.lawful] at hlen
  dsimp only at hlen
  obtain ⟨x1, x2, x3, x4, x5⟩ := lengths circuit rfl rfl δ'
  obtain ⟨y1, y2, y3, y4, y5⟩ := lengths circuit' rfl rfl δ
  have n1 : ((List.range 4).filter fun w => decide (lcCoeff circuit.coefficients (circuit.constraint 0).l w ≠ 0)).length = 1 := by
    decide
  have n2 : ((List.range 4).filter fun w => decide (lcCoeff circuit'.coefficients (circuit'.constraint 0).l w ≠ 0)).length = 0 := by
    decide
  have n3 : lcCoeff circuit'.coefficients (circuit'.constraint 0).r = lcCoeff circuit.coefficients (circuit.constraint 0).r := rfl
  have z1 : (trapdoorPK curve circuit 2 4 1 5 7 δ).z.length = (trapdoorPK curve circuit 2 4 1 5 7 δ').z.length := by simp [trapdoorPK]
  have z2 : (trapdoorPK curve circuit 2 4 1 5 7 δ).k.length = (trapdoorPK curve circuit 2 4 1 5 7 δ').k.length := by simp [trapdoorPK]
  rw [n3] at y2 y3
  rw [n1] at x1
  rw [n2] at y1
  rw [← x2] at y2
  rw [← x3] at y3
  omega

end Toy

/-- **C46** is false, concretely: `p2n` for one circuit, `p2n` for another with a different output, `p2c` on the first file, `key` on
the result. All commands succeed, and the proving key written is not the one of the first circuit. -/
theorem C46_false : ∃ (E : Env Toy.K Toy.K) (d : Draws Toy.K) (fs : FS),
    let s1 := exec Toy.curve E d "p2n" ["srs", "one", "one.ph2"] fs
    let s2 := exec Toy.curve E d "p2n" ["srs", "two", "two.ph2"] s1.2
    let s3 := exec Toy.curve E d "p2c" ["one.ph2", "one.final"] s2.2
    let s4 := exec Toy.curve E d "key" ["one.final"] s3.2
    s1.1 = .ok () ∧ s2.1 = .ok () ∧ s3.1 = .ok () ∧ s4.1 = .ok () ∧
    ∃ pk, s4.2 "pk" = some pk ∧
      pk ≠ (trapdoorPK Toy.curve Toy.circuit 2 4 1 5 7 d.contribute2.delta).encode Toy.curve (E.keys.domain (2 ^ 2)) := by
  refine ⟨Toy.cliEnv, Toy.draws, Toy.files, ?_⟩
  obtain ⟨hin, hnc, -⟩ := Toy.input Toy.circuit (.inl rfl)
  obtain ⟨hin', hnc', hw⟩ := Toy.input Toy.circuit' (.inr rfl)
  obtain ⟨lag1, e1⟩ := p2n_run Toy.lawful Toy.cliEnv Toy.draws "srs" "one" "one.ph2" Toy.files _ _ _ 2 1 5 7 hin hnc.publicCommitment rfl
    rfl rfl (by decide) (by decide)
  have q1 : (exec Toy.curve Toy.cliEnv Toy.draws "p2n" ["srs", "one", "one.ph2"] Toy.files).2 "srs" = some ((Toy.srs 3 1 5 7).encode Toy.curve) := by
    rw [C45_frame_partial]
    · rfl
    · simp [outputs]
  have q2 : (exec Toy.curve Toy.cliEnv Toy.draws "p2n" ["srs", "one", "one.ph2"] Toy.files).2 "two" = some [2] := by
    rw [C45_frame_partial]
    · rfl
    · simp [outputs]
  obtain ⟨lag2, e2⟩ := p2n_run Toy.lawful Toy.cliEnv Toy.draws "srs" "two" "two.ph2" _ _ _ _ 2 1 5 7 hin' hnc'.publicCommitment q1
    q2 rfl (by decide) (by decide)
  have hwf := trapdoorFile_wf Toy.lawful Toy.circuit Toy.circuit_valid Toy.circuit_nc.publicCommitment 2
    Toy.circuit_domain (by decide) (Toy.cliEnv.init.dom (2 ^ 2)).gen 1 5 7
  intro s1 s2 s3 s4
  have hone : s2.2 "one.ph2" = some ((trapdoorFile Toy.curve Toy.circuit 2 (Toy.cliEnv.init.dom (2 ^ 2)).gen 1 5 7).encode Toy.curve
      Toy.cliEnv.init.header) := by
    show (exec Toy.curve Toy.cliEnv Toy.draws "p2n" ["srs", "two", "two.ph2"] _).2 "one.ph2" = _
    rw [C45_frame_partial _ _ _ _ _ _ (by simp [outputs])]
    show (exec Toy.curve Toy.cliEnv Toy.draws "p2n" ["srs", "one", "one.ph2"] _).2 "one.ph2" = _
    rw [e1]
    simp [FS.set]
  have e3 : s3 = _ := p2c_first Toy.lawful Toy.cliEnv Gob.lawful (by decide) Toy.draws "one.ph2" "one.final" (by decide) _ hwf rfl s2.2 hone
  have hev : s3.2 "evals" = some ((trapdoorEvals Toy.curve Toy.circuit' (2 ^ 2) (Toy.cliEnv.init.dom (2 ^ 2)).gen 1 5 7
      (Toy.cliEnv.init.cmtBytes Toy.circuit'.commitment)).encode Toy.curve) := by
    refine (C45_frame_partial _ _ _ _ _ "evals" (by simp [outputs])).trans ?_
    show (exec Toy.curve Toy.cliEnv Toy.draws "p2n" ["srs", "two", "two.ph2"] _).2 "evals" = _
    rw [e2]
    simp [FS.set]
  have hfin : s3.2 "one.final" = some (((trapdoorFile Toy.curve Toy.circuit 2 (Toy.cliEnv.init.dom (2 ^ 2)).gen 1 5 7).contribute
      Toy.curve Toy.draws.contribute2).encode Toy.curve Toy.cliEnv.init.header) := by
    rw [e3]
    simp only [FS.set, if_true]
  obtain ⟨ph2, evals, a1, a2, a3⟩ := p2n_honest Toy.cliEnv Toy.draws "srs" "one" "one.ph2" Toy.files _ _ _ 2 1 5 7 hin (by decide) rfl rfl
    rfl (by decide) (by decide) (by decide) (by decide) (by rw [e1])
  obtain ⟨ph2', evals', b1, b2, b3⟩ := p2n_honest Toy.cliEnv Toy.draws "srs" "two" "two.ph2" _ _ _ _ 2 1 5 7 hin' (by decide) q1 q2
    rfl (by decide) (by decide) (by decide) (by decide) (by rw [e2])
  have hph : ph2 = (trapdoorFile Toy.curve Toy.circuit 2 (Toy.cliEnv.init.dom (2 ^ 2)).gen 1 5 7).encode Toy.curve
      Toy.cliEnv.init.header := by
    rw [e1] at a1
    simp only [FS.set] at a1
    simpa using a1.symm
  have hev' : s3.2 "evals" = some evals' := by
    rw [e2] at b2
    simp only [FS.set, if_true] at b2
    rw [hev, b2]
  have hc := C29_first_contribution Toy.lawful Gob.lawful Toy.draws.par batchSize (by decide) Toy.draws.contribute2 _ hwf rfl []
  rw [List.append_nil] at hc
  have hr := a3 [(Toy.draws.par, Toy.draws.contribute2)] _ (by
    rw [hph]
    simp only [p2Ceremony]
    rw [show Toy.cliEnv.init.header = Gob.headerCodec from rfl, show Toy.cliEnv.batch = batchSize from rfl, hc])
  have hr' := b3 [] ph2' rfl
  have e4 : s4 = _ := C46_wrong_evals Toy.lawful Toy.cliEnv rfl [0] rfl Toy.draws "one.final" s3.2 (by decide) _ _ _ _ hw 2 2 1 5 7 _ 1 5 7 _ _ _ _ _
    hr hr' hfin hev'
  refine ⟨by show (exec _ _ _ _ _ _).1 = _; rw [e1], by show (exec _ _ _ _ _ _).1 = _; rw [e2], by rw [e3], by rw [e4], _, by
    rw [e4]; simp only [FS.set]; simp; rfl, ?_⟩
  exact Toy.mixed_ne _ _ _ _

namespace Toy

theorem denotes {s : String} {i : Int} (h : atoiSigned s.toList = some i) : Denotes s i := (atoiSigned_iff s i).mp h

theorem denotes_nonneg {s : String} {n : Nat} (h : atoiSigned s.toList = some (n : Int)) (i : Int) (hi : Denotes s i) : 0 ≤ i := by
  rw [(atoiSigned_iff s i).mpr hi, Option.some_inj] at h
  omega

/-- a file that is there -/
def aFile : FS := FS.set (fun _ => none) "file" [1, 2, 3]

end Toy

-- a number in range, one out of range, no number, one argument too many
example := C19_p1n_partial Toy.lawful ["12", "file"] Toy.aFile (by rintro s i ⟨⟩; exact Toy.denotes_nonneg (n := 12) rfl i)
example := C19_p1n_partial Toy.lawful ["27", "file"] Toy.aFile (by rintro s i ⟨⟩; exact Toy.denotes_nonneg (n := 27) rfl i)
example := C19_p1n_partial Toy.lawful ["twelve", "file"] Toy.aFile
  (by rintro s i ⟨⟩ h; have := (atoiSigned_iff _ i).mpr h; exact absurd this (by rw [show atoiSigned "twelve".toList = none from rfl]; simp))
example := C19_p1n_partial Toy.lawful ["12", "file", "x"] Toy.aFile (by rintro s i ⟨⟩; exact Toy.denotes_nonneg (n := 12) rfl i)

-- a file of power 6, and one without points
example := C19_negative_accepted (C := Toy.curve) "-250" "file" (-250) (Toy.denotes rfl) (by decide) (by decide) Toy.aFile
example := C19_negative_accepted (C := Toy.curve) "-1" "file" (-1) (Toy.denotes rfl) (by decide) (by decide) Toy.aFile
example : toByte (-250) = 6 := by decide

example := C45_frame_partial (C := Toy.curve) Toy.cliEnv Toy.draws "p2n" ["srs", "one", "out"] Toy.files "one" (by simp [outputs])
example := C45_input_unchanged_partial (C := Toy.curve) Toy.cliEnv Toy.draws "srs" "out" "one" "3" "2" Toy.files (by decide) (by decide) (by decide)
example := C45_p1c_same_path (C := Toy.curve) Toy.cliEnv Toy.draws "file" Toy.aFile [1, 2, 3] rfl
example := C45_p2c_same_path (C := Toy.curve) Toy.cliEnv ⟨_, _, rfl⟩ Toy.draws "file" Toy.aFile [1, 2, 3] rfl
example := C45_p1t_same_path Toy.lawful Toy.cliEnv Toy.draws "file" "10" "8" 10 8 (Toy.denotes rfl) (Toy.denotes rfl) (by decide)
  (by decide) (by decide) Toy.aFile [1, 2, 3] rfl
example := C45_p2n_same_path (C := Toy.curve) Toy.cliEnv Toy.draws "file" "one" (by decide) (by decide) Toy.aFile [1, 2, 3] rfl

-- C46_keys_partial: initialisation, a contribution, extraction
example : ∃ fs pk vk, exec Toy.curve Toy.cliEnv Toy.draws "key" ["one.final"] fs = (.ok (), (fs.set "pk" pk).set "vk" vk) := by
  obtain ⟨hin, hnc, -⟩ := Toy.input Toy.circuit (.inl rfl)
  obtain ⟨lag, e⟩ := p2n_run Toy.lawful Toy.cliEnv Toy.draws "srs" "one" "one.ph2" Toy.files _ _ _ 2 1 5 7 hin hnc.publicCommitment rfl
    rfl rfl (by decide) (by decide)
  have hwf := trapdoorFile_wf Toy.lawful Toy.circuit Toy.circuit_valid Toy.circuit_nc.publicCommitment 2
    Toy.circuit_domain (by decide) (Toy.cliEnv.init.dom (2 ^ 2)).gen 1 5 7
  have hc := C29_first_contribution Toy.lawful Gob.lawful Toy.draws.par batchSize (by decide) Toy.draws.contribute2 _ hwf rfl []
  rw [List.append_nil] at hc
  have hph : (exec Toy.curve Toy.cliEnv Toy.draws "p2n" ["srs", "one", "one.ph2"] Toy.files).2 "one.ph2"
      = some ((trapdoorFile Toy.curve Toy.circuit 2 (Toy.cliEnv.init.dom (2 ^ 2)).gen 1 5 7).encode Toy.curve
        Toy.cliEnv.init.header) := by
    rw [e]
    simp [FS.set]
  refine ⟨_, _, _, C46_keys_partial Toy.lawful Toy.cliEnv rfl [0] rfl (by decide) Toy.draws Toy.draws "srs" "one" "one.ph2" "one.final"
    Toy.files _ _ Toy.circuit 2 1 5 7 hin rfl rfl rfl (by decide) (by decide) (by decide) (by decide) (by rw [e])
    [⟨Toy.draws, "p2c", ["one.ph2", "one.final"]⟩] (by simp [outputs]) (by decide) _ hph [(Toy.draws.par, Toy.draws.contribute2)] _ (by
      simp only [p2Ceremony]
      rw [show Toy.cliEnv.init.header = Gob.headerCodec from rfl, show Toy.cliEnv.batch = batchSize from rfl, hc]) ?_⟩
  simp only [execAll]
  rw [p2c_first Toy.lawful Toy.cliEnv Gob.lawful (by decide) Toy.draws "one.ph2" "one.final" (by decide) _ hwf rfl _ hph]
  simp only [FS.set, if_true]
  rfl

-- C46_wrong_evals: see C46_false

end ZkSetup
