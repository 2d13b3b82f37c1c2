import Verif.Props.Session
import Verif.Props.Panic
/-
Properties of the commands `keys`, `sol` and `p2np`: C39, C44, C52 from the command line.
-/
set_option linter.unusedSectionVars false

namespace ZkSetup

open Cli Phase2 Keys
open Phase1 (batchSize)

section
variable {F G1 G2 GT : Type} [Field F] [AddCommGroup G1] [Module F G1] [AddCommGroup G2]
  [Module F G2] [AddCommGroup GT] [Module F GT] [DecidableEq G1] [DecidableEq G2] [DecidableEq GT]
variable {C : Curve F G1 G2 GT} (E : Env F G1)

/-! ### The files of split keys -/

theorem append_ne {a b : String} (h : a ≠ b) (s : String) : s ++ a ≠ s ++ b := by
  intro e
  apply h
  have := congrArg String.toList e
  rw [String.toList_append, String.toList_append, List.append_cancel_left_eq] at this
  exact String.toList_inj.mp this

theorem splitNames_eq (s : String) : splitNames s = [s ++ ".pk.E.save", s ++ ".pk.A.save", s ++ ".pk.B1.save", s ++ ".pk.B2.save",
    s ++ ".pk.K.save", s ++ ".pk.Z.save", s ++ ".pk.CommitmentKey.save", s ++ ".vk.save"] := rfl

theorem splitNames_nodup (s : String) : (splitNames s).Nodup := by
  unfold splitNames
  refine List.Nodup.map_on ?_ (by decide)
  intro x _ y _ h
  have := congrArg String.toList h
  simp only [String.toList_append, List.append_cancel_left_eq, List.append_cancel_right_eq] at this
  exact String.toList_inj.mp this

/-- the names of split files are longer than `evals` -/
theorem long_ne (s x : String) (h : 5 < x.length) : "evals" ≠ s ++ x := by
  intro e
  have := congrArg String.length e
  rw [String.length_append] at this
  have h5 : "evals".length = 5 := by decide
  omega

theorem evals_not_split (s : String) : "evals" ∉ splitNames s := by
  rw [splitNames_eq]
  simp only [List.mem_cons, List.not_mem_nil, or_false, not_or]
  refine ⟨?_, ?_, ?_, ?_, ?_, ?_, ?_, ?_⟩ <;> exact long_ne _ _ (by decide)

theorem saveSplitPK_other (s : String) (fs : FS) (pk : SplitPK) {q : String} (hq : q ∉ splitNames s) :
    saveSplitPK s fs pk q = fs q := by
  rw [splitNames_eq] at hq
  simp only [List.mem_cons, List.not_mem_nil, or_false, not_or] at hq
  obtain ⟨n1, n2, n3, n4, n5, n6, n7, n8⟩ := hq
  unfold saveSplitPK
  rw [set_other _ _ n4, set_other _ _ n5, set_other _ _ n6, set_other _ _ n3, set_other _ _ n2, set_other _ _ n1]

theorem bothKeys_parts {P V : Type} {a : Except Fail Unit × Option P} {b : Except Fail Unit × Option V} {p : Option P} {v : Option V}
    (h : (bothKeys a b).1 = .ok ()) (h' : (bothKeys a b).2 = ⟨p, v⟩) : a = (.ok (), p) ∧ b = (.ok (), v) := by
  obtain ⟨r, o⟩ := a
  obtain ⟨r', o'⟩ := b
  cases r with
  | error e => cases h
  | ok u =>
    simp only [bothKeys, KeyFiles.mk.injEq] at h h'
    obtain ⟨rfl, rfl⟩ := h'
    exact ⟨rfl, by rw [h]⟩

/-- What the command writes, if both extractions succeed. -/
theorem keys_run (d : Draws F) (path s : String) (fs : FS) (ph2 evals : Bytes) (pk : SplitPK) (vk ck : Bytes) (h1 : fs path = some ph2)
    (h2 : fs "evals" = some evals) (hpath : path ∉ splitNames s) (hpk : extractSplitPK C E.keys ph2 evals = (.ok (), some pk))
    (hvk : extractSplitVK C E.keys ph2 evals = (.ok (), some ⟨vk, some ck⟩)) :
    ∃ fs', exec C E d "keys" [path, s] fs = (.ok (), fs') ∧ (∀ f ∈ splitFiles s pk vk ck, fs' f.1 = some f.2) ∧
      ∀ q, q ∉ splitNames s → fs' q = fs q := by
  have e1 := saveSplitPK_other s fs pk hpath
  have e2 := saveSplitPK_other s fs pk (evals_not_split s)
  refine ⟨saveSplitVK s (saveSplitPK s fs pk) ⟨vk, some ck⟩, ?_, ?_, ?_⟩
  · simp only [exec, keys, inOrder, withFiles, openFile, arg, List.getD_cons_zero, List.getD_cons_succ, h1, h2, hpk, e1, e2, hvk]
    rfl
  · have hn := splitNames_nodup s
    rw [splitNames_eq] at hn
    simp only [List.nodup_cons, List.mem_cons, List.not_mem_nil, or_false, not_or] at hn
    simp only [splitFiles, List.mem_cons, List.not_mem_nil, or_false, forall_eq_or_imp, forall_eq, saveSplitVK, saveSplitPK, FS.set]
    simp [hn]
  · intro q hq
    have hq' := hq
    rw [splitNames_eq] at hq
    simp only [List.mem_cons, List.not_mem_nil, or_false, not_or] at hq
    obtain ⟨n1, n2, n3, n4, n5, n6, n7, n8⟩ := hq
    unfold saveSplitVK
    exact (set_other _ _ n7).trans ((set_other _ _ n8).trans (saveSplitPK_other s fs pk hq'))

/-! ### C39: `keys` and `key` -/

/-- a second step that reads what the first has not changed gives the result of both -/
theorem inOrder_result {P V : Type} (path : String) (fs : FS) (ph2 evals : Bytes) (h1 : fs path = some ph2) (h2 : fs "evals" = some evals)
    (pk : Bytes → Bytes → Except Fail Unit × Option P) (vk : Bytes → Bytes → Except Fail Unit × Option V) (save : FS → P → FS)
    (save' : FS → V → FS) (hs : ∀ o, save fs o path = fs path ∧ save fs o "evals" = fs "evals") :
    (inOrder (withFiles path pk save) (withFiles path vk save') fs).1 = (bothKeys (pk ph2 evals) (vk ph2 evals)).1 := by
  unfold inOrder withFiles openFile
  simp only [h1, h2]
  obtain ⟨r, o⟩ := pk ph2 evals
  cases r with
  | error e => rfl
  | ok u =>
    cases o with
    | none => simp only [h1, h2, bothKeys]
    | some o =>
      have := hs o
      simp only [this.1, this.2, h1, h2, bothKeys]

/-- **C39** at the command line: if the header declares a domain of at most `2^28` points and the phase 2 file is not one of the
outputs, `keys` succeeds on a directory exactly if `key` does. Then the eight files of the session hold the key that `key` writes to
`pk` and `vk`, apart from the commitment key, which each run draws anew (`draw`), and nothing else changes. -/
theorem C39_command_partial (draw : List G1 → Except Fail Bytes)
    (hdraw : ∀ basis, (∃ x, E.keys.commitmentKey basis = .ok x) ↔ ∃ x, draw basis = .ok x) (d d' : Draws F) (path s : String) (fs : FS)
    (ph2 evals : Bytes) (h1 : fs path = some ph2) (h2 : fs "evals" = some evals) (hpath : path ∉ splitNames s) (hpk : path ≠ "pk")
    (hdom : ∀ header rd, (Header.read E.keys.header).run (Rd.buffered 4096 ph2) = (.ok header, rd) → 0 ≤ header.domain →
      header.domain ≤ 2 ^ 28) :
    let plain := exec C E d "key" [path] fs
    let split := exec C { E with keys := { E.keys with commitmentKey := draw } } d' "keys" [path, s] fs
    (split.1 = .ok () ↔ plain.1 = .ok ()) ∧
    (plain.1 = .ok () → ∃ (pk : ProvingKey G1 G2) (vk : VerifyKey G1 G2) (ck ck' : Bytes),
      plain.2 "pk" = some (pk.encode C (E.keys.domain pk.domain)) ∧
      plain.2 "vk" = some (vk.encode C ck E.keys.noCommitment) ∧
      (∀ f ∈ splitFiles s (pk.encodeSplit C) (vk.encode C ck' E.keys.noCommitment) (ck' ++ ck'), split.2 f.1 = some f.2) ∧
      ∀ q, q ∉ splitNames s → split.2 q = fs q) := by
  intro plain split
  obtain ⟨hiff, hfiles⟩ := C39_partial (C := C) E.keys draw hdraw ph2 evals hdom
  have hp : plain.1 = (extractKeys C E.keys ph2 evals).1 :=
    inOrder_result path fs ph2 evals h1 h2 _ _ _ _ fun o => ⟨set_other _ _ hpk, set_other _ _ (by decide)⟩
  have hs : split.1 = (extractSplitKeys C { E.keys with commitmentKey := draw } ph2 evals).1 :=
    inOrder_result path fs ph2 evals h1 h2 _ _ _ _ fun o => ⟨saveSplitPK_other s fs o hpath, saveSplitPK_other s fs o (evals_not_split s)⟩
  refine ⟨by rw [hp, hs]; exact hiff.symm, fun hok => ?_⟩
  rw [hp] at hok
  have hok' := hiff.mp hok
  obtain ⟨pk, vk, ck, ck', e1, e2⟩ := hfiles hok
  have b1 : extractPK C E.keys ph2 evals = (.ok (), some (pk.encode C (E.keys.domain pk.domain))) ∧
      extractVK C E.keys ph2 evals = (.ok (), some (vk.encode C ck E.keys.noCommitment)) := bothKeys_parts hok e1
  have b2 := bothKeys_parts hok' e2
  obtain ⟨fs', g1, g2, g3⟩ := keys_run (C := C) { E with keys := { E.keys with commitmentKey := draw } } d' path s fs ph2 evals _ _ _ h1 h2
    hpath b2.1 b2.2
  have g0 := key_run (C := C) E d path fs ph2 evals _ _ h1 h2 hpk b1.1 b1.2
  have g0' : plain = _ := g0
  have g1' : split = _ := g1
  rw [g0', g1']
  exact ⟨pk, vk, ck, ck', by simp [FS.set], by simp [FS.set], g2, g3⟩

/-- the files of this tool meet the condition on the header -/
theorem header_domain (hC : C.Lawful) {H : HeaderCodec} (hH : H.Lawful) (f : P2File G1 G2) (hf : f.WF) (hd : f.domain ≤ 2 ^ 28)
    (junk : Bytes) (header : Header) (rd : Rd) (h : (Header.read H).run (Rd.buffered 4096 (f.encode C H ++ junk)) = (.ok header, rd))
    (_ : 0 ≤ header.domain) : header.domain ≤ 2 ^ 28 := by
  unfold Header.read at h
  rw [P2File.header_read hC hH hf, Prod.mk.injEq, Except.ok.injEq] at h
  rw [← h.1]
  show (f.domain : Int) ≤ 2 ^ 28
  exact_mod_cast hd

/-- **C39** at the command line for the phase 2 files of this tool, whatever is appended to them and whatever `evals` holds -/
theorem C39_command_files_partial (hC : C.Lawful) (hH : E.keys.header.Lawful) (draw : List G1 → Except Fail Bytes)
    (hdraw : ∀ basis, (∃ x, E.keys.commitmentKey basis = .ok x) ↔ ∃ x, draw basis = .ok x) (d d' : Draws F) (path s : String) (fs : FS)
    (f : P2File G1 G2) (hf : f.WF) (hd : f.domain ≤ 2 ^ 28) (junk evals : Bytes) (h1 : fs path = some (f.encode C E.keys.header ++ junk))
    (h2 : fs "evals" = some evals) (hpath : path ∉ splitNames s) (hpk : path ≠ "pk") :
    let plain := exec C E d "key" [path] fs
    let split := exec C { E with keys := { E.keys with commitmentKey := draw } } d' "keys" [path, s] fs
    (split.1 = .ok () ↔ plain.1 = .ok ()) ∧
    (plain.1 = .ok () → ∃ (pk : ProvingKey G1 G2) (vk : VerifyKey G1 G2) (ck ck' : Bytes),
      plain.2 "pk" = some (pk.encode C (E.keys.domain pk.domain)) ∧
      plain.2 "vk" = some (vk.encode C ck E.keys.noCommitment) ∧
      (∀ f ∈ splitFiles s (pk.encodeSplit C) (vk.encode C ck' E.keys.noCommitment) (ck' ++ ck'), split.2 f.1 = some f.2) ∧
      ∀ q, q ∉ splitNames s → split.2 q = fs q) :=
  C39_command_partial E draw hdraw d d' path s fs _ evals h1 h2 hpath hpk (header_domain hC hH f hf hd junk)

/-- **C39**, on an honest run: `keys` writes the split Groth16 keys of the trapdoor, whatever follows in `evals`. -/
theorem C39_honest (hC : C.Lawful) (hK : E.keys.header = E.init.header) (ck : Bytes) (hck : E.keys.commitmentKey [] = .ok ck)
    (d : Draws F) (path s : String) (fs : FS) (b : Nat) (r : R1CS F) (k : Nat) (τ α β δ : F) (final evals junk : Bytes)
    (h : HonestRun C E.init b r k τ α β δ final evals) (h1 : fs path = some final) (h2 : fs "evals" = some (evals ++ junk))
    (hpath : path ∉ splitNames s) :
    ∃ fs', exec C E d "keys" [path, s] fs = (.ok (), fs') ∧
      (∀ f ∈ splitFiles s ((trapdoorPK C r k (E.init.dom (2 ^ k)).gen τ α β δ).encodeSplit C)
        ((trapdoorVK C r k (E.init.dom (2 ^ k)).gen τ α β δ).encode C ck E.keys.noCommitment) (ck ++ ck), fs' f.1 = some f.2) ∧
      ∀ q, q ∉ splitNames s → fs' q = fs q := by
  obtain ⟨hwf, rfl, c, rest, c1, c2, rfl⟩ := h.files hC
  have hw : r.wires < 2 ^ 32 := h.valid.size
  have hp : r.shared < 2 ^ 32 := by have := h.publicCommitment.shared_le; omega
  have hH : E.keys.header.Lawful := by rw [hK]; exact h.header
  have e1 := extractSplitPK_starts hC E.keys hH _ (P2File.scaleParams_wf δ _ hwf) c c1 c2
    (trapdoorEvals C r (2 ^ k) (E.init.dom (2 ^ k)).gen τ α β (E.init.cmtBytes r.commitment))
    (by simpa [trapdoorEvals] using hw) (by simpa [trapdoorEvals] using hw) (by simpa [trapdoorEvals] using hw) rest junk
  have e2 := (extractVK_starts hC E.keys hH _ (P2File.scaleParams_wf δ _ hwf) c c1 c2
    (trapdoorEvals C r (2 ^ k) (E.init.dom (2 ^ k)).gen τ α β (E.init.cmtBytes r.commitment)) hw
    (by simp [trapdoorEvals, P2File.scaleParams, trapdoorFile]) (by simp [trapdoorEvals, P2File.scaleParams, trapdoorFile])
    (by simp [trapdoorEvals, P2File.scaleParams, trapdoorFile]) (by simpa [trapdoorEvals] using hp) (by simp [trapdoorEvals])
    ck hck rest junk).2
  rw [provingKeyOf_trapdoor hC] at e1
  rw [← hK] at h1
  exact keys_run E d path s fs _ _ _ _ _ h1 h2 hpath e1 e2

/-! ### C44: `p2np` and `p2n` -/

/-- `p2np` is `Initialize` on the circuit whose parts it reads, if the number of constraints is given correctly -/
theorem p2np_initialize (d : Draws F) (p1 out sess sn sm sb : String) (n m b : Nat) (hn : Denotes sn n) (hm : Denotes sm m)
    (hb : Denotes sb b) (hn' : n < 2 ^ 63) (hm' : m < 2 ^ 63) (hb' : b < 2 ^ 63) (fs : FS) (phase1 : Bytes) (r : R1CS F)
    (h1 : fs p1 = some phase1) (hcount : r.nbConstraints = r.constraints.length) (hnr : n = r.constraints.length)
    (hparts : SameSystem (E.parted (fs.set out []) sess m b) r) :
    exec C E d "p2np" [p1, sess, out, sn, sm, sb] fs
      = ((initializeFiles C E.init d.par (some r) (if p1 = out then [] else phase1) (old fs "srs.lag") (old fs "evals")).1,
        saveInit fs out (initializeFiles C E.init d.par (some r) (if p1 = out then [] else phase1) (old fs "srs.lag") (old fs "evals")).2) := by
  have x1 := (atoi_iff sn n).mpr ⟨hn, by omega, by omega⟩
  have x2 := (atoi_iff sm m).mpr ⟨hm, by omega, by omega⟩
  have x3 := (atoi_iff sb b).mpr ⟨hb, by omega, by omega⟩
  simp only [exec, p2np, p2npRun, arg, List.getD_cons_zero, List.getD_cons_succ, List.length_cons, List.length_nil, x1, x2, x3, openFile,
    h1, contentsAfterCreate]
  rw [if_neg (by simp)]
  have := C44_parted (C := C) E.init d.par r _ hcount hparts.nbPublic hparts.nbSecret hparts.nbInternal hparts.coefficients
    hparts.commitment hparts.constraints (if p1 = out then [] else phase1) (old fs "srs.lag") (old fs "evals")
  rw [hcount, ← hnr] at this
  rw [this]

/-- **C44** at the command line: given the parts of the circuit in `circ` and the number of its constraints, `p2np` does what `p2n`
does, on every directory, also if it fails. -/
theorem C44_command (d : Draws F) (p1 circ out sess sn sm sb : String) (n m b : Nat) (hn : Denotes sn n) (hm : Denotes sm m)
    (hb : Denotes sb b) (hn' : n < 2 ^ 63) (hm' : m < 2 ^ 63) (hb' : b < 2 ^ 63) (fs : FS) (rs : Bytes) (r : R1CS F)
    (h2 : fs circ = some rs) (h3 : E.r1cs rs = some r) (hcirc : circ ≠ out) (hcount : r.nbConstraints = r.constraints.length)
    (hnr : n = r.constraints.length) (hparts : SameSystem (E.parted (fs.set out []) sess m b) r) :
    exec C E d "p2np" [p1, sess, out, sn, sm, sb] fs = exec C E d "p2n" [p1, circ, out] fs := by
  cases h1 : fs p1 with
  | none =>
    have x1 := (atoi_iff sn n).mpr ⟨hn, by omega, by omega⟩
    have x2 := (atoi_iff sm m).mpr ⟨hm, by omega, by omega⟩
    have x3 := (atoi_iff sb b).mpr ⟨hb, by omega, by omega⟩
    simp only [exec, p2np, p2n, p2npRun, arg, List.getD_cons_zero, List.getD_cons_succ, List.length_cons, List.length_nil, x1, x2, x3,
      openFile, h1]
    rfl
  | some phase1 =>
    rw [p2np_initialize E d p1 out sess sn sm sb n m b hn hm hb hn' hm' hb' fs phase1 r h1 hcount hnr hparts]
    simp only [exec, p2n, arg, List.getD_cons_zero, List.getD_cons_succ, List.length_cons, List.length_nil, openFile, h1,
      set_other _ _ hcirc, h2, h3, contentsAfterCreate]
    rfl

/-! ### C52: whole sessions with `keys`, `sol` and `p2np` -/

/-- `keys` and `sol` after an honest phase 2 -/
theorem keys_session (hC : C.Lawful) (hK : E.keys.header = E.init.header) (ck : Bytes) (hck : E.keys.commitmentKey [] = .ok ck)
    (dk ds : Draws F) (path s : String) (fs : FS) (b : Nat) (r : R1CS F) (k : Nat) (τ α β δ : F) (final evals text : Bytes)
    (h : HonestRun C E.init b r k τ α β δ final evals) (h1 : fs path = some final) (h2 : fs "evals" = some evals)
    (hpath : path ∉ splitNames s)
    (hsol : E.solidity ((trapdoorVK C r k (E.init.dom (2 ^ k)).gen τ α β δ).encode C ck E.keys.noCommitment) = some text) :
    ∃ fs', session C E [⟨dk, "keys", [path, s]⟩, ⟨ds, "sol", [s]⟩] fs = .ok fs' ∧
      (∀ f ∈ splitFiles s ((trapdoorPK C r k (E.init.dom (2 ^ k)).gen τ α β δ).encodeSplit C)
        ((trapdoorVK C r k (E.init.dom (2 ^ k)).gen τ α β δ).encode C ck E.keys.noCommitment) (ck ++ ck), fs' f.1 = some f.2) ∧
      fs' (s ++ ".sol") = some text := by
  obtain ⟨fs', g1, g2, g3⟩ := C39_honest E hC hK ck hck dk path s fs b r k τ α β δ final evals [] h h1 (by rw [List.append_nil, h2]) hpath
  have hvk := g2 (s ++ ".vk.save", _) (by simp [splitFiles]; rfl)
  have e : exec C E ds "sol" [s] fs' = (.ok (), fs'.set (s ++ ".sol") text) := by
    simp only [exec, sol, arg, List.getD_cons_zero, hvk, Option.bind_some, hsol]
    rfl
  refine ⟨fs'.set (s ++ ".sol") text, ?_, ?_, set_self _ _ _⟩
  · rw [session_cons E g1, session_cons E e]
    rfl
  · intro f hf
    rw [set_other, g2 f hf]
    simp only [splitFiles, List.mem_cons, List.not_mem_nil, or_false] at hf
    rcases hf with rfl | rfl | rfl | rfl | rfl | rfl | rfl | rfl <;> exact append_ne (by decide) s

/-- **C52** with split keys: `p2n` with honest input, a relay of contributions that leaves the initial file and `evals` alone, `p2v`,
`keys` and `sol`. All commands succeed; the eight files of the session hold the keys of the circuit for the trapdoor of the phase 1
file and the product of the contributions, and the contract is that of this verifying key. -/
theorem C52_split_partial (hC : C.Lawful) (hK : E.keys.header = E.init.header) (ck : Bytes) (hck : E.keys.commitmentKey [] = .ok ck)
    (hb : 0 < E.batch) (d dv dk ds : Draws F) (p1 circ first s : String) (fs : FS) (phase1 rs text : Bytes) (r : R1CS F) (k : Nat)
    (τ α β : F) (h : HonestInput C E.init r k τ α β phase1) (hpc : r.PublicCommitment) (h1 : fs p1 = some phase1)
    (h2 : fs circ = some rs) (h3 : E.r1cs rs = some r) (hp1 : p1 ≠ first) (hcirc : circ ≠ first) (ho1 : first ≠ "srs.lag")
    (ho2 : first ≠ "evals") (steps : List (Draws F × String)) (hne : steps ≠ []) (hk : steps.length < 2 ^ 63 - 1)
    (hno : NoOverwrite first (steps.map Prod.snd)) (hkeep : first ∉ steps.map Prod.snd) (hev : "evals" ∉ steps.map Prod.snd)
    (hlast : lastFile first steps ∉ splitNames s) (hd : ∀ s ∈ steps, s.1.contribute2.delta ≠ 0)
    (hs : (trapdoorFile C r k (E.init.dom (2 ^ k)).gen τ α β).CeremonyNoStraddle C E.init.header (steps.map (·.1.contribute2)))
    (hsol : E.solidity ((trapdoorVK C r k (E.init.dom (2 ^ k)).gen τ α β (steps.map (·.1.contribute2.delta)).prod).encode C ck
      E.keys.noCommitment) = some text) :
    ∃ fs' : FS,
      session C E (⟨d, "p2n", [p1, circ, first]⟩ :: relay "p2c" first steps
        ++ [⟨dv, "p2v", [lastFile first steps, first]⟩, ⟨dk, "keys", [lastFile first steps, s]⟩, ⟨ds, "sol", [s]⟩]) fs = .ok fs' ∧
      (∀ f ∈ splitFiles s
        ((trapdoorPK C r k (E.init.dom (2 ^ k)).gen τ α β (steps.map (·.1.contribute2.delta)).prod).encodeSplit C)
        ((trapdoorVK C r k (E.init.dom (2 ^ k)).gen τ α β (steps.map (·.1.contribute2.delta)).prod).encode C ck E.keys.noCommitment)
        (ck ++ ck), fs' f.1 = some f.2) ∧
      fs' (s ++ ".sol") = some text := by
  obtain ⟨fs2, out, evals, g1, g2, g3, hr⟩ := phase2_session E hC hb ⟨d, "p2n", [p1, circ, first]⟩ dv first fs phase1 r k τ α β h hpc
    (p2n_initialize E d p1 circ first fs phase1 rs r h1 h2 h3 hp1 hcirc) ho1 ho2 steps hne hk hno hkeep hev hd hs
  obtain ⟨fs', g4, g5, g6⟩ := keys_session E hC hK ck hck dk ds _ s fs2 _ r k τ α β _ out evals text hr g2 g3 hlast hsol
  exact ⟨fs', by rw [List.append_cons, session_append E _ _ _ _ g1, g4], g5, g6⟩

/-- **C52** for a circuit in parts: as `C52_split_partial` with `p2np`, if the number of constraints is given correctly and the loaded
parts are those of the circuit. -/
theorem C52_parted_partial (hC : C.Lawful) (hK : E.keys.header = E.init.header) (ck : Bytes) (hck : E.keys.commitmentKey [] = .ok ck)
    (hb : 0 < E.batch) (d dv dk ds : Draws F) (p1 sess first s sn sm sb : String) (n m b : Nat) (hn : Denotes sn n) (hm : Denotes sm m)
    (hsb : Denotes sb b) (hn' : n < 2 ^ 63) (hm' : m < 2 ^ 63) (hb' : b < 2 ^ 63) (fs : FS) (phase1 text : Bytes) (r : R1CS F) (k : Nat)
    (τ α β : F) (h : HonestInput C E.init r k τ α β phase1) (hpc : r.PublicCommitment) (h1 : fs p1 = some phase1)
    (hnr : n = r.constraints.length) (hparts : SameSystem (E.parted (fs.set first []) sess m b) r) (hp1 : p1 ≠ first)
    (ho1 : first ≠ "srs.lag") (ho2 : first ≠ "evals") (steps : List (Draws F × String)) (hne : steps ≠ [])
    (hk : steps.length < 2 ^ 63 - 1) (hno : NoOverwrite first (steps.map Prod.snd)) (hkeep : first ∉ steps.map Prod.snd)
    (hev : "evals" ∉ steps.map Prod.snd) (hlast : lastFile first steps ∉ splitNames s) (hd : ∀ s ∈ steps, s.1.contribute2.delta ≠ 0)
    (hs : (trapdoorFile C r k (E.init.dom (2 ^ k)).gen τ α β).CeremonyNoStraddle C E.init.header (steps.map (·.1.contribute2)))
    (hsol : E.solidity ((trapdoorVK C r k (E.init.dom (2 ^ k)).gen τ α β (steps.map (·.1.contribute2.delta)).prod).encode C ck
      E.keys.noCommitment) = some text) :
    ∃ fs' : FS,
      session C E (⟨d, "p2np", [p1, sess, first, sn, sm, sb]⟩ :: relay "p2c" first steps
        ++ [⟨dv, "p2v", [lastFile first steps, first]⟩, ⟨dk, "keys", [lastFile first steps, s]⟩, ⟨ds, "sol", [s]⟩]) fs = .ok fs' ∧
      (∀ f ∈ splitFiles s
        ((trapdoorPK C r k (E.init.dom (2 ^ k)).gen τ α β (steps.map (·.1.contribute2.delta)).prod).encodeSplit C)
        ((trapdoorVK C r k (E.init.dom (2 ^ k)).gen τ α β (steps.map (·.1.contribute2.delta)).prod).encode C ck E.keys.noCommitment)
        (ck ++ ck), fs' f.1 = some f.2) ∧
      fs' (s ++ ".sol") = some text := by
  have hi := p2np_initialize (C := C) E d p1 first sess sn sm sb n m b hn hm hsb hn' hm' hb' fs phase1 r h1 h.valid.count hnr hparts
  rw [if_neg hp1] at hi
  obtain ⟨fs2, out, evals, g1, g2, g3, hr⟩ := phase2_session E hC hb ⟨d, "p2np", [p1, sess, first, sn, sm, sb]⟩ dv first fs phase1 r k
    τ α β h hpc hi ho1 ho2 steps hne hk hno hkeep hev hd hs
  obtain ⟨fs', g4, g5, g6⟩ := keys_session E hC hK ck hck dk ds _ s fs2 _ r k τ α β _ out evals text hr g2 g3 hlast hsol
  exact ⟨fs', by rw [List.append_cons, session_append E _ _ _ _ g1, g4], g5, g6⟩

/-! ### C57 -/

theorem atoi_noPanic (s : String) (e : Fail) (h : atoi s = .error e) {β : Type} : ¬ Panics (.error e : Except Fail β) := by
  unfold atoi at h
  split at h
  · split at h
    · cases h
    · cases h; exact not_panics_err _
  · cases h; exact not_panics_err _

/-- **C57**, the command `p2np`: if it crashes, then its arguments 4, 5 and 6 are numbers `n`, `m`, `b`, and the parts of the
constraint system that it reads, cut off after `n` constraints, are not those of a supported circuit. The contents of the phase 1
file, of `srs.lag` and of `evals` have no influence. -/
theorem C57_p2np (hC : C.Lawful) (d : Draws F) (args : List String) (fs : FS)
    (hdom : ∀ n k, Denotes (args.getD 3 "") n → IsDomain n.toNat k → k ≤ 27 → (E.init.dom (2 ^ k)).Lawful k)
    (hp : Panics (exec C E d "p2np" args fs).1) :
    ∃ n m b, Denotes (args.getD 3 "") n ∧ Denotes (args.getD 4 "") m ∧ Denotes (args.getD 5 "") b ∧
      ∀ r : R1CS F, SameSystem (E.parted (fs.set (args.getD 2 "") []) (args.getD 1 "") m b) r → r.constraints.length = n.toNat →
        ¬ r.Supported := by
  change Panics (p2np C E d.par args fs).1 at hp
  unfold p2np at hp
  split at hp
  · exact (not_panics_err _ hp).elim
  split at hp
  · exact (atoi_noPanic _ _ ‹_› hp).elim
  rename_i n hn
  split at hp
  · exact (atoi_noPanic _ _ ‹_› hp).elim
  rename_i m hm
  split at hp
  · exact (atoi_noPanic _ _ ‹_› hp).elim
  rename_i b hb
  have hn' := ((atoi_iff _ _).mp hn).1
  refine ⟨n, m, b, hn', ((atoi_iff _ _).mp hm).1, ((atoi_iff _ _).mp hb).1, fun r hr hl hs => ?_⟩
  unfold p2npRun openFile at hp
  cases hf : fs (arg args 0) with
  | none => rw [hf] at hp; exact not_panics_err _ hp
  | some bs =>
    rw [hf] at hp
    obtain ⟨k, hk⟩ := isDomain_exists r.constraints.length
    have hk27 : k ≤ 27 := isDomain_le hk (by omega) hs.size
    exact C57_parted_partial hC E.init d.par r hs.valid hs.commitment k hk hk27 (hdom n k hn' (hl ▸ hk) hk27) _ hr.nbPublic
      hr.nbSecret hr.nbInternal hr.coefficients hr.commitment hr.constraints n hl.symm _ _ _ hp

end

-- two contributions to the trapdoor file of the toy circuit
example := C52_split_partial Toy.cliEnv Toy.lawful rfl [0] rfl (by decide) Toy.draws Toy.draws Toy.draws Toy.draws "srs"
  "one" "0.ph2" "main" Toy.files _ _ _ Toy.circuit 2 1 5 7 (Toy.input Toy.circuit (.inl rfl)).1 Toy.circuit_nc.publicCommitment rfl rfl rfl
  (by decide) (by decide) (by decide) (by decide) [(Toy.draws, "1.ph2"), (Toy.draws', "2.ph2")] (by simp) (by simp)
  (by simp [NoOverwrite]) (by simp) (by simp) (by decide) (by simp; decide) (Toy.noStraddle _ _ _) rfl

theorem Toy.parted_same (fs : FS) (m b : Int) : SameSystem (Toy.cliEnv.parted fs "main" m b) Toy.circuit :=
  ⟨rfl, rfl, rfl, rfl, rfl, Toy.parted_get⟩

example := C52_parted_partial Toy.cliEnv Toy.lawful rfl [0] rfl (by decide) Toy.draws Toy.draws Toy.draws Toy.draws "srs" "main" "0.ph2"
  "main" "3" "5" "2" 3 5 2 (Toy.denotes rfl) (Toy.denotes rfl) (Toy.denotes rfl) (by decide) (by decide) (by decide) Toy.files _ _
  Toy.circuit 2 1 5 7 (Toy.input Toy.circuit (.inl rfl)).1 Toy.circuit_nc.publicCommitment rfl rfl (Toy.parted_same _ _ _) (by decide)
  (by decide) (by decide) [(Toy.draws, "1.ph2"), (Toy.draws', "2.ph2")] (by simp) (by simp)
  (by simp [NoOverwrite]) (by simp) (by simp) (by decide) (by simp; decide) (Toy.noStraddle _ _ _) rfl

example := C44_command (C := Toy.curve) Toy.cliEnv Toy.draws "srs" "one" "0.ph2" "main" "3" "5" "2" 3 5 2 (Toy.denotes rfl) (Toy.denotes rfl)
  (Toy.denotes rfl) (by decide) (by decide) (by decide) Toy.files _ Toy.circuit rfl rfl (by decide) rfl rfl (Toy.parted_same _ _ _)

-- `p2np` with the right number of constraints does not crash, whatever the phase 1 file holds; a number beyond `2^27` crashes
example (bs : Bytes) : ¬ Panics (exec Toy.curve Toy.cliEnv Toy.draws "p2np" ["srs", "main", "0.ph2", "3", "5", "2"] (Toy.files.set "srs" bs)).1 := by
  have hd : ∀ n, Denotes "3" n → n = 3 := fun n h => by
    have h1 := (atoiSigned_iff _ _).mpr h
    have h2 : atoiSigned "3".toList = some 3 := rfl
    rw [h2] at h1
    exact (Option.some.inj h1).symm
  intro hp
  obtain ⟨n, m, b, hn, -, -, h⟩ := C57_p2np Toy.cliEnv Toy.lawful Toy.draws _ _ (by
    intro n k hn hk _
    obtain rfl := hd n hn
    have h2 : k = 2 := by
      have h1 := hk.least 2 (by decide) (by decide)
      have h3 := hk.fits
      have h4 := hk.two
      interval_cases k <;> simp_all
    subst h2
    exact dom4_lawful) hp
  obtain rfl := hd n hn
  exact h Toy.circuit (Toy.parted_same _ _ _) rfl ⟨Toy.circuit_valid, Toy.circuit_nc.publicCommitment, by decide⟩
example : Panics (exec Toy.curve Toy.cliEnv Toy.draws "p2np" ["srs", "main", "0.ph2", "134217729", "5", "2"] Toy.files).1 :=
  ⟨_, rfl⟩

/-- a directory with a phase 2 file and `evals` -/
def Toy.dir (ph2 evals : Bytes) : FS := FS.set (FS.set (fun _ => none) "1.ph2" ph2) "evals" evals

theorem Toy.dir_ph2 (ph2 evals : Bytes) : Toy.dir ph2 evals "1.ph2" = some ph2 :=
  (set_other _ _ (by decide)).trans (set_self _ _ _)

theorem Toy.dir_evals (ph2 evals : Bytes) : Toy.dir ph2 evals "evals" = some evals := set_self _ _ _

-- an honest run in a directory, split keys for the session `main`
example : ∃ (fs : FS) (fs' : FS), exec Toy.curve Toy.cliEnv Toy.draws "keys" ["1.ph2", "main"] fs = (.ok (), fs') ∧
    fs' "main.pk.CommitmentKey.save" = some [0, 0] := by
  obtain ⟨final, evals, h⟩ := Toy.run
  obtain ⟨fs', h1, h2, -⟩ := C39_honest Toy.cliEnv Toy.lawful rfl [0] rfl Toy.draws "1.ph2" "main"
    (Toy.dir final (evals ++ [7])) _ Toy.circuit 2 3 5 7 _ final evals [7] h (Toy.dir_ph2 _ _) (Toy.dir_evals _ _) (by decide)
  exact ⟨_, fs', h1, h2 ("main.pk.CommitmentKey.save", [0, 0]) (by simp [splitFiles])⟩

-- on the toy phase 2 file, with different draws of the commitment key
example := C39_command_files_partial Toy.cliEnv Toy.lawful Gob.lawful (fun _ => .ok [3]) (fun _ => ⟨fun _ => ⟨_, rfl⟩, fun _ => ⟨_, rfl⟩⟩)
  Toy.draws Toy.draws "1.ph2" "main" (Toy.dir (Toy.p2.encode Toy.curve Toy.cliEnv.keys.header ++ [1]) (Toy.largeEvals.encode Toy.curve))
  Toy.p2 Toy.p2_wf (by decide) [1] (Toy.largeEvals.encode Toy.curve) (Toy.dir_ph2 _ _) (Toy.dir_evals _ _) (by decide) (by decide)

end ZkSetup
