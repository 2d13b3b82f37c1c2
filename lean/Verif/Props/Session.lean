import Verif.Spec.Session
import Verif.Spec.Phase1Ceremony
import Verif.Spec.Phase2Ceremony
import Verif.Props.Cli
import Verif.Props.Transform
import Verif.Props.Phase2Align
/-
Properties of whole ceremonies run from the command line: C52, C53.
-/
set_option linter.unusedSectionVars false

namespace ZkSetup

open Cli Phase2 Keys
open Phase1 (batchSize)

section
variable {F G1 G2 GT : Type} [Field F] [AddCommGroup G1] [Module F G1] [AddCommGroup G2]
  [Module F G2] [AddCommGroup GT] [Module F GT] [DecidableEq G1] [DecidableEq G2] [DecidableEq GT]
variable {C : Curve F G1 G2 GT} (E : Env F G1)

/-! ### C53: what the verification commands decide -/

/-- **C53**: the verification commands give the verdict of `Verify` on the files named, fail if one is missing, and change
nothing. -/
theorem C53_verify_commands (d : Draws F) (inp other : String) (fs : FS) (bs bs' : Bytes) (h : fs inp = some bs)
    (h' : fs other = some bs') (hne : other ≠ "") :
    exec C E d "p1v" [inp] fs = (Phase1.verify C d.par E.pol E.batch d.verify1 bs none, fs) ∧
    exec C E d "p1vt" [inp, other] fs = (Phase1.verify C d.par E.pol E.batch d.verify1 bs (some bs'), fs) ∧
    exec C E d "p2v" [inp, other] fs = (Phase2.verify C E.init.header d.par E.batch d.verify2 bs bs', fs) := by
  refine ⟨?_, ?_, ?_⟩
  · simp [exec, p1v, p1Verify, openFile, openTransformed, arg, h]
    rfl
  · simp [exec, p1vt, p1Verify, openFile, openTransformed, arg, h, h', hne, Except.map]
    rfl
  · simp [exec, p2v, p2Verify, openFile, arg, h, h']
    rfl

/-- **C53**: a missing input is an error and nothing is changed, for all commands that read a file named by their first
argument (except `p1t`, whose powers may be wrong as well, and `sol`). -/
theorem C53_missing_input (d : Draws F) (inp other third : String) (fs : FS) (h : fs inp = none) :
    ∃ m, exec C E d "p1v" [inp] fs = (.error (.err m), fs) ∧ exec C E d "p1vt" [inp, other] fs = (.error (.err m), fs) ∧
      exec C E d "p2v" [inp, other] fs = (.error (.err m), fs) ∧ exec C E d "p1c" [inp, other] fs = (.error (.err m), fs) ∧
      exec C E d "p2c" [inp, other] fs = (.error (.err m), fs) ∧ exec C E d "p2n" [inp, other, third] fs = (.error (.err m), fs) ∧
      exec C E d "key" [inp] fs = (.error (.err m), fs) ∧ exec C E d "keys" [inp, other] fs = (.error (.err m), fs) := by
  refine ⟨"no such file or directory", ?_, ?_, ?_, ?_, ?_, ?_, ?_, ?_⟩ <;>
    simp [exec, p1v, p1vt, p2v, p1c, p2c, p2n, key, Cli.keys, inOrder, withFiles, p1Verify, p2Verify, openFile, arg, h] <;> rfl

/-- **C53**: a missing second file is an error for the verification commands. -/
theorem C53_missing_origin (d : Draws F) (inp other : String) (fs : FS) (h : fs other = none) (hne : other ≠ "") :
    (∃ e, exec C E d "p1vt" [inp, other] fs = (.error e, fs)) ∧ (∃ e, exec C E d "p2v" [inp, other] fs = (.error e, fs)) := by
  constructor
  · cases hi : fs inp with
    | none => exact ⟨_, by simp [exec, p1vt, p1Verify, openFile, arg, hi]; rfl⟩
    | some bs => exact ⟨_, by simp [exec, p1vt, p1Verify, openFile, openTransformed, arg, hi, h, hne, Except.map]; rfl⟩
  · cases hi : fs inp with
    | none => exact ⟨_, by simp [exec, p2v, p2Verify, openFile, arg, hi]; rfl⟩
    | some bs => exact ⟨_, by simp [exec, p2v, p2Verify, openFile, arg, hi, h]; rfl⟩

/-! ### C52: whole ceremonies -/

theorem session_append (cs cs' : List (Command F)) (fs fs' : FS) (h : session C E cs fs = .ok fs') :
    session C E (cs ++ cs') fs = session C E cs' fs' := by
  induction cs generalizing fs with
  | nil =>
    simp only [session, Except.ok.injEq] at h
    rw [h, List.nil_append]
  | cons c cs ih =>
    simp only [session] at h
    rw [List.cons_append, session]
    split at h
    · exact ih _ h
    · simp at h

theorem session_cons {c : Command F} {cs : List (Command F)} {fs fs' : FS} (h : exec C E c.draws c.name c.args fs = (.ok (), fs')) :
    session C E (c :: cs) fs = session C E cs fs' := by
  simp only [session, h]

theorem lastFile_cons (inp : String) (d : Draws F) (out : String) (rest : List (Draws F × String)) :
    lastFile inp ((d, out) :: rest) = lastFile out rest := by
  unfold lastFile
  rw [List.map_cons, List.getLast?_cons]
  rfl

/-- a relay of `p1c` is the ceremony on the contents of the files -/
theorem relay_p1c (steps : List (Draws F × String)) : ∀ (inp : String) (fs : FS) (bs final : Bytes), fs inp = some bs →
    NoOverwrite inp (steps.map Prod.snd) →
    p1Ceremony C E.batch (steps.map fun s => (s.1.par, s.1.contribute1)) bs = .ok final →
    ∃ fs', session C E (relay "p1c" inp steps) fs = .ok fs' ∧ fs' (lastFile inp steps) = some final ∧
      ∀ q, q ∉ steps.map Prod.snd → fs' q = fs q := by
  induction steps with
  | nil =>
    intro inp fs bs final h _ hc
    simp only [List.map_nil, p1Ceremony, Except.ok.injEq] at hc
    subst hc
    exact ⟨fs, rfl, h, fun _ _ => rfl⟩
  | cons s rest ih =>
    obtain ⟨d, out⟩ := s
    intro inp fs bs final h hno hc
    obtain ⟨hio, hno⟩ := hno
    simp only [List.map_cons, p1Ceremony] at hc
    split at hc
    · rename_i hash o hrun
      have hex : exec C E d "p1c" [inp, out] fs = (.ok (), fs.set out o) := by
        simp [exec, p1c, openFile, arg, h, contentsAfterCreate, hio, hrun, Except.map]
      obtain ⟨fs', h1, h2, h3⟩ := ih out (fs.set out o) o final (set_self _ _ _) hno hc
      refine ⟨fs', ?_, ?_, ?_⟩
      · rw [relay, session_cons E hex]; exact h1
      · rw [lastFile_cons]; exact h2
      · intro q hq
        simp only [List.map_cons, List.mem_cons, not_or] at hq
        rw [h3 q hq.2, set_other _ _ hq.1]
    · simp at hc

/-- a relay of `p2c` is the ceremony on the contents of the files -/
theorem relay_p2c (steps : List (Draws F × String)) : ∀ (inp : String) (fs : FS) (bs final : Bytes), fs inp = some bs →
    NoOverwrite inp (steps.map Prod.snd) →
    p2Ceremony C E.init.header E.batch (steps.map fun s => (s.1.par, s.1.contribute2)) bs = .ok final →
    ∃ fs', session C E (relay "p2c" inp steps) fs = .ok fs' ∧ fs' (lastFile inp steps) = some final ∧
      ∀ q, q ∉ steps.map Prod.snd → fs' q = fs q := by
  induction steps with
  | nil =>
    intro inp fs bs final h _ hc
    simp only [List.map_nil, p2Ceremony, Except.ok.injEq] at hc
    subst hc
    exact ⟨fs, rfl, h, fun _ _ => rfl⟩
  | cons s rest ih =>
    obtain ⟨d, out⟩ := s
    intro inp fs bs final h hno hc
    obtain ⟨hio, hno⟩ := hno
    simp only [List.map_cons, p2Ceremony] at hc
    split at hc
    · rename_i hash o hrun
      have hex : exec C E d "p2c" [inp, out] fs = (.ok (), fs.set out o) := by
        simp [exec, p2c, openFile, arg, h, contentsAfterCreate, hio, hrun, Except.map]
      obtain ⟨fs', h1, h2, h3⟩ := ih out (fs.set out o) o final (set_self _ _ _) hno hc
      refine ⟨fs', ?_, ?_, ?_⟩
      · rw [relay, session_cons E hex]; exact h1
      · rw [lastFile_cons]; exact h2
      · intro q hq
        simp only [List.map_cons, List.mem_cons, not_or] at hq
        rw [h3 q hq.2, set_other _ _ hq.1]
    · simp at hc

variable (hC : C.Lawful)
include hC

/-- **C52**, phase 1: `p1n` with a power from 1 to 26, a relay of 1 to 65535 contributions and `p1v` on the last file. All commands
succeed, the last file holds the powers of the products of the secrets, and no other files are changed. -/
theorem C52_phase1_partial (hpol : E.pol = .strict) (hb : 2 ≤ E.batch) (s : String) (n : Nat) (hs : Denotes s n) (hn1 : 1 ≤ n)
    (hn : n ≤ 26) (first : String) (d dv : Draws F) (steps : List (Draws F × String)) (hne : steps ≠ []) (hk : steps.length < 65536)
    (hno : NoOverwrite first (steps.map Prod.snd)) (fs : FS) :
    ∃ (fs' : FS) (f : P1File G1 G2),
      session C E (⟨d, "p1n", [s, first]⟩ :: relay "p1c" first steps ++ [⟨dv, "p1v", [lastFile first steps]⟩]) fs = .ok fs' ∧
      fs' (lastFile first steps) = some (f.encode C) ∧ f.WF ∧ f.power.toNat = n ∧ f.records.length = steps.length ∧
      f.Powers C (steps.map fun s => s.1.contribute1.tau).prod (steps.map fun s => s.1.contribute1.alpha).prod
        (steps.map fun s => s.1.contribute1.beta).prod ∧
      ∀ q, q ≠ first → q ∉ steps.map Prod.snd → fs' q = fs q := by
  have hp : (UInt8.ofNat n).toNat = n := by simp; omega
  have hbyte : toByte (n : Int) = UInt8.ofNat n := by
    unfold toByte
    rw [show ((n : Int) % 256).toNat = n by omega]
  have e1 : exec C E d "p1n" [s, first] fs = (.ok (), fs.set first (Phase1.initializeFile C (UInt8.ofNat n))) := by
    rw [← hbyte]; exact p1n_run s first n hs (by omega) (by omega) fs
  have hk' : (steps.map fun s => (s.1.par, s.1.contribute1)).length < 65536 := by simpa using hk
  obtain ⟨f, hc, hwf, hpow, hpw⟩ := C09_ceremony_powers hC E.batch hb (UInt8.ofNat n) (by omega) (by omega)
    (steps.map fun s => (s.1.par, s.1.contribute1)) hk'
  obtain ⟨out, hc', hacc⟩ := C11_honest_accepted hC E.batch hb (UInt8.ofNat n) (by omega) (by omega)
    (steps.map fun s => (s.1.par, s.1.contribute1)) (by simpa using hne) hk'
  rw [hc, Except.ok.injEq] at hc'
  subst hc'
  obtain ⟨out, h, hc', hhd, -, hcnt, hlen⟩ := C06_counter_partial hC E.batch hb (UInt8.ofNat n) (by omega) (by omega)
    (steps.map fun s => (s.1.par, s.1.contribute1)) hk'
  rw [hc, Except.ok.injEq] at hc'
  subst hc'
  have hrec : f.records.length = steps.length := by
    have := header_of_encode hC f hwf []
    rw [List.append_nil] at this
    rw [this] at hhd
    simp only [Except.ok.injEq] at hhd
    subst hhd
    have hw := hwf.count
    simp only [List.length_map] at hcnt
    rw [← hcnt]
    simp
    omega
  obtain ⟨fs', h1, h2, h3⟩ := relay_p1c E steps first (fs.set first (Phase1.initializeFile C (UInt8.ofNat n))) _ _ (set_self _ _ _)
    hno hc
  refine ⟨fs', f, ?_, h2, hwf, by rw [hpow, hp], hrec, by simpa [List.map_map, Function.comp_def] using hpw, ?_⟩
  · rw [List.cons_append, session_cons E e1, session_append E _ _ _ _ h1]
    refine session_cons E (fs' := fs') ?_
    show exec C E dv "p1v" [lastFile first steps] fs' = _
    simp only [exec, p1v, p1Verify, openFile, openTransformed, arg, List.getD_cons_zero, h2, hpol, if_true, List.length_cons,
      List.length_nil]
    have := hacc dv.par E.batch (by omega) dv.verify1
    rw [if_neg (by simp)]
    simp only [bind, Except.bind, this]
  · intro q hq1 hq2
    rw [h3 q hq2, set_other _ _ hq1]

/-- **C52**, from a transformed response: `p1t` from a power of at most 54 to a power of at least 1, a relay of contributions that
leaves the transformed file alone, and `p1vt`. All commands succeed and the last file holds powers of the products of the secrets
with those in the response. -/
theorem C52_transformed_partial (hpol : E.pol = .strict) (hb : 2 ≤ E.batch) (sa sb : String) (a b : Nat) (ha : Denotes sa a)
    (hb' : Denotes sb b) (ha54 : a ≤ 54) (hb1 : 1 ≤ b) (hab : b ≤ a) (resp first : String) (hrf : resp ≠ first) (hfirst : first ≠ "")
    (d dv : Draws F) (steps : List (Draws F × String)) (hne : steps ≠ []) (hk : steps.length < 65536)
    (hno : NoOverwrite first (steps.map Prod.snd)) (hkeep : first ∉ steps.map Prod.snd) (fs : FS) (r : Response G1 G2)
    (hr : r.WF a) (τ α β : F) (h1 : ∀ i < 2 * 2 ^ a - 1, r.tauG1[i]? = some (τ ^ i • C.g1))
    (h2 : ∀ i < 2 ^ a, r.alphaG1[i]? = some ((α * τ ^ i) • C.g1) ∧ r.betaG1[i]? = some ((β * τ ^ i) • C.g1)
      ∧ r.tauG2[i]? = some (τ ^ i • C.g2)) (h3 : r.betaG2 = β • C.g2) (hfs : fs resp = some (r.encode C)) :
    ∃ (fs' : FS) (f : P1File G1 G2),
      session C E (⟨d, "p1t", [resp, first, sa, sb]⟩ :: relay "p1c" first steps ++ [⟨dv, "p1vt", [lastFile first steps, first]⟩]) fs
        = .ok fs' ∧
      fs' (lastFile first steps) = some (f.encode C) ∧ f.WF ∧ f.power.toNat = b ∧
      f.Powers C (τ * (steps.map fun s => s.1.contribute1.tau).prod) (α * (steps.map fun s => s.1.contribute1.alpha).prod)
        (β * (steps.map fun s => s.1.contribute1.beta).prod) := by
  have hpa : (UInt8.ofNat a).toNat = a := by simp; omega
  have hpb : (UInt8.ofNat b).toNat = b := by simp; omega
  have hby : ∀ n : Nat, n ≤ 54 → toByte (n : Int) = UInt8.ofNat n := by
    intro n hn
    unfold toByte
    rw [show ((n : Int) % 256).toNat = n by omega]
  have hle : UInt8.ofNat b ≤ UInt8.ofNat a := by rw [UInt8.le_iff_toNat_le, hpa, hpb]; exact hab
  obtain ⟨t, ht, htwf, htp, htpow, htr⟩ := C18_powers hC r (UInt8.ofNat a) (UInt8.ofNat b) (by omega) hle (by rw [hpa]; exact hr) τ α β
    (by rw [hpa]; exact h1) (by rw [hpa]; exact h2) h3
  have e1 : exec C E d "p1t" [resp, first, sa, sb] fs = (.ok (), fs.set first (t.encode C)) := by
    have x1 := (atoi_iff sa a).mpr ⟨ha, by omega, by omega⟩
    have x2 := (atoi_iff sb b).mpr ⟨hb', by omega, by omega⟩
    simp only [exec, p1t, p1tRun, openFile, arg, List.getD_cons_zero, List.getD_cons_succ, hfs, List.length_cons, List.length_nil,
      x1, x2, hby a ha54, hby b (by omega), if_neg hrf, ht]
    rw [if_neg (by simp), if_neg (by omega)]
  have hk' : (steps.map fun s => (s.1.par, s.1.contribute1)).length < 65536 := by simpa using hk
  obtain ⟨out, hc, hacc⟩ := C12_transformed_accepted hC E.batch hb t htwf (by rw [htpow, hpb]; exact hb1) htr τ α β htp
    (steps.map fun s => (s.1.par, s.1.contribute1)) (by simpa using hne) hk'
  have hreg := htp.regular
  have hinv := ceremony_inv hC (((steps.map fun s => (s.1.par, s.1.contribute1))).map Prod.snd) t htwf hreg (by simpa [htr] using hk)
  have hbytes := p1Ceremony_bytes hC E.batch hb (steps.map fun s => (s.1.par, s.1.contribute1)) t htwf hreg
    (by rw [htpow, hpb]; exact hb1) (by simpa [htr] using hk)
  rw [hc, Except.ok.injEq] at hbytes
  subst hbytes
  obtain ⟨fs', g1, g2, g3⟩ := relay_p1c E steps first (fs.set first (t.encode C)) _ _ (set_self _ _ _) hno hc
  refine ⟨fs', _, ?_, g2, hinv.1, by rw [hinv.2.2.1, htpow, hpb], ?_⟩
  · rw [List.cons_append, session_cons E e1, session_append E _ _ _ _ g1]
    refine session_cons E (fs' := fs') ?_
    have hf : fs' first = some (t.encode C) := by rw [g3 first hkeep, set_self]
    have hv := hacc dv.par E.batch (by omega) dv.verify1 []
    rw [List.append_nil, ← hpol] at hv
    have := (C53_verify_commands (C := C) E dv (lastFile first steps) first fs' _ _ g2 hf hfirst).2.1
    exact this.trans (by rw [hv])
  · have := ceremony_powers (((steps.map fun s => (s.1.par, s.1.contribute1))).map Prod.snd) t τ α β htp
    simpa [List.map_map, Function.comp_def] using this

omit hC in
/-- `p2n` is `Initialize` on the files named, unless the output is one of them -/
theorem p2n_initialize (d : Draws F) (p1 circ out : String) (fs : FS) (phase1 rs : Bytes) (r : R1CS F) (h1 : fs p1 = some phase1)
    (h2 : fs circ = some rs) (h3 : E.r1cs rs = some r) (hp1 : p1 ≠ out) (hcirc : circ ≠ out) :
    exec C E d "p2n" [p1, circ, out] fs
      = ((initializeFiles C E.init d.par (some r) phase1 (old fs "srs.lag") (old fs "evals")).1,
        saveInit fs out (initializeFiles C E.init d.par (some r) phase1 (old fs "srs.lag") (old fs "evals")).2) := by
  simp only [exec, p2n, openFile, arg, List.getD_cons_zero, List.getD_cons_succ, h1, List.length_cons, List.length_nil,
    contentsAfterCreate, set_other _ _ hcirc, h2, h3, if_neg hp1]
  rw [if_neg (by simp)]

/-- A command that initialises from honest input (`p2n`, `p2np`), a relay of contributions and `p2v` succeed; the last file and
`evals` are those of an honest run. -/
theorem phase2_session (hb : 0 < E.batch) (c : Command F) (dv : Draws F) (first : String) (fs : FS) (phase1 : Bytes) (r : R1CS F)
    (k : Nat) (τ α β : F) (h : HonestInput C E.init r k τ α β phase1) (hpc : r.PublicCommitment)
    (hinit : exec C E c.draws c.name c.args fs
      = ((initializeFiles C E.init c.draws.par (some r) phase1 (old fs "srs.lag") (old fs "evals")).1,
        saveInit fs first (initializeFiles C E.init c.draws.par (some r) phase1 (old fs "srs.lag") (old fs "evals")).2))
    (ho1 : first ≠ "srs.lag")
    (ho2 : first ≠ "evals") (steps : List (Draws F × String)) (hne : steps ≠ []) (hk : steps.length < 2 ^ 63 - 1)
    (hno : NoOverwrite first (steps.map Prod.snd)) (hkeep : first ∉ steps.map Prod.snd) (hev : "evals" ∉ steps.map Prod.snd)
    (hd : ∀ s ∈ steps, s.1.contribute2.delta ≠ 0)
    (hs : (trapdoorFile C r k (E.init.dom (2 ^ k)).gen τ α β).CeremonyNoStraddle C E.init.header (steps.map (·.1.contribute2))) :
    ∃ (fs2 : FS) (out evals : Bytes),
      session C E (c :: relay "p2c" first steps ++ [⟨dv, "p2v", [lastFile first steps, first]⟩]) fs = .ok fs2 ∧
      fs2 (lastFile first steps) = some out ∧ fs2 "evals" = some evals ∧
      HonestRun C E.init E.batch r k τ α β (steps.map (·.1.contribute2.delta)).prod out evals := by
  obtain ⟨f, junk, hf, hpw, hkp, rfl⟩ := h.srs
  have e1 := init_honest hC E.init c.draws.par r h.valid hpc f hf τ α β hpw k h.domain h.size hkp h.root junk (old fs "srs.lag")
    (old fs "evals")
  rw [e1] at hinit
  have hwf := trapdoorFile_wf hC r h.valid hpc k h.domain h.size (E.init.dom (2 ^ k)).gen τ α β
  obtain ⟨out, hc, hacc⟩ := C31_honest_accepted_partial hC h.header E.batch hb _ hwf rfl
    (steps.map fun s => (s.1.par, s.1.contribute2)) (by simpa using hne) (by simpa using hk)
    (by rintro _ hx; obtain ⟨s, hs', rfl⟩ := List.mem_map.mp hx; exact hd s hs') (by simpa [List.map_map, Function.comp_def] using hs)
  generalize hfs1 : saveInit fs first _ = fs1 at hinit
  have hfirst : fs1 first = some ((trapdoorFile C r k (E.init.dom (2 ^ k)).gen τ α β).encode C E.init.header) := by
    rw [← hfs1]
    exact (set_other _ _ ho2).trans ((set_other _ _ ho1).trans (set_self _ _ _))
  have he : fs1 "evals" = some ((trapdoorEvals C r (2 ^ k) (E.init.dom (2 ^ k)).gen τ α β (E.init.cmtBytes r.commitment)).encode C) := by
    rw [← hfs1]
    exact set_self _ _ _
  obtain ⟨fs2, g1, g2, g3⟩ := relay_p2c E steps first fs1 _ _ hfirst hno hc
  have hr : HonestRun C E.init E.batch r k τ α β (deltaProduct ((steps.map fun s => (s.1.par, s.1.contribute2)).map Prod.snd)) out
      ((trapdoorEvals C r (2 ^ k) (E.init.dom (2 ^ k)).gen τ α β (E.init.cmtBytes r.commitment)).encode C) :=
    ⟨h.valid, h.commitment, h.domain, h.size, h.root, h.header, hb, c.draws.par, f, junk, old fs "srs.lag", old fs "evals", _, _, hf,
      hpw, hkp, e1, hc, rfl, rfl⟩
  have hdp : deltaProduct ((steps.map fun s => (s.1.par, s.1.contribute2)).map Prod.snd) = (steps.map (·.1.contribute2.delta)).prod := by
    simp [deltaProduct, List.map_map, Function.comp_def]
  rw [hdp] at hr
  refine ⟨fs2, out, _, ?_, g2, by rw [g3 _ hev, he], hr⟩
  rw [List.cons_append, session_cons E hinit, session_append E _ _ _ _ g1]
  have hv2 := hacc dv.par E.batch hb dv.verify2 [] []
  rw [List.append_nil, List.append_nil] at hv2
  have hp2v : exec C E dv "p2v" [lastFile first steps, first] fs2 = (.ok (), fs2) := by
    simp only [exec, p2v, p2Verify, openFile, arg, List.getD_cons_zero, List.getD_cons_succ, g2, g3 first hkeep, hfirst,
      List.length_cons, List.length_nil]
    rw [if_neg (by simp)]
    simp only [bind, Except.bind, hv2]
  rw [session_cons E hp2v]
  rfl

/-- **C52**, phase 2: `p2n` with honest input, a relay of contributions that leaves the initial file and `evals` alone, `p2v` of the last
file against the initial one, and `key`. All commands succeed, and the keys are those of the circuit for the trapdoor of the phase 1
file and the product of the contributions. -/
theorem C52_phase2_partial (hK : E.keys.header = E.init.header) (ck : Bytes) (hck : E.keys.commitmentKey [] = .ok ck)
    (hb : 0 < E.batch) (d dv dk : Draws F) (p1 circ first : String) (fs : FS) (phase1 rs : Bytes) (r : R1CS F) (k : Nat) (τ α β : F)
    (h : HonestInput C E.init r k τ α β phase1) (hpc : r.PublicCommitment) (h1 : fs p1 = some phase1) (h2 : fs circ = some rs)
    (h3 : E.r1cs rs = some r) (hp1 : p1 ≠ first) (hcirc : circ ≠ first) (ho1 : first ≠ "srs.lag") (ho2 : first ≠ "evals")
    (steps : List (Draws F × String)) (hne : steps ≠ []) (hk : steps.length < 2 ^ 63 - 1)
    (hno : NoOverwrite first (steps.map Prod.snd)) (hkeep : first ∉ steps.map Prod.snd) (hev : "evals" ∉ steps.map Prod.snd)
    (hpk : lastFile first steps ≠ "pk") (hd : ∀ s ∈ steps, s.1.contribute2.delta ≠ 0)
    (hs : (trapdoorFile C r k (E.init.dom (2 ^ k)).gen τ α β).CeremonyNoStraddle C E.init.header (steps.map (·.1.contribute2))) :
    ∃ fs' : FS,
      session C E (⟨d, "p2n", [p1, circ, first]⟩ :: relay "p2c" first steps
        ++ [⟨dv, "p2v", [lastFile first steps, first]⟩, ⟨dk, "key", [lastFile first steps]⟩]) fs = .ok fs' ∧
      fs' "pk" = some ((trapdoorPK C r k (E.init.dom (2 ^ k)).gen τ α β (steps.map (·.1.contribute2.delta)).prod).encode C
        (E.keys.domain (2 ^ k))) ∧
      fs' "vk" = some ((trapdoorVK C r k (E.init.dom (2 ^ k)).gen τ α β (steps.map (·.1.contribute2.delta)).prod).encode C ck
        E.keys.noCommitment) := by
  obtain ⟨fs2, out, evals, g1, g2, g3, hr⟩ := phase2_session E hC hb ⟨d, "p2n", [p1, circ, first]⟩ dv first fs phase1 r k τ α β h hpc
    (p2n_initialize E d p1 circ first fs phase1 rs r h1 h2 h3 hp1 hcirc) ho1 ho2 steps hne hk hno hkeep hev hd hs
  have hp := C37_proving_key hC E.init E.keys hK _ r k τ α β _ out evals hr []
  have hv := C38_verifying_key hC E.init E.keys hK ck hck _ r k τ α β _ out evals hr []
  rw [List.append_nil] at hp hv
  obtain ⟨fs3, hkey, hpk', hvk'⟩ : ∃ fs3, exec C E dk "key" [lastFile first steps] fs2 = (.ok (), fs3) ∧ fs3 "pk" = some _ ∧
      fs3 "vk" = some _ :=
    ⟨_, key_run E dk (lastFile first steps) fs2 out evals _ _ g2 g3 hpk hp hv,
      (set_other (fs2.set "pk" _) _ (show "pk" ≠ "vk" by decide)).trans (set_self fs2 "pk" _), set_self _ _ _⟩
  refine ⟨fs3, ?_, hpk', hvk'⟩
  rw [List.append_cons, session_append E _ _ _ _ g1, session_cons E hkey]
  rfl

/-- **C52**, both phases in one directory: every command succeeds, and the keys are those of the circuit for the products of all
contributed secrets. The paths of the phase 1 files, the circuit and the phase 2 files must not collide, no file may be called `srs.lag`
or `evals`. -/
theorem C52_ceremony_partial (hpol : E.pol = .strict) (hb : 2 ≤ E.batch) (s : String) (n : Nat) (hs : Denotes s n) (hn1 : 1 ≤ n)
    (hn : n ≤ 26) (f1 : String) (d0 dv0 : Draws F) (steps1 : List (Draws F × String)) (hne1 : steps1 ≠ [])
    (hk1 : steps1.length < 65536) (hno1 : NoOverwrite f1 (steps1.map Prod.snd))
    (hK : E.keys.header = E.init.header) (ck : Bytes) (hck : E.keys.commitmentKey [] = .ok ck)
    (d dv dk : Draws F) (circ f2 : String) (fs : FS) (rs : Bytes) (r : R1CS F) (k : Nat)
    (hr : r.Valid) (hpc : r.PublicCommitment) (hvc : r.ValidCommitment) (hdom : IsDomain r.constraints.length k) (hkn : k ≤ n)
    (hroot : (E.init.dom (2 ^ k)).Lawful k) (hH : E.init.header.Lawful)
    (hfs : fs circ = some rs) (hcs : E.r1cs rs = some r) (hc1 : circ ≠ f1) (hc1' : circ ∉ steps1.map Prod.snd) (hc2 : circ ≠ f2)
    (hf2 : lastFile f1 steps1 ≠ f2) (ho1 : f2 ≠ "srs.lag") (ho2 : f2 ≠ "evals")
    (steps2 : List (Draws F × String)) (hne2 : steps2 ≠ []) (hk2 : steps2.length < 2 ^ 63 - 1)
    (hno2 : NoOverwrite f2 (steps2.map Prod.snd)) (hkeep : f2 ∉ steps2.map Prod.snd) (hev : "evals" ∉ steps2.map Prod.snd)
    (hpk : lastFile f2 steps2 ≠ "pk") (hd : ∀ s ∈ steps2, s.1.contribute2.delta ≠ 0)
    (hstr : ∀ τ α β : F, (trapdoorFile C r k (E.init.dom (2 ^ k)).gen τ α β).CeremonyNoStraddle C E.init.header
      (steps2.map (·.1.contribute2))) :
    ∃ fs' : FS,
      session C E ((⟨d0, "p1n", [s, f1]⟩ :: relay "p1c" f1 steps1 ++ [⟨dv0, "p1v", [lastFile f1 steps1]⟩])
        ++ (⟨d, "p2n", [lastFile f1 steps1, circ, f2]⟩ :: relay "p2c" f2 steps2
          ++ [⟨dv, "p2v", [lastFile f2 steps2, f2]⟩, ⟨dk, "key", [lastFile f2 steps2]⟩])) fs = .ok fs' ∧
      fs' "pk" = some ((trapdoorPK C r k (E.init.dom (2 ^ k)).gen (steps1.map (·.1.contribute1.tau)).prod
        (steps1.map (·.1.contribute1.alpha)).prod (steps1.map (·.1.contribute1.beta)).prod
        (steps2.map (·.1.contribute2.delta)).prod).encode C (E.keys.domain (2 ^ k))) ∧
      fs' "vk" = some ((trapdoorVK C r k (E.init.dom (2 ^ k)).gen (steps1.map (·.1.contribute1.tau)).prod
        (steps1.map (·.1.contribute1.alpha)).prod (steps1.map (·.1.contribute1.beta)).prod
        (steps2.map (·.1.contribute2.delta)).prod).encode C ck E.keys.noCommitment) := by
  obtain ⟨fs1, f, h1, h2, hwf, hpow, -, hpw, hfr⟩ := C52_phase1_partial E hC hpol hb s n hs hn1 hn f1 d0 dv0 steps1 hne1 hk1 hno1 fs
  have hin : HonestInput C E.init r k _ _ _ (f.encode C) :=
    ⟨hr, hvc, hdom, by omega, hroot, hH, f, [], hwf, hpw, by omega, by simp⟩
  obtain ⟨fs', h3, h4, h5⟩ := C52_phase2_partial E hC hK ck hck (by omega) d dv dk (lastFile f1 steps1) circ f2 fs1 _ rs r k _ _ _ hin hpc
    h2 (by rw [hfr circ hc1 hc1', hfs]) hcs hf2 hc2 ho1 ho2 steps2 hne2 hk2 hno2 hkeep hev hpk hd (hstr _ _ _)
  exact ⟨fs', by rw [session_append E _ _ _ _ h1]; exact h3, h4, h5⟩

end

namespace Toy

def draws' : Draws K := ⟨par, ⟨3, 2, 5, 9, 1, 4⟩, ⟨fun _ _ => 1, fun _ _ => 1, fun _ _ => 1, fun _ _ => 1⟩, p2rnd', p2vr⟩

/-- only the circuit is there at the start -/
def circuitOnly : FS := FS.set (fun _ => none) "one" [1]

theorem noStraddle (τ α β : K) : (trapdoorFile curve circuit 2 4 τ α β).CeremonyNoStraddle curve Gob.headerCodec [p2rnd, p2rnd'] := by
  have hwf := trapdoorFile_wf Toy.lawful circuit circuit_valid circuit_nc.publicCommitment 2 circuit_domain (by decide) 4 τ α β
  have hh : (trapdoorFile curve circuit 2 4 τ α β).header = ⟨4, 2, 2, 0, 3, 4, 0⟩ := rfl
  have hz : (trapdoorFile curve circuit 2 4 τ α β).z.length = 3 := by simp [trapdoorFile]
  have hp : (trapdoorFile curve circuit 2 4 τ α β).pkk.length = 2 := hwf.pkk.trans rfl
  intro k h2 j hj
  obtain ⟨e1, e2, e3⟩ := ceremony2_header Toy.lawful Gob.headerCodec Gob.lawful _ hwf rfl ([p2rnd, p2rnd'].take k) (by simp)
  obtain ⟨-, hl, -⟩ := ceremony2_facts Toy.lawful Gob.lawful _ hwf rfl ([p2rnd, p2rnd'].take k) (by simp)
  rw [hl] at hj
  unfold P2File.hashPos
  rw [e1, e2, e3, hh, hz, hp]
  have : k ≤ 2 := h2
  interval_cases k <;> simp only [List.length_take, List.length_cons, List.length_nil] at hj ⊢
  · omega
  · have : j < 1 := hj
    interval_cases j <;> decide +kernel
  · have : j < 2 := hj
    interval_cases j <;> decide +kernel

end Toy

example := C53_verify_commands (C := Toy.curve) Toy.cliEnv Toy.draws "one" "two" Toy.files [1] [2] rfl rfl (by decide)
example := C53_missing_input (C := Toy.curve) Toy.cliEnv Toy.draws "absent" "two" "out" Toy.files rfl
example := C53_missing_origin (C := Toy.curve) Toy.cliEnv Toy.draws "one" "absent" Toy.files rfl (by decide)

example := C52_phase1_partial Toy.cliEnv Toy.lawful rfl (by decide) "3" 3 (Toy.denotes rfl) (by decide) (by decide) "0.ph1"
  Toy.draws Toy.draws [(Toy.draws, "1.ph1"), (Toy.draws', "2.ph1")] (by simp) (by simp) (by simp [NoOverwrite]) Toy.circuitOnly

theorem Toy.response_powers : (∀ i < 2 * 2 ^ 2 - 1, Toy.response.tauG1[i]? = some ((2 : Toy.K) ^ i • Toy.curve.g1)) ∧
    (∀ i < 2 ^ 2, Toy.response.alphaG1[i]? = some (((3 : Toy.K) * 2 ^ i) • Toy.curve.g1) ∧
      Toy.response.betaG1[i]? = some (((5 : Toy.K) * 2 ^ i) • Toy.curve.g1) ∧
      Toy.response.tauG2[i]? = some ((2 : Toy.K) ^ i • Toy.curve.g2)) := by decide

example := C52_transformed_partial Toy.cliEnv Toy.lawful rfl (by decide) "2" "1" 2 1 (Toy.denotes rfl) (Toy.denotes rfl) (by decide)
  (by decide) (by decide) "response" "0.ph1" (by decide) (by decide) Toy.draws Toy.draws [(Toy.draws, "1.ph1"), (Toy.draws', "2.ph1")]
  (by simp) (by simp) (by simp [NoOverwrite]) (by simp) (FS.set (fun _ => none) "response" (Toy.response.encode Toy.curve))
  Toy.response Toy.response_wf 2 3 5 Toy.response_powers.1 Toy.response_powers.2 (by decide) rfl

example := C52_phase2_partial Toy.cliEnv Toy.lawful rfl [0] rfl (by decide) Toy.draws Toy.draws Toy.draws "srs" "one" "0.ph2" Toy.files
  _ _ Toy.circuit 2 1 5 7 (Toy.input Toy.circuit (.inl rfl)).1 Toy.circuit_nc.publicCommitment rfl rfl rfl (by decide) (by decide)
  (by decide) (by decide) [(Toy.draws, "1.ph2"), (Toy.draws', "2.ph2")] (by simp) (by simp) (by simp [NoOverwrite]) (by simp)
  (by simp) (by decide) (by simp; decide) (Toy.noStraddle _ _ _)

example := C52_ceremony_partial Toy.cliEnv Toy.lawful rfl (by decide) "3" 3 (Toy.denotes rfl) (by decide) (by decide) "0.ph1"
  Toy.draws Toy.draws [(Toy.draws, "1.ph1"), (Toy.draws', "2.ph1")] (by simp) (by simp) (by simp [NoOverwrite]) rfl [0] rfl
  Toy.draws Toy.draws Toy.draws "one" "0.ph2" Toy.circuitOnly [1] Toy.circuit 2 Toy.circuit_valid Toy.circuit_nc.publicCommitment
  Toy.circuit_vc Toy.circuit_domain (by decide) dom4_lawful Gob.lawful rfl rfl (by decide) (by simp) (by decide) (by decide)
  (by decide) (by decide) [(Toy.draws, "1.ph2"), (Toy.draws', "2.ph2")] (by simp) (by simp) (by simp [NoOverwrite]) (by simp) (by simp)
  (by decide) (by simp; decide) Toy.noStraddle

end ZkSetup
