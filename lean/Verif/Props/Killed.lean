import Verif.Proofs.Killed
import Verif.Proofs.KilledFiles
import Verif.Props.AliasInit
import Verif.Props.AnyKeys
import Verif.Props.CutContribute
import Verif.Props.WellFormed
import Verif.Props.Denied
import Verif.Proofs.FilterExact
/-
C95: the phase 2 file of an initialisation that was interrupted is not taken for a finished one.
-/
set_option linter.unusedSectionVars false

namespace ZkSetup

open Phase2 Cli Keys Proofs

section
variable {F G1 G2 GT : Type} [Field F] [AddCommGroup G1] [Module F G1] [AddCommGroup G2]
  [Module F G2] [AddCommGroup GT] [Module F GT] [DecidableEq G1] [DecidableEq G2] [DecidableEq GT]
variable {C : Curve F G1 G2 GT}

theorem initKilled_cut (hC : C.Lawful) (E : Env F G1) (par : Par) (inp out : String) (load : FS → Except Fail (Loaded F G1 G2)) (fs fs' : FS)
    (h1 : out ≠ "srs.lag") (h2 : out ≠ "evals") (hw : ∀ l, load (fs.set out []) = .ok l → ∀ c d, 0 < (circuitHeader l.base c d).witness)
    (h : initNamed C E par inp out load fs = (.ok (), fs')) (n part : Nat) :
    let t := initKilled C E par n part inp out load fs
    t = (.ok (), fs') ∨ (t.1 = .error killed ∧ (t.2 = fs ∨ t.2 = fs' ∨ ∃ b, b ≠ [] ∧ old fs' out = old t.2 out ++ b)) := by
  intro t
  unfold initNamed at h
  cases ho : openFile fs inp with
  | error e => simp [ho] at h
  | ok bs =>
    simp only [ho] at h
    rcases hr : (initOn (namedInit inp out load) C E.init par).run ⟨fs.set out [], 0⟩ with ⟨r, s'⟩
    rw [hr] at h
    simp only [Prod.mk.injEq] at h
    obtain ⟨rfl, rfl⟩ := h
    have ht : t = initKilled C E par n part inp out load fs := rfl
    unfold initKilled at ht
    simp only [ho] at ht
    cases n with
    | zero => exact Or.inr ⟨by rw [ht], Or.inl (by rw [ht])⟩
    | succ n =>
      have hs : AtEnd out ⟨fs.set out [], 0⟩ := by
        unfold AtEnd
        rw [old_set]
        rfl
      simp only at ht
      rcases init_cut h1 h2 C hC.codec1 E.init par _ _ hs hw hr n part with ⟨n', e⟩ | ⟨u, e, b, eb, hb⟩
      · rw [e] at ht
        exact Or.inl ht
      · rw [e] at ht
        refine Or.inr ⟨by rw [ht], Or.inr ?_⟩
        rw [ht]
        rcases hb with hb | hb
        · exact Or.inr ⟨b, hb, eb⟩
        · exact Or.inl (by rw [hb])

/-- **C95** (partial) `p2n`: where the complete run succeeds, a run that is killed leaves the files as they were, or as the complete run leaves them, or
with a phase 2 file that lacks at least the last byte. For circuits with a wire for the prover.
Missing for the full C95: circuits without, for which it is false. -/
theorem C95_p2n_partial (hC : C.Lawful) (E : Env F G1) (par : Par) (inp cs out : String) (fs fs' : FS) (h1 : out ≠ "srs.lag") (h2 : out ≠ "evals")
    (h3 : cs ≠ out) (rs : Bytes) (r : R1CS F) (hcs : fs cs = some rs) (hr : E.r1cs rs = some r) (hw : r.shared + r.priv < r.wires)
    (h : p2nAny C E par [inp, cs, out] fs = (.ok (), fs')) (n part : Nat) :
    let t := p2nKilled C E par n part [inp, cs, out] fs
    t = (.ok (), fs') ∨ (t.1 = .error killed ∧ (t.2 = fs ∨ t.2 = fs' ∨ ∃ b, b ≠ [] ∧ old fs' out = old t.2 out ++ b)) := by
  refine initKilled_cut hC E par inp out (loadR1CS E cs) fs fs' h1 h2 (fun l hl c d => ?_) h n part
  simp only [loadR1CS, openFile, set_other _ _ h3, hcs] at hl
  have e : l = Loaded.ofR1CS r := by
    have : Loaded.parsed (G1 := G1) (G2 := G2) (E.r1cs rs) = .ok l := hl
    rw [hr] at this
    simpa [Loaded.parsed] using this.symm
  rw [e, show (Loaded.ofR1CS (G1 := G1) (G2 := G2) r).base = r from rfl, (circuitHeader_counts r c d).1]
  omega

/-- **C95** (partial) `p2np` -/
theorem C95_p2np_partial (hC : C.Lawful) (E : Env F G1) (par : Par) (inp session out nb size batch : String) (fs fs' : FS) (h1 : out ≠ "srs.lag")
    (h2 : out ≠ "evals") (hw : ∀ i j, (E.parted (fs.set out []) session i j).base.shared + (E.parted (fs.set out []) session i j).base.priv
      < (E.parted (fs.set out []) session i j).base.wires)
    (h : p2npAny C E par [inp, session, out, nb, size, batch] fs = (.ok (), fs')) (n part : Nat) :
    let t := p2npKilled C E par n part [inp, session, out, nb, size, batch] fs
    t = (.ok (), fs') ∨ (t.1 = .error killed ∧ (t.2 = fs ∨ t.2 = fs' ∨ ∃ b, b ≠ [] ∧ old fs' out = old t.2 out ++ b)) := by
  have hl : ¬[inp, session, out, nb, size, batch].length ≠ 6 := by simp
  unfold p2npAny at h
  unfold p2npKilled
  rw [if_neg hl] at h ⊢
  simp only [arg, List.getD_cons_zero, List.getD_cons_succ] at h ⊢
  cases e1 : atoi nb with
  | error e => simp [e1] at h
  | ok a =>
    cases e2 : atoi size with
    | error e => simp [e1, e2] at h
    | ok b =>
      cases e3 : atoi batch with
      | error e => simp [e1, e2, e3] at h
      | ok c =>
        simp only [e1, e2, e3] at h ⊢
        refine initKilled_cut hC E par inp out _ fs fs' h1 h2 (fun l hl x y => ?_) h n part
        simp only [Except.ok.injEq] at hl
        subst hl
        have := hw b c
        rw [show ((Loaded.ofParted (G1 := G1) (G2 := G2) (E.parted (fs.set out []) session b c) a).base)
          = (E.parted (fs.set out []) session b c).base from rfl, (circuitHeader_counts _ x y).1]
        omega

theorem initKilled_files (E : Env F G1) (par : Par) (inp out : String) (load : FS → Except Fail (Loaded F G1 G2)) (fs fs' : FS)
    (h1 : out ≠ "srs.lag") (h2 : out ≠ "evals") (h : initNamed C E par inp out load fs = (.ok (), fs')) (n part : Nat) (q : String)
    (hq : q = "srs.lag" ∨ q = "evals") :
    let t := initKilled C E par n part inp out load fs
    t.2 q = fs q ∨ ∃ b, old fs' q = old t.2 q ++ b := by
  intro t
  have hqo : q ≠ out := by rcases hq with rfl | rfl; exacts [h1.symm, h2.symm]
  have hA : Anew q (initOn (namedInit inp out load) C E.init par) (initOn (killedInit inp out load) C E.init par) := by
    rcases hq with rfl | rfl
    · exact killedInit_lag C hqo E.init par
    · exact killedInit_evals C hqo E.init par
  unfold initNamed at h
  cases ho : openFile fs inp with
  | error e => simp [ho] at h
  | ok bs =>
    simp only [ho] at h
    rcases hr : (initOn (namedInit inp out load) C E.init par).run ⟨fs.set out [], 0⟩ with ⟨r, s'⟩
    rw [hr] at h
    simp only [Prod.mk.injEq] at h
    obtain ⟨rfl, rfl⟩ := h
    have ht : t = initKilled C E par n part inp out load fs := rfl
    unfold initKilled at ht
    simp only [ho] at ht
    cases n with
    | zero => exact Or.inl (by rw [ht])
    | succ n =>
      simp only at ht
      obtain ⟨-, ⟨n', e⟩ | ⟨u, e, hu⟩⟩ := hA _ n part () s' hr
      · rw [e] at ht
        exact Or.inr ⟨[], by rw [ht, List.append_nil]⟩
      · rw [e] at ht
        rw [ht]
        exact hu.imp (fun hu => hu.trans (set_other _ _ hqo)) id

/-- **C95**, the other files: where the complete `p2n` succeeds, a killed one leaves of `srs.lag` and of `evals` what was there before, or a
beginning of what the complete run leaves. -/
theorem C95_p2n_files (E : Env F G1) (par : Par) (inp cs out : String) (fs fs' : FS) (h1 : out ≠ "srs.lag") (h2 : out ≠ "evals")
    (h : p2nAny C E par [inp, cs, out] fs = (.ok (), fs')) (n part : Nat) (q : String) (hq : q = "srs.lag" ∨ q = "evals") :
    (p2nKilled C E par n part [inp, cs, out] fs).2 q = fs q ∨
      ∃ b, old fs' q = old (p2nKilled C E par n part [inp, cs, out] fs).2 q ++ b :=
  initKilled_files E par inp out (loadR1CS E cs) fs fs' h1 h2 h n part q hq

/-- **C95**, the other files, for `p2np` -/
theorem C95_p2np_files (E : Env F G1) (par : Par) (inp session out nb size batch : String) (fs fs' : FS) (h1 : out ≠ "srs.lag")
    (h2 : out ≠ "evals") (h : p2npAny C E par [inp, session, out, nb, size, batch] fs = (.ok (), fs')) (n part : Nat) (q : String)
    (hq : q = "srs.lag" ∨ q = "evals") :
    (p2npKilled C E par n part [inp, session, out, nb, size, batch] fs).2 q = fs q ∨
      ∃ b, old fs' q = old (p2npKilled C E par n part [inp, session, out, nb, size, batch] fs).2 q ++ b := by
  have hl : ¬[inp, session, out, nb, size, batch].length ≠ 6 := by simp
  unfold p2npAny at h
  unfold p2npKilled
  rw [if_neg hl] at h ⊢
  simp only [arg, List.getD_cons_zero, List.getD_cons_succ] at h ⊢
  cases e1 : atoi nb with
  | error e => simp [e1] at h
  | ok a =>
    cases e2 : atoi size with
    | error e => simp [e1, e2] at h
    | ok b =>
      cases e3 : atoi batch with
      | error e => simp [e1, e2, e3] at h
      | ok c =>
        simp only [e1, e2, e3] at h ⊢
        exact initKilled_files E par inp out _ fs fs' h1 h2 h n part q hq

/-- **C95** with enough operations the run is the complete one, also where that fails. -/
theorem C95_enough (E : Env F G1) (par : Par) (args : List String) (fs : FS) :
    (∃ N, ∀ n ≥ N, ∀ part, p2nKilled C E par n part args fs = p2nAny C E par args fs) ∧
    (∃ N, ∀ n ≥ N, ∀ part, p2npKilled C E par n part args fs = p2npAny C E par args fs) := by
  have init : ∀ inp out load, ∃ N, ∀ n ≥ N, ∀ part, initKilled C E par n part inp out load fs = initNamed C E par inp out load fs := by
    intro inp out load
    unfold initKilled initNamed
    cases openFile fs inp with
    | error e => exact ⟨0, fun _ _ _ => rfl⟩
    | ok bs =>
      obtain ⟨N, hN⟩ := Costs.init C E.init par inp out load ⟨fs.set out [], 0⟩
      refine ⟨N + 1, fun n hn part => ?_⟩
      obtain ⟨k, rfl⟩ : ∃ k, n = (N + k) + 1 := ⟨n - N - 1, by omega⟩
      simp only [hN k part]
  constructor
  · unfold p2nKilled p2nAny
    split
    · exact ⟨0, fun _ _ _ => rfl⟩
    · exact init _ _ _
  · unfold p2npKilled p2npAny
    split
    · exact ⟨0, fun _ _ _ => rfl⟩
    · cases atoi (arg args 3) with
      | error e => exact ⟨0, fun _ _ _ => rfl⟩
      | ok a =>
        cases atoi (arg args 4) with
        | error e => exact ⟨0, fun _ _ _ => rfl⟩
        | ok b =>
          cases atoi (arg args 5) with
          | error e => exact ⟨0, fun _ _ _ => rfl⟩
          | ok c => exact init _ _ _

/-- the phase 2 file of an initialisation, if it lacks bytes, is refused -/
theorem C95_rejected (hC : C.Lawful) (E : Env F G1) (hH : E.init.header.Lawful) (hK : E.keys.header = E.init.header) (hB : 0 < E.batch)
    (d : Draws F) (f : P2File G1 G2) (hf : f.WF) (hnil : f.records = []) (hlen : (f.encode C E.init.header).length < 2 ^ 63) (part b : Bytes)
    (hb : b ≠ []) (he : f.encode C E.init.header = part ++ b) (fs : FS) (out : String) (ho : fs out = some part) (dst session : String) :
    (exec C E d "key" [out] fs).1 ≠ .ok () ∧ (exec C E d "keys" [out, session] fs).1 ≠ .ok () ∧
      (exec C E d "p2c" [out, dst] fs).1 ≠ .ok () := by
  have hlt : part.length < (f.encode C E.init.header).length := by
    rw [he, List.length_append]
    have := List.length_pos_iff.mpr hb
    omega
  have hp : part = (f.encode C E.init.header).take part.length := by rw [he, List.take_left']; rfl
  have hparams : ∀ (h : Header) (r : Rd) (g : P2File G1 G2), E.init.header.dec.run (Rd.buffered 4096 part) = (.ok h, r) →
      ¬ g.ParamsIn C h r.rest := by
    intro h r g hd hg
    rw [hp] at hd
    obtain ⟨e1, e2, e3⟩ := header_cut hC hH f hf _ hd
    rw [e3] at hg
    have := params_cut hC f g hf h e1 _ _ hg
    have hl : (f.encode C E.init.header).length = (E.init.header.enc f.header).length + (f.params C).length := by
      simp [P2File.encode, hnil]
    omega
  have hpk : ∀ ev, (extractPK C E.keys part ev).1 ≠ .ok () := by
    intro ev h
    obtain ⟨pk, h⟩ := extract_some _ _ _ _ _ h
    obtain ⟨hd, r, e, -, g, v, hg, -⟩ := (C83_pk hC E.keys (hK ▸ hH) _ _ _).mp h
    rw [hK] at e
    exact hparams hd r g e hg
  have hspk : ∀ ev, (extractSplitPK C E.keys part ev).1 ≠ .ok () := by
    intro ev h
    obtain ⟨pk, h⟩ := extract_some _ _ _ _ _ h
    obtain ⟨hd, r, e, g, v, hg, -⟩ := (C83_split_pk hC E.keys (hK ▸ hH) _ _ _).mp h
    rw [hK] at e
    exact hparams hd r g e hg
  have hfirst : ∀ {O : Type} (body : Bytes → Bytes → Except Fail Unit × Option O) (save : FS → O → FS) (second : FS → Except Fail Unit × FS),
      (∀ ev, (body part ev).1 ≠ .ok ()) → (inOrder (withFiles out body save) second fs).1 ≠ .ok () := by
    intro O body save second hbody
    have : (withFiles out body save fs).1 ≠ .ok () := by
      unfold withFiles openFile
      rw [ho]
      dsimp only
      cases fs "evals" with
      | none => simp
      | some ev => exact hbody ev
    unfold inOrder
    rcases hx : withFiles out body save fs with ⟨_ | u, s⟩
    · simp
    · rw [hx] at this
      exact absurd rfl this
  refine ⟨hfirst _ _ _ hpk, hfirst _ _ _ hspk, ?_⟩
  have hcut : ∀ n, n < (f.encode C E.init.header).length →
      (Phase2.contribute C E.init.header d.par E.batch d.contribute2 ((f.encode C E.init.header).take n)).1.map (fun _ => ()) ≠ .ok () := by
    intro n hn h
    have hs : f.NoStraddle E.init.header := by
      intro j hj
      rw [hnil] at hj
      simp at hj
    rcases hx : Phase2.contribute C E.init.header d.par E.batch d.contribute2 ((f.encode C E.init.header).take n) with ⟨_ | hash, o⟩
    · rw [hx] at h
      simp [Except.map] at h
    · exact ((C81_p2_exact_partial hC hH d.par E.batch hB d.contribute2 f hf hs hlen n hn).mp ⟨hash, o, hx⟩).1 hnil
  change (p2c C E d.par d.contribute2 [out, dst] fs).1 ≠ .ok ()
  simp only [p2c, arg, List.length_cons, List.length_nil, ne_eq, List.getD_cons_succ, List.getD_cons_zero, openFile, ho, contentsAfterCreate]
  by_cases hto : out = dst
  · have := hcut 0 (by omega)
    rw [List.take_zero] at this
    simpa [hto] using this
  · have := hcut part.length hlt
    rw [← hp] at this
    simpa [hto] using this

/-- commands on a phase 2 file that is missing -/
theorem missing_rejected (E : Env F G1) (d : Draws F) (fs : FS) (out : String) (ho : fs out = none) (dst session : String) :
    (exec C E d "key" [out] fs).1 ≠ .ok () ∧ (exec C E d "keys" [out, session] fs).1 ≠ .ok () ∧
      (exec C E d "p2c" [out, dst] fs).1 ≠ .ok () := by
  refine ⟨?_, ?_, ?_⟩
  · change (key C E [out] fs).1 ≠ .ok ()
    simp [key, inOrder, withFiles, openFile, arg, ho]
  · change (keys C E [out, session] fs).1 ≠ .ok ()
    simp [keys, inOrder, withFiles, openFile, arg, ho]
  · change (p2c C E d.par d.contribute2 [out, dst] fs).1 ≠ .ok ()
    simp [p2c, openFile, arg, ho]

/-- **C95** (partial) `p2n`, then others: after a kill that has left the files neither as they were nor complete, `key`, `keys` and `p2c` refuse the phase 2
file. -/
theorem C95_p2n_refused_partial (hC : C.Lawful) (E : Env F G1) (hH : E.init.header.Lawful) (hK : E.keys.header = E.init.header) (hB : 0 < E.batch)
    (par : Par) (inp cs out : String) (fs fs' : FS) (h1 : out ≠ "srs.lag") (h2 : out ≠ "evals") (h3 : inp ≠ out)
    (h4 : inp ≠ "srs.lag") (h5 : inp ≠ "evals") (h6 : cs ≠ out) (h7 : cs ≠ "srs.lag") (h8 : cs ≠ "evals") (rs : Bytes) (r : R1CS F)
    (hcs : fs cs = some rs) (hr : E.r1cs rs = some r) (hw : r.shared + r.priv < r.wires)
    (hdom : ∀ k, nextPowerofTwo r.nbConstraints = .ok ((2 ^ k : Nat) : Int) → (E.init.dom (2 ^ k)).Lawful k)
    (hm : r.nbPublic + r.nbSecret + r.nbInternal < 2 ^ 62)
    (h : p2nAny C E par [inp, cs, out] fs = (.ok (), fs')) (hlen : (old fs' out).length < 2 ^ 63) (n part : Nat)
    (hbegun : (p2nKilled C E par n part [inp, cs, out] fs).2 ≠ fs) (hunfinished : (p2nKilled C E par n part [inp, cs, out] fs).2 ≠ fs')
    (d : Draws F) (dst session : String) :
    let later := (p2nKilled C E par n part [inp, cs, out] fs).2
    (exec C E d "key" [out] later).1 ≠ .ok () ∧ (exec C E d "keys" [out, session] later).1 ≠ .ok () ∧
      (exec C E d "p2c" [out, dst] later).1 ≠ .ok () := by
  intro later
  cases ho : later out with
  | none => exact missing_rejected E d later out ho dst session
  | some bs =>
    have hc := C95_p2n_partial hC E par inp cs out fs fs' h1 h2 h6 rs r hcs hr hw h n part
    obtain ⟨b, hb, hc⟩ : ∃ b, b ≠ [] ∧ old fs' out = old later out ++ b := by
      rcases hc with hc | ⟨-, hc | hc | hc⟩
      · exact absurd (congrArg Prod.snd hc) hunfinished
      · exact absurd hc hbegun
      · exact absurd hc hunfinished
      · exact hc
    obtain ⟨e1, e2⟩ := C91_p2n_partial (C := C) E par inp cs out h1 h2 h3 h4 h5 h6 h7 h8 fs
    rw [h] at e1 e2
    cases hi : fs inp with
    | none =>
      simp [p2n, openFile, arg, hi] at e1
    | some ib =>
      have e3 : p2n C E par [inp, cs, out] fs = ((initializeFiles C E.init par (E.r1cs rs) ib (old fs "srs.lag") (old fs "evals")).1,
          saveInit fs out (initializeFiles C E.init par (E.r1cs rs) ib (old fs "srs.lag") (old fs "evals")).2) := by
        simp [p2n, openFile, arg, hi, FS.set, h6, hcs, contentsAfterCreate, h3]
      rw [e3, hr] at e1 e2
      rcases hx : initializeFiles C E.init par (some r) ib (old fs "srs.lag") (old fs "evals") with ⟨x, st⟩
      rw [hx] at e1 e2
      simp only at e1 e2
      subst e1
      obtain ⟨f, hf⟩ := C64_p2n hC hdom hm hx
      have hout : old fs' out = st.ph2 := by
        have hs : saveInit fs out st out = some st.ph2 := by simp [saveInit, FS.set, h1, h2]
        rcases e2 out with e | ⟨e, e'⟩
        · rw [old, e, hs]
          rfl
        · rw [hs, Option.some.injEq] at e'
          rw [old, e, e']
          rfl
      have hl : old later out = bs := by simp [old, ho]
      rw [hout, hf.ph2] at hc hlen
      rw [hl] at hc
      exact C95_rejected hC E hH hK hB d f hf.wf hf.records hlen bs b hb hc later out ho dst session

end

/-! ### cases -/

namespace Toy

/-- a `p2n` for a second circuit after the first one's keys have been extracted, killed after `n` operations and `part` bytes -/
def killedAt (n part : Nat) (out : String) : Except Fail Unit × FS := p2nKilled curve cliEnv draws.par n part ["srs", "two", out] done

/-- a circuit with public wires only -/
def pubCircuit : R1CS K := { circuit with nbPublic := 4, nbSecret := 0, nbInternal := 0 }

def pubEnv : Env K K := { cliEnv with r1cs := fun _ => some pubCircuit }

end Toy

/-- **C95** is false: for a circuit with public wires only, `p2c` takes the file of an interrupted `p2n`, of which `evals` lacks everything after
the evaluations. And for any circuit, the `evals` of another ceremony is lost: `key` fails for it, or it succeeds with another key, though the
interrupted `p2n` has not finished its own phase 2 file. -/
theorem C95_false :
    (Toy.isOk (p2nKilled Toy.curve Toy.pubEnv Toy.draws.par 17 0 ["srs", "two", "other"] Toy.files) = false ∧
      Toy.isOk (exec Toy.curve Toy.pubEnv Toy.draws "p2c" ["other", "next"]
        (p2nKilled Toy.curve Toy.pubEnv Toy.draws.par 17 0 ["srs", "two", "other"] Toy.files).2) = true ∧
      (p2nKilled Toy.curve Toy.pubEnv Toy.draws.par 17 0 ["srs", "two", "other"] Toy.files).2 "evals"
        ≠ (p2nAny Toy.curve Toy.pubEnv Toy.draws.par ["srs", "two", "other"] Toy.files).2 "evals") ∧
    (Toy.isOk (exec Toy.curve Toy.cliEnv Toy.draws "key" ["ph2"] Toy.done) = true ∧
      Toy.isOk (Toy.killedAt 8 3 "other") = false ∧
      Toy.isOk (exec Toy.curve Toy.cliEnv Toy.draws "key" ["ph2"] (Toy.killedAt 8 3 "other").2) = false) ∧
    (Toy.isOk (Toy.killedAt 21 3 "other") = false ∧
      Toy.isOk (exec Toy.curve Toy.cliEnv Toy.draws "key" ["ph2"] (Toy.killedAt 21 3 "other").2) = true ∧
      (exec Toy.curve Toy.cliEnv Toy.draws "key" ["ph2"] (Toy.killedAt 21 3 "other").2).2 "pk"
        ≠ (exec Toy.curve Toy.cliEnv Toy.draws "key" ["ph2"] Toy.done).2 "pk") := by
  decide +kernel

/-- the complete run succeeds -/
theorem Toy.two_runs : Toy.isOk (p2nAny Toy.curve Toy.cliEnv Toy.draws.par ["srs", "two", "other"] Toy.done) = true := by decide +kernel

theorem Toy.runs_eq {x : Except Fail Unit × FS} (h : Toy.isOk x = true) : x = (.ok (), x.2) := by
  obtain ⟨_ | u, fs⟩ := x
  · simp [Toy.isOk] at h
  · rfl

theorem Toy.done_two : Toy.done "two" = some [2] := by decide +kernel

example (n part : Nat) := C95_p2n_files (C := Toy.curve) Toy.cliEnv Toy.draws.par "srs" "two" "other" Toy.done _ (by decide) (by decide)
  (Toy.runs_eq Toy.two_runs) n part "evals" (.inr rfl)

-- a beginning of the new `evals` where there was a complete one
example : (p2nKilled Toy.curve Toy.cliEnv Toy.draws.par 9 3 ["srs", "two", "other"] Toy.done).2 "evals" ≠ Toy.done "evals" ∧
    (old (p2nKilled Toy.curve Toy.cliEnv Toy.draws.par 9 3 ["srs", "two", "other"] Toy.done).2 "evals").length = 35 := by decide +kernel

/-- `C95_p2n_partial` on the toy files: all kills -/
example (n part : Nat) := C95_p2n_partial Toy.lawful Toy.cliEnv Toy.draws.par "srs" "two" "other" Toy.done _ (by decide) (by decide) (by decide)
  [2] Toy.circuit' Toy.done_two rfl (by decide) (Toy.runs_eq Toy.two_runs) n part

/-- killed in the middle of PKK: begun and not finished, so that the following example is not about nothing -/
theorem Toy.cut_short : (p2nKilled Toy.curve Toy.cliEnv Toy.draws.par 21 3 ["srs", "two", "other"] Toy.done).2 "other" ≠ Toy.done "other" ∧
    (p2nKilled Toy.curve Toy.cliEnv Toy.draws.par 21 3 ["srs", "two", "other"] Toy.done).2 "other"
      ≠ (p2nAny Toy.curve Toy.cliEnv Toy.draws.par ["srs", "two", "other"] Toy.done).2 "other" ∧
    (old (p2nAny Toy.curve Toy.cliEnv Toy.draws.par ["srs", "two", "other"] Toy.done).2 "other").length < 2 ^ 63 := by decide +kernel

example (d : Draws Toy.K) (dst session : String) :
    let later := (p2nKilled Toy.curve Toy.cliEnv Toy.draws.par 21 3 ["srs", "two", "other"] Toy.done).2
    (exec Toy.curve Toy.cliEnv d "key" ["other"] later).1 ≠ .ok () ∧ (exec Toy.curve Toy.cliEnv d "keys" ["other", session] later).1 ≠ .ok () ∧
      (exec Toy.curve Toy.cliEnv d "p2c" ["other", dst] later).1 ≠ .ok () := by
  have h1 : (p2nKilled Toy.curve Toy.cliEnv Toy.draws.par 21 3 ["srs", "two", "other"] Toy.done).2 ≠ Toy.done := by
    intro e
    have := Toy.cut_short.1
    rw [e] at this
    exact this rfl
  have h2 : (p2nKilled Toy.curve Toy.cliEnv Toy.draws.par 21 3 ["srs", "two", "other"] Toy.done).2
      ≠ (p2nAny Toy.curve Toy.cliEnv Toy.draws.par ["srs", "two", "other"] Toy.done).2 := by
    intro e
    have := Toy.cut_short.2.1
    rw [e] at this
    exact this rfl
  exact C95_p2n_refused_partial Toy.lawful Toy.cliEnv Gob.lawful rfl (by decide) Toy.draws.par "srs" "two" "other" Toy.done _ (by decide)
    (by decide) (by decide) (by decide) (by decide) (by decide) (by decide) (by decide) [2] Toy.circuit' Toy.done_two rfl (by decide)
    (fun k h => by rw [Toy.circuit_power k h]; exact dom4_lawful) (by decide) (Toy.runs_eq Toy.two_runs) Toy.cut_short.2.2 21 3 h1 h2 d dst session

/-- `p2np` on the toy files -/
theorem Toy.parts_run : Toy.isOk (p2npAny Toy.curve Toy.cliEnv Toy.draws.par ["srs", "x", "other", "3", "2", "2"] Toy.done) = true := by
  decide +kernel

example (n part : Nat) := C95_p2np_partial Toy.lawful Toy.cliEnv Toy.draws.par "srs" "x" "other" "3" "2" "2" Toy.done _ (by decide) (by decide)
  (fun _ _ => by
    change Toy.parted.base.shared + Toy.parted.base.priv < Toy.parted.base.wires
    decide) (Toy.runs_eq Toy.parts_run) n part

-- 22 operations are enough
example : Toy.isOk (Toy.killedAt 22 0 "other") = true ∧ Toy.isOk (Toy.killedAt 21 100 "other") = false ∧
    (Toy.killedAt 21 100 "other").2 "other" = (Toy.killedAt 22 0 "other").2 "other" := by decide +kernel

end ZkSetup
