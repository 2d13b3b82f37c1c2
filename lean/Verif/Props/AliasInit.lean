import Verif.Proofs.AliasInit
import Verif.Proofs.AnyInit
import Verif.Props.Cli
/-
C91: whatever the arguments are called, a successful `p2n` or `p2np` leaves the phase 2 file at the path given and the evaluations in `evals`.
False: with the phase 2 file called `evals` the command reports success, and neither is there.
-/
set_option linter.unusedSectionVars false

namespace ZkSetup

open Phase2 Cli
open Phase1 (makeLen goPow2)

section
variable {F G1 G2 GT : Type} [Field F] [AddCommGroup G1] [Module F G1] [AddCommGroup G2]
  [Module F G2] [AddCommGroup GT] [Module F GT] [DecidableEq G1] [DecidableEq G2] [DecidableEq GT]
variable {C : Curve F G1 G2 GT}

/-- The files of the two models: the same, except that the simpler one lets `srs.lag` and `evals` be empty files where there are none. -/
def SameFiles (a b : FS) : Prop := ∀ q, a q = b q ∨ (a q = none ∧ b q = some [])

theorem same_of_apart {fs : FS} {out : String} {s : InitSt} {t : NamedSt} (h : Apart fs out s t) (h1 : out ≠ "srs.lag") (h2 : out ≠ "evals") :
    SameFiles t.fs (saveInit fs out s) := by
  have hold : ∀ {q : String} {b : Bytes}, old t.fs q = b → t.fs q = some b ∨ (t.fs q = none ∧ some b = some []) := by
    intro q b hq
    cases hx : t.fs q with
    | none =>
      right
      simp only [old, hx, Option.getD_none] at hq
      exact ⟨rfl, by rw [hq]⟩
    | some c =>
      left
      simp only [old, hx, Option.getD_some] at hq
      rw [hq]
  intro q
  unfold saveInit
  by_cases q3 : q = "evals"
  · subst q3
    rw [set_self]
    exact hold h.evals
  rw [set_other _ _ q3]
  by_cases q2 : q = "srs.lag"
  · subst q2
    rw [set_self]
    exact hold h.lag
  rw [set_other _ _ q2]
  by_cases q1 : q = out
  · subst q1
    rw [set_self]
    exact .inl h.ph2
  rw [set_other _ _ q1]
  exact .inl (h.other q q1 q2 q3)

theorem apart_start {fs : FS} {out : String} (h1 : out ≠ "srs.lag") (h2 : out ≠ "evals") :
    Apart fs out ⟨[], old fs "srs.lag", old fs "evals"⟩ ⟨fs.set out [], 0⟩ :=
  ⟨by simp [FS.set], rfl, old_set_ne _ _ h1.symm, old_set_ne _ _ h2.symm, fun q q1 _ _ => set_other _ _ q1⟩

theorem initNamed_apart (E : Env F G1) (par : Par) (inp out : String) (h1 : out ≠ "srs.lag") (h2 : out ≠ "evals") (h3 : inp ≠ out)
    (h4 : inp ≠ "srs.lag") (h5 : inp ≠ "evals") (load : FS → Except Fail (Loaded F G1 G2)) (r : Except Fail (Loaded F G1 G2)) (fs : FS)
    (hload : ∀ t : FS, (∀ q, q ≠ out → q ≠ "srs.lag" → q ≠ "evals" → t q = fs q) → load t = r) (b : Bytes) (hb : fs inp = some b) :
    let x := (initOn (plainInit b r) C E.init par).run ⟨[], old fs "srs.lag", old fs "evals"⟩
    (initNamed C E par inp out load fs).1 = x.1 ∧ SameFiles (initNamed C E par inp out load fs).2 (saveInit fs out x.2) := by
  have hob : old fs inp = b := by simp [old, hb]
  have h := Apart.init (fs := fs) C E.init par h1 h2 h3 h4 h5 load r hload _ _ (apart_start h1 h2)
  rw [hob] at h
  have hN : initNamed C E par inp out load fs = (((initOn (namedInit inp out load) C E.init par).run ⟨fs.set out [], 0⟩).1,
      ((initOn (namedInit inp out load) C E.init par).run ⟨fs.set out [], 0⟩).2.fs) := by
    simp [initNamed, openFile, hb]
  rw [hN]
  refine ⟨h.1, same_of_apart ?_ h1 h2⟩
  cases hx : ((initOn (plainInit b r) C E.init par).run ⟨[], old fs "srs.lag", old fs "evals"⟩).1 with
  | ok a => exact h.2.1 ⟨a, hx⟩
  | error e => exact h.2.2 ⟨e, hx⟩

/-- **C91**, `p2n` with names that are different from each other and from `srs.lag` and `evals`: it does what `Cli.p2n` says. -/
theorem C91_p2n_partial (E : Env F G1) (par : Par) (inp cs out : String) (h1 : out ≠ "srs.lag") (h2 : out ≠ "evals") (h3 : inp ≠ out)
    (h4 : inp ≠ "srs.lag") (h5 : inp ≠ "evals") (h6 : cs ≠ out) (h7 : cs ≠ "srs.lag") (h8 : cs ≠ "evals") (fs : FS) :
    (p2nAny C E par [inp, cs, out] fs).1 = (p2n C E par [inp, cs, out] fs).1 ∧
      SameFiles (p2nAny C E par [inp, cs, out] fs).2 (p2n C E par [inp, cs, out] fs).2 := by
  have e1 : p2nAny C E par [inp, cs, out] fs = initNamed C E par inp out (loadR1CS E cs) fs := rfl
  cases hb : fs inp with
  | none =>
    have e2 : initNamed C E par inp out (loadR1CS E cs) fs = (.error (.err "no such file or directory"), fs) := by
      simp [initNamed, openFile, hb]
    have e3 : p2n C E par [inp, cs, out] fs = (.error (.err "no such file or directory"), fs) := by
      simp [p2n, openFile, arg, hb]
    rw [e1, e2, e3]
    exact ⟨rfl, fun _ => .inl rfl⟩
  | some b =>
    cases hcs : fs cs with
    | none =>
      have e2 : p2n C E par [inp, cs, out] fs = (.error (.err "no such file or directory"), fs.set out []) := by
        simp [p2n, openFile, arg, hb, FS.set, h6, hcs]
      have e3 : (processHeaderOn (namedInit (F := F) (G1 := G1) (G2 := G2) inp out (loadR1CS E cs)) E.init.header).run ⟨fs.set out [], 0⟩ =
          (.error (.err "no such file or directory"), ⟨fs.set out [], 0⟩) := by
        unfold processHeaderOn
        refine Go.bind_error ?_
        simp only [namedInit, loadR1CS, openFile, set_other _ _ h6, hcs]
        rfl
      have e4 : initNamed C E par inp out (loadR1CS E cs) fs = (.error (.err "no such file or directory"), fs.set out []) := by
        unfold initNamed
        simp only [openFile, hb]
        unfold initOn
        rw [Go.bind_error e3]
      rw [e1, e2, e4]
      exact ⟨rfl, fun _ => .inl rfl⟩
    | some rs =>
    have hload : ∀ t : FS, (∀ q, q ≠ out → q ≠ "srs.lag" → q ≠ "evals" → t q = fs q) →
        loadR1CS E cs t = Loaded.parsed (G1 := G1) (G2 := G2) (E.r1cs rs) := by
      intro t ht
      simp only [loadR1CS, openFile, ht cs h6 h7 h8, hcs]
      rfl
    have h := initNamed_apart (C := C) E par inp out h1 h2 h3 h4 h5 _ _ fs hload b hb
    rw [initOn_plain] at h
    have e3 : p2n C E par [inp, cs, out] fs = ((initializeFiles C E.init par (E.r1cs rs) b (old fs "srs.lag") (old fs "evals")).1,
        saveInit fs out (initializeFiles C E.init par (E.r1cs rs) b (old fs "srs.lag") (old fs "evals")).2) := by
      simp [p2n, openFile, arg, hb, FS.set, h6, hcs, contentsAfterCreate, h3]
    rw [e1, e3]
    exact h

/-- **C91**, the number of arguments -/
theorem C91_args (E : Env F G1) (par : Par) (args : List String) (fs : FS) :
    (args.length ≠ 3 → p2nAny C E par args fs = p2n C E par args fs) ∧
    (args.length ≠ 6 → p2npAny C E par args fs = p2np C E par args fs) := by
  refine ⟨fun h => ?_, fun h => ?_⟩
  · rw [p2nAny, p2n, if_pos h, if_pos h]
  · rw [p2npAny, p2np, if_pos h, if_pos h]

/-- **C91**, `p2np` likewise -/
theorem C91_p2np_partial (E : Env F G1) (par : Par) (inp session out n m b : String) (h1 : out ≠ "srs.lag") (h2 : out ≠ "evals")
    (h3 : inp ≠ out) (h4 : inp ≠ "srs.lag") (h5 : inp ≠ "evals") (fs : FS) :
    (p2npAny C E par [inp, session, out, n, m, b] fs).1 = (p2np C E par [inp, session, out, n, m, b] fs).1 ∧
      SameFiles (p2npAny C E par [inp, session, out, n, m, b] fs).2 (p2np C E par [inp, session, out, n, m, b] fs).2 := by
  have hl : ¬[inp, session, out, n, m, b].length ≠ 6 := by simp
  unfold p2npAny p2np
  rw [if_neg hl, if_neg hl]
  simp only [arg, List.getD_cons_zero, List.getD_cons_succ]
  cases atoi n with
  | error e => exact ⟨rfl, fun _ => .inl rfl⟩
  | ok n =>
    cases atoi m with
    | error e => exact ⟨rfl, fun _ => .inl rfl⟩
    | ok m =>
      cases atoi b with
      | error e => exact ⟨rfl, fun _ => .inl rfl⟩
      | ok b =>
        dsimp only
        cases hb : fs inp with
        | none =>
          have e1 : initNamed C E par inp out (fun _ => .ok (.ofParted (E.parted (fs.set out []) session m b) n)) fs =
              (.error (.err "no such file or directory"), fs) := by simp [initNamed, openFile, hb]
          have e2 : p2npRun C E par inp session out n m b fs = (.error (.err "no such file or directory"), fs) := by
            simp [p2npRun, openFile, hb]
          rw [e1, e2]
          exact ⟨rfl, fun _ => .inl rfl⟩
        | some x =>
          have h := initNamed_apart (C := C) E par inp out h1 h2 h3 h4 h5
            (fun _ => .ok (.ofParted (E.parted (fs.set out []) session m b) n)) _ fs (fun _ _ => rfl) x hb
          simp only [p2npRun, openFile, hb, contentsAfterCreate, h3, if_false]
          rw [initOn_parted] at h
          exact h

theorem decode_empty {G : Type} (c : Codec G) (hc : 0 < c.size) (r : Rd) (hr : r.rest = []) (p : G) : (c.decode.run r).1 ≠ .ok p := by
  have : (Rd.readFull c.size).run r = (.error (.err "EOF"), r.adv 0) := by
    simp [Rd.readFull, hr, Nat.not_le.2 hc]
  unfold Codec.decode
  rw [Go.bind_error this]
  simp

theorem contents_eq {path : String} {f : FS} {n : Nat} {x : Bytes} {s : NamedSt}
    (h : (NamedSt.contents path).run ⟨f, n⟩ = (.ok x, s)) : x = old f path ∧ s = ⟨f, n⟩ := by
  have h1 := congrArg Prod.fst h
  have h2 := congrArg Prod.snd h
  simp only [NamedSt.contents, Except.ok.injEq] at h1 h2
  exact ⟨h1.symm, h2.symm⟩

/-- the phase 1 file is `evals`: it has been emptied when it is read -/
theorem evals_input (hC : C.Lawful) (E : Env F G1) (par : Par) (out : String) (load : FS → Except Fail (Loaded F G1 G2)) (fs : FS) :
    (initNamed C E par "evals" out load fs).1 ≠ .ok () := by
  unfold initNamed
  cases openFile fs "evals" with
  | error e => simp
  | ok bs =>
    intro h
    obtain ⟨s', h⟩ : ∃ s', (initOn (namedInit "evals" out load) C E.init par).run ⟨fs.set out [], 0⟩ = (.ok (), s') := ⟨_, Prod.ext h rfl⟩
    unfold initOn at h
    obtain ⟨x, s1, -, h⟩ := Go.bind_eq_ok h
    obtain ⟨_, s2, -, h⟩ := Go.bind_eq_ok h
    obtain ⟨_, s3, h, -⟩ := Go.bind_eq_ok h
    unfold processEvaluationsOn at h
    obtain ⟨_, _, -, h⟩ := Go.bind_eq_ok h
    obtain ⟨_, s4, e4, h⟩ := Go.bind_eq_ok h
    obtain ⟨f, s5, e5, h⟩ := Go.bind_eq_ok h
    obtain ⟨_, _, e6, -⟩ := Go.bind_eq_ok h
    cases e4
    have hf := (contents_eq e5).1
    rw [old_set] at hf
    subst hf
    have h7 := (lift_eq_ok e6).1
    unfold readPhase1 at h7
    obtain ⟨p, h8, -⟩ := except_bind_eq_ok h7
    unfold Phase1.seekDecode at h8
    split at h8
    · simp at h8
    · exact decode_empty C.c1 (by rw [hC.size1]; decide) _ (by simp [Rd.file]) p h8

/-- the phase 1 file is `srs.lag`: it has been emptied when it is read -/
theorem lag_input (hC : C.Lawful) (E : Env F G1) (par : Par) (out : String) (hd : ∀ n, 0 < (E.init.dom n).cardinality)
    (load : FS → Except Fail (Loaded F G1 G2)) (fs : FS) :
    (initNamed C E par "srs.lag" out load fs).1 ≠ .ok () := by
  unfold initNamed
  cases openFile fs "srs.lag" with
  | error e => simp
  | ok bs =>
    intro h
    obtain ⟨s', h⟩ : ∃ s', (initOn (namedInit "srs.lag" out load) C E.init par).run ⟨fs.set out [], 0⟩ = (.ok (), s') := ⟨_, Prod.ext h rfl⟩
    unfold initOn at h
    obtain ⟨x, s1, -, h⟩ := Go.bind_eq_ok h
    obtain ⟨_, s2, h, -⟩ := Go.bind_eq_ok h
    unfold processLagrangeOn at h
    obtain ⟨_, s4, e4, h⟩ := Go.bind_eq_ok h
    obtain ⟨f, s5, e5, h⟩ := Go.bind_eq_ok h
    obtain ⟨_, _, e6, -⟩ := Go.bind_eq_ok h
    cases e4
    have hf := (contents_eq e5).1
    rw [old_set] at hf
    subst hf
    have h7 := (lift_eq_ok e6).1
    unfold lagrangeSection at h7
    obtain ⟨_, -, h7⟩ := except_bind_eq_ok h7
    obtain ⟨ps, h8, -⟩ := except_bind_eq_ok h7
    obtain ⟨m, hm⟩ := Nat.exists_eq_add_of_lt (hd x.2.domain.toNat)
    rw [Nat.zero_add] at hm
    rw [hm] at h8
    unfold Codec.decodeN at h8
    obtain ⟨_, h8⟩ : ∃ r, ((C.c1.decode >>= fun p => C.c1.decodeN m >>= fun ps => pure (p :: ps)).run
        (Rd.buffered 4096 (List.drop (3 : Int).toNat []))) = (.ok ps, r) := ⟨_, Prod.ext h8 rfl⟩
    obtain ⟨p, _, e9, -⟩ := Go.bind_eq_ok h8
    exact decode_empty C.c1 (by rw [hC.size1]; decide) _ (by simp [Rd.buffered]) p (congrArg Prod.fst e9)

/-- **C91**, the phase 1 file is `evals` or `srs.lag`: `p2n` never succeeds -/
theorem C91_p2n_input (hC : C.Lawful) (E : Env F G1) (par : Par) (hd : ∀ n, 0 < (E.init.dom n).cardinality) (inp cs out : String)
    (hi : inp = "evals" ∨ inp = "srs.lag") (fs : FS) : (p2nAny C E par [inp, cs, out] fs).1 ≠ .ok () := by
  have e1 : p2nAny C E par [inp, cs, out] fs = initNamed C E par inp out (loadR1CS E cs) fs := rfl
  rw [e1]
  rcases hi with rfl | rfl
  · exact evals_input hC E par out _ fs
  · exact lag_input hC E par out hd _ fs

/-- **C91**, the same for `p2np` -/
theorem C91_p2np_input (hC : C.Lawful) (E : Env F G1) (par : Par) (hd : ∀ n, 0 < (E.init.dom n).cardinality)
    (inp session out n m b : String) (hi : inp = "evals" ∨ inp = "srs.lag") (fs : FS) :
    (p2npAny C E par [inp, session, out, n, m, b] fs).1 ≠ .ok () := by
  have hl : ¬[inp, session, out, n, m, b].length ≠ 6 := by simp
  unfold p2npAny
  rw [if_neg hl]
  simp only [arg, List.getD_cons_zero, List.getD_cons_succ]
  cases atoi n with
  | error e => simp
  | ok n =>
    cases atoi m with
    | error e => simp
    | ok m =>
      cases atoi b with
      | error e => simp
      | ok b =>
        rcases hi with rfl | rfl
        · exact evals_input hC E par out _ fs
        · exact lag_input hC E par out hd _ fs

theorem headerOn_ph2 {r : Except Fail (Loaded F G1 G2)} {file : Bytes} {H : HeaderCodec} {s s' : InitSt} {x : Phase1.Header × Header}
    (h : (processHeaderOn (plainInit file r) H).run s = (.ok x, s')) : s'.ph2 = s.ph2 ++ H.enc x.2 := by
  unfold processHeaderOn at h
  obtain ⟨l, t1, e1, h1⟩ := Go.bind_eq_ok h
  obtain ⟨-, rfl⟩ := lift_eq_ok e1
  obtain ⟨d, t2, e2, h2⟩ := Go.bind_eq_ok h1
  obtain ⟨-, rfl⟩ := lift_eq_ok e2
  obtain ⟨f, t3, e3, h3⟩ := Go.bind_eq_ok h2
  obtain ⟨-, rfl⟩ := lift_eq_ok (x := .ok file) e3
  obtain ⟨hd, t4, e4, h4⟩ := Go.bind_eq_ok h3
  obtain ⟨-, rfl⟩ := lift_eq_ok e4
  obtain ⟨_, t5, e5, h5⟩ := Go.bind_eq_ok h4
  obtain ⟨-, rfl⟩ := lift_eq_ok e5
  obtain ⟨_, t6, e6, h6⟩ := Go.bind_eq_ok h5
  have e7 : _ = t6 := congrArg Prod.snd e6
  obtain ⟨h8, h9⟩ := Prod.mk.inj h6
  rw [← h9, ← Except.ok.inj h8, ← e7]
  rfl

theorem lagrangeOn_ph2 {r : Except Fail (Loaded F G1 G2)} {file : Bytes} {par : Par} {dom : Nat → Lagrange.Domain F} {x : Phase1.Header}
    {y : Header} {s s' : InitSt} {u : Unit}
    (h : (processLagrangeOn (plainInit file r) C par dom x y).run s = (.ok u, s')) : s'.ph2 = s.ph2 := by
  unfold processLagrangeOn at h
  obtain ⟨_, _, e, h⟩ := Go.bind_eq_ok h
  cases e
  iterate 3
    obtain ⟨_, _, e, h⟩ := Go.bind_eq_ok h
    cases e
    obtain ⟨_, _, e, h⟩ := Go.bind_eq_ok h
    obtain ⟨-, rfl⟩ := lift_eq_ok e
    obtain ⟨_, _, e, h⟩ := Go.bind_eq_ok h
    cases e
  obtain ⟨_, _, e, h⟩ := Go.bind_eq_ok h
  cases e
  obtain ⟨_, _, e, h⟩ := Go.bind_eq_ok h
  obtain ⟨-, rfl⟩ := lift_eq_ok e
  cases h
  rfl

theorem evaluationsOn_ph2 {r : Except Fail (Loaded F G1 G2)} {file : Bytes} {x : Phase1.Header} {y : Header} {s s' : InitSt} {u : Unit}
    (h : (processEvaluationsOn (plainInit file r) C x y).run s = (.ok u, s')) :
    s'.ph2 = s.ph2 ∧ ∃ al b1 b2 rest, readPhase1 C file x.power = .ok (al, b1, b2) ∧
      s'.evals = C.c1.bytes al ++ C.c1.bytes b1 ++ C.c2.bytes b2 ++ rest := by
  unfold processEvaluationsOn at h
  obtain ⟨_, _, e, h⟩ := Go.bind_eq_ok h
  cases e
  obtain ⟨_, _, e, h⟩ := Go.bind_eq_ok h
  cases e
  obtain ⟨_, _, e, h⟩ := Go.bind_eq_ok h
  cases e
  obtain ⟨⟨al, b1, b2⟩, _, e, h⟩ := Go.bind_eq_ok h
  obtain ⟨e1, rfl⟩ := lift_eq_ok e
  obtain ⟨_, _, e, h⟩ := Go.bind_eq_ok h
  cases e
  obtain ⟨_, _, e, h⟩ := Go.bind_eq_ok h
  cases e
  obtain ⟨_, _, e, h⟩ := Go.bind_eq_ok h
  cases e
  obtain ⟨_, _, e, h⟩ := Go.bind_eq_ok h
  obtain ⟨-, rfl⟩ := lift_eq_ok e
  obtain ⟨_, _, e, h⟩ := Go.bind_eq_ok h
  obtain ⟨-, rfl⟩ := lift_eq_ok e
  obtain ⟨_, _, e, h⟩ := Go.bind_eq_ok h
  obtain ⟨-, rfl⟩ := lift_eq_ok e
  obtain ⟨ba, _, e, h⟩ := Go.bind_eq_ok h
  obtain ⟨-, rfl⟩ := lift_eq_ok e
  obtain ⟨_, _, e, h⟩ := Go.bind_eq_ok h
  cases e
  obtain ⟨bb, _, e, h⟩ := Go.bind_eq_ok h
  obtain ⟨-, rfl⟩ := lift_eq_ok e
  obtain ⟨_, _, e, h⟩ := Go.bind_eq_ok h
  cases e
  obtain ⟨_, _, e, h⟩ := Go.bind_eq_ok h
  obtain ⟨-, rfl⟩ := lift_eq_ok e
  obtain ⟨bc, _, e, h⟩ := Go.bind_eq_ok h
  obtain ⟨-, rfl⟩ := lift_eq_ok e
  cases h
  exact ⟨rfl, al, b1, b2, C.c1.encodeSlice ba ++ C.c1.encodeSlice bb ++ C.c2.encodeSlice bc, e1, by simp⟩

/-- The file `evals` when the phase 2 file is called `evals` too. `hd` is the header, `dz` are [δ]₁, [δ]₂ and Z, `pk` is PKK, `ev` the part
of the evaluations written first (up to [B]₂) and `ev1` the rest. -/
def overlaid (hd dz pk ev ev1 : Bytes) : Bytes :=
  writeAt (writeAt ev hd.length (dz ++ Keys.passedOn pk) ++ ev1) (hd.length + dz.length + (Keys.passedOn pk).length)
    (pk.drop (Keys.passedOn pk).length)

theorem named_evals (E : Env F G1) (par : Par) (inp : String) (h4 : inp ≠ "srs.lag") (h5 : inp ≠ "evals")
    (load : FS → Except Fail (Loaded F G1 G2)) (r : Except Fail (Loaded F G1 G2)) (fs : FS)
    (hload : ∀ t : FS, (∀ q, q ≠ "srs.lag" → q ≠ "evals" → t q = fs q) → load t = r) (b : Bytes) (hb : fs inp = some b) :
    let x := (initOn (plainInit b r) C E.init par).run ⟨[], old fs "srs.lag", old fs "evals"⟩
    (initNamed C E par inp "evals" load fs).1 = x.1 ∧
      (x.1 = .ok () → ∃ (h1 : Phase1.Header) (h2 : Header) (al b1 : G1) (b2 : G2) (dz pk rest ev1 : Bytes),
        readPhase1 C b h1.power = .ok (al, b1, b2) ∧
        x.2.ph2 = E.init.header.enc h2 ++ dz ++ pk ∧ x.2.evals = C.c1.bytes al ++ C.c1.bytes b1 ++ C.c2.bytes b2 ++ rest ++ ev1 ∧
        (initNamed C E par inp "evals" load fs).2 "evals" =
          some (overlaid (E.init.header.enc h2) dz pk (C.c1.bytes al ++ C.c1.bytes b1 ++ C.c2.bytes b2 ++ rest) ev1)) := by
  have hob : old fs inp = b := by simp [old, hb]
  have hN : initNamed C E par inp "evals" load fs = (((initOn (namedInit inp "evals" load) C E.init par).run ⟨fs.set "evals" [], 0⟩).1,
      ((initOn (namedInit inp "evals" load) C E.init par).run ⟨fs.set "evals" [], 0⟩).2.fs) := by
    simp [initNamed, openFile, hb]
  obtain ⟨g1, g2⟩ := init_evals (fs := fs) C E.init par h4 h5 load r hload (old fs "evals")
  rw [hob] at g1 g2
  rw [hN]
  refine ⟨g1, fun hx => ?_⟩
  obtain ⟨h1, h2, s1, s2, s3, s4, dz, r1, r2, r3, r4, r5, e, g⟩ := g2 _ (Prod.ext hx rfl)
  obtain ⟨q1, al, b1, b2, rest, q2, q3⟩ := evaluationsOn_ph2 r3
  have q4 : s3.ph2 = E.init.header.enc h2 := by
    rw [q1, lagrangeOn_ph2 r2, headerOn_ph2 r1]
    rfl
  obtain ⟨pk, ev1, w1, w2, w3⟩ := g.file
  rw [q4] at w1 w3
  rw [q3] at w2 w3
  exact ⟨h1, h2, al, b1, b2, dz, pk, rest, ev1, q2, w1, w2, w3⟩

theorem writeAt_take (a b : Bytes) (k n : Nat) (h1 : n ≤ k) (h2 : n ≤ a.length) : (writeAt a k b).take n = a.take n := by
  unfold writeAt
  split
  · rfl
  · rw [List.append_assoc, List.take_append_of_le_length (by simp; omega), List.take_take, Nat.min_eq_left h1,
      List.take_append_of_le_length h2]

/-- the evaluations written first stay where the phase 2 file would have its header -/
theorem overlaid_take (hd dz pk ev ev1 : Bytes) (n : Nat) (h1 : n ≤ hd.length) (h2 : n ≤ ev.length) :
    (overlaid hd dz pk ev ev1).take n = ev.take n := by
  have hl : ev.length ≤ (writeAt ev hd.length (dz ++ Keys.passedOn pk)).length := by
    by_cases hz : dz ++ Keys.passedOn pk = []
    · simp [writeAt, hz]
    · rw [writeAt_length _ _ _ hz]
      exact Nat.le_max_left _ _
  unfold overlaid
  rw [writeAt_take _ _ _ _ (by omega) (by simp; omega), List.take_append_of_le_length (by omega), writeAt_take _ _ _ _ h1 h2]

/-- **C91** is false if the phase 2 file is called `evals`. The command reports what it reports with any other name `out`. But if it reports
success, then the file `evals` has the first bytes of the evaluations, [α]₁, in place of the header, and over the evaluations the rest of the
phase 2 file has been written, except where the last evaluations have been appended in between. -/
theorem C91_p2n_evals (E : Env F G1) (par : Par) (inp cs out : String) (h1 : out ≠ "srs.lag") (h2 : out ≠ "evals") (h3 : inp ≠ out)
    (h4 : inp ≠ "srs.lag") (h5 : inp ≠ "evals") (h6 : cs ≠ out) (h7 : cs ≠ "srs.lag") (h8 : cs ≠ "evals") (fs : FS) (b rs : Bytes)
    (hb : fs inp = some b) (hcs : fs cs = some rs) :
    (p2nAny C E par [inp, cs, "evals"] fs).1 = (p2n C E par [inp, cs, out] fs).1 ∧
    ((p2n C E par [inp, cs, out] fs).1 = .ok () →
      ∃ (p : UInt8) (h : Header) (al b1 : G1) (b2 : G2) (dz pk rest ev1 : Bytes), readPhase1 C b p = .ok (al, b1, b2) ∧
        (p2n C E par [inp, cs, out] fs).2 out = some (E.init.header.enc h ++ dz ++ pk) ∧
        (p2n C E par [inp, cs, out] fs).2 "evals" = some (C.c1.bytes al ++ C.c1.bytes b1 ++ C.c2.bytes b2 ++ rest ++ ev1) ∧
        (p2nAny C E par [inp, cs, "evals"] fs).2 "evals" =
          some (overlaid (E.init.header.enc h) dz pk (C.c1.bytes al ++ C.c1.bytes b1 ++ C.c2.bytes b2 ++ rest) ev1)) := by
  have e1 : p2nAny C E par [inp, cs, "evals"] fs = initNamed C E par inp "evals" (loadR1CS E cs) fs := rfl
  have hload : ∀ t : FS, (∀ q, q ≠ "srs.lag" → q ≠ "evals" → t q = fs q) →
      loadR1CS E cs t = Loaded.parsed (G1 := G1) (G2 := G2) (E.r1cs rs) := by
    intro t ht
    simp only [loadR1CS, openFile, ht cs h7 h8, hcs]
    rfl
  have h := named_evals (C := C) E par inp h4 h5 _ _ fs hload b hb
  rw [initOn_plain] at h
  have e3 : p2n C E par [inp, cs, out] fs = ((initializeFiles C E.init par (E.r1cs rs) b (old fs "srs.lag") (old fs "evals")).1,
      saveInit fs out (initializeFiles C E.init par (E.r1cs rs) b (old fs "srs.lag") (old fs "evals")).2) := by
    simp [p2n, openFile, arg, hb, FS.set, h6, hcs, contentsAfterCreate, h3]
  rw [e1, e3]
  refine ⟨h.1, fun hok => ?_⟩
  obtain ⟨hd1, hd2, al, b1, b2, dz, pk, rest, ev1, q1, q2, q3, q4⟩ := h.2 hok
  refine ⟨hd1.power, hd2, al, b1, b2, dz, pk, rest, ev1, q1, ?_, ?_, q4⟩
  · exact ((set_other _ _ h2).trans ((set_other _ _ h1).trans (set_self _ _ _))).trans (congrArg some q2)
  · change saveInit fs out _ "evals" = _
    unfold saveInit
    rw [set_self]
    exact congrArg some q3

/-- **C91**: the first bytes of the file `evals` that `p2n` leaves are those of the evaluations, not the header. -/
theorem C91_p2n_evals_head (hC : C.Lawful) (E : Env F G1) (par : Par) (inp cs out : String) (h1 : out ≠ "srs.lag") (h2 : out ≠ "evals")
    (h3 : inp ≠ out) (h4 : inp ≠ "srs.lag") (h5 : inp ≠ "evals") (h6 : cs ≠ out) (h7 : cs ≠ "srs.lag") (h8 : cs ≠ "evals") (fs : FS)
    (b rs : Bytes) (hb : fs inp = some b) (hcs : fs cs = some rs) (hh : ∀ h, 32 ≤ (E.init.header.enc h).length)
    (hok : (p2nAny C E par [inp, cs, "evals"] fs).1 = .ok ()) :
    ∃ (p : UInt8) (al b1 : G1) (b2 : G2) (rest : Bytes), readPhase1 C b p = .ok (al, b1, b2) ∧
      (p2nAny C E par [inp, cs, "evals"] fs).2 "evals" = some (C.c1.bytes al ++ rest) := by
  obtain ⟨g1, g2⟩ := C91_p2n_evals (C := C) E par inp cs out h1 h2 h3 h4 h5 h6 h7 h8 fs b rs hb hcs
  rw [g1] at hok
  obtain ⟨p, h, al, b1, b2, dz, pk, rest, ev1, q1, -, -, q4⟩ := g2 hok
  have hl : (C.c1.bytes al).length = 32 := by rw [hC.codec1.bytes_length, hC.size1]
  have ht := overlaid_take (E.init.header.enc h) dz pk (C.c1.bytes al ++ C.c1.bytes b1 ++ C.c2.bytes b2 ++ rest) ev1 32 (hh h)
    (by simp only [List.length_append, hl]; omega)
  generalize overlaid (E.init.header.enc h) dz pk (C.c1.bytes al ++ C.c1.bytes b1 ++ C.c2.bytes b2 ++ rest) ev1 = file at ht q4
  rw [List.append_assoc, List.append_assoc, List.take_append_of_le_length (by omega),
    List.take_of_length_le (l := C.c1.bytes al) (by omega)] at ht
  refine ⟨p, al, b1, b2, file.drop 32, q1, ?_⟩
  rw [q4, ← ht, List.take_append_drop]

/-- **C91**, the constraint system is the phase 2 file: it has been emptied when it is read, so `p2n` fails and the file stays empty -/
theorem C91_p2n_circuit (E : Env F G1) (par : Par) (hr : E.r1cs [] = none) (inp out : String) (fs : FS) (b : Bytes) (hb : fs inp = some b) :
    p2nAny C E par [inp, out, out] fs = (.error (.err "r1cs"), fs.set out []) := by
  have e1 : p2nAny C E par [inp, out, out] fs = initNamed C E par inp out (loadR1CS E out) fs := rfl
  have h : (processHeaderOn (namedInit (F := F) (G1 := G1) (G2 := G2) inp out (loadR1CS E out)) E.init.header).run ⟨fs.set out [], 0⟩ =
      (.error (.err "r1cs"), ⟨fs.set out [], 0⟩) := by
    unfold processHeaderOn
    refine Go.bind_error ?_
    simp only [namedInit, loadR1CS, openFile, set_self]
    change (Loaded.parsed (E.r1cs []), _) = _
    rw [hr]
    rfl
  rw [e1]
  unfold initNamed
  simp only [openFile, hb]
  unfold initOn
  rw [Go.bind_error h]

/-- **C91**, the same for `p2np`, for a session that is read alike with both names -/
theorem C91_p2np_evals (E : Env F G1) (par : Par) (inp session out n m k : String) (h1 : out ≠ "srs.lag") (h2 : out ≠ "evals")
    (h3 : inp ≠ out) (h4 : inp ≠ "srs.lag") (h5 : inp ≠ "evals") (fs : FS) (b : Bytes) (hb : fs inp = some b)
    (hs : E.parted (fs.set "evals" []) session = E.parted (fs.set out []) session) :
    (p2npAny C E par [inp, session, "evals", n, m, k] fs).1 = (p2np C E par [inp, session, out, n, m, k] fs).1 ∧
    ((p2np C E par [inp, session, out, n, m, k] fs).1 = .ok () →
      ∃ (p : UInt8) (h : Header) (al b1 : G1) (b2 : G2) (dz pk rest ev1 : Bytes), readPhase1 C b p = .ok (al, b1, b2) ∧
        (p2np C E par [inp, session, out, n, m, k] fs).2 out = some (E.init.header.enc h ++ dz ++ pk) ∧
        (p2np C E par [inp, session, out, n, m, k] fs).2 "evals" = some (C.c1.bytes al ++ C.c1.bytes b1 ++ C.c2.bytes b2 ++ rest ++ ev1) ∧
        (p2npAny C E par [inp, session, "evals", n, m, k] fs).2 "evals" =
          some (overlaid (E.init.header.enc h) dz pk (C.c1.bytes al ++ C.c1.bytes b1 ++ C.c2.bytes b2 ++ rest) ev1)) := by
  have hl : ¬[inp, session, "evals", n, m, k].length ≠ 6 := by simp
  have hl' : ¬[inp, session, out, n, m, k].length ≠ 6 := by simp
  unfold p2npAny p2np
  rw [if_neg hl, if_neg hl']
  simp only [arg, List.getD_cons_zero, List.getD_cons_succ]
  cases atoi n with
  | error e => exact ⟨rfl, fun h => by simp at h⟩
  | ok n =>
    cases atoi m with
    | error e => exact ⟨rfl, fun h => by simp at h⟩
    | ok m =>
      cases atoi k with
      | error e => exact ⟨rfl, fun h => by simp at h⟩
      | ok k =>
        dsimp only
        rw [hs]
        have h := named_evals (C := C) E par inp h4 h5 (fun _ => .ok (.ofParted (E.parted (fs.set out []) session m k) n)) _ fs
          (fun _ _ => rfl) b hb
        rw [initOn_parted] at h
        have e3 : p2npRun C E par inp session out n m k fs =
            ((initializeParted C E.init par (E.parted (fs.set out []) session m k) n b (old fs "srs.lag") (old fs "evals")).1,
              saveInit fs out (initializeParted C E.init par (E.parted (fs.set out []) session m k) n b (old fs "srs.lag") (old fs "evals")).2) := by
          simp [p2npRun, openFile, hb, contentsAfterCreate, h3]
        rw [e3]
        refine ⟨h.1, fun hok => ?_⟩
        obtain ⟨hd1, hd2, al, b1, b2, dz, pk, rest, ev1, q1, q2, q3, q4⟩ := h.2 hok
        refine ⟨hd1.power, hd2, al, b1, b2, dz, pk, rest, ev1, q1, ?_, ?_, q4⟩
        · exact ((set_other _ _ h2).trans ((set_other _ _ h1).trans (set_self _ _ _))).trans (congrArg some q2)
        · change saveInit fs out _ "evals" = _
          unfold saveInit
          rw [set_self]
          exact congrArg some q3

/-- a success of the program keeps the property of the state -/
def KeepsInv {σ α : Type} (I : σ → Prop) (x : Go σ α) : Prop := ∀ t a t', I t → x.run t = (.ok a, t') → I t'

namespace KeepsInv
variable {σ α β : Type} {I : σ → Prop}

theorem bind {x : Go σ α} {f : α → Go σ β} (hx : KeepsInv I x) (hf : ∀ a, KeepsInv I (f a)) : KeepsInv I (x >>= f) := by
  intro t b t' h e
  obtain ⟨a, t1, e1, e2⟩ := Go.bind_eq_ok e
  exact hf a t1 b t' (hx t a t1 h e1) e2

theorem lift (r : Except Fail α) : KeepsInv I (Go.lift r) := by
  intro t a t' h e
  rw [(lift_eq_ok e).2]
  exact h

theorem step {g : σ → σ} {r : σ → Except Fail α} (h : ∀ t, I t → I (g t)) : KeepsInv I ⟨fun t => (r t, g t)⟩ := by
  intro t a t' ht e
  have : g t = t' := congrArg Prod.snd e
  rw [← this]
  exact h t ht

end KeepsInv

/-- the first `n` bytes of `srs.lag` are `w`, and the phase 2 handle is beyond them -/
def LagBegins (n : Nat) (w : Bytes) (t : NamedSt) : Prop := n ≤ t.off ∧ n ≤ (old t.fs "srs.lag").length ∧ (old t.fs "srs.lag").take n = w

theorem LagBegins.emitPh2 {n : Nat} {w b : Bytes} : KeepsInv (LagBegins n w) (NamedSt.emitPh2 "srs.lag" b) := by
  refine KeepsInv.step (r := fun _ => .ok ()) fun t ht => ?_
  obtain ⟨h1, h2, h3⟩ := ht
  refine ⟨Nat.le_trans h1 (Nat.le_add_right _ _), ?_, ?_⟩
  · simp only [old_set]
    by_cases hb : b = []
    · simpa [writeAt, hb] using h2
    · rw [writeAt_length _ _ _ hb]
      exact Nat.le_trans h2 (Nat.le_max_left _ _)
  · simp only [old_set]
    rw [writeAt_take _ _ _ _ h1 h2, h3]

theorem LagBegins.evals {n : Nat} {w : Bytes} (f : NamedSt → Bytes) :
    KeepsInv (LagBegins n w) ⟨fun t => (.ok (), { t with fs := t.fs.set "evals" (f t) })⟩ := by
  refine KeepsInv.step (r := fun _ => .ok ()) fun t ht => ?_
  unfold LagBegins at ht ⊢
  simp only [old_set_ne _ _ (show "srs.lag" ≠ "evals" by decide)]
  exact ht

theorem LagBegins.contents {n : Nat} {w : Bytes} (path : String) : KeepsInv (LagBegins n w) (NamedSt.contents path) :=
  KeepsInv.step fun _ h => h

theorem LagBegins.rest {n : Nat} {w : Bytes} (E : InitEnv F) (inp : String) (load : FS → Except Fail (Loaded F G1 G2)) (x : Phase1.Header)
    (y : Header) : KeepsInv (LagBegins n w) (processEvaluationsOn (namedInit inp "srs.lag" load) C x y) ∧
      KeepsInv (LagBegins n w) (processDeltaAndZOn (namedInit inp "srs.lag" load) C y) ∧
      KeepsInv (LagBegins n w) (processPVCKKOn (namedInit inp "srs.lag" load) C E.cmtBytes y) := by
  have hl : KeepsInv (LagBegins n w) (namedInit inp "srs.lag" load).load := KeepsInv.step fun _ h => h
  have he : ∀ b, KeepsInv (LagBegins n w) ((namedInit inp "srs.lag" load).emitEvals b) := fun b => LagBegins.evals fun t => old t.fs "evals" ++ b
  have hc : ∀ path, KeepsInv (LagBegins n w) (NamedSt.contents path) := LagBegins.contents
  refine ⟨?_, ?_, ?_⟩
  · unfold processEvaluationsOn
    exact (hc _).bind fun _ => (LagBegins.evals fun _ => []).bind fun _ => (hc _).bind fun _ => (KeepsInv.lift _).bind fun _ => (he _).bind fun _ =>
      (he _).bind fun _ => (he _).bind fun _ => hl.bind fun _ => (KeepsInv.lift _).bind fun _ => (KeepsInv.lift _).bind fun _ =>
      (KeepsInv.lift _).bind fun _ => (he _).bind fun _ => (KeepsInv.lift _).bind fun _ => (he _).bind fun _ => (KeepsInv.lift _).bind fun _ =>
      (KeepsInv.lift _).bind fun _ => he _
  · unfold processDeltaAndZOn
    exact (hc _).bind fun _ => LagBegins.emitPh2.bind fun _ => LagBegins.emitPh2.bind fun _ => (KeepsInv.lift _).bind fun _ =>
      (KeepsInv.lift _).bind fun _ => LagBegins.emitPh2
  · unfold processPVCKKOn
    exact hl.bind fun _ => (hc _).bind fun _ => (KeepsInv.lift _).bind fun _ => (KeepsInv.lift _).bind fun _ => (KeepsInv.lift _).bind fun _ =>
      (KeepsInv.lift _).bind fun _ => (KeepsInv.lift _).bind fun _ => (KeepsInv.lift _).bind fun _ =>
      LagBegins.emitPh2.bind fun _ => (he _).bind fun _ => (he _).bind fun _ => (he _).bind fun _ => LagBegins.emitPh2

/-- **C91** is false as well if the phase 2 file is called `srs.lag`: if the command succeeds, then the Lagrange form of [τⁱ]₁ is where the
header should be. This is so for any circuit, whatever its name is. -/
theorem C91_lag_head (E : Env F G1) (par : Par) (inp : String) (h1 : inp ≠ "srs.lag") (load : FS → Except Fail (Loaded F G1 G2)) (fs : FS)
    (b : Bytes) (hb : fs inp = some b) (hok : (initNamed C E par inp "srs.lag" load fs).1 = .ok ()) :
    ∃ (h : Header) (s : Bytes), lagrangeSection C.c1 par b 3 (E.init.dom h.domain.toNat) = .ok s ∧
      ∀ n, n ≤ (E.init.header.enc h).length → n ≤ s.length → (old (initNamed C E par inp "srs.lag" load fs).2 "srs.lag").take n = s.take n := by
  have hN : initNamed C E par inp "srs.lag" load fs = (((initOn (namedInit inp "srs.lag" load) C E.init par).run ⟨fs.set "srs.lag" [], 0⟩).1,
      ((initOn (namedInit inp "srs.lag" load) C E.init par).run ⟨fs.set "srs.lag" [], 0⟩).2.fs) := by
    simp [initNamed, openFile, hb]
  rw [hN] at hok ⊢
  rcases hr : (initOn (namedInit inp "srs.lag" load) C E.init par).run ⟨fs.set "srs.lag" [], 0⟩ with ⟨res, t⟩
  rw [hr] at hok
  obtain rfl : res = .ok () := hok
  unfold initOn at hr
  obtain ⟨⟨x, y⟩, t1, e1, hr⟩ := Go.bind_eq_ok hr
  obtain ⟨_, t2, e2, hr⟩ := Go.bind_eq_ok hr
  obtain ⟨_, t3, e3, hr⟩ := Go.bind_eq_ok hr
  obtain ⟨_, t4, e4, e5⟩ := Go.bind_eq_ok hr
  -- the header
  have g1 : t1.off = (E.init.header.enc y).length ∧ old t1.fs inp = b := by
    unfold processHeaderOn at e1
    obtain ⟨l, u1, q1, e1⟩ := Go.bind_eq_ok e1
    obtain rfl : _ = u1 := congrArg Prod.snd q1
    obtain ⟨d, u2, q2, e1⟩ := Go.bind_eq_ok e1
    obtain ⟨-, rfl⟩ := lift_eq_ok q2
    obtain ⟨f, u3, q3, e1⟩ := Go.bind_eq_ok e1
    obtain rfl : _ = u3 := congrArg Prod.snd q3
    obtain ⟨hd, u4, q4, e1⟩ := Go.bind_eq_ok e1
    obtain ⟨-, rfl⟩ := lift_eq_ok q4
    obtain ⟨_, u5, q5, e1⟩ := Go.bind_eq_ok e1
    obtain ⟨-, rfl⟩ := lift_eq_ok q5
    obtain ⟨_, u6, q6, e1⟩ := Go.bind_eq_ok e1
    have q7 : _ = u6 := congrArg Prod.snd q6
    obtain ⟨q8, q9⟩ := Prod.mk.inj e1
    have q10 := Except.ok.inj q8
    simp only [Prod.mk.injEq] at q10
    rw [← q9, ← q7, ← q10.2]
    refine ⟨Nat.zero_add _, ?_⟩
    change old ((fs.set "srs.lag" []).set "srs.lag" _) inp = b
    rw [old_set_ne _ _ h1, old_set_ne _ _ h1]
    simp [old, hb]
  -- the Lagrange form
  unfold processLagrangeOn at e2
  obtain ⟨_, u1, q1, p1⟩ := Go.bind_eq_ok e2
  have q1' : _ = u1 := congrArg Prod.snd q1
  obtain ⟨f, u2, q2, p2⟩ := Go.bind_eq_ok p1
  have q2' : old u1.fs inp = f := Except.ok.inj (congrArg Prod.fst q2)
  obtain rfl : u1 = u2 := congrArg Prod.snd q2
  obtain ⟨s, u3, q3, p3⟩ := Go.bind_eq_ok p2
  obtain ⟨hs, rfl⟩ := lift_eq_ok q3
  have hf : f = b := by
    rw [← q2', ← q1']
    exact (old_set_ne _ _ h1).trans g1.2
  subst hf
  obtain ⟨_, u4, q4, p4⟩ := Go.bind_eq_ok p3
  have q4' : _ = u4 := congrArg Prod.snd q4
  have hu4 : u4.off = (E.init.header.enc y).length ∧ old u4.fs "srs.lag" = s := by
    rw [← q4', ← q1']
    refine ⟨g1.1, ?_⟩
    change old ((t1.fs.set "srs.lag" []).set "srs.lag" (old (t1.fs.set "srs.lag" []) "srs.lag" ++ s)) "srs.lag" = s
    rw [old_set, old_set, List.nil_append]
  have all : ∀ n, n ≤ (E.init.header.enc y).length → n ≤ s.length → LagBegins n (s.take n) t := by
    intro n hn1 hn2
    have k4 : LagBegins n (s.take n) u4 := by
      rw [LagBegins, hu4.1, hu4.2]
      exact ⟨hn1, hn2, rfl⟩
    have ha : ∀ bs, KeepsInv (LagBegins n (s.take n)) ((namedInit inp "srs.lag" load).emitLag bs) := by
      intro bs
      refine KeepsInv.step (r := fun _ => .ok ()) fun u hu => ?_
      obtain ⟨c1, c2, c3⟩ := hu
      refine ⟨c1, ?_, ?_⟩
      · simp only [old_set, List.length_append]
        omega
      · simp only [old_set]
        rw [List.take_append_of_le_length c2, c3]
    have k2 : LagBegins n (s.take n) t2 := by
      refine KeepsInv.bind (LagBegins.contents _) (fun _ => (KeepsInv.lift _).bind fun _ => (ha _).bind fun _ =>
        (LagBegins.contents _).bind fun _ => (KeepsInv.lift _).bind fun _ => (ha _).bind fun _ =>
        (LagBegins.contents _).bind fun _ => (KeepsInv.lift _).bind fun _ => ha _) _ _ _ k4 p4
    obtain ⟨r3, r4, r5⟩ := LagBegins.rest (C := C) (n := n) (w := s.take n) E.init inp load x y
    exact r5 _ _ _ (r4 _ _ _ (r3 _ _ _ k2 e3) e4) e5
  exact ⟨y, s, hs, fun n hn1 hn2 => (all n hn1 hn2).2.2⟩

end

/-- gob's description of the header type alone is longer than a point -/
theorem header_long (h : Header) : 32 ≤ (Gob.headerCodec.enc h).length := by
  change 32 ≤ (Gob.messageBytes Gob.typeDef ++ Gob.messageBytes (Gob.valueBytes h)).length
  have : (Gob.messageBytes Gob.typeDef).length = 120 := by decide +kernel
  simp only [List.length_append, this]
  omega

namespace Toy

/-- `p2n` with the toy inputs -/
def runP2n (args : List String) (fs : FS) : Except Fail Unit × FS := p2nAny curve cliEnv draws.par args fs

def isOk : Except Fail Unit × FS → Bool
  | (.ok _, _) => true
  | (.error _, _) => false

/-- can the header of a phase 2 file be read from the file? -/
def hasHeader (fs : FS) (path : String) : Bool :=
  match (Gob.headerCodec.dec.run (Rd.file (old fs path) 0)).1 with
  | .ok _ => true
  | .error _ => false

end Toy

/-- **C91** is false: `p2n srs one evals` succeeds, but the file `evals` has no phase 2 header. With another name it has. -/
theorem C91_false : Toy.isOk (Toy.runP2n ["srs", "one", "evals"] Toy.files) = true ∧
    Toy.hasHeader (Toy.runP2n ["srs", "one", "evals"] Toy.files).2 "evals" = false ∧
    Toy.isOk (Toy.runP2n ["srs", "one", "ph2"] Toy.files) = true ∧
    Toy.hasHeader (Toy.runP2n ["srs", "one", "ph2"] Toy.files).2 "ph2" = true := by decide +kernel

/-- the hypotheses of `C91_p2n_partial` and `C91_p2n_evals` hold for the toy files, and the command succeeds -/
example : (p2n Toy.curve Toy.cliEnv Toy.draws.par ["srs", "one", "ph2"] Toy.files).1 = .ok () ∧
    ∃ (p : UInt8) (al b1 : Toy.K) (b2 : Toy.K) (rest : Bytes),
      readPhase1 Toy.curve ((Toy.srs 3 1 5 7).encode Toy.curve) p = .ok (al, b1, b2) ∧
      (p2nAny Toy.curve Toy.cliEnv Toy.draws.par ["srs", "one", "evals"] Toy.files).2 "evals" = some (Toy.curve.c1.bytes al ++ rest) := by
  have hok : (p2nAny Toy.curve Toy.cliEnv Toy.draws.par ["srs", "one", "evals"] Toy.files).1 = .ok () := by
    have h := C91_false.1
    unfold Toy.isOk Toy.runP2n at h
    split at h
    · rename_i e
      rw [e]
    · simp at h
  refine ⟨?_, C91_p2n_evals_head Toy.lawful Toy.cliEnv Toy.draws.par "srs" "one" "ph2" (by decide) (by decide) (by decide) (by decide)
    (by decide) (by decide) (by decide) (by decide) Toy.files _ [1] rfl rfl header_long hok⟩
  rw [← (C91_p2n_evals (C := Toy.curve) Toy.cliEnv Toy.draws.par "srs" "one" "ph2" (by decide) (by decide) (by decide) (by decide)
    (by decide) (by decide) (by decide) (by decide) Toy.files _ [1] rfl rfl).1]
  exact hok

/-- the files that the two models leave differ at no path that exists in the first -/
example : SameFiles (p2nAny Toy.curve Toy.cliEnv Toy.draws.par ["srs", "one", "ph2"] Toy.files).2
    (p2n Toy.curve Toy.cliEnv Toy.draws.par ["srs", "one", "ph2"] Toy.files).2 :=
  (C91_p2n_partial Toy.cliEnv Toy.draws.par "srs" "one" "ph2" (by decide) (by decide) (by decide) (by decide) (by decide) (by decide)
    (by decide) (by decide) Toy.files).2

example : (p2nAny Toy.curve Toy.cliEnv Toy.draws.par ["srs", "one"] Toy.files).2 "srs" = Toy.files "srs" := by
  rw [(C91_args (C := Toy.curve) Toy.cliEnv Toy.draws.par ["srs", "one"] Toy.files).1 (by decide)]
  rfl

/-- `p2np` with the toy session -/
example : (p2npAny Toy.curve Toy.cliEnv Toy.draws.par ["srs", "s", "ph2", "3", "3", "2"] Toy.files).1 =
    (p2np Toy.curve Toy.cliEnv Toy.draws.par ["srs", "s", "ph2", "3", "3", "2"] Toy.files).1 :=
  (C91_p2np_partial Toy.cliEnv Toy.draws.par "srs" "s" "ph2" "3" "3" "2" (by decide) (by decide) (by decide) (by decide) (by decide) Toy.files).1

/-- a good phase 1 file called `srs.lag` or `evals` -/
example (inp : String) (hi : inp = "evals" ∨ inp = "srs.lag") :
    (p2nAny Toy.curve Toy.cliEnv Toy.draws.par [inp, "one", "ph2"] (Toy.files.set inp ((Toy.srs 3 1 5 7).encode Toy.curve))).1 ≠ .ok () :=
  C91_p2n_input Toy.lawful Toy.cliEnv Toy.draws.par (fun _ => show 0 < dom4.cardinality by decide) inp "one" "ph2" hi _

example : p2nAny Toy.curve Toy.cliEnv Toy.draws.par ["srs", "one", "one"] Toy.files = (.error (.err "r1cs"), Toy.files.set "one" []) :=
  C91_p2n_circuit Toy.cliEnv Toy.draws.par rfl "srs" "one" Toy.files _ rfl

/-- Output `srs.lag`: with gob's header the command fails in the toy case, because [δ]₁ has been written into the middle of a point. With a
header that is longer than `srs.lag` it succeeds, so that `C91_lag_head` applies. -/
example : Toy.isOk (Toy.runP2n ["srs", "one", "srs.lag"] Toy.files) = false ∧
    Toy.isOk (p2nAny Toy.curve { Toy.cliEnv with init := { Toy.env with header := ⟨fun _ => List.replicate 700 0, Go.fail (.err "")⟩ } }
      Toy.draws.par ["srs", "one", "srs.lag"] Toy.files) = true := by decide +kernel

/-- `p2np srs s evals 3 3 2` succeeds too and leaves no header -/
example : Toy.isOk (p2npAny Toy.curve Toy.cliEnv Toy.draws.par ["srs", "s", "evals", "3", "3", "2"] Toy.files) = true ∧
    Toy.hasHeader (p2npAny Toy.curve Toy.cliEnv Toy.draws.par ["srs", "s", "evals", "3", "3", "2"] Toy.files).2 "evals" = false := by
  decide +kernel

example : (p2npAny Toy.curve Toy.cliEnv Toy.draws.par ["srs", "s", "evals", "3", "3", "2"] Toy.files).1 =
    (p2np Toy.curve Toy.cliEnv Toy.draws.par ["srs", "s", "ph2", "3", "3", "2"] Toy.files).1 :=
  (C91_p2np_evals Toy.cliEnv Toy.draws.par "srs" "s" "ph2" "3" "3" "2" (by decide) (by decide) (by decide) (by decide) (by decide) Toy.files _
    rfl rfl).1

end ZkSetup
