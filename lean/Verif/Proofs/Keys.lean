import Verif.Spec.Keys
import Verif.Proofs.Phase2Verify
/-
Key extraction: filtering, and the extraction functions in terms of what they read.
-/
set_option linter.unusedSectionVars false

namespace ZkSetup

open Phase2 Keys KeySt
open Phase1 (makeLen wrap64)

/-! ### filtering -/

section
variable {G : Type} [AddCommGroup G] [DecidableEq G]

theorem filterStep_foldl (buff : List G) : ∀ acc : List G × List Bool, buff.foldl filterStep acc
    = (acc.1 ++ buff.filter (· ≠ 0), acc.2 ++ buff.map fun p => decide (p = 0)) := by
  induction buff with
  | nil => simp
  | cons e buff ih =>
    intro acc
    rw [List.foldl_cons, ih, filterStep]
    by_cases h : e = 0 <;> simp [h]

theorem count_filter (buff : List G) : (buff.filter (· ≠ 0)).length + (buff.map (fun p => decide (p = 0))).count true = buff.length := by
  induction buff with
  | nil => simp
  | cons e buff ih =>
    by_cases h : e = 0 <;> simp [h] at ih ⊢ <;> omega

theorem filterInfinity_eq (buff : List G) : filterInfinity buff
    = (buff.filter (· ≠ 0), buff.map (fun p => decide (p = 0)), (buff.map (fun p => decide (p = 0))).count true) := by
  have := count_filter buff
  unfold filterInfinity
  rw [filterStep_foldl]
  simp only [List.nil_append, Prod.mk.injEq, true_and]
  omega

end

section
variable {F G1 G2 GT : Type} [Field F] [AddCommGroup G1] [Module F G1] [AddCommGroup G2]
  [Module F G2] [AddCommGroup GT] [Module F GT] [DecidableEq G1] [DecidableEq G2]

/-! ### reading -/

/-- the reads of `extractPK` and `extractSplitPK`, in their order, and the key they determine -/
def readPk {O : Type} (C : Curve F G1 G2 GT) (header : Header) : Go (KeySt O) (ProvingKey G1 G2) := do
  let alpha1 ← onEvals C.c1.decode
  let beta1 ← onEvals C.c1.decode
  let delta1 ← onPh2 C.c1.decode
  let beta2 ← onEvals C.c2.decode
  let delta2 ← onPh2 C.c2.decode
  let a ← onEvals C.c1.decodeSlice
  let b1 ← onEvals C.c1.decodeSlice
  let n ← Go.lift (makeLen (header.domain - 1))
  let z ← onPh2 (C.c1.decodeN n)
  let n ← Go.lift (makeLen header.witness)
  let k ← onPh2 (C.c1.decodeN n)
  let b2 ← onEvals C.c2.decodeSlice
  pure { domain := toUint64 header.domain, alpha1, beta1, delta1, a := a.filter (· ≠ 0), b1 := b1.filter (· ≠ 0), z, k, beta2,
         delta2, b2 := b2.filter (· ≠ 0), wires := toUint64 header.wires, infinityA := a.map (· = 0), infinityB := b1.map (· = 0) }

omit [DecidableEq G1] [DecidableEq G2] [AddCommGroup G1] [AddCommGroup G2] [AddCommGroup GT] in
theorem boolBytes_eq (bs : List Bool) : boolBytes bs = mapBytes bs := by
  unfold boolBytes mapBytes
  apply List.map_congr_left
  intro b _
  cases b <;> rfl

theorem onEvals_run {O α : Type} (x : Go Rd α) (s : KeySt O) :
    (onEvals x).run s = ((x.run s.evals).1, { s with evals := (x.run s.evals).2 }) := rfl

theorem onPh2_run {O α : Type} (x : Go Rd α) (s : KeySt O) :
    (onPh2 x).run s = ((x.run s.ph2).1, { s with ph2 := (x.run s.ph2).2 }) := rfl

theorem write_run {O : Type} (f : O → O) (s : KeySt O) : (write f).run s = (.ok (), { s with out := f s.out }) := rfl

/-- `extractPK` succeeds exactly if the reads do and the domain exists; it then writes the key they determine. -/
theorem pkBody_iff (C : Curve F G1 G2 GT) (E : KeyEnv G1) (header : Header) (s : KeySt Bytes) (out : Bytes) :
    (∃ s', (pkBody C E header).run s = (.ok (), s') ∧ s'.out = out) ↔
      ∃ key d s', domainBytes E (toUint64 header.domain) = .ok d ∧
        (readPk C header).run (⟨s.ph2, s.evals, ()⟩ : KeySt Unit) = (.ok key, s') ∧ out = s.out ++ key.encode C d := by
  cases hd : domainBytes E (toUint64 header.domain) with
  | error e => simp [pkBody, Go.bind_run, hd]
  | ok d =>
    simp only [pkBody, readPk, Go.bind_run, Go.lift_run, hd, onEvals_run, onPh2_run, write_run, filterInfinity_eq]
    rcases C.c1.decode.run s.evals with ⟨_ | alpha1, e1⟩ <;> dsimp only
    · simp
    rcases C.c1.decode.run e1 with ⟨_ | beta1, e2⟩ <;> dsimp only
    · simp
    rcases C.c1.decode.run s.ph2 with ⟨_ | delta1, p1⟩ <;> dsimp only
    · simp
    rcases C.c2.decode.run e2 with ⟨_ | beta2, e3⟩ <;> dsimp only
    · simp
    rcases C.c2.decode.run p1 with ⟨_ | delta2, p2⟩ <;> dsimp only
    · simp
    rcases C.c1.decodeSlice.run e3 with ⟨_ | a, e4⟩ <;> dsimp only
    · simp
    rcases C.c1.decodeSlice.run e4 with ⟨_ | b1, e5⟩ <;> dsimp only
    · simp
    rcases makeLen (header.domain - 1) with _ | n <;> dsimp only
    · simp
    rcases (C.c1.decodeN n).run p2 with ⟨_ | z, p3⟩ <;> dsimp only
    · simp
    rcases makeLen header.witness with _ | m <;> dsimp only
    · simp
    rcases (C.c1.decodeN m).run p3 with ⟨_ | k, p4⟩ <;> dsimp only
    · simp
    rcases C.c2.decodeSlice.run e5 with ⟨_ | b2, e6⟩ <;> dsimp only
    · simp
    simp only [Go.pure_run, Prod.mk.injEq, Except.ok.injEq, true_and, exists_eq_left', ProvingKey.encode, uint64Bytes, boolBytes_eq,
      List.append_assoc]
    constructor
    · intro h
      exact ⟨_, _, _, rfl, ⟨rfl, rfl⟩, h.symm⟩
    · rintro ⟨key, d', s', rfl, ⟨rfl, -⟩, rfl⟩
      rfl

/-- `extractSplitPK` succeeds exactly if the reads do; it then writes the key they determine. -/
theorem splitPkBody_iff (C : Curve F G1 G2 GT) (header : Header) (s : KeySt SplitPK) (hs : s.out = ⟨[], [], [], [], [], []⟩)
    (out : SplitPK) :
    (∃ s', (splitPkBody C header).run s = (.ok (), s') ∧ s'.out = out) ↔
      ∃ key s', (readPk C header).run (⟨s.ph2, s.evals, ()⟩ : KeySt Unit) = (.ok key, s') ∧ out = key.encodeSplit C := by
  simp only [splitPkBody, readPk, Go.bind_run, Go.lift_run, onEvals_run, onPh2_run, write_run, filterInfinity_eq]
  rcases C.c1.decode.run s.evals with ⟨_ | alpha1, e1⟩ <;> dsimp only
  · simp
  rcases C.c1.decode.run e1 with ⟨_ | beta1, e2⟩ <;> dsimp only
  · simp
  rcases C.c1.decode.run s.ph2 with ⟨_ | delta1, p1⟩ <;> dsimp only
  · simp
  rcases C.c2.decode.run e2 with ⟨_ | beta2, e3⟩ <;> dsimp only
  · simp
  rcases C.c2.decode.run p1 with ⟨_ | delta2, p2⟩ <;> dsimp only
  · simp
  rcases C.c1.decodeSlice.run e3 with ⟨_ | a, e4⟩ <;> dsimp only
  · simp
  rcases C.c1.decodeSlice.run e4 with ⟨_ | b1, e5⟩ <;> dsimp only
  · simp
  rcases makeLen (header.domain - 1) with _ | n <;> dsimp only
  · simp
  rcases (C.c1.decodeN n).run p2 with ⟨_ | z, p3⟩ <;> dsimp only
  · simp
  rcases makeLen header.witness with _ | m <;> dsimp only
  · simp
  rcases (C.c1.decodeN m).run p3 with ⟨_ | k, p4⟩ <;> dsimp only
  · simp
  rcases C.c2.decodeSlice.run e5 with ⟨_ | b2, e6⟩ <;> dsimp only
  · simp
  simp only [Go.pure_run, Prod.mk.injEq, Except.ok.injEq, true_and, exists_eq_left', ProvingKey.encodeSplit, uint64Bytes, boolBytes_eq,
    SplitPK.toE, SplitPK.toA, SplitPK.toB1, SplitPK.toZ, SplitPK.toK, SplitPK.toB2, hs, List.nil_append, List.append_assoc]
  constructor
  · intro h
    exact ⟨_, _, ⟨rfl, rfl⟩, h.symm⟩
  · rintro ⟨key, s', ⟨rfl, -⟩, rfl⟩
    rfl

/-- the reads of `extractVK` and `extractSplitVK`, in their order: the key they determine and the basis of the commitment key -/
def readVKParts {O : Type} (C : Curve F G1 G2 GT) (evals : Bytes) (header : Header) : Go (KeySt O) (VerifyKey G1 G2 × List G1) := do
  let alpha1 ← onEvals C.c1.decode
  let beta1 ← onEvals C.c1.decode
  let beta2 ← onEvals C.c2.decode
  let delta1 ← onPh2 C.c1.decode
  let delta2 ← onPh2 C.c2.decode
  seekEvals evals (wrap64 (128 * (header.wires + 1) + 12))
  let k ← onEvals C.c1.decodeSlice
  let ckk ← onEvals C.c1.decodeSlice
  pure ({ alpha1, beta1, beta2, gamma2 := C.g2, delta1, delta2, k }, ckk)

theorem seekEvals_run {O : Type} (evals : Bytes) (pos : Int) (s : KeySt O) :
    (seekEvals evals pos).run s = if 0 ≤ pos then (.ok (), { s with evals := Rd.buffered 4096 (evals.drop pos.toNat) })
      else (.error (.err "seek: invalid argument"), s) := rfl

/-- `extractVK` succeeds exactly if the reads and the setup of the commitment key do. -/
theorem vkBody_iff (C : Curve F G1 G2 GT) (E : KeyEnv G1) (evals : Bytes) (header : Header) (s : KeySt Bytes) (out : Bytes) :
    (∃ s', (vkBody C E evals header).run s = (.ok (), s') ∧ s'.out = out) ↔
      ∃ vk ckk ck s', (readVKParts C evals header).run (⟨s.ph2, s.evals, ()⟩ : KeySt Unit) = (.ok (vk, ckk), s') ∧
        E.commitmentKey ckk = .ok ck ∧ out = s.out ++ vk.encode C ck E.noCommitment := by
  simp only [vkBody, readVK, readVKParts, Go.bind_run, Go.lift_run, onEvals_run, onPh2_run, write_run, seekEvals_run]
  rcases C.c1.decode.run s.evals with ⟨_ | alpha1, e1⟩ <;> dsimp only
  · simp
  rcases C.c1.decode.run e1 with ⟨_ | beta1, e2⟩ <;> dsimp only
  · simp
  rcases C.c2.decode.run e2 with ⟨_ | beta2, e3⟩ <;> dsimp only
  · simp
  rcases C.c1.decode.run s.ph2 with ⟨_ | delta1, p1⟩ <;> dsimp only
  · simp
  rcases C.c2.decode.run p1 with ⟨_ | delta2, p2⟩ <;> dsimp only
  · simp
  split_ifs with hpos <;> dsimp only
  swap
  · simp
  rcases C.c1.decodeSlice.run (Rd.buffered 4096 (evals.drop _)) with ⟨_ | k, e4⟩ <;> dsimp only
  · simp
  rcases C.c1.decodeSlice.run e4 with ⟨_ | ckk, e5⟩ <;> dsimp only
  · simp
  simp only [Go.pure_run, Prod.mk.injEq, Except.ok.injEq, true_and, VerifyKey.encode, sliceOf, Codec.encodeSliceRaw]
  cases hck : E.commitmentKey ckk with
  | error e =>
    dsimp only
    constructor
    · rintro ⟨s', h, -⟩
      simp at h
    · rintro ⟨vk, ckk', ck, s', ⟨⟨rfl, rfl⟩, -⟩, h, -⟩
      rw [hck] at h
      simp at h
  | ok ck =>
    dsimp only
    constructor
    · rintro ⟨s', h, rfl⟩
      simp only [Prod.mk.injEq, true_and] at h
      subst h
      refine ⟨_, _, ck, _, ⟨⟨rfl, rfl⟩, rfl⟩, hck, ?_⟩
      simp [VerifyingKey.writeTo, sliceOf, Codec.encodeSliceRaw]
    · rintro ⟨vk, ckk', ck', s', ⟨⟨rfl, rfl⟩, -⟩, h, rfl⟩
      rw [hck] at h
      simp only [Except.ok.injEq] at h
      subst h
      exact ⟨_, rfl, by simp [VerifyingKey.writeTo, sliceOf, Codec.encodeSliceRaw]⟩

/-- `extractSplitVK` succeeds exactly if the reads and the setup of the commitment key do. -/
theorem splitVkBody_iff (C : Curve F G1 G2 GT) (E : KeyEnv G1) (evals : Bytes) (header : Header) (s : KeySt SplitVK)
    (hs : s.out = ⟨[], none⟩) (out : SplitVK) :
    (∃ s', (splitVkBody C E evals header).run s = (.ok (), s') ∧ s'.out = out) ↔
      ∃ vk ckk ck s', (readVKParts C evals header).run (⟨s.ph2, s.evals, ()⟩ : KeySt Unit) = (.ok (vk, ckk), s') ∧
        E.commitmentKey ckk = .ok ck ∧ out = ⟨vk.encode C ck E.noCommitment, some (ck ++ ck)⟩ := by
  simp only [splitVkBody, readVK, readVKParts, Go.bind_run, Go.lift_run, onEvals_run, onPh2_run, write_run, seekEvals_run]
  rcases C.c1.decode.run s.evals with ⟨_ | alpha1, e1⟩ <;> dsimp only
  · simp
  rcases C.c1.decode.run e1 with ⟨_ | beta1, e2⟩ <;> dsimp only
  · simp
  rcases C.c2.decode.run e2 with ⟨_ | beta2, e3⟩ <;> dsimp only
  · simp
  rcases C.c1.decode.run s.ph2 with ⟨_ | delta1, p1⟩ <;> dsimp only
  · simp
  rcases C.c2.decode.run p1 with ⟨_ | delta2, p2⟩ <;> dsimp only
  · simp
  split_ifs with hpos <;> dsimp only
  swap
  · simp
  rcases C.c1.decodeSlice.run (Rd.buffered 4096 (evals.drop _)) with ⟨_ | k, e4⟩ <;> dsimp only
  · simp
  rcases C.c1.decodeSlice.run e4 with ⟨_ | ckk, e5⟩ <;> dsimp only
  · simp
  simp only [Go.pure_run, Prod.mk.injEq, Except.ok.injEq, true_and, VerifyKey.encode, sliceOf, Codec.encodeSliceRaw]
  cases hck : E.commitmentKey ckk with
  | error e =>
    dsimp only
    constructor
    · rintro ⟨s', h, -⟩
      simp at h
    · rintro ⟨vk, ckk', ck, s', ⟨⟨rfl, rfl⟩, -⟩, h, -⟩
      rw [hck] at h
      simp at h
  | ok ck =>
    dsimp only
    constructor
    · rintro ⟨s', h, rfl⟩
      simp only [Prod.mk.injEq, true_and] at h
      subst h
      refine ⟨_, _, ck, _, ⟨⟨rfl, rfl⟩, rfl⟩, hck, ?_⟩
      simp [VerifyingKey.writeTo, sliceOf, Codec.encodeSliceRaw, hs]
    · rintro ⟨vk, ckk', ck', s', ⟨⟨rfl, rfl⟩, -⟩, h, rfl⟩
      rw [hck] at h
      simp only [Except.ok.injEq] at h
      subst h
      exact ⟨_, rfl, by simp [VerifyingKey.writeTo, sliceOf, Codec.encodeSliceRaw, hs]⟩

/-! ### on structured files -/

theorem onEvals_ok {O α : Type} {x : Go Rd α} {p e e' : Rd} {o : O} {a : α} (h : x.run e = (.ok a, e')) :
    (onEvals x).run ⟨p, e, o⟩ = (.ok a, ⟨p, e', o⟩) := by simp [onEvals_run, h]

theorem onPh2_ok {O α : Type} {x : Go Rd α} {p p' e : Rd} {o : O} {a : α} (h : x.run p = (.ok a, p')) :
    (onPh2 x).run ⟨p, e, o⟩ = (.ok a, ⟨p', e, o⟩) := by simp [onPh2_run, h]

theorem toUint64_nat (n : Nat) (h : n < 2 ^ 64) : toUint64 (n : Int) = n := by
  unfold toUint64
  rw [Int.emod_eq_of_lt (by omega) (by exact_mod_cast h)]
  simp

variable {C : Curve F G1 G2 GT} (hC : C.Lawful)
include hC

theorem readPk_ok {O : Type} (f : P2File G1 G2) (hf : f.WF) (v : Evals G1 G2) (ha : v.a.length < 2 ^ 32) (hb1 : v.b1.length < 2 ^ 32)
    (hb2 : v.b2.length < 2 ^ 32) (cap pos cap' pos' : Nat) (ys ys' : Bytes) (o : O) :
    ∃ s', (readPk C f.header).run ⟨⟨cap, pos, f.params C ++ ys⟩, ⟨cap', pos', v.encode C ++ ys'⟩, o⟩
      = (.ok (provingKeyOf f v), s') := by
  have hz : makeLen (f.header.domain - 1) = .ok f.z.length := by
    have hd : f.header.domain - 1 = (f.z.length : Int) := by
      rw [hf.z]
      show (f.domain : Int) - 1 = _
      have := hf.domain_pos
      omega
    rw [hd, makeLen_nat]
  have hk : makeLen f.header.witness = .ok f.pkk.length := by
    rw [hf.pkk]
    exact makeLen_nat _
  have hdec := fun (cap pos : Nat) (ps : List G1) (ys : Bytes) => Codec.decodeN_encodeN hC.codec1 cap pos ps ys
  simp only [Codec.encodeN] at hdec
  unfold readPk P2File.params Evals.encode
  simp only [List.append_assoc]
  rw [Go.bind_ok (onEvals_ok (Codec.decode_bytes hC.codec1 _ _ _ _)),
    Go.bind_ok (onEvals_ok (Codec.decode_bytes hC.codec1 _ _ _ _)),
    Go.bind_ok (onPh2_ok (Codec.decode_bytes hC.codec1 _ _ _ _)),
    Go.bind_ok (onEvals_ok (Codec.decode_bytes hC.codec2 _ _ _ _)),
    Go.bind_ok (onPh2_ok (Codec.decode_bytes hC.codec2 _ _ _ _)),
    Go.bind_ok (onEvals_ok (Codec.decodeSlice_encodeSlice hC.codec1 _ _ _ _ ha)),
    Go.bind_ok (onEvals_ok (Codec.decodeSlice_encodeSlice hC.codec1 _ _ _ _ hb1)),
    hz, Go.bind_ok (Go.lift_run _ _), Go.bind_ok (onPh2_ok (hdec _ _ _ _)), hk, Go.bind_ok (Go.lift_run _ _),
    Go.bind_ok (onPh2_ok (hdec _ _ _ _)),
    Go.bind_ok (onEvals_ok (Codec.decodeSlice_encodeSlice hC.codec2 _ _ _ _ hb2))]
  have h1 : toUint64 f.header.domain = f.domain := toUint64_nat _ (by have := hf.domain; omega)
  have h2 : toUint64 f.header.wires = f.wires := toUint64_nat _ (by have := hf.wires; omega)
  rw [h1, h2]
  exact ⟨_, rfl⟩

theorem evals_vkk (v : Evals G1 G2) (n : Nat) (ha : v.a.length = n) (hb1 : v.b1.length = n) (hb2 : v.b2.length = n) (ys : Bytes) :
    (v.encode C ++ ys).drop (128 * (n + 1) + 12) = C.c1.encodeSlice v.vkk ++ (C.c1.encodeSlice v.ckk ++ (v.commitment ++ ys)) := by
  unfold Evals.encode
  have hl : (C.c1.bytes v.alpha1 ++ C.c1.bytes v.beta1 ++ C.c2.bytes v.beta2 ++ C.c1.encodeSlice v.a ++ C.c1.encodeSlice v.b1
      ++ C.c2.encodeSlice v.b2).length = 128 * (n + 1) + 12 := by
    simp only [List.length_append, hC.codec1.bytes_length, hC.codec2.bytes_length, Codec.encodeSlice_length hC.codec1,
      Codec.encodeSlice_length hC.codec2, hC.size1, hC.size2, ha, hb1, hb2]
    omega
  generalize C.c1.bytes v.alpha1 ++ C.c1.bytes v.beta1 ++ C.c2.bytes v.beta2 ++ C.c1.encodeSlice v.a ++ C.c1.encodeSlice v.b1
      ++ C.c2.encodeSlice v.b2 = pre at hl
  rw [← hl, List.append_assoc, List.append_assoc, List.append_assoc, List.drop_left]

theorem readVK_ok {O : Type} (E : KeyEnv G1) (f : P2File G1 G2) (v : Evals G1 G2) (hw : f.wires < 2 ^ 32)
    (ha : v.a.length = f.wires) (hb1 : v.b1.length = f.wires) (hb2 : v.b2.length = f.wires) (hv : v.vkk.length < 2 ^ 32)
    (hc : v.ckk.length < 2 ^ 32) (ck : Bytes) (hck : E.commitmentKey v.ckk = .ok ck) (cap pos : Nat) (ys ys' : Bytes) (o : O) :
    ∃ p e, (readVK C E (v.encode C ++ ys') f.header).run ⟨⟨cap, pos, f.params C ++ ys⟩, Rd.buffered 4096 (v.encode C ++ ys'), o⟩
      = (.ok { alpha1 := v.alpha1, beta1 := v.beta1, delta1 := f.delta1, k := v.vkk, beta2 := v.beta2, delta2 := f.delta2,
               gamma2 := C.g2, commitmentKey := ck }, ⟨p, e, o⟩) := by
  have hpos : wrap64 (128 * (f.header.wires + 1) + 12) = ((128 * (f.wires + 1) + 12 : Nat) : Int) := by
    show wrap64 (128 * ((f.wires : Int) + 1) + 12) = _
    unfold wrap64
    push_cast
    omega
  have hseek : ∀ (p e : Rd) (o : O), (seekEvals (O := O) (v.encode C ++ ys') (wrap64 (128 * (f.header.wires + 1) + 12))).run ⟨p, e, o⟩
      = (.ok (), ⟨p, ⟨4096, 0, C.c1.encodeSlice v.vkk ++ (C.c1.encodeSlice v.ckk ++ (v.commitment ++ ys'))⟩, o⟩) := by
    intro p e o
    rw [hpos]
    unfold seekEvals
    dsimp only
    rw [if_pos (by omega), Int.toNat_natCast, evals_vkk hC v f.wires ha hb1 hb2]
    rfl
  unfold readVK
  dsimp only
  have henc : Rd.buffered 4096 (v.encode C ++ ys') = ⟨4096, 0, C.c1.bytes v.alpha1 ++ (C.c1.bytes v.beta1 ++ (C.c2.bytes v.beta2 ++
      (C.c1.encodeSlice v.a ++ (C.c1.encodeSlice v.b1 ++ (C.c2.encodeSlice v.b2 ++ (C.c1.encodeSlice v.vkk ++
        (C.c1.encodeSlice v.ckk ++ (v.commitment ++ ys'))))))))⟩ := by
    unfold Rd.buffered Evals.encode
    simp only [List.append_assoc]
  have hpar : f.params C ++ ys = C.c1.bytes f.delta1 ++ (C.c2.bytes f.delta2 ++ (f.z.flatMap C.c1.bytes ++
      (f.pkk.flatMap C.c1.bytes ++ ys))) := by
    unfold P2File.params
    simp only [List.append_assoc]
  rw [henc, hpar,
    Go.bind_ok (onEvals_ok (Codec.decode_bytes hC.codec1 _ _ _ _)),
    Go.bind_ok (onEvals_ok (Codec.decode_bytes hC.codec1 _ _ _ _)),
    Go.bind_ok (onEvals_ok (Codec.decode_bytes hC.codec2 _ _ _ _)),
    Go.bind_ok (onPh2_ok (Codec.decode_bytes hC.codec1 _ _ _ _)),
    Go.bind_ok (onPh2_ok (Codec.decode_bytes hC.codec2 _ _ _ _)),
    Go.bind_ok (hseek _ _ _),
    Go.bind_ok (onEvals_ok (Codec.decodeSlice_encodeSlice hC.codec1 _ _ _ _ hv)),
    Go.bind_ok (onEvals_ok (Codec.decodeSlice_encodeSlice hC.codec1 _ _ _ _ hc)), hck,
    Go.bind_ok (Go.lift_run _ _)]
  exact ⟨_, _, rfl⟩

end
end ZkSetup
