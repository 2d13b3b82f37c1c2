import Verif.Proofs.Keys
import Verif.Proofs.Phase2Params
import Verif.Props.Init
/-
The parameters after a phase 2 ceremony (C30), and key extraction: C37, C38, C39, C40.
-/
set_option linter.unusedSectionVars false

namespace ZkSetup

open Phase2 Keys KeySt
open Phase1 (makeLen wrap64 batchSize)

/-! ### C40: filtering -/

section
variable {G : Type} [AddCommGroup G] [DecidableEq G]

theorem rebuild_filter (buff : List G) : rebuild (buff.map fun p => decide (p = 0)) (buff.filter (· ≠ 0)) = buff := by
  induction buff with
  | nil => rfl
  | cons e buff ih =>
    by_cases h : e = 0
    · simp only [List.map_cons, h, decide_true, List.filter_cons, ne_eq, not_true_eq_false, decide_false, Bool.false_eq_true,
        if_false, rebuild]
      exact congrArg _ ih
    · simp only [List.map_cons, h, decide_false, List.filter_cons, ne_eq, not_false_eq_true, decide_true, if_true, rebuild]
      exact congrArg _ ih

/-- **C40**: for every slice, filtering keeps exactly the other points in their order, marks exactly the positions of the
identities, counts them, and the slice can be rebuilt from the points and the marks. -/
theorem C40_filter (buff : List G) :
    (filterInfinity buff).1 = buff.filter (· ≠ 0) ∧ (filterInfinity buff).2.1.length = buff.length ∧
    (∀ i < buff.length, (filterInfinity buff).2.1[i]? = some (decide (buff.getD i 0 = 0))) ∧
    (filterInfinity buff).2.2 = buff.count 0 ∧ rebuild (filterInfinity buff).2.1 (filterInfinity buff).1 = buff := by
  rw [filterInfinity_eq]
  refine ⟨rfl, by simp, ?_, ?_, rebuild_filter buff⟩
  · intro i hi
    simp [List.getD_eq_getElem?_getD, hi]
  · show (buff.map (fun p => decide (p = 0))).count true = buff.count 0
    induction buff with
    | nil => rfl
    | cons e buff ih => by_cases h : e = 0 <;> simp [h, ih]

end

example := C40_filter ([0, 5, 0, 7] : List Toy.K)
example : filterInfinity ([0, 5, 0, 7] : List Toy.K) = ([5, 7], [true, false, true, false], 2) := by decide

section
variable {F G1 G2 GT : Type} [Field F] [AddCommGroup G1] [Module F G1] [AddCommGroup G2]
  [Module F G2] [AddCommGroup GT] [Module F GT] [DecidableEq G1] [DecidableEq G2] [DecidableEq GT]
variable {C : Curve F G1 G2 GT} (hC : C.Lawful)
include hC

/-! ### C30: the parameters after a ceremony -/

/-- **C30**: for every well-formed file, whatever follows its parameters, and every sequence of contributions to it that all
succeed, in the final file `[δ]1` and `[δ]2` are the initial ones multiplied by the product of the secrets, Z and PKK are the
initial ones divided by it, the other header fields are unchanged, and the counter has grown by the number of contributions
(as long as it fits an `int64`). Nothing is assumed about where records lie relative to the read buffer. -/
theorem C30_parameters {H : HeaderCodec} (hH : H.Lawful) (b : Nat) (hb : 0 < b) (o : P2File G1 G2) (ho : o.WF) (junk : Bytes)
    (steps : List (Par × Rand F)) (out : Bytes) (h : p2Ceremony C H b steps (o.encode C H ++ junk) = .ok out) :
    ∃ (count : Int) (records : Bytes), out = H.enc { o.header with contributions := count }
        ++ C.c1.bytes (deltaProduct (steps.map Prod.snd) • o.delta1) ++ C.c2.bytes (deltaProduct (steps.map Prod.snd) • o.delta2)
        ++ (o.z.map ((deltaProduct (steps.map Prod.snd))⁻¹ • ·)).flatMap C.c1.bytes
        ++ (o.pkk.map ((deltaProduct (steps.map Prod.snd))⁻¹ • ·)).flatMap C.c1.bytes ++ records ∧
      (o.records.length + steps.length < 2 ^ 63 → count = o.records.length + steps.length) := by
  have hs : (o.scaleParams (1 : F)).Starts C H o.records.length (o.encode C H ++ junk) := by
    obtain ⟨rest, hr⟩ := P2File.encode_starts C H o junk
    refine ⟨rest, ?_⟩
    rw [hr]
    simp [P2File.headerWith, P2File.header, P2File.params, P2File.scaleParams]
  have hcnt := ho.count
  obtain ⟨c', -, -, ⟨rest, hr⟩, hc⟩ := ceremony2_params hC hH b hb o ho steps 1 _ _ _ (by omega) (by omega) hs h
  refine ⟨c', rest, ?_, fun hlt => hc (by exact_mod_cast hlt)⟩
  rw [hr]
  simp [P2File.headerWith, P2File.header, P2File.params, P2File.scaleParams]

/-! ### C37, C38: the extracted keys -/

/-- key extraction from a file that starts with the parameters of `f` -/
theorem extract_starts {O : Type} {H : HeaderCodec} (hH : H.Lawful) (f : P2File G1 G2) (hf : f.WF) (c : Int) (hc1 : -(2 ^ 63) ≤ c)
    (hc2 : c < 2 ^ 63) (rest evals : Bytes) (empty : O) (body : Header → Go (KeySt O) Unit) :
    extract H (H.enc (f.headerWith c) ++ (f.params C ++ rest)) evals empty body
      = (fun r => (r.1, some r.2.out))
        ((body (f.headerWith c)).run ⟨⟨4096, 0 + (H.enc (f.headerWith c)).length, f.params C ++ rest⟩, Rd.buffered 4096 evals, empty⟩) := by
  have hir : (f.headerWith c).InRange := by
    have := P2File.header_inRange hC hH hf
    exact ⟨this.wires, this.witness, this.pub, this.privateCommitted, this.constraints, this.domain, hc1, hc2⟩
  unfold extract Header.read
  rw [show Rd.buffered 4096 (H.enc (f.headerWith c) ++ (f.params C ++ rest))
    = ⟨4096, 0, H.enc (f.headerWith c) ++ (f.params C ++ rest)⟩ from rfl, hH.dec_enc _ hir]

/-- `extractPK` on a file with the parameters of `f` and the evaluation file `v` -/
theorem extractPK_starts (E : KeyEnv G1) (hH : E.header.Lawful) (f : P2File G1 G2) (hf : f.WF) (hd : f.domain ≤ 2 ^ 28)
    (c : Int) (hc1 : -(2 ^ 63) ≤ c) (hc2 : c < 2 ^ 63) (v : Evals G1 G2) (ha : v.a.length < 2 ^ 32) (hb1 : v.b1.length < 2 ^ 32)
    (hb2 : v.b2.length < 2 ^ 32) (rest junk : Bytes) :
    extractPK C E (E.header.enc (f.headerWith c) ++ (f.params C ++ rest)) (v.encode C ++ junk)
      = (.ok (), some ((provingKeyOf f v).encode C (E.domain f.domain))) := by
  unfold extractPK
  rw [extract_starts hC hH f hf c hc1 hc2]
  obtain ⟨s', hs'⟩ := readPk_ok hC f hf v ha hb1 hb2 4096 (0 + (E.header.enc (f.headerWith c)).length) 4096 0 rest junk ()
  have hdom : domainBytes E (toUint64 f.header.domain) = .ok (E.domain f.domain) := by
    have : toUint64 f.header.domain = f.domain := toUint64_nat _ (by omega)
    rw [this]
    unfold domainBytes
    rw [if_neg (by omega)]
  obtain ⟨s1, h1, h2⟩ := (pkBody_iff C E (f.headerWith c) ⟨⟨4096, 0 + (E.header.enc (f.headerWith c)).length, f.params C ++ rest⟩,
    Rd.buffered 4096 (v.encode C ++ junk), []⟩ _).mpr ⟨_, _, _, hdom, hs', rfl⟩
  rw [h1]
  simp only [h2, List.nil_append]

/-- `extractSplitPK` on a file with the parameters of `f` and the evaluation file `v` -/
theorem extractSplitPK_starts (E : KeyEnv G1) (hH : E.header.Lawful) (f : P2File G1 G2) (hf : f.WF)
    (c : Int) (hc1 : -(2 ^ 63) ≤ c) (hc2 : c < 2 ^ 63) (v : Evals G1 G2) (ha : v.a.length < 2 ^ 32) (hb1 : v.b1.length < 2 ^ 32)
    (hb2 : v.b2.length < 2 ^ 32) (rest junk : Bytes) :
    extractSplitPK C E (E.header.enc (f.headerWith c) ++ (f.params C ++ rest)) (v.encode C ++ junk)
      = (.ok (), some ((provingKeyOf f v).encodeSplit C)) := by
  unfold extractSplitPK
  rw [extract_starts hC hH f hf c hc1 hc2]
  obtain ⟨s', hs'⟩ := readPk_ok hC f hf v ha hb1 hb2 4096 (0 + (E.header.enc (f.headerWith c)).length) 4096 0 rest junk ()
  obtain ⟨s1, h1, h2⟩ := (splitPkBody_iff C (f.headerWith c) ⟨⟨4096, 0 + (E.header.enc (f.headerWith c)).length, f.params C ++ rest⟩,
    Rd.buffered 4096 (v.encode C ++ junk), ⟨[], [], [], [], [], []⟩⟩ rfl _).mpr ⟨_, _, hs', rfl⟩
  rw [h1]
  simp only [h2]

omit hC in
theorem readVK_header {O : Type} (E : KeyEnv G1) (evals : Bytes) (f : P2File G1 G2) (c : Int) :
    (readVK C E evals (f.headerWith c) : Go (KeySt O) _) = readVK C E evals f.header := by
  unfold readVK P2File.headerWith
  rfl

/-- `extractVK` and `extractSplitVK` on a file with the parameters of `f` and the evaluation file `v` -/
theorem extractVK_starts (E : KeyEnv G1) (hH : E.header.Lawful) (f : P2File G1 G2) (hf : f.WF) (c : Int) (hc1 : -(2 ^ 63) ≤ c)
    (hc2 : c < 2 ^ 63) (v : Evals G1 G2) (hw : f.wires < 2 ^ 32)
    (ha : v.a.length = f.wires) (hb1 : v.b1.length = f.wires) (hb2 : v.b2.length = f.wires) (hv : v.vkk.length < 2 ^ 32)
    (hc : v.ckk.length < 2 ^ 32) (ck : Bytes) (hck : E.commitmentKey v.ckk = .ok ck) (rest junk : Bytes) :
    extractVK C E (E.header.enc (f.headerWith c) ++ (f.params C ++ rest)) (v.encode C ++ junk)
      = (.ok (), some ((verifyKeyOf C f v).encode C ck E.noCommitment)) ∧
    extractSplitVK C E (E.header.enc (f.headerWith c) ++ (f.params C ++ rest)) (v.encode C ++ junk)
      = (.ok (), some ⟨(verifyKeyOf C f v).encode C ck E.noCommitment, some (ck ++ ck)⟩) := by
  have hread := fun (O : Type) (o : O) => readVK_ok hC E f v hw ha hb1 hb2 hv hc ck hck 4096
    (0 + (E.header.enc (f.headerWith c)).length) rest junk o
  constructor
  · unfold extractVK
    rw [extract_starts hC hH f hf c hc1 hc2]
    unfold vkBody
    obtain ⟨p, e, h⟩ := hread Bytes []
    rw [readVK_header, Go.bind_ok h]
    rfl
  · unfold extractSplitVK
    rw [extract_starts hC hH f hf c hc1 hc2]
    unfold splitVkBody
    obtain ⟨p, e, h⟩ := hread SplitVK ⟨[], none⟩
    rw [readVK_header, Go.bind_ok h]
    rfl

omit hC in
theorem smul_map_filter {G : Type} [AddCommGroup G] [Module F G] [DecidableEq G] (x : Nat → F) (g : G)
    (hg : ∀ y : F, y • g = 0 ↔ y = 0) (n : Nat) [DecidablePred fun w => x w ≠ 0] [DecidablePred fun w => x w = 0] :
    ((List.range n).map fun w => x w • g).filter (· ≠ 0) = ((List.range n).filter fun w => x w ≠ 0).map (fun w => x w • g) ∧
    ((List.range n).map fun w => x w • g).map (fun p => decide (p = 0)) = (List.range n).map fun w => decide (x w = 0) := by
  constructor
  · rw [List.filter_map]
    congr 1
    apply List.filter_congr
    intro w _
    simp [hg]
  · rw [List.map_map]
    apply List.map_congr_left
    intro w _
    simp [hg]

theorem smul_g1_zero (y : F) : y • C.g1 = 0 ↔ y = 0 := by
  constructor
  · intro h
    apply (smul_g1_inj hC).1
    rw [h, zero_smul]
  · rintro rfl
    exact zero_smul _ _

theorem smul_g2_zero (y : F) : y • C.g2 = 0 ↔ y = 0 := by
  constructor
  · intro h
    apply (smul_g2_inj hC).1
    rw [h, zero_smul]
  · rintro rfl
    exact zero_smul _ _

/-- the key determined by the honest files is the key of the trapdoor -/
theorem provingKeyOf_trapdoor (r : R1CS F) (k : Nat) (ω τ α β δ : F) (cb : Bytes) :
    provingKeyOf ((trapdoorFile C r k ω τ α β).scaleParams δ) (trapdoorEvals C r (2 ^ k) ω τ α β cb)
      = trapdoorPK C r k ω τ α β δ := by
  classical
  unfold provingKeyOf trapdoorPK P2File.scaleParams trapdoorFile trapdoorEvals
  have ha := smul_map_filter (fun w => (qap r (2 ^ k) ω R1C.l w).eval τ) C.g1 (smul_g1_zero hC) r.wires
  have hb := smul_map_filter (fun w => (qap r (2 ^ k) ω R1C.r w).eval τ) C.g1 (smul_g1_zero hC) r.wires
  have hb2 := smul_map_filter (fun w => (qap r (2 ^ k) ω R1C.r w).eval τ) C.g2 (smul_g2_zero hC) r.wires
  congr 1
  · convert ha.1
  · convert hb.1
  · simp only [List.map_map, Function.comp_def, smul_smul, div_eq_inv_mul]
  · simp only [List.map_map, Function.comp_def, smul_smul, div_eq_inv_mul, wireValue]
  · convert hb2.1
  · convert ha.2
  · convert hb.2

/-- The final file of a ceremony on the file of an honest initialisation, and the evaluation file. -/
structure HonestRun (C : Curve F G1 G2 GT) (E : InitEnv F) (b : Nat) (r : R1CS F) (k : Nat) (τ α β δ : F) (final evals : Bytes) :
    Prop where
  valid : r.Valid
  commitment : r.ValidCommitment
  domain : IsDomain r.constraints.length k
  size : k ≤ 27
  root : (E.dom (2 ^ k)).Lawful k
  header : E.header.Lawful
  batch : 0 < b
  run : ∃ (par : Par) (f : P1File G1 G2) (junk oldLag oldEvals : Bytes) (st : InitSt) (steps : List (Par × Rand F)),
    f.WF ∧ f.Powers C τ α β ∧ k ≤ f.power.toNat ∧
    initializeFiles C E par (some r) (f.encode C ++ junk) oldLag oldEvals = (.ok (), st) ∧
    p2Ceremony C E.header b steps st.ph2 = .ok final ∧ evals = st.evals ∧ δ = deltaProduct (steps.map Prod.snd)

theorem trapdoorFile_wf (r : R1CS F) (hr : r.Valid) (hpc : r.PublicCommitment) (k : Nat) (hk : IsDomain r.constraints.length k) (hk27 : k ≤ 27) (ω τ α β : F) :
    (trapdoorFile C r k ω τ α β).WF := by
  have h1 := hr.size
  have h2 : 2 ^ k ≤ 2 ^ 27 := Nat.pow_le_pow_right (by omega) hk27
  have h3 := hk.fits
  have h4 : 0 < 2 ^ k := Nat.pow_pos (by omega)
  have hsh := hpc.shared_le
  refine ⟨?_, ?_, ?_, ?_, ?_, ?_, ?_, ?_, ?_, ?_, ?_⟩ <;> simp [trapdoorFile] <;> omega

omit hC in
/-- initialisation has succeeded, hence the circuit commits to public wires at most -/
theorem HonestRun.publicCommitment {E : InitEnv F} {b : Nat} {r : R1CS F} {k : Nat} {τ α β δ : F} {final evals : Bytes}
    (h : HonestRun C E b r k τ α β δ final evals) : r.PublicCommitment := by
  obtain ⟨par, f, junk, oldLag, oldEvals, st, steps, -, -, -, hinit, -⟩ := h.run
  exact C27_only_public_commitment E par r h.commitment _ _ _ (congrArg Prod.fst hinit)

/-- what an honest run leaves in the files -/
theorem HonestRun.files {E : InitEnv F} {b : Nat} {r : R1CS F} {k : Nat} {τ α β δ : F} {final evals : Bytes}
    (h : HonestRun C E b r k τ α β δ final evals) :
    (trapdoorFile C r k (E.dom (2 ^ k)).gen τ α β).WF ∧
    evals = (trapdoorEvals C r (2 ^ k) (E.dom (2 ^ k)).gen τ α β (E.cmtBytes r.commitment)).encode C ∧
    ∃ (c : Int) (rest : Bytes), -(2 ^ 63) ≤ c ∧ c < 2 ^ 63 ∧ final =
      E.header.enc (((trapdoorFile C r k (E.dom (2 ^ k)).gen τ α β).scaleParams δ).headerWith c)
        ++ (((trapdoorFile C r k (E.dom (2 ^ k)).gen τ α β).scaleParams δ).params C ++ rest) := by
  obtain ⟨par, f, junk, oldLag, oldEvals, st, steps, hf, hpw, hkp, hinit, hcer, rfl, rfl⟩ := h.run
  have hpc := h.publicCommitment
  rw [init_honest hC E par r h.valid hpc f hf τ α β hpw k h.domain h.size hkp h.root junk oldLag oldEvals,
    Prod.mk.injEq] at hinit
  have hst := hinit.2
  subst hst
  have hwf := trapdoorFile_wf hC r h.valid hpc k h.domain h.size (E.dom (2 ^ k)).gen τ α β
  refine ⟨hwf, rfl, ?_⟩
  have hs : ((trapdoorFile C r k (E.dom (2 ^ k)).gen τ α β).scaleParams (1 : F)).Starts C E.header 0
      ((trapdoorFile C r k (E.dom (2 ^ k)).gen τ α β).encode C E.header) := by
    obtain ⟨rest, hr⟩ := P2File.encode_starts C E.header (trapdoorFile C r k (E.dom (2 ^ k)).gen τ α β) []
    refine ⟨rest, ?_⟩
    rw [List.append_nil] at hr
    rw [hr]
    simp [P2File.headerWith, P2File.header, P2File.params, P2File.scaleParams, trapdoorFile, Function.comp_def]
  obtain ⟨c', h1, h2, ⟨rest, hr⟩, -⟩ := ceremony2_params hC h.header b h.batch _ hwf steps 1 0 _ _ (by omega) (by omega) hs hcer
  rw [one_mul] at hr
  exact ⟨c', rest, h1, h2, hr⟩

/-- **C37**: for every valid circuit (as gnark builds them) for which initialisation succeeds, every honest phase 1 file that is large enough, every machine and every
sequence of successful contributions, extraction of the proving key from the final file and the evaluation file (whatever is
appended to it) succeeds and writes the Groth16 proving key of the trapdoor, in gnark's layout. -/
theorem C37_proving_key (E : InitEnv F) (K : KeyEnv G1) (hK : K.header = E.header) (b : Nat) (r : R1CS F) (k : Nat)
    (τ α β δ : F) (final evals : Bytes) (h : HonestRun C E b r k τ α β δ final evals) (junk : Bytes) :
    extractPK C K final (evals ++ junk)
      = (.ok (), some ((trapdoorPK C r k (E.dom (2 ^ k)).gen τ α β δ).encode C (K.domain (2 ^ k)))) := by
  obtain ⟨hwf, rfl, c, rest, h1, h2, rfl⟩ := h.files hC
  have hw : r.wires < 2 ^ 32 := h.valid.size
  have := extractPK_starts hC K (by rw [hK]; exact h.header) _ (P2File.scaleParams_wf δ _ hwf)
    (show 2 ^ k ≤ 2 ^ 28 from Nat.pow_le_pow_right (by omega) (by have := h.size; omega)) c h1 h2
    (trapdoorEvals C r (2 ^ k) (E.dom (2 ^ k)).gen τ α β (E.cmtBytes r.commitment))
    (by simpa [trapdoorEvals] using hw) (by simpa [trapdoorEvals] using hw) (by simpa [trapdoorEvals] using hw) rest junk
  rw [hK, provingKeyOf_trapdoor hC] at this
  exact this

/-- **C38**: as C37, for the verifying key: the points of the trapdoor with `γ = 1`, and one point per public wire (and one
for the commitment wire, if any), whatever the number of wires; `ck` is the commitment key set up for no committed wires. -/
theorem C38_verifying_key (E : InitEnv F) (K : KeyEnv G1) (hK : K.header = E.header) (ck : Bytes) (hck : K.commitmentKey [] = .ok ck)
    (b : Nat) (r : R1CS F) (k : Nat) (τ α β δ : F) (final evals : Bytes) (h : HonestRun C E b r k τ α β δ final evals)
    (junk : Bytes) :
    extractVK C K final (evals ++ junk)
      = (.ok (), some ((trapdoorVK C r k (E.dom (2 ^ k)).gen τ α β δ).encode C ck K.noCommitment)) := by
  obtain ⟨hwf, rfl, c, rest, h1, h2, rfl⟩ := h.files hC
  have hw : r.wires < 2 ^ 32 := h.valid.size
  have hp : r.shared < 2 ^ 32 := by have := h.publicCommitment.shared_le; omega
  have := (extractVK_starts hC K (by rw [hK]; exact h.header) _ (P2File.scaleParams_wf δ _ hwf) c h1 h2
    (trapdoorEvals C r (2 ^ k) (E.dom (2 ^ k)).gen τ α β (E.cmtBytes r.commitment)) hw
    (by simp [trapdoorEvals, P2File.scaleParams, trapdoorFile]) (by simp [trapdoorEvals, P2File.scaleParams, trapdoorFile])
    (by simp [trapdoorEvals, P2File.scaleParams, trapdoorFile]) (by simpa [trapdoorEvals] using hp) (by simp [trapdoorEvals])
    ck hck rest junk).1
  rw [hK] at this
  exact this

/-- **C37**, **C38**: `ExtractKeys` on an honest run writes both keys. -/
theorem C37_C38_extractKeys (E : InitEnv F) (K : KeyEnv G1) (hK : K.header = E.header) (ck : Bytes)
    (hck : K.commitmentKey [] = .ok ck) (b : Nat) (r : R1CS F) (k : Nat) (τ α β δ : F) (final evals : Bytes)
    (h : HonestRun C E b r k τ α β δ final evals) :
    extractKeys C K final evals = (.ok (),
      ⟨some ((trapdoorPK C r k (E.dom (2 ^ k)).gen τ α β δ).encode C (K.domain (2 ^ k))),
        some ((trapdoorVK C r k (E.dom (2 ^ k)).gen τ α β δ).encode C ck K.noCommitment)⟩) := by
  have h1 := C37_proving_key hC E K hK b r k τ α β δ final evals h []
  have h2 := C38_verifying_key hC E K hK ck hck b r k τ α β δ final evals h []
  rw [List.append_nil] at h1 h2
  unfold extractKeys bothKeys
  rw [h1, h2]

/-- **C40**: in the evaluation file of an honest run the identities among `[B]1` and among `[B]2` are at the same positions, so
the map recorded for `[B]1` is also that of `[B]2`. -/
theorem C40_maps_agree (E : InitEnv F) (b : Nat) (r : R1CS F) (k : Nat) (τ α β δ : F) (final evals : Bytes)
    (h : HonestRun C E b r k τ α β δ final evals) :
    ∃ v : Evals G1 G2, evals = v.encode C ∧ v.b1.length = r.wires ∧ v.b2.length = r.wires ∧
      (filterInfinity v.b1).2.1 = (filterInfinity v.b2).2.1 ∧ (filterInfinity v.b1).2.2 = (filterInfinity v.b2).2.2 := by
  classical
  obtain ⟨-, hev, -⟩ := h.files hC
  refine ⟨_, hev, by simp [trapdoorEvals], by simp [trapdoorEvals], ?_⟩
  have hb := (smul_map_filter (fun w => (qap r (2 ^ k) (E.dom (2 ^ k)).gen R1C.r w).eval τ) C.g1 (smul_g1_zero hC) r.wires).2
  have hb2 := (smul_map_filter (fun w => (qap r (2 ^ k) (E.dom (2 ^ k)).gen R1C.r w).eval τ) C.g2 (smul_g2_zero hC) r.wires).2
  simp only [filterInfinity_eq, trapdoorEvals]
  rw [hb, hb2]
  exact ⟨rfl, rfl⟩

/-! ### C39: split extraction -/

omit hC in
/-- the outcome of an extraction function, by its header and its body -/
theorem extract_ok {O : Type} (H : HeaderCodec) (ph2 evals : Bytes) (empty : O) (body : Header → Go (KeySt O) Unit) (out : O) :
    extract H ph2 evals empty body = (.ok (), some out) ↔
      ∃ header rd, (Header.read H).run (Rd.buffered 4096 ph2) = (.ok header, rd) ∧
        ∃ s', (body header).run ⟨rd, Rd.buffered 4096 evals, empty⟩ = (.ok (), s') ∧ s'.out = out := by
  unfold extract
  rcases (Header.read H).run (Rd.buffered 4096 ph2) with ⟨_ | header, rd⟩
  · simp
  · show (((body header).run ⟨rd, Rd.buffered 4096 evals, empty⟩).1, some ((body header).run ⟨rd, Rd.buffered 4096 evals, empty⟩).2.out)
      = _ ↔ _
    constructor
    · intro h
      simp only [Prod.mk.injEq, Option.some.injEq] at h
      exact ⟨header, rd, rfl, _, Prod.ext h.1 rfl, h.2⟩
    · rintro ⟨h', rd', h1, s', h2, rfl⟩
      simp only [Prod.mk.injEq, Except.ok.injEq] at h1
      obtain ⟨rfl, rfl⟩ := h1
      rw [h2]

omit hC in
theorem extract_some {O : Type} (H : HeaderCodec) (ph2 evals : Bytes) (empty : O) (body : Header → Go (KeySt O) Unit)
    (h : (extract H ph2 evals empty body).1 = .ok ()) : ∃ out, extract H ph2 evals empty body = (.ok (), some out) := by
  generalize hx : extract H ph2 evals empty body = x at h ⊢
  obtain ⟨r, o⟩ := x
  simp only at h
  subst h
  cases o with
  | some out => exact ⟨out, rfl⟩
  | none =>
    unfold extract at hx
    split at hx <;> simp at hx

omit hC in
theorem readPk_domain {O : Type} (header : Header) (s s' : KeySt O) (key : ProvingKey G1 G2)
    (h : (readPk C header).run s = (.ok key, s')) : 1 ≤ header.domain ∧ key.domain = toUint64 header.domain := by
  unfold readPk at h
  obtain ⟨_, _, -, h⟩ := Go.bind_eq_ok h
  obtain ⟨_, _, -, h⟩ := Go.bind_eq_ok h
  obtain ⟨_, _, -, h⟩ := Go.bind_eq_ok h
  obtain ⟨_, _, -, h⟩ := Go.bind_eq_ok h
  obtain ⟨_, _, -, h⟩ := Go.bind_eq_ok h
  obtain ⟨_, _, -, h⟩ := Go.bind_eq_ok h
  obtain ⟨_, _, -, h⟩ := Go.bind_eq_ok h
  obtain ⟨n, _, hn, h⟩ := Go.bind_eq_ok h
  obtain ⟨_, _, -, h⟩ := Go.bind_eq_ok h
  obtain ⟨_, _, -, h⟩ := Go.bind_eq_ok h
  obtain ⟨_, _, -, h⟩ := Go.bind_eq_ok h
  obtain ⟨_, _, -, h⟩ := Go.bind_eq_ok h
  simp only [Go.pure_run, Prod.mk.injEq, Except.ok.injEq] at h
  refine ⟨?_, by rw [← h.1]⟩
  simp only [Go.lift_run, Prod.mk.injEq] at hn
  have := makeLen_eq_ok hn.1
  omega

omit hC in
theorem bothKeys_ok {P V : Type} (pk : Except Fail Unit × Option P) (vk : Except Fail Unit × Option V) :
    (bothKeys pk vk).1 = .ok () ↔ pk.1 = .ok () ∧ vk.1 = .ok () := by
  unfold bothKeys
  rcases pk with ⟨_ | u, o⟩ <;> simp

omit hC in
theorem bothKeys_eq {P V : Type} (p : Option P) (v : Option V) :
    bothKeys ((.ok (), p) : Except Fail Unit × Option P) ((.ok (), v) : Except Fail Unit × Option V) = (.ok (), ⟨p, v⟩) := rfl

/-- **C39** in full: split extraction succeeds exactly if plain extraction does, and the files hold the same key. The commitment
key is drawn anew by each run; both draws may fail only together. -/
def SplitAgrees (C : Curve F G1 G2 GT) (K : KeyEnv G1) (draw : List G1 → Except Fail Bytes) (ph2 evals : Bytes) : Prop :=
  ((extractKeys C K ph2 evals).1 = .ok () ↔ (extractSplitKeys C { K with commitmentKey := draw } ph2 evals).1 = .ok ()) ∧
  ((extractKeys C K ph2 evals).1 = .ok () → ∃ (pk : ProvingKey G1 G2) (vk : VerifyKey G1 G2) (ck ck' : Bytes),
    (extractKeys C K ph2 evals).2 = ⟨some (pk.encode C (K.domain pk.domain)), some (vk.encode C ck K.noCommitment)⟩ ∧
    (extractSplitKeys C { K with commitmentKey := draw } ph2 evals).2
      = ⟨some (pk.encodeSplit C), some ⟨vk.encode C ck' K.noCommitment, some (ck' ++ ck')⟩⟩)

omit hC in
/-- **C39**, for every pair of files, unless the header declares a domain of more than `2^28` points: without that condition it is
false, `C39_large_domain`. -/
theorem C39_partial (K : KeyEnv G1) (draw : List G1 → Except Fail Bytes)
    (hdraw : ∀ basis, (∃ x, K.commitmentKey basis = .ok x) ↔ ∃ x, draw basis = .ok x) (ph2 evals : Bytes)
    (hdom : ∀ header rd, (Header.read K.header).run (Rd.buffered 4096 ph2) = (.ok header, rd) → 0 ≤ header.domain → header.domain ≤ 2 ^ 28) :
    SplitAgrees C K draw ph2 evals := by
  have hpk : ∀ pk : ProvingKey G1 G2, (∃ header rd s', (Header.read K.header).run (Rd.buffered 4096 ph2) = (.ok header, rd) ∧
      (readPk C header).run (⟨rd, Rd.buffered 4096 evals, ()⟩ : KeySt Unit) = (.ok pk, s')) →
      extractPK C K ph2 evals = (.ok (), some (pk.encode C (K.domain pk.domain))) ∧
      extractSplitPK C { K with commitmentKey := draw } ph2 evals = (.ok (), some (pk.encodeSplit C)) := by
    rintro pk ⟨header, rd, s', h1, h2⟩
    obtain ⟨hd1, hd2⟩ := readPk_domain _ _ _ _ h2
    have hd3 := hdom _ _ h1 (by omega)
    have hd4 : toUint64 header.domain ≤ 2 ^ 28 := by
      unfold toUint64
      omega
    unfold extractPK extractSplitPK
    refine ⟨(extract_ok _ _ _ _ _ _).2 ⟨header, rd, h1, (pkBody_iff _ _ _ _ _).2 ⟨pk, _, s', ?_, h2, rfl⟩⟩,
      (extract_ok _ _ _ _ _ _).2 ⟨header, rd, h1, (splitPkBody_iff _ _ _ rfl _).2 ⟨pk, s', h2, rfl⟩⟩⟩
    unfold domainBytes
    rw [if_neg (by omega), hd2]
  have hvk : ∀ (vk : VerifyKey G1 G2) (ckk : List G1) (ck ck' : Bytes), K.commitmentKey ckk = .ok ck → draw ckk = .ok ck' →
      (∃ header rd s', (Header.read K.header).run (Rd.buffered 4096 ph2) = (.ok header, rd) ∧
        (readVKParts C evals header).run (⟨rd, Rd.buffered 4096 evals, ()⟩ : KeySt Unit) = (.ok (vk, ckk), s')) →
      extractVK C K ph2 evals = (.ok (), some (vk.encode C ck K.noCommitment)) ∧
      extractSplitVK C { K with commitmentKey := draw } ph2 evals
        = (.ok (), some ⟨vk.encode C ck' K.noCommitment, some (ck' ++ ck')⟩) := by
    rintro vk ckk ck ck' hck hck' ⟨header, rd, s', h1, h2⟩
    unfold extractVK extractSplitVK
    exact ⟨(extract_ok _ _ _ _ _ _).2 ⟨header, rd, h1, (vkBody_iff _ _ _ _ _ _).2 ⟨vk, ckk, ck, s', h2, hck, rfl⟩⟩,
      (extract_ok _ _ _ _ _ _).2 ⟨header, rd, h1, (splitVkBody_iff _ _ _ _ _ rfl _).2 ⟨vk, ckk, ck', s', h2, hck', rfl⟩⟩⟩
  have hfull : (extractKeys C K ph2 evals).1 = .ok () ∨
      (extractSplitKeys C { K with commitmentKey := draw } ph2 evals).1 = .ok () →
      ∃ (pk : ProvingKey G1 G2) (vk : VerifyKey G1 G2) (ck ck' : Bytes),
        extractKeys C K ph2 evals
          = (.ok (), ⟨some (pk.encode C (K.domain pk.domain)), some (vk.encode C ck K.noCommitment)⟩) ∧
        extractSplitKeys C { K with commitmentKey := draw } ph2 evals
          = (.ok (), ⟨some (pk.encodeSplit C), some ⟨vk.encode C ck' K.noCommitment, some (ck' ++ ck')⟩⟩) := by
    unfold extractKeys extractSplitKeys
    rw [bothKeys_ok, bothKeys_ok]
    rintro (⟨h1, h2⟩ | ⟨h1, h2⟩)
    · obtain ⟨out, h1⟩ := extract_some _ _ _ _ _ h1
      obtain ⟨out', h2⟩ := extract_some _ _ _ _ _ h2
      obtain ⟨header, rd, hr, hb⟩ := (extract_ok _ _ _ _ _ _).1 h1
      obtain ⟨pk, d, s', -, hpk', -⟩ := (pkBody_iff _ _ _ _ _).1 hb
      obtain ⟨header', rd', hr', hb'⟩ := (extract_ok _ _ _ _ _ _).1 h2
      obtain ⟨vk, ckk, ck, s'', hvk', hck, -⟩ := (vkBody_iff _ _ _ _ _ _).1 hb'
      obtain ⟨ck', hck'⟩ := (hdraw ckk).1 ⟨ck, hck⟩
      obtain ⟨e1, e2⟩ := hpk pk ⟨header, rd, s', hr, hpk'⟩
      obtain ⟨e3, e4⟩ := hvk vk ckk ck ck' hck hck' ⟨header', rd', s'', hr', hvk'⟩
      refine ⟨pk, vk, ck, ck', ?_, ?_⟩
      · rw [e1, e3, bothKeys_eq]
      · rw [e2, e4, bothKeys_eq]
    · obtain ⟨out, h1⟩ := extract_some _ _ _ _ _ h1
      obtain ⟨out', h2⟩ := extract_some _ _ _ _ _ h2
      obtain ⟨header, rd, hr, hb⟩ := (extract_ok _ _ _ _ _ _).1 h1
      obtain ⟨pk, s', hpk', -⟩ := (splitPkBody_iff _ _ _ rfl _).1 hb
      obtain ⟨header', rd', hr', hb'⟩ := (extract_ok _ _ _ _ _ _).1 h2
      obtain ⟨vk, ckk, ck', s'', hvk', hck', -⟩ := (splitVkBody_iff _ _ _ _ _ rfl _).1 hb'
      obtain ⟨ck, hck⟩ := (hdraw ckk).2 ⟨ck', hck'⟩
      obtain ⟨e1, e2⟩ := hpk pk ⟨header, rd, s', hr, hpk'⟩
      obtain ⟨e3, e4⟩ := hvk vk ckk ck ck' hck hck' ⟨header', rd', s'', hr', hvk'⟩
      refine ⟨pk, vk, ck, ck', ?_, ?_⟩
      · rw [e1, e3, bothKeys_eq]
      · rw [e2, e4, bothKeys_eq]
  refine ⟨⟨fun h => ?_, fun h => ?_⟩, fun h => ?_⟩
  · obtain ⟨_, _, _, _, -, h2⟩ := hfull (.inl h)
    rw [h2]
  · obtain ⟨_, _, _, _, h1, -⟩ := hfull (.inr h)
    rw [h1]
  · obtain ⟨pk, vk, ck, ck', h1, h2⟩ := hfull (.inl h)
    exact ⟨pk, vk, ck, ck', by rw [h1], by rw [h2]⟩

/-- **C39** on the phase 2 files this tool writes, whatever the evaluation file -/
theorem C39_files_partial (K : KeyEnv G1) (hH : K.header.Lawful) (draw : List G1 → Except Fail Bytes)
    (hdraw : ∀ basis, (∃ x, K.commitmentKey basis = .ok x) ↔ ∃ x, draw basis = .ok x) (f : P2File G1 G2) (hf : f.WF)
    (hd : f.domain ≤ 2 ^ 28) (junk evals : Bytes) : SplitAgrees C K draw (f.encode C K.header ++ junk) evals := by
  refine C39_partial K draw hdraw _ _ ?_
  intro header rd h _
  unfold Header.read at h
  rw [P2File.header_read hC hH hf, Prod.mk.injEq, Except.ok.injEq] at h
  rw [← h.1]
  show (f.domain : Int) ≤ 2 ^ 28
  exact_mod_cast hd

/-- **C39** is false in general: for every header with a domain of more than `2^28` points, split extraction succeeds on files
which plain extraction fails on with a panic. -/
theorem C39_large_domain (K : KeyEnv G1) (hH : K.header.Lawful) (f : P2File G1 G2) (hf : f.WF) (hd : 2 ^ 28 < f.domain)
    (v : Evals G1 G2) (hw : f.wires < 2 ^ 32) (ha : v.a.length = f.wires) (hb1 : v.b1.length = f.wires) (hb2 : v.b2.length = f.wires)
    (hvkk : v.vkk.length < 2 ^ 32) (hckk : v.ckk.length < 2 ^ 32) (ck : Bytes) (hck : K.commitmentKey v.ckk = .ok ck)
    (junk : Bytes) :
    ¬ SplitAgrees C K K.commitmentKey (f.encode C K.header) (v.encode C ++ junk) := by
  intro h
  have hs := P2File.encode_starts C K.header f []
  rw [List.append_nil] at hs
  obtain ⟨rest, hr⟩ := hs
  have hcount := hf.count
  have hc1 : -(2 ^ 63) ≤ (f.records.length : Int) := by omega
  have hc2 : (f.records.length : Int) < 2 ^ 63 := by omega
  have h1 := extractSplitPK_starts hC K hH f hf _ hc1 hc2 v (by omega) (by omega) (by omega) rest junk
  have h2 := (extractVK_starts hC K hH f hf _ hc1 hc2 v hw ha hb1 hb2 hvkk hckk ck hck rest junk).2
  rw [← hr] at h1 h2
  have h3 : (extractSplitKeys C K (f.encode C K.header) (v.encode C ++ junk)).1 = .ok () := by
    unfold extractSplitKeys
    rw [h1, h2, bothKeys_eq]
  have h4 := h.1.2 h3
  unfold extractKeys at h4
  rw [bothKeys_ok] at h4
  obtain ⟨out, h5⟩ := extract_some _ _ _ _ _ h4.1
  rw [hr, extract_starts hC hH f hf _ hc1 hc2] at h5
  unfold pkBody domainBytes at h5
  have hu : toUint64 (f.headerWith (f.records.length : Int)).domain = f.domain := by
    have := hf.domain
    exact toUint64_nat _ (by omega)
  rw [hu, if_pos hd] at h5
  simp [Go.bind_run, Go.lift_run] at h5

omit hC in
/-- what plain extraction does for such a header: it creates an empty `pk` and panics -/
theorem C39_large_domain_panics (K : KeyEnv G1) (ph2 evals : Bytes) (header : Header) (rd : Rd)
    (hr : (Header.read K.header).run (Rd.buffered 4096 ph2) = (.ok header, rd)) (hd : 2 ^ 28 < header.domain)
    (hd' : header.domain < 2 ^ 63) :
    extractPK C K ph2 evals = (.error (.panic "the required root of unity does not exist"), some []) := by
  have hu : 2 ^ 28 < toUint64 header.domain := by
    unfold toUint64
    omega
  unfold extractPK extract
  rw [hr]
  dsimp only
  have he : (Go.lift (domainBytes K (toUint64 header.domain)) : Go (KeySt Bytes) Bytes).run ⟨rd, Rd.buffered 4096 evals, []⟩
      = (.error (.panic "the required root of unity does not exist"), ⟨rd, Rd.buffered 4096 evals, []⟩) := by
    rw [Go.lift_run, domainBytes, if_pos hu]
  have hb : (pkBody C K header).run ⟨rd, Rd.buffered 4096 evals, []⟩
      = (.error (.panic "the required root of unity does not exist"), ⟨rd, Rd.buffered 4096 evals, []⟩) := by
    unfold pkBody
    rw [Go.bind_error he]
  exact congrArg (fun x => (Prod.fst x, some (KeySt.out (Prod.snd x)))) hb

end

namespace Toy

/-- extraction for the toy curve: the domain is written as its size, the commitment key as the number of committed wires -/
def keyEnv : KeyEnv Toy.K := ⟨Gob.headerCodec, fun n => beBytes 8 n, fun l => .ok [UInt8.ofNat l.length], [7]⟩

theorem circuit_vc : circuit.ValidCommitment := ⟨⟨[], [], rfl, rfl, List.Pairwise.nil, by simp⟩, fun h => absurd rfl h⟩

/-- one contribution to the file of an honest initialisation of the toy circuit -/
theorem run : ∃ final evals, HonestRun Toy.curve Toy.env batchSize Toy.circuit 2 3 5 7 (deltaProduct [Toy.p2rnd]) final evals := by
  have hwf := trapdoorFile_wf Toy.lawful Toy.circuit Toy.circuit_valid Toy.circuit_nc.publicCommitment 2
    Toy.circuit_domain (by decide) (Toy.env.dom (2 ^ 2)).gen 3 5 7
  have hc := C29_first_contribution Toy.lawful Gob.lawful Toy.par batchSize (by decide) Toy.p2rnd _ hwf rfl []
  have hi := init_honest Toy.lawful Toy.env par4 Toy.circuit Toy.circuit_valid Toy.circuit_nc.publicCommitment (Toy.srs 3 3 5 7)
    (Toy.srs_wf 3 (by decide) _ _ _) 3 5 7 (Toy.srs_powers 3 3 5 7) 2 Toy.circuit_domain (by decide) (by decide) dom4_lawful
    [] [] []
  rw [List.append_nil] at hc
  exact ⟨_, _, Toy.circuit_valid, Toy.circuit_vc, Toy.circuit_domain, by decide, dom4_lawful, Gob.lawful, by decide,
    par4, Toy.srs 3 3 5 7, [], [], [], _, [(Toy.par, Toy.p2rnd)], Toy.srs_wf 3 (by decide) _ _ _, Toy.srs_powers 3 3 5 7,
    by decide, hi, by simp only [p2Ceremony]; rw [show Toy.env.header = Gob.headerCodec from rfl, hc], rfl, rfl⟩

/-- a file that declares a domain of `n + 1` points -/
def large (n : Nat) : P2File Toy.K Toy.K where
  wires := 3
  pub := 1
  privateCommitted := 0
  constraints := 1
  domain := n + 1
  witness := 2
  delta1 := 5
  delta2 := 5
  z := List.replicate n 1
  pkk := [8, 9]
  records := []

theorem large_wf (n : Nat) (h : n < 2 ^ 40) : (large n).WF where
  wires := by show 3 < 2 ^ 63; decide
  pub := by show 1 < 2 ^ 63; decide
  privateCommitted := by show 0 < 2 ^ 63; decide
  constraints := by show 1 < 2 ^ 63; decide
  domain := by show n + 1 < 2 ^ 63; omega
  witness := by show 2 < 2 ^ 63; decide
  domain_pos := by show 0 < n + 1; omega
  z := List.length_replicate
  pkk := rfl
  count := by show 0 < 2 ^ 63 - 1; decide
  hash := by intro c hc; exact absurd hc List.not_mem_nil

/-- an evaluation file for it -/
def largeEvals : Evals Toy.K Toy.K := ⟨1, 2, 2, [0, 3, 4], [5, 0, 6], [5, 0, 6], [7], [], []⟩

end Toy

example (final evals : Bytes) (h : HonestRun Toy.curve Toy.env batchSize Toy.circuit 2 3 5 7 (deltaProduct [Toy.p2rnd]) final evals) :=
  C37_proving_key Toy.lawful Toy.env Toy.keyEnv rfl batchSize Toy.circuit 2 3 5 7 _ final evals h [1, 2]

example (final evals : Bytes) (h : HonestRun Toy.curve Toy.env batchSize Toy.circuit 2 3 5 7 (deltaProduct [Toy.p2rnd]) final evals) :=
  C38_verifying_key Toy.lawful Toy.env Toy.keyEnv rfl [0] rfl batchSize Toy.circuit 2 3 5 7 _ final evals h [1, 2]

example (final evals : Bytes) (h : HonestRun Toy.curve Toy.env batchSize Toy.circuit 2 3 5 7 (deltaProduct [Toy.p2rnd]) final evals) :=
  C40_maps_agree Toy.lawful Toy.env batchSize Toy.circuit 2 3 5 7 _ final evals h

-- the hypothesis of the three examples is met
example := Toy.run

example := C30_parameters Toy.lawful Gob.lawful batchSize (by decide) Toy.p2 Toy.p2_wf [9]
  [(Toy.par, Toy.p2rnd)] _ (by simp only [p2Ceremony]; rw [C29_first_contribution Toy.lawful Gob.lawful Toy.par batchSize (by decide)
    Toy.p2rnd Toy.p2 Toy.p2_wf rfl])

example := C39_large_domain Toy.lawful Toy.keyEnv Gob.lawful (Toy.large (2 ^ 28)) (Toy.large_wf _ (by norm_num))
  (by show 2 ^ 28 < 2 ^ 28 + 1; omega) Toy.largeEvals (by show 3 < 2 ^ 32; decide) rfl rfl rfl (by decide) (by decide) [0] rfl [1]

-- plain and split extraction agree on the toy phase 2 file, with different draws of the commitment key
example : SplitAgrees Toy.curve Toy.keyEnv (fun _ => .ok [3]) (Toy.p2.encode Toy.curve Gob.headerCodec ++ [1])
    (Toy.largeEvals.encode Toy.curve) :=
  C39_files_partial Toy.lawful Toy.keyEnv Gob.lawful _ (fun _ => ⟨fun _ => ⟨_, rfl⟩, fun _ => ⟨_, rfl⟩⟩) Toy.p2 Toy.p2_wf (by decide) _ _

end ZkSetup
