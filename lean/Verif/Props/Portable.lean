import Verif.Props.Phase2Sound
import Verif.Props.Console
import Verif.Props.Keys
/-
C67: whether a record counts only for the circuit it was made for.
-/
set_option linter.unusedSectionVars false

namespace ZkSetup

open Phase2

section
variable {F G1 G2 GT : Type} [Field F] [AddCommGroup G1] [Module F G1] [AddCommGroup G2]
  [Module F G2] [AddCommGroup GT] [Module F GT] [DecidableEq G1] [DecidableEq G2] [DecidableEq GT]

/-- `n` linear combinations of points; combination `i` has the coefficients `M i` -/
def combinations (M : Nat → Nat → F) (n : Nat) (ps : List G1) : List G1 :=
  (List.range n).map fun i => ∑ j ∈ Finset.range ps.length, M i j • ps.getD j 0

/-- What anybody can make of the published file `f`, without any secret: the sizes of the initial file `o`, and combinations of
PKK. The records stay. -/
def P2File.moveTo (M : Nat → Nat → F) (f o : P2File G1 G2) : P2File G1 G2 :=
  { f with wires := o.wires, witness := o.witness, pub := o.pub, privateCommitted := o.privateCommitted, constraints := o.constraints
           pkk := combinations M o.witness f.pkk }

/-- a term on another wire -/
def rewireTerm (σ : Nat → Nat) (t : Term) : Term := ⟨t.coeff, σ t.wire⟩

/-- a constraint with wire `σ w` in the place of wire `w` -/
def rewire (σ : Nat → Nat) (c : R1C) : R1C := ⟨c.l.map (rewireTerm σ), c.r.map (rewireTerm σ), c.o.map (rewireTerm σ)⟩

/-- the combinations for circuit `r'` in which private wire `w` of `r` is wire `σ w`: the sum over the wires that are merged -/
def mergeMatrix (σ : Nat → Nat) (r r' : R1CS F) (i j : Nat) : F := if σ (r.shared + j) = r'.shared + i then 1 else 0

theorem combinations_smul (M : Nat → Nat → F) (n : Nat) (c : F) (ps : List G1) :
    combinations M n (ps.map (c • ·)) = (combinations M n ps).map (c • ·) := by
  unfold combinations
  rw [List.map_map]
  apply List.map_congr_left
  intro i _
  simp only [Function.comp_apply, List.length_map, Finset.smul_sum]
  refine Finset.sum_congr rfl fun j hj => ?_
  rw [Finset.mem_range] at hj
  simp only [List.getD_eq_getElem?_getD, List.getElem?_map, List.getElem?_eq_getElem hj, Option.map_some, Option.getD_some]
  rw [smul_comm]

theorem lcCoeff_rewire (σ : Nat → Nat) (cs : List F) (n w : Nat) (ts : List Term) (h : ∀ t ∈ ts, t.wire < n) :
    lcCoeff cs (ts.map (rewireTerm σ)) w = ∑ v ∈ Finset.range n, if σ v = w then lcCoeff cs ts v else 0 := by
  induction ts with
  | nil => simp [lcCoeff]
  | cons t ts ih =>
    have ht : t.wire ∈ Finset.range n := Finset.mem_range.mpr (h t (by simp))
    have hcons : ∀ (t : Term) (ts : List Term) (v : Nat),
        lcCoeff cs (t :: ts) v = (if t.wire = v then coeffValue cs t.coeff else 0) + lcCoeff cs ts v := by
      intro t ts v
      by_cases e : t.wire = v <;> simp [lcCoeff, e]
    rw [List.map_cons, hcons, ih fun t' h' => h t' (by simp [h'])]
    have : ∀ v, (if σ v = w then lcCoeff cs (t :: ts) v else 0)
        = (if v = t.wire then (if σ t.wire = w then coeffValue cs t.coeff else 0) else 0) + if σ v = w then lcCoeff cs ts v else 0 := by
      intro v
      rw [hcons]
      by_cases e : v = t.wire
      · subst e
        by_cases e' : σ t.wire = w <;> simp [e']
      · by_cases e' : σ v = w <;> simp [e', e, Ne.symm e]
    simp only [this, Finset.sum_add_distrib, Finset.sum_ite_eq', ht, if_true]
    rfl

theorem qap_rewire (σ : Nat → Nat) (r r' : R1CS F) (hc : r'.constraints = r.constraints.map (rewire σ))
    (hk : r'.coefficients = r.coefficients) (side : R1C → List Term) (hside : ∀ c, side (rewire σ c) = (side c).map (rewireTerm σ))
    (hw : ∀ c ∈ r.constraints, ∀ t ∈ side c, t.wire < r.wires) (n : Nat) (ω τ : F) (w : Nat) :
    (qap r' n ω side w).eval τ = ∑ v ∈ Finset.range r.wires, if σ v = w then (qap r n ω side v).eval τ else 0 := by
  unfold qap
  simp only [Polynomial.eval_finset_sum, Polynomial.eval_mul, Polynomial.eval_C]
  have e : ∀ v, (if σ v = w then ∑ i ∈ Finset.range r.constraints.length, lcCoeff r.coefficients (side (r.constraint i)) v
        * (_root_.Lagrange.basis (Finset.range n) (fun i => ω ^ i) i).eval τ else 0)
      = ∑ i ∈ Finset.range r.constraints.length, (if σ v = w then lcCoeff r.coefficients (side (r.constraint i)) v else 0)
        * (_root_.Lagrange.basis (Finset.range n) (fun i => ω ^ i) i).eval τ := by
    intro v
    by_cases h : σ v = w <;> simp [h]
  simp only [e]
  rw [Finset.sum_comm, hc, List.length_map]
  refine Finset.sum_congr rfl fun i hi => ?_
  rw [Finset.mem_range] at hi
  have h1 : r'.constraint i = rewire σ (r.constraint i) := by
    simp [R1CS.constraint, hc, List.getD_eq_getElem?_getD, hi]
  have h2 : r.constraint i ∈ r.constraints := by
    simp [R1CS.constraint, List.getD_eq_getElem?_getD, hi]
  rw [h1, hk, hside, lcCoeff_rewire σ _ r.wires w _ (hw _ h2), Finset.sum_mul]

variable {C : Curve F G1 G2 GT} (hC : C.Lawful)
include hC

omit hC in
theorem UpdateOf.moveTo (M : Nat → Nat → F) {o f o' : P2File G1 G2} {x : F} {xs : List F} (h : UpdateOf C o f x xs)
    (h1 : o'.delta1 = o.delta1) (h2 : o'.delta2 = o.delta2) (hz : o'.z = o.z) (hd : o'.domain = o.domain)
    (hp : o'.pkk = combinations M o'.witness o.pkk) : UpdateOf C o' (f.moveTo M o') x xs where
  shape := ⟨rfl, rfl, rfl, rfl, rfl, h.shape.2.2.2.2.2.trans hd.symm⟩
  delta1 := by rw [h1]; exact h.delta1
  delta2 := by rw [h2]; exact h.delta2
  z := by rw [hz]; exact h.z
  pkk := by
    show combinations M o'.witness f.pkk = _
    rw [h.pkk, combinations_smul, hp]
  chain := by rw [h1]; exact h.chain
  last := by rw [h1]; exact h.last

omit hC in
theorem P2File.moveTo_wf (M : Nat → Nat → F) {f o : P2File G1 G2} (hf : f.WF) (ho : o.WF) : (f.moveTo M o).WF where
  wires := ho.wires
  pub := ho.pub
  privateCommitted := ho.privateCommitted
  constraints := ho.constraints
  domain := hf.domain
  witness := ho.witness
  domain_pos := hf.domain_pos
  z := hf.z
  pkk := by simp [P2File.moveTo, combinations]
  count := hf.count
  hash := hf.hash

/-- **C67** is false: let `f` be the file of a ceremony on `o`. If the PKK of another initial file `o'` over the same domain are linear
combinations of those of `o`, then anybody turns `f` into a file with the same records that is accepted against `o'`, and the hashes
printed are those of the contributors, who have never seen `o'`. -/
theorem C67_false {H : HeaderCodec} (hH : H.Lawful) (o o' : P2File G1 G2) (ho : o.WF) (ho' : o'.WF) (h0 : o.records = [])
    (h1 : o'.delta1 = o.delta1) (h2 : o'.delta2 = o.delta2) (hz : o'.z = o.z) (hd : o'.domain = o.domain) (M : Nat → Nat → F)
    (hp : o'.pkk = combinations M o'.witness o.pkk) (rnds : List (Rand F)) (hne : rnds ≠ []) (hc : rnds.length < 2 ^ 63 - 1)
    (hx : deltaProduct rnds ≠ 0) (hs : ((o.ceremony C rnds).moveTo M o').NoStraddle H) (par : Par) (b : Nat) (hb : 0 < b)
    (vr : VerifyRand F) (junk junk' : Bytes) :
    ((o.ceremony C rnds).moveTo M o').records = (o.ceremony C rnds).records ∧
    Phase2.verify C H par b vr (((o.ceremony C rnds).moveTo M o').encode C H ++ junk) (o'.encode C H ++ junk') = .ok () ∧
    trackedHashes (Console.p2Verify C H par b vr (((o.ceremony C rnds).moveTo M o').encode C H ++ junk) (o'.encode C H ++ junk')).2
      = (o.ceremony C rnds).records.map (fun r => some r.hash) := by
  obtain ⟨hw, hl, hu⟩ := ceremony2_facts hC hH o ho h0 rnds hc
  have hr : (o.ceremony C rnds).records ≠ [] := by
    intro e
    rw [e] at hl
    exact hne (List.length_eq_zero_iff.mp hl.symm)
  have hw' := P2File.moveTo_wf M hw ho'
  have hv := verify2_update hC hH par b hb vr o' _ ho' hw' hs hr _ hx _ (hu.moveTo M h1 h2 hz hd hp) junk junk'
  refine ⟨rfl, hv, ?_⟩
  have hsame := (C58_same_programs C H par .strict b ⟨0, 0, 0, 0, 0, 0⟩ ⟨fun _ _ => 0, fun _ _ => 0, fun _ _ => 0, fun _ _ => 0⟩
    ⟨0, 0⟩ vr (((o.ceremony C rnds).moveTo M o').encode C H ++ junk) (o'.encode C H ++ junk') none).2.2.2
  exact (C58_p2_verify hC hH par b hb vr _ o' hw' ho' hs junk junk' _ _ rfl).2 (hsame.trans hv)

/-- the PKK of a circuit in which wires have been merged or renamed -/
theorem trapdoor_rewire (σ : Nat → Nat) (r r' : R1CS F) (hr : r.Valid) (hsh : r.shared ≤ r.wires)
    (hc : r'.constraints = r.constraints.map (rewire σ)) (hk : r'.coefficients = r.coefficients)
    (hσ : ∀ w < r.shared, σ w < r'.shared) (k : Nat) (ω τ α β : F) :
    (trapdoorFile C r' k ω τ α β).pkk = combinations (mergeMatrix σ r r')
      (r'.wires - r'.shared) (trapdoorFile C r k ω τ α β).pkk := by
  unfold combinations
  show (List.range _).map _ = _
  apply List.map_congr_left
  intro i _
  have hl := qap_rewire σ r r' hc hk R1C.l (fun _ => rfl) (fun c hcc t ht => hr.wire c hcc c.l (by simp) t ht) (2 ^ k) ω τ (r'.shared + i)
  have hrr := qap_rewire σ r r' hc hk R1C.r (fun _ => rfl) (fun c hcc t ht => hr.wire c hcc c.r (by simp) t ht) (2 ^ k) ω τ (r'.shared + i)
  have ho := qap_rewire σ r r' hc hk R1C.o (fun _ => rfl) (fun c hcc t ht => hr.wire c hcc c.o (by simp) t ht) (2 ^ k) ω τ (r'.shared + i)
  obtain ⟨m, hm⟩ : ∃ m, r.wires = r.shared + m := ⟨r.wires - r.shared, by omega⟩
  have hpriv : ∀ g : Nat → F, (∑ v ∈ Finset.range r.wires, if σ v = r'.shared + i then g v else 0)
      = ∑ j ∈ Finset.range m, if σ (r.shared + j) = r'.shared + i then g (r.shared + j) else 0 := by
    intro g
    rw [hm, Finset.sum_range_add, Finset.sum_eq_zero, zero_add]
    intro v hv
    rw [if_neg]
    have := hσ v (Finset.mem_range.mp hv)
    omega
  rw [hl, hrr, ho, hpriv, hpriv, hpriv, Finset.mul_sum, Finset.mul_sum, ← Finset.sum_add_distrib, ← Finset.sum_add_distrib,
    Finset.sum_smul]
  have hlen : (trapdoorFile C r k ω τ α β).pkk.length = m := by simp [trapdoorFile, hm]
  rw [hlen]
  refine Finset.sum_congr rfl fun j hj => ?_
  rw [Finset.mem_range] at hj
  have hget : (trapdoorFile C r k ω τ α β).pkk.getD j 0 = (β * (qap r (2 ^ k) ω R1C.l (r.shared + j)).eval τ
      + α * (qap r (2 ^ k) ω R1C.r (r.shared + j)).eval τ + (qap r (2 ^ k) ω R1C.o (r.shared + j)).eval τ) • C.g1 := by
    have : j < r.wires - r.shared := by omega
    simp [trapdoorFile, List.getD_eq_getElem?_getD, this]
  rw [hget]
  by_cases e : σ (r.shared + j) = r'.shared + i <;> simp [mergeMatrix, e]

/-- **C67** is false, for circuits: let `r'` be circuit `r` with private wires merged or renamed (so that it demands more, or something
else). From the file of a ceremony on the initial file of `r`, anybody makes a file with the same records that is accepted against
the initial file that `p2n` writes for `r'`. -/
theorem C67_circuit_false (E : InitEnv F) (hH : E.header.Lawful) (σ : Nat → Nat) (r r' : R1CS F) (hr : r.Valid) (hr' : r'.Valid)
    (hpc : r.PublicCommitment) (hpc' : r'.PublicCommitment) (hcc : r'.constraints = r.constraints.map (rewire σ))
    (hkk : r'.coefficients = r.coefficients) (hσ : ∀ w < r.shared, σ w < r'.shared) (srs : P1File G1 G2) (hsrs : srs.WF) (τ α β : F)
    (hpw : srs.Powers C τ α β) (k : Nat) (hk : IsDomain r.constraints.length k) (hk27 : k ≤ 27) (hkp : k ≤ srs.power.toNat)
    (hdom : (E.dom (2 ^ k)).Lawful k) (rnds : List (Rand F)) (hne : rnds ≠ []) (hc : rnds.length < 2 ^ 63 - 1)
    (hx : deltaProduct rnds ≠ 0) (ipar par : Par) (b : Nat) (hb : 0 < b) (vr : VerifyRand F) (junk oldLag oldEvals : Bytes)
    (hs : (((trapdoorFile C r k (E.dom (2 ^ k)).gen τ α β).ceremony C rnds).moveTo
      (mergeMatrix σ r r') (trapdoorFile C r' k (E.dom (2 ^ k)).gen τ α β)).NoStraddle E.header) :
    ∃ (st st' : InitSt) (o f f' : P2File G1 G2),
      initializeFiles C E ipar (some r) (srs.encode C ++ junk) oldLag oldEvals = (.ok (), st) ∧
      initializeFiles C E ipar (some r') (srs.encode C ++ junk) oldLag oldEvals = (.ok (), st') ∧
      st.ph2 = o.encode C E.header ∧ f = o.ceremony C rnds ∧ f'.records = f.records ∧ f.records.length = rnds.length ∧
      Phase2.verify C E.header par b vr (f'.encode C E.header) st'.ph2 = .ok () ∧
      trackedHashes (Console.p2Verify C E.header par b vr (f'.encode C E.header) st'.ph2).2
        = f.records.map (fun r => some r.hash) := by
  have hk' : IsDomain r'.constraints.length k := by rw [hcc, List.length_map]; exact hk
  have hi := init_honest hC E ipar r hr hpc srs hsrs τ α β hpw k hk hk27 hkp hdom junk oldLag oldEvals
  have hi' := init_honest hC E ipar r' hr' hpc' srs hsrs τ α β hpw k hk' hk27 hkp hdom junk oldLag oldEvals
  have hwf := trapdoorFile_wf hC r hr hpc k hk hk27 (E.dom (2 ^ k)).gen τ α β
  have hwf' := trapdoorFile_wf hC r' hr' hpc' k hk' hk27 (E.dom (2 ^ k)).gen τ α β
  have hmain := C67_false hC hH (trapdoorFile C r k (E.dom (2 ^ k)).gen τ α β) (trapdoorFile C r' k (E.dom (2 ^ k)).gen τ α β) hwf hwf'
    rfl rfl rfl rfl rfl _ (trapdoor_rewire hC σ r r' hr hpc.shared_le hcc hkk hσ k _ τ α β) rnds hne hc hx hs par b hb vr [] []
  rw [List.append_nil, List.append_nil] at hmain
  exact ⟨_, _, _, _, _, hi, hi', rfl, rfl, hmain.1, (ceremony2_facts hC hH _ hwf rfl rnds hc).2.1, hmain.2.1, hmain.2.2⟩

/-- **C67** (partial): records can be moved only together with their secrets. Two accepted files with the same records, against any
initial files with the same `[δ]1` and `[δ]2`, have the same `[δ]1` and `[δ]2`. -/
theorem C67_secret_partial {H : HeaderCodec} (hH : H.Lawful) (par par' : Par) (b b' : Nat) (hb : 0 < b) (hb' : 0 < b')
    (vr vr' : VerifyRand F) (f f' o o' : P2File G1 G2) (hf : f.WF) (hf' : f'.WF) (ho : o.WF) (ho' : o'.WF) (hs : f.NoStraddle H)
    (hs' : f'.NoStraddle H) (hrec : f'.records = f.records) (h1 : o.delta1 = C.g1) (h1' : o'.delta1 = C.g1) (h2 : o'.delta2 = o.delta2)
    (junk junk1 junk2 junk3 : Bytes)
    (h : Phase2.verify C H par b vr (f.encode C H ++ junk) (o.encode C H ++ junk1) = .ok ())
    (h' : Phase2.verify C H par' b' vr' (f'.encode C H ++ junk2) (o'.encode C H ++ junk3) = .ok ()) :
    f'.delta1 = f.delta1 ∧ f'.delta2 = f.delta2 := by
  rw [verify2_iff hC hH par b hb vr f o hf ho hs] at h
  rw [verify2_iff hC hH par' b' hb' vr' f' o' hf' ho' hs'] at h'
  obtain ⟨hne, -, hp, -, -, -, hl⟩ := h
  obtain ⟨-, -, hp', -, -, -, hl'⟩ := h'
  obtain ⟨r, hr⟩ : ∃ r, f.records.getLast? = some r := ⟨_, List.getLast?_eq_some_getLast hne⟩
  have hd : f'.delta1 = f.delta1 := (hl' r (by rw [hrec]; exact hr)).symm.trans (hl r hr)
  refine ⟨hd, ?_⟩
  obtain ⟨x, hx⟩ := hC.span2 f.delta2
  obtain ⟨y, hy⟩ := hC.span2 f'.delta2
  rw [h1, hx, hC.smul_right] at hp
  rw [h1', hd, h2, hy, hC.smul_right] at hp'
  have hxy : x • C.e C.g1 C.g2 = y • C.e C.g1 C.g2 := hp.trans hp'.symm
  rw [hx, hy, (e_gen_inj hC).mp hxy]

end

/-! ### concrete cases -/

namespace Toy

/-- `circuit` with its two private wires merged: it demands `x·x = x` where `circuit` demands `x·x = y` -/
def merged : R1CS K where
  nbPublic := 2
  nbSecret := 1
  nbInternal := 0
  nbConstraints := 3
  constraints := [⟨[⟨1, 2⟩], [⟨1, 2⟩], [⟨1, 2⟩]⟩, ⟨[⟨4, 2⟩, ⟨2, 0⟩], [⟨1, 0⟩], [⟨1, 1⟩]⟩,
    ⟨[⟨1, 2⟩, ⟨1, 2⟩, ⟨3, 1⟩], [⟨1, 0⟩], [⟨4, 0⟩, ⟨4, 0⟩]⟩]
  coefficients := [0, 1, 2, 16, 5]
  commitment := ⟨[], 0, 0⟩

theorem merged_valid : merged.Valid := ⟨by decide, by decide, by decide, by decide⟩

theorem merged_nc : merged.NoCommitment := ⟨rfl, rfl⟩

/-- wire 3 becomes wire 2 -/
def merging (w : Nat) : Nat := if w = 3 then 2 else w

theorem moved_noStraddle : (((trapdoorFile curve circuit 2 (env.dom (2 ^ 2)).gen 3 5 7).ceremony curve [p2rnd, p2rnd']).moveTo
    (mergeMatrix merging circuit merged) (trapdoorFile curve merged 2 (env.dom (2 ^ 2)).gen 3 5 7)).NoStraddle env.header := by
  decide +kernel

end Toy

example := C67_circuit_false Toy.lawful Toy.env Gob.lawful Toy.merging Toy.circuit Toy.merged Toy.circuit_valid Toy.merged_valid
  Toy.circuit_nc.publicCommitment Toy.merged_nc.publicCommitment (by decide) rfl (by decide) (Toy.srs 3 3 5 7)
  (Toy.srs_wf 3 (by decide) _ _ _) 3 5 7 (Toy.srs_powers 3 3 5 7) 2 Toy.circuit_domain (by decide) (by decide) dom4_lawful
  [Toy.p2rnd, Toy.p2rnd'] (by decide) (by decide) (by decide +kernel) Toy.par Toy.par 2 (by decide) Toy.p2vr [] [] []
  Toy.moved_noStraddle

example := C67_false Toy.lawful Gob.lawful _ _
  (trapdoorFile_wf Toy.lawful Toy.circuit Toy.circuit_valid Toy.circuit_nc.publicCommitment 2 Toy.circuit_domain (by decide) _ 3 5 7)
  (trapdoorFile_wf Toy.lawful Toy.merged Toy.merged_valid Toy.merged_nc.publicCommitment 2 Toy.circuit_domain (by decide) _ 3 5 7)
  rfl rfl rfl rfl rfl _ (trapdoor_rewire Toy.lawful Toy.merging Toy.circuit Toy.merged Toy.circuit_valid
    Toy.circuit_nc.publicCommitment.shared_le (by decide) rfl (by decide) 2 _ 3 5 7)
  [Toy.p2rnd, Toy.p2rnd'] (by decide) (by decide) (by decide +kernel) Toy.moved_noStraddle Toy.par 2 (by decide) Toy.p2vr [1] [2]

-- the file and the same file with a wrong point of Z (accepted for one draw)
example := C67_secret_partial Toy.lawful Gob.lawful Toy.par Toy.par Phase1.batchSize Phase1.batchSize (by decide) (by decide) Toy.p2vr _
  Toy.p2final Toy.p2bad Toy.p2 Toy.p2 Toy.p2final_wf Toy.p2bad_wf Toy.p2_wf Toy.p2_wf Toy.p2final_noStraddle Toy.p2bad_noStraddle rfl
  (by decide +kernel) (by decide +kernel) rfl [] [] [] [] (Toy.p2final_accepted _ _) Toy.p2bad_accepted

end ZkSetup
