import Verif.Props.AnyVerify
import Verif.Props.AnyVerify1
import Verif.Props.Origin
/-
C66 for degenerate records: bytes that are accepted against every initial file.
-/
set_option linter.unusedSectionVars false

namespace ZkSetup

section
variable {F G1 G2 GT : Type} [Field F] [AddCommGroup G1] [Module F G1] [AddCommGroup G2]
  [Module F G2] [AddCommGroup GT] [Module F GT] [DecidableEq G1] [DecidableEq G2] [DecidableEq GT]
variable {C : Curve F G1 G2 GT} (hC : C.Lawful)
include hC

/-- **C66, negation** for degenerate first records, phase 1: for every power there is a file that is accepted whatever transformed file the
ceremony is said to have started from, and also if none is given. -/
theorem C66_universal_phase1 (p : UInt8) (hp : p.toNat ≤ 62) : ∃ f : P1File G1 G2, f.WF ∧ f.power = p ∧ f.records.length = 1 ∧
    ∀ (par : Par) (pol : Phase1.MsmPolicy) (b : Nat) (_ : 0 < b) (vr : Phase1.VerifyRand F) (junk : Bytes) (tr : Option Bytes),
      (∃ t, Phase1.defaultContribution C tr = .ok t) → Phase1.verify C par pol b vr (f.encode C ++ junk) tr = .ok () := by
  have hwf : (zeroFile p [zeroRecord C] : P1File G1 G2).WF := by
    refine ⟨hp, by simp [zeroFile], by simp [zeroFile], by simp [zeroFile], by simp [zeroFile], by simp [zeroFile], ?_⟩
    simp [zeroFile, zeroRecord, hC.sha_length]
  refine ⟨_, hwf, rfl, rfl, fun par pol b hb vr junk tr ⟨t, ht⟩ => ?_⟩
  rw [verify_bytes hC par pol b hb vr _ hwf junk tr]
  exact ⟨t, ht, ⟨⟨0, 0, 0, zeroRecord_step t⟩, trivial⟩, zeroFile_sections _ _ _ _ _ _ rfl⟩

variable {H : Phase2.HeaderCodec} (hH : H.Lawful)
include hH

omit hC hH [DecidableEq G1] [DecidableEq G2] [DecidableEq GT] in
/-- a header like that of `o` but with `n` contributions, two points at infinity, two encodings of no point, and `rest` -/
def hollow (C : Curve F G1 G2 GT) (H : Phase2.HeaderCodec) (o : P2File G1 G2) (n : Int) (bad rest : Bytes) : Bytes :=
  H.enc { o.header with contributions := n } ++ (C.c1.bytes 0 ++ (C.c2.bytes 0 ++ (bad ++ (bad ++ rest))))

theorem hollow_accepted {bad : Bytes} (hbad : BadPoint C.c1 bad) (o' o : P2File G1 G2) (hs : o'.SameShape o) (ho : o.WF) (hd : 2 ≤ o.domain)
    (hw : 1 ≤ o.witness) (n : Int) (hn : n ≠ 0) (h1 : -2 ^ 63 ≤ n) (h2 : n < 2 ^ 63) (rest : Bytes) (rs : List (Phase2.Contribution G1 G2))
    (hlen : rs.length = n.toNat) (hz : ∀ r ∈ rs, r = zeroRecord2 C)
    (hrs : RecordsFrom C ⟨4096, (H.enc { o'.header with contributions := n }).length + 160, rest⟩ rs)
    (par : Par) (b : Nat) (hb : 0 < b) (vr : Phase2.VerifyRand F) (junk : Bytes) :
    Phase2.verify C H par b vr (hollow C H o' n bad rest) (o.encode C H ++ junk) = .ok () := by
  have hh : ({ o'.header with contributions := n } : Phase2.Header) = { o.header with contributions := n } := by
    obtain ⟨a1, a2, a3, a4, a5, a6⟩ := hs
    simp only [P2File.header, a1, a2, a3, a4, a5, a6]
  unfold hollow
  rw [hh] at hrs ⊢
  have hr : ({ o.header with contributions := n } : Phase2.Header).InRange := by
    have := P2File.header_inRange hC hH ho
    exact ⟨this.1, this.2, this.3, this.4, this.5, this.6, by constructor <;> assumption⟩
  rw [C77_exact hC hH par b hb vr _ o ho junk]
  have l1 := hH.dec_enc _ hr 4096 0 (C.c1.bytes 0 ++ (C.c2.bytes 0 ++ (bad ++ (bad ++ rest))))
  have l2 := Codec.decode_bytes hC.codec1 4096 (0 + (H.enc { o.header with contributions := n }).length) 0 (C.c2.bytes 0 ++ (bad ++ (bad ++ rest)))
  have l3 := Codec.decode_bytes hC.codec2 4096 (0 + (H.enc { o.header with contributions := n }).length + C.c1.size) 0 (bad ++ (bad ++ rest))
  obtain ⟨m, l4⟩ := decode_bad hC hbad 4096 (0 + (H.enc { o.header with contributions := n }).length + C.c1.size + C.c2.size) (bad ++ rest)
  obtain ⟨m', l5⟩ := decode_bad hC hbad 4096 (0 + (H.enc { o.header with contributions := n }).length + C.c1.size + C.c2.size + 32) rest
  rw [show 0 + (H.enc { o.header with contributions := n }).length + C.c1.size + C.c2.size + 32 + 32
    = (H.enc { o.header with contributions := n }).length + 160 by rw [hC.size1, hC.size2]; omega] at l5
  refine ⟨_, 0, 0, rs, _, _, _, _, _, _, _, l1, l2, l3, hn, rfl, by rw [e_zero_right hC, e_zero_left hC], .stop 0 _ ⟨by omega, [], _, _, rfl, l4⟩,
    .stop 0 _ ⟨by omega, [], _, _, rfl, l5⟩, hrs, hlen, ?_, ?_⟩
  · clear hrs hlen
    have : ∀ (d : G1) (h : Bytes), ∃ xs, Chain2By C d h rs xs := by
      induction rs with
      | nil => intro d h; exact ⟨[], trivial⟩
      | cons r rs ih =>
        intro d h
        obtain ⟨xs, hx⟩ := ih (fun r hr => hz r (by simp [hr])) r.delta r.hash
        obtain rfl := hz r (by simp)
        exact ⟨0 :: xs, zeroRecord2_step _ _, hx⟩
    exact this _ _
  · cases hl : rs.getLast? with
    | none => rfl
    | some r =>
      obtain rfl := hz r (List.mem_of_getLast? hl)
      rfl

/-- **C66, negation** for degenerate records, phase 2: for every shape of circuit there are bytes, without any point of Z or PKK and without
any record, that are accepted against every initial file of this shape, whatever is drawn. They say −1 contributions. -/
theorem C66_universal_phase2 {bad : Bytes} (hbad : BadPoint C.c1 bad) (o : P2File G1 G2) (hd : 2 ≤ o.domain) (hw : 1 ≤ o.witness) :
    ∃ input : Bytes, input.length = (H.enc { o.header with contributions := -1 }).length + 160 ∧
      ∀ (o' : P2File G1 G2), o'.WF → o.SameShape o' → ∀ (par : Par) (b : Nat) (_ : 0 < b) (vr : Phase2.VerifyRand F) (junk : Bytes),
        Phase2.verify C H par b vr input (o'.encode C H ++ junk) = .ok () := by
  refine ⟨hollow C H o (-1) bad [], ?_, fun o' ho hs par b hb vr junk => ?_⟩
  · have := hbad.length
    have h1 := hC.codec1.bytes_length (0 : G1)
    have h2 := hC.codec2.bytes_length (0 : G2)
    rw [hC.size1] at h1
    rw [hC.size2] at h2
    simp [hollow, this, h1, h2]
  · exact hollow_accepted hC hH hbad o o' hs ho (by rw [← hs.2.2.2.2.2]; exact hd) (by rw [← hs.2.1]; exact hw) (-1) (by decide) (by norm_num) (by norm_num) [] [] rfl
      (by simp) trivial par b hb vr junk

/-- **C66, negation** for degenerate records, phase 2: the same with one contribution, if its hash does not lie across the end of a read
buffer. -/
theorem C66_universal_phase2_one {bad : Bytes} (hbad : BadPoint C.c1 bad) (o : P2File G1 G2) (hd : 2 ≤ o.domain) (hw : 1 ≤ o.witness)
    (hpos : ((H.enc { o.header with contributions := 1 }).length + 320) % 4096 + 32 ≤ 4096) :
    ∃ input : Bytes, input.length = (H.enc { o.header with contributions := 1 }).length + 352 ∧
      ∀ (o' : P2File G1 G2), o'.WF → o.SameShape o' → ∀ (par : Par) (b : Nat) (_ : 0 < b) (vr : Phase2.VerifyRand F) (junk : Bytes),
        Phase2.verify C H par b vr input (o'.encode C H ++ junk) = .ok () := by
  refine ⟨hollow C H o 1 bad (record2Bytes C (zeroRecord2 C)), ?_, fun o' ho hs par b hb vr junk => ?_⟩
  · have := hbad.length
    have h1 := hC.codec1.bytes_length (0 : G1)
    have h2 := hC.codec2.bytes_length (0 : G2)
    have h3 := record2Bytes_length hC (zeroRecord2 C) (hC.sha_length _)
    rw [hC.size1] at h1
    rw [hC.size2] at h2
    simp [hollow, this, h1, h2, h3]
  · refine hollow_accepted hC hH hbad o o' hs ho (by rw [← hs.2.2.2.2.2]; exact hd) (by rw [← hs.2.1]; exact hw) 1 (by decide) (by norm_num) (by norm_num) _ [zeroRecord2 C] rfl
      (by simp) ?_ par b hb vr junk
    have := recordsFrom_bytes hC [zeroRecord2 C] ((H.enc { o.header with contributions := 1 }).length + 160) []
      (by simp only [List.mem_singleton, forall_eq]; exact hC.sha_length _) (fun j hj => by
        obtain rfl : j = 0 := by simpa using hj
        simpa [Nat.add_assoc] using hpos)
    simpa using this

end

/-! ### concrete instances -/

/-- a file of power 3 accepted by `p1v` and, with any transformed file of power at least 1, by `p1vt` -/
example : ∃ f : P1File Toy.K Toy.K, f.WF ∧ Phase1.verify Toy.curve Toy.par .strict 5 Toy.vr (f.encode Toy.curve ++ [1]) none = .ok () := by
  obtain ⟨f, hf, -, -, h⟩ := C66_universal_phase1 Toy.lawful 3 (by decide)
  exact ⟨f, hf, h Toy.par .strict 5 (by decide) Toy.vr [1] none ⟨_, rfl⟩⟩

/-- the same bytes are accepted against three different initial files -/
example : ∃ input : Bytes, (∀ o ∈ [Toy.p2, Toy.p2other, Toy.p2other'],
    Phase2.verify Toy.curve Gob.headerCodec par4 Phase1.batchSize Toy.p2vr input (o.encode Toy.curve Gob.headerCodec ++ [1]) = .ok ()) := by
  obtain ⟨input, -, h⟩ := C66_universal_phase2 Toy.lawful Gob.lawful Toy.bad_bad Toy.p2 (by decide) (by decide)
  refine ⟨input, fun o ho => ?_⟩
  simp only [List.mem_cons, List.not_mem_nil, or_false] at ho
  rcases ho with rfl | rfl | rfl
  · exact h _ Toy.p2_wf ⟨rfl, rfl, rfl, rfl, rfl, rfl⟩ par4 Phase1.batchSize (by decide) Toy.p2vr [1]
  · exact h _ Toy.p2other_wf ⟨rfl, rfl, rfl, rfl, rfl, rfl⟩ par4 Phase1.batchSize (by decide) Toy.p2vr [1]
  · exact h _ Toy.p2other'_wf ⟨rfl, rfl, rfl, rfl, rfl, rfl⟩ par4 Phase1.batchSize (by decide) Toy.p2vr [1]

example := C66_universal_phase2_one Toy.lawful Gob.lawful Toy.bad_bad Toy.p2 (by decide) (by decide) (by decide +kernel)

end ZkSetup
