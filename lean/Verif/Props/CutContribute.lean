import Verif.Proofs.CutContribute
import Verif.Props.Phase1Truncate
import Verif.Props.Phase2Truncate
/-
C81: contributing to a file that was cut short.
-/
set_option linter.unusedSectionVars false

namespace ZkSetup

open Encodings

section
variable {G1 G2 : Type}

theorem kinds_g1s (ps : List G1) : (ps.map (.g1 : G1 → Item G1 G2)).map Item.kind = List.replicate ps.length 1 := by
  induction ps with
  | nil => rfl
  | cons p ps ih => simp [ih, Item.kind, List.replicate_succ]

theorem kinds_g2s (ps : List G2) : (ps.map (.g2 : G2 → Item G1 G2)).map Item.kind = List.replicate ps.length 2 := by
  induction ps with
  | nil => rfl
  | cons p ps ih => simp [ih, Item.kind, List.replicate_succ]

theorem kinds_records (rs : List (Phase1.Contribution G1 G2)) : ∀ (rs' : List (Phase1.Contribution G1 G2)), rs.length = rs'.length →
    (rs.flatMap recordItems).map Item.kind = (rs'.flatMap recordItems).map Item.kind := by
  induction rs with
  | nil => intro rs' h; obtain rfl := List.length_eq_zero_iff.mp h.symm; rfl
  | cons r rs ih =>
    intro rs' h
    cases rs' with
    | nil => simp at h
    | cons r' rs' =>
      rw [List.flatMap_cons, List.flatMap_cons, List.map_append, List.map_append, ih rs' (by simpa using h)]
      rfl

theorem kinds_records2 (rs : List (Phase2.Contribution G1 G2)) : ∀ (rs' : List (Phase2.Contribution G1 G2)), rs.length = rs'.length →
    (rs.flatMap record2Items).map Item.kind = (rs'.flatMap record2Items).map Item.kind := by
  induction rs with
  | nil => intro rs' h; obtain rfl := List.length_eq_zero_iff.mp h.symm; rfl
  | cons r rs ih =>
    intro rs' h
    cases rs' with
    | nil => simp at h
    | cons r' rs' =>
      rw [List.flatMap_cons, List.flatMap_cons, List.map_append, List.map_append, ih rs' (by simpa using h)]
      rfl

end

theorem zeroTail_length {k : Nat} (hk : k ≤ 32) {h : Bytes} (hh : h.length = 32) : (zeroTail k h).length = 32 := by
  simp [zeroTail, hh]
  omega

/-- bytes replaced by zeros without effect were zeros -/
theorem zeroTail_eq {k : Nat} (hk : k ≤ 32) {h : Bytes} (hh : h.length = 32) (he : zeroTail k h = h) : h.drop (32 - k) = List.replicate k 0 := by
  unfold zeroTail at he
  have h1 : h.take (32 - k) ++ h.drop (32 - k) = h := List.take_append_drop _ _
  rw [← h1] at he
  simp only [List.take_append_drop] at he
  have := List.append_inj_right' (he.trans h1.symm) (by simp [hh]; omega)
  exact this.symm

section phase1
open Phase1
variable {F G1 G2 GT : Type} [Field F] [AddCommGroup G1] [Module F G1] [AddCommGroup G2]
  [Module F G2] [AddCommGroup GT] [Module F GT] [DecidableEq G1] [DecidableEq G2] [DecidableEq GT]
variable {C : Curve F G1 G2 GT} (hC : C.Lawful)

theorem P1File.zeroTail_wf {f : P1File G1 G2} (hf : f.WF) {k : Nat} (hk : k ≤ 32) : (f.zeroTail k).WF := by
  have hl : (f.zeroTail k).records.length = f.records.length := by
    cases h : f.records.getLast? with
    | none => rw [List.getLast?_eq_none_iff] at h; simp [P1File.zeroTail, h]
    | some r =>
      have : 0 < f.records.length := by
        cases hr : f.records with
        | nil => simp [hr] at h
        | cons => simp
      simp [P1File.zeroTail, h]
      omega
  refine ⟨hf.power, hf.tauG1, hf.alphaG1, hf.betaG1, hf.tauG2, by rw [hl]; exact hf.count, ?_⟩
  intro r hr
  simp only [P1File.zeroTail, List.mem_append, Option.mem_toList, Option.mem_def, Option.map_eq_some_iff] at hr
  rcases hr with hr | ⟨q, hq, rfl⟩
  · exact hf.hash r (List.mem_of_mem_dropLast hr)
  · exact ZkSetup.zeroTail_length hk (hf.hash q (List.mem_of_getLast? hq))

include hC

omit hC in
theorem fitsAt_items (f : P1File G1 G2) (hf : f.WF) (pos : Nat) : FitsAt (fun _ => 32) pos f.items := by
  simp only [P1File.items, List.append_assoc]
  exact fitsAt_g1s _ _ _ (fitsAt_g1s _ _ _ (fitsAt_g1s _ _ _ (fitsAt_g2s _ _ _ (fitsAt_records f.records hf.hash _))))

omit hC in
theorem encode_items (f : P1File G1 G2) : f.encode C
    = f.power :: UInt8.ofNat (f.records.length / 256) :: UInt8.ofNat (f.records.length % 256) :: f.items.flatMap (Item.enc C) := by
  rw [enc_items]
  rfl

/-- **C81**, `p1c`: in a file that has lost up to 31 bytes, the file with zeros instead of these bytes is read. -/
theorem C81_p1_readIn (f : P1File G1 G2) (hf : f.WF) (hne : f.records ≠ []) (k : Nat) (hk : k < 32) :
    (f.zeroTail k).ReadIn C ((f.encode C).take ((f.encode C).length - k)) := by
  obtain ⟨rs, r, hrs⟩ : ∃ rs r, f.records = rs ++ [r] := ⟨_, _, (List.dropLast_append_getLast hne).symm⟩
  let us : List (Item G1 G2) := f.tauG1.map .g1 ++ f.alphaG1.map .g1 ++ f.betaG1.map .g1 ++ f.tauG2.map .g2 ++ [.g2 f.betaG2]
    ++ rs.flatMap recordItems ++ (recordItems r).dropLast
  have hitems : f.items = us ++ [.hash r.hash] := by
    simp only [P1File.items, us, hrs, List.flatMap_append, List.append_assoc]
    simp [recordItems, keyItems]
  have hz : (f.zeroTail k).records = rs ++ [{ r with hash := zeroTail k r.hash }] := by
    simp [P1File.zeroTail, hrs]
  have hitems' : (f.zeroTail k).items = us ++ [.hash (zeroTail k r.hash)] := by
    simp only [P1File.items, us, hz, List.flatMap_append, List.append_assoc]
    simp [recordItems, keyItems, P1File.zeroTail]
  have hh : r.hash.length = 32 := hf.hash r (by rw [hrs]; simp)
  have hfits : FitsAt (fun _ => 32) 3 us := by
    simp only [us, List.append_assoc]
    refine fitsAt_g1s _ _ _ (fitsAt_g1s _ _ _ (fitsAt_g1s _ _ _ (fitsAt_g2s _ _ _ ?_)))
    have hrs32 : ∀ x ∈ rs, x.hash.length = 32 := fun x hx => hf.hash x (by rw [hrs]; simp [hx])
    have : ∀ (rs : List (Contribution G1 G2)) pos, (∀ x ∈ rs, x.hash.length = 32) →
        FitsAt (fun _ => 32) pos (rs.flatMap recordItems ++ (recordItems r).dropLast) := by
      intro rs
      induction rs with
      | nil => intro pos _; simp [recordItems, keyItems, FitsAt]
      | cons c cs ih =>
        intro pos hx
        rw [List.flatMap_cons, List.append_assoc]
        exact ⟨rfl, hx c (by simp), ih _ fun x h => hx x (by simp [h])⟩
    exact this rs _ hrs32
  have henc := encode_items (C := C) f
  rw [hitems, List.flatMap_append] at henc
  simp only [List.flatMap_cons, List.flatMap_nil, List.append_nil, Item.enc] at henc
  have htake : (f.encode C).take ((f.encode C).length - k)
      = f.power :: UInt8.ofNat (f.records.length / 256) :: UInt8.ofNat (f.records.length % 256) ::
        (us.flatMap (Item.enc C) ++ r.hash.take (32 - k)) := by
    rw [henc]
    simp only [List.length_cons, List.length_append, hh]
    rw [show (us.flatMap (Item.enc C)).length + 32 + 1 + 1 + 1 - k = (us.flatMap (Item.enc C)).length + (32 - k) + 1 + 1 + 1 by omega]
    simp only [List.take_succ_cons]
    rw [List.take_length_add_append]
  have hcount := hf.count
  refine ⟨_, _, _, htake, ?_, ?_⟩
  · have : (f.zeroTail k).records.length = f.records.length := by rw [hz, hrs]; simp
    rw [this]
    simp
    omega
  · rw [hitems']
    refine begins_enc hC us _ _ _ hfits ⟨?_, ?_, trivial⟩
    · intro h0
      have := congrArg List.length h0
      simp [hh] at this
      omega
    · rw [List.take_of_length_le (by simp)]
      unfold zeroTail
      congr 2
      simp [hh]
      omega

/-- **C81** (partial), `p1c`, exactly: of a file cut short a contribution is refused exactly if the file has no records, or 32 or more bytes
are missing. Missing for the full C81: up to 31 missing bytes are not noticed. -/
theorem C81_p1_exact_partial (par : Par) (b : Nat) (hb : 2 ≤ b) (rnd : Rand F) (f : P1File G1 G2) (hf : f.WF) (hp : 1 ≤ f.power.toNat)
    (n : Nat) (hn : n < (f.encode C).length) :
    (∃ hash out, contribute C par b rnd ((f.encode C).take n) = (.ok hash, out)) ↔ f.records ≠ [] ∧ (f.encode C).length - n < 32 := by
  constructor
  · rintro ⟨hash, out, h⟩
    obtain ⟨g, hg, -, x, y, body, he, hl, hbeg⟩ := (C80_p1c_exact hC par b hb rnd _).mp ⟨hash, out, h⟩
    rw [encode_items] at he hn ⊢
    obtain ⟨m, rfl⟩ : ∃ m, n = m + 1 + 1 + 1 := by
      rcases n with _ | _ | _ | m
      · simp at he
      · simp at he
      · simp at he
      · exact ⟨m, rfl⟩
    simp only [List.take_succ_cons, List.cons.injEq] at he
    obtain ⟨e1, rfl, rfl, rfl⟩ := he
    have hcount := hf.count
    have hlen : g.records.length = f.records.length := by
      rw [hl]
      simp
      omega
    have hkinds : g.items.map Item.kind = f.items.map Item.kind := by
      simp only [P1File.items, List.map_append, kinds_g1s, kinds_g2s, hf.tauG1, hg.tauG1, hf.alphaG1, hg.alphaG1, hf.betaG1, hg.betaG1,
        hf.tauG2, hg.tauG2, e1, kinds_records g.records f.records hlen]
      rfl
    simp only [List.length_cons] at hn ⊢
    obtain ⟨a1, h, a2⟩ := begins_cut hC f.items g.items 3 m hkinds (fitsAt_items f hf 3) (by omega) hbeg
    refine ⟨?_, by omega⟩
    intro h0
    simp [P1File.items, h0] at a2
  · rintro ⟨hne, hlt⟩
    have := C81_p1_readIn hC f hf hne ((f.encode C).length - n) hlt
    rw [show (f.encode C).length - ((f.encode C).length - n) = n by omega] at this
    exact (C80_p1c_exact hC par b hb rnd _).mpr ⟨_, P1File.zeroTail_wf hf (by omega), hp, this⟩

/-- **C81**, negation, `p1c`: a contribution to a file that has lost up to 31 bytes succeeds, and is the contribution to the file with zeros
instead of these bytes. -/
theorem C81_p1_unnoticed (par : Par) (b : Nat) (hb : 2 ≤ b) (rnd : Rand F) (f : P1File G1 G2) (hf : f.WF) (hp : 1 ≤ f.power.toNat)
    (hne : f.records ≠ []) (k : Nat) (hk : k < 32) :
    contribute C par b rnd ((f.encode C).take ((f.encode C).length - k)) = contribute C par b rnd ((f.zeroTail k).encode C) :=
  C80_p1c_same hC par b hb rnd _ (P1File.zeroTail_wf hf (by omega)) hp _ (C81_p1_readIn hC f hf hne k hk)

/-- **C81**, `p1c`: the contribution is lost: if the hash of the last record is the right one, then the file written is accepted by no
verifier, whatever it draws and against whatever starting file, unless all missing bytes were zeros. -/
theorem C81_p1_lost (par par' : Par) (pol : MsmPolicy) (b b' : Nat) (hb : 2 ≤ b) (hb' : 0 < b') (rnd : Rand F) (vr : VerifyRand F)
    (f : P1File G1 G2) (hf : f.WF) (hp : 1 ≤ f.power.toNat) (hc : f.records.length < 65535) (last : Contribution G1 G2)
    (hlast : f.records.getLast? = some last) (hsha : last.hash = C.sha (recordBody C last)) (k : Nat) (hk : k < 32) (tr : Option Bytes) :
    ∃ hash out, contribute C par b rnd ((f.encode C).take ((f.encode C).length - k)) = (.ok hash, out) ∧
      (verify C par' pol b' vr out tr = .ok () → (f.encode C).drop ((f.encode C).length - k) = List.replicate k 0) := by
  have hne : f.records ≠ [] := by rintro h; simp [h] at hlast
  have hwf := P1File.zeroTail_wf hf (k := k) (by omega)
  have hz : (f.zeroTail k).records = f.records.dropLast ++ [{ last with hash := zeroTail k last.hash }] := by
    simp [P1File.zeroTail, hlast]
  have hlen : (f.zeroTail k).records.length = f.records.length := by
    rw [hz]
    have : 0 < f.records.length := List.length_pos_iff.mpr hne
    simp
    omega
  obtain ⟨g, r, h1, hg, -, h2, -⟩ := C10_contribute_preserves_history hC par b hb rnd _ hwf hp (by rw [hlen]; exact hc)
  have h1' := h1 []
  rw [List.append_nil, ← C81_p1_unnoticed hC par b hb rnd f hf hp hne k hk] at h1'
  refine ⟨_, _, h1', fun hv => ?_⟩
  have := verify_bytes hC par' pol b' hb' vr g hg [] tr
  rw [List.append_nil] at this
  obtain ⟨prev, -, hch, -⟩ := this.mp hv
  have hs := chain_hashes hch { last with hash := zeroTail k last.hash } (by rw [h2, hz]; simp)
  have he : zeroTail k last.hash = last.hash := by
    rw [hsha] at hs ⊢
    exact hs
  have hl32 := hf.hash last (List.mem_of_getLast? hlast)
  have := zeroTail_eq (by omega) hl32 he
  rw [← this]
  have hrec : f.records = f.records.dropLast ++ [last] := by
    obtain ⟨h', e⟩ := List.getLast?_eq_some_iff.mp hlast
    rw [e]; simp
  have henc : f.encode C = ([f.power, UInt8.ofNat (f.records.length / 256), UInt8.ofNat (f.records.length % 256)] ++ f.params C
      ++ (f.records.dropLast.flatMap (recordBytes C) ++ recordBody C last)) ++ last.hash := by
    have : f.records.flatMap (recordBytes C) = f.records.dropLast.flatMap (recordBytes C) ++ recordBody C last ++ last.hash := by
      conv_lhs => rw [hrec]
      simp [recordBytes]
    simp only [P1File.encode, this, List.append_assoc]
  rw [henc]
  generalize [f.power, UInt8.ofNat (f.records.length / 256), UInt8.ofNat (f.records.length % 256)] ++ f.params C
      ++ (f.records.dropLast.flatMap (recordBytes C) ++ recordBody C last) = xs
  rw [List.length_append, hl32, show xs.length + 32 - k = xs.length + (32 - k) by omega, List.drop_length_add_append]

end phase1

section phase2
open Phase2
open Phase1 (wrap64)
variable {F G1 G2 GT : Type} [Field F] [AddCommGroup G1] [Module F G1] [AddCommGroup G2]
  [Module F G2] [AddCommGroup GT] [Module F GT] [DecidableEq G1] [DecidableEq G2] [DecidableEq GT]
variable {C : Curve F G1 G2 GT} (hC : C.Lawful) {H : HeaderCodec} (hH : H.Lawful)

theorem P2File.zeroTail_count (f : P2File G1 G2) (k : Nat) : (f.zeroTail k).records.length = f.records.length := by
  cases h : f.records.getLast? with
  | none => rw [List.getLast?_eq_none_iff] at h; simp [P2File.zeroTail, h]
  | some r =>
    have : 0 < f.records.length := by
      cases hr : f.records with
      | nil => simp [hr] at h
      | cons => simp
    simp [P2File.zeroTail, h]
    omega

theorem P2File.zeroTail_header (f : P2File G1 G2) (k : Nat) : (f.zeroTail k).header = f.header := by
  simp only [P2File.header, f.zeroTail_count k]
  rfl

theorem P2File.zeroTail_wf {f : P2File G1 G2} (hf : f.WF) {k : Nat} (hk : k ≤ 32) : (f.zeroTail k).WF := by
  refine ⟨hf.wires, hf.pub, hf.privateCommitted, hf.constraints, hf.domain, hf.witness, hf.domain_pos, hf.z, hf.pkk,
    by rw [f.zeroTail_count k]; exact hf.count, ?_⟩
  intro r hr
  simp only [P2File.zeroTail, List.mem_append, Option.mem_toList, Option.mem_def, Option.map_eq_some_iff] at hr
  rcases hr with hr | ⟨q, hq, rfl⟩
  · exact hf.hash r (List.mem_of_mem_dropLast hr)
  · exact ZkSetup.zeroTail_length hk (hf.hash q (List.mem_of_getLast? hq))

theorem P2File.zeroTail_noStraddle {f : P2File G1 G2} (hs : f.NoStraddle H) (k : Nat) : (f.zeroTail k).NoStraddle H := by
  intro j hj
  rw [f.zeroTail_count k] at hj
  have := hs j hj
  unfold P2File.hashPos at this ⊢
  rw [f.zeroTail_header k]
  exact this

theorem fitsAt_items2 (f : P2File G1 G2) (hf : f.WF) (hs : f.NoStraddle H) : FitsAt inBuffer (H.enc f.header).length f.items := by
  simp only [P2File.items, P2File.paramItems, List.append_assoc]
  refine fitsAt_g1s f.z _ _ (fitsAt_g1s f.pkk _ _ (fitsAt_records2 f.records _ hf.hash fun j hj => ?_))
  have := hs j hj
  unfold P2File.hashPos at this
  unfold inBuffer
  omega

theorem fitsAt_dropLast {room : Nat → Nat} (us : List (Item G1 G2)) (t : Item G1 G2) : ∀ pos, FitsAt room pos (us ++ [t]) → FitsAt room pos us := by
  induction us with
  | nil => intros; trivial
  | cons u us ih =>
    intro pos h
    cases u with
    | g1 p => exact ih _ h
    | g2 p => exact ih _ h
    | hash x => exact ⟨h.1, h.2.1, ih _ h.2.2⟩

theorem encode_items2 (f : P2File G1 G2) : f.encode C H = H.enc f.header ++ f.items.flatMap (Item.enc C) := by
  rw [enc_items2]
  simp [P2File.encode]

include hC

/-- the position after items that are written completely -/
theorem fitsAt_last {room : Nat → Nat} (us : List (Item G1 G2)) (x : Bytes) : ∀ pos, FitsAt room pos (us ++ [.hash x]) →
    room (pos + (us.flatMap (Item.enc C)).length) = 32 := by
  induction us with
  | nil => intro pos h; simpa using h.1
  | cons u us ih =>
    intro pos h
    rw [List.flatMap_cons, List.length_append, ← Nat.add_assoc]
    cases u with
    | g1 p =>
      have hl : (Item.enc C (.g1 p : Item G1 G2)).length = 32 := by simp [Item.enc, hC.codec1.bytes_length, hC.size1]
      rw [hl]
      exact ih _ h
    | g2 p =>
      have hl : (Item.enc C (.g2 p : Item G1 G2)).length = 64 := by simp [Item.enc, hC.codec2.bytes_length, hC.size2]
      rw [hl]
      exact ih _ h
    | hash y =>
      have hl : (Item.enc C (.hash y : Item G1 G2)).length = 32 := h.2.1
      rw [hl]
      exact ih _ h.2.2

include hH

/-- **C81**, `p2c`: in a file that has lost up to 31 bytes, the file with zeros instead of these bytes is read. -/
theorem C81_p2_readIn (f : P2File G1 G2) (hf : f.WF) (hs : f.NoStraddle H) (hne : f.records ≠ []) (k : Nat) (hk : k < 32) :
    (f.zeroTail k).ReadIn C H f.header ((f.encode C H).take ((f.encode C H).length - k)) := by
  obtain ⟨rs, r, hrs⟩ : ∃ rs r, f.records = rs ++ [r] := ⟨_, _, (List.dropLast_append_getLast hne).symm⟩
  let us : List (Item G1 G2) := f.paramItems ++ rs.flatMap record2Items ++ (record2Items r).dropLast
  have hitems : f.items = us ++ [.hash r.hash] := by
    simp only [P2File.items, us, hrs, List.flatMap_append, List.append_assoc]
    simp [record2Items, keyItems]
  have hz : (f.zeroTail k).records = rs ++ [{ r with hash := zeroTail k r.hash }] := by
    simp [P2File.zeroTail, hrs]
  have hitems' : (f.zeroTail k).items = us ++ [.hash (zeroTail k r.hash)] := by
    have : (f.zeroTail k).paramItems = f.paramItems := rfl
    simp only [P2File.items, us, hz, List.flatMap_append, List.append_assoc, this]
    simp [record2Items, keyItems]
  have hh : r.hash.length = 32 := hf.hash r (by rw [hrs]; simp)
  have hfits := fitsAt_items2 f hf hs
  rw [hitems] at hfits
  have hroom := fitsAt_last hC us _ _ hfits
  have henc := encode_items2 (C := C) (H := H) f
  rw [hitems, List.flatMap_append] at henc
  simp only [List.flatMap_cons, List.flatMap_nil, List.append_nil, Item.enc] at henc
  have htake : (f.encode C H).take ((f.encode C H).length - k)
      = H.enc f.header ++ (us.flatMap (Item.enc C) ++ r.hash.take (32 - k)) := by
    rw [henc]
    simp only [List.length_append, hh]
    rw [show (H.enc f.header).length + ((us.flatMap (Item.enc C)).length + 32) - k
      = (H.enc f.header).length + ((us.flatMap (Item.enc C)).length + (32 - k)) by omega, List.take_length_add_append,
      List.take_length_add_append]
  have hd := hH.dec_enc f.header (P2File.header_inRange hC hH hf) 4096 0 (us.flatMap (Item.enc C) ++ r.hash.take (32 - k))
  rw [Nat.zero_add] at hd
  rw [htake]
  refine ⟨_, hd, ?_, ?_, ?_, ?_⟩
  · have := hf.z
    have := hf.domain_pos
    simp only [P2File.header, P2File.zeroTail]
    omega
  · simp [P2File.header, hf.pkk, P2File.zeroTail]
  · rw [f.zeroTail_count k]
    simp [P2File.header]
  · rw [hitems']
    refine begins_enc hC us _ _ _ (fitsAt_dropLast us _ _ hfits) ⟨?_, ?_, trivial⟩
    · intro h0
      have := congrArg List.length h0
      simp [hh] at this
      omega
    · rw [hroom, List.take_of_length_le (by simp)]
      unfold zeroTail
      congr 2
      simp [hh]
      omega

/-- **C81** (partial), `p2c`, exactly: of a file cut short a contribution is refused exactly if the file has no records, or 32 or more bytes
are missing. Missing for the full C81: up to 31 missing bytes are not noticed. -/
theorem C81_p2_exact_partial (par : Par) (b : Nat) (hb : 0 < b) (rnd : Rand F) (f : P2File G1 G2) (hf : f.WF) (hs : f.NoStraddle H)
    (hlen : (f.encode C H).length < 2 ^ 63) (n : Nat) (hn : n < (f.encode C H).length) :
    (∃ hash out, Phase2.contribute C H par b rnd ((f.encode C H).take n) = (.ok hash, out)) ↔
      f.records ≠ [] ∧ (f.encode C H).length - n < 32 := by
  have hshort : ((f.encode C H).take n).length < 2 ^ 63 := by rw [List.length_take]; omega
  constructor
  · intro h
    obtain ⟨g, h0, r, hd, hz, hk, hc, hbeg⟩ := (C80_p2c_exact hC hH par b hb rnd _ hshort).mp h
    -- the header is the one of the file
    obtain ⟨used, hu, hall⟩ := hH.dec_local _ _ _ hd
    simp only [Rd.buffered] at hu
    have hfull : f.encode C H = used ++ (r.rest ++ (f.encode C H).drop n) := by
      rw [← List.append_assoc, ← hu, List.take_append_drop]
    have e1 := hall 4096 0 (r.rest ++ (f.encode C H).drop n)
    rw [← hfull, encode_items2, hH.dec_enc f.header (P2File.header_inRange hC hH hf)] at e1
    simp only [Prod.mk.injEq, Except.ok.injEq, Rd.mk.injEq, true_and, Nat.zero_add] at e1
    obtain ⟨rfl, e2, e3⟩ := e1
    have e4 := hall 4096 0 r.rest
    rw [← hu] at e4
    unfold Rd.buffered at hd
    rw [hd] at e4
    simp only [Prod.mk.injEq, true_and] at e4
    rw [encode_items2] at hn hu hlen ⊢
    have hused : used.length = (H.enc f.header).length := e2.symm
    have hpos : r.pos = (H.enc f.header).length := by rw [e4, Nat.zero_add, hused]
    have hnl : (H.enc f.header).length ≤ n := by
      have := congrArg List.length hu
      simp only [List.length_take, List.length_append] at this
      omega
    obtain ⟨m, rfl⟩ : ∃ m, n = (H.enc f.header).length + m := ⟨n - (H.enc f.header).length, by omega⟩
    rw [List.take_length_add_append] at hu
    obtain ⟨-, hrest⟩ := List.append_inj hu hused.symm
    rw [hpos, ← hrest] at hbeg
    have hzl : g.z.length = f.z.length := by
      have := hf.z
      have := hf.domain_pos
      simp only [P2File.header] at hz
      omega
    have hkl : g.pkk.length = f.pkk.length := by
      have := hf.pkk
      simp only [P2File.header] at hk
      omega
    have hrl : g.records.length = f.records.length := by simpa [P2File.header] using hc
    have hkinds : g.items.map Item.kind = f.items.map Item.kind := by
      simp only [P2File.items, P2File.paramItems, List.map_append, kinds_g1s, hzl, hkl, kinds_records2 g.records f.records hrl]
      rfl
    rw [List.length_append] at hn ⊢
    obtain ⟨a1, h, a2⟩ := begins_cut hC f.items g.items _ m hkinds (fitsAt_items2 f hf hs) (by omega) hbeg
    refine ⟨?_, by omega⟩
    intro h0
    simp only [P2File.items, P2File.paramItems, h0, List.flatMap_nil, List.append_nil] at a2
    have := List.mem_of_getLast? a2
    simp at this
  · rintro ⟨hne, hlt⟩
    have := C81_p2_readIn hC hH f hf hs hne ((f.encode C H).length - n) hlt
    rw [show (f.encode C H).length - ((f.encode C H).length - n) = n by omega] at this
    exact (C80_p2c_exact hC hH par b hb rnd _ hshort).mpr ⟨_, _, this⟩

/-- **C81**, negation, `p2c`: a contribution to a file that has lost up to 31 bytes succeeds, and is the contribution to the file with zeros
instead of these bytes. -/
theorem C81_p2_unnoticed (par : Par) (b : Nat) (hb : 0 < b) (rnd : Rand F) (f : P2File G1 G2) (hf : f.WF) (hs : f.NoStraddle H)
    (hne : f.records ≠ []) (k : Nat) (hk : k < 32) :
    Phase2.contribute C H par b rnd ((f.encode C H).take ((f.encode C H).length - k))
      = (.ok (lastHash2 ((f.zeroTail k).contribute C rnd).records), ((f.zeroTail k).contribute C rnd).encode C H) := by
  have h1 := C80_p2c_writes hC hH par b hb rnd _ _ _ (C81_p2_readIn hC hH f hf hs hne k hk)
  have h2 := contribute2_spec hC hH par b hb rnd _ (P2File.zeroTail_wf hf (by omega)) (P2File.zeroTail_noStraddle hs k) []
  rw [List.append_nil] at h2
  have hw := P2File.zeroTail_wf hf (k := k) (by omega)
  have h3 := C80_p2c_writes hC hH par b hb rnd _ _ _ (C80_p2_written hC hH _ hw _
    (C72_p2_compressed hC H _ hw (P2File.zeroTail_noStraddle hs k) []))
  rw [List.append_nil, f.zeroTail_header k] at h3
  rw [h1, ← h3, h2]

/-- **C81**, `p2c`: the contribution is lost: if the hash of the last record is the right one, then the file written is accepted by no
verifier, whatever it draws and against whatever initial file, unless all missing bytes were zeros. -/
theorem C81_p2_lost (par par' : Par) (b b' : Nat) (hb : 0 < b) (hb' : 0 < b') (rnd : Rand F) (vr : VerifyRand F)
    (f o : P2File G1 G2) (hf : f.WF) (ho : o.WF) (hs : f.NoStraddle H) (hs' : (f.contribute C rnd).NoStraddle H)
    (hc : f.records.length + 1 < 2 ^ 63 - 1) (last : Contribution G1 G2) (hlast : f.records.getLast? = some last)
    (hsha : last.hash = C.sha (record2Body C last)) (k : Nat) (hk : k < 32) (junk : Bytes) :
    ∃ hash out, Phase2.contribute C H par b rnd ((f.encode C H).take ((f.encode C H).length - k)) = (.ok hash, out) ∧
      (Phase2.verify C H par' b' vr out (o.encode C H ++ junk) = .ok () →
        (f.encode C H).drop ((f.encode C H).length - k) = List.replicate k 0) := by
  have hne : f.records ≠ [] := by rintro h; simp [h] at hlast
  refine ⟨_, _, C81_p2_unnoticed hC hH par b hb rnd f hf hs hne k hk, fun hv => ?_⟩
  have hwf := P2File.zeroTail_wf hf (k := k) (by omega)
  have hz : (f.zeroTail k).records = f.records.dropLast ++ [{ last with hash := zeroTail k last.hash }] := by
    simp [P2File.zeroTail, hlast]
  have hs2 : ((f.zeroTail k).contribute C rnd).NoStraddle H := by
    have hcount : ((f.zeroTail k).contribute C rnd).records.length = (f.contribute C rnd).records.length := by
      simp [P2File.contribute, f.zeroTail_count k]
    have hhead : ((f.zeroTail k).contribute C rnd).header = (f.contribute C rnd).header := by
      simp only [P2File.header, hcount]
      rfl
    intro j hj
    rw [hcount] at hj
    have := hs' j hj
    unfold P2File.hashPos at this ⊢
    rw [hhead]
    exact this
  have := verify2_iff hC hH par' b' hb' vr _ o (contribute2_wf hC _ hwf rnd (by rw [f.zeroTail_count k]; exact hc)) ho hs2 [] junk
  rw [List.append_nil] at this
  obtain ⟨-, -, -, -, -, ⟨xs, hch⟩, -⟩ := this.mp hv
  have hs := chain2_hashes _ _ _ _ hch { last with hash := zeroTail k last.hash } (by simp [P2File.contribute, hz])
  have he : zeroTail k last.hash = last.hash := by
    rw [hsha] at hs ⊢
    exact hs
  have hl32 := hf.hash last (List.mem_of_getLast? hlast)
  have := zeroTail_eq (by omega) hl32 he
  rw [← this]
  have hrec : f.records = f.records.dropLast ++ [last] := by
    obtain ⟨h', e⟩ := List.getLast?_eq_some_iff.mp hlast
    rw [e]; simp
  have henc : f.encode C H = (H.enc f.header ++ f.params C ++ (f.records.dropLast.flatMap (record2Bytes C) ++ record2Body C last)) ++ last.hash := by
    have : f.records.flatMap (record2Bytes C) = f.records.dropLast.flatMap (record2Bytes C) ++ record2Body C last ++ last.hash := by
      conv_lhs => rw [hrec]
      simp [record2Bytes]
    simp only [P2File.encode, this, List.append_assoc]
  rw [henc]
  generalize H.enc f.header ++ f.params C ++ (f.records.dropLast.flatMap (record2Bytes C) ++ record2Body C last) = ys
  rw [List.length_append, hl32, show ys.length + 32 - k = ys.length + (32 - k) by omega, List.drop_length_add_append]

end phase2

/-! ### concrete cases -/

-- one byte missing
example : Phase1.contribute Toy.curve Toy.par Phase1.batchSize Toy.rnd
      ((Toy.honest.encode Toy.curve).take ((Toy.honest.encode Toy.curve).length - 1))
    = Phase1.contribute Toy.curve Toy.par Phase1.batchSize Toy.rnd ((Toy.honest.zeroTail 1).encode Toy.curve) :=
  C81_p1_unnoticed Toy.lawful Toy.par Phase1.batchSize (by decide) Toy.rnd Toy.honest Toy.honest_wf (by decide +kernel) (by decide +kernel)
    1 (by decide)

-- 32 bytes missing
example : ¬ ∃ hash out, Phase1.contribute Toy.curve Toy.par Phase1.batchSize Toy.rnd
    ((Toy.honest.encode Toy.curve).take ((Toy.honest.encode Toy.curve).length - 32)) = (.ok hash, out) := by
  have hl : 32 < (Toy.honest.encode Toy.curve).length := by decide +kernel
  rw [C81_p1_exact_partial Toy.lawful Toy.par Phase1.batchSize (by decide) Toy.rnd Toy.honest Toy.honest_wf (by decide +kernel) _ (by omega)]
  omega

theorem Toy.honest_sha : (Toy.honest.records.getLastD Phase1.Contribution.zero).hash
    = Toy.curve.sha (recordBody Toy.curve (Toy.honest.records.getLastD Phase1.Contribution.zero)) := by decide +kernel

example (vr : Phase1.VerifyRand Toy.K) := C81_p1_lost Toy.lawful Toy.par Toy.par .strict Phase1.batchSize 2 (by decide) (by decide) Toy.rnd vr
  Toy.honest Toy.honest_wf (by decide +kernel) (by decide +kernel) (Toy.honest.records.getLastD Phase1.Contribution.zero) (by decide +kernel)
  Toy.honest_sha 5 (by decide) none

-- the bytes lost are not all zero
example : (Toy.honest.encode Toy.curve).drop ((Toy.honest.encode Toy.curve).length - 31) ≠ List.replicate 31 0 := by decide +kernel

example (rnd : Phase2.Rand Toy.K) := C81_p2_unnoticed Toy.lawful Gob.lawful Toy.par Phase1.batchSize (by decide) rnd Toy.p2final Toy.p2final_wf
  Toy.p2final_noStraddle (by decide +kernel) 3 (by decide)

example : ¬ ∃ hash out, Phase2.contribute Toy.curve Gob.headerCodec Toy.par Phase1.batchSize Toy.p2rnd
    ((Toy.p2final.encode Toy.curve Gob.headerCodec).take ((Toy.p2final.encode Toy.curve Gob.headerCodec).length - 40)) = (.ok hash, out) := by
  have hl : 40 < (Toy.p2final.encode Toy.curve Gob.headerCodec).length := by decide +kernel
  have hl' : (Toy.p2final.encode Toy.curve Gob.headerCodec).length ≤ 10000 := by decide +kernel
  rw [C81_p2_exact_partial Toy.lawful Gob.lawful Toy.par Phase1.batchSize (by decide) Toy.p2rnd Toy.p2final Toy.p2final_wf
    Toy.p2final_noStraddle (by omega) _ (by omega)]
  omega

example (vr : Phase2.VerifyRand Toy.K) := C81_p2_lost Toy.lawful Gob.lawful Toy.par Toy.par Phase1.batchSize 2 (by decide) (by decide)
  Toy.p2rnd vr Toy.p2final Toy.p2 Toy.p2final_wf Toy.p2_wf Toy.p2final_noStraddle (by decide +kernel) (by decide +kernel)
  (Toy.p2final.records.getLastD Phase2.Contribution.zero) (by decide +kernel) (by decide +kernel) 7 (by decide) [1]

end ZkSetup
