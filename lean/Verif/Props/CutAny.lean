import Verif.Spec.CutAny
import Verif.Proofs.CutAny
import Verif.Props.CutContribute
/-
C88: cutting any bytes short.
-/
set_option linter.unusedSectionVars false

namespace ZkSetup

open Encodings

theorem HashAt.length {room q : Nat} {input x : Bytes} (hr : room ≤ 32) (h : HashAt room input q x) : x.length = 32 := by
  rw [h.2]
  simp
  omega

/-- replacing bytes by zeros changes nothing exactly if they were zeros -/
theorem zeroTail_eq_iff {x : Bytes} (hx : x.length = 32) (k : Nat) : zeroTail (32 - k) x = x ↔ ZeroFrom k x := by
  unfold zeroTail ZeroFrom
  by_cases hk : k ≤ 32
  · rw [show 32 - (32 - k) = k by omega]
    conv_lhs => rhs; rw [← List.take_append_drop k x]
    rw [List.append_cancel_left_eq]
    exact eq_comm
  · rw [show 32 - k = 0 by omega, List.drop_of_length_le (by omega)]
    simp [List.take_of_length_le (show x.length ≤ 32 by omega)]

section phase1
open Phase1
variable {F G1 G2 GT : Type} [Field F] [AddCommGroup G1] [Module F G1] [AddCommGroup G2]
  [Module F G2] [AddCommGroup GT] [Module F GT] [DecidableEq G1] [DecidableEq G2] [DecidableEq GT]
variable {C : Curve F G1 G2 GT} (hC : C.Lawful)

/-- the last hash ends the items -/
theorem items_last (f : P1File G1 G2) (last : Contribution G1 G2) (hlast : f.records.getLast? = some last) :
    ∃ us : List (Item G1 G2), f.items = us ++ [.hash last.hash] ∧ ∀ k, (f.zeroTail k).items = us ++ [.hash (zeroTail k last.hash)] := by
  obtain ⟨rs, hrs⟩ := List.getLast?_eq_some_iff.mp hlast
  refine ⟨f.tauG1.map .g1 ++ f.alphaG1.map .g1 ++ f.betaG1.map .g1 ++ f.tauG2.map .g2 ++ [.g2 f.betaG2]
    ++ rs.flatMap recordItems ++ (recordItems last).dropLast, ?_, fun k => ?_⟩
  · simp only [P1File.items, hrs, List.flatMap_append, List.append_assoc]
    simp [recordItems, keyItems]
  · have hz : (f.zeroTail k).records = rs ++ [{ last with hash := zeroTail k last.hash }] := by
      simp [P1File.zeroTail, hrs]
    simp only [P1File.items, hz, List.flatMap_append, List.append_assoc]
    simp [recordItems, keyItems, P1File.zeroTail]

theorem P1File.zeroTail_count (f : P1File G1 G2) (k : Nat) : (f.zeroTail k).records.length = f.records.length := by
  cases h : f.records.getLast? with
  | none => rw [List.getLast?_eq_none_iff] at h; simp [P1File.zeroTail, h]
  | some r =>
    have : 0 < f.records.length := by
      cases hr : f.records with
      | nil => simp [hr] at h
      | cons => simp
    simp [P1File.zeroTail, h]
    omega

/-- files of the same power with as many records have items of the same kinds -/
theorem kinds_items {f g : P1File G1 G2} (hf : f.WF) (hg : g.WF) (hp : g.power = f.power) (hl : g.records.length = f.records.length) :
    g.items.map Item.kind = f.items.map Item.kind := by
  simp only [P1File.items, List.map_append, kinds_g1s, kinds_g2s, hf.tauG1, hg.tauG1, hf.alphaG1, hg.alphaG1, hf.betaG1, hg.betaG1,
    hf.tauG2, hg.tauG2, hp, kinds_records g.records f.records hl]
  rfl

/-- what is read in a prefix has the same header -/
theorem prefix_header {f g : P1File G1 G2} (hf : f.WF) (hg : g.WF) {x y : UInt8} {body : Bytes} {n : Nat}
    (hl : f.records.length = 256 * x.toNat + y.toNat) (h : g.ReadIn C ((f.power :: x :: y :: body).take n)) :
    3 ≤ n ∧ g.items.map Item.kind = f.items.map Item.kind ∧ Begins C (fun _ => 32) 3 g.items (body.take (n - 3)) := by
  obtain ⟨x', y', body', he, hl', hb⟩ := h
  obtain ⟨m, rfl⟩ : ∃ m, n = m + 1 + 1 + 1 := by
    rcases n with _ | _ | _ | m
    · simp at he
    · simp at he
    · simp at he
    · exact ⟨m, rfl⟩
  simp only [List.take_succ_cons, List.cons.injEq] at he
  obtain ⟨e1, rfl, rfl, rfl⟩ := he
  exact ⟨by omega, kinds_items hf hg e1.symm (by omega), hb⟩

include hC

/-- **C88**, `p1c`, what is read in a prefix: for bytes in which the well-formed file `f` with records is read there is a place `q`, where
its last hash stands: a file is read in the first `n` bytes exactly if `q < n`, and it is `f` with zeros instead of the missing bytes of its
last hash. -/
theorem C88_p1_readIn (f : P1File G1 G2) (hf : f.WF) (last : Contribution G1 G2) (hlast : f.records.getLast? = some last) (input : Bytes)
    (hr : f.ReadIn C input) : ∃ q, HashAt 32 input q last.hash ∧
      ∀ n, (q < n → (f.zeroTail (32 - (n - q))).ReadIn C (input.take n)) ∧ ∀ g : P1File G1 G2, g.WF → g.ReadIn C (input.take n) → q < n := by
  obtain ⟨x, y, body, rfl, hl, hb⟩ := hr
  obtain ⟨us, hus, hus'⟩ := items_last f last hlast
  rw [hus] at hb
  obtain ⟨q, hq, hx, hall⟩ := begins_prefix_hash hC (fun _ => ⟨by omega, le_refl _⟩) last.hash us 3 body hb
  refine ⟨q + 3, ⟨by simp; omega, ?_⟩, fun n => ⟨fun hn => ?_, fun g hg hr => ?_⟩⟩
  · rw [hx]
    simp only [List.drop_succ_cons, List.length_cons]
    congr 2
    omega
  · obtain ⟨m, rfl⟩ : ∃ m, n = m + 1 + 1 + 1 := ⟨n - 3, by omega⟩
    refine ⟨x, y, body.take m, by simp [P1File.zeroTail], by rw [f.zeroTail_count]; exact hl, ?_⟩
    rw [hus', show m + 1 + 1 + 1 - (q + 3) = m - q by omega]
    exact (hall m).1 (by omega)
  · obtain ⟨h3, hk, hb'⟩ := prefix_header hf hg hl hr
    rw [hus] at hk
    have := (hall _).2 g.items hk hb'
    omega

/-- **C88**, `p1c`, a file without records: it is read in a prefix exactly if that goes up to the end of its parameters. -/
theorem C88_p1_readIn_none (f : P1File G1 G2) (hf : f.WF) (hnil : f.records = []) (input : Bytes) (hr : f.ReadIn C input) :
    ∃ q, q ≤ input.length ∧
      ∀ n, (q ≤ n → f.ReadIn C (input.take n)) ∧ ∀ g : P1File G1 G2, g.WF → g.ReadIn C (input.take n) → q ≤ n := by
  obtain ⟨x, y, body, rfl, hl, hb⟩ := hr
  have hno : ∀ h, Item.hash h ∉ f.items := by
    intro h
    simp [P1File.items, hnil]
  obtain ⟨q, hq, hall⟩ := begins_prefix_points hC f.items 3 body hno hb
  refine ⟨q + 3, by simp; omega, fun n => ⟨fun hn => ?_, fun g hg hr => ?_⟩⟩
  · obtain ⟨m, rfl⟩ : ∃ m, n = m + 1 + 1 + 1 := ⟨n - 3, by omega⟩
    exact ⟨x, y, body.take m, by simp, hl, (hall m).1 (by omega)⟩
  · obtain ⟨h3, hk, hb'⟩ := prefix_header hf hg hl hr
    have := (hall _).2 g.items hk hb'
    omega

/-- contributions to files with different last hashes differ -/
theorem contribute_last_inj (par par' : Par) (b b' : Nat) (hb : 2 ≤ b) (hb' : 2 ≤ b') (rnd rnd' : Rand F) (f g : P1File G1 G2)
    (hf : f.WF) (hg : g.WF) (hp : 1 ≤ f.power.toNat) (hp' : 1 ≤ g.power.toNat) (l l' : Contribution G1 G2)
    (hl : f.records.getLast? = some l) (hl' : g.records.getLast? = some l')
    (he : contribute C par b rnd (f.encode C) = contribute C par' b' rnd' (g.encode C)) : l.hash = l'.hash := by
  obtain ⟨t1, a1, b1, t2, h1, -⟩ := contribute_bytes hC par b hb rnd f hf hp
  obtain ⟨t1', a1', b1', t2', h2, -⟩ := contribute_bytes hC par' b' hb' rnd' g hg hp'
  have h1 := h1 []
  have h2 := h2 []
  rw [List.append_nil] at h1 h2
  rw [h1, h2, Prod.mk.injEq] at he
  have hlen : ∀ c : Contribution G1 G2, c.hash.length = 32 → (recordBytes C c).length = 640 := fun c hc => by
    simp [recordBytes, recordBody, keyBytes, hc, hC.codec1.bytes_length, hC.codec2.bytes_length, hC.size1, hC.size2]
  have he := List.append_inj_left' he.2 (by
    rw [hlen _ (by simp [newRecord, hC.sha_length]), hlen _ (by simp [newRecord, hC.sha_length])])
  obtain ⟨rs, hrs⟩ := List.getLast?_eq_some_iff.mp hl
  obtain ⟨rs', hrs'⟩ := List.getLast?_eq_some_iff.mp hl'
  rw [hrs, hrs'] at he
  simp only [List.flatMap_append, List.flatMap_cons, List.flatMap_nil, List.append_nil, recordBytes, ← List.append_assoc] at he
  exact List.append_inj_right' he (by
    rw [hf.hash l (List.mem_of_getLast? hl), hg.hash l' (List.mem_of_getLast? hl')])

/-- **C88**, `p1c`: for any bytes in which the well-formed file `f` with records is read, there is a place `q`, where its last hash stands,
such that a contribution to the first `n` bytes succeeds exactly if `q < n`. It is then the contribution to `f` with zeros instead of the
missing bytes of the last hash; and it is the contribution to the whole bytes exactly if the missing bytes of the hash are zeros. -/
theorem C88_p1c (f : P1File G1 G2) (hf : f.WF) (hp : 1 ≤ f.power.toNat) (last : Contribution G1 G2) (hlast : f.records.getLast? = some last)
    (input : Bytes) (hr : f.ReadIn C input) :
    ∃ q, HashAt 32 input q last.hash ∧ ∀ (par : Par) (b : Nat) (rnd : Rand F) (n : Nat), 2 ≤ b →
      ((∃ hash out, contribute C par b rnd (input.take n) = (.ok hash, out)) ↔ q < n) ∧
      (q < n → contribute C par b rnd (input.take n) = contribute C par b rnd ((f.zeroTail (32 - (n - q))).encode C) ∧
        (contribute C par b rnd (input.take n) = contribute C par b rnd input ↔ ZeroFrom (n - q) last.hash)) := by
  obtain ⟨q, hq, hall⟩ := C88_p1_readIn hC f hf last hlast input hr
  refine ⟨q, hq, fun par b rnd n hb => ⟨⟨?_, fun hn => ?_⟩, fun hn => ?_⟩⟩
  · rintro ⟨hash, out, h⟩
    obtain ⟨g, hg, -, hgr⟩ := (C80_p1c_exact hC par b hb rnd _).mp ⟨hash, out, h⟩
    exact (hall n).2 g hg hgr
  · exact (C80_p1c_exact hC par b hb rnd _).mpr ⟨_, P1File.zeroTail_wf hf (by omega), hp, (hall n).1 hn⟩
  · have hw := P1File.zeroTail_wf hf (k := 32 - (n - q)) (by omega)
    have hsame := C80_p1c_same hC par b hb rnd _ hw hp _ ((hall n).1 hn)
    refine ⟨hsame, ?_⟩
    have hl' : (f.zeroTail (32 - (n - q))).records.getLast? = some { last with hash := zeroTail (32 - (n - q)) last.hash } := by
      simp [P1File.zeroTail, hlast]
    rw [← zeroTail_eq_iff (hf.hash last (List.mem_of_getLast? hlast)), hsame, C80_p1c_same hC par b hb rnd f hf hp input hr]
    constructor
    · intro he
      exact contribute_last_inj hC par par b b hb hb rnd rnd _ _ hw hf hp hp _ _ hl' hlast he
    · intro he
      have : f.zeroTail (32 - (n - q)) = f := by
        obtain ⟨rs, hrs⟩ := List.getLast?_eq_some_iff.mp hlast
        unfold P1File.zeroTail
        rw [hlast]
        simp only [Option.map_some, Option.toList_some, he]
        obtain ⟨fp, ft, fa, fb, ft2, fb2, frs⟩ := f
        simp only at hrs
        simp [hrs]
      rw [this]

/-- **C88**, `p1c`, a file without records: a contribution to a prefix succeeds exactly if it goes up to the end of the parameters, and it is
then the contribution to the whole bytes. -/
theorem C88_p1c_none (f : P1File G1 G2) (hf : f.WF) (hp : 1 ≤ f.power.toNat) (hnil : f.records = []) (input : Bytes)
    (hr : f.ReadIn C input) : ∃ q, q ≤ input.length ∧ ∀ (par : Par) (b : Nat) (rnd : Rand F) (n : Nat), 2 ≤ b →
      ((∃ hash out, contribute C par b rnd (input.take n) = (.ok hash, out)) ↔ q ≤ n) ∧
      (q ≤ n → contribute C par b rnd (input.take n) = contribute C par b rnd input) := by
  obtain ⟨q, hq, hall⟩ := C88_p1_readIn_none hC f hf hnil input hr
  refine ⟨q, hq, fun par b rnd n hb => ⟨⟨?_, fun hn => ?_⟩, fun hn => ?_⟩⟩
  · rintro ⟨hash, out, h⟩
    obtain ⟨g, hg, -, hgr⟩ := (C80_p1c_exact hC par b hb rnd _).mp ⟨hash, out, h⟩
    exact (hall n).2 g hg hgr
  · exact (C80_p1c_exact hC par b hb rnd _).mpr ⟨_, hf, hp, (hall n).1 hn⟩
  · rw [C80_p1c_same hC par b hb rnd f hf hp _ ((hall n).1 hn), C80_p1c_same hC par b hb rnd f hf hp input hr]

end phase1

section phase2
open Phase2
open Phase1 (wrap64)
variable {F G1 G2 GT : Type} [Field F] [AddCommGroup G1] [Module F G1] [AddCommGroup G2]
  [Module F G2] [AddCommGroup GT] [Module F GT] [DecidableEq G1] [DecidableEq G2] [DecidableEq GT]
variable {C : Curve F G1 G2 GT} (hC : C.Lawful) {H : HeaderCodec} (hH : H.Lawful)

/-- the last hash ends the items -/
theorem record2Items_last (rs : List (Contribution G1 G2)) (last : Contribution G1 G2) (hlast : rs.getLast? = some last) :
    ∃ us : List (Item G1 G2), rs.flatMap record2Items = us ++ [.hash last.hash] ∧
      ∀ k, (rs.dropLast ++ [{ last with hash := zeroTail k last.hash }]).flatMap record2Items = us ++ [.hash (zeroTail k last.hash)] := by
  obtain ⟨rs, rfl⟩ := List.getLast?_eq_some_iff.mp hlast
  refine ⟨rs.flatMap record2Items ++ (record2Items last).dropLast, ?_, fun k => ?_⟩
  · simp [record2Items, keyItems]
  · simp [record2Items, keyItems]

theorem P2File.zeroTail_records (f : P2File G1 G2) (k : Nat) (last : Contribution G1 G2) (hlast : f.records.getLast? = some last) :
    (f.zeroTail k).records = f.records.dropLast ++ [{ last with hash := ZkSetup.zeroTail k last.hash }] := by
  simp [P2File.zeroTail, hlast]

theorem inBuffer_pos (p : Nat) : 0 < inBuffer p ∧ inBuffer p ≤ 32 := by
  unfold inBuffer
  have := Nat.mod_lt p (show 0 < 4096 by decide)
  omega

include hC hH

/-- **C88**, `p2c`, what is read in a prefix: for bytes in which `f` with records is read after the header `h` there is a place `q`, where its
last hash stands: something is read in the first `n` bytes exactly if `q < n`, and it is `f`, after the same header, with zeros instead of
the missing bytes of its last hash. -/
theorem C88_p2_readIn (f : P2File G1 G2) (h : Header) (last : Contribution G1 G2) (hlast : f.records.getLast? = some last) (input : Bytes)
    (hr : f.ReadIn C H h input) : ∃ q, HashAt (inBuffer q) input q last.hash ∧
      ∀ n, (q < n → (f.zeroTail (32 - (n - q))).ReadIn C H h (input.take n)) ∧
        ∀ (g : P2File G1 G2) (h' : Header), g.ReadIn C H h' (input.take n) → q < n := by
  obtain ⟨r, hd, hz, hk, hn, hb⟩ := hr
  obtain ⟨u, hu, rfl, hcut⟩ := header_shorter hH hd
  obtain ⟨us, hus, hus'⟩ := record2Items_last f.records last hlast
  simp only [P2File.items, hus, Rd.buffered, Rd.adv_pos, Rd.adv_rest, Nat.zero_add, ← List.append_assoc] at hb
  obtain ⟨q, hq, hx, hall⟩ := begins_prefix_hash hC inBuffer_pos last.hash _ _ _ hb
  rw [List.length_drop] at hq
  refine ⟨u + q, ⟨by omega, ?_⟩, fun n => ⟨fun hn' => ?_, fun g h' hg => ?_⟩⟩
  · rw [hx, List.drop_drop, List.length_drop, Nat.sub_sub]
  · refine ⟨_, (hcut n).1 (by omega), hz, hk, by rw [f.zeroTail_count]; exact hn, ?_⟩
    have hi : (f.zeroTail (32 - (n - (u + q)))).items = f.paramItems ++ us ++ [.hash (zeroTail (32 - (n - (u + q))) last.hash)] := by
      unfold P2File.items
      rw [f.zeroTail_records _ last hlast, hus', ← List.append_assoc]
      rfl
    rw [hi, show n - (u + q) = n - u - q by omega]
    simp only [Rd.buffered, Rd.cut, Rd.adv_pos, Rd.adv_rest, Nat.zero_add]
    exact (hall (n - u)).1 (by omega)
  · obtain ⟨r', hd', hz', hk', hn', hb'⟩ := hg
    have hun := (hcut n).2 _ _ hd'
    rw [(hcut n).1 hun, Prod.mk.injEq, Except.ok.injEq] at hd'
    obtain ⟨rfl, rfl⟩ := hd'
    simp only [Rd.buffered, Rd.cut, Rd.adv_pos, Rd.adv_rest, Nat.zero_add] at hb'
    have hkinds : g.items.map Item.kind = (f.paramItems ++ us ++ [Item.hash last.hash]).map Item.kind := by
      rw [List.append_assoc, ← hus]
      simp only [P2File.items, P2File.paramItems, List.map_append, kinds_g1s, show g.z.length = f.z.length by omega,
        show g.pkk.length = f.pkk.length by omega, kinds_records2 g.records f.records (hn'.trans hn.symm)]
      rfl
    have := (hall _).2 g.items hkinds hb'
    omega

/-- **C88**, `p2c`, without records: the parameters are read in a prefix exactly if it goes up to their end. -/
theorem C88_p2_readIn_none (f : P2File G1 G2) (h : Header) (hnil : f.records = []) (input : Bytes) (hr : f.ReadIn C H h input) :
    ∃ q, q ≤ input.length ∧ ∀ n, (q ≤ n → f.ReadIn C H h (input.take n)) ∧
        ∀ (g : P2File G1 G2) (h' : Header), g.ReadIn C H h' (input.take n) → q ≤ n := by
  obtain ⟨r, hd, hz, hk, hn, hb⟩ := hr
  obtain ⟨u, hu, rfl, hcut⟩ := header_shorter hH hd
  simp only [Rd.buffered, Rd.adv_pos, Rd.adv_rest, Nat.zero_add] at hb
  have hno : ∀ h, Item.hash h ∉ f.items := by
    intro h
    simp [P2File.items, P2File.paramItems, hnil]
  obtain ⟨q, hq, hall⟩ := begins_prefix_points hC f.items _ _ hno hb
  rw [List.length_drop] at hq
  refine ⟨u + q, by omega, fun n => ⟨fun hn' => ?_, fun g h' hg => ?_⟩⟩
  · refine ⟨_, (hcut n).1 (by omega), hz, hk, hn, ?_⟩
    simp only [Rd.buffered, Rd.cut, Rd.adv_pos, Rd.adv_rest, Nat.zero_add]
    exact (hall (n - u)).1 (by omega)
  · obtain ⟨r', hd', hz', hk', hn', hb'⟩ := hg
    have hun := (hcut n).2 _ _ hd'
    rw [(hcut n).1 hun, Prod.mk.injEq, Except.ok.injEq] at hd'
    obtain ⟨rfl, rfl⟩ := hd'
    simp only [Rd.buffered, Rd.cut, Rd.adv_pos, Rd.adv_rest, Nat.zero_add] at hb'
    have hkinds : g.items.map Item.kind = f.items.map Item.kind := by
      simp only [P2File.items, P2File.paramItems, List.map_append, kinds_g1s, show g.z.length = f.z.length by omega,
        show g.pkk.length = f.pkk.length by omega, kinds_records2 g.records f.records (hn'.trans hn.symm)]
      rfl
    have := (hall _).2 g.items hkinds hb'
    omega

/-- **C88**, `p2c`: for any bytes in which `f` with records is read after the header `h`, there is a place `q`, where its last hash stands,
such that a contribution to the first `n` bytes succeeds exactly if `q < n`. What is written is then what `f` gives with zeros instead of the
missing bytes of the last hash; and it is what the whole bytes give exactly if the missing bytes of the hash are zeros. A hash may lie
anywhere in the read buffer. -/
theorem C88_p2c (f : P2File G1 G2) (h : Header) (last : Contribution G1 G2) (hlast : f.records.getLast? = some last) (input : Bytes)
    (hl : input.length < 2 ^ 63) (hr : f.ReadIn C H h input) :
    ∃ q, HashAt (inBuffer q) input q last.hash ∧ ∀ (par : Par) (b : Nat) (rnd : Rand F) (n : Nat), 0 < b →
      ((∃ hash out, Phase2.contribute C H par b rnd (input.take n) = (.ok hash, out)) ↔ q < n) ∧
      (q < n → Phase2.contribute C H par b rnd (input.take n)
          = (.ok (lastHash2 ((f.zeroTail (32 - (n - q))).contribute C rnd).records),
            H.enc { h with contributions := wrap64 (h.contributions + 1) } ++ ((f.zeroTail (32 - (n - q))).contribute C rnd).params C
              ++ ((f.zeroTail (32 - (n - q))).contribute C rnd).records.flatMap (record2Bytes C)) ∧
        (Phase2.contribute C H par b rnd (input.take n) = Phase2.contribute C H par b rnd input ↔ ZeroFrom (n - q) last.hash)) := by
  obtain ⟨q, hq, hall⟩ := C88_p2_readIn hC hH f h last hlast input hr
  have hl32 := hq.length (inBuffer_pos q).2
  refine ⟨q, hq, fun par b rnd n hb => ?_⟩
  have hshort : (input.take n).length < 2 ^ 63 := by rw [List.length_take]; omega
  refine ⟨⟨fun hc => ?_, fun hn => ?_⟩, fun hn => ?_⟩
  · obtain ⟨g, h', hg⟩ := (C80_p2c_exact hC hH par b hb rnd _ hshort).mp hc
    exact (hall n).2 g h' hg
  · exact (C80_p2c_exact hC hH par b hb rnd _ hshort).mpr ⟨_, _, (hall n).1 hn⟩
  · have hw := C80_p2c_writes hC hH par b hb rnd _ _ _ ((hall n).1 hn)
    refine ⟨hw, ?_⟩
    rw [← zeroTail_eq_iff hl32, hw, C80_p2c_writes hC hH par b hb rnd f h input hr]
    obtain ⟨rs, hrs⟩ := List.getLast?_eq_some_iff.mp hlast
    constructor
    · intro he
      rw [Prod.mk.injEq] at he
      have he := he.2
      simp only [P2File.contribute, f.zeroTail_records _ last hlast, hrs, List.dropLast_concat, List.flatMap_append, List.flatMap_cons,
        List.flatMap_nil, List.append_nil, ← List.append_assoc] at he
      have hlen : ∀ c : Contribution G1 G2, c.hash.length = 32 → (record2Bytes C c).length = 192 := fun c hc => by
        simp [record2Bytes, record2Body, keyBytes, hc, hC.codec1.bytes_length, hC.codec2.bytes_length, hC.size1, hC.size2]
      have he := List.append_inj_left' he (by
        rw [hlen _ (by simp [newRecord2, hC.sha_length]), hlen _ (by simp [newRecord2, hC.sha_length])])
      simp only [record2Bytes, ← List.append_assoc] at he
      exact List.append_inj_right' he (by rw [zeroTail_length (by omega) hl32, hl32])
    · intro he
      have : f.zeroTail (32 - (n - q)) = f := by
        unfold P2File.zeroTail
        rw [hlast]
        simp only [Option.map_some, Option.toList_some, he]
        rw [show f.records.dropLast ++ [{ last with hash := last.hash }] = f.records by rw [hrs]; simp]
      rw [this]

/-- **C88**, `p2c`, without records: a contribution to a prefix succeeds exactly if it goes up to the end of the parameters, and writes then
what it writes for the whole bytes. -/
theorem C88_p2c_none (f : P2File G1 G2) (h : Header) (hnil : f.records = []) (input : Bytes) (hl : input.length < 2 ^ 63)
    (hr : f.ReadIn C H h input) : ∃ q, q ≤ input.length ∧ ∀ (par : Par) (b : Nat) (rnd : Rand F) (n : Nat), 0 < b →
      ((∃ hash out, Phase2.contribute C H par b rnd (input.take n) = (.ok hash, out)) ↔ q ≤ n) ∧
      (q ≤ n → Phase2.contribute C H par b rnd (input.take n) = Phase2.contribute C H par b rnd input) := by
  obtain ⟨q, hq, hall⟩ := C88_p2_readIn_none hC hH f h hnil input hr
  refine ⟨q, hq, fun par b rnd n hb => ?_⟩
  have hshort : (input.take n).length < 2 ^ 63 := by rw [List.length_take]; omega
  refine ⟨⟨fun hc => ?_, fun hn => ?_⟩, fun hn => ?_⟩
  · obtain ⟨g, h', hg⟩ := (C80_p2c_exact hC hH par b hb rnd _ hshort).mp hc
    exact (hall n).2 g h' hg
  · exact (C80_p2c_exact hC hH par b hb rnd _ hshort).mpr ⟨_, _, (hall n).1 hn⟩
  · rw [C80_p2c_writes hC hH par b hb rnd f h _ ((hall n).1 hn), C80_p2c_writes hC hH par b hb rnd f h input hr]

/-! ### `p2v` -/

omit hC in
/-- the place of the records in a prefix -/
theorem place_cut {input : Bytes} {h : Header} {d1 : G1} {d2 : G2} {rd : Rd} (p : RecordsPlace C H input h d1 d2 rd) :
    ∃ u, u ≤ input.length ∧ rd = (Rd.buffered 4096 input).adv u ∧
      ∀ n, (u ≤ n → RecordsPlace C H (input.take n) h d1 d2 (rd.cut (n - u))) ∧
        ∀ h' d1' d2' rd', RecordsPlace C H (input.take n) h' d1' d2' rd' → rd'.rest ≠ [] → u ≤ n := by
  obtain ⟨r1, r2, r3, a0, a1, a2, rfl⟩ := p
  obtain ⟨u0, l0, e0, c0⟩ := header_shorter hH a0
  obtain ⟨u1, l1, e1, c1⟩ := (CutsWell.decode C.c1).ok a1
  obtain ⟨u2, l2, e2, c2⟩ := (CutsWell.decode C.c2).ok a2
  obtain ⟨u3, l3, e3, c3⟩ := (CutsWell.decodeN C.c1 (h.domain - 1).toNat).left r3
  obtain ⟨u4, l4, e4, c4⟩ := (CutsWell.decodeN C.c1 h.witness.toNat).left (r3.adv u3)
  rw [e3, e4]
  have el : r1.rest.length = input.length - u0 := by rw [e0]; simp [Rd.buffered]
  have el2 : r2.rest.length = input.length - u0 - u1 := by rw [e1]; simp [el]
  have el3 : r3.rest.length = input.length - u0 - u1 - u2 := by rw [e2]; simp [el2]
  have el4 : (r3.adv u3).rest.length = input.length - u0 - u1 - u2 - u3 := by simp [el3]
  refine ⟨u0 + u1 + u2 + u3 + u4, by omega, by rw [e2, e1, e0]; simp only [Rd.adv_adv, Nat.add_assoc], fun n => ⟨fun hn => ?_, ?_⟩⟩
  · refine ⟨_, _, _, (c0 n).1 (by omega), (c1 _).1 (by omega), (c2 _).1 (by omega), ?_⟩
    rw [(c3 _).1 (by omega), (c4 _).1 (by omega)]
    simp only [Nat.sub_sub, Nat.add_assoc]
  · rintro h' d1' d2' rd' ⟨s1, s2, s3, b0, b1, b2, rfl⟩ hne
    have m0 := (c0 n).2 _ _ b0
    rw [(c0 n).1 m0, Prod.mk.injEq, Except.ok.injEq] at b0
    obtain ⟨rfl, rfl⟩ := b0
    have m1 := (c1 _).2 _ _ b1
    rw [(c1 _).1 m1, Prod.mk.injEq, Except.ok.injEq] at b1
    obtain ⟨rfl, rfl⟩ := b1
    have m2 := (c2 _).2 _ _ b2
    rw [(c2 _).1 m2, Prod.mk.injEq, Except.ok.injEq] at b2
    obtain ⟨rfl, rfl⟩ := b2
    have m3 := (c3 _).2 (fun h0 => hne ((CutsWell.decodeN C.c1 h.witness.toNat).empty h0))
    rw [(c3 _).1 m3] at hne
    have m4 := (c4 _).2 hne
    omega

omit hC in
/-- accepted bytes, cut after the place of the records: only the records matter -/
theorem AcceptedWith.cut {b : Nat} {vr : VerifyRand F} {input : Bytes} {o : P2File G1 G2} {h : Header} {d1 : G1} {d2 : G2}
    {rs : List (Contribution G1 G2)} (ha : AcceptedWith C H b vr input o h d1 d2 rs) {u : Nat}
    (hp : RecordsPlace C H input h d1 d2 ((Rd.buffered 4096 input).adv u)) {n : Nat} (hn : u ≤ n)
    (hrs : RecordsFrom C (((Rd.buffered 4096 input).adv u).cut (n - u)) rs) : AcceptedWith C H b vr (input.take n) o h d1 d2 rs := by
  obtain ⟨rd, hp', -, -⟩ := ha.place
  obtain ⟨-, -, -, rfl⟩ := hp.unique hp'
  obtain ⟨r1, r2, r3, r4, r5, k, k', a0, a1, a2, hne, hsh, hpair, cz, ck, hrec, hl, hch, hlast⟩ := ha
  have hr5 : r5 = (Rd.buffered 4096 input).adv u := by
    obtain ⟨s1, s2, s3, b0, b1, b2, b3⟩ := hp
    rw [a0, Prod.mk.injEq, Except.ok.injEq] at b0
    obtain ⟨-, rfl⟩ := b0
    rw [a1, Prod.mk.injEq, Except.ok.injEq] at b1
    obtain ⟨-, rfl⟩ := b1
    rw [a2, Prod.mk.injEq, Except.ok.injEq] at b2
    obtain ⟨-, rfl⟩ := b2
    rw [b3, ck.reader, cz.reader, hsh]
    simp only [P2File.header, Int.toNat_natCast]
    rw [show ((o.domain : Int) - 1).toNat = o.domain - 1 by omega]
  obtain ⟨u0, -, e0, c0⟩ := header_shorter hH a0
  obtain ⟨u1, -, e1, c1⟩ := (CutsWell.decode C.c1).ok a1
  obtain ⟨u2, -, e2, c2⟩ := (CutsWell.decode C.c2).ok a2
  obtain ⟨u3, e3, c3⟩ := cz.cut
  obtain ⟨u4, e4, c4⟩ := ck.cut
  have hu : u0 + u1 + u2 + u3 + u4 = u := by
    have := congrArg Rd.pos (hr5.symm.trans e4)
    rw [e3, e2, e1, e0] at this
    simp only [Rd.adv_pos, Rd.buffered] at this
    omega
  refine ⟨_, _, _, _, _, k, k', (c0 n).1 (by omega), (c1 _).1 (by omega), (c2 _).1 (by omega), hne, hsh, hpair, c3 _ (by omega),
    c4 _ (by omega), ?_, hl, hch, hlast⟩
  rw [show n - u0 - u1 - u2 - u3 - u4 = n - u by omega, hr5]
  exact hrs

/-- **C88**, `p2v`: for any bytes with records there is a place `q`, where the hash of the last record stands. If the first `n` bytes are
accepted, by whatever verifier and against whatever initial file, then `q < n`. And if the whole bytes are accepted, then the first `n` bytes
are accepted, with the same draw and initial file, exactly if `q < n` and the missing bytes of the last hash are zeros. A hash may lie
anywhere in the read buffer, and points of Z and PKK may be undecodable. -/
theorem C88_p2v (input : Bytes) (rs : List (Contribution G1 G2)) (last : Contribution G1 G2) (hlast : rs.getLast? = some last)
    (hrs : HasRecords C H input rs) :
    ∃ q, HashAt (inBuffer q) input q last.hash ∧
      ∀ (par : Par) (b : Nat) (vr : VerifyRand F) (o : P2File G1 G2) (junk : Bytes) (n : Nat), 0 < b → o.WF →
        (Phase2.verify C H par b vr (input.take n) (o.encode C H ++ junk) = .ok () → q < n) ∧
        (Phase2.verify C H par b vr input (o.encode C H ++ junk) = .ok () →
          (Phase2.verify C H par b vr (input.take n) (o.encode C H ++ junk) = .ok () ↔ q < n ∧ ZeroFrom (n - q) last.hash)) := by
  obtain ⟨h, d1, d2, rd, hp, hrec, hcount⟩ := hrs
  obtain ⟨u, hu, rfl, hcut⟩ := place_cut hH hp
  obtain ⟨us, hus, hus'⟩ := record2Items_last rs last hlast
  have hne : rs ≠ [] := by rintro rfl; simp at hlast
  have hb := (reads_iff_begins hC _ 4096 u (input.drop u)).mp (by simpa [Rd.buffered, Rd.adv] using reads_of_recordsFrom rs _ hrec)
  have hroom : roomOf 4096 = inBuffer := rfl
  rw [hus, hroom] at hb
  obtain ⟨q, hq, hx, hall⟩ := begins_prefix_hash hC inBuffer_pos last.hash us _ _ hb
  rw [List.length_drop] at hq
  have hat : HashAt (inBuffer (u + q)) input (u + q) last.hash :=
    ⟨by omega, by rw [hx, List.drop_drop, List.length_drop, Nat.sub_sub]⟩
  have hl32 := hat.length (inBuffer_pos _).2
  -- what is read in the prefix
  have hread : ∀ n, u + q < n → RecordsFrom C (((Rd.buffered 4096 input).adv u).cut (n - u))
      (rs.dropLast ++ [{ last with hash := zeroTail (32 - (n - (u + q))) last.hash }]) := by
    intro n hn
    refine recordsFrom_of_reads hC _ _ ?_
    have := (hall (n - u)).1 (by omega)
    rw [hus', show n - (u + q) = n - u - q by omega]
    rw [← hroom, ← reads_iff_begins hC] at this
    simpa [Rd.buffered, Rd.adv, Rd.cut] using this
  -- the place of the records in the prefix
  have hplace : ∀ (n : Nat) (b : Nat) (vr : VerifyRand F) (o : P2File G1 G2) (h' : Header) (e1 : G1) (e2 : G2) (rs' : List (Contribution G1 G2)),
      AcceptedWith C H b vr (input.take n) o h' e1 e2 rs' →
      u + q < n ∧ rs' = rs.dropLast ++ [{ last with hash := zeroTail (32 - (n - (u + q))) last.hash }] := by
    intro n b vr o h' e1 e2 rs' ha
    obtain ⟨rd', hp', hrec', hcount'⟩ := ha.place
    -- the same header, also if nothing else is the same
    have hh : h' = h := by
      obtain ⟨r1, r2, r3, a0, -⟩ := hp
      obtain ⟨s1, s2, s3, b0, -⟩ := hp'
      obtain ⟨u0, -, -, c0⟩ := header_shorter hH a0
      rw [(c0 n).1 ((c0 n).2 _ _ b0), Prod.mk.injEq, Except.ok.injEq] at b0
      exact b0.1.symm
    subst hh
    have hlen : rs'.length = rs.length := hcount'.trans hcount.symm
    have hrest : rd'.rest ≠ [] := by
      intro h0
      obtain ⟨cap, pos, rest⟩ := rd'
      simp only at h0
      subst h0
      have := begins_nil hC ((reads_iff_begins hC _ _ _ _).mp (reads_of_recordsFrom rs' _ hrec'))
      cases rs' with
      | nil => exact hne (List.length_eq_zero_iff.mp hlen.symm)
      | cons c cs => simp [record2Items] at this
    have hun := (hcut n).2 _ _ _ _ hp' hrest
    obtain ⟨-, -, -, rfl⟩ := ((hcut n).1 hun).unique hp'
    have hb' := (reads_iff_begins hC _ 4096 u ((input.drop u).take (n - u))).mp
      (by simpa [Rd.buffered, Rd.adv, Rd.cut] using reads_of_recordsFrom rs' _ hrec')
    have hlt := (hall (n - u)).2 _ (by rw [kinds_records2 rs' rs hlen, hus]) hb'
    have hlt' : u + q < n := by omega
    refine ⟨hlt', recordsFrom_unique hC _ _ _ hrec' (hread n hlt') ?_⟩
    obtain ⟨rs0, rfl⟩ := List.getLast?_eq_some_iff.mp hlast
    simpa using hlen
  refine ⟨u + q, hat, fun par b vr o junk n hb0 ho => ⟨fun hv => ?_, fun hv => ⟨fun hv' => ?_, ?_⟩⟩⟩
  · obtain ⟨h', e1, e2, rs', ha⟩ := (C77_exact hC hH par b hb0 vr _ o ho junk).mp hv
    exact (hplace n b vr o h' e1 e2 rs' ha).1
  · obtain ⟨h', e1, e2, rs', ha⟩ := (C77_exact hC hH par b hb0 vr _ o ho junk).mp hv'
    obtain ⟨hlt, hrs'⟩ := hplace n b vr o h' e1 e2 rs' ha
    obtain ⟨h'', e1', e2', rs'', ha'⟩ := (C77_exact hC hH par b hb0 vr _ o ho junk).mp hv
    obtain ⟨rd2, hp2, hrec2, hcount2⟩ := ha'.place
    obtain ⟨rfl, rfl, rfl, rfl⟩ := hp.unique hp2
    obtain rfl := recordsFrom_unique hC _ _ _ hrec hrec2 (hcount.trans hcount2.symm)
    obtain ⟨-, -, -, -, -, -, -, -, -, -, -, -, -, -, -, -, -, ⟨xs, hch⟩, -⟩ := ha
    obtain ⟨-, -, -, -, -, -, -, -, -, -, -, -, -, -, -, -, -, ⟨xs', hch'⟩, -⟩ := ha'
    have s1 := chain2_hashes _ _ _ _ hch { last with hash := zeroTail (32 - (n - (u + q))) last.hash } (by rw [hrs']; simp)
    have s2 := chain2_hashes _ _ _ _ hch' last (List.mem_of_getLast? hlast)
    refine ⟨hlt, (zeroTail_eq_iff hl32 _).mp ?_⟩
    rw [s2]
    rw [s2] at s1
    exact s1
  · rintro ⟨hlt, hzero⟩
    obtain ⟨h'', e1', e2', rs'', ha'⟩ := (C77_exact hC hH par b hb0 vr _ o ho junk).mp hv
    obtain ⟨rd2, hp2, hrec2, hcount2⟩ := ha'.place
    obtain ⟨rfl, rfl, rfl, rfl⟩ := hp.unique hp2
    obtain rfl := recordsFrom_unique hC _ _ _ hrec hrec2 (hcount.trans hcount2.symm)
    refine (C77_exact hC hH par b hb0 vr _ o ho junk).mpr ⟨_, _, _, _, ha'.cut hH hp (by omega) ?_⟩
    have := hread n hlt
    rw [(zeroTail_eq_iff hl32 _).mpr hzero] at this
    obtain ⟨rs0, hrs0⟩ := List.getLast?_eq_some_iff.mp hlast
    rw [show rs.dropLast ++ [{ last with hash := last.hash }] = rs by rw [hrs0]; simp] at this
    exact this

end phase2

section
open Phase2
variable {F G1 G2 GT : Type} [Field F] [AddCommGroup G1] [Module F G1] [AddCommGroup G2]
  [Module F G2] [AddCommGroup GT] [Module F GT] [DecidableEq G1] [DecidableEq G2] [DecidableEq GT]
variable {C : Curve F G1 G2 GT} {H : HeaderCodec} (hH : H.Lawful)
include hH

/-- the header at the start of the bytes is the one that is read -/
theorem header_start {h h0 : Header} (h0r : h0.InRange) {input ys : Bytes} {r : Rd} (he : input = H.enc h0 ++ ys)
    (hd : H.dec.run (Rd.buffered 4096 input) = (.ok h, r)) : h = h0 := by
  have := hH.dec_enc h0 h0r 4096 0 ys
  rw [← he] at this
  unfold Rd.buffered at hd
  rw [this, Prod.mk.injEq, Except.ok.injEq] at hd
  exact hd.1.symm

end

/-! ### concrete cases -/

-- a file with all points uncompressed: 3 bytes less are not noticed, and change the contribution
example : ∃ q, HashAt 32 (Toy.honest.rawFirst Toy.curve) q (Toy.honest.records.getLastD Phase1.Contribution.zero).hash ∧
    ∀ n, (∃ hash out, Phase1.contribute Toy.curve Toy.par Phase1.batchSize Toy.rnd ((Toy.honest.rawFirst Toy.curve).take n) = (.ok hash, out)) ↔
      q < n := by
  obtain ⟨q, h1, h2⟩ := C88_p1c Toy.lawful Toy.honest Toy.honest_wf (by decide +kernel) (Toy.honest.records.getLastD Phase1.Contribution.zero)
    (by decide +kernel) _ Toy.honest_readIn
  exact ⟨q, h1, fun n => (h2 Toy.par Phase1.batchSize Toy.rnd n (by decide)).1⟩

example : ¬ ZeroFrom 29 (Toy.honest.records.getLastD Phase1.Contribution.zero).hash := by
  unfold ZeroFrom
  decide +kernel

-- without records
example := C88_p1c_none Toy.lawful (P1File.init Toy.curve 2) (init_wf Toy.curve 2 (by decide)) (by decide) rfl _
  (C80_p1_written Toy.lawful _ (init_wf Toy.curve 2 (by decide)) _ (C72_p1_uncompressed _ (init_wf Toy.curve 2 (by decide)) [1, 2]))

-- phase 2, all points uncompressed
example := C88_p2c Toy.lawful Gob.lawful Toy.p2final _ (Toy.p2final.records.getLastD Phase2.Contribution.zero) (by decide +kernel) _ (by
    have : (Toy.p2final.rawFirst Toy.curve Gob.headerCodec ++ [7]).length ≤ 10000 := by decide +kernel
    omega) Toy.p2final_readIn

/-- in the file of `Toy.straddle_rejected`, whose hash lies across the end of the read buffer, one record is read -/
theorem Toy.wide1_read : ∃ (f : P2File Toy.K Toy.K) (h : Phase2.Header) (last : Phase2.Contribution Toy.K Toy.K),
    f.ReadIn Toy.curve Gob.headerCodec h (Toy.wide1.encode Toy.curve Gob.headerCodec) ∧ f.records.getLast? = some last := by
  have h0 := C29_straddle_corrupts Toy.lawful Gob.lawful Toy.par Phase1.batchSize (by decide) Toy.p2rnd' Toy.wide1 Toy.wide1_wf [] [] _
    rfl (fun i hi => by simp at hi) (by decide +kernel)
  rw [List.append_nil] at h0
  obtain ⟨f, h, hr⟩ := (C80_p2c_exact Toy.lawful Gob.lawful Toy.par Phase1.batchSize (by decide) Toy.p2rnd' _ (by
    have : (Toy.wide1.encode Toy.curve Gob.headerCodec).length ≤ 10000 := by decide +kernel
    omega)).mp ⟨_, _, h0⟩
  have hrec : f.records ≠ [] := by
    obtain ⟨r, hd, -, -, hn, -⟩ := hr
    have := header_start Gob.lawful (P2File.header_inRange Toy.lawful Gob.lawful Toy.wide1_wf) (encode_items2 _) hd
    rw [this] at hn
    intro h1
    rw [h1] at hn
    revert hn
    decide
  exact ⟨f, h, _, hr, List.getLast?_eq_some_getLast hrec⟩

example : ∃ (last : Phase2.Contribution Toy.K Toy.K) (q : Nat), HashAt (inBuffer q) (Toy.wide1.encode Toy.curve Gob.headerCodec) q last.hash ∧
    ∀ n, (∃ hash out, Phase2.contribute Toy.curve Gob.headerCodec Toy.par Phase1.batchSize Toy.p2rnd
      ((Toy.wide1.encode Toy.curve Gob.headerCodec).take n) = (.ok hash, out)) ↔ q < n := by
  obtain ⟨f, h, last, hr, hlast⟩ := Toy.wide1_read
  obtain ⟨q, h1, h2⟩ := C88_p2c Toy.lawful Gob.lawful f h last hlast _ (by
    have : (Toy.wide1.encode Toy.curve Gob.headerCodec).length ≤ 10000 := by decide +kernel
    omega) hr
  exact ⟨last, q, h1, fun n => (h2 Toy.par Phase1.batchSize Toy.p2rnd n (by decide)).1⟩

example := C88_p2c_none Toy.lawful Gob.lawful Toy.p2 _ rfl _ (by
    have : (Toy.p2.encode Toy.curve Gob.headerCodec ++ [3, 4]).length ≤ 10000 := by decide +kernel
    omega) (C80_p2_written Toy.lawful Gob.lawful _ Toy.p2_wf _ (C72_p2_compressed Toy.lawful _ _ Toy.p2_wf (by decide +kernel) [3, 4]))

-- an accepted file: one byte less is noticed, also if junk follows the file
example : ∃ q, ∀ n, Phase2.verify Toy.curve Gob.headerCodec Toy.par Phase1.batchSize Toy.p2vr
      ((Toy.p2final.encode Toy.curve Gob.headerCodec ++ [9]).take n) (Toy.p2.encode Toy.curve Gob.headerCodec ++ [1]) = .ok () ↔
    q < n ∧ ZeroFrom (n - q) (Toy.p2final.records.getLastD Phase2.Contribution.zero).hash := by
  obtain ⟨q, -, h⟩ := C88_p2v Toy.lawful Gob.lawful _ _ (Toy.p2final.records.getLastD Phase2.Contribution.zero) (by decide +kernel)
    (Toy.p2final_records [9])
  exact ⟨q, fun n => (h Toy.par Phase1.batchSize Toy.p2vr Toy.p2 [1] n (by decide) Toy.p2_wf).2 (Toy.p2final_accepted [9] [1])⟩

example : ¬ ZeroFrom 31 (Toy.p2final.records.getLastD Phase2.Contribution.zero).hash := by
  unfold ZeroFrom
  decide +kernel

-- accepted bytes with an undecodable point in Z
example : ∃ rs : List (Phase2.Contribution Toy.K Toy.K), HasRecords Toy.curve Gob.headerCodec Toy.shifted rs ∧ rs ≠ [] := by
  obtain ⟨h, d1, d2, rs, ha⟩ := (C77_exact Toy.lawful Gob.lawful par4 Phase1.batchSize (by decide) Toy.p2vr _ Toy.p2 Toy.p2_wf [1]).mp
    Toy.shifted_accepted
  obtain ⟨rd, hp, hrec, hl⟩ := ha.place
  refine ⟨rs, ⟨h, d1, d2, rd, hp, hrec, hl⟩, ?_⟩
  obtain ⟨r1, r2, r3, a0, -⟩ := hp
  have := header_start Gob.lawful (P2File.header_inRange Toy.lawful Gob.lawful Toy.p2final_wf)
    (by unfold Toy.shifted zUndecodable; simp only [List.append_assoc]; rfl) a0
  rw [this] at hl
  rintro rfl
  revert hl
  decide

end ZkSetup
