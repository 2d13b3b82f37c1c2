import Verif.Proofs.CutContribute
import Verif.Proofs.AnyKeys
import Verif.Proofs.AnyVerify
/-
Reading in a prefix of bytes.
-/
set_option linter.unusedSectionVars false

namespace ZkSetup

open Encodings

/-- the point at the start of a prefix is the point at the start of the bytes -/
theorem decodes_prefix {G : Type} {c : Codec G} (hs : 0 < c.size) {p q : G} {e t e' t' : Bytes} {n : Nat} (h : (e ++ t).take n = e' ++ t')
    (hp : c.Decodes p e) (hq : c.Decodes q e') : q = p ∧ e' = e ∧ e.length ≤ n ∧ t' = t.take (n - e.length) := by
  have h1 : e ++ t = e' ++ (t' ++ (e ++ t).drop n) := by rw [← List.append_assoc, ← h, List.take_append_drop]
  obtain ⟨h2, h3, h4⟩ := decodes_unique hs h1 hp hq
  subst h3
  have hl := congrArg List.length h
  simp only [List.length_take, List.length_append] at hl
  have hn : e.length ≤ n := by omega
  refine ⟨h2.symm, rfl, hn, ?_⟩
  rw [List.take_append, List.take_of_length_le hn] at h
  exact (List.append_cancel_left h).symm

theorem take_append_ge {e t : Bytes} {n : Nat} (h : e.length ≤ n) : (e ++ t).take n = e ++ t.take (n - e.length) := by
  rw [List.take_append, List.take_of_length_le h]

section
variable {F G1 G2 GT : Type} [Field F] [AddCommGroup G1] [Module F G1] [AddCommGroup G2]
  [Module F G2] [AddCommGroup GT] [Module F GT] [DecidableEq G1] [DecidableEq G2] [DecidableEq GT]
variable {C : Curve F G1 G2 GT} (hC : C.Lawful)
include hC

/-- points only: they are read in a prefix exactly if it goes up to their end -/
theorem begins_prefix_points {room : Nat → Nat} (us : List (Item G1 G2)) : ∀ (pos : Nat) (bs : Bytes), (∀ h, .hash h ∉ us) →
    Begins C room pos us bs → ∃ q, q ≤ bs.length ∧ ∀ n, (q ≤ n → Begins C room pos us (bs.take n)) ∧
      ∀ ts : List (Item G1 G2), ts.map Item.kind = us.map Item.kind → Begins C room pos ts (bs.take n) → q ≤ n := by
  have s1 : 0 < C.c1.size := hC.codec1.size_pos
  have s2 : 0 < C.c2.size := hC.codec2.size_pos
  induction us with
  | nil => intro pos bs _ _; exact ⟨0, Nat.zero_le _, fun n => ⟨fun _ => trivial, fun _ _ _ => Nat.zero_le _⟩⟩
  | cons u us ih =>
    intro pos bs hno h
    have hno' : ∀ h, .hash h ∉ us := fun h hm => hno h (by simp [hm])
    cases u with
    | hash x => exact absurd (by simp) (hno x)
    | g1 p =>
      obtain ⟨e, t, rfl, hd, h⟩ := h
      obtain ⟨q, hq, hall⟩ := ih _ _ hno' h
      refine ⟨e.length + q, by simp [hq], fun n => ⟨fun hn => ?_, fun ts hk hb => ?_⟩⟩
      · exact ⟨e, _, take_append_ge (by omega), hd, (hall _).1 (by omega)⟩
      · cases ts with
        | nil => simp at hk
        | cons t1 ts =>
          cases t1 with
          | g1 p' =>
            obtain ⟨e', t', he, hd', hb⟩ := hb
            obtain ⟨-, rfl, hn, rfl⟩ := decodes_prefix s1 he hd hd'
            have := (hall _).2 ts (by simpa [Item.kind] using hk) hb
            omega
          | g2 p' => simp [Item.kind] at hk
          | hash x => simp [Item.kind] at hk
    | g2 p =>
      obtain ⟨e, t, rfl, hd, h⟩ := h
      obtain ⟨q, hq, hall⟩ := ih _ _ hno' h
      refine ⟨e.length + q, by simp [hq], fun n => ⟨fun hn => ?_, fun ts hk hb => ?_⟩⟩
      · exact ⟨e, _, take_append_ge (by omega), hd, (hall _).1 (by omega)⟩
      · cases ts with
        | nil => simp at hk
        | cons t1 ts =>
          cases t1 with
          | g2 p' =>
            obtain ⟨e', t', he, hd', hb⟩ := hb
            obtain ⟨-, rfl, hn, rfl⟩ := decodes_prefix s2 he hd hd'
            have := (hall _).2 ts (by simpa [Item.kind] using hk) hb
            omega
          | g1 p' => simp [Item.kind] at hk
          | hash x => simp [Item.kind] at hk

/-- items that end with a hash: they are read in a prefix exactly if it contains the first byte of this hash; missing bytes are zeros -/
theorem begins_prefix_hash {room : Nat → Nat} (hroom : ∀ p, 0 < room p ∧ room p ≤ 32) (x : Bytes) (us : List (Item G1 G2)) :
    ∀ (pos : Nat) (bs : Bytes), Begins C room pos (us ++ [.hash x]) bs →
      ∃ q, q < bs.length ∧ x = (bs.drop q).take (room (pos + q)) ++ List.replicate (32 - min (room (pos + q)) (bs.length - q)) 0 ∧
        ∀ n, (q < n → Begins C room pos (us ++ [.hash (zeroTail (32 - (n - q)) x)]) (bs.take n)) ∧
        ∀ ts : List (Item G1 G2), ts.map Item.kind = (us ++ [Item.hash x]).map Item.kind → Begins C room pos ts (bs.take n) → q < n := by
  have s1 : 0 < C.c1.size := hC.codec1.size_pos
  have s2 : 0 < C.c2.size := hC.codec2.size_pos
  induction us with
  | nil =>
    intro pos bs h
    obtain ⟨hne, hx, -⟩ := h
    have hl : 0 < bs.length := List.length_pos_iff.mpr hne
    have hr := hroom pos
    refine ⟨0, hl, by simpa using hx, fun n => ⟨fun hn => ⟨?_, ?_, trivial⟩, fun ts hk hb => ?_⟩⟩
    · intro h0
      have := congrArg List.length h0
      simp only [List.length_take, List.length_nil] at this
      omega
    · simp only [Nat.sub_zero]
      rw [hx]
      unfold zeroTail
      apply List.ext_getElem?
      intro i
      simp only [List.getElem?_append, List.length_take, List.length_append, List.length_replicate, List.getElem?_take,
        List.getElem?_replicate]
      grind
    · cases ts with
      | nil => simp at hk
      | cons t ts =>
        cases n with
        | zero => exact absurd (begins_nil hC (by simpa using hb)) (by simp)
        | succ n => omega
  | cons u us ih =>
    intro pos bs h
    cases u with
    | g1 p =>
      obtain ⟨e, t, rfl, hd, h⟩ := h
      obtain ⟨q, hq, hx, hall⟩ := ih _ _ h
      refine ⟨e.length + q, by simp [hq], ?_, fun n => ⟨fun hn => ?_, fun ts hk hb => ?_⟩⟩
      · rw [List.drop_length_add_append, List.length_append, Nat.add_sub_add_left, ← Nat.add_assoc]
        exact hx
      · refine ⟨e, _, take_append_ge (by omega), hd, ?_⟩
        rw [show n - (e.length + q) = n - e.length - q by omega]
        exact (hall _).1 (by omega)
      · cases ts with
        | nil => simp at hk
        | cons t1 ts =>
          cases t1 with
          | g1 p' =>
            obtain ⟨e', t', he, hd', hb⟩ := hb
            obtain ⟨-, rfl, hn, rfl⟩ := decodes_prefix s1 he hd hd'
            have := (hall _).2 ts (by simpa [Item.kind] using hk) hb
            omega
          | g2 p' => simp [Item.kind] at hk
          | hash x => simp [Item.kind] at hk
    | g2 p =>
      obtain ⟨e, t, rfl, hd, h⟩ := h
      obtain ⟨q, hq, hx, hall⟩ := ih _ _ h
      refine ⟨e.length + q, by simp [hq], ?_, fun n => ⟨fun hn => ?_, fun ts hk hb => ?_⟩⟩
      · rw [List.drop_length_add_append, List.length_append, Nat.add_sub_add_left, ← Nat.add_assoc]
        exact hx
      · refine ⟨e, _, take_append_ge (by omega), hd, ?_⟩
        rw [show n - (e.length + q) = n - e.length - q by omega]
        exact (hall _).1 (by omega)
      · cases ts with
        | nil => simp at hk
        | cons t1 ts =>
          cases t1 with
          | g2 p' =>
            obtain ⟨e', t', he, hd', hb⟩ := hb
            obtain ⟨-, rfl, hn, rfl⟩ := decodes_prefix s2 he hd hd'
            have := (hall _).2 ts (by simpa [Item.kind] using hk) hb
            omega
          | g1 p' => simp [Item.kind] at hk
          | hash x => simp [Item.kind] at hk
    | hash y =>
      obtain ⟨hne, hy, h⟩ := h
      obtain ⟨q, hq, hx, hall⟩ := ih _ _ h
      have hr := hroom pos
      rw [List.length_drop] at hq
      refine ⟨room pos + q, by omega, ?_, fun n => ⟨fun hn => ⟨?_, ?_, ?_⟩, fun ts hk hb => ?_⟩⟩
      · rw [List.drop_drop, List.length_drop] at hx
        rw [← Nat.add_assoc, ← Nat.sub_sub]
        exact hx
      · intro h0
        have := congrArg List.length h0
        simp only [List.length_take, List.length_nil] at this
        omega
      · rw [hy, List.take_take, Nat.min_eq_left (by omega : room pos ≤ n), List.length_take]
        congr 2
        omega
      · rw [show n - (room pos + q) = n - room pos - q by omega, List.drop_take]
        exact (hall _).1 (by omega)
      · cases ts with
        | nil => simp at hk
        | cons t1 ts =>
          cases t1 with
          | hash z =>
            obtain ⟨-, -, hb⟩ := hb
            rw [List.drop_take] at hb
            have := (hall _).2 ts (by simpa [Item.kind] using hk) hb
            omega
          | g1 p' => simp [Item.kind] at hk
          | g2 p' => simp [Item.kind] at hk

end

/-! ### readers -/

/-- the reader if the input ends after `m` further bytes -/
def Rd.cut (r : Rd) (m : Nat) : Rd := { r with rest := r.rest.take m }

theorem Rd.adv_cut (r : Rd) (m u : Nat) : (r.cut m).adv u = (r.adv u).cut (m - u) := by
  simp [Rd.cut, Rd.adv, List.drop_take]

theorem Rd.adv_adv (r : Rd) (u v : Nat) : (r.adv u).adv v = r.adv (u + v) := by
  simp [Rd.adv, Nat.add_assoc]

/-- A read that consumes `u` bytes: it is the same if the input goes on for at least as many bytes; otherwise it fails and nothing is left. -/
def CutsWell {α : Type} (x : Go Rd α) : Prop :=
  ∀ r : Rd, ∃ u, u ≤ r.rest.length ∧ (x.run r).2 = r.adv u ∧
    ∀ m, (u ≤ m → x.run (r.cut m) = ((x.run r).1, (r.adv u).cut (m - u))) ∧
      (m < u → ∃ e, x.run (r.cut m) = (.error e, (r.cut m).adv m))

theorem CutsWell.pure {α : Type} (a : α) : CutsWell (Pure.pure a : Go Rd α) := by
  intro r
  refine ⟨0, Nat.zero_le _, by simp [Rd.adv], fun m => ⟨fun _ => by simp [Rd.adv], fun h => by omega⟩⟩

theorem CutsWell.fail {α : Type} (e : Fail) : CutsWell (Go.fail e : Go Rd α) := by
  intro r
  refine ⟨0, Nat.zero_le _, by simp [Rd.adv, Go.fail], fun m => ⟨fun _ => by simp [Rd.adv, Go.fail], fun h => by omega⟩⟩

theorem CutsWell.readFull (k : Nat) : CutsWell (Rd.readFull k) := by
  intro r
  by_cases hk : k ≤ r.rest.length
  · refine ⟨k, hk, by simp [Rd.readFull, hk], fun m => ⟨fun hm => ?_, fun hm => ⟨.err "EOF", ?_⟩⟩⟩
    · have : k ≤ (r.cut m).rest.length := by simp [Rd.cut]; omega
      simp only [Rd.readFull, hk, this, if_true, Rd.adv_cut, Prod.mk.injEq, and_true, Except.ok.injEq]
      simp [Rd.cut, List.take_take, Nat.min_eq_left hm]
    · have : ¬ k ≤ (r.cut m).rest.length := by simp [Rd.cut]; omega
      have hl : (r.cut m).rest.length = m := by simp [Rd.cut]; omega
      have hkm : ¬ k ≤ m := by omega
      simp only [Rd.readFull, hl, hkm, if_false]
  · refine ⟨r.rest.length, le_refl _, by simp [Rd.readFull, hk], fun m => ⟨fun hm => ?_, fun hm => ⟨.err "EOF", ?_⟩⟩⟩
    · have hc : r.cut m = r := by simp [Rd.cut, List.take_of_length_le hm]
      rw [hc, ← Rd.adv_cut, hc]
      simp [Rd.readFull, hk]
    · have hl : (r.cut m).rest.length = m := by simp [Rd.cut]; omega
      have : ¬ k ≤ m := by omega
      simp only [Rd.readFull, hl, this, if_false]

theorem CutsWell.bind {α β : Type} {x : Go Rd α} {f : α → Go Rd β} (hx : CutsWell x) (hf : ∀ a, CutsWell (f a)) : CutsWell (x >>= f) := by
  intro r
  obtain ⟨u, hu, h1, h2⟩ := hx r
  cases hr : x.run r with
  | mk res r1 =>
    rw [hr] at h1 h2
    simp only at h1 h2
    subst h1
    cases res with
    | error e =>
      refine ⟨u, hu, by rw [Go.bind_error hr], fun m => ⟨fun hm => ?_, fun hm => ?_⟩⟩
      · rw [Go.bind_error hr, Go.bind_error ((h2 m).1 hm)]
      · obtain ⟨e', he⟩ := (h2 m).2 hm
        exact ⟨e', Go.bind_error he⟩
    | ok a =>
      obtain ⟨v, hv, h3, h4⟩ := hf a (r.adv u)
      rw [Rd.adv_rest, List.length_drop] at hv
      refine ⟨u + v, by omega, by rw [Go.bind_ok hr, h3, Rd.adv_adv], fun m => ⟨fun hm => ?_, fun hm => ?_⟩⟩
      · rw [Go.bind_ok hr, Go.bind_ok ((h2 m).1 (by omega)), (h4 _).1 (by omega), Rd.adv_adv, Nat.sub_sub]
      · by_cases hm' : u ≤ m
        · obtain ⟨e, he⟩ := (h4 (m - u)).2 (by omega)
          refine ⟨e, ?_⟩
          rw [Go.bind_ok ((h2 m).1 hm'), he, ← Rd.adv_cut, Rd.adv_adv]
          congr 2
          omega
        · obtain ⟨e, he⟩ := (h2 m).2 (by omega)
          exact ⟨e, Go.bind_error he⟩

theorem CutsWell.decode {G : Type} (c : Codec G) : CutsWell c.decode := by
  have hset : ∀ b, CutsWell (c.set b) := by
    intro b
    unfold Codec.set
    cases c.setBytes b with
    | none => exact CutsWell.fail _
    | some p => exact CutsWell.pure _
  unfold Codec.decode
  refine CutsWell.bind (CutsWell.readFull _) fun b => ?_
  by_cases h : c.compressed (b.headD 0) = true
  · rw [if_pos h]; exact hset _
  · rw [if_neg h]; exact CutsWell.bind (CutsWell.readFull _) fun b' => hset _

theorem CutsWell.decodeN {G : Type} (c : Codec G) (n : Nat) : CutsWell (c.decodeN n) := by
  induction n with
  | zero => exact CutsWell.pure _
  | succ n ih => exact CutsWell.bind (CutsWell.decode c) fun p => CutsWell.bind ih fun ps => CutsWell.pure _

/-- success with an input that ends earlier: enough was left -/
theorem CutsWell.ok {α : Type} {x : Go Rd α} (hx : CutsWell x) {r r1 : Rd} {res : Except Fail α} (h : x.run r = (res, r1)) :
    ∃ u, u ≤ r.rest.length ∧ r1 = r.adv u ∧
      ∀ m, (u ≤ m → x.run (r.cut m) = (res, r1.cut (m - u))) ∧ ∀ a r', x.run (r.cut m) = (.ok a, r') → u ≤ m := by
  obtain ⟨u, hu, h1, h2⟩ := hx r
  rw [h] at h1 h2
  simp only at h1 h2
  subst h1
  refine ⟨u, hu, rfl, fun m => ⟨(h2 m).1, fun a r' hm => ?_⟩⟩
  by_contra hlt
  obtain ⟨e, he⟩ := (h2 m).2 (by omega)
  rw [he] at hm
  simp at hm

/-- something is left in the end although the input ends earlier: then enough was left -/
theorem CutsWell.left {α : Type} {x : Go Rd α} (hx : CutsWell x) (r : Rd) :
    ∃ u, u ≤ r.rest.length ∧ (x.run r).2 = r.adv u ∧
      ∀ m, (u ≤ m → (x.run (r.cut m)).2 = (r.adv u).cut (m - u)) ∧ ((x.run (r.cut m)).2.rest ≠ [] → u ≤ m) := by
  obtain ⟨u, hu, h1, h2⟩ := hx r
  refine ⟨u, hu, h1, fun m => ⟨fun hm => by rw [(h2 m).1 hm], fun hm => ?_⟩⟩
  by_contra hlt
  obtain ⟨e, he⟩ := (h2 m).2 (by omega)
  rw [he] at hm
  exact hm (by simp [Rd.cut, Rd.adv])

/-- nothing is left: then nothing is left afterwards -/
theorem CutsWell.empty {α : Type} {x : Go Rd α} (hx : CutsWell x) {r : Rd} (h : r.rest = []) : (x.run r).2.rest = [] := by
  obtain ⟨u, hu, h1, -⟩ := hx r
  rw [h1, Rd.adv_rest, h, List.drop_nil]

/-- the header -/
theorem header_shorter {H : Phase2.HeaderCodec} (hH : H.Lawful) {input : Bytes} {h : Phase2.Header} {r1 : Rd}
    (hd : H.dec.run (Rd.buffered 4096 input) = (.ok h, r1)) :
    ∃ u, u ≤ input.length ∧ r1 = (Rd.buffered 4096 input).adv u ∧
      ∀ n, (u ≤ n → H.dec.run (Rd.buffered 4096 (input.take n)) = (.ok h, r1.cut (n - u))) ∧
        ∀ h' r', H.dec.run (Rd.buffered 4096 (input.take n)) = (.ok h', r') → u ≤ n := by
  obtain ⟨used, hu, hall⟩ := hH.dec_local _ _ _ hd
  simp only [Rd.buffered] at hu
  have hr1 : r1 = (Rd.buffered 4096 input).adv used.length := by
    have := hall 4096 0 r1.rest
    rw [← hu] at this
    unfold Rd.buffered at hd
    rw [hd] at this
    simp only [Prod.mk.injEq, true_and] at this
    rw [this]
    simp [Rd.buffered, Rd.adv, hu]
  refine ⟨used.length, by rw [hu]; simp, hr1, fun n => ⟨fun hn => ?_, fun h' r' hd' => ?_⟩⟩
  · have := hall 4096 0 (r1.rest.take (n - used.length))
    rw [← take_append_ge hn, ← hu] at this
    unfold Rd.buffered
    rw [this, hr1]
    simp [Rd.buffered, Rd.adv, Rd.cut]
  · obtain ⟨used', hu', hall'⟩ := hH.dec_local _ _ _ hd'
    simp only [Rd.buffered] at hu'
    have h1 : input = used' ++ (r'.rest ++ input.drop n) := by rw [← List.append_assoc, ← hu', List.take_append_drop]
    have h2 := hall' 4096 0 (r'.rest ++ input.drop n)
    rw [← h1] at h2
    unfold Rd.buffered at hd
    rw [hd] at h2
    simp only [Prod.mk.injEq, Except.ok.injEq] at h2
    have h3 : used.length = used'.length := by
      have := congrArg Rd.pos h2.2
      rw [hr1] at this
      simpa [Rd.buffered, Rd.adv] using this
    have := congrArg List.length hu'
    simp only [List.length_take, List.length_append] at this
    omega

section
open Phase2
variable {F G1 G2 GT : Type} [Field F] [AddCommGroup G1] [Module F G1] [AddCommGroup G2]
  [Module F G2] [AddCommGroup GT] [Module F GT] [DecidableEq G1] [DecidableEq G2] [DecidableEq GT]
variable {C : Curve F G1 G2 GT}

/-- the points compared are the same as long as the input goes on for as many bytes as they take -/
theorem Compared.cut {b : Nat} {rnd : Nat → Nat → F} {d g : G2} {n : Nat} {r r' : Rd} {qs : List G1} {k : Nat}
    (h : Compared C b rnd d g n r qs r' k) : ∃ u, r' = r.adv u ∧ ∀ m, u ≤ m → Compared C b rnd d g n (r.cut m) qs (r'.cut (m - u)) k := by
  cases h with
  | all ps _ h1 h2 =>
    obtain ⟨u, -, hu, hall⟩ := (CutsWell.decodeN C.c1 n).ok h1
    exact ⟨u, hu, fun m hm => .all ps _ ((hall m).1 hm) h2⟩
  | stop i _ hs =>
    obtain ⟨hi, ps, rm, e, h1, h2⟩ := hs
    obtain ⟨u, -, hu, hall⟩ := (CutsWell.decodeN C.c1 i).ok h1
    obtain ⟨v, -, hv, hall'⟩ := (CutsWell.decode C.c1).ok h2
    refine ⟨u + v, by rw [hv, hu, Rd.adv_adv], fun m hm => .stop i _ ⟨hi, ps, _, e, (hall m).1 (by omega), ?_⟩⟩
    rw [← Nat.sub_sub]
    exact (hall' _).1 (by omega)

theorem reads_of_recordsFrom (rs : List (Contribution G1 G2)) : ∀ r, RecordsFrom C r rs → Reads C (rs.flatMap record2Items) r := by
  induction rs with
  | nil => intro r _; trivial
  | cons c rs ih =>
    intro r h
    obtain ⟨r', ⟨r1, r2, r3, r4, e1, e2, e3, e4, hne, n, hn, hh, rfl⟩, h⟩ := h
    rw [List.flatMap_cons]
    refine ⟨r1, e1, r2, e2, r3, e3, r4, e4, _, ?_, ih _ h⟩
    obtain ⟨cap, pos, bs⟩ := r4
    rw [readHash_iff]
    simp only at hn hne hh
    subst hn
    exact ⟨hne, hh, rfl⟩

end
end ZkSetup
