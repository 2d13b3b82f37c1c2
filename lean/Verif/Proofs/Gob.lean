import Verif.Model.Gob
import Verif.Spec.Phase2
/-
The gob format satisfies the laws assumed of the header encoding.
-/
namespace ZkSetup

/-- A reader program that, when it succeeds, depends only on the bytes it consumes. -/
structure Local {α : Type} (x : Go Rd α) : Prop where
  prefix_ : ∀ (r r' : Rd) (a : α), x.run r = (.ok a, r') →
    ∃ used : Bytes, r.rest = used ++ r'.rest ∧ ∀ (cap pos : Nat) (ys : Bytes),
      x.run ⟨cap, pos, used ++ ys⟩ = (.ok a, ⟨cap, pos + used.length, ys⟩)
  cap : ∀ (r r' : Rd) (a : α), x.run r = (.ok a, r') → r'.cap = r.cap

namespace Local
variable {α β : Type}

theorem pure (a : α) : Local (pure a) where
  prefix_ := by
    intro r r' b h
    simp only [Go.pure_run, Prod.mk.injEq, Except.ok.injEq] at h
    obtain ⟨rfl, rfl⟩ := h
    exact ⟨[], by simp, by simp⟩
  cap := by
    intro r r' b h
    simp only [Go.pure_run, Prod.mk.injEq] at h
    rw [h.2]

theorem fail (e : Fail) : Local (Go.fail e : Go Rd α) where
  prefix_ := by intro r r' b h; simp at h
  cap := by intro r r' b h; simp at h

theorem lift (e : Except Fail α) : Local (Go.lift e : Go Rd α) where
  prefix_ := by
    intro r r' b h
    simp only [Go.lift_run, Prod.mk.injEq] at h
    obtain ⟨rfl, rfl⟩ := h
    exact ⟨[], by simp, by simp⟩
  cap := by
    intro r r' b h
    simp only [Go.lift_run, Prod.mk.injEq] at h
    rw [h.2]

theorem readFull (k : Nat) : Local (Rd.readFull k) where
  prefix_ := by
    intro r r' b h
    unfold Rd.readFull at h
    simp only at h
    split at h
    · rename_i hk
      simp only [Prod.mk.injEq, Except.ok.injEq] at h
      obtain ⟨rfl, rfl⟩ := h
      refine ⟨r.rest.take k, by simp, ?_⟩
      intro cap pos ys
      rw [Rd.readFull_append cap pos _ ys k (by simp; omega)]
      simp [hk]
    · simp at h
  cap := by
    intro r r' b h
    unfold Rd.readFull at h
    simp only at h
    split at h
    · simp only [Prod.mk.injEq, Except.ok.injEq] at h
      rw [← h.2]; rfl
    · simp at h

theorem bind {x : Go Rd α} {f : α → Go Rd β} (hx : Local x) (hf : ∀ a, Local (f a)) : Local (x >>= f) where
  prefix_ := by
    intro r r' b h
    obtain ⟨a, r1, h1, h2⟩ := Go.bind_eq_ok h
    obtain ⟨u1, e1, k1⟩ := hx.prefix_ _ _ _ h1
    obtain ⟨u2, e2, k2⟩ := (hf a).prefix_ _ _ _ h2
    refine ⟨u1 ++ u2, by rw [e1, e2, List.append_assoc], ?_⟩
    intro cap pos ys
    rw [List.append_assoc, Go.bind_ok (k1 cap pos (u2 ++ ys)), k2]
    simp [Nat.add_assoc]
  cap := by
    intro r r' b h
    obtain ⟨a, r1, h1, h2⟩ := Go.bind_eq_ok h
    rw [(hf a).cap _ _ _ h2, hx.cap _ _ _ h1]

theorem ite {p : Prop} [Decidable p] {x y : Go Rd α} (hx : Local x) (hy : Local y) : Local (if p then x else y) := by
  split
  · exact hx
  · exact hy

end Local

/-- A reader program that never panics. -/
def NoPanic {α : Type} (x : Go Rd α) : Prop := ∀ (r : Rd) (m : String), (x.run r).1 ≠ .error (.panic m)

namespace NoPanic
variable {α β : Type}

theorem pure (a : α) : NoPanic (pure a) := by intro r m; simp

theorem err (s : String) : NoPanic (Go.fail (.err s) : Go Rd α) := by intro r m; simp

theorem readFull (k : Nat) : NoPanic (Rd.readFull k) := by
  intro r m
  unfold Rd.readFull
  simp only
  split <;> simp

theorem bind {x : Go Rd α} {f : α → Go Rd β} (hx : NoPanic x) (hf : ∀ a, NoPanic (f a)) : NoPanic (x >>= f) := by
  intro r m
  rw [Go.bind_run]
  have h := hx r
  cases hr : x.run r with
  | mk res r' =>
    rw [hr] at h
    cases res with
    | ok a => exact hf a r' m
    | error e => simpa using h m

theorem lift {e : Except Fail α} (h : ∀ m, e ≠ .error (.panic m)) : NoPanic (Go.lift e : Go Rd α) := by
  intro r m; exact h m

theorem ite {p : Prop} [Decidable p] {x y : Go Rd α} (hx : NoPanic x) (hy : NoPanic y) :
    NoPanic (if p then x else y) := by
  split
  · exact hx
  · exact hy

end NoPanic

namespace Gob

open Phase2

theorem lt_pow_byteLenAux (k n : Nat) (h : n < 256 ^ k) : n < 256 ^ byteLenAux k n := by
  induction k generalizing n with
  | zero => simpa [byteLenAux] using h
  | succ k ih =>
    unfold byteLenAux
    split
    · simp_all
    · have := ih (n / 256) (by rw [Nat.pow_succ] at h; omega)
      rw [Nat.pow_succ]
      omega

theorem lt_pow_byteLen {n : Nat} (h : n < 2 ^ 64) : n < 256 ^ byteLen n := lt_pow_byteLenAux 8 n (by simpa using h)

theorem byteLenAux_le (k n : Nat) : byteLenAux k n ≤ k := by
  induction k generalizing n with
  | zero => simp [byteLenAux]
  | succ k ih =>
    unfold byteLenAux
    split
    · omega
    · have := ih (n / 256); omega

theorem byteLen_le (n : Nat) : byteLen n ≤ 8 := byteLenAux_le 8 n

theorem byteLen_pos {n : Nat} (h : n ≠ 0) : 0 < byteLen n := by
  rw [byteLen, byteLenAux, if_neg h]; omega

theorem readUint_bytes (n : Nat) (h : n < 2 ^ 64) (cap pos : Nat) (ys : Bytes) :
    readUint.run ⟨cap, pos, uintBytes n ++ ys⟩ = (.ok n, ⟨cap, pos + (uintBytes n).length, ys⟩) := by
  unfold readUint uintBytes
  split
  · rename_i hn
    rw [Go.bind_ok (Rd.readFull_append cap pos [UInt8.ofNat n] ys 1 rfl)]
    have : (UInt8.ofNat n).toNat = n := by simp; omega
    simp only [List.headD_cons, this, if_pos hn]
    rfl
  · rename_i hn
    have hl := byteLen_le n
    have hp := byteLen_pos (n := n) (by omega)
    have hlt := lt_pow_byteLen h
    generalize byteLen n = k at *
    have hcons : UInt8.ofNat (256 - k) :: beBytes k n ++ ys = [UInt8.ofNat (256 - k)] ++ (beBytes k n ++ ys) := rfl
    rw [hcons, Go.bind_ok (Rd.readFull_append cap pos [UInt8.ofNat (256 - k)] _ 1 rfl)]
    have hb : (UInt8.ofNat (256 - k)).toNat = 256 - k := by simp; omega
    simp only [List.headD_cons, hb]
    rw [if_neg (by omega), if_neg (by omega)]
    rw [show 256 - (256 - k) = k by omega]
    rw [Go.bind_ok (Rd.readFull_append _ _ _ _ k (beBytes_length k n)), beValue_beBytes _ _ hlt]
    simp; omega

theorem unzigzag_zigzag (i : Int) : unzigzag (zigzag i) = i := by
  unfold unzigzag zigzag
  split <;> split <;> omega

theorem zigzag_lt {i : Int} (h1 : -(2 ^ 63) ≤ i) (h2 : i < 2 ^ 63) : zigzag i < 2 ^ 64 := by
  unfold zigzag
  split <;> omega

theorem readInt_bytes (i : Int) (h1 : -(2 ^ 63) ≤ i) (h2 : i < 2 ^ 63) (cap pos : Nat) (ys : Bytes) :
    readInt.run ⟨cap, pos, intBytes i ++ ys⟩ = (.ok i, ⟨cap, pos + (intBytes i).length, ys⟩) := by
  unfold readInt intBytes
  rw [Go.bind_ok (readUint_bytes _ (zigzag_lt h1 h2) _ _ _), unzigzag_zigzag]
  rfl

theorem message_bytes (p : Bytes) (h : p.length < 2 ^ 30) (cap pos : Nat) (ys : Bytes) :
    message.run ⟨cap, pos, messageBytes p ++ ys⟩ = (.ok p, ⟨cap, pos + (messageBytes p).length, ys⟩) := by
  unfold message messageBytes
  rw [List.append_assoc, Go.bind_ok (readUint_bytes _ (by omega) _ _ _), if_neg (by omega)]
  rw [Rd.readFull_append _ _ _ _ _ rfl]
  simp [Nat.add_assoc]

/-- reading the fields written -/
theorem readFields_bytes (vs : List Int) : ∀ (fuel d : Nat) (pre : List Int) (cap pos : Nat) (ys : Bytes),
    0 < d → vs.length < fuel → pre.length + (d - 1) + vs.length ≤ 7 →
    (∀ v ∈ vs, -(2 ^ 63) ≤ v ∧ v < 2 ^ 63) →
    (readFields fuel pre.length (pre ++ List.replicate (d - 1) 0 ++ List.replicate vs.length 0)).run
        ⟨cap, pos, fieldBytes d vs ++ ys⟩
      = (.ok (pre ++ List.replicate (d - 1) 0 ++ vs), ⟨cap, pos + (fieldBytes d vs).length, ys⟩) := by
  induction vs with
  | nil =>
    intro fuel d pre cap pos ys hd hf hl _
    obtain ⟨fuel, rfl⟩ : ∃ k, fuel = k + 1 := ⟨fuel - 1, by simp at hf; omega⟩
    unfold readFields fieldBytes
    have := readUint_bytes 0 (by omega) cap pos ys
    rw [show uintBytes 0 = [0] from rfl] at this
    rw [Go.bind_ok this]
    simp
  | cons v vs ih =>
    intro fuel d pre cap pos ys hd hf hl hr
    have hv := hr v (by simp)
    have hr' : ∀ v ∈ vs, -(2 ^ 63) ≤ v ∧ v < 2 ^ 63 := fun v h => hr v (by simp [h])
    simp only [List.length_cons] at hf hl
    unfold fieldBytes
    split
    · rename_i h0
      subst h0
      have := ih fuel (d + 1) pre cap pos ys (by omega) (by omega) (by omega) hr'
      have hrep : List.replicate (d + 1 - 1) (0 : Int) = List.replicate (d - 1) 0 ++ [0] := by
        rw [← List.replicate_succ']; congr 1; omega
      rw [hrep] at this
      simpa [List.replicate_succ] using this
    · obtain ⟨fuel, rfl⟩ : ∃ k, fuel = k + 1 := ⟨fuel - 1, by omega⟩
      unfold readFields
      simp only [List.append_assoc]
      rw [Go.bind_ok (readUint_bytes d (by omega) cap pos _), if_neg (by omega), if_neg (by omega)]
      rw [Go.bind_ok (readInt_bytes v hv.1 hv.2 _ _ _)]
      have hset : (pre ++ (List.replicate (d - 1) 0 ++ List.replicate (v :: vs).length 0)).set (pre.length + d - 1) v
          = (pre ++ List.replicate (d - 1) 0 ++ [v]) ++ List.replicate (1 - 1) 0 ++ List.replicate vs.length 0 := by
        rw [List.set_append_right _ _ (by omega), List.set_append_right _ _ (by simp; omega)]
        simp only [List.length_cons, List.replicate_succ, List.length_replicate]
        rw [show pre.length + d - 1 - pre.length - (d - 1) = 0 by omega]
        simp
      have hnum : pre.length + d = (pre ++ List.replicate (d - 1) 0 ++ [v]).length := by simp; omega
      rw [hset, hnum]
      rw [ih fuel 1 _ _ _ ys (by omega) (by omega) (by simp; omega) hr']
      simp only [List.append_assoc, List.length_append, Nat.add_assoc]
      simp

theorem typeDef_length : typeDef.length = 119 := by rfl

theorem uintBytes_length {n : Nat} (h : n < 2 ^ 64) : (uintBytes n).length ≤ 9 := by
  unfold uintBytes
  split
  · simp
  · have hl := byteLen_le n
    simp only [List.length_cons, beBytes_length]; omega

theorem fieldBytes_length (vs : List Int) : ∀ d, d + vs.length < 128 → (∀ v ∈ vs, -(2 ^ 63) ≤ v ∧ v < 2 ^ 63) →
    (fieldBytes d vs).length ≤ 1 + 10 * vs.length := by
  induction vs with
  | nil => intro d _ _; simp [fieldBytes]
  | cons v vs ih =>
    intro d hd hr
    simp only [List.length_cons] at hd ⊢
    have hv := hr v (by simp)
    unfold fieldBytes
    split
    · have := ih (d + 1) (by omega) (fun v h => hr v (by simp [h]))
      omega
    · have h1 := ih 1 (by omega) (fun v h => hr v (by simp [h]))
      have h2 := uintBytes_length (zigzag_lt hv.1 hv.2)
      have h3 : (uintBytes d).length = 1 := by unfold uintBytes; rw [if_pos (by omega)]; rfl
      simp only [List.length_append, intBytes]
      omega

theorem toList_range {h : Header} (hh : h.InRange) : ∀ v ∈ toList h, -(2 ^ 63) ≤ v ∧ v < 2 ^ 63 := by
  intro v hv
  simp only [toList, List.mem_cons, List.not_mem_nil, or_false] at hv
  rcases hv with rfl | rfl | rfl | rfl | rfl | rfl | rfl
  · exact hh.wires
  · exact hh.witness
  · exact hh.pub
  · exact hh.privateCommitted
  · exact hh.constraints
  · exact hh.domain
  · exact hh.contributions

theorem decode_encode (h : Header) (hh : h.InRange) (cap pos : Nat) (ys : Bytes) :
    decode.run ⟨cap, pos, encode h ++ ys⟩ = (.ok h, ⟨cap, pos + (encode h).length, ys⟩) := by
  have hlen : (valueBytes h).length < 2 ^ 30 := by
    have := fieldBytes_length (toList h) 1 (by simp [toList]) (toList_range hh)
    unfold valueBytes
    have h2 : (intBytes 65).length = 2 := by decide
    have h3 : (toList h).length = 7 := rfl
    simp only [List.length_append]
    omega
  unfold decode encode
  rw [List.append_assoc, Go.bind_ok (message_bytes _ (by rw [typeDef_length]; omega) _ _ _), if_pos rfl]
  rw [Go.bind_ok (message_bytes _ hlen _ _ _)]
  have hval : (readValue.run ⟨0, 0, valueBytes h⟩).1 = .ok (toList h) := by
    unfold readValue valueBytes
    rw [Go.bind_ok (readInt_bytes 65 (by omega) (by omega) _ _ _), if_pos rfl]
    have := readFields_bytes (toList h) 8 1 [] 0 (0 + (intBytes 65).length) [] (by omega) (by simp [toList]) (by simp [toList])
      (toList_range hh)
    simp only [List.append_nil, List.length_nil, List.nil_append, Nat.sub_self, List.replicate_zero,
      show (toList h).length = 7 from rfl] at this
    rw [this]
  rw [hval, Go.bind_ok (a := toList h) (by rfl)]
  simp [ofList, toList, Nat.add_assoc]

theorem readUint_local : Local readUint := by
  unfold readUint
  refine Local.bind (Local.readFull 1) fun b => ?_
  exact Local.ite (Local.pure _) (Local.ite (Local.fail _) (Local.bind (Local.readFull _) fun _ => Local.pure _))

theorem message_local : Local message := by
  unfold message
  exact Local.bind readUint_local fun n => Local.ite (Local.fail _) (Local.readFull _)

theorem decode_local : Local decode := by
  unfold decode
  refine Local.bind message_local fun t => Local.ite ?_ (Local.fail _)
  exact Local.bind message_local fun m => Local.bind (Local.lift _) fun l => Local.pure _

theorem readUint_noPanic : NoPanic readUint := by
  unfold readUint
  refine NoPanic.bind (NoPanic.readFull 1) fun b => ?_
  exact NoPanic.ite (NoPanic.pure _) (NoPanic.ite (NoPanic.err _) (NoPanic.bind (NoPanic.readFull _) fun _ => NoPanic.pure _))

theorem readInt_noPanic : NoPanic readInt := by
  unfold readInt
  exact NoPanic.bind readUint_noPanic fun _ => NoPanic.pure _

theorem message_noPanic : NoPanic message := by
  unfold message
  exact NoPanic.bind readUint_noPanic fun n => NoPanic.ite (NoPanic.err _) (NoPanic.readFull _)

theorem readFields_noPanic (fuel : Nat) : ∀ num l, NoPanic (readFields fuel num l) := by
  induction fuel with
  | zero => intro num l; exact NoPanic.err _
  | succ fuel ih =>
    intro num l
    unfold readFields
    refine NoPanic.bind readUint_noPanic fun d => NoPanic.ite (NoPanic.pure _) (NoPanic.ite (NoPanic.err _) ?_)
    exact NoPanic.bind readInt_noPanic fun v => ih _ _

theorem readValue_noPanic : NoPanic readValue := by
  unfold readValue
  exact NoPanic.bind readInt_noPanic fun id => NoPanic.ite (readFields_noPanic _ _ _) (NoPanic.err _)

theorem decode_noPanic : NoPanic decode := by
  unfold decode
  refine NoPanic.bind message_noPanic fun t => NoPanic.ite ?_ (NoPanic.err _)
  refine NoPanic.bind message_noPanic fun m => NoPanic.bind ?_ fun l => NoPanic.pure _
  exact NoPanic.lift fun s => readValue_noPanic _ s

theorem beValue_lt (b : Bytes) : beValue b < 256 ^ b.length := by
  induction b using List.reverseRecOn with
  | nil => simp [beValue]
  | append_singleton b x ih =>
    have hx := x.toNat_lt
    simp only [beValue, List.foldl_append, List.foldl_cons, List.foldl_nil, List.length_append, List.length_cons,
      List.length_nil, Nat.zero_add, Nat.pow_succ] at *
    omega

theorem readUint_lt {r r' : Rd} {n : Nat} (h : readUint.run r = (.ok n, r')) : n < 2 ^ 64 := by
  unfold readUint at h
  obtain ⟨b, r1, _, h⟩ := Go.bind_eq_ok h
  split at h
  · simp only [Go.pure_run, Prod.mk.injEq, Except.ok.injEq] at h
    omega
  · split at h
    · simp at h
    · obtain ⟨bs, r2, h2, h⟩ := Go.bind_eq_ok h
      simp only [Go.pure_run, Prod.mk.injEq, Except.ok.injEq] at h
      rw [← h.1]
      have hl : bs.length ≤ 8 := by
        unfold Rd.readFull at h2
        simp only at h2
        split at h2
        · simp only [Prod.mk.injEq, Except.ok.injEq] at h2
          rw [← h2.1, List.length_take]; omega
        · simp at h2
      have h1 := beValue_lt bs
      have h3 : 256 ^ bs.length ≤ 256 ^ 8 := Nat.pow_le_pow_right (by omega) hl
      omega

theorem readInt_range {r r' : Rd} {i : Int} (h : readInt.run r = (.ok i, r')) : -(2 ^ 63) ≤ i ∧ i < 2 ^ 63 := by
  unfold readInt at h
  obtain ⟨u, r1, h1, h⟩ := Go.bind_eq_ok h
  simp only [Go.pure_run, Prod.mk.injEq, Except.ok.injEq] at h
  have := readUint_lt h1
  rw [← h.1]
  unfold unzigzag
  split <;> omega

theorem readFields_range (fuel : Nat) : ∀ (num : Nat) (l l' : List Int) (r r' : Rd),
    (∀ v ∈ l, -(2 ^ 63) ≤ v ∧ v < 2 ^ 63) → (readFields fuel num l).run r = (.ok l', r') →
    ∀ v ∈ l', -(2 ^ 63) ≤ v ∧ v < 2 ^ 63 := by
  induction fuel with
  | zero => intro num l l' r r' _ h; simp [readFields] at h
  | succ fuel ih =>
    intro num l l' r r' hl h
    unfold readFields at h
    obtain ⟨d, r1, _, h⟩ := Go.bind_eq_ok h
    split at h
    · simp only [Go.pure_run, Prod.mk.injEq, Except.ok.injEq] at h
      rw [← h.1]; exact hl
    · split at h
      · simp at h
      · obtain ⟨v, r2, h2, h⟩ := Go.bind_eq_ok h
        refine ih _ _ _ _ _ ?_ h
        intro w hw
        rcases List.mem_or_eq_of_mem_set hw with hw | rfl
        · exact hl w hw
        · exact readInt_range h2

theorem ofList_range {l : List Int} (h : ∀ v ∈ l, -(2 ^ 63) ≤ v ∧ v < 2 ^ 63) : (ofList l).InRange := by
  have hg : ∀ i, -(2 ^ 63) ≤ l.getD i 0 ∧ l.getD i 0 < 2 ^ 63 := by
    intro i
    rw [List.getD_eq_getElem?_getD]
    cases hi : l[i]? with
    | none => simp
    | some v => exact h v (List.mem_of_getElem? hi)
  constructor <;> exact hg _

theorem decode_range (r r' : Rd) (h : Header) (hrun : decode.run r = (.ok h, r')) : h.InRange := by
  unfold decode at hrun
  obtain ⟨t, r1, _, hrun⟩ := Go.bind_eq_ok hrun
  split at hrun
  · obtain ⟨m, r2, _, hrun⟩ := Go.bind_eq_ok hrun
    obtain ⟨l, r3, h3, hrun⟩ := Go.bind_eq_ok hrun
    simp only [Go.pure_run, Prod.mk.injEq, Except.ok.injEq] at hrun
    rw [← hrun.1]
    apply ofList_range
    simp only [Go.lift_run, Prod.mk.injEq] at h3
    have h3 := h3.1
    cases hv : readValue.run ⟨0, 0, m⟩ with
    | mk res r4 =>
      rw [hv] at h3
      simp only at h3
      subst h3
      unfold readValue at hv
      obtain ⟨id, r5, _, hv⟩ := Go.bind_eq_ok hv
      split at hv
      · exact readFields_range _ _ _ _ _ _ (by intro v hv; simp at hv; omega) hv
      · simp at hv
  · simp at hrun

theorem decode_total (r r' : Rd) (m : String) : decode.run r ≠ (.error (.panic m), r') := by
  intro h
  have := decode_noPanic r m
  rw [h] at this
  exact this rfl

/-- the gob format satisfies the laws -/
theorem lawful : headerCodec.Lawful := by
  have h : HeaderCodec.Lawful ⟨encode, decode⟩ := by
    refine ⟨?_, ?_, ?_, ?_, ?_⟩ <;> dsimp only
    · exact decode_encode
    · exact decode_local.prefix_
    · exact decode_local.cap
    · exact decode_range
    · exact decode_total
  exact h

end Gob
end ZkSetup
