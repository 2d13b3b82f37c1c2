import Verif.Spec.CutContribute
import Verif.Props.AnyContribute
/-
Items read in a file that was cut short.
-/
set_option linter.unusedSectionVars false

namespace ZkSetup

open Encodings

section
variable {F G1 G2 GT : Type} [Field F] [AddCommGroup G1] [Module F G1] [AddCommGroup G2]
  [Module F G2] [AddCommGroup GT] [Module F GT] [DecidableEq G1] [DecidableEq G2] [DecidableEq GT]

/-- the kind of an item -/
def Item.kind : Item G1 G2 → Nat
  | .g1 _ => 1
  | .g2 _ => 2
  | .hash _ => 3

/-- the bytes written for an item -/
def Item.enc (C : Curve F G1 G2 GT) : Item G1 G2 → Bytes
  | .g1 p => C.c1.bytes p
  | .g2 p => C.c2.bytes p
  | .hash h => h

/-- every hash is read completely -/
def FitsAt (room : Nat → Nat) : Nat → List (Item G1 G2) → Prop
  | _, [] => True
  | pos, .g1 _ :: ts => FitsAt room (pos + 32) ts
  | pos, .g2 _ :: ts => FitsAt room (pos + 64) ts
  | pos, .hash h :: ts => room pos = 32 ∧ h.length = 32 ∧ FitsAt room (pos + 32) ts

variable {C : Curve F G1 G2 GT} (hC : C.Lawful)
include hC

theorem decodes_cut1 {q p : G1} {e t ys : Bytes} {m : Nat} (h : (C.c1.bytes p ++ ys).take m = e ++ t) (hd : C.c1.Decodes q e) :
    e.length = 32 ∧ 32 ≤ m ∧ t = ys.take (m - 32) := by
  have hl := hC.codec1.bytes_length p
  have h32 := hC.size1
  have h1 := hd.1
  have hpos : 0 < e.length := by split at h1 <;> omega
  have hlen := congrArg List.length h
  simp only [List.length_take, List.length_append] at hlen
  have hhead : e.headD 0 = (C.c1.bytes p).headD 0 := by
    cases e with
    | nil => simp at hpos
    | cons x e =>
      cases hb : C.c1.bytes p with
      | nil => rw [hb] at hl; simp at hl; omega
      | cons y ys' =>
        rw [hb] at h
        cases m with
        | zero => simp at h
        | succ m => simp at h; simp [h.1]
  rw [hhead, hC.codec1.bytes_flag, if_pos rfl, h32] at h1
  refine ⟨h1, by omega, ?_⟩
  rw [List.take_append, hl, h32, List.take_of_length_le (by omega)] at h
  exact ((List.append_inj h (by omega)).2).symm

theorem decodes_cut2 {q p : G2} {e t ys : Bytes} {m : Nat} (h : (C.c2.bytes p ++ ys).take m = e ++ t) (hd : C.c2.Decodes q e) :
    e.length = 64 ∧ 64 ≤ m ∧ t = ys.take (m - 64) := by
  have hl := hC.codec2.bytes_length p
  have h32 := hC.size2
  have h1 := hd.1
  have hpos : 0 < e.length := by split at h1 <;> omega
  have hlen := congrArg List.length h
  simp only [List.length_take, List.length_append] at hlen
  have hhead : e.headD 0 = (C.c2.bytes p).headD 0 := by
    cases e with
    | nil => simp at hpos
    | cons x e =>
      cases hb : C.c2.bytes p with
      | nil => rw [hb] at hl; simp at hl; omega
      | cons y ys' =>
        rw [hb] at h
        cases m with
        | zero => simp at h
        | succ m => simp at h; simp [h.1]
  rw [hhead, hC.codec2.bytes_flag, if_pos rfl, h32] at h1
  refine ⟨h1, by omega, ?_⟩
  rw [List.take_append, hl, h32, List.take_of_length_le (by omega)] at h
  exact ((List.append_inj h (by omega)).2).symm

/-- nothing is read in nothing -/
theorem begins_nil {room : Nat → Nat} {pos : Nat} {ts : List (Item G1 G2)} (h : Begins C room pos ts []) : ts = [] := by
  cases ts with
  | nil => rfl
  | cons t ts =>
    exfalso
    cases t with
    | g1 p =>
      obtain ⟨e, t, h1, h2, -⟩ := h
      obtain ⟨rfl, -⟩ := List.append_eq_nil_iff.mp h1.symm
      have := h2.1
      have := hC.size1
      simp at *
      split at this <;> omega
    | g2 p =>
      obtain ⟨e, t, h1, h2, -⟩ := h
      obtain ⟨rfl, -⟩ := List.append_eq_nil_iff.mp h1.symm
      have := h2.1
      have := hC.size2
      simp at *
      split at this <;> omega
    | hash x => exact h.1 rfl

/-- Items of the same kinds are read in a part of the bytes: then only a part of a hash at the end is missing. -/
theorem begins_cut {room : Nat → Nat} (us : List (Item G1 G2)) : ∀ (ts : List (Item G1 G2)) (pos m : Nat),
    ts.map Item.kind = us.map Item.kind → FitsAt room pos us → m < (us.flatMap (Item.enc C)).length →
    Begins C room pos ts ((us.flatMap (Item.enc C)).take m) →
    (us.flatMap (Item.enc C)).length ≤ m + 31 ∧ ∃ h, us.getLast? = some (.hash h) := by
  induction us with
  | nil => intro ts pos m _ _ hm; simp at hm
  | cons u us ih =>
    intro ts pos m hk hf hm hb
    cases ts with
    | nil => simp at hk
    | cons t ts =>
      simp only [List.map_cons, List.cons.injEq] at hk
      obtain ⟨hk1, hk2⟩ := hk
      have hlast : ∀ h, us.getLast? = some (.hash h) → (u :: us).getLast? = some (.hash h) := by
        intro h hh
        rw [List.getLast?_cons, hh]
        rfl
      rw [List.flatMap_cons] at hb hm ⊢
      rw [List.length_append] at hm ⊢
      cases u with
      | g1 p =>
        cases t with
        | g2 q => simp [Item.kind] at hk1
        | hash q => simp [Item.kind] at hk1
        | g1 q =>
          obtain ⟨e, t, h1, h2, h3⟩ := hb
          obtain ⟨l1, l2, rfl⟩ := decodes_cut1 hC h1 h2
          have hl : (Item.enc C (.g1 p : Item G1 G2)).length = 32 := by simp [Item.enc, hC.codec1.bytes_length, hC.size1]
          rw [hl] at hm ⊢
          rw [l1] at h3
          obtain ⟨a, h, b⟩ := ih ts _ _ hk2 hf (by omega) h3
          exact ⟨by omega, h, hlast h b⟩
      | g2 p =>
        cases t with
        | g1 q => simp [Item.kind] at hk1
        | hash q => simp [Item.kind] at hk1
        | g2 q =>
          obtain ⟨e, t, h1, h2, h3⟩ := hb
          obtain ⟨l1, l2, rfl⟩ := decodes_cut2 hC h1 h2
          have hl : (Item.enc C (.g2 p : Item G1 G2)).length = 64 := by simp [Item.enc, hC.codec2.bytes_length, hC.size2]
          rw [hl] at hm ⊢
          rw [l1] at h3
          obtain ⟨a, h, b⟩ := ih ts _ _ hk2 hf (by omega) h3
          exact ⟨by omega, h, hlast h b⟩
      | hash x =>
        cases t with
        | g1 q => simp [Item.kind] at hk1
        | g2 q => simp [Item.kind] at hk1
        | hash q =>
          obtain ⟨r1, r2, r3⟩ := hf
          obtain ⟨h1, -, h3⟩ := hb
          rw [r1] at h3
          have hl : (Item.enc C (.hash x : Item G1 G2)).length = 32 := r2
          rw [hl] at hm ⊢
          by_cases hm32 : 32 ≤ m
          · have hd : ((Item.enc C (.hash x : Item G1 G2) ++ us.flatMap (Item.enc C)).take m).drop 32 = (us.flatMap (Item.enc C)).take (m - 32) := by
              rw [List.take_append, hl, List.take_of_length_le (by omega), List.drop_append, hl, List.drop_of_length_le (by omega)]
              simp
            rw [hd] at h3
            obtain ⟨a, h, b⟩ := ih ts _ _ hk2 r3 (by omega) h3
            exact ⟨by omega, h, hlast h b⟩
          · rw [List.drop_of_length_le (by rw [List.length_take]; omega)] at h3
            obtain rfl := begins_nil hC h3
            have hus : us = [] := by simpa using hk2.symm
            subst hus
            have : m ≠ 0 := by
              rintro rfl
              simp at h1
            simp
            omega

/-- items that are written completely are read -/
theorem begins_enc {room : Nat → Nat} (us : List (Item G1 G2)) : ∀ (ts : List (Item G1 G2)) (pos : Nat) (ys : Bytes), FitsAt room pos us →
    Begins C room (pos + (us.flatMap (Item.enc C)).length) ts ys → Begins C room pos (us ++ ts) (us.flatMap (Item.enc C) ++ ys) := by
  induction us with
  | nil => intro ts pos ys _ h; simpa using h
  | cons u us ih =>
    intro ts pos ys hf h
    rw [List.flatMap_cons, List.length_append, ← Nat.add_assoc] at h
    rw [List.flatMap_cons, List.cons_append, List.append_assoc]
    cases u with
    | g1 p =>
      have hl : (Item.enc C (.g1 p : Item G1 G2)).length = 32 := by simp [Item.enc, hC.codec1.bytes_length, hC.size1]
      refine ⟨C.c1.bytes p, _, rfl, ⟨by rw [hC.codec1.bytes_flag, if_pos rfl, hC.codec1.bytes_length], hC.codec1.set_bytes p⟩, ?_⟩
      rw [hC.codec1.bytes_length, hC.size1]
      rw [hl] at h
      exact ih _ _ _ hf h
    | g2 p =>
      have hl : (Item.enc C (.g2 p : Item G1 G2)).length = 64 := by simp [Item.enc, hC.codec2.bytes_length, hC.size2]
      refine ⟨C.c2.bytes p, _, rfl, ⟨by rw [hC.codec2.bytes_flag, if_pos rfl, hC.codec2.bytes_length], hC.codec2.set_bytes p⟩, ?_⟩
      rw [hC.codec2.bytes_length, hC.size2]
      rw [hl] at h
      exact ih _ _ _ hf h
    | hash x =>
      obtain ⟨r1, r2, r3⟩ := hf
      have hl : (Item.enc C (.hash x : Item G1 G2)).length = 32 := r2
      rw [hl] at h
      refine ⟨?_, ?_, ?_⟩
      · intro h0
        rw [List.append_eq_nil_iff] at h0
        rw [h0.1] at hl
        simp at hl
      · rw [r1, List.take_left' hl, List.length_append, hl]
        simp [Item.enc]
      · rw [r1, List.drop_left' hl]
        exact ih _ _ _ r3 h

omit hC in
theorem fitsAt_g1s {room : Nat → Nat} (ps : List G1) : ∀ (pos : Nat) (us : List (Item G1 G2)), FitsAt room (pos + 32 * ps.length) us →
    FitsAt room pos (ps.map .g1 ++ us) := by
  induction ps with
  | nil => intro pos us h; simpa using h
  | cons p ps ih =>
    intro pos us h
    rw [List.map_cons, List.cons_append]
    exact ih _ _ (by rw [List.length_cons] at h; rw [show pos + 32 + 32 * ps.length = pos + 32 * (ps.length + 1) by omega]; exact h)

omit hC in
theorem fitsAt_g2s {room : Nat → Nat} (ps : List G2) : ∀ (pos : Nat) (us : List (Item G1 G2)), FitsAt room (pos + 64 * ps.length) us →
    FitsAt room pos (ps.map .g2 ++ us) := by
  induction ps with
  | nil => intro pos us h; simpa using h
  | cons p ps ih =>
    intro pos us h
    rw [List.map_cons, List.cons_append]
    exact ih _ _ (by rw [List.length_cons] at h; rw [show pos + 64 + 64 * ps.length = pos + 64 * (ps.length + 1) by omega]; exact h)

omit hC in
theorem fitsAt_records (rs : List (Phase1.Contribution G1 G2)) (hh : ∀ r ∈ rs, r.hash.length = 32) : ∀ pos,
    FitsAt (fun _ => 32) pos (rs.flatMap recordItems) := by
  induction rs with
  | nil => intro pos; trivial
  | cons r rs ih =>
    intro pos
    rw [List.flatMap_cons]
    exact ⟨rfl, hh r (by simp), ih (fun x hx => hh x (by simp [hx])) _⟩

omit hC in
theorem fitsAt_records2 {room : Nat → Nat} (rs : List (Phase2.Contribution G1 G2)) : ∀ pos, (∀ r ∈ rs, r.hash.length = 32) →
    (∀ j < rs.length, room (pos + 192 * j + 160) = 32) → FitsAt room pos (rs.flatMap record2Items) := by
  induction rs with
  | nil => intros; trivial
  | cons r rs ih =>
    intro pos hh hj
    rw [List.flatMap_cons]
    refine ⟨?_, hh r (by simp), ih _ (fun x hx => hh x (by simp [hx])) fun j hl => ?_⟩
    · have := hj 0 (by simp)
      rwa [show pos + 192 * 0 + 160 = pos + 32 + 32 + 32 + 64 by omega] at this
    · have := hj (j + 1) (by simpa using hl)
      rw [← this]
      congr 1
      omega

omit hC in
theorem enc_g1s (ps : List G1) : (ps.map (.g1 : G1 → Item G1 G2)).flatMap (Item.enc C) = ps.flatMap C.c1.bytes := by
  induction ps with
  | nil => rfl
  | cons p ps ih => simp [Item.enc, ih]

omit hC in
theorem enc_g2s (ps : List G2) : (ps.map (.g2 : G2 → Item G1 G2)).flatMap (Item.enc C) = ps.flatMap C.c2.bytes := by
  induction ps with
  | nil => rfl
  | cons p ps ih => simp [Item.enc, ih]

omit hC in
theorem enc_records (rs : List (Phase1.Contribution G1 G2)) :
    (rs.flatMap recordItems).flatMap (Item.enc C) = rs.flatMap (recordBytes C) := by
  induction rs with
  | nil => rfl
  | cons r rs ih =>
    rw [List.flatMap_cons, List.flatMap_append, ih, List.flatMap_cons]
    congr 1
    simp [recordItems, keyItems, Item.enc, recordBytes, recordBody, keyBytes]

omit hC in
theorem enc_records2 (rs : List (Phase2.Contribution G1 G2)) :
    (rs.flatMap record2Items).flatMap (Item.enc C) = rs.flatMap (record2Bytes C) := by
  induction rs with
  | nil => rfl
  | cons r rs ih =>
    rw [List.flatMap_cons, List.flatMap_append, ih, List.flatMap_cons]
    congr 1
    simp [record2Items, keyItems, Item.enc, record2Bytes, record2Body, keyBytes]

omit hC in
theorem enc_items (f : P1File G1 G2) : f.items.flatMap (Item.enc C) = f.params C ++ f.records.flatMap (recordBytes C) := by
  simp only [P1File.items, List.flatMap_append, enc_g1s, enc_g2s, enc_records, P1File.params]
  simp [Item.enc]

omit hC in
theorem enc_items2 (f : P2File G1 G2) : f.items.flatMap (Item.enc C) = f.params C ++ f.records.flatMap (record2Bytes C) := by
  simp only [P2File.items, P2File.paramItems, List.flatMap_append, enc_g1s, enc_records2, P2File.params]
  simp [Item.enc]

end
end ZkSetup
