import Verif.Spec.AnyVerify1
import Verif.Proofs.Phase1Truncate
import Verif.Proofs.AnyInput
/-
Phase 1 verification of arbitrary bytes.
-/
set_option linter.unusedSectionVars false

namespace ZkSetup

open Phase1

/-! ### the combinations -/

section comb
variable {F G : Type} [Field F] [AddCommGroup G] [Module F G]

theorem linCombLoop_decodes {c : Codec G} (par : Par) (pol : MsmPolicy) (b : Nat) (hb : 0 < b) (rnd : Nat → Nat → F) (n : Nat) :
    ∀ (t : Nat) (buff : List G) (r : List F) (L1 L2 t1 t2 : G) (rd rd' : Rd) (v : G × G),
      (linCombLoop c par pol b rnd n t buff r L1 L2 t1 t2).run rd = (.ok v, rd') → ∃ ps, (c.decodeN n).run rd = (.ok ps, rd') := by
  induction n using Nat.strong_induction_on with
  | _ n ih =>
    intro t buff r L1 L2 t1 t2 rd rd' v h
    rw [linCombLoop] at h
    by_cases h0 : 0 < n ∧ 0 < b
    · rw [dif_pos h0] at h
      obtain ⟨ps, rd1, h1, h2⟩ := Go.bind_eq_ok h
      obtain ⟨qs, h3⟩ := ih (n - min n b) (by omega) _ _ _ _ _ _ _ _ _ _ h2
      have := decodeN_join _ _ _ _ _ _ _ _ h1 h3
      rw [show min n b + (n - min n b) = n by omega] at this
      exact ⟨_, this⟩
    · have : n = 0 := by omega
      subst this
      rw [dif_neg h0] at h
      simp at h
      exact ⟨[], by rw [h.2]; rfl⟩

theorem linCombLoop_same {c : Codec G} (par : Par) (pol : MsmPolicy) (b : Nat) (hb : 0 < b) (rnd : Nat → Nat → F) (n : Nat) :
    ∀ (t : Nat) (buff : List G) (r : List F) (L1 L2 t1 t2 : G) (ps : List G) (rd rd' q q' : Rd),
      (c.decodeN n).run rd = (.ok ps, rd') → (c.decodeN n).run q = (.ok ps, q') →
      ∃ v, (linCombLoop c par pol b rnd n t buff r L1 L2 t1 t2).run rd = (.ok v, rd') ∧
        (linCombLoop c par pol b rnd n t buff r L1 L2 t1 t2).run q = (.ok v, q') := by
  induction n using Nat.strong_induction_on with
  | _ n ih =>
    intro t buff r L1 L2 t1 t2 ps rd rd' q q' h1 h2
    rw [linCombLoop]
    by_cases h0 : 0 < n ∧ 0 < b
    · rw [dif_pos h0]
      rw [show n = min n b + (n - min n b) by omega] at h1 h2
      obtain ⟨rm, a1, a2⟩ := decodeN_split _ _ _ _ _ _ h1
      obtain ⟨qm, b1, b2⟩ := decodeN_split _ _ _ _ _ _ h2
      simp only [Go.bind_ok a1, Go.bind_ok b1]
      exact ih (n - min n b) (by omega) _ _ _ _ _ _ _ _ _ _ _ _ a2 b2
    · have : n = 0 := by omega
      subst this
      rw [dif_neg h0]
      simp only [Codec.decodeN, Go.pure_run, Prod.mk.injEq] at h1 h2
      exact ⟨_, by rw [h1.2]; rfl, by rw [h2.2]; rfl⟩

theorem linearCombination_iff {c : Codec G} (hc : c.Lawful) (par : Par) (pol : MsmPolicy) (b : Nat) (hb : 0 < b) (rnd : Nat → Nat → F)
    (n : Nat) (rd rd' : Rd) (v : G × G) :
    (linearCombination c par pol b rnd (n : Int)).run rd = (.ok v, rd') ↔
      ∃ ps, (c.decodeN n).run rd = (.ok ps, rd') ∧ v = combos pol b rnd ps := by
  have key : ∀ ps, (c.decodeN n).run rd = (.ok ps, rd') →
      (linearCombination c par pol b rnd (n : Int)).run rd = (.ok (combos pol b rnd ps), rd') := by
    intro ps h
    have hl := decodeN_length _ _ _ _ _ h
    have h2 := Codec.decodeN_encodeN hc 0 0 ps []
    rw [hl] at h2
    have hs := linearCombination_spec hc par pol b hb rnd n ps (by rw [hl]) 0 0 []
    unfold linearCombination at hs ⊢
    rw [makeLen_min, Go.bind_ok (Go.lift_run _ _), Int.toNat_natCast] at hs ⊢
    obtain ⟨w, k1, k2⟩ := linCombLoop_same par pol b hb rnd n 0 (List.replicate (min n b) 0) (List.replicate (min n b) 0) 0 0 0 0 ps rd rd' _ _ h h2
    unfold Codec.encodeN at k2
    rw [k2] at hs
    simp only [Prod.mk.injEq, Except.ok.injEq] at hs
    rw [k1, hs.1]
  constructor
  · intro h
    have h' := h
    unfold linearCombination at h'
    rw [makeLen_min, Go.bind_ok (Go.lift_run _ _), Int.toNat_natCast] at h'
    obtain ⟨ps, hps⟩ := linCombLoop_decodes par pol b hb rnd n _ _ _ _ _ _ _ _ _ _ h'
    refine ⟨ps, hps, ?_⟩
    have := key ps hps
    rw [h] at this
    simpa using this
  · rintro ⟨ps, h, rfl⟩
    exact key ps h

end comb

section
variable {F G1 G2 GT : Type} [Field F] [AddCommGroup G1] [Module F G1] [AddCommGroup G2]
  [Module F G2] [AddCommGroup GT] [Module F GT] [DecidableEq G1] [DecidableEq G2] [DecidableEq GT]
variable {C : Curve F G1 G2 GT}

/-! ### a record -/

omit [DecidableEq G1] [DecidableEq G2] [DecidableEq GT] in
theorem Filled.unique {fs : List (Slot G1 G2)} {c : Contribution G1 G2} {r : Rd} {c1 c2 : Contribution G1 G2} {r1 r2 : Rd} {a1 a2 : Ending}
    (h : Filled C fs c r c1 r1 a1) : Filled C fs c r c2 r2 a2 → c1 = c2 ∧ r1 = r2 ∧ a1 = a2 := by
  induction h with
  | done c r => intro h; cases h; exact ⟨rfl, rfl, rfl⟩
  | g1 p e _ ih =>
    intro h
    cases h with
    | g1 p' e' h' =>
      rw [e, Prod.mk.injEq, Except.ok.injEq] at e'
      obtain ⟨rfl, rfl⟩ := e'
      exact ih h'
    | kept1 _ e' => rw [e] at e'; simp at e'
    | spoilt1 _ e' => rw [e] at e'; simp at e'
  | g2 p e _ ih =>
    intro h
    cases h with
    | g2 p' e' h' =>
      rw [e, Prod.mk.injEq, Except.ok.injEq] at e'
      obtain ⟨rfl, rfl⟩ := e'
      exact ih h'
    | kept2 _ e' => rw [e] at e'; simp at e'
    | spoilt2 _ e' => rw [e] at e'; simp at e'
  | kept1 x e n =>
    intro h
    cases h with
    | g1 p' e' h' => rw [e] at e'; simp at e'
    | kept1 _ e' => rw [e] at e'; simp at e'; exact ⟨rfl, e'.2, rfl⟩
    | spoilt1 _ _ y => exact (n y).elim
  | kept2 x e n =>
    intro h
    cases h with
    | g2 p' e' h' => rw [e] at e'; simp at e'
    | kept2 _ e' => rw [e] at e'; simp at e'; exact ⟨rfl, e'.2, rfl⟩
    | spoilt2 _ _ y => exact (n y).elim
  | spoilt1 x e y =>
    intro h
    cases h with
    | g1 p' e' h' => rw [e] at e'; simp at e'
    | spoilt1 _ e' => rw [e] at e'; simp at e'; exact ⟨rfl, e'.2, rfl⟩
    | kept1 _ _ n => exact (n y).elim
  | spoilt2 x e y =>
    intro h
    cases h with
    | g2 p' e' h' => rw [e] at e'; simp at e'
    | spoilt2 _ e' => rw [e] at e'; simp at e'; exact ⟨rfl, e'.2, rfl⟩
    | kept2 _ _ n => exact (n y).elim

theorem spoils_iff {G : Type} (c : Codec G) (hs : 0 < c.size) (rest : Bytes) (p : G) : c.decodeSpoils rest p = true ↔ Spoils c rest p := by
  unfold Codec.decodeSpoils Codec.handed
  have hd : ∀ b more : Bytes, 0 < b.length → (b ++ more).headD 0 = b.headD 0 := by
    intro b more h
    cases b with
    | nil => simp at h
    | cons x b => rfl
  constructor
  · intro h
    split at h
    · rename_i b hb
      split at hb
      · cases hb
      · rename_i h1
        split at hb
        · rename_i h2
          obtain rfl := Option.some.inj hb
          refine ⟨rest.take c.size, rest.drop c.size, (List.take_append_drop _ _).symm, ?_, h⟩
          have hl : (rest.take c.size).length = c.size := by simp; omega
          have := hd (rest.take c.size) (rest.drop c.size) (by omega)
          rw [List.take_append_drop] at this
          rw [← this, if_pos h2, hl]
        · rename_i h2
          split at hb
          · cases hb
          · rename_i h3
            obtain rfl := Option.some.inj hb
            refine ⟨rest.take (2 * c.size), rest.drop (2 * c.size), (List.take_append_drop _ _).symm, ?_, h⟩
            have hl : (rest.take (2 * c.size)).length = 2 * c.size := by simp; omega
            have := hd (rest.take (2 * c.size)) (rest.drop (2 * c.size)) (by omega)
            rw [List.take_append_drop] at this
            rw [← this, if_neg h2, hl]
    · cases h
  · rintro ⟨b, more, rfl, hl, h⟩
    by_cases h2 : c.compressed (b.headD 0) = true
    · rw [if_pos h2] at hl
      rw [hd _ _ (by omega), if_neg (by simp; omega), if_pos h2, List.take_left' hl]
      exact h
    · rw [if_neg h2] at hl
      rw [hd _ _ (by omega), if_neg (by simp; omega), if_neg h2, if_neg (by simp; omega), List.take_left' hl]
      exact h

/-- reading into the slots -/
def readSlots (C : Curve F G1 G2 GT) : List (Slot G1 G2) → Go (Contribution G1 G2 × Rd) Unit
  | [] => pure ()
  | .g1 get put :: fs => readPoint C.c1 get put >>= fun _ => readSlots C fs
  | .g2 get put :: fs => readPoint C.c2 get put >>= fun _ => readSlots C fs

/-- the error of a decode is not the one that marks a spoilt point -/
theorem decode_not_spoiled {G : Type} {c : Codec G} {r r' : Rd} {e : Fail} (h : c.decode.run r = (.error e, r')) : e ≠ spoiled := by
  have hset : ∀ (b : Bytes) (s : Rd) (e : Fail) (s' : Rd), (c.set b).run s = (.error e, s') → e ≠ spoiled := by
    intro b s e s' h
    unfold Codec.set at h
    split at h
    · cases h
    · obtain ⟨h, -⟩ := Prod.mk.inj h
      obtain rfl := Except.error.inj h
      decide
  have hread : ∀ (k : Nat) (s : Rd) (e : Fail) (s' : Rd), (Rd.readFull k).run s = (.error e, s') → e ≠ spoiled := by
    intro k s e s' h
    unfold Rd.readFull at h
    simp only at h
    split at h
    · cases h
    · obtain ⟨h, -⟩ := Prod.mk.inj h
      obtain rfl := Except.error.inj h
      decide
  unfold Codec.decode at h
  rw [Go.bind_run] at h
  rcases h1 : (Rd.readFull c.size).run r with ⟨_ | b, r1⟩
  · rw [h1] at h
    obtain ⟨h, -⟩ := Prod.mk.inj h
    obtain rfl := Except.error.inj h
    exact hread _ _ _ _ h1
  · rw [h1] at h
    simp only at h
    split at h
    · exact hset _ _ _ _ h
    · rw [Go.bind_run] at h
      rcases h2 : (Rd.readFull c.size).run r1 with ⟨_ | b', r2⟩
      · rw [h2] at h
        obtain ⟨h, -⟩ := Prod.mk.inj h
        obtain rfl := Except.error.inj h
        exact hread _ _ _ _ h2
      · rw [h2] at h
        exact hset _ _ _ _ h

/-- how the points were read -/
def ending : Except Fail Unit → Ending
  | .ok _ => .all
  | .error e => if e = spoiled then .spoilt else .kept

theorem readSlots_filled (hs1 : 0 < C.c1.size) (hs2 : 0 < C.c2.size) (fs : List (Slot G1 G2)) : ∀ (c : Contribution G1 G2) (r : Rd),
    Filled C fs c r ((readSlots C fs).run (c, r)).2.1 ((readSlots C fs).run (c, r)).2.2 (ending ((readSlots C fs).run (c, r)).1) := by
  induction fs with
  | nil => intro c r; exact .done c r
  | cons f fs ih =>
    intro c r
    cases f with
    | g1 get put =>
      unfold readSlots
      rcases h : C.c1.decode.run r with ⟨_ | p, r1⟩
      · rw [Go.bind_error (readPoint_err h)]
        by_cases hsp : C.c1.decodeSpoils r.rest (get c) = true
        · rw [if_pos hsp]
          exact .spoilt1 _ h ((spoils_iff _ hs1 _ _).mp hsp)
        · rw [if_neg hsp, ending, if_neg (decode_not_spoiled h)]
          exact .kept1 _ h fun k => hsp ((spoils_iff _ hs1 _ _).mpr k)
      · rw [Go.bind_ok (readPoint_ok h)]
        exact .g1 p h (ih _ _)
    | g2 get put =>
      unfold readSlots
      rcases h : C.c2.decode.run r with ⟨_ | p, r1⟩
      · rw [Go.bind_error (readPoint_err h)]
        by_cases hsp : C.c2.decodeSpoils r.rest (get c) = true
        · rw [if_pos hsp]
          exact .spoilt2 _ h ((spoils_iff _ hs2 _ _).mp hsp)
        · rw [if_neg hsp, ending, if_neg (decode_not_spoiled h)]
          exact .kept2 _ h fun k => hsp ((spoils_iff _ hs2 _ _).mpr k)
      · rw [Go.bind_ok (readPoint_ok h)]
        exact .g2 p h (ih _ _)

theorem andThen_assoc {σ α β γ : Type} (x : Go σ α) (f : α → Go σ β) (g : β → Go σ γ) :
    (x >>= f) >>= g = x >>= fun a => f a >>= g := by
  have : ∀ s, ((x >>= f) >>= g).run s = (x >>= fun a => f a >>= g).run s := by
    intro s
    simp only [Go.bind_run]
    rcases x.run s with ⟨_ | a, s'⟩ <;> rfl
  cases hx : (x >>= f) >>= g
  cases hy : x >>= fun a => f a >>= g
  congr 1
  funext s
  have := this s
  rw [hx, hy] at this
  exact this

theorem readFrom_slots : Contribution.readFrom C = (readSlots C slots >>= fun _ =>
    (⟨fun s => (.ok (), ({ s.1 with hash := List.replicate 32 0 }, s.2))⟩ : Go (Contribution G1 G2 × Rd) Unit) >>= fun _ =>
    readField readHash fun h c => { c with hash := h }) := by
  unfold Contribution.readFrom
  simp only [slots, readSlots, andThen_assoc]
  rfl

omit [DecidableEq G1] [DecidableEq G2] [DecidableEq GT] in
theorem RecordOver.unique {old : Contribution G1 G2} {r : Rd} {c1 c2 : Contribution G1 G2} {r1 r2 : Rd} {b1 b2 : Bool}
    (h1 : RecordOver C old r c1 r1 b1) (h2 : RecordOver C old r c2 r2 b2) : c1 = c2 ∧ r1 = r2 ∧ b1 = b2 := by
  cases h1 with
  | stale c r' h =>
    cases h2 with
    | stale c r' h' => exact ⟨(h.unique h').1, (h.unique h').2.1, rfl⟩
    | spoilt c r' h' => have := (h.unique h').2.2; cases this
    | noHash c r' h' _ => have := (h.unique h').2.2; cases this
    | full c r' n h' _ _ => have := (h.unique h').2.2; cases this
  | spoilt c r' h =>
    cases h2 with
    | stale c r' h' => have := (h.unique h').2.2; cases this
    | spoilt c r' h' => exact ⟨(h.unique h').1, (h.unique h').2.1, rfl⟩
    | noHash c r' h' _ => have := (h.unique h').2.2; cases this
    | full c r' n h' _ _ => have := (h.unique h').2.2; cases this
  | noHash c r' h he =>
    cases h2 with
    | stale c r' h' => have := (h.unique h').2.2; cases this
    | spoilt c r' h' => have := (h.unique h').2.2; cases this
    | noHash c r' h' _ => obtain ⟨rfl, rfl, -⟩ := h.unique h'; exact ⟨rfl, rfl, rfl⟩
    | full c r' n h' hne _ => obtain ⟨rfl, rfl, -⟩ := h.unique h'; exact (hne he).elim
  | full c r' n h hne hn =>
    cases h2 with
    | stale c r' h' => have := (h.unique h').2.2; cases this
    | spoilt c r' h' => have := (h.unique h').2.2; cases this
    | noHash c r' h' he => obtain ⟨rfl, rfl, -⟩ := h.unique h'; exact (hne he).elim
    | full c r' n' h' _ hn' => obtain ⟨rfl, rfl, -⟩ := h.unique h'; rw [← hn'] at hn; subst hn; exact ⟨rfl, rfl, rfl⟩

omit [DecidableEq G1] [DecidableEq G2] [DecidableEq GT] in
theorem RecordsOver.unique (n : Nat) : ∀ {old : Contribution G1 G2} {r : Rd} {rs rs' : List (Contribution G1 G2)} {bs bs' : List Bool},
    RecordsOver C n old r rs bs → RecordsOver C n old r rs' bs' → rs = rs' ∧ bs = bs' := by
  induction n with
  | zero => intro old r rs rs' bs bs' h h'; exact ⟨h.1.trans h'.1.symm, h.2.trans h'.2.symm⟩
  | succ n ih =>
    rintro old r rs rs' bs bs' ⟨c, r1, b, cs, ds, h1, h2, rfl, rfl⟩ ⟨c', r1', b', cs', ds', h1', h2', rfl, rfl⟩
    obtain ⟨rfl, rfl, rfl⟩ := h1.unique h1'
    obtain ⟨rfl, rfl⟩ := ih h2 h2'
    exact ⟨rfl, rfl⟩

omit [DecidableEq G1] [DecidableEq G2] [DecidableEq GT] in
theorem RecordsOver.length (n : Nat) : ∀ {old : Contribution G1 G2} {r : Rd} {rs : List (Contribution G1 G2)} {bs : List Bool},
    RecordsOver C n old r rs bs → rs.length = n ∧ bs.length = n := by
  induction n with
  | zero => intro old r rs bs h; rw [h.1, h.2]; exact ⟨rfl, rfl⟩
  | succ n ih =>
    rintro old r rs bs ⟨c, r1, b, cs, ds, h1, h2, rfl, rfl⟩
    obtain ⟨k1, k2⟩ := ih h2
    rw [List.length_cons, List.length_cons, k1, k2]
    exact ⟨rfl, rfl⟩

variable (hC : C.Lawful)
include hC

theorem recordOver_read (old : Contribution G1 G2) (r : Rd) :
    RecordOver C old r ((Contribution.readFrom C).run (old, r)).2.1 ((Contribution.readFrom C).run (old, r)).2.2
      (isSpoiled ((Contribution.readFrom C).run (old, r)).1) := by
  rw [readFrom_slots]
  have hf := readSlots_filled (C := C) (by rw [hC.size1]; omega) (by rw [hC.size2]; omega) slots old r
  rcases h : (readSlots C slots).run (old, r) with ⟨e | _, c, r'⟩
  · rw [h] at hf
    rw [Go.bind_error h]
    by_cases he : e = spoiled
    · simp only [ending, if_pos he] at hf
      simp only [isSpoiled, he, decide_true]
      exact .spoilt _ _ hf
    · simp only [ending, if_neg he] at hf
      simp only [isSpoiled, he, decide_false]
      exact .stale _ _ hf
  · rw [h] at hf
    rw [Go.bind_ok h, Go.bind_ok rfl]
    simp only [ending] at hf
    unfold readField readHash Rd.read
    simp only [Go.bind_run]
    by_cases hne : r'.rest = []
    · simp only [hne, List.isEmpty_nil, if_true]
      exact .noHash _ _ hf hne
    · have : r'.rest.isEmpty = false := by simpa using hne
      simp only [this, Bool.false_eq_true, if_false, Go.pure_run, Rd.adv, Rd.block, List.length_take]
      exact .full _ _ _ hf hne rfl

theorem recordOver_iff (old : Contribution G1 G2) (r : Rd) (c : Contribution G1 G2) (r' : Rd) (b : Bool) :
    (((Contribution.readFrom C).run (old, r)).2 = (c, r') ∧ isSpoiled ((Contribution.readFrom C).run (old, r)).1 = b) ↔
      RecordOver C old r c r' b := by
  constructor
  · rintro ⟨h, rfl⟩
    have := recordOver_read hC old r
    rw [h] at this
    exact this
  · intro h
    obtain ⟨e1, e2, e3⟩ := h.unique (recordOver_read hC old r)
    rw [e1, e2, e3]
    exact ⟨rfl, rfl⟩

theorem recordsOver_exists (n : Nat) : ∀ (old : Contribution G1 G2) (r : Rd), ∃ rs bs, RecordsOver C n old r rs bs := by
  induction n with
  | zero => intro old r; exact ⟨[], [], rfl, rfl⟩
  | succ n ih =>
    intro old r
    obtain ⟨rs, bs, h⟩ := ih ((Contribution.readFrom C).run (old, r)).2.1 ((Contribution.readFrom C).run (old, r)).2.2
    exact ⟨_, _, _, _, _, _, _, recordOver_read hC old r, h, rfl, rfl⟩

theorem verifyLoop_exact (n : Nat) : ∀ (old prev : Contribution G1 G2) (r : Rd) (fin : Contribution G1 G2),
    verifyLoop C n old prev r = .ok fin ↔
      ∃ rs, RecordsOver C n old r rs (List.replicate n false) ∧ ChainOk C prev rs ∧ fin = rs.getLast?.getD old := by
  induction n with
  | zero =>
    intro old prev r fin
    simp only [verifyLoop, Except.ok.injEq, RecordsOver]
    constructor
    · rintro rfl; exact ⟨[], ⟨rfl, rfl⟩, trivial, rfl⟩
    · rintro ⟨rs, ⟨rfl, -⟩, -, rfl⟩; rfl
  | succ n ih =>
    intro old prev r fin
    rw [verifyLoop_succ, verifyContribution_iff hC, ih]
    constructor
    · rintro ⟨h1, hb, rs, h2, h3, rfl⟩
      have hr := recordOver_read hC old r
      rw [hb] at hr
      refine ⟨_ :: rs, ⟨_, _, false, rs, List.replicate n false, hr, h2, rfl, rfl⟩, ⟨h1, h3⟩, ?_⟩
      simp [List.getLast?_cons]
    · rintro ⟨rs, ⟨c, r', b, cs, ds, h1, h2, rfl, hb⟩, ⟨h3, h4⟩, rfl⟩
      rw [List.replicate_succ, List.cons.injEq] at hb
      obtain ⟨rfl, rfl⟩ := hb
      obtain ⟨rfl, rfl, hb⟩ := h1.unique (recordOver_read hC old r)
      refine ⟨h3, hb.symm, cs, h2, h4, ?_⟩
      simp [List.getLast?_cons]

theorem readSections_iff (par : Par) (pol : MsmPolicy) (b : Nat) (hb : 0 < b) (vr : VerifyRand F) (p : Nat) (hp : p ≤ 62) (r rd : Rd)
    (v : (G1 × G1) × (G1 × G1) × (G1 × G1) × (G2 × G2) × G2) :
    (readSections C par pol b vr ((2 : Int) ^ p)).run r = (.ok v, rd) ↔
      ∃ t1 a1 b1 t2 b2 r1 r2 r3 r4, (C.c1.decodeN (2 * 2 ^ p - 1)).run r = (.ok t1, r1) ∧ (C.c1.decodeN (2 ^ p)).run r1 = (.ok a1, r2) ∧
        (C.c1.decodeN (2 ^ p)).run r2 = (.ok b1, r3) ∧ (C.c2.decodeN (2 ^ p)).run r3 = (.ok t2, r4) ∧ C.c2.decode.run r4 = (.ok b2, rd) ∧
        v = (combos pol b vr.tau1 t1, combos pol b vr.alpha1 a1, combos pol b vr.beta1 b1, combos pol b vr.tau2 t2, b2) := by
  have hw : wrap64 (2 * 2 ^ p - 1) = ((2 * 2 ^ p - 1 : Nat) : Int) := by
    have h1 : 2 ^ p ≤ 2 ^ 62 := Nat.pow_le_pow_right (by omega) hp
    have h2 : 0 < 2 ^ p := Nat.pow_pos (by omega)
    have h3 : ((2 : Int) ^ p) = ((2 ^ p : Nat) : Int) := by push_cast; rfl
    rw [h3, wrap64_eq] <;> omega
  have hN : ((2 : Int) ^ p) = ((2 ^ p : Nat) : Int) := by push_cast; rfl
  unfold readSections
  rw [hw, hN]
  constructor
  · intro h
    obtain ⟨_, r1, e1, h⟩ := Go.bind_eq_ok h
    obtain ⟨_, r2, e2, h⟩ := Go.bind_eq_ok h
    obtain ⟨_, r3, e3, h⟩ := Go.bind_eq_ok h
    obtain ⟨_, r4, e4, h⟩ := Go.bind_eq_ok h
    obtain ⟨b2, r5, e5, h⟩ := Go.bind_eq_ok h
    simp only [Go.pure_run, Prod.mk.injEq, Except.ok.injEq] at h
    obtain ⟨rfl, rfl⟩ := h
    obtain ⟨t1, f1, rfl⟩ := (linearCombination_iff hC.codec1 par pol b hb _ _ _ _ _).mp e1
    obtain ⟨a1, f2, rfl⟩ := (linearCombination_iff hC.codec1 par pol b hb _ _ _ _ _).mp e2
    obtain ⟨b1, f3, rfl⟩ := (linearCombination_iff hC.codec1 par pol b hb _ _ _ _ _).mp e3
    obtain ⟨t2, f4, rfl⟩ := (linearCombination_iff hC.codec2 par pol b hb _ _ _ _ _).mp e4
    exact ⟨t1, a1, b1, t2, b2, r1, r2, r3, r4, f1, f2, f3, f4, e5, rfl⟩
  · rintro ⟨t1, a1, b1, t2, b2, r1, r2, r3, r4, e1, e2, e3, e4, e5, rfl⟩
    rw [Go.bind_ok ((linearCombination_iff hC.codec1 par pol b hb _ _ _ _ _).mpr ⟨_, e1, rfl⟩),
      Go.bind_ok ((linearCombination_iff hC.codec1 par pol b hb _ _ _ _ _).mpr ⟨_, e2, rfl⟩),
      Go.bind_ok ((linearCombination_iff hC.codec1 par pol b hb _ _ _ _ _).mpr ⟨_, e3, rfl⟩),
      Go.bind_ok ((linearCombination_iff hC.codec2 par pol b hb _ _ _ _ _).mpr ⟨_, e4, rfl⟩), Go.bind_ok e5]
    rfl

/-- for powers from 63 on the sections cannot be read -/
theorem readSections_large (par : Par) (pol : MsmPolicy) (b : Nat) (vr : VerifyRand F) (p : UInt8) (hp : ¬ p.toNat ≤ 62) (r rd : Rd)
    (v : (G1 × G1) × (G1 × G1) × (G1 × G1) × (G2 × G2) × G2) :
    (readSections C par pol b vr (goPow2 p)).run r ≠ (.ok v, rd) := by
  intro h
  unfold readSections at h
  obtain ⟨_, r1, e1, h⟩ := Go.bind_eq_ok h
  obtain ⟨_, r2, e2, h⟩ := Go.bind_eq_ok h
  unfold linearCombination at e2
  obtain ⟨k, r3, e3, e2⟩ := Go.bind_eq_ok e2
  simp only [Go.lift_run, Prod.mk.injEq] at e3
  have e3 := e3.1
  unfold goPow2 makeLen at e3
  rw [if_neg hp, if_pos (by omega)] at e3
  cases e3

end
end ZkSetup
