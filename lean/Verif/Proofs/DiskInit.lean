import Verif.Model.DiskInit
import Verif.Proofs.DiskKeys
import Verif.Props.Panic
import Verif.Props.DiskKeys
/-
Phase 2 initialisation on a disk that can fill up, step by step beside the initialisation without limits.
-/
set_option linter.unusedSectionVars false

namespace ZkSetup

open Phase2 Disk
open Phase1 (makeLen)
open ZkSetup.Keys (checkedCall sliceCalls allBytes_encodeSlice)

/-! ### a reader that succeeds only depends on what it has read -/

/-- If `x` succeeds, it has consumed some bytes and does the same whatever comes behind these. -/
structure Consumes {α : Type} (x : Go Rd α) : Prop where
  run : ∀ cap pos p a rd, x.run ⟨cap, pos, p⟩ = (.ok a, rd) →
    ∃ c, p = c ++ rd.rest ∧ ∀ q, x.run ⟨cap, pos, c ++ q⟩ = (.ok a, ⟨cap, pos + c.length, q⟩)

theorem Consumes.pure {α : Type} (a : α) : Consumes (Pure.pure a) := by
  refine ⟨fun cap pos p b rd h => ⟨[], ?_, ?_⟩⟩
  · cases h; rfl
  · intro q; cases h; rfl

theorem Consumes.fail {α : Type} (e : Fail) : Consumes (Go.fail e : Go Rd α) := ⟨fun _ _ _ _ _ h => by cases h⟩

theorem Consumes.readFull (k : Nat) : Consumes (Rd.readFull k) := by
  refine ⟨fun cap pos p a rd h => ?_⟩
  unfold Rd.readFull at h
  simp only at h
  split at h
  · rename_i hk
    simp only [Prod.mk.injEq, Except.ok.injEq] at h
    obtain ⟨rfl, rfl⟩ := h
    refine ⟨p.take k, by simp, fun q => ?_⟩
    rw [Rd.readFull_append cap pos _ q k (by simpa using hk)]
    simp only [List.length_take, Prod.mk.injEq, Rd.mk.injEq, and_true, true_and]
    omega
  · simp at h

theorem Consumes.bind {α β : Type} {x : Go Rd α} {f : α → Go Rd β} (hx : Consumes x) (hf : ∀ a, Consumes (f a)) : Consumes (x >>= f) := by
  refine ⟨fun cap pos p b rd h => ?_⟩
  obtain ⟨a, rd1, h1, h2⟩ := Go.bind_eq_ok h
  obtain ⟨c1, e1, k1⟩ := hx.run _ _ _ _ _ h1
  have hr : rd1 = ⟨cap, pos + c1.length, rd1.rest⟩ := by
    have := k1 rd1.rest
    rw [← e1, h1] at this
    exact (Prod.mk.inj this).2
  rw [hr] at h2
  obtain ⟨c2, e2, k2⟩ := (hf a).run _ _ _ _ _ h2
  refine ⟨c1 ++ c2, by rw [List.append_assoc, ← e2]; exact e1, fun q => ?_⟩
  rw [List.append_assoc, Go.bind_ok (k1 _), k2, List.length_append, Nat.add_assoc]

theorem Consumes.decode {G : Type} (c : Codec G) : Consumes c.decode := by
  have hs : ∀ b, Consumes (c.set b) := by
    intro b
    unfold Codec.set
    split
    · exact .pure _
    · exact .fail _
  refine .bind (.readFull _) fun b => ?_
  split
  · exact hs _
  · exact .bind (.readFull _) fun _ => hs _

theorem Consumes.decodeN {G : Type} (c : Codec G) (n : Nat) : Consumes (c.decodeN n) := by
  induction n with
  | zero => exact .pure _
  | succ n ih => exact .bind (.decode c) fun _ => .bind ih fun _ => .pure _

theorem Consumes.decodeSlice {G : Type} (c : Codec G) : Consumes c.decodeSlice := .bind (.readFull _) fun _ => .decodeN c _

/-- on the beginning of a stream on which it succeeds, a reader does the same or fails -/
theorem Consumes.prefix {α : Type} {x : Go Rd α} (hx : Consumes x) {cap pos : Nat} {p q : Bytes} (hpq : p <+: q) {a : α} {rd : Rd}
    (h : x.run ⟨cap, pos, p⟩ = (.ok a, rd)) :
    ∃ c r, p = c ++ rd.rest ∧ rd = ⟨cap, pos + c.length, rd.rest⟩ ∧ q = c ++ r ∧ rd.rest <+: r ∧
      x.run ⟨cap, pos, q⟩ = (.ok a, ⟨cap, pos + c.length, r⟩) := by
  obtain ⟨c, e, k⟩ := hx.run _ _ _ _ _ h
  obtain ⟨t, rfl⟩ := hpq
  refine ⟨c, rd.rest ++ t, e, ?_, by rw [← List.append_assoc, ← e], List.prefix_append _ _, ?_⟩
  · have := k rd.rest
    rw [← e, h] at this
    exact (Prod.mk.inj this).2
  · have := k (rd.rest ++ t)
    rwa [← List.append_assoc, ← e] at this

section
variable {F G1 G2 GT : Type} [Field F] [AddCommGroup G1] [Module F G1] [AddCommGroup G2]
  [Module F G2] [AddCommGroup GT] [Module F GT]

theorem LagOf.length {C : Curve F G1 G2 GT} (hC : C.Lawful) {n : Nat} {lag : Bytes} (h : LagOf C n lag) :
    lag.length = 16 + 160 * n := by
  obtain ⟨x1, x2, x3, x4, l1, l2, l3, l4, rfl⟩ := h
  simp only [List.length_append, Codec.encodeSlice_length hC.codec1, Codec.encodeSlice_length hC.codec2, hC.size1, hC.size2,
    l1, l2, l3, l4]
  omega

/-- A part of `srs.lag` cannot be read. -/
theorem readTauLag_cut {C : Curve F G1 G2 GT} (hC : C.Lawful) {n : Nat} (hn : n < 2 ^ 32) {lag : Bytes} (h : LagOf C n lag) (m : Nat)
    (hm : m < lag.length) : ∃ e, (readTauLag C (lag.take m) (n : Int)).2 = .error e := by
  obtain ⟨x1, x2, x3, x4, l1, l2, l3, l4, rfl⟩ := h
  unfold readTauLag
  simp only [Rd.file, List.drop_zero]
  cases hd : C.c1.decodeSlice.run ⟨0, 0, (C.c1.encodeSlice x1 ++ (C.c1.encodeSlice x2 ++ (C.c1.encodeSlice x3
      ++ C.c2.encodeSlice x4))).take m⟩ with
  | mk r rd =>
    cases r with
    | error e => exact ⟨e, rfl⟩
    | ok y1 =>
      simp only
      obtain ⟨c, r, e1, e2, e3, e4, e5⟩ := (Consumes.decodeSlice C.c1).prefix (List.take_prefix m _) hd
      rw [Codec.decodeSlice_encodeSlice hC.codec1 0 0 x1 _ (by omega)] at e5
      simp only [Prod.mk.injEq, Except.ok.injEq, Rd.mk.injEq, true_and] at e5
      obtain ⟨-, hcl, hr⟩ := e5
      have ha := Codec.encodeSlice_length hC.codec1 x2
      have hb := Codec.encodeSlice_length hC.codec1 x3
      have hlen : (2 * 32 * (n : Int) + 2 * 4).toNat = (C.c1.encodeSlice x2 ++ C.c1.encodeSlice x3).length := by
        rw [List.length_append, ha, hb, hC.size1, l2, l3]; omega
      have hdrop : r.drop (2 * 32 * (n : Int) + 2 * 4).toNat = C.c2.encodeSlice x4 := by
        rw [← hr, hlen, ← List.append_assoc, List.drop_left]
      have hpre : rd.rest.drop (2 * 32 * (n : Int) + 2 * 4).toNat <+: C.c2.encodeSlice x4 := by
        rw [← hdrop]; exact e4.drop _
      cases hd2 : C.c2.decodeSlice.run (rd.adv (2 * 32 * (n : Int) + 2 * 4).toNat) with
      | mk r2 rd2 =>
        cases r2 with
        | error e => exact ⟨e, rfl⟩
        | ok y4 =>
          exfalso
          rw [e2] at hd2
          simp only [Rd.adv] at hd2
          obtain ⟨c2, r2, f1, f2, f3, f4, f5⟩ := (Consumes.decodeSlice C.c2).prefix hpre hd2
          have hx := Codec.decodeSlice_encodeSlice hC.codec2 0 (0 + c.length + (2 * 32 * (n : Int) + 2 * 4).toNat) x4 [] (by omega)
          rw [List.append_nil] at hx
          rw [hx] at f5
          simp only [Prod.mk.injEq, Except.ok.injEq, Rd.mk.injEq, true_and] at f5
          obtain ⟨-, -, rfl⟩ := f5
          rw [List.append_nil] at f3
          have g1 := congrArg List.length f1
          have g2 := congrArg List.length f3
          have g3 := congrArg List.length e1
          have g4 := congrArg List.length e3
          have g5 := congrArg List.length hr
          have g6 := Codec.encodeSlice_length hC.codec2 x4
          simp only [List.length_append, List.length_drop, List.length_take] at g1 g2 g3 g4 g5 hm hlen
          omega

end

/-! ### step by step -/

/-- the file `f` with room for `c` bytes, when `b` has been written to it; `none`: nothing is known -/
def Kept (c : Nat) : Option (Bytes → Prop) → Bytes → File → Prop
  | none, _, f => f.cap = c
  | some Q, b, f => f = ⟨c, b.take c⟩ ∧ Q b

/-- the files on the disk beside those without limits -/
structure Beside (c2 cl ce : Nat) (Q2 QL QE : Option (Bytes → Prop)) (s : InitSt) (d : DiskSt) : Prop where
  ph2 : Kept c2 Q2 s.ph2 d.ph2
  lag : Kept cl QL s.lag d.lag
  evals : Kept ce QE s.evals d.evals

/-- If `y` succeeds on the disk, then `Kf`, and `x` succeeds. If `x` succeeds and `Kb`, then `y` succeeds on the disk. -/
structure Steps {α : Type} (R : InitSt → DiskSt → Prop) (x : Go InitSt α) (y : Go DiskSt α) (Kf Kb : Prop)
    (R' : α → InitSt → DiskSt → Prop) : Prop where
  fwd : ∀ s d, R s d → ∀ a d', y.run d = (.ok a, d') → Kf ∧ ∃ s', x.run s = (.ok a, s') ∧ R' a s' d'
  bwd : ∀ s d, R s d → ∀ a s', x.run s = (.ok a, s') → Kb → ∃ d', y.run d = (.ok a, d') ∧ R' a s' d'

variable {α β : Type} {R : InitSt → DiskSt → Prop}

theorem Steps.bind {x : Go InitSt α} {y : Go DiskSt α} {f : α → Go InitSt β} {g : α → Go DiskSt β} {Kf Kb Kf' Kb' : Prop}
    {R1 : α → InitSt → DiskSt → Prop} {R2 : β → InitSt → DiskSt → Prop} (h1 : Steps R x y Kf Kb R1)
    (h2 : ∀ a, Steps (R1 a) (f a) (g a) Kf' Kb' R2) : Steps R (x >>= f) (y >>= g) (Kf ∧ Kf') (Kb ∧ Kb') R2 := by
  constructor
  · intro s d hR b d' h
    obtain ⟨a, d1, e1, e2⟩ := Go.bind_eq_ok h
    obtain ⟨k1, s1, f1, hR1⟩ := h1.fwd s d hR a d1 e1
    obtain ⟨k2, s2, f2, hR2⟩ := (h2 a).fwd s1 d1 hR1 b d' e2
    exact ⟨⟨k1, k2⟩, s2, by rw [Go.bind_ok f1, f2], hR2⟩
  · intro s d hR b s' h hK
    obtain ⟨a, s1, e1, e2⟩ := Go.bind_eq_ok h
    obtain ⟨d1, f1, hR1⟩ := h1.bwd s d hR a s1 e1 hK.1
    obtain ⟨d2, f2, hR2⟩ := (h2 a).bwd s1 d1 hR1 b s' e2 hK.2
    exact ⟨d2, by rw [Go.bind_ok f1, f2], hR2⟩

/-- a result that does not depend on the files -/
theorem Steps.lift {r : Except Fail α} {f : α → Go InitSt β} {g : α → Go DiskSt β} {Kf Kb : Prop}
    {R2 : β → InitSt → DiskSt → Prop} (h : ∀ a, r = .ok a → Steps R (f a) (g a) Kf Kb R2) :
    Steps R (Go.lift r >>= f) (Go.lift r >>= g) Kf Kb R2 := by
  cases r with
  | error e =>
    exact ⟨fun s d hR b d' hb => by simp [Go.bind_run] at hb, fun s d hR b s' hb => by simp [Go.bind_run] at hb⟩
  | ok a =>
    have := h a rfl
    exact ⟨fun s d hR b d' hb => this.fwd s d hR b d' hb, fun s d hR b s' hb => this.bwd s d hR b s' hb⟩

theorem Steps.pure (a : α) : Steps R (Pure.pure a) (Pure.pure a) True True fun b s d => b = a ∧ R s d := by
  constructor
  · intro s d hR b d' h
    cases h
    exact ⟨trivial, s, rfl, rfl, hR⟩
  · intro s d hR b s' h _
    cases h
    exact ⟨d, rfl, rfl, hR⟩

theorem Steps.congr {x x' : Go InitSt α} {y : Go DiskSt α} {Kf Kb : Prop} {R' : α → InitSt → DiskSt → Prop}
    (e : ∀ s, x.run s = x'.run s) (h : Steps R x' y Kf Kb R') : Steps R x y Kf Kb R' :=
  ⟨fun s d hr a d' ha => by rw [e]; exact h.fwd s d hr a d' ha, fun s d hr a s' ha => h.bwd s d hr a s' (by rw [← e]; exact ha)⟩

theorem Steps.mono {x : Go InitSt α} {y : Go DiskSt α} {Kf Kb Kf' Kb' : Prop} {R' R'' : α → InitSt → DiskSt → Prop}
    (h : Steps R x y Kf Kb R') (hf : Kf → Kf') (hb : Kb' → Kb) (hR : Kf' ∨ Kb' → ∀ a s d, R' a s d → R'' a s d) :
    Steps R x y Kf' Kb' R'' := by
  constructor
  · intro s d hr a d' ha
    obtain ⟨k, s', e, hr'⟩ := h.fwd s d hr a d' ha
    exact ⟨hf k, s', e, hR (.inl (hf k)) _ _ _ hr'⟩
  · intro s d hr a s' ha hk
    obtain ⟨d', e, hr'⟩ := h.bwd s d hr a s' ha (hb hk)
    exact ⟨d', e, hR (.inr hk) _ _ _ hr'⟩

/-- a step whose condition follows from that of the whole program -/
theorem Steps.seq {x : Go InitSt α} {y : Go DiskSt α} {f : α → Go InitSt β} {g : α → Go DiskSt β} {Kf Kb Kf' Kb' : Prop}
    {R1 : α → InitSt → DiskSt → Prop} {R2 : β → InitSt → DiskSt → Prop} (h1 : Steps R x y Kf' Kb' R1) (hb : Kb → Kb')
    (h2 : ∀ a, Steps (R1 a) (f a) (g a) Kf Kb R2) : Steps R (x >>= f) (y >>= g) Kf Kb R2 :=
  (Steps.bind h1 h2).mono And.right (fun h => ⟨hb h, h⟩) fun _ _ _ _ => id

variable {c2 cl ce : Nat} {Q2 QL QE : Option (Bytes → Prop)} {Q Q' : Bytes → Prop}

theorem kept_put {c : Nat} {p : Part} {b bs : Bytes} {f : File} (hp : p.all = bs) (hq : Q b → Q' (b ++ bs)) (h : Kept c (some Q) b f) :
    Kept c (some Q') (b ++ bs) (runPart f p).2 := by
  obtain ⟨rfl, hQ⟩ := h
  exact ⟨by rw [runPart_file, hp], hq hQ⟩

theorem written_ok {b : Bool} : written b = .ok () ↔ b = true := by
  cases b <;> simp [written]

/-- when write calls `p` on a file succeed -/
def Passes (c : Nat) (Q : Bytes → Prop) (p : Part) (Kf Kb : Prop) : Prop :=
  ∀ b, Q b → ((runPart ⟨c, b.take c⟩ p).1 = true → Kf) ∧ (Kb → (runPart ⟨c, b.take c⟩ p).1 = true)

theorem Steps.putPh2 {p : Part} {bs : Bytes} {Kf Kb : Prop} (hp : p.all = bs) (hK : Passes c2 Q p Kf Kb)
    (hq : ∀ b, Q b → Q' (b ++ bs)) : Steps (Beside c2 cl ce (some Q) QL QE) (emitPh2 bs) (putPh2 p) Kf Kb
      fun _ => Beside c2 cl ce (some Q') QL QE := by
  constructor
  · rintro s d ⟨h2, hl, he⟩ ⟨⟩ d' h
    obtain ⟨hw, rfl⟩ := Prod.mk.inj h
    have hk := kept_put hp (hq _) h2
    obtain ⟨e, hQ⟩ := h2
    rw [written_ok, e] at hw
    exact ⟨(hK _ hQ).1 hw, _, rfl, hk, hl, he⟩
  · rintro s d ⟨h2, hl, he⟩ ⟨⟩ s' h hKb
    obtain ⟨-, rfl⟩ := Prod.mk.inj h
    have hk := kept_put hp (hq _) h2
    obtain ⟨e, hQ⟩ := h2
    refine ⟨_, Prod.ext ?_ rfl, hk, hl, he⟩
    simp only [Phase2.putPh2]
    rw [written_ok, e]
    exact (hK _ hQ).2 hKb

theorem Steps.putLag {p : Part} {bs : Bytes} {Kf Kb : Prop} (hp : p.all = bs) (hK : Passes cl Q p Kf Kb)
    (hq : ∀ b, Q b → Q' (b ++ bs)) : Steps (Beside c2 cl ce Q2 (some Q) QE) (emitLag bs) (putLag p) Kf Kb
      fun _ => Beside c2 cl ce Q2 (some Q') QE := by
  constructor
  · rintro s d ⟨h2, hl, he⟩ ⟨⟩ d' h
    obtain ⟨hw, rfl⟩ := Prod.mk.inj h
    have hk := kept_put hp (hq _) hl
    obtain ⟨e, hQ⟩ := hl
    rw [written_ok, e] at hw
    exact ⟨(hK _ hQ).1 hw, _, rfl, h2, hk, he⟩
  · rintro s d ⟨h2, hl, he⟩ ⟨⟩ s' h hKb
    obtain ⟨-, rfl⟩ := Prod.mk.inj h
    have hk := kept_put hp (hq _) hl
    obtain ⟨e, hQ⟩ := hl
    refine ⟨_, Prod.ext ?_ rfl, h2, hk, he⟩
    simp only [Phase2.putLag]
    rw [written_ok, e]
    exact (hK _ hQ).2 hKb

theorem Steps.putEvals {p : Part} {bs : Bytes} {Kf Kb : Prop} (hp : p.all = bs) (hK : Passes ce Q p Kf Kb)
    (hq : ∀ b, Q b → Q' (b ++ bs)) : Steps (Beside c2 cl ce Q2 QL (some Q)) (emitEvals bs) (putEvals p) Kf Kb
      fun _ => Beside c2 cl ce Q2 QL (some Q') := by
  constructor
  · rintro s d ⟨h2, hl, he⟩ ⟨⟩ d' h
    obtain ⟨hw, rfl⟩ := Prod.mk.inj h
    have hk := kept_put hp (hq _) he
    obtain ⟨e, hQ⟩ := he
    rw [written_ok, e] at hw
    exact ⟨(hK _ hQ).1 hw, _, rfl, h2, hl, hk⟩
  · rintro s d ⟨h2, hl, he⟩ ⟨⟩ s' h hKb
    obtain ⟨-, rfl⟩ := Prod.mk.inj h
    have hk := kept_put hp (hq _) he
    obtain ⟨e, hQ⟩ := he
    refine ⟨_, Prod.ext ?_ rfl, h2, hl, hk⟩
    simp only [Phase2.putEvals]
    rw [written_ok, e]
    exact (hK _ hQ).2 hKb

theorem Kept.cap {c : Nat} {Q : Option (Bytes → Prop)} {b : Bytes} {f : File} (h : Kept c Q b f) : f.cap = c := by
  cases Q with
  | none => exact h
  | some Q => rw [h.1]

theorem Steps.createLag : Steps (Beside c2 cl ce Q2 QL QE) Phase2.createLag createLagOnDisk True True
    fun _ => Beside c2 cl ce Q2 (some (· = [])) QE := by
  constructor
  · rintro s d ⟨h2, hl, he⟩ ⟨⟩ d' h
    obtain ⟨-, rfl⟩ := Prod.mk.inj h
    exact ⟨trivial, _, rfl, h2, ⟨by simp [hl.cap], rfl⟩, he⟩
  · rintro s d ⟨h2, hl, he⟩ ⟨⟩ s' h -
    obtain ⟨-, rfl⟩ := Prod.mk.inj h
    exact ⟨_, rfl, h2, ⟨by simp [hl.cap], rfl⟩, he⟩

theorem Steps.createEvals : Steps (Beside c2 cl ce Q2 QL QE) Phase2.createEvals createEvalsOnDisk True True
    fun _ => Beside c2 cl ce Q2 QL (some (·.length = 0)) := by
  constructor
  · rintro s d ⟨h2, hl, he⟩ ⟨⟩ d' h
    obtain ⟨-, rfl⟩ := Prod.mk.inj h
    exact ⟨trivial, _, rfl, h2, hl, ⟨by simp [he.cap], rfl⟩⟩
  · rintro s d ⟨h2, hl, he⟩ ⟨⟩ s' h -
    obtain ⟨-, rfl⟩ := Prod.mk.inj h
    exact ⟨_, rfl, h2, hl, ⟨by simp [he.cap], rfl⟩⟩

/-- never succeeds -/
structure Fails (y : Go DiskSt α) : Prop where
  run : ∀ d a d', y.run d ≠ (.ok a, d')

theorem Fails.bind {x : Go DiskSt α} {g : α → Go DiskSt β} (h : ∀ a, Fails (g a)) : Fails (x >>= g) := by
  refine ⟨fun d a d' hr => ?_⟩
  obtain ⟨b, d1, -, h2⟩ := Go.bind_eq_ok hr
  exact (h b).run _ _ _ h2

theorem Fails.error {r : Except Fail α} {g : α → Go DiskSt β} (h : ∃ e, r = .error e) : Fails (Go.lift r >>= g) := by
  obtain ⟨e, rfl⟩ := h
  exact ⟨fun d a d' hr => by simp [Go.bind_run] at hr⟩

/-- Reading `srs.lag`: what is read is complete, or the rest of the program fails. -/
theorem Steps.openLag {N : Nat} {f : Bytes → Go InitSt β} {g : Bytes → Go DiskSt β} {Kf Kb : Prop}
    {R2 : β → InitSt → DiskSt → Prop} (hN : ∀ b, Q b → b.length = N)
    (h1 : N ≤ cl → ∀ b, Q b → Steps (Beside c2 cl ce Q2 (some (fun b => Q b ∧ N ≤ cl)) QE) (f b) (g b) Kf Kb R2)
    (h2 : cl < N → ∀ b, Q b → Fails (g (b.take cl))) :
    Steps (Beside c2 cl ce Q2 (some Q) QE) (Phase2.openLag >>= f) (openLagOnDisk >>= g) (N ≤ cl ∧ Kf) (N ≤ cl ∧ Kb) R2 := by
  constructor
  · rintro s d ⟨p2, ⟨el, hQ⟩, pe⟩ b d' h
    have h : (g d.lag.data).run d = (.ok b, d') := h
    rw [el] at h
    by_cases hc : N ≤ cl
    · rw [List.take_of_length_le (by rw [hN _ hQ]; exact hc)] at h
      obtain ⟨k, s', e, hR⟩ := (h1 hc _ hQ).fwd s d ⟨p2, ⟨el, hQ, hc⟩, pe⟩ b d' h
      exact ⟨⟨hc, k⟩, s', e, hR⟩
    · exact absurd h ((h2 (by omega) _ hQ).run _ _ _)
  · rintro s d ⟨p2, ⟨el, hQ⟩, pe⟩ b s' h ⟨hc, hK⟩
    obtain ⟨d', e, hR⟩ := (h1 hc _ hQ).bwd s d ⟨p2, ⟨el, hQ, hc⟩, pe⟩ b s' h hK
    refine ⟨d', ?_, hR⟩
    show (g d.lag.data).run d = _
    rw [el, List.take_of_length_le (by rw [hN _ hQ]; exact hc)]
    exact e

/-! ### when parts pass -/

/-- checked calls without a buffer -/
theorem passes_direct (c l : Nat) (cs : List Call) (hc : ∀ x ∈ cs, x.checked = true) :
    Passes c (·.length = l) ⟨0, cs⟩ (l + (allBytes cs).length ≤ c ∨ (allBytes cs).length = 0)
      (l + (allBytes cs).length ≤ c ∨ (allBytes cs).length = 0) := by
  intro b hb
  have := direct_iff c b cs hc
  rw [hb] at this
  rw [this]
  constructor <;> intro h <;> omega

/-- small checked calls through a buffer of 4096 bytes -/
theorem passes_buffered (c l : Nat) (cs : List Call) (hc : ∀ x ∈ cs, x.checked = true ∧ x.bytes.length ≤ 4096) :
    Passes c (·.length = l) ⟨4096, cs⟩ (sectionPasses c l (allBytes cs).length) (sectionPasses c l (allBytes cs).length) := by
  intro b hb
  have := buffered_iff c b (size := 4096) (by decide) cs [] hc (by simp)
  rw [List.append_nil, hb] at this
  rw [this]
  exact ⟨id, id⟩

/-- checked calls of any size through a buffer of 4096 bytes -/
theorem passes_checked (c l : Nat) (cs : List Call) (hc : ∀ x ∈ cs, x.checked = true) :
    Passes c (·.length = l) ⟨4096, cs⟩ (min c l + (allBytes cs).length ≤ c + 4096)
      (l + (allBytes cs).length ≤ c ∨ (allBytes cs).length ≤ 4096) := by
  intro b hb
  have h1 := runPart_tail ⟨c, b.take c⟩ (by simp) 4096 cs [] hc (by simp)
  simp only [List.append_nil, List.length_append, List.length_take, hb] at h1
  refine ⟨h1.2, ?_⟩
  rintro (h | h)
  · exact h1.1 (by omega)
  · exact runCalls_small cs _ rfl (by simpa using h)

/-- whatever fits passes -/
theorem passes_fits (c N : Nat) (Q : Bytes → Prop) (p : Part) (h : ∀ b, Q b → b.length + p.all.length ≤ N) :
    Passes c Q p True (N ≤ c) := by
  intro b hb
  refine ⟨fun _ => trivial, fun hN => ?_⟩
  have := h b hb
  rw [List.take_of_length_le (by omega)]
  obtain ⟨-, -, h3⟩ := runPart_spec ⟨c, b⟩ (by simp only; omega) p
  by_contra hf
  have := h3 (by simpa using hf)
  simp only [List.length_append] at this
  omega

theorem Steps.assume {P : Prop} {x : Go InitSt α} {y : Go DiskSt α} {Kf Kb : Prop} {R' : α → InitSt → DiskSt → Prop}
    (h : P → Steps R x y Kf Kb R') : Steps (fun s d => P ∧ R s d) x y Kf Kb R' :=
  ⟨fun s d hR => (h hR.1).fwd s d hR.2, fun s d hR => (h hR.1).bwd s d hR.2⟩

/-! ### the stages -/

section
variable {F G1 G2 GT : Type} [Field F] [AddCommGroup G1] [Module F G1] [AddCommGroup G2]
  [Module F G2] [AddCommGroup GT] [Module F GT]

theorem headerPart_all (H : HeaderCodec) (h : Header) : (headerPart H h).all = h.write H := pieces_all _ _ _ (by simp)

theorem headerPart_passes (H : HeaderCodec) (h : Header) : Passes c2 (·.length = 0) (headerPart H h) ((H.enc h).length ≤ c2)
    ((H.enc h).length ≤ c2) := by
  intro b hb
  obtain ⟨p1, p2⟩ := passes_direct c2 0 _ (pieces_checked true [120, (H.enc h).length - 120] (h.write H)) b hb
  rw [pieces_all _ _ _ (by simp), Nat.zero_add] at p1 p2
  have e : (h.write H).length = (H.enc h).length := rfl
  rw [e] at p1 p2
  exact ⟨fun hr => by have := p1 hr; omega, fun hr => p2 (.inl hr)⟩

theorem processHeader_steps (H : HeaderCodec) (r : R1CS F) (file : Bytes) (dom : Int) (hdom : nextPowerofTwo r.nbConstraints = .ok dom) :
    Steps (Beside c2 cl ce (some (·.length = 0)) QL QE) (processHeader H (some r) file) (processHeaderOnDisk H (some r) file)
      ((H.enc (circuitHeader r r.nbConstraints dom)).length ≤ c2) ((H.enc (circuitHeader r r.nbConstraints dom)).length ≤ c2)
      fun a s d => (a.1 = r ∧ a.2.2 = circuitHeader r r.nbConstraints dom) ∧
        Beside c2 cl ce (some (·.length = (H.enc (circuitHeader r r.nbConstraints dom)).length)) QL QE s d := by
  unfold processHeader processHeaderOnDisk
  simp only [hdom]
  refine .lift fun dom' hd => ?_
  cases hd
  refine .lift fun h1 _ => ?_
  refine .lift fun _ _ => ?_
  refine Steps.mono (.bind (.putPh2 (headerPart_all _ _) (headerPart_passes _ _)
    (Q' := (·.length = (H.enc (circuitHeader r r.nbConstraints dom)).length)) ?_) fun _ => .pure (r, h1, _)) And.left
    (fun h => ⟨h, trivial⟩) ?_
  · intro b hb
    rw [List.length_append, hb, Nat.zero_add]
    rfl
  · rintro - a s d ⟨rfl, h⟩
    exact ⟨⟨rfl, rfl⟩, h⟩

theorem processHeaderParted_steps (H : HeaderCodec) (cs : PartedR1CS F) (nbCons : Int) (file : Bytes) (dom : Int)
    (hdom : nextPowerofTwo nbCons = .ok dom) :
    Steps (Beside c2 cl ce (some (·.length = 0)) QL QE) (processHeaderParted H cs nbCons file) (processHeaderPartedOnDisk H cs nbCons file)
      ((H.enc (circuitHeader cs.base nbCons dom)).length ≤ c2) ((H.enc (circuitHeader cs.base nbCons dom)).length ≤ c2)
      fun a s d => (a.2 = circuitHeader cs.base nbCons dom) ∧
        Beside c2 cl ce (some (·.length = (H.enc (circuitHeader cs.base nbCons dom)).length)) QL QE s d := by
  unfold processHeaderParted processHeaderPartedOnDisk
  simp only [hdom]
  refine .lift fun dom' hd => ?_
  cases hd
  refine .lift fun h1 _ => ?_
  refine .lift fun _ _ => ?_
  refine Steps.mono (.bind (.putPh2 (headerPart_all _ _) (headerPart_passes _ _)
    (Q' := (·.length = (H.enc (circuitHeader cs.base nbCons dom)).length)) ?_) fun _ => .pure (h1, _)) And.left
    (fun h => ⟨h, trivial⟩) ?_
  · intro b hb
    rw [List.length_append, hb, Nat.zero_add]
    rfl
  · rintro - a s d ⟨rfl, h⟩
    exact ⟨rfl, h⟩

theorem lagPart_all (size n : Nat) (bs : Bytes) : (lagPart size n bs).all = bs := pieces_all _ _ _ (by simp)

theorem processLagrange_steps {C : Curve F G1 G2 GT} (hC : C.Lawful) (par : Par) (dom : Nat → Lagrange.Domain F) (h1 : Phase1.Header)
    (h2 : Header) (file : Bytes) (k : Nat) (hk : k < 64) (hdom : h2.domain = ((2 ^ k : Nat) : Int)) (hd : (dom (2 ^ k)).Lawful k) :
    Steps (Beside c2 cl ce Q2 QL QE) (processLagrange C par dom h1 h2 file) (processLagrangeOnDisk C par dom h1 h2 file)
      True (16 + 160 * 2 ^ k ≤ cl) fun _ => Beside c2 cl ce Q2 (some (LagOf C (2 ^ k))) QE := by
  have hn : h2.domain.toNat = 2 ^ k := by rw [hdom]; rfl
  have hA := fun pos => (lagrangeSection_out C.c1 par file pos (dom (2 ^ k)) k hk hd).2
  have hB := fun pos => (lagrangeSection_out C.c2 par file pos (dom (2 ^ k)) k hk hd).2
  unfold processLagrange processLagrangeOnDisk
  simp only [hn]
  refine .seq .createLag (fun _ => trivial) fun _ => .lift fun s1 e1 => ?_
  obtain ⟨x1, l1, rfl⟩ := hA _ _ e1
  have m1 := Codec.encodeSlice_length hC.codec1 x1
  refine .seq (.putLag (lagPart_all _ _ _) (passes_fits cl (16 + 160 * 2 ^ k) _ _ ?_)
    (Q' := (· = C.c1.encodeSlice x1)) ?_) id fun _ => .lift fun s2 e2 => ?_
  · rintro b rfl
    rw [lagPart_all, m1, l1, hC.size1]
    simp only [List.length_nil]
    omega
  · rintro b rfl
    rfl
  obtain ⟨x2, l2, rfl⟩ := hA _ _ e2
  have m2 := Codec.encodeSlice_length hC.codec1 x2
  refine .seq (.putLag (lagPart_all _ _ _) (passes_fits cl (16 + 160 * 2 ^ k) _ _ ?_)
    (Q' := (· = C.c1.encodeSlice x1 ++ C.c1.encodeSlice x2)) ?_) id fun _ => .lift fun s3 e3 => ?_
  · rintro b rfl
    rw [lagPart_all, m1, m2, l1, l2, hC.size1]
    omega
  · rintro b rfl
    rfl
  obtain ⟨x3, l3, rfl⟩ := hA _ _ e3
  have m3 := Codec.encodeSlice_length hC.codec1 x3
  refine .seq (.putLag (lagPart_all _ _ _) (passes_fits cl (16 + 160 * 2 ^ k) _ _ ?_)
    (Q' := (· = (C.c1.encodeSlice x1 ++ C.c1.encodeSlice x2) ++ C.c1.encodeSlice x3)) ?_) id fun _ => .lift fun s4 e4 => ?_
  · rintro b rfl
    rw [lagPart_all, List.length_append, m1, m2, m3, l1, l2, l3, hC.size1]
    omega
  · rintro b rfl
    rfl
  obtain ⟨x4, l4, rfl⟩ := hB _ _ e4
  have m4 := Codec.encodeSlice_length hC.codec2 x4
  refine .putLag (lagPart_all _ _ _) (passes_fits cl (16 + 160 * 2 ^ k) _ _ ?_) ?_
  · rintro b rfl
    rw [lagPart_all, List.length_append, List.length_append, m1, m2, m3, m4, l1, l2, l3, l4, hC.size1, hC.size2]
    omega
  · rintro b rfl
    exact ⟨x1, x2, x3, x4, l1, l2, l3, l4, by simp only [List.append_assoc]⟩

theorem pointPart_all (bs : Bytes) : (pointPart bs).all = bs := by simp [pointPart, Part.all, allBytes, checkedCall]

theorem point_passes {l m : Nat} {bs : Bytes} (h : bs.length = m) (hm : 0 < m) :
    Passes ce (·.length = l) (pointPart bs) (l + m ≤ ce) (l + m ≤ ce) := by
  intro b hb
  obtain ⟨p1, p2⟩ := passes_direct ce l [checkedCall bs] (by simp [checkedCall]) b hb
  have e : allBytes [checkedCall bs] = bs := pointPart_all bs
  rw [e, h] at p1 p2
  exact ⟨fun hr => by have := p1 hr; omega, fun hr => p2 (.inl hr)⟩

theorem slice_passes {G : Type} {c : Codec G} (hc : c.Lawful) {l m : Nat} {xs : List G} (h : 4 + c.size * xs.length = m) :
    Passes ce (·.length = l) (slicePart (xs.map c.bytes)) (l + m ≤ ce) (l + m ≤ ce) := by
  intro b hb
  obtain ⟨p1, p2⟩ := passes_direct ce l (sliceCalls (xs.map c.bytes)) (by simp [sliceCalls, checkedCall]) b hb
  rw [allBytes_encodeSlice, Codec.encodeSlice_length hc, h] at p1 p2
  exact ⟨fun hr => by have := p1 hr; omega, fun hr => p2 (.inl hr)⟩

/-- `processEvaluations` and its parted variant -/
def evalsPlain (C : Curve F G1 G2 GT) (acc1 : (R1C → List Term) → List G1 → List G1 → Except Fail (List G1))
    (acc2 : (R1C → List Term) → List G2 → List G2 → Except Fail (List G2)) (header1 : Phase1.Header) (header2 : Header)
    (phase1File : Bytes) : Go InitSt Unit := do
  let lagFile ← openLag
  createEvals
  let (alpha, beta1, beta2) ← Go.lift (readPhase1 C phase1File header1.power)
  emitEvals (C.c1.bytes alpha)
  emitEvals (C.c1.bytes beta1)
  emitEvals (C.c2.bytes beta2)
  let lag := readTauLag C lagFile header2.domain
  let tauG1 ← Go.lift lag.1
  let wires ← Go.lift (makeLen header2.wires)
  let buff ← Go.lift (acc1 R1C.l tauG1 (List.replicate wires 0))
  emitEvals (C.c1.encodeSlice buff)
  let buff ← Go.lift (acc1 R1C.r tauG1 (List.replicate wires 0))
  emitEvals (C.c1.encodeSlice buff)
  let tauG2 ← Go.lift lag.2
  let buff2 ← Go.lift (acc2 R1C.r tauG2 (List.replicate wires 0))
  emitEvals (C.c2.encodeSlice buff2)

/-- the same on the disk -/
def evalsDisk (C : Curve F G1 G2 GT) (acc1 : (R1C → List Term) → List G1 → List G1 → Except Fail (List G1))
    (acc2 : (R1C → List Term) → List G2 → List G2 → Except Fail (List G2)) (header1 : Phase1.Header) (header2 : Header)
    (phase1File : Bytes) : Go DiskSt Unit := do
  let lagFile ← openLagOnDisk
  createEvalsOnDisk
  let (alpha, beta1, beta2) ← Go.lift (readPhase1 C phase1File header1.power)
  putEvals (pointPart (C.c1.bytes alpha))
  putEvals (pointPart (C.c1.bytes beta1))
  putEvals (pointPart (C.c2.bytes beta2))
  let lag := readTauLag C lagFile header2.domain
  let tauG1 ← Go.lift lag.1
  let wires ← Go.lift (makeLen header2.wires)
  let buff ← Go.lift (acc1 R1C.l tauG1 (List.replicate wires 0))
  putEvals (slicePart (buff.map C.c1.bytes))
  let buff ← Go.lift (acc1 R1C.r tauG1 (List.replicate wires 0))
  putEvals (slicePart (buff.map C.c1.bytes))
  let tauG2 ← Go.lift lag.2
  let buff2 ← Go.lift (acc2 R1C.r tauG2 (List.replicate wires 0))
  putEvals (slicePart (buff2.map C.c2.bytes))

theorem evals_steps {C : Curve F G1 G2 GT} (hC : C.Lawful) (acc1 : (R1C → List Term) → List G1 → List G1 → Except Fail (List G1))
    (acc2 : (R1C → List Term) → List G2 → List G2 → Except Fail (List G2))
    (hacc1 : ∀ side srs b b', acc1 side srs b = .ok b' → b'.length = b.length)
    (hacc2 : ∀ side srs b b', acc2 side srs b = .ok b' → b'.length = b.length) (h1 : Phase1.Header) (h2 : Header)
    (file : Bytes) (n : Nat) (hn : n < 2 ^ 32) (hdom : h2.domain = (n : Int)) :
    Steps (Beside c2 cl ce Q2 (some (LagOf C n)) QE) (evalsPlain C acc1 acc2 h1 h2 file) (evalsDisk C acc1 acc2 h1 h2 file)
      (16 + 160 * n ≤ cl ∧ 140 + 128 * h2.wires.toNat ≤ ce) (16 + 160 * n ≤ cl ∧ 140 + 128 * h2.wires.toNat ≤ ce)
      fun _ => Beside c2 cl ce Q2 (some (fun b => LagOf C n b ∧ 16 + 160 * n ≤ cl)) (some (·.length = 140 + 128 * h2.wires.toNat)) := by
  unfold evalsPlain evalsDisk
  refine .openLag (fun b hb => hb.length hC) (fun hc b hb => ?_) fun hc b hb => ?_
  · have k1 : ∀ p, (C.c1.bytes p).length = 32 := fun p => (hC.codec1.bytes_length p).trans hC.size1
    have k2 : ∀ p, (C.c2.bytes p).length = 64 := fun p => (hC.codec2.bytes_length p).trans hC.size2
    refine .seq .createEvals (fun _ => trivial) fun _ => .lift fun x _ => ?_
    obtain ⟨alpha, beta1, beta2⟩ := x
    simp only
    refine .seq (.putEvals (pointPart_all _) (point_passes (k1 _) (by decide)) (Q' := (·.length = 32))
      fun b hb => by rw [List.length_append, hb, k1]) (fun h => by omega) fun _ => ?_
    refine .seq (.putEvals (pointPart_all _) (point_passes (k1 _) (by decide)) (Q' := (·.length = 64))
      fun b hb => by rw [List.length_append, hb, k1]) (fun h => by omega) fun _ => ?_
    refine .seq (.putEvals (pointPart_all _) (point_passes (k2 _) (by decide)) (Q' := (·.length = 128))
      fun b hb => by rw [List.length_append, hb, k2]) (fun h => by omega) fun _ => ?_
    refine .lift fun tauG1 _ => .lift fun wires hw => ?_
    rw [makeLen_eq_ok hw, Int.toNat_natCast]
    refine .lift fun a ha => ?_
    have la := hacc1 _ _ _ _ ha
    rw [List.length_replicate] at la
    have ma := Codec.encodeSlice_length hC.codec1 a
    rw [hC.size1, la] at ma
    refine .seq (.putEvals (allBytes_encodeSlice _ _) (slice_passes hC.codec1 (m := 4 + 32 * wires) (by rw [hC.size1, la]))
      (Q' := (·.length = 132 + 32 * wires)) fun b hb => by rw [List.length_append, hb, ma]; omega) (fun h => by omega) fun _ => ?_
    refine .lift fun b hb => ?_
    have lb := hacc1 _ _ _ _ hb
    rw [List.length_replicate] at lb
    have mb := Codec.encodeSlice_length hC.codec1 b
    rw [hC.size1, lb] at mb
    refine .seq (.putEvals (allBytes_encodeSlice _ _) (slice_passes hC.codec1 (m := 4 + 32 * wires) (by rw [hC.size1, lb]))
      (Q' := (·.length = 136 + 64 * wires)) fun b hb => by rw [List.length_append, hb, mb]; omega) (fun h => by omega) fun _ => ?_
    refine .lift fun tauG2 _ => .lift fun b2 hb2 => ?_
    have lc := hacc2 _ _ _ _ hb2
    rw [List.length_replicate] at lc
    have mc := Codec.encodeSlice_length hC.codec2 b2
    rw [hC.size2, lc] at mc
    refine Steps.mono (.putEvals (allBytes_encodeSlice _ _) (slice_passes hC.codec2 (m := 4 + 64 * wires) (by rw [hC.size2, lc]))
      (Q' := (·.length = 140 + 128 * wires)) fun b hb => by rw [List.length_append, hb, mc]; omega) (fun h => by omega)
      (fun h => by omega) fun _ _ _ _ => id
  · refine .bind fun _ => .bind fun _ => ?_
    refine .bind fun _ => .bind fun _ => .bind fun _ => ?_
    refine .bind fun _ => .bind fun _ => .bind fun _ => .bind fun _ => .bind fun _ => .bind fun _ => ?_
    rw [hdom]
    exact .error (readTauLag_cut hC hn hb _ (by rw [hb.length hC]; exact hc))

theorem computeZ_length {G : Type} [AddCommGroup G] (n : Nat) (tau : List G) : (computeZ n tau).length = n - 1 := by
  simp [computeZ]

theorem allBytes_points {G : Type} (c : Codec G) (ps : List G) : allBytes (ps.map fun p => checkedCall (c.bytes p)) = c.encodeN ps := by
  simp only [allBytes, Codec.encodeN, List.flatMap_map, checkedCall]

theorem deltaAndZ_steps {C : Curve F G1 G2 GT} (hC : C.Lawful) (h2 : Header) (file : Bytes) (l n : Nat) (hn : 0 < n)
    (hdom : h2.domain = (n : Int)) :
    Steps (Beside c2 cl ce (some (·.length = l)) QL QE) (processDeltaAndZ C h2 file) (processDeltaAndZOnDisk C h2 file)
      (sectionPasses c2 l (64 + 32 * n)) (sectionPasses c2 l (64 + 32 * n))
      fun _ => Beside c2 cl ce (some (·.length = l + 64 + 32 * n)) QL QE := by
  have k1 : ∀ p, (C.c1.bytes p).length = 32 := fun p => (hC.codec1.bytes_length p).trans hC.size1
  have k2 : ∀ p, (C.c2.bytes p).length = 64 := fun p => (hC.codec2.bytes_length p).trans hC.size2
  have hdz : allBytes (deltaCalls C) = C.c1.bytes C.g1 ++ C.c2.bytes C.g2 := by simp [deltaCalls, allBytes, checkedCall]
  unfold processDeltaAndZ processDeltaAndZOnDisk
  simp only [hdom, Int.toNat_natCast]
  cases hm : makeLen (2 * (n : Int) - 1) with
  | error e =>
    constructor
    · intro s d _ a d' h
      simp only [bind, Except.bind, putDeltaAndZ] at h
      obtain ⟨_, _, _, h⟩ := Go.bind_eq_ok h
      cases h
    · intro s d _ a s' h
      obtain ⟨_, _, _, h⟩ := Go.bind_eq_ok h
      obtain ⟨_, _, _, h⟩ := Go.bind_eq_ok h
      obtain ⟨_, _, h, _⟩ := Go.bind_eq_ok h
      cases h
  | ok len =>
    cases ht : ((C.c1.decodeN len).run (Rd.buffered 4096 (file.drop 3))).1 with
    | error e =>
      constructor
      · intro s d _ a d' h
        simp only [bind, Except.bind, putDeltaAndZ, ht] at h
        obtain ⟨_, _, _, h⟩ := Go.bind_eq_ok h
        cases h
      · intro s d _ a s' h
        obtain ⟨_, _, _, h⟩ := Go.bind_eq_ok h
        obtain ⟨_, _, _, h⟩ := Go.bind_eq_ok h
        obtain ⟨_, _, hl, h⟩ := Go.bind_eq_ok h
        cases hl
        obtain ⟨_, _, h, _⟩ := Go.bind_eq_ok h
        rw [ht] at h
        cases h
    | ok tau =>
      have hall : allBytes (deltaCalls C ++ (computeZ n tau).map fun z => checkedCall (C.c1.bytes z))
          = C.c1.bytes C.g1 ++ C.c2.bytes C.g2 ++ C.c1.encodeN (computeZ n tau) := by
        rw [allBytes_append, hdz, allBytes_points]
      have hlen : (C.c1.bytes C.g1 ++ C.c2.bytes C.g2 ++ C.c1.encodeN (computeZ n tau)).length = 64 + 32 * n := by
        rw [List.length_append, List.length_append, k1, k2, Codec.encodeN_length hC.codec1, computeZ_length, hC.size1]
        omega
      refine Steps.congr (x' := emitPh2 (C.c1.bytes C.g1 ++ C.c2.bytes C.g2 ++ C.c1.encodeN (computeZ n tau))) ?_ ?_
      · intro s
        simp only [Go.bind_run, emitPh2, Go.lift_run, ht, List.append_assoc]
      · simp only [bind, Except.bind, putDeltaAndZ, ht, Int.toNat_natCast]
        refine .putPh2 hall ?_ fun b hb => by rw [List.length_append, hb, hlen]; omega
        have := passes_buffered c2 l (deltaCalls C ++ (computeZ n tau).map fun z => checkedCall (C.c1.bytes z)) (by
          intro c hc
          rcases List.mem_append.1 hc with hc | hc
          · simp only [deltaCalls, checkedCall, List.mem_cons, List.not_mem_nil, or_false] at hc
            rcases hc with rfl | rfl
            · exact ⟨rfl, by simp only [k1]; omega⟩
            · exact ⟨rfl, by simp only [k2]; omega⟩
          · obtain ⟨z, -, rfl⟩ := List.mem_map.1 hc
            exact ⟨rfl, by simp only [checkedCall, k1]; omega⟩)
        rwa [hall, hlen] at this

/-- `processPVCKK` and its parted variant -/
def pvckkPlain (C : Curve F G1 G2 GT) (cmtBytes : Commitment → Bytes) (cmt : Commitment)
    (acc : (R1C → List Term) → List G1 → List G1 → Except Fail (List G1)) (header2 : Header) : Go InitSt Unit := do
  let lagFile ← openLag
  let L ← Go.lift (makeLen header2.wires)
  let (tau, alpha, beta) ← Go.lift ((readLag3 C).run (Rd.buffered 4096 lagFile)).1
  let L ← Go.lift (acc R1C.o tau (List.replicate L 0))
  let L ← Go.lift (acc R1C.r alpha L)
  let L ← Go.lift (acc R1C.l beta L)
  let (pkk, vkk, ckk) ← Go.lift (filterL L header2 cmt)
  emitPh2 (C.c1.encodeN pkk)
  emitEvals (C.c1.encodeSlice vkk)
  emitEvals (C.c1.encodeSlice ckk)
  emitEvals (cmtBytes cmt)

/-- the same on the disk -/
def pvckkDisk (C : Curve F G1 G2 GT) (cmtBytes : Commitment → Bytes) (cuts : List Nat) (cmt : Commitment)
    (acc : (R1C → List Term) → List G1 → List G1 → Except Fail (List G1)) (header2 : Header) : Go DiskSt Unit := do
  let lagFile ← openLagOnDisk
  let L ← Go.lift (makeLen header2.wires)
  let (tau, alpha, beta) ← Go.lift ((readLag3 C).run (Rd.buffered 4096 lagFile)).1
  let L ← Go.lift (acc R1C.o tau (List.replicate L 0))
  let L ← Go.lift (acc R1C.r alpha L)
  let L ← Go.lift (acc R1C.l beta L)
  let (pkk, vkk, ckk) ← Go.lift (filterL L header2 cmt)
  putPh2 ⟨4096, pkk.map fun x => checkedCall (C.c1.bytes x)⟩
  putEvals (tailPart (vkk.map C.c1.bytes) (ckk.map C.c1.bytes) cuts (cmtBytes cmt))

theorem tailPart_all (C : Curve F G1 G2 GT) (vkk ckk : List G1) (cuts : List Nat) (info : Bytes) :
    (tailPart (vkk.map C.c1.bytes) (ckk.map C.c1.bytes) cuts info).all = C.c1.encodeSlice vkk ++ C.c1.encodeSlice ckk ++ info := by
  unfold tailPart Part.all
  rw [allBytes_append, allBytes_append, allBytes_encodeSlice, allBytes_encodeSlice, pieces_all _ _ _ (by simp)]

/-- length of the second part of `evals`: VKK, CKK and the commitment info -/
def tailLength (h : Header) (info : Bytes) : Nat := 8 + 32 * (h.pub.toNat + h.privateCommitted.toNat) + info.length

theorem pvckk_steps {C : Curve F G1 G2 GT} (hC : C.Lawful) (cmtBytes : Commitment → Bytes) (cuts : List Nat) (cmt : Commitment)
    (acc : (R1C → List Term) → List G1 → List G1 → Except Fail (List G1)) (h2 : Header) (l n e : Nat) (Kf Kb : Prop)
    (hK : ∀ vkk ckk : List G1, h2.pub = (vkk.length : Int) → h2.privateCommitted = (ckk.length : Int) →
      Passes ce (·.length = e) (tailPart (vkk.map C.c1.bytes) (ckk.map C.c1.bytes) cuts (cmtBytes cmt)) Kf Kb) :
    Steps (Beside c2 cl ce (some (·.length = l)) (some (fun b => LagOf C n b ∧ 16 + 160 * n ≤ cl)) (some (·.length = e)))
      (pvckkPlain C cmtBytes cmt acc h2) (pvckkDisk C cmtBytes cuts cmt acc h2)
      (sectionPasses c2 l (32 * h2.witness.toNat) ∧ Kf) (16 + 160 * n ≤ cl ∧ sectionPasses c2 l (32 * h2.witness.toNat) ∧ Kb)
      fun _ => Beside c2 cl ce (some (·.length = l + 32 * h2.witness.toNat)) (some (fun b => LagOf C n b ∧ 16 + 160 * n ≤ cl))
        (some (·.length = e + tailLength h2 (cmtBytes cmt))) := by
  unfold pvckkPlain pvckkDisk
  refine Steps.mono (.openLag (N := 16 + 160 * n) (Kf := sectionPasses c2 l (32 * h2.witness.toNat) ∧ Kf)
    (Kb := sectionPasses c2 l (32 * h2.witness.toNat) ∧ Kb) (fun b hb => hb.1.length hC) (fun hc b hb => ?_)
    fun hc b hb => absurd hb.2 (by omega)) And.right id (R' := fun _ => Beside c2 cl ce (some (·.length = l + 32 * h2.witness.toNat))
    (some (fun b => (LagOf C n b ∧ 16 + 160 * n ≤ cl) ∧ 16 + 160 * n ≤ cl)) (some (·.length = e + tailLength h2 (cmtBytes cmt))))
    fun _ _ s d h => ⟨h.ph2, ⟨h.lag.1, h.lag.2.1⟩, h.evals⟩
  refine .lift fun L _ => .lift fun x _ => ?_
  obtain ⟨tau, alpha, beta⟩ := x
  refine .lift fun L1 _ => .lift fun L2 _ => .lift fun L3 _ => .lift fun y hy => ?_
  obtain ⟨pkk, vkk, ckk⟩ := y
  obtain ⟨lw, lp, lc⟩ := filterL_lengths hy
  have k1 : ∀ p, (C.c1.bytes p).length = 32 := fun p => (hC.codec1.bytes_length p).trans hC.size1
  have lw' : h2.witness.toNat = pkk.length := by rw [lw]; rfl
  have hpl : (C.c1.encodeN pkk).length = 32 * h2.witness.toNat := by
    rw [Codec.encodeN_length hC.codec1, hC.size1, lw']
  refine .bind (.putPh2 (allBytes_points _ _) ?_ (Q' := (·.length = l + 32 * h2.witness.toNat))
    fun b hb => by rw [List.length_append, hb, hpl]) fun _ => ?_
  · have := passes_buffered c2 l (pkk.map fun x => checkedCall (C.c1.bytes x)) (by
      intro c hc
      obtain ⟨z, -, rfl⟩ := List.mem_map.1 hc
      exact ⟨rfl, by simp only [checkedCall, k1]; omega⟩)
    rwa [allBytes_points, hpl] at this
  · refine Steps.congr (x' := emitEvals (C.c1.encodeSlice vkk ++ C.c1.encodeSlice ckk ++ cmtBytes cmt)) ?_ ?_
    · intro s
      simp only [Go.bind_run, emitEvals, List.append_assoc]
    · refine .putEvals (tailPart_all _ _ _ _ _) (hK vkk ckk lp lc) fun b hb => ?_
      rw [List.length_append, hb, List.length_append, List.length_append, Codec.encodeSlice_length hC.codec1,
        Codec.encodeSlice_length hC.codec1, hC.size1, tailLength, lp, lc, Int.toNat_natCast, Int.toNat_natCast]
      omega

theorem accumulateParted_length {G : Type} [AddCommGroup G] [Module F G] (cs : List F) (srs : List G) (side : R1C → List Term)
    (get : Nat → Except Fail R1C) (m : Nat) : ∀ (i : Nat) (buff out : List G), accumulateParted cs srs side get m i buff = .ok out →
      out.length = buff.length := by
  induction m with
  | zero => intro i buff out h; simp only [accumulateParted, Except.ok.injEq] at h; rw [h]
  | succ m ih =>
    intro i buff out h
    rw [accumulateParted] at h
    obtain ⟨c, -, h⟩ := except_bind_eq_ok h
    obtain ⟨a, ha, h⟩ := except_bind_eq_ok h
    rw [ih _ _ _ h, accumulateTerms_length _ _ _ _ _ _ ha]

theorem nextPowerofTwoLoop_ok (n : Int) (fuel : Nat) : ∀ (k : Nat) (x : Int), nextPowerofTwoLoop n fuel (2 ^ k) = .ok x →
    ∃ m, k ≤ m ∧ m < k + fuel ∧ x = ((2 ^ m : Nat) : Int) := by
  induction fuel with
  | zero => intro k x h; cases h
  | succ fuel ih =>
    intro k x h
    rw [nextPowerofTwoLoop] at h
    split at h
    · cases h
      exact ⟨k, le_rfl, by omega, by simp⟩
    · rw [← pow_succ] at h
      obtain ⟨m, h1, h2, h3⟩ := ih (k + 1) x h
      exact ⟨m, by omega, by omega, h3⟩

theorem nextPowerofTwo_ok {n x : Int} (h : nextPowerofTwo n = .ok x) : ∃ k, 1 ≤ k ∧ k ≤ 27 ∧ x = ((2 ^ k : Nat) : Int) := by
  obtain ⟨m, h1, h2, h3⟩ := nextPowerofTwoLoop_ok n 27 1 x h
  exact ⟨m, h1, by omega, h3⟩

end
end ZkSetup
