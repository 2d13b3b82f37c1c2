import Verif.Proofs.Phase2Verify
/-
`phase2.Verify` on arbitrary input bytes.
-/
set_option linter.unusedSectionVars false

namespace ZkSetup

open Phase1 (wrap64 makeLen multiExp check)
open Phase2

/-- the program only moves forward in its input -/
def Forward {α : Type} (x : Go Rd α) : Prop := ∀ r : Rd, ∃ used : Bytes, r.rest = used ++ (x.run r).2.rest

namespace Forward
variable {α β : Type}

theorem pure (a : α) : Forward (Pure.pure a : Go Rd α) := fun _ => ⟨[], rfl⟩

theorem fail (e : Fail) : Forward (Go.fail e : Go Rd α) := fun _ => ⟨[], rfl⟩

theorem lift (r : Except Fail α) : Forward (Go.lift r : Go Rd α) := fun _ => ⟨[], rfl⟩

theorem bind {x : Go Rd α} {f : α → Go Rd β} (hx : Forward x) (hf : ∀ a, Forward (f a)) : Forward (x >>= f) := by
  intro r
  obtain ⟨u, hu⟩ := hx r
  cases h : x.run r with
  | mk res r' =>
    rw [h] at hu
    cases res with
    | error e => rw [Go.bind_error h]; exact ⟨u, hu⟩
    | ok a =>
      rw [Go.bind_ok h]
      obtain ⟨v, hv⟩ := hf a r'
      exact ⟨u ++ v, by rw [hu, List.append_assoc, ← hv]⟩

theorem ite {c : Prop} [Decidable c] {x y : Go Rd α} (hx : Forward x) (hy : Forward y) : Forward (if c then x else y) := by
  split
  · exact hx
  · exact hy

theorem readFull (k : Nat) : Forward (Rd.readFull k) := by
  intro r
  unfold Rd.readFull
  simp only
  split
  · exact ⟨r.rest.take k, by simp [Rd.adv]⟩
  · exact ⟨r.rest, by simp [Rd.adv]⟩

theorem decode {G : Type} (c : Codec G) : Forward c.decode := by
  have hset : ∀ b, Forward (c.set b) := by
    intro b
    unfold Codec.set
    split
    · exact pure _
    · exact fail _
  unfold Codec.decode
  exact bind (readFull _) fun b => ite (hset _) (bind (readFull _) fun _ => hset _)

theorem decodeN {G : Type} (c : Codec G) (n : Nat) : Forward (c.decodeN n) := by
  induction n with
  | zero => exact pure _
  | succ n ih => exact bind (decode c) fun _ => bind ih fun _ => pure _

end Forward

/-- a program on both readers that only moves forward in the submitted file -/
def Forward2 {α : Type} (x : Go (Rd × Rd) α) : Prop :=
  ∀ s : Rd × Rd, ∃ used : Bytes, s.1.rest = used ++ (x.run s).2.1.rest

namespace Forward2
variable {α β : Type}

theorem pure (a : α) : Forward2 (Pure.pure a : Go (Rd × Rd) α) := fun _ => ⟨[], rfl⟩

theorem lift (r : Except Fail α) : Forward2 (Go.lift r : Go (Rd × Rd) α) := fun _ => ⟨[], rfl⟩

theorem bind {x : Go (Rd × Rd) α} {f : α → Go (Rd × Rd) β} (hx : Forward2 x) (hf : ∀ a, Forward2 (f a)) :
    Forward2 (x >>= f) := by
  intro r
  obtain ⟨u, hu⟩ := hx r
  cases h : x.run r with
  | mk res r' =>
    rw [h] at hu
    cases res with
    | error e => rw [Go.bind_error h]; exact ⟨u, hu⟩
    | ok a =>
      rw [Go.bind_ok h]
      obtain ⟨v, hv⟩ := hf a r'
      exact ⟨u ++ v, by rw [hu, List.append_assoc, ← hv]⟩

theorem onInput {x : Go Rd α} (h : Forward x) : Forward2 (Phase2.onInput x) := fun s => h s.1

theorem onOrigin (x : Go Rd α) : Forward2 (Phase2.onOrigin x) := fun _ => ⟨[], rfl⟩

end Forward2

section
variable {F G1 G2 GT : Type} [Field F] [AddCommGroup G1] [Module F G1] [AddCommGroup G2]
  [Module F G2] [AddCommGroup GT] [Module F GT] [DecidableEq G1] [DecidableEq G2] [DecidableEq GT]

theorem msm_forward (ps : List G1) (rs : List F) : Forward2 (msm ps rs) := by
  unfold msm
  split
  · exact Forward2.pure _
  · exact fun _ => ⟨[], rfl⟩

theorem aggregateLoop_forward (C : Curve F G1 G2 GT) (par : Par) (b : Nat) (rnd : Nat → Nat → F) (n : Nat) :
    ∀ (t : Nat) (r : List F) (inG orG : G1), Forward2 (aggregateLoop C par b rnd n t r inG orG) := by
  induction n using Nat.strong_induction_on with
  | _ n ih =>
    intro t r inG orG
    rw [aggregateLoop]
    split
    · rename_i h
      exact .bind (.onInput (Forward.decodeN _ _)) fun _ => .bind (msm_forward _ _) fun _ => .bind (.onOrigin _) fun _ =>
        .bind (msm_forward _ _) fun _ => ih _ (by omega) _ _ _ _
    · exact .pure _

theorem verifyParameter_forward (C : Curve F G1 G2 GT) (par : Par) (b : Nat) (rnd : Nat → Nat → F) (delta g : G2)
    (size : Int) (field : String) : Forward2 (verifyParameter C par b rnd delta g size field) := by
  have h : Forward2 (aggregate C par b rnd size) :=
    .bind (.lift _) fun _ => .bind (.lift _) fun _ => aggregateLoop_forward C par b rnd _ _ _ _ _
  intro s
  obtain ⟨u, hu⟩ := h s
  refine ⟨u, ?_⟩
  unfold verifyParameter
  cases hr : (aggregate C par b rnd size).run s with
  | mk res s' =>
    rw [hr] at hu
    match res with
    | .ok (i, o) => simpa only [hr] using hu
    | .error (.err _) => simpa only [hr] using hu
    | .error (.panic _) => simpa only [hr] using hu

/-- The records are read one after the other, starting at the reader. -/
def RecordsAt (C : Curve F G1 G2 GT) : Rd → List (Contribution G1 G2) → Prop
  | _, [] => True
  | r, c :: cs => ∃ r', (Contribution.readFrom C).run r = (.ok c, r') ∧ RecordsAt C r' cs

variable {C : Curve F G1 G2 GT} (hC : C.Lawful)
include hC

/-- the record loop on arbitrary input, with the records it read -/
theorem verifyLoop2_records (n : Nat) : ∀ (c0 : Contribution G1 G2) (d : G1) (h : Bytes) (r r' : Rd)
    (fin : Contribution G1 G2), (Phase2.verifyLoop C n c0 d h).run r = (.ok fin, r') →
    ∃ (rs : List (Contribution G1 G2)) (xs : List F), rs.length = n ∧ RecordsAt C r rs ∧ Chain2By C d h rs xs ∧
      fin = rs.getLast?.getD c0 := by
  induction n with
  | zero =>
    intro c0 d h r r' fin hrun
    simp only [Phase2.verifyLoop, Go.pure_run, Prod.mk.injEq, Except.ok.injEq] at hrun
    exact ⟨[], [], rfl, trivial, trivial, by simp [hrun.1]⟩
  | succ n ih =>
    intro c0 d h r r' fin hrun
    unfold Phase2.verifyLoop at hrun
    obtain ⟨c, r1, h1, hrun⟩ := Go.bind_eq_ok hrun
    obtain ⟨_, r2, h2, hrun⟩ := Go.bind_eq_ok hrun
    simp only [Go.lift_run, Prod.mk.injEq] at h2
    obtain ⟨x, hx⟩ := (verifyContribution2_iff hC c d h).mp h2.1
    obtain ⟨rs, xs, hl, hrec, hch, hfin⟩ := ih _ _ _ _ _ _ hrun
    refine ⟨c :: rs, x :: xs, by simp [hl], ⟨r1, h1, by rw [h2.2]; exact hrec⟩, ⟨hx, hch⟩, ?_⟩
    rw [hfin, List.getLast?_cons]
    cases rs with
    | nil => simp
    | cons a rs => simp [List.getLast?_cons]

omit hC in
theorem onInput_eq_ok {α : Type} {x : Go Rd α} {s s' : Rd × Rd} {a : α} (h : (onInput x).run s = (.ok a, s')) :
    x.run s.1 = (.ok a, s'.1) ∧ s'.2 = s.2 := by
  unfold onInput at h
  simp only [Prod.mk.injEq] at h
  obtain ⟨h1, rfl⟩ := h
  exact ⟨Prod.ext h1 rfl, rfl⟩

omit hC in
theorem onOrigin_eq_ok {α : Type} {x : Go Rd α} {s s' : Rd × Rd} {a : α} (h : (onOrigin x).run s = (.ok a, s')) :
    x.run s.2 = (.ok a, s'.2) ∧ s'.1 = s.1 := by
  unfold onOrigin at h
  simp only [Prod.mk.injEq] at h
  obtain ⟨h1, rfl⟩ := h
  exact ⟨Prod.ext h1 rfl, rfl⟩

omit hC in
theorem lift_check_eq_ok {σ : Type} {c : Bool} {m : String} {s s' : σ} {u : Unit}
    (h : (Go.lift (check c m) : Go σ Unit).run s = (.ok u, s')) : c = true ∧ s' = s := by
  cases c with
  | true => exact ⟨rfl, by simp only [Go.lift_run, Prod.mk.injEq] at h; exact h.2.symm⟩
  | false => simp [Go.lift_run, check] at h

/-- A file starts with a header and the two points `[δ]1`, `[δ]2`. -/
def Starts2 (C : Curve F G1 G2 GT) (H : HeaderCodec) (file : Bytes) (h : Header) (d1 : G1) (d2 : G2) : Prop :=
  ∃ r1 r2 r3, H.dec.run (Rd.buffered 4096 file) = (.ok h, r1) ∧ C.c1.decode.run r1 = (.ok d1, r2) ∧
    C.c2.decode.run r2 = (.ok d2, r3)

/-- what acceptance of arbitrary bytes means -/
theorem verify2_any {H : HeaderCodec} (hH : H.Lawful) (par : Par) (b : Nat) (vr : VerifyRand F) (input origin : Bytes)
    (h : Phase2.verify C H par b vr input origin = .ok ()) :
    ∃ (hi ho : Header) (d1 g1 : G1) (d2 g2 : G2) (rs : List (Contribution G1 G2)) (xs : List F) (rd : Rd) (used : Bytes),
      Starts2 C H input hi d1 d2 ∧ Starts2 C H origin ho g1 g2 ∧
      hi.contributions ≠ 0 ∧ hi.equal ho = true ∧ C.e g1 d2 = C.e d1 g2 ∧
      input = used ++ rd.rest ∧ RecordsAt C rd rs ∧ rs.length = hi.contributions.toNat ∧
      Chain2By C g1 [] rs xs ∧ (rs.getLast?.map (·.delta)).getD 0 = d1 := by
  unfold Phase2.verify at h
  generalize hs0 : (Rd.buffered 4096 input, Rd.buffered 4096 origin) = s0 at h
  obtain ⟨s, h⟩ : ∃ s, (verifyBody C H par b vr).run s0 = (.ok (), s) :=
    ⟨((verifyBody C H par b vr).run s0).2, Prod.ext h rfl⟩
  unfold verifyBody Header.read at h
  obtain ⟨hi, s1, e1, h⟩ := Go.bind_eq_ok h
  obtain ⟨ho, s2, e2, h⟩ := Go.bind_eq_ok h
  obtain ⟨_, s3, e3, h⟩ := Go.bind_eq_ok h
  obtain ⟨_, s4, e4, h⟩ := Go.bind_eq_ok h
  obtain ⟨g1, s5, e5, h⟩ := Go.bind_eq_ok h
  obtain ⟨g2, s6, e6, h⟩ := Go.bind_eq_ok h
  obtain ⟨d1, s7, e7, h⟩ := Go.bind_eq_ok h
  obtain ⟨d2, s8, e8, h⟩ := Go.bind_eq_ok h
  obtain ⟨_, s9, e9, h⟩ := Go.bind_eq_ok h
  obtain ⟨_, s10, e10, h⟩ := Go.bind_eq_ok h
  obtain ⟨_, s11, e11, h⟩ := Go.bind_eq_ok h
  obtain ⟨c, s12, e12, h⟩ := Go.bind_eq_ok h
  have e1 := onInput_eq_ok e1
  have e2 := onOrigin_eq_ok e2
  have e3 := lift_check_eq_ok e3
  have e4 := lift_check_eq_ok e4
  have e5 := onOrigin_eq_ok e5
  have e6 := onOrigin_eq_ok e6
  have e7 := onInput_eq_ok e7
  have e8 := onInput_eq_ok e8
  have e9 := lift_check_eq_ok e9
  have e12 := onInput_eq_ok e12
  have e13 := lift_check_eq_ok h
  obtain ⟨u10, f10⟩ := verifyParameter_forward C par b vr.z d2 g2 (wrap64 (hi.domain - 1)) "Z" s9
  obtain ⟨u11, f11⟩ := verifyParameter_forward C par b vr.pkk d2 g2 hi.witness "PKK" s10
  rw [e10] at f10
  rw [e11] at f11
  obtain ⟨u1, f1, -⟩ := hH.dec_local _ _ _ e1.1
  obtain ⟨u7, f7⟩ := Forward.decode C.c1 s6.1
  obtain ⟨u8, f8⟩ := Forward.decode C.c2 s7.1
  rw [e7.1] at f7
  rw [e8.1] at f8
  obtain ⟨rs, xs, hl, hrec, hch, hfin⟩ := verifyLoop2_records hC _ _ _ _ _ _ _ e12.1
  have hst : s6.1 = s1.1 := by rw [e6.2, e5.2, e4.2, e3.2, e2.2]
  refine ⟨hi, ho, d1, g1, d2, g2, rs, xs, s11.1, u1 ++ u7 ++ u8 ++ u10 ++ u11, ⟨s1.1, s7.1, s8.1, ?_, ?_, e8.1⟩,
    ⟨s2.2, s5.2, s6.2, ?_, ?_, e6.1⟩, ?_, e4.1, ?_, ?_, hrec, hl, hch, ?_⟩
  · have := e1.1; rw [← hs0] at this; exact this
  · rw [← hst]; exact e7.1
  · have := e2.1; rw [e1.2, ← hs0] at this; exact this
  · have := e5.1
    rw [e4.2, e3.2] at this
    exact this
  · simpa using e3.1
  · exact (sameRatio_iff hC _ _ _ _).mp e9.1
  · have h0 : input = s0.1.rest := by rw [← hs0]; rfl
    rw [h0, f1, ← hst, f7, f8, ← e9.2, f10, f11]
    simp only [List.append_assoc]
  · have := e13.1
    rw [decide_eq_true_iff, hfin] at this
    rw [← this]
    cases rs.getLast? <;> rfl

end
end ZkSetup
