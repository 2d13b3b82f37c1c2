import Verif.Proofs.Phase1Verify
import Verif.Proofs.Phase2Verify
import Verif.Proofs.Keys
import Verif.Spec.Encodings
/-
Two readers that stand before the same points and hashes, encoded in any of the possible ways, read the same.
-/
set_option linter.unusedSectionVars false

namespace ZkSetup.Encodings

open ZkSetup

section
variable {F G1 G2 GT : Type} [Field F] [AddCommGroup G1] [Module F G1] [AddCommGroup G2]
  [Module F G2] [AddCommGroup GT] [Module F GT] [DecidableEq G1] [DecidableEq G2] [DecidableEq GT]

theorem encodes_mono (C : Curve F G1 G2 GT) {fits fits' : Nat → Prop} (hf : ∀ p, fits p → fits' p) (ts : List (Item G1 G2)) :
    ∀ (pos : Nat) (bs : Bytes), Encodes C fits pos ts bs → Encodes C fits' pos ts bs := by
  induction ts with
  | nil => intros; trivial
  | cons t ts ih =>
    intro pos bs h
    cases t with
    | g1 p => obtain ⟨e, u, h1, h2, h3⟩ := h; exact ⟨e, u, h1, h2, ih _ _ h3⟩
    | g2 p => obtain ⟨e, u, h1, h2, h3⟩ := h; exact ⟨e, u, h1, h2, ih _ _ h3⟩
    | hash x => obtain ⟨u, h1, h2, h3, h4⟩ := h; exact ⟨u, h1, h2, hf _ h3, ih _ _ h4⟩

/-- only the points count -/
theorem encodes_take (C : Curve F G1 G2 GT) {fits : Nat → Prop} (ts us : List (Item G1 G2)) :
    ∀ (pos : Nat) (bs : Bytes), Encodes C fits pos (ts ++ us) bs → Encodes C fits pos ts bs := by
  induction ts with
  | nil => intros; trivial
  | cons t ts ih =>
    intro pos bs h
    cases t with
    | g1 p => obtain ⟨e, u, h1, h2, h3⟩ := h; exact ⟨e, u, h1, h2, ih _ _ h3⟩
    | g2 p => obtain ⟨e, u, h1, h2, h3⟩ := h; exact ⟨e, u, h1, h2, ih _ _ h3⟩
    | hash x => obtain ⟨u, h1, h2, h3, h4⟩ := h; exact ⟨u, h1, h2, h3, ih _ _ h4⟩

/-- Points have a multiple of 32 bytes, so hashes stand at multiples of 32 if the first item does. -/
theorem encodes_aligned (C : Curve F G1 G2 GT) (hC : C.Lawful) {fits fits' : Nat → Prop} (d : Nat)
    (hf : ∀ p, fits (p + d) → 32 ∣ p → fits' p) (ts : List (Item G1 G2)) :
    ∀ (pos : Nat) (bs : Bytes), 32 ∣ pos → Encodes C fits (pos + d) ts bs → Encodes C fits' pos ts bs := by
  induction ts with
  | nil => intros; trivial
  | cons t ts ih =>
    intro pos bs hp h
    have l1 := hC.codec1.bytes_length
    have l2 := hC.codec2.bytes_length
    have r1 := hC.codec1.raw_length
    have r2 := hC.codec2.raw_length
    simp only [hC.size1] at l1 r1
    simp only [hC.size2] at l2 r2
    cases t with
    | g1 p =>
      obtain ⟨e, u, h1, h2, h3⟩ := h
      refine ⟨e, u, h1, h2, ih _ _ ?_ (by rw [Nat.add_right_comm]; exact h3)⟩
      rcases h2 with rfl | rfl
      · rw [l1]; omega
      · rw [r1]; omega
    | g2 p =>
      obtain ⟨e, u, h1, h2, h3⟩ := h
      refine ⟨e, u, h1, h2, ih _ _ ?_ (by rw [Nat.add_right_comm]; exact h3)⟩
      rcases h2 with rfl | rfl
      · rw [l2]; omega
      · rw [r2]; omega
    | hash x =>
      obtain ⟨u, h1, h2, h3, h4⟩ := h
      exact ⟨u, h1, h2, hf _ h3 hp, ih _ _ (by omega) (by rw [Nat.add_right_comm]; exact h4)⟩

/-- the reader stands before the items: reading them one after the other succeeds and returns them -/
def Reads (C : Curve F G1 G2 GT) : List (Item G1 G2) → Rd → Prop
  | [], _ => True
  | .g1 p :: ts, r => ∃ r', C.c1.decode.run r = (.ok p, r') ∧ Reads C ts r'
  | .g2 p :: ts, r => ∃ r', C.c2.decode.run r = (.ok p, r') ∧ Reads C ts r'
  | .hash h :: ts, r => ∃ r', Phase2.readHash.run r = (.ok h, r') ∧ Reads C ts r'

/-- this is so if the items stand there in one of their encodings -/
theorem reads_of_encodes (C : Curve F G1 G2 GT) (hC : C.Lawful) (ts : List (Item G1 G2)) : ∀ (r : Rd),
    Encodes C (fun pos => Fits r.cap pos) r.pos ts r.rest → Reads C ts r := by
  induction ts with
  | nil => intros; trivial
  | cons t ts ih =>
    intro r h
    obtain ⟨cap, pos, rest⟩ := r
    cases t with
    | g1 p =>
      obtain ⟨e, t, h1, h2, h3⟩ := h
      simp only at h1
      subst h1
      rcases h2 with rfl | rfl
      · exact ⟨_, Codec.decode_bytes hC.codec1 _ _ _ _, ih _ (by rw [hC.codec1.bytes_length] at h3; exact h3)⟩
      · exact ⟨_, Codec.decode_raw hC.codec1 _ _ _ _, ih _ (by rw [hC.codec1.raw_length] at h3; exact h3)⟩
    | g2 p =>
      obtain ⟨e, t, h1, h2, h3⟩ := h
      simp only at h1
      subst h1
      rcases h2 with rfl | rfl
      · exact ⟨_, Codec.decode_bytes hC.codec2 _ _ _ _, ih _ (by rw [hC.codec2.bytes_length] at h3; exact h3)⟩
      · exact ⟨_, Codec.decode_raw hC.codec2 _ _ _ _, ih _ (by rw [hC.codec2.raw_length] at h3; exact h3)⟩
    | hash x =>
      obtain ⟨t, h1, h2, h3, h4⟩ := h
      simp only at h1
      subst h1
      exact ⟨_, readHash2_fits cap pos x t h2 h3, ih _ h4⟩

variable {C : Curve F G1 G2 GT}

/-- On any two readers before the items `ts` the program gives the same result; after a success both stand before `ts'`. -/
def Sim (C : Curve F G1 G2 GT) {α : Type} (ts ts' : List (Item G1 G2)) (x : Go Rd α) : Prop :=
  ∀ r r', Reads C ts r → Reads C ts r' → (x.run r).1 = (x.run r').1 ∧
    ∀ a, (x.run r).1 = .ok a → Reads C ts' (x.run r).2 ∧ Reads C ts' (x.run r').2

section sim
variable {α β : Type} {ts ts' ts'' : List (Item G1 G2)}

theorem Sim.pure (a : α) : Sim C ts ts (Pure.pure a : Go Rd α) := fun _ _ h h' => ⟨rfl, fun _ _ => ⟨h, h'⟩⟩

theorem Sim.lift (e : Except Fail α) : Sim C ts ts (Go.lift e : Go Rd α) := fun _ _ h h' => ⟨rfl, fun _ _ => ⟨h, h'⟩⟩

theorem Sim.bind {x : Go Rd α} {f : α → Go Rd β} (hx : Sim C ts ts' x) (hf : ∀ a, Sim C ts' ts'' (f a)) :
    Sim C ts ts'' (x >>= f) := by
  intro r r' h h'
  obtain ⟨e, hok⟩ := hx r r' h h'
  rw [Go.bind_run, Go.bind_run]
  rcases h1 : x.run r with ⟨v, s⟩
  rcases h2 : x.run r' with ⟨v', s'⟩
  rw [h1, h2] at e hok
  simp only at e hok
  subst e
  cases v with
  | error e => exact ⟨rfl, fun a ha => by cases ha⟩
  | ok a => exact hf a s s' (hok a rfl).1 (hok a rfl).2

variable (hC : C.Lawful)
include hC

theorem reads_g1 {p : G1} {r : Rd} (h : Reads C (.g1 p :: ts) r) :
    ∃ r', C.c1.decode.run r = (.ok p, r') ∧ Reads C ts r' := h

theorem reads_g2 {p : G2} {r : Rd} (h : Reads C (.g2 p :: ts) r) :
    ∃ r', C.c2.decode.run r = (.ok p, r') ∧ Reads C ts r' := h

omit hC in
theorem reads_hash {x : Bytes} {r : Rd} (h : Reads C (.hash x :: ts) r) :
    ∃ r', Phase2.readHash.run r = (.ok x, r') ∧ Reads C ts r' := h

/-- a read that returns what stands there -/
theorem Sim.of_reads {x : Go Rd α} {a : α} (h : ∀ r, Reads C ts r → ∃ r', x.run r = (.ok a, r') ∧ Reads C ts' r') :
    Sim C ts ts' x := by
  intro r r' h1 h2
  obtain ⟨s, e, hs⟩ := h r h1
  obtain ⟨s', e', hs'⟩ := h r' h2
  rw [e, e']
  exact ⟨rfl, fun _ _ => ⟨hs, hs'⟩⟩

theorem reads_g1s (ps : List G1) : ∀ {r : Rd}, Reads C (ps.map .g1 ++ ts) r →
    ∃ r', (C.c1.decodeN ps.length).run r = (.ok ps, r') ∧ Reads C ts r' := by
  induction ps with
  | nil => intro r h; exact ⟨r, rfl, h⟩
  | cons p ps ih =>
    intro r h
    obtain ⟨r1, e1, h1⟩ := reads_g1 hC h
    obtain ⟨r2, e2, h2⟩ := ih h1
    refine ⟨r2, ?_, h2⟩
    rw [List.length_cons, Codec.decodeN, Go.bind_ok e1, Go.bind_ok e2]
    rfl

theorem reads_g2s (ps : List G2) : ∀ {r : Rd}, Reads C (ps.map .g2 ++ ts) r →
    ∃ r', (C.c2.decodeN ps.length).run r = (.ok ps, r') ∧ Reads C ts r' := by
  induction ps with
  | nil => intro r h; exact ⟨r, rfl, h⟩
  | cons p ps ih =>
    intro r h
    obtain ⟨r1, e1, h1⟩ := reads_g2 hC h
    obtain ⟨r2, e2, h2⟩ := ih h1
    refine ⟨r2, ?_, h2⟩
    rw [List.length_cons, Codec.decodeN, Go.bind_ok e1, Go.bind_ok e2]
    rfl

/-- a phase 2 record -/
theorem reads_record2 (c : Phase2.Contribution G1 G2) {r : Rd} (h : Reads C (record2Items c ++ ts) r) :
    ∃ r', (Phase2.Contribution.readFrom C).run r = (.ok c, r') ∧ Reads C ts r' := by
  obtain ⟨r1, e1, h⟩ := reads_g1 hC h
  obtain ⟨r2, e2, h⟩ := reads_g1 hC h
  obtain ⟨r3, e3, h⟩ := reads_g1 hC h
  obtain ⟨r4, e4, h⟩ := reads_g2 hC h
  obtain ⟨r5, e5, h⟩ := reads_hash h
  refine ⟨r5, ?_, h⟩
  rw [Phase2.Contribution.readFrom, Go.bind_ok e1, Go.bind_ok e2, Go.bind_ok e3, Go.bind_ok e4, Go.bind_ok e5]
  rfl

/-- a phase 1 record -/
theorem reads_record (c c0 : Phase1.Contribution G1 G2) {r : Rd} (h : Reads C (recordItems c ++ ts) r) :
    ∃ r', (Phase1.Contribution.readFrom C).run (c0, r) = (.ok (), (c, r')) ∧ Reads C ts r' := by
  obtain ⟨r1, e1, h⟩ := reads_g1 hC h
  obtain ⟨r2, e2, h⟩ := reads_g1 hC h
  obtain ⟨r3, e3, h⟩ := reads_g1 hC h
  obtain ⟨r4, e4, h⟩ := reads_g2 hC h
  obtain ⟨r5, e5, h⟩ := reads_g2 hC h
  obtain ⟨r6, e6, h⟩ := reads_g1 hC h
  obtain ⟨r7, e7, h⟩ := reads_g1 hC h
  obtain ⟨r8, e8, h⟩ := reads_g2 hC h
  obtain ⟨r9, e9, h⟩ := reads_g1 hC h
  obtain ⟨r10, e10, h⟩ := reads_g1 hC h
  obtain ⟨r11, e11, h⟩ := reads_g2 hC h
  obtain ⟨r12, e12, h⟩ := reads_g1 hC h
  obtain ⟨r13, e13, h⟩ := reads_g1 hC h
  obtain ⟨r14, e14, h⟩ := reads_g2 hC h
  obtain ⟨r15, e15, h⟩ := reads_hash h
  refine ⟨r15, ?_, h⟩
  have e15' : Phase1.readHash.run r14 = (.ok c.hash, r15) := e15
  unfold Phase1.Contribution.readFrom
  rw [Go.bind_ok (readPoint_ok e1), Go.bind_ok (readPoint_ok e2), Go.bind_ok (readPoint_ok e3), Go.bind_ok (readPoint_ok e4),
    Go.bind_ok (readPoint_ok e5), Go.bind_ok (readPoint_ok e6), Go.bind_ok (readPoint_ok e7), Go.bind_ok (readPoint_ok e8),
    Go.bind_ok (readPoint_ok e9), Go.bind_ok (readPoint_ok e10), Go.bind_ok (readPoint_ok e11), Go.bind_ok (readPoint_ok e12),
    Go.bind_ok (readPoint_ok e13), Go.bind_ok (readPoint_ok e14), Go.bind_ok (s' := (_, r14)) rfl, readField_ok e15']

/-! ### phase 1 -/

/-- what the linear combinations need of a section -/
theorem linCombLoop_sim {G : Type} [AddCommGroup G] [Module F G] (c : Codec G) (mk : G → Item G1 G2)
    (hmk : ∀ (ps : List G) (us : List (Item G1 G2)), Sim C (ps.map mk ++ us) us (c.decodeN ps.length))
    (par : Par) (pol : Phase1.MsmPolicy) (b : Nat) (hb : 0 < b) (rnd : Nat → Nat → F) (n : Nat) :
    ∀ (ps : List G), ps.length = n → ∀ (t : Nat) (buff : List G) (r : List F) (L1 L2 t1 t2 : G),
      Sim C (ps.map mk ++ ts) ts (Phase1.linCombLoop c par pol b rnd n t buff r L1 L2 t1 t2) := by
  induction n using Nat.strong_induction_on with
  | _ n ih =>
    intro ps hl t buff r L1 L2 t1 t2
    unfold Phase1.linCombLoop
    split
    · rename_i h
      have hlen : (ps.take (min n b)).length = min n b := by simp [hl]
      have e : ps.map mk ++ ts = (ps.take (min n b)).map mk ++ ((ps.drop (min n b)).map mk ++ ts) := by
        rw [← List.append_assoc, ← List.map_append, List.take_append_drop]
      rw [e]
      refine Sim.bind (by have := hmk (ps.take (min n b)) ((ps.drop (min n b)).map mk ++ ts); rwa [hlen] at this) fun pts => ?_
      exact ih _ (by omega) _ (by rw [List.length_drop, hl]) _ _ _ _ _ _ _
    · rename_i h
      have : ps = [] := List.length_eq_zero_iff.mp (by omega)
      subst this
      exact Sim.pure _

theorem linearCombination_sim {G : Type} [AddCommGroup G] [Module F G] (c : Codec G) (mk : G → Item G1 G2)
    (hmk : ∀ (ps : List G) (us : List (Item G1 G2)), Sim C (ps.map mk ++ us) us (c.decodeN ps.length))
    (par : Par) (pol : Phase1.MsmPolicy) (b : Nat) (hb : 0 < b) (rnd : Nat → Nat → F) (ps : List G) (N : Int)
    (hN : N = ps.length) : Sim C (ps.map mk ++ ts) ts (Phase1.linearCombination c par pol b rnd N) := by
  subst hN
  unfold Phase1.linearCombination
  exact Sim.bind (Sim.lift _) fun _ => linCombLoop_sim hC c mk hmk par pol b hb rnd _ ps rfl _ _ _ _ _ _ _

theorem g1s_sim (ps : List G1) (us : List (Item G1 G2)) : Sim C (ps.map .g1 ++ us) us (C.c1.decodeN ps.length) :=
  Sim.of_reads hC fun _ h => reads_g1s hC ps h

theorem g2s_sim (ps : List G2) (us : List (Item G1 G2)) : Sim C (ps.map .g2 ++ us) us (C.c2.decodeN ps.length) :=
  Sim.of_reads hC fun _ h => reads_g2s hC ps h

theorem readSections_sim (par : Par) (pol : Phase1.MsmPolicy) (b : Nat) (hb : 0 < b) (vr : Phase1.VerifyRand F)
    (f : P1File G1 G2) (hf : f.WF) : Sim C f.items (f.records.flatMap recordItems)
      (Phase1.readSections C par pol b vr (Phase1.goPow2 f.power)) := by
  unfold Phase1.readSections P1File.items
  simp only [List.append_assoc]
  refine Sim.bind (linearCombination_sim hC _ _ (g1s_sim hC) par pol b hb _ _ _ (by rw [wrap_tau hf.power, hf.tauG1])) fun _ => ?_
  refine Sim.bind (linearCombination_sim hC _ _ (g1s_sim hC) par pol b hb _ _ _ (by rw [goPow2_eq hf.power, hf.alphaG1])) fun _ => ?_
  refine Sim.bind (linearCombination_sim hC _ _ (g1s_sim hC) par pol b hb _ _ _ (by rw [goPow2_eq hf.power, hf.betaG1])) fun _ => ?_
  refine Sim.bind (linearCombination_sim hC _ _ (g2s_sim hC) par pol b hb _ _ _ (by rw [goPow2_eq hf.power, hf.tauG2])) fun _ => ?_
  exact Sim.bind (Sim.of_reads hC fun _ h => reads_g2 hC h) fun _ => Sim.pure _

theorem verifyLoop_reads (rs : List (Phase1.Contribution G1 G2)) : ∀ (cur prev : Phase1.Contribution G1 G2) (r r' : Rd),
    Reads C (rs.flatMap recordItems) r → Reads C (rs.flatMap recordItems) r' →
    Phase1.verifyLoop C rs.length cur prev r = Phase1.verifyLoop C rs.length cur prev r' := by
  induction rs with
  | nil => intros; rfl
  | cons c rs ih =>
    intro cur prev r r' h h'
    rw [List.flatMap_cons] at h h'
    obtain ⟨s, e, hs⟩ := reads_record hC c cur h
    obtain ⟨s', e', hs'⟩ := reads_record hC c cur h'
    simp only [List.length_cons, Phase1.verifyLoop, e, e']
    rw [ih c c s s' hs hs']


end sim

/-! ### programs that also write -/

/-- On any two readers before `ts`, with the same output so far: same result, same output, and after a success both before `ts'`. -/
def SimIO (C : Curve F G1 G2 GT) {α : Type} (ts ts' : List (Item G1 G2)) (x : Go IOSt α) : Prop :=
  ∀ r r' o, Reads C ts r → Reads C ts r' → (x.run ⟨r, o⟩).1 = (x.run ⟨r', o⟩).1 ∧ (x.run ⟨r, o⟩).2.out = (x.run ⟨r', o⟩).2.out ∧
    ∀ a, (x.run ⟨r, o⟩).1 = .ok a → Reads C ts' (x.run ⟨r, o⟩).2.rd ∧ Reads C ts' (x.run ⟨r', o⟩).2.rd

section io
variable {α β : Type} {ts ts' ts'' : List (Item G1 G2)}

theorem SimIO.pure (a : α) : SimIO C ts ts (Pure.pure a : Go IOSt α) := fun _ _ _ h h' => ⟨rfl, rfl, fun _ _ => ⟨h, h'⟩⟩

theorem SimIO.lift (e : Except Fail α) : SimIO C ts ts (Go.lift e : Go IOSt α) := fun _ _ _ h h' => ⟨rfl, rfl, fun _ _ => ⟨h, h'⟩⟩

theorem SimIO.emit (bs : Bytes) : SimIO C ts ts (IOSt.emit bs) := fun _ _ _ h h' => ⟨rfl, rfl, fun _ _ => ⟨h, h'⟩⟩

theorem SimIO.onRd {x : Go Rd α} (h : Sim C ts ts' x) : SimIO C ts ts' (IOSt.onRd x) := by
  intro r r' o h1 h2
  exact ⟨(h r r' h1 h2).1, rfl, (h r r' h1 h2).2⟩

theorem SimIO.bind {x : Go IOSt α} {f : α → Go IOSt β} (hx : SimIO C ts ts' x) (hf : ∀ a, SimIO C ts' ts'' (f a)) :
    SimIO C ts ts'' (x >>= f) := by
  intro r r' o h h'
  obtain ⟨e, eo, hok⟩ := hx r r' o h h'
  rw [Go.bind_run, Go.bind_run]
  rcases h1 : x.run ⟨r, o⟩ with ⟨v, s, o1⟩
  rcases h2 : x.run ⟨r', o⟩ with ⟨v', s', o2⟩
  rw [h1, h2] at e eo hok
  simp only at e eo hok
  subst e eo
  cases v with
  | error e => exact ⟨rfl, rfl, fun a ha => by cases ha⟩
  | ok a => exact hf a s s' _ (hok a rfl).1 (hok a rfl).2

variable (hC : C.Lawful)
include hC

theorem keepFirst_sim {G : Type} [AddCommGroup G] [DecidableEq G] (p : G) (q : Option G) :
    SimIO C ts ts (Phase1.keepFirst p q) := by
  unfold Phase1.keepFirst
  split
  · cases q with
    | none => exact fun _ _ _ h h' => ⟨rfl, rfl, fun _ _ => ⟨h, h'⟩⟩
    | some q => exact SimIO.pure q
  · exact SimIO.pure p

theorem scaleLoop_sim {G : Type} [AddCommGroup G] [Module F G] [DecidableEq G] (c : Codec G) (mk : G → Item G1 G2)
    (hmk : ∀ (ps : List G) (us : List (Item G1 G2)), Sim C (ps.map mk ++ us) us (c.decodeN ps.length))
    (par : Par) (b : Nat) (hb : 0 < b) (tau : F) (m : Option F) (first : List G → Option G) (n : Nat) :
    ∀ (ps : List G), ps.length = n → ∀ (buff : List G) (x : F) (p : G),
      SimIO C (ps.map mk ++ ts) ts (Phase1.scaleLoop c par b tau m first n buff x p) := by
  induction n using Nat.strong_induction_on with
  | _ n ih =>
    intro ps hl buff x p
    unfold Phase1.scaleLoop
    split
    · rename_i h
      have hlen : (ps.take (min n b)).length = min n b := by simp [hl]
      have e : ps.map mk ++ ts = (ps.take (min n b)).map mk ++ ((ps.drop (min n b)).map mk ++ ts) := by
        rw [← List.append_assoc, ← List.map_append, List.take_append_drop]
      rw [e]
      refine SimIO.bind (SimIO.onRd (by
        have := hmk (ps.take (min n b)) ((ps.drop (min n b)).map mk ++ ts); rwa [hlen] at this)) fun pts => ?_
      refine SimIO.bind (SimIO.emit _) fun _ => SimIO.bind (keepFirst_sim hC _ _) fun _ => ?_
      exact ih _ (by omega) _ (by rw [List.length_drop, hl]) _ _ _
    · rename_i h
      have : ps = [] := List.length_eq_zero_iff.mp (by omega)
      subst this
      exact SimIO.pure _

theorem scaleG1_sim (par : Par) (b : Nat) (hb : 0 < b) (tau : F) (m : Option F) (ps : List G1) (N : Int) (hN : N = ps.length) :
    SimIO C (ps.map .g1 ++ ts) ts (Phase1.scaleG1 C par b N tau m) := by
  subst hN
  exact SimIO.bind (SimIO.lift _) fun _ => scaleLoop_sim hC _ _ (g1s_sim hC) par b hb _ _ _ _ ps rfl _ _ _

theorem scaleG2_sim (par : Par) (b : Nat) (hb : 0 < b) (tau : F) (ps : List G2) (N : Int) (hN : N = ps.length) :
    SimIO C (ps.map .g2 ++ ts) ts (Phase1.scaleG2 C par b N tau) := by
  subst hN
  exact SimIO.bind (SimIO.lift _) fun _ => scaleLoop_sim hC _ _ (g2s_sim hC) par b hb _ _ _ _ ps rfl _ _ _

theorem copyContributions_sim (rs : List (Phase1.Contribution G1 G2)) : ∀ (c0 : Phase1.Contribution G1 G2),
    SimIO C (rs.flatMap recordItems ++ ts) ts (Phase1.copyContributions C rs.length c0) := by
  induction rs with
  | nil => intro c0; exact SimIO.pure _
  | cons c rs ih =>
    intro c0
    rw [List.length_cons, Phase1.copyContributions, List.flatMap_cons, List.append_assoc]
    refine SimIO.bind (ts' := rs.flatMap recordItems ++ ts) ?_ fun _ => SimIO.bind (SimIO.emit _) fun _ => ih _
    intro r r' o h h'
    obtain ⟨s, e, hs⟩ := reads_record hC c c0 h
    obtain ⟨s', e', hs'⟩ := reads_record hC c c0 h'
    simp only [e, e']
    exact ⟨trivial, trivial, fun _ _ => ⟨hs, hs'⟩⟩

theorem contributeBody_sim (par : Par) (b : Nat) (hb : 0 < b) (rnd : Phase1.Rand F) (f : P1File G1 G2) (hf : f.WF) :
    SimIO C f.items [] (Phase1.contributeBody C par b rnd ⟨f.power, UInt16.ofNat f.records.length⟩) := by
  have hn : (UInt16.ofNat f.records.length + 1 - 1).toNat = f.records.length := by
    have := hf.count
    rw [UInt16.add_sub_cancel]; simp; omega
  unfold Phase1.contributeBody P1File.items
  simp only [List.append_assoc, hn]
  refine SimIO.bind (SimIO.emit _) fun _ => ?_
  refine SimIO.bind (scaleG1_sim hC par b hb _ _ _ _ (by rw [wrap_tau hf.power, hf.tauG1])) fun _ => ?_
  refine SimIO.bind (scaleG1_sim hC par b hb _ _ _ _ (by rw [goPow2_eq hf.power, hf.alphaG1])) fun _ => ?_
  refine SimIO.bind (scaleG1_sim hC par b hb _ _ _ _ (by rw [goPow2_eq hf.power, hf.betaG1])) fun _ => ?_
  refine SimIO.bind (scaleG2_sim hC par b hb _ _ _ (by rw [goPow2_eq hf.power, hf.tauG2])) fun _ => ?_
  refine SimIO.bind (SimIO.onRd (Sim.of_reads hC fun _ h => reads_g2 hC h)) fun _ => ?_
  refine SimIO.bind (SimIO.emit _) fun _ => ?_
  refine SimIO.bind (ts' := []) (by
    have := copyContributions_sim (ts := []) hC f.records Phase1.Contribution.zero
    rwa [List.append_nil] at this) fun _ => ?_
  exact SimIO.bind (SimIO.emit _) fun _ => SimIO.pure _

/-! ### phase 2 -/

theorem scale2Loop_sim (par : Par) (b : Nat) (hb : 0 < b) (x : F) (n : Nat) : ∀ (ps : List G1), ps.length = n →
    SimIO C (ps.map .g1 ++ ts) ts (Phase2.scaleLoop C par b x n) := by
  induction n using Nat.strong_induction_on with
  | _ n ih =>
    intro ps hl
    unfold Phase2.scaleLoop
    split
    · rename_i h
      have hlen : (ps.take (min n b)).length = min n b := by simp [hl]
      have e : ps.map .g1 ++ ts = (ps.take (min n b)).map .g1 ++ ((ps.drop (min n b)).map .g1 ++ ts) := by
        rw [← List.append_assoc, ← List.map_append, List.take_append_drop]
      rw [e]
      refine SimIO.bind (SimIO.onRd (by
        have := g1s_sim hC (ps.take (min n b)) ((ps.drop (min n b)).map .g1 ++ ts); rwa [hlen] at this)) fun pts => ?_
      refine SimIO.bind (SimIO.emit _) fun _ => ?_
      exact ih _ (by omega) _ (by rw [List.length_drop, hl])
    · rename_i h
      have : ps = [] := List.length_eq_zero_iff.mp (by omega)
      subst this
      exact SimIO.pure _

theorem scale2_sim (par : Par) (b : Nat) (hb : 0 < b) (x : F) (ps : List G1) (N : Int) (hN : N = ps.length) :
    SimIO C (ps.map .g1 ++ ts) ts (Phase2.scale C par b N x) := by
  subst hN
  exact SimIO.bind (SimIO.lift _) fun _ => scale2Loop_sim hC par b hb x _ ps rfl

theorem copyContributions2_sim (rs : List (Phase2.Contribution G1 G2)) : ∀ (c0 : Phase2.Contribution G1 G2),
    SimIO C (rs.flatMap record2Items ++ ts) ts (Phase2.copyContributions C rs.length c0) := by
  induction rs with
  | nil => intro c0; exact SimIO.pure _
  | cons c rs ih =>
    intro c0
    rw [List.length_cons, Phase2.copyContributions, List.flatMap_cons, List.append_assoc]
    exact SimIO.bind (SimIO.onRd (Sim.of_reads hC fun _ h => reads_record2 hC c h)) fun _ => SimIO.bind (SimIO.emit _) fun _ => ih _

theorem contributeWith_sim (H : Phase2.HeaderCodec) (par : Par) (b : Nat) (hb : 0 < b) (rnd : Phase2.Rand F) (f : P2File G1 G2)
    (hf : f.WF) : SimIO C f.items [] (Phase2.contributeWith C H par b rnd f.header.increment) := by
  have h1 := hf.count
  have h2 := hf.domain
  have h3 := hf.domain_pos
  have hn : (Phase1.wrap64 (f.header.increment.contributions - 1)).toNat = f.records.length := by
    simp only [Phase2.Header.increment, P2File.header, Phase1.wrap64]
    omega
  have hz : Phase1.wrap64 (f.header.increment.domain - 1) = f.z.length := by
    rw [hf.z]
    simp only [Phase2.Header.increment, P2File.header, Phase1.wrap64]
    omega
  unfold Phase2.contributeWith P2File.items P2File.paramItems
  simp only [List.append_assoc, List.cons_append, List.nil_append, hn]
  refine SimIO.bind (SimIO.emit _) fun _ => ?_
  refine SimIO.bind (SimIO.bind (SimIO.onRd (Sim.of_reads hC fun _ h => reads_g1 hC h)) fun _ =>
    SimIO.bind (SimIO.emit _) fun _ => SimIO.pure _) fun _ => ?_
  refine SimIO.bind (SimIO.bind (SimIO.onRd (Sim.of_reads hC fun _ h => reads_g2 hC h)) fun _ =>
    SimIO.bind (SimIO.emit _) fun _ => SimIO.pure _) fun _ => ?_
  refine SimIO.bind (scale2_sim hC par b hb _ _ _ hz) fun _ => ?_
  refine SimIO.bind (scale2_sim hC par b hb _ _ _ (by simp [Phase2.Header.increment, P2File.header, hf.pkk])) fun _ => ?_
  refine SimIO.bind (ts' := []) (by
    have := copyContributions2_sim (ts := []) hC f.records Phase2.Contribution.zero
    rwa [List.append_nil] at this) fun _ => ?_
  exact SimIO.bind (SimIO.emit _) fun _ => SimIO.pure _

end io

/-! ### the phase 2 verifier: two readers -/

/-- On any two pairs of readers before the items, the same result; after a success both pairs stand before the second items. -/
def Sim2 (C : Curve F G1 G2 GT) {α : Type} (ts us ts' us' : List (Item G1 G2)) (x : Go (Rd × Rd) α) : Prop :=
  ∀ r r' q q', Reads C ts r → Reads C ts r' → Reads C us q → Reads C us q' →
    (x.run (r, q)).1 = (x.run (r', q')).1 ∧ ∀ a, (x.run (r, q)).1 = .ok a →
      (Reads C ts' (x.run (r, q)).2.1 ∧ Reads C ts' (x.run (r', q')).2.1) ∧
      (Reads C us' (x.run (r, q)).2.2 ∧ Reads C us' (x.run (r', q')).2.2)

section two
variable {α β : Type} {ts ts' ts'' us us' us'' : List (Item G1 G2)}

theorem Sim2.lift (e : Except Fail α) : Sim2 C ts us ts us (Go.lift e) :=
  fun _ _ _ _ h1 h2 h3 h4 => ⟨rfl, fun _ _ => ⟨⟨h1, h2⟩, h3, h4⟩⟩

theorem Sim2.onInput {x : Go Rd α} (h : Sim C ts ts' x) : Sim2 C ts us ts' us (Phase2.onInput x) :=
  fun r r' _ _ h1 h2 h3 h4 => ⟨(h r r' h1 h2).1, fun a ha => ⟨(h r r' h1 h2).2 a ha, h3, h4⟩⟩

theorem Sim2.onOrigin {x : Go Rd α} (h : Sim C us us' x) : Sim2 C ts us ts us' (Phase2.onOrigin x) :=
  fun _ _ q q' h1 h2 h3 h4 => ⟨(h q q' h3 h4).1, fun a ha => ⟨⟨h1, h2⟩, (h q q' h3 h4).2 a ha⟩⟩

theorem Sim2.bind {x : Go (Rd × Rd) α} {f : α → Go (Rd × Rd) β} (hx : Sim2 C ts us ts' us' x)
    (hf : ∀ a, Sim2 C ts' us' ts'' us'' (f a)) : Sim2 C ts us ts'' us'' (x >>= f) := by
  intro r r' q q' h1 h2 h3 h4
  obtain ⟨e, hok⟩ := hx r r' q q' h1 h2 h3 h4
  rw [Go.bind_run, Go.bind_run]
  rcases e1 : x.run (r, q) with ⟨v, s, t⟩
  rcases e2 : x.run (r', q') with ⟨v', s', t'⟩
  rw [e1, e2] at e hok
  simp only at e hok
  subst e
  cases v with
  | error e => exact ⟨rfl, fun a ha => by cases ha⟩
  | ok a =>
    obtain ⟨⟨k1, k2⟩, k3, k4⟩ := hok a rfl
    exact hf a s s' t t' k1 k2 k3 k4

variable (hC : C.Lawful)
include hC

/-- the aggregation succeeds, with a result that does not depend on the encoding -/
theorem aggregateLoop_reads (par : Par) (b : Nat) (hb : 0 < b) (rnd : Nat → Nat → F) (n : Nat) :
    ∀ (ps qs : List G1), ps.length = n → qs.length = n → ∀ (t : Nat) (r : List F), n ≤ r.length → ∀ (a c : G1),
      ∃ v, ∀ i o, Reads C (ps.map .g1 ++ ts) i → Reads C (qs.map .g1 ++ us) o →
        ∃ s, (Phase2.aggregateLoop C par b rnd n t r a c).run (i, o) = (.ok v, s) ∧ Reads C ts s.1 ∧ Reads C us s.2 := by
  induction n using Nat.strong_induction_on with
  | _ n ih =>
    intro ps qs hp hq t r hr a c
    unfold Phase2.aggregateLoop
    split
    · rename_i h
      have hl : (par.mapIdx r.length (fun i _ => rnd t i) r).length = r.length := by simp [Par.mapIdx_eq]
      have split : ∀ (ps : List G1) (ts : List (Item G1 G2)),
          ps.map .g1 ++ ts = (ps.take (min n b)).map .g1 ++ ((ps.drop (min n b)).map .g1 ++ ts) := by
        intro ps ts
        rw [← List.append_assoc, ← List.map_append, List.take_append_drop]
      have hlen : ∀ ps : List G1, ps.length = n → (ps.take (min n b)).length = min n b := by intro ps h; simp [h]
      have hmsm : ∀ ps : List G1, ps.length = n → ∃ v, ∀ s : Rd × Rd,
          (Phase2.msm (σ := Rd × Rd) (ps.take (min n b))
            ((par.mapIdx r.length (fun i _ => rnd t i) r).take (min n b))).run s = (.ok v, s) := by
        intro ps h
        have e : (ps.take (min n b)).length = ((par.mapIdx r.length (fun i _ => rnd t i) r).take (min n b)).length := by
          rw [hlen ps h, List.length_take, hl]; omega
        unfold Phase2.msm Phase1.multiExp
        rw [if_neg (by simp [e])]
        exact ⟨_, fun s => rfl⟩
      obtain ⟨v1, m1⟩ := hmsm ps hp
      obtain ⟨v2, m2⟩ := hmsm qs hq
      obtain ⟨v, hv⟩ := ih (n - min n b) (by omega) (ps.drop (min n b)) (qs.drop (min n b)) (by rw [List.length_drop, hp])
        (by rw [List.length_drop, hq]) (t + 1) (par.mapIdx r.length (fun i _ => rnd t i) r) (by omega) (a + v1) (c + v2)
      refine ⟨v, fun i o hi ho => ?_⟩
      rw [split ps ts] at hi
      rw [split qs us] at ho
      obtain ⟨i', e1, hi'⟩ := reads_g1s hC _ hi
      obtain ⟨o', e2, ho'⟩ := reads_g1s hC _ ho
      rw [hlen ps hp] at e1
      rw [hlen qs hq] at e2
      rw [Go.bind_ok (onInput_ok e1), Go.bind_ok (m1 _), Go.bind_ok (onOrigin_ok e2), Go.bind_ok (m2 _)]
      exact hv i' o' hi' ho'
    · rename_i h
      have hp0 : ps = [] := List.length_eq_zero_iff.mp (by omega)
      have hq0 : qs = [] := List.length_eq_zero_iff.mp (by omega)
      subst hp0 hq0
      exact ⟨(a, c), fun i o hi ho => ⟨_, rfl, hi, ho⟩⟩

theorem verifyParameter_sim (par : Par) (b : Nat) (hb : 0 < b) (rnd : Nat → Nat → F) (d g : G2) (field : String) (ps qs : List G1)
    (N : Int) (hp : N = ps.length) (hq : N = qs.length) :
    Sim2 C (ps.map .g1 ++ ts) (qs.map .g1 ++ us) ts us (Phase2.verifyParameter C par b rnd d g N field) := by
  obtain ⟨v, hv⟩ := aggregateLoop_reads (ts := ts) (us := us) hC par b hb rnd ps.length ps qs rfl (by omega) 0
    (List.replicate ps.length 0) (by simp) 0 0
  have hrun : ∀ i o, Reads C (ps.map .g1 ++ ts) i → Reads C (qs.map .g1 ++ us) o →
      ∃ s, (Phase2.aggregate C par b rnd N).run (i, o) = (.ok v, s) ∧ Reads C ts s.1 ∧ Reads C us s.2 := by
    intro i o hi ho
    obtain ⟨s, e, h⟩ := hv i o hi ho
    refine ⟨s, ?_, h⟩
    have m1 : Phase1.makeLen (min N b) = .ok (min N b).toNat := by rw [Phase1.makeLen, if_neg (by omega)]
    have m2 : Phase1.makeLen N = .ok ps.length := by rw [Phase1.makeLen, if_neg (by omega), hp]; rfl
    rw [Phase2.aggregate, m1, m2]
    rw [Go.bind_ok (Go.lift_run _ _), Go.bind_ok (Go.lift_run _ _), hp]
    exact e
  intro i i' o o' h1 h2 h3 h4
  obtain ⟨s, e, k⟩ := hrun i o h1 h3
  obtain ⟨s', e', k'⟩ := hrun i' o' h2 h4
  simp only [Phase2.verifyParameter, e, e']
  exact ⟨trivial, fun _ _ => ⟨⟨k.1, k'.1⟩, k.2, k'.2⟩⟩

theorem verifyLoop2_sim (rs : List (Phase2.Contribution G1 G2)) : ∀ (c0 : Phase2.Contribution G1 G2) (d : G1) (h : Bytes),
    Sim C (rs.flatMap record2Items ++ ts) ts (Phase2.verifyLoop C rs.length c0 d h) := by
  induction rs with
  | nil => intro c0 d h; exact Sim.pure _
  | cons c rs ih =>
    intro c0 d h
    rw [List.length_cons, Phase2.verifyLoop, List.flatMap_cons, List.append_assoc]
    exact Sim.bind (Sim.of_reads hC fun _ h => reads_record2 hC c h) fun _ => Sim.bind (Sim.lift _) fun _ => ih _ _ _

end two

/-! ### key extraction -/

/-- On any two readers of the phase 2 file before `ts`, with the same evaluation file and the same output so far. -/
def SimKey (C : Curve F G1 G2 GT) {O α : Type} (ts ts' : List (Item G1 G2)) (x : Go (Keys.KeySt O) α) : Prop :=
  ∀ r r' e o, Reads C ts r → Reads C ts r' → (x.run ⟨r, e, o⟩).1 = (x.run ⟨r', e, o⟩).1 ∧
    (x.run ⟨r, e, o⟩).2.out = (x.run ⟨r', e, o⟩).2.out ∧ ∀ a, (x.run ⟨r, e, o⟩).1 = .ok a →
      (x.run ⟨r, e, o⟩).2.evals = (x.run ⟨r', e, o⟩).2.evals ∧
      Reads C ts' (x.run ⟨r, e, o⟩).2.ph2 ∧ Reads C ts' (x.run ⟨r', e, o⟩).2.ph2

section key
variable {O α β : Type} {ts ts' ts'' : List (Item G1 G2)}

theorem SimKey.pure (a : α) : SimKey (O := O) C ts ts (Pure.pure a) := fun _ _ _ _ h h' => ⟨rfl, rfl, fun _ _ => ⟨rfl, h, h'⟩⟩

theorem SimKey.lift (e : Except Fail α) : SimKey (O := O) C ts ts (Go.lift e) :=
  fun _ _ _ _ h h' => ⟨rfl, rfl, fun _ _ => ⟨rfl, h, h'⟩⟩

theorem SimKey.write (f : O → O) : SimKey C ts ts (Keys.KeySt.write f) := fun _ _ _ _ h h' => ⟨rfl, rfl, fun _ _ => ⟨rfl, h, h'⟩⟩

theorem SimKey.onEvals (x : Go Rd α) : SimKey (O := O) C ts ts (Keys.KeySt.onEvals x) :=
  fun _ _ _ _ h h' => ⟨rfl, rfl, fun _ _ => ⟨rfl, h, h'⟩⟩

theorem SimKey.onPh2 {x : Go Rd α} (hx : Sim C ts ts' x) : SimKey (O := O) C ts ts' (Keys.KeySt.onPh2 x) :=
  fun r r' _ _ h h' => ⟨(hx r r' h h').1, rfl, fun a ha => ⟨rfl, (hx r r' h h').2 a ha⟩⟩

theorem SimKey.seek (ev : Bytes) (p : Int) : SimKey (O := O) C ts ts (Keys.seekEvals ev p) := by
  intro r r' e o h h'
  unfold Keys.seekEvals
  simp only
  split
  · exact ⟨rfl, rfl, fun _ _ => ⟨rfl, h, h'⟩⟩
  · exact ⟨rfl, rfl, fun _ ha => by cases ha⟩

theorem SimKey.bind {x : Go (Keys.KeySt O) α} {f : α → Go (Keys.KeySt O) β} (hx : SimKey C ts ts' x)
    (hf : ∀ a, SimKey C ts' ts'' (f a)) : SimKey C ts ts'' (x >>= f) := by
  intro r r' e o h h'
  obtain ⟨e1, eo, hok⟩ := hx r r' e o h h'
  rw [Go.bind_run, Go.bind_run]
  rcases h1 : x.run ⟨r, e, o⟩ with ⟨v, s, ev, o1⟩
  rcases h2 : x.run ⟨r', e, o⟩ with ⟨v', s', ev', o2⟩
  rw [h1, h2] at e1 eo hok
  simp only at e1 eo hok
  subst e1 eo
  cases v with
  | error e => exact ⟨rfl, rfl, fun a ha => by cases ha⟩
  | ok a =>
    obtain ⟨k, k1, k2⟩ := hok a rfl
    subst k
    exact hf a s s' _ _ k1 k2

variable (hC : C.Lawful)
include hC

/-- `make([]T, n)` and reading `n` points -/
theorem points_sim {f : List G1 → Go (Keys.KeySt O) β} (ps : List G1) (N : Int) (hN : N = ps.length)
    (hf : ∀ a, SimKey C ts ts' (f a)) :
    SimKey C (ps.map .g1 ++ ts) ts' (Go.lift (Phase1.makeLen N) >>= fun n => Keys.KeySt.onPh2 (C.c1.decodeN n) >>= f) := by
  have m : Phase1.makeLen N = .ok ps.length := by rw [Phase1.makeLen, if_neg (by omega), hN]; rfl
  rw [m]
  intro r r' e o h h'
  rw [Go.bind_ok (Go.lift_run _ _), Go.bind_ok (Go.lift_run _ _)]
  exact SimKey.bind (SimKey.onPh2 (g1s_sim hC ps ts)) hf r r' e o h h'

theorem header_z (f : P2File G1 G2) (hf : f.WF) : f.header.domain - 1 = f.z.length := by
  have := hf.domain_pos
  rw [hf.z]
  simp only [P2File.header]
  omega

theorem pkBody_sim (E : Keys.KeyEnv G1) (f : P2File G1 G2) (hf : f.WF) : SimKey C f.paramItems [] (Keys.pkBody C E f.header) := by
  have e : f.paramItems = .g1 f.delta1 :: .g2 f.delta2 :: (f.z.map .g1 ++ (f.pkk.map .g1 ++ [])) := by simp [P2File.paramItems]
  rw [e]
  unfold Keys.pkBody
  refine SimKey.bind (SimKey.lift _) fun _ => SimKey.bind (SimKey.write _) fun _ => ?_
  refine SimKey.bind (SimKey.onEvals _) fun _ => SimKey.bind (SimKey.write _) fun _ => ?_
  refine SimKey.bind (SimKey.onEvals _) fun _ => SimKey.bind (SimKey.write _) fun _ => ?_
  refine SimKey.bind (SimKey.onPh2 (Sim.of_reads hC fun _ h => reads_g1 hC h)) fun _ => SimKey.bind (SimKey.write _) fun _ => ?_
  refine SimKey.bind (SimKey.onEvals _) fun _ => ?_
  refine SimKey.bind (SimKey.onPh2 (Sim.of_reads hC fun _ h => reads_g2 hC h)) fun _ => ?_
  refine SimKey.bind (SimKey.onEvals _) fun _ => SimKey.bind (SimKey.write _) fun _ => ?_
  refine SimKey.bind (SimKey.onEvals _) fun _ => SimKey.bind (SimKey.write _) fun _ => ?_
  refine points_sim hC f.z _ (header_z hC f hf) fun _ => SimKey.bind (SimKey.write _) fun _ => ?_
  refine points_sim hC f.pkk _ (by simp [P2File.header, hf.pkk]) fun _ => SimKey.bind (SimKey.write _) fun _ => ?_
  refine SimKey.bind (SimKey.write _) fun _ => SimKey.bind (SimKey.write _) fun _ => ?_
  refine SimKey.bind (SimKey.onEvals _) fun _ => SimKey.bind (SimKey.write _) fun _ => ?_
  refine SimKey.bind (SimKey.write _) fun _ => SimKey.bind (SimKey.write _) fun _ => SimKey.bind (SimKey.write _) fun _ => ?_
  exact SimKey.bind (SimKey.write _) fun _ => SimKey.write _

theorem splitPkBody_sim (f : P2File G1 G2) (hf : f.WF) : SimKey C f.paramItems [] (Keys.splitPkBody C f.header) := by
  have e : f.paramItems = .g1 f.delta1 :: .g2 f.delta2 :: (f.z.map .g1 ++ (f.pkk.map .g1 ++ [])) := by simp [P2File.paramItems]
  rw [e]
  unfold Keys.splitPkBody
  refine SimKey.bind (SimKey.write _) fun _ => ?_
  refine SimKey.bind (SimKey.onEvals _) fun _ => SimKey.bind (SimKey.write _) fun _ => ?_
  refine SimKey.bind (SimKey.onEvals _) fun _ => SimKey.bind (SimKey.write _) fun _ => ?_
  refine SimKey.bind (SimKey.onPh2 (Sim.of_reads hC fun _ h => reads_g1 hC h)) fun _ => SimKey.bind (SimKey.write _) fun _ => ?_
  refine SimKey.bind (SimKey.onEvals _) fun _ => ?_
  refine SimKey.bind (SimKey.onPh2 (Sim.of_reads hC fun _ h => reads_g2 hC h)) fun _ => ?_
  refine SimKey.bind (SimKey.onEvals _) fun _ => SimKey.bind (SimKey.write _) fun _ => ?_
  refine SimKey.bind (SimKey.onEvals _) fun _ => SimKey.bind (SimKey.write _) fun _ => ?_
  refine points_sim hC f.z _ (header_z hC f hf) fun _ => SimKey.bind (SimKey.write _) fun _ => ?_
  refine points_sim hC f.pkk _ (by simp [P2File.header, hf.pkk]) fun _ => SimKey.bind (SimKey.write _) fun _ => ?_
  refine SimKey.bind (SimKey.write _) fun _ => SimKey.bind (SimKey.write _) fun _ => ?_
  refine SimKey.bind (SimKey.onEvals _) fun _ => SimKey.bind (SimKey.write _) fun _ => ?_
  refine SimKey.bind (SimKey.write _) fun _ => SimKey.bind (SimKey.write _) fun _ => SimKey.bind (SimKey.write _) fun _ => ?_
  exact SimKey.bind (SimKey.write _) fun _ => SimKey.write _

theorem readVK_sim (E : Keys.KeyEnv G1) (ev : Bytes) (f : P2File G1 G2) :
    SimKey (O := O) C f.paramItems (f.z.map .g1 ++ f.pkk.map .g1) (Keys.readVK C E ev f.header) := by
  unfold Keys.readVK P2File.paramItems
  simp only [List.cons_append, List.nil_append]
  refine SimKey.bind (SimKey.onEvals _) fun _ => SimKey.bind (SimKey.onEvals _) fun _ => SimKey.bind (SimKey.onEvals _) fun _ => ?_
  refine SimKey.bind (SimKey.onPh2 (Sim.of_reads hC fun _ h => reads_g1 hC h)) fun _ => ?_
  refine SimKey.bind (SimKey.onPh2 (Sim.of_reads hC fun _ h => reads_g2 hC h)) fun _ => ?_
  refine SimKey.bind (SimKey.seek _ _) fun _ => SimKey.bind (SimKey.onEvals _) fun _ => SimKey.bind (SimKey.onEvals _) fun _ => ?_
  exact SimKey.bind (SimKey.lift _) fun _ => SimKey.pure _

end key

/-! ### the files -/

/-- without hashes the condition on positions says nothing -/
theorem encodes_points (C : Curve F G1 G2 GT) {fits fits' : Nat → Prop} (ts : List (Item G1 G2)) :
    ∀ (pos : Nat) (bs : Bytes), (∀ h, Item.hash h ∉ ts) → Encodes C fits pos ts bs → Encodes C fits' pos ts bs := by
  induction ts with
  | nil => intros; trivial
  | cons t ts ih =>
    intro pos bs hn h
    have hn' : ∀ h, Item.hash h ∉ ts := fun x hx => hn x (List.mem_cons_of_mem _ hx)
    cases t with
    | g1 p => obtain ⟨e, u, h1, h2, h3⟩ := h; exact ⟨e, u, h1, h2, ih _ _ hn' h3⟩
    | g2 p => obtain ⟨e, u, h1, h2, h3⟩ := h; exact ⟨e, u, h1, h2, ih _ _ hn' h3⟩
    | hash x => exact absurd (List.mem_cons_self ..) (hn x)

theorem p1_reads (hC : C.Lawful) (f : P1File G1 G2) (hf : f.WF) (bs : Bytes) (h : f.Written C bs) (cap : Nat) (hcap : 32 ∣ cap) :
    ∃ rd, Phase1.Header.readFrom.run (Rd.file bs 0) = (.ok ⟨f.power, UInt16.ofNat f.records.length⟩, rd) ∧
      Reads C f.items (Rd.buffered cap rd.rest) := by
  obtain ⟨body, rfl, hb⟩ := h
  refine ⟨⟨0, 3, body⟩, ?_, ?_⟩
  · rw [← header_encode _ _ hf.count, header_read]
  · refine reads_of_encodes C hC _ _ (encodes_aligned C hC (fits := fun _ => True) 3 ?_ _ 0 body (by omega) hb)
    intro p _ hp
    unfold Rd.buffered Fits
    simp only
    obtain ⟨k, rfl⟩ := hcap
    obtain ⟨q, rfl⟩ := hp
    rcases Nat.eq_zero_or_pos k with h | h
    · left; omega
    · right
      rw [Nat.mul_mod_mul_left]
      have := Nat.mod_lt q h
      omega

theorem p2_reads (hC : C.Lawful) (H : Phase2.HeaderCodec) (hH : H.Lawful) (f : P2File G1 G2) (hf : f.WF) (bs : Bytes) (h : f.Written C H bs) :
    ∃ rd, (Phase2.Header.read H).run (Rd.buffered 4096 bs) = (.ok f.header, rd) ∧ Reads C f.items rd := by
  obtain ⟨body, rfl, hb⟩ := h
  refine ⟨_, hH.dec_enc f.header (P2File.header_inRange hC hH hf) 4096 0 body, ?_⟩
  refine reads_of_encodes C hC _ _ (encodes_mono C (fun p hp => Or.inr hp) _ _ _ ?_)
  simpa using hb

theorem p2_reads_params (hC : C.Lawful) (H : Phase2.HeaderCodec) (hH : H.Lawful) (f : P2File G1 G2) (hf : f.WF) (bs : Bytes)
    (h : f.ParamsWritten C H bs) :
    ∃ rd, (Phase2.Header.read H).run (Rd.buffered 4096 bs) = (.ok f.header, rd) ∧ Reads C f.paramItems rd := by
  obtain ⟨body, rfl, hb⟩ := h
  refine ⟨_, hH.dec_enc f.header (P2File.header_inRange hC hH hf) 4096 0 body, ?_⟩
  refine reads_of_encodes C hC _ _ (encodes_points C (fits := fun _ => True) _ _ _ (by intro x; simp [P2File.paramItems]) ?_)
  simpa using hb

end
end ZkSetup.Encodings
