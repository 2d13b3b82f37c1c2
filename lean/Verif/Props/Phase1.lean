import Verif.Proofs.Phase1Origin
import Verif.Base.Toy
/-
Properties of phase 1 files and ceremonies: C05 to C12.
-/
set_option linter.unusedSectionVars false

namespace ZkSetup

open Phase1

namespace Toy

/-- a machine with 4 CPUs -/
def par : Par := ⟨4, by decide, Conc.Sched.sequential⟩

/-- one contributor's draws -/
def rnd : Rand K := ⟨3, 5, 7, 2, 4, 6⟩

/-- another contributor's draws -/
def rnd' : Rand K := ⟨11, 2, 13, 9, 8, 3⟩

end Toy

section
variable {F G1 G2 GT : Type} [Field F] [AddCommGroup G1] [Module F G1] [AddCommGroup G2]
  [Module F G2] [AddCommGroup GT] [Module F GT] [DecidableEq G1] [DecidableEq G2] [DecidableEq GT]
variable {C : Curve F G1 G2 GT} (hC : C.Lawful)
include hC

/-- **C05** (for all powers the 64-bit arithmetic supports, in particular 0..26): `Initialize` writes the
header, the generators in the documented numbers, and nothing else. -/
theorem C05_initialize (p : UInt8) (hp : p.toNat ≤ 62) :
    initializeFile C p
      = [p, 0, 0] ++ (List.replicate (2 ^ (p.toNat + 1) - 1) C.g1).flatMap C.c1.bytes
        ++ (List.replicate (2 ^ p.toNat) C.g1).flatMap C.c1.bytes
        ++ (List.replicate (2 ^ p.toNat) C.g1).flatMap C.c1.bytes
        ++ (List.replicate (2 ^ p.toNat) C.g2).flatMap C.c2.bytes
        ++ C.c2.bytes C.g2 ∧
    (initializeFile C p).length = 3 + 192 * 2 ^ p.toNat + 32 := by
  have hN : goPow2 p = ((2 ^ p.toNat : ℕ) : Int) := goPow2_eq hp
  have h1 : initializeFile C p
      = [p, 0, 0] ++ (List.replicate (2 ^ (p.toNat + 1) - 1) C.g1).flatMap C.c1.bytes
        ++ (List.replicate (2 ^ p.toNat) C.g1).flatMap C.c1.bytes
        ++ (List.replicate (2 ^ p.toNat) C.g1).flatMap C.c1.bytes
        ++ (List.replicate (2 ^ p.toNat) C.g2).flatMap C.c2.bytes
        ++ C.c2.bytes C.g2 := by
    unfold initializeFile
    simp only [wrap_tau hp]
    simp only [hN, Int.toNat_natCast, Codec.encodeN]
    rw [show 2 ^ (p.toNat + 1) = 2 * 2 ^ p.toNat by rw [pow_succ]; ring]
    simp [Header.writeTo, putUint16, beBytes]
  refine ⟨h1, ?_⟩
  rw [h1]
  simp only [List.length_append, section1_length hC, section2_length hC, List.length_replicate,
    hC.codec2.bytes_length, hC.size2, List.length_cons, List.length_nil]
  have : 0 < 2 ^ p.toNat := Nat.pow_pos (by omega)
  rw [pow_succ]
  omega

/-- the same on structured files -/
theorem C05_initialize_encode (p : UInt8) (hp : p.toNat ≤ 62) :
    initializeFile C p = (P1File.init C p).encode C := by
  rw [(C05_initialize hC p hp).1]
  simp only [P1File.encode, P1File.init, P1File.params]
  rw [show 2 ^ (p.toNat + 1) = 2 * 2 ^ p.toNat by rw [pow_succ]; ring]
  simp

example := C05_initialize Toy.lawful 26 (by decide)

/-- A ceremony on an initialised file, on bytes: it succeeds and is the ceremony on structured files. -/
theorem initial_ceremony (b : Nat) (hb : 2 ≤ b) (p : UInt8) (hp1 : 1 ≤ p.toNat) (hp : p.toNat ≤ 62)
    (steps : List (Par × Rand F)) (hk : steps.length < 65536) :
    p1Ceremony C b steps (initializeFile C p)
      = .ok (((P1File.init C p).ceremony C (steps.map Prod.snd)).encode C) := by
  rw [C05_initialize_encode hC p hp]
  exact p1Ceremony_bytes hC b hb steps _ (init_wf C p hp) (init_powers C p).regular hp1
    (by simpa [P1File.init] using hk)

/-- the size of an encoded file -/
theorem encode_length (f : P1File G1 G2) (hf : f.WF) :
    (f.encode C).length = 3 + 192 * 2 ^ f.power.toNat + 32 + 640 * f.records.length := by
  have hr : (f.records.flatMap (recordBytes C)).length = 640 * f.records.length := by
    have : ∀ rs : List (Contribution G1 G2), (∀ r ∈ rs, r.hash.length = 32) →
        (rs.flatMap (recordBytes C)).length = 640 * rs.length := by
      intro rs
      induction rs with
      | nil => simp
      | cons r rs ih =>
        intro h
        simp only [List.flatMap_cons, List.length_append, List.length_cons]
        rw [ih (fun r' h' => h r' (by simp [h'])), recordBytes_length hC r (h r (by simp))]
        omega
    exact this _ hf.hash
  simp only [P1File.encode, P1File.params, List.length_append, section1_length hC, section2_length hC,
    hC.codec2.bytes_length, hC.size2, List.length_cons, List.length_nil, hr, hf.tauG1, hf.alphaG1,
    hf.betaG1, hf.tauG2]
  have : 0 < 2 ^ f.power.toNat := Nat.pow_pos (by omega)
  omega

theorem header_of_encode (f : P1File G1 G2) (hf : f.WF) (junk : Bytes) :
    (Header.readFrom.run (Rd.file (f.encode C ++ junk) 0)).1
      = .ok ⟨f.power, UInt16.ofNat f.records.length⟩ := by
  have : f.encode C ++ junk = Header.writeTo ⟨f.power, UInt16.ofNat f.records.length⟩
      ++ (f.params C ++ f.records.flatMap (recordBytes C) ++ junk) := by
    rw [header_encode _ _ hf.count]
    simp [P1File.encode]
  rw [this, header_read]

/-- **C06** for up to 65535 contributions: every contribution succeeds, the header reports `k`, and the file
consists of header, parameters and exactly `k` records. The full statement (all `k`) is false, see
`C06_counter_wraps`. -/
theorem C06_counter_partial (b : Nat) (hb : 2 ≤ b) (p : UInt8) (hp1 : 1 ≤ p.toNat) (hp : p.toNat ≤ 62)
    (steps : List (Par × Rand F)) (hk : steps.length < 65536) :
    ∃ out h, p1Ceremony C b steps (initializeFile C p) = .ok out ∧
      (Header.readFrom.run (Rd.file out 0)).1 = .ok h ∧
      h.power = p ∧ h.contributions.toNat = steps.length ∧
      out.length = 3 + 192 * 2 ^ p.toNat + 32 + 640 * steps.length := by
  obtain ⟨hwf, _, hpow, hlen⟩ := ceremony_inv hC (steps.map Prod.snd) (P1File.init C p) (init_wf C p hp)
    (init_powers C p).regular (by simpa [P1File.init] using hk)
  have hlen' : ((P1File.init C p).ceremony C (steps.map Prod.snd)).records.length = steps.length := by
    simpa [P1File.init] using hlen
  refine ⟨_, ⟨p, UInt16.ofNat steps.length⟩, initial_ceremony hC b hb p hp1 hp steps hk, ?_, rfl, ?_, ?_⟩
  · have := header_of_encode hC _ hwf []
    rw [List.append_nil, hlen', hpow] at this
    exact this
  · simp; omega
  · rw [encode_length hC _ hwf, hlen', hpow]; rfl

example := C06_counter_partial Toy.lawful batchSize (by decide) 1 (by decide) (by decide)
  [(Toy.par, Toy.rnd), (Toy.par, Toy.rnd')] (by decide)

/-- contribution number 65536 and the one after it -/
theorem wrap_step (b : Nat) (hb : 2 ≤ b) (f : P1File G1 G2) (hf : f.WF) (hp1 : 1 ≤ f.power.toNat)
    (hr : f.Regular) (hc : f.records.length = 65535) (par : Par) (rnd : Rand F) :
    ∃ hash out, contribute C par b rnd (f.encode C) = (.ok hash, out) ∧
      out = ({ f.contribute C rnd with records := [] } : P1File G1 G2).encode C
        ++ (f.contribute C rnd).records.flatMap (recordBytes C) := by
  obtain ⟨t1, a1, b1, t2, h, h1, h2, h3, h4⟩ := contribute_bytes hC par b hb rnd f hf hp1
  rw [h1 (hr.tauG1.scaled _ _), h2 (hr.alphaG1.scaled _ _), h3 (hr.betaG1.scaled _ _),
    h4 (hr.tauG2.scaled _ _)] at h
  have h' := h []
  rw [List.append_nil] at h'
  refine ⟨_, _, h', ?_⟩
  rw [hc]
  simp [P1File.encode, P1File.contribute, P1File.update, P1File.params, Header.writeTo, putUint16, beBytes]

/-- **C06, negation**: after 65536 contributions to any initialised file the header reports 0 contributions
although the file holds 65536 records; one more contribution yields a file with one record, all others are
lost. -/
theorem C06_counter_wraps (b : Nat) (hb : 2 ≤ b) (p : UInt8) (hp1 : 1 ≤ p.toNat) (hp : p.toNat ≤ 62)
    (steps : List (Par × Rand F)) (hk : steps.length = 65536) (par : Par) (rnd : Rand F) :
    ∃ out hash out', p1Ceremony C b steps (initializeFile C p) = .ok out ∧
      (Header.readFrom.run (Rd.file out 0)).1 = .ok ⟨p, 0⟩ ∧
      out.length = 3 + 192 * 2 ^ p.toNat + 32 + 640 * 65536 ∧
      contribute C par b rnd out = (.ok hash, out') ∧
      (Header.readFrom.run (Rd.file out' 0)).1 = .ok ⟨p, 1⟩ ∧
      out'.length = 3 + 192 * 2 ^ p.toNat + 32 + 640 := by
  obtain ⟨init, last, rfl⟩ : ∃ init last, steps = init ++ [last] := by
    rcases List.eq_nil_or_concat steps with h | ⟨i, l, h⟩
    · rw [h] at hk; simp at hk
    · exact ⟨i, l, by simpa using h⟩
  have hk' : init.length = 65535 := by simpa using hk
  obtain ⟨hwf, hreg, hpow, hlen⟩ := ceremony_inv hC (init.map Prod.snd) (P1File.init C p) (init_wf C p hp)
    (init_powers C p).regular (by simp [P1File.init, hk'])
  have hcer := initial_ceremony hC b hb p hp1 hp init (by omega)
  have hpow' : ((P1File.init C p).ceremony C (init.map Prod.snd)).power = p := hpow
  have hlen' : ((P1File.init C p).ceremony C (init.map Prod.snd)).records.length = 65535 := by
    simpa [P1File.init, hk'] using hlen
  generalize (P1File.init C p).ceremony C (init.map Prod.snd) = f at *
  obtain ⟨hash, out, hc1, hout⟩ := wrap_step hC b hb f hwf (by rw [hpow']; exact hp1) hreg hlen' last.1 last.2
  have happ : ∀ (l : List (Par × Rand F)) (x : Bytes) (y : Bytes), p1Ceremony C b l x = .ok y →
      p1Ceremony C b (l ++ [last]) x = p1Ceremony C b [last] y := by
    intro l
    induction l with
    | nil => intro x y h; simp only [p1Ceremony, Except.ok.injEq] at h; rw [← h]; rfl
    | cons a l ih =>
      intro x y h
      simp only [List.cons_append, p1Ceremony] at h ⊢
      split
      · rename_i h'; rw [h'] at h; exact ih _ _ h
      · rename_i h'; rw [h'] at h; simp at h
  have hfin : p1Ceremony C b (init ++ [last]) (initializeFile C p) = .ok out := by
    rw [happ _ _ _ hcer]
    simp only [p1Ceremony, hc1]
  have hwf2 : ({ f.contribute C last.2 with records := [] } : P1File G1 G2).WF := by
    refine ⟨hwf.power, ?_, ?_, ?_, ?_, by simp, by simp⟩
    · simp [P1File.contribute, P1File.update, hwf.tauG1]
    · simp [P1File.contribute, P1File.update, hwf.alphaG1]
    · simp [P1File.contribute, P1File.update, hwf.betaG1]
    · simp [P1File.contribute, P1File.update, hwf.tauG2]
  have hreg2 : ({ f.contribute C last.2 with records := [] } : P1File G1 G2).Regular :=
    have h := hreg.update last.2 (newRecord C last.2 (lastHash f.records)
      ((scaled 1 last.2.tau f.tauG1).getD 1 0) ((scaled last.2.alpha last.2.tau f.alphaG1).getD 0 0)
      ((scaled last.2.beta last.2.tau f.betaG1).getD 0 0) ((scaled 1 last.2.tau f.tauG2).getD 1 0)
      (last.2.beta • f.betaG2))
    ⟨h.tauG1, h.alphaG1, h.betaG1, h.tauG2⟩
  have hrl : ((f.contribute C last.2).records.flatMap (recordBytes C)).length = 640 * 65536 := by
    have hh : ∀ r ∈ (f.contribute C last.2).records, r.hash.length = 32 := by
      intro r hr
      simp only [P1File.contribute, P1File.update, List.mem_append, List.mem_singleton] at hr
      rcases hr with hr | rfl
      · exact hwf.hash r hr
      · exact newRecord_hash_length hC ..
    have hl : (f.contribute C last.2).records.length = 65536 := by
      simp [P1File.contribute, P1File.update, hlen']
    rw [← hl]
    generalize (f.contribute C last.2).records = rs at hh ⊢
    clear hl
    induction rs with
    | nil => simp
    | cons r rs ih =>
      simp only [List.flatMap_cons, List.length_append, List.length_cons]
      rw [ih (fun r' h' => hh r' (by simp [h'])), recordBytes_length hC r (hh r (by simp))]
      omega
  have hp1' : 1 ≤ f.power.toNat := by rw [hpow']; exact hp1
  have hnext := contribute_regular hC par b hb rnd _ hwf2 hreg2 hp1' (by simp)
    ((f.contribute C last.2).records.flatMap (recordBytes C))
  rw [← hout] at hnext
  refine ⟨out, _, _, hfin, ?_, ?_, hnext, ?_, ?_⟩
  · rw [hout, header_of_encode hC _ hwf2, ← hpow']; rfl
  · rw [hout, List.length_append, encode_length hC _ hwf2, hrl, ← hpow']; rfl
  · have := header_of_encode hC _ (hwf2.contribute hC rnd (by simp)) []
    rw [List.append_nil] at this
    rw [this, ← hpow']; rfl
  · rw [encode_length hC _ (hwf2.contribute hC rnd (by simp)), ← hpow']
    rfl

example := C06_counter_wraps Toy.lawful batchSize (by decide) 1 (by decide) (by decide)
  (List.replicate 65536 (Toy.par, Toy.rnd)) List.length_replicate Toy.par Toy.rnd'

/-- **C07**, phase 1 header: three bytes are written, and reading them back leaves the reader behind them. -/
theorem C07_header_roundtrip (h : Header) (ys : Bytes) :
    h.writeTo.length = 3 ∧ Header.readFrom.run (Rd.file (h.writeTo ++ ys) 0) = (.ok h, ⟨0, 3, ys⟩) :=
  ⟨by simp [Header.writeTo], header_read h ys⟩

example := C07_header_roundtrip Toy.lawful ⟨26, 65535⟩ [1, 2, 3]

/-- **C07**, phase 1 contribution: 640 bytes are written, and reading them back into any record, at every
position a contribution can have in a phase 1 file, returns the contribution and consumes exactly them. -/
theorem C07_contribution_roundtrip (c c0 : Contribution G1 G2) (hl : c.hash.length = 32) (cap pos : Nat)
    (hal : cap = 0 ∨ (32 ∣ cap ∧ 32 ∣ pos)) (ys : Bytes) :
    (c.writeTo C).length = 640 ∧
      (Contribution.readFrom C).run (c0, ⟨cap, pos, c.writeTo C ++ ys⟩) = (.ok (), (c, ⟨cap, pos + 640, ys⟩)) := by
  rw [contribution_writeTo]
  exact ⟨recordBytes_length hC c hl, record_read hC c c0 cap pos ys hl hal⟩

example := C07_contribution_roundtrip Toy.lawful
  (newRecord Toy.curve Toy.rnd [1, 2, 3] (1 : Toy.K) 2 3 4 5) Contribution.zero
  (newRecord_hash_length Toy.lawful ..) 4096 4064 (.inr ⟨by decide, by decide⟩) [7]

/-- **C08**, G1 sections: whatever the batch size, element `i` of a section is multiplied by `m·τ^i`
(`m = 1` if there is no multiplier), and only the section is consumed. -/
theorem C08_scaleG1 (par : Par) (b : Nat) (hb : 2 ≤ b) (tau : F) (mult : Option F) (pts : List G1)
    (hl : 2 ≤ pts.length) (cap pos : Nat) (ys out : Bytes) :
    ∃ p, (scaleG1 C par b pts.length tau mult).run ⟨⟨cap, pos, pts.flatMap C.c1.bytes ++ ys⟩, out⟩
      = (.ok p, ⟨⟨cap, pos + 32 * pts.length, ys⟩,
          out ++ (pts.mapIdx fun i q => (mult.getD 1 * tau ^ i) • q).flatMap C.c1.bytes⟩) := by
  obtain ⟨p, h, _⟩ := scaleG1_spec hC par b pts.length tau mult pts rfl (by split <;> omega)
  exact ⟨p, h cap pos ys out⟩

/-- **C08**, G2 section -/
theorem C08_scaleG2 (par : Par) (b : Nat) (hb : 2 ≤ b) (tau : F) (pts : List G2)
    (hl : 2 ≤ pts.length) (cap pos : Nat) (ys out : Bytes) :
    ∃ p, (scaleG2 C par b pts.length tau).run ⟨⟨cap, pos, pts.flatMap C.c2.bytes ++ ys⟩, out⟩
      = (.ok p, ⟨⟨cap, pos + 64 * pts.length, ys⟩,
          out ++ (pts.mapIdx fun i q => (tau ^ i) • q).flatMap C.c2.bytes⟩) := by
  obtain ⟨p, h, _⟩ := scaleG2_spec hC par b pts.length tau pts rfl (by omega)
  have := h cap pos ys out
  simp only [scaled, one_mul] at this
  exact ⟨p, this⟩

-- five points in batches of two: the powers continue across the batches
example := C08_scaleG1 Toy.lawful Toy.par 2 (by decide) 3 (some 5) [1, 2, 3, 4, 5] (by decide) 4096 0 [] []
example := C08_scaleG2 Toy.lawful Toy.par 2 (by decide) 3 [1, 2, 3, 4, 5] (by decide) 4096 0 [] []

/-- **C09**: after any sequence of up to 65535 contributions to an initialised file, the output is a
well-formed file whose sections are the powers for the products of the secrets. -/
theorem C09_ceremony_powers (b : Nat) (hb : 2 ≤ b) (p : UInt8) (hp1 : 1 ≤ p.toNat) (hp : p.toNat ≤ 62)
    (steps : List (Par × Rand F)) (hk : steps.length < 65536) :
    ∃ f : P1File G1 G2, p1Ceremony C b steps (initializeFile C p) = .ok (f.encode C) ∧ f.WF ∧ f.power = p ∧
      f.Powers C (steps.map fun s => s.2.tau).prod (steps.map fun s => s.2.alpha).prod
        (steps.map fun s => s.2.beta).prod := by
  obtain ⟨hwf, _, hpow, _⟩ := ceremony_inv hC (steps.map Prod.snd) (P1File.init C p) (init_wf C p hp)
    (init_powers C p).regular (by simpa [P1File.init] using hk)
  refine ⟨_, initial_ceremony hC b hb p hp1 hp steps hk, hwf, hpow, ?_⟩
  have := ceremony_powers (steps.map Prod.snd) (P1File.init C p) 1 1 1 (init_powers C p)
  simpa [List.map_map, Function.comp_def] using this

example := C09_ceremony_powers Toy.lawful batchSize (by decide) 1 (by decide) (by decide)
  [(Toy.par, Toy.rnd), (Toy.par, Toy.rnd')] (by decide)

/-- **C10**: `Contribute` on any well-formed file (with arbitrary points, and arbitrary bytes after the records)
keeps the power and all earlier records byte for byte, and appends one record with proofs of knowledge of the
drawn secrets for the previous hash; the printed hash is the record's. The bytes after the records do not
matter. -/
theorem C10_contribute_preserves_history (par : Par) (b : Nat) (hb : 2 ≤ b) (rnd : Rand F)
    (f : P1File G1 G2) (hf : f.WF) (hp : 1 ≤ f.power.toNat) (hc : f.records.length < 65535) :
    ∃ (g : P1File G1 G2) (r : Contribution G1 G2),
      (∀ junk, contribute C par b rnd (f.encode C ++ junk) = (.ok r.hash, g.encode C)) ∧ g.WF ∧
      g.power = f.power ∧ g.records = f.records ++ [r] ∧
      r.pkTau = proofOf C rnd.tau rnd.sTau (lastHash f.records) 1 ∧
      r.pkAlpha = proofOf C rnd.alpha rnd.sAlpha (lastHash f.records) 2 ∧
      r.pkBeta = proofOf C rnd.beta rnd.sBeta (lastHash f.records) 3 ∧
      r.hash = C.sha (recordBody C r) ∧
      g.tauG1 = scaled 1 rnd.tau f.tauG1 ∧ g.alphaG1 = scaled rnd.alpha rnd.tau f.alphaG1 ∧
      g.betaG1 = scaled rnd.beta rnd.tau f.betaG1 ∧ g.tauG2 = scaled 1 rnd.tau f.tauG2 ∧
      g.betaG2 = rnd.beta • f.betaG2 := by
  obtain ⟨t1, a1, b1, t2, h, -⟩ := contribute_bytes hC par b hb rnd f hf hp
  refine ⟨f.update rnd (newRecord C rnd (lastHash f.records) t1 a1 b1 t2 (rnd.beta • f.betaG2)),
    newRecord C rnd (lastHash f.records) t1 a1 b1 t2 (rnd.beta • f.betaG2), ?_,
    hf.update rnd _ (newRecord_hash_length hC ..) hc, rfl, rfl, rfl, rfl, rfl, rfl, rfl, rfl, rfl, rfl, rfl⟩
  intro junk
  rw [h junk, header_encode _ _ (by omega)]
  simp [P1File.encode, P1File.update, P1File.params]

example := C10_contribute_preserves_history Toy.lawful Toy.par batchSize (by decide) Toy.rnd
  ((P1File.init Toy.curve 1).contribute Toy.curve Toy.rnd')
  ((init_wf Toy.curve 1 (by decide)).contribute Toy.lawful _ (by decide)) (by decide) (by decide)

/-- an honest ceremony on top of `t` (no records yet), verified against the origin it started from -/
theorem honest_accepted (f : P1File G1 G2) (hf : f.WF) (prev : Contribution G1 G2) (h : f.Tracks C prev)
    (hne : f.records ≠ []) (par : Par) (b : Nat) (hb : 0 < b) (vr : VerifyRand F) (tr : Option Bytes)
    (htr : defaultContribution C tr = .ok prev) (junk : Bytes) :
    verify C par .strict b vr (f.encode C ++ junk) tr = .ok () := by
  rw [verify_bytes hC par .strict b hb vr f hf junk tr]
  refine ⟨prev, htr, h.chain, ?_⟩
  rw [sectionsOk_strict]
  obtain ⟨r, hr⟩ : ∃ r, f.records.getLast? = some r :=
    ⟨_, List.getLast?_eq_some_getLast hne⟩
  have := h.g2Beta
  rw [hr] at this ⊢
  exact this.symm

/-- **C11**: every ceremony of 1 to 65535 honest contributions, with arbitrary secrets, is accepted, whatever the
verifier draws, on every machine. `MultiExp` behaves as gnark-crypto documents it (`strict`), see
`C11_truncate_rejects`. -/
theorem C11_honest_accepted (b : Nat) (hb : 2 ≤ b) (p : UInt8) (hp1 : 1 ≤ p.toNat) (hp : p.toNat ≤ 62)
    (steps : List (Par × Rand F)) (hne : steps ≠ []) (hk : steps.length < 65536) :
    ∃ out, p1Ceremony C b steps (initializeFile C p) = .ok out ∧
      ∀ (par : Par) (b' : Nat) (_ : 0 < b') (vr : VerifyRand F),
        verify C par .strict b' vr out none = .ok () := by
  obtain ⟨hwf, _, _, hlen⟩ := ceremony_inv hC (steps.map Prod.snd) (P1File.init C p) (init_wf C p hp)
    (init_powers C p).regular (by simpa [P1File.init] using hk)
  refine ⟨_, initial_ceremony hC b hb p hp1 hp steps hk, ?_⟩
  intro par b' hb' vr
  have := honest_accepted hC _ hwf (genesis C) ((tracks_genesis p hp1).ceremony _) ?_ par b' hb' vr none rfl []
  · simpa using this
  · intro h0
    rw [h0] at hlen
    have : 0 < steps.length := List.length_pos_iff.mpr hne
    simp only [List.length_nil, List.length_map] at hlen
    omega

example := C11_honest_accepted Toy.lawful batchSize (by decide) 1 (by decide) (by decide)
  [(Toy.par, Toy.rnd), (Toy.par, Toy.rnd')] (by decide) (by decide)

/-- **C12**: the same for a ceremony on top of a file without records that holds the powers of any trapdoor, verified
against that file. -/
theorem C12_transformed_accepted (b : Nat) (hb : 2 ≤ b) (t : P1File G1 G2) (ht : t.WF) (hp1 : 1 ≤ t.power.toNat)
    (hrec : t.records = []) (τ α β : F) (hpow : t.Powers C τ α β) (steps : List (Par × Rand F))
    (hne : steps ≠ []) (hk : steps.length < 65536) :
    ∃ out, p1Ceremony C b steps (t.encode C) = .ok out ∧
      ∀ (par : Par) (b' : Nat) (_ : 0 < b') (vr : VerifyRand F) (junk : Bytes),
        verify C par .strict b' vr out (some (t.encode C ++ junk)) = .ok () := by
  have hk' : t.records.length + (steps.map Prod.snd).length < 65536 := by simpa [hrec] using hk
  obtain ⟨hwf, _, _, hlen⟩ := ceremony_inv hC (steps.map Prod.snd) t ht hpow.regular hk'
  refine ⟨_, p1Ceremony_bytes hC b hb steps t ht hpow.regular hp1 (by simpa using hk'), ?_⟩
  intro par b' hb' vr junk
  have := honest_accepted hC _ hwf (originOf t) ((tracks_origin t hrec).ceremony _) ?_ par b' hb' vr
    (some (t.encode C ++ junk)) (defaultContribution_some hC t ht hp1 junk) []
  · simpa using this
  · intro h0
    rw [h0] at hlen
    have : 0 < steps.length := List.length_pos_iff.mpr hne
    simp only [List.length_nil, List.length_map] at hlen
    omega

end

/-- a transformed file with trapdoor 3, 5, 7 -/
def Toy.transformed : P1File Toy.K Toy.K :=
  { power := 1, tauG1 := [1, 3, 9], alphaG1 := [5, 15], betaG1 := [7, 21], tauG2 := [1, 3], betaG2 := 7
    records := [] }

example := C12_transformed_accepted Toy.lawful batchSize (by decide) Toy.transformed
  ⟨by decide, by decide, by decide, by decide, by decide, by decide, by simp [Toy.transformed]⟩ (by decide) rfl 3 5 7
  ⟨by decide, by decide, by decide, by decide, by decide⟩ [(Toy.par, Toy.rnd)] (by simp) (by decide)

end ZkSetup
