import Verif.Props.DiskInit
/-
C55, the other side: on a disk with enough room initialisation does what it does without a disk, also when it fails. So whatever a
failed initialisation leaves behind is described by the model without the disk.
-/
set_option linter.unusedSectionVars false

namespace ZkSetup

open Phase2 Disk
open Phase1 (makeLen)
open ZkSetup.Keys (checkedCall sliceCalls allBytes_encodeSlice)

namespace DiskRoom

/-- the files on the disk, with room for `N` bytes each -/
structure Same (N : Nat) (s : InitSt) (d : DiskSt) : Prop where
  ph2 : d.ph2.data = s.ph2
  lag : d.lag.data = s.lag
  evals : d.evals.data = s.evals
  cap2 : N ≤ d.ph2.cap
  capL : N ≤ d.lag.cap
  capE : N ≤ d.evals.cap

theorem Same.mono {N M : Nat} {s : InitSt} {d : DiskSt} (h : Same N s d) (hM : M ≤ N) : Same M s d :=
  ⟨h.ph2, h.lag, h.evals, hM.trans h.cap2, hM.trans h.capL, hM.trans h.capE⟩

/-- with enough room the two programs do the same -/
def Agree {α : Type} (x : Go InitSt α) (y : Go DiskSt α) : Prop :=
  ∀ s, ∃ N, ∀ M, N ≤ M → ∀ d, Same M s d → (y.run d).1 = (x.run s).1 ∧ Same M (x.run s).2 (y.run d).2

section
variable {α β : Type}

theorem Agree.bind {x : Go InitSt α} {y : Go DiskSt α} {f : α → Go InitSt β} {g : α → Go DiskSt β} (h : Agree x y)
    (hf : ∀ a, Agree (f a) (g a)) : Agree (x >>= f) (y >>= g) := by
  intro s
  obtain ⟨N, hN⟩ := h s
  rcases hx : x.run s with ⟨r, s'⟩
  cases r with
  | error e =>
    refine ⟨N, fun M hM d hd => ?_⟩
    obtain ⟨h1, h2⟩ := hN M hM d hd
    rw [hx] at h1 h2
    rw [Go.bind_error hx, Go.bind_error (Prod.ext h1 rfl)]
    exact ⟨rfl, h2⟩
  | ok a =>
    obtain ⟨N', hN'⟩ := hf a s'
    refine ⟨max N N', fun M hM d hd => ?_⟩
    obtain ⟨h1, h2⟩ := hN M (by omega) d hd
    rw [hx] at h1 h2
    rw [Go.bind_ok hx, Go.bind_ok (Prod.ext h1 rfl)]
    exact hN' M (by omega) _ h2

theorem Agree.pure (a : α) : Agree (Pure.pure a) (Pure.pure a) := fun _ => ⟨0, fun _ _ _ hd => ⟨rfl, hd⟩⟩

theorem Agree.fail (e : Fail) : Agree (Go.fail e : Go InitSt α) (Go.fail e) := fun _ => ⟨0, fun _ _ _ hd => ⟨rfl, hd⟩⟩

theorem Agree.lift {r : Except Fail α} {f : α → Go InitSt β} {g : α → Go DiskSt β} (hf : ∀ a, Agree (f a) (g a)) :
    Agree (Go.lift r >>= f) (Go.lift r >>= g) := .bind (fun _ => ⟨0, fun _ _ _ hd => ⟨rfl, hd⟩⟩) hf

theorem Agree.openLag {f : Bytes → Go InitSt β} {g : Bytes → Go DiskSt β} (hf : ∀ a, Agree (f a) (g a)) :
    Agree (Phase2.openLag >>= f) (openLagOnDisk >>= g) :=
  .bind (fun _ => ⟨0, fun _ _ _ hd => ⟨congrArg Except.ok hd.lag, hd⟩⟩) hf

theorem Agree.createLag : Agree Phase2.createLag createLagOnDisk :=
  fun _ => ⟨0, fun _ _ _ hd => ⟨rfl, hd.ph2, rfl, hd.evals, hd.cap2, hd.capL, hd.capE⟩⟩

theorem Agree.createEvals : Agree Phase2.createEvals createEvalsOnDisk :=
  fun _ => ⟨0, fun _ _ _ hd => ⟨rfl, hd.ph2, hd.lag, rfl, hd.cap2, hd.capL, hd.capE⟩⟩

theorem Agree.congr {x x' : Go InitSt α} {y : Go DiskSt α} (hx : ∀ s, x.run s = x'.run s) (h : Agree x' y) : Agree x y := by
  intro s
  rw [hx]
  exact h s

/-- a part that fits is written -/
theorem runPart_room {f : File} {p : Part} (h : f.data.length + p.all.length ≤ f.cap) :
    (runPart f p).1 = true ∧ (runPart f p).2.data = f.data ++ p.all ∧ (runPart f p).2.cap = f.cap := by
  obtain ⟨h1, h2, h3⟩ := runPart_spec f (by omega) p
  refine ⟨?_, ?_, h1⟩
  · by_contra hf
    have := h3 (by simpa using hf)
    simp only [List.length_append] at this
    omega
  · rw [h2, List.take_of_length_le (by simpa using h)]

theorem Agree.putPh2 {p : Part} {bs : Bytes} (hp : p.all = bs) : Agree (emitPh2 bs) (Phase2.putPh2 p) := by
  intro s
  refine ⟨s.ph2.length + bs.length, fun M hM d hd => ?_⟩
  obtain ⟨h1, h2, h3⟩ := runPart_room (f := d.ph2) (p := p) (by rw [hd.ph2, hp]; exact hM.trans hd.cap2)
  simp only [Phase2.putPh2, emitPh2, h1, written, if_true]
  exact ⟨trivial, by rw [h2, hd.ph2, hp], hd.lag, hd.evals, by rw [h3]; exact hd.cap2, hd.capL, hd.capE⟩

theorem Agree.putLag {p : Part} {bs : Bytes} (hp : p.all = bs) : Agree (emitLag bs) (Phase2.putLag p) := by
  intro s
  refine ⟨s.lag.length + bs.length, fun M hM d hd => ?_⟩
  obtain ⟨h1, h2, h3⟩ := runPart_room (f := d.lag) (p := p) (by rw [hd.lag, hp]; exact hM.trans hd.capL)
  simp only [Phase2.putLag, emitLag, h1, written, if_true]
  exact ⟨trivial, hd.ph2, by rw [h2, hd.lag, hp], hd.evals, hd.cap2, by rw [h3]; exact hd.capL, hd.capE⟩

theorem Agree.putEvals {p : Part} {bs : Bytes} (hp : p.all = bs) : Agree (emitEvals bs) (Phase2.putEvals p) := by
  intro s
  refine ⟨s.evals.length + bs.length, fun M hM d hd => ?_⟩
  obtain ⟨h1, h2, h3⟩ := runPart_room (f := d.evals) (p := p) (by rw [hd.evals, hp]; exact hM.trans hd.capE)
  simp only [Phase2.putEvals, emitEvals, h1, written, if_true]
  exact ⟨trivial, hd.ph2, hd.lag, by rw [h2, hd.evals, hp], hd.cap2, hd.capL, by rw [h3]; exact hd.capE⟩

end

section
variable {F G1 G2 GT : Type} [Field F] [AddCommGroup G1] [Module F G1] [AddCommGroup G2]
  [Module F G2] [AddCommGroup GT] [Module F GT]

theorem processHeader_agree (H : HeaderCodec) (r1cs : Option (R1CS F)) (file : Bytes) :
    Agree (processHeader H r1cs file) (processHeaderOnDisk H r1cs file) := by
  unfold processHeader processHeaderOnDisk
  cases r1cs with
  | none => exact .fail _
  | some r => exact .lift fun _ => .lift fun _ => .lift fun _ => .bind (.putPh2 (headerPart_all _ _)) fun _ => .pure _

theorem processHeaderParted_agree (H : HeaderCodec) (cs : PartedR1CS F) (nbCons : Int) (file : Bytes) :
    Agree (processHeaderParted H cs nbCons file) (processHeaderPartedOnDisk H cs nbCons file) := by
  unfold processHeaderParted processHeaderPartedOnDisk
  exact .lift fun _ => .lift fun _ => .lift fun _ => .bind (.putPh2 (headerPart_all _ _)) fun _ => .pure _

theorem processLagrange_agree (C : Curve F G1 G2 GT) (par : Par) (dom : Nat → Lagrange.Domain F) (h1 : Phase1.Header) (h2 : Header)
    (file : Bytes) : Agree (processLagrange C par dom h1 h2 file) (processLagrangeOnDisk C par dom h1 h2 file) := by
  unfold processLagrange processLagrangeOnDisk
  exact .bind .createLag fun _ => .lift fun _ => .bind (.putLag (lagPart_all _ _ _)) fun _ => .lift fun _ =>
    .bind (.putLag (lagPart_all _ _ _)) fun _ => .lift fun _ => .bind (.putLag (lagPart_all _ _ _)) fun _ => .lift fun _ =>
    .putLag (lagPart_all _ _ _)

theorem slicePart_all {G : Type} (c : Codec G) (xs : List G) : (slicePart (xs.map c.bytes)).all = c.encodeSlice xs :=
  allBytes_encodeSlice _ _

theorem evals_agree (C : Curve F G1 G2 GT) (acc1 : (R1C → List Term) → List G1 → List G1 → Except Fail (List G1))
    (acc2 : (R1C → List Term) → List G2 → List G2 → Except Fail (List G2)) (h1 : Phase1.Header) (h2 : Header) (file : Bytes) :
    Agree (evalsPlain C acc1 acc2 h1 h2 file) (evalsDisk C acc1 acc2 h1 h2 file) := by
  unfold evalsPlain evalsDisk
  exact .openLag fun _ => .bind .createEvals fun _ => .lift fun _ => .bind (.putEvals (pointPart_all _)) fun _ =>
    .bind (.putEvals (pointPart_all _)) fun _ => .bind (.putEvals (pointPart_all _)) fun _ => .lift fun _ => .lift fun _ =>
    .lift fun _ => .bind (.putEvals (slicePart_all _ _)) fun _ => .lift fun _ => .bind (.putEvals (slicePart_all _ _)) fun _ =>
    .lift fun _ => .lift fun _ => .putEvals (slicePart_all _ _)

theorem deltaAndZ_agree (C : Curve F G1 G2 GT) (h2 : Header) (file : Bytes) :
    Agree (processDeltaAndZ C h2 file) (processDeltaAndZOnDisk C h2 file) := by
  have hdz : allBytes (deltaCalls C) = C.c1.bytes C.g1 ++ C.c2.bytes C.g2 := by simp [deltaCalls, allBytes, checkedCall]
  have hfail : ∀ e : Fail, Agree (do emitPh2 (C.c1.bytes C.g1 ++ C.c2.bytes C.g2); Go.fail e : Go InitSt Unit)
      (putDeltaAndZ C h2.domain (.error e)) := fun e => .bind (.putPh2 hdz) fun _ => .fail e
  unfold processDeltaAndZ processDeltaAndZOnDisk
  cases hm : makeLen (2 * h2.domain - 1) with
  | error e =>
    refine .congr (fun s => ?_) (hfail e)
    simp only [Go.bind_run, emitPh2, Go.lift_run, hm, List.append_assoc]
    rfl
  | ok len =>
    cases ht : ((C.c1.decodeN len).run (Rd.buffered 4096 (file.drop 3))).1 with
    | error e =>
      have hy : (do let len ← (Except.ok len : Except Fail Nat); ((C.c1.decodeN len).run (Rd.buffered 4096 (file.drop 3))).1)
        = .error e := ht
      rw [hy]
      refine .congr (fun s => ?_) (hfail e)
      simp only [Go.bind_run, emitPh2, Go.lift_run, hm, ht, List.append_assoc]
      rfl
    | ok tau =>
      have hy : (do let len ← (Except.ok len : Except Fail Nat); ((C.c1.decodeN len).run (Rd.buffered 4096 (file.drop 3))).1)
        = .ok tau := ht
      rw [hy]
      refine .congr (x' := emitPh2 (C.c1.bytes C.g1 ++ C.c2.bytes C.g2 ++ C.c1.encodeN (computeZ h2.domain.toNat tau))) (fun s => ?_) ?_
      · simp only [Go.bind_run, emitPh2, Go.lift_run, hm, ht, List.append_assoc]
      · refine .putPh2 ?_
        show allBytes _ = _
        rw [allBytes_append, hdz, allBytes_points]

theorem pvckk_agree (C : Curve F G1 G2 GT) (cmtBytes : Commitment → Bytes) (cuts : List Nat) (cmt : Commitment)
    (acc : (R1C → List Term) → List G1 → List G1 → Except Fail (List G1)) (h2 : Header) :
    Agree (pvckkPlain C cmtBytes cmt acc h2) (pvckkDisk C cmtBytes cuts cmt acc h2) := by
  unfold pvckkPlain pvckkDisk
  refine .openLag fun _ => .lift fun _ => .lift fun _ => .lift fun _ => .lift fun _ => .lift fun _ => .lift fun y =>
    .bind (.putPh2 (allBytes_points _ _)) fun _ => ?_
  refine .congr (x' := emitEvals (C.c1.encodeSlice y.2.1 ++ C.c1.encodeSlice y.2.2 ++ cmtBytes cmt)) (fun s => ?_)
    (.putEvals (tailPart_all _ _ _ _ _))
  simp only [Go.bind_run, emitEvals, List.append_assoc]

end
end DiskRoom

open DiskRoom

section
variable {F G1 G2 GT : Type} [Field F] [AddCommGroup G1] [Module F G1] [AddCommGroup G2]
  [Module F G2] [AddCommGroup GT] [Module F GT]

/-- **C55**, `p2n` on a disk with enough room: for every input, valid or not, the result and the contents of the three files are
those without the disk. -/
theorem C55_p2n_room (C : Curve F G1 G2 GT) (E : InitEnv F) (cuts : List Nat) (par : Par) (r1cs : Option (R1CS F))
    (phase1File oldLag oldEvals : Bytes) :
    ∃ N, ∀ c2 cl ce, N ≤ c2 → N ≤ cl → N ≤ ce →
      let disk := initOnDisk C E cuts par c2 cl ce r1cs phase1File oldLag oldEvals
      let plain := initializeFiles C E par r1cs phase1File oldLag oldEvals
      disk.1 = plain.1 ∧ disk.2.ph2.data = plain.2.ph2 ∧ disk.2.lag.data = plain.2.lag ∧ disk.2.evals.data = plain.2.evals := by
  have h : Agree (initBody C E par r1cs phase1File) (do
      let (r, header1, header2) ← processHeaderOnDisk E.header r1cs phase1File
      processLagrangeOnDisk C par E.dom header1 header2 phase1File
      processEvaluationsOnDisk C r header1 header2 phase1File
      processDeltaAndZOnDisk C header2 phase1File
      processPVCKKOnDisk C E.cmtBytes cuts r header2) := by
    unfold initBody
    exact .bind (processHeader_agree _ _ _) fun ⟨r, h1, h2⟩ => .bind (processLagrange_agree _ _ _ _ _ _) fun _ =>
      .bind (evals_agree C (fun side tau buff => accumulateAll r.coefficients tau side 0 r.constraints buff)
        (fun side tau buff => accumulateAll r.coefficients tau side 0 r.constraints buff) h1 h2 phase1File) fun _ =>
      .bind (deltaAndZ_agree _ _ _) fun _ =>
      pvckk_agree C E.cmtBytes cuts r.commitment (fun side tau buff => accumulateAll r.coefficients tau side 0 r.constraints buff) h2
  obtain ⟨N, hN⟩ := h ⟨[], oldLag, oldEvals⟩
  refine ⟨N, fun c2 cl ce h2 hl he => ?_⟩
  obtain ⟨a, b⟩ := hN (min c2 (min cl ce)) (by omega) ⟨⟨c2, []⟩, ⟨cl, oldLag⟩, ⟨ce, oldEvals⟩⟩
    ⟨rfl, rfl, rfl, by simp only; omega, by simp only; omega, by simp only; omega⟩
  exact ⟨a, b.ph2, b.lag, b.evals⟩

/-- **C55**, `p2np` on a disk with enough room: as `C55_p2n_room`. -/
theorem C55_p2np_room (C : Curve F G1 G2 GT) (E : InitEnv F) (cuts : List Nat) (par : Par) (cs : PartedR1CS F) (nbCons : Int)
    (phase1File oldLag oldEvals : Bytes) :
    ∃ N, ∀ c2 cl ce, N ≤ c2 → N ≤ cl → N ≤ ce →
      let disk := initPartedOnDisk C E cuts par c2 cl ce cs nbCons phase1File oldLag oldEvals
      let plain := initializeParted C E par cs nbCons phase1File oldLag oldEvals
      disk.1 = plain.1 ∧ disk.2.ph2.data = plain.2.ph2 ∧ disk.2.lag.data = plain.2.lag ∧ disk.2.evals.data = plain.2.evals := by
  have h : Agree (do
      let (header1, header2) ← processHeaderParted E.header cs nbCons phase1File
      processLagrange C par E.dom header1 header2 phase1File
      processEvaluationsParted C cs nbCons header1 header2 phase1File
      processDeltaAndZ C header2 phase1File
      processPVCKKParted C E.cmtBytes cs nbCons header2) (do
      let (header1, header2) ← processHeaderPartedOnDisk E.header cs nbCons phase1File
      processLagrangeOnDisk C par E.dom header1 header2 phase1File
      processEvaluationsPartedOnDisk C cs nbCons header1 header2 phase1File
      processDeltaAndZOnDisk C header2 phase1File
      processPVCKKPartedOnDisk C E.cmtBytes cuts cs nbCons header2) :=
    .bind (processHeaderParted_agree _ _ _ _) fun ⟨h1, h2⟩ => .bind (processLagrange_agree _ _ _ _ _ _) fun _ =>
      .bind (evals_agree C (fun side tau buff => accumulateParted cs.base.coefficients tau side cs.get nbCons.toNat 0 buff)
        (fun side tau buff => accumulateParted cs.base.coefficients tau side cs.get nbCons.toNat 0 buff) h1 h2 phase1File) fun _ =>
      .bind (deltaAndZ_agree _ _ _) fun _ =>
      pvckk_agree C E.cmtBytes cuts cs.base.commitment
        (fun side tau buff => accumulateParted cs.base.coefficients tau side cs.get nbCons.toNat 0 buff) h2
  obtain ⟨N, hN⟩ := h ⟨[], oldLag, oldEvals⟩
  refine ⟨N, fun c2 cl ce h2 hl he => ?_⟩
  obtain ⟨a, b⟩ := hN (min c2 (min cl ce)) (by omega) ⟨⟨c2, []⟩, ⟨cl, oldLag⟩, ⟨ce, oldEvals⟩⟩
    ⟨rfl, rfl, rfl, by simp only; omega, by simp only; omega, by simp only; omega⟩
  exact ⟨a, b.ph2, b.lag, b.evals⟩

end

/-! ### non-triviality -/

/-- a phase 1 file with an invalid point among those that only `Z` needs -/
def Toy.spoiltSrs : Bytes := ((Toy.srs 2 3 5 7).encode Toy.curve).set (3 + 32 * 5 + 1) 20

-- initialisation fails after δ has gone to the buffer: the phase 2 file holds the header and δ
example : (match (initializeFiles Toy.curve Toy.env par4 (some Toy.circuit) Toy.spoiltSrs [1, 2, 3] []).1 with
    | .ok _ => true
    | .error _ => false) = false := by decide +kernel
example : (initializeFiles Toy.curve Toy.env par4 (some Toy.circuit) Toy.spoiltSrs [1, 2, 3] []).2.ph2.length = 134 + 96 := by decide +kernel

example := C55_p2n_room Toy.curve Toy.env [] par4 (some Toy.circuit) Toy.spoiltSrs [1, 2, 3] []
example := C55_p2np_room Toy.curve Toy.env [] par4 Toy.parted 3 Toy.spoiltSrs [1, 2, 3] []

end ZkSetup
