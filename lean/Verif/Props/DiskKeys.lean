import Verif.Proofs.DiskKeys
import Verif.Props.Disk
import Verif.Props.Keys
/-
C55 for `key` and `keys`: what is reported and left on a disk that fills up.
-/
set_option linter.unusedSectionVars false

namespace ZkSetup

open Phase2 Keys Disk
open Phase1 (batchSize)

/-! ### one file -/

theorem flushed_data (cap : Nat) (cs : List Call) : (flushed cap cs).2 = (allBytes cs).take cap := by
  obtain ⟨-, h, -⟩ := runPart_spec ⟨cap, []⟩ (Nat.zero_le _) ⟨4096, cs⟩
  simpa [flushed, Part.all] using h

theorem flushed_fits (cap : Nat) (cs : List Call) (h : (allBytes cs).length ≤ cap) : (flushed cap cs).1 = true := by
  obtain ⟨-, -, h'⟩ := runPart_spec ⟨cap, []⟩ (Nat.zero_le _) ⟨4096, cs⟩
  by_contra hb
  have := h' (by simpa [flushed] using hb)
  simp [Part.all] at this
  omega

/-- after a checked call without error, everything but the contents of the buffer is in the file -/
theorem runPart_bound (cap size : Nat) (cs : List Call) (hl : LastChecked cs) (h : (runPart ⟨cap, []⟩ ⟨size, cs⟩).1 = true) :
    (allBytes cs).length ≤ cap + size := by
  obtain ⟨cs', b, rfl⟩ := hl
  have h' : (runCalls ⟨⟨cap, []⟩, size, [], false⟩ (cs' ++ [checkedCall b])).1 = true := h
  obtain ⟨g1, -⟩ := runCalls_holds (cs' ++ [checkedCall b]) _ _ (new_holds ⟨cap, []⟩ (Nat.zero_le _) size)
  have hh := g1 h'
  have hf : (runCalls ⟨⟨cap, []⟩, size, [], false⟩ (cs' ++ [checkedCall b])).2.failed = false := by
    rw [runCalls_append] at h' ⊢
    split at h'
    · rename_i hc
      rw [if_pos hc]
      simp only [runCalls, checkedCall, Bool.true_and] at h' ⊢
      split at h'
      · simp at h'
      · rename_i hn
        rw [if_neg hn]
        simpa using hn
    · rename_i hc
      exact absurd h' hc
  have hg := hh.good hf
  simp only [List.nil_append] at hg
  rw [← hg, List.length_append]
  have := hh.buf
  have := hh.fits
  simp only at this
  omega

theorem flushed_bound (cap : Nat) (cs : List Call) (hl : LastChecked cs) (h : (flushed cap cs).1 = true) :
    (allBytes cs).length ≤ cap + 4096 :=
  runPart_bound cap 4096 cs hl h

/-- calls that fit the buffer all succeed -/
theorem runCalls_small (cs : List Call) : ∀ w : Writer, w.failed = false → w.buf.length + (allBytes cs).length ≤ w.size →
    (runCalls w cs).1 = true := by
  induction cs with
  | nil => intro w _ _; rfl
  | cons c cs ih =>
    intro w hf hl
    rw [allBytes, List.flatMap_cons, List.length_append] at hl
    have hw : w.write c.bytes = { w with buf := w.buf ++ c.bytes } := by
      unfold Writer.write
      rw [if_neg (by simp [hf]), if_pos (by omega)]
    rw [runCalls, hw, if_neg (by simp [hf])]
    exact ih _ hf (by simp only [List.length_append, allBytes]; omega)

theorem flushed_small (cap : Nat) (cs : List Call) (h : (allBytes cs).length ≤ 4096) : (flushed cap cs).1 = true :=
  runCalls_small cs _ rfl (by simpa using h)

/-- an extraction of one file: `plain` is what it does without limits -/
theorem finish_spec (cap : Nat) (x : Except Fail Unit × Option (List Call)) (hx : ∀ cs, x = (.ok (), some cs) → LastChecked cs)
    (plain : Except Fail Unit × Option Bytes) (hp : plain = (x.1, x.2.map allBytes)) :
    (finish cap x).2 = plain.2.map (·.take cap) ∧
    ((finish cap x).1 = .ok () → plain.1 = .ok () ∧ ∀ out, plain.2 = some out → out.length ≤ cap + 4096) ∧
    ((∀ out, plain.2 = some out → out.length ≤ cap) → finish cap x = plain) ∧
    ((∀ out, plain.2 = some out → out.length ≤ 4096) → finish cap x = (plain.1, plain.2.map (·.take cap))) := by
  subst hp
  obtain ⟨r, o⟩ := x
  cases o with
  | none => exact ⟨rfl, fun h => ⟨h, fun _ h => by cases h⟩, fun _ => rfl, fun _ => rfl⟩
  | some cs =>
    simp only [finish, Option.map_some, flushed_data, outcome, true_and, Option.some.injEq, forall_eq']
    refine ⟨fun h => ?_, fun h => ?_, fun h => ?_⟩
    · split at h
      · rename_i hw
        subst h
        exact ⟨rfl, flushed_bound cap cs (hx cs rfl) hw⟩
      · cases h
    · rw [if_pos (flushed_fits cap cs h), List.take_of_length_le h]
    · rw [if_pos (flushed_small cap cs h)]

section
variable {F G1 G2 GT : Type} [Field F] [AddCommGroup G1] [Module F G1] [AddCommGroup G2]
  [Module F G2] [AddCommGroup GT] [Module F GT] [DecidableEq G1] [DecidableEq G2]
variable {C : Curve F G1 G2 GT}

theorem extract_ends {O : Type} {P : O → Prop} (H : HeaderCodec) (ph2 evals : Bytes) (empty : O) (body : Header → Go (KeySt O) Unit)
    (h : ∀ header, Ends P (body header)) (o : O) (hr : extract H ph2 evals empty body = (.ok (), some o)) : P o := by
  obtain ⟨header, rd, -, s', hb, rfl⟩ := (extract_ok _ _ _ _ _ _).1 hr
  exact (h header).run _ _ hb

/-- **C55**, the proving key: on a disk with room for `cap` bytes, `pk` holds as much of the key as fits. If success is reported, the
key could be extracted, and at most 4096 bytes of it are missing. With enough room, everything is as without limits. A key of at most
4096 bytes is reported as extracted whatever the room. -/
theorem C55_pk_partial (K : KeyEnv G1) (cap : Nat) (ph2 evals : Bytes) :
    (extractPKOnDisk C K cap ph2 evals).2 = (extractPK C K ph2 evals).2.map (·.take cap) ∧
    ((extractPKOnDisk C K cap ph2 evals).1 = .ok () →
      (extractPK C K ph2 evals).1 = .ok () ∧ ∀ out, (extractPK C K ph2 evals).2 = some out → out.length ≤ cap + 4096) ∧
    ((∀ out, (extractPK C K ph2 evals).2 = some out → out.length ≤ cap) →
      extractPKOnDisk C K cap ph2 evals = extractPK C K ph2 evals) ∧
    ((∀ out, (extractPK C K ph2 evals).2 = some out → out.length ≤ 4096) →
      extractPKOnDisk C K cap ph2 evals = ((extractPK C K ph2 evals).1, (extractPK C K ph2 evals).2.map (·.take cap))) :=
  finish_spec cap _ (extract_ends _ _ _ _ _ (pkCalls_ends C K)) _ (extract_map K.header ph2 evals [] _ _ (pkCalls_sim C K))

/-- **C55**, the verifying key: the same. -/
theorem C55_vk_partial (K : KeyEnv G1) (cap : Nat) (ph2 evals : Bytes) :
    (extractVKOnDisk C K cap ph2 evals).2 = (extractVK C K ph2 evals).2.map (·.take cap) ∧
    ((extractVKOnDisk C K cap ph2 evals).1 = .ok () →
      (extractVK C K ph2 evals).1 = .ok () ∧ ∀ out, (extractVK C K ph2 evals).2 = some out → out.length ≤ cap + 4096) ∧
    ((∀ out, (extractVK C K ph2 evals).2 = some out → out.length ≤ cap) →
      extractVKOnDisk C K cap ph2 evals = extractVK C K ph2 evals) ∧
    ((∀ out, (extractVK C K ph2 evals).2 = some out → out.length ≤ 4096) →
      extractVKOnDisk C K cap ph2 evals = ((extractVK C K ph2 evals).1, (extractVK C K ph2 evals).2.map (·.take cap))) :=
  finish_spec cap _ (extract_ends _ _ _ _ _ (vkCalls_ends C K evals)) _ (extract_map K.header ph2 evals [] _ _ (vkCalls_sim C K evals))

/-- **C55**, `ExtractKeys`: success means that both keys could be extracted and that at most 4096 bytes of each are missing. -/
theorem C55_keys_partial (K : KeyEnv G1) (capP capV : Nat) (ph2 evals : Bytes)
    (h : (extractKeysOnDisk C K capP capV ph2 evals).1 = .ok ()) :
    ∃ pk vk, extractKeys C K ph2 evals = (.ok (), ⟨some pk, some vk⟩) ∧
      (extractKeysOnDisk C K capP capV ph2 evals).2 = ⟨some (pk.take capP), some (vk.take capV)⟩ ∧
      pk.length ≤ capP + 4096 ∧ vk.length ≤ capV + 4096 := by
  obtain ⟨p1, p2, -⟩ := C55_pk_partial (C := C) K capP ph2 evals
  obtain ⟨v1, v2, -⟩ := C55_vk_partial (C := C) K capV ph2 evals
  unfold extractKeysOnDisk bothKeys at h ⊢
  unfold extractKeys bothKeys
  cases hp : extractPKOnDisk C K capP ph2 evals with
  | mk r o =>
    rw [hp] at h p1 p2
    cases r with
    | error e => cases h
    | ok u =>
      simp only at h p1 p2 ⊢
      obtain ⟨q1, q2⟩ := p2 trivial
      obtain ⟨q3, q4⟩ := v2 h
      obtain ⟨pk, hpk⟩ := extract_some _ _ _ _ _ q1
      obtain ⟨vk, hvk⟩ := extract_some _ _ _ _ _ q3
      have hpk' : extractPK C K ph2 evals = (.ok (), some pk) := hpk
      have hvk' : extractVK C K ph2 evals = (.ok (), some vk) := hvk
      refine ⟨pk, vk, by rw [hpk', hvk'], ?_, q2 pk (by rw [hpk']), q4 vk (by rw [hvk'])⟩
      rw [p1, v1, hpk', hvk']
      rfl

/-- **C55** is false for `key`: if the verifying key has at most 4096 bytes, success is reported on a disk that is full when it is
written, and `vk` is empty. -/
theorem C55_keys_false (K : KeyEnv G1) (ph2 evals pk vk : Bytes) (h : extractKeys C K ph2 evals = (.ok (), ⟨some pk, some vk⟩))
    (hv : vk.length ≤ 4096) : extractKeysOnDisk C K pk.length 0 ph2 evals = (.ok (), ⟨some pk, some []⟩) := by
  obtain ⟨-, -, p3, -⟩ := C55_pk_partial (C := C) K pk.length ph2 evals
  obtain ⟨-, -, -, v4⟩ := C55_vk_partial (C := C) K 0 ph2 evals
  unfold extractKeys bothKeys at h
  unfold extractKeysOnDisk bothKeys
  cases hp : extractPK C K ph2 evals with
  | mk r o =>
    rw [hp] at h p3
    cases r with
    | error e => cases h
    | ok u =>
      simp only [Prod.mk.injEq, KeyFiles.mk.injEq] at h
      obtain ⟨h1, rfl, h3⟩ := h
      rw [p3 (by rintro _ ⟨⟩; exact Nat.le_refl _)]
      have hvk : extractVK C K ph2 evals = (.ok (), some vk) := Prod.ext h1 h3
      rw [hvk] at v4
      rw [v4 (by rintro _ ⟨⟩; exact hv)]
      rfl

/-! ### the split keys -/

/-- all calls are checked -/
def AllChecked (cs : List Call) : Prop := ∀ c ∈ cs, c.checked = true

theorem AllChecked.append {cs ds : List Call} (h : AllChecked cs) (h' : AllChecked ds) : AllChecked (cs ++ ds) :=
  fun c hc => (List.mem_append.1 hc).elim (h c) (h' c)

theorem allChecked_one (b : Bytes) : AllChecked [checkedCall b] := by
  intro c hc
  rw [List.mem_singleton.1 hc]
  rfl

theorem allChecked_slice (bs : List Bytes) : AllChecked (sliceCalls bs) := by
  intro c hc
  rcases List.mem_cons.1 hc with rfl | hc
  · rfl
  · obtain ⟨b, -, rfl⟩ := List.mem_map.1 hc
    rfl

theorem flushed_bound' (cap : Nat) (cs : List Call) (hl : AllChecked cs) (h : (flushed cap cs).1 = true) :
    (allBytes cs).length ≤ cap + 4096 := by
  rcases List.eq_nil_or_concat cs with rfl | ⟨cs', c, rfl⟩
  · exact Nat.zero_le _
  · refine flushed_bound cap _ ⟨cs', c.bytes, ?_⟩ h
    rw [List.concat_eq_append]
    have := hl c (by simp)
    obtain ⟨b, k⟩ := c
    cases this
    rfl

/-- all calls on the six files are checked -/
structure _root_.ZkSetup.Keys.SplitCalls.Checked (o : SplitCalls) : Prop where
  e : AllChecked o.e
  a : AllChecked o.a
  b1 : AllChecked o.b1
  z : AllChecked o.z
  k : AllChecked o.k
  b2 : AllChecked o.b2

/-- one step of `Keeps` -/
macro "keep" t:term : tactic => `(tactic| refine Keeps.bind $t fun _ => ?_)

theorem splitPkCalls_checked (header : Header) : Keeps SplitCalls.Checked (splitPkCalls C header) := by
  have hE : ∀ b : Bytes, Keeps SplitCalls.Checked (KeySt.write (.toE [checkedCall b])) := fun b =>
    .write fun o h => { h with e := h.e.append (allChecked_one b) }
  unfold splitPkCalls
  keep (hE _)
  keep (.onEvals _)
  keep (hE _)
  keep (.onEvals _)
  keep (hE _)
  keep (.onPh2 _)
  keep (hE _)
  keep (.onEvals _)
  keep (.onPh2 _)
  keep (.onEvals _)
  keep (.write fun o h => { h with a := h.a.append (allChecked_slice _) })
  keep (.onEvals _)
  keep (.write fun o h => { h with b1 := h.b1.append (allChecked_slice _) })
  keep (.lift _)
  keep (.onPh2 _)
  keep (.write fun o h => { h with z := h.z.append (allChecked_slice _) })
  keep (.lift _)
  keep (.onPh2 _)
  keep (.write fun o h => { h with k := h.k.append (allChecked_slice _) })
  keep (hE _)
  keep (hE _)
  keep (.onEvals _)
  keep (.write fun o h => { h with b2 := h.b2.append (allChecked_slice _) })
  keep (hE _)
  keep (hE _)
  keep (hE _)
  keep (hE _)
  exact hE _

theorem extract_keeps {O : Type} {P : O → Prop} (H : HeaderCodec) (ph2 evals : Bytes) (empty : O) (body : Header → Go (KeySt O) Unit)
    (h : ∀ header, Keeps P (body header)) (h0 : P empty) (o : O) (hr : extract H ph2 evals empty body = (.ok (), some o)) : P o := by
  obtain ⟨header, rd, -, s', hb, rfl⟩ := (extract_ok _ _ _ _ _ _).1 hr
  have := (h header).run _ (show P (KeySt.out ⟨rd, Rd.buffered 4096 evals, empty⟩) from h0)
  rw [hb] at this
  exact this

/-- what a disk with this room keeps of the six files -/
def _root_.ZkSetup.Keys.SplitPK.kept (room : SplitRoom) (o : SplitPK) : SplitPK :=
  ⟨o.e.take room.e, o.a.take room.a, o.b1.take room.b1, o.z.take room.z, o.k.take room.k, o.b2.take room.b2⟩

/-- no file lacks more than `n` bytes -/
structure _root_.ZkSetup.Keys.SplitPK.Lacks (n : Nat) (room : SplitRoom) (o : SplitPK) : Prop where
  e : o.e.length ≤ room.e + n
  a : o.a.length ≤ room.a + n
  b1 : o.b1.length ≤ room.b1 + n
  z : o.z.length ≤ room.z + n
  k : o.k.length ≤ room.k + n
  b2 : o.b2.length ≤ room.b2 + n

/-- **C55**, the proving key of `keys`: if success is reported, the key could be extracted, each of the six files holds as much of it
as fits, and lacks at most 4096 bytes. With enough room, everything is as without limits. -/
theorem C55_splitPK_partial (K : KeyEnv G1) (room : SplitRoom) (ph2 evals : Bytes) :
    ((extractSplitPKOnDisk C K room ph2 evals).1 = .ok () →
      ∃ out, extractSplitPK C K ph2 evals = (.ok (), some out) ∧
        (extractSplitPKOnDisk C K room ph2 evals).2 = some (out.kept room) ∧ out.Lacks 4096 room) ∧
    (∀ out, extractSplitPK C K ph2 evals = (.ok (), some out) → out.Lacks 0 room →
      extractSplitPKOnDisk C K room ph2 evals = (.ok (), some out)) := by
  have hm := extract_map K.header ph2 evals ⟨[], [], [], [], [], []⟩ _ _ (splitPkCalls_sim C)
  have hc := extract_keeps K.header ph2 evals ⟨[], [], [], [], [], []⟩ _ (splitPkCalls_checked (C := C))
    (by constructor <;> exact fun _ h => by cases h)
  have hm' : extractSplitPK C K ph2 evals = _ := hm
  rw [hm']
  unfold extractSplitPKOnDisk
  generalize hx : extract K.header ph2 evals _ (splitPkCalls C) = x at hc ⊢
  obtain ⟨r, o⟩ := x
  cases o with
  | none =>
    refine ⟨fun h => ?_, fun out h => by cases h⟩
    have h' : r = .ok () := h
    subst h'
    obtain ⟨out, ho⟩ := extract_some K.header ph2 evals _ (splitPkCalls C) (congrArg Prod.fst hx)
    rw [hx] at ho
    cases ho
  | some o =>
    simp only [finishSplit, flushed_data, outcome, Option.map_some]
    refine ⟨fun h => ?_, fun out h hl => ?_⟩
    · split at h
      · rename_i hw
        subst h
        have k := hc o rfl
        simp only [Bool.and_eq_true] at hw
        obtain ⟨⟨⟨⟨⟨w1, w2⟩, w3⟩, w4⟩, w5⟩, w6⟩ := hw
        refine ⟨o.bytes, rfl, rfl, ?_⟩
        exact ⟨flushed_bound' _ _ k.e w1, flushed_bound' _ _ k.a w2, flushed_bound' _ _ k.b1 w3, flushed_bound' _ _ k.z w4,
          flushed_bound' _ _ k.k w5, flushed_bound' _ _ k.b2 w6⟩
      · cases h
    · simp only [Prod.mk.injEq, Option.some.injEq] at h
      obtain ⟨rfl, rfl⟩ := h
      obtain ⟨l1, l2, l3, l4, l5, l6⟩ := hl
      simp only [SplitCalls.bytes, Nat.add_zero] at l1 l2 l3 l4 l5 l6
      rw [if_pos]
      · simp only [SplitCalls.bytes]
        rw [List.take_of_length_le l1, List.take_of_length_le l2, List.take_of_length_le l3, List.take_of_length_le l4,
          List.take_of_length_le l5, List.take_of_length_le l6]
      · rw [flushed_fits _ _ l1, flushed_fits _ _ l2, flushed_fits _ _ l3, flushed_fits _ _ l4, flushed_fits _ _ l5,
          flushed_fits _ _ l6]
        rfl

theorem splitVkCalls_sim (K : KeyEnv G1) (evals : Bytes) (header : Header) :
    Sim (fun o : SplitVKCalls => (⟨allBytes o.vk, o.commitmentKey.map allBytes⟩ : SplitVK)) (splitVkCalls C K evals header)
      (splitVkBody C K evals header) := by
  unfold splitVkCalls splitVkBody
  sim (readVK_sim _ _ _ _)
  sim (.write fun o => by simp only [allBytes_append, vk_allBytes])
  exact .write fun o => by simp [allBytes]

theorem splitVkCalls_ends (K : KeyEnv G1) (evals : Bytes) (header : Header) :
    Ends (fun o : SplitVKCalls => LastChecked o.vk ∧ ∃ ck, o.commitmentKey = some ck ∧ LastChecked ck)
      (splitVkCalls C K evals header) := by
  unfold splitVkCalls
  refine Ends.bind fun vk => ⟨fun s s' h => ?_⟩
  rw [Go.bind_run, write_run] at h
  simp only [write_run] at h
  cases h
  exact ⟨⟨s.out.vk ++ _, _, (List.append_assoc _ _ _).symm⟩, _, rfl, [_], _, rfl⟩

theorem unbuffered_data (cap : Nat) (cs : List Call) : (unbuffered cap cs).2 = (allBytes cs).take cap := by
  obtain ⟨-, h, -⟩ := runPart_spec ⟨cap, []⟩ (Nat.zero_le _) ⟨0, cs⟩
  simpa [unbuffered, Part.all] using h

theorem unbuffered_fits (cap : Nat) (cs : List Call) (h : (allBytes cs).length ≤ cap) : (unbuffered cap cs).1 = true := by
  obtain ⟨-, -, h'⟩ := runPart_spec ⟨cap, []⟩ (Nat.zero_le _) ⟨0, cs⟩
  by_contra hb
  have := h' (by simpa [unbuffered] using hb)
  simp [Part.all] at this
  omega

/-- **C55**, the verifying key of `keys`: if success is reported, the key could be extracted, `.vk.save` holds as much of it as fits
and lacks at most 4096 bytes, and the commitment key, written without a buffer, is complete. With enough room, everything is as
without limits. -/
theorem C55_splitVK_partial (K : KeyEnv G1) (capV capC : Nat) (ph2 evals : Bytes) :
    ((extractSplitVKOnDisk C K capV capC ph2 evals).1 = .ok () →
      ∃ vk ck, extractSplitVK C K ph2 evals = (.ok (), some ⟨vk, some ck⟩) ∧
        (extractSplitVKOnDisk C K capV capC ph2 evals).2 = some ⟨vk.take capV, some ck⟩ ∧ vk.length ≤ capV + 4096 ∧
          ck.length ≤ capC) ∧
    (∀ vk ck, extractSplitVK C K ph2 evals = (.ok (), some ⟨vk, some ck⟩) → vk.length ≤ capV → ck.length ≤ capC →
      extractSplitVKOnDisk C K capV capC ph2 evals = (.ok (), some ⟨vk, some ck⟩)) ∧
    (∀ vk ck, extractSplitVK C K ph2 evals = (.ok (), some ⟨vk, some ck⟩) → vk.length ≤ 4096 → ck.length ≤ capC →
      extractSplitVKOnDisk C K capV capC ph2 evals = (.ok (), some ⟨vk.take capV, some ck⟩)) := by
  have hm := extract_map K.header ph2 evals ⟨[], none⟩ _ _ (splitVkCalls_sim (C := C) K evals)
  have hm' : extractSplitVK C K ph2 evals = _ := hm
  have hc := extract_ends K.header ph2 evals ⟨[], none⟩ _ (splitVkCalls_ends (C := C) K evals)
  rw [hm']
  unfold extractSplitVKOnDisk
  generalize hx : extract K.header ph2 evals _ (splitVkCalls C K evals) = x at hc ⊢
  obtain ⟨r, o⟩ := x
  have hn : r = .ok () → ∃ vk ck, o = some ⟨vk, some ck⟩ ∧ LastChecked vk ∧ LastChecked ck := by
    rintro rfl
    obtain ⟨o', ho⟩ := extract_some K.header ph2 evals _ (splitVkCalls C K evals) (congrArg Prod.fst hx)
    rw [hx] at ho
    cases ho
    obtain ⟨h1, ck, h2, h3⟩ := hc o' rfl
    obtain ⟨vk, c⟩ := o'
    cases h2
    exact ⟨vk, ck, rfl, h1, h3⟩
  have hr : ∀ vk ck, ((r, o.map fun o : SplitVKCalls => (⟨allBytes o.vk, o.commitmentKey.map allBytes⟩ : SplitVK)) :
      Except Fail Unit × Option SplitVK) = (.ok (), some ⟨vk, some ck⟩) →
      ∃ vk' ck', r = .ok () ∧ o = some ⟨vk', some ck'⟩ ∧ allBytes vk' = vk ∧ allBytes ck' = ck := by
    intro vk ck h
    simp only [Prod.mk.injEq] at h
    obtain ⟨h1, h2⟩ := h
    obtain ⟨vk', ck', rfl, -⟩ := hn h1
    simp only [Option.map_some, Option.some.injEq, SplitVK.mk.injEq] at h2
    exact ⟨vk', ck', h1, rfl, h2.1, h2.2⟩
  refine ⟨fun h => ?_, fun vk ck h hv hk => ?_, fun vk ck h hv hk => ?_⟩
  · have h0 : r = .ok () := by
      rcases o with - | ⟨vk, - | ck⟩
      · exact h
      all_goals
        simp only [finishSplitVK, outcome] at h
        split at h
        · exact h
        · cases h
    obtain ⟨vk, ck, rfl, h1, h2⟩ := hn h0
    subst h0
    simp only [finishSplitVK, outcome] at h
    split at h
    · rename_i hw
      rw [Bool.and_eq_true] at hw
      have hl : (allBytes ck).length ≤ capC := runPart_bound capC 0 ck h2 hw.2
      refine ⟨_, _, rfl, ?_, flushed_bound capV vk h1 hw.1, hl⟩
      simp only [finishSplitVK, flushed_data, unbuffered_data]
      rw [List.take_of_length_le (l := allBytes ck) hl]
    · cases h
  · obtain ⟨vk', ck', rfl, rfl, rfl, rfl⟩ := hr vk ck h
    simp only [finishSplitVK, flushed_data, unbuffered_data, flushed_fits _ _ hv, unbuffered_fits _ _ hk, outcome,
      List.take_of_length_le hv, List.take_of_length_le hk]
    rfl
  · obtain ⟨vk', ck', rfl, rfl, rfl, rfl⟩ := hr vk ck h
    simp only [finishSplitVK, flushed_data, unbuffered_data, flushed_small _ _ hv, unbuffered_fits _ _ hk, outcome,
      List.take_of_length_le hk]
    rfl

/-- **C55**, `ExtractSplitKeys`: success means that the keys could be extracted and that no file lacks more than 4096 bytes; the
commitment key is complete. -/
theorem C55_splitKeys_partial (K : KeyEnv G1) (room : SplitRoom) (capV capC : Nat) (ph2 evals : Bytes)
    (h : (extractSplitKeysOnDisk C K room capV capC ph2 evals).1 = .ok ()) :
    ∃ pk vk ck, extractSplitKeys C K ph2 evals = (.ok (), ⟨some pk, some ⟨vk, some ck⟩⟩) ∧
      (extractSplitKeysOnDisk C K room capV capC ph2 evals).2 = ⟨some (pk.kept room), some ⟨vk.take capV, some ck⟩⟩ ∧
      pk.Lacks 4096 room ∧ vk.length ≤ capV + 4096 ∧ ck.length ≤ capC := by
  obtain ⟨p, -⟩ := C55_splitPK_partial (C := C) K room ph2 evals
  obtain ⟨v, -⟩ := C55_splitVK_partial (C := C) K capV capC ph2 evals
  unfold extractSplitKeysOnDisk bothKeys at h ⊢
  unfold extractSplitKeys bothKeys
  cases hp : extractSplitPKOnDisk C K room ph2 evals with
  | mk r o =>
    rw [hp] at h p
    cases r with
    | error e => cases h
    | ok u =>
      obtain ⟨pk, p1, p2, p3⟩ := p rfl
      obtain ⟨vk, ck, v1, v2, v3, v4⟩ := v h
      refine ⟨pk, vk, ck, by rw [p1, v1], ?_, p3, v3, v4⟩
      simp only at p2 ⊢
      rw [p2, v2]

/-- **C55** is false for `keys`: if the verifying key has at most 4096 bytes, success is reported on a disk without room for it, and
`.vk.save` is empty. -/
theorem C55_splitKeys_false (K : KeyEnv G1) (ph2 evals : Bytes) (pk : SplitPK) (vk ck : Bytes)
    (h : extractSplitKeys C K ph2 evals = (.ok (), ⟨some pk, some ⟨vk, some ck⟩⟩)) (hv : vk.length ≤ 4096) :
    extractSplitKeysOnDisk C K ⟨pk.e.length, pk.a.length, pk.b1.length, pk.z.length, pk.k.length, pk.b2.length⟩ 0 ck.length ph2 evals =
      (.ok (), ⟨some pk, some ⟨[], some ck⟩⟩) := by
  unfold extractSplitKeys bothKeys at h
  unfold extractSplitKeysOnDisk bothKeys
  cases hp : extractSplitPK C K ph2 evals with
  | mk r o =>
    rw [hp] at h
    cases r with
    | error e => cases h
    | ok u =>
      simp only [Prod.mk.injEq, KeyFiles.mk.injEq] at h
      obtain ⟨h1, rfl, h3⟩ := h
      rw [(C55_splitPK_partial (C := C) K _ ph2 evals).2 pk hp
        ⟨Nat.le_refl _, Nat.le_refl _, Nat.le_refl _, Nat.le_refl _, Nat.le_refl _, Nat.le_refl _⟩]
      have hvk : extractSplitVK C K ph2 evals = (.ok (), some ⟨vk, some ck⟩) := Prod.ext h1 h3
      rw [(C55_splitVK_partial (C := C) K 0 ck.length ph2 evals).2.2 vk ck hvk hv (Nat.le_refl _)]
      rfl

variable (hC : C.Lawful)
include hC

/-- the size of a verifying key: six points uncompressed, and one point per entry -/
theorem verifyKey_length (ck info : Bytes) (k : VerifyKey G1 G2) :
    (k.encode C ck info).length = ck.length + 580 + 64 * k.k.length + info.length := by
  have r1 := fun p => hC.codec1.raw_length p
  have r2 := fun p => hC.codec2.raw_length p
  have hs : (k.k.flatMap C.c1.rawBytes).length = 64 * k.k.length := by
    induction k.k with
    | nil => rfl
    | cons p ps ih => rw [List.flatMap_cons, List.length_append, ih, r1, hC.size1, List.length_cons]; omega
  simp only [VerifyKey.encode, sliceOf, List.length_append, beBytes_length, r1, r2, hC.size1, hC.size2, hs]
  omega

/-- **C55** is false for `key` on every honest run with few public wires (`(4096 - 580)/64`, less the commitment key): on a disk that
is full once `pk` is written, success is reported and `vk` is empty. -/
theorem C55_keys_honest_false [DecidableEq GT] (E : InitEnv F) (K : KeyEnv G1) (hK : K.header = E.header) (ck : Bytes)
    (hck : K.commitmentKey [] = .ok ck) (b : Nat) (r : R1CS F) (k : Nat) (τ α β δ : F) (final evals : Bytes)
    (h : HonestRun C E b r k τ α β δ final evals) (hs : ck.length + 580 + 64 * r.shared + K.noCommitment.length ≤ 4096) :
    ∃ pk cap, extractKeysOnDisk C K cap 0 final evals = (.ok (), ⟨some pk, some []⟩) ∧
      extractPK C K final evals = (.ok (), some pk) := by
  have hk := C37_C38_extractKeys hC E K hK ck hck b r k τ α β δ final evals h
  have hp := C37_proving_key hC E K hK b r k τ α β δ final evals h []
  rw [List.append_nil] at hp
  exact ⟨_, _, C55_keys_false K final evals _ _ hk (by rw [verifyKey_length hC]; simpa [trapdoorVK] using hs), hp⟩

/-- split extraction of an honest run -/
theorem C39_honest_split [DecidableEq GT] (E : InitEnv F) (K : KeyEnv G1) (hK : K.header = E.header) (ck : Bytes)
    (hck : K.commitmentKey [] = .ok ck) (b : Nat) (r : R1CS F) (k : Nat) (τ α β δ : F) (final evals : Bytes)
    (h : HonestRun C E b r k τ α β δ final evals) :
    extractSplitKeys C K final evals = (.ok (),
      ⟨some ((trapdoorPK C r k (E.dom (2 ^ k)).gen τ α β δ).encodeSplit C),
        some ⟨(trapdoorVK C r k (E.dom (2 ^ k)).gen τ α β δ).encode C ck K.noCommitment, some (ck ++ ck)⟩⟩) := by
  obtain ⟨hwf, rfl, c, rest, h1, h2, rfl⟩ := h.files hC
  have hw : r.wires < 2 ^ 32 := h.valid.size
  have hs : r.shared < 2 ^ 32 := by have := h.publicCommitment.shared_le; omega
  have hv := (extractVK_starts hC K (by rw [hK]; exact h.header) _ (P2File.scaleParams_wf δ _ hwf) c h1 h2
    (trapdoorEvals C r (2 ^ k) (E.dom (2 ^ k)).gen τ α β (E.cmtBytes r.commitment)) hw
    (by simp [trapdoorEvals, P2File.scaleParams, trapdoorFile]) (by simp [trapdoorEvals, P2File.scaleParams, trapdoorFile])
    (by simp [trapdoorEvals, P2File.scaleParams, trapdoorFile]) (by simpa [trapdoorEvals] using hs) (by simp [trapdoorEvals])
    ck hck rest []).2
  have hp := extractSplitPK_starts hC K (by rw [hK]; exact h.header) _ (P2File.scaleParams_wf δ _ hwf) c h1 h2
    (trapdoorEvals C r (2 ^ k) (E.dom (2 ^ k)).gen τ α β (E.cmtBytes r.commitment))
    (by simpa [trapdoorEvals] using hw) (by simpa [trapdoorEvals] using hw) (by simpa [trapdoorEvals] using hw) rest []
  rw [provingKeyOf_trapdoor hC, hK, List.append_nil] at hp
  rw [hK, List.append_nil] at hv
  unfold extractSplitKeys
  rw [hp, hv]
  rfl

/-- **C55** is false for `keys` on every honest run with few public wires: success is reported and `.vk.save` is empty. -/
theorem C55_splitKeys_honest_false [DecidableEq GT] (E : InitEnv F) (K : KeyEnv G1) (hK : K.header = E.header) (ck : Bytes)
    (hck : K.commitmentKey [] = .ok ck) (b : Nat) (r : R1CS F) (k : Nat) (τ α β δ : F) (final evals : Bytes)
    (h : HonestRun C E b r k τ α β δ final evals) (hs : ck.length + 580 + 64 * r.shared + K.noCommitment.length ≤ 4096) :
    ∃ pk room, extractSplitKeysOnDisk C K room 0 (ck ++ ck).length final evals = (.ok (), ⟨some pk, some ⟨[], some (ck ++ ck)⟩⟩) :=
  ⟨_, _, C55_splitKeys_false K final evals _ _ _ (C39_honest_split hC E K hK ck hck b r k τ α β δ final evals h)
    (by rw [verifyKey_length hC]; simpa [trapdoorVK] using hs)⟩

end

/-! ### non-triviality -/

-- an honest run, with the smallest commitment key: the verifying key has a few hundred bytes, none of which is written
example : ∃ final evals pk cap, extractKeysOnDisk Toy.curve Toy.keyEnv cap 0 final evals = (.ok (), ⟨some pk, some []⟩) := by
  obtain ⟨final, evals, h⟩ := Toy.run
  obtain ⟨pk, cap, hp, -⟩ := C55_keys_honest_false Toy.lawful Toy.env Toy.keyEnv rfl [0] rfl batchSize Toy.circuit 2 3 5 7 _ final evals h
    (by decide)
  exact ⟨final, evals, pk, cap, hp⟩

-- the hypothesis of `C55_keys_partial` is met with a disk that is full
example : ∃ final evals cap, (extractKeysOnDisk Toy.curve Toy.keyEnv cap 0 final evals).1 = .ok () ∧
    (extractKeysOnDisk Toy.curve Toy.keyEnv cap 0 final evals).2.vk = some [] := by
  obtain ⟨final, evals, h⟩ := Toy.run
  obtain ⟨pk, cap, hp, -⟩ := C55_keys_honest_false Toy.lawful Toy.env Toy.keyEnv rfl [0] rfl batchSize Toy.circuit 2 3 5 7 _ final evals h
    (by decide)
  exact ⟨final, evals, cap, by rw [hp], by rw [hp]⟩

-- a slice of 12804 bytes: three times the buffer is written while the calls are checked, the rest by the deferred flush
example : (flushed 3 (sliceCalls (List.replicate 200 (List.replicate 64 7)))).1 = false := by decide +kernel
example : (flushed 12287 (sliceCalls (List.replicate 200 (List.replicate 64 7)))).1 = false := by decide +kernel
example : (flushed 12288 (sliceCalls (List.replicate 200 (List.replicate 64 7)))).1 = true := by decide +kernel

-- an honest run with split keys: all files are complete, but `.vk.save` is empty
example : ∃ final evals pk room ck, extractSplitKeysOnDisk Toy.curve Toy.keyEnv room 0 2 final evals
    = (.ok (), ⟨some pk, some ⟨[], some ck⟩⟩) := by
  obtain ⟨final, evals, h⟩ := Toy.run
  obtain ⟨pk, room, hp⟩ := C55_splitKeys_honest_false Toy.lawful Toy.env Toy.keyEnv rfl [0] rfl batchSize Toy.circuit 2 3 5 7 _ final
    evals h (by decide)
  exact ⟨final, evals, pk, room, [0] ++ [0], hp⟩

end ZkSetup
