import Verif.Model.DiskKeys
import Verif.Proofs.Disk
import Verif.Proofs.Keys
/-
Key extraction on a disk that can fill up: the calls carry the bytes of `Verif/Model/Keys.lean`.
-/
set_option linter.unusedSectionVars false

namespace ZkSetup.Keys

open Phase2 Disk KeySt

/-! ### programs that differ in what they write -/

/-- the same readers, another output -/
def KeySt.map {O O' : Type} (f : O → O') (s : KeySt O) : KeySt O' := ⟨s.ph2, s.evals, f s.out⟩

/-- `y` does what `x` does, with `f` applied to the output -/
structure Sim {O O' α : Type} (f : O → O') (x : Go (KeySt O) α) (y : Go (KeySt O') α) : Prop where
  run : ∀ s, y.run (s.map f) = ((x.run s).1, (x.run s).2.map f)

variable {O O' α β : Type} {f : O → O'}

theorem Sim.bind {x : Go (KeySt O) α} {y : Go (KeySt O') α} {g : α → Go (KeySt O) β} {g' : α → Go (KeySt O') β} (h : Sim f x y)
    (hg : ∀ a, Sim f (g a) (g' a)) : Sim f (x >>= g) (y >>= g') := by
  refine ⟨fun s => ?_⟩
  rw [Go.bind_run, Go.bind_run, h.run]
  cases x.run s with
  | mk r s' =>
    cases r with
    | error e => rfl
    | ok a => exact (hg a).run s'

theorem Sim.pure (a : α) : Sim f (Pure.pure a : Go (KeySt O) α) (Pure.pure a) := ⟨fun _ => rfl⟩
theorem Sim.lift (r : Except Fail α) : Sim f (Go.lift r : Go (KeySt O) α) (Go.lift r) := ⟨fun _ => rfl⟩

theorem Sim.onPh2 (x : Go Rd α) : Sim f (KeySt.onPh2 x : Go (KeySt O) α) (KeySt.onPh2 x) := by
  refine ⟨fun s => ?_⟩
  simp only [onPh2_run, KeySt.map]

theorem Sim.onEvals (x : Go Rd α) : Sim f (KeySt.onEvals x : Go (KeySt O) α) (KeySt.onEvals x) := by
  refine ⟨fun s => ?_⟩
  simp only [onEvals_run, KeySt.map]

theorem Sim.write {g : O → O} {g' : O' → O'} (h : ∀ o, g' (f o) = f (g o)) : Sim f (KeySt.write g) (KeySt.write g') := by
  refine ⟨fun s => ?_⟩
  simp only [write_run, KeySt.map, h]

theorem Sim.seek (evals : Bytes) (pos : Int) : Sim f (seekEvals evals pos : Go (KeySt O) Unit) (seekEvals evals pos) := by
  refine ⟨fun s => ?_⟩
  simp only [seekEvals_run, KeySt.map]
  split <;> rfl

/-- the whole extraction -/
theorem extract_map (H : HeaderCodec) (ph2 evals : Bytes) (empty : O) (body : Header → Go (KeySt O) Unit)
    (body' : Header → Go (KeySt O') Unit) (h : ∀ header, Sim f (body header) (body' header)) :
    extract H ph2 evals (f empty) body' = ((extract H ph2 evals empty body).1, (extract H ph2 evals empty body).2.map f) := by
  unfold extract
  cases (Header.read H).run (Rd.buffered 4096 ph2) with
  | mk r rd =>
    cases r with
    | error e => rfl
    | ok header =>
      have := (h header).run ⟨rd, Rd.buffered 4096 evals, empty⟩
      simp only [KeySt.map] at this
      simp only [this]
      rfl

/-- a property of the output after success -/
structure Ends (P : O → Prop) (x : Go (KeySt O) Unit) : Prop where
  run : ∀ s s', x.run s = (.ok (), s') → P s'.out

theorem Ends.bind {P : O → Prop} {x : Go (KeySt O) α} {g : α → Go (KeySt O) Unit} (h : ∀ a, Ends P (g a)) : Ends P (x >>= g) := by
  refine ⟨fun s s' hr => ?_⟩
  obtain ⟨a, s1, -, h2⟩ := Go.bind_eq_ok hr
  exact (h a).run _ _ h2

theorem Ends.write {P : O → Prop} {g : O → O} (h : ∀ o, P (g o)) : Ends P (KeySt.write g) := by
  refine ⟨fun s s' hr => ?_⟩
  rw [write_run] at hr
  cases hr
  exact h _

/-- a property of the output that every step keeps -/
structure Keeps (P : O → Prop) (x : Go (KeySt O) α) : Prop where
  run : ∀ s, P s.out → P (x.run s).2.out

theorem Keeps.bind {P : O → Prop} {x : Go (KeySt O) α} {g : α → Go (KeySt O) β} (hx : Keeps P x) (h : ∀ a, Keeps P (g a)) :
    Keeps P (x >>= g) := by
  refine ⟨fun s hs => ?_⟩
  have := hx.run s hs
  rw [Go.bind_run]
  revert this
  cases x.run s with
  | mk r s' =>
    cases r with
    | error e => exact id
    | ok a => exact fun h' => (h a).run s' h'

theorem Keeps.pure {P : O → Prop} (a : α) : Keeps P (Pure.pure a : Go (KeySt O) α) := ⟨fun _ h => h⟩
theorem Keeps.lift {P : O → Prop} (r : Except Fail α) : Keeps P (Go.lift r : Go (KeySt O) α) := ⟨fun _ h => h⟩
theorem Keeps.onPh2 {P : O → Prop} (x : Go Rd α) : Keeps P (KeySt.onPh2 x : Go (KeySt O) α) := by
  refine ⟨fun s h => ?_⟩
  rw [onPh2_run]
  exact h
theorem Keeps.onEvals {P : O → Prop} (x : Go Rd α) : Keeps P (KeySt.onEvals x : Go (KeySt O) α) := by
  refine ⟨fun s h => ?_⟩
  rw [onEvals_run]
  exact h
theorem Keeps.write {P : O → Prop} {g : O → O} (h : ∀ o, P o → P (g o)) : Keeps P (KeySt.write g) := by
  refine ⟨fun s hs => ?_⟩
  rw [write_run]
  exact h _ hs
theorem Keeps.seek {P : O → Prop} (evals : Bytes) (pos : Int) : Keeps P (seekEvals evals pos : Go (KeySt O) Unit) := by
  refine ⟨fun s hs => ?_⟩
  rw [seekEvals_run]
  split <;> exact hs

/-! ### the calls carry the bytes -/

theorem allBytes_one (c : Call) : allBytes [c] = c.bytes := by simp [allBytes]

theorem allBytes_slice (bs : List Bytes) : allBytes (sliceCalls bs) = beBytes 4 bs.length ++ bs.flatten := by
  unfold sliceCalls allBytes
  rw [List.flatMap_cons, List.flatMap_map]
  simp only [checkedCall, List.flatMap_id']

section
variable {F G1 G2 GT : Type} [Field F] [AddCommGroup G1] [Module F G1] [AddCommGroup G2]
  [Module F G2] [AddCommGroup GT] [Module F GT] [DecidableEq G1] [DecidableEq G2]

theorem allBytes_encodeSlice {G : Type} (c : Codec G) (ps : List G) : allBytes (sliceCalls (ps.map c.bytes)) = c.encodeSlice ps := by
  rw [allBytes_slice, List.length_map, ← List.flatMap_def]
  rfl

theorem allBytes_encodeSliceRaw {G : Type} (c : Codec G) (ps : List G) :
    allBytes (sliceCalls (ps.map c.rawBytes)) = c.encodeSliceRaw ps := by
  rw [allBytes_slice, List.length_map, ← List.flatMap_def]
  rfl

/-- one step of a simulation -/
macro "sim" t:term : tactic => `(tactic| refine Sim.bind $t fun _ => ?_)

theorem pkCalls_sim (C : Curve F G1 G2 GT) (E : KeyEnv G1) (header : Header) : Sim allBytes (pkCalls C E header) (pkBody C E header) := by
  have hw : ∀ (cs : List Call) (bs : Bytes), allBytes cs = bs → Sim allBytes (KeySt.write (· ++ cs)) (KeySt.write (· ++ bs)) := by
    rintro cs bs rfl
    exact .write fun o => (allBytes_append _ _).symm
  unfold pkCalls pkBody
  sim (.lift _)
  sim (hw _ _ (allBytes_one _))
  sim (.onEvals _)
  sim (hw _ _ (allBytes_one _))
  sim (.onEvals _)
  sim (hw _ _ (allBytes_one _))
  sim (.onPh2 _)
  sim (hw _ _ (allBytes_one _))
  sim (.onEvals _)
  sim (.onPh2 _)
  sim (.onEvals _)
  sim (hw _ _ (allBytes_encodeSlice _ _))
  sim (.onEvals _)
  sim (hw _ _ (allBytes_encodeSlice _ _))
  sim (.lift _)
  sim (.onPh2 _)
  sim (hw _ _ (allBytes_encodeSlice _ _))
  sim (.lift _)
  sim (.onPh2 _)
  sim (hw _ _ (allBytes_encodeSlice _ _))
  sim (hw _ _ (allBytes_one _))
  sim (hw _ _ (allBytes_one _))
  sim (.onEvals _)
  sim (hw _ _ (allBytes_encodeSlice _ _))
  sim (hw _ _ (allBytes_one _))
  sim (hw _ _ (allBytes_one _))
  sim (hw _ _ (allBytes_one _))
  sim (hw _ _ (allBytes_one _))
  exact hw _ _ (allBytes_one _)

/-- the last call is checked -/
def LastChecked (cs : List Call) : Prop := ∃ cs' b, cs = cs' ++ [checkedCall b]

theorem pkCalls_ends (C : Curve F G1 G2 GT) (E : KeyEnv G1) (header : Header) : Ends LastChecked (pkCalls C E header) := by
  unfold pkCalls
  iterate 28 refine Ends.bind fun _ => ?_
  exact .write fun o => ⟨o, _, rfl⟩

theorem readVK_sim (C : Curve F G1 G2 GT) (E : KeyEnv G1) (evals : Bytes) (header : Header) :
    Sim f (readVK C E evals header : Go (KeySt O) _) (readVK C E evals header) := by
  unfold readVK
  sim (.onEvals _)
  sim (.onEvals _)
  sim (.onEvals _)
  sim (.onPh2 _)
  sim (.onPh2 _)
  sim (.seek _ _)
  sim (.onEvals _)
  sim (.onEvals _)
  sim (.lift _)
  exact .pure _

theorem vk_allBytes (C : Curve F G1 G2 GT) (E : KeyEnv G1) (vk : VerifyingKey G1 G2) : allBytes (vk.calls C E) = vk.writeTo C E := by
  unfold VerifyingKey.calls VerifyingKey.writeTo
  rw [allBytes_append, allBytes_append, allBytes_encodeSliceRaw]
  simp [allBytes, checkedCall]

theorem vkCalls_sim (C : Curve F G1 G2 GT) (E : KeyEnv G1) (evals : Bytes) (header : Header) :
    Sim allBytes (vkCalls C E evals header) (vkBody C E evals header) := by
  unfold vkCalls vkBody
  sim (readVK_sim _ _ _ _)
  exact .write fun o => by rw [allBytes_append, vk_allBytes]

theorem vkCalls_ends (C : Curve F G1 G2 GT) (E : KeyEnv G1) (evals : Bytes) (header : Header) :
    Ends LastChecked (vkCalls C E evals header) := by
  unfold vkCalls
  refine Ends.bind fun vk => ?_
  exact .write fun o => ⟨o ++ _, _, (List.append_assoc _ _ _).symm⟩

/-- the bytes of the six files -/
def SplitCalls.bytes (o : SplitCalls) : SplitPK :=
  ⟨allBytes o.e, allBytes o.a, allBytes o.b1, allBytes o.z, allBytes o.k, allBytes o.b2⟩

theorem splitPkCalls_sim (C : Curve F G1 G2 GT) (header : Header) : Sim SplitCalls.bytes (splitPkCalls C header) (splitPkBody C header) := by
  have hE : ∀ c : Call, Sim SplitCalls.bytes (KeySt.write (.toE [c])) (KeySt.write (.toE c.bytes)) := fun c =>
    .write fun o => by simp [SplitCalls.bytes, SplitCalls.toE, SplitPK.toE, allBytes_append, allBytes_one]
  unfold splitPkCalls splitPkBody
  sim (hE _)
  sim (.onEvals _)
  sim (hE _)
  sim (.onEvals _)
  sim (hE _)
  sim (.onPh2 _)
  sim (hE _)
  sim (.onEvals _)
  sim (.onPh2 _)
  sim (.onEvals _)
  sim (.write fun o => by simp [SplitCalls.bytes, SplitCalls.toA, SplitPK.toA, allBytes_append, allBytes_encodeSliceRaw])
  sim (.onEvals _)
  sim (.write fun o => by simp [SplitCalls.bytes, SplitCalls.toB1, SplitPK.toB1, allBytes_append, allBytes_encodeSliceRaw])
  sim (.lift _)
  sim (.onPh2 _)
  sim (.write fun o => by simp [SplitCalls.bytes, SplitCalls.toZ, SplitPK.toZ, allBytes_append, allBytes_encodeSliceRaw])
  sim (.lift _)
  sim (.onPh2 _)
  sim (.write fun o => by simp [SplitCalls.bytes, SplitCalls.toK, SplitPK.toK, allBytes_append, allBytes_encodeSliceRaw])
  sim (hE _)
  sim (hE _)
  sim (.onEvals _)
  sim (.write fun o => by simp [SplitCalls.bytes, SplitCalls.toB2, SplitPK.toB2, allBytes_append, allBytes_encodeSliceRaw])
  sim (hE _)
  sim (hE _)
  sim (hE _)
  sim (hE _)
  exact hE _

end
end ZkSetup.Keys
