import Verif.Props.Meanwhile
import Verif.Props.AnyKeys
import Verif.Props.OneRun
/-
C93: while `key` or `keys` runs, other commands in the directory do not lead to keys that do not belong together.
False: `evals` is opened once for the proving key and once for the verifying key, and a `p2n` in between replaces it.
-/
set_option linter.unusedSectionVars false

namespace ZkSetup

open Phase2 Cli Keys

/-- the same contents of the files of the list -/
def AgreeOn (files : List String) (s t : FS) : Prop := ∀ q ∈ files, t q = s q

section
variable {files : List String} {g : Nat → FS → FS}

theorem AgreeOn.others (hg : LeavesAlone g files) {s t : FS} (h : AgreeOn files s t) (n : Nat) : AgreeOn files s (g n t) :=
  fun q hq => (hg n t q hq).trans (h q hq)

theorem AgreeOn.openFile {s t : FS} (h : AgreeOn files s t) {p : String} (hp : p ∈ files) : openFile t p = openFile s p := by
  unfold Cli.openFile
  rw [h p hp]

theorem withFilesBusy_agree {O : Type} (hg : LeavesAlone g files) (n : Nat) {ph2 : String} (h1 : ph2 ∈ files) (h2 : "evals" ∈ files)
    (body : Bytes → Bytes → Except Fail Unit × Option O) (save : FS → O → FS)
    (hs : ∀ s t o, AgreeOn files s t → AgreeOn files (save s o) (save t o)) {s t : FS} (h : AgreeOn files s t) :
    (withFilesBusy g n ph2 body save t).1 = (withFiles ph2 body save s).1 ∧
      AgreeOn files (withFiles ph2 body save s).2 (withFilesBusy g n ph2 body save t).2 := by
  have h0 := h.others hg n
  have h1' := h0.others hg (n + 1)
  unfold withFilesBusy withFiles
  dsimp only
  rw [h0.openFile h1, h1'.openFile h2]
  cases openFile s ph2 with
  | error e => exact ⟨rfl, h0⟩
  | ok a =>
    cases openFile s "evals" with
    | error e => exact ⟨rfl, h1'⟩
    | ok b =>
      refine ⟨rfl, ?_⟩
      dsimp only
      cases (body a b).2 with
      | none => exact h1'
      | some o => exact hs _ _ _ (h1'.others hg (n + 2))

theorem inOrder_agree {x y x' y' : FS → Except Fail Unit × FS} {s t : FS}
    (hx : (x' t).1 = (x s).1 ∧ AgreeOn files (x s).2 (x' t).2)
    (hy : ∀ s t, AgreeOn files s t → (y' t).1 = (y s).1 ∧ AgreeOn files (y s).2 (y' t).2) :
    (inOrder x' y' t).1 = (inOrder x y s).1 ∧ AgreeOn files (inOrder x y s).2 (inOrder x' y' t).2 := by
  obtain ⟨hx1, hx2⟩ := hx
  unfold inOrder
  rcases hxs : x s with ⟨r, s'⟩
  rcases hxt : x' t with ⟨r', t'⟩
  rw [hxs, hxt] at hx1 hx2
  dsimp only at hx1 hx2
  subst hx1
  cases r' with
  | error e => exact ⟨rfl, hx2⟩
  | ok u => exact hy _ _ hx2

end

section
variable {F G1 G2 GT : Type} [Field F] [AddCommGroup G1] [Module F G1] [AddCommGroup G2]
  [Module F G2] [AddCommGroup GT] [Module F GT] [DecidableEq G1] [DecidableEq G2] [DecidableEq GT]
variable {C : Curve F G1 G2 GT} {g : Nat → FS → FS}

/-- **C93** `key`: if the others leave alone the phase 2 file, `evals` and the two keys, the result and the keys are the same as without
them. -/
theorem C93_key_partial (E : Env F G1) (ph2 : String) (hg : LeavesAlone g [ph2, "evals", "pk", "vk"]) (fs : FS) :
    (keyBusy C E g [ph2] fs).1 = (key C E [ph2] fs).1 ∧ AgreeOn [ph2, "evals", "pk", "vk"] (key C E [ph2] fs).2 (keyBusy C E g [ph2] fs).2 := by
  have e1 : keyBusy C E g [ph2] fs = inOrder (withFilesBusy g 0 ph2 (Keys.extractPK C E.keys) fun fs o => fs.set "pk" o)
    (withFilesBusy g 3 ph2 (Keys.extractVK C E.keys) fun fs o => fs.set "vk" o) fs := rfl
  have e2 : key C E [ph2] fs = inOrder (withFiles ph2 (Keys.extractPK C E.keys) fun fs o => fs.set "pk" o)
    (withFiles ph2 (Keys.extractVK C E.keys) fun fs o => fs.set "vk" o) fs := rfl
  rw [e1, e2]
  have m1 : ph2 ∈ [ph2, "evals", "pk", "vk"] := by simp
  have m2 : "evals" ∈ [ph2, "evals", "pk", "vk"] := by simp
  refine inOrder_agree (withFilesBusy_agree hg 0 m1 m2 _ _ (fun s t o h => ?_) fun _ _ => rfl) fun s t h =>
    withFilesBusy_agree hg 3 m1 m2 _ _ (fun s t o h => ?_) h
  · exact SameOn.set h _ _
  · exact SameOn.set h _ _

/-- the files that `keys` reads and writes -/
def usedFilesSplit (ph2 session : String) : List String := ph2 :: "evals" :: outputs "keys" [ph2, session]

/-- **C93** `keys`, in the same way -/
theorem C93_keys_partial (E : Env F G1) (ph2 session : String) (hg : LeavesAlone g (usedFilesSplit ph2 session)) (fs : FS) :
    (keysBusy C E g [ph2, session] fs).1 = (keys C E [ph2, session] fs).1 ∧
      AgreeOn (usedFilesSplit ph2 session) (keys C E [ph2, session] fs).2 (keysBusy C E g [ph2, session] fs).2 := by
  have e1 : keysBusy C E g [ph2, session] fs = inOrder (withFilesBusy g 0 ph2 (Keys.extractSplitPK C E.keys) (saveSplitPK session))
    (withFilesBusy g 3 ph2 (Keys.extractSplitVK C E.keys) (saveSplitVK session)) fs := rfl
  have e2 : keys C E [ph2, session] fs = inOrder (withFiles ph2 (Keys.extractSplitPK C E.keys) (saveSplitPK session))
    (withFiles ph2 (Keys.extractSplitVK C E.keys) (saveSplitVK session)) fs := rfl
  rw [e1, e2]
  refine inOrder_agree (withFilesBusy_agree hg 0 (by simp [usedFilesSplit]) (by simp [usedFilesSplit]) _ _ (fun s t o h => ?_) fun _ _ => rfl)
    fun s t h => withFilesBusy_agree hg 3 (by simp [usedFilesSplit]) (by simp [usedFilesSplit]) _ _ (fun s t o h => ?_) h
  · unfold saveSplitPK
    exact SameOn.set (SameOn.set (SameOn.set (SameOn.set (SameOn.set (SameOn.set h _ _) _ _) _ _) _ _) _ _) _ _
  · unfold saveSplitVK
    cases o.commitmentKey with
    | none => exact SameOn.set h _ _
    | some bs => exact SameOn.set (SameOn.set h _ _) _ _

/-- **C93** for other commands of the tool, any number of them at any time, none of which writes the phase 2 file, `evals` or a key -/
theorem C93_commands_partial (E : Env F G1) (ph2 : String) (calls : Nat → List (Command F))
    (hc : ∀ n, ∀ c ∈ calls n, ∀ q ∈ [ph2, "evals", "pk", "vk"], q ∉ outputs c.name c.args) (fs : FS) :
    (keyBusy C E (fun n => execAll C E (calls n)) [ph2] fs).1 = (key C E [ph2] fs).1 ∧
      AgreeOn [ph2, "evals", "pk", "vk"] (key C E [ph2] fs).2 (keyBusy C E (fun n => execAll C E (calls n)) [ph2] fs).2 :=
  C93_key_partial E ph2 (fun n _ q hq => execAll_frame E (calls n) q (fun c h => hc n c h q hq) _) fs

/-- With a wrong number of arguments both fail at once. -/
theorem C93_args (E : Env F G1) (args : List String) (fs : FS) :
    (args.length ≠ 1 → keyBusy C E g args fs = key C E args fs) ∧ (args.length ≠ 2 → keysBusy C E g args fs = keys C E args fs) := by
  refine ⟨fun h => ?_, fun h => ?_⟩
  · rw [keyBusy, key, if_pos h, if_pos h]
  · rw [keysBusy, keys, if_pos h, if_pos h]

omit [AddCommGroup G1] [Module F G1] [AddCommGroup G2] [Module F G2] [AddCommGroup GT] [Module F GT] [DecidableEq G1] [DecidableEq G2]
  [DecidableEq GT] [Field F] in
theorem withFilesBusy_ok {O : Type} (n : Nat) (ph2 : String) (body : Bytes → Bytes → Except Fail Unit × Option O) (save : FS → O → FS)
    (fs fs' : FS) (hb : ∀ a b, (body a b).1 = .ok () → ∃ o, (body a b).2 = some o) :
    withFilesBusy g n ph2 body save fs = (.ok (), fs') ↔
      ∃ a b o, g n fs ph2 = some a ∧ g (n + 1) (g n fs) "evals" = some b ∧ body a b = (.ok (), some o) ∧
        fs' = save (g (n + 2) (g (n + 1) (g n fs))) o := by
  unfold withFilesBusy Cli.openFile
  dsimp only
  cases h1 : g n fs ph2 with
  | none => simp
  | some a =>
    cases h2 : g (n + 1) (g n fs) "evals" with
    | none => simp
    | some b =>
      dsimp only
      rcases hr : body a b with ⟨r, o⟩
      constructor
      · intro h
        simp only [Prod.mk.injEq] at h
        obtain ⟨rfl, h⟩ := h
        obtain ⟨o', ho⟩ := hb a b (by rw [hr])
        rw [hr] at ho
        dsimp only at ho
        subst ho
        exact ⟨a, b, o', rfl, rfl, hr, h.symm⟩
      · rintro ⟨a', b', o', e1, e2, e3, rfl⟩
        cases e1
        cases e2
        rw [hr] at e3
        cases e3
        rfl

/-- **C93**, whatever the others do: a successful `key` has read the phase 2 file and `evals` twice, and each key is the extraction of what was
there at the time. -/
theorem C93_halves (E : Env F G1) (ph2 : String) (fs fs' : FS) :
    keyBusy C E g [ph2] fs = (.ok (), fs') ↔ ∃ a b a' b' pk vk,
      g 0 fs ph2 = some a ∧ g 1 (g 0 fs) "evals" = some b ∧ extractPK C E.keys a b = (.ok (), some pk) ∧
      let mid := (g 2 (g 1 (g 0 fs))).set "pk" pk
      g 3 mid ph2 = some a' ∧ g 4 (g 3 mid) "evals" = some b' ∧ extractVK C E.keys a' b' = (.ok (), some vk) ∧
      fs' = (g 5 (g 4 (g 3 mid))).set "vk" vk := by
  have e1 : keyBusy C E g [ph2] fs = inOrder (withFilesBusy g 0 ph2 (Keys.extractPK C E.keys) fun fs o => fs.set "pk" o)
    (withFilesBusy g 3 ph2 (Keys.extractVK C E.keys) fun fs o => fs.set "vk" o) fs := rfl
  have k1 := fun s s' => withFilesBusy_ok (g := g) 0 ph2 (Keys.extractPK C E.keys) (fun fs o => fs.set "pk" o) s s' fun a b h =>
    (extract_some _ _ _ _ _ h).imp fun _ h => by rw [extractPK, h]
  have k2 := fun s s' => withFilesBusy_ok (g := g) 3 ph2 (Keys.extractVK C E.keys) (fun fs o => fs.set "vk" o) s s' fun a b h =>
    (extract_some _ _ _ _ _ h).imp fun _ h => by rw [extractVK, h]
  rw [e1]
  unfold inOrder
  constructor
  · intro h
    rcases hx : withFilesBusy g 0 ph2 (Keys.extractPK C E.keys) (fun fs o => fs.set "pk" o) fs with ⟨r, s⟩
    rw [hx] at h
    cases r with
    | error e => simp at h
    | ok u =>
      obtain ⟨a, b, pk, q1, q2, q3, rfl⟩ := (k1 fs s).mp hx
      obtain ⟨a', b', vk, q4, q5, q6, q7⟩ := (k2 _ _).mp h
      exact ⟨a, b, a', b', pk, vk, q1, q2, q3, q4, q5, q6, q7⟩
  · rintro ⟨a, b, a', b', pk, vk, q1, q2, q3, q4, q5, q6, q7⟩
    rw [(k1 fs _).mpr ⟨a, b, pk, q1, q2, q3, rfl⟩]
    exact (k2 _ _).mpr ⟨a', b', vk, q4, q5, q6, q7⟩

/-- **C93** for split keys: what a successful `keys` has read and written, whatever the others do -/
theorem C93_split_halves (E : Env F G1) (ph2 session : String) (fs fs' : FS) :
    keysBusy C E g [ph2, session] fs = (.ok (), fs') ↔ ∃ a b a' b' pk vk,
      g 0 fs ph2 = some a ∧ g 1 (g 0 fs) "evals" = some b ∧ extractSplitPK C E.keys a b = (.ok (), some pk) ∧
      let mid := saveSplitPK session (g 2 (g 1 (g 0 fs))) pk
      g 3 mid ph2 = some a' ∧ g 4 (g 3 mid) "evals" = some b' ∧ extractSplitVK C E.keys a' b' = (.ok (), some vk) ∧
      fs' = saveSplitVK session (g 5 (g 4 (g 3 mid))) vk := by
  have e1 : keysBusy C E g [ph2, session] fs = inOrder (withFilesBusy g 0 ph2 (Keys.extractSplitPK C E.keys) (saveSplitPK session))
    (withFilesBusy g 3 ph2 (Keys.extractSplitVK C E.keys) (saveSplitVK session)) fs := rfl
  have k1 := fun s s' => withFilesBusy_ok (g := g) 0 ph2 (Keys.extractSplitPK C E.keys) (saveSplitPK session) s s' fun a b h =>
    (extract_some _ _ _ _ _ h).imp fun _ h => by rw [extractSplitPK, h]
  have k2 := fun s s' => withFilesBusy_ok (g := g) 3 ph2 (Keys.extractSplitVK C E.keys) (saveSplitVK session) s s' fun a b h =>
    (extract_some _ _ _ _ _ h).imp fun _ h => by rw [extractSplitVK, h]
  rw [e1]
  unfold inOrder
  constructor
  · intro h
    rcases hx : withFilesBusy g 0 ph2 (Keys.extractSplitPK C E.keys) (saveSplitPK session) fs with ⟨r, s⟩
    rw [hx] at h
    cases r with
    | error e => simp at h
    | ok u =>
      obtain ⟨a, b, pk, q1, q2, q3, rfl⟩ := (k1 fs s).mp hx
      obtain ⟨a', b', vk, q4, q5, q6, q7⟩ := (k2 _ _).mp h
      exact ⟨a, b, a', b', pk, vk, q1, q2, q3, q4, q5, q6, q7⟩
  · rintro ⟨a, b, a', b', pk, vk, q1, q2, q3, q4, q5, q6, q7⟩
    rw [(k1 fs _).mpr ⟨a, b, pk, q1, q2, q3, rfl⟩]
    exact (k2 _ _).mpr ⟨a', b', vk, q4, q5, q6, q7⟩

/-- The keys of one extraction have [α]₁ in common, in the two formats. (`L`: length of the domain, `M`: length of the commitment key.) -/
theorem C93_alpha (hC : C.Lawful) (K : KeyEnv G1) (hH : K.header.Lawful) (L M : Nat) (hL : ∀ n, (K.domain n).length = L)
    (hM : ∀ l b, K.commitmentKey l = .ok b → b.length = M) (ph2 evals pk vk : Bytes) (h1 : extractPK C K ph2 evals = (.ok (), some pk))
    (h2 : extractVK C K ph2 evals = (.ok (), some vk)) :
    ∃ α : G1, (pk.drop L).take C.c1.size = C.c1.bytes α ∧ (vk.drop M).take (2 * C.c1.size) = C.c1.rawBytes α := by
  obtain ⟨h, r, hd, hle, f, v, hf, hv, rfl⟩ := (C83_pk hC K hH _ _ _).mp h1
  obtain ⟨h', r', hd', f', v', ck, hf', hv', hck, rfl⟩ := (C83_vk hC K _ _ _).mp h2
  obtain ⟨x1, x2, x3, sa, sb, sb2, u, e, w1, -⟩ := hv
  obtain ⟨⟨y1, y2, y3, t, e', z1, -⟩, -⟩ := hv'
  have ha : v.alpha1 = v'.alpha1 := decodes_unique hC.codec1.size_pos (e.symm.trans e') w1 z1 |>.1
  refine ⟨v.alpha1, ?_, ?_⟩
  · unfold ProvingKey.encode
    simp only [List.append_assoc]
    rw [List.drop_left' (hL _), List.take_left' (hC.codec1.bytes_length _)]
    rfl
  · rw [ha]
    unfold VerifyKey.encode
    simp only [List.append_assoc]
    rw [List.drop_left' (hM _ _ hck), List.take_left' (hC.codec1.raw_length _)]
    rfl

end

namespace Toy

/-- a directory after `p2n srs one ph2`, with a second phase 1 file -/
def ready : FS := (p2nAny curve cliEnv draws.par ["srs", "one", "ph2"] (files.set "srs2" ((srs 3 1 6 7).encode curve))).2

/-- another `p2n` between the extraction of the proving key and that of the verifying key -/
def replacing (n : Nat) : List (Command K) := if n = 3 then [⟨draws, "p2n", ["srs2", "one", "other"]⟩] else []

/-- `key ph2` with the other `p2n` in between -/
def mixedKeys : Except Fail Unit × FS := keyBusy curve cliEnv (fun n => execAll curve cliEnv (replacing n)) ["ph2"] ready

end Toy

/-- **C93** is false: `key ph2` and `p2n srs2 one other` at the same time. `key` succeeds, but no extraction makes the two keys it leaves:
`pk` is the one of `key` alone, `vk` has another [α]₁. -/
theorem C93_false : Toy.isOk Toy.mixedKeys = true ∧ Toy.mixedKeys.2 "pk" = (key Toy.curve Toy.cliEnv ["ph2"] Toy.ready).2 "pk" ∧
    ¬ ∃ ph2 evals, extractPK Toy.curve Toy.keyEnv ph2 evals = (.ok (), Toy.mixedKeys.2 "pk") ∧
      extractVK Toy.curve Toy.keyEnv ph2 evals = (.ok (), Toy.mixedKeys.2 "vk") := by
  refine ⟨by decide +kernel, by decide +kernel, ?_⟩
  rintro ⟨ph2, evals, h1, h2⟩
  have e1 : Toy.mixedKeys.2 "pk" = some (old Toy.mixedKeys.2 "pk") := by decide +kernel
  have e2 : Toy.mixedKeys.2 "vk" = some (old Toy.mixedKeys.2 "vk") := by decide +kernel
  rw [e1] at h1
  rw [e2] at h2
  obtain ⟨α, a1, a2⟩ := C93_alpha Toy.lawful Toy.keyEnv Gob.lawful 8 1 (fun _ => beBytes_length _ _)
    (fun l b h => by simp only [Toy.keyEnv, Except.ok.injEq] at h; rw [← h]; rfl) ph2 evals _ _ h1 h2
  have hno : ∀ α : Toy.K, ¬ (((old Toy.mixedKeys.2 "pk").drop 8).take Toy.curve.c1.size = Toy.curve.c1.bytes α ∧
      ((old Toy.mixedKeys.2 "vk").drop 1).take (2 * Toy.curve.c1.size) = Toy.curve.c1.rawBytes α) := by decide +kernel
  exact hno α ⟨a1, a2⟩

/-- while `key` runs, someone contributes to another phase 2 file, and someone makes a phase 1 file -/
example (n : Nat) : (keyBusy Toy.curve Toy.cliEnv
    (fun m => execAll Toy.curve Toy.cliEnv (if m = n then [⟨Toy.draws, "p2c", ["ph2", "next"]⟩, ⟨Toy.draws, "p1n", ["2", "new"]⟩] else []))
      ["ph2"] Toy.ready).1 = (key Toy.curve Toy.cliEnv ["ph2"] Toy.ready).1 := by
  refine (C93_commands_partial Toy.cliEnv "ph2" _ (fun m c hc q hq => ?_) Toy.ready).1
  simp only [List.mem_cons, List.not_mem_nil, or_false] at hq
  split at hc
  · simp only [List.mem_cons, List.not_mem_nil, or_false] at hc
    rcases hc with rfl | rfl <;> rcases hq with rfl | rfl | rfl | rfl <;> simp [outputs]
  · simp at hc

/-- which succeeds -/
example : Toy.isOk (key Toy.curve Toy.cliEnv ["ph2"] Toy.ready) = true := by decide +kernel

/-- someone appends to a file of their own while `keys` runs -/
example : (keysBusy Toy.curve Toy.cliEnv Toy.logging ["ph2", "s"] Toy.ready).2 "s.vk.save" =
    (keys Toy.curve Toy.cliEnv ["ph2", "s"] Toy.ready).2 "s.vk.save" := by
  refine (C93_keys_partial (C := Toy.curve) (g := Toy.logging) Toy.cliEnv "ph2" "s" (fun n fs q hq => set_other _ _ ?_) Toy.ready).2
    "s.vk.save" (by decide)
  rintro rfl
  revert hq
  decide

example : Toy.isOk (keysBusy Toy.curve Toy.cliEnv Toy.logging ["ph2", "s"] Toy.ready) = true ∧
    old (keysBusy Toy.curve Toy.cliEnv Toy.logging ["ph2", "s"] Toy.ready).2 "log" = List.replicate 6 7 := by decide +kernel

end ZkSetup
