import Verif.Proofs.Alias
import Verif.Props.AnyKeys
import Verif.Props.Cli
/-
C89: a successful extraction of keys leaves the phase 2 file as it was. False if the file has the name of one of the outputs.
-/
set_option linter.unusedSectionVars false

namespace ZkSetup

open Phase2 Keys KeySt Cli

section
variable {F G1 G2 GT : Type} [Field F] [AddCommGroup G1] [Module F G1] [AddCommGroup G2]
  [Module F G2] [AddCommGroup GT] [Module F GT] [DecidableEq G1] [DecidableEq G2] [DecidableEq GT]
variable {C : Curve F G1 G2 GT}

/-! ### the functions -/

/-- **C89**, `extractPK` with the phase 2 file named `pk`, for all bytes: it does what it does with the first 4096 bytes of the file, if
that succeeds or leads to at most 4096 bytes. -/
theorem C89_pk_bytes (K : KeyEnv G1) (hH : K.header.Lawful) (ph2 evals : Bytes) {res : Except Fail Unit} {out : Bytes}
    (he : extractPK C K (ph2.take 4096) evals = (res, some out)) (hc : res = .ok () ∨ out.length ≤ 4096) :
    extractPKAlias C K ph2 evals = (res, some out) :=
  extract_alias_start (written := id) hH ph2 evals [] (pkBody_follows C K evals) he hc

/-- **C89**, `extractVK` with the phase 2 file named `vk`, for all bytes -/
theorem C89_vk_bytes (K : KeyEnv G1) (hH : K.header.Lawful) (ph2 evals : Bytes) {res : Except Fail Unit} {out : Bytes}
    (he : extractVK C K (ph2.take 4096) evals = (res, some out)) (hc : res = .ok () ∨ out.length ≤ 4096) :
    extractVKAlias C K ph2 evals = (res, some out) :=
  extract_alias_start (written := id) hH ph2 evals [] (vkBody_follows C K evals) he hc

theorem splitOutput_grows {session path : String} {file : SplitPK → Bytes} (h : splitOutput session path = some file) : Grows file := by
  unfold splitOutput at h
  repeat' split at h
  all_goals first | (simp at h; done) | skip
  all_goals
    simp only [Option.some.injEq] at h
    subst h
    constructor <;> intro bs o <;> simp [SplitPK.toE, SplitPK.toA, SplitPK.toB1, SplitPK.toZ, SplitPK.toK, SplitPK.toB2]

/-- **C89**, `extractSplitPK` with the phase 2 file named like one of its six outputs, for all bytes -/
theorem C89_split_pk_bytes (K : KeyEnv G1) (hH : K.header.Lawful) (session path : String) {file : SplitPK → Bytes}
    (hf : splitOutput session path = some file) (ph2 evals : Bytes) {res : Except Fail Unit} {out : SplitPK}
    (he : extractSplitPK C K (ph2.take 4096) evals = (res, some out)) (hc : res = .ok () ∨ (file out).length ≤ 4096) :
    extractSplitPKAt C K session path ph2 evals = (res, some out) := by
  unfold extractSplitPKAt
  rw [hf]
  exact extract_alias_start hH ph2 evals _ (splitPkBody_follows C (splitOutput_grows hf) evals) he hc

/-- **C89**, `extractSplitVK` with the phase 2 file named like the verifying key, for all bytes -/
theorem C89_split_vk_bytes (K : KeyEnv G1) (hH : K.header.Lawful) (ph2 evals : Bytes) {res : Except Fail Unit} {out : SplitVK}
    (he : extractSplitVK C K (ph2.take 4096) evals = (res, some out)) (hc : res = .ok () ∨ out.vk.length ≤ 4096) :
    extractSplitVKAlias C K ph2 evals = (res, some out) :=
  extract_alias_start (written := SplitVK.vk) hH ph2 evals ⟨[], none⟩ (splitVkBody_follows C K evals) he hc

/-! ### the commands -/

/-- The commands of `execAny` are those of `exec` unless `key` or `keys` is to write the file it reads. -/
theorem execAny_eq (E : Env F G1) (d : Draws F) (command : String) (args : List String) (fs : FS)
    (h : command = "key" ∨ command = "keys" → args.headD "" ∉ outputs command args) :
    execAny C E d command args fs = exec C E d command args fs := by
  unfold execAny
  split
  · rename_i hk
    subst hk
    have h := h (.inl rfl)
    show keyAny C E args fs = key C E args fs
    unfold keyAny key
    split
    · rfl
    · rename_i hl
      obtain ⟨a, rfl⟩ := List.length_eq_one_iff.mp (not_not.mp hl)
      simp only [outputs, List.headD_cons, List.mem_cons, List.not_mem_nil, or_false, not_or] at h
      simp only [arg, List.getD_cons_zero, extractPKAt, extractVKAt, if_neg h.1, if_neg h.2]
  · split
    · rename_i hk
      subst hk
      have h := h (.inr rfl)
      show keysAny C E args fs = Cli.keys C E args fs
      unfold keysAny Cli.keys
      split
      · rfl
      · rename_i hl
        obtain ⟨a, b, rfl⟩ := length_two (not_not.mp hl)
        simp only [outputs, List.headD_cons, List.map_cons, List.map_nil, List.mem_cons, List.not_mem_nil, or_false, not_or] at h
        obtain ⟨h1, h2, h3, h4, h5, h6, h7, -⟩ := h
        simp only [arg, List.getD_cons_zero, List.getD_cons_succ, extractSplitPKAt, splitOutput, if_neg h1, if_neg h2, if_neg h3,
          if_neg h4, if_neg h5, if_neg h6, extractSplitVKAt, if_neg h7]
    · rfl

/-- **C89**, the part that holds: whatever the outcome, the phase 2 file stays as it is if its name is not that of an output. -/
theorem C89_kept_partial (E : Env F G1) (d : Draws F) (command : String) (hcmd : command = "key" ∨ command = "keys") (path : String)
    (args : List String) (fs : FS) (h : path ∉ outputs command (path :: args)) :
    (execAny C E d command (path :: args) fs).2 path = fs path := by
  rw [execAny_eq E d command (path :: args) fs fun _ => h]
  exact C45_frame_partial E d command _ fs path h

theorem withFiles_run {O : Type} {path : String} {body : Bytes → Bytes → Except Fail Unit × Option O} {save : FS → O → FS} {fs : FS}
    {a b : Bytes} (ha : fs path = some a) (hb : fs "evals" = some b) {r : Except Fail Unit} {o : O} (h : body a b = (r, some o)) :
    withFiles path body save fs = (r, save fs o) := by
  unfold withFiles openFile
  simp only [ha, hb, h]

/-- **C89** is false for `key vk`, for all bytes: if the proving key can be extracted, and the verifying key from the first 4096 bytes, then
the command succeeds, and in the place of the phase 2 file is the verifying key. -/
theorem C89_vk_any (E : Env F G1) (hH : E.keys.header.Lawful) (d : Draws F) (fs : FS) (ph2 evals pk vk : Bytes)
    (hfs : fs "vk" = some ph2) (hev : fs "evals" = some evals) (hpk : extractPK C E.keys ph2 evals = (.ok (), some pk))
    (hvk : extractVK C E.keys (ph2.take 4096) evals = (.ok (), some vk)) :
    execAny C E d "key" ["vk"] fs = (.ok (), (fs.set "pk" pk).set "vk" vk) := by
  show keyAny C E ["vk"] fs = _
  unfold keyAny
  rw [if_neg (by simp)]
  simp only [arg, List.getD_cons_zero]
  have h1 : extractPKAt C E.keys "vk" ph2 evals = (.ok (), some pk) := by
    unfold extractPKAt
    rw [if_neg (by decide)]
    exact hpk
  have h2 : extractVKAt C E.keys "vk" ph2 evals = (.ok (), some vk) := by
    unfold extractVKAt
    rw [if_pos rfl]
    exact C89_vk_bytes E.keys hH ph2 evals hvk (.inl rfl)
  unfold inOrder
  rw [withFiles_run hfs hev h1]
  exact withFiles_run (fs := fs.set "pk" pk) ((set_other _ _ (by decide)).trans hfs) ((set_other _ _ (by decide)).trans hev) h2

/-- **C89**, `key pk`, for all bytes: if the proving key can be extracted from the first 4096 bytes, then it is written over the phase 2
file; the verifying key is then to be extracted from it, and the command fails if it does not begin like a phase 2 file. -/
theorem C89_pk_any (E : Env F G1) (hH : E.keys.header.Lawful) (d : Draws F) (fs : FS) (ph2 evals pk : Bytes)
    (hfs : fs "pk" = some ph2) (hev : fs "evals" = some evals) (hpk : extractPK C E.keys (ph2.take 4096) evals = (.ok (), some pk))
    {e : Fail} {r : Rd} (hno : E.keys.header.dec.run (Rd.buffered 4096 pk) = (.error e, r)) :
    execAny C E d "key" ["pk"] fs = (.error e, fs.set "pk" pk) := by
  show keyAny C E ["pk"] fs = _
  unfold keyAny
  rw [if_neg (by simp)]
  simp only [arg, List.getD_cons_zero]
  have h1 : extractPKAt C E.keys "pk" ph2 evals = (.ok (), some pk) := by
    unfold extractPKAt
    rw [if_pos rfl]
    exact C89_pk_bytes E.keys hH ph2 evals hpk (.inl rfl)
  unfold inOrder
  rw [withFiles_run hfs hev h1]
  have hev' : fs.set "pk" pk "evals" = some evals := (set_other _ _ (by decide)).trans hev
  have h2 : extractVKAt C E.keys "pk" pk evals = (.error e, none) := by
    unfold extractVKAt
    rw [if_neg (by decide)]
    unfold extractVK extract Header.read
    rw [hno]
  simp only [withFiles, openFile, set_self, hev', h2]

/-- **C89**, `key pk`, for all bytes: if the first 4096 bytes are not enough, and at most 4096 bytes of the proving key can be written with
them, then the command fails and these are in the place of the phase 2 file. -/
theorem C89_pk_short (E : Env F G1) (hH : E.keys.header.Lawful) (d : Draws F) (fs : FS) (ph2 evals out : Bytes)
    (hfs : fs "pk" = some ph2) (hev : fs "evals" = some evals) {e : Fail}
    (hpk : extractPK C E.keys (ph2.take 4096) evals = (.error e, some out)) (hl : out.length ≤ 4096) :
    execAny C E d "key" ["pk"] fs = (.error e, fs.set "pk" out) := by
  show keyAny C E ["pk"] fs = _
  unfold keyAny
  rw [if_neg (by simp)]
  simp only [arg, List.getD_cons_zero]
  have h1 : extractPKAt C E.keys "pk" ph2 evals = (.error e, some out) := by
    unfold extractPKAt
    rw [if_pos rfl]
    exact C89_pk_bytes E.keys hH ph2 evals hpk (.inr hl)
  unfold inOrder
  rw [withFiles_run hfs hev h1]

theorem splitPK_elsewhere (session : String) (fs : FS) (o : SplitPK) (q : String)
    (h : q ∉ [".pk.E.save", ".pk.A.save", ".pk.B1.save", ".pk.Z.save", ".pk.K.save", ".pk.B2.save"].map (session ++ ·)) :
    saveSplitPK session fs o q = fs q := by
  simp only [List.map_cons, List.map_nil, List.mem_cons, List.not_mem_nil, or_false, not_or] at h
  obtain ⟨h1, h2, h3, h4, h5, h6⟩ := h
  unfold saveSplitPK
  rw [set_other _ _ h6, set_other _ _ h5, set_other _ _ h4, set_other _ _ h3, set_other _ _ h2, set_other _ _ h1]

theorem session_ne (s : String) {a b : String} (h : a ≠ b) : s ++ a ≠ s ++ b := by
  intro e
  have := congrArg String.toList e
  simp only [String.toList_append, List.append_cancel_left_eq] at this
  exact h (String.toList_injective this)

theorem evals_ne (s : String) {a : String} (h : 5 < a.length) : "evals" ≠ s ++ a := by
  intro e
  have := congrArg String.length e
  rw [String.length_append] at this
  have h5 : "evals".length = 5 := by decide
  omega

/-- **C89** is false for `keys <session>.vk.save <session>`, for all bytes: the command succeeds, and in the place of the phase 2 file is the
verifying key. -/
theorem C89_split_vk_any (E : Env F G1) (hH : E.keys.header.Lawful) (d : Draws F) (fs : FS) (session : String) (ph2 evals : Bytes)
    (pk : SplitPK) (vk : SplitVK) (hfs : fs (session ++ ".vk.save") = some ph2) (hev : fs "evals" = some evals)
    (hpk : extractSplitPK C E.keys ph2 evals = (.ok (), some pk))
    (hvk : extractSplitVK C E.keys (ph2.take 4096) evals = (.ok (), some vk)) :
    execAny C E d "keys" [session ++ ".vk.save", session] fs = (.ok (), saveSplitVK session (saveSplitPK session fs pk) vk) := by
  show keysAny C E [session ++ ".vk.save", session] fs = _
  unfold keysAny
  rw [if_neg (by simp)]
  simp only [arg, List.getD_cons_zero, List.getD_cons_succ]
  have h1 : extractSplitPKAt C E.keys session (session ++ ".vk.save") ph2 evals = (.ok (), some pk) := by
    unfold extractSplitPKAt splitOutput
    rw [if_neg (session_ne _ (by decide)), if_neg (session_ne _ (by decide)), if_neg (session_ne _ (by decide)),
      if_neg (session_ne _ (by decide)), if_neg (session_ne _ (by decide)), if_neg (session_ne _ (by decide))]
    exact hpk
  have h2 : extractSplitVKAt C E.keys session (session ++ ".vk.save") ph2 evals = (.ok (), some vk) := by
    unfold extractSplitVKAt
    rw [if_pos rfl]
    exact C89_split_vk_bytes E.keys hH ph2 evals hvk (.inl rfl)
  unfold inOrder
  rw [withFiles_run hfs hev h1]
  refine withFiles_run (fs := saveSplitPK session fs pk) ((splitPK_elsewhere _ _ _ _ ?_).trans hfs)
    ((splitPK_elsewhere _ _ _ _ ?_).trans hev) h2
  · simp only [List.map_cons, List.map_nil, List.mem_cons, List.not_mem_nil, or_false, not_or]
    exact ⟨session_ne _ (by decide), session_ne _ (by decide), session_ne _ (by decide), session_ne _ (by decide),
      session_ne _ (by decide), session_ne _ (by decide)⟩
  · simp only [List.map_cons, List.map_nil, List.mem_cons, List.not_mem_nil, or_false, not_or]
    exact ⟨evals_ne _ (by decide), evals_ne _ (by decide), evals_ne _ (by decide), evals_ne _ (by decide), evals_ne _ (by decide),
      evals_ne _ (by decide)⟩

/-- **C89** is false for `keys <session>.pk.CommitmentKey.save <session>`, for all bytes: if the keys can be extracted from the phase 2 file,
then the command succeeds, and in the place of the phase 2 file is the commitment key. -/
theorem C89_commitment_any (E : Env F G1) (d : Draws F) (fs : FS) (session : String) (ph2 evals : Bytes)
    (pk : SplitPK) (vk : SplitVK) (hfs : fs (session ++ ".pk.CommitmentKey.save") = some ph2) (hev : fs "evals" = some evals)
    (hpk : extractSplitPK C E.keys ph2 evals = (.ok (), some pk)) (hvk : extractSplitVK C E.keys ph2 evals = (.ok (), some vk)) :
    execAny C E d "keys" [session ++ ".pk.CommitmentKey.save", session] fs
      = (.ok (), saveSplitVK session (saveSplitPK session fs pk) vk) := by
  show keysAny C E [session ++ ".pk.CommitmentKey.save", session] fs = _
  unfold keysAny
  rw [if_neg (by simp)]
  simp only [arg, List.getD_cons_zero, List.getD_cons_succ]
  have h1 : extractSplitPKAt C E.keys session (session ++ ".pk.CommitmentKey.save") ph2 evals = (.ok (), some pk) := by
    unfold extractSplitPKAt splitOutput
    rw [if_neg (session_ne _ (by decide)), if_neg (session_ne _ (by decide)), if_neg (session_ne _ (by decide)),
      if_neg (session_ne _ (by decide)), if_neg (session_ne _ (by decide)), if_neg (session_ne _ (by decide))]
    exact hpk
  have h2 : extractSplitVKAt C E.keys session (session ++ ".pk.CommitmentKey.save") ph2 evals = (.ok (), some vk) := by
    unfold extractSplitVKAt
    rw [if_neg (session_ne _ (by decide))]
    exact hvk
  unfold inOrder
  rw [withFiles_run hfs hev h1]
  refine withFiles_run (fs := saveSplitPK session fs pk) ((splitPK_elsewhere _ _ _ _ ?_).trans hfs)
    ((splitPK_elsewhere _ _ _ _ ?_).trans hev) h2
  · simp only [List.map_cons, List.map_nil, List.mem_cons, List.not_mem_nil, or_false, not_or]
    exact ⟨session_ne _ (by decide), session_ne _ (by decide), session_ne _ (by decide), session_ne _ (by decide),
      session_ne _ (by decide), session_ne _ (by decide)⟩
  · simp only [List.map_cons, List.map_nil, List.mem_cons, List.not_mem_nil, or_false, not_or]
    exact ⟨evals_ne _ (by decide), evals_ne _ (by decide), evals_ne _ (by decide), evals_ne _ (by decide), evals_ne _ (by decide),
      evals_ne _ (by decide)⟩

/-- **C89**, `keys` with the phase 2 file named like one of the six files of the proving key, for all bytes: if these files can be extracted from
the first 4096 bytes, then they are written, one of them over the phase 2 file; the command fails if that one does not begin like a
phase 2 file. -/
theorem C89_split_pk_any (E : Env F G1) (hH : E.keys.header.Lawful) (d : Draws F) (fs : FS) (session path : String) {file : SplitPK → Bytes}
    (hf : splitOutput session path = some file) (ph2 evals : Bytes) (pk : SplitPK) (hfs : fs path = some ph2)
    (hev : fs "evals" = some evals) (hpk : extractSplitPK C E.keys (ph2.take 4096) evals = (.ok (), some pk))
    {e : Fail} {r : Rd} (hno : E.keys.header.dec.run (Rd.buffered 4096 (file pk)) = (.error e, r)) :
    execAny C E d "keys" [path, session] fs = (.error e, saveSplitPK session fs pk) ∧ saveSplitPK session fs pk path = some (file pk) := by
  have hself : saveSplitPK session fs pk path = some (file pk) := by
    have n := fun (a b : String) (h : a ≠ b) => session_ne session h
    unfold splitOutput at hf
    unfold saveSplitPK
    repeat' split at hf
    all_goals first | (simp at hf; done) | skip
    all_goals
      rename_i hp
      simp only [Option.some.injEq] at hf
      subst hf hp
    · rw [set_other _ _ (n _ _ (by decide)), set_other _ _ (n _ _ (by decide)), set_other _ _ (n _ _ (by decide)),
        set_other _ _ (n _ _ (by decide)), set_other _ _ (n _ _ (by decide)), set_self]
    · rw [set_other _ _ (n _ _ (by decide)), set_other _ _ (n _ _ (by decide)), set_other _ _ (n _ _ (by decide)),
        set_other _ _ (n _ _ (by decide)), set_self]
    · rw [set_other _ _ (n _ _ (by decide)), set_other _ _ (n _ _ (by decide)), set_other _ _ (n _ _ (by decide)), set_self]
    · rw [set_other _ _ (n _ _ (by decide)), set_other _ _ (n _ _ (by decide)), set_self]
    · rw [set_other _ _ (n _ _ (by decide)), set_self]
    · rw [set_self]
  refine ⟨?_, hself⟩
  show keysAny C E [path, session] fs = _
  unfold keysAny
  rw [if_neg (by simp)]
  simp only [arg, List.getD_cons_zero, List.getD_cons_succ]
  have h1 := C89_split_pk_bytes E.keys hH session path hf ph2 evals hpk (.inl rfl)
  unfold inOrder
  rw [withFiles_run hfs hev h1]
  have hev' : saveSplitPK session fs pk "evals" = some evals := by
    refine (splitPK_elsewhere _ _ _ _ ?_).trans hev
    simp only [List.map_cons, List.map_nil, List.mem_cons, List.not_mem_nil, or_false, not_or]
    exact ⟨evals_ne _ (by decide), evals_ne _ (by decide), evals_ne _ (by decide), evals_ne _ (by decide), evals_ne _ (by decide),
      evals_ne _ (by decide)⟩
  have hne : path ≠ session ++ ".vk.save" := by
    rintro rfl
    unfold splitOutput at hf
    rw [if_neg (session_ne _ (by decide)), if_neg (session_ne _ (by decide)), if_neg (session_ne _ (by decide)),
      if_neg (session_ne _ (by decide)), if_neg (session_ne _ (by decide)), if_neg (session_ne _ (by decide))] at hf
    simp at hf
  have h2 : extractSplitVKAt C E.keys session path (file pk) evals = (.error e, none) := by
    unfold extractSplitVKAt
    rw [if_neg hne]
    unfold extractSplitVK extract Header.read
    rw [hno]
  simp only [withFiles, openFile, hself, hev', h2]

/-! ### honest files -/

/-- what is in the first 4096 bytes of a file whose header and `[δ]` lie in them -/
theorem deltas_cut (hC : C.Lawful) {H : HeaderCodec} (hH : H.Lawful) (f : P2File G1 G2) (hf : f.WF)
    (hs : (H.enc f.header).length + C.c1.size + C.c2.size ≤ 4096) :
    ∃ r, H.dec.run (Rd.buffered 4096 ((f.encode C H).take 4096)) = (.ok f.header, r) ∧ f.DeltasIn C r.rest := by
  have hl1 := hC.codec1.bytes_length f.delta1
  have hl2 := hC.codec2.bytes_length f.delta2
  obtain ⟨m, hm⟩ : ∃ m, 4096 = (H.enc f.header).length + ((C.c1.bytes f.delta1).length + ((C.c2.bytes f.delta2).length + m)) :=
    ⟨4096 - ((H.enc f.header).length + C.c1.size + C.c2.size), by omega⟩
  have he : f.encode C H = H.enc f.header ++ (C.c1.bytes f.delta1 ++ (C.c2.bytes f.delta2 ++
      (f.z.flatMap C.c1.bytes ++ (f.pkk.flatMap C.c1.bytes ++ f.records.flatMap (record2Bytes C))))) := by
    unfold P2File.encode P2File.params
    simp only [List.append_assoc]
  have ht : (f.encode C H).take 4096 = H.enc f.header ++ (C.c1.bytes f.delta1 ++ (C.c2.bytes f.delta2 ++
      (f.z.flatMap C.c1.bytes ++ (f.pkk.flatMap C.c1.bytes ++ f.records.flatMap (record2Bytes C))).take m)) := by
    rw [he, hm, List.take_length_add_append, List.take_length_add_append, List.take_length_add_append]
  refine ⟨⟨4096, 0 + (H.enc f.header).length, C.c1.bytes f.delta1 ++ (C.c2.bytes f.delta2 ++
    (f.z.flatMap C.c1.bytes ++ (f.pkk.flatMap C.c1.bytes ++ f.records.flatMap (record2Bytes C))).take m)⟩, ?_, ?_⟩
  · rw [ht]
    exact hH.dec_enc f.header (P2File.header_inRange hC hH hf) 4096 0 _
  · exact ⟨_, _, _, rfl, decodes_bytes hC.codec1 _, decodes_bytes hC.codec2 _⟩

/-- **C89** is false for `key vk` with the file of a ceremony, of any size: the command succeeds and writes the keys of the ceremony, and
the phase 2 file is gone. (A header has about 200 bytes, `[δ]1` and `[δ]2` have 96.) -/
theorem C89_vk_honest (hC : C.Lawful) (E : Env F G1) (hH : E.keys.header.Lawful) (d : Draws F) (f : P2File G1 G2) (hf : f.WF)
    (hd : f.domain ≤ 2 ^ 28) (v : Evals G1 G2) (hw : f.wires < 2 ^ 32) (ha : v.a.length = f.wires) (hb1 : v.b1.length = f.wires)
    (hb2 : v.b2.length = f.wires) (hv : v.vkk.length < 2 ^ 32) (hc : v.ckk.length < 2 ^ 32) (ck : Bytes)
    (hck : E.keys.commitmentKey v.ckk = .ok ck) (hs : (E.keys.header.enc f.header).length + C.c1.size + C.c2.size ≤ 4096) (fs : FS)
    (hfs : fs "vk" = some (f.encode C E.keys.header)) (hev : fs "evals" = some (v.encode C)) :
    execAny C E d "key" ["vk"] fs = (.ok (), (fs.set "pk" ((provingKeyOf f v).encode C (E.keys.domain f.domain))).set "vk"
      ((verifyKeyOf C f v).encode C ck E.keys.noCommitment)) := by
  have hcount := hf.count
  have h1 := extractPK_starts hC E.keys hH f hf hd f.records.length (by omega) (by omega) v (by omega) (by omega) (by omega)
    (f.records.flatMap (record2Bytes C)) []
  have h2 := (extractVK_starts hC E.keys hH f hf f.records.length (by omega) (by omega) v hw ha hb1 hb2 hv hc ck hck
    (f.records.flatMap (record2Bytes C)) []).1
  rw [headerWith_self, List.append_nil, ← List.append_assoc] at h1 h2
  refine C89_vk_any E hH d fs _ _ _ _ hfs hev h1 ?_
  obtain ⟨h, r, hdec, f', v', ck', hf', hv', hck', e⟩ := (C83_vk hC E.keys _ _ _).mp h2
  have hr := hH.dec_enc f.header (P2File.header_inRange hC hH hf) 4096 0 (f.params C ++ f.records.flatMap (record2Bytes C))
  rw [← List.append_assoc] at hr
  unfold Rd.buffered at hdec
  rw [hr] at hdec
  simp only [Prod.mk.injEq, Except.ok.injEq] at hdec
  obtain ⟨rfl, rfl⟩ := hdec
  obtain ⟨r', hdec', hfr⟩ := deltas_cut hC hH f hf hs
  refine (C83_vk hC E.keys _ _ _).mpr ⟨_, r', hdec', f', v', ck', ?_, hv', hck', e⟩
  obtain ⟨d1, d2, t, e1, w1, w2⟩ := hf'
  obtain ⟨y1, y2, t', e2, u1, u2⟩ := hfr
  have hp : f.params C ++ f.records.flatMap (record2Bytes C) = C.c1.bytes f.delta1 ++ (C.c2.bytes f.delta2 ++
      (f.z.flatMap C.c1.bytes ++ (f.pkk.flatMap C.c1.bytes ++ f.records.flatMap (record2Bytes C)))) := by
    unfold P2File.params
    simp only [List.append_assoc]
  simp only at e1
  rw [hp] at e1
  obtain ⟨q1, -, q2⟩ := decodes_unique hC.codec1.size_pos e1 (decodes_bytes hC.codec1 _) w1
  obtain ⟨q3, -, -⟩ := decodes_unique hC.codec2.size_pos q2 (decodes_bytes hC.codec2 _) w2
  exact ⟨y1, y2, t', e2, q1 ▸ u1, q3 ▸ u2⟩

end

/-! ### concrete cases -/

namespace Toy

/-- the file of a ceremony under the name `path`, and the evaluations -/
def named (path : String) (ph2 : Bytes) : FS :=
  fun q => if q = path then some ph2 else if q = "evals" then some (evals5.encode curve) else none

theorem named_self (path : String) (ph2 : Bytes) : named path ph2 path = some ph2 := if_pos rfl

theorem named_evals (path : String) (ph2 : Bytes) (h : "evals" ≠ path) : named path ph2 "evals" = some (evals5.encode curve) := if_neg h

/-- the file of a ceremony with two contributions -/
def final : Bytes := p2final.encode curve Gob.headerCodec

theorem named_vk (d : Draws K) : execAny curve cliEnv d "key" ["vk"] (named "vk" final)
    = (.ok (), ((named "vk" final).set "pk" ((provingKeyOf p2final evals5).encode curve (beBytes 8 4))).set "vk"
      ((verifyKeyOf curve p2final evals5).encode curve [0] cliEnv.keys.noCommitment)) :=
  C89_vk_honest lawful cliEnv Gob.lawful d p2final p2final_wf (by decide +kernel) evals5 (by decide +kernel) (by decide +kernel)
    (by decide +kernel) (by decide +kernel) (by decide) (by decide) [0] rfl (by decide +kernel) _ rfl rfl

/-- the file of a ceremony with a domain of 256 points, more than 8000 bytes -/
def p2big : P2File K K := { p2 with domain := 256, z := (List.range 255).map fun i => (i : K) }

end Toy

/-- **C89** is false: `key` can succeed although the phase 2 file, the only copy of the ceremony's result, is gone. -/
theorem C89_false : ¬ ∀ (d : Draws Toy.K) (fs fs' : FS) (path : String),
    execAny Toy.curve Toy.cliEnv d "key" [path] fs = (.ok (), fs') → fs' path = fs path := by
  intro h
  have := h Toy.draws _ _ "vk" (Toy.named_vk Toy.draws)
  rw [set_self] at this
  have hn : Toy.named "vk" Toy.final "vk" = some Toy.final := rfl
  rw [hn, Option.some.injEq] at this
  have hl := congrArg List.length this
  revert hl
  decide +kernel

-- a file with another name stays
example : (execAny Toy.curve Toy.cliEnv Toy.draws "key" ["final.ph2"] (Toy.named "final.ph2" Toy.final)).2 "final.ph2" = some Toy.final :=
  C89_kept_partial Toy.cliEnv Toy.draws "key" (.inl rfl) "final.ph2" [] _ (by decide)
example : (execAny Toy.curve Toy.cliEnv Toy.draws "keys" ["final.ph2", "s"] (Toy.named "final.ph2" Toy.final)).2 "final.ph2"
    = some Toy.final :=
  C89_kept_partial Toy.cliEnv Toy.draws "keys" (.inr rfl) "final.ph2" ["s"] _ (by decide)

-- `key pk`: the phase 2 file becomes a proving key, and the command fails
example : ∃ e pk, execAny Toy.curve Toy.cliEnv Toy.draws "key" ["pk"] (Toy.named "pk" Toy.final)
    = (.error e, (Toy.named "pk" Toy.final).set "pk" pk) ∧ pk = (provingKeyOf Toy.p2final Toy.evals5).encode Toy.curve (beBytes 8 4) := by
  have h1 : extractPK Toy.curve Toy.cliEnv.keys (Toy.final.take 4096) (Toy.evals5.encode Toy.curve)
      = (.ok (), some ((provingKeyOf Toy.p2final Toy.evals5).encode Toy.curve (beBytes 8 4))) := by decide +kernel
  have h2 : ∃ e r, Toy.cliEnv.keys.header.dec.run (Rd.buffered 4096 ((provingKeyOf Toy.p2final Toy.evals5).encode Toy.curve (beBytes 8 4)))
      = (.error e, r) := by
    cases hr : Toy.cliEnv.keys.header.dec.run (Rd.buffered 4096 ((provingKeyOf Toy.p2final Toy.evals5).encode Toy.curve (beBytes 8 4))) with
    | mk x r =>
      cases x with
      | error e => exact ⟨e, r, rfl⟩
      | ok h =>
        have : (Toy.cliEnv.keys.header.dec.run (Rd.buffered 4096 ((provingKeyOf Toy.p2final Toy.evals5).encode Toy.curve (beBytes 8 4)))).1.toOption
          = none := by decide +kernel
        rw [hr] at this
        simp [Except.toOption] at this
  obtain ⟨e, r, h2⟩ := h2
  exact ⟨e, _, C89_pk_any Toy.cliEnv Gob.lawful Toy.draws _ _ _ _ (Toy.named_self _ _) (Toy.named_evals _ _ (by decide)) h1 h2, rfl⟩

-- `key pk` with a file of more than 4096 bytes: it is replaced by the beginning of a proving key, and the command fails
example : ∃ e out, execAny Toy.curve Toy.cliEnv Toy.draws "key" ["pk"] (Toy.named "pk" (Toy.p2big.encode Toy.curve Gob.headerCodec))
    = (.error e, (Toy.named "pk" (Toy.p2big.encode Toy.curve Gob.headerCodec)).set "pk" out) ∧ out.length ≤ 4096 := by
  have h : (match extractPK Toy.curve Toy.keyEnv ((Toy.p2big.encode Toy.curve Gob.headerCodec).take 4096) (Toy.evals5.encode Toy.curve) with
      | (.error _, some out) => decide (out.length ≤ 4096)
      | _ => false) = true := by decide +kernel
  cases hx : extractPK Toy.curve Toy.keyEnv ((Toy.p2big.encode Toy.curve Gob.headerCodec).take 4096) (Toy.evals5.encode Toy.curve) with
  | mk x o =>
    rw [hx] at h
    cases x with
    | ok _ => simp at h
    | error e =>
      cases o with
      | none => simp at h
      | some out =>
        simp only [decide_eq_true_eq] at h
        exact ⟨e, out, C89_pk_short Toy.cliEnv Gob.lawful Toy.draws _ _ _ _ (Toy.named_self _ _) (Toy.named_evals _ _ (by decide)) hx h, h⟩

-- the split keys
example : ∃ pk vk, execAny Toy.curve Toy.cliEnv Toy.draws "keys" ["s" ++ ".vk.save", "s"] (Toy.named ("s" ++ ".vk.save") Toy.final)
    = (.ok (), saveSplitVK "s" (saveSplitPK "s" (Toy.named ("s" ++ ".vk.save") Toy.final) pk) vk) := by
  have h1 : (extractSplitPK Toy.curve Toy.keyEnv Toy.final (Toy.evals5.encode Toy.curve)).1 = .ok () := by decide +kernel
  have h2 : (extractSplitVK Toy.curve Toy.keyEnv (Toy.final.take 4096) (Toy.evals5.encode Toy.curve)).1 = .ok () := by decide +kernel
  obtain ⟨pk, h1⟩ := extract_some _ _ _ _ _ h1
  obtain ⟨vk, h2⟩ := extract_some _ _ _ _ _ h2
  exact ⟨pk, vk, C89_split_vk_any Toy.cliEnv Gob.lawful Toy.draws _ "s" _ _ pk vk rfl rfl h1 h2⟩
example : ∃ pk vk, execAny Toy.curve Toy.cliEnv Toy.draws "keys" ["s" ++ ".pk.CommitmentKey.save", "s"]
    (Toy.named ("s" ++ ".pk.CommitmentKey.save") Toy.final)
    = (.ok (), saveSplitVK "s" (saveSplitPK "s" (Toy.named ("s" ++ ".pk.CommitmentKey.save") Toy.final) pk) vk) := by
  have h1 : (extractSplitPK Toy.curve Toy.keyEnv Toy.final (Toy.evals5.encode Toy.curve)).1 = .ok () := by decide +kernel
  have h2 : (extractSplitVK Toy.curve Toy.keyEnv Toy.final (Toy.evals5.encode Toy.curve)).1 = .ok () := by decide +kernel
  obtain ⟨pk, h1⟩ := extract_some _ _ _ _ _ h1
  obtain ⟨vk, h2⟩ := extract_some _ _ _ _ _ h2
  exact ⟨pk, vk, C89_commitment_any Toy.cliEnv Toy.draws _ "s" _ _ pk vk rfl rfl h1 h2⟩
example : ∃ e pk, execAny Toy.curve Toy.cliEnv Toy.draws "keys" ["s" ++ ".pk.Z.save", "s"] (Toy.named ("s" ++ ".pk.Z.save") Toy.final)
    = (.error e, saveSplitPK "s" (Toy.named ("s" ++ ".pk.Z.save") Toy.final) pk) := by
  have h1 : (extractSplitPK Toy.curve Toy.keyEnv (Toy.final.take 4096) (Toy.evals5.encode Toy.curve)).1 = .ok () := by decide +kernel
  have h3 : ((extractSplitPK Toy.curve Toy.keyEnv (Toy.final.take 4096) (Toy.evals5.encode Toy.curve)).2.bind fun o =>
    (Toy.cliEnv.keys.header.dec.run (Rd.buffered 4096 o.z)).1.toOption) = none := by decide +kernel
  obtain ⟨pk, h1⟩ := extract_some _ _ _ _ _ h1
  have h1' : extractSplitPK Toy.curve Toy.keyEnv (Toy.final.take 4096) (Toy.evals5.encode Toy.curve) = (.ok (), some pk) := h1
  rw [h1'] at h3
  cases hr : Toy.cliEnv.keys.header.dec.run (Rd.buffered 4096 pk.z) with
  | mk x r =>
    cases x with
    | ok h =>
      simp only [Option.bind_some, hr] at h3
      simp [Except.toOption] at h3
    | error e =>
      exact ⟨e, pk, (C89_split_pk_any Toy.cliEnv Gob.lawful Toy.draws _ "s" _ (file := SplitPK.z) rfl _ _ pk rfl rfl h1 hr).1⟩

/-! ### reading the emptied file -/

/-- **C89**, reading goes through the file once: two reads in a row deliver what one read of both delivers, whatever has been loaded and
whatever has been passed on to the file. -/
theorem C89_reads {O α β : Type} (written : O → Bytes) {x : Go Rd α} {f : α → Go Rd β} (hx : OnlyReads x) (hf : ∀ a, OnlyReads (f a))
    (s : AliasSt O) : (AliasSt.onPh2 written (x >>= f)).run s = (AliasSt.onPh2 written x >>= fun a => AliasSt.onPh2 written (f a)).run s := by
  obtain ⟨r, k, hk, h1, -⟩ := hx (s.buf ++ (passedOn (written s.out)).drop s.off)
  have e1 := h1 4096 0
  rw [Nat.zero_add] at e1
  generalize hR : (passedOn (written s.out)).drop s.off = rest at *
  have hx1 : (AliasSt.onPh2 written x).run s = (r, { s with
      buf := (s.buf ++ rest.take (loaded (k - s.buf.length) rest.length)).drop k
      off := s.off + loaded (k - s.buf.length) rest.length }) := by
    simp only [AliasSt.onPh2, hR, Rd.buffered, e1]
  cases r with
  | error e =>
    rw [Go.bind_error hx1]
    simp only [AliasSt.onPh2, hR, Rd.buffered, Go.bind_error e1]
  | ok a =>
    rw [Go.bind_ok hx1]
    have hl : k ≤ s.buf.length + loaded (k - s.buf.length) rest.length := by
      rw [List.length_append] at hk
      unfold loaded
      omega
    have hd : (s.buf ++ rest.take (loaded (k - s.buf.length) rest.length)).drop k ++ rest.drop (loaded (k - s.buf.length) rest.length) =
        (s.buf ++ rest).drop k := by
      rw [← List.drop_append_of_le_length (by
        simp only [List.length_append, List.length_take]
        unfold loaded at hl ⊢
        omega), List.append_assoc, List.take_append_drop]
    obtain ⟨r', k', hk', h2, -⟩ := hf a ((s.buf ++ rest).drop k)
    have hR' : (passedOn (written s.out)).drop (s.off + loaded (k - s.buf.length) rest.length) =
        rest.drop (loaded (k - s.buf.length) rest.length) := by rw [← hR, List.drop_drop]
    have e2 := h2 4096 0
    have e3 := h2 4096 k
    rw [Nat.zero_add] at e2
    have hlen : ((s.buf ++ rest.take (loaded (k - s.buf.length) rest.length)).drop k).length =
        s.buf.length + loaded (k - s.buf.length) rest.length - k := by
      simp only [List.length_drop, List.length_append, List.length_take]
      unfold loaded
      omega
    simp only [AliasSt.onPh2, hR, hR', Rd.buffered, Go.bind_ok e1, e3, hd, e2, hlen, List.length_drop]
    have hn : loaded (k - s.buf.length) rest.length + loaded (k' - (s.buf.length + loaded (k - s.buf.length) rest.length - k))
        (rest.length - loaded (k - s.buf.length) rest.length) = loaded (k + k' - s.buf.length) rest.length := by
      rw [List.length_drop, List.length_append] at hk'
      rw [List.length_append] at hk
      unfold loaded
      omega
    have hRl : (passedOn (written s.out)).length - s.off = rest.length := by rw [← hR, List.length_drop]
    rw [Nat.sub_add_eq, hRl, Nat.add_assoc, hn]
    congr 2
    rw [← hn, ← List.drop_drop, List.take_add, ← List.append_assoc, List.drop_append_of_le_length (by
        simp only [List.length_append, List.length_take]
        unfold loaded at hl ⊢
        omega)]

/-- **C89**, what can be read after the file has been emptied: the rest of the first 4096 bytes of the old file, then the new contents from
position 4096 on, as far as the writer has passed them on. For any file, any header and anything written. -/
theorem C89_window (H : HeaderCodec) (ph2 evals w : Bytes) (m : Nat) (header : Header) (rd : Rd)
    (hh : (Header.read H).run (Rd.buffered 4096 ph2) = (.ok header, rd)) (hk : ph2.length - rd.rest.length ≤ 4096)
    (hk0 : rd.rest.length < ph2.length) (hl : 4096 ≤ ph2.length)
    (hm : m ≤ ((ph2.take 4096).drop (ph2.length - rd.rest.length) ++ (passedOn w).drop 4096).length) :
    extractAlias H ph2 evals [] (fun _ => do
      (aliasOps id evals).write fun _ => w
      let b ← (aliasOps id evals).onPh2 (Rd.readFull m)
      (aliasOps id evals).write fun _ => b) =
    (.ok (), some (((ph2.take 4096).drop (ph2.length - rd.rest.length) ++ (passedOn w).drop 4096).take m)) := by
  have hn : loaded (ph2.length - rd.rest.length) ph2.length = 4096 := by
    unfold loaded
    omega
  have e : (Rd.readFull m).run ⟨4096, 0, (ph2.take 4096).drop (ph2.length - rd.rest.length) ++ (passedOn w).drop 4096⟩ =
      (.ok (((ph2.take 4096).drop (ph2.length - rd.rest.length) ++ (passedOn w).drop 4096).take m),
        Rd.adv ⟨4096, 0, (ph2.take 4096).drop (ph2.length - rd.rest.length) ++ (passedOn w).drop 4096⟩ m) := by
    show (if _ then _ else _) = _
    exact if_pos hm
  have hread : ∃ t, (AliasSt.onPh2 id (Rd.readFull m)).run
      ⟨(ph2.take 4096).drop (ph2.length - rd.rest.length), 4096, Rd.buffered 4096 evals, w⟩ =
      (.ok (((ph2.take 4096).drop (ph2.length - rd.rest.length) ++ (passedOn w).drop 4096).take m), t) := by
    have e' := congrArg Prod.fst e
    exact ⟨_, Prod.ext (show ((Rd.readFull m).run ⟨4096, 0, (ph2.take 4096).drop (ph2.length - rd.rest.length) ++
      (passedOn w).drop 4096⟩).1 = _ from e') rfl⟩
  obtain ⟨t, ht⟩ := hread
  have hb : (do
      (aliasOps id evals).write fun _ => w
      let b ← (aliasOps id evals).onPh2 (Rd.readFull m)
      (aliasOps id evals).write fun _ => b : Go (AliasSt Bytes) Unit).run
        ⟨(ph2.take 4096).drop (ph2.length - rd.rest.length), 4096, Rd.buffered 4096 evals, []⟩ =
      (.ok (), { t with out := ((ph2.take 4096).drop (ph2.length - rd.rest.length) ++ (passedOn w).drop 4096).take m }) := by
    rw [Go.bind_ok (show ((aliasOps id evals).write fun _ => w).run _ = (.ok (), _) from rfl),
      Go.bind_ok (show ((aliasOps id evals).onPh2 (Rd.readFull m)).run _ = _ from ht)]
    rfl
  have hx : ∀ body : Header → Go (AliasSt Bytes) Unit, extractAlias H ph2 evals [] body =
      (((body header).run ⟨(ph2.take 4096).drop (ph2.length - rd.rest.length), 4096, Rd.buffered 4096 evals, []⟩).1,
        some ((body header).run ⟨(ph2.take 4096).drop (ph2.length - rd.rest.length), 4096, Rd.buffered 4096 evals, []⟩).2.out) := by
    intro body
    unfold extractAlias
    rw [hh]
    simp only [hn]
  rw [hx, hb]

-- a file of more than 4096 bytes; 8192 of the 9000 bytes written have been passed on
example (ys w : Bytes) (hy : ys.length = 5000) (hw : w.length = 9000) (m : Nat) (hm : m ≤ 4096) :
    extractAlias Gob.headerCodec (Gob.headerCodec.enc Toy.p2big.header ++ ys) [] [] (fun _ => do
      (aliasOps id []).write fun _ => w
      let b ← (aliasOps id []).onPh2 (Rd.readFull m)
      (aliasOps id []).write fun _ => b) =
    (.ok (), some ((((Gob.headerCodec.enc Toy.p2big.header ++ ys).take 4096).drop (Gob.headerCodec.enc Toy.p2big.header).length ++
      (w.take 8192).drop 4096).take m)) := by
  have hl : (Gob.headerCodec.enc Toy.p2big.header).length ≤ 1000 := by decide +kernel
  have hl0 : 0 < (Gob.headerCodec.enc Toy.p2big.header).length := by decide +kernel
  have hd := Gob.lawful.dec_enc Toy.p2big.header ⟨by decide, by decide, by decide, by decide, by decide, by decide, by decide⟩ 4096 0 ys
  generalize Gob.headerCodec.enc Toy.p2big.header = hdr at *
  have hp : passedOn w = w.take 8192 := by rw [passedOn, hw]
  have hk : (hdr ++ ys).length - ys.length = hdr.length := by rw [List.length_append]; omega
  have h := C89_window Gob.headerCodec (hdr ++ ys) [] w m _ _ hd
    (by simp only [List.length_append]; omega) (by simp only [List.length_append]; omega) (by simp only [List.length_append]; omega)
    (by rw [hp]; simp only [List.length_append, List.length_drop, List.length_take]; omega)
  rw [h, hp]
  simp only [hk]

end ZkSetup
