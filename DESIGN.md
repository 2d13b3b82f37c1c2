# Formal model of bnb-chain/zkbnb-setup in Lean 4

The model is in `lean/Verif`. The properties are in `properties.jsonl` (C01 ...); which theorem settles which property is in
`MANIFEST.json`. `/repo` is never built or run: the only tie between model and code is the reading of the source, so every
definition cites the lines it models.

## 1. Layers

| layer | files | content |
|---|---|---|
| `Verif/Base` | `Go`, `Stream`, `Curve`, `Conc`, `Toy` | Go control flow (ok / error / panic, with state surviving failure), byte streams with `bufio` semantics, the contract of the curve library, interleavings, a small concrete instance |
| `Verif/Model` | `Common`, `Lagrange`, `Phase1`, `Phase2`, `Phase2Init`, `Gob`, `Keys`, `Cli`, `Disk`, `DiskKeys`, `DiskInit`, `Console`, `ConsoleCli`, `Alias` | the code, function by function |
| `Verif/Spec` | small, proof-free | file formats, power sequences, DFT / Lagrange basis, QAP, Groth16 equations, command-line sessions, how printed hashes are read - written without the model's helpers |
| `Verif/Proofs` | helper lemmas | |
| `Verif/Props` | property theorems `Cnn_...` and their non-vacuity examples | |

How a property is normally proved: (1) a refinement theorem shows that the byte-level program of the model, run on the encoding of
a structured file (`P1File`, `P2File`, `Evals`, `Response`) followed by arbitrary bytes, equals the encoding of a structured
operation; (2) the property is proved about the structured operations by algebra and induction over histories. Soundness properties
(`Verify` accepts ⇒ ...) are proved for arbitrary bytes or for files with arbitrary points.

## 2. Modelling decisions

* **Points and scalars.** `F` is any field, `G1`, `G2`, `GT` are `F`-modules, with generators `g1`, `g2`
  spanning `G1`, `G2` and a bilinear `e` with `e g1 g2 ≠ 0` (`Curve.Lawful`). BN254's three groups of prime
  order r over F = Z/r are one instance; theorems quantify over all instances. Counting theorems
  (probability bounds) additionally assume `F` finite. A toy instance over `ZMod 17` is constructed in
  `Verif/Base/Toy.lean` to show that all hypotheses are satisfiable. `p.X.IsZero()` and `IsInfinity()` are `p = 0`.
* **Point encodings.** `Codec`: a compressed size (32 / 64), the "is compressed" flag of the first byte,
  `setBytes`, `bytes` (compressed) and `rawBytes` (uncompressed), with the round-trip laws in `Codec.Lawful`.
  The decoder reads `size` bytes, and `size` more if the flag says uncompressed, like gnark-crypto's `Decoder`.
* **Hashes.** `sha` and `hashG2` are arbitrary functions (`sha` returns 32 bytes). Binding theorems are stated
  for the concrete hash inputs occurring in the two histories, never as "∃ collision".
* **Randomness** (`SetRandom`) is an explicit argument: theorems quantify over it, or count it.
* **bufio.** `Rd` tracks the number of consumed bytes, so that `reader.Read(p)` returns at most the bytes left
  in the current buffer block (short reads) while `io.ReadFull` does not. Writers are append-only byte lists, except in
  `Model/Disk`, where the file has limited room and the writes go through a modelled `bufio.Writer` piece by piece, `Model/DiskKeys` (each key file with its own room) and `Model/DiskInit` (`p2n`, `p2np`; room for the phase 2 file, `srs.lag` and `evals`).
* **Batches.** The batch size (1048576 in the code) is a parameter `b`; theorems hold for all `b ≥ 1` (or `≥ 2` where the
  first batch must contain two points, as in the code).
* **int arithmetic.** `int(math.Pow(2, p))` is modelled for 64-bit amd64 (`2^63` overflows to `MinInt64`); slice lengths
  (`make`) panic when negative (memory is unlimited: the panic or abort of Go on huge positive lengths is not modelled); positions passed to `Seek` wrap at 64 bits in `Transform` and in key extraction; elsewhere they are unbounded integers (in the code one of them becomes negative or exceeds 2^62 from power 56 on, so that the seek or the read fails; in the model the read fails, since a file with such a section has more than 2^62 bytes; C84_positions, C84_long, C85_positions, C85_long).
* **Goroutines.** `Conc`: programs built from atomic steps, `seq` and `par`; the semantics of `par` is the set of
  all interleavings. An atomic step is one loop body on its own array elements. `Par` abstracts CPU count and schedule.
* **MultiExp.** gnark-crypto documents that `MultiExp` returns an error if the slices differ in length; the receiver
  is then not assigned. phase 1 ignores that error. The model is parametrised by the policy (`strict` as documented,
  or `truncate`), and results are stated for each.
* **gob.** The phase 2 header's encoding is modelled concretely (`Model/Gob`): type message with type id 65 (the first
  user-defined type of a process), value message, zero fields omitted. The other theorems only use `HeaderCodec.Lawful`.
* **FFT domain.** `fft.NewDomain` is an argument with the law that its generator is a primitive root of unity (`Domain.Lawful`).
* **R1CS.** A list of constraints with coefficient table and commitment info; gnark's reader is trusted (`Env`).
* **Files.** `Cli.FS` maps paths to contents. `os.Create` truncates, also when the path equals an open input.
* **Standard output** (`Model/Console`, `Model/ConsoleCli`): one list entry per line, for all commands;
  writing to it does not fail.

## 3. Properties

For each: what is modelled and how it is proved, or what is false and refuted.

| | property | proof |
|---|---|---|
| C01 | parallel split | `parallelRanges` as in `common/parallelize.go`; arithmetic of the loop, induction over tasks |
| C02 | schedule independence | `Conc` programs of the loops; commutation of steps with disjoint footprints, for every interleaving |
| C03 | bit reversal | `BitVec` reversal, invariant of the swap loop |
| C04 | concurrent bit reversal | disjointness of the workers' swaps, then as C02 |
| C05 | p1n file | refinement to `P1File.init` |
| C06 | counter | true up to 65535; `uint16` wraps at 65536: refuted |
| C07 | record round trip | codec laws; condition that the hash does not straddle the buffer is explicit |
| C08, C09 | scaling, ceremony | loop invariant over batches; induction over contributors |
| C10 | history preserved | refinement of `Contribute` to `P1File.contribute` |
| C11, C12 | honest files accepted | bilinearity along the history; `C11_truncate_rejects` shows that the result depends on the ignored error |
| C13 | chain of updates | induction over accepted records; refuted for the G2 part when the proof's S is the identity |
| C14 | parameters are powers | false: checks are vacuous (F1). Counting theorem per batch under the truncating policy |
| C15 | no contributions | rejected unless betaG2 is the identity; the all-identity file is accepted |
| C16, C35 | hash binds history | backwards induction from the last hash, no collisions among the occurring inputs; refuted for degenerate keys |
| C17, C47, C54 | truncated files | position analysis of every read; refuted for hashes that end in zero bytes |
| C18 | p1t | refinement to `Response.prefix`, for powers up to 54 (a larger response has more than 2^63 bytes); from original power 58 on the positions overflow to 0 (`C18_overflow`) |
| C19 | p1n argument | `strconv.Atoi` modelled; negative powers accepted: refuted |
| C20 | offsets agree | corollary of the refinement theorems |
| C21 | domain size | loop invariant; power check |
| C22, C23 | Lagrange | the in-place DIF FFT with unrolled kernel equals the inverse DFT (induction on log n); Lagrange basis from Mathlib |
| C24-C26 | evaluations, Z, VKK/PKK | sums over constraints, `IsDomain` interpolation |
| C27 | commitments | `filterL` panics for private commitments: refuted; proved for the remaining case |
| C28 | header | concrete gob encoder and decoder; the bytes are those of a separate description of the format after the `encoding/gob` documentation |
| C29-C31, C43 | phase 2 contributions and acceptance | as phase 1 where no hash straddles the 4096-byte buffer; exact criterion by the position of the records modulo 64; refuted otherwise |
| C32, C33, C36 | phase 2 soundness | as C13; counting of accepting random coefficients; negative count accepted |
| C34 | undecodable parameters | false (F7): refuted; headers, deltas, records and missing parameters are rejected |
| C37, C38, C40 | keys | composition of initialisation, ceremony and extraction with the Groth16 key specification |
| C39 | split keys | equality of parsed key material, of the programs and of the files after `key` and `keys`; refuted for domains over 2^28 |
| C41 | completeness | Groth16 equation; also rejection of violating assignments for generic trapdoors |
| C42 | one honest contributor | bijectivity of the final secret in the honest one; refuted with a zero secret after it |
| C44, C51 | parted initialisation | equality of programs and of the files after `p2n` and `p2np`; too small count drops constraints: refuted |
| C45, C46, C52, C53 | command line | `exec` on a file system; frame theorem; whole sessions (`p2n` or `p2np`, `key` or `keys`, `sol`) by induction over the relay; same path and foreign `evals`: refuted |
| C48, C55 | full disk | `Model/Disk`: exact condition under which success is reported; refuted: the last flush and last record are unchecked. `Model/DiskKeys`: the write calls of key extraction; they simulate `Model/Keys`, a reported file lacks at most the 4096 bytes of the buffer; refuted: an empty verifying key is reported as extracted. `Model/DiskInit`: the write calls of phase 2 initialisation; `Steps` relates each to `Model/Phase2Init` in both directions, which gives the exact condition; `srs.lag` is read again, and an incomplete one cannot be read; refuted: the phase 2 file and `evals` may lack the last buffer of each section. `Props/DiskRoom`: with enough room the same result and files as without a disk, failures included |
| C56 | honest contribution to any accepted file | exact condition (phase 1: section starts equal the last record; phase 2: Z and PKK decode); refuted by a poisoned file that verifies but ruins all later contributions |
| C57 | no crash on any input bytes | "panics" is a separate outcome of the model; for each procedure the exact condition or all causes: powers ≥ 63 and power 0 (phase 1), header counts out of range (phase 2, keys), a missing verifying key (`sol`), unsupported circuits (`p2n`, `p2np`); refuted by `p1n 0 f; p1c f g`; `p2n` exactly: no step returns an error on a well-formed phase 1 file (`Returns`), and a success reads every wire and coefficient (`init_ok_terms`) |
| C58 | printed hashes and numbers | `Model/Console`: the programs with their `fmt` calls; erasing the calls gives the programs of the other theorems; which lines each step can print |
| C59 | attested hashes | C58 with the chain of C13, C32; backwards induction as C16 for histories of any lengths; refuted for the parameters of phase 1 |
| C60 | key describes the commitment | the key ends with the description of "no commitment" for all inputs, by the exact form of successful extractions; refuted for every circuit with a commitment |
| C61 | incomplete inputs are refused | exact: among the strict prefixes of a well-formed file only those ending inside the last hash are accepted as input (by counting the bytes successful reads take, and by what reading a cut record returns); phase 1 also a length bound for arbitrary bytes; refuted for these prefixes, with the output never accepted |
| C62 | keys from accepted files are protected by every contributor | refuted: an outsider can exchange the parameters of any accepted phase 1 file for their own `τ`, `α` (same records, `[β]` kept), all later steps succeed and are complete, and an explicit forger that uses only `τ`, `α` and the verifying key (`Spec/Forge`) makes a proof for every public input. Partial: with an honest phase 1 file, an accepted phase 2 file gives the keys of the trapdoor with the `δ` proved in the records, or the verifier's draws were lucky (C32, C33, C37, C38, C41) |
| C63 | success lines and circuit figures | `Model/ConsoleCli`: every command with the lines it prints; erasing them gives `Model/Cli`. Each program prints its success line last and no other line equals it; the header is the beginning of the phase 2 file whatever follows. Refuted for `p1t` (no success line) by two files with the same output |
| C64 | formats of the files written | inversion of the programs: from a successful run on arbitrary bytes the points read are collected into a structured file, on which the run is shown to be the same; sizes from Format.md in `Spec/Format`. Refuted: phase 1 counter at 65535, `p1t` to powers from 63 on, negative phase 2 counter, size of `srs.lag` |
| C65 | order of contributors | a ceremony multiplies each point by a product of secrets; products do not depend on the order. Phase 1 for all bytes by the inversion of C64 |
| C66 | the file a ceremony started from | the scalar proved in a nondegenerate first record is unique and cancels, so both origins have the same point; other points of phase 2 by C33. Refuted for phase 1: only five points of the transformed file are read. Degenerate first records: files accepted against every origin are constructed by C77 and C78 (`Props/Universal.lean`) |
| C67 | records and circuits | refuted: linear combinations commute with the division by δ, so the moved file is an update of the other initial file (`UpdateOf`); merging wires adds their QAP polynomials. Proved: equal records force equal `[δ]1`, `[δ]2` |
| C68 | power of the phase 1 file | what initialisation computes (C24–C26) mentions only the first points of each section; `p1t` writes prefixes (C18) |
| C69 | zero knowledge | the first two points of a valid proof determine the third, and each is a bijective image of one random scalar if δ ≠ 0 |
| C70 | rejected verifications | exact lines printed by the loops over the records, by induction up to the first record for which `verifyContribution` fails (C12, C32) |
| C71 | failed extractions | what a failing run leaves, by the rule of each step (`FailsWith`): `pk` is a proper prefix of what the layout demands, so no key has these bytes; `vk` is written by one step after all reads; induction over the commands with the frame of C45 |
| C72 | encodings | a relation between files and bytes: each point in one of its two encodings (`Encodes`, `P1File.Written`, `P2File.Written`); two readers standing before the same points and hashes are related through every step and loop (`Sim`, `SimIO`, `Sim2`, `SimKey`); acceptance in phase 2 by comparison with a header padded so that no hash straddles; the negations by evaluation of concrete files |
| C73 | repetition | every loop is independent of the machine (`Par.mapIdx_eq'`), also the FFT for every length (`difFFT_machine`, `convert_machine`); the loops of all programs by induction; left-overs: `processHeader` touches neither `srs.lag` nor `evals`, `processLagrange` and `processEvaluations` start by creating them (`Repeat.forget`); the files read by a command in `Spec/Repeat.lean`; keys by the reads of the extraction |
| C74 | invocation | arity and numeric arguments in `Spec/Invocation.lean`, files read in `Spec/Repeat.lean`; by cases on the command, each command stops before its first write |
| C75 | soundness of the keys | `Spec/Soundness.lean`: `Prover` (coefficients of the three points of a proof over the points of the phase 1 file and of the keys), `Prover.assignment`. `Proofs/Soundness.lean`: the verification equation times δ as a polynomial in τ, α, β, δ; its coefficients in δ, β, α give a solution of the QAP; its degree and the Schwartz–Zippel lemma of Mathlib give the bound. Not in the class of provers: coefficients that depend on the secrets, and the points in the records |
| C76 | keys from accepted bytes | `HoldsParams` (Spec/Accepted) says what parameters arbitrary bytes begin with. `extractKeys_params`: success of the extraction implies it. `verify2_params` decomposes acceptance of such bytes; `extractKeys_by_params` shows that extraction depends on the header up to the counter and on the decoded parameters only, so it equals the extraction from the canonical file (`extractKeys_trapdoor`). |
| C77 | what p2v accepts | `AcceptedWith` (Spec/AnyVerify) says it without the program: `Compared` for a section, `RecordFrom` for a record with its hash cut at the buffer end. `verifyParameter_iff` by strong induction over the batches, also where decoding stops; `verifyLoop2_exact` for the records. |
| C78 | arbitrary phase 1 bytes | `HoldsFile`: what `Verify` reads in any bytes, as readers section by section and record over record (`RecordOver`: an unreadable record keeps the values of the one before; `Spoils`: a failed decode may also leave coordinates behind that are no point, and such bytes are never accepted). The loops of `linearCombination` are shown to read the same points for any reader (`linearCombination_iff`), the record reader is decomposed into its 14 points; then as C13/C15. |
| C79 | ceremonies of any length | blocks of 65536 contributions (`wrap_step`) by induction on their number; acceptance of the rest by C66 (two accepted origins agree) and C12 |
| C80 | what p1c and p2c accept, for any bytes | `Begins` describes the bytes without readers; equivalence with the readers item by item, then the contribution to the file read |
| C81 | contributing to a file cut short | false (F32): up to 31 missing bytes are not noticed, and the contribution is lost; exact characterisation from C80 (`begins_cut`: items of the same kinds read in a prefix) |
| C82 | p1t on any bytes | `Spec/AnyTransform`: `Listed` (bytes begin with accepted encodings), `sectionStarts`, `StandsIn`; the decoding loop is inverted (`transformLoop_iff`); truncation: the last point begins with the flag of an uncompressed encoding; leftovers via C81 |
| C83 | key/keys on any bytes | `Spec/AnyKeys`: `Spans`, `SliceSpans`, `ParamsIn`, `ProvingIn`, `VerifyingIn`; the reads are inverted (`readPk_iff`, `readVKParts_iff` over `decodeN_iff`, `decodeSlice_iff`); truncation by uniqueness of what is read (`spans_unique`) |
| C84 | phase 1 bytes of an initialisation | `Supplies` says which points stand where; inputs supplying the same points give the same run (`init_same`), a success supplies points (`init_supplies`), and the file made of these points is handled by C26; truncation, power 0 and large powers are corollaries |
| C85 | bytes of the transformed file | `GivesOrigin` says which five points stand where; `defaultContribution_iff` shows that these are read; with C78_exact this is the exact condition for `p1vt`; truncation, power 0 and large powers are corollaries |
| C86 | forks | the records with the two hashes are the contributors' records, so their proofs answer the same challenge; in a chain the challenge is the hash before, which determines all records before (`chain_binding_any`), hence the place and the record; negation by a contribution with secrets 0, whose proof answers every challenge |
| C87 | any circuit | `filterL_exact`: the loop of `filterL` for any description — while private committed wires are expected, a mismatch makes the index run out of range (`filterLoop_missed`), afterwards the two slices are filled by a condition on the wire number (`filterLoop_tail`), so success is a question of counting (`count_wires`); the rest is C84 and the part of C57 saying that no error is returned |
| C88 | any bytes cut short | `begins_prefix_hash`: by induction over what is read, a prefix yields items of the same kinds exactly if it contains a byte of the last hash; points in the prefix are the points in the whole (`decodes_prefix`). With C80 this gives `p1c` and `p2c`. For `p2v`, a read is the same on a cut input or fails with nothing left (`CutsWell`), so the place of the records is the same or there are no records (`place_cut`); with C77 |
| C89 | phase 2 file = output | `Model/Alias.lean`: the bodies of the extraction with reading and writing as a parameter (equal to those of `Model/Keys.lean` by `rfl`); when the file is also written, the reader has loaded a whole number of blocks and goes on in what the writer has passed on. `Follows`: a simulation of the extraction from the first 4096 bytes, preserved by `bind`, so that it holds for the four bodies |
| C90 | documentation | two tables of commands and numbers of arguments, from the usage texts and from the README (`Spec/Usage.lean`), compared with `exec`, command by command |
| C91 | names of the files of `p2n`, `p2np` | `Model/AliasInit.lean`: the stages of the initialisation with the file operations as a parameter (equal to those of `Model/Phase2Init.lean`: `initOn_plain`, `initOn_parted`), run on a file system in which the handle of the phase 2 file has its own position. `Alike`: two runs with the same results and related states, preserved by `bind`; used with the relation that all files are separate (`Apart`), and with relations that say what the shared file holds in each stage (`Evals1` to `Evals4`) |
| C92 | commands at the same time | `Model/Meanwhile.lean`: the file operations of `p2n` (`namedInit`), each after an arbitrary action of others on the files. `Alike` with the relation that the files in use agree; an invariant for the other files; the counterexample by evaluation |
| C93 | `key` and `keys` with others at work | `Model/Meanwhile.lean`: `withFiles` with an arbitrary action of others before each of the three file operations of each extraction. Agreement on the files in use; C83 for what the keys of one extraction have in common; the counterexample by evaluation |
| C94 | outputs that cannot be created | `Model/Denied.lean`: every command with a predicate that says for which paths `os.Create` succeeds, stopping where the code does. A relation between the command with and without it, composed along the code; counterexamples by evaluation |
| C95 | `p2n`, `p2np` interrupted | `Model/Killed.lean`: the same bodies with file operations that count down; at zero, part of a write is done and the run ends. A relation between the run that may end and the complete run (`Proofs/Killed.lean`), composed along the code; then C64, C81, C83 for the file that is cut short |
| C96 | every command interrupted, run again | `Model/KilledAll.lean`: the outputs in the order of their creation, each cut at any length; `p2n`, `p2np` from `Model/Killed.lean`. The frame by an invariant along the run; then C73 (the result depends on the inputs only) and C45 |
| C97 | `p1c`, `p2c` interrupted, then used | The output is a prefix of the finished one (`C97_left`, from the exact output of a contribution); then C81 and C83 for a file cut short, as equivalences |
| C49 | trailing bytes | suffix independence |
| C50 | nonzero secrets | false (F2): refuted |

## 4. Findings

Defects of the code established by theorems (names in `MANIFEST.json`):

* F1 `linearCombinationG1/G2` (`phase1/utils.go`) pass slices of different length to `MultiExp` and ignore the error; with the
  documented behaviour the combinations stay at infinity and the consistency checks of all sections are vacuous (C14).
* F2 No identity checks: contributions with τ, α or β = 0 are accepted (C50, C42); S = ∞ makes the G2 check vacuous (C13).
* F3 A phase 1 file of identities without contributions is accepted (C15).
* F4 The phase 1 counter is a `uint16` and wraps (C06).
* F5 `phase1.Verify` ignores the error of `current.ReadFrom`: missing zero bytes at the end are accepted, and for degenerate
  records even missing records (C17).
* F6 `reader.Read(c.Hash)` may read short. In phase 2 honest ceremonies are rejected or their hashes corrupted, depending on the
  circuit: records start more than 32 bytes after a multiple of 64 (C29, C31, C43).
* F7 `verifyParameter` returns nil if `aggregate` fails: undecodable Z or PKK is accepted (C34, C33); a negative contribution
  count with δ = ∞ is accepted (C36).
* F8 Circuits with private commitments make `p2n` panic (C27).
* F9 `p1n -- -250 file` is accepted and `byte(power)` wraps (C19).
* F10 Equal input and output paths destroy the input (C45). `evals` has a fixed name: keys can mix two circuits (C46).
* F11 The TauG2 check has its arguments swapped; masked by F1 (C11_truncate_rejects).
* F12 `p2np`'s constraint count is not checked; keys accept violating assignments (C51).
* F13 Plain extraction panics for domains over 2^28, split extraction does not (C39).
* F14 Write errors: the new record and every deferred `Flush` are unchecked, so success is reported for incomplete files (C48, C55).
* F15 Poisoning: the last contributor can hand on a file that verifies but on which every later honest ceremony is rejected (phase 1: replace `[τ]1` in the sections), or to which nobody can contribute (phase 2: undecodable Z) (C56).
* F16 Crashes: a phase 1 file with power ≥ 63 crashes `p1v`, `p1vt` and `p1c`; a file with power 0, which `p1n 0 f` creates, crashes `p1c`; a phase 2 header with domain < 1 or a negative number of witness wires crashes `p2c`, and `p2v` if the origin has the same counts; a domain above `2^28` crashes `key`; `sol` crashes without a verifying key (C57).
* F17 `vk.CommitmentInfo` is never set: keys of circuits with a commitment have a point for the commitment wire but describe no commitment (C60). `.pk.CommitmentKey.save` holds the commitment key twice (C39_honest).
* F18 `Contribute` does not notice that up to 31 bytes of the last hash are missing: it writes zeros for them, reports success and prints a hash, and its output is rejected by `Verify` (C61).
* F19 Consequence of F1: the phase 1 file that `Verify` accepts need not have anything to do with its records. Whoever publishes or relays it can put in `τ` and `α` of their own and later prove anything about every circuit set up from it, whatever the contributors of both phases do (C62).
* F20 `p1t` prints no line of success; with the last section missing its output is the same as for a complete file, only the exit code and standard error differ (C63).
* F21 `p1t` accepts powers from 63 on: 67 bytes are written with success for any input beginning with a point of G2 (C64). From original power 58 on all sections but the first are read from the start of the input (C18).
* F22 `docs/Format.md` gives the sections of `srs.lag` the size of the phase 1 power; they have the size of the domain (C64).
* F23 A phase 2 file that says −1 contributions is accepted by `p2c`; the output says 0 contributions and holds one record (C64).
* F24 `p1vt` looks at five points of the transformed file only. A file of another power with arbitrary other points does as well (C66).
* F25 Phase 2 records are bound to no circuit: the first challenge is the empty hash. From the file of one ceremony anybody makes a file for a circuit with merged or renamed private wires, with the same records and hashes, that is accepted (C67). The contributors' secrets stay in it; what is lost is that an attested hash stands for a particular circuit.
* F26 Points may be stored uncompressed: the sequential readers accept them, but initialisation computes positions from the compressed sizes. From a phase 1 file accepted by the verifier whose first point is uncompressed, `p2n` makes parameters for other values (the last power of τ in the place of α) and reports success (C72). On the other hand a phase 2 file rejected because of F6 is accepted once `[δ]1` is rewritten uncompressed.
* F27 `key` and `keys` cannot be repeated: `pedersen.Setup` draws a commitment key in every run, also if no wire is committed, and it is written at the beginning of the verifying key. Two extractions from the same files give verifying keys with different bytes, so a published verifying key cannot be checked by comparing files; the part after the commitment key can (C73).
* F28 `p2n` creates its output before it opens the constraint system (`phase2/phase2.go:22`, `phase2/utils.go:44`). A mistyped path of the circuit makes the command fail, but an existing file at the output path, perhaps the parameters of an earlier run with contributions, is emptied (C74).
* F29 If a point of Z cannot be decoded, the reader of the initial file stays where it was, so PKK is compared with the Z of the initial file (`phase2/utils.go`, `verifyParameter`). Accepted bytes can hold a PKK that decodes and is wrong (C77).
* F30 For a phase 1 file whose header counts one contribution more than there is, or whose next record is cut before its hash, `p1v` prints the hash of the last contribution once more as that of a further one before it fails (C58_p1_printed_twice); with a contribution whose secrets are all 0 it even accepts, for any count (C78_counted), also if bytes follow that cannot be decoded because a coordinate is out of range (C78_undecodable).
* F31 For every shape of circuit there are about 400 bytes, with one contribution and without any point of Z or PKK, that `p2v` accepts against every initial file of that shape (C66_universal_phase2_one; without any contribution: C66_universal_phase2). Keys cannot be extracted from them. For every power there is a phase 1 file that `p1v` accepts and `p1vt` accepts with every transformed file (C66_universal_phase1).
* F32 `p1c` and `p2c` do not notice that up to 31 bytes are missing at the end of their input: the hash of the last record is read with one
  `Read` whose count is ignored. The contribution succeeds on a hash filled up with zeros, and the file written is rejected by every verifier
  (C81).
* F33 `p1t` compares its two powers as integers and passes them on as bytes (`actions.go:29-32`). `p1t in out 258 257` converts with powers 2
  and 1, and `p1t in out 256 3` gets past the check "cannot transform to a higher power" (C82_command).
* F34 `key` and `keys` copy the number of wires from the header of the phase 2 file into the proving key without comparing it with the slices
  of the evaluation file (`keys.go:212`, `keys.go:530`); a header with 2^57 wires too many is accepted (C83_wires).
* F35 `p2n` and `p2np` accept a phase 1 file of power 0 for a circuit with one constraint. The domain has size 2, so they read on in the following sections: `[α]1` and `[β]1` serve as powers of τ, half of a point in G2 as `[βτ]1` (C84_power0). On BN254 half of the compressed generator of G2, which every such file contains there, is an encoding of a point in G1 (computed outside the model), so success is reported and the parameters are meaningless.
* F36 `p1vt` with a transformed file of power 0 takes `[α]1` for `[τ]1` and `[β]2` for `[τ]2` (C85_power0): such a file has no second power, and the positions computed fall into the next sections. The power of the transformed file is not compared with that of the input.
* F37 A contribution with secrets 0 fits at any place of any chain: its proof answers every challenge. So a contribution to one file can be moved into another ceremony, and two contributions to the same file can both be in an accepted file (C86_phase1_fork, C86_phase2_fork). `p1v` and `p2v` do not refuse the identity in a proof.
* F38 `p2n` and `p2np` accept some commitment descriptions without sense: a commitment wire that is public or does not exist (then a private wire is put into the verifying key), or the constant wire as a private committed wire (then its point is missing there). All others that do not fit crash the program; nothing is ever reported (C87_init, C87_crash, C87_layout_public, C87_layout_private).
* F39 The last step of the README, `keys <lastPhase2Contribution.ph2>`, is always refused and writes nothing: `keys` wants a session as well. The command that writes `pk` and `vk` is `key` (C90_readme_false).
* F40 If the final phase 2 file is called `vk`, then `key vk` reports success and has written the verifying key over it: the result of the ceremony, with all records, is gone. The same for `keys` with `<session>.vk.save` and `<session>.pk.CommitmentKey.save`. With `pk` and the files of the split proving key the file is destroyed as well, with an error (C89_vk_honest, C89_split_vk_any, C89_commitment_any, C89_pk_any, C89_pk_short, C89_split_pk_any).
* F41 `p2n <phase1> <circuit> evals` reports success, but the phase 2 file and the evaluations have been written over each other in the one file `evals`, which has [α]₁ where the header should be. Nothing can be done with it (C91_p2n_evals, C91_p2n_evals_head, C91_false). A phase 1 file called `srs.lag` or `evals` is destroyed, with an error (C91_p2n_input, C91_p2np_input).
* F42 Two `p2n` in the same directory at the same time share `srs.lag` and `evals`. If the second writes `srs.lag` while the first is between two of its stages, then the first goes on with it and reports success; its phase 2 file has Z from its own phase 1 file and PKK from the other one (C92_false, C92_mixture).
* F43 (C93): `key` and `keys` open `evals` twice, once for each key. A `p2n` or `p2np` for other files between the two replaces it; the extraction reports
  success, and the two keys do not belong together. There is no lock and no check that the keys match.
* F44 If one of several outputs cannot be created, `p2n`, `p2np`, `key` and `keys` fail, but outputs created earlier have lost their contents; an old phase 2 file, or `pk`, is
  then gone or does not match the rest (C94_false, C94_key). `sol` crashes with a panic (C94_sol).
* F45 `p2n` and `p2np` write `evals` of the new circuit before the new phase 2 file is complete. If they are interrupted there, `key` on the phase 2 file of another
  ceremony in the directory succeeds with the wrong `evals`, or fails (C95_false). The new phase 2 file itself is refused, if the circuit has a wire for the prover
  (C95_p2n_refused_partial); if not, `p2c` takes it.
* F46 A `p2c` that is interrupted leaves a file without its own record, or with a part of it. `key` and `keys` read no records: they extract keys from it, with a contribution
  in them that no record accounts for (C97_false, C97_key_partial). `p2v` refuses the file; the next `p2c` refuses it if 32 or more bytes are missing. Outputs are not
  written to a temporary file first.

## 5. Trusted base

* Lean 4's kernel. Axioms: every theorem in `MANIFEST.json` depends on at most `propext`, `Classical.choice`, `Quot.sound`
  (50 do without `Classical.choice`, one of them depends on none). No own axioms, no `sorry`, no `native_decide`.
* That the model follows the code. Modelled: all of `common/`, `lagrange/`, `phase1/`, `phase2/`, `keys/`, `actions.go`, and from
  `main.go` the command names. Simplifications are noted at each definition; the general ones are in section 2.
* Contracts of libraries: gnark-crypto's curve operations, codecs, `MultiExp`, `fft.Domain`; Go's `bufio`, `os`, `io`,
  `encoding/gob` (for the header and `CommitmentInfo`), `strconv.Atoi`; gnark's R1CS reader and lazy/parted reader.
* Invalid points: gnark-crypto may have assigned coordinates before the check that fails. This matters only for `phase1.Verify`, which
  ignores the error of `ReadFrom` (F5). `Codec.spoils` (any predicate of the bytes and the old point) says when a failed decoding changes
  the encoding of the point. The model then refuses the record: its hash is still that of the record before (or none), its encoding is not.
  This leaves out a collision of SHA-256, and an earlier check may refuse the record with its own message.
* Opaque: `pedersen.Setup` (random bytes), `ExportSolidity`, gnark's serialisation of `CommitmentInfo` (arbitrary round-trip
  codec), what is printed on standard error and by libraries, exit codes beyond success/failure, the flag parser of urfave/cli (arguments after parsing are given).
* Not modelled: memory limits, the built-in `help` command and `--help` flags of the command-line library, concurrent changes of files by other processes except while
  `p2n`, `p2np`, `key` or `keys` runs (`Model/Meanwhile.lean`), read errors other than end of file, file permissions except that a file cannot be created
  (`Model/Denied.lean`; a file that cannot be read counts as missing), what an interrupted command has printed
  (its files are modelled, `Model/Killed.lean`, `Model/KilledAll.lean`) and writes that the operating system loses after a crash, the tests under `/repo/test`.

## 6. Mutation tests

`seeded/LOG.jsonl`: one line per attempt. Each edit of a model definition is made in a copy outside `/verif`; the copy is rebuilt,
and in addition the property statements are evaluated on small concrete inputs with the edited model. This tells statements that
became false from proofs that merely follow the old text (the control b1-26 is an equivalent edit: proofs fail, no statement is
falsified). The field `evidence` says what was seen. A failing proof alone does not show that a property rules the edit out: proofs
also fail for equivalent edits, and modules that depend on a failing one are not built, so the listed theorems may not be reached.
`inconclusive` means that the checker ran out of memory.
