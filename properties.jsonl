{"id": "C01", "title": "Parallel work split visits every index exactly once", "statement": "For every number of iterations n and every task count (explicit maxCpus >= 1 or the machine's CPU count), the (start,end) ranges handed to the work function by Parallelize are consecutive, lie in [0,n), and together contain each index in [0,n) exactly once; with n = 0 no work function is started.", "quantifier": "all n, all task counts", "why_tests_cant": "The split depends on n mod tasks; a test fixes one machine and a few sizes.", "anchors": ["common/parallelize.go:Parallelize"]}
{"id": "C02", "title": "Results of parallel loops do not depend on CPU count or goroutine schedule", "statement": "For every slice length, every CPU count and every interleaving of the goroutines, an element-wise parallel loop (scalar multiplication of a batch, batchMul, randomize, scaling in ConvertG1/G2) leaves in position i exactly f(i, old value), i.e. the sequential result, and the FFT never calls Parallelize with zero tasks.", "quantifier": "all lengths, CPU counts, interleavings", "why_tests_cant": "Schedules cannot be enumerated by tests; NumCPU is fixed on a test machine.", "anchors": ["common/parallelize.go:Parallelize", "phase1/utils.go:batchMul", "phase1/utils.go:scaleG1", "lagrange/g1.go:ConvertG1", "lagrange/g1.go:difFFTG1"]}
{"id": "C03", "title": "Bit reversal is the bit-reversal permutation", "statement": "For every k < 64 and every slice of length 2^k, BitReverseG1/G2 moves the element at index i to the index obtained by reversing the k low bits of i; applying it twice restores the slice; for any length it is an in-bounds permutation.", "quantifier": "all k, all contents", "why_tests_cant": "All sizes and contents.", "anchors": ["common/utils.go:BitReverseG1", "common/utils.go:BitReverseG2"]}
{"id": "C04", "title": "Concurrent bit reversal equals sequential bit reversal under every schedule", "statement": "For every slice length, CPU count and interleaving of the worker goroutines, bitReversePointsG1/G2 produces the same slice as the sequential BitReverse, and no two workers touch the same element.", "quantifier": "all lengths, CPU counts, interleavings", "why_tests_cant": "Race freedom is a property of all schedules.", "anchors": ["lagrange/g1.go:bitReversePointsG1", "lagrange/g2.go:bitReversePointsG2"]}
{"id": "C05", "title": "p1n writes exactly the documented initial file", "statement": "For every power p in 0..26, phase1.Initialize succeeds and writes a file consisting of the header (p, 0 contributions), 2^(p+1)-1 + 2^p + 2^p copies of the G1 generator and 2^p + 1 copies of the G2 generator, of total size 3 + 192*2^p + 32 bytes.", "quantifier": "all powers", "why_tests_cant": "Large powers are never tested.", "anchors": ["phase1/phase1.go:Initialize", "docs/Format.md"]}
{"id": "C06", "title": "The phase 1 contribution counter equals the number of contributions made", "statement": "After k successful contributions to a freshly initialised file the header reports k contributions and the file holds k contribution records.", "quantifier": "all k", "why_tests_cant": "The counter is a 16-bit field; nobody tests 65536 contributions.", "anchors": ["phase1/header.go:Header", "phase1/phase1.go:Contribute"]}
{"id": "C07", "title": "Contribution records and headers survive a write/read round trip", "statement": "For every header and every contribution (with a 32-byte hash), reading what was written returns the same value and consumes exactly the bytes written: 3 bytes for the phase 1 header, 640 bytes for a phase 1 contribution, 192 bytes for a phase 2 contribution.", "quantifier": "all values", "why_tests_cant": "All values of all fields.", "anchors": ["phase1/header.go:Header", "phase1/contribution.go:Contribution", "phase2/contribution.go:Contribution"]}
{"id": "C08", "title": "Batched scaling equals index-wise scaling across batch boundaries", "statement": "For every section length n and every tau and optional multiplier m, scaling a section multiplies element i by m*tau^i (m*tau^i computed across batch boundaries without restart), independent of the batch size; phase 2 scaling multiplies every element by the same scalar.", "quantifier": "all lengths, batch sizes, scalars", "why_tests_cant": "The batch size is 2^20, so tests never cross a boundary.", "anchors": ["phase1/utils.go:scaleG1", "phase1/utils.go:scaleG2", "phase1/utils.go:powers", "phase2/utils.go:scale"]}
{"id": "C09", "title": "An honest phase 1 ceremony produces the powers of the product of all secrets", "statement": "After any sequence of contributions with secrets (tau_j, alpha_j, beta_j) to an initialised file of power p >= 1, the file's parameter sections are [tau^i]1 (i<2N-1), [alpha tau^i]1, [beta tau^i]1, [tau^i]2 (i<N) and [beta]2 with tau, alpha, beta the products of the contributed secrets.", "quantifier": "all powers >= 1, all sequences of secrets", "why_tests_cant": "Unbounded histories.", "anchors": ["phase1/phase1.go:Initialize", "phase1/phase1.go:Contribute"]}
{"id": "C10", "title": "A contribution never alters earlier contribution records", "statement": "For every well-formed input file, phase1.Contribute writes a file with the same power, the same earlier contribution records byte for byte and in order, and exactly one new record, computed from the previous record's hash; the result depends on nothing after the declared records.", "quantifier": "all input files, all randomness", "why_tests_cant": "All histories.", "anchors": ["phase1/phase1.go:Contribute"]}
{"id": "C11", "title": "phase1.Verify accepts every honest ceremony", "statement": "For every power p >= 1, every sequence of 1..65535 contributions with arbitrary secrets and every choice of the verifier's randomness, phase1.Verify returns no error.", "quantifier": "all powers, histories, secrets and verifier randomness", "why_tests_cant": "Unbounded histories and randomness.", "anchors": ["phase1/phase1.go:Verify", "phase1/utils.go:verifyContribution"]}
{"id": "C12", "title": "phase1.Verify accepts every honest ceremony that starts from a transformed file", "statement": "The same for ceremonies started from a transformed Powers-of-Tau file and verified against that file (p1vt), whatever nonzero trapdoor the transformed file contains.", "quantifier": "all powers, transformed trapdoors, histories", "why_tests_cant": "As above.", "anchors": ["phase1/phase1.go:Verify", "phase1/contribution.go:defaultContribution", "actions.go:p1vt"]}
{"id": "C13", "title": "Acceptance by phase1.Verify implies a consistent chain of updates", "statement": "If phase1.Verify accepts, then every contribution multiplies the previous tau, alpha and beta by some scalars, the same scalar for the G1 and the G2 element, each scalar is the one in the contribution's proof of knowledge for the previous hash, and every recorded hash is the hash of its record.", "quantifier": "all files (malicious ones included)", "why_tests_cant": "Soundness ranges over all adversarial files.", "anchors": ["phase1/utils.go:verifyContribution", "phase1/phase1.go:Verify"]}
{"id": "C14", "title": "Acceptance by phase1.Verify implies the parameters are the powers of the final tau", "statement": "If phase1.Verify accepts (except with probability 1/r over its randomness), the parameter sections are the powers of the tau, alpha, beta of the last contribution: [tau^i]1, [alpha tau^i]1, [beta tau^i]1, [tau^i]2, [beta]2.", "quantifier": "all files, all but a negligible part of verifier randomness", "why_tests_cant": "Soundness ranges over adversarial files of any size, including sections longer than one batch.", "anchors": ["phase1/phase1.go:Verify", "phase1/utils.go:linearCombinationG1"]}
{"id": "C15", "title": "phase1.Verify rejects a file without contributions", "statement": "phase1.Verify returns an error for every file whose header declares zero contributions.", "quantifier": "all files", "why_tests_cant": "All files.", "anchors": ["phase1/phase1.go:Verify"]}
{"id": "C16", "title": "The last phase 1 contribution hash determines the whole contribution history", "statement": "If two files are accepted by phase1.Verify, have the same number of contributions and print the same last hash, then all their contribution records agree, unless their records exhibit a collision of SHA-256 or of hash-to-G2.", "quantifier": "all pairs of accepted files", "why_tests_cant": "Ranges over all histories and adversarial files.", "anchors": ["phase1/utils.go:verifyContribution", "phase1/contribution.go:computeHash", "common/keypair.go:GenSP"]}
{"id": "C17", "title": "Truncated phase 1 files are rejected", "statement": "If the tail of a phase 1 file is missing (any strict prefix of an accepted file), phase1.Verify does not accept it.", "quantifier": "all files, all truncation points", "why_tests_cant": "All truncation points of all files.", "anchors": ["phase1/phase1.go:Verify", "phase1/contribution.go:ReadFrom"]}
{"id": "C18", "title": "p1t produces a phase 1 file with the prefix of each section", "statement": "For every well-formed uncompressed Powers-of-Tau response of power a and every b <= a, phase1.Transform writes a well-formed phase 1 file of power b with zero contributions whose sections are the first 2^(b+1)-1, 2^b, 2^b, 2^b points of the source's TauG1, AlphaG1, BetaG1, TauG2 sections, and its BetaG2.", "quantifier": "all powers a >= b, all contents", "why_tests_cant": "All sizes.", "anchors": ["phase1/phase1.go:Transform", "phase1/utils.go:transformG1"]}
{"id": "C19", "title": "p1n only creates ceremonies with a power between 0 and 26", "statement": "For every command line power argument, p1n creates a file only if 0 <= power <= 26, and the file's power equals the argument.", "quantifier": "all integers", "why_tests_cant": "All integers, including negative ones.", "anchors": ["actions.go:p1n", "phase1/phase1.go:Initialize"]}
{"id": "C20", "title": "All readers of a phase 1 file agree with its writers on where each section lies", "statement": "For every power, the byte offsets used by phase 2 initialisation and by p1vt (TauG1, AlphaG1, BetaG1, TauG2, [alpha]1, [beta]1, [beta]2) are exactly the offsets at which Initialize, Contribute and Transform wrote those sections.", "quantifier": "all powers and contents", "why_tests_cant": "All sizes.", "anchors": ["phase2/utils.go:processLagrange", "phase2/utils.go:readPhase1", "phase1/contribution.go:defaultContribution", "phase2/utils.go:processDeltaAndZ"]}
{"id": "C21", "title": "The FFT domain is the least power of two >= max(2,#constraints) and fits the phase 1 SRS", "statement": "For every number of constraints up to 2^27, the domain is the least power of two that is at least 2 and at least the number of constraints; larger circuits abort; if header processing accepts a circuit for a phase 1 file of power >= 1 then domain <= 2^power, so every read of 2*domain-1 powers stays inside the TauG1 section.", "quantifier": "all circuits sizes and powers", "why_tests_cant": "Boundary values are unbounded in number.", "anchors": ["phase2/utils.go:nextPowerofTwo", "phase2/utils.go:processHeader"]}
{"id": "C22", "title": "Lagrange conversion computes the inverse DFT for every size, CPU count and schedule", "statement": "For every n = 2^k, every input vector and every interleaving of the recursive goroutines, ConvertG1/ConvertG2 replace buff by (1/n) * sum_j w^(-ij) buff[j].", "quantifier": "all k, inputs, CPU counts, interleavings", "why_tests_cant": "All sizes and schedules; includes the size-8 kernel at every recursion stage.", "anchors": ["lagrange/g1.go:ConvertG1", "lagrange/g1.go:difFFTG1", "lagrange/g1.go:kerDIF8G1", "lagrange/g2.go:ConvertG2"]}
{"id": "C23", "title": "Converting powers of tau yields the Lagrange basis at tau", "statement": "If the input is [m tau^j] for j<n then the output is [m L_i(tau)] for i<n, with L_i the Lagrange basis polynomials of the size-n domain.", "quantifier": "all sizes, tau, m", "why_tests_cant": "All values of tau.", "anchors": ["phase2/lagrange.go:lagrangeG1", "lagrange/g1.go:ConvertG1"]}
{"id": "C24", "title": "The evaluation file contains the QAP polynomials evaluated at tau", "statement": "For every R1CS without out-of-range identifiers and every honest phase 1 file, phase 2 initialisation writes [alpha]1, [beta]1, [beta]2 and for every wire w the points [a_w(tau)]1, [b_w(tau)]1, [b_w(tau)]2, including wires that occur several times or with the special coefficients 0, 1, 2, -1.", "quantifier": "all circuits, all trapdoors", "why_tests_cant": "All circuits.", "anchors": ["phase2/utils.go:processEvaluations", "phase2/utils.go:accumulateG1"]}
{"id": "C25", "title": "The Z section holds tau^i (tau^n - 1) in bit-reversed order", "statement": "For every honest phase 1 file and every domain size n, initialisation writes n-1 points, at position bitrev(i) the point [tau^i(tau^n-1)]1, for i<n-1; the dropped last entry is the unused identity.", "quantifier": "all sizes, tau", "why_tests_cant": "All sizes.", "anchors": ["phase2/utils.go:processDeltaAndZ"]}
{"id": "C26", "title": "PKK and VKK split the combined wire polynomials without loss", "statement": "For every circuit without commitments, VKK are the points [beta a_w + alpha b_w + c_w] of the public wires and PKK those of the remaining wires, in wire order, #Public + #Witness = #Wires, and nothing is lost or duplicated.", "quantifier": "all circuits without commitments", "why_tests_cant": "All circuits.", "anchors": ["phase2/utils.go:processPVCKK", "phase2/utils.go:filterL", "phase2/utils.go:processHeader"]}
{"id": "C27", "title": "Phase 2 initialisation supports circuits that use commitments", "statement": "For every circuit with a commitment, phase 2 initialisation splits the wires into committed, public (with the commitment wire) and private ones, without aborting.", "quantifier": "all circuits with commitments", "why_tests_cant": "All wire layouts.", "anchors": ["phase2/utils.go:filterL"]}
{"id": "C28", "title": "The phase 2 header round-trips and its counts are consistent", "statement": "For every header of 64-bit integers, the written bytes are the gob stream of the header (type definition, then value), reading them returns the header and leaves the reader at the first byte after it; the counts computed for a circuit satisfy Public + Witness + PrivateCommitted = Wires.", "quantifier": "all headers, all circuits", "why_tests_cant": "All values, including zero (omitted) and negative fields.", "anchors": ["phase2/header.go:Header", "phase2/utils.go:processHeader"]}
{"id": "C29", "title": "phase2.Contribute multiplies delta and divides Z and PKK by the same scalar, and preserves history", "statement": "For every well-formed phase 2 file and nonzero delta, phase2.Contribute writes [delta*d]1,[delta*d]2, Z/d, PKK/d, the same earlier records followed by one new record, and increments the counter.", "quantifier": "all files and secrets", "why_tests_cant": "All files.", "anchors": ["phase2/phase2.go:Contribute", "phase2/utils.go:scale"]}
{"id": "C30", "title": "An honest phase 2 ceremony ends with delta the product of the contributed deltas", "statement": "After any sequence of contributions with nonzero secrets to an initial file, delta is the product of the secrets and Z and PKK are the initial ones divided by that product.", "quantifier": "all histories", "why_tests_cant": "Unbounded histories.", "anchors": ["phase2/phase2.go:Contribute"]}
{"id": "C31", "title": "phase2.Verify accepts every honest ceremony", "statement": "For every initial file, every non-empty sequence of nonzero secrets and every verifier randomness, phase2.Verify of the final file against the initial file returns no error.", "quantifier": "all initial files, histories, randomness", "why_tests_cant": "Unbounded histories; depends on how records align with read buffers.", "anchors": ["phase2/phase2.go:Verify"]}
{"id": "C32", "title": "Acceptance by phase2.Verify implies a consistent chain of delta updates", "statement": "If phase2.Verify accepts, the [delta]1 of the records form a chain of scalar updates from the origin's [delta]1 to the file's [delta]1, each proven for the previous hash, and [delta]2 is consistent with [delta]1.", "quantifier": "all files", "why_tests_cant": "Adversarial files.", "anchors": ["phase2/phase2.go:Verify", "phase2/utils.go:verifyContribution"]}
{"id": "C33", "title": "Acceptance by phase2.Verify implies Z and PKK are the origin's divided by delta", "statement": "If phase2.Verify accepts (except with probability 1/r), every element of Z and PKK multiplied by delta equals the origin's element.", "quantifier": "all files, all but negligible randomness", "why_tests_cant": "Adversarial files of any size.", "anchors": ["phase2/utils.go:verifyParameter", "phase2/utils.go:aggregate"]}
{"id": "C34", "title": "phase2.Verify rejects files whose parameters cannot be decoded", "statement": "If a point of Z or PKK in the submitted file is not a valid encoding, or is missing, phase2.Verify returns an error.", "quantifier": "all files", "why_tests_cant": "Adversarial files.", "anchors": ["phase2/utils.go:verifyParameter"]}
{"id": "C35", "title": "The last phase 2 contribution hash determines the contribution history", "statement": "If two files are accepted against origins with the same [delta]1, have the same number of contributions and print the same last hash, their records agree, unless they exhibit a hash collision.", "quantifier": "all pairs of accepted files", "why_tests_cant": "All histories.", "anchors": ["phase2/utils.go:verifyContribution", "phase2/contribution.go:computeHash"]}
{"id": "C36", "title": "phase2.Verify rejects a file for a different circuit shape or without contributions", "statement": "phase2.Verify returns an error whenever any of Wires, Witness, Public, PrivateCommitted, Constraints, Domain differ between the two headers or the submitted file has no contributions.", "quantifier": "all files", "why_tests_cant": "All header pairs.", "anchors": ["phase2/header.go:Equal", "phase2/phase2.go:Verify"]}
{"id": "C37", "title": "The extracted proving key is the Groth16 proving key of the ceremony's trapdoor", "statement": "After an honest ceremony the pk file contains, in gnark's layout, [alpha]1,[beta]1,[delta]1, the nonzero [a_w]1 and [b_w]1 with their infinity maps, Z, K, [beta]2,[delta]2 and the nonzero [b_w]2.", "quantifier": "all circuits, histories", "why_tests_cant": "All circuits and histories.", "anchors": ["keys/keys.go:extractPK"]}
{"id": "C38", "title": "The extracted verifying key is the Groth16 verifying key of the ceremony's trapdoor", "statement": "After an honest ceremony the vk contains [alpha]1,[beta]1,[beta]2,[gamma]2=[1]2,[delta]1,[delta]2 and one K point per public wire, read from the right position of the evaluation file for every number of wires.", "quantifier": "all circuits, histories", "why_tests_cant": "All circuits.", "anchors": ["keys/keys.go:extractVK"]}
{"id": "C39", "title": "Split extraction and plain extraction carry the same key material", "statement": "For every pair of phase 2 and evaluation files, ExtractSplitKeys succeeds iff ExtractKeys does, and the split files contain the same points, counts and infinity maps as pk and vk; the commands key and keys leave such files in the working directory.", "quantifier": "all files", "why_tests_cant": "All files.", "anchors": ["keys/keys.go:extractSplitPK", "keys/keys.go:extractSplitVK"]}
{"id": "C40", "title": "Infinity filtering is lossless and the B maps agree between G1 and G2", "statement": "Filtering removes exactly the identity points, keeps the order, records their positions and number, and the original slice can be rebuilt; the map recorded for [B]1 is also the map of [B]2.", "quantifier": "all slices, all circuits", "why_tests_cant": "All slices.", "anchors": ["keys/keys.go:filterInfinityG1", "keys/keys.go:filterInfinityG2"]}
{"id": "C41", "title": "Keys from an honest ceremony make Groth16 complete", "statement": "For every R1CS, every assignment satisfying it and every prover randomness, a proof computed from the extracted proving key satisfies the Groth16 verification equation for the extracted verifying key.", "quantifier": "all circuits, witnesses, histories, prover randomness", "why_tests_cant": "All circuits and witnesses.", "anchors": ["phase2/phase2.go:Initialize", "keys/keys.go:ExtractKeys"]}
{"id": "C42", "title": "One honest contributor suffices", "statement": "If at least one contributor's secret is uniform and unknown, the final secret is uniform: for all other contributors' secrets in an accepted ceremony every nonzero final value arises from exactly one choice of the honest secret.", "quantifier": "all other contributors' secrets", "why_tests_cant": "Quantifies over adversaries.", "anchors": ["phase1/phase1.go:Contribute", "phase1/utils.go:verifyContribution"]}
{"id": "C43", "title": "Reading a contribution does not depend on read-buffer boundaries", "statement": "For every valid file and every position of a contribution record relative to the bufio buffer, the record read equals the record stored.", "quantifier": "all positions", "why_tests_cant": "Needs a file whose record straddles a 4096-byte boundary.", "anchors": ["phase1/contribution.go:ReadFrom", "phase2/contribution.go:readFrom", "phase2/phase2.go:Verify"]}
{"id": "C44", "title": "Initialisation from a parted R1CS equals initialisation from the whole R1CS", "statement": "If the parted constraint system yields the same constraints in the same order, InitializeFromPartedR1CS writes the same phase 2, lagrange and evaluation files as Initialize.", "quantifier": "all circuits", "why_tests_cant": "All circuits.", "anchors": ["phase2/parted.go:InitializeFromPartedR1CS"]}
{"id": "C45", "title": "Commands never modify their input file", "statement": "For every input and output path, running p1c, p2c, p1t, p2n leaves the input file unchanged.", "quantifier": "all paths, all files, all outcomes", "why_tests_cant": "Includes failures and coinciding paths.", "anchors": ["phase1/phase1.go:Contribute", "phase2/phase2.go:Contribute"]}
{"id": "C46", "title": "Key extraction uses the evaluation file of the same circuit", "statement": "For any sequence of phase 2 initialisations, extracting keys from a phase 2 file combines it with the evaluations of the circuit it was initialised for.", "quantifier": "all command histories", "why_tests_cant": "Histories of commands.", "anchors": ["keys/keys.go:extractPK", "phase2/utils.go:processEvaluations"]}
{"id": "C47", "title": "A crash during a contribution never yields a file that verifies", "statement": "If the process dies at any point during p1c or p2c, the input file is intact and the partial output is rejected by the verifier.", "quantifier": "all crash points", "why_tests_cant": "All crash points.", "anchors": ["phase1/phase1.go:Contribute", "phase2/phase2.go:Contribute"]}
{"id": "C48", "title": "A contribution that reports success has written the whole file", "statement": "If Contribute returns no error then the complete output is on disk, even if the disk fills up at any point.", "quantifier": "all disk-full points", "why_tests_cant": "All failure points.", "anchors": ["phase1/phase1.go:Contribute", "phase2/phase2.go:Contribute"]}
{"id": "C49", "title": "Bytes after the declared records have no influence", "statement": "For every file and every byte string appended to it, Verify gives the same verdict and Contribute the same output.", "quantifier": "all files, all suffixes", "why_tests_cant": "All suffixes.", "anchors": ["phase1/phase1.go:Verify", "phase1/phase1.go:Contribute", "phase2/phase2.go:Verify", "phase2/phase2.go:Contribute"]}
{"id": "C50", "title": "Accepted ceremonies have nonzero secrets", "statement": "If phase1.Verify accepts, the final tau, alpha and beta are nonzero (the SRS is not degenerate).", "quantifier": "all files", "why_tests_cant": "Adversarial files.", "anchors": ["phase1/utils.go:verifyContribution", "common/utils.go:SameRatio"]}
{"id": "C51", "title": "p2np initialises for the whole circuit", "statement": "For every parted constraint system and every number of constraints given on the command line, InitializeFromPartedR1CS either fails or writes the phase 2 and evaluation files of the whole circuit.", "quantifier": "all circuits, all nbCons arguments", "why_tests_cant": "Tests pass the correct count; a count that is too small yields well-formed files and keys that work for honest provers but do not enforce the dropped constraints.", "anchors": ["phase2/parted.go:17", "phase2/parted.go:67", "phase2/parted.go:149", "actions.go:99"]}
{"id": "C52", "title": "A ceremony run from the command line succeeds and ends with the keys of the circuit", "statement": "p1n, any number of p1c in relay, p1v, p2n, any number of p2c in relay, p2v and key, each reading the file written before, all succeed; pk and vk are the Groth16 keys of the circuit for the products of all contributed tau, alpha, beta and delta. Likewise p1t, p1c, p1vt from a Perpetual Powers of Tau response, p2np instead of p2n, and keys instead of key; sol then succeeds.", "quantifier": "all powers, circuits, numbers of contributors, draws, schedules and file names that do not overwrite an input still needed", "why_tests_cant": "Unbounded relays, all draws and circuits; the composition of nine commands through the file system.", "anchors": ["main.go:10", "actions.go:12", "README.md"]}
{"id": "C53", "title": "Verification commands decide about the files named and change nothing", "statement": "p1v, p1vt and p2v return the verdict of Verify on exactly the files named on the command line, in the documented order; a missing file is an error; no file is created or changed.", "quantifier": "all file systems, all paths, all draws", "why_tests_cant": "All file system states.", "anchors": ["actions.go:65", "actions.go:75", "actions.go:138", "phase1/phase1.go:Verify", "phase2/phase2.go:Verify"]}
{"id": "C54", "title": "Truncated phase 2 files are rejected", "statement": "If the tail of a phase 2 file is missing (any strict prefix of an accepted file), phase2.Verify does not accept it.", "quantifier": "all files, all truncation points, all origin files and verifier draws", "why_tests_cant": "All truncation points of all files.", "anchors": ["phase2/phase2.go:Verify", "phase2/contribution.go:readFrom", "phase2/utils.go:verifyParameter"]}
{"id": "C55", "title": "p1n, p1t, p2n, p2np, key and keys report success only if the files are complete", "statement": "If initialisation (phase 1 or 2, whole or parted circuit), transformation or key extraction returns no error then the complete output is on disk, even if the disk fills up at any point.", "quantifier": "all powers, all inputs, all disk-full points", "why_tests_cant": "All failure points.", "anchors": ["phase1/phase1.go:Initialize", "phase1/phase1.go:Transform", "phase1/utils.go:transformG1", "phase2/phase2.go:Initialize", "phase2/parted.go:InitializeFromPartedR1CS", "phase2/utils.go:processPVCKK", "keys/keys.go:extractPK", "keys/keys.go:extractVK"]}
{"id": "C56", "title": "An honest contribution to an accepted file is accepted", "statement": "If Verify accepts a file, then a contribution to it with honestly drawn secrets succeeds and Verify accepts the resulting file, in phase 1 and in phase 2. So whoever receives a file that verifies can contribute without ruining the ceremony.", "quantifier": "all accepted files (honest or not), all secrets, all verifier draws, all batch sizes", "why_tests_cant": "Tests only contribute to honestly made files; the statement is about every file Verify accepts.", "anchors": ["phase1/phase1.go:Contribute", "phase1/phase1.go:Verify", "phase1/contribution.go:verifyContribution", "phase2/phase2.go:Contribute", "phase2/phase2.go:Verify", "phase2/utils.go:verifyParameter"]}
{"id": "C57", "title": "No input file crashes a command", "statement": "Whatever bytes are in the files a command is given, the command ends with success or with a reported error, never with a Go panic. In particular a coordinator who verifies, extends or finalises files received from others cannot be crashed by them.", "quantifier": "all contents of all input files, all randomness, all commands", "why_tests_cant": "Tests feed files made by the tool itself; the statement is about arbitrary bytes.", "anchors": ["phase1/phase1.go:Contribute", "phase1/phase1.go:Verify", "phase1/phase1.go:Transform", "phase2/phase2.go:Initialize", "phase2/phase2.go:Contribute", "phase2/phase2.go:Verify", "keys/keys.go:ExtractKeys", "main.go"]}
{"id": "C58", "title": "What the commands print agrees with the files", "statement": "Contribute prints exactly one contribution hash if it succeeds, namely the hash stored at the end of the output file, and none if it fails. Verify prints, in order and from the first on, the hashes of the records in the file, all of them if it accepts. The success message is printed exactly if the result is success. The stated power and number of contributions are those in the header of the input, and the hashes are numbered 1, 2, 3, ... Initialize announces the power and number of constraints of the file it writes.", "quantifier": "all input bytes, all randomness, all outcomes including failures at any step", "why_tests_cant": "No test reads the output; the statement covers failing runs on arbitrary bytes.", "anchors": ["phase1/phase1.go:Contribute", "phase1/phase1.go:Verify", "phase1/phase1.go:Initialize", "phase2/phase2.go:Contribute", "phase2/phase2.go:Verify"]}
{"id": "C59", "title": "The printed hashes pin down the ceremony", "statement": "(Security note of the README.) If a coordinator keeps the hashes printed for a file and a later accepted file prints hashes beginning with these, then no earlier contribution was replaced or removed. If a contributor finds the hash they attested among the hashes printed for an accepted file, then that file contains a step by exactly their secrets, and no contribution before theirs was replaced. Two accepted files with the same printed hashes have the same parameters.", "quantifier": "all pairs of accepted files, honest or not, all secrets, all positions of the hash", "why_tests_cant": "A statement about every file that Verify accepts, including adversarial ones.", "anchors": ["README.md", "phase1/phase1.go:Contribute", "phase1/phase1.go:Verify", "phase1/contribution.go:verifyContribution", "phase2/phase2.go:Contribute", "phase2/phase2.go:Verify", "phase2/contribution.go:verifyContribution"]}
{"id": "C60", "title": "The verifying key of a circuit with a commitment describes the commitment", "statement": "For every circuit for which the ceremony runs through, the verifying key that key extraction writes (plain or split) ends with the description of the circuit's commitment (its CommitmentInfo), which phase 2 initialisation has stored at the end of the evaluation file. A verifier has no other source for it.", "quantifier": "all circuits with or without commitments, all ceremonies, all input files of the extraction", "why_tests_cant": "Tests use a circuit without a commitment, for which the default value happens to be right.", "anchors": ["keys/keys.go:extractVK", "keys/keys.go:extractSplitVK", "keys/keys.go:VerifyingKey.writeTo", "phase2/utils.go:processPVCKK"]}
{"id": "C61", "title": "A contribution to an incomplete file is refused", "statement": "If the input file of p1c or p2c is a strict prefix of a well-formed ceremony file (download interrupted, disk full, previous command killed), Contribute reports an error. In particular no contributor is told that they contributed when their output can never be accepted.", "quantifier": "all well-formed files, all lengths of the prefix, all secrets; phase 1 also arbitrary input bytes", "why_tests_cant": "Tests only contribute to complete files; the outcome depends on where in the file the end lies.", "anchors": ["phase1/phase1.go:Contribute", "phase1/contribution.go:ReadFrom", "phase1/utils.go:scaleG1", "phase2/phase2.go:Contribute", "phase2/contribution.go:readFrom", "phase2/utils.go:scale"]}
{"id": "C62", "title": "Keys from accepted files are protected by every recorded contributor", "statement": "If p1v accepts a phase 1 file, p2n initialises a circuit from it, p2v accepts the final phase 2 file against that, and key extracts keys, then the keys are the Groth16 keys of the circuit for a trapdoor whose tau, alpha, beta, delta are the products of the factors proved in the records. Hence honest proofs verify, and nobody who lacks the secret of at least one recorded contributor can make proofs of false statements from the ceremony's files.", "quantifier": "all ceremonies of phase 1, all modifications of the published file, all circuits with a public commitment at most, all contributions to phase 2, all verifier draws, all public inputs", "why_tests_cant": "The tests verify files that nobody has tampered with and never use the keys against an adversary; the forged proofs exist only for an attacker's own parameters and have to be shown to verify for every input.", "anchors": ["phase1/phase1.go:Verify", "phase1/utils.go:linearCombinationG1", "phase2/phase2.go:Initialize", "phase2/phase2.go:Verify", "keys/keys.go:ExtractKeys"]}
{"id": "C63", "title": "A command reports success exactly when it succeeds, with the right figures", "statement": "Every command prints its line of success if and only if it succeeds (exit code 0), and what it prints does not change its effect on files. The figures that p2n and p2np print for the circuit (constraints, wires, public, witness, private committed) are those in the header of the phase 2 file they leave.", "quantifier": "all commands, arguments, file systems, random draws, constraint systems", "why_tests_cant": "The tests never look at the output, and the failing cases (any step of any command failing on any file) are not enumerable.", "anchors": ["main.go:main", "actions.go", "phase1/phase1.go:Transform", "phase2/phase2.go:Initialize", "phase2/parted.go:InitializeFromPartedR1CS", "phase2/utils.go:processHeader", "keys/keys.go:ExtractKeys", "keys/keys.go:ExportSol"]}
{"id": "C64", "title": "Every successful command leaves files of the documented format", "statement": "Whatever bytes the input files hold: if p1n, p1c, p1t, p2n, p2np or p2c succeeds, then the files it has written have the format and sizes of docs/Format.md: header, sections of the lengths the header says, every point a valid encoding, as many contributions as the header counts, the printed hash being the last one; srs.lag and evals with sections of the documented sizes. What is written depends only on the file that the input starts with, and the output of p1c can always be contributed to again.", "quantifier": "all input bytes (also malformed), all powers, circuits, contributors' secrets, machines", "why_tests_cant": "The tests use well-formed inputs of one size; accepted malformed inputs are unboundedly many.", "anchors": ["docs/Format.md", "phase1/phase1.go:Transform", "phase1/phase1.go:Initialize", "phase1/phase1.go:Contribute", "phase2/phase2.go:Initialize", "phase2/phase2.go:Contribute", "phase2/parted.go:InitializeFromPartedR1CS"]}
{"id": "C65", "title": "The order of the contributors does not matter", "statement": "If a group of contributors can contribute to a phase 1 file one after the other, they can in every other order, and the two final files differ only in the records. Two successful phase 2 ceremonies by the same contributors in different orders end with the same header and parameters, and the same proving and verifying keys are extracted from them.", "quantifier": "all input bytes (phase 1), all well-formed files (phase 2), all sequences of contributors and permutations, all secrets, machines and batch sizes", "why_tests_cant": "Tests run one order with random secrets; equality over all permutations and secrets is an algebraic fact.", "anchors": ["phase1/phase1.go:Contribute", "phase2/phase2.go:Contribute", "keys/keys.go:ExtractKeys"]}
{"id": "C66", "title": "A file is accepted only against the file its ceremony started from", "statement": "If Verify accepts a phase 2 file against an initial file, it rejects it against every other initial file and against the intermediate files of the ceremony. If p1vt accepts a phase 1 file with a transformed file, it rejects it with every other transformed file, and p1v rejects it.", "quantifier": "all well-formed files and origins, all trailing bytes, all draws of the verifier, machines and batch sizes", "why_tests_cant": "A test compares with one or two wrong origins; the claim is about all of them and about the verifier's random draws.", "anchors": ["phase2/phase2.go:Verify", "phase1/phase1.go:Verify", "phase1/contribution.go:defaultContribution"]}
{"id": "C67", "title": "A contribution record counts only for the circuit it was made for", "statement": "The records of a phase 2 ceremony on the initial file of one circuit are not accepted in a file for another circuit, unless their authors took part in the ceremony for it.", "quantifier": "all pairs of initial files and circuits over the same domain, all ceremonies, all draws of the verifier, machines and batch sizes", "why_tests_cant": "Tests verify files as the tool wrote them; the claim is about files that somebody else makes out of published ones.", "anchors": ["phase2/phase2.go:Verify", "phase2/phase2.go:Contribute", "phase2/contribution.go"]}
{"id": "C68", "title": "The power of the phase 1 file does not matter for phase 2", "statement": "p2n writes the same three files for two phase 1 files that agree in the points the circuit needs, whatever their powers and records are. A response converted by p1t to any two powers that are large enough for the circuit leads to the same files.", "quantifier": "all valid circuits that commit to no private wire, all well-formed phase 1 files and responses (power up to 54), all domains up to 2^27, all machines, trailing bytes and earlier contents of srs.lag and evals", "why_tests_cant": "Tests use one power per circuit; the claim relates runs for all pairs of powers.", "anchors": ["phase2/phase2.go:Initialize", "phase2/lagrange.go", "phase1/phase1.go:Transform"]}
{"id": "C69", "title": "Proofs made with the extracted keys do not depend on the witness", "statement": "With the keys of an honest run with nonzero delta, each valid proof for given public values is made from each satisfying assignment with exactly one choice of the prover's randomness. So proofs from two assignments with the same public values have the same distribution.", "quantifier": "all valid circuits, trapdoors, honest runs with nonzero secrets, satisfying assignments and proofs", "why_tests_cant": "Equality of distributions over all witnesses cannot be sampled in a field of 2^254 elements.", "anchors": ["keys/keys.go:ExtractKeys", "phase2/phase2.go:Initialize", "phase2/phase2.go:Contribute"]}
{"id": "C70", "title": "A rejected verification names the record at fault", "statement": "If some record of a file is not a proven update of the one before it, Verify rejects the file, and the last hash it prints is that of the first such record; the hashes before it are those of the records before. If every record is a proven update, all hashes are printed, also if the file is rejected for another reason behind the records. Phase 2 prints no hash at all if a check before the records fails (shape, delta, Z, PKK).", "quantifier": "all well-formed files with any points and records, in phase 2 without a hash across a boundary of the read buffer; all positions of the record, machines, randomness and trailing bytes", "why_tests_cant": "No test reads the output of a rejected file; the claim covers every position of the record at fault and every kind of fault.", "anchors": ["phase1/phase1.go:Verify", "phase2/phase2.go:Verify"]}
{"id": "C71", "title": "Complete keys in the directory come from one run", "statement": "If ExtractKeys fails, then either neither pk nor vk has been touched, or pk is not a complete proving key and vk has not been touched, or pk is the complete result and vk is empty. So after any sequence of commands, whichever of them fail, a complete pk and a complete vk in the directory were made by one and the same successful extraction. The same holds for one extraction of split keys: on failure .pk.E.save is incomplete, or .vk.save is empty.", "quantifier": "all byte contents of the phase 2 file and of evals whose header counts fit in 32 bits; all sequences of commands that write pk and vk only with key, on a phase 2 file that is not itself named pk; all points of failure", "why_tests_cant": "No test makes an extraction fail, and none looks at what a failed one leaves next to the keys of an earlier run.", "anchors": ["keys/keys.go:ExtractKeys", "keys/keys.go:ExtractSplitKeys", "keys/keys.go:extractPK", "keys/keys.go:extractVK"]}
{"id": "C72", "title": "The encoding of the points in a file makes no difference", "statement": "A file may hold each of its points compressed or uncompressed: the decoder accepts both. Phase1.Verify and Phase1.Contribute give the same result (verdict and message; printed hash and output file) on any two files with the same points and hashes, whatever the encoding of each point and whatever follows; so do ExtractKeys and ExtractSplitKeys for the phase 2 file, and Phase2.Verify and Phase2.Contribute as long as no hash lies across a boundary of the read buffer. Contribute writes all points compressed. False for Phase2.Initialize, which computes positions: from a phase 1 file that the verifier accepts but whose first point is uncompressed it makes, reporting success, parameters in which the last power of τ stands for [α]1. False for phase 2 in general: an honest file that is rejected because a hash lies across a buffer boundary is accepted with [δ]1 uncompressed; every honest file is accepted in one of these two encodings.", "quantifier": "all well-formed phase 1 and phase 2 files, all choices of encodings point by point, all trailing bytes, all batch sizes, schedules and draws", "why_tests_cant": "All files in the tests are written by the tool itself, so every point is compressed; the number of mixed encodings of a file is exponential in its size.", "anchors": ["phase1/phase1.go:Verify", "phase1/phase1.go:Contribute", "phase2/phase2.go:Initialize", "phase2/phase2.go:Contribute", "phase2/phase2.go:Verify", "keys/keys.go:ExtractKeys", "keys/keys.go:ExtractSplitKeys"]}
{"id": "C73", "title": "What a command computes can be computed again from the same files", "statement": "With the same random values every command has the same result, writes the same files and prints the same lines on every machine, whatever the number of CPUs and the schedule of the goroutines, also when it fails; so a whole ceremony repeated elsewhere ends with the same files. The result of a command, and the files it writes if it succeeds, depend on nothing but the files it reads and, for p1c, p1v, p1vt, p2c and p2v, on the random values drawn: not on left-overs of earlier runs in srs.lag, evals or the outputs. So anyone can repeat p1n, p1t, p2n and p2np and compare the files byte by byte. For key and keys this holds for the proving key; the verifying key agrees up to the commitment key at its beginning. False for the whole verifying key: the commitment key is drawn anew in every run, also for circuits without a commitment.", "quantifier": "all commands and arguments, all file systems, all numbers of CPUs and schedules, all draws, all circuits and sizes of the domain, all sequences of commands", "why_tests_cant": "Tests run on one machine with a few schedules and in a clean directory; they cannot range over CPU counts, interleavings and old contents of files.", "anchors": ["main.go:main", "actions.go", "common/parallelize.go:Parallelize", "lagrange/g1.go:ConvertG1", "phase2/phase2.go:Initialize", "phase2/parted.go:InitializeFromPartedR1CS", "keys/keys.go:ExtractKeys", "keys/keys.go:ExtractSplitKeys"]}
{"id": "C74", "title": "A command that is called wrongly fails and leaves every file as it was", "statement": "A command with the wrong number of arguments, an unknown command, and a numeric argument that does not denote a 64-bit decimal number give an error (not a panic) and change no file. If a file that the command reads does not exist, the command fails and changes no file: the inputs of p1c, p1t, p1v, p1vt, p2np (phase 1 file), p2c, p2v (both files), key and keys (also the evaluation file) and sol, and the phase 1 file of p2n. False for the constraint system of p2n: the output file is created, and so emptied, before the constraint system is opened.", "quantifier": "all command names, all argument lists, all file systems, all draws", "why_tests_cant": "The tests call the library functions with paths that exist; they cannot range over command lines and file systems, and do not look at the other files after a failure.", "anchors": ["main.go:main", "actions.go", "phase1/phase1.go:Contribute", "phase2/phase2.go:Initialize", "phase2/utils.go:processHeader", "keys/keys.go:ExportSol"]}
{"id": "C75", "title": "One honest contributor in each phase makes the keys sound", "statement": "Run both phases with any contributors whose secrets are not zero, and single out one contributor of phase 1 (secrets tau, alpha, beta) and one of phase 2 (secret delta). A prover, who may be all the others together, combines the points of the phase 1 file, the proving key and the verifying key linearly, with coefficients that do not depend on the secrets of these two, to the three points of a proof for public values x. If the assignment made of x and of the coefficients of K of the proving key in the third point violates the circuit, then the proof verifies for at most (3*2^p - 2)*m^3 of the m^4 choices of tau, alpha, beta, delta from a set of m values, where p is the power of phase 1. Conversely each satisfying assignment is contained in the coefficients of a prover who succeeds for all secrets.", "quantifier": "for all powers, circuits, contributors before and after the honest ones, machines, old file contents, public values, coefficients of the prover, and finite sets of secrets", "why_tests_cant": "It bounds the success of every prover of this kind over all secrets. A test runs one prover against one ceremony, and a wrong section of the keys (for example a public wire among the points divided by delta) would not make any honest run fail.", "anchors": ["phase1/phase1.go:Contribute", "phase2/phase2.go:Initialize", "phase2/phase2.go:Contribute", "keys/keys.go:ExtractKeys"]}
{"id": "C76", "title": "Keys extracted from accepted phase 2 bytes are those of the proven secrets, whatever the bytes are", "statement": "Let phase 1 be honest and let p2n have produced the phase 2 origin and the evaluations for a circuit. If p2v accepts some bytes against that origin and key extracts keys from the same bytes, then the bytes contain contribution records that prove knowledge of scalars one after the other, starting at the generator, and either there is at least one record, the product delta of the scalars is not 0 and the extracted proving and verifying keys are exactly those of the trapdoor tau, alpha, beta, delta (so every honest proof verifies), or the verifier was lucky: there is one element of Z or of PKK for which, whatever the other random draws, at most one value of its draw leads to acceptance. Nothing is assumed about the bytes: not that they were written by this tool, not how the points are encoded, not where the hashes lie, not what the contribution counter is.", "quantifier": "for all byte sequences submitted as phase 2 file, all honest phase 1 files, circuits, draws of the verifier, batch sizes and schedules", "why_tests_cant": "The space of byte sequences is unbounded; a test can only submit files it knows how to build, while the claim is about every file that happens to pass.", "anchors": ["phase2/phase2.go:165-259", "keys/keys.go:73-238", "keys/keys.go:464-552", "keys/keys.go:658-669"]}
{"id": "C77", "title": "What p2v accepts, whatever the bytes are", "statement": "p2v accepts bytes against an initial phase 2 file if and only if: a header with a number of contributions other than 0 and otherwise the header of the initial file can be read, [delta]1 and [delta]2 follow and fit those of the initial file, each of the sections Z and PKK either can be read completely and passes the random comparison or contains a point that cannot be decoded, and at the place behind them as many records follow as the header says, forming a chain of proven updates from the [delta]1 of the initial file to the [delta]1 read. The records are read with the hash cut at the end of the 4096 byte read buffer. What is read depends on the bytes alone. If Z cannot be decoded and is not longer than a batch, PKK is compared with the first points of Z of the initial file.", "quantifier": "for all byte sequences, all initial files, all draws, batch sizes and schedules", "why_tests_cant": "An equivalence over all byte sequences and all random draws; in particular the sections in which some point is undecodable, and hashes at the end of a read buffer, are cases nobody writes by hand.", "anchors": ["phase2/phase2.go:165-259", "phase2/utils.go:verifyParameter", "phase2/utils.go:aggregate", "phase2/contribution.go:readFrom"]}
{"id": "C78", "title": "What p1v accepts, whatever the bytes are", "statement": "p1v accepts bytes if and only if a header with a power up to 62, the five sections of that power, and as many records as the header says can be read, the records form a chain of proven updates from the origin, and the sections are consistent with the last record. A record that cannot be read completely keeps, from the first unreadable point on, the values of the record before it; if the failed attempt to decode a point leaves other coordinates in its place, the bytes are not accepted. What is read depends on the bytes alone; in accepted bytes it is a well-formed file, and the bytes are accepted on another machine or with other draws exactly if that file is. The number of contributions in the header need not be the number of records in the bytes: one record can be counted up to 65535 times.", "quantifier": "for all byte sequences, all transformed files, all draws, batch sizes, schedules and both readings of MultiExp", "why_tests_cant": "An equivalence over all byte sequences; it includes truncated files, undecodable points and points in the other encoding.", "anchors": ["phase1/phase1.go:275-375", "phase1/contribution.go:ReadFrom", "phase1/utils.go:linearCombinationG1", "phase1/utils.go:linearCombinationG2", "phase1/header.go"]}
{"id": "C79", "title": "A phase 1 ceremony of any length", "statement": "k contributions to a file without contributions all succeed, for every k. The file then holds the powers for the products of all k secrets; its header counts k mod 65536 contributions, whose records are those of the last k mod 65536 contributors; if this is 0 and k is not, 65536 uncounted records follow. p1v, or p1vt with the starting file, accepts it exactly if k mod 65536 is not 0 and the secrets of the contributors before the recorded ones multiply to 1 in each of tau, alpha and beta.", "quantifier": "all k, all draws different from 0, starting files with nonzero secrets of powers 1 to 62, machines, batch sizes of the verifier and its draws", "why_tests_cant": "Needs 65536 and more contributions, for all secrets.", "anchors": ["phase1/header.go:Header", "phase1/phase1.go:Contribute", "phase1/phase1.go:Verify"]}
{"id": "C80", "title": "What p1c and p2c accept and write, whatever the bytes are", "statement": "For any bytes, a contribution succeeds if and only if the bytes begin with a header followed by the points and records it announces, each point in an encoding that decodes (compressed or not) and each hash as far as the file (and, in phase 2, the read buffer) holds it, filled up with zeros. What is read is determined by the bytes, and the output is the contribution to the file read. The verifier reads the same file in these bytes, so for accepted bytes of any form an honest contribution stays acceptable under the same conditions as for files written by the program.", "quantifier": "all byte strings (phase 2: shorter than 2^63), all machines and batch sizes, all drawn secrets, all verifier draws", "why_tests_cant": "All byte strings, not only files produced by the program.", "anchors": ["phase1/phase1.go:Contribute", "phase1/contribution.go:ReadFrom", "phase1/utils.go", "phase2/phase2.go:Contribute", "phase2/contribution.go:readFrom", "phase2/utils.go:scale"]}
{"id": "C81", "title": "A contribution to a file cut short is refused", "statement": "If the tail of a ceremony file is missing (any strict prefix of a well-formed file), p1c and p2c report an error instead of building a contribution on it.", "quantifier": "all files, all truncation points, all drawn secrets", "why_tests_cant": "All truncation points of all files.", "anchors": ["phase1/phase1.go:Contribute", "phase1/contribution.go:ReadFrom", "phase2/phase2.go:Contribute", "phase2/contribution.go:readFrom"]}
{"id": "C82", "title": "p1t: exactly which bytes are converted and what is written, for any bytes and all powers", "statement": "For all bytes and all power bytes a, b: phase1.Transform succeeds if and only if, at the section positions computed for original power a, the bytes hold accepted encodings of 2^(b+1)-1, 2^b, 2^b, 2^b points and one point (none for b >= 63, except the last), and it then writes exactly the phase 1 file of power b without contributions made of these points, which are determined by the bytes. The positions are those of a response for a <= 54; for 55 to 57 every input is refused; from 58 on all sections but the first are read from position 0. The 64 bytes of the challenge hash have no influence. A response with bytes missing at the end is always refused; what is left in the output is a proper beginning of the complete output and no contribution to it succeeds. The command compares the powers as integers and then uses them modulo 256.", "quantifier": "all bytes, all powers, all truncation points, all draws of later contributors", "why_tests_cant": "All byte strings and all powers, including positions that overflow 64 bits.", "anchors": ["phase1/phase1.go:Transform", "phase1/utils.go:transformG1", "phase1/utils.go:transformG2", "actions.go:p1t"]}
{"id": "C83", "title": "key/keys: exactly which bytes the extraction accepts and what it writes, for any bytes", "statement": "For all bytes of a phase 2 file and of an evaluation file: the proving key is extracted if and only if the header can be decoded and announces a domain of 1 to 2^28 points (split extraction: of at least 1) and a non-negative number of witnesses, delta1, delta2, domain-1 points Z and that many points of the witnesses follow in accepted encodings, and the evaluation file begins with alpha1, beta1, beta2 and three slices; the file then holds exactly the key of these points, with the number of wires copied from the header. The verifying key needs only the header, delta1, delta2, the first three points of the evaluation file and two slices at position 128*(wires+1)+12, computed in 64 bits. Cutting the phase 2 file short is refused exactly if a parameter is missing; missing records are never noticed and the keys are the same. Cutting the evaluation file short is refused exactly if a point is missing; the commitment description is never read. The number of wires in the header is not compared with the evaluation file: 2^57 wires too many are accepted and written into the proving key.", "quantifier": "all bytes of both files, all truncation points, all headers", "why_tests_cant": "All byte strings, all encodings of points, all truncation points and 64-bit overflow of positions.", "anchors": ["keys/keys.go:extractPK", "keys/keys.go:extractVK", "keys/keys.go:extractSplitPK", "keys/keys.go:extractSplitVK", "keys/keys.go:ExtractKeys"]}
{"id": "C84", "title": "Which phase 1 bytes an initialisation accepts", "statement": "For any bytes in place of the phase 1 file, p2n and p2np succeed exactly if the bytes have a power that allows the number of constraints and contain, at the positions computed from that power, accepted encodings (compressed or not) of the points the circuit needs; the three files written are then the ones for these points, and nothing else in the bytes has an influence. A truncated phase 1 file is accepted exactly if it contains all parameters: the contributions are never looked at. Powers from 56 on are refused. A file of power 0 is accepted for a circuit with one constraint although the domain needs two powers: points of the following sections are then used as powers of tau, without an error.", "quantifier": "all phase 1 bytes, all valid circuits (with public commitments) and domains, all numbers of CPUs and schedules, all old files", "why_tests_cant": "The bytes are arbitrary: overlapping sections of uncompressed points, wrong powers and every truncation length are covered.", "anchors": ["phase2/phase2.go:15-56", "phase2/utils.go:37-123", "phase2/utils.go:229-275", "phase2/utils.go:561-597", "phase2/parted.go:17-104", "phase2/lagrange.go:13-66"]}
{"id": "C85", "title": "What of the transformed file a verification reads", "statement": "For any input bytes and any bytes as transformed file, p1vt succeeds exactly if the transformed file contains, at five positions computed from its first byte, accepted encodings (compressed or not) of five points, the input holds sections and records, each record is a proven update of the one before it beginning with the five points, and the sections are consistent with the last record. Two transformed files that give the same five points lead to the same outcome for every input, whatever else they contain. A truncated transformed file gives points exactly if it contains all parameters, and then the same ones. In a file of power 0 the first power of alpha is taken for [tau]1 and [beta]2 for [tau]2. Powers from 56 on are refused.", "quantifier": "all input bytes, all bytes of the transformed file, all truncation lengths, all draws, batch sizes, numbers of CPUs and schedules", "why_tests_cant": "Both files are arbitrary bytes, also overlapping uncompressed points and powers whose positions overflow 64 bits.", "anchors": ["phase1/contribution.go:112-191", "phase1/phase1.go:275-375"]}
{"id": "C86", "title": "Of two contributions to the same file only one can be in the ceremony", "statement": "If two contributors run p1c (or p2c) on bytes with the same last hash, in particular on the same file, and different hashes are printed, then for every file accepted by p1v (or p2v) at most one of the two hashes is among those printed by the verification, wherever it stands.", "quantifier": "all input bytes, all secrets, all accepted files of any length (phase 2: all accepted bytes), all draws, batch sizes, numbers of CPUs and schedules", "why_tests_cant": "The accepted file is chosen by an adversary who may reorder, insert and drop records; only an argument about all chains of proofs excludes that both are in it.", "anchors": ["phase1/phase1.go:151-273", "phase1/phase1.go:275-375", "phase1/contribution.go:85-110", "phase2/phase2.go:58-163", "phase2/phase2.go:165-259", "phase2/contribution.go:54-69", "common/keypair.go:16-48"]}
{"id": "C87", "title": "Exactly which circuits an initialisation accepts", "statement": "For any circuit, with any description of its commitment, and any bytes in place of the phase 1 file, p2n and p2np succeed exactly if every wire and coefficient the constraints refer to exists, the commitment description fits, and the bytes supply parameters for the domain. The description fits if there are enough wires and either no private wire is declared as committed and the commitment wire is the first private wire, a public one or none of the wires; or the wires declared as private committed are 0, 1, … in order, behind them there is a private commitment wire, and only one is declared or there are no public wires. Each wire then goes to exactly one of: committed, verifying key, proving key; the three files are stated. If only the circuit is at fault the program crashes. For descriptions in gnark's form the condition is that of C27.", "quantifier": "all circuits with fewer than 2^32 wires and at most 2^27 constraints, all commitment descriptions, all phase 1 bytes, all numbers of CPUs and schedules, all old files", "why_tests_cant": "The index arithmetic of the split depends on all counts and indices at once; odd descriptions are accepted without a message and give keys for a different split.", "anchors": ["phase2/utils.go:65-73", "phase2/utils.go:277-373", "phase2/utils.go:538-559", "phase2/phase2.go:15-56", "phase2/parted.go:17-104"]}
{"id": "C88", "title": "What a truncation changes, for any bytes", "statement": "For any bytes to which a contribution succeeds and in which records are read, there is one place, the start of the hash of the last record: p1c and p2c succeed on a prefix exactly if it contains at least one byte of this hash; the contribution is then the one to the file with zeros instead of the missing bytes of the hash, and equals the contribution to the whole bytes exactly if these are zeros. Without records a contribution to a prefix succeeds exactly if it goes up to the end of the parameters, and is then the same. For any bytes with records, p2v accepts a prefix only if it contains at least one byte of the last hash; of accepted bytes a prefix is accepted exactly if moreover the missing bytes of the hash are zeros.", "quantifier": "all bytes (points in any encoding, hashes across the end of the read buffer, undecodable points in Z and PKK for p2v, trailing bytes; for p2c fewer than 2^63 bytes), all prefixes, contributors, verifiers, initial files, batch sizes, numbers of CPUs and schedules", "why_tests_cant": "Every length of every file is a case of its own, and which one byte is missing at the end is seen or not depending on the value of the byte and on its position in the read buffer.", "anchors": ["phase1/phase1.go:Contribute", "phase1/contribution.go:ReadFrom", "phase2/phase2.go:Contribute", "phase2/contribution.go:readFrom"]}
{"id": "C89", "title": "Extracting the keys leaves the phase 2 file as it was", "statement": "After key <phase2Path> or keys <phase2Path> <session> the file phase2Path has the contents it had before, in particular if the command reports success.", "quantifier": "all paths and sessions, all file contents (any bytes), all outcomes", "why_tests_cant": "It fails only if the phase 2 file has the name of one of the output files, and then depends on how much of the file the buffered reader has loaded when os.Create empties it, and on how much the buffered writer has passed on since.", "anchors": ["keys/keys.go:73-107", "keys/keys.go:240-325", "keys/keys.go:464-499", "keys/keys.go:554-656", "actions.go:149-168"]}
{"id": "C90", "title": "Documented command lines have the number of arguments the program asks for", "statement": "Each command refuses, with the message about arguments and without touching a file, exactly the command lines whose number of arguments is not that of its usage text; and the command lines of the README have these numbers of arguments.", "quantifier": "all commands, all argument lists, all files", "why_tests_cant": "The tests call the functions of the packages, not the command line, and do not read the README.", "anchors": ["main.go:16-100", "actions.go:12-178", "README.md:19-54"]}
{"id": "C91", "title": "Initialisation of phase 2 works whatever the files are called", "statement": "If p2n or p2np reports success, then the file given as phase2Path is a phase 2 file with the header of the circuit, and the file evals holds the evaluations; what is written does not depend on how the phase 1 file, the circuit file and phase2Path are named.", "quantifier": "all paths of the three arguments, all file contents (any bytes), all environments", "why_tests_cant": "The tests use fixed, different names. The commands write srs.lag and evals in the working directory under fixed names; what happens if an argument is one of them depends on the order of os.Create, Seek, reads and flushes on two handles of one file.", "anchors": ["phase2/phase2.go:15-55", "phase2/parted.go:20-62", "phase2/utils.go:37-373", "actions.go:83-125"]}
{"id": "C92", "title": "Commands running at the same time in one directory do not disturb an initialisation", "statement": "While p2n runs, other commands of the tool may run in the same directory, as long as none of their arguments is one of its three files: p2n reports the same result and leaves the same phase 2 file and evaluations as if it ran alone.", "quantifier": "all interleavings of the file operations of p2n with any actions of others, all files and arguments", "why_tests_cant": "The tests run one command at a time. The effect depends on when the other command runs.", "anchors": ["phase2/phase2.go:15-55", "phase2/utils.go:84-123", "phase2/utils.go:125-227", "phase2/utils.go:277-373"]}
{"id": "C93", "title": "Commands running at the same time in one directory do not lead to keys that do not belong together", "statement": "While key or keys runs, other commands of the tool may run in the same directory, as long as none of their arguments names a file it uses: if key reports success, the proving key and the verifying key come from one phase 2 file and one file of evaluations, as if it ran alone.", "quantifier": "all interleavings of the file operations of key and keys with any actions of others, all files and arguments", "why_tests_cant": "The tests run one command at a time. The effect depends on when the other command runs.", "anchors": ["keys/keys.go:73-97", "keys/keys.go:464-490", "keys/keys.go:658-682", "phase2/utils.go:125-227"]}
{"id": "C94", "title": "A command that cannot create one of its output files fails and leaves everything as it was", "statement": "If one of the output files of a command cannot be created (no permission, a directory of that name), the command fails with an error, it does not crash, and all files are as they were before.", "quantifier": "all commands, arguments, files, and all sets of files that cannot be created", "why_tests_cant": "The tests run where everything can be created.", "anchors": ["phase1/phase1.go:24-34", "phase1/phase1.go:88-91", "phase1/phase1.go:153-163", "phase2/phase2.go:16-27", "phase2/utils.go:89-92", "phase2/utils.go:134-137", "phase2/phase2.go:60-72", "keys/keys.go:100-103", "keys/keys.go:267-324", "keys/keys.go:643-647", "keys/keys.go:684-704"]}
{"id": "C95", "title": "An initialisation that was interrupted is not taken for a finished one", "statement": "If p2n or p2np is interrupted at any moment (a signal, a crash of the machine), then the files are as they were before, or complete, or later commands refuse the phase 2 file; and other ceremonies in the directory go on as before.", "quantifier": "all files, circuits and file names, and all moments: after any number of file operations and any number of bytes of the next write", "why_tests_cant": "The tests let every command run to its end.", "anchors": ["phase2/phase2.go:16-54", "phase2/parted.go:18-61", "phase2/utils.go:37-82", "phase2/utils.go:84-123", "phase2/utils.go:125-227", "phase2/utils.go:229-275", "phase2/utils.go:345-373"]}
{"id": "C96", "title": "A command that was interrupted can be run again", "statement": "If a command is interrupted at any moment, any number of times, then nothing but its outputs has changed, each of them holds what it held before or a beginning of what it would have held (for p2n and p2np see C95), and running it once more has the result and leaves exactly the files that it would have had without the interrupted attempts, provided that none of the files it reads is one of its outputs.", "quantifier": "all commands, arguments, files and random values; any number of interrupted attempts, each ending at any moment and with its own random values", "why_tests_cant": "The tests let every command run to its end, in a fresh directory.", "anchors": ["phase1/phase1.go:17-83", "phase1/phase1.go:85-149", "phase1/phase1.go:151-273", "phase2/phase2.go:15-56", "phase2/phase2.go:58-163", "phase2/utils.go:84-92", "phase2/utils.go:125-137", "keys/keys.go:262-324", "keys/keys.go:658-704"]}
{"id": "C97", "title": "A contribution that was interrupted is not taken for a finished one", "statement": "If p1c or p2c is interrupted after it has created its output and before the output is complete, then later commands (the next p1c or p2c, and key) refuse that output.", "quantifier": "all well-formed input files, random values and file names, and all numbers of bytes written before the interrupt", "why_tests_cant": "The tests let every contribution run to its end.", "anchors": ["phase1/phase1.go:151-273", "phase2/phase2.go:58-163", "keys/keys.go:73-103", "keys/keys.go:658-669"]}
