{
 "claims": [
  {
   "property": "C01",
   "status": "proved",
   "theorems": [
    "ZkSetup.C01_parallelize_partition",
    "ZkSetup.C01_no_work",
    "ZkSetup.C01_zero_tasks_panics"
   ],
   "note": ""
  },
  {
   "property": "C02",
   "status": "proved",
   "theorems": [
    "ZkSetup.C02_parallel_loop",
    "ZkSetup.C02_batchMul",
    "ZkSetup.C02_randomize",
    "ZkSetup.C02_fft_no_panic"
   ],
   "note": ""
  },
  {
   "property": "C03",
   "status": "proved",
   "theorems": [
    "ZkSetup.C03_bitReverse_index",
    "ZkSetup.C03_bitReverse_involutive",
    "ZkSetup.C03_bitReverse_perm"
   ],
   "note": ""
  },
  {
   "property": "C04",
   "status": "proved",
   "theorems": [
    "ZkSetup.C04_concurrent_bitReverse",
    "ZkSetup.C04_workers_disjoint"
   ],
   "note": ""
  },
  {
   "property": "C05",
   "status": "proved",
   "theorems": [
    "ZkSetup.C05_initialize",
    "ZkSetup.C05_initialize_encode"
   ],
   "note": ""
  },
  {
   "property": "C06",
   "status": "partial",
   "theorems": [
    "ZkSetup.C06_counter_partial",
    "ZkSetup.C06_counter_wraps"
   ],
   "note": "Holds for up to 65535 contributions; refuted for 65536 (uint16 counter wraps to 0)."
  },
  {
   "property": "C07",
   "status": "proved",
   "theorems": [
    "ZkSetup.C07_header_roundtrip",
    "ZkSetup.C07_contribution_roundtrip",
    "ZkSetup.C07_phase2_roundtrip"
   ],
   "note": "For records read without straddling the read buffer; see C43 for the other case."
  },
  {
   "property": "C08",
   "status": "proved",
   "theorems": [
    "ZkSetup.C08_scaleG1",
    "ZkSetup.C08_scaleG2",
    "ZkSetup.C08_phase2_scale"
   ],
   "note": ""
  },
  {
   "property": "C09",
   "status": "proved",
   "theorems": [
    "ZkSetup.C09_ceremony_powers"
   ],
   "note": ""
  },
  {
   "property": "C10",
   "status": "proved",
   "theorems": [
    "ZkSetup.C10_contribute_preserves_history"
   ],
   "note": ""
  },
  {
   "property": "C11",
   "status": "proved",
   "theorems": [
    "ZkSetup.C11_honest_accepted",
    "ZkSetup.C11_truncate_rejects"
   ],
   "note": "For gnark-crypto's documented MultiExp (error on length mismatch). If MultiExp truncated instead, honest files with tau^2 != 1 would be rejected for some verifier randomness (C11_truncate_rejects): the arguments of the TauG2 check are swapped."
  },
  {
   "property": "C12",
   "status": "proved",
   "theorems": [
    "ZkSetup.C12_transformed_accepted"
   ],
   "note": ""
  },
  {
   "property": "C13",
   "status": "partial",
   "theorems": [
    "ZkSetup.C13_chain_partial",
    "ZkSetup.C13_any_input_partial",
    "ZkSetup.C13_scalars_unique",
    "ZkSetup.C13_final_partial",
    "ZkSetup.C13_g2_unbound"
   ],
   "note": "The G2 update is only bound if the proof's S is not the identity; refuted otherwise (C13_g2_unbound)."
  },
  {
   "property": "C14",
   "status": "partial",
   "theorems": [
    "ZkSetup.C14_sections_unchecked",
    "ZkSetup.C14_false",
    "ZkSetup.C14_tauG1_partial",
    "ZkSetup.C14_alphaG1_partial",
    "ZkSetup.C14_betaG1_partial"
   ],
   "note": "False: the consistency checks of the sections are vacuous because the MultiExp error is ignored. The partial theorems count the accepting randomness within a batch if MultiExp truncated."
  },
  {
   "property": "C15",
   "status": "partial",
   "theorems": [
    "ZkSetup.C15_no_contributions_partial",
    "ZkSetup.C15_initial_rejected",
    "ZkSetup.C15_identity_file_accepted"
   ],
   "note": "Rejected unless betaG2 is the identity; the all-identity file without contributions is accepted."
  },
  {
   "property": "C16",
   "status": "partial",
   "theorems": [
    "ZkSetup.C16_history_partial",
    "ZkSetup.C16_any_length_partial",
    "ZkSetup.C16_degenerate_unbound",
    "ZkSetup.C16_bytes_partial"
   ],
   "note": "Proved for nondegenerate records without collisions among the hashes in the files; refuted for contributions with all secrets or blinding values 0, which are not tied to the previous hash. For any accepted bytes (C16_bytes_partial)."
  },
  {
   "property": "C17",
   "status": "partial",
   "theorems": [
    "ZkSetup.C17_length_partial",
    "ZkSetup.C17_truncated_partial",
    "ZkSetup.C17_zero_tail_accepted",
    "ZkSetup.C17_degenerate_accepted"
   ],
   "note": "A prefix of an accepted nondegenerate file is accepted only if at most 32 zero bytes are missing; refuted for hashes ending in zero bytes and for repeated degenerate records."
  },
  {
   "property": "C18",
   "status": "proved",
   "theorems": [
    "ZkSetup.C18_transform",
    "ZkSetup.C18_powers",
    "ZkSetup.C18_overflow"
   ],
   "note": "For original powers up to 54; a larger response has more than 2^63 bytes. C18_overflow: what the code does with original powers from 58 on, where 64-bit positions overflow."
  },
  {
   "property": "C19",
   "status": "partial",
   "theorems": [
    "ZkSetup.C19_p1n_partial",
    "ZkSetup.C19_negative_accepted"
   ],
   "note": "False: p1n accepts every negative power (given after --) and writes it modulo 256 (C19_negative_accepted). Proved for all other arguments: exactly 0..26 is accepted, the power in the file is the argument, and nothing is created otherwise."
  },
  {
   "property": "C20",
   "status": "proved",
   "theorems": [
    "ZkSetup.C20_offsets",
    "ZkSetup.C05_initialize_encode",
    "ZkSetup.C10_contribute_preserves_history",
    "ZkSetup.C18_transform"
   ],
   "note": "Writers produce the structured file, readers find each section in it."
  },
  {
   "property": "C21",
   "status": "proved",
   "theorems": [
    "ZkSetup.C21_domain",
    "ZkSetup.C21_fits",
    "ZkSetup.C21_power_zero"
   ],
   "note": "For power >= 1 as stated; C21_power_zero shows that the hypothesis is needed."
  },
  {
   "property": "C22",
   "status": "proved",
   "theorems": [
    "ZkSetup.C22_convert_idft"
   ],
   "note": ""
  },
  {
   "property": "C23",
   "status": "proved",
   "theorems": [
    "ZkSetup.C23_lagrange_basis"
   ],
   "note": ""
  },
  {
   "property": "C24",
   "status": "proved",
   "theorems": [
    "ZkSetup.C24_evaluations",
    "ZkSetup.C24_interpolates",
    "ZkSetup.C24_C25_any_circuit"
   ],
   "note": "For every power of the phase 1 file and domain up to 2^27; the FFT domain's generator is assumed to be a primitive root."
  },
  {
   "property": "C25",
   "status": "proved",
   "theorems": [
    "ZkSetup.C25_z",
    "ZkSetup.C24_C25_any_circuit"
   ],
   "note": ""
  },
  {
   "property": "C26",
   "status": "proved",
   "theorems": [
    "ZkSetup.C26_split",
    "ZkSetup.C26_values"
   ],
   "note": ""
  },
  {
   "property": "C27",
   "status": "partial",
   "theorems": [
    "ZkSetup.C27_public_commitment_partial",
    "ZkSetup.C27_private_commitment_aborts",
    "ZkSetup.C27_commitment_index_aborts",
    "ZkSetup.C27_only_public_commitment",
    "ZkSetup.C57_initialize_exact",
    "ZkSetup.C87_crash"
   ],
   "note": "False: initialisation never succeeds for a circuit that commits to a private wire, or whose commitment wire does not directly follow the public ones. With a well-formed phase 1 file it panics for exactly these and for ill-formed circuits (C57_initialize_exact). All other descriptions of commitments: C87."
  },
  {
   "property": "C28",
   "status": "proved",
   "theorems": [
    "ZkSetup.C28_header_roundtrip",
    "ZkSetup.C28_counts",
    "ZkSetup.C28_header_format"
   ],
   "note": ""
  },
  {
   "property": "C29",
   "status": "partial",
   "theorems": [
    "ZkSetup.C29_contribute_partial",
    "ZkSetup.C29_first_contribution",
    "ZkSetup.C29_straddle_corrupts"
   ],
   "note": "Holds if no record hash of the input straddles the 4096 byte read buffer; refuted otherwise."
  },
  {
   "property": "C30",
   "status": "proved",
   "theorems": [
    "ZkSetup.C30_parameters",
    "ZkSetup.C30_ceremony_partial"
   ],
   "note": "C30_parameters is the full statement: parameters and counter after every sequence of successful contributions. C30_ceremony_partial also gives the records, if no record hash straddles the 4096 byte read buffer."
  },
  {
   "property": "C31",
   "status": "partial",
   "theorems": [
    "ZkSetup.C31_honest_accepted_partial",
    "ZkSetup.C31_aligned_accepted_partial",
    "ZkSetup.C31_by_circuit_partial",
    "ZkSetup.C31_unaligned_rejected",
    "ZkSetup.C31_straddle_rejected",
    "ZkSetup.Toy.straddle_rejected"
   ],
   "note": "Decided by where the records of the circuit's file begin modulo 64: up to 24 honest ceremonies of every length are accepted, up to 32 those with at most 63 contributions; from 33 to 62 an honest ceremony is rejected at one of the first 64 contributions (unless that hash ends in a zero byte). So the property is false."
  },
  {
   "property": "C32",
   "status": "proved",
   "theorems": [
    "ZkSetup.C32_chain",
    "ZkSetup.C32_records"
   ],
   "note": ""
  },
  {
   "property": "C33",
   "status": "partial",
   "theorems": [
    "ZkSetup.C33_z_partial",
    "ZkSetup.C33_pkk_partial",
    "ZkSetup.C33_z_count_partial",
    "ZkSetup.C33_zero_delta_partial",
    "ZkSetup.C34_undecodable_accepted",
    "ZkSetup.C76_z",
    "ZkSetup.C76_pkk"
   ],
   "note": "For files whose parameters decode, whatever the encoding and the records (C76_z, C76_pkk); refuted for files with undecodable points (C34_undecodable_accepted)."
  },
  {
   "property": "C34",
   "status": "partial",
   "theorems": [
    "ZkSetup.C34_decodable_partial",
    "ZkSetup.C34_undecodable_accepted",
    "ZkSetup.C34_missing_partial",
    "ZkSetup.C77_exact",
    "ZkSetup.C77_wrong_pkk"
   ],
   "note": "False: undecodable Z and PKK are accepted. Header, deltas and records do have to decode, and a file ending inside the parameters is rejected."
  },
  {
   "property": "C35",
   "status": "partial",
   "theorems": [
    "ZkSetup.C35_history_partial",
    "ZkSetup.C35_any_length_partial",
    "ZkSetup.C35_degenerate_unbound",
    "ZkSetup.C35_bytes_partial"
   ],
   "note": "Proved, for any accepted bytes, for nondegenerate records without collisions among the hashes in the files; refuted for records with all values 0."
  },
  {
   "property": "C36",
   "status": "partial",
   "theorems": [
    "ZkSetup.C36_shape",
    "ZkSetup.C36_has_contribution_partial",
    "ZkSetup.C36_negative_count_accepted"
   ],
   "note": "Shape and zero count are rejected; refuted for a negative count."
  },
  {
   "property": "C37",
   "status": "proved",
   "theorems": [
    "ZkSetup.C37_proving_key",
    "ZkSetup.C37_C38_extractKeys"
   ],
   "note": "For every circuit for which initialisation succeeds and ceremonies whose contributions all succeed; the FFT domain's generator is assumed to be a primitive root."
  },
  {
   "property": "C38",
   "status": "proved",
   "theorems": [
    "ZkSetup.C38_verifying_key",
    "ZkSetup.C37_C38_extractKeys"
   ],
   "note": "As C37. The commitment key is opaque bytes drawn by pedersen.Setup."
  },
  {
   "property": "C39",
   "status": "partial",
   "theorems": [
    "ZkSetup.C39_partial",
    "ZkSetup.C39_files_partial",
    "ZkSetup.C39_command_partial",
    "ZkSetup.C39_command_files_partial",
    "ZkSetup.C39_honest",
    "ZkSetup.C39_large_domain",
    "ZkSetup.C39_large_domain_panics"
   ],
   "note": "For all pairs of files whose header does not declare a domain over 2^28; refuted for those, where plain extraction panics and split extraction succeeds. Commitment keys are drawn per run and hence only compared by position."
  },
  {
   "property": "C40",
   "status": "proved",
   "theorems": [
    "ZkSetup.C40_filter",
    "ZkSetup.C40_maps_agree"
   ],
   "note": ""
  },
  {
   "property": "C41",
   "status": "proved",
   "theorems": [
    "ZkSetup.C41_complete",
    "ZkSetup.C41_violating_rejected"
   ],
   "note": "As C37, for nonzero secrets. The prover and verifier are those of the Groth16 specification in Spec/Keys.lean; the hash to the commitment wire of circuits with a public commitment is not modelled, its value is part of the assignment."
  },
  {
   "property": "C42",
   "status": "partial",
   "theorems": [
    "ZkSetup.C42_one_honest_partial",
    "ZkSetup.C42_zero_secret_wins",
    "ZkSetup.C42_phase2_partial"
   ],
   "note": "Needs nonzero secrets of the others, which Verify does not enforce."
  },
  {
   "property": "C43",
   "status": "partial",
   "theorems": [
    "ZkSetup.C43_phase1",
    "ZkSetup.C43_straddle_misread",
    "ZkSetup.C43_aligned",
    "ZkSetup.C43_unaligned"
   ],
   "note": "Holds in phase 1; in phase 2 exactly for files whose records begin at most 32 bytes after a multiple of 64, otherwise one of the first 64 hashes is misread."
  },
  {
   "property": "C44",
   "status": "proved",
   "theorems": [
    "ZkSetup.C44_parted",
    "ZkSetup.C44_command"
   ],
   "note": ""
  },
  {
   "property": "C45",
   "status": "partial",
   "theorems": [
    "ZkSetup.C45_frame_partial",
    "ZkSetup.C45_input_unchanged_partial",
    "ZkSetup.C45_p1c_same_path",
    "ZkSetup.C45_p2c_same_path",
    "ZkSetup.C45_p1t_same_path",
    "ZkSetup.C45_p2n_same_path"
   ],
   "note": "False if input and output are the same path: the file is destroyed (the four same_path theorems). Otherwise no command changes a file that is not one of its outputs."
  },
  {
   "property": "C46",
   "status": "partial",
   "theorems": [
    "ZkSetup.C46_keys_partial",
    "ZkSetup.C46_wrong_evals",
    "ZkSetup.C46_false"
   ],
   "note": "False: evals is overwritten by a later p2n, and key then silently writes keys mixed from two circuits (C46_wrong_evals in general, C46_false concretely). Proved for every history in which no later command writes evals."
  },
  {
   "property": "C47",
   "status": "partial",
   "theorems": [
    "ZkSetup.C47_phase1_partial",
    "ZkSetup.C47_phase2_partial",
    "ZkSetup.C17_zero_tail_accepted",
    "ZkSetup.C17_degenerate_accepted",
    "ZkSetup.C54_zero_tail_accepted"
   ],
   "note": "Any strict prefix of the output of Contribute is accepted only if at most 32 (phase 1) or 31 (phase 2) zero bytes are missing. Refuted for hashes ending in zero bytes, and in phase 1 for repeated degenerate records."
  },
  {
   "property": "C48",
   "status": "partial",
   "theorems": [
    "ZkSetup.C48_phase1_partial",
    "ZkSetup.C48_phase1_exact",
    "ZkSetup.C48_phase1_false",
    "ZkSetup.C48_phase1_header_only",
    "ZkSetup.C48_phase2_partial",
    "ZkSetup.C48_phase2_exact",
    "ZkSetup.C48_phase2_false"
   ],
   "note": "False: the error of writing the new record and of the last flush is ignored. Exact condition for success being reported; when reported at most 4736 (phase 1) or 4288 (phase 2) bytes are missing, and Verify rejects the incomplete file unless only zero bytes of the last hash are missing."
  },
  {
   "property": "C49",
   "status": "proved",
   "theorems": [
    "ZkSetup.C49_verify_suffix",
    "ZkSetup.C49_contribute_suffix",
    "ZkSetup.C49_phase2_contribute_suffix",
    "ZkSetup.C49_phase2_verify_suffix"
   ],
   "note": ""
  },
  {
   "property": "C50",
   "status": "partial",
   "theorems": [
    "ZkSetup.C50_nonzero_partial",
    "ZkSetup.C50_zero_secret_accepted"
   ],
   "note": "False: zero secrets are accepted."
  },
  {
   "property": "C51",
   "status": "partial",
   "theorems": [
    "ZkSetup.C51_constraints_dropped",
    "ZkSetup.C51_violating_accepted",
    "ZkSetup.C44_parted"
   ],
   "note": "False: with a smaller count the files are those of the circuit cut after nbCons constraints, and the keys accept assignments that violate the others. With the correct count C44_parted applies."
  },
  {
   "property": "C52",
   "status": "partial",
   "theorems": [
    "ZkSetup.C52_ceremony_partial",
    "ZkSetup.C52_phase1_partial",
    "ZkSetup.C52_transformed_partial",
    "ZkSetup.C52_phase2_partial",
    "ZkSetup.C52_split_partial",
    "ZkSetup.C52_parted_partial",
    "ZkSetup.C52_phase1_exact",
    "ZkSetup.C52_power_zero"
   ],
   "note": "False for power 0, where the first p1c crashes (C52_power_zero), for 65536 and more phase 1 contributions, unless the secrets cancel out (C52_phase1_exact: exact condition), for circuits whose hashes straddle the read buffer (C31), and if MultiExp truncates (C11_truncate_rejects). Also false without any contribution: p1v and p2v reject. Proved for all other ceremonies on supported circuits whose files do not collide and whose phase 2 draws are not 0."
  },
  {
   "property": "C53",
   "status": "proved",
   "theorems": [
    "ZkSetup.C53_verify_commands",
    "ZkSetup.C53_missing_input",
    "ZkSetup.C53_missing_origin"
   ],
   "note": ""
  },
  {
   "property": "C54",
   "status": "partial",
   "theorems": [
    "ZkSetup.C54_truncated_partial",
    "ZkSetup.C54_zero_tail_accepted",
    "ZkSetup.C34_missing_partial"
   ],
   "note": "A prefix of an accepted file without a hash across a buffer boundary is accepted only if at most 31 zero bytes are missing; files ending inside header or parameters are always rejected. Refuted for last hashes ending in zero bytes. For any bytes, with hashes anywhere: C88_p2v."
  },
  {
   "property": "C55",
   "status": "partial",
   "theorems": [
    "ZkSetup.C55_initialize_exact",
    "ZkSetup.C55_initialize_false",
    "ZkSetup.C55_initialize_partial",
    "ZkSetup.C55_transform_exact",
    "ZkSetup.C55_transform_false",
    "ZkSetup.C55_transform_partial",
    "ZkSetup.C55_deferred_flush_false",
    "ZkSetup.C55_pk_partial",
    "ZkSetup.C55_vk_partial",
    "ZkSetup.C55_keys_partial",
    "ZkSetup.C55_keys_false",
    "ZkSetup.C55_keys_honest_false",
    "ZkSetup.C55_splitPK_partial",
    "ZkSetup.C55_splitVK_partial",
    "ZkSetup.C55_splitKeys_partial",
    "ZkSetup.C55_splitKeys_false",
    "ZkSetup.C55_splitKeys_honest_false",
    "ZkSetup.C55_p2n_exact",
    "ZkSetup.C55_p2n_partial",
    "ZkSetup.C55_p2n_false",
    "ZkSetup.C55_p2np_exact",
    "ZkSetup.C55_p2np_partial",
    "ZkSetup.C55_p2np_false",
    "ZkSetup.C55_p2n_room",
    "ZkSetup.C55_p2np_room"
   ],
   "note": "False: p1n up to power 12 reports success on a full disk with an empty file, p1t up to power 6 with only the header written. Exact conditions proved. key and keys on every honest run with few public wires report success with an empty verifying key; proved: a key file reported as written lacks at most 4096 bytes, and the commitment key none. Every p2n and p2np reports success with the last byte of the phase 2 file or of evals missing, small circuits with the header only; proved: then srs.lag is complete, the phase 2 file lacks at most 8192 bytes and evals at most 4096; exact conditions if the messages of the commitment info have at most 4096 bytes. With enough room, initialisation does the same as without a disk for every input, also when it fails."
  },
  {
   "property": "C56",
   "status": "partial",
   "theorems": [
    "ZkSetup.C56_phase1_exact",
    "ZkSetup.C56_phase1_partial",
    "ZkSetup.C56_phase1_poisoned",
    "ZkSetup.C56_phase2_partial",
    "ZkSetup.C56_phase2_blocked"
   ],
   "note": "False: phase 1 Verify does not compare the start of the sections with the last record, so replacing [tau]1 by any other point keeps the file accepted but makes every later ceremony rejected; in phase 2 an accepted file with undecodable Z makes every Contribute fail. Proved: the exact condition in phase 1, and in phase 2 that a contribution to a well-formed file is accepted iff the file was."
  },
  {
   "property": "C57",
   "status": "partial",
   "theorems": [
    "ZkSetup.C57_p1_verify",
    "ZkSetup.C57_p1_contribute",
    "ZkSetup.C57_p1_transform",
    "ZkSetup.C57_p2_contribute",
    "ZkSetup.C57_p2_contribute_crashes",
    "ZkSetup.C57_p2_contribute_wellformed",
    "ZkSetup.C57_p2_verify_counts",
    "ZkSetup.C57_p2_verify",
    "ZkSetup.C57_proving_keys",
    "ZkSetup.C57_proving_keys_wellformed",
    "ZkSetup.C57_verifying_keys",
    "ZkSetup.C57_initialize_partial",
    "ZkSetup.C57_parted_partial",
    "ZkSetup.C57_exec_partial",
    "ZkSetup.C57_p2np",
    "ZkSetup.C57_p1n_then_p1c",
    "ZkSetup.C57_sol_missing",
    "ZkSetup.C57_initialize_exact",
    "ZkSetup.C57_p2n_exact",
    "ZkSetup.C57_too_many_constraints",
    "ZkSetup.C87_crash",
    "ZkSetup.C87_p2n"
   ],
   "note": "False: a phase 1 file with power 63 or more crashes p1v, p1vt and p1c; power 0, which p1n accepts, crashes p1c; phase 2 headers with bad counts crash p2c; sol crashes without a verifying key. Proved: exact conditions for phase 1, all causes for phase 2, keys and every command; p2n with a well-formed phase 1 file succeeds exactly for supported circuits and crashes for all others (commitment to a private wire, commitment wire elsewhere, wires or coefficients that do not exist, more than 2^27 constraints). Commitment descriptions that gnark would not produce: C87. Missing: Go's panics on huge allocations."
  },
  {
   "property": "C58",
   "status": "partial",
   "theorems": [
    "ZkSetup.C58_same_programs",
    "ZkSetup.C58_p1_initialize",
    "ZkSetup.C58_p1_contribute",
    "ZkSetup.C58_p2_contribute",
    "ZkSetup.C58_p1_report",
    "ZkSetup.C58_p2_report",
    "ZkSetup.C58_p1_verify",
    "ZkSetup.C58_p1_verify_any",
    "ZkSetup.C58_p2_verify",
    "ZkSetup.C58_p2_verify_any",
    "ZkSetup.C58_p1_contribute_numbers",
    "ZkSetup.C58_p1_verify_numbers",
    "ZkSetup.C58_p2_contribute_numbers",
    "ZkSetup.C58_p2_verify_numbers",
    "ZkSetup.C58_p2_file_numbers",
    "ZkSetup.C58_p1_numbered",
    "ZkSetup.C58_p2_numbered",
    "ZkSetup.C58_p2_verify_bytes",
    "ZkSetup.C58_p1_verify_bytes",
    "ZkSetup.C58_p1_accepted_bytes",
    "ZkSetup.C58_p1_printed_twice"
   ],
   "note": "Everything for arbitrary bytes and all outcomes. False for rejected phase 1 bytes: a record cut before its hash, or counted in the header but not there, is printed with the hash of the record before it (C58_p1_printed_twice, F30). C58_p1_verify_bytes says exactly which hashes are printed."
  },
  {
   "property": "C59",
   "status": "partial",
   "theorems": [
    "ZkSetup.C59_phase1_kept",
    "ZkSetup.C59_phase1_attested_partial",
    "ZkSetup.C59_phase1_secret_included",
    "ZkSetup.C59_phase1_points_not_pinned",
    "ZkSetup.C59_phase2_kept",
    "ZkSetup.C59_phase2_attested_partial",
    "ZkSetup.C59_phase2_secret_included",
    "ZkSetup.C59_phase2_kept_bytes",
    "ZkSetup.C59_phase2_attested_bytes_partial",
    "ZkSetup.C59_phase2_secret_bytes",
    "ZkSetup.C59_phase1_kept_bytes",
    "ZkSetup.C59_phase1_attested_bytes_partial",
    "ZkSetup.C59_phase1_secret_bytes"
   ],
   "note": "Proved under explicit absence of collisions among the hashes in the two files: kept hashes fix the earlier records, an attested hash fixes a step by the contributor's secrets, and for nondegenerate records everything before. False: the printed hashes do not determine the phase 1 parameters (F1). Both phases for any accepted bytes."
  },
  {
   "property": "C60",
   "status": "partial",
   "theorems": [
    "ZkSetup.C60_never_set",
    "ZkSetup.C60_lost",
    "ZkSetup.C60_no_commitment_partial"
   ],
   "note": "False: vk.CommitmentInfo is never set, so for every circuit with a commitment the key describes no commitment, although it has a point for the commitment wire. Proved for all input files that the description is that of no commitment, and that this is right for circuits without one. Missing: nothing beyond the gob format of the description, which is abstract."
  },
  {
   "property": "C61",
   "status": "partial",
   "theorems": [
    "ZkSetup.C61_phase1_length_partial",
    "ZkSetup.C61_phase1_exact",
    "ZkSetup.C61_phase1_false",
    "ZkSetup.C61_phase2_params_partial",
    "ZkSetup.C61_phase2_exact",
    "ZkSetup.C61_phase2_false"
   ],
   "note": "False: if 1 to 31 bytes of the last hash are missing, Contribute reports success, writes zeros for them, and the output is never accepted (unless the missing bytes are zero). All other strict prefixes of well-formed files are refused: exact condition for both phases, in phase 2 for files without a hash across a buffer boundary. Phase 1 also for arbitrary bytes. For any bytes, with hashes anywhere: C88."
  },
  {
   "property": "C62",
   "status": "partial",
   "theorems": [
    "ZkSetup.C62_takeover",
    "ZkSetup.C62_false",
    "ZkSetup.C62_ceremony_false",
    "ZkSetup.C62_phase2_partial",
    "ZkSetup.C76_keys"
   ],
   "note": "False: the parameters of any accepted phase 1 file can be exchanged for those of an outsider's own tau and alpha; it stays accepted, phase 2 and key extraction succeed, honest proofs verify, and the outsider forges proofs for every public input without any secret of a contributor. Proved for honest phase 1 files: an accepted well-formed phase 2 file gives the keys of the trapdoor with the delta proved in its records, or at most one value of some draw accepts. For arbitrary phase 2 bytes the same holds once key extraction has succeeded (C76_keys). Missing: a way to repair phase 1, where the property is false."
  },
  {
   "property": "C63",
   "status": "partial",
   "theorems": [
    "ZkSetup.C63_same_programs",
    "ZkSetup.C63_success_partial",
    "ZkSetup.C63_p1n_figures",
    "ZkSetup.C63_p1t_lines",
    "ZkSetup.C63_p1t_false",
    "ZkSetup.C63_p2n_figures",
    "ZkSetup.C63_p2np_figures"
   ],
   "note": "Proved for every command with a line of success, on all arguments and files. False for p1t, which has none: it prints the same lines whether its last section can be read or not. Figures: for constraint systems whose counts are below 2^62. Missing: nothing else; a full disk is C55-C57."
  },
  {
   "property": "C64",
   "status": "partial",
   "theorems": [
    "ZkSetup.C64_p1n",
    "ZkSetup.C64_p1c_any",
    "ZkSetup.C64_p1c_partial",
    "ZkSetup.C64_p1c_continues",
    "ZkSetup.C64_p1c_wraps",
    "ZkSetup.C64_p1t_partial",
    "ZkSetup.C64_p1t_false",
    "ZkSetup.C64_p2c_partial",
    "ZkSetup.C64_p2c_false",
    "ZkSetup.C64_p2n",
    "ZkSetup.C64_p2np",
    "ZkSetup.C64_lag_documented"
   ],
   "note": "Proved for arbitrary input bytes. False: at 65535 contributions in phase 1 (the counter wraps), p1t to powers from 63 on, p2c on a negative counter; srs.lag has the documented size only if the domain has the size of the phase 1 power. Circuits with fewer than 2^62 wires; p2np with a number of constraints that is not negative."
  },
  {
   "property": "C65",
   "status": "proved",
   "theorems": [
    "ZkSetup.C65_phase1",
    "ZkSetup.C65_phase2",
    "ZkSetup.C65_keys"
   ],
   "note": "While the counters have room (65535 in phase 1)."
  },
  {
   "property": "C66",
   "status": "partial",
   "theorems": [
    "ZkSetup.C66_phase2_partial",
    "ZkSetup.C66_intermediate_partial",
    "ZkSetup.C66_phase2_z_partial",
    "ZkSetup.C66_phase2_pkk_partial",
    "ZkSetup.C66_phase1_partial",
    "ZkSetup.C66_phase1_false",
    "ZkSetup.C66_bytes_partial",
    "ZkSetup.C66_bytes_z_partial",
    "ZkSetup.C66_bytes_pkk_partial",
    "ZkSetup.C66_universal_phase1",
    "ZkSetup.C66_universal_phase2",
    "ZkSetup.C66_universal_phase2_one"
   ],
   "note": "False in phase 1: p1vt reads five points of the transformed file, so files of any power with arbitrary other points give the same outcome (F24). Proved, if the proof in the first record is not degenerate: the origins agree in those points (phase 1), in shape and [delta]1 (phase 2), so intermediate files are rejected. Initial files that differ in a point of Z or PKK: against one of the two at most one value of the draw for that point accepts. Phase 2 for any accepted bytes (C66_bytes_partial). False for degenerate first records (F31): for every power a phase 1 file with one contribution is accepted by p1v and with every transformed file that can be read; in phase 2 bytes with no point of Z or PKK are accepted against every initial file of the shape."
  },
  {
   "property": "C67",
   "status": "partial",
   "theorems": [
    "ZkSetup.C67_false",
    "ZkSetup.C67_circuit_false",
    "ZkSetup.C67_secret_partial",
    "ZkSetup.C67_secret_bytes_partial"
   ],
   "note": "False: the first challenge is the empty hash, so the records are bound to no circuit (F25). If the PKK of another initial file over the same domain are linear combinations of those of the first, anybody moves the records to it; for circuits: if private wires are merged or renamed. The hashes printed are the same. Proved: accepted files with the same records have the same [delta]1 and [delta]2, so the secrets of the contributors move along. For any accepted bytes (C67_secret_bytes_partial)."
  },
  {
   "property": "C68",
   "status": "proved",
   "theorems": [
    "ZkSetup.C68_prefix",
    "ZkSetup.C68_transform"
   ],
   "note": "For valid circuits that commit to no private wire (the others are C27) and domains up to 2^27."
  },
  {
   "property": "C69",
   "status": "proved",
   "theorems": [
    "ZkSetup.C69_uniform",
    "ZkSetup.C69_indistinguishable",
    "ZkSetup.C69_zero_delta"
   ],
   "note": "The prover and the verification equation are those of Groth16 (Spec/Keys), gnark's code is not modelled. C69_zero_delta shows why delta must not be zero."
  },
  {
   "property": "C70",
   "status": "proved",
   "theorems": [
    "ZkSetup.C70_p1_names",
    "ZkSetup.C70_p1_all",
    "ZkSetup.C70_p2_names",
    "ZkSetup.C70_p2_all"
   ],
   "note": "If the hash of a record lies across a boundary of the read buffer, phase 2 verification does not read it correctly (C31), hence the condition."
  },
  {
   "property": "C71",
   "status": "proved",
   "theorems": [
    "ZkSetup.C71_failed",
    "ZkSetup.C71_split_failed",
    "ZkSetup.C71_step",
    "ZkSetup.C71_session",
    "ZkSetup.C71_start"
   ],
   "note": "The session theorem is for pk and vk; split keys are covered for one extraction. A key counts as complete if its bytes are gnark's encoding of some key. The counts in the header of the phase 2 file are at most 2^32, the FFT domain has a fixed number of bytes, and the phase 2 file is not named pk (otherwise the extraction overwrites its own input). Failures of writes are not part of this statement; they are C55."
  },
  {
   "property": "C72",
   "status": "partial",
   "theorems": [
    "ZkSetup.C72_p1_verify",
    "ZkSetup.C72_p1_contribute",
    "ZkSetup.C72_p1_accepted",
    "ZkSetup.C72_p1_compressed",
    "ZkSetup.C72_p1_uncompressed",
    "ZkSetup.C72_p2_verify_partial",
    "ZkSetup.C72_p2_contribute_partial",
    "ZkSetup.C72_p2_accept_partial",
    "ZkSetup.C72_p2_accepted",
    "ZkSetup.C72_p2_one_of_two",
    "ZkSetup.C72_p2_compressed",
    "ZkSetup.C72_p2_params_compressed",
    "ZkSetup.C72_keys",
    "ZkSetup.Toy.C72_p2n_false",
    "ZkSetup.Toy.C72_p2_false"
   ],
   "note": "Full for phase 1 and for the keys. In phase 2 only for encodings in which no hash lies across a 4096-byte boundary, and false without that condition (Toy.C72_p2_false). False for initialisation (Toy.C72_p2n_false)."
  },
  {
   "property": "C73",
   "status": "partial",
   "theorems": [
    "ZkSetup.C73_machine",
    "ZkSetup.C73_session",
    "ZkSetup.C73_repeat",
    "ZkSetup.C73_keys_partial",
    "ZkSetup.C73_keys_false"
   ],
   "note": "Full for the model with the draws of the commitment key fixed. With fresh draws the proving key can be repeated, the verifying key only up to the commitment key (C73_keys_partial), and not as a whole (C73_keys_false)."
  },
  {
   "property": "C74",
   "status": "partial",
   "theorems": [
    "ZkSetup.C74_arguments",
    "ZkSetup.C74_numbers",
    "ZkSetup.C74_missing_partial",
    "ZkSetup.C74_p2n_false",
    "ZkSetup.C74_session_false"
   ],
   "note": "Full for arguments and numbers. Missing files: all inputs except the constraint system of p2n (with the phase 1 file present), where the statement is false and the output is emptied (C74_p2n_false). The parted constraint system of p2np is a parameter of the model, not a file."
  },
  {
   "property": "C75",
   "status": "proved",
   "theorems": [
    "ZkSetup.C75_one_honest",
    "ZkSetup.C75_sound",
    "ZkSetup.C75_complete",
    "ZkSetup.C75_guess"
   ],
   "note": "C75_one_honest is the statement for whole ceremonies: the phase 1 file, initialisation, the contributions to phase 2 and extraction are those of the model. C75_sound is the same for the keys of a trapdoor. C75_complete is the converse. C75_guess shows that the bound is not 0: guessing tau and alpha is enough. The provers are those of Groth's linear interactive proofs; they do not use the points in the records of the contributions, and their coefficients are fixed before the secrets. The proof compares coefficients of the verification equation as a polynomial in tau, alpha, beta, delta and uses the Schwartz-Zippel lemma of Mathlib."
  },
  {
   "property": "C76",
   "status": "proved",
   "theorems": [
    "ZkSetup.C76_keys",
    "ZkSetup.C76_z",
    "ZkSetup.C76_pkk"
   ],
   "note": "No condition on the submitted bytes. That the parameters can be decoded is not assumed but follows from the success of key extraction, which reads all of Z and PKK; p2v alone does not guarantee it (C34_undecodable_accepted). C76_z and C76_pkk are C33 without conditions on records and encodings."
  },
  {
   "property": "C77",
   "status": "proved",
   "theorems": [
    "ZkSetup.C77_exact",
    "ZkSetup.C77_unique",
    "ZkSetup.C77_records",
    "ZkSetup.C77_shifted",
    "ZkSetup.C77_wrong_pkk"
   ],
   "note": "Every byte sequence; only the initial file is well-formed, as p2n writes it. C77_shifted and C77_wrong_pkk show what the undecodable case means: accepted bytes whose PKK decodes but is not the right one (F29). C76_keys shows that no keys can be extracted from them."
  },
  {
   "property": "C78",
   "status": "proved",
   "theorems": [
    "ZkSetup.C78_exact",
    "ZkSetup.C78_unique",
    "ZkSetup.C78_wellformed",
    "ZkSetup.C78_same",
    "ZkSetup.C78_counted",
    "ZkSetup.C78_reads_unique",
    "ZkSetup.C78_spoilt_rejected",
    "ZkSetup.C78_undecodable"
   ],
   "note": "Every byte sequence. C78_same carries every theorem about accepted phase 1 files over to accepted bytes. C78_counted: accepted bytes with one record and any number of contributions in the header (the record with all secrets 0, F5)."
  },
  {
   "property": "C79",
   "status": "proved",
   "theorems": [
    "ZkSetup.C79_ceremony",
    "ZkSetup.C79_accepted",
    "ZkSetup.C79_initial"
   ],
   "note": "C79_ceremony needs no condition on the draws. MultiExp as gnark-crypto documents it (strict). C52_phase1_exact is the version for sessions of commands."
  },
  {
   "property": "C80",
   "status": "proved",
   "theorems": [
    "ZkSetup.C80_p1c_exact",
    "ZkSetup.C80_p1c_same",
    "ZkSetup.C80_p1c_writes",
    "ZkSetup.C80_p1_unique",
    "ZkSetup.C80_p1v_reads",
    "ZkSetup.C80_p1v_same",
    "ZkSetup.C80_p1_continue",
    "ZkSetup.C80_p1_written",
    "ZkSetup.C80_p2c_exact",
    "ZkSetup.C80_p2c_writes",
    "ZkSetup.C80_p2_unique",
    "ZkSetup.C80_p2v_exact",
    "ZkSetup.C80_p2_continue",
    "ZkSetup.C80_p2_written"
   ],
   "note": "Exact for both phases. In phase 1 the bytes written are given for regular files (C80_p1c_writes); for irregular files the output equals the contribution to the program's own encoding of the file (C80_p1c_same). In phase 2 the continuation needs that no hash of the file written lies across a buffer boundary (finding F5)."
  },
  {
   "property": "C81",
   "status": "partial",
   "theorems": [
    "ZkSetup.C81_p1_exact_partial",
    "ZkSetup.C81_p1_unnoticed",
    "ZkSetup.C81_p1_lost",
    "ZkSetup.C81_p1_readIn",
    "ZkSetup.C81_p2_exact_partial",
    "ZkSetup.C81_p2_unnoticed",
    "ZkSetup.C81_p2_lost",
    "ZkSetup.C81_p2_readIn"
   ],
   "note": "False (finding F32): a hash is read with a single Read whose byte count is ignored, so up to 31 missing bytes at the end are read as zeros; the contribution succeeds (C81_p1_unnoticed, C81_p2_unnoticed) and no verifier accepts the file written unless the missing bytes were zeros (C81_p1_lost, C81_p2_lost). Exactly characterised: refused if and only if there are no records or 32 or more bytes are missing. Phase 2 for files without a hash across a buffer boundary. For any bytes, with hashes anywhere: C88."
  },
  {
   "property": "C82",
   "status": "proved",
   "theorems": [
    "ZkSetup.C82_exact",
    "ZkSetup.C82_unique",
    "ZkSetup.C82_between",
    "ZkSetup.C82_hash",
    "ZkSetup.C82_truncated",
    "ZkSetup.C82_leftover",
    "ZkSetup.C82_command"
   ],
   "note": "Exact characterisation for all bytes and powers. Shows F21 (overflow) and F33 (powers modulo 256) as consequences."
  },
  {
   "property": "C83",
   "status": "proved",
   "theorems": [
    "ZkSetup.C83_pk",
    "ZkSetup.C83_split_pk",
    "ZkSetup.C83_vk",
    "ZkSetup.C83_split_vk",
    "ZkSetup.C83_key",
    "ZkSetup.C83_cut_ph2",
    "ZkSetup.C83_cut_evals",
    "ZkSetup.C83_wires"
   ],
   "note": "For any lawful header codec (proved for gob). Point encodings are the accepted ones of the curve's codec, compressed or not."
  },
  {
   "property": "C84",
   "status": "proved",
   "theorems": [
    "ZkSetup.C84_init",
    "ZkSetup.C84_parted",
    "ZkSetup.C84_any",
    "ZkSetup.C84_cut",
    "ZkSetup.C84_power0",
    "ZkSetup.C84_long",
    "ZkSetup.C84_positions"
   ],
   "note": "The specification (Spec/InitBytes.lean) speaks of bytes and positions only. Positions of the model are unbounded integers; C84_positions and C84_long show that this makes no difference."
  },
  {
   "property": "C85",
   "status": "proved",
   "theorems": [
    "ZkSetup.C85_exact",
    "ZkSetup.C85_unique",
    "ZkSetup.C85_same",
    "ZkSetup.C85_refused",
    "ZkSetup.C85_file",
    "ZkSetup.C85_cut",
    "ZkSetup.C85_power0",
    "ZkSetup.C85_long",
    "ZkSetup.C85_positions"
   ],
   "note": "Positions in the model are unbounded; C85_positions and C85_long show that 64-bit overflow makes no difference for files below 2^62 - 30 bytes."
  },
  {
   "property": "C86",
   "status": "partial",
   "theorems": [
    "ZkSetup.C86_phase1_partial",
    "ZkSetup.C86_phase1_fork",
    "ZkSetup.C86_phase2_partial",
    "ZkSetup.C86_phase2_fork"
   ],
   "note": "Proved if no record of the accepted file is degenerate (SX = 0) and there is no collision of SHA-256 or hash-to-G2 among the records. False for degenerate records: C86_phase1_fork and C86_phase2_fork give two different contributions to the initial file that are both in an accepted file, whatever the hash functions."
  },
  {
   "property": "C87",
   "status": "proved",
   "theorems": [
    "ZkSetup.C87_init",
    "ZkSetup.C87_parted",
    "ZkSetup.C87_crash",
    "ZkSetup.C87_every_wire",
    "ZkSetup.C87_layout_public",
    "ZkSetup.C87_layout_private",
    "ZkSetup.C87_gnark",
    "ZkSetup.C87_p2n"
   ],
   "note": "The specification (Spec/Fits.lean) speaks of numbers of wires only. Fields of the commitment description are natural numbers in the model; negative ones, which gnark does not produce, are not modelled."
  },
  {
   "property": "C88",
   "status": "proved",
   "theorems": [
    "ZkSetup.C88_p1c",
    "ZkSetup.C88_p1c_none",
    "ZkSetup.C88_p1_readIn",
    "ZkSetup.C88_p1_readIn_none",
    "ZkSetup.C88_p2c",
    "ZkSetup.C88_p2c_none",
    "ZkSetup.C88_p2_readIn",
    "ZkSetup.C88_p2_readIn_none",
    "ZkSetup.C88_p2v"
   ],
   "note": "States exactly what C54, C61 and C81 had to leave out: files with a hash across a buffer boundary, and bytes other than those the tool writes. p2v with a negative number of contributions in the header (zero records, F1) is not covered; p1v on prefixes is C17."
  },
  {
   "property": "C89",
   "status": "partial",
   "theorems": [
    "ZkSetup.C89_kept_partial",
    "ZkSetup.C89_false",
    "ZkSetup.C89_vk_honest",
    "ZkSetup.C89_vk_any",
    "ZkSetup.C89_pk_any",
    "ZkSetup.C89_pk_short",
    "ZkSetup.C89_split_vk_any",
    "ZkSetup.C89_commitment_any",
    "ZkSetup.C89_split_pk_any",
    "ZkSetup.C89_pk_bytes",
    "ZkSetup.C89_vk_bytes",
    "ZkSetup.C89_split_pk_bytes",
    "ZkSetup.C89_split_vk_bytes",
    "ZkSetup.C89_reads",
    "ZkSetup.C89_window"
   ],
   "note": "False as stated: key vk succeeds with the file of any ceremony and writes the verifying key over it (C89_vk_honest, C89_false); likewise keys with <session>.vk.save and <session>.pk.CommitmentKey.save. It holds if the path is not an output (C89_kept_partial). The remaining case, in which the extraction runs past the loaded 4096 bytes into its own output, is modelled (Model/Alias.lean), and what can then be read is stated in C89_window; nothing is proved about what is then written."
  },
  {
   "property": "C90",
   "status": "partial",
   "theorems": [
    "ZkSetup.C90_usage",
    "ZkSetup.C90_readme_partial",
    "ZkSetup.C90_readme_false"
   ],
   "note": "False for the last step of the README: keys <lastPhase2Contribution.ph2> lacks the session and is always refused (C90_readme_false); key is the command that writes pk and vk. All other command lines are as documented."
  },
  {
   "property": "C91",
   "status": "partial",
   "theorems": [
    "ZkSetup.C91_p2n_partial",
    "ZkSetup.C91_p2np_partial",
    "ZkSetup.C91_false",
    "ZkSetup.C91_p2n_evals",
    "ZkSetup.C91_p2n_evals_head",
    "ZkSetup.C91_p2n_input",
    "ZkSetup.C91_p2np_input",
    "ZkSetup.C91_p2n_circuit",
    "ZkSetup.C91_args",
    "ZkSetup.C91_lag_head",
    "ZkSetup.C91_p2np_evals"
   ],
   "note": "False as stated: p2n (and p2np) with phase2Path evals reports what it reports with any other name, but leaves one file in which the phase 2 data has been written over the evaluations, beginning with [alpha]1 in place of the header (C91_p2n_evals, C91_p2np_evals, C91_p2n_evals_head, C91_false). It holds for names that are different from each other and from srs.lag and evals (the two _partial theorems). A phase 1 file called srs.lag or evals is destroyed and the command fails (C91_p2n_input, C91_p2np_input); a circuit file given as phase2Path likewise (C91_p2n_circuit). With phase2Path srs.lag a success would leave the Lagrange form in place of the header (C91_lag_head; with the header of gob the toy case fails). A circuit called srs.lag or evals is modelled (Model/AliasInit.lean) but nothing general is proved about it; a session of p2np one of whose files is such a file is not modelled."
  },
  {
   "property": "C92",
   "status": "partial",
   "theorems": [
    "ZkSetup.C92_p2n_partial",
    "ZkSetup.C92_p2np_partial",
    "ZkSetup.C92_args",
    "ZkSetup.C92_commands_partial",
    "ZkSetup.C92_others",
    "ZkSetup.C92_parted_others",
    "ZkSetup.C92_false",
    "ZkSetup.C92_mixture"
   ],
   "note": "False as stated: a second p2n with arguments of its own replaces srs.lag, the first goes on with it and reports success; its phase 2 file is then a mixture of two phase 1 files (C92_false, C92_mixture). It holds for others that leave alone the files p2n uses, including srs.lag and evals (C92_p2n_partial, C92_p2np_partial), in particular for all commands but p2n and p2np with other outputs (C92_commands_partial), and then the others are not disturbed either if they do not look at the files p2n writes (C92_others). Files are read at once in the model (Model/Meanwhile.lean)."
  },
  {
   "property": "C93",
   "status": "partial",
   "theorems": [
    "ZkSetup.C93_key_partial",
    "ZkSetup.C93_keys_partial",
    "ZkSetup.C93_commands_partial",
    "ZkSetup.C93_args",
    "ZkSetup.C93_halves",
    "ZkSetup.C93_split_halves",
    "ZkSetup.C93_alpha",
    "ZkSetup.C93_false"
   ],
   "note": "False as stated: evals is opened once for each key, and a p2n for other files in between replaces it; key reports success and leaves two keys that no single extraction makes (C93_false, by C93_alpha: the keys of one extraction have [alpha]_1 in common). C93_halves: exactly what a successful key has read and written, whatever the others do. It holds for others that leave alone the phase 2 file, evals and the keys (C93_key_partial, C93_keys_partial), in particular for all commands but p2n and p2np with other outputs (C93_commands_partial). A file is read and written at once in the model (Model/Meanwhile.lean)."
  },
  {
   "property": "C94",
   "status": "partial",
   "theorems": [
    "ZkSetup.C94_success",
    "ZkSetup.C94_protected",
    "ZkSetup.C94_allowed",
    "ZkSetup.C94_session",
    "ZkSetup.C94_unchanged_partial",
    "ZkSetup.C94_sol",
    "ZkSetup.C94_key",
    "ZkSetup.C94_keys",
    "ZkSetup.C94_p2n_lost",
    "ZkSetup.C94_false"
   ],
   "note": "False as stated: p2n, p2np, key and keys have destroyed other outputs when the creation of a later one fails, and sol crashes (C94_false, C94_sol, C94_key, C94_keys; C94_p2n_lost for any files). Proved for every command and every set of files that cannot be created: success only if all outputs could be created (C94_success), a file that cannot be created is never changed (C94_protected, C94_session), and files that are not outputs do not matter (C94_allowed). p1n, p1c, p1t and p2c fail with an error and change nothing (C94_unchanged_partial)."
  },
  {
   "property": "C95",
   "status": "partial",
   "theorems": [
    "ZkSetup.C95_p2n_partial",
    "ZkSetup.C95_p2np_partial",
    "ZkSetup.C95_p2n_files",
    "ZkSetup.C95_p2np_files",
    "ZkSetup.C95_p2n_refused_partial",
    "ZkSetup.C95_rejected",
    "ZkSetup.C95_enough",
    "ZkSetup.C95_false"
   ],
   "note": "False as stated: for a circuit with public wires only, the phase 2 file is complete before evals is, and p2c takes it; for any circuit, evals of another ceremony is destroyed or replaced before the new phase 2 file is finished, so that key fails or gives another key (C95_false). Proved for circuits with a wire for the prover and for every moment: the files are as before, or complete, or the phase 2 file lacks its last byte (C95_p2n_partial, C95_p2np_partial), and then key, keys and p2c refuse it (C95_rejected, C95_p2n_refused_partial). C95_enough: with enough operations the modelled run is that of p2nAny, p2npAny, on all files. C95_p2n_files, C95_p2np_files: of srs.lag and evals there is left what was there before or a beginning of what the complete run leaves."
  },
  {
   "property": "C96",
   "status": "proved",
   "theorems": [
    "ZkSetup.C96_frame",
    "ZkSetup.C96_begun",
    "ZkSetup.C96_again",
    "ZkSetup.C96_late"
   ],
   "note": "C96_frame: an interrupted command has changed nothing but its outputs. C96_begun: of each file there is left what was there before, or what the complete run leaves, or a beginning of that (p2n, p2np: C95). C96_again: the run after any number of interrupted attempts equals the run without them (result always; all files if it succeeds); for p2np the directory of the parts must not depend on the outputs. C96_late: the interrupted commands of the model include the complete ones. Model: lengths of several outputs at a kill are independent of each other, which covers more than the code can do."
  },
  {
   "property": "C97",
   "status": "partial",
   "theorems": [
    "ZkSetup.C97_left",
    "ZkSetup.C97_p1c_partial",
    "ZkSetup.C97_p2c_partial",
    "ZkSetup.C97_key_partial",
    "ZkSetup.C97_false"
   ],
   "note": "False as stated (C97_false): key takes the output of a p2c that was interrupted before its record was written, with a delta that no record accounts for; p2c takes an output that lacks up to 31 bytes. Proved exactly which interrupts are noticed: by p1c and p2c those with 32 or more bytes missing, by key those with a parameter missing; in the other cases key gives the keys of the finished contribution."
  }
 ]
}
