{
 "claims": [
  {
   "property": "C01",
   "status": "proved",
   "theorems": [
    "Tss.Common.C01_framing_injective",
    "Tss.Common.C01_equal_digest_equal_parts",
    "Tss.Common.C01_collision",
    "Tss.Common.C01_nil_iff"
   ],
   "note": ""
  },
  {
   "property": "C02",
   "status": "proved",
   "theorems": [
    "Tss.Common.C02_int_framing",
    "Tss.Common.C02_int_digest_binding",
    "Tss.Common.C02_sign_not_bound",
    "Tss.Common.C02_nil_arguments",
    "Tss.Common.C02_tagged_binding"
   ],
   "note": ""
  },
  {
   "property": "C03",
   "status": "proved",
   "theorems": [
    "Tss.Common.C03_rejection_sample",
    "Tss.Common.C03_unique",
    "Tss.Keygen.C03_keygen_challenge"
   ],
   "note": ""
  },
  {
   "property": "C04",
   "status": "proved",
   "theorems": [
    "Tss.Common.C04_positive_int_range",
    "Tss.Common.C04_every_value_occurs",
    "Tss.Common.C04_large_bound_panics",
    "Tss.Common.C04_must_get_random_int",
    "Tss.Common.C04_relatively_prime",
    "Tss.Common.C04_relatively_prime_one_hangs",
    "Tss.Common.C04_group_test"
   ],
   "note": ""
  },
  {
   "property": "C05",
   "status": "proved",
   "theorems": [
    "Tss.Common.C05_pad"
   ],
   "note": ""
  },
  {
   "property": "C06",
   "status": "proved",
   "theorems": [
    "Tss.Common.C06_round_trip",
    "Tss.Common.C06_nonEmptyMultiBytes",
    "Tss.Common.C06_nonEmptyBytes",
    "Tss.Common.C06_entries"
   ],
   "note": ""
  },
  {
   "property": "C07",
   "status": "proved",
   "theorems": [
    "Tss.Common.C07_ring_ops",
    "Tss.Common.C07_inverse",
    "Tss.Common.C07_exp"
   ],
   "note": ""
  },
  {
   "property": "C08",
   "status": "proved",
   "theorems": [
    "Tss.PartyID.C08_sorted_permutation_indexed",
    "Tss.PartyID.C08_order_independent",
    "Tss.PartyID.C08_index_is_rank",
    "Tss.PartyID.C08_algorithm_irrelevant",
    "Tss.PartyID.C08_sign_collision"
   ],
   "note": ""
  },
  {
   "property": "C09",
   "status": "proved",
   "theorems": [
    "Tss.PartyID.C09_findByKey",
    "Tss.PartyID.C09_exclude",
    "Tss.PartyID.C09_validateBasic"
   ],
   "note": ""
  },
  {
   "property": "C10",
   "status": "proved",
   "theorems": [
    "Tss.World.C10_keygen_call_is_local",
    "Tss.World.C10_signing_call_is_local",
    "Tss.World.C10_noninterference"
   ],
   "note": ""
  },
  {
   "property": "C11",
   "status": "proved",
   "theorems": [
    "Tss.World.C11_unknown_key",
    "Tss.World.C11_texts"
   ],
   "note": ""
  },
  {
   "property": "C12",
   "status": "proved",
   "theorems": [
    "Tss.World.C12_remove_exact",
    "Tss.World.C12_removed_stays_removed"
   ],
   "note": ""
  },
  {
   "property": "C13",
   "status": "proved",
   "theorems": [
    "Tss.Keygen.C13_success_iff",
    "Tss.Keygen.C13_panic_iff",
    "Tss.Keygen.C13_failure_keeps_state",
    "Tss.Keygen.C13_new_party"
   ],
   "note": ""
  },
  {
   "property": "C14",
   "status": "proved",
   "theorems": [
    "Tss.Keygen.C14_success_iff",
    "Tss.Keygen.C14_effect",
    "Tss.Keygen.C14_record_holds_last_codes",
    "Tss.Keygen.C14_no_codes"
   ],
   "note": ""
  },
  {
   "property": "C15",
   "status": "proved",
   "theorems": [
    "Tss.Keygen.C15_bad_base64",
    "Tss.Keygen.C15_bad_sender",
    "Tss.Keygen.C15_accept_effect",
    "Tss.Keygen.C15_other_slots"
   ],
   "note": ""
  },
  {
   "property": "C16",
   "status": "proved",
   "theorems": [
    "Tss.Keygen.C16_rejected_message_overwrites",
    "Tss.Keygen.C16_round2_then_fails",
    "Tss.Keygen.C16_next_exec_fails",
    "Tss.Keygen.C16_garbage_then_next",
    "Tss.Keygen.C16_finish_implies_wellformed"
   ],
   "note": ""
  },
  {
   "property": "C17",
   "status": "proved",
   "theorems": [
    "Tss.Keygen.C17_finish_iff",
    "Tss.Keygen.C17_names_first_missing"
   ],
   "note": ""
  },
  {
   "property": "C18",
   "status": "proved",
   "theorems": [
    "Tss.Keygen.C18_round3",
    "Tss.Keygen.C18_commit_then_open",
    "Tss.Keygen.C18_example",
    "Tss.Keygen.C18_openings",
    "Tss.Keygen.C18_round2_records",
    "Tss.Keygen.C18_binding"
   ],
   "note": ""
  },
  {
   "property": "C19",
   "status": "proved",
   "theorems": [
    "Tss.Keygen.C19_single_run",
    "Tss.Keygen.C19_second_run"
   ],
   "note": ""
  },
  {
   "property": "C20",
   "status": "proved",
   "theorems": [
    "Tss.Keygen.C20_round4",
    "Tss.Keygen.C20_reachable"
   ],
   "note": ""
  },
  {
   "property": "C21",
   "status": "proved",
   "theorems": [
    "Tss.Keygen.C21_every_call_ok",
    "Tss.Keygen.C21_agreement",
    "Tss.Keygen.C21_finish",
    "Tss.Keygen.C21_no_deadlock",
    "Tss.Keygen.C21_can_finish"
   ],
   "note": ""
  },
  {
   "property": "C22",
   "status": "proved",
   "theorems": [
    "Tss.Keygen.C22_empty_root_zero",
    "Tss.Keygen.C22_random_share_unused",
    "Tss.Keygen.C22_identity_share",
    "Tss.Keygen.C22_share_never_nil",
    "Tss.Keygen.C22_reachable"
   ],
   "note": ""
  },
  {
   "property": "C23",
   "status": "proved",
   "theorems": [
    "Tss.ECPoint.C23_new_iff",
    "Tss.ECPoint.C23_closed",
    "Tss.ECPoint.C23_results_checked"
   ],
   "note": ""
  },
  {
   "property": "C24",
   "status": "proved",
   "theorems": [
    "Tss.ECPoint.C24_scalar_action",
    "Tss.ECPoint.C24_base",
    "Tss.ECPoint.C24_fails_outside_subgroup"
   ],
   "note": ""
  },
  {
   "property": "C25",
   "status": "proved",
   "theorems": [
    "Tss.ECPoint.C25_clears_torsion",
    "Tss.ECPoint.C25_lands_in_subgroup",
    "Tss.Ed.C25_ed25519",
    "Tss.Ed.C25_ed25519_removes_torsion"
   ],
   "note": ""
  },
  {
   "property": "C26",
   "status": "proved",
   "theorems": [
    "Tss.ECPoint.C26_round_trip",
    "Tss.ECPoint.C26_unflatten_sound",
    "Tss.ECPoint.C26_flatten_iff",
    "Tss.ECPoint.C26_unflatten_iff",
    "Tss.ECPoint.C26_case"
   ],
   "note": ""
  },
  {
   "property": "C27",
   "status": "proved",
   "theorems": [
    "Tss.ECPoint.C27_gob_round_trip",
    "Tss.ECPoint.C27_gob_decode_on_curve",
    "Tss.ECPoint.C27_json_round_trip",
    "Tss.ECPoint.C27_json_checked",
    "Tss.ECPoint.C27_ambiguous_type",
    "Tss.ECPoint.C27_gob_accepts_iff",
    "Tss.ECPoint.C27_gob_cut_short",
    "Tss.ECPoint.C27_gob_case",
    "Tss.SaveJson.C27_text_round_trip",
    "Tss.SaveJson.C27_text_checked",
    "Tss.SaveJson.C27_text_off_curve",
    "Tss.SaveJson.C27_text_unknown_curve",
    "Tss.SaveJson.C27_text_truncated",
    "Tss.SaveJson.C27_text_injective",
    "Tss.SaveJson.C27_text_default_curve",
    "Tss.SaveJson.C27_text_panics_iff",
    "Tss.SaveJson.C27_text_null",
    "Tss.SaveJson.C27_text_example"
   ],
   "note": ""
  },
  {
   "property": "C28",
   "status": "proved",
   "theorems": [
    "Tss.Schnorr.C28_prove_verify",
    "Tss.Schnorr.C28_response_range",
    "Tss.Schnorr.C28_zkproof",
    "Tss.Schnorr.C28_zk_response_range",
    "Tss.Schnorr.C28_zkvproof"
   ],
   "note": ""
  },
  {
   "property": "C29",
   "status": "proved",
   "theorems": [
    "Tss.Schnorr.C29_verify_exact",
    "Tss.Schnorr.C29_zkproof_exact",
    "Tss.Schnorr.C29_zkv_exact",
    "Tss.Schnorr.C29_special_soundness",
    "Tss.Schnorr.C29_special_soundness_cofactor",
    "Tss.Schnorr.C29_torsion_accepted"
   ],
   "note": ""
  },
  {
   "property": "C30",
   "status": "proved",
   "theorems": [
    "Tss.Paillier.C30_encrypt_rejects",
    "Tss.Paillier.C30_decrypt_encrypt",
    "Tss.Paillier.C30_every_randomness",
    "Tss.Paillier.C30_decrypt_total",
    "Tss.Paillier.C30_ciphertext_binding"
   ],
   "note": ""
  },
  {
   "property": "C31",
   "status": "proved",
   "theorems": [
    "Tss.Paillier.C31_homoAdd",
    "Tss.Paillier.C31_homoMult",
    "Tss.Paillier.C31_homomorphism",
    "Tss.Paillier.C31_rejects"
   ],
   "note": ""
  },
  {
   "property": "C32",
   "status": "proved",
   "theorems": [
    "Tss.Paillier.C32_generated_key",
    "Tss.Paillier.C32_safe_primes_good",
    "Tss.Paillier.C32_generated_key_decrypts"
   ],
   "note": ""
  },
  {
   "property": "C33",
   "status": "proved",
   "theorems": [
    "Tss.Paillier.C33_accept_iff",
    "Tss.Paillier.C33_schedule_independent",
    "Tss.Paillier.C33_nil_entry_schedule_dependent",
    "Tss.Paillier.C33_small_factor_rejected",
    "Tss.Paillier.C33_negative_modulus_hangs",
    "Tss.Paillier.C33_complete"
   ],
   "note": ""
  },
  {
   "property": "C34",
   "status": "proved",
   "theorems": [
    "Tss.AlicePaillier.C34_decrypt_total",
    "Tss.AlicePaillier.C34_encrypt_rejects",
    "Tss.AlicePaillier.C34_decrypt_encrypt",
    "Tss.AlicePaillier.C34_add",
    "Tss.AlicePaillier.C34_mulConst",
    "Tss.AlicePaillier.C34_operations_reject",
    "Tss.AlicePaillier.C34_primes_fresh",
    "Tss.AlicePaillier.C34_generated",
    "Tss.AlicePaillier.C34_generation_succeeds",
    "Tss.AlicePaillier.C34_nth_root",
    "Tss.AlicePaillier.C34_pubkey_iff",
    "Tss.AlicePaillier.C34_pedersen_open",
    "Tss.AlicePaillier.C34_message_range"
   ],
   "note": ""
  },
  {
   "property": "C35",
   "status": "proved",
   "theorems": [
    "Tss.RangeProofs.C35_enc_complete",
    "Tss.RangeProofs.C35_enc_accepted_in_range",
    "Tss.RangeProofs.C35_enc_honest_can_fail"
   ],
   "note": ""
  },
  {
   "property": "C36",
   "status": "proved",
   "theorems": [
    "Tss.RangeProofs.C36_enc_accept_iff",
    "Tss.RangeProofs.C36_enc_accept_pos",
    "Tss.RangeProofs.C36_enc_special_soundness",
    "Tss.RangeProofs.C36_enc_challenge_binds"
   ],
   "note": ""
  },
  {
   "property": "C37",
   "status": "proved",
   "theorems": [
    "Tss.RangeProofs.C37_enc_unparsable_panics",
    "Tss.RangeProofs.C37_log_unparsable_panics",
    "Tss.RangeProofs.C37_enc_bad_ciphertext_panics"
   ],
   "note": ""
  },
  {
   "property": "C38",
   "status": "proved",
   "theorems": [
    "Tss.RangeProofs.C38_log_accept_iff",
    "Tss.RangeProofs.C38_log_complete",
    "Tss.RangeProofs.C38_log_special_soundness",
    "Tss.RangeProofs.C38_log_complete_ed25519"
   ],
   "note": ""
  },
  {
   "property": "C39",
   "status": "proved",
   "theorems": [
    "Tss.RangeProofs.C39_log_ignores_x",
    "Tss.RangeProofs.C39_log_challenge_ignores_x",
    "Tss.RangeProofs.C39_log_challenge_binds",
    "Tss.RangeProofs.C39_log_challenge_ignores_bases",
    "Tss.RangeProofs.C39_log_negation"
   ],
   "note": ""
  },
  {
   "property": "C40",
   "status": "proved",
   "theorems": [
    "Tss.ModProof.C40_challenges",
    "Tss.ModProof.C40_verify_iff",
    "Tss.ModProof.C40_order_independent",
    "Tss.ModProof.C40_even_panics",
    "Tss.ModProof.C40_nil_refused",
    "Tss.ModProof.C40_odd_answers",
    "Tss.ModProof.C40_complete",
    "Tss.ModProof.C40_newProof",
    "Tss.ModProof.C40_soundness_half",
    "Tss.ModProof.C40_accepted_answerable",
    "Tss.ModProof.C40_forgery"
   ],
   "note": ""
  },
  {
   "property": "C41",
   "status": "proved",
   "theorems": [
    "Tss.ModProof.C41_accepts_iff",
    "Tss.ModProof.C41_round_trip",
    "Tss.ModProof.C41_decoded",
    "Tss.ModProof.C41_zero_part_lost"
   ],
   "note": ""
  },
  {
   "property": "C42",
   "status": "proved",
   "theorems": [
    "Tss.Dln.C42_verify_iff",
    "Tss.Dln.C42_complete",
    "Tss.Dln.C42_order",
    "Tss.Dln.C42_special_soundness",
    "Tss.Dln.C42_refused",
    "Tss.Dln.C42_nil_response_crashes",
    "Tss.Dln.C42_serialize_round_trip",
    "Tss.Dln.C42_unmarshal_iff",
    "Tss.Dln.C42_verify_no_crash",
    "Tss.Dln.C42_nil_crash",
    "Tss.Dln.C42_unmarshalled_no_crash",
    "Tss.Dln.C42_unmarshal_crashes",
    "Tss.Dln.C42_crash_case"
   ],
   "note": ""
  },
  {
   "property": "C43",
   "status": "proved",
   "theorems": [
    "Tss.RingPed.C43_verify_iff",
    "Tss.RingPed.C43_too_few",
    "Tss.RingPed.C43_missing_response_crashes",
    "Tss.RingPed.C43_complete",
    "Tss.RingPed.C43_parameters",
    "Tss.RingPed.C43_special_soundness",
    "Tss.RingPed.C43_repetition",
    "Tss.RingPed.C43_forgery"
   ],
   "note": ""
  },
  {
   "property": "C44",
   "status": "proved",
   "theorems": [
    "Tss.Factor.C44_verify_iff",
    "Tss.Factor.C44_verify_total",
    "Tss.Factor.C44_returned_verifies",
    "Tss.Factor.C44_small_key",
    "Tss.Factor.C44_attempt",
    "Tss.Factor.C44_first_salt",
    "Tss.Factor.C44_special_soundness",
    "Tss.Factor.C44_any_modulus_accepted"
   ],
   "note": ""
  },
  {
   "property": "C45",
   "status": "proved",
   "theorems": [
    "Tss.Commit.C45_opens",
    "Tss.Commit.C45_binding",
    "Tss.Commit.C45_sign_not_bound",
    "Tss.Commit.C45_decommit_iff",
    "Tss.Commit.C45_crashes",
    "Tss.Commit.C45_wire"
   ],
   "note": ""
  },
  {
   "property": "C46",
   "status": "proved",
   "theorems": [
    "Tss.Commit.C46_secrets",
    "Tss.Commit.C46_round_trip",
    "Tss.Commit.C46_trailing_empty_lost",
    "Tss.Commit.C46_parse_sound",
    "Tss.Commit.C46_cut_off_accepted",
    "Tss.Commit.C46_negative_length_crashes"
   ],
   "note": ""
  },
  {
   "property": "C47",
   "status": "proved",
   "theorems": [
    "Tss.Ckd.C47_path_general",
    "Tss.Ckd.C47_eddsa_priv_pub_agree",
    "Tss.Ckd.C47_eddsa_shares_sum",
    "Tss.Ckd.C47_secp_priv_pub_agree",
    "Tss.Ckd.C47_hierarchy",
    "Tss.Secp.C47_s256_priv_pub_agree"
   ],
   "note": ""
  },
  {
   "property": "C48",
   "status": "proved",
   "theorems": [
    "Tss.Ckd.C48_atoi",
    "Tss.Ckd.C48_component",
    "Tss.Ckd.C48_component_panics",
    "Tss.Ckd.C48_priv_path",
    "Tss.Ckd.C48_pub_refuses_hardened",
    "Tss.Ckd.C48_empty_component_panics",
    "Tss.Ckd.C48_leading_slash_panics",
    "Tss.Ckd.C48_pub_error_panics",
    "Tss.Ckd.C48_index_alias",
    "Tss.Ckd.C48_resume",
    "Tss.Ckd.C48_deeper_than_path",
    "Tss.Ckd.C48_same_path",
    "Tss.Ckd.C48_same_child"
   ],
   "note": ""
  },
  {
   "property": "C49",
   "status": "proved",
   "theorems": [
    "Tss.Ckd.C49_base58_encode_decode",
    "Tss.Ckd.C49_text_canonical",
    "Tss.Ckd.C49_one_text",
    "Tss.Ckd.C49_text_case",
    "Tss.Ckd.C49_round_trip",
    "Tss.Ckd.C49_string_binds",
    "Tss.Ckd.C49_rejects",
    "Tss.Ckd.C49_parse_no_panic",
    "Tss.Ckd.C49_parsed_point",
    "Tss.Ckd.C49_reserialises",
    "Tss.Ckd.C49_parsed_derives_nothing",
    "Tss.Ckd.C49_other_curve",
    "Tss.Ckd.C49_made_keys_do_not_parse",
    "Tss.Ckd.C49_misparse",
    "Tss.Ckd.C49_base58_decode_encode",
    "Tss.Ckd.C49_unreduced_x_accepted"
   ],
   "note": ""
  },
  {
   "property": "C50",
   "status": "proved",
   "theorems": [
    "Tss.Onsign.C50_failure_keeps",
    "Tss.Onsign.C50_created",
    "Tss.Onsign.C50_shares_consistent",
    "Tss.Onsign.C50_own_share",
    "Tss.Onsign.C50_bad_base64",
    "Tss.Onsign.C50_bad_json",
    "Tss.Onsign.C50_bad_path",
    "Tss.Onsign.C50_bad_message",
    "Tss.Onsign.C50_hardened_crashes",
    "Tss.Onsign.C50_refresh_layout",
    "Tss.Onsign.C50_short_refresh_fails"
   ],
   "note": ""
  },
  {
   "property": "C51",
   "status": "proved",
   "theorems": [
    "Tss.Onsign.C51_accept1_bad_keeps",
    "Tss.Onsign.C51_accept1_files_broadcast",
    "Tss.Onsign.C51_accept1_files_p2p",
    "Tss.Onsign.C51_accept2_overwrites",
    "Tss.Onsign.C51_accept3_overwrites",
    "Tss.Onsign.C51_accept_not_base64",
    "Tss.Onsign.C51_accept_bad_index"
   ],
   "note": ""
  },
  {
   "property": "C52",
   "status": "proved",
   "theorems": [
    "Tss.Onsign.C52_finish1_exact",
    "Tss.Onsign.C52_finish2_exact",
    "Tss.Onsign.C52_finish3_exact"
   ],
   "note": ""
  },
  {
   "property": "C53",
   "status": "proved",
   "theorems": [
    "Tss.Onsign.C53_round2_verified",
    "Tss.Onsign.C53_round2_names_peer",
    "Tss.Onsign.C53_round3_verified",
    "Tss.Onsign.C53_round3_names_peer"
   ],
   "note": ""
  },
  {
   "property": "C54",
   "status": "proved",
   "theorems": [
    "Tss.Onsign.C54_released_signature_verifies",
    "Tss.Onsign.C54_group_key_is_sum",
    "Tss.Onsign.C54_bad_signature_refused",
    "Tss.Onsign.C54_group_key_fixed_at_creation"
   ],
   "note": ""
  },
  {
   "property": "C55",
   "status": "proved",
   "theorems": [
    "Tss.Onsign.C55_every_call_ok",
    "Tss.Onsign.C55_agreement",
    "Tss.Onsign.C55_finish",
    "Tss.Onsign.C55_no_deadlock",
    "Tss.Onsign.C55_can_finish"
   ],
   "note": ""
  },
  {
   "property": "C56",
   "status": "proved",
   "theorems": [
    "Tss.Onsign.C56_history",
    "Tss.Onsign.C56_leading_zeros_same_party",
    "Tss.Onsign.C56_signed_bytes"
   ],
   "note": ""
  },
  {
   "property": "C57",
   "status": "proved",
   "theorems": [
    "Tss.Ed.C57_roundtrip",
    "Tss.Ed.C57_littleEndian",
    "Tss.Ed.C57_truncates",
    "Tss.Ed.C57_no_roundtrip_beyond",
    "Tss.Ed.C57_pointEncoding",
    "Tss.Ed.C57_pointEncoding_injective",
    "Tss.Ed.C57_noncanonical_encoding"
   ],
   "note": ""
  },
  {
   "property": "C58",
   "status": "proved",
   "theorems": [
    "Tss.Ed.C58_represents",
    "Tss.Ed.C58_draw_is_unit",
    "Tss.Ed.C58_zero_draw_breaks"
   ],
   "note": ""
  },
  {
   "property": "C59",
   "status": "proved",
   "theorems": [
    "Tss.Keygen.C59_subset_exact",
    "Tss.Keygen.C59_full_identity",
    "Tss.Keygen.C59_unknown_rejected",
    "Tss.Keygen.C59_unknown_error",
    "Tss.Keygen.C59_unsorted_corrupts",
    "Tss.Keygen.C59_too_many_panics"
   ],
   "note": ""
  },
  {
   "property": "C60",
   "status": "proved",
   "theorems": [
    "Tss.SafePrime.C60_returned_pairs",
    "Tss.SafePrime.C60_arguments",
    "Tss.SafePrime.C60_pocklington",
    "Tss.SafePrime.C60_safe_primes",
    "Tss.SafePrime.C60_product_bits",
    "Tss.SafePrime.C60_sieve_exact",
    "Tss.SafePrime.C60_candidate_exact",
    "Tss.SafePrime.C60_first_candidate",
    "Tss.SafePrime.C60_offsets_accumulate"
   ],
   "note": ""
  },
  {
   "property": "C61",
   "status": "proved",
   "theorems": [
    "Tss.SafePrime.C61_returned_means_stopped",
    "Tss.SafePrime.C61_errors_never_block",
    "Tss.SafePrime.C61_search_never_stuck",
    "Tss.SafePrime.C61_returns_if_room",
    "Tss.SafePrime.C61_can_hang"
   ],
   "note": ""
  },
  {
   "property": "C62",
   "status": "proved",
   "theorems": [
    "Tss.Party.C62_mutual_exclusion",
    "Tss.Party.C62_lock_released",
    "Tss.Party.C62_serial",
    "Tss.Party.C62_round_changes",
    "Tss.Party.C62_invalid_message",
    "Tss.Party.C62_panic_leaks_lock",
    "Tss.Party.C62_no_deadlock",
    "Tss.Party.C62_stays_are_short",
    "Tss.Party.C62_validate",
    "Tss.Party.C62_can_start_again"
   ],
   "note": ""
  },
  {
   "property": "C63",
   "status": "proved",
   "theorems": [
    "Tss.Wire.C63_varint_range",
    "Tss.Wire.C63_varint_case",
    "Tss.Wire.C63_round_trip",
    "Tss.Wire.C63_injective",
    "Tss.Wire.C63_base64",
    "Tss.Wire.C63_empty_rejected",
    "Tss.Wire.C63_unknown_type_rejected",
    "Tss.Wire.C63_accept_iff",
    "Tss.Wire.C63_nil_sender_panics"
   ],
   "note": ""
  },
  {
   "property": "C64",
   "status": "proved",
   "theorems": [
    "Tss.Params.C64_membership",
    "Tss.Params.C64_no_own_id",
    "Tss.Params.C64_as_configured",
    "Tss.Params.C64_setters",
    "Tss.Params.C64_old_and_new",
    "Tss.Params.C64_old_and_new_fresh",
    "Tss.Params.C64_shared_array",
    "Tss.Params.C64_set_ids"
   ],
   "note": ""
  },
  {
   "property": "C65",
   "status": "proved",
   "theorems": [
    "Tss.Alice.C65_inRange_exact",
    "Tss.Alice.C65_inRange_errors",
    "Tss.Alice.C65_absoluteRange_sound",
    "Tss.Alice.C65_absoluteRange_complete",
    "Tss.Alice.C65_draws_in_range",
    "Tss.Alice.C65_draws_never_panic",
    "Tss.Alice.C65_lcm_exact",
    "Tss.Alice.C65_euler_exact",
    "Tss.Alice.C65_fastMod3",
    "Tss.Alice.C65_ensureRank",
    "Tss.Alice.C65_ensureThreshold",
    "Tss.Alice.C65_xor",
    "Tss.Alice.C65_bits_round_trip",
    "Tss.Alice.C65_bytes_round_trip",
    "Tss.Alice.C65_reverse",
    "Tss.Alice.C65_bit_products",
    "Tss.Alice.C65_hashProtos_binds",
    "Tss.Alice.C65_extended_hash_bits",
    "Tss.Alice.C65_extended_hash_ambiguous",
    "Tss.Alice.C65_challenge_ranges",
    "Tss.Alice.C65_reject_sampling"
   ],
   "note": ""
  },
  {
   "property": "C66",
   "status": "proved",
   "theorems": [
    "Tss.Alice.C66_top_bits",
    "Tss.Alice.C66_product_size",
    "Tss.Alice.C66_size_case",
    "Tss.Alice.C66_sieve_exact",
    "Tss.Alice.C66_sieve_keeps_primes",
    "Tss.Alice.C66_sieve_gaps",
    "Tss.Alice.C66_pocklington",
    "Tss.Alice.C66_pocklington_complete",
    "Tss.Alice.C66_search_result",
    "Tss.Alice.C66_small_sizes_never_return"
   ],
   "note": ""
  },
  {
   "property": "C67",
   "status": "proved",
   "theorems": [
    "Tss.Ed.C67_moduli_prime",
    "Tss.Ed.C67_isOnCurve_iff",
    "Tss.Ed.C67_add_closed",
    "Tss.Ed.C67_add_comm",
    "Tss.Ed.C67_add_assoc",
    "Tss.Ed.C67_identity_inverse",
    "Tss.Ed.C67_base_order",
    "Tss.Ed.C67_scalarMult_iterated",
    "Tss.Ed.C67_lawful",
    "Tss.Ed.C67_group_order",
    "Tss.Ed.C67_exponent",
    "Tss.Ed.C67_prime_subgroup"
   ],
   "note": ""
  },
  {
   "property": "C68",
   "status": "proved",
   "theorems": [
    "Tss.Api.C68_faithful",
    "Tss.Api.C68_record_shape",
    "Tss.Api.C68_ids",
    "Tss.Api.C68_reach",
    "Tss.Api.C68_final_exec_signature"
   ],
   "note": ""
  },
  {
   "property": "C69",
   "status": "proved",
   "theorems": [
    "Tss.Params.C69_can_proceed",
    "Tss.Params.C69_waiting_for",
    "Tss.Params.C69_waiting_empty",
    "Tss.Params.C69_reset"
   ],
   "note": ""
  },
  {
   "property": "C70",
   "status": "proved",
   "theorems": [
    "Tss.Ckd.C70_eddsa_step",
    "Tss.Ckd.C70_secp_step",
    "Tss.Ckd.C70_hardened_message",
    "Tss.Ckd.C70_hardened_after_small_child",
    "Tss.Ckd.C70_eddsa_step_succeeds",
    "Tss.Ckd.C70_fresh_key",
    "Tss.Secp.C70_s256_step"
   ],
   "note": ""
  },
  {
   "property": "C71",
   "status": "proved",
   "theorems": [
    "Tss.NTilde.C71_ntilde",
    "Tss.NTilde.C71_ntilde_refuses",
    "Tss.NTilde.C71_prime",
    "Tss.NTilde.C71_one_bit_hangs"
   ],
   "note": ""
  },
  {
   "property": "C72",
   "status": "proved",
   "theorems": [
    "Tss.Secp.C72_field_arithmetic",
    "Tss.Secp.C72_comparisons",
    "Tss.Secp.C72_sqrt",
    "Tss.Secp.C72_example",
    "Tss.Secp.C72_negate_needs_magnitude"
   ],
   "note": ""
  },
  {
   "property": "C73",
   "status": "proved",
   "theorems": [
    "Tss.Secp.C73_curve",
    "Tss.Secp.C73_affine_injective",
    "Tss.Secp.C73_isOnCurve",
    "Tss.Secp.C73_add",
    "Tss.Secp.C73_double",
    "Tss.Secp.C73_oversize",
    "Tss.Secp.C73_oversize_point"
   ],
   "note": ""
  },
  {
   "property": "C74",
   "status": "proved",
   "theorems": [
    "Tss.Secp.C74_scalarMult",
    "Tss.Secp.C74_scalarBaseMult",
    "Tss.Secp.C74_group_order",
    "Tss.Secp.C74_scalarBaseMult_nil",
    "Tss.Secp.C74_add_error"
   ],
   "note": ""
  },
  {
   "property": "C75",
   "status": "proved",
   "theorems": [
    "Tss.Secp.C75_parse_iff",
    "Tss.Secp.C75_round_trip",
    "Tss.Secp.C75_canonical",
    "Tss.Secp.C75_on_curve",
    "Tss.Secp.C75_unreduced",
    "Tss.Secp.C75_extended_keys"
   ],
   "note": ""
  },
  {
   "property": "C76",
   "status": "proved",
   "theorems": [
    "Tss.SaveJson.C76_any_round_trip",
    "Tss.SaveJson.C76_any_points_on_curve",
    "Tss.SaveJson.C76_any_same",
    "Tss.SaveJson.C76_foreign_curve",
    "Tss.SaveJson.C76_save_round_trip",
    "Tss.SaveJson.C76_save_injective",
    "Tss.SaveJson.C76_truncated_refused",
    "Tss.SaveJson.C76_trailing_refused",
    "Tss.SaveJson.C76_trailing_space",
    "Tss.SaveJson.C76_points_on_curve",
    "Tss.SaveJson.C76_signature_record"
   ],
   "note": ""
  },
  {
   "property": "C77",
   "status": "proved",
   "theorems": [
    "Tss.EndToEnd.C77_every_call_ok",
    "Tss.EndToEnd.C77_end_to_end",
    "Tss.EndToEnd.C77_keygen_with_codes"
   ],
   "note": ""
  },
  {
   "property": "C78",
   "status": "proved",
   "theorems": [
    "Tss.Onsign.C78_answer",
    "Tss.Onsign.C78_two_answers_reveal_share",
    "Tss.Onsign.C78_second_answer",
    "Tss.Onsign.C78_share_recovered",
    "Tss.Onsign.C78_R_is_sum",
    "Tss.Onsign.C78_same_messages_same_answer"
   ],
   "note": ""
  },
  {
   "property": "C79",
   "status": "proved",
   "theorems": [
    "Tss.Onsign.C79_replay"
   ],
   "note": ""
  },
  {
   "property": "C80",
   "status": "proved",
   "theorems": [
    "Tss.Keygen.C80_key_fixed",
    "Tss.Keygen.C80_agreement",
    "Tss.Keygen.C80_equivocation"
   ],
   "note": ""
  },
  {
   "property": "C81",
   "status": "proved",
   "theorems": [
    "Tss.Keygen.C81_round3",
    "Tss.Keygen.C81_round4",
    "Tss.Keygen.C81_framing"
   ],
   "note": ""
  },
  {
   "property": "C82",
   "status": "proved",
   "theorems": [
    "Tss.Onsign.C82_round2",
    "Tss.Onsign.C82_round3"
   ],
   "note": ""
  },
  {
   "property": "C83",
   "status": "proved",
   "theorems": [
    "Tss.Onsign.C83_outcome",
    "Tss.Onsign.C83_one_wrong_share",
    "Tss.Onsign.C83_blames_nobody"
   ],
   "note": ""
  },
  {
   "property": "C84",
   "status": "proved",
   "theorems": [
    "Tss.Secp.C84_verify_iff",
    "Tss.Secp.C84_verify_mirror",
    "Tss.Secp.C84_truncation",
    "Tss.Secp.C84_nonce",
    "Tss.Secp.C84_long_key",
    "Tss.Secp.C84_sign_valid",
    "Tss.Secp.C84_sign_outcome",
    "Tss.Secp.C84_example",
    "Tss.Secp.C84_example_meets"
   ],
   "note": ""
  },
  {
   "property": "C85",
   "status": "proved",
   "theorems": [
    "Tss.Secp.C85_never_panics",
    "Tss.Secp.C85_ber_iff",
    "Tss.Secp.C85_der_iff",
    "Tss.Secp.C85_der_ber",
    "Tss.Secp.C85_serialize",
    "Tss.Secp.C85_serialize_injective",
    "Tss.Secp.C85_unique",
    "Tss.Secp.C85_high_s",
    "Tss.Secp.C85_example"
   ],
   "note": ""
  },
  {
   "property": "C86",
   "status": "proved",
   "theorems": [
    "Tss.Secp.C86_recover_iff",
    "Tss.Secp.C86_recover_unique",
    "Tss.Secp.C86_recoverCompact",
    "Tss.Secp.C86_recovered_verifies",
    "Tss.Secp.C86_no_panic",
    "Tss.Secp.C86_round_trip",
    "Tss.Secp.C86_compact_errors",
    "Tss.Secp.C86_infinity",
    "Tss.Secp.C86_example"
   ],
   "note": ""
  },
  {
   "property": "C87",
   "status": "proved",
   "theorems": [
    "Tss.Secp.C87_from_bytes",
    "Tss.Secp.C87_serialize_round_trip",
    "Tss.Secp.C87_ecdh",
    "Tss.Secp.C87_ecdh_opposite",
    "Tss.Secp.C87_ecdh_empty"
   ],
   "note": ""
  },
  {
   "property": "C88",
   "status": "proved",
   "theorems": [
    "Tss.Ecies.C88_padding",
    "Tss.Ecies.C88_padding_lax",
    "Tss.Ecies.C88_decrypt_iff",
    "Tss.Ecies.C88_never_panics",
    "Tss.Ecies.C88_round_trip",
    "Tss.Ecies.C88_tamper",
    "Tss.Ecies.C88_example"
   ],
   "note": ""
  },
  {
   "property": "C89",
   "status": "proved",
   "theorems": [
    "Tss.Common.C89_unbiased",
    "Tss.Common.C89_unbiased_units",
    "Tss.Common.C89_outcomes_finite",
    "Tss.Common.C89_alice_probability",
    "Tss.Common.C89_alice_absolute",
    "Tss.Common.C89_alice_coprime",
    "Tss.Common.C89_squares",
    "Tss.ModProof.C89_nonresidues",
    "Tss.ModProof.C89_case_squares",
    "Tss.Common.C89_bytes",
    "Tss.Common.C89_probability",
    "Tss.Common.C89_probability_units"
   ],
   "note": ""
  },
  {
   "property": "C90",
   "status": "proved",
   "theorems": [
    "Tss.Schnorr.C90_distribution",
    "Tss.Schnorr.C90_made_up_accepted",
    "Tss.Schnorr.C90_zkproof_shows",
    "Tss.Schnorr.C90_representation",
    "Tss.Schnorr.C90_share_is_response",
    "Tss.Schnorr.C90_transcripts",
    "Tss.Schnorr.C90_simulate",
    "Tss.Schnorr.C90_ed25519",
    "Tss.Onsign.C90_share"
   ],
   "note": ""
  },
  {
   "property": "C91",
   "status": "proved",
   "theorems": [
    "Tss.Keygen.C91_randomness",
    "Tss.Keygen.C91_group_key",
    "Tss.Keygen.C91_example"
   ],
   "note": ""
  },
  {
   "property": "C92",
   "status": "proved",
   "theorems": [
    "Tss.Onsign.C92_unique",
    "Tss.Onsign.C92_records_agree",
    "Tss.Onsign.C92_malleable",
    "Tss.Onsign.C92_same_R_reveals_key",
    "Tss.Onsign.C92_every_R"
   ],
   "note": ""
  },
  {
   "property": "C93",
   "status": "proved",
   "theorems": [
    "Tss.Messages.C93_complete_iff",
    "Tss.Messages.C93_validate_message",
    "Tss.Messages.C93_delivered",
    "Tss.Messages.C93_no_routing_on_the_wire",
    "Tss.Messages.C93_routing",
    "Tss.Messages.C93_honest_opening",
    "Tss.Messages.C93_honest_nonce_point",
    "Tss.Messages.C93_honest_numbers",
    "Tss.Messages.C93_example",
    "Tss.Messages.C93_keygen_accepts_incomplete",
    "Tss.Messages.C93_sign_accepts_incomplete"
   ],
   "note": ""
  },
  {
   "property": "C94",
   "status": "proved",
   "theorems": [
    "Tss.Bip340.C94_signature_encoding",
    "Tss.Bip340.C94_signature_errors",
    "Tss.Bip340.C94_verify_iff",
    "Tss.Bip340.C94_rejects_valid",
    "Tss.Bip340.C94_verify_neg",
    "Tss.Bip340.C94_verify_infinity",
    "Tss.Bip340.C94_not_malleable"
   ],
   "note": ""
  },
  {
   "property": "C95",
   "status": "proved",
   "theorems": [
    "Tss.Bip340.C95_sign_verifies",
    "Tss.Bip340.C95_custom_nonce",
    "Tss.Bip340.C95_is_bip340",
    "Tss.Bip340.C95_first_good_nonce",
    "Tss.Bip340.C95_refusals",
    "Tss.Bip340.C95_private_key_changed",
    "Tss.Bip340.C95_sign_again",
    "Tss.Bip340.C95_nonce_reuse"
   ],
   "note": ""
  },
  {
   "property": "C96",
   "status": "proved",
   "theorems": [
    "Tss.Musig2.C96_aggregate",
    "Tss.Musig2.C96_order_exists",
    "Tss.Musig2.C96_tweaks",
    "Tss.Musig2.C96_accumulators",
    "Tss.Musig2.C96_taproot",
    "Tss.Musig2.C96_order_irrelevant",
    "Tss.Musig2.C96_coefficient_x_only",
    "Tss.Musig2.C96_infinity_unnoticed"
   ],
   "note": ""
  },
  {
   "property": "C97",
   "status": "proved",
   "theorems": [
    "Tss.Musig2.C97_honest",
    "Tss.Musig2.C97_nonce_reuse",
    "Tss.Musig2.C97_sign_iff",
    "Tss.Musig2.C97_sign_verifies",
    "Tss.Musig2.C97_partial_unique",
    "Tss.Musig2.C97_combine_iff",
    "Tss.Musig2.C97_combine",
    "Tss.Musig2.C97_blame",
    "Tss.Musig2.C97_odd_key_breaks",
    "Tss.Musig2.C97_combine_no_options",
    "Tss.Musig2.C97_cancelling_nonces",
    "Tss.Musig2.C97_combine_option_panics",
    "Tss.Musig2.C97_decode"
   ],
   "note": ""
  },
  {
   "property": "C98",
   "status": "proved",
   "theorems": [
    "Tss.Musig2.C98_generated",
    "Tss.Musig2.C98_secret_key_mixed",
    "Tss.Musig2.C98_input_injective",
    "Tss.Musig2.C98_public_matches",
    "Tss.Musig2.C98_short_read",
    "Tss.Musig2.C98_aggregate",
    "Tss.Musig2.C98_half_parses",
    "Tss.Musig2.C98_order_irrelevant",
    "Tss.Musig2.C98_honest",
    "Tss.Musig2.C98_zero_nonce"
   ],
   "note": ""
  },
  {
   "property": "C99",
   "status": "proved",
   "theorems": [
    "Tss.Musig2.C99_signs_for_combined_key",
    "Tss.Musig2.C99_sorted_sign_reorders",
    "Tss.Musig2.C99_combined_nonce",
    "Tss.Musig2.C99_final_valid",
    "Tss.Musig2.C99_honest_run",
    "Tss.Musig2.C99_honest_group",
    "Tss.Musig2.C99_same_key_set",
    "Tss.Musig2.C99_sign_once",
    "Tss.Musig2.C99_public_nonce_panics",
    "Tss.Musig2.C99_early_nonce_once",
    "Tss.Musig2.C99_pregenerated_nonce_shared",
    "Tss.Musig2.C99_combined_key",
    "Tss.Musig2.C99_single_signer",
    "Tss.Musig2.C99_bad_nonce_stuck",
    "Tss.Musig2.C99_combine_before_sign_panics",
    "Tss.Musig2.C99_no_retry",
    "Tss.Musig2.C99_sign_last",
    "Tss.Musig2.C99_own_key_required",
    "Tss.Musig2.C99_number_of_signers",
    "Tss.Musig2.C99_one_signer_context",
    "Tss.Musig2.C99_register_signer"
   ],
   "note": ""
  },
  {
   "property": "C100",
   "status": "proved",
   "theorems": [
    "Tss.EcdsaV2.C100_same_as_v1",
    "Tss.EcdsaV2.C100_never_panics",
    "Tss.EcdsaV2.C100_der_iff",
    "Tss.EcdsaV2.C100_reads_v1",
    "Tss.EcdsaV2.C100_example"
   ],
   "note": ""
  },
  {
   "property": "C101",
   "status": "proved",
   "theorems": [
    "Tss.TssError.C101_text_determines",
    "Tss.TssError.C101_no_cause",
    "Tss.TssError.C101_before_start",
    "Tss.TssError.C101_in_round",
    "Tss.TssError.C101_keys_not_shown",
    "Tss.TssError.C101_moniker_forges",
    "Tss.TssError.C101_example"
   ],
   "note": ""
  },
  {
   "property": "C102",
   "status": "proved",
   "theorems": [
    "Tss.Calls.C102_no_race",
    "Tss.Calls.C102_as_if_in_turn",
    "Tss.Calls.C102_each_once",
    "Tss.Calls.C102_create_races",
    "Tss.Keygen.C102_keygen",
    "Tss.Keygen.C102_keygen_impl",
    "Tss.Onsign.C102_onsign",
    "Tss.Onsign.C102_onsign_impl",
    "Tss.Calls.C102_overlap_example",
    "Tss.Calls.C102_removed_twice"
   ],
   "note": ""
  },
  {
   "property": "C103",
   "status": "proved",
   "theorems": [
    "Tss.World.C103_only_since_restart",
    "Tss.World.C103_reachable",
    "Tss.World.C103_released_signature_verifies",
    "Tss.World.C103_sessions_are_gone",
    "Tss.World.C103_creation_independent",
    "Tss.World.C103_fresh_start",
    "Tss.World.C103_example"
   ],
   "note": ""
  },
  {
   "property": "C104",
   "status": "proved",
   "theorems": [
    "Tss.Onsign.C104_sign_retry",
    "Tss.Onsign.C104_garbled_share",
    "Tss.Keygen.C104_keygen_retry",
    "Tss.Keygen.C104_round3_retry_differs",
    "Tss.Keygen.C104_round3_calls",
    "Tss.Keygen.C104_round3_first_peer"
   ],
   "note": ""
  },
  {
   "property": "C105",
   "status": "proved",
   "theorems": [
    "Tss.Api.C105_reads_one_way",
    "Tss.Api.C105_reads_utf8",
    "Tss.Api.C105_read_back",
    "Tss.Api.C105_read_back_plain",
    "Tss.Api.C105_text_determines",
    "Tss.Api.C105_text_determines_plain",
    "Tss.Api.C105_injective",
    "Tss.Api.C105_injective_plain",
    "Tss.Api.C105_bad_keys_look_alike",
    "Tss.Api.C105_success",
    "Tss.Api.C105_grammar"
   ],
   "note": ""
  },
  {
   "property": "C106",
   "status": "proved",
   "theorems": [
    "Tss.Onsign.C106_round2",
    "Tss.Onsign.C106_round3",
    "Tss.RangeProofs.C106_enc_answer",
    "Tss.RangeProofs.C106_enc_two_answers",
    "Tss.RangeProofs.C106_enc_one_challenge",
    "Tss.RangeProofs.C106_fraction_unique",
    "Tss.RangeProofs.C106_few_fractions",
    "Tss.RangeProofs.C106_log_answer",
    "Tss.RangeProofs.C106_log_two_answers",
    "Tss.RangeProofs.C106_same_number",
    "Tss.RangeProofs.C106_log_unit",
    "Tss.RangeProofs.C106_enc_accepts_non_ciphertext",
    "Tss.RangeProofs.C106_bound_ed25519"
   ],
   "note": ""
  },
  {
   "property": "C107",
   "status": "proved",
   "theorems": [
    "Tss.RangeProofs.C107_hiding",
    "Tss.RangeProofs.C107_enc_message",
    "Tss.RangeProofs.C107_log_message",
    "Tss.RangeProofs.C107_bound_ed25519",
    "Tss.RangeProofs.C107_needs_power"
   ],
   "note": ""
  },
  {
   "property": "C108",
   "status": "proved",
   "theorems": [
    "Tss.RingPed.C108_transcripts",
    "Tss.RingPed.C108_half",
    "Tss.RingPed.C108_message",
    "Tss.RingPed.C108_given_challenge",
    "Tss.RingPed.C108_made_up_accepted",
    "Tss.RingPed.C108_dln_message"
   ],
   "note": ""
  },
  {
   "property": "C109",
   "status": "proved",
   "theorems": [
    "Tss.Factor.C109_factor_hiding",
    "Tss.Factor.C109_factor_bound",
    "Tss.Factor.C109_factor_message",
    "Tss.ModProof.C109_modulus_transcripts",
    "Tss.ModProof.C109_squares",
    "Tss.ModProof.C109_modulus_accepted",
    "Tss.ModProof.C109_modulus_message"
   ],
   "note": ""
  },
  {
   "property": "C110",
   "status": "proved",
   "theorems": [
    "Tss.Readers.C110_keygen2",
    "Tss.Readers.C110_keygen3",
    "Tss.Readers.C110_sign1",
    "Tss.Readers.C110_sign1_proof",
    "Tss.Readers.C110_sign2",
    "Tss.Readers.C110_sign3",
    "Tss.Readers.C110_on_curve",
    "Tss.Readers.C110_refused",
    "Tss.Readers.C110_prm_proof",
    "Tss.Readers.C110_mod_proof",
    "Tss.Readers.C110_public_key",
    "Tss.Readers.C110_sign_lost",
    "Tss.Readers.C110_no_parameters",
    "Tss.Readers.C110_no_proofs"
   ],
   "note": ""
  },
  {
   "property": "C111",
   "status": "proved",
   "theorems": [
    "Tss.Onsign.C111_ordinary",
    "Tss.Onsign.C111_sharing_invisible",
    "Tss.Onsign.C111_nonce_decisive",
    "Tss.Onsign.C111_same_inputs",
    "Tss.Onsign.C111_example"
   ],
   "note": ""
  },
  {
   "property": "C112",
   "status": "proved",
   "theorems": [
    "Tss.Onsign.C112_call",
    "Tss.Onsign.C112_history",
    "Tss.Onsign.C112_creation",
    "Tss.Onsign.C112_round3",
    "Tss.Onsign.C112_example"
   ],
   "note": ""
  },
  {
   "property": "C113",
   "status": "proved",
   "theorems": [
    "Tss.Keygen.C113_call",
    "Tss.Keygen.C113_round4",
    "Tss.Keygen.C113_new",
    "Tss.Keygen.C113_history",
    "Tss.Onsign.C113_signing",
    "Tss.Onsign.C113_hardened",
    "Tss.Onsign.C113_too_long",
    "Tss.Onsign.C113_too_long_root",
    "Tss.EndToEnd.C113_example_root",
    "Tss.EndToEnd.C113_example_long"
   ],
   "note": ""
  },
  {
   "property": "C114",
   "status": "proved",
   "theorems": [
    "Tss.Onsign.C114_rounds_succeed",
    "Tss.Onsign.C114_last_call",
    "Tss.Onsign.C114_nothing_released",
    "Tss.Onsign.C114_reaches_last",
    "Tss.Onsign.C114_part_of_session",
    "Tss.Onsign.C114_others_refused",
    "Tss.Onsign.C114_others_crash",
    "Tss.Onsign.C114_part_crashes",
    "Tss.Onsign.C114_alone",
    "Tss.Onsign.C114_other_alone"
   ],
   "note": ""
  },
  {
   "property": "C115",
   "status": "proved",
   "theorems": [
    "Tss.Onsign.C115_rounds_succeed",
    "Tss.Onsign.C115_last_call",
    "Tss.Onsign.C115_nothing_released",
    "Tss.Onsign.C115_reaches_last",
    "Tss.Onsign.C115_odd_one_out",
    "Tss.Onsign.C115_no_signature",
    "Tss.Onsign.C115_two_messages"
   ],
   "note": ""
  },
  {
   "property": "C116",
   "status": "proved",
   "theorems": [
    "Tss.Onsign.C116_every_call_ok",
    "Tss.Onsign.C116_can_finish",
    "Tss.Onsign.C116_agreement",
    "Tss.Onsign.C116_no_result_before",
    "Tss.Onsign.C116_after_round3",
    "Tss.Onsign.C116_not_needed",
    "Tss.Onsign.C116_lost_after_round1",
    "Tss.Onsign.C116_lost_after_round3"
   ],
   "note": ""
  },
  {
   "property": "C117",
   "status": "proved",
   "theorems": [
    "Tss.Keygen.C117_two_answers_reveal_root",
    "Tss.Keygen.C117_alternates",
    "Tss.Keygen.C117_round2_again",
    "Tss.Keygen.C117_round4_again",
    "Tss.Keygen.C117_asked_again"
   ],
   "note": ""
  },
  {
   "property": "C118",
   "status": "proved",
   "theorems": [
    "Tss.Keygen.C118_every_call_ok",
    "Tss.Keygen.C118_can_finish",
    "Tss.Keygen.C118_agreement",
    "Tss.Keygen.C118_no_result_before",
    "Tss.Keygen.C118_after_round3",
    "Tss.Keygen.C118_last_word"
   ],
   "note": ""
  },
  {
   "property": "C119",
   "status": "proved",
   "theorems": [
    "Tss.Onsign.C119_released_iff",
    "Tss.Onsign.C119_divided_gives_share_away",
    "Tss.Onsign.C119_case_honest"
   ],
   "note": ""
  },
  {
   "property": "C120",
   "status": "proved",
   "theorems": [
    "Tss.Ckd.C120_path_unique",
    "Tss.Ckd.C120_child",
    "Tss.Ckd.C120_one_share_gives_all",
    "Tss.Onsign.C120_signer",
    "Tss.Onsign.C120_two_answers_give_every_path",
    "Tss.Onsign.C120_root_share_recovered",
    "Tss.Secp.C120_secp_child",
    "Tss.Secp.C120_secp_one_key_gives_all"
   ],
   "note": ""
  },
  {
   "property": "C121",
   "status": "proved",
   "theorems": [
    "Tss.Keygen.C121_keygen",
    "Tss.Onsign.C121_signing",
    "Tss.Keygen.C121_case_keygen",
    "Tss.Onsign.C121_case_signing",
    "Tss.C121_many_sessions",
    "Tss.C121_many_signers",
    "Tss.Onsign.C121_sessions",
    "Tss.Onsign.C121_case_sessions"
   ],
   "note": ""
  },
  {
   "property": "C122",
   "status": "proved",
   "theorems": [
    "Tss.Paillier.C122_acceptable_iff",
    "Tss.Paillier.C122_bad_modulus",
    "Tss.Paillier.C122_good_modulus",
    "Tss.Paillier.C122_good_accepted",
    "Tss.Paillier.C122_case"
   ],
   "note": ""
  },
  {
   "property": "C123",
   "status": "proved",
   "theorems": [
    "Tss.CurveReg.C123_register",
    "Tss.CurveReg.C123_history",
    "Tss.CurveReg.C123_names_once",
    "Tss.CurveReg.C123_name",
    "Tss.CurveReg.C123_name_depends",
    "Tss.CurveReg.C123_start",
    "Tss.CurveReg.C123_wrong_curve",
    "Tss.CurveReg.C123_set_nil",
    "Tss.CurveReg.C123_case"
   ],
   "note": ""
  },
  {
   "property": "C124",
   "status": "proved",
   "theorems": [
    "Tss.Messages.C124_crash_iff",
    "Tss.Messages.C124_contents_not_shown",
    "Tss.Messages.C124_text_determines",
    "Tss.Messages.C124_sent_prints",
    "Tss.Messages.C124_received",
    "Tss.Messages.C124_parsed_without_sender",
    "Tss.Messages.C124_case"
   ],
   "note": ""
  },
  {
   "property": "C125",
   "status": "proved",
   "theorems": [
    "Tss.PartyID.C125_parties",
    "Tss.PartyID.C125_distinct_iff",
    "Tss.PartyID.C125_bad_draws",
    "Tss.PartyID.C125_draw",
    "Tss.PartyID.C125_case"
   ],
   "note": ""
  },
  {
   "property": "C126",
   "status": "proved",
   "theorems": [
    "Tss.Dln.C126_accepted_answerable",
    "Tss.Dln.C126_two_strings",
    "Tss.Dln.C126_false_statement",
    "Tss.Dln.C126_guess",
    "Tss.Dln.C126_true_statement",
    "Tss.Dln.C126_base_not_coprime",
    "Tss.Dln.C126_case"
   ],
   "note": ""
  },
  {
   "property": "C127",
   "status": "proved",
   "theorems": [
    "Tss.Schnorr.C127_challenges",
    "Tss.Schnorr.C127_one_in_d",
    "Tss.Schnorr.C127_choice",
    "Tss.Schnorr.C127_honest_response",
    "Tss.Schnorr.C127_accepts",
    "Tss.Schnorr.C127_sum",
    "Tss.Schnorr.C127_index_one",
    "Tss.Keygen.C127_round4",
    "Tss.Keygen.C127_round4_accepts",
    "Tss.Ed.C127_points",
    "Tss.Ed.C127_ed25519",
    "Tss.Ed.C127_indices",
    "Tss.Ed.C127_case",
    "Tss.Onsign.C127_signature",
    "Tss.Onsign.C127_released"
   ],
   "note": ""
  },
  {
   "property": "C128",
   "status": "proved",
   "theorems": [
    "Tss.Text.C128_integer",
    "Tss.Text.C128_hex",
    "Tss.Text.C128_base64",
    "Tss.Text.C128_unique",
    "Tss.Text.C128_case"
   ],
   "note": ""
  },
  {
   "property": "C129",
   "status": "proved",
   "theorems": [
    "Tss.Wire.C129_varint",
    "Tss.Wire.C129_fields",
    "Tss.Wire.C129_unambiguous",
    "Tss.Wire.C129_utf8",
    "Tss.Wire.C129_message",
    "Tss.Wire.C129_one_content",
    "Tss.Wire.C129_case"
   ],
   "note": ""
  },
  {
   "property": "C130",
   "status": "proved",
   "theorems": [
    "Tss.Json.C130_json",
    "Tss.Json.C130_one_value",
    "Tss.Json.C130_string",
    "Tss.Json.C130_number"
   ],
   "note": ""
  },
  {
   "property": "C131",
   "status": "proved",
   "theorems": [
    "Tss.SaveJson.C131_point_text",
    "Tss.SaveJson.C131_written",
    "Tss.SaveJson.C131_crash"
   ],
   "note": ""
  },
  {
   "property": "C132",
   "status": "proved",
   "theorems": [
    "Tss.SaveJson.C132_save_text",
    "Tss.SaveJson.C132_one_record",
    "Tss.SaveJson.C132_written"
   ],
   "note": ""
  }
 ]
}