# Axioms of every claimed theorem (generated by tools/axioms.py)


## C01

* `Tss.Common.C01_framing_injective`: propext, Classical.choice, Quot.sound
* `Tss.Common.C01_equal_digest_equal_parts`: propext, Classical.choice, Quot.sound
* `Tss.Common.C01_collision`: propext, Classical.choice, Quot.sound
* `Tss.Common.C01_nil_iff`: propext

## C02

* `Tss.Common.C02_int_framing`: propext, Classical.choice, Quot.sound
* `Tss.Common.C02_int_digest_binding`: propext, Classical.choice, Quot.sound
* `Tss.Common.C02_sign_not_bound`: propext, Quot.sound
* `Tss.Common.C02_nil_arguments`: propext, Quot.sound
* `Tss.Common.C02_tagged_binding`: propext, Classical.choice, Quot.sound

## C03

* `Tss.Common.C03_rejection_sample`: propext, Quot.sound
* `Tss.Common.C03_unique`: propext, Quot.sound
* `Tss.Keygen.C03_keygen_challenge`: propext, Classical.choice, Quot.sound

## C04

* `Tss.Common.C04_positive_int_range`: propext, Classical.choice, Quot.sound
* `Tss.Common.C04_every_value_occurs`: propext, Classical.choice, Quot.sound
* `Tss.Common.C04_large_bound_panics`: propext, Classical.choice, Quot.sound
* `Tss.Common.C04_must_get_random_int`: propext, Classical.choice, Quot.sound
* `Tss.Common.C04_relatively_prime`: propext, Classical.choice, Quot.sound
* `Tss.Common.C04_relatively_prime_one_hangs`: propext
* `Tss.Common.C04_group_test`: propext, Quot.sound

## C05

* `Tss.Common.C05_pad`: propext, Quot.sound

## C06

* `Tss.Common.C06_round_trip`: propext, Classical.choice, Quot.sound
* `Tss.Common.C06_nonEmptyMultiBytes`: propext, Classical.choice, Quot.sound
* `Tss.Common.C06_nonEmptyBytes`: propext, Classical.choice, Quot.sound
* `Tss.Common.C06_entries`: propext, Classical.choice, Quot.sound

## C07

* `Tss.Common.C07_ring_ops`: propext, Quot.sound
* `Tss.Common.C07_inverse`: propext, Classical.choice, Quot.sound
* `Tss.Common.C07_exp`: propext, Classical.choice, Quot.sound

## C08

* `Tss.PartyID.C08_sorted_permutation_indexed`: propext, Classical.choice, Quot.sound
* `Tss.PartyID.C08_order_independent`: propext, Quot.sound
* `Tss.PartyID.C08_index_is_rank`: propext, Classical.choice, Quot.sound
* `Tss.PartyID.C08_algorithm_irrelevant`: propext, Quot.sound
* `Tss.PartyID.C08_sign_collision`: propext, Classical.choice, Quot.sound

## C09

* `Tss.PartyID.C09_findByKey`: propext, Quot.sound
* `Tss.PartyID.C09_exclude`: propext, Quot.sound
* `Tss.PartyID.C09_validateBasic`: propext, Quot.sound

## C10

* `Tss.World.C10_keygen_call_is_local`: propext, Classical.choice, Quot.sound
* `Tss.World.C10_signing_call_is_local`: propext, Classical.choice, Quot.sound
* `Tss.World.C10_noninterference`: propext, Classical.choice, Quot.sound

## C11

* `Tss.World.C11_unknown_key`: propext, Classical.choice, Quot.sound
* `Tss.World.C11_texts`: propext, Classical.choice, Quot.sound

## C12

* `Tss.World.C12_remove_exact`: propext, Classical.choice, Quot.sound
* `Tss.World.C12_removed_stays_removed`: propext, Classical.choice, Quot.sound

## C13

* `Tss.Keygen.C13_success_iff`: propext, Classical.choice, Quot.sound
* `Tss.Keygen.C13_panic_iff`: propext, Classical.choice, Quot.sound
* `Tss.Keygen.C13_failure_keeps_state`: propext
* `Tss.Keygen.C13_new_party`: propext, Classical.choice, Quot.sound

## C14

* `Tss.Keygen.C14_success_iff`: propext, Quot.sound
* `Tss.Keygen.C14_effect`: propext, Quot.sound
* `Tss.Keygen.C14_record_holds_last_codes`: propext, Classical.choice, Quot.sound
* `Tss.Keygen.C14_no_codes`: propext, Classical.choice, Quot.sound

## C15

* `Tss.Keygen.C15_bad_base64`: propext, Classical.choice, Quot.sound
* `Tss.Keygen.C15_bad_sender`: propext, Classical.choice, Quot.sound
* `Tss.Keygen.C15_accept_effect`: propext, Classical.choice, Quot.sound
* `Tss.Keygen.C15_other_slots`: propext

## C16

* `Tss.Keygen.C16_rejected_message_overwrites`: propext, Classical.choice, Quot.sound
* `Tss.Keygen.C16_round2_then_fails`: propext, Classical.choice, Quot.sound
* `Tss.Keygen.C16_next_exec_fails`: propext, Classical.choice, Quot.sound
* `Tss.Keygen.C16_garbage_then_next`: propext, Classical.choice, Quot.sound
* `Tss.Keygen.C16_finish_implies_wellformed`: propext, Classical.choice, Quot.sound

## C17

* `Tss.Keygen.C17_finish_iff`: propext, Classical.choice, Quot.sound
* `Tss.Keygen.C17_names_first_missing`: propext, Classical.choice, Quot.sound

## C18

* `Tss.Keygen.C18_round3`: propext, Classical.choice, Quot.sound
* `Tss.Keygen.C18_commit_then_open`: propext, Classical.choice, Quot.sound
* `Tss.Keygen.C18_example`: propext, Classical.choice, Quot.sound
* `Tss.Keygen.C18_openings`: propext, Classical.choice, Quot.sound
* `Tss.Keygen.C18_round2_records`: propext, Classical.choice, Quot.sound
* `Tss.Keygen.C18_binding`: propext, Classical.choice, Quot.sound

## C19

* `Tss.Keygen.C19_single_run`: propext, Classical.choice, Quot.sound
* `Tss.Keygen.C19_second_run`: propext, Classical.choice, Quot.sound

## C20

* `Tss.Keygen.C20_round4`: propext, Classical.choice, Quot.sound
* `Tss.Keygen.C20_reachable`: propext, Classical.choice, Quot.sound

## C21

* `Tss.Keygen.C21_every_call_ok`: propext, Classical.choice, Quot.sound
* `Tss.Keygen.C21_agreement`: propext, Classical.choice, Quot.sound
* `Tss.Keygen.C21_finish`: propext, Classical.choice, Quot.sound
* `Tss.Keygen.C21_no_deadlock`: propext, Classical.choice, Quot.sound
* `Tss.Keygen.C21_can_finish`: propext, Classical.choice, Quot.sound

## C22

* `Tss.Keygen.C22_empty_root_zero`: propext, Classical.choice, Quot.sound
* `Tss.Keygen.C22_random_share_unused`: propext, Classical.choice, Quot.sound
* `Tss.Keygen.C22_identity_share`: propext, Classical.choice, Quot.sound
* `Tss.Keygen.C22_share_never_nil`: propext, Classical.choice, Quot.sound
* `Tss.Keygen.C22_reachable`: propext, Classical.choice, Quot.sound

## C23

* `Tss.ECPoint.C23_new_iff`: propext
* `Tss.ECPoint.C23_closed`: propext, Classical.choice, Quot.sound
* `Tss.ECPoint.C23_results_checked`: propext

## C24

* `Tss.ECPoint.C24_scalar_action`: propext, Quot.sound
* `Tss.ECPoint.C24_base`: propext, Quot.sound
* `Tss.ECPoint.C24_fails_outside_subgroup`: none

## C25

* `Tss.ECPoint.C25_clears_torsion`: propext, Classical.choice, Quot.sound
* `Tss.ECPoint.C25_lands_in_subgroup`: propext, Classical.choice, Quot.sound
* `Tss.Ed.C25_ed25519`: propext, Classical.choice, Quot.sound
* `Tss.Ed.C25_ed25519_removes_torsion`: propext, Classical.choice, Quot.sound

## C26

* `Tss.ECPoint.C26_round_trip`: propext, Quot.sound
* `Tss.ECPoint.C26_unflatten_sound`: propext, Classical.choice, Quot.sound
* `Tss.ECPoint.C26_flatten_iff`: propext, Quot.sound
* `Tss.ECPoint.C26_unflatten_iff`: propext, Quot.sound
* `Tss.ECPoint.C26_case`: propext

## C27

* `Tss.ECPoint.C27_gob_round_trip`: propext, Classical.choice, Quot.sound
* `Tss.ECPoint.C27_gob_decode_on_curve`: propext
* `Tss.ECPoint.C27_json_round_trip`: propext, Classical.choice, Quot.sound
* `Tss.ECPoint.C27_json_checked`: propext, Classical.choice, Quot.sound
* `Tss.ECPoint.C27_ambiguous_type`: none
* `Tss.ECPoint.C27_gob_accepts_iff`: propext, Classical.choice, Quot.sound
* `Tss.ECPoint.C27_gob_cut_short`: propext, Classical.choice, Quot.sound
* `Tss.ECPoint.C27_gob_case`: none
* `Tss.SaveJson.C27_text_round_trip`: propext, Classical.choice, Quot.sound
* `Tss.SaveJson.C27_text_checked`: propext, Classical.choice, Quot.sound
* `Tss.SaveJson.C27_text_off_curve`: propext, Classical.choice, Quot.sound
* `Tss.SaveJson.C27_text_unknown_curve`: propext, Classical.choice, Quot.sound
* `Tss.SaveJson.C27_text_truncated`: propext, Classical.choice, Quot.sound
* `Tss.SaveJson.C27_text_injective`: propext, Classical.choice, Quot.sound
* `Tss.SaveJson.C27_text_default_curve`: propext, Classical.choice, Quot.sound
* `Tss.SaveJson.C27_text_panics_iff`: propext, Classical.choice, Quot.sound
* `Tss.SaveJson.C27_text_null`: propext, Classical.choice, Quot.sound
* `Tss.SaveJson.C27_text_example`: propext, Classical.choice, Quot.sound

## C28

* `Tss.Schnorr.C28_prove_verify`: propext, Quot.sound
* `Tss.Schnorr.C28_response_range`: propext, Quot.sound
* `Tss.Schnorr.C28_zkproof`: propext, Quot.sound
* `Tss.Schnorr.C28_zk_response_range`: propext, Quot.sound
* `Tss.Schnorr.C28_zkvproof`: propext, Quot.sound

## C29

* `Tss.Schnorr.C29_verify_exact`: propext, Quot.sound
* `Tss.Schnorr.C29_zkproof_exact`: propext, Quot.sound
* `Tss.Schnorr.C29_zkv_exact`: propext, Quot.sound
* `Tss.Schnorr.C29_special_soundness`: propext, Classical.choice, Quot.sound
* `Tss.Schnorr.C29_special_soundness_cofactor`: propext, Classical.choice, Quot.sound
* `Tss.Schnorr.C29_torsion_accepted`: propext, Classical.choice, Quot.sound

## C30

* `Tss.Paillier.C30_encrypt_rejects`: propext, Classical.choice, Quot.sound
* `Tss.Paillier.C30_decrypt_encrypt`: propext, Classical.choice, Quot.sound
* `Tss.Paillier.C30_every_randomness`: propext, Classical.choice, Quot.sound
* `Tss.Paillier.C30_decrypt_total`: propext, Classical.choice, Quot.sound
* `Tss.Paillier.C30_ciphertext_binding`: propext, Classical.choice, Quot.sound

## C31

* `Tss.Paillier.C31_homoAdd`: propext, Classical.choice, Quot.sound
* `Tss.Paillier.C31_homoMult`: propext, Classical.choice, Quot.sound
* `Tss.Paillier.C31_homomorphism`: propext, Classical.choice, Quot.sound
* `Tss.Paillier.C31_rejects`: propext, Classical.choice, Quot.sound

## C32

* `Tss.Paillier.C32_generated_key`: propext, Classical.choice, Quot.sound
* `Tss.Paillier.C32_safe_primes_good`: propext, Classical.choice, Quot.sound
* `Tss.Paillier.C32_generated_key_decrypts`: propext, Classical.choice, Quot.sound

## C33

* `Tss.Paillier.C33_accept_iff`: propext, Classical.choice, Quot.sound
* `Tss.Paillier.C33_schedule_independent`: propext, Classical.choice, Quot.sound
* `Tss.Paillier.C33_nil_entry_schedule_dependent`: propext
* `Tss.Paillier.C33_small_factor_rejected`: propext, Classical.choice, Quot.sound
* `Tss.Paillier.C33_negative_modulus_hangs`: propext, Classical.choice, Quot.sound
* `Tss.Paillier.C33_complete`: propext, Classical.choice, Quot.sound

## C34

* `Tss.AlicePaillier.C34_decrypt_total`: propext, Classical.choice, Quot.sound
* `Tss.AlicePaillier.C34_encrypt_rejects`: none
* `Tss.AlicePaillier.C34_decrypt_encrypt`: propext, Classical.choice, Quot.sound
* `Tss.AlicePaillier.C34_add`: propext, Classical.choice, Quot.sound
* `Tss.AlicePaillier.C34_mulConst`: propext, Classical.choice, Quot.sound
* `Tss.AlicePaillier.C34_operations_reject`: propext, Classical.choice, Quot.sound
* `Tss.AlicePaillier.C34_primes_fresh`: propext, Classical.choice, Quot.sound
* `Tss.AlicePaillier.C34_generated`: propext, Classical.choice, Quot.sound
* `Tss.AlicePaillier.C34_generation_succeeds`: propext, Classical.choice, Quot.sound
* `Tss.AlicePaillier.C34_nth_root`: propext, Classical.choice, Quot.sound
* `Tss.AlicePaillier.C34_pubkey_iff`: propext, Classical.choice, Quot.sound
* `Tss.AlicePaillier.C34_pedersen_open`: propext, Classical.choice, Quot.sound
* `Tss.AlicePaillier.C34_message_range`: propext, Classical.choice, Quot.sound

## C35

* `Tss.RangeProofs.C35_enc_complete`: propext, Classical.choice, Quot.sound
* `Tss.RangeProofs.C35_enc_accepted_in_range`: propext, Classical.choice, Quot.sound
* `Tss.RangeProofs.C35_enc_honest_can_fail`: propext, Classical.choice, Quot.sound

## C36

* `Tss.RangeProofs.C36_enc_accept_iff`: propext, Classical.choice, Quot.sound
* `Tss.RangeProofs.C36_enc_accept_pos`: propext, Classical.choice, Quot.sound
* `Tss.RangeProofs.C36_enc_special_soundness`: propext, Classical.choice, Quot.sound
* `Tss.RangeProofs.C36_enc_challenge_binds`: propext, Classical.choice, Quot.sound

## C37

* `Tss.RangeProofs.C37_enc_unparsable_panics`: propext, Classical.choice, Quot.sound
* `Tss.RangeProofs.C37_log_unparsable_panics`: propext, Classical.choice, Quot.sound
* `Tss.RangeProofs.C37_enc_bad_ciphertext_panics`: propext, Classical.choice, Quot.sound

## C38

* `Tss.RangeProofs.C38_log_accept_iff`: propext, Classical.choice, Quot.sound
* `Tss.RangeProofs.C38_log_complete`: propext, Classical.choice, Quot.sound
* `Tss.RangeProofs.C38_log_special_soundness`: propext, Classical.choice, Quot.sound
* `Tss.RangeProofs.C38_log_complete_ed25519`: propext, Classical.choice, Quot.sound

## C39

* `Tss.RangeProofs.C39_log_ignores_x`: propext, Classical.choice, Quot.sound
* `Tss.RangeProofs.C39_log_challenge_ignores_x`: propext, Classical.choice, Quot.sound
* `Tss.RangeProofs.C39_log_challenge_binds`: propext, Classical.choice, Quot.sound
* `Tss.RangeProofs.C39_log_challenge_ignores_bases`: propext, Classical.choice, Quot.sound
* `Tss.RangeProofs.C39_log_negation`: propext, Classical.choice, Quot.sound

## C40

* `Tss.ModProof.C40_challenges`: propext, Classical.choice, Quot.sound
* `Tss.ModProof.C40_verify_iff`: propext, Classical.choice, Quot.sound
* `Tss.ModProof.C40_order_independent`: propext, Classical.choice, Quot.sound
* `Tss.ModProof.C40_even_panics`: propext, Classical.choice, Quot.sound
* `Tss.ModProof.C40_nil_refused`: propext, Classical.choice, Quot.sound
* `Tss.ModProof.C40_odd_answers`: propext, Classical.choice, Quot.sound
* `Tss.ModProof.C40_complete`: propext, Classical.choice, Quot.sound
* `Tss.ModProof.C40_newProof`: propext, Classical.choice, Quot.sound
* `Tss.ModProof.C40_soundness_half`: propext, Classical.choice, Quot.sound
* `Tss.ModProof.C40_accepted_answerable`: propext, Classical.choice, Quot.sound
* `Tss.ModProof.C40_forgery`: propext, Classical.choice, Quot.sound

## C41

* `Tss.ModProof.C41_accepts_iff`: propext, Classical.choice, Quot.sound
* `Tss.ModProof.C41_round_trip`: propext, Classical.choice, Quot.sound
* `Tss.ModProof.C41_decoded`: propext, Classical.choice, Quot.sound
* `Tss.ModProof.C41_zero_part_lost`: propext, Classical.choice, Quot.sound

## C42

* `Tss.Dln.C42_verify_iff`: propext, Classical.choice, Quot.sound
* `Tss.Dln.C42_complete`: propext, Classical.choice, Quot.sound
* `Tss.Dln.C42_order`: propext, Classical.choice, Quot.sound
* `Tss.Dln.C42_special_soundness`: propext, Classical.choice, Quot.sound
* `Tss.Dln.C42_refused`: propext, Classical.choice, Quot.sound
* `Tss.Dln.C42_nil_response_crashes`: propext, Classical.choice, Quot.sound
* `Tss.Dln.C42_serialize_round_trip`: propext, Classical.choice, Quot.sound
* `Tss.Dln.C42_unmarshal_iff`: propext, Quot.sound
* `Tss.Dln.C42_verify_no_crash`: propext, Classical.choice, Quot.sound
* `Tss.Dln.C42_nil_crash`: propext, Classical.choice, Quot.sound
* `Tss.Dln.C42_unmarshalled_no_crash`: propext, Classical.choice, Quot.sound
* `Tss.Dln.C42_unmarshal_crashes`: propext, Classical.choice, Quot.sound
* `Tss.Dln.C42_crash_case`: propext, Classical.choice, Quot.sound

## C43

* `Tss.RingPed.C43_verify_iff`: propext, Classical.choice, Quot.sound
* `Tss.RingPed.C43_too_few`: propext, Classical.choice, Quot.sound
* `Tss.RingPed.C43_missing_response_crashes`: propext, Classical.choice, Quot.sound
* `Tss.RingPed.C43_complete`: propext, Classical.choice, Quot.sound
* `Tss.RingPed.C43_parameters`: propext, Classical.choice, Quot.sound
* `Tss.RingPed.C43_special_soundness`: propext, Classical.choice, Quot.sound
* `Tss.RingPed.C43_repetition`: propext, Classical.choice, Quot.sound
* `Tss.RingPed.C43_forgery`: propext, Classical.choice, Quot.sound

## C44

* `Tss.Factor.C44_verify_iff`: propext, Classical.choice, Quot.sound
* `Tss.Factor.C44_verify_total`: propext, Classical.choice, Quot.sound
* `Tss.Factor.C44_returned_verifies`: propext, Classical.choice, Quot.sound
* `Tss.Factor.C44_small_key`: propext, Classical.choice, Quot.sound
* `Tss.Factor.C44_attempt`: propext, Classical.choice, Quot.sound
* `Tss.Factor.C44_first_salt`: propext, Classical.choice, Quot.sound
* `Tss.Factor.C44_special_soundness`: propext, Classical.choice, Quot.sound
* `Tss.Factor.C44_any_modulus_accepted`: propext, Classical.choice, Quot.sound

## C45

* `Tss.Commit.C45_opens`: propext, Classical.choice, Quot.sound
* `Tss.Commit.C45_binding`: propext, Classical.choice, Quot.sound
* `Tss.Commit.C45_sign_not_bound`: propext, Quot.sound
* `Tss.Commit.C45_decommit_iff`: propext
* `Tss.Commit.C45_crashes`: propext
* `Tss.Commit.C45_wire`: propext, Classical.choice, Quot.sound

## C46

* `Tss.Commit.C46_secrets`: propext, Classical.choice, Quot.sound
* `Tss.Commit.C46_round_trip`: propext, Classical.choice, Quot.sound
* `Tss.Commit.C46_trailing_empty_lost`: propext, Classical.choice, Quot.sound
* `Tss.Commit.C46_parse_sound`: propext, Quot.sound
* `Tss.Commit.C46_cut_off_accepted`: propext, Quot.sound
* `Tss.Commit.C46_negative_length_crashes`: propext, Classical.choice, Quot.sound

## C47

* `Tss.Ckd.C47_path_general`: propext, Classical.choice, Quot.sound
* `Tss.Ckd.C47_eddsa_priv_pub_agree`: propext, Classical.choice, Quot.sound
* `Tss.Ckd.C47_eddsa_shares_sum`: propext, Classical.choice, Quot.sound
* `Tss.Ckd.C47_secp_priv_pub_agree`: propext, Classical.choice, Quot.sound
* `Tss.Ckd.C47_hierarchy`: propext, Quot.sound
* `Tss.Secp.C47_s256_priv_pub_agree`: propext, Classical.choice, Quot.sound

## C48

* `Tss.Ckd.C48_atoi`: propext, Classical.choice, Quot.sound
* `Tss.Ckd.C48_component`: propext, Classical.choice, Quot.sound
* `Tss.Ckd.C48_component_panics`: propext
* `Tss.Ckd.C48_priv_path`: propext, Classical.choice, Quot.sound
* `Tss.Ckd.C48_pub_refuses_hardened`: propext
* `Tss.Ckd.C48_empty_component_panics`: propext
* `Tss.Ckd.C48_leading_slash_panics`: propext, Quot.sound
* `Tss.Ckd.C48_pub_error_panics`: propext
* `Tss.Ckd.C48_index_alias`: propext, Classical.choice, Quot.sound
* `Tss.Ckd.C48_resume`: propext, Quot.sound
* `Tss.Ckd.C48_deeper_than_path`: propext, Quot.sound
* `Tss.Ckd.C48_same_path`: propext, Classical.choice, Quot.sound
* `Tss.Ckd.C48_same_child`: propext, Classical.choice, Quot.sound

## C49

* `Tss.Ckd.C49_base58_encode_decode`: propext, Classical.choice, Quot.sound
* `Tss.Ckd.C49_text_canonical`: propext, Classical.choice, Quot.sound
* `Tss.Ckd.C49_one_text`: propext, Classical.choice, Quot.sound
* `Tss.Ckd.C49_text_case`: propext, Classical.choice, Quot.sound
* `Tss.Ckd.C49_round_trip`: propext, Classical.choice, Quot.sound
* `Tss.Ckd.C49_string_binds`: propext, Classical.choice, Quot.sound
* `Tss.Ckd.C49_rejects`: propext, Quot.sound
* `Tss.Ckd.C49_parse_no_panic`: propext, Quot.sound
* `Tss.Ckd.C49_parsed_point`: propext, Classical.choice, Quot.sound
* `Tss.Ckd.C49_reserialises`: propext, Classical.choice, Quot.sound
* `Tss.Ckd.C49_parsed_derives_nothing`: propext, Classical.choice, Quot.sound
* `Tss.Ckd.C49_other_curve`: propext, Quot.sound
* `Tss.Ckd.C49_made_keys_do_not_parse`: propext, Classical.choice, Quot.sound
* `Tss.Ckd.C49_misparse`: propext, Classical.choice, Quot.sound
* `Tss.Ckd.C49_base58_decode_encode`: propext, Classical.choice, Quot.sound
* `Tss.Ckd.C49_unreduced_x_accepted`: propext, Classical.choice, Quot.sound

## C50

* `Tss.Onsign.C50_failure_keeps`: propext, Quot.sound
* `Tss.Onsign.C50_created`: propext, Classical.choice, Quot.sound
* `Tss.Onsign.C50_shares_consistent`: propext, Classical.choice, Quot.sound
* `Tss.Onsign.C50_own_share`: propext, Classical.choice, Quot.sound
* `Tss.Onsign.C50_bad_base64`: propext, Quot.sound
* `Tss.Onsign.C50_bad_json`: propext, Quot.sound
* `Tss.Onsign.C50_bad_path`: propext, Classical.choice, Quot.sound
* `Tss.Onsign.C50_bad_message`: propext, Quot.sound
* `Tss.Onsign.C50_hardened_crashes`: propext, Quot.sound
* `Tss.Onsign.C50_refresh_layout`: propext, Classical.choice, Quot.sound
* `Tss.Onsign.C50_short_refresh_fails`: propext, Classical.choice, Quot.sound

## C51

* `Tss.Onsign.C51_accept1_bad_keeps`: propext, Classical.choice, Quot.sound
* `Tss.Onsign.C51_accept1_files_broadcast`: propext, Classical.choice, Quot.sound
* `Tss.Onsign.C51_accept1_files_p2p`: propext, Classical.choice, Quot.sound
* `Tss.Onsign.C51_accept2_overwrites`: propext, Classical.choice, Quot.sound
* `Tss.Onsign.C51_accept3_overwrites`: propext, Classical.choice, Quot.sound
* `Tss.Onsign.C51_accept_not_base64`: propext, Classical.choice, Quot.sound
* `Tss.Onsign.C51_accept_bad_index`: propext, Classical.choice, Quot.sound

## C52

* `Tss.Onsign.C52_finish1_exact`: propext, Classical.choice, Quot.sound
* `Tss.Onsign.C52_finish2_exact`: propext, Classical.choice, Quot.sound
* `Tss.Onsign.C52_finish3_exact`: propext, Classical.choice, Quot.sound

## C53

* `Tss.Onsign.C53_round2_verified`: propext, Classical.choice, Quot.sound
* `Tss.Onsign.C53_round2_names_peer`: propext, Classical.choice, Quot.sound
* `Tss.Onsign.C53_round3_verified`: propext, Classical.choice, Quot.sound
* `Tss.Onsign.C53_round3_names_peer`: propext, Classical.choice, Quot.sound

## C54

* `Tss.Onsign.C54_released_signature_verifies`: propext, Classical.choice, Quot.sound
* `Tss.Onsign.C54_group_key_is_sum`: propext, Classical.choice, Quot.sound
* `Tss.Onsign.C54_bad_signature_refused`: propext, Classical.choice, Quot.sound
* `Tss.Onsign.C54_group_key_fixed_at_creation`: propext, Classical.choice, Quot.sound

## C55

* `Tss.Onsign.C55_every_call_ok`: propext, Classical.choice, Quot.sound
* `Tss.Onsign.C55_agreement`: propext, Classical.choice, Quot.sound
* `Tss.Onsign.C55_finish`: propext, Classical.choice, Quot.sound
* `Tss.Onsign.C55_no_deadlock`: propext, Classical.choice, Quot.sound
* `Tss.Onsign.C55_can_finish`: propext, Classical.choice, Quot.sound

## C56

* `Tss.Onsign.C56_history`: propext, Classical.choice, Quot.sound
* `Tss.Onsign.C56_leading_zeros_same_party`: propext, Quot.sound
* `Tss.Onsign.C56_signed_bytes`: propext, Quot.sound

## C57

* `Tss.Ed.C57_roundtrip`: propext, Classical.choice, Quot.sound
* `Tss.Ed.C57_littleEndian`: propext, Classical.choice, Quot.sound
* `Tss.Ed.C57_truncates`: propext, Quot.sound
* `Tss.Ed.C57_no_roundtrip_beyond`: propext
* `Tss.Ed.C57_pointEncoding`: propext, Classical.choice, Quot.sound
* `Tss.Ed.C57_pointEncoding_injective`: propext, Classical.choice, Quot.sound
* `Tss.Ed.C57_noncanonical_encoding`: propext, Classical.choice, Quot.sound

## C58

* `Tss.Ed.C58_represents`: propext, Classical.choice, Quot.sound
* `Tss.Ed.C58_draw_is_unit`: propext, Classical.choice, Quot.sound
* `Tss.Ed.C58_zero_draw_breaks`: propext

## C59

* `Tss.Keygen.C59_subset_exact`: propext, Classical.choice, Quot.sound
* `Tss.Keygen.C59_full_identity`: propext, Classical.choice, Quot.sound
* `Tss.Keygen.C59_unknown_rejected`: propext, Classical.choice, Quot.sound
* `Tss.Keygen.C59_unknown_error`: propext, Classical.choice, Quot.sound
* `Tss.Keygen.C59_unsorted_corrupts`: propext, Classical.choice, Quot.sound
* `Tss.Keygen.C59_too_many_panics`: propext, Classical.choice, Quot.sound

## C60

* `Tss.SafePrime.C60_returned_pairs`: propext, Classical.choice, Quot.sound
* `Tss.SafePrime.C60_arguments`: propext, Classical.choice, Quot.sound
* `Tss.SafePrime.C60_pocklington`: propext, Classical.choice, Quot.sound
* `Tss.SafePrime.C60_safe_primes`: propext, Classical.choice, Quot.sound
* `Tss.SafePrime.C60_product_bits`: propext, Classical.choice, Quot.sound
* `Tss.SafePrime.C60_sieve_exact`: propext, Classical.choice, Quot.sound
* `Tss.SafePrime.C60_candidate_exact`: propext, Classical.choice, Quot.sound
* `Tss.SafePrime.C60_first_candidate`: propext, Classical.choice, Quot.sound
* `Tss.SafePrime.C60_offsets_accumulate`: propext, Classical.choice, Quot.sound

## C61

* `Tss.SafePrime.C61_returned_means_stopped`: propext, Classical.choice, Quot.sound
* `Tss.SafePrime.C61_errors_never_block`: propext, Classical.choice, Quot.sound
* `Tss.SafePrime.C61_search_never_stuck`: propext, Classical.choice, Quot.sound
* `Tss.SafePrime.C61_returns_if_room`: propext, Classical.choice, Quot.sound
* `Tss.SafePrime.C61_can_hang`: propext, Classical.choice, Quot.sound

## C62

* `Tss.Party.C62_mutual_exclusion`: propext, Quot.sound
* `Tss.Party.C62_lock_released`: propext, Quot.sound
* `Tss.Party.C62_serial`: propext, Quot.sound
* `Tss.Party.C62_round_changes`: propext, Quot.sound
* `Tss.Party.C62_invalid_message`: propext
* `Tss.Party.C62_panic_leaks_lock`: propext, Quot.sound
* `Tss.Party.C62_no_deadlock`: propext, Quot.sound
* `Tss.Party.C62_stays_are_short`: propext
* `Tss.Party.C62_validate`: propext, Quot.sound
* `Tss.Party.C62_can_start_again`: propext

## C63

* `Tss.Wire.C63_varint_range`: propext, Classical.choice, Quot.sound
* `Tss.Wire.C63_varint_case`: propext
* `Tss.Wire.C63_round_trip`: propext, Classical.choice, Quot.sound
* `Tss.Wire.C63_injective`: propext, Classical.choice, Quot.sound
* `Tss.Wire.C63_base64`: propext, Classical.choice, Quot.sound
* `Tss.Wire.C63_empty_rejected`: propext, Classical.choice, Quot.sound
* `Tss.Wire.C63_unknown_type_rejected`: propext, Classical.choice, Quot.sound
* `Tss.Wire.C63_accept_iff`: propext, Classical.choice, Quot.sound
* `Tss.Wire.C63_nil_sender_panics`: propext, Classical.choice, Quot.sound

## C64

* `Tss.Params.C64_membership`: propext, Quot.sound
* `Tss.Params.C64_no_own_id`: propext
* `Tss.Params.C64_as_configured`: propext
* `Tss.Params.C64_setters`: none
* `Tss.Params.C64_old_and_new`: propext, Classical.choice, Quot.sound
* `Tss.Params.C64_old_and_new_fresh`: propext, Quot.sound
* `Tss.Params.C64_shared_array`: propext, Classical.choice, Quot.sound
* `Tss.Params.C64_set_ids`: propext, Quot.sound

## C65

* `Tss.Alice.C65_inRange_exact`: propext, Quot.sound
* `Tss.Alice.C65_inRange_errors`: propext
* `Tss.Alice.C65_absoluteRange_sound`: propext, Classical.choice, Quot.sound
* `Tss.Alice.C65_absoluteRange_complete`: propext, Classical.choice, Quot.sound
* `Tss.Alice.C65_draws_in_range`: propext, Classical.choice, Quot.sound
* `Tss.Alice.C65_draws_never_panic`: propext, Quot.sound
* `Tss.Alice.C65_lcm_exact`: propext, Classical.choice, Quot.sound
* `Tss.Alice.C65_euler_exact`: propext, Classical.choice, Quot.sound
* `Tss.Alice.C65_fastMod3`: propext, Classical.choice, Quot.sound
* `Tss.Alice.C65_ensureRank`: propext, Classical.choice, Quot.sound
* `Tss.Alice.C65_ensureThreshold`: propext, Classical.choice, Quot.sound
* `Tss.Alice.C65_xor`: propext, Classical.choice, Quot.sound
* `Tss.Alice.C65_bits_round_trip`: propext, Quot.sound
* `Tss.Alice.C65_bytes_round_trip`: propext, Quot.sound
* `Tss.Alice.C65_reverse`: propext, Quot.sound
* `Tss.Alice.C65_bit_products`: propext, Quot.sound
* `Tss.Alice.C65_hashProtos_binds`: propext, Classical.choice, Quot.sound
* `Tss.Alice.C65_extended_hash_bits`: propext, Classical.choice, Quot.sound
* `Tss.Alice.C65_extended_hash_ambiguous`: propext, Quot.sound
* `Tss.Alice.C65_challenge_ranges`: propext, Classical.choice, Quot.sound
* `Tss.Alice.C65_reject_sampling`: propext, Classical.choice, Quot.sound

## C66

* `Tss.Alice.C66_top_bits`: propext, Classical.choice, Quot.sound
* `Tss.Alice.C66_product_size`: propext, Classical.choice, Quot.sound
* `Tss.Alice.C66_size_case`: propext, Quot.sound
* `Tss.Alice.C66_sieve_exact`: propext, Classical.choice, Quot.sound
* `Tss.Alice.C66_sieve_keeps_primes`: propext, Classical.choice, Quot.sound
* `Tss.Alice.C66_sieve_gaps`: none
* `Tss.Alice.C66_pocklington`: propext, Classical.choice, Quot.sound
* `Tss.Alice.C66_pocklington_complete`: propext, Classical.choice, Quot.sound
* `Tss.Alice.C66_search_result`: propext, Classical.choice, Quot.sound
* `Tss.Alice.C66_small_sizes_never_return`: propext, Classical.choice, Quot.sound

## C67

* `Tss.Ed.C67_moduli_prime`: propext, Classical.choice, Quot.sound
* `Tss.Ed.C67_isOnCurve_iff`: propext, Classical.choice, Quot.sound
* `Tss.Ed.C67_add_closed`: propext, Classical.choice, Quot.sound
* `Tss.Ed.C67_add_comm`: propext, Classical.choice, Quot.sound
* `Tss.Ed.C67_add_assoc`: propext, Classical.choice, Quot.sound
* `Tss.Ed.C67_identity_inverse`: propext, Classical.choice, Quot.sound
* `Tss.Ed.C67_base_order`: propext, Classical.choice, Quot.sound
* `Tss.Ed.C67_scalarMult_iterated`: propext, Classical.choice, Quot.sound
* `Tss.Ed.C67_lawful`: propext, Classical.choice, Quot.sound
* `Tss.Ed.C67_group_order`: propext, Classical.choice, Quot.sound
* `Tss.Ed.C67_exponent`: propext, Classical.choice, Quot.sound
* `Tss.Ed.C67_prime_subgroup`: propext, Classical.choice, Quot.sound

## C68

* `Tss.Api.C68_faithful`: propext, Classical.choice, Quot.sound
* `Tss.Api.C68_record_shape`: propext, Classical.choice, Quot.sound
* `Tss.Api.C68_ids`: propext, Classical.choice, Quot.sound
* `Tss.Api.C68_reach`: propext, Classical.choice, Quot.sound
* `Tss.Api.C68_final_exec_signature`: propext, Classical.choice, Quot.sound

## C69

* `Tss.Params.C69_can_proceed`: propext, Quot.sound
* `Tss.Params.C69_waiting_for`: propext, Classical.choice, Quot.sound
* `Tss.Params.C69_waiting_empty`: propext, Classical.choice, Quot.sound
* `Tss.Params.C69_reset`: propext, Classical.choice, Quot.sound

## C70

* `Tss.Ckd.C70_eddsa_step`: propext, Classical.choice, Quot.sound
* `Tss.Ckd.C70_secp_step`: propext, Classical.choice, Quot.sound
* `Tss.Ckd.C70_hardened_message`: propext, Classical.choice, Quot.sound
* `Tss.Ckd.C70_hardened_after_small_child`: propext, Classical.choice, Quot.sound
* `Tss.Ckd.C70_eddsa_step_succeeds`: propext, Classical.choice, Quot.sound
* `Tss.Ckd.C70_fresh_key`: none
* `Tss.Secp.C70_s256_step`: propext, Classical.choice, Quot.sound

## C71

* `Tss.NTilde.C71_ntilde`: propext, Classical.choice, Quot.sound
* `Tss.NTilde.C71_ntilde_refuses`: propext
* `Tss.NTilde.C71_prime`: propext, Classical.choice, Quot.sound
* `Tss.NTilde.C71_one_bit_hangs`: propext, Classical.choice, Quot.sound

## C72

* `Tss.Secp.C72_field_arithmetic`: propext, Classical.choice, Quot.sound
* `Tss.Secp.C72_comparisons`: propext, Classical.choice, Quot.sound
* `Tss.Secp.C72_sqrt`: propext, Classical.choice, Quot.sound
* `Tss.Secp.C72_example`: propext
* `Tss.Secp.C72_negate_needs_magnitude`: propext, Classical.choice, Quot.sound

## C73

* `Tss.Secp.C73_curve`: propext, Classical.choice, Quot.sound
* `Tss.Secp.C73_affine_injective`: propext, Classical.choice, Quot.sound
* `Tss.Secp.C73_isOnCurve`: propext, Classical.choice, Quot.sound
* `Tss.Secp.C73_add`: propext, Classical.choice, Quot.sound
* `Tss.Secp.C73_double`: propext, Classical.choice, Quot.sound
* `Tss.Secp.C73_oversize`: propext, Classical.choice, Quot.sound
* `Tss.Secp.C73_oversize_point`: propext, Classical.choice, Quot.sound

## C74

* `Tss.Secp.C74_scalarMult`: propext, Classical.choice, Quot.sound
* `Tss.Secp.C74_scalarBaseMult`: propext, Classical.choice, Quot.sound
* `Tss.Secp.C74_group_order`: propext, Classical.choice, Quot.sound
* `Tss.Secp.C74_scalarBaseMult_nil`: propext, Classical.choice, Quot.sound
* `Tss.Secp.C74_add_error`: propext, Classical.choice, Quot.sound

## C75

* `Tss.Secp.C75_parse_iff`: propext, Classical.choice, Quot.sound
* `Tss.Secp.C75_round_trip`: propext, Classical.choice, Quot.sound
* `Tss.Secp.C75_canonical`: propext, Classical.choice, Quot.sound
* `Tss.Secp.C75_on_curve`: propext, Classical.choice, Quot.sound
* `Tss.Secp.C75_unreduced`: propext, Classical.choice, Quot.sound
* `Tss.Secp.C75_extended_keys`: propext, Classical.choice, Quot.sound

## C76

* `Tss.SaveJson.C76_any_round_trip`: propext, Classical.choice, Quot.sound
* `Tss.SaveJson.C76_any_points_on_curve`: propext, Classical.choice, Quot.sound
* `Tss.SaveJson.C76_any_same`: propext, Classical.choice, Quot.sound
* `Tss.SaveJson.C76_foreign_curve`: propext, Classical.choice, Quot.sound
* `Tss.SaveJson.C76_save_round_trip`: propext, Classical.choice, Quot.sound
* `Tss.SaveJson.C76_save_injective`: propext, Classical.choice, Quot.sound
* `Tss.SaveJson.C76_truncated_refused`: propext, Classical.choice, Quot.sound
* `Tss.SaveJson.C76_trailing_refused`: propext, Classical.choice, Quot.sound
* `Tss.SaveJson.C76_trailing_space`: propext, Classical.choice, Quot.sound
* `Tss.SaveJson.C76_points_on_curve`: propext, Classical.choice, Quot.sound
* `Tss.SaveJson.C76_signature_record`: propext, Classical.choice, Quot.sound

## C77

* `Tss.EndToEnd.C77_every_call_ok`: propext, Classical.choice, Quot.sound
* `Tss.EndToEnd.C77_end_to_end`: propext, Classical.choice, Quot.sound
* `Tss.EndToEnd.C77_keygen_with_codes`: propext, Classical.choice, Quot.sound

## C78

* `Tss.Onsign.C78_answer`: propext, Classical.choice, Quot.sound
* `Tss.Onsign.C78_two_answers_reveal_share`: propext, Classical.choice, Quot.sound
* `Tss.Onsign.C78_second_answer`: propext, Classical.choice, Quot.sound
* `Tss.Onsign.C78_share_recovered`: propext, Classical.choice, Quot.sound
* `Tss.Onsign.C78_R_is_sum`: propext, Classical.choice, Quot.sound
* `Tss.Onsign.C78_same_messages_same_answer`: propext, Classical.choice, Quot.sound

## C79

* `Tss.Onsign.C79_replay`: propext, Classical.choice, Quot.sound

## C80

* `Tss.Keygen.C80_key_fixed`: propext, Classical.choice, Quot.sound
* `Tss.Keygen.C80_agreement`: propext, Classical.choice, Quot.sound
* `Tss.Keygen.C80_equivocation`: propext, Classical.choice, Quot.sound

## C81

* `Tss.Keygen.C81_round3`: propext, Classical.choice, Quot.sound
* `Tss.Keygen.C81_round4`: propext, Classical.choice, Quot.sound
* `Tss.Keygen.C81_framing`: propext, Classical.choice, Quot.sound

## C82

* `Tss.Onsign.C82_round2`: propext, Classical.choice, Quot.sound
* `Tss.Onsign.C82_round3`: propext, Classical.choice, Quot.sound

## C83

* `Tss.Onsign.C83_outcome`: propext, Classical.choice, Quot.sound
* `Tss.Onsign.C83_one_wrong_share`: propext, Classical.choice, Quot.sound
* `Tss.Onsign.C83_blames_nobody`: propext, Classical.choice, Quot.sound

## C84

* `Tss.Secp.C84_verify_iff`: propext, Classical.choice, Quot.sound
* `Tss.Secp.C84_verify_mirror`: propext, Classical.choice, Quot.sound
* `Tss.Secp.C84_truncation`: propext, Classical.choice, Quot.sound
* `Tss.Secp.C84_nonce`: propext, Classical.choice, Quot.sound
* `Tss.Secp.C84_long_key`: propext, Classical.choice, Quot.sound
* `Tss.Secp.C84_sign_valid`: propext, Classical.choice, Quot.sound
* `Tss.Secp.C84_sign_outcome`: propext, Classical.choice, Quot.sound
* `Tss.Secp.C84_example`: propext, Classical.choice, Quot.sound
* `Tss.Secp.C84_example_meets`: propext

## C85

* `Tss.Secp.C85_never_panics`: propext, Classical.choice, Quot.sound
* `Tss.Secp.C85_ber_iff`: propext, Classical.choice, Quot.sound
* `Tss.Secp.C85_der_iff`: propext, Classical.choice, Quot.sound
* `Tss.Secp.C85_der_ber`: propext, Classical.choice, Quot.sound
* `Tss.Secp.C85_serialize`: propext, Classical.choice, Quot.sound
* `Tss.Secp.C85_serialize_injective`: propext, Classical.choice, Quot.sound
* `Tss.Secp.C85_unique`: propext, Classical.choice, Quot.sound
* `Tss.Secp.C85_high_s`: propext, Classical.choice, Quot.sound
* `Tss.Secp.C85_example`: propext, Quot.sound

## C86

* `Tss.Secp.C86_recover_iff`: propext, Classical.choice, Quot.sound
* `Tss.Secp.C86_recover_unique`: propext, Classical.choice, Quot.sound
* `Tss.Secp.C86_recoverCompact`: propext, Classical.choice, Quot.sound
* `Tss.Secp.C86_recovered_verifies`: propext, Classical.choice, Quot.sound
* `Tss.Secp.C86_no_panic`: propext, Classical.choice, Quot.sound
* `Tss.Secp.C86_round_trip`: propext, Classical.choice, Quot.sound
* `Tss.Secp.C86_compact_errors`: propext, Classical.choice, Quot.sound
* `Tss.Secp.C86_infinity`: propext, Classical.choice, Quot.sound
* `Tss.Secp.C86_example`: propext, Classical.choice, Quot.sound

## C87

* `Tss.Secp.C87_from_bytes`: propext, Classical.choice, Quot.sound
* `Tss.Secp.C87_serialize_round_trip`: propext, Classical.choice, Quot.sound
* `Tss.Secp.C87_ecdh`: propext, Classical.choice, Quot.sound
* `Tss.Secp.C87_ecdh_opposite`: propext, Classical.choice, Quot.sound
* `Tss.Secp.C87_ecdh_empty`: propext, Classical.choice, Quot.sound

## C88

* `Tss.Ecies.C88_padding`: propext, Quot.sound
* `Tss.Ecies.C88_padding_lax`: propext, Quot.sound
* `Tss.Ecies.C88_decrypt_iff`: propext, Classical.choice, Quot.sound
* `Tss.Ecies.C88_never_panics`: propext, Classical.choice, Quot.sound
* `Tss.Ecies.C88_round_trip`: propext, Classical.choice, Quot.sound
* `Tss.Ecies.C88_tamper`: propext, Classical.choice, Quot.sound
* `Tss.Ecies.C88_example`: propext, Classical.choice, Quot.sound

## C89

* `Tss.Common.C89_unbiased`: propext, Classical.choice, Quot.sound
* `Tss.Common.C89_unbiased_units`: propext, Classical.choice, Quot.sound
* `Tss.Common.C89_outcomes_finite`: propext, Classical.choice, Quot.sound
* `Tss.Common.C89_alice_probability`: propext, Classical.choice, Quot.sound
* `Tss.Common.C89_alice_absolute`: propext, Classical.choice, Quot.sound
* `Tss.Common.C89_alice_coprime`: propext, Classical.choice, Quot.sound
* `Tss.Common.C89_squares`: propext, Classical.choice, Quot.sound
* `Tss.ModProof.C89_nonresidues`: propext, Classical.choice, Quot.sound
* `Tss.ModProof.C89_case_squares`: propext, Classical.choice, Quot.sound
* `Tss.Common.C89_bytes`: propext, Quot.sound
* `Tss.Common.C89_probability`: propext, Classical.choice, Quot.sound
* `Tss.Common.C89_probability_units`: propext, Classical.choice, Quot.sound

## C90

* `Tss.Schnorr.C90_distribution`: propext, Classical.choice, Quot.sound
* `Tss.Schnorr.C90_made_up_accepted`: propext, Quot.sound
* `Tss.Schnorr.C90_zkproof_shows`: propext, Quot.sound
* `Tss.Schnorr.C90_representation`: propext, Classical.choice, Quot.sound
* `Tss.Schnorr.C90_share_is_response`: propext, Classical.choice, Quot.sound
* `Tss.Schnorr.C90_transcripts`: propext, Classical.choice, Quot.sound
* `Tss.Schnorr.C90_simulate`: propext, Classical.choice, Quot.sound
* `Tss.Schnorr.C90_ed25519`: propext, Classical.choice, Quot.sound
* `Tss.Onsign.C90_share`: propext, Classical.choice, Quot.sound

## C91

* `Tss.Keygen.C91_randomness`: propext, Classical.choice, Quot.sound
* `Tss.Keygen.C91_group_key`: propext, Classical.choice, Quot.sound
* `Tss.Keygen.C91_example`: propext, Classical.choice, Quot.sound

## C92

* `Tss.Onsign.C92_unique`: propext, Classical.choice, Quot.sound
* `Tss.Onsign.C92_records_agree`: propext, Classical.choice, Quot.sound
* `Tss.Onsign.C92_malleable`: propext, Classical.choice, Quot.sound
* `Tss.Onsign.C92_same_R_reveals_key`: propext, Classical.choice, Quot.sound
* `Tss.Onsign.C92_every_R`: propext, Classical.choice, Quot.sound

## C93

* `Tss.Messages.C93_complete_iff`: propext, Classical.choice, Quot.sound
* `Tss.Messages.C93_validate_message`: propext, Classical.choice, Quot.sound
* `Tss.Messages.C93_delivered`: propext, Classical.choice, Quot.sound
* `Tss.Messages.C93_no_routing_on_the_wire`: propext, Classical.choice, Quot.sound
* `Tss.Messages.C93_routing`: none
* `Tss.Messages.C93_honest_opening`: propext, Classical.choice, Quot.sound
* `Tss.Messages.C93_honest_nonce_point`: propext, Classical.choice, Quot.sound
* `Tss.Messages.C93_honest_numbers`: propext, Classical.choice, Quot.sound
* `Tss.Messages.C93_example`: propext, Classical.choice, Quot.sound
* `Tss.Messages.C93_keygen_accepts_incomplete`: propext, Classical.choice, Quot.sound
* `Tss.Messages.C93_sign_accepts_incomplete`: propext, Classical.choice, Quot.sound

## C94

* `Tss.Bip340.C94_signature_encoding`: propext, Classical.choice, Quot.sound
* `Tss.Bip340.C94_signature_errors`: propext, Classical.choice, Quot.sound
* `Tss.Bip340.C94_verify_iff`: propext, Classical.choice, Quot.sound
* `Tss.Bip340.C94_rejects_valid`: propext, Classical.choice, Quot.sound
* `Tss.Bip340.C94_verify_neg`: propext, Classical.choice, Quot.sound
* `Tss.Bip340.C94_verify_infinity`: propext, Classical.choice, Quot.sound
* `Tss.Bip340.C94_not_malleable`: propext, Classical.choice, Quot.sound

## C95

* `Tss.Bip340.C95_sign_verifies`: propext, Classical.choice, Quot.sound
* `Tss.Bip340.C95_custom_nonce`: propext, Classical.choice, Quot.sound
* `Tss.Bip340.C95_is_bip340`: propext, Classical.choice, Quot.sound
* `Tss.Bip340.C95_first_good_nonce`: propext, Classical.choice, Quot.sound
* `Tss.Bip340.C95_refusals`: propext, Classical.choice, Quot.sound
* `Tss.Bip340.C95_private_key_changed`: propext, Classical.choice, Quot.sound
* `Tss.Bip340.C95_sign_again`: propext, Classical.choice, Quot.sound
* `Tss.Bip340.C95_nonce_reuse`: propext, Classical.choice, Quot.sound

## C96

* `Tss.Musig2.C96_aggregate`: propext, Classical.choice, Quot.sound
* `Tss.Musig2.C96_order_exists`: propext, Classical.choice, Quot.sound
* `Tss.Musig2.C96_tweaks`: propext, Classical.choice, Quot.sound
* `Tss.Musig2.C96_accumulators`: propext, Classical.choice, Quot.sound
* `Tss.Musig2.C96_taproot`: propext, Classical.choice, Quot.sound
* `Tss.Musig2.C96_order_irrelevant`: propext, Classical.choice, Quot.sound
* `Tss.Musig2.C96_coefficient_x_only`: propext, Classical.choice, Quot.sound
* `Tss.Musig2.C96_infinity_unnoticed`: propext, Classical.choice, Quot.sound

## C97

* `Tss.Musig2.C97_honest`: propext, Classical.choice, Quot.sound
* `Tss.Musig2.C97_nonce_reuse`: propext, Classical.choice, Quot.sound
* `Tss.Musig2.C97_sign_iff`: propext, Classical.choice, Quot.sound
* `Tss.Musig2.C97_sign_verifies`: propext, Classical.choice, Quot.sound
* `Tss.Musig2.C97_partial_unique`: propext, Classical.choice, Quot.sound
* `Tss.Musig2.C97_combine_iff`: propext, Classical.choice, Quot.sound
* `Tss.Musig2.C97_combine`: propext, Classical.choice, Quot.sound
* `Tss.Musig2.C97_blame`: propext, Classical.choice, Quot.sound
* `Tss.Musig2.C97_odd_key_breaks`: propext, Classical.choice, Quot.sound
* `Tss.Musig2.C97_combine_no_options`: propext, Classical.choice, Quot.sound
* `Tss.Musig2.C97_cancelling_nonces`: propext, Classical.choice, Quot.sound
* `Tss.Musig2.C97_combine_option_panics`: propext, Classical.choice, Quot.sound
* `Tss.Musig2.C97_decode`: propext, Classical.choice, Quot.sound

## C98

* `Tss.Musig2.C98_generated`: propext, Classical.choice, Quot.sound
* `Tss.Musig2.C98_secret_key_mixed`: propext, Classical.choice, Quot.sound
* `Tss.Musig2.C98_input_injective`: propext, Classical.choice, Quot.sound
* `Tss.Musig2.C98_public_matches`: propext, Classical.choice, Quot.sound
* `Tss.Musig2.C98_short_read`: propext, Classical.choice, Quot.sound
* `Tss.Musig2.C98_aggregate`: propext, Classical.choice, Quot.sound
* `Tss.Musig2.C98_half_parses`: propext, Classical.choice, Quot.sound
* `Tss.Musig2.C98_order_irrelevant`: propext, Classical.choice, Quot.sound
* `Tss.Musig2.C98_honest`: propext, Classical.choice, Quot.sound
* `Tss.Musig2.C98_zero_nonce`: propext, Classical.choice, Quot.sound

## C99

* `Tss.Musig2.C99_signs_for_combined_key`: propext, Classical.choice, Quot.sound
* `Tss.Musig2.C99_sorted_sign_reorders`: propext, Classical.choice, Quot.sound
* `Tss.Musig2.C99_combined_nonce`: propext, Classical.choice, Quot.sound
* `Tss.Musig2.C99_final_valid`: propext, Classical.choice, Quot.sound
* `Tss.Musig2.C99_honest_run`: propext, Classical.choice, Quot.sound
* `Tss.Musig2.C99_honest_group`: propext, Classical.choice, Quot.sound
* `Tss.Musig2.C99_same_key_set`: propext, Classical.choice, Quot.sound
* `Tss.Musig2.C99_sign_once`: propext, Classical.choice, Quot.sound
* `Tss.Musig2.C99_public_nonce_panics`: propext, Classical.choice, Quot.sound
* `Tss.Musig2.C99_early_nonce_once`: propext, Classical.choice, Quot.sound
* `Tss.Musig2.C99_pregenerated_nonce_shared`: propext, Classical.choice, Quot.sound
* `Tss.Musig2.C99_combined_key`: propext, Classical.choice, Quot.sound
* `Tss.Musig2.C99_single_signer`: propext, Classical.choice, Quot.sound
* `Tss.Musig2.C99_bad_nonce_stuck`: propext, Classical.choice, Quot.sound
* `Tss.Musig2.C99_combine_before_sign_panics`: propext, Classical.choice, Quot.sound
* `Tss.Musig2.C99_no_retry`: propext, Classical.choice, Quot.sound
* `Tss.Musig2.C99_sign_last`: propext, Classical.choice, Quot.sound
* `Tss.Musig2.C99_own_key_required`: propext, Classical.choice, Quot.sound
* `Tss.Musig2.C99_number_of_signers`: propext, Classical.choice, Quot.sound
* `Tss.Musig2.C99_one_signer_context`: propext, Classical.choice, Quot.sound
* `Tss.Musig2.C99_register_signer`: propext, Classical.choice, Quot.sound

## C100

* `Tss.EcdsaV2.C100_same_as_v1`: propext, Classical.choice, Quot.sound
* `Tss.EcdsaV2.C100_never_panics`: propext, Classical.choice, Quot.sound
* `Tss.EcdsaV2.C100_der_iff`: propext, Classical.choice, Quot.sound
* `Tss.EcdsaV2.C100_reads_v1`: propext, Classical.choice, Quot.sound
* `Tss.EcdsaV2.C100_example`: propext, Classical.choice, Quot.sound

## C101

* `Tss.TssError.C101_text_determines`: propext, Classical.choice, Quot.sound
* `Tss.TssError.C101_no_cause`: propext, Classical.choice, Quot.sound
* `Tss.TssError.C101_before_start`: propext, Classical.choice, Quot.sound
* `Tss.TssError.C101_in_round`: propext, Classical.choice, Quot.sound
* `Tss.TssError.C101_keys_not_shown`: propext, Classical.choice, Quot.sound
* `Tss.TssError.C101_moniker_forges`: propext, Classical.choice, Quot.sound
* `Tss.TssError.C101_example`: propext, Classical.choice, Quot.sound

## C102

* `Tss.Calls.C102_no_race`: propext, Quot.sound
* `Tss.Calls.C102_as_if_in_turn`: propext, Quot.sound
* `Tss.Calls.C102_each_once`: propext, Quot.sound
* `Tss.Calls.C102_create_races`: propext
* `Tss.Keygen.C102_keygen`: propext, Classical.choice, Quot.sound
* `Tss.Keygen.C102_keygen_impl`: propext, Classical.choice, Quot.sound
* `Tss.Onsign.C102_onsign`: propext, Classical.choice, Quot.sound
* `Tss.Onsign.C102_onsign_impl`: propext, Classical.choice, Quot.sound
* `Tss.Calls.C102_overlap_example`: propext
* `Tss.Calls.C102_removed_twice`: propext

## C103

* `Tss.World.C103_only_since_restart`: propext, Classical.choice, Quot.sound
* `Tss.World.C103_reachable`: propext, Classical.choice, Quot.sound
* `Tss.World.C103_released_signature_verifies`: propext, Classical.choice, Quot.sound
* `Tss.World.C103_sessions_are_gone`: propext, Classical.choice, Quot.sound
* `Tss.World.C103_creation_independent`: propext, Classical.choice, Quot.sound
* `Tss.World.C103_fresh_start`: propext, Classical.choice, Quot.sound
* `Tss.World.C103_example`: propext, Classical.choice, Quot.sound

## C104

* `Tss.Onsign.C104_sign_retry`: propext, Classical.choice, Quot.sound
* `Tss.Onsign.C104_garbled_share`: propext, Classical.choice, Quot.sound
* `Tss.Keygen.C104_keygen_retry`: propext, Classical.choice, Quot.sound
* `Tss.Keygen.C104_round3_retry_differs`: propext, Classical.choice, Quot.sound
* `Tss.Keygen.C104_round3_calls`: propext, Classical.choice, Quot.sound
* `Tss.Keygen.C104_round3_first_peer`: propext, Classical.choice, Quot.sound

## C105

* `Tss.Api.C105_reads_one_way`: propext, Classical.choice, Quot.sound
* `Tss.Api.C105_reads_utf8`: none
* `Tss.Api.C105_read_back`: propext, Classical.choice, Quot.sound
* `Tss.Api.C105_read_back_plain`: propext, Classical.choice, Quot.sound
* `Tss.Api.C105_text_determines`: propext, Classical.choice, Quot.sound
* `Tss.Api.C105_text_determines_plain`: propext, Classical.choice, Quot.sound
* `Tss.Api.C105_injective`: propext, Classical.choice, Quot.sound
* `Tss.Api.C105_injective_plain`: propext, Classical.choice, Quot.sound
* `Tss.Api.C105_bad_keys_look_alike`: propext, Classical.choice, Quot.sound
* `Tss.Api.C105_success`: propext, Classical.choice, Quot.sound
* `Tss.Api.C105_grammar`: propext, Classical.choice, Quot.sound

## C106

* `Tss.Onsign.C106_round2`: propext, Classical.choice, Quot.sound
* `Tss.Onsign.C106_round3`: propext, Classical.choice, Quot.sound
* `Tss.RangeProofs.C106_enc_answer`: propext, Classical.choice, Quot.sound
* `Tss.RangeProofs.C106_enc_two_answers`: propext, Classical.choice, Quot.sound
* `Tss.RangeProofs.C106_enc_one_challenge`: propext, Classical.choice, Quot.sound
* `Tss.RangeProofs.C106_fraction_unique`: propext, Classical.choice, Quot.sound
* `Tss.RangeProofs.C106_few_fractions`: propext, Classical.choice, Quot.sound
* `Tss.RangeProofs.C106_log_answer`: propext, Classical.choice, Quot.sound
* `Tss.RangeProofs.C106_log_two_answers`: propext, Classical.choice, Quot.sound
* `Tss.RangeProofs.C106_same_number`: propext, Classical.choice, Quot.sound
* `Tss.RangeProofs.C106_log_unit`: propext, Classical.choice, Quot.sound
* `Tss.RangeProofs.C106_enc_accepts_non_ciphertext`: propext, Classical.choice, Quot.sound
* `Tss.RangeProofs.C106_bound_ed25519`: propext, Classical.choice, Quot.sound

## C107

* `Tss.RangeProofs.C107_hiding`: propext, Classical.choice, Quot.sound
* `Tss.RangeProofs.C107_enc_message`: propext, Classical.choice, Quot.sound
* `Tss.RangeProofs.C107_log_message`: propext, Classical.choice, Quot.sound
* `Tss.RangeProofs.C107_bound_ed25519`: propext, Classical.choice, Quot.sound
* `Tss.RangeProofs.C107_needs_power`: propext, Classical.choice, Quot.sound

## C108

* `Tss.RingPed.C108_transcripts`: propext, Classical.choice, Quot.sound
* `Tss.RingPed.C108_half`: propext, Classical.choice, Quot.sound
* `Tss.RingPed.C108_message`: propext, Classical.choice, Quot.sound
* `Tss.RingPed.C108_given_challenge`: propext, Classical.choice, Quot.sound
* `Tss.RingPed.C108_made_up_accepted`: propext, Quot.sound
* `Tss.RingPed.C108_dln_message`: propext, Quot.sound

## C109

* `Tss.Factor.C109_factor_hiding`: propext, Classical.choice, Quot.sound
* `Tss.Factor.C109_factor_bound`: propext, Classical.choice, Quot.sound
* `Tss.Factor.C109_factor_message`: propext, Classical.choice, Quot.sound
* `Tss.ModProof.C109_modulus_transcripts`: propext, Classical.choice, Quot.sound
* `Tss.ModProof.C109_squares`: propext, Classical.choice, Quot.sound
* `Tss.ModProof.C109_modulus_accepted`: propext, Quot.sound
* `Tss.ModProof.C109_modulus_message`: propext, Classical.choice, Quot.sound

## C110

* `Tss.Readers.C110_keygen2`: propext, Classical.choice, Quot.sound
* `Tss.Readers.C110_keygen3`: propext, Classical.choice, Quot.sound
* `Tss.Readers.C110_sign1`: propext, Classical.choice, Quot.sound
* `Tss.Readers.C110_sign1_proof`: propext, Classical.choice, Quot.sound
* `Tss.Readers.C110_sign2`: propext, Classical.choice, Quot.sound
* `Tss.Readers.C110_sign3`: propext, Classical.choice, Quot.sound
* `Tss.Readers.C110_on_curve`: propext
* `Tss.Readers.C110_refused`: propext
* `Tss.Readers.C110_prm_proof`: propext, Classical.choice, Quot.sound
* `Tss.Readers.C110_mod_proof`: propext, Classical.choice, Quot.sound
* `Tss.Readers.C110_public_key`: propext, Classical.choice, Quot.sound
* `Tss.Readers.C110_sign_lost`: propext, Classical.choice, Quot.sound
* `Tss.Readers.C110_no_parameters`: propext, Classical.choice, Quot.sound
* `Tss.Readers.C110_no_proofs`: propext, Classical.choice, Quot.sound

## C111

* `Tss.Onsign.C111_ordinary`: propext, Classical.choice, Quot.sound
* `Tss.Onsign.C111_sharing_invisible`: propext, Classical.choice, Quot.sound
* `Tss.Onsign.C111_nonce_decisive`: propext, Classical.choice, Quot.sound
* `Tss.Onsign.C111_same_inputs`: propext, Classical.choice, Quot.sound
* `Tss.Onsign.C111_example`: propext, Classical.choice, Quot.sound

## C112

* `Tss.Onsign.C112_call`: propext, Classical.choice, Quot.sound
* `Tss.Onsign.C112_history`: propext, Classical.choice, Quot.sound
* `Tss.Onsign.C112_creation`: propext, Quot.sound
* `Tss.Onsign.C112_round3`: propext, Classical.choice, Quot.sound
* `Tss.Onsign.C112_example`: propext

## C113

* `Tss.Keygen.C113_call`: propext, Classical.choice, Quot.sound
* `Tss.Keygen.C113_round4`: propext, Classical.choice, Quot.sound
* `Tss.Keygen.C113_new`: propext
* `Tss.Keygen.C113_history`: propext, Classical.choice, Quot.sound
* `Tss.Onsign.C113_signing`: propext, Classical.choice, Quot.sound
* `Tss.Onsign.C113_hardened`: propext, Classical.choice, Quot.sound
* `Tss.Onsign.C113_too_long`: propext, Classical.choice, Quot.sound
* `Tss.Onsign.C113_too_long_root`: propext, Classical.choice, Quot.sound
* `Tss.EndToEnd.C113_example_root`: propext, Classical.choice, Quot.sound
* `Tss.EndToEnd.C113_example_long`: propext, Classical.choice, Quot.sound

## C114

* `Tss.Onsign.C114_rounds_succeed`: propext, Classical.choice, Quot.sound
* `Tss.Onsign.C114_last_call`: propext, Classical.choice, Quot.sound
* `Tss.Onsign.C114_nothing_released`: propext, Classical.choice, Quot.sound
* `Tss.Onsign.C114_reaches_last`: propext, Classical.choice, Quot.sound
* `Tss.Onsign.C114_part_of_session`: propext, Classical.choice, Quot.sound
* `Tss.Onsign.C114_others_refused`: propext, Classical.choice, Quot.sound
* `Tss.Onsign.C114_others_crash`: propext, Classical.choice, Quot.sound
* `Tss.Onsign.C114_part_crashes`: propext, Classical.choice, Quot.sound
* `Tss.Onsign.C114_alone`: propext, Classical.choice, Quot.sound
* `Tss.Onsign.C114_other_alone`: propext, Classical.choice, Quot.sound

## C115

* `Tss.Onsign.C115_rounds_succeed`: propext, Classical.choice, Quot.sound
* `Tss.Onsign.C115_last_call`: propext, Classical.choice, Quot.sound
* `Tss.Onsign.C115_nothing_released`: propext, Classical.choice, Quot.sound
* `Tss.Onsign.C115_reaches_last`: propext, Classical.choice, Quot.sound
* `Tss.Onsign.C115_odd_one_out`: propext, Classical.choice, Quot.sound
* `Tss.Onsign.C115_no_signature`: propext, Classical.choice, Quot.sound
* `Tss.Onsign.C115_two_messages`: propext, Classical.choice, Quot.sound

## C116

* `Tss.Onsign.C116_every_call_ok`: propext, Classical.choice, Quot.sound
* `Tss.Onsign.C116_can_finish`: propext, Classical.choice, Quot.sound
* `Tss.Onsign.C116_agreement`: propext, Classical.choice, Quot.sound
* `Tss.Onsign.C116_no_result_before`: propext, Classical.choice, Quot.sound
* `Tss.Onsign.C116_after_round3`: propext, Classical.choice, Quot.sound
* `Tss.Onsign.C116_not_needed`: propext, Classical.choice, Quot.sound
* `Tss.Onsign.C116_lost_after_round1`: propext, Classical.choice, Quot.sound
* `Tss.Onsign.C116_lost_after_round3`: propext, Classical.choice, Quot.sound

## C117

* `Tss.Keygen.C117_two_answers_reveal_root`: propext, Classical.choice, Quot.sound
* `Tss.Keygen.C117_alternates`: propext, Classical.choice, Quot.sound
* `Tss.Keygen.C117_round2_again`: propext, Classical.choice, Quot.sound
* `Tss.Keygen.C117_round4_again`: propext, Classical.choice, Quot.sound
* `Tss.Keygen.C117_asked_again`: propext, Classical.choice, Quot.sound

## C118

* `Tss.Keygen.C118_every_call_ok`: propext, Classical.choice, Quot.sound
* `Tss.Keygen.C118_can_finish`: propext, Classical.choice, Quot.sound
* `Tss.Keygen.C118_agreement`: propext, Classical.choice, Quot.sound
* `Tss.Keygen.C118_no_result_before`: propext, Classical.choice, Quot.sound
* `Tss.Keygen.C118_after_round3`: propext, Classical.choice, Quot.sound
* `Tss.Keygen.C118_last_word`: propext, Classical.choice, Quot.sound

## C119

* `Tss.Onsign.C119_released_iff`: propext, Classical.choice, Quot.sound
* `Tss.Onsign.C119_divided_gives_share_away`: propext, Classical.choice, Quot.sound
* `Tss.Onsign.C119_case_honest`: propext, Classical.choice, Quot.sound

## C120

* `Tss.Ckd.C120_path_unique`: propext, Classical.choice, Quot.sound
* `Tss.Ckd.C120_child`: propext, Classical.choice, Quot.sound
* `Tss.Ckd.C120_one_share_gives_all`: propext, Classical.choice, Quot.sound
* `Tss.Onsign.C120_signer`: propext, Classical.choice, Quot.sound
* `Tss.Onsign.C120_two_answers_give_every_path`: propext, Classical.choice, Quot.sound
* `Tss.Onsign.C120_root_share_recovered`: propext, Classical.choice, Quot.sound
* `Tss.Secp.C120_secp_child`: propext, Classical.choice, Quot.sound
* `Tss.Secp.C120_secp_one_key_gives_all`: propext, Classical.choice, Quot.sound

## C121

* `Tss.Keygen.C121_keygen`: propext, Classical.choice, Quot.sound
* `Tss.Onsign.C121_signing`: propext, Classical.choice, Quot.sound
* `Tss.Keygen.C121_case_keygen`: propext, Classical.choice, Quot.sound
* `Tss.Onsign.C121_case_signing`: propext, Classical.choice, Quot.sound
* `Tss.C121_many_sessions`: propext, Classical.choice, Quot.sound
* `Tss.C121_many_signers`: propext, Classical.choice, Quot.sound
* `Tss.Onsign.C121_sessions`: propext, Classical.choice, Quot.sound
* `Tss.Onsign.C121_case_sessions`: propext, Classical.choice, Quot.sound

## C122

* `Tss.Paillier.C122_acceptable_iff`: propext, Classical.choice, Quot.sound
* `Tss.Paillier.C122_bad_modulus`: propext, Classical.choice, Quot.sound
* `Tss.Paillier.C122_good_modulus`: propext, Classical.choice, Quot.sound
* `Tss.Paillier.C122_good_accepted`: propext, Classical.choice, Quot.sound
* `Tss.Paillier.C122_case`: propext, Classical.choice, Quot.sound

## C123

* `Tss.CurveReg.C123_register`: propext, Classical.choice, Quot.sound
* `Tss.CurveReg.C123_history`: propext, Classical.choice, Quot.sound
* `Tss.CurveReg.C123_names_once`: propext, Quot.sound
* `Tss.CurveReg.C123_name`: propext, Classical.choice, Quot.sound
* `Tss.CurveReg.C123_name_depends`: propext, Classical.choice, Quot.sound
* `Tss.CurveReg.C123_start`: propext, Classical.choice, Quot.sound
* `Tss.CurveReg.C123_wrong_curve`: propext, Classical.choice, Quot.sound
* `Tss.CurveReg.C123_set_nil`: none
* `Tss.CurveReg.C123_case`: propext, Classical.choice, Quot.sound

## C124

* `Tss.Messages.C124_crash_iff`: propext, Classical.choice, Quot.sound
* `Tss.Messages.C124_contents_not_shown`: propext, Classical.choice, Quot.sound
* `Tss.Messages.C124_text_determines`: propext, Classical.choice, Quot.sound
* `Tss.Messages.C124_sent_prints`: propext, Classical.choice, Quot.sound
* `Tss.Messages.C124_received`: propext, Classical.choice, Quot.sound
* `Tss.Messages.C124_parsed_without_sender`: propext, Classical.choice, Quot.sound
* `Tss.Messages.C124_case`: propext, Classical.choice, Quot.sound

## C125

* `Tss.PartyID.C125_parties`: propext, Classical.choice, Quot.sound
* `Tss.PartyID.C125_distinct_iff`: propext, Classical.choice, Quot.sound
* `Tss.PartyID.C125_bad_draws`: propext, Classical.choice, Quot.sound
* `Tss.PartyID.C125_draw`: propext, Classical.choice, Quot.sound
* `Tss.PartyID.C125_case`: propext

## C126

* `Tss.Dln.C126_accepted_answerable`: propext, Classical.choice, Quot.sound
* `Tss.Dln.C126_two_strings`: propext, Classical.choice, Quot.sound
* `Tss.Dln.C126_false_statement`: propext, Classical.choice, Quot.sound
* `Tss.Dln.C126_guess`: propext, Classical.choice, Quot.sound
* `Tss.Dln.C126_true_statement`: propext, Classical.choice, Quot.sound
* `Tss.Dln.C126_base_not_coprime`: propext, Classical.choice, Quot.sound
* `Tss.Dln.C126_case`: propext, Classical.choice, Quot.sound

## C127

* `Tss.Schnorr.C127_challenges`: propext
* `Tss.Schnorr.C127_one_in_d`: propext, Classical.choice, Quot.sound
* `Tss.Schnorr.C127_choice`: propext
* `Tss.Schnorr.C127_honest_response`: propext, Quot.sound
* `Tss.Schnorr.C127_accepts`: propext, Quot.sound
* `Tss.Schnorr.C127_sum`: propext
* `Tss.Schnorr.C127_index_one`: propext
* `Tss.Keygen.C127_round4`: propext, Classical.choice, Quot.sound
* `Tss.Keygen.C127_round4_accepts`: propext, Classical.choice, Quot.sound
* `Tss.Ed.C127_points`: propext, Classical.choice, Quot.sound
* `Tss.Ed.C127_ed25519`: propext, Classical.choice, Quot.sound
* `Tss.Ed.C127_indices`: propext, Classical.choice, Quot.sound
* `Tss.Ed.C127_case`: propext, Classical.choice, Quot.sound
* `Tss.Onsign.C127_signature`: propext, Classical.choice, Quot.sound
* `Tss.Onsign.C127_released`: propext, Classical.choice, Quot.sound

## C128

* `Tss.Text.C128_integer`: propext, Classical.choice, Quot.sound
* `Tss.Text.C128_hex`: propext, Classical.choice, Quot.sound
* `Tss.Text.C128_base64`: propext, Classical.choice, Quot.sound
* `Tss.Text.C128_unique`: propext, Classical.choice, Quot.sound
* `Tss.Text.C128_case`: propext, Classical.choice, Quot.sound

## C129

* `Tss.Wire.C129_varint`: propext, Classical.choice, Quot.sound
* `Tss.Wire.C129_fields`: propext, Classical.choice, Quot.sound
* `Tss.Wire.C129_unambiguous`: propext, Classical.choice, Quot.sound
* `Tss.Wire.C129_utf8`: propext, Classical.choice, Quot.sound
* `Tss.Wire.C129_message`: propext, Classical.choice, Quot.sound
* `Tss.Wire.C129_one_content`: propext, Classical.choice, Quot.sound
* `Tss.Wire.C129_case`: propext, Classical.choice, Quot.sound

## C130

* `Tss.Json.C130_json`: propext, Classical.choice, Quot.sound
* `Tss.Json.C130_one_value`: propext, Classical.choice, Quot.sound
* `Tss.Json.C130_string`: propext, Classical.choice, Quot.sound
* `Tss.Json.C130_number`: propext, Classical.choice, Quot.sound

## C131

* `Tss.SaveJson.C131_point_text`: propext, Classical.choice, Quot.sound
* `Tss.SaveJson.C131_written`: propext, Classical.choice, Quot.sound
* `Tss.SaveJson.C131_crash`: propext, Classical.choice, Quot.sound

## C132

* `Tss.SaveJson.C132_save_text`: propext, Classical.choice, Quot.sound
* `Tss.SaveJson.C132_one_record`: propext, Classical.choice, Quot.sound
* `Tss.SaveJson.C132_written`: propext, Classical.choice, Quot.sound
