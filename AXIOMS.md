# Axioms of the theorems in MANIFEST.json

Written by tools/axioms.py from `#print axioms`.  All are axioms of Lean itself.

## none (2)

`C105_utils`, `C134_offset`

## propext (24)

`C20_x509`, `C33_last_write`, `C40_software`, `C62_ssh_key`, `C66_der`, `C66_consistent`, `C66_unique`, `C67_sign_data`, `C68_first`, `C74_unlock`, `C74_wrong_pin`, `C78_reconnect`, `C78_same_token`, `C79_curve`, `C86_accepted_labels`, `C89_names`, `C94_set`, `C95_wiped`, `C95_empty`, `C100_source`, `C105_outcome`, `C125_rounds`, `C130_happens`, `C140_bits`

## propext, Quot.sound (72)

`C03_cursor`, `C13_unknown`, `C20_missing_application`, `C33_principals`, `C33_options`, `C43_padding`, `C49_none`, `C49_short_secret`, `C50_total`, `C50_exact`, `C50_der`, `C50_contiguous`, `C51_convert`, `C51_exact`, `C61_total`, `C62_ec2_collision`, `C66_certificate`, `C66_csr`, `C66_rejects`, `C66_total`, `C67_signer_requests`, `C67_signer`, `C67_total`, `C67_race`, `C68_outcome`, `C68_returned`, `C68_waits_forever`, `C72_flags`, `C72_ctap`, `C75_provision`, `C75_generated_key`, `C76_csr`, `C76_no_panic`, `C80_panic`, `C82_secret`, `C93_no_cipher`, `C94_to_device`, `C94_mozilla_ignores_path`, `C97_seed_only`, `C104_answer`, `C104_list`, `C104_pin`, `C105_printed`, `C109_signs_sha512`, `C109_p521_private`, `C112_bits`, `C119_provision`, `C121_lines`, `C121_split_once`, `C121_get`, `C121_insert`, `C123_x509`, `C123_csr`, `C123_der`, `C123_authData`, `C129_certificate`, `C129_csr`, `C129_der`, `C130_dialogs`, `C130_csr_panics`, `C130_no_panic`, `C134_raw`, `C138_provision`, `C139_certificate_assertion`, `C139_certificate_message`, `C140_mpint`, `C140_vec`, `C140_map`, `C140_der`, `C140_cose`, `C151_seeds`, `C153_sizes`

## propext, Classical.choice, Quot.sound (493)

`C01_read_bytes`, `C01_roundtrip`, `C02_total`, `C02_slices`, `C02_offset`, `C03_semantic`, `C04_read_u32`, `C04_read_u64`, `C04_fails`, `C04_roundtrip`, `C05_mpint_roundtrip`, `C05_mpint_value`, `C06_mpint_canonical`, `C06_mpint_reencode`, `C06_mpint_rejects`, `C07_read_string`, `C07_invalid_utf8`, `C07_roundtrip`, `C08_read_cstring`, `C08_fails`, `C08_roundtrip`, `C09_principals_roundtrip`, `C09_principals_grammar`, `C09_principals_total`, `C10_options_roundtrip`, `C11_options_grammar`, `C11_options_unambiguous`, `C12_truncation`, `C13_known`, `C13_curve`, `C13_curve_names`, `C14_roundtrip`, `C14_roundtrip_plain`, `C15_from_bytes`, `C15_total`, `C15_reencode`, `C15_unambiguous`, `C16_text_roundtrip`, `C16_parsed`, `C16_comment_truncated`, `C16_nonplain_rejected`, `C17_from_string`, `C17_label`, `C17_total`, `C18_injective`, `C18_prefix_free`, `C19_text`, `C19_comment`, `C19_determines_digest`, `C19_same_key`, `C20_allowed_signer`, `C20_certificate`, `C20_fido`, `C20_wellFormed`, `C20_parsed`, `C20_privkey`, `C20_sshsig`, `C21_accepts`, `C21_total`, `C21_primitive_needed`, `C22_message`, `C22_binding`, `C22_presence_not_required`, `C23_fixed_width`, `C23_too_long`, `C24_family`, `C24_label`, `C24_key_type`, `C24_curve_ignored`, `C25_signed`, `C25_complete`, `C25_total`, `C26_fields_authenticated`, `C26_body_unambiguous`, `C27_roundtrip`, `C28_add_signature`, `C28_sign`, `C28_rejected`, `C29_unforgeable`, `C30_tbs_injective`, `C30_parsed`, `C31_text_roundtrip`, `C31_from_string`, `C31_total`, `C32_not_certificate`, `C32_certificate_type`, `C32_role`, `C33_builder`, `C33_no_randomness`, `C34_trailing`, `C35_exact`, `C35_otherwise`, `C35_unforgeable`, `C35_comment_mismatch`, `C36_injective`, `C36_not_certificate`, `C37_roundtrip`, `C37_width`, `C38_exact`, `C38_total`, `C38_reserved_ignored`, `C39_sshsig`, `C39_sound`, `C39_certificate`, `C40_roundtrip`, `C41_roundtrip`, `C41_width`, `C42_canonical`, `C42_written`, `C44_exact`, `C44_check_integers`, `C44_public_key`, `C45_no_passphrase`, `C45_unsupported`, `C45_feature`, `C45_never`, `C45_from_string`, `C45_from_string_encrypted`, `C46_transparent`, `C47_exact`, `C47_total_partial`, `C47_panics`, `C48_crt`, `C49_exact`, `C49_wellFormed`, `C51_end_to_end`, `C51_end_to_end_sk`, `C51_encodings`, `C52_principals`, `C53_window`, `C54_duplicates`, `C55_exact`, `C55_final_quote`, `C56_exact`, `C56_partial`, `C56_bounds`, `C56_calendar`, `C57_comment_partial`, `C57_exact`, `C57_quoted`, `C58_ok`, `C58_err`, `C58_panic`, `C58_line_errors`, `C59_only_local`, `C59_total`, `C59_utc`, `C59_exact`, `C59_counterexample`, `C60_timestamp`, `C60_panic`, `C60_utc`, `C60_total`, `C61_exact`, `C61_layout`, `C61_trailing`, `C62_okp`, `C62_ec2`, `C63_exact`, `C63_total`, `C64_boundary`, `C64_back`, `C65_exact`, `C65_panic`, `C65_chain_needed`, `C68_terminates`, `C69_encode`, `C69_decode`, `C69_roundtrip`, `C69_alphabet`, `C69_injective`, `C70_ctap`, `C70_mozilla`, `C71_application`, `C73_file`, `C77_verifies`, `C77_certificate`, `C79_rsa`, `C80_new`, `C80_file`, `C80_signs`, `C80_not_openssh`, `C81_verifies`, `C81_sshsig`, `C81_certificate`, `C82_short`, `C82_full`, `C83_pkcs1`, `C83_unique`, `C84_roundtrip`, `C84_unambiguous`, `C85_ed25519`, `C85_ed25519_sk`, `C85_rsa`, `C85_ecdsa`, `C85_fingerprint`, `C86_label`, `C86_normalised`, `C87_any_curve`, `C87_mismatch`, `C88_reissue`, `C88_serialises`, `C89_display_not_accepted`, `C89_display_injective`, `C90_table`, `C90_roundtrip`, `C91_unordered`, `C91_order_visible`, `C91_any_sequence_accepted`, `C92_total`, `C92_faithful`, `C92_critical`, `C92_extension_values_hidden`, `C92_principal_line_break`, `C93_wellFormed`, `C93_written_in_clear`, `C94_not_written`, `C94_not_read`, `C96_no_secret_shown`, `C96_total`, `C97_unrelated_secret`, `C98_exact`, `C98_panics`, `C98_file`, `C99_suffix`, `C99_label_ed25519`, `C99_label_p256`, `C99_ecdsa_junk`, `C99_certificate`, `C99_deny_list`, `C99_sshsig`, `C100_injective`, `C100_line`, `C100_fido`, `C100_fido_pin`, `C100_piv`, `C101_text`, `C101_other`, `C101_written`, `C102_public`, `C102_certificate`, `C102_private`, `C102_signature`, `C102_allowed`, `C103_concat`, `C103_errors`, `C103_lost`, `C104_routed`, `C104_generate_error`, `C105_panics`, `C106_key`, `C106_certificate`, `C106_signature`, `C106_private`, `C106_exponents`, `C107_not_enforced`, `C107_expired`, `C107_default_interval`, `C108_ca_type`, `C108_certificate_as_ca`, `C108_self_signed`, `C109_sha1`, `C109_label_selects`, `C109_p521_label`, `C109_p521_key`, `C110_utc`, `C110_order`, `C110_midnight`, `C110_leap`, `C111_bound`, `C111_exception`, `C112_patch`, `C112_comment`, `C112_secret`, `C113_printed`, `C113_prints`, `C113_certificate_file`, `C114_printed`, `C114_empty`, `C115_lines`, `C115_listed`, `C115_info`, `C115_keys`, `C115_ignored`, `C116_private`, `C116_no_secret`, `C116_public`, `C117_accepts`, `C117_panics`, `C117_refuses`, `C117_validator`, `C118_printed`, `C119_fingerprint`, `C119_fingerprint_reads`, `C120_into`, `C120_fido`, `C120_fido_failure`, `C121_white`, `C121_words`, `C121_unique`, `C121_trim`, `C121_split`, `C122_public`, `C122_signature`, `C122_private`, `C122_bare`, `C122_certificate`, `C123_public`, `C123_public_text`, `C123_verify`, `C123_certificate`, `C123_certificate_text`, `C123_signature`, `C123_private`, `C123_passphrase`, `C123_line`, `C123_line_each`, `C123_blank`, `C123_file`, `C123_type_name`, `C123_attestation`, `C123_piv`, `C123_ssh_signature`, `C124_returns`, `C124_deterministic`, `C124_never`, `C124_key`, `C125_one_call`, `C125_refused`, `C126_authData`, `C126_one_reason`, `C126_attestation`, `C126_ctap`, `C126_mozilla`, `C126_cut`, `C127_key`, `C127_verify`, `C127_certificate`, `C127_signature`, `C127_bare`, `C127_private`, `C127_key_text`, `C127_certificate_text`, `C127_signature_text`, `C127_private_text`, `C127_key_verdict`, `C127_verify_verdict`, `C127_certificate_verdict`, `C127_signature_verdict`, `C127_private_verdict`, `C127_bare_verdict`, `C127_key_text_verdict`, `C127_certificate_text_verdict`, `C127_signature_text_verdict`, `C127_private_text_verdict`, `C128_line`, `C128_file`, `C128_one`, `C128_either`, `C128_final_quote`, `C129_attestation`, `C131_writer`, `C131_key`, `C131_key_text`, `C131_tbs`, `C131_cert_text`, `C131_cert_shown`, `C131_signature`, `C131_private`, `C131_private_shown`, `C131_signer`, `C132_exact`, `C133_builder`, `C133_add_signature`, `C133_sign`, `C133_signature`, `C134_values`, `C134_cursor`, `C135_sign_cert`, `C135_sign_file`, `C135_sign_yubikey`, `C135_cert_info`, `C135_pkey_info`, `C135_pubkey_info`, `C135_into`, `C135_fido`, `C135_fido_error`, `C136_texts`, `C137_generate`, `C138_fingerprint`, `C139_message_assertion`, `C139_collision`, `C139_certificate`, `C139_message`, `C139_assertion`, `C140_reader`, `C141_line`, `C141_tokens`, `C142_private`, `C142_secret`, `C142_pin`, `C142_fido`, `C142_public`, `C142_yubikey`, `C143_message`, `C143_certificate`, `C143_hardware`, `C143_hardware_message`, `C144_one_line`, `C144_listing`, `C144_injected`, `C144_written`, `C144_file`, `C144_rewrite`, `C144_becomes_authority`, `C144_becomes_two`, `C145_crt`, `C145_signs`, `C145_sshsig`, `C146_ecdsa`, `C146_ed25519`, `C146_sshsig_ecdsa`, `C146_sshsig_ed25519`, `C146_generated`, `C146_hardware`, `C147_issued`, `C147_built`, `C147_mismatch_ecdsa`, `C147_mismatch_ed25519`, `C148_message`, `C148_certificate`, `C148_read`, `C148_wrong`, `C149_issues`, `C149_signs`, `C149_chain`, `C149_allowed`, `C149_wrong`, `C150_every`, `C150_every_certificate`, `C150_ecdsa`, `C150_blob`, `C150_certificate`, `C150_sshsig`, `C150_rsa`, `C150_ed25519`, `C150_p256`, `C150_p384`, `C151_ecdsa`, `C151_sshsig`, `C151_weak`, `C151_weak_certificate`, `C151_weak_sshsig`, `C151_ed25519`, `C151_rsa`, `C151_p256`, `C151_p384`, `C152_ecdsa`, `C152_sshsig`, `C152_ed25519`, `C152_p256`, `C152_p384`, `C153_opens`, `C153_refused`, `C154_exact`, `C154_device`, `C154_second`, `C154_p256`, `C154_second_p256`, `C155_point`, `C155_p256`, `C155_p384`, `C155_exact`, `C156_der`, `C156_certificate`, `C156_csr`, `C156_program`, `C156_chain`, `C156_fido`, `C157_key`, `C157_signs`, `C157_always`, `C157_certificate`, `C157_csr`, `C158_signature`, `C158_rsa`, `C158_ecdsa`, `C158_exact`, `C158_plain`, `C158_forged`, `C158_attestation`, `C158_refused`, `C158_device`
