{
 "claims": [
  {
   "property": "C01",
   "status": "proved",
   "theorems": [
    "Ssh.C01_read_bytes",
    "Ssh.C01_roundtrip"
   ],
   "note": "read_bytes accepts exactly a framed value at the cursor (iff); round trip with write_bytes in any context."
  },
  {
   "property": "C02",
   "status": "proved",
   "theorems": [
    "Ssh.C02_total",
    "Ssh.C02_slices",
    "Ssh.C02_offset"
   ],
   "note": "induction over arbitrary sequences of calls; returned values are parts of the buffer."
  },
  {
   "property": "C03",
   "status": "proved",
   "theorems": [
    "Ssh.C03_cursor",
    "Ssh.C03_semantic"
   ],
   "note": "also characterises what read_string / read_positive_mpint consumed when they fail after a well-framed value."
  },
  {
   "property": "C04",
   "status": "proved",
   "theorems": [
    "Ssh.C04_read_u32",
    "Ssh.C04_read_u64",
    "Ssh.C04_fails",
    "Ssh.C04_roundtrip"
   ],
   "note": "iff characterisation, exact failure condition, round trip."
  },
  {
   "property": "C05",
   "status": "proved",
   "theorems": [
    "Ssh.C05_mpint_roundtrip",
    "Ssh.C05_mpint_value"
   ],
   "note": "value and shortest form preserved for every byte string."
  },
  {
   "property": "C06",
   "status": "proved",
   "theorems": [
    "Ssh.C06_mpint_canonical",
    "Ssh.C06_mpint_reencode",
    "Ssh.C06_mpint_rejects"
   ],
   "note": "iff with the RFC 4251 grammar, re-encoding equality, explicit rejections."
  },
  {
   "property": "C07",
   "status": "proved",
   "theorems": [
    "Ssh.C07_read_string",
    "Ssh.C07_invalid_utf8",
    "Ssh.C07_roundtrip"
   ],
   "note": "iff with framed UTF-8; error for invalid UTF-8; round trip."
  },
  {
   "property": "C08",
   "status": "proved",
   "theorems": [
    "Ssh.C08_read_cstring",
    "Ssh.C08_fails",
    "Ssh.C08_roundtrip"
   ],
   "note": "iff, exact failure condition, round trip for ASCII without NUL (write_cstring writes UTF-8, read_cstring decodes Latin-1, so non-ASCII does not round trip)."
  },
  {
   "property": "C09",
   "status": "proved",
   "theorems": [
    "Ssh.C09_principals_roundtrip",
    "Ssh.C09_principals_grammar",
    "Ssh.C09_principals_total"
   ],
   "note": "round trip for every list; iff grammar; totality of the loop."
  },
  {
   "property": "C10",
   "status": "proved",
   "theorems": [
    "Ssh.C10_options_roundtrip"
   ],
   "note": "quantified over every iteration order (permutation) of the map."
  },
  {
   "property": "C11",
   "status": "proved",
   "theorems": [
    "Ssh.C11_options_grammar",
    "Ssh.C11_options_unambiguous"
   ],
   "note": "iff with the pair grammar, last occurrence wins, grammar unambiguous."
  },
  {
   "property": "C12",
   "status": "proved",
   "theorems": [
    "Ssh.C12_truncation"
   ],
   "note": "negative finding about the library (no error is reported); exact description of what is read back."
  },
  {
   "property": "C13",
   "status": "proved",
   "theorems": [
    "Ssh.C13_known",
    "Ssh.C13_unknown",
    "Ssh.C13_curve",
    "Ssh.C13_curve_names"
   ],
   "note": "every string; the 16-row table is settled by kernel evaluation, the rest by the characterisation of from_name."
  },
  {
   "property": "C14",
   "status": "proved",
   "theorems": [
    "Ssh.C14_roundtrip",
    "Ssh.C14_roundtrip_plain"
   ],
   "note": "for every well-formed key and any bytes following it."
  },
  {
   "property": "C15",
   "status": "proved",
   "theorems": [
    "Ssh.C15_from_bytes",
    "Ssh.C15_total",
    "Ssh.C15_reencode",
    "Ssh.C15_unambiguous"
   ],
   "note": "iff with the wire grammar KeyBlob; no panic; re-encoding; unambiguity of the grammar."
  },
  {
   "property": "C16",
   "status": "proved",
   "theorems": [
    "Ssh.C16_text_roundtrip",
    "Ssh.C16_parsed",
    "Ssh.C16_comment_truncated",
    "Ssh.C16_nonplain_rejected"
   ],
   "note": "round trip for plain-typed keys with a one-word comment and for every parsed plain-typed key; findings - multi-word comments are cut (witness) and keys of non-plain types (rsa-sha2-*, certificates) print text the parser rejects (all such keys)."
  },
  {
   "property": "C17",
   "status": "proved",
   "theorems": [
    "Ssh.C17_from_string",
    "Ssh.C17_label",
    "Ssh.C17_total"
   ],
   "note": "iff characterisation of from_string."
  },
  {
   "property": "C18",
   "status": "proved",
   "theorems": [
    "Ssh.C18_injective",
    "Ssh.C18_prefix_free"
   ],
   "note": "injective and prefix-free."
  },
  {
   "property": "C19",
   "status": "proved",
   "theorems": [
    "Ssh.C19_text",
    "Ssh.C19_comment",
    "Ssh.C19_determines_digest",
    "Ssh.C19_same_key"
   ],
   "note": "any digest functions; collision-freeness is a hypothesis about the two encodings only."
  },
  {
   "property": "C20",
   "status": "proved",
   "theorems": [
    "Ssh.C20_allowed_signer",
    "Ssh.C20_certificate",
    "Ssh.C20_fido",
    "Ssh.C20_wellFormed",
    "Ssh.C20_parsed",
    "Ssh.C20_missing_application",
    "Ssh.C20_x509",
    "Ssh.C20_privkey",
    "Ssh.C20_sshsig"
   ],
   "note": "for public keys, certificates, SSHSIG signatures, private keys and allowed signers that come out of a parser, for the SSH key of parsed authenticator data, and for keys from X.509."
  },
  {
   "property": "C21",
   "status": "proved",
   "theorems": [
    "Ssh.C21_accepts",
    "Ssh.C21_total",
    "Ssh.C21_primitive_needed"
   ],
   "note": "iff with the specification Accepts; primitives arbitrary; no panic."
  },
  {
   "property": "C22",
   "status": "proved",
   "theorems": [
    "Ssh.C22_message",
    "Ssh.C22_binding",
    "Ssh.C22_presence_not_required"
   ],
   "note": "the message passed to the primitive, its unambiguity (SHA-256 of length 32 as hypothesis); finding - the user-presence flag is not required."
  },
  {
   "property": "C23",
   "status": "proved",
   "theorems": [
    "Ssh.C23_fixed_width",
    "Ssh.C23_too_long"
   ],
   "note": "values preserved at width 32 or 48, longer integers rejected."
  },
  {
   "property": "C24",
   "status": "proved",
   "theorems": [
    "Ssh.C24_family",
    "Ssh.C24_label",
    "Ssh.C24_key_type",
    "Ssh.C24_curve_ignored"
   ],
   "note": "family of label and key agree; finding - within ECDSA the label, not the curve of the key, selects the algorithm."
  },
  {
   "property": "C25",
   "status": "proved",
   "theorems": [
    "Ssh.C25_signed",
    "Ssh.C25_complete",
    "Ssh.C25_total"
   ],
   "note": "soundness with the certificate grammar, completeness and totality."
  },
  {
   "property": "C26",
   "status": "proved",
   "theorems": [
    "Ssh.C26_fields_authenticated",
    "Ssh.C26_body_unambiguous"
   ],
   "note": "for any continuation of the signed part, even under different primitives."
  },
  {
   "property": "C27",
   "status": "proved",
   "theorems": [
    "Ssh.C27_roundtrip"
   ],
   "note": "hypotheses are that keys are well-formed (what every parser returns), field sizes below 2^32 and argument maps without duplicate names (they are HashMaps); iteration order is any permutation."
  },
  {
   "property": "C28",
   "status": "proved",
   "theorems": [
    "Ssh.C28_add_signature",
    "Ssh.C28_sign",
    "Ssh.C28_rejected"
   ],
   "note": "iff for add_signature and sign."
  },
  {
   "property": "C29",
   "status": "proved",
   "theorems": [
    "Ssh.C29_unforgeable"
   ],
   "note": "reduction with the primitives as an oracle; for hardware CA keys collision-freeness of SHA-256 with signed messages is a hypothesis."
  },
  {
   "property": "C30",
   "status": "proved",
   "theorems": [
    "Ssh.C30_tbs_injective",
    "Ssh.C30_parsed"
   ],
   "note": "keys compared by type and material."
  },
  {
   "property": "C31",
   "status": "proved",
   "theorems": [
    "Ssh.C31_text_roundtrip",
    "Ssh.C31_from_string",
    "Ssh.C31_total"
   ],
   "note": "round trip for every accepted input, exact characterisation of from_string, totality."
  },
  {
   "property": "C32",
   "status": "proved",
   "theorems": [
    "Ssh.C32_not_certificate",
    "Ssh.C32_certificate_type",
    "Ssh.C32_role"
   ],
   "note": "both rejections with the exact error; type of the returned certificate."
  },
  {
   "property": "C33",
   "status": "proved",
   "theorems": [
    "Ssh.C33_builder",
    "Ssh.C33_no_randomness",
    "Ssh.C33_last_write",
    "Ssh.C33_principals",
    "Ssh.C33_options"
   ],
   "note": "every sequence of calls."
  },
  {
   "property": "C34",
   "status": "proved",
   "theorems": [
    "Ssh.C34_trailing"
   ],
   "note": "every accepted input and suffix."
  },
  {
   "property": "C35",
   "status": "proved",
   "theorems": [
    "Ssh.C35_exact",
    "Ssh.C35_otherwise",
    "Ssh.C35_unforgeable",
    "Ssh.C35_comment_mismatch"
   ],
   "note": "iff; reduction to unforgeability; finding - the expected key is compared with its comment, so an expected key with a comment never matches a parsed signature."
  },
  {
   "property": "C36",
   "status": "proved",
   "theorems": [
    "Ssh.C36_injective",
    "Ssh.C36_not_certificate"
   ],
   "note": "sizes below 2^32; certificates whose key type is one of the supported types (every KeyType the library can produce)."
  },
  {
   "property": "C37",
   "status": "proved",
   "theorems": [
    "Ssh.C37_roundtrip",
    "Ssh.C37_width"
   ],
   "note": "any key type; the comment of the key is not stored; also the line width."
  },
  {
   "property": "C38",
   "status": "proved",
   "theorems": [
    "Ssh.C38_exact",
    "Ssh.C38_total",
    "Ssh.C38_reserved_ignored"
   ],
   "note": "iff with the grammar, totality, and the reserved field is ignored."
  },
  {
   "property": "C39",
   "status": "proved",
   "theorems": [
    "Ssh.C39_sshsig",
    "Ssh.C39_sound",
    "Ssh.C39_certificate"
   ],
   "note": "hypotheses - the primitives accept what they sign, ECDSA signatures are DER, private and public half of the same type. Soundness holds without hypotheses."
  },
  {
   "property": "C40",
   "status": "proved",
   "theorems": [
    "Ssh.C40_roundtrip",
    "Ssh.C40_software"
   ],
   "note": "all five kinds; the only size hypotheses are field sizes and a total below 4 GiB."
  },
  {
   "property": "C41",
   "status": "proved",
   "theorems": [
    "Ssh.C41_roundtrip",
    "Ssh.C41_width"
   ],
   "note": "text round trip for every well-formed key and any passphrase; also the line width."
  },
  {
   "property": "C42",
   "status": "proved",
   "theorems": [
    "Ssh.C42_canonical",
    "Ssh.C42_written"
   ],
   "note": "canonical files re-encode byte for byte, and what is written is canonical."
  },
  {
   "property": "C43",
   "status": "proved",
   "theorems": [
    "Ssh.C43_padding"
   ],
   "note": "for every key that can be encoded, well-formed or not."
  },
  {
   "property": "C44",
   "status": "proved",
   "theorems": [
    "Ssh.C44_exact",
    "Ssh.C44_check_integers",
    "Ssh.C44_public_key"
   ],
   "note": "iff with the grammar of key files, plus rejection of differing check integers and public keys. Ignored bytes are part of the grammar."
  },
  {
   "property": "C45",
   "status": "proved",
   "theorems": [
    "Ssh.C45_no_passphrase",
    "Ssh.C45_unsupported",
    "Ssh.C45_feature",
    "Ssh.C45_never",
    "Ssh.C45_from_string",
    "Ssh.C45_from_string_encrypted"
   ],
   "note": "exact error for well-framed files with a non-empty private section; no key in any case."
  },
  {
   "property": "C46",
   "status": "proved",
   "theorems": [
    "Ssh.C46_transparent"
   ],
   "note": "equality of the whole result, for arbitrary KDF and key stream."
  },
  {
   "property": "C47",
   "status": "partial",
   "theorems": [
    "Ssh.C47_exact",
    "Ssh.C47_total_partial",
    "Ssh.C47_panics"
   ],
   "note": "as stated the property is false; the panics are characterised exactly (RSA with p or q equal to 0 or 1 under rsa-signing), a panicking text is exhibited, and without rsa-signing no input panics."
  },
  {
   "property": "C48",
   "status": "proved",
   "theorems": [
    "Ssh.C48_crt"
   ],
   "note": "with and without the rsa-signing feature."
  },
  {
   "property": "C49",
   "status": "proved",
   "theorems": [
    "Ssh.C49_exact",
    "Ssh.C49_none",
    "Ssh.C49_wellFormed",
    "Ssh.C49_short_secret"
   ],
   "note": "exact characterisation of the panics (also for hardware keys); finding - secrets shorter than 32 bytes panic."
  },
  {
   "property": "C50",
   "status": "proved",
   "theorems": [
    "Ssh.C50_total",
    "Ssh.C50_exact",
    "Ssh.C50_der",
    "Ssh.C50_contiguous"
   ],
   "note": "exact characterisation; a part of the input is returned."
  },
  {
   "property": "C51",
   "status": "proved",
   "theorems": [
    "Ssh.C51_convert",
    "Ssh.C51_exact",
    "Ssh.C51_end_to_end",
    "Ssh.C51_end_to_end_sk",
    "Ssh.C51_encodings"
   ],
   "note": "software and hardware key types, both curves."
  },
  {
   "property": "C52",
   "status": "proved",
   "theorems": [
    "Ssh.C52_principals"
   ],
   "note": "every line and time zone."
  },
  {
   "property": "C53",
   "status": "proved",
   "theorems": [
    "Ssh.C53_window"
   ],
   "note": "every line and time zone."
  },
  {
   "property": "C54",
   "status": "proved",
   "theorems": [
    "Ssh.C54_duplicates"
   ],
   "note": "the words of a line are defined by the grammar in Spec/AllowedSigner; any letter case."
  },
  {
   "property": "C55",
   "status": "proved",
   "theorems": [
    "Ssh.C55_exact",
    "Ssh.C55_final_quote"
   ],
   "note": "iff with the grammar of lines; finding - a line that ends with a double quote is rejected whatever it says."
  },
  {
   "property": "C56",
   "status": "partial",
   "theorems": [
    "Ssh.C56_exact",
    "Ssh.C56_partial",
    "Ssh.C56_bounds",
    "Ssh.C56_calendar"
   ],
   "note": "as stated the property is false. C56_exact says exactly (iff) which entries read back from their text, for every entry that can be printed - principals and namespaces that need no quoting (words are printed without quotes), bounds whose decimal text happens to be a date meaning the same time, a key of plain type without comment. C56_bounds - with a bound whose decimal text is not 8, 12 or 14 characters long the text is never accepted. C56_calendar - with a calendar that satisfies the contract of a time library, an entry reads back from its text exactly if it has no bounds, its words need no quoting and its key has a plain type."
  },
  {
   "property": "C57",
   "status": "partial",
   "theorems": [
    "Ssh.C57_comment_partial",
    "Ssh.C57_exact",
    "Ssh.C57_quoted"
   ],
   "note": "as stated the property is false; proved for comments that do not end with a double quote, iff for comments without quotes, and a comment ending with a quote makes every line invalid (C57_quoted)."
  },
  {
   "property": "C58",
   "status": "proved",
   "theorems": [
    "Ssh.C58_ok",
    "Ssh.C58_err",
    "Ssh.C58_panic",
    "Ssh.C58_line_errors"
   ],
   "note": "exact result for success, error and panic; line numbers start at 0."
  },
  {
   "property": "C59",
   "status": "proved",
   "theorems": [
    "Ssh.C59_only_local",
    "Ssh.C59_total",
    "Ssh.C59_utc",
    "Ssh.C59_exact",
    "Ssh.C59_counterexample"
   ],
   "note": "exact characterisation of the panics; finding - a local time that the time zone skips or repeats panics."
  },
  {
   "property": "C60",
   "status": "proved",
   "theorems": [
    "Ssh.C60_timestamp",
    "Ssh.C60_panic",
    "Ssh.C60_utc",
    "Ssh.C60_total"
   ],
   "note": "iff; date parsing and the time zone are parameters."
  },
  {
   "property": "C61",
   "status": "proved",
   "theorems": [
    "Ssh.C61_exact",
    "Ssh.C61_total",
    "Ssh.C61_layout",
    "Ssh.C61_trailing"
   ],
   "note": "iff with the layout of authenticator data and COSE maps; bytes after the key are ignored."
  },
  {
   "property": "C62",
   "status": "proved",
   "theorems": [
    "Ssh.C62_okp",
    "Ssh.C62_ec2",
    "Ssh.C62_ssh_key",
    "Ssh.C62_ec2_collision"
   ],
   "note": "any order of map entries; finding - for EC2 keys the other coordinate is dropped, so different keys collide."
  },
  {
   "property": "C63",
   "status": "proved",
   "theorems": [
    "Ssh.C63_exact",
    "Ssh.C63_total"
   ],
   "note": "iff; X.509 parsing and the signature checks are parameters."
  },
  {
   "property": "C64",
   "status": "proved",
   "theorems": [
    "Ssh.C64_boundary",
    "Ssh.C64_back"
   ],
   "note": "both directions of moving bytes; a finding about the code."
  },
  {
   "property": "C65",
   "status": "proved",
   "theorems": [
    "Ssh.C65_exact",
    "Ssh.C65_panic",
    "Ssh.C65_chain_needed"
   ],
   "note": "iff for success and for the panics (a finding: unreadable root, short policy extension); X.509 parsing and signature checks are arbitrary functions."
  },
  {
   "property": "C66",
   "status": "proved",
   "theorems": [
    "Ssh.C66_certificate",
    "Ssh.C66_csr",
    "Ssh.C66_der",
    "Ssh.C66_consistent",
    "Ssh.C66_unique",
    "Ssh.C66_rejects",
    "Ssh.C66_total"
   ],
   "note": "iff for the three extractions."
  },
  {
   "property": "C67",
   "status": "proved",
   "theorems": [
    "Ssh.C67_sign_data",
    "Ssh.C67_signer_requests",
    "Ssh.C67_signer",
    "Ssh.C67_total",
    "Ssh.C67_race"
   ],
   "note": "for an arbitrary, stateful token; finding - the slot is read three times, and the label comes from the last reading (C67_race)."
  },
  {
   "property": "C68",
   "status": "proved",
   "theorems": [
    "Ssh.C68_terminates",
    "Ssh.C68_outcome",
    "Ssh.C68_returned",
    "Ssh.C68_waits_forever",
    "Ssh.C68_first"
   ],
   "note": "every schedule; finding - the call never returns if registration fails without a PIN status."
  },
  {
   "property": "C69",
   "status": "proved",
   "theorems": [
    "Ssh.C69_encode",
    "Ssh.C69_decode",
    "Ssh.C69_roundtrip",
    "Ssh.C69_alphabet",
    "Ssh.C69_injective"
   ],
   "note": "model of the base64 crate's standard engine as used by the library."
  },
  {
   "property": "C70",
   "status": "proved",
   "theorems": [
    "Ssh.C70_ctap",
    "Ssh.C70_mozilla"
   ],
   "note": "iff for both backends, starting from the answer of the device."
  },
  {
   "property": "C71",
   "status": "proved",
   "theorems": [
    "Ssh.C71_application"
   ],
   "note": "a finding about the code."
  },
  {
   "property": "C72",
   "status": "proved",
   "theorems": [
    "Ssh.C72_flags",
    "Ssh.C72_ctap"
   ],
   "note": "every flags byte."
  },
  {
   "property": "C73",
   "status": "proved",
   "theorems": [
    "Ssh.C73_file"
   ],
   "note": "for Ed25519 and for ECDSA credentials."
  },
  {
   "property": "C74",
   "status": "proved",
   "theorems": [
    "Ssh.C74_unlock",
    "Ssh.C74_wrong_pin"
   ],
   "note": "arbitrary token."
  },
  {
   "property": "C75",
   "status": "proved",
   "theorems": [
    "Ssh.C75_provision",
    "Ssh.C75_generated_key"
   ],
   "note": "arbitrary token; that the key returned is the one generated, for a token that stores what it is given."
  },
  {
   "property": "C76",
   "status": "proved",
   "theorems": [
    "Ssh.C76_csr",
    "Ssh.C76_no_panic"
   ],
   "note": "arbitrary token; finding - panics characterised."
  },
  {
   "property": "C77",
   "status": "proved",
   "theorems": [
    "Ssh.C77_verifies",
    "Ssh.C77_certificate"
   ],
   "note": "for a token whose slot does not change and which signs correctly."
  },
  {
   "property": "C78",
   "status": "proved",
   "theorems": [
    "Ssh.C78_reconnect",
    "Ssh.C78_same_token"
   ],
   "note": "arbitrary token."
  },
  {
   "property": "C79",
   "status": "proved",
   "theorems": [
    "Ssh.C79_rsa",
    "Ssh.C79_curve"
   ],
   "note": "sizes of RSA (rounded up to bytes), ECDSA and Ed25519 keys"
  },
  {
   "property": "C80",
   "status": "proved",
   "theorems": [
    "Ssh.C80_new",
    "Ssh.C80_panic",
    "Ssh.C80_file",
    "Ssh.C80_signs",
    "Ssh.C80_not_openssh"
   ],
   "note": "exact characterisation of new, panics, file round trip, signing; C80_not_openssh is a finding about the secret field"
  },
  {
   "property": "C81",
   "status": "proved",
   "theorems": [
    "Ssh.C81_verifies",
    "Ssh.C81_sshsig",
    "Ssh.C81_certificate"
   ],
   "note": "both backends; the device is an arbitrary function, that its assertion verifies is a hypothesis"
  },
  {
   "property": "C82",
   "status": "proved",
   "theorems": [
    "Ssh.C82_secret",
    "Ssh.C82_short",
    "Ssh.C82_full"
   ],
   "note": "C82_short shows that keys with a short secret cannot sign if the primitive insists on full width (hypothesis about the primitive)"
  },
  {
   "property": "C83",
   "status": "proved",
   "theorems": [
    "Ssh.C83_pkcs1",
    "Ssh.C83_unique"
   ],
   "note": "DER encoding modelled after simple_asn1 and num-bigint (not in the repository); C83_unique for keys below 2^64 bytes"
  },
  {
   "property": "C84",
   "status": "proved",
   "theorems": [
    "Ssh.C84_roundtrip",
    "Ssh.C84_unambiguous"
   ],
   "note": "raw bytes must be non-empty (the reader refuses a read at the end of the buffer, even of no bytes)"
  },
  {
   "property": "C85",
   "status": "proved",
   "theorems": [
    "Ssh.C85_ed25519",
    "Ssh.C85_ed25519_sk",
    "Ssh.C85_rsa",
    "Ssh.C85_ecdsa",
    "Ssh.C85_fingerprint"
   ],
   "note": "findings, proved with exact conditions per key family"
  },
  {
   "property": "C86",
   "status": "proved",
   "theorems": [
    "Ssh.C86_label",
    "Ssh.C86_accepted_labels",
    "Ssh.C86_normalised"
   ],
   "note": "C86_accepted_labels lists the accepted foreign labels"
  },
  {
   "property": "C87",
   "status": "proved",
   "theorems": [
    "Ssh.C87_any_curve",
    "Ssh.C87_mismatch"
   ],
   "note": "finding"
  },
  {
   "property": "C88",
   "status": "proved",
   "theorems": [
    "Ssh.C88_reissue",
    "Ssh.C88_serialises"
   ],
   "note": "signing success is a hypothesis of C88_reissue; C88_serialises says it depends on the signer alone"
  },
  {
   "property": "C89",
   "status": "proved",
   "theorems": [
    "Ssh.C89_names",
    "Ssh.C89_display_not_accepted",
    "Ssh.C89_display_injective"
   ],
   "note": "C89_display_not_accepted is a finding"
  },
  {
   "property": "C90",
   "status": "proved",
   "theorems": [
    "Ssh.C90_table",
    "Ssh.C90_roundtrip"
   ],
   "note": "the list of default extensions is written down from OpenSSH's documentation"
  },
  {
   "property": "C91",
   "status": "proved",
   "theorems": [
    "Ssh.C91_unordered",
    "Ssh.C91_order_visible",
    "Ssh.C91_any_sequence_accepted"
   ],
   "note": "findings; the iteration order of a HashMap is arbitrary in the model"
  },
  {
   "property": "C92",
   "status": "proved",
   "theorems": [
    "Ssh.C92_total",
    "Ssh.C92_faithful",
    "Ssh.C92_critical",
    "Ssh.C92_extension_values_hidden",
    "Ssh.C92_principal_line_break"
   ],
   "note": "C92_extension_values_hidden and C92_principal_line_break are findings"
  },
  {
   "property": "C93",
   "status": "proved",
   "theorems": [
    "Ssh.C93_wellFormed",
    "Ssh.C93_written_in_clear",
    "Ssh.C93_no_cipher"
   ],
   "note": "C93_written_in_clear is a finding"
  },
  {
   "property": "C94",
   "status": "proved",
   "theorems": [
    "Ssh.C94_not_written",
    "Ssh.C94_not_read",
    "Ssh.C94_set",
    "Ssh.C94_to_device",
    "Ssh.C94_mozilla_ignores_path"
   ],
   "note": "the device is an arbitrary function; C94_mozilla_ignores_path is a finding"
  },
  {
   "property": "C95",
   "status": "proved",
   "theorems": [
    "Ssh.C95_wiped",
    "Ssh.C95_empty"
   ],
   "note": "about the values in the fields of the key; memory freed earlier (moved or reallocated buffers) is not modelled"
  },
  {
   "property": "C96",
   "status": "proved",
   "theorems": [
    "Ssh.C96_no_secret_shown",
    "Ssh.C96_total"
   ],
   "note": "digest functions arbitrary"
  },
  {
   "property": "C97",
   "status": "proved",
   "theorems": [
    "Ssh.C97_seed_only",
    "Ssh.C97_unrelated_secret"
   ],
   "note": "C97_unrelated_secret is a finding"
  },
  {
   "property": "C98",
   "status": "proved",
   "theorems": [
    "Ssh.C98_exact",
    "Ssh.C98_panics",
    "Ssh.C98_file"
   ],
   "note": "iff for success and for panics"
  },
  {
   "property": "C99",
   "status": "proved",
   "theorems": [
    "Ssh.C99_suffix",
    "Ssh.C99_label_ed25519",
    "Ssh.C99_label_p256",
    "Ssh.C99_ecdsa_junk",
    "Ssh.C99_certificate",
    "Ssh.C99_deny_list",
    "Ssh.C99_sshsig"
   ],
   "note": "findings"
  },
  {
   "property": "C100",
   "status": "proved",
   "theorems": [
    "Ssh.C100_injective",
    "Ssh.C100_line",
    "Ssh.C100_fido",
    "Ssh.C100_fido_pin",
    "Ssh.C100_piv",
    "Ssh.C100_source"
   ],
   "note": "C100_fido is a finding"
  },
  {
   "property": "C101",
   "status": "proved",
   "theorems": [
    "Ssh.C101_text",
    "Ssh.C101_other",
    "Ssh.C101_written"
   ],
   "note": "the file system is an arbitrary function of paths; paths are strings"
  },
  {
   "property": "C102",
   "status": "proved",
   "theorems": [
    "Ssh.C102_public",
    "Ssh.C102_certificate",
    "Ssh.C102_private",
    "Ssh.C102_signature",
    "Ssh.C102_allowed"
   ],
   "note": "cuts at any byte; armored signatures at any character (there is no from_path for them)"
  },
  {
   "property": "C103",
   "status": "proved",
   "theorems": [
    "Ssh.C103_concat",
    "Ssh.C103_errors",
    "Ssh.C103_lost"
   ],
   "note": "C103_lost is a finding"
  },
  {
   "property": "C104",
   "status": "proved",
   "theorems": [
    "Ssh.C104_routed",
    "Ssh.C104_answer",
    "Ssh.C104_list",
    "Ssh.C104_pin",
    "Ssh.C104_generate_error"
   ],
   "note": "crate ctap-hid-fido2 is arbitrary functions; the state of devices is visible only through answers"
  },
  {
   "property": "C105",
   "status": "proved",
   "theorems": [
    "Ssh.C105_outcome",
    "Ssh.C105_utils",
    "Ssh.C105_panics",
    "Ssh.C105_printed"
   ],
   "note": "crate authenticator is an arbitrary function; a request that is never answered is not modelled"
  },
  {
   "property": "C106",
   "status": "proved",
   "theorems": [
    "Ssh.C106_key",
    "Ssh.C106_certificate",
    "Ssh.C106_signature",
    "Ssh.C106_private",
    "Ssh.C106_exponents"
   ],
   "note": "sizes in bytes; C106_exponents for the two computed fields"
  },
  {
   "property": "C107",
   "status": "proved",
   "theorems": [
    "Ssh.C107_not_enforced",
    "Ssh.C107_expired",
    "Ssh.C107_default_interval"
   ],
   "note": "findings"
  },
  {
   "property": "C108",
   "status": "proved",
   "theorems": [
    "Ssh.C108_ca_type",
    "Ssh.C108_certificate_as_ca",
    "Ssh.C108_self_signed"
   ],
   "note": "C108_certificate_as_ca and C108_self_signed are findings"
  },
  {
   "property": "C109",
   "status": "proved",
   "theorems": [
    "Ssh.C109_sha1",
    "Ssh.C109_label_selects",
    "Ssh.C109_signs_sha512",
    "Ssh.C109_p521_label",
    "Ssh.C109_p521_key",
    "Ssh.C109_p521_private"
   ],
   "note": "C109_sha1 and C109_p521 are findings; digest and signature functions arbitrary"
  },
  {
   "property": "C110",
   "status": "proved",
   "theorems": [
    "Ssh.C110_utc",
    "Ssh.C110_order",
    "Ssh.C110_midnight",
    "Ssh.C110_leap"
   ],
   "note": "under the contract Calendar and Offsets on the time library (Spec/Calendar.lean), which plainChrono satisfies"
  },
  {
   "property": "C111",
   "status": "proved",
   "theorems": [
    "Ssh.C111_bound",
    "Ssh.C111_exception"
   ],
   "note": "finding; under the same contract"
  },
  {
   "property": "C112",
   "status": "proved",
   "theorems": [
    "Ssh.C112_bits",
    "Ssh.C112_patch",
    "Ssh.C112_comment",
    "Ssh.C112_secret"
   ],
   "note": "findings; bcrypt and AES are arbitrary functions, the only fact used is that encryption is exclusive or with a key stream"
  },
  {
   "property": "C113",
   "status": "proved",
   "theorems": [
    "Ssh.C113_printed",
    "Ssh.C113_prints",
    "Ssh.C113_certificate_file"
   ],
   "note": "partly a finding; signatures shorter than 4 GiB, signing primitives that accept what they sign for C113_prints"
  },
  {
   "property": "C114",
   "status": "proved",
   "theorems": [
    "Ssh.C114_printed",
    "Ssh.C114_empty"
   ],
   "note": "partly a finding; signatures and namespace shorter than 4 GiB"
  },
  {
   "property": "C115",
   "status": "proved",
   "theorems": [
    "Ssh.C115_lines",
    "Ssh.C115_listed",
    "Ssh.C115_info",
    "Ssh.C115_keys",
    "Ssh.C115_ignored"
   ],
   "note": "partly a finding"
  },
  {
   "property": "C116",
   "status": "proved",
   "theorems": [
    "Ssh.C116_private",
    "Ssh.C116_no_secret",
    "Ssh.C116_public"
   ],
   "note": "partly a finding (length 256)"
  },
  {
   "property": "C117",
   "status": "proved",
   "theorems": [
    "Ssh.C117_accepts",
    "Ssh.C117_panics",
    "Ssh.C117_refuses",
    "Ssh.C117_validator"
   ],
   "note": "partly a finding; which numbers are slots is an arbitrary function (crate yubikey)"
  },
  {
   "property": "C118",
   "status": "proved",
   "theorems": [
    "Ssh.C118_printed"
   ],
   "note": "the token is an arbitrary state machine; keys and signatures shorter than 4 GiB"
  },
  {
   "property": "C119",
   "status": "proved",
   "theorems": [
    "Ssh.C119_provision",
    "Ssh.C119_fingerprint",
    "Ssh.C119_fingerprint_reads"
   ],
   "note": ""
  },
  {
   "property": "C120",
   "status": "proved",
   "theorems": [
    "Ssh.C120_into",
    "Ssh.C120_fido",
    "Ssh.C120_fido_failure"
   ],
   "note": "keys shorter than 4 GiB"
  },
  {
   "property": "C121",
   "status": "proved",
   "theorems": [
    "Ssh.C121_white",
    "Ssh.C121_words",
    "Ssh.C121_lines",
    "Ssh.C121_unique",
    "Ssh.C121_trim",
    "Ssh.C121_split",
    "Ssh.C121_split_once",
    "Ssh.C121_get",
    "Ssh.C121_insert"
   ],
   "note": "standard library functions as modelled in Model/Text.lean and Model/Writer.lean"
  },
  {
   "property": "C122",
   "status": "proved",
   "theorems": [
    "Ssh.C122_public",
    "Ssh.C122_signature",
    "Ssh.C122_private",
    "Ssh.C122_bare",
    "Ssh.C122_certificate"
   ],
   "note": ""
  },
  {
   "property": "C123",
   "status": "proved",
   "theorems": [
    "Ssh.C123_public",
    "Ssh.C123_public_text",
    "Ssh.C123_verify",
    "Ssh.C123_certificate",
    "Ssh.C123_certificate_text",
    "Ssh.C123_signature",
    "Ssh.C123_private",
    "Ssh.C123_passphrase",
    "Ssh.C123_line",
    "Ssh.C123_line_each",
    "Ssh.C123_blank",
    "Ssh.C123_file",
    "Ssh.C123_type_name",
    "Ssh.C123_x509",
    "Ssh.C123_csr",
    "Ssh.C123_der",
    "Ssh.C123_authData",
    "Ssh.C123_attestation",
    "Ssh.C123_piv",
    "Ssh.C123_ssh_signature"
   ],
   "note": "partly a finding; variants without the texts of other libraries"
  },
  {
   "property": "C124",
   "status": "proved",
   "theorems": [
    "Ssh.C124_returns",
    "Ssh.C124_deterministic",
    "Ssh.C124_never",
    "Ssh.C124_key"
   ],
   "note": "partly a finding; the service is an arbitrary function of the request"
  },
  {
   "property": "C125",
   "status": "proved",
   "theorems": [
    "Ssh.C125_one_call",
    "Ssh.C125_refused",
    "Ssh.C125_rounds"
   ],
   "note": "partly a finding; files with a non-empty private section, the key derivation is an arbitrary function"
  },
  {
   "property": "C126",
   "status": "proved",
   "theorems": [
    "Ssh.C126_authData",
    "Ssh.C126_one_reason",
    "Ssh.C126_attestation",
    "Ssh.C126_ctap",
    "Ssh.C126_mozilla",
    "Ssh.C126_cut"
   ],
   "note": "the X.509 library is an arbitrary structure of functions"
  },
  {
   "property": "C127",
   "status": "proved",
   "theorems": [
    "Ssh.C127_key",
    "Ssh.C127_verify",
    "Ssh.C127_certificate",
    "Ssh.C127_signature",
    "Ssh.C127_bare",
    "Ssh.C127_private",
    "Ssh.C127_key_text",
    "Ssh.C127_certificate_text",
    "Ssh.C127_signature_text",
    "Ssh.C127_private_text",
    "Ssh.C127_key_verdict",
    "Ssh.C127_verify_verdict",
    "Ssh.C127_certificate_verdict",
    "Ssh.C127_signature_verdict",
    "Ssh.C127_private_verdict",
    "Ssh.C127_bare_verdict",
    "Ssh.C127_key_text_verdict",
    "Ssh.C127_certificate_text_verdict",
    "Ssh.C127_signature_text_verdict",
    "Ssh.C127_private_text_verdict"
   ],
   "note": "cryptographic functions are arbitrary"
  },
  {
   "property": "C128",
   "status": "proved",
   "theorems": [
    "Ssh.C128_line",
    "Ssh.C128_file",
    "Ssh.C128_one",
    "Ssh.C128_either",
    "Ssh.C128_final_quote"
   ],
   "note": "partly a finding; the calendar is an arbitrary structure of functions"
  },
  {
   "property": "C129",
   "status": "proved",
   "theorems": [
    "Ssh.C129_certificate",
    "Ssh.C129_csr",
    "Ssh.C129_der",
    "Ssh.C129_attestation"
   ],
   "note": "the X.509 library is an arbitrary structure of functions"
  },
  {
   "property": "C130",
   "status": "proved",
   "theorems": [
    "Ssh.C130_dialogs",
    "Ssh.C130_happens",
    "Ssh.C130_csr_panics",
    "Ssh.C130_no_panic"
   ],
   "note": "partly a finding; the token is an arbitrary state machine, the X.509 and request libraries are arbitrary functions"
  },
  {
   "property": "C131",
   "status": "proved",
   "theorems": [
    "Ssh.C131_writer",
    "Ssh.C131_key",
    "Ssh.C131_key_text",
    "Ssh.C131_tbs",
    "Ssh.C131_cert_text",
    "Ssh.C131_cert_shown",
    "Ssh.C131_signature",
    "Ssh.C131_private",
    "Ssh.C131_private_shown",
    "Ssh.C131_signer"
   ],
   "note": "cryptographic functions are arbitrary; the certificate's type is one of the table"
  },
  {
   "property": "C132",
   "status": "proved",
   "theorems": [
    "Ssh.C132_exact"
   ],
   "note": "cryptographic functions and FIDO devices are arbitrary"
  },
  {
   "property": "C133",
   "status": "proved",
   "theorems": [
    "Ssh.C133_builder",
    "Ssh.C133_add_signature",
    "Ssh.C133_sign",
    "Ssh.C133_signature"
   ],
   "note": "cryptographic functions, FIDO devices and signers are arbitrary; the certificate's type is one of the table"
  },
  {
   "property": "C134",
   "status": "proved",
   "theorems": [
    "Ssh.C134_values",
    "Ssh.C134_raw",
    "Ssh.C134_cursor",
    "Ssh.C134_offset"
   ],
   "note": ""
  },
  {
   "property": "C135",
   "status": "proved",
   "theorems": [
    "Ssh.C135_sign_cert",
    "Ssh.C135_sign_file",
    "Ssh.C135_sign_yubikey",
    "Ssh.C135_cert_info",
    "Ssh.C135_pkey_info",
    "Ssh.C135_pubkey_info",
    "Ssh.C135_into",
    "Ssh.C135_fido",
    "Ssh.C135_fido_error"
   ],
   "note": ""
  },
  {
   "property": "C136",
   "status": "proved",
   "theorems": [
    "Ssh.C136_texts"
   ],
   "note": ""
  },
  {
   "property": "C137",
   "status": "proved",
   "theorems": [
    "Ssh.C137_generate"
   ],
   "note": ""
  },
  {
   "property": "C138",
   "status": "proved",
   "theorems": [
    "Ssh.C138_provision",
    "Ssh.C138_fingerprint"
   ],
   "note": ""
  },
  {
   "property": "C139",
   "status": "proved",
   "theorems": [
    "Ssh.C139_certificate_assertion",
    "Ssh.C139_certificate_message",
    "Ssh.C139_message_assertion",
    "Ssh.C139_collision",
    "Ssh.C139_certificate",
    "Ssh.C139_message",
    "Ssh.C139_assertion"
   ],
   "note": ""
  },
  {
   "property": "C140",
   "status": "proved",
   "theorems": [
    "Ssh.C140_reader",
    "Ssh.C140_mpint",
    "Ssh.C140_vec",
    "Ssh.C140_map",
    "Ssh.C140_bits",
    "Ssh.C140_der",
    "Ssh.C140_cose"
   ],
   "note": ""
  },
  {
   "property": "C141",
   "status": "proved",
   "theorems": [
    "Ssh.C141_line",
    "Ssh.C141_tokens"
   ],
   "note": ""
  },
  {
   "property": "C142",
   "status": "proved",
   "theorems": [
    "Ssh.C142_private",
    "Ssh.C142_secret",
    "Ssh.C142_pin",
    "Ssh.C142_fido",
    "Ssh.C142_public",
    "Ssh.C142_yubikey"
   ],
   "note": ""
  },
  {
   "property": "C143",
   "status": "proved",
   "theorems": [
    "Ssh.C143_message",
    "Ssh.C143_certificate",
    "Ssh.C143_hardware",
    "Ssh.C143_hardware_message"
   ],
   "note": ""
  },
  {
   "property": "C144",
   "status": "proved",
   "theorems": [
    "Ssh.C144_one_line",
    "Ssh.C144_listing",
    "Ssh.C144_injected",
    "Ssh.C144_written",
    "Ssh.C144_file",
    "Ssh.C144_rewrite",
    "Ssh.C144_becomes_authority",
    "Ssh.C144_becomes_two"
   ],
   "note": ""
  },
  {
   "property": "C145",
   "status": "proved",
   "theorems": [
    "Ssh.C145_crt",
    "Ssh.C145_signs",
    "Ssh.C145_sshsig"
   ],
   "note": ""
  },
  {
   "property": "C146",
   "status": "proved",
   "theorems": [
    "Ssh.C146_ecdsa",
    "Ssh.C146_ed25519",
    "Ssh.C146_sshsig_ecdsa",
    "Ssh.C146_sshsig_ed25519",
    "Ssh.C146_generated",
    "Ssh.C146_hardware"
   ],
   "note": ""
  },
  {
   "property": "C147",
   "status": "proved",
   "theorems": [
    "Ssh.C147_issued",
    "Ssh.C147_built",
    "Ssh.C147_mismatch_ecdsa",
    "Ssh.C147_mismatch_ed25519"
   ],
   "note": ""
  },
  {
   "property": "C148",
   "status": "proved",
   "theorems": [
    "Ssh.C148_message",
    "Ssh.C148_certificate",
    "Ssh.C148_read",
    "Ssh.C148_wrong"
   ],
   "note": ""
  },
  {
   "property": "C149",
   "status": "proved",
   "theorems": [
    "Ssh.C149_issues",
    "Ssh.C149_signs",
    "Ssh.C149_chain",
    "Ssh.C149_allowed",
    "Ssh.C149_wrong"
   ],
   "note": ""
  },
  {
   "property": "C150",
   "status": "proved",
   "theorems": [
    "Ssh.C150_every",
    "Ssh.C150_every_certificate",
    "Ssh.C150_ecdsa",
    "Ssh.C150_blob",
    "Ssh.C150_certificate",
    "Ssh.C150_sshsig",
    "Ssh.C150_rsa",
    "Ssh.C150_ed25519",
    "Ssh.C150_p256",
    "Ssh.C150_p384"
   ],
   "note": ""
  },
  {
   "property": "C151",
   "status": "proved",
   "theorems": [
    "Ssh.C151_ecdsa",
    "Ssh.C151_sshsig",
    "Ssh.C151_weak",
    "Ssh.C151_weak_certificate",
    "Ssh.C151_weak_sshsig",
    "Ssh.C151_seeds",
    "Ssh.C151_ed25519",
    "Ssh.C151_rsa",
    "Ssh.C151_p256",
    "Ssh.C151_p384"
   ],
   "note": ""
  },
  {
   "property": "C152",
   "status": "proved",
   "theorems": [
    "Ssh.C152_ecdsa",
    "Ssh.C152_sshsig",
    "Ssh.C152_ed25519",
    "Ssh.C152_p256",
    "Ssh.C152_p384"
   ],
   "note": ""
  },
  {
   "property": "C153",
   "status": "proved",
   "theorems": [
    "Ssh.C153_opens",
    "Ssh.C153_refused",
    "Ssh.C153_sizes"
   ],
   "note": ""
  },
  {
   "property": "C154",
   "status": "proved",
   "theorems": [
    "Ssh.C154_exact",
    "Ssh.C154_device",
    "Ssh.C154_second",
    "Ssh.C154_p256",
    "Ssh.C154_second_p256"
   ],
   "note": ""
  },
  {
   "property": "C155",
   "status": "proved",
   "theorems": [
    "Ssh.C155_point",
    "Ssh.C155_p256",
    "Ssh.C155_p384",
    "Ssh.C155_exact"
   ],
   "note": ""
  },
  {
   "property": "C156",
   "status": "proved",
   "theorems": [
    "Ssh.C156_der",
    "Ssh.C156_certificate",
    "Ssh.C156_csr",
    "Ssh.C156_program",
    "Ssh.C156_chain",
    "Ssh.C156_fido"
   ],
   "note": ""
  },
  {
   "property": "C157",
   "status": "proved",
   "theorems": [
    "Ssh.C157_key",
    "Ssh.C157_signs",
    "Ssh.C157_always",
    "Ssh.C157_certificate",
    "Ssh.C157_csr"
   ],
   "note": ""
  },
  {
   "property": "C158",
   "status": "proved",
   "theorems": [
    "Ssh.C158_signature",
    "Ssh.C158_rsa",
    "Ssh.C158_ecdsa",
    "Ssh.C158_exact",
    "Ssh.C158_plain",
    "Ssh.C158_forged",
    "Ssh.C158_attestation",
    "Ssh.C158_refused",
    "Ssh.C158_device"
   ],
   "note": ""
  }
 ]
}