C01 proved
  note: read_bytes accepts exactly a framed value at the cursor (iff); round trip with write_bytes in any context.
C02 proved
  note: induction over arbitrary sequences of calls; returned values are parts of the buffer.
C03 proved
  note: also characterises what read_string / read_positive_mpint consumed when they fail after a well-framed value.
C04 proved
  note: iff characterisation, exact failure condition, round trip.
C05 proved
  note: value and shortest form preserved for every byte string.
C06 proved
  note: iff with the RFC 4251 grammar, re-encoding equality, explicit rejections.
C07 proved
  note: iff with framed UTF-8; error for invalid UTF-8; round trip.
C08 proved
  note: iff, exact failure condition, round trip for ASCII without NUL (write_cstring writes UTF-8, read_cstring decodes Latin-1, so non-ASCII does not round trip).
C09 proved
  note: round trip for every list; iff grammar; totality of the loop.
C10 proved
  note: quantified over every iteration order (permutation) of the map.
C11 proved
  note: iff with the pair grammar, last occurrence wins, grammar unambiguous.
C12 proved
  note: negative finding about the library (no error is reported); exact description of what is read back.
C13 proved
  note: every string; the 16-row table is settled by kernel evaluation, the rest by the characterisation of from_name.
C14 proved
  note: for every well-formed key and any bytes following it.
C15 proved
  note: iff with the wire grammar KeyBlob; no panic; re-encoding; unambiguity of the grammar.
C16 proved
  note: round trip for plain-typed keys with a one-word comment and for every parsed plain-typed key; findings - multi-word comments are cut (witness) and keys of non-plain types (rsa-sha2-*, certificates) print text the parser rejects (all such keys).
C17 proved
  note: iff characterisation of from_string.
C18 proved
  note: injective and prefix-free.
C19 proved
  note: any digest functions; collision-freeness is a hypothesis about the two encodings only.
C69 proved
  note: model of the base64 crate's standard engine as used by the library.
C21 proved
  note: iff with the specification Accepts; primitives arbitrary; no panic.
C22 proved
  note: the message passed to the primitive, its unambiguity (SHA-256 of length 32 as hypothesis); finding - the user-presence flag is not required.
C23 proved
  note: values preserved at width 32 or 48, longer integers rejected.
C24 proved
  note: family of label and key agree; finding - within ECDSA the label, not the curve of the key, selects the algorithm.
C25 proved
  note: soundness with the certificate grammar, completeness and totality.
C26 proved
  note: for any continuation of the signed part, even under different primitives.
C27 proved
  note: hypotheses are that keys are well-formed (what every parser returns), field sizes below 2^32 and argument maps without duplicate names (they are HashMaps); iteration order is any permutation.
C28 proved
  note: iff for add_signature and sign.
C29 proved
  note: reduction with the primitives as an oracle; for hardware CA keys collision-freeness of SHA-256 with signed messages is a hypothesis.
C30 proved
  note: keys compared by type and material.
C31 proved
  note: round trip for every accepted input, exact characterisation of from_string, totality.
C32 proved
  note: both rejections with the exact error; type of the returned certificate.
C33 proved
  note: every sequence of calls.
C34 proved
  note: every accepted input and suffix.
C35 proved
  note: iff; reduction to unforgeability; finding - the expected key is compared with its comment, so an expected key with a comment never matches a parsed signature.
C36 proved
  note: sizes below 2^32; certificates whose key type is one of the supported types (every KeyType the library can produce).
C37 proved
  note: any key type; the comment of the key is not stored; also the line width.
C38 proved
  note: iff with the grammar, totality, and the reserved field is ignored.
C39 proved
  note: hypotheses - the primitives accept what they sign, ECDSA signatures are DER, private and public half of the same type. Soundness holds without hypotheses.
C49 proved
  note: exact characterisation of the panics (also for hardware keys); finding - secrets shorter than 32 bytes panic.
C50 proved
  note: exact characterisation; a part of the input is returned.
C51 proved
  note: software and hardware key types, both curves.
C40 proved
  note: all five kinds; the only size hypotheses are field sizes and a total below 4 GiB.
C41 proved
  note: text round trip for every well-formed key and any passphrase; also the line width.
C42 proved
  note: canonical files re-encode byte for byte, and what is written is canonical.
C43 proved
  note: for every key that can be encoded, well-formed or not.
C44 proved
  note: iff with the grammar of key files, plus rejection of differing check integers and public keys. Ignored bytes are part of the grammar.
C45 proved
  note: exact error for well-framed files with a non-empty private section; no key in any case.
C46 proved
  note: equality of the whole result, for arbitrary KDF and key stream.
C47 partial
  note: as stated the property is false; the panics are characterised exactly (RSA with p or q equal to 0 or 1 under rsa-signing), a panicking text is exhibited, and without rsa-signing no input panics.
C48 proved
  note: with and without the rsa-signing feature.
C52 proved
  note: every line and time zone.
C53 proved
  note: every line and time zone.
C54 proved
  note: the words of a line are defined by the grammar in Spec/AllowedSigner; any letter case.
C55 proved
  note: iff with the grammar of lines; finding - a line that ends with a double quote is rejected whatever it says.
C56 partial
  note: as stated the property is false. C56_exact says exactly (iff) which entries read back from their text, for every entry that can be printed - principals and namespaces that need no quoting (words are printed without quotes), bounds whose decimal text happens to be a date meaning the same time, a key of plain type without comment. C56_bounds - with a bound whose decimal text is not 8, 12 or 14 characters long the text is never accepted. C56_calendar - with a calendar that satisfies the contract of a time library, an entry reads back from its text exactly if it has no bounds, its words need no quoting and its key has a plain type.
C57 partial
  note: as stated the property is false; proved for comments that do not end with a double quote, iff for comments without quotes, and a comment ending with a quote makes every line invalid (C57_quoted).
C58 proved
  note: exact result for success, error and panic; line numbers start at 0.
C59 proved
  note: exact characterisation of the panics; finding - a local time that the time zone skips or repeats panics.
C60 proved
  note: iff; date parsing and the time zone are parameters.
C20 proved
  note: for public keys, certificates, SSHSIG signatures, private keys and allowed signers that come out of a parser, for the SSH key of parsed authenticator data, and for keys from X.509.
C61 proved
  note: iff with the layout of authenticator data and COSE maps; bytes after the key are ignored.
C62 proved
  note: any order of map entries; finding - for EC2 keys the other coordinate is dropped, so different keys collide.
C63 proved
  note: iff; X.509 parsing and the signature checks are parameters.
C64 proved
  note: both directions of moving bytes; a finding about the code.
C70 proved
  note: iff for both backends, starting from the answer of the device.
C71 proved
  note: a finding about the code.
C72 proved
  note: every flags byte.
C73 proved
  note: for Ed25519 and for ECDSA credentials.
C65 proved
  note: iff for success and for the panics (a finding: unreadable root, short policy extension); X.509 parsing and signature checks are arbitrary functions.
C66 proved
  note: iff for the three extractions.
C67 proved
  note: for an arbitrary, stateful token; finding - the slot is read three times, and the label comes from the last reading (C67_race).
C74 proved
  note: arbitrary token.
C75 proved
  note: arbitrary token; that the key returned is the one generated, for a token that stores what it is given.
C76 proved
  note: arbitrary token; finding - panics characterised.
C77 proved
  note: for a token whose slot does not change and which signs correctly.
C78 proved
  note: arbitrary token.
C68 proved
  note: every schedule; finding - the call never returns if registration fails without a PIN status.
C79 proved
  note: sizes of RSA (rounded up to bytes), ECDSA and Ed25519 keys
C80 proved
  note: exact characterisation of new, panics, file round trip, signing; C80_not_openssh is a finding about the secret field
C81 proved
  note: both backends; the device is an arbitrary function, that its assertion verifies is a hypothesis
C82 proved
  note: C82_short shows that keys with a short secret cannot sign if the primitive insists on full width (hypothesis about the primitive)
C83 proved
  note: DER encoding modelled after simple_asn1 and num-bigint (not in the repository); C83_unique for keys below 2^64 bytes
C84 proved
  note: raw bytes must be non-empty (the reader refuses a read at the end of the buffer, even of no bytes)
C85 proved
  note: findings, proved with exact conditions per key family
C86 proved
  note: C86_accepted_labels lists the accepted foreign labels
C87 proved
  note: finding
C88 proved
  note: signing success is a hypothesis of C88_reissue; C88_serialises says it depends on the signer alone
C89 proved
  note: C89_display_not_accepted is a finding
C90 proved
  note: the list of default extensions is written down from OpenSSH's documentation
C91 proved
  note: findings; the iteration order of a HashMap is arbitrary in the model
C92 proved
  note: C92_extension_values_hidden and C92_principal_line_break are findings
C93 proved
  note: C93_written_in_clear is a finding
C94 proved
  note: the device is an arbitrary function; C94_mozilla_ignores_path is a finding
C95 proved
  note: about the values in the fields of the key; memory freed earlier (moved or reallocated buffers) is not modelled
C96 proved
  note: digest functions arbitrary
C97 proved
  note: C97_unrelated_secret is a finding
C98 proved
  note: iff for success and for panics
C99 proved
  note: findings
C100 proved
  note: C100_fido is a finding
C101 proved
  note: the file system is an arbitrary function of paths; paths are strings
C102 proved
  note: cuts at any byte; armored signatures at any character (there is no from_path for them)
C103 proved
  note: C103_lost is a finding
C104 proved
  note: crate ctap-hid-fido2 is arbitrary functions; the state of devices is visible only through answers
C105 proved
  note: crate authenticator is an arbitrary function; a request that is never answered is not modelled
C106 proved
  note: sizes in bytes; C106_exponents for the two computed fields
C107 proved
  note: findings
C108 proved
  note: C108_certificate_as_ca and C108_self_signed are findings
C109 proved
  note: C109_sha1 and C109_p521 are findings; digest and signature functions arbitrary
C110 proved
  note: under the contract Calendar and Offsets on the time library (Spec/Calendar.lean), which plainChrono satisfies
C111 proved
  note: finding; under the same contract
C112 proved
  note: findings; bcrypt and AES are arbitrary functions, the only fact used is that encryption is exclusive or with a key stream
C113 proved
  note: partly a finding; signatures shorter than 4 GiB, signing primitives that accept what they sign for C113_prints
C114 proved
  note: partly a finding; signatures and namespace shorter than 4 GiB
C115 proved
  note: partly a finding
C116 proved
  note: partly a finding (length 256)
C117 proved
  note: partly a finding; which numbers are slots is an arbitrary function (crate yubikey)
C118 proved
  note: the token is an arbitrary state machine; keys and signatures shorter than 4 GiB
C119 proved
C120 proved
  note: keys shorter than 4 GiB
C121 proved
  note: standard library functions as modelled in Model/Text.lean and Model/Writer.lean
C122 proved
C123 proved
  note: partly a finding; variants without the texts of other libraries
C124 proved
  note: partly a finding; the service is an arbitrary function of the request
C125 proved
  note: partly a finding; files with a non-empty private section, the key derivation is an arbitrary function
C126 proved
  note: the X.509 library is an arbitrary structure of functions
C127 proved
  note: cryptographic functions are arbitrary
C128 proved
  note: partly a finding; the calendar is an arbitrary structure of functions
C129 proved
  note: the X.509 library is an arbitrary structure of functions
C130 proved
  note: partly a finding; the token is an arbitrary state machine, the X.509 and request libraries are arbitrary functions
C131 proved
  note: cryptographic functions are arbitrary; the certificate's type is one of the table
C132 proved
  note: cryptographic functions and FIDO devices are arbitrary
C133 proved
  note: cryptographic functions, FIDO devices and signers are arbitrary; the certificate's type is one of the table
C134 proved
C135 proved
C136 proved
C137 proved
C138 proved
C139 proved
C140 proved
C141 proved
C142 proved
C143 proved
C144 proved
C145 proved
C146 proved
C147 proved
C148 proved
C149 proved
C150 proved
C151 proved
C152 proved
C153 proved
C154 proved
C155 proved
C156 proved
C157 proved
C158 proved
