{"id": "C01", "title": "Length-prefixed byte strings are framed exactly", "statement": "Reader::read_bytes, positioned anywhere in any buffer, succeeds with value b exactly when the bytes at the cursor are the 4-byte big-endian length of b followed by b; it then advances by exactly 4+len(b). Consequently reading back what Writer::write_bytes wrote (any value shorter than 2^32 bytes, any prefix, any suffix) returns that value and stops right behind it.", "quantifier": "every buffer, cursor position and byte string shorter than 2^32 bytes", "why_tests_cant": "unbounded buffers, offsets and payloads; both the accept and reject direction", "anchors": ["src/ssh/reader.rs:Reader::read_bytes", "src/ssh/writer.rs:Writer::write_bytes"]}
{"id": "C02", "title": "Reader is memory-safe and total", "statement": "No sequence of Reader calls (including set_offset to arbitrary positions) on any buffer panics or returns bytes that are not in the buffer; every successful sized read returns a contiguous slice of the buffer starting at the cursor and leaves the cursor inside the buffer. After set_offset, whatever came before, the cursor is where it was set and reads return the bytes there.", "quantifier": "every buffer and every finite sequence of Reader operations with arbitrary arguments", "why_tests_cant": "histories of operations with arbitrary offsets are unbounded", "anchors": ["src/ssh/reader.rs:Reader"]}
{"id": "C03", "title": "Failed reads do not lose the cursor", "statement": "When read_bytes, read_raw_bytes, read_u32, read_u64 or read_cstring fails, the cursor is where it was before the call. (read_string and read_positive_mpint advance past a well-framed but semantically invalid value.)", "quantifier": "every buffer and cursor", "why_tests_cant": "must hold at every failing input", "anchors": ["src/ssh/reader.rs:Reader"]}
{"id": "C04", "title": "Fixed-width integers are big-endian and lossless", "statement": "read_u32/read_u64 return exactly the big-endian value of the next 4/8 bytes, fail exactly when fewer remain, and invert write_u32/write_u64 for every value.", "quantifier": "every u32/u64 value, every buffer and cursor", "why_tests_cant": "2^64 values times all positions", "anchors": ["src/ssh/reader.rs:Reader::read_u32,read_u64", "src/ssh/writer.rs:Writer::write_u32,write_u64"]}
{"id": "C05", "title": "mpint writing preserves the number", "statement": "For every byte string v (big-endian magnitude, any number of leading zeros) shorter than 2^32-1 bytes, reading the mpint written by write_mpint(v) yields v without its leading zero bytes, i.e. the same natural number in its shortest form.", "quantifier": "every byte string", "why_tests_cant": "unbounded length, leading-zero and high-bit combinations", "anchors": ["src/ssh/writer.rs:Writer::write_mpint", "src/ssh/reader.rs:Reader::read_positive_mpint"]}
{"id": "C06", "title": "mpint reading is canonical", "statement": "read_positive_mpint accepts exactly the RFC 4251 encodings of non-negative integers: every accepted encoding is the one write_mpint would produce for the returned value; negative numbers, superfluous leading zeros and a lone zero byte are rejected.", "quantifier": "every buffer and cursor", "why_tests_cant": "needs the converse direction over all inputs", "anchors": ["src/ssh/reader.rs:Reader::read_positive_mpint"]}
{"id": "C07", "title": "Strings are exactly UTF-8", "statement": "read_string succeeds exactly on well-framed valid UTF-8 and returns the string whose UTF-8 encoding is the payload; it inverts write_string for every string shorter than 2^32 bytes.", "quantifier": "every buffer, cursor and string", "why_tests_cant": "all byte sequences", "anchors": ["src/ssh/reader.rs:Reader::read_string", "src/ssh/writer.rs:Writer::write_string"]}
{"id": "C08", "title": "NUL-terminated strings", "statement": "read_cstring returns the bytes before the first NUL (one char per byte) and moves just past the NUL; it inverts write_cstring for every ASCII string without NUL.", "quantifier": "every buffer, cursor and ASCII string", "why_tests_cant": "unbounded strings", "anchors": ["src/ssh/reader.rs:Reader::read_cstring", "src/ssh/writer.rs:Writer::write_cstring"]}
{"id": "C09", "title": "Principal lists survive encoding", "statement": "Parsing the principals field written for a list of principals yields the same list: same order, same multiplicity, same contents; and the field declares exactly the size of its contents.", "quantifier": "every list of strings with total encoded size below 2^32", "why_tests_cant": "lists of any length and content", "anchors": ["src/ssh/writer.rs:Writer::write_string_vec", "src/ssh/cert.rs:read_principals"]}
{"id": "C10", "title": "Option maps survive encoding in any iteration order", "statement": "For critical options and extensions, whatever order the hash map is iterated in while serialising, parsing gives back the same name-to-value map, and the declared size equals the size written.", "quantifier": "every string map, every iteration order, total encoded size below 2^32", "why_tests_cant": "hash iteration order is random per process; maps are unbounded", "anchors": ["src/ssh/writer.rs:Writer::write_string_map", "src/ssh/cert.rs:read_options"]}
{"id": "C11", "title": "Option parsing accepts exactly the documented grammar", "statement": "Parsing an option field succeeds exactly when it is a sequence of (name, data) string pairs in which every data is empty or itself starts with a string; the map binds each name to the value of its last occurrence.", "quantifier": "every byte string", "why_tests_cant": "both directions over all byte strings", "anchors": ["src/ssh/cert.rs:read_options"]}
{"id": "C12", "title": "Writer truncates silently at 2^32", "statement": "Length prefixes are taken modulo 2^32: writing a byte string of length >= 2^32 produces a prefix smaller than the payload, so what is read back is a strict prefix of the payload. (The library does not report an error.)", "quantifier": "every byte string of length >= 2^32", "why_tests_cant": "4 GiB inputs", "anchors": ["src/ssh/writer.rs:Writer::write_bytes"]}
{"id": "C13", "title": "Key type table is coherent", "statement": "A key type obtained by name reports that name; its plain name is a known non-certificate type of the same key family; the certificate name derived from it is a known certificate type whose plain name is the same; unknown names are rejected.", "quantifier": "every string", "why_tests_cant": "all strings, not only the table", "anchors": ["src/ssh/keytype.rs:KeyType::from_name,as_cert_name,as_pubkey_name"]}
{"id": "C14", "title": "Public key encode/decode round trip", "statement": "For every well-formed public key, PublicKey::from_bytes(encode(k)) returns the same key material, with the plain key type and no comment.", "quantifier": "every well-formed public key of any kind with fields below 2^32 bytes", "why_tests_cant": "unbounded key fields, all kinds", "anchors": ["src/ssh/pubkey.rs:PublicKey::encode,from_bytes", "src/ssh/writer.rs:write_pub_key_data"]}
{"id": "C15", "title": "Public key decoding accepts exactly the wire format", "statement": "PublicKey::from_bytes succeeds with k exactly when the input starts with the SSH wire encoding of k (type name, then the fields of that type); re-encoding a key parsed under a plain type name reproduces the accepted bytes.", "quantifier": "every byte string", "why_tests_cant": "converse direction over all byte strings", "anchors": ["src/ssh/pubkey.rs:PublicKey::from_bytes,from_reader"]}
{"id": "C16", "title": "Public key text round trip", "statement": "Printing a parsed plain-typed public key (Display or write) and parsing the text again gives an equal key; a comment survives when it is a non-empty whitespace-free word.", "quantifier": "every well-formed key and comment word", "why_tests_cant": "all keys and comments, through base64 and whitespace splitting", "anchors": ["src/ssh/pubkey.rs:PublicKey::from_string,write,Display"]}
{"id": "C17", "title": "Public key label must match its contents", "statement": "PublicKey::from_string never returns a key unless the textual type label equals the type name inside the decoded blob, and the returned key has that type.", "quantifier": "every input string", "why_tests_cant": "all strings", "anchors": ["src/ssh/pubkey.rs:PublicKey::from_string"]}
{"id": "C18", "title": "Encoding is injective", "statement": "Two well-formed public keys with the same encoding have the same plain type and the same key material; no two different keys share a wire form.", "quantifier": "every pair of well-formed keys", "why_tests_cant": "pairs of unbounded inputs", "anchors": ["src/ssh/pubkey.rs:PublicKey::encode"]}
{"id": "C19", "title": "Fingerprints depend only on and determine the digest of the key", "statement": "The fingerprint text is the unpadded base64 of the chosen digest of the encoding; it ignores the comment; equal fingerprints of the same kind imply equal digests; hence with a collision-free digest equal fingerprints imply the same key.", "quantifier": "every pair of keys, every digest", "why_tests_cant": "pairs of keys; needs injectivity of base64 with padding removed", "anchors": ["src/ssh/pubkey.rs:Fingerprint::compute,PublicKey::fingerprint_with"]}
{"id": "C20", "title": "Serialising a parsed key never panics", "statement": "Encoding, printing, fingerprinting or embedding in a certificate any public key returned by a parser of this crate never hits the missing-application unwrap.", "quantifier": "every key obtained from any parser", "why_tests_cant": "reachability over all parser inputs", "anchors": ["src/ssh/pubkey.rs:encode", "src/ssh/writer.rs:write_pub_key_data"]}
{"id": "C21", "title": "Signature acceptance is exactly one primitive check", "statement": "A signature blob is accepted for a message and key exactly when its algorithm label is one allowed for the key's family and the cryptographic primitive selected by that label accepts the signature for that key and the prescribed message; nothing else is ever accepted.", "quantifier": "every blob, message and key, every behaviour of the primitives", "why_tests_cant": "all blobs, both directions", "anchors": ["src/ssh/signature.rs:verify_signature"]}
{"id": "C22", "title": "Hardware-key signatures bind application, flags and counter", "statement": "For keys with an application string the primitive is invoked on SHA256(application) || flags || counter || SHA256(message) with flags and counter taken from the blob; two accepted presentations of the same primitive message must agree on flags, counter and both hashes.", "quantifier": "every blob, message, application", "why_tests_cant": "all values of flags/counter/application", "anchors": ["src/ssh/signature.rs:verify_signature"]}
{"id": "C23", "title": "ECDSA integers are passed at fixed width", "statement": "For ECDSA the primitive receives exactly 2*len bytes (32 or 48 each) holding the same two integers r and s as the blob; longer integers are rejected and no length arithmetic can underflow.", "quantifier": "every r, s in the blob", "why_tests_cant": "all lengths of r and s", "anchors": ["src/ssh/signature.rs:verify_signature"]}
{"id": "C24", "title": "Key family confusion is rejected", "statement": "A signature whose label belongs to a different key family than the public key is always rejected, whatever the primitive would say; labels of certificate types are never accepted.", "quantifier": "every blob, key and primitive behaviour", "why_tests_cant": "all combinations", "anchors": ["src/ssh/signature.rs:verify_signature"]}
{"id": "C25", "title": "A parsed certificate is signed by its CA key", "statement": "If Certificate::from_bytes returns a certificate then the input consists of a signed part, the length-prefixed signature and possibly trailing bytes, and the signature was accepted for exactly the signed part under the CA key contained in it.", "quantifier": "every byte string and primitive behaviour", "why_tests_cant": "all inputs, incl. adversarial", "anchors": ["src/ssh/cert.rs:Certificate::from_bytes"]}
{"id": "C26", "title": "Every certificate field is authenticated", "statement": "All semantic fields of a parsed certificate (type, nonce, key, serial, role, id, principals, validity, options, extensions, reserved, CA key) are determined by the signed bytes alone: two accepted inputs with the same signed part give the same fields.", "quantifier": "every pair of accepted inputs", "why_tests_cant": "pairs of adversarial inputs", "anchors": ["src/ssh/cert.rs:Certificate::from_bytes"]}
{"id": "C27", "title": "Signed certificates parse back to what was built", "statement": "A certificate built from a well-formed key and CA key, filled in by any sequence of builder calls and successfully signed, serialises to bytes that parse to the same key, serial, role, id, principals, validity, option maps, CA key and signature (for any hash iteration order); the reserved field comes back empty.", "quantifier": "every builder call sequence, key, CA key, signer and map order", "why_tests_cant": "unbounded builder histories and contents", "anchors": ["src/ssh/cert.rs:Certificate::builder,sign,add_signature,from_bytes,tbs_certificate"]}
{"id": "C28", "title": "Certificates cannot be given a signature that does not verify", "statement": "add_signature and sign return a certificate only if the signature is accepted for its to-be-signed bytes under its CA key; on success the serialised form is the to-be-signed bytes followed by the framed signature.", "quantifier": "every certificate, signature and signer", "why_tests_cant": "all signers, incl. wrong or malicious", "anchors": ["src/ssh/cert.rs:add_signature,sign"]}
{"id": "C29", "title": "Unforgeability reduces to the primitive", "statement": "Unless the signature presented is a forgery (one the primitive accepts under the CA key for a message the CA did not sign) or, for a hardware CA, the input collides with a signed message under SHA-256, every accepted certificate carrying that CA key has exactly the field values of some to-be-signed certificate the CA signed.", "quantifier": "every set of signed messages and every accepted input", "why_tests_cant": "universally quantified attacker", "anchors": ["src/ssh/cert.rs:Certificate::from_bytes", "src/ssh/signature.rs:verify_signature"]}
{"id": "C30", "title": "To-be-signed encoding is unambiguous", "statement": "Two well-formed certificates with identical to-be-signed bytes agree on every field that parsing returns (options as maps).", "quantifier": "every pair of well-formed certificates", "why_tests_cant": "pairs of unbounded structures", "anchors": ["src/ssh/cert.rs:tbs_certificate"]}
{"id": "C31", "title": "Certificate text round trip", "statement": "Printing a certificate obtained from from_bytes and parsing the text gives the same certificate, except that the comment becomes the first word of the key id.", "quantifier": "every certificate accepted by from_bytes", "why_tests_cant": "all certificates and key ids (incl. whitespace)", "anchors": ["src/ssh/cert.rs:Certificate::from_string,Display"]}
{"id": "C32", "title": "Only certificates of known role are accepted", "statement": "from_bytes rejects every non-certificate key type with NotCertificate and every role other than 1 (user) or 2 (host) with InvalidCertType carrying the value; a returned certificate always has a certificate key type.", "quantifier": "every byte string", "why_tests_cant": "all inputs and all 2^32 roles", "anchors": ["src/ssh/cert.rs:Certificate::from_bytes"]}
{"id": "C33", "title": "Builder totality and last-write-wins", "statement": "Certificate::builder succeeds for every key whose type came from the table (given randomness), producing a 32-byte nonce; after any sequence of setter calls each scalar field equals the last value set, principals are the last set list plus later additions in order, and options map each name to the last value given.", "quantifier": "every sequence of builder calls", "why_tests_cant": "unbounded call histories", "anchors": ["src/ssh/cert.rs:builder,serial,key_id,principal,set_principals,critical_option,set_critical_options,extension,set_extensions"]}
{"id": "C34", "title": "Bytes after the signature are ignored", "statement": "Appending arbitrary bytes to an accepted certificate leaves it accepted with the same fields and signature (only the stored serialised form changes).", "quantifier": "every accepted input and suffix", "why_tests_cant": "all suffixes", "anchors": ["src/ssh/cert.rs:Certificate::from_bytes"]}
{"id": "C35", "title": "Verified SSH signatures are bound to namespace, key and message", "statement": "from_ssh_signature succeeds exactly when the requested namespace equals the signature's, the expected key (if given) equals the embedded key, and the embedded signature is accepted for the SSHSIG-framed digest of the message; the result records that message.", "quantifier": "every message, signature, namespace, expected key", "why_tests_cant": "all inputs and primitive behaviours", "anchors": ["src/ssh/signature.rs:VerifiedSshSignature::from_ssh_signature,to_signed_format"]}
{"id": "C36", "title": "SSHSIG signed data is domain separated", "statement": "The bytes signed for (namespace, hash, message) determine the namespace, the hash algorithm and the message digest; and they never equal the to-be-signed bytes of any certificate.", "quantifier": "every pair of namespaces/hashes/messages and every certificate", "why_tests_cant": "pairs of unbounded inputs", "anchors": ["src/ssh/signature.rs:to_signed_format", "src/ssh/cert.rs:tbs_certificate"]}
{"id": "C37", "title": "Armored signatures round trip", "statement": "Printing an SshSignature with a plain key type and non-empty namespace and parsing the armor returns the same key, namespace, hash and signature.", "quantifier": "every signature with fields below 2^32 bytes", "why_tests_cant": "all contents through base64 and 76-column wrapping", "anchors": ["src/ssh/signature.rs:SshSignature::from_armored_string,Display"]}
{"id": "C38", "title": "Armored signature parsing rejects what the format forbids", "statement": "A parsed SshSignature always came from data with the SSHSIG magic, version 1, non-empty namespace and hash sha256 or sha512; the reserved field is ignored.", "quantifier": "every input string", "why_tests_cant": "all inputs", "anchors": ["src/ssh/signature.rs:SshSignature::from_armored_string,from_reader"]}
{"id": "C39", "title": "Signing then verifying succeeds", "statement": "If the primitives accept what they sign, VerifiedSshSignature::new_with_private_key on any software key either reports SigningError or returns a signature that verifies for the same message and namespace under the key; Certificate::sign likewise.", "quantifier": "every key, message, namespace, certificate", "why_tests_cant": "all keys and messages; end-to-end through DER and SSH re-encodings", "anchors": ["src/ssh/signature.rs:new_with_private_key", "src/ssh/privkey.rs:sign", "src/utils.rs:format_signature_for_ssh", "src/ssh/cert.rs:sign"]}
{"id": "C40", "title": "Private key encode/decode round trip", "statement": "For every well-formed private key, parsing its encoding gives the same key (type, secret fields, public key, magic, comment); PIN, device path and the reserved field of hardware keys are not stored.", "quantifier": "every well-formed private key", "why_tests_cant": "unbounded key fields, all five kinds", "anchors": ["src/ssh/privkey.rs:PrivateKey::encode,from_reader"]}
{"id": "C41", "title": "Private key file round trip", "statement": "PrivateKey::write followed by from_string returns the same key: the 70-column wrapped armor is read back exactly.", "quantifier": "every well-formed private key", "why_tests_cant": "all lengths relative to the wrap column", "anchors": ["src/ssh/privkey.rs:write,from_string"]}
{"id": "C42", "title": "Unencrypted keys re-serialise byte for byte", "statement": "If an unencrypted private key blob with canonical framing (no encryption data, standard padding, no trailing bytes, empty reserved field) parses to k then encode(k) is that blob.", "quantifier": "every accepted canonical blob", "why_tests_cant": "converse of the round trip over all blobs", "anchors": ["src/ssh/privkey.rs:from_reader,encode"]}
{"id": "C43", "title": "Private section padding", "statement": "The encoded private section has a length divisible by 8, padded with 1,2,3,... and at most 7 bytes.", "quantifier": "every key", "why_tests_cant": "all comment/field lengths", "anchors": ["src/ssh/privkey.rs:encode"]}
{"id": "C44", "title": "Private key integrity checks", "statement": "A private key is returned only if the two check integers agree (and are stored as magic), exactly one key is declared, and the public key inside the private section equals the public key in the header.", "quantifier": "every input blob and passphrase", "why_tests_cant": "all inputs", "anchors": ["src/ssh/privkey.rs:from_reader"]}
{"id": "C45", "title": "Encrypted keys require the right procedure", "statement": "A blob declaring aes256-ctr/bcrypt without a passphrase yields EncryptedPrivateKey; any cipher/KDF pair other than none/none and aes256-ctr/bcrypt yields EncryptedPrivateKeyNotSupported; in neither case is a key returned.", "quantifier": "every well-framed blob and passphrase", "why_tests_cant": "all cipher names", "anchors": ["src/ssh/privkey.rs:from_reader"]}
{"id": "C46", "title": "Decryption is transparent", "statement": "A blob whose private section is the keystream-XOR of a plaintext section, opened with the passphrase that generates that keystream, parses to exactly what the corresponding unencrypted blob parses to.", "quantifier": "every key, salt, rounds, passphrase, KDF and keystream", "why_tests_cant": "all parameters", "anchors": ["src/ssh/privkey.rs:from_reader"]}
{"id": "C47", "title": "Private key parsing does not panic", "statement": "No input string or passphrase makes PrivateKey::from_string panic. (False for the code as it stands: an RSA key with p or q equal to 0 or 1 panics with rsa-signing; proved to be the only case.)", "quantifier": "every input blob", "why_tests_cant": "needs every panic site over all inputs", "anchors": ["src/ssh/privkey.rs:read_private_key"]}
{"id": "C48", "title": "RSA CRT exponents are consistent", "statement": "A parsed RSA private key carries exponents d mod (p-1) and d mod (q-1) of the parsed d, p, q, in shortest big-endian form.", "quantifier": "every RSA key blob", "why_tests_cant": "big integers of any size", "anchors": ["src/ssh/privkey.rs:read_private_key"]}
{"id": "C49", "title": "Signing never panics on well-formed keys", "statement": "PrivateKey::sign does not panic when an Ed25519 secret has at least 32 bytes, an ECDSA secret is non-empty and RSA exponents are present; it returns None for P-521 and for an ECDSA or Ed25519 secret with a public key of another kind.", "quantifier": "every private key and message", "why_tests_cant": "all secret lengths; panic sites are index expressions", "anchors": ["src/ssh/privkey.rs:SSHCertificateSigner for PrivateKey"]}
{"id": "C50", "title": "ASN.1 ECDSA signatures are split correctly", "statement": "asn_der_to_r_s never panics, and on the DER SEQUENCE of two INTEGERs with contents r, s (short-form lengths, s non-empty) returns exactly r and s; whatever it returns is a contiguous part of the input.", "quantifier": "every byte string", "why_tests_cant": "all byte strings, index arithmetic", "anchors": ["src/utils.rs:asn_der_to_r_s"]}
{"id": "C51", "title": "ECDSA signatures convert end to end", "statement": "For every pair of positive integers below 2^(8*len), DER-encoding them, formatting for SSH and presenting to verification hands the primitive the fixed-width encodings of the same integers.", "quantifier": "every pair of integers", "why_tests_cant": "2^768 pairs", "anchors": ["src/utils.rs:format_signature_for_ssh", "src/ssh/signature.rs:verify_signature"]}
{"id": "C52", "title": "Allowed-signer principals are non-empty", "statement": "Every entry returned by AllowedSigner::from_string has at least one principal and no principal is empty.", "quantifier": "every input string", "why_tests_cant": "all strings", "anchors": ["src/ssh/allowed_signer.rs:AllowedSigner::from_string"]}
{"id": "C53", "title": "Allowed-signer validity windows are non-empty", "statement": "Whenever an entry has both valid-after and valid-before, valid-after < valid-before.", "quantifier": "every input string, clock and time zone", "why_tests_cant": "all strings and zones", "anchors": ["src/ssh/allowed_signer.rs:AllowedSigner::from_string"]}
{"id": "C54", "title": "Allowed-signer options cannot be repeated", "statement": "A line in which namespaces, valid-after or valid-before occurs twice before the key is never accepted.", "quantifier": "every line", "why_tests_cant": "all option sequences", "anchors": ["src/ssh/allowed_signer.rs:AllowedSigner::from_string"]}
{"id": "C55", "title": "Allowed-signer lines parse to what they say", "statement": "For every entry, the line made of its principals, any selection and order of its options (any letter case, quoted or unquoted values where legal), its key and an optional comment parses back to exactly that entry.", "quantifier": "every entry, option order, case and spacing", "why_tests_cant": "unbounded combinations", "anchors": ["src/ssh/allowed_signer.rs:AllowedSigner::from_string"]}
{"id": "C56", "title": "Allowed-signer Display round trip", "statement": "Printing an entry and parsing it gives the entry back. (False when a validity bound is set, since timestamps are printed as Unix seconds; C56_exact says exactly which entries are given back.)", "quantifier": "every entry", "why_tests_cant": "all entries", "anchors": ["src/ssh/allowed_signer.rs:Display for AllowedSigner"]}
{"id": "C57", "title": "Trailing comments are ignored", "statement": "Appending a # comment to an accepted line does not change the result. (False if the comment ends with a double quote; proved otherwise.)", "quantifier": "every accepted line and comment", "why_tests_cant": "all comments", "anchors": ["src/ssh/allowed_signer.rs:AllowedSignerSplitter"]}
{"id": "C58", "title": "Allowed-signer files are parsed line by line", "statement": "AllowedSigners::from_string returns the entries of the non-blank, non-comment lines in order, and otherwise the error of the first bad line with its 0-based line number.", "quantifier": "every file", "why_tests_cant": "files of any length", "anchors": ["src/ssh/allowed_signer.rs:AllowedSigners::from_string"]}
{"id": "C59", "title": "Allowed-signer parsing does not panic on UTC timestamps", "statement": "No input makes AllowedSigner::from_string panic unless a local-time (non-Z) timestamp falls in an ambiguous or missing local time.", "quantifier": "every line and time zone", "why_tests_cant": "all strings and zones; index into token buffer", "anchors": ["src/ssh/allowed_signer.rs:AllowedSigner::from_string,parse_timestamp"]}
{"id": "C60", "title": "Timestamps", "statement": "parse_timestamp accepts only values whose byte length without quotes and trailing Z is 8, 12 or 14 and which denote a valid date-time, and returns its Unix time in UTC when Z is present, in local time otherwise.", "quantifier": "every string and zone", "why_tests_cant": "all strings", "anchors": ["src/ssh/allowed_signer.rs:parse_timestamp"]}
{"id": "C61", "title": "FIDO authenticator data layout", "statement": "AuthData::parse never panics; on success rpid hash, flags, counter, AAGUID and credential id are the corresponding fixed-position bytes of the input, the attested-credential flag is set and the credential id has its declared length.", "quantifier": "every byte string", "why_tests_cant": "all inputs", "anchors": ["src/fido/parsing.rs:AuthData::parse"]}
{"id": "C62", "title": "COSE key decoding", "statement": "For an Ed25519 (OKP) COSE key map the parsed key is the x coordinate and the SSH key is an sk-ssh-ed25519 key with that value; for an EC2 key only the last of the two coordinates is kept.", "quantifier": "every key value and map order", "why_tests_cant": "all values", "anchors": ["src/fido/parsing.rs:AuthData::parse,ssh_public_key"]}
{"id": "C63", "title": "FIDO attestation acceptance", "statement": "verify_auth_data succeeds only for algorithm -7, with an intermediate signed by the given root, a signature over auth_data||challenge valid under the intermediate's key, and returns the parse of that auth_data.", "quantifier": "every input and primitive behaviour", "why_tests_cant": "all adversarial inputs", "anchors": ["src/fido/verification.rs:verify_auth_data"]}
{"id": "C64", "title": "FIDO attestation boundary", "statement": "The split between auth_data and challenge is not authenticated: moving leading challenge bytes to the end of auth_data keeps the attestation accepted with the same parsed data.", "quantifier": "every accepted attestation and split point", "why_tests_cant": "all splits", "anchors": ["src/fido/verification.rs:verify_auth_data"]}
{"id": "C65", "title": "PIV attestation acceptance", "statement": "verify_certificate_chain succeeds only if the intermediate is signed by the root and the client by the intermediate; the result's key is the client certificate's key and serial, firmware and policies come from the client's extensions; it panics only on an unparsable root or a policy extension shorter than two bytes.", "quantifier": "every input and primitive behaviour", "why_tests_cant": "all adversarial inputs", "anchors": ["src/yubikey/verification.rs"]}
{"id": "C66", "title": "X.509 key extraction", "statement": "A key extracted from an X.509 certificate, CSR or DER key is an ECDSA key whose type name and curve agree with the curve OID and whose point is the subject key bits; RSA and unknown curves are rejected.", "quantifier": "every parsed key info", "why_tests_cant": "all inputs", "anchors": ["src/x509/mod.rs"]}
{"id": "C67", "title": "YubiKey signing checks the slot", "statement": "sign_data never asks the device to sign unless the slot holds a key of the requested algorithm, hashes with the matching digest, and ssh_cert_signer's result is labelled with the slot key's type.", "quantifier": "every device state, slot and message", "why_tests_cant": "all device states", "anchors": ["src/yubikey/piv/management.rs:sign_data", "src/yubikey/piv/ssh.rs:ssh_cert_signer"]}
{"id": "C68", "title": "How a FIDO registration ends", "statement": "With the Mozilla backend, whatever the schedule: the call returns the registration if it succeeded, an error if the device manager goes away, and the first PIN problem reported, as what it means, if registration failed; if it failed and no PIN problem was reported, the call never returns.", "quantifier": "every sequence of status updates, outcome and schedule of the three threads", "why_tests_cant": "all interleavings, statuses of any number", "anchors": ["src/fido/generate/mozilla.rs:generate_new_ssh_key"]}
{"id": "C69", "title": "Base64 layer is lossless", "statement": "Decoding an encoding returns the bytes; the encoding uses only the standard alphabet and '=' so it survives whitespace splitting and line wrapping; decoding is injective on canonical text.", "quantifier": "every byte string", "why_tests_cant": "all lengths modulo 3", "anchors": ["src/ssh/pubkey.rs:Fingerprint::compute", "src/ssh/cert.rs:from_string"]}
{"id": "C70", "title": "FIDO key generation returns only attested keys", "statement": "generate_new_ssh_key returns a key exactly when the device's answer carries an attestation that verifies, and then the public half is the SSH key of the attested credential and the private half holds the credential id and flags; the attestation returned with it is the device's.", "quantifier": "every device answer, application, comment, PIN and primitive behaviour", "why_tests_cant": "all adversarial answers", "anchors": ["src/fido/generate/ctap2_hid.rs:generate_new_ssh_key", "src/fido/generate/mozilla.rs:generate_new_ssh_key"]}
{"id": "C71", "title": "The application of a generated FIDO key is not authenticated", "statement": "The relying-party hash in the authenticator data is not compared with the application: a device answer accepted for one application is accepted for every application, and the key is then labelled with that application.", "quantifier": "every accepted answer and every other application", "why_tests_cant": "all pairs of applications", "anchors": ["src/fido/generate/ctap2_hid.rs:generate_new_ssh_key", "src/fido/verification.rs:verify_auth_data"]}
{"id": "C72", "title": "FIDO flags", "statement": "User presence and user verification are reported exactly from bits 0 and 2 of the flags byte, and the flags byte stored in a generated key has exactly the bits the device reported.", "quantifier": "every flags byte and device answer", "why_tests_cant": "all values, for the byte and its parts", "anchors": ["src/fido/parsing.rs:AuthData::user_presence,user_verification", "src/fido/generate/ctap2_hid.rs:generate_new_ssh_key"]}
{"id": "C73", "title": "A generated FIDO key survives its file", "statement": "Writing a generated key and reading it back gives the key again apart from PIN and device path, except that the private key then has the type of the public key (it is always generated as Ed25519, whatever the device attests).", "quantifier": "every generated key", "why_tests_cant": "all handles, applications and comments", "anchors": ["src/fido/generate/ctap2_hid.rs:generate_new_ssh_key", "src/ssh/privkey.rs:write,from_string"]}
{"id": "C74", "title": "Unlocking a YubiKey needs PIN and management key", "statement": "unlock succeeds only if the device accepted the PIN and then the management key; the management key is not tried after a wrong PIN, and a malformed one is never sent.", "quantifier": "every device state, PIN and key", "why_tests_cant": "all device behaviours", "anchors": ["src/yubikey/piv/management.rs:unlock"]}
{"id": "C75", "title": "Provisioning returns the stored key", "statement": "provision generates a key with the requested algorithm and policies, stores a certificate for that key and returns the key in the certificate read back; nothing is stored after a failed generation and nothing returned after a failed step.", "quantifier": "every device state, slot, algorithm and policy", "why_tests_cant": "all device behaviours", "anchors": ["src/yubikey/piv/management.rs:provision"]}
{"id": "C76", "title": "Certificate requests are signed by the slot's key", "statement": "generate_csr asks for at most one signature: over the digest of the request, for the slot and key algorithm read from the token with the same serial number. (It panics, instead of failing, exactly when the token cannot be opened again or its slot then cannot be read or holds an RSA key.)", "quantifier": "every device state, slot and name", "why_tests_cant": "all device behaviours, including changes between readings", "anchors": ["src/yubikey/piv/management.rs:generate_csr,CSRSigner"]}
{"id": "C77", "title": "YubiKey signatures verify", "statement": "If a slot keeps its key and the token's signatures are valid, whatever ssh_cert_signer returns verifies under the slot's public key, and a certificate signed with it either fails with SigningError or parses back with its contents.", "quantifier": "every message, certificate and token state", "why_tests_cant": "end to end through token, DER and SSH encodings", "anchors": ["src/yubikey/piv/ssh.rs:ssh_cert_signer", "src/ssh/cert.rs:sign"]}
{"id": "C78", "title": "Reconnecting keeps the token", "statement": "reconnect keeps the connection or replaces it by one to the token with the same serial number.", "quantifier": "every device state", "why_tests_cant": "all device behaviours", "anchors": ["src/yubikey/piv/management.rs:reconnect"]}
{"id": "C79", "title": "Reported key sizes", "statement": "PublicKey::bits of a parsed RSA key is the bit length of its modulus rounded up to a multiple of 8; for an ECDSA key it is the number in its curve's name and for Ed25519 256.", "quantifier": "every key", "why_tests_cant": "moduli of every length", "anchors": ["src/ssh/pubkey.rs:PublicKey::bits"]}
{"id": "C80", "title": "Generated keys", "statement": "PrivateKey::new yields a key exactly for Ed25519, made of the random seed and the public key derived from it; the key survives its file, and signatures made with it verify. (Its secret field is the seed alone: it never has the 64-byte layout OpenSSH prescribes.)", "quantifier": "every seed, check integer, comment, feature selection and primitive behaviour", "why_tests_cant": "all seeds and comments", "anchors": ["src/ssh/privkey.rs:PrivateKey::new"]}
{"id": "C81", "title": "Hardware-key signatures verify", "statement": "Signing with a FIDO private key asks the device for the key's own application and handle and the message (or its hash); if the answer is a correct assertion for the key, the returned blob is accepted by signature verification under the public half, hence SSH signatures and certificates made with hardware keys verify; a refusal by the device gives no signature.", "quantifier": "every hardware key, message, assertion, flags and counter, and both backends", "why_tests_cant": "needs a device; all assertions", "anchors": ["src/fido/signing/ctap2_hid.rs:sign_with_private_key", "src/fido/signing/mozilla.rs:sign_with_private_key", "src/ssh/privkey.rs:sign"]}
{"id": "C82", "title": "ECDSA secrets reach the primitive as the same number", "statement": "For an ECDSA key whose stored secret is an mpint, the primitive gets the shortest form of the same integer with the key's curve and point. (A primitive that demands the curve's width then refuses every secret with a leading zero byte, about one key in 256: such keys are read but cannot sign.)", "quantifier": "every ECDSA key and message", "why_tests_cant": "one secret in 256 behaves differently", "anchors": ["src/ssh/privkey.rs:sign"]}
{"id": "C83", "title": "RSA signing uses the key's numbers", "statement": "An RSA key loaded from a file signs with the PKCS#1 private key (DER) made of its modulus, exponents, primes, coefficient and d mod (p-1), d mod (q-1), in this order; that form determines the numbers; a refusal by the primitive gives no signature.", "quantifier": "every loaded RSA key, message and primitive behaviour", "why_tests_cant": "numbers of every length, length encodings of DER", "anchors": ["src/ssh/privkey.rs:to_asn1_class,sign"]}
{"id": "C84", "title": "Fields are read back in order", "statement": "Reading the kinds of fields that were written with Writer gives the same values in the same order and ends behind the last one, whatever precedes or follows; so the bytes determine the fields.", "quantifier": "every sequence of byte strings, raw bytes, strings, integers, numbers and C strings, every prefix and suffix", "why_tests_cant": "sequences of any length", "anchors": ["src/ssh/reader.rs", "src/ssh/writer.rs"]}
{"id": "C85", "title": "A certificate blob is a public key made of its nonce", "statement": "(Finding.) PublicKey::from_bytes does not refuse certificate types: from an accepted Ed25519 certificate it returns a key made of the nonce, so key and fingerprint say nothing about the certified key; hardware-backed Ed25519 and RSA certificates are read with nonce and parts of the certified key mixed, exactly when those parts happen to have the right form; ECDSA certificates only if the nonce is a curve name.", "quantifier": "every accepted certificate and primitive behaviour", "why_tests_cant": "all certificates, both directions for each key family", "anchors": ["src/ssh/pubkey.rs:PublicKey::from_bytes", "src/ssh/cert.rs:from_bytes"]}
{"id": "C86", "title": "The label of a certificate's text is compared by kind only", "statement": "Certificate::from_string accepts the text of an accepted certificate under a label exactly when the label's type has the same kind as the certificate's own type (otherwise KeyTypeMismatch). (Finding: labels of other types, including plain types for hardware-backed certificates, are accepted; the returned certificate has the type inside the blob.)", "quantifier": "every accepted certificate and every label", "why_tests_cant": "all labels against all certificates", "anchors": ["src/ssh/cert.rs:from_string", "src/ssh/keytype.rs:KeyType::from_name"]}
{"id": "C87", "title": "The curve inside an ECDSA key is not tied to its type", "statement": "(Finding.) For every ECDSA key type every supported curve identifier is accepted inside the blob; a key whose type names one curve and whose body names another parses.", "quantifier": "every ECDSA key type, curve, point and trailing bytes", "why_tests_cant": "all combinations", "anchors": ["src/ssh/pubkey.rs:PublicKey::from_reader", "src/ssh/keytype.rs:Curve::from_identifier"]}
{"id": "C88", "title": "An accepted certificate can be issued again", "statement": "The fields of an accepted certificate always fit their length fields, whatever the iteration order of its maps; changing it with the builder's setters and signing it again gives, whenever signing succeeds, a certificate that parses back with exactly the changed contents, the same keys, nonce and role, and an empty reserved field.", "quantifier": "every accepted certificate, sequence of setter calls, signer and iteration order", "why_tests_cant": "unbounded certificates and call sequences", "anchors": ["src/ssh/cert.rs:from_bytes,sign,tbs_certificate"]}
{"id": "C89", "title": "Names of roles", "statement": "CertType::try_from accepts exactly user, User, host and Host. (Finding: it does not accept what Display prints for the role.)", "quantifier": "every string", "why_tests_cant": "all strings", "anchors": ["src/ssh/cert.rs:CertType"]}
{"id": "C90", "title": "Standard extensions", "statement": "standard_extensions is OpenSSH's set of default extensions, each once and without value, and a certificate signed with it parses back with exactly these extensions, whatever the iteration order.", "quantifier": "every certificate, signer and iteration order", "why_tests_cant": "all orders and certificates", "anchors": ["src/ssh/cert.rs:standard_extensions,sign,from_bytes"]}
{"id": "C91", "title": "The order of options", "statement": "(Finding.) PROTOCOL.certkeys demands options sorted by name, each once. The library writes them in the iteration order of a HashMap: every map of two or more entries has an order in which the written field is unsorted, and the same certificate in two orders has two to-be-signed forms. On reading, every sequence of options in any order and with repetitions is accepted, the last value of each name counting.", "quantifier": "every map, order and option field", "why_tests_cant": "depends on the random iteration order", "anchors": ["src/ssh/writer.rs:write_string_map", "src/ssh/cert.rs:read_options"]}
{"id": "C92", "title": "The certificate shown to a person", "statement": "Formatting with {:#} succeeds for every accepted certificate, and if key id, principals, option names and critical values have no line breaks, certificates shown by the same text agree in type, role, fingerprints of both keys, CA type, key id, serial, validity, principals, critical options (when names have no spaces) and names of extensions. (Findings: values of extensions are not shown; a line break in a principal makes one principal look like two.)", "quantifier": "every pair of certificates and digest function", "why_tests_cant": "all pairs of texts", "anchors": ["src/ssh/cert.rs:Display for Certificate"]}
{"id": "C93", "title": "A key read from an encrypted file is written in clear", "statement": "Every key read from a private key file, encrypted or not, is well-formed, and write() of it gives a file that declares no cipher and is readable with no passphrase and without any cryptographic primitive. (Finding: there is no way to keep the protection.)", "quantifier": "every file, passphrase, key and behaviour of the primitives", "why_tests_cant": "all files and keys", "anchors": ["src/ssh/privkey.rs:write,encode,from_string_with_passphrase"]}
{"id": "C94", "title": "PIN and device path stay in the process", "statement": "The PIN and device path of a hardware key are never written: encoding, file and text are the same without them; a key read from a file has neither. Setting them is order-independent, the last value counts, software keys ignore it, and signing uses exactly these values towards the device. (Finding: with the Mozilla backend the device path has no effect.)", "quantifier": "every key, PIN, path, message and device", "why_tests_cant": "all values and devices", "anchors": ["src/ssh/privkey.rs:set_pin,set_device_path,encode,sign", "src/fido/signing/ctap2_hid.rs", "src/fido/signing/mozilla.rs"]}
{"id": "C95", "title": "Dropping a private key wipes its secrets", "statement": "After Drop the fields of a private key hold no byte of its secrets: all byte strings empty, flags zero, PIN and path gone; two keys that differ only in secrets leave the same value.", "quantifier": "every private key", "why_tests_cant": "equality for all pairs of keys", "anchors": ["src/ssh/privkey.rs:Drop for PrivateKey", "src/ssh/keytype.rs:Curve"]}
{"id": "C96", "title": "Showing a private key shows nothing secret", "statement": "Display of a private key is a function of the public half and the comment (fingerprint, space, comment) and succeeds for every key read from a file.", "quantifier": "every key and digest function", "why_tests_cant": "non-interference over all pairs of keys", "anchors": ["src/ssh/privkey.rs:Display for PrivateKey"]}
{"id": "C97", "title": "The second half of an Ed25519 secret is unused", "statement": "Signing with an Ed25519 key depends on the first 32 bytes of the secret only. (Finding: reading a key file accepts every secret with every public key; the copy of the public key in the secret is not compared.)", "quantifier": "every seed, remainder, message, public key, secret and comment", "why_tests_cant": "all pairs of secrets", "anchors": ["src/ssh/privkey.rs:sign,read_private_key"]}
{"id": "C98", "title": "Bare private keys", "statement": "PrivateKey::from_bytes accepts exactly the type name, fields and comment of a private key, ignores what follows, and sets the check integer to zero; it panics exactly on RSA keys with a prime 0 or 1 when RSA signing is compiled in; it reads what a key file holds after its check integers.", "quantifier": "every byte string and feature set", "why_tests_cant": "all byte strings, both outcomes", "anchors": ["src/ssh/privkey.rs:from_bytes,read_private_key"]}
{"id": "C99", "title": "Signed objects are not identified by their bytes", "statement": "(Finding.) Bytes appended to an accepted signature, or behind the two integers inside an ECDSA signature, or behind a certificate, are not looked at, and the plain and hardware labels of Ed25519 and P-256 signatures are interchangeable. So from one accepted certificate or SSHSIG signature anybody makes arbitrarily many others with the same fields, and no finite list of refused certificate bytes refuses a certificate.", "quantifier": "every accepted signature, certificate and appended bytes", "why_tests_cant": "all suffixes, every list", "anchors": ["src/ssh/cert.rs:verify_signature,from_bytes", "src/ssh/signature.rs:from_ssh_signature"]}
{"id": "C100", "title": "Error texts", "statement": "The text of an error identifies it, with its number, name or line, except for the errors that pass on texts of other libraries; an error in an allowed signers file names the number of lines before the bad one (the first line is line 0). YubiKey errors likewise. (Finding: every text of the FIDO error begins with a stray s.) Errors about the PIN are told apart by their texts too.", "quantifier": "every error value and foreign text", "why_tests_cant": "all pairs of errors, all numbers and names", "anchors": ["src/error.rs", "src/ssh/allowed_signer.rs", "src/fido/mod.rs", "src/yubikey/piv/mod.rs"]}
{"id": "C101", "title": "Reading from a path", "statement": "from_path of public keys, certificates, private keys (with and without passphrase) and allowed signers is from_string of the contents if the file can be read and is UTF-8, otherwise an I/O error; keys and certificates written to a file are read back.", "quantifier": "every file system contents, path and key", "why_tests_cant": "all contents", "anchors": ["src/ssh/pubkey.rs:from_path", "src/ssh/cert.rs:from_path", "src/ssh/privkey.rs:from_path,from_path_with_passphrase", "src/ssh/allowed_signer.rs:AllowedSigners::from_path"]}
{"id": "C102", "title": "Files cut short", "statement": "A file cut at any byte is refused or read as the same thing: the same public key or certificate with the comment (and bytes behind a certificate's signature) possibly cut, exactly the same private key or SSH signature, the first entries of an allowed signers file with at most the comment of the last one cut. A cut never turns one key into another.", "quantifier": "every accepted file and every cut", "why_tests_cant": "all lengths, encodings and cut positions", "anchors": ["src/ssh/pubkey.rs:from_path,from_string", "src/ssh/cert.rs:from_path,from_string", "src/ssh/privkey.rs:from_path_with_passphrase", "src/ssh/signature.rs:from_armored_string", "src/ssh/allowed_signer.rs"]}
{"id": "C103", "title": "Allowed signers files put together", "statement": "Two files, the first ending with a line break, put together are accepted exactly if both are, with the entries of the first and then of the second; error lines of the second are counted from the beginning of the first. (Finding: so a file cut at the end of a line loses entries without a sign.)", "quantifier": "every pair of files and calendar", "why_tests_cant": "all pairs", "anchors": ["src/ssh/allowed_signer.rs:AllowedSigners::from_string"]}
{"id": "C104", "title": "Requests go to the device addressed", "statement": "With the HID backend, signing, key generation and PIN queries depend only on the device with the path given, or on the one opened among all listed devices if there is none; signing uses the last assertion of the answer for the key's application, handle, PIN and message; list_fido_devices lists exactly the devices with a path.", "quantifier": "every set of devices, their behaviour, keys, paths, PINs and messages", "why_tests_cant": "needs devices; non-interference over all of them", "anchors": ["src/fido/signing/ctap2_hid.rs:sign_with_private_key", "src/fido/generate/ctap2_hid.rs:generate_new_ssh_key", "src/fido/utils/ctap2_hid.rs"]}
{"id": "C105", "title": "Signing through the Mozilla backend", "statement": "The result is the assertion the service gives; if the service does not start or reports an error there is no signature. (Finding: if the request is refused or the callback goes away, signing panics.) Signing writes to standard output only if the device refuses, then one line with its error (a missing PIN is named), and there is no signature. The utilities report no devices and no PIN state.", "quantifier": "every service behaviour, key and message", "why_tests_cant": "all outcomes", "anchors": ["src/fido/signing/mozilla.rs:sign_with_private_key", "src/fido/utils/mozilla.rs"]}
{"id": "C106", "title": "Parsed fields are never larger than the input", "statement": "The fields of a parsed public key, certificate, SSH signature and private key (with names, options and comments) have together at most as many bytes as the input they were read from; the computed CRT exponents are no longer than the primes.", "quantifier": "every accepted input", "why_tests_cant": "all inputs and all fields", "anchors": ["src/ssh/pubkey.rs:from_reader", "src/ssh/cert.rs:from_bytes", "src/ssh/signature.rs", "src/ssh/privkey.rs:from_reader"]}
{"id": "C107", "title": "What accepting a certificate does not check", "statement": "(Finding.) Parsing a certificate enforces nothing about its validity interval, principals and critical options: if a CA can sign every message, then for every choice of them there is an accepted certificate of it with exactly these. A certificate made by the builder without setting an interval is already expired (0 to 0).", "quantifier": "every interval, principal list, option map", "why_tests_cant": "all values", "anchors": ["src/ssh/cert.rs:verify,from_bytes,builder"]}
{"id": "C108", "title": "Which keys can certify", "statement": "The signature key of an accepted certificate has a plain type or one of the two hardware certificate types. (Finding: the latter occurs, a key that says it is a certificate is taken as signature key; also a certificate of a key by itself is accepted.)", "quantifier": "every accepted certificate", "why_tests_cant": "all types of keys", "anchors": ["src/ssh/cert.rs:from_bytes", "src/ssh/pubkey.rs:from_reader"]}
{"id": "C109", "title": "Signature algorithms", "statement": "An RSA signature is checked with the digest its own label names. (Finding: ssh-rsa, which is SHA-1, is accepted; RSA keys sign with SHA-512.) (Finding: P-521 keys and labels never verify and never sign.)", "quantifier": "every key, message and signature", "why_tests_cant": "all labels", "anchors": ["src/ssh/cert.rs:verify_signature,create_signature", "src/ssh/privkey.rs:sign"]}
{"id": "C110", "title": "Time bounds are civil time", "statement": "Under the contract of a time library (a date is accepted exactly if it exists; offsets of at most 16 hours), a bound in UTC is the number of seconds of the civil calendar since 1970-01-01, bounds of the same length are ordered as their digits are, a date means its midnight, and second 60 means second 59.", "quantifier": "every accepted bound text and calendar satisfying the contract", "why_tests_cant": "all dates", "anchors": ["src/ssh/allowed_signer.rs:parse_timestamp"]}
{"id": "C111", "title": "Printed bounds are not read back", "statement": "(Finding.) Under the same contract the decimal number printed for a time bound is never read back as the bound it was printed for, except for one number in the time zone 26 minutes 57 seconds west of UTC.", "quantifier": "every bound and every time zone", "why_tests_cant": "all 64 bit numbers", "anchors": ["src/ssh/allowed_signer.rs:Display for AllowedSigner,parse_timestamp"]}
{"id": "C112", "title": "Encrypted key files are not authenticated", "statement": "(Finding.) Whoever can write an encrypted key file, without the passphrase, can exchange any part of the decrypted section by its exclusive or with chosen bytes, and the file opens with the same passphrase as the key so changed if that is well-formed: so known comments are replaced by any of the same length and bits of an Ed25519 secret are inverted without an error.", "quantifier": "every encrypted file, passphrase, key derivation and key stream", "why_tests_cant": "all files and all changes", "anchors": ["src/ssh/privkey.rs:from_reader,decrypt_section"]}
{"id": "C113", "title": "Signing a certificate with key files", "statement": "What the program sign-cert-with-file prints is read back as a verified user certificate for exactly the key in the one file, signed by the key in the other, for the one principal, all time, serial 0, the standard extensions and no critical option; with readable files and a software key something is printed. (Finding: if the file to certify holds an Ed25519 certificate, its nonce is certified as a key.)", "quantifier": "every disk, key, principal, order of the extensions and random numbers", "why_tests_cant": "all files and keys", "anchors": ["examples/sign-cert-with-file.rs:main", "src/ssh/cert.rs:sign"]}
{"id": "C114", "title": "Signing a file with a key file", "statement": "What the program sign-file-with-file prints is read back as a signature by the key of the key file that verifies for the file's contents and the namespace. (Finding: for the empty namespace a signature is printed that no parser accepts.)", "quantifier": "every disk, key and namespace", "why_tests_cant": "all files and keys", "anchors": ["examples/sign-file-with-file.rs:main"]}
{"id": "C115", "title": "Listing certificates", "statement": "The programs ssh-cert-info and ssh-pubkey-from-cert print for each line before the first empty one its certificate's text or its key, or that the line is none, and never panic; printed keys are read back as the certified key. (Finding: lines behind an empty line are silently ignored.)", "quantifier": "every text file", "why_tests_cant": "all files", "anchors": ["examples/ssh-cert-info.rs:main", "examples/ssh-pubkey-from-cert.rs:main"]}
{"id": "C116", "title": "Showing key files", "statement": "The program ssh-pkey-info shows only the fingerprint and comment of a private key, ssh-pubkey-info those of a public key and always the length 256; errors are those of the parser.", "quantifier": "every disk and all arguments", "why_tests_cant": "all files", "anchors": ["examples/ssh-pkey-info.rs:main", "examples/ssh-pubkey-info.rs:main"]}
{"id": "C117", "title": "Slot names", "statement": "The slot names understood on the command line are exactly R and a number up to 20 (possibly with plus sign or leading zero) and 0x with two hexadecimal digits, if that is a slot. (Finding: every other text of four bytes beginning with 0x, and numbers that are no slot, such as R0, make both parser and validator panic instead of being refused.)", "quantifier": "every text and every set of slots", "why_tests_cant": "all texts", "anchors": ["examples/yk-provision.rs:slot_parser,slot_validator", "examples/sign-cert-with-yubikey.rs:slot_parser,slot_validator"]}
{"id": "C118", "title": "Signing a certificate with a token", "statement": "What the program sign-cert-with-yubikey prints is read back as a verified user certificate for the key in the file under the key read from the slot at the start, whatever the tokens do in between.", "quantifier": "every token behaviour, disk and principal", "why_tests_cant": "all device behaviours", "anchors": ["examples/sign-cert-with-yubikey.rs:main"]}
{"id": "C119", "title": "Provisioning and listing tokens", "statement": "The program yk-provision generates a key only after PIN and management key were accepted, with the algorithm and touch policy asked for and a PIN policy of never, and prints the key of the certificate read back; yk-fingerprint only reads, and prints for each slot what was read.", "quantifier": "every token behaviour and all arguments", "why_tests_cant": "all device behaviours", "anchors": ["examples/yk-provision.rs:provision_new_key", "examples/yk-fingerprint.rs:main"]}
{"id": "C120", "title": "Converting and generating keys", "statement": "What into-ssh-pubkey prints for an elliptic curve key is read back as that key, and other files give an error text; the key printed by new-fido-sshkey is read back as the public half of the generated key, and its file as the private half without the PIN.", "quantifier": "every file and device answer", "why_tests_cant": "all files and answers", "anchors": ["examples/into-ssh-pubkey.rs:main", "examples/new-fido-sshkey.rs:main"]}
{"id": "C121", "title": "Words, lines and maps", "statement": "The functions on texts that all parsers use give exactly: white space by the Unicode property (25 code points), the words between white space, the lines ended by LF or CR LF, a text without the white space at its ends, the pieces between separators, the parts before and after the first separator; each text has exactly one sequence of words and of lines. Inserting into a map changes that key only.", "quantifier": "every text, separator and map", "why_tests_cant": "all texts", "anchors": ["src/ssh/pubkey.rs:from_string", "src/ssh/cert.rs:from_string", "src/ssh/allowed_signer.rs", "src/ssh/signature.rs:from_armored_string", "src/ssh/privkey.rs:from_string_with_passphrase"]}
{"id": "C122", "title": "Truncated blobs", "statement": "A public key, certificate, SSH signature or private key blob that is cut is refused as ended too early if the cut is between two fields or within bytes without a length, and as badly formatted if it is within a string or an integer; cut behind its last field it gives the same result.", "quantifier": "every accepted blob and every cut", "why_tests_cant": "all blobs and all cut positions", "anchors": ["src/ssh/reader.rs", "src/ssh/pubkey.rs:from_bytes", "src/ssh/cert.rs:from_bytes", "src/ssh/signature.rs:from_reader", "src/ssh/privkey.rs:from_reader,from_bytes"]}
{"id": "C123", "title": "Which errors are returned", "statement": "For every parser and every verification the variants of the errors it returns are exactly those listed: each listed one is returned for some input and no other for any input. With a passphrase it is never said that a key is encrypted; the name in an unknown key type is the one in the blob and is not a known one. (Finding: the allowed signer errors InvalidTimestamp and, from a file, MissingPrincipals never occur.)", "quantifier": "every input, crypto library, X.509 parser and calendar", "why_tests_cant": "no test shows that an error does not occur", "anchors": ["src/error.rs", "src/ssh/pubkey.rs:from_bytes,from_string", "src/ssh/cert.rs:from_bytes,from_string,verify_signature", "src/ssh/signature.rs:from_armored_string,from_ssh_signature", "src/ssh/privkey.rs:from_string_with_passphrase", "src/ssh/allowed_signer.rs", "src/x509/mod.rs", "src/fido/parsing.rs:parse", "src/fido/verification.rs", "src/yubikey/verification.rs"]}
{"id": "C124", "title": "Generating a FIDO key through the Mozilla backend", "statement": "The request made is for the application given, with the random challenge drawn and the PIN, and for an Ed25519 key. The call returns the first PIN problem reported if the registration fails, an error with the library's text if the service does not start, refuses the request or goes away, and otherwise the outcome of checking the attestation over that challenge; the same under every schedule of the threads. (Finding: it never returns exactly if the registration fails without a PIN problem.) The device path is not used.", "quantifier": "every service behaviour, schedule, application, PIN and challenge", "why_tests_cant": "all interleavings and all answers", "anchors": ["src/fido/generate/mozilla.rs:generate_new_ssh_key"]}
{"id": "C125", "title": "The cost of opening a key file is set by the file", "statement": "With an encrypted file and a passphrase, the key derivation function is called with that passphrase and the salt and number of rounds in the file, and the result depends on no other call of it; if it refuses, the file is refused. (Finding: the number of rounds has no upper limit and is four unprotected bytes, so whoever writes the file chooses the time it takes, before anything else in it is checked.)", "quantifier": "every file, passphrase, salt, number of rounds and cryptographic library", "why_tests_cant": "all numbers of rounds; a test with many rounds does not end", "anchors": ["src/ssh/privkey.rs:from_reader,decrypt_section"]}
{"id": "C126", "title": "Reasons given for refused authenticator data", "statement": "Authenticator data is refused exactly if a field is cut short, it has no credential, or the key is no COSE key of at most 256 known entries, and the error names which field, or which entry is the first bad one; there is always exactly one reason. An attestation is refused exactly for its algorithm, an unreadable certificate, a bad signature of certificate or data, and only with good signatures for its authenticator data or extensions. Key generation passes these errors on.", "quantifier": "every byte string, certificate, signature and device answer", "why_tests_cant": "all inputs and all errors", "anchors": ["src/fido/parsing.rs:parse,read_integer", "src/fido/verification.rs:verify_auth_data", "src/fido/generate/ctap2_hid.rs:generate_new_ssh_key", "src/fido/generate/mozilla.rs:generate_new_ssh_key"]}
{"id": "C127", "title": "Reasons given for refused keys, certificates and signatures", "statement": "A public key, certificate, signature blob, signature file, private key or private key file, as bytes or as text, is refused with an error exactly if that error is what the first fault in it deserves, going through its fields in the order in which they stand: nothing left, a length or integer cut off, text that is no UTF-8, a number not in its shortest form, an unknown type or curve, a wrong role, algorithm, signature, magic, version, hash, cipher, check number or public half. Every input is either in the grammar or has exactly one such error (or is a key file on which a program with RSA signing panics).", "quantifier": "every byte string and text, key, message, passphrase and cryptographic library", "why_tests_cant": "all inputs and all errors", "anchors": ["src/ssh/reader.rs", "src/ssh/pubkey.rs:from_bytes,from_string", "src/ssh/cert.rs:from_bytes,from_string,verify_signature", "src/ssh/signature.rs:from_armored_string,from_reader", "src/ssh/privkey.rs:from_bytes,from_reader,from_string_with_passphrase"]}
{"id": "C128", "title": "Reasons given for refused allowed signers lines", "statement": "A line is refused with an error exactly if that error names its first defect, reading word by word: no principals, an empty principal, wrong quotes, a repeated option, a bound that is no time, no key, a bad key, an empty window of time, more text after the key. A file is refused with the defect of its first bad line. If every local time can be resolved each line either says an entry or has exactly one first defect. (Finding: a quote at the end of a line, even in a comment, is reported as wrong quotes before anything else is looked at.)", "quantifier": "every line, file and calendar", "why_tests_cant": "all texts and all errors", "anchors": ["src/ssh/allowed_signer.rs:from_string,next,parse_timestamp"]}
{"id": "C129", "title": "Reasons given for refused X.509 keys and attestations", "statement": "An X.509 certificate, certificate request or DER key is refused with an error exactly if it is unreadable (parsing), holds an RSA key (unsupported), neither RSA nor a named elliptic curve (parsing), or a curve other than P-256 and P-384 (key type mismatch); a DER key never as unsupported. An attestation under a readable root is refused for an unreadable intermediate or client certificate, then for a signature, then for the client's key, then for its extensions: the first unreadable one being a serial number, or firmware, serial number or policies missing; no other defect gives an error.", "quantifier": "every byte string, root and X.509 library", "why_tests_cant": "all inputs, all errors and any X.509 library", "anchors": ["src/x509/mod.rs:extract_ssh_pubkey_from_x509_certificate,extract_ssh_pubkey_from_x509_csr,der_encoding_to_ssh_public_key,convert_x509_pki_to_pubkey", "src/yubikey/verification.rs:verify_certificate_chain,extract_certificate_extension_data"]}
{"id": "C130", "title": "Dialogs with tokens", "statement": "Each of the fifteen methods on a YubiKey always ends, and its requests and its result are exactly those of a written-down dialog: which answer of the token leads to which next request, and which sequence of answers to which value or error. Every entry of a dialog happens with some token, and the answers decide the result. (Finding: generate_csr, and no other method, panics, exactly if the token cannot be opened again by its serial number, or then has no certificate or an RSA certificate in the slot.)", "quantifier": "every token (arbitrary state and answers), slot, data, key, X.509 and request library", "why_tests_cant": "all token behaviours, including answers that change between calls", "anchors": ["src/yubikey/piv/management.rs", "src/yubikey/piv/ssh.rs"]}
{"id": "C131", "title": "What is written, exactly", "statement": "Each function that writes gives exactly the bytes or the text that a written-down format prescribes, for every value: the writer's primitives; a public key, its line and its file; the signed part of a certificate, its line and its long form; a signature, its file and the data it signs; a private key's container and file, and the line that shows it; an allowed signers line. Each panics exactly if a hardware key without application is to be written, and none returns an error.", "quantifier": "every key, certificate (of a known type), signature, private key and allowed signer, whether or not it was read from anything", "why_tests_cant": "round trips leave open any change made in writer and reader alike; all values, not the ones parsers return", "anchors": ["src/ssh/writer.rs", "src/ssh/pubkey.rs:encode,write,Display for PublicKey", "src/ssh/cert.rs:tbs_certificate,Display for Certificate", "src/ssh/signature.rs:Display for SshSignature", "src/ssh/privkey.rs:write,Display for PrivateKey", "src/ssh/allowed_signer.rs:Display for AllowedSigner"]}
{"id": "C132", "title": "What signing returns, exactly", "statement": "Signing with a private key returns a signature exactly if the primitive of the key's kind, given the stored secret (for RSA the PKCS#1 encoding of its numbers) and the stored public key, returns one that has an SSH form, and then it is that form; for a hardware key exactly if the authenticator answers, with its flags and counter behind the form. It returns an error exactly if the authenticator does and that error, panics exactly for the listed keys, and returns nothing otherwise.", "quantifier": "every private key, consistent or not, every message, every choice of features, all primitives and devices", "why_tests_cant": "one iff per outcome over all keys and all behaviours of primitives and devices", "anchors": ["src/ssh/privkey.rs:sign", "src/utils.rs:format_signature_for_ssh", "src/fido/signing/ctap2_hid.rs:sign_with_private_key", "src/fido/signing/mozilla.rs:sign_with_private_key"]}
{"id": "C133", "title": "Making certificates and signatures, exactly", "statement": "For builder, add_signature and sign of certificates and new_with_private_key of signatures, the value returned, the error returned and the panics are determined exactly: a builder fails only if a random draw does; a certificate gets the signature and its serialized form exactly if the CA key accepts it over the written form of the certificate, and otherwise the error is the first fault of the signature; signing returns the signer's error, 'signing error' if it returns nothing, or that fault; a new signature is returned exactly if the key signs and its public half accepts.", "quantifier": "every certificate (of a known type), key, signature, signer, message, namespace, all primitives and devices", "why_tests_cant": "one iff per outcome for arbitrary signers", "anchors": ["src/ssh/cert.rs:builder,add_signature,sign", "src/ssh/signature.rs:new_with_private_key"]}
{"id": "C134", "title": "Every outcome of reading one value", "statement": "For strings, texts, integers, 32- and 64-bit words, zero-ended texts and bytes without a length: with the cursor anywhere, also behind the end, the value returned, the error returned and the cursor afterwards are determined exactly, and no read panics. A failed read leaves the cursor where it was, except that a text that is not UTF-8 and a bad integer are passed over. Raw bytes cannot be read at the end of the buffer, not even none.", "quantifier": "every buffer, cursor position, value and error", "why_tests_cant": "one iff per outcome for all buffers and cursors", "anchors": ["src/ssh/reader.rs"]}
{"id": "C135", "title": "What the programs print, exactly", "statement": "For sign-cert-with-file, sign-file-with-file, sign-cert-with-yubikey, ssh-cert-info, ssh-pubkey-from-cert, ssh-pkey-info, ssh-pubkey-info, into-ssh-pubkey and new-fido-sshkey, the text printed (and the file written) is exactly that of a written-down format applied to what the files, the device and the arguments say, including usage texts and error reports; they print it exactly if the files can be read and parsed and the key signs. (Finding: ssh-pubkey-info says 256 for every key, and speaks of a private key in its errors.)", "quantifier": "every disk, list of arguments, device behaviour, primitive and order of the extensions", "why_tests_cant": "one iff per program over all files and devices", "anchors": ["examples/sign-cert-with-file.rs:main", "examples/sign-file-with-file.rs:main", "examples/sign-cert-with-yubikey.rs:main", "examples/ssh-cert-info.rs:main", "examples/ssh-pubkey-from-cert.rs:main", "examples/ssh-pkey-info.rs:main", "examples/ssh-pubkey-info.rs:main", "examples/into-ssh-pubkey.rs:main", "examples/new-fido-sshkey.rs:main"]}
{"id": "C136", "title": "The texts of errors, word for word", "statement": "Every error of the library, of an allowed signers entry, of a FIDO device and of a token is shown as exactly the text a table gives for it, with its number, name, line or foreign text in the place the table says.", "quantifier": "every error value and every text of other libraries", "why_tests_cant": "all numbers, names and nested errors", "anchors": ["src/error.rs:fmt", "src/ssh/allowed_signer.rs:fmt", "src/fido/mod.rs:fmt", "src/yubikey/piv/mod.rs:fmt"]}
{"id": "C137", "title": "Every outcome of generating a hardware key over HID", "statement": "A key is returned exactly if the device addressed can be opened, makes a credential for the application, challenge and PIN given, and its attestation is valid, and the key and attestation are then those of the answer; an error is returned exactly if opening or making fails (with the library's text) or the answer is no good (with the reason); it never panics.", "quantifier": "every set of devices, their behaviour, application, comment, PIN, path, challenge, X.509 and cryptographic library", "why_tests_cant": "one iff per outcome over all device answers", "anchors": ["src/fido/generate/ctap2_hid.rs:generate_new_ssh_key"]}
{"id": "C138", "title": "The dialogs of the programs for tokens", "statement": "yk-provision and yk-fingerprint always end, and their requests, with the key or the text printed or the panic, are exactly those of a written-down dialog: open a token, unlock it, provision the slot; or read every slot twice, attest it if it holds a key, and print its line. Each panics exactly if there is no token, and yk-provision also if any step fails.", "quantifier": "every token (arbitrary state and answers) and all arguments", "why_tests_cant": "all token behaviours, including answers that change between calls", "anchors": ["examples/yk-provision.rs:provision_new_key", "examples/yk-fingerprint.rs:main"]}
{"id": "C139", "title": "One key used for certificates, messages and as a security key", "statement": "The signed part of a certificate is never what is signed for a message or by an authenticator; what is signed for a message is what an authenticator signs only if the SHA-256 of the application spells the message header with a nine-byte namespace, the flags are 0x36 and the counter is 32. So if one key signs all three kinds of data and the signature presented is accepted for nothing else, an accepted certificate, message signature or security-key signature is one that was made as such (for the latter two unless the hash of an application begins with SSHSIG).", "quantifier": "every cryptographic library whose SHA-256 and SHA-512 have 32 and 64 bytes, every key, set of signed data, certificate, message, namespace, application and signature", "why_tests_cant": "ranges over all pairs of signed data and all sets of uses of one key", "anchors": ["src/ssh/cert.rs:from_bytes", "src/ssh/signature.rs:from_ssh_signature", "src/ssh/signature.rs:verify_signature"]}
{"id": "C140", "title": "The integers of the machine", "statement": "On every target with pointers of at least 32 bits, with or without overflow checks, reading, writing integers and lists, splitting DER signatures and decoding COSE keys give the result of exact arithmetic for all data the target can hold: no sum or product overflows. Two operations can: writing an option map panics in a build with overflow checks exactly if the length of a value is within four of the next multiple of 2^32, and the size reported for an RSA key overflows exactly if eight times the bytes of the modulus do not fit.", "quantifier": "every pointer width, build setting, reader, position, value, list, map, key, signature and COSE key", "why_tests_cant": "inputs of gigabytes on targets that are not at hand", "anchors": ["src/ssh/reader.rs:read_bytes,read_raw_bytes,read_cstring,read_u32,read_u64", "src/ssh/writer.rs:write_mpint,write_string_vec,write_string_map", "src/ssh/pubkey.rs:bits", "src/utils.rs:asn_der_to_r_s", "src/fido/parsing.rs:parse"]}
{"id": "C141", "title": "The splitter of allowed signers lines", "statement": "With the byte positions and the stack of tokens of the code a line is parsed as with the tokens in reading order: no slice is out of range or inside a character, the loop over the options ends within as many rounds as the line has characters plus one, no token is empty and the tokens put together are the line.", "quantifier": "every line the target can hold, pointer width, build setting, time zone, and every lower case function that agrees with ASCII on the option names", "why_tests_cant": "all texts, including ones with characters of several bytes next to delimiters", "anchors": ["src/ssh/allowed_signer.rs:AllowedSignerSplitter::new,next,trim,split_quote", "src/ssh/allowed_signer.rs:AllowedSigner::from_string"]}
{"id": "C142", "title": "Debugging text shows everything", "statement": "The derived Debug of a private key contains each of its secrets in decimal numbers and the PIN of a hardware key between quotes, and determines the whole key: two private keys with the same text are equal. The same holds for the result of FIDO key generation, for public keys and for certificates. The Debug of a token shows its serial number and nothing else. (Finding: unlike Display (C96), printing a key with {:?} discloses it.)", "quantifier": "every key, certificate and table of escaped characters", "why_tests_cant": "injectivity over all pairs of keys", "anchors": ["src/ssh/privkey.rs:derive(Debug)", "src/ssh/pubkey.rs:derive(Debug)", "src/ssh/cert.rs:derive(Debug)", "src/ssh/keytype.rs:derive(Debug)", "src/fido/generate/mod.rs:derive(Debug)", "src/yubikey/piv/mod.rs:fmt"]}
{"id": "C143", "title": "From making a key to checking its signatures", "statement": "For Ed25519 primitives that always sign, correctly: a key made by PrivateKey::new is written and read back unchanged, signs every message, and the printed signature is read back and verifies under the public half; used as an authority it signs every certificate request that fits, and the printed certificate is read back with the contents requested. A key made on an authenticator, written, read back and given PIN and device path again, signs exactly as the key in memory; with an authenticator that answers correctly the printed signature verifies.", "quantifier": "every seed, message, namespace, certificate request, passphrase and authenticator answer", "why_tests_cant": "it composes generation, writing, reading, signing, printing and verification for all inputs", "anchors": ["src/ssh/privkey.rs:new,write,from_string_with_passphrase,sign,set_pin,set_device_path", "src/ssh/signature.rs:new_with_private_key,from_armored_string,from_ssh_signature", "src/ssh/cert.rs:builder,sign,from_string", "src/fido/generate/ctap2_hid.rs:generate_new_ssh_key"]}
{"id": "C144", "title": "Names with spaces or line breaks, written and read again", "statement": "The text of an accepted certificate is one line exactly if its key id has no line break; certificates without one, written one per line, are listed by ssh-pubkey-from-cert with exactly their keys. (Finding: a key id that goes on, after a line break, with the text of another certificate makes the reader of the list see both keys.) No entry of an allowed signers file names a principal or namespace with a line break; entries that are each read back from their text are read back from a file of their texts, one per line, if no name has a line break and the first principal does not begin with white space, so a file can be written again from its entries. (Finding: the quotes of a principal are lost in writing: what is written for the principal \"p cert-authority\" is read as a certification authority for p, and what is written for a principal with a line break may be read as two entries.)", "quantifier": "all certificates, entries, keys and files", "why_tests_cant": "adversarial names combine quoting, splitting and printing in ways no test lists", "anchors": ["src/ssh/cert.rs:Display", "src/ssh/allowed_signer.rs:Display", "src/ssh/allowed_signer.rs:from_string", "examples/ssh-pubkey-from-cert.rs"]}
{"id": "C145", "title": "The numbers of an RSA key give signatures that verify", "statement": "For an RSA key read from a file whose numbers are those of an RSA key (two different odd primes, their product, exponents inverse to each other modulo both primes less one, the coefficient), signing by the Chinese remainder theorem with the exponents that the code computes gives the power of the message by the private exponent, and the public exponent undoes it. So with primitives that compute RSASSA-PKCS1-v1_5 of RFC 8017 for the PKCS#1 document they are given, such a key signs every message, its public half accepts the signature, and so does the check of the SSHSIG signature made with it.", "quantifier": "all RSA keys with such numbers, messages, namespaces, primitives that follow RFC 8017", "why_tests_cant": "number theory for all keys; tests sign with a few keys", "anchors": ["src/ssh/privkey.rs:read_private_key", "src/ssh/privkey.rs:RsaPrivateKey", "src/ssh/privkey.rs:sign", "src/ssh/pubkey.rs:verify_signature", "src/ssh/signature.rs:new_with_private_key"]}
{"id": "C146", "title": "The numbers of an elliptic curve key give signatures that verify", "statement": "With primitives that compute ECDSA as in FIPS 186-5 on a curve of prime order, an ECDSA key signs a message exactly if its secret, written with the full number of bytes and at most one zero byte in front, times the base point is its public point; otherwise signing gives nothing and an SSHSIG signature is refused with the error for failed signing. With primitives that compute Ed25519 as in RFC 8032, an Ed25519 key signs exactly if its public half belongs to its first 32 bytes, and every key the library makes does. Every signature made is accepted by the public half, also as SSHSIG signature, and so is what is made of the answer of an authenticator that signs with the secret of the key. The group of the curve is arbitrary; the curve P-256 with SHA-256 is such a curve.", "quantifier": "all keys, messages, namespaces, curves, primitives that follow FIPS 186-5 and RFC 8032", "why_tests_cant": "algebra for all keys and messages; tests sign with a few keys", "anchors": ["src/ssh/privkey.rs:new", "src/ssh/privkey.rs:sign", "src/ssh/pubkey.rs:verify_signature", "src/ssh/signature.rs:new_with_private_key", "src/utils.rs:signature_convert_asn1_ecdsa_to_ssh"]}
{"id": "C147", "title": "A CA key that works issues certificates that are read again", "statement": "If the numbers of a CA key belong together and the primitives of its algorithm follow their standard (RSA as in RFC 8017, ECDSA as in FIPS 186-5, Ed25519 as in RFC 8032, or an authenticator that answers with signatures by the secret of the public key), then signing a well-formed certificate succeeds, the signature fits into the certificate, and the certificate written as bytes or as a line of text is read again with the same contents and signature. So does every certificate made with the builder and any sequence of setters, in any order of the options. With an ECDSA or Ed25519 key of which the halves do not belong together the result is the error for failed signing.", "quantifier": "all working CA keys, certificates, builder calls, option orders, primitives that follow the standards", "why_tests_cant": "for all keys and contents; tests sign a few certificates", "anchors": ["src/ssh/cert.rs:builder", "src/ssh/cert.rs:sign", "src/ssh/cert.rs:add_signature", "src/ssh/cert.rs:from_bytes", "src/ssh/cert.rs:from_string", "src/ssh/privkey.rs:sign"]}
{"id": "C148", "title": "Made and read keys sign and issue with the real primitives", "statement": "With SHA-512 and Ed25519 as defined by FIPS 180-4 and RFC 8032 and computed in the model, nothing is left to assume about primitives: from any 32 random bytes and any comment that fits, a key is made, its file is read back as the same key with any passphrase, it signs every message for every non-empty namespace and each hash, and the armored signature is read and verified with its public key; as a certificate authority it issues every certificate that fits, and the text of the certificate is read back with what was set. With RSA of RFC 8017 and ECDSA on P-256 and P-384 computed as well, the same holds for every RSA (2041 to 8192 bits), P-256, P-384 or Ed25519 key read from a file whose private numbers belong to its public key, and for a hardware key whose authenticator answers with the private key; a curve key whose halves do not belong together gives the error for failed signing.", "quantifier": "all seeds, check numbers, comments, passphrases, key files with right numbers, messages, namespaces, hashes, builder calls", "why_tests_cant": "for all seeds and messages, with the arithmetic of the curve proved correct; tests make a few keys", "anchors": ["src/ssh/privkey.rs:new", "src/ssh/privkey.rs:write", "src/ssh/privkey.rs:from_string_with_passphrase", "src/ssh/signature.rs:new_with_private_key", "src/ssh/signature.rs:from_armored_string", "src/ssh/cert.rs:sign", "src/ssh/cert.rs:from_string"]}
{"id": "C149", "title": "The programs used one after the other", "statement": "With the primitives computed in the model and keys whose numbers belong together (as in C148): sign-cert-with-file, given a readable public key, prints a certificate that is read as the user certificate asked for, and ssh-pubkey-from-cert on what was printed prints one line, the certified key; sign-file-with-file prints for every readable file and non-empty namespace a signature that is read and verified with the public half, with the key in the certificate printed for it, and with the key of the entry when a principal and the printed key are put into an allowed signers file. With a curve key whose halves do not belong together both programs panic.", "quantifier": "all disks, keys, documents, principals, namespaces, random draws, extension orders and hardware devices that answer rightly", "why_tests_cant": "the whole chain from files to checked signature, for every key and document; tests run single steps", "anchors": ["examples/sign-cert-with-file.rs:main", "examples/sign-file-with-file.rs:main", "examples/ssh-pubkey-from-cert.rs:main", "src/ssh/signature.rs:from_ssh_signature", "src/ssh/allowed_signer.rs:from_string"]}
{"id": "C150", "title": "A second signature from a first one", "statement": "With primitives as in FIPS 186-5, RFC 8032 and RFC 8017: from every signature blob that verify_signature accepts for an ECDSA key that belongs to a secret, anyone makes another accepted blob for the same message whose second number is the order of the base point minus the old one, a different number (finding: the code does not ask for the smaller of the two); so every certificate signed by such a key has a second accepted form with the same fields, even if nothing is appended anywhere. For the curves P-256 and P-384 as computed in the model this needs no assumption, and holds for every ECDSA key (C155). The same for message signatures. For an RSA key with right numbers at most one string is accepted with each label for a message, and for an Ed25519 key at most one second half with a given first half; there the only further blobs are those with other labels or appended bytes (C99).", "quantifier": "all keys, messages, blobs and certificates, any curve with the group law, and P-256, P-384 and Ed25519 computed", "why_tests_cant": "the second signature differs from the first in a 256-bit number; no test tries it, and that RSA and Ed25519 have none is a statement on all strings", "anchors": ["src/ssh/signature.rs:verify_signature", "src/ssh/cert.rs:from_bytes"]}
{"id": "C151", "title": "One signature for two messages", "statement": "With primitives as in FIPS 186-5, RFC 8032 and RFC 8017. Finding: for any two messages whose hashes differ modulo the order (and do not add up to a multiple of it) there are an ECDSA secret and one signature blob that verify_signature accepts for both messages with the public key of that secret, so one message signature is verified for two documents; for P-256 and P-384 as computed in the model this needs no assumption. Finding: the 32 bytes 01 00 .. 00 are taken as an Ed25519 public key, also of a hardware key, and accept one constant signature for every message, so anyone issues certificates with any well-formed contents and message signatures for any document in the name of that key. No seed has that public key. The public key of a seed (not of a hardware key) accepts a blob for two messages only if their SHA-512 values with the first half and the key in front are equal modulo the order, and an RSA key accepts a blob with the label rsa-sha2-512 for two messages only if their SHA-512 hashes are equal.", "quantifier": "all pairs of messages, keys and blobs, any curve with the group law, and P-256, P-384 and Ed25519 computed", "why_tests_cant": "the key depends on the two messages by modular arithmetic, and that there is no such key for RSA and seeds is a statement on all strings", "anchors": ["src/ssh/signature.rs:verify_signature,from_ssh_signature", "src/ssh/cert.rs:sign"]}
{"id": "C152", "title": "A signature does not determine its key", "statement": "With primitives as in FIPS 186-5 and RFC 8032. Finding: every signature blob that verify_signature accepts for a message with the ECDSA key of a secret d is also accepted for that message with the key of another secret, unless r d + 2 e is a multiple of the order (e the hash, r the first number of the blob); so in a message signature that is verified the public key can be replaced by another one, and it is still verified if the caller gives no expected key. For P-256 and P-384 as computed in the model this needs no assumption. Two keys made from seeds accept one Ed25519 blob for one message only if the hashes, into which the keys go, are in the proportion given by the secret scalars. Nothing is said here of RSA keys and of hardware keys. That an expected key, where it is given, is the key of the signature is C35; that a certificate contains the key that signs it is C26.", "quantifier": "all keys with a secret, messages and blobs, any curve with the group law, and P-256 and P-384 computed", "why_tests_cant": "the second key is the result of point arithmetic on an accepted signature; no test tries it", "anchors": ["src/ssh/signature.rs:verify_signature,from_ssh_signature"]}
{"id": "C153", "title": "Key files with a passphrase open, with every primitive computed", "statement": "With bcrypt_pbkdf (SHA-512 and Blowfish) and AES-256 in counter mode computed, not assumed: for every well-formed private key, every passphrase and salt that are not empty and every number of rounds but 0 there is a key file encrypted under them which from_string_with_passphrase reads, with this passphrase, as the key, and which from_string refuses with EncryptedPrivateKey. With the empty passphrase every encrypted file is refused with InvalidFormat, and with every passphrase those whose salt is empty or whose number of rounds is 0. The key derived always has 32 bytes and the initialization vector 16.", "quantifier": "all private keys, passphrases, salts and numbers of rounds", "why_tests_cant": "the tests open five files made by ssh-keygen with one passphrase", "anchors": ["src/ssh/privkey.rs:read_private_key,from_string_with_passphrase,from_string"]}
{"id": "C154", "title": "Attestations with ECDSA as in FIPS 186-5", "statement": "With the check of signatures in DER as FIPS 186-5 on P-256 (X.690 for the encoding) prescribes: verify_auth_data accepts an attestation exactly if the algorithm is -7, the root signed the certificate, the two numbers of the signature are valid for the hash of the authenticator data and the challenge under the certificate's key, and data and extensions parse. A device with the secret of the certified key makes accepted attestations for every challenge. Finding: every accepted attestation has a second signature that is accepted with the same result. The computed primitive is of this kind, and with all primitives computed the attestations in the project's tests are accepted up to Yubico's root.", "quantifier": "all authenticator data, challenges, certificates, signatures and roots", "why_tests_cant": "the tests verify two recorded attestations", "anchors": ["src/fido/verification.rs:verify_auth_data"]}
{"id": "C155", "title": "ECDSA keys accept signatures exactly if they are points", "statement": "With ECDSA computed on P-256 and P-384: an ECDSA public key that is no security key accepts some signature exactly if its bytes are a byte 4 and two numbers of 32 (48) bytes below the field's prime that satisfy the equation of P-256 (P-384), whatever the curve named in the key; other bytes accept nothing, in security keys neither. Each such key has exactly one secret of that length with which a private key signs; it then signs every message, and the public key accepts that. Both curves have as many points as their base points have multiples, so the finding of C150 holds for every key.", "quantifier": "all keys, signatures and messages", "why_tests_cant": "the tests use five ECDSA keys", "anchors": ["src/ssh/signature.rs:verify_signature", "src/ssh/privkey.rs:sign"]}
{"id": "C156", "title": "Keys and certificates in DER, with DER computed", "statement": "With DER read as X.690 prescribes (objects with lengths in the shortest form): every SubjectPublicKeyInfo of RFC 5480 with a point on P-256 or P-384, every version 3 certificate and every certification request with such a key gives the SSH key with that curve and those point bytes, whatever bytes follow in the input; into-ssh-pubkey prints a line that is read back as that key. PIV chains and FIDO attestations are judged the same with bytes after the client's, the intermediate's or the device's certificate.", "quantifier": "all points, certificates, requests and bytes after them", "why_tests_cant": "the tests use a few certificates and never bytes after them", "anchors": ["src/x509/mod.rs:der_encoding_to_ssh_public_key", "src/x509/mod.rs:extract_ssh_pubkey_from_x509_certificate", "src/x509/mod.rs:extract_ssh_pubkey_from_x509_csr", "src/yubikey/verification.rs:verify_certificate_chain", "src/fido/verification.rs:verify_auth_data", "examples/into-ssh-pubkey.rs:main"]}
{"id": "C157", "title": "Tokens with elliptic curve keys, with DER and ECDSA computed", "statement": "For a slot with a secret d on P-256 or P-384, a certificate in DER for its point, and signatures of FIPS 186-5 in DER: ssh_cert_fetch_pubkey gives the SSH key of the point over every connection; ssh_cert_signer gives signatures that verify_signature accepts for that key, and fails only if the token refuses to sign; certificates issued with it are read back with the same content; requests made by generate_csr hold the common name, the point and a signature valid for them, and extract_ssh_pubkey_from_x509_csr gives the same key, whatever bytes follow.", "quantifier": "all tokens, slots, secrets, certificates in DER, messages and names", "why_tests_cant": "no test has a token, and a test uses one key", "anchors": ["src/yubikey/piv/ssh.rs:ssh_cert_fetch_pubkey", "src/yubikey/piv/ssh.rs:ssh_cert_signer", "src/yubikey/piv/management.rs:generate_csr", "src/yubikey/piv/management.rs:sign_data", "src/x509/mod.rs:extract_ssh_pubkey_from_x509_csr", "src/utils/signature_convert.rs:asn_der_to_r_s"]}
{"id": "C158", "title": "PIV chains and FIDO attestations, with DER and signatures computed", "statement": "For an intermediate and a client certificate in DER (any names and dates, bytes may follow) signed with sha256WithRSAEncryption or ecdsa-with-SHA256 on P-256: verify_certificate_chain accepts exactly if the intermediate's signature is one of RFC 8017 or FIPS 186-5 by the root's key over what is to be signed, the client's is one by the intermediate's key, and the client's extensions give firmware, serial number and policies; the result has the client's key and these values. A chain with a wrong signature is refused as such. The certificate of a FIDO attestation is judged the same way. Holders of the secrets can issue such chains. Names, dates and whether the intermediate may issue certificates are not looked at (a finding).", "quantifier": "all keys, names, dates, extensions, signatures and bytes after certificates", "why_tests_cant": "the tests use one chain; no test has an expired chain or another issuer", "anchors": ["src/yubikey/verification.rs:verify_certificate_chain", "src/yubikey/verification.rs:extract_certificate_extension_data", "src/fido/verification.rs:verify_auth_data", "src/x509/mod.rs:extract_ssh_pubkey_from_x509_certificate"]}
