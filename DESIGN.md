# Formal model of obelisk/sshcerts in Lean 4

Source modelled: `/repo` (sshcerts 0.13.2), read as text.  Nothing in `/repo` is built or run, and nothing in it is changed.

1. Approach
2. What is modelled, file by file, and what is not
3. What stands for code outside the repository
4. Plan per property
5. Findings
6. Tests of the model and of the theorems
7. Trusted base

## 1. Approach

* **Model** (`lean/Verif/Model/*.lean`): executable, total Lean functions, one per Rust function, each with a comment that
  cites file and lines.  `&mut self` becomes a returned value.  A Rust `Result` with a possible panic becomes
  `Res α = ok a | err e | panic`.  A function that takes `&mut Reader` becomes `Reader → Res α × Reader`, so the cursor
  after a failure is observable, as in Rust.  Loops become structural recursions; where Rust loops "until an error", the
  recursion has fuel, running out of fuel is a panic, and it is proved that this does not occur.
* **Specification** (`lean/Verif/Spec/*.lean`): the formats (RFC 4251, 4253, 5656, 8709; OpenSSH's PROTOCOL.certkeys,
  PROTOCOL.sshsig, PROTOCOL.key, PROTOCOL.u2f; ssh-keygen(1) ALLOWED SIGNERS; WebAuthn authenticator data; RFC 4648), the
  civil calendar, and what it means for a signature to be accepted.  Written as relations, without the functions of the
  model; only its data types are used.
* **Lemmas** (`lean/Verif/Lemmas/*.lean`): intermediate facts.
* **Properties** (`lean/Verif/Props/*.lean`): the theorems named `Cnn_...` in MANIFEST.json with their concrete
  `example`s, and small facts used only for them.
* **Concrete** and **Tests** (`lean/Verif/Concrete`, `lean/Verif/Tests`): see section 6.  No theorem depends on Tests.
  The claims on computed primitives (C145-C158) depend on Concrete, the others do not; some of their examples use the
  instance.

The main device of proof: for every parser `p` an equivalence

    p r = (ok v, r')  ↔  ∃ bytes, Grammar v bytes ∧ (r has bytes at its cursor) ∧ r' is r advanced over bytes

(`Parses p Grammar`), closed under sequencing and case distinction.  Soundness ("accepted input is of the format"),
completeness, round trips and unambiguity are read off from it.  The same pattern is used with other closures: `Cuts`
(behaviour on truncated input), `Errs` (errors that can occur), `NoPanic`.

Theorems quantify over all inputs of the modelled function: all byte strings, texts, keys, disks, device behaviours,
schedules and cryptographic functions.  No theorem bounds a size except where the format does (a length field has 32
bits); such hypotheses are in the statements.

## 2. What is modelled, file by file, and what is not

`tools/coverage.py` lists the functions of `/repo` whose lines are not cited by a definition of the model.

| File | Modelled in | Not modelled |
|---|---|---|
| src/error.rs | `Err` (Basic), texts and sources (ErrorText) | the `From` conversions (95-123) are inlined where `?` applies them |
| src/lib.rs | – | declarations only |
| src/utils.rs | Utils | – |
| src/ssh/reader.rs | Reader | – |
| src/ssh/writer.rs | Writer | the accessors `into_bytes`, `as_bytes`, `default` are the identity |
| src/ssh/keytype.rs | KeyType, Display | – |
| src/ssh/pubkey.rs | PublicKey, PubKey, Files | – |
| src/ssh/cert.rs | Cert, Verify, Display, Files | – |
| src/ssh/signature.rs | SshSig, Verify | – |
| src/ssh/privkey.rs | PrivKey, Display (`Drop`), Debug, Files | stack and heap copies of secrets made by the compiler or by reallocation (C95 is about the fields of the key) |
| src/ssh/allowed_signer.rs | AllowedSigner, Splitter, Files | `is_empty_after_trim` (334) is inlined |
| src/ssh/mod.rs | – | the trait `SSHCertificateSigner` is an argument (`sign`) |
| src/x509/mod.rs | X509 | `From` conversions (15, 21) are inlined |
| src/fido/mod.rs | Basic (errors), ErrorText | – |
| src/fido/parsing.rs | Fido | – |
| src/fido/verification.rs | Fido | the built-in root certificate is an argument (any text) |
| src/fido/generate/* | Fido (what becomes of the answer), Devices (which device), Mozilla (threads), MozGenerate (all of mozilla.rs) | – |
| src/fido/signing/*, src/fido/utils/* | PrivKey, Devices | a request to a device that is never answered |
| src/yubikey/verification.rs | Piv | the built-in root certificate is an argument |
| src/yubikey/piv/* | Piv, ErrorText, Debug | `CSRSigner::public_key` (management.rs 46, an accessor) |
| examples/*.rs | Examples | taking the command line apart (clap), its help texts, logging |
| benches/, tests/ | tests/ is run on the model, section 6 | benches |

Simplifications, also stated at the definitions:

* Errors of other libraries inside `Error` (I/O, base64, UTF-8) carry no contents; of the one FIDO
  error that quotes crate `minicbor` the quotation is left out. The texts of device errors are kept.
* Integers of type `usize` are natural numbers; `Machine` writes the functions that add or multiply again with integers
  of any width, and C140 proves that they agree (except where it says so).  Casts
  `as u32` and `as u8` are kept as remainders.  A subtraction below zero is a panic, as in a build with overflow checks
  (`subNat`); each use is proved not to occur or appears in a theorem about panics.  A `u32` always converts to `usize`
  (32 or 64 bit targets).
* A `HashMap` is a list of pairs without repeated keys, its order is the iteration order.  Theorems hold for every order.
* `Vec`, `String`, memory: no allocation failure.
* `CoseKey.parameters` holds only the entry -1, which is stored as an integer.
* The splitter of allowed signers lines keeps tokens in reading order; `Splitter` keeps them as the code does, and C141
  proves that lines are parsed alike.
* Paths are strings.  A file is read in one step.
* A randomised or stateful primitive is represented by its result in the execution considered (the theorems quantify
  over all functions); YubiKeys are state machines with an arbitrary state.

## 3. What stands for code outside the repository

| Rust | Model |
|---|---|
| `ring` (digests, signing, verification), `bcrypt_pbkdf`, `aes`/`ctr` | structure `Crypto` of arbitrary functions |
| `SystemRandom` | the bytes, or failure, are an argument |
| `chrono` | structure `Chrono` of arbitrary functions; only C56_calendar, C110 and C111 assume more (`Calendar`, `Offsets` in Spec/Calendar.lean; `plainChrono` satisfies both) |
| `x509_parser`, `der_parser` | structure `X509Env` of arbitrary functions with results of the parsed shape |
| `rcgen` | structure `Rcgen` of arbitrary functions |
| `yubikey` | structure `YkDev σ`: an arbitrary state machine |
| `ctap-hid-fido2`, `authenticator` | structures `HidBus`, `FidoDev`, `MozService` of arbitrary functions |
| `std::thread`, `mpsc` | a transition system with all interleavings (Model/Mozilla.lean) |
| `minicbor` 0.13 | modelled concretely, the calls used |
| `base64` 0.13 (`STANDARD`; decoding accepts missing padding, refuses non-zero trailing bits) | modelled concretely |
| `simple_asn1`, `num-bigint` | DER of integers and sequences concretely; `modpow` with exponent 1 is `%` |
| `str`: `split_whitespace`, `lines`, `trim`, `split`, `split_once` | modelled concretely; C121 states them independently |
| `str::to_lowercase` compared with the option names | ASCII lower case; the same, as no other letter is mapped into these names |
| the characters that `Debug` of `str` escapes by number | an arbitrary predicate |
| UTF-8 | Lean's `String` and `ByteArray.validateUTF8` |
| the file system | an arbitrary function from paths to contents |

## 4. Plan per property

For every property: what is modelled and how it is proved.  "Iff" means an equivalence with a grammar or relation of
`Spec`.  The three partial ones are false as stated; the exact truth is proved instead, and the negation by a witness.

| Id | Modelled | Proof |
|---|---|---|
| C01 | `read_bytes`, `write_bytes` | iff with `Frame` |
| C02 | all reader calls | induction over sequences of calls, invariant on the cursor |
| C03 | all reader calls | case analysis of each call |
| C04 | `read_u32`, `read_u64` and writers | big-endian arithmetic |
| C05, C06 | `write_mpint`, `read_positive_mpint` | iff with the shortest form of RFC 4251 |
| C07, C08 | strings, C strings | iff; UTF-8 from Lean's library |
| C09 | principal lists | induction on the list; the loop terminates |
| C10, C11 | option maps | induction on the pairs; last occurrence wins |
| C12 | writer with long contents | lengths modulo 2^32; a finding |
| C13 | `KeyType::from_name` | characterisation of the `match`, 16 rows by kernel evaluation |
| C14, C15, C18 | `PublicKey` blobs | iff with `KeyBlob`; frames are prefix-free |
| C16, C17 | `PublicKey` texts | words of a line, base64 iff |
| C19 | fingerprints | base64/hex injective |
| C20 | every serialiser | well-formedness is an invariant of all parsers |
| C21-C24 | `verify_signature` | iff with `Accepts` (one label, one frame, one call of a primitive) |
| C25, C26, C34 | `Certificate::from_bytes` | iff with `CertBody`; prefix-freeness |
| C27, C28, C30 | builder, `tbs_certificate`, `add_signature`, `sign` | round trip through the grammar |
| C29, C35 (unforgeable) | the same | reduction: acceptance implies that the primitive accepted the signature the blob carries for those bytes; the assumption speaks of that signature only, since for a real scheme every message has some valid signature |
| C31, C32 | `Certificate::from_string` | iff |
| C33 | builder | induction over sequences of calls |
| C35-C39 | SSHSIG | iff; injectivity of the signed data; signing then verifying |
| C40-C44, C46, C98 | private key files | iff with the grammar of openssh-key-v1; padding arithmetic; key streams cancel |
| C45 | encrypted files | exact error by following the reader |
| C47 (partial) | panics of parsing | exact characterisation; false because of RSA primes 0 and 1 |
| C48 | CRT exponents | modular arithmetic |
| C49 | `sign` | exact characterisation of panics |
| C50, C51 | `utils.rs` | DER arithmetic; end to end with `verify_signature` |
| C52-C55, C57 (partial), C58 | allowed signers lines and files | iff with a grammar of words, quotes and options; false for comments that end with a quote |
| C56 (partial) | `Display` of entries | iff describing which entries are read back; false for time bounds (C111) and other entries |
| C59, C60 | timestamps | iff; panics exactly for local times the zone does not resolve |
| C61, C62 | authenticator data, COSE | iff with layouts; permutations of map entries |
| C63, C64 | FIDO attestation | iff over arbitrary X.509 functions; boundary of concatenation |
| C65, C66 | PIV attestation, X.509 keys | iff over arbitrary X.509 functions |
| C67, C74-C78 | YubiKey | all runs of an arbitrary state machine |
| C68 | Mozilla threads | transition system; ranking function and invariants over all schedules |
| C69 | base64 | induction by groups, with RFC 4648 bits as specification |
| C70-C73 | FIDO key generation | iff from the answer of the device; file round trip |
| C79 | key sizes | arithmetic |
| C80 | `PrivateKey::new` | case analysis; file round trip |
| C81 | hardware keys | signing then verifying with the device's answer as hypothesis |
| C82, C83 | what reaches the signing primitives | big-endian numbers; DER is unique |
| C84 | sequences of fields | induction over the fields |
| C85-C87 | confusions of key and certificate blobs | witnesses from the grammars |
| C88 | issuing again | re-encoding of the parsed fields |
| C89, C90 | names, standard extensions | tables |
| C91 | order of options | permutations; what changes is the bytes |
| C92, C96 | shown texts | injectivity on the shown fields; non-interference |
| C93-C95, C97 | secrets | non-interference; fields after `Drop` |
| C99 | malleability | suffixes and labels, from `Accepts` |
| C100 | error texts | decoding the texts |
| C101-C103 | files | prefixes of UTF-8, of armor, of lines |
| C104, C105 | devices | non-interference; all outcomes of the service |
| C106 | sizes of parsed fields | lengths in the grammars |
| C107-C109 | what is not checked | constructed certificates; labels |
| C110, C111 | civil time | recursion over years and months; digits of numbers |
| C112 | encrypted files | exclusive or with a key stream |
| C113-C120 | the example programs | composition of the parser and printer theorems; all behaviours of tokens |
| C121 | text functions | iff with independent definitions |
| C122 | truncated blobs | closure `Cuts` over the reader |
| C123 | errors | closure `Errs` for the bounds, witnesses for the rest |
| C124 | the whole of `generate_new_ssh_key`, Mozilla | C68 and C70 put together; every run can be continued to its end |
| C125 | key derivation of encrypted files | non-interference; the bytes of the number of rounds |
| C126 | errors about authenticator data and attestations | iff with an independent list of reasons |
| C127 | errors of all parsers of keys, certificates and signatures | closure `Faults` over the reader; iff with the faults of `Spec.Reasons` |
| C128 | errors of allowed signers lines and files | word-by-word faults of `Spec.AllowedReasons`; outcomes of `next`, of one option and of the loop |
| C129 | errors of X.509 keys and attestations | `KeyInfoFault`, `DerFault`, `AttestFault` of `Spec.PivReasons`; outcome of the fold over extensions |
| C130 | full dialogs of the token methods | inductive dialogs of `Spec.TokenDialog`; a composition rule for dialogs; a token that replays a script |
| C131 | every function that writes | relations of `Spec.Written`, each shown equivalent to the model's result; `Wrapped` for line breaks |
| C132 | all outcomes of `sign` of a private key | inductive `Signed`; PKCS#1 and DER determine their bytes; C49, C51 |
| C133 | all outcomes of `builder`, `add_signature`, `sign`, `new_with_private_key` | C131 for what is signed, C127 for the errors, C132 for the signature |
| C134 | all outcomes of each function of `reader.rs` | `Parses` and `Faults` of C95–C127 joined into `ReadsExactly`; cursor from C03 |
| C135 | what each program prints, exactly | C131–C133 for the texts and signatures, C130 for the token's dialog; files and lines in Spec/Programs |
| C136 | the text of every error | tables in Spec/ErrorTexts, one row per variant |
| C137 | all outcomes of key generation over HID | C70 and C126 with `openDevice` of C104; no panic from C61, C63 |
| C138 | all runs of yk-provision and yk-fingerprint | composition of the dialogs of C130; lines in Spec/ProgramDialogs |
| C139 | one key in three uses: what is signed is told apart | lengths and first bytes; byte-wise comparison of SSHSIG data and assertions (Spec/OneKey); composition with C22, C25, C35, C36 |
| C140 | machine integers give the results of exact arithmetic, with two exceptions stated exactly | the functions with sums and products written again over `Machine` (width of `usize`, overflow checks); equal to the model by bounding each sum by a buffer length |
| C141 | the splitter with byte positions and a stack gives what the model's tokens give | invariants of the loop over the delimiters; each operation on the stack mirrors one on the reversed list |
| C142 | the derived `Debug` of keys and certificates | a text is read from its beginning: words end at one of six characters, quoted texts are decoded; `Within` for the secrets |
| C143 | from making a key, through its file, to a signature or certificate that is read back and verified | composition of C80, C73, C41, C132, C133, C37, C27 and C31; a hardware key signs by its fields and public half alone |
| C144 | key ids and names with spaces or line breaks, written to a file and read again | lines of a printed certificate or entry, then C115, C58 and C56; the findings are proved as round trips of the wrong entry |
| C145 | RSA keys with correct numbers sign and verify, for primitives that follow RFC 8017 | Fermat and the Chinese remainder theorem (Mathlib), C48 for the exponents, C83 for the document given to the primitive; the concrete primitive is `rsaSign`/`rsaVerify` of the model (Concrete/Rsa.lean shows that they read PKCS#1 and compute RFC 8017), the concrete key has the primes 2^521 - 1 and 2^2203 - 1 (Lucas-Lehmer test of Mathlib) |
| C146 | ECDSA and Ed25519 keys sign exactly if their halves belong together, and the signatures verify, for primitives that follow FIPS 186-5 and RFC 8032 | the algebra of both schemes in an arbitrary commutative group; the concrete case is P-256: Concrete/Curve.lean shows that the Jacobian formulas of Concrete/Ec.lean add points of Mathlib's elliptic curve, Concrete/Primes.lean checks the primes by Pratt certificates; Ed25519 is shown on its curve, in Concrete/Edwards.lean and Concrete/Ed25519.lean |
| C147 | certificates signed by a CA key that works are issued and read again; keys with halves that do not belong together give the error for failed signing | C145 and C146 for the signature, C21, C27, C28 and C31 for the certificate; an RSA signature fits because the public key in the certificate is as long; concrete cases: P-256 with the key of RFC 6979, an RSA key with two Mersenne primes, generated Ed25519 keys, a hardware key |
| C148 | keys made from any seed are written, read back, sign and issue certificates, with SHA-512 and Ed25519 computed in the model; so do RSA, P-256, P-384, Ed25519 and hardware keys read from files, if their numbers are right, and curve keys do not sign if they are wrong | C80, C146 and C147 without their assumptions: Concrete/Edwards.lean is the group law of the twisted Edwards curve, Concrete/Ed25519.lean shows that the arithmetic of Concrete/Ec.lean computes in it, decoding by square roots included; `C148_read` adds keys read from files, with Concrete/Rsa.lean for RSA, Concrete/Domain.lean for P-256 and Concrete/P384.lean for P-384 (primes by Pratt certificates), `C148_wrong` keys with wrong halves; the examples are the first key of RFC 8032, the P-384 key of RFC 6979 and the keys of C145 and C146 |
| C149 | certifying a key, signing a file and checking the signature with only the certificate or an allowed signers file, by the example programs one after the other | C113, C114, C115, C144 and C148 put together; the examples have an authority with the RSA key of C145 and a user with the P-256 key of RFC 6979, for every document |
| C150 | second signatures: the other number for ECDSA, none for RSA and Ed25519 | Props/SecondSignatures.lean: `(r, n - s)` turns the point computed in verification into its negative, which has the same first coordinate; the power of RSA undone; the order of the base point of Ed25519 prime by certificates (Concrete/EdOrder.lean). Examples: the keys of RFC 6979 and RFC 8032 and the RSA key of C145 |
| C151 | one signature for two messages: possible with chosen ECDSA keys and with the neutral Ed25519 key, impossible for seeds and RSA without equal hashes | Props/TwoMessages.lean: `2s = e - e'`, `2rd = -(e + e')` with the first coordinate `r` of the base point make the two points opposite; the neutral element is a fixed key; the scalar of a seed is a multiple of 8 below `2^255` and so no multiple of the order; the encoded message of RSA determines the hash. Examples: two orders of payment, a certificate of the neutral key, the keys of RFC 8032 and C145 |
| C152 | a second ECDSA key for every signature; for Ed25519 only with related hashes | Props/OtherKey.lean: `r d' = -(r d + 2 e)` turns the point computed in verification into its negative; the base point's order for Ed25519. Examples: the signature of RFC 6979, a message signature with its key replaced, a key that does not accept the signature of RFC 8032 |
| C153 | encrypted key files with computed primitives | Props/Passphrase.lean: Concrete/Bcrypt.lean computes bcrypt_pbkdf; the section is the plain one XOR the key stream; C44 and C125. Example: the sample key under "test" |
| C154 | attestations with ECDSA as in FIPS 186-5; the second form of each | Props/RealAttestation.lean: C63 with the check of signatures characterised; DER is unique; the negated number as in C150. Examples: the attestations of the project's tests, checked by the kernel with SHA-256, RSA, ECDSA and an X.509 parser computed (Concrete/Attested.lean) |
| C155 | which ECDSA keys accept anything, and that each has one secret | Props/EverySecret.lean: the number of points of P-256 and P-384 (Concrete/Order.lean): a multiple of the prime order of the base point, at most `2p + 1`, and odd since `x ^ p - x` is invertible modulo the cubic. Examples: the key of RFC 6979, and the same with a byte changed |
| C156 | keys, certificates and requests in DER, whatever follows them | Props/KeyInfo.lean: the parser of Concrete/X509.lean (lengths as in C43, no check of names, dates and other parts not used) reads what Spec/KeyInfo.lean describes; then C66, C120. Examples: the generator of P-256, the certificate of a YubiKey Bio, the attestations of the project's tests with bytes appended |
| C157 | tokens with elliptic curve keys, with DER and ECDSA computed | Props/RealToken.lean: a slot is described by its secret, the DER of its certificate and the equation of FIPS 186-5 (Spec/RealToken.lean), the builder of requests by RFC 2986; then C76, C77, C153, C156. Examples: a token with the key of RFC 6979, a builder that writes DER, a request of it that is read |
| C158 | PIV chains and FIDO attestations, with DER and signatures computed | Props/Chains.lean: certificates, RSA keys and PKCS#1 v1.5 with SHA-256 as in RFC 5280, 3279 and 8017 (Spec/Chains.lean), read by Concrete/X509.lean; then C65, C154, C156. Extensions of the client are named by a table of ten object identifiers; names and dates are any objects (the crate refuses malformed ones, which this parser reads). Example: a chain with the key of RFC 6979 and empty dates |

## 5. Findings

Behaviour of the code that a user may not expect, each proved (the property ids are those of properties.jsonl).

Panics on input: RSA private keys with a prime 0 or 1 when `rsa-signing` is on (C47); allowed signers with a local time
the time zone skips or repeats (C59); PIV attestations with a short policy extension, or with an unreadable root (C65);
Ed25519 secrets shorter than 32 bytes when signing (C49); CSR creation (C76); slot names such as `0xzz` or `R0` (C117);
refused Mozilla requests (C105).

Accepted or not checked: validity interval, principals and critical options when a certificate is parsed (C107);
user presence of hardware keys (C22); SHA-1 RSA signatures (C109); the curve of an ECDSA key against its type and
label (C24, C87); trailing bytes after signatures, in ECDSA signatures and after certificates (C34, C99), and after keys and X.509
certificates in DER (C156); the reserved
field of SSHSIG (C38); the second half of an Ed25519 secret (C97); the label of a certificate's text beyond its kind
(C86); a certificate key type as CA key, and self-signed certificates (C108); a certificate blob read as a public key
whose material is the nonce (C85, C113); authentication of encrypted key files (C112); the application of a generated
FIDO key (C71); the boundary between authenticator data and challenge (C64); the larger of the two numbers of an ECDSA
signature, so that signatures, certificates (C150) and attestations (C154) have a second form; ECDSA keys made for two
messages and one signature, and the neutral Ed25519 key, which accepts a constant signature for everything (C151);
another key in an ECDSA message signature, if the caller gives none (C152).

Lost or changed: lengths above 4 GiB (C12); comments of more than one word (C16); time bounds that are printed cannot be
read back (C56, C111); ECDSA FIDO keys keep one coordinate only (C62); secrets of ECDSA keys with leading zeros (C82);
Ed25519 keys made by `new` are not in OpenSSH's form (C80); an encrypted key is written back in clear (C93); extension
values and line breaks in shown certificates (C92); lines behind an empty line in ssh-cert-info (C115); a signature with
an empty namespace that nothing accepts (C114); keys of P-521 never verify or sign (C109).

Other: an expected key with a comment never matches (C35); a line that ends with a quote is refused (C55, C57); a
YubiKey slot is read three times, the label comes from the last (C67); a Mozilla registration that fails without PIN
status never returns (C68, C124); the number of rounds in a key file has no limit (C125); a default certificate has the
empty interval 0 to 0 (C107); allowed signers lines are counted from 0 (C100); the FIDO error text begins with a stray s
(C100, C136); two allowed signer errors never occur (C123); a quote at the end of a line is reported before any other
defect (C128); of the token methods only `generate_csr` panics (C130); zero raw bytes cannot be read at the end of a
buffer (C134); ssh-pubkey-info says 256 for every key and speaks of a private key in its errors, and
ssh-pubkey-from-cert prints the usage text of ssh-cert-info (C135); an option value of almost 4 GiB is a panic in a build
with overflow checks, and the size of an RSA key of half a GiB is wrong on a 32-bit target (C140), whereas the overflow
that a comment in `read_bytes` fears for 32-bit targets cannot occur (C140); an SSHSIG signature could be taken for an
authenticator's assertion only if the hash of its application began with `SSHSIG` (C139); the derived `Debug` of a private
key prints its secrets and the PIN (C142); the text of a certificate with a line break in its key id is several lines of a
list, and the quotes of an allowed signer's names are lost in writing, so that `"p cert-authority"` becomes a
certification authority for `p` (C144).

### What is determined exactly

For these functions each outcome (value, error, panic) is the subject of an equivalence, or is excluded, or is what the
other two leave; so any change of their behaviour contradicts a theorem.

| functions | values | errors | panics |
|---|---|---|---|
| `reader.rs` | C134 | C134 | never (C134) |
| `writer.rs`, everything written or shown | C131 | never (C131) | C131 |
| public keys from bytes and text | C15, C17 | C127 | never |
| certificates from bytes and text | C25 (both directions), C31 | C127 | never (C25, C31) |
| signatures from text | C35, C38 | C127 | never |
| private keys from bytes and text | C98, C44 | C127 | C98, C47 |
| allowed signers lines and files | C55, C58 | C128, C58 | C59, C58 |
| keys from X.509 certificates, requests and DER | C66 | C129 | never (C66) |
| PIV attestations | C65 | C129 | C65 |
| FIDO authenticator data, attestations | C61, C63 | C126 | never (C61, C63) |
| key generation over HID | C137 | C137 | never (C137) |
| `sign` of private keys | C132 | C132 | C132 |
| `builder`, `add_signature`, `sign`, `new_with_private_key` | C133 | C133 | C133 |
| YubiKey methods | C130 | C130 | C130 |
| programs in `examples/` | C135, C138 | C135 | C135, C138 |
| texts of errors | C136 | | |

## 6. Tests of the model and of the theorems

* **The project's tests.**  `lean/Verif/Tests` holds the test vectors of `/repo/tests` as `#guard`s on the model, with
  real cryptography written in Lean (`lean/Verif/Concrete`: SHA-1/256/384/512, Ed25519, ECDSA, RSA, AES-CTR,
  bcrypt_pbkdf, an X.509 parser).  The build fails if the model does not do what the project's tests say.  They are evaluated, not proved; no
  theorem depends on them.  To save time the keys derived by bcrypt_pbkdf are
  precomputed (tools/bcrypt_pbkdf.py); Tests/Bcrypt.lean computes one of them.
* **Wrong programs.**  `seeded/mutations.py` lists edits of the model as a bug would make them, with the claims each
  breaks.  `tools/mutate.py` applies one in a scratch copy, rebuilds and reports the theorems that fail;
  `tools/gen_log.py` writes seeded/LOG.jsonl.  When a declaration no longer compiles, the harness replaces its proof so
  that the build can go on, and counts as failed every theorem whose proof uses it.  So a theorem listed as failed was
  either refuted directly (`broken_directly`) or rests on a lemma about the edited function that is now false or
  unproved; it is not shown that its own statement is false.  With `--near` only the modules with the claims named are
  rebuilt; theorems of other modules are then not listed.  An edit counts as caught if a theorem of every claim it
  breaks fails.  Attempts that were not caught led to stronger statements; they are marked in the log.

## 7. Trusted base

* Lean 4.33's kernel, and its elaborator for the meaning of the statements.
* The axioms `propext`, `Classical.choice` and `Quot.sound` of Lean, at most.  AXIOMS.md lists for each theorem of
  MANIFEST.json which of them it uses.  There are no axioms of our own, no `sorry`, no `native_decide`, no `bv_decide`;
  `decide +kernel` is evaluation by the kernel.  Mathlib, used for C145 and C146 (`Mathlib.FieldTheory.Finite.Basic`, `Mathlib.Data.Nat.Log`,
  `Mathlib.NumberTheory.LucasLehmer`, `Mathlib.NumberTheory.LucasPrimality`, `Mathlib.AlgebraicGeometry.EllipticCurve.Affine.Point`
  and small modules for groups, numbers and tactics), is checked by the kernel like everything else.
* The reading of `/repo`: that the definitions of `Model` do what the cited lines do (section 2), and that the concretely
  modelled library functions behave as modelled (section 3).
* That the definitions of `Spec` say what the formats say.
