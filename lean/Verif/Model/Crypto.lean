import Verif.Model.PublicKey

/-!
# External cryptography, as arbitrary functions

Nothing is assumed about any of these functions.  A theorem about `C : Crypto` holds for every
behaviour of `ring`, `bcrypt_pbkdf` and `aes`; properties that need more (for example "verification
accepts what signing produced") take it as an explicit hypothesis about `C`.
A randomised operation is represented by its result in the execution under consideration: the
theorems quantify over all `Crypto`, hence over all results.
-/

namespace Ssh

/-- The three RSA verification algorithms used in src/ssh/signature.rs:353-358. -/
inductive RsaAlg where
  | sha1 | sha256 | sha512
deriving DecidableEq, Repr

/-- The two ECDSA verification/signing algorithms used (src/ssh/signature.rs:297-303,
src/ssh/privkey.rs:245-249). -/
inductive EcAlg where
  | p256 | p384
deriving DecidableEq, Repr

/-- External cryptographic operations. -/
structure Crypto where
  /-- `ring::digest::digest(&SHA256, _)` -/
  sha256 : Bytes → Bytes
  /-- `ring::digest::digest(&SHA384, _)` -/
  sha384 : Bytes → Bytes
  /-- `ring::digest::digest(&SHA512, _)` -/
  sha512 : Bytes → Bytes
  /-- `UnparsedPublicKey::new(&ECDSA_*_FIXED, key).verify(msg, sig).is_ok()` -/
  ecdsaVerify : EcAlg → (key msg sig : Bytes) → Bool
  /-- `UnparsedPublicKey::new(&ED25519, key).verify(msg, sig).is_ok()` -/
  ed25519Verify : (key msg sig : Bytes) → Bool
  /-- `RsaPublicKeyComponents { n, e }.verify(alg, msg, sig).is_ok()` -/
  rsaVerify : RsaAlg → (n e msg sig : Bytes) → Bool
  /-- `UnparsedPublicKey::new(&ECDSA_P256_SHA256_ASN1, key).verify(msg, sig).is_ok()` -/
  ecdsaAsn1Verify : (key msg sig : Bytes) → Bool
  /-- `EcdsaKeyPair::from_private_key_and_public_key(alg, secret, public)` then `sign(msg)` -/
  ecdsaSign : EcAlg → (secret pub msg : Bytes) → Option Bytes
  /-- `Ed25519KeyPair::from_seed_and_public_key(seed, public)` then `sign(msg)` -/
  ed25519Sign : (seed pub msg : Bytes) → Option Bytes
  /-- public key of `Ed25519KeyPair::from_seed_unchecked(seed)`; `none` when it fails -/
  ed25519Pub : (seed : Bytes) → Option Bytes
  /-- `RsaKeyPair::from_der(der)` then `sign(msg)` with PKCS1-SHA512 -/
  rsaSign : (der msg : Bytes) → Option Bytes
  /-- `bcrypt_pbkdf(passphrase, salt, rounds, &mut [0; 48])`: cipher key and IV -/
  bcryptPbkdf : (passphrase : String) → (salt : Bytes) → (rounds : UInt32) → Option (Bytes × Bytes)
  /-- byte `i` of the AES-256-CTR key stream -/
  aesKeystream : (key iv : Bytes) → Nat → UInt8
  /-- whether `try_apply_keystream` accepts a buffer of this length -/
  aesCtrOk : (key iv : Bytes) → Nat → Bool

end Ssh
