import Verif.Spec.Curves
import Verif.Spec.PrivKey

/-!
# Keys that work

A key works if its numbers belong together and the primitives for its algorithm compute the standard (RFC 8017, FIPS 186-5 or
RFC 8032); nothing is said about the primitives of other algorithms.
-/

namespace Ssh.Spec

/-- Software keys that work, and hardware keys on an authenticator that answers with signatures by the secret of the public
key. -/
inductive Works (F : Features) (C : Crypto) (D : FidoDev) (k : PrivateKey) : Prop where
  | rsa (r : RsaPrivateKey) (signing : (n e d p q : Nat) → Prop) (verifying : (n e : Nat) → Prop) : SignsRsa C signing →
      VerifiesRsa C verifying → F.rsaSigning = true → WellFormedPriv true k → k.kind = .rsa r →
      RsaNumbers (natOf r.n) (natOf r.e) (natOf r.d) (natOf r.p) (natOf r.q) (natOf r.coefficient) →
      signing (natOf r.n) (natOf r.e) (natOf r.d) (natOf r.p) (natOf r.q) → verifying (natOf r.n) (natOf r.e) → Works F C D k
  | ecdsa (E : Type) [AddCommGroup E] (alg : EcAlg) (c : EcDomain E) (curve cp : Curve) (key pub : Bytes) : SignsEcdsa C alg c →
      VerifiesEcdsa C alg c → c.order ≤ 256 ^ ecWidth alg → k.kind = .ecdsa curve key → k.pubkey.kind = .ecdsa cp pub none →
      curve ∈ curves → k.pubkey.keyType.name = "ecdsa-sha2-" ++ curve.identifier → ecAlg curve.kind = some alg → key ≠ [] →
      EcPair alg c key pub → Works F C D k
  | ed25519 (E : Type) [AddCommGroup E] (c : EdDomain E) (key pub : Bytes) : SignsEd25519 C c → VerifiesEd25519 C c →
      k.kind = .ed25519 key → k.pubkey.kind = .ed25519 pub none → k.pubkey.keyType.name = "ssh-ed25519" → 32 ≤ key.length →
      pub = edPublic C c (key.take 32) → Works F C D k
  | hardware (E E' : Type) [AddCommGroup E] [AddCommGroup E'] (c : EcDomain E) (c' : EdDomain E') (s : SkPrivateKey) (app : String) :
      VerifiesEcdsa C .p256 c → c.order ≤ 256 ^ 32 → VerifiesEd25519 C c' → HardwareKey k s app →
      (∀ msg, ∃ a, deviceAnswer F C D s app msg = .ok (some a) ∧ MadeBy C c c' k.pubkey msg a) → Works F C D k

end Ssh.Spec
