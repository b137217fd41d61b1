import Verif.Spec.Key
import Verif.Spec.Sign
import Verif.Model.Piv

/-! # X.509 keys, PIV attestations and PIV tokens -/

namespace Ssh.Spec

/-! ## Keys in X.509 -/

/-- The supported named curves: object identifier, SSH key type, curve. -/
def ecOids : List (String × String × Curve) :=
  [("1.2.840.10045.3.1.7", "ecdsa-sha2-nistp256", ⟨.nistp256, "nistp256"⟩),
   ("1.3.132.0.34", "ecdsa-sha2-nistp384", ⟨.nistp384, "nistp384"⟩)]

/-- `k` is the SSH key for a point on the curve named by `oid`. -/
def EcKeyOf (oid : String) (point : Bytes) (k : PublicKey) : Prop :=
  ∃ name curve, (oid, name, curve) ∈ ecOids ∧ k.keyType.name = name ∧ k.keyType ∈ keyTypes ∧
    k.kind = .ecdsa curve point none ∧ k.comment = none

/-- A key info with an elliptic curve key (algorithm `id-ecPublicKey`, parameters a named curve). -/
def EcInfo (i : Spki) (oid : String) : Prop := i.algorithm = "1.2.840.10045.2.1" ∧ i.parameters = some (some oid)

/-- The DER structure of an elliptic curve key: a sequence of algorithm and bit string. -/
def EcDer (oid : String) (point : Bytes) (o : DerObj) : Prop :=
  o = .seq [.seq [.oid "1.2.840.10045.2.1", .oid oid], .bitString point]

/-! ## Attestation certificates -/

/-- The firmware version an extension gives. -/
def pivFirmware (e : String × Bytes) : Option (List Char) :=
  match e.1 == "1.3.6.1.4.1.41482.3.3", e.2 with
  | true, [a, b, c] => some s!"{a.toNat}.{b.toNat}.{c.toNat}".toList
  | _, _ => none

/-- The serial number an extension gives: a DER integer of up to eight bytes, read as unsigned. -/
def pivSerial (X : X509Env) (e : String × Bytes) : Option Nat :=
  match e.1 == "1.3.6.1.4.1.41482.3.7", X.integer e.2 with
  | true, some n => if n.length ≤ 8 then some (natOf n) else none
  | _, _ => none

/-- PIN and touch policy an extension gives: its first two bytes. -/
def pivPolicies (e : String × Bytes) : Option (UInt8 × UInt8) :=
  match e.1 == "1.3.6.1.4.1.41482.3.8", e.2 with
  | true, a :: b :: _ => some (a, b)
  | _, _ => none

/-- A serial number extension whose value is a DER integer, if it is one. -/
def SerialReadable (X : X509Env) (e : String × Bytes) : Prop := e.1 = "1.3.6.1.4.1.41482.3.7" → X.integer e.2 ≠ none

/-- A policy extension with at least two bytes, if it is one. -/
def PolicyReadable (e : String × Bytes) : Prop := e.1 = "1.3.6.1.4.1.41482.3.8" → 2 ≤ e.2.length

/-- What the extensions of an attestation certificate say; the last one of each kind counts, and all three must be there. -/
def PivInfo (X : X509Env) (es : List (String × Bytes)) (v : ValidPivKey) : Prop :=
  (es.filterMap pivFirmware).getLast? = some v.firmware ∧ (es.filterMap (pivSerial X)).getLast? = some v.serial.toNat ∧
  (es.filterMap pivPolicies).getLast? = some (v.pinPolicy, v.touchPolicy)

/-- A chain: the intermediate certificate is signed with the root key, the client certificate with the intermediate key. -/
def CertChain (X : X509Env) (rootPem : String) (client intermediate : Bytes) (c : X509Cert) : Prop :=
  ∃ root i, X.parsePem rootPem = some root ∧ X.parseDer intermediate = some i ∧ X.parseDer client = some c ∧
    X.verify i root.spki = true ∧ X.verify c i.spki = true

/-! ## Tokens -/

variable {σ : Type}

/-- The answer recorded in an event is the one the token gave in state `s`, which became `s'`. -/
def Answered (D : YkDev σ) (s : σ) : YkEvent → σ → Prop
  | .openFirst r, s' => D.openFirst s = (r, s')
  | .openSerial n r, s' => D.openSerial n s = (r, s')
  | .reconnect c r, s' => D.reconnect c s = (r, s')
  | .verifyPin c p r, s' => D.verifyPin c p s = (r, s')
  | .authenticate c k r, s' => D.authenticate c k s = (r, s')
  | .read c sl r, s' => D.read c sl s = (r, s')
  | .write c sl d r, s' => D.write c sl d s = (r, s')
  | .attest c sl r, s' => D.attest c sl s = (r, s')
  | .generate c sl a p t r, s' => D.generate c sl a p t s = (r, s')
  | .selfSign c sl n k r, s' => D.selfSign c sl n k s = (r, s')
  | .sign c d a sl r, s' => D.sign c d a sl s = (r, s')

/-- A sequence of events that really happens, one after the other. -/
inductive Run (D : YkDev σ) : σ → List YkEvent → σ → Prop
  | nil (s) : Run D s [] s
  | cons {s s1 s2 e es} : Answered D s e s1 → Run D s1 es s2 → Run D s (e :: es) s2

/-- Running a method does exactly the events `ev` and has the result `r`. -/
def Does {α : Type} (D : YkDev σ) (m : Yk σ α) (s : σ) (ev : List YkEvent) (r : YkRes α) : Prop :=
  ∃ s', Run D s ev s' ∧ ∀ tr, m (s, tr) = (r, (s', tr ++ ev))

/-- The algorithm that goes with a key in a slot (all RSA keys count as 2048 bit). -/
def algOf : Pki → AlgId
  | .ecP256 _ => .eccP256
  | .ecP384 _ => .eccP384
  | .rsa => .rsa2048

/-- The digest that is signed with such a key. -/
def slotDigest (C : Crypto) : AlgId → Bytes → Bytes
  | .eccP384 => C.sha384
  | _ => C.sha256

/-- `k` is the SSH key in the certificate of a slot. -/
def SlotKey (X : X509Env) (c : SlotCert) (k : PublicKey) : Prop :=
  ∃ i oid, X.parseDer c.bytes = some i ∧ EcInfo i.spki oid ∧ EcKeyOf oid i.spki.keyData k

/-- The token algorithm for an SSH key. -/
def keyAlg (k : PublicKey) : Option AlgId :=
  match k.kind with
  | .ecdsa ⟨.nistp256, _⟩ _ _ => some .eccP256
  | .ecdsa ⟨.nistp384, _⟩ _ _ => some .eccP384
  | _ => none

/-- The point of an elliptic curve key in a slot. -/
def pkiPoint : Pki → Option Bytes
  | .ecP256 p => some p
  | .ecP384 p => some p
  | .rsa => none

/-- The result of a request that answers with data: the data, or an internal error. -/
def answer {α : Type} : Option α → YkRes α
  | some a => .ok a
  | none => .err .internal

/-- Reading a slot always gives the same certificate. -/
def SlotHolds (D : YkDev σ) (conn slot : Nat) (c : SlotCert) : Prop := ∀ s, (D.read conn slot s).1 = some c

/-- The token algorithm of an ECDSA algorithm. -/
def tokenAlg : EcAlg → AlgId
  | .p256 => .eccP256
  | .p384 => .eccP384

/-- Signatures of the slot are DER, and valid under a point. -/
def TokenSigns (C : Crypto) (D : YkDev σ) (conn slot : Nat) (alg : EcAlg) (point : Bytes) : Prop :=
  ∀ st m sig, (D.sign conn (slotDigest C (tokenAlg alg) m) (tokenAlg alg) slot st).1 = some sig →
    ∃ r s cr cs fr fs, r < 256 ^ ecWidth alg ∧ s < 256 ^ ecWidth alg ∧ DerPositive r cr ∧ DerPositive s cs ∧
      DerPair cr cs sig ∧ NatWidth (ecWidth alg) r fr ∧ NatWidth (ecWidth alg) s fs ∧
      C.ecdsaVerify alg point m (fr ++ fs) = true

end Ssh.Spec
