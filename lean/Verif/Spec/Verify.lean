import Verif.Spec.Key
import Verif.Model.Crypto

/-!
# When a signature blob is acceptable for a message and a public key

Stated with the wire grammar and the external primitives only.
-/

namespace Ssh.Spec

/-- RSA signature algorithm labels. -/
def rsaLabels : List (String × RsaAlg) :=
  [("ssh-rsa", .sha1), ("rsa-sha2-256", .sha256), ("rsa-sha2-512", .sha512)]

/-- ECDSA signature algorithm labels with the width in bytes of each of the two integers. -/
def ecdsaLabels : List (String × EcAlg × Nat) :=
  [("ecdsa-sha2-nistp256", .p256, 32), ("sk-ecdsa-sha2-nistp256@openssh.com", .p256, 32),
   ("ecdsa-sha2-nistp384", .p384, 48)]

/-- Ed25519 signature algorithm labels. -/
def ed25519Labels : List String := ["ssh-ed25519", "sk-ssh-ed25519@openssh.com"]

/-- The message handed to the primitive, `m`, and the blob bytes it is built from, `w`.  For a key
without application it is the message itself; for a hardware key the authenticator's message
(PROTOCOL.u2f): hash of the application, flags byte, counter, hash of the message. -/
def PrimitiveMessage (C : Crypto) (app : Option String) (msg m w : Bytes) : Prop :=
  match app with
  | none => m = msg ∧ w = []
  | some a => ∃ (flags : UInt8) (counter : UInt32), w = [flags] ++ u32 counter.toNat ∧
      m = C.sha256 a.toByteArray.data.toList ++ [flags] ++ u32 counter.toNat ++ C.sha256 msg

/-- `f` is the number `v` written with exactly `len` bytes. -/
def FixedWidth (len : Nat) (v f : Bytes) : Prop := f.length = len ∧ natOf f = natOf v

/-- The blob `sig` is a signature of `msg` under `k`. -/
def Accepts (C : Crypto) (k : PublicKey) (msg sig : Bytes) : Prop :=
  ∃ label w1 w2 w3 rest, sig = w1 ++ (w2 ++ (w3 ++ rest)) ∧ Text label w1 ∧
  match k.kind with
  | .rsa e n => k.keyType.kind = .rsa ∧ w3 = [] ∧
      ∃ alg s, (label, alg) ∈ rsaLabels ∧ Frame s w2 ∧ C.rsaVerify alg n e msg s = true
  | .ed25519 key app => k.keyType.kind = .ed25519 ∧
      ∃ s m, label ∈ ed25519Labels ∧ Frame s w2 ∧ PrimitiveMessage C app msg m w3 ∧
        C.ed25519Verify key m s = true
  | .ecdsa _ key app => k.keyType.kind = .ecdsa ∧
      ∃ alg len x1 x2 junk r s fr fs m, (label, alg, len) ∈ ecdsaLabels ∧
        Frame (x1 ++ (x2 ++ junk)) w2 ∧ Mpint r x1 ∧ Mpint s x2 ∧
        FixedWidth len r fr ∧ FixedWidth len s fs ∧ PrimitiveMessage C app msg m w3 ∧
        C.ecdsaVerify alg key m (fr ++ fs) = true

/-- `s` is a signature the blob `sig` carries: its second string, or the two numbers in it written with the same
width. -/
def Carries (sig s : Bytes) : Prop :=
  ∃ label w1 w2 rest, sig = w1 ++ (w2 ++ rest) ∧ Text label w1 ∧
    (Frame s w2 ∨ ∃ x1 x2 junk r t fr ft, Frame (x1 ++ (x2 ++ junk)) w2 ∧ Mpint r x1 ∧ Mpint t x2 ∧
      FixedWidth ft.length r fr ∧ natOf ft = natOf t ∧ s = fr ++ ft)

end Ssh.Spec
