import Verif.Model.PubKey

/-! # src/utils.rs -/

namespace Ssh

/-- src/utils.rs:5-34 `asn_der_to_r_s`; the outer `Res` is `panic` if an index or slice is out of
range. -/
def asnDerToRS (buf : Bytes) : Res (Option (Bytes × Bytes)) := do
  if buf.length < 4 then return none
  if (← index buf 0) ≠ 0x30 then return none
  if (← index buf 2) ≠ 0x2 then return none
  let buf ← sliceFrom buf 3
  let rLength := (← index buf 0).toNat
  if buf.length < rLength + 2 then return none
  let buf ← sliceFrom buf 1
  let r ← slice buf 0 rLength
  let buf ← sliceFrom buf rLength
  if buf.length < 3 then return none
  if (← index buf 0) ≠ 0x2 then return none
  let sLength := (← index buf 1).toNat
  let s ← sliceFrom buf 2
  if s.length ≠ sLength then return none
  return some (r, s)

/-- src/utils.rs:39-51 `signature_convert_asn1_ecdsa_to_ssh`. -/
def signatureConvertAsn1EcdsaToSsh (signature : Bytes) : Res (Option Bytes) := do
  match ← asnDerToRS signature with
  | some (r, s) => return some (beBytes 4 r.length ++ r ++ beBytes 4 s.length ++ s)
  | none => return none

/-- src/utils.rs:55-78 `format_signature_for_ssh`. -/
def formatSignatureForSsh (publicKey : PublicKey) (signature : Bytes) : Res (Option Bytes) :=
  match publicKey.kind with
  | .ecdsa _ _ _ => do
    let w := Writer.new.writeString publicKey.keyType.name
    match ← signatureConvertAsn1EcdsaToSsh signature with
    | some sig => return some (w.writeBytes sig).inner
    | none => return none
  | .rsa _ _ => .ok (some ((Writer.new.writeString "rsa-sha2-512").writeBytes signature).inner)
  | .ed25519 _ _ =>
    .ok (some ((Writer.new.writeString publicKey.keyType.name).writeBytes signature).inner)

end Ssh
