import Verif.Props.Real
import Verif.Props.LineBreaks

/-!
# C149: The programs used one after the other

A certificate authority certifies a user's key with sign-cert-with-file, the user signs a file with sign-file-with-file, and whoever has
only the certificate checks the signature.  The primitives are those computed in the model (Concrete/), so nothing is assumed of them.
-/

namespace Ssh

open Spec Examples

variable (table : List ((String × Bytes × UInt32) × (Bytes × Bytes)))

theorem withPin_kind {k : PrivateKey} {pin : Option String} (h : ∀ s, (withPin k pin).kind ≠ .ecdsaSk s ∧ (withPin k pin).kind ≠ .ed25519Sk s) :
    withPin k pin = k := by
  cases pin with
  | none => rfl
  | some p =>
    unfold withPin PrivateKey.setPin at h ⊢
    dsimp only at h ⊢
    split
    · rename_i s hk
      rw [hk] at h
      exact absurd rfl (h _).1
    · rename_i s hk
      rw [hk] at h
      exact absurd rfl (h _).2
    · rfl

/-- A right key on the disk works, with the PIN given. -/
theorem right_withPin {F : Features} {D : FidoDev} {t : List Char} {k : PrivateKey} {pin : Option String} (hF : F.rsaSigning = true)
    (h : PrivateKey.fromStringWithPassphrase F (Concrete.realCrypto table) t none = .ok k) (hk : RightKey table F D (withPin k pin)) :
    Works F (Concrete.realCrypto table) D (withPin k pin) := by
  have soft : withPin k pin = k → Works F (Concrete.realCrypto table) D (withPin k pin) := fun e => by
    rw [e] at hk ⊢
    exact right_works table hF h hk
  cases hk with
  | rsa r hk' _ _ => exact soft (withPin_kind fun s => by simp [hk'])
  | p256 _ _ _ hk' _ _ _ => exact soft (withPin_kind fun s => by simp [hk'])
  | p384 _ _ _ hk' _ _ _ => exact soft (withPin_kind fun s => by simp [hk'])
  | ed25519 _ _ hk' _ _ _ _ => exact soft (withPin_kind fun s => by simp [hk'])
  | hardware s app hk' hd =>
    exact .hardware _ _ Concrete.p256_good.domain Concrete.edDomain s app (Concrete.p256_verifies table) p256_width (Concrete.ed_verifies table) hk' hd

theorem plain_of_cert : ∀ t ∈ keyTypes, t.isCert = true → ∀ a ∈ keyTypes, a.name = t.plain → a.name = a.plain := by decide +kernel

theorem plain_unique : ∀ a ∈ keyTypes, ∀ b ∈ keyTypes, a.name = a.plain → b.name = b.plain → a.plain = b.plain → a = b := by decide +kernel

/-- The key in a certificate that was read has the plain type and no comment. -/
theorem read_key {C : Crypto} {s : List Char} {c : Certificate} (h : Certificate.fromString C s = .ok c) :
    c.key.keyType ∈ keyTypes ∧ c.key.keyType.name = c.key.keyType.plain ∧ c.key.comment = none := by
  obtain ⟨_, _, _, data, c0, _, _, _, _, _, hb, _, rfl⟩ := (certFromString_iff ..).mp h
  obtain ⟨w, wsig, rest, _, hbody, _⟩ := certFromBytes_ok.mp hb
  exact ⟨hbody.2.2.1, plain_of_cert _ hbody.1 hbody.2.1 _ hbody.2.2.1 hbody.2.2.2.1, hbody.2.2.2.2.1⟩

/-- C149: with a right key in the file `sign` and any public key in the file `file`, sign-cert-with-file prints a certificate; it is read as
the user certificate asked for, and ssh-pubkey-from-cert, run on a file with what was printed, prints one line: the certified key. -/
theorem C149_issues (F : Features) (D : FidoDev) (disk : Disk) (nonce : Vector UInt8 32) (rserial : Vector UInt8 8) (extensions : StrMap)
    (file sign : String) (pin : Option String) (principal : String) (ca : PrivateKey) (key : PublicKey) (hF : F.rsaSigning = true)
    (he : extensions.Perm Certificate.standardExtensions) (hp : principal.utf8ByteSize < 4294967292)
    (hca : PrivateKey.fromPath F (Concrete.realCrypto table) disk sign = .ok ca) (hright : RightKey table F D (withPin ca pin))
    (hk : PublicKey.fromPath disk file = .ok key) :
    ∃ out c, signCertWithFile F (Concrete.realCrypto table) D disk (some nonce) (some rserial) extensions file sign pin principal = .ok out ∧
      Certificate.fromString (Concrete.realCrypto table) out = .ok c ∧ c.key.kind = key.kind ∧ c.key.keyType.name = key.keyType.plain ∧
      c.key.comment = none ∧ c.signatureKey.kind = ca.pubkey.kind ∧ c.certType = .user ∧ c.keyId = "key_id" ∧ c.principals = [principal] ∧
      ∀ T disk' path, Holds disk' path out → ∃ line, sshPubkeyFromCert (Concrete.realCrypto table) T disk' [path] = .ok (line ++ ['\n']) ∧
        PublicKey.fromString line = .ok c.key := by
  obtain ⟨t, hca'⟩ := privFromPath_ok hca
  obtain ⟨hcom, kb, hkb, hkl⟩ := privkey_blob hca'
  have hwf := (C20_privkey F _ none t ca hca').1
  obtain ⟨req, hc, hw, hsk⟩ := request_exists (nonce := nonce) (rserial := rserial) (serial := 0) (principal := principal) he hp hwf
    (keyBlob_encode hkb hkl) hk
  have hworks := right_withPin table hF hca' hright
  obtain ⟨c3, hs, _⟩ := C147_issued F _ D (withPin ca pin) req hworks hw (by rw [hsk, withPin_pubkey])
  have hout : signCertWithFile F (Concrete.realCrypto table) D disk (some nonce) (some rserial) extensions file sign pin principal =
      .ok (println c3.display) := by
    unfold signCertWithFile
    rw [hca]
    simp only [Res.orPanic, Res.ok_bind, withPin_pubkey, hc, hs]
    rfl
  obtain ⟨ca', key', c, h1, h2, h3, h4, h5, h6, h7, h8, h9, h10, h11, _⟩ := C113_printed F _ D disk _ _ extensions file sign pin principal _ he hp
    (fun k m s hk' hsg => by
      rw [hca] at hk'
      cases hk'
      obtain ⟨sig, g1, g2, _⟩ := works_signs hworks (by rw [withPin_pubkey]; exact hwf)
        (by rw [withPin_pubkey]; exact keyBlob_encode hkb hkl) m
      rw [g1] at hsg
      cases hsg
      exact g2) hout
  rw [hca] at h1
  cases h1
  rw [hk] at h2
  cases h2
  obtain ⟨k1, k2, k3⟩ := read_key h3
  refine ⟨_, c, hout, h3, h4, by rw [k2, h5], k3, h6, h8, h10, h11, fun T disk' path hd => ?_⟩
  obtain ⟨_, c0, _, _, hreq⟩ := request_ok hc
  obtain ⟨_, _, _, _, _, h28⟩ := (C28_sign _ _ _ _).mp hs
  have hid : c3.keyId = "key_id" := by
    rw [h28, hreq]
    rfl
  have hkt : c3.keyType ∈ keyTypes := by
    rw [h28]
    exact hw.1
  have hnl : '\n' ∉ c3.display := fun hm => by
    rw [cert_display_nl hkt, hid] at hm
    exact absurd hm (by decide)
  obtain ⟨outs, o1, o2, o3⟩ := C115_keys (Concrete.realCrypto table) T disk' path _ [c3.display] hd
    ⟨fun l hl => by rw [List.mem_singleton.mp hl]; exact ⟨cert_display_ne, hnl⟩, .inr ⟨[], by simp [println]⟩⟩
  obtain ⟨line, rfl⟩ : ∃ line, outs = [line] := List.length_eq_one_iff.mp o2
  refine ⟨line, by rw [o1]; simp [println], ?_⟩
  rw [certificate_println] at h3
  have := o3 0 _ line c rfl rfl h3
  rwa [publicKey_println] at this

/-- C149: with a right key in the file `sign`, sign-file-with-file prints a signature for every readable file and every namespace, and it is
read and verified with the public half of the key. -/
theorem C149_signs (F : Features) (D : FidoDev) (disk : Disk) (file sign : String) (pin : Option String) (ns : String) (k : PrivateKey)
    (contents : Bytes) (hF : F.rsaSigning = true) (hn : ns ≠ "") (hn' : ns.utf8ByteSize < 4294967296)
    (hk : PrivateKey.fromPath F (Concrete.realCrypto table) disk sign = .ok k) (hright : RightKey table F D (withPin k pin))
    (hc : disk file = some contents) :
    ∃ out s v, signFileWithFile F (Concrete.realCrypto table) D disk file sign pin ns = .ok out ∧
      SshSignature.fromArmoredString out = .ok s ∧
      VerifiedSshSignature.fromSshSignature (Concrete.realCrypto table) contents s ns (some k.pubkey) = .ok v ∧ v.message = contents := by
  obtain ⟨t, hk'⟩ := privFromPath_ok hk
  obtain ⟨hcom, kb, hkb, hkl⟩ := privkey_blob hk'
  have hwf := (C20_privkey F _ none t k hk').1
  have hworks := right_withPin table hF hk' hright
  have signs := fun m => works_signs hworks (by rw [withPin_pubkey]; exact hwf) (by rw [withPin_pubkey]; exact keyBlob_encode hkb hkl) m
  obtain ⟨sig, h1, h2, h3⟩ := signs (signedData (Concrete.realCrypto table) ns .sha512 contents)
  have hv := ((C133_signature F (Concrete.realCrypto table) D contents ns (withPin k pin) none _ rfl).1
    ⟨⟨(withPin k pin).pubkey, ns, .sha512, sig⟩, contents⟩).mpr ⟨sig, ((C132_exact F _ D _ _).1 _).mp h1, ((C21_accepts ..).mp h3).1, rfl⟩
  obtain ⟨text, ht, _⟩ := carried (by rw [withPin_pubkey]; exact hcom) (by rw [withPin_pubkey]; exact hkb) hkl
    (by rw [withPin_pubkey]; exact hwf) hn hn' hv h2
  have hout : signFileWithFile F (Concrete.realCrypto table) D disk file sign pin ns = .ok (println text) := by
    unfold signFileWithFile
    rw [hk]
    simp only [Res.orPanic, Res.ok_bind, hc, Res.unwrap, hv, ht]
    rfl
  obtain ⟨k2, contents2, s, g1, g2, g3, _, _, _, v, g4, g5, _⟩ := C114_printed F _ D disk file sign pin ns _ hn hn'
    (fun k2 m s hk2 hsg => by
      rw [hk] at hk2
      cases hk2
      obtain ⟨sig, g1, g2, _⟩ := signs m
      rw [g1] at hsg
      cases hsg
      exact g2) hout
  rw [hk] at g1
  cases g1
  rw [hc] at g2
  cases g2
  exact ⟨_, s, v, hout, g3, g4, g5⟩

/-- C149: the authority certifies the user's key, the user signs a file, and the signature is verified with the key in the certificate. -/
theorem C149_chain (F F' : Features) (D D' : FidoDev) (disk disk' : Disk) (nonce : Vector UInt8 32) (rserial : Vector UInt8 8)
    (extensions : StrMap) (pub sign file user : String) (pin pin' : Option String) (principal ns : String) (ca k : PrivateKey) (key : PublicKey)
    (contents : Bytes) (hF : F.rsaSigning = true) (hF' : F'.rsaSigning = true)
    (he : extensions.Perm Certificate.standardExtensions) (hp : principal.utf8ByteSize < 4294967292)
    (hn : ns ≠ "") (hn' : ns.utf8ByteSize < 4294967296)
    (hca : PrivateKey.fromPath F (Concrete.realCrypto table) disk sign = .ok ca) (hright : RightKey table F D (withPin ca pin))
    (hpub : PublicKey.fromPath disk pub = .ok key)
    (hk : PrivateKey.fromPath F' (Concrete.realCrypto table) disk' user = .ok k) (hright' : RightKey table F' D' (withPin k pin'))
    (hc : disk' file = some contents)
    (hsame : key.kind = k.pubkey.kind ∧ key.keyType = k.pubkey.keyType) (hplain : key.keyType.name = key.keyType.plain) :
    ∃ out c out' s v, signCertWithFile F (Concrete.realCrypto table) D disk (some nonce) (some rserial) extensions pub sign pin principal =
        .ok out ∧ Certificate.fromString (Concrete.realCrypto table) out = .ok c ∧ c.principals = [principal] ∧
      signFileWithFile F' (Concrete.realCrypto table) D' disk' file user pin' ns = .ok out' ∧ SshSignature.fromArmoredString out' = .ok s ∧
      VerifiedSshSignature.fromSshSignature (Concrete.realCrypto table) contents s ns (some c.key) = .ok v ∧ v.message = contents := by
  obtain ⟨out, c, h1, h2, h3, h4, h5, _, _, _, h6, _⟩ := C149_issues table F D disk nonce rserial extensions pub sign pin principal ca key hF he hp
    hca hright hpub
  obtain ⟨out', s, v, g1, g2, g3, g4⟩ := C149_signs table F' D' disk' file user pin' ns k contents hF' hn hn' hk hright' hc
  refine ⟨out, c, out', s, v, h1, h2, h6, g1, g2, ?_, g4⟩
  obtain ⟨t, hk'⟩ := privFromPath_ok hk
  obtain ⟨hcom, _⟩ := privkey_blob hk'
  obtain ⟨k1, k2, k3⟩ := read_key h2
  have hty : c.key.keyType = k.pubkey.keyType := by
    rw [← hsame.2]
    refine plain_unique _ k1 _ ?_ k2 hplain (by rw [← k2, h4])
    rw [hsame.2]
    exact (C20_privkey F' _ none t k hk').1.1
  have hkey : c.key = k.pubkey := by
    cases hx : c.key
    cases hy : k.pubkey
    rw [hx, hy] at hty
    rw [hy] at hcom hsame
    rw [hx] at h3 h5
    simp_all
  rw [hkey]
  exact g3

/-- C149: or with the key of an entry in an allowed signers file. -/
theorem C149_allowed (F : Features) (D : FidoDev) (T : Chrono) (disk : Disk) (file sign : String) (pin : Option String) (ns : String)
    (k : PrivateKey) (contents : Bytes) (p : List Char) (hF : F.rsaSigning = true) (hn : ns ≠ "") (hn' : ns.utf8ByteSize < 4294967296)
    (hk : PrivateKey.fromPath F (Concrete.realCrypto table) disk sign = .ok k) (hright : RightKey table F D (withPin k pin))
    (hc : disk file = some contents) (hplain : k.pubkey.keyType.name = k.pubkey.keyType.plain)
    (hp : (p ≠ [] ∧ ',' ∉ p ∧ Simple p) ∧ ∀ c ∈ p, ¬ White c) :
    ∃ line a out s v, k.pubkey.display = .ok line ∧ allowedSignersFromString T (p ++ ' ' :: line ++ ['\n']) = .ok [a] ∧ a.principals = [p] ∧
      signFileWithFile F (Concrete.realCrypto table) D disk file sign pin ns = .ok out ∧ SshSignature.fromArmoredString out = .ok s ∧
      VerifiedSshSignature.fromSshSignature (Concrete.realCrypto table) contents s ns (some a.key) = .ok v ∧ v.message = contents := by
  obtain ⟨out, s, v, g1, g2, g3, g4⟩ := C149_signs table F D disk file sign pin ns k contents hF hn hn' hk hright hc
  obtain ⟨t, hk'⟩ := privFromPath_ok hk
  obtain ⟨hcom, _⟩ := privkey_blob hk'
  have hwf := (C20_privkey F _ none t k hk').1
  obtain ⟨text, ht, hf⟩ := C56_partial T ⟨[p], false, none, none, none, k.pubkey⟩ ⟨by simp, by simpa using hp.1⟩ (by intro l h; cases h)
    ⟨rfl, rfl⟩ hwf hplain hcom
  have hd := ht
  unfold AllowedSigner.display at hd
  obtain ⟨line, hl, hd⟩ := bind_ok_iff.mp hd
  have hd : p ++ ' ' :: line = text := by
    have := Res.ok.inj hd
    simpa [AllowedSigner.joinComma] using this
  refine ⟨line, ⟨[p], false, none, none, none, k.pubkey⟩, out, s, v, hl, ?_, rfl, g1, g2, g3, g4⟩
  have := C144_written T [⟨[p], false, none, none, none, k.pubkey⟩] [text] rfl (fun i a t hi ht' => by
      cases i with
      | zero => cases hi; cases ht'; exact ⟨ht, hf⟩
      | succ i => cases hi)
    (fun a ha => by
      rw [List.mem_singleton.mp ha]
      refine ⟨fun x hx hm => ?_, fun l h => by cases h⟩
      rw [List.mem_singleton.mp hx] at hm
      exact hp.2 _ hm (isWs_iff.mp (by decide)))
    (fun a ha q qs c h1 h2 => by
      rw [List.mem_singleton.mp ha] at h1
      cases h1
      exact hp.2 _ (List.mem_of_mem_head? h2))
  rw [← hd] at this
  simpa using this

/-- The halves of a curve key do not belong together. -/
inductive WrongKey (k : PrivateKey) : Prop where
  | p256 (cp : Curve) (key pub : Bytes) : k.kind = .ecdsa ⟨.nistp256, "nistp256"⟩ key → k.pubkey.kind = .ecdsa cp pub none →
      k.pubkey.keyType.name = "ecdsa-sha2-nistp256" → key ≠ [] → ¬ EcPair .p256 Concrete.p256_good.domain key pub → WrongKey k
  | p384 (cp : Curve) (key pub : Bytes) : k.kind = .ecdsa ⟨.nistp384, "nistp384"⟩ key → k.pubkey.kind = .ecdsa cp pub none →
      k.pubkey.keyType.name = "ecdsa-sha2-nistp384" → key ≠ [] → ¬ EcPair .p384 Concrete.p384_good.domain key pub → WrongKey k
  | ed25519 (key pub : Bytes) : k.kind = .ed25519 key → k.pubkey.kind = .ed25519 pub none → k.pubkey.keyType.name = "ssh-ed25519" →
      32 ≤ key.length → pub ≠ edPublic (Concrete.realCrypto table) Concrete.edDomain (key.take 32) → WrongKey k

theorem wrong_withPin {k : PrivateKey} (h : WrongKey table k) (pin : Option String) : withPin k pin = k := by
  cases pin with
  | none => rfl
  | some p =>
    unfold withPin PrivateKey.setPin
    cases h <;> simp_all

/-- C149: with a key whose halves do not belong together both programs end with a panic, whatever is to be signed. -/
theorem C149_wrong (F : Features) (D : FidoDev) (disk : Disk) (nonce : Vector UInt8 32) (rserial : Vector UInt8 8) (extensions : StrMap)
    (file sign : String) (pin : Option String) (principal ns : String) (k : PrivateKey) (key : PublicKey) (contents : Bytes)
    (he : extensions.Perm Certificate.standardExtensions) (hp : principal.utf8ByteSize < 4294967292)
    (hk : PrivateKey.fromPath F (Concrete.realCrypto table) disk sign = .ok k) (hwrong : WrongKey table k) :
    (PublicKey.fromPath disk file = .ok key →
      signCertWithFile F (Concrete.realCrypto table) D disk (some nonce) (some rserial) extensions file sign pin principal = .panic) ∧
    (disk file = some contents → signFileWithFile F (Concrete.realCrypto table) D disk file sign pin ns = .panic) := by
  obtain ⟨t, hk'⟩ := privFromPath_ok hk
  obtain ⟨hcom, kb, hkb, hkl⟩ := privkey_blob hk'
  have hwf := (C20_privkey F _ none t k hk').1
  constructor
  · intro hkey
    obtain ⟨req, hc, hw, hsk⟩ := request_exists (nonce := nonce) (rserial := rserial) (serial := 0) (principal := principal) he hp hwf
      (keyBlob_encode hkb hkl) hkey
    have hs : req.sign (Concrete.realCrypto table) (k.sign F (Concrete.realCrypto table) D) = .err .signingError := by
      cases hwrong with
      | p256 cp sec pub h1 h2 h3 h4 h5 =>
        exact C147_mismatch_ecdsa F _ D .p256 Concrete.p256_good.domain (Concrete.p256_signs table) (Concrete.p256_verifies table) p256_width k _ cp
          sec pub h1 h2 (by decide) h3 rfl h4 req hw hsk h5
      | p384 cp sec pub h1 h2 h3 h4 h5 =>
        exact C147_mismatch_ecdsa F _ D .p384 Concrete.p384_good.domain (Concrete.p384_signs table) (Concrete.p384_verifies table)
          Concrete.p384_width k _ cp sec pub h1 h2 (by decide) h3 rfl h4 req hw hsk h5
      | ed25519 sec pub h1 h2 h3 h4 h5 =>
        exact C147_mismatch_ed25519 F _ D Concrete.edDomain (Concrete.ed_signs table) (Concrete.ed_verifies table) k sec pub h1 h2 h3 h4 req hw hsk h5
    unfold signCertWithFile
    rw [hk]
    simp only [Res.orPanic, Res.ok_bind, wrong_withPin table hwrong, hc, hs]
    rfl
  · intro hc
    have hs : VerifiedSshSignature.newWithPrivateKey F (Concrete.realCrypto table) D contents ns k none = .err .signingError := by
      obtain ⟨w1, w2, w3⟩ := C148_wrong table F D k hwf.1 contents ns none
      cases hwrong with
      | p256 cp sec pub h1 h2 h3 h4 h5 => exact w1 cp sec pub h1 h2 h3 h4 h5
      | p384 cp sec pub h1 h2 h3 h4 h5 => exact w2 cp sec pub h1 h2 h3 h4 h5
      | ed25519 sec pub h1 h2 h3 h4 h5 => exact w3 sec pub h1 h2 h3 h4 h5
    unfold signFileWithFile
    rw [hk]
    simp only [Res.orPanic, Res.ok_bind, wrong_withPin table hwrong, hc, Res.unwrap, hs]
    rfl

/-! ### An authority with the RSA key of C145, a user with the P-256 key of RFC 6979 -/

theorem curve_file (k : PrivateKey) (hw : WellFormedPriv true k) (he : k.encode = .ok (okOf [] k.encode))
    (hl : (okOf [] k.encode).length < 4294967296) (hs : stored k = k) :
    ∃ t, PrivateKey.fromStringWithPassphrase ⟨true, true, .none⟩ (Concrete.realCrypto []) t none = .ok k := by
  obtain ⟨t, _, h⟩ := C41_roundtrip ⟨true, true, .none⟩ (Concrete.realCrypto []) none k hw (fun w h => by
    rw [he] at h
    rw [← Res.ok.inj h]
    exact hl)
  exact ⟨t, hs ▸ h⟩

theorem rfcEc_file : ∃ t, PrivateKey.fromStringWithPassphrase ⟨true, true, .none⟩ (Concrete.realCrypto []) t none = .ok rfcEcPriv :=
  curve_file _ ⟨by decide +kernel, rfl, by decide, rfl, rfl, by decide, by decide +kernel, by decide +kernel, rfl, rfl⟩
    (okOf_eq (d := []) (by decide +kernel)) (by decide +kernel) rfl

/-- The key of RFC 6979 with another secret. -/
def wrongEcPriv : PrivateKey := { rfcEcPriv with kind := .ecdsa ⟨.nistp256, "nistp256"⟩ (0 :: otherSecret) }

theorem wrongEc_file : ∃ t, PrivateKey.fromStringWithPassphrase ⟨true, true, .none⟩ (Concrete.realCrypto []) t none = .ok wrongEcPriv :=
  curve_file _ ⟨by decide +kernel, rfl, by decide, rfl, rfl, by decide, by decide +kernel, by decide +kernel, rfl, rfl⟩
    (okOf_eq (d := []) (by decide +kernel)) (by decide +kernel) rfl

/-- A disk with the four files. -/
def fourFiles (ca user pub : List Char) (doc : Bytes) : Disk := fun p =>
  if p = "/ca" then some (strBytes (String.ofList ca))
  else if p = "/user" then some (strBytes (String.ofList user))
  else if p = "/user.pub" then some (strBytes (String.ofList pub))
  else some doc

theorem fourFiles_keys {ca user pub : List Char} {doc : Bytes} :
    PrivateKey.fromPath ⟨true, true, .none⟩ (Concrete.realCrypto []) (fourFiles ca user pub doc) "/ca" =
      PrivateKey.fromStringWithPassphrase ⟨true, true, .none⟩ (Concrete.realCrypto []) ca none ∧
    PrivateKey.fromPath ⟨true, true, .none⟩ (Concrete.realCrypto []) (fourFiles ca user pub doc) "/user" =
      PrivateKey.fromStringWithPassphrase ⟨true, true, .none⟩ (Concrete.realCrypto []) user none ∧
    PublicKey.fromPath (fourFiles ca user pub doc) "/user.pub" = PublicKey.fromString pub :=
  ⟨(C101_text _ _ ⟨fun _ => none, fun _ => none, fun _ => none, fun _ => none⟩ _ _ _ none (by rfl)).2.2.2.1,
    (C101_text _ _ ⟨fun _ => none, fun _ => none, fun _ => none, fun _ => none⟩ _ _ _ none (by rfl)).2.2.2.1,
    (C101_text ⟨true, true, .none⟩ (Concrete.realCrypto []) ⟨fun _ => none, fun _ => none, fun _ => none, fun _ => none⟩ _ _ _ none (by rfl)).1⟩

/-- For every document the two programs run and the signature is verified with the key in the certificate. -/
example (D : FidoDev) (doc : Bytes) : ∃ disk out c out' s v, disk "/doc" = some doc ∧
    signCertWithFile ⟨true, true, .none⟩ (Concrete.realCrypto []) D disk (some (Vector.replicate 32 1)) (some (Vector.replicate 8 2))
      Certificate.standardExtensions "/user.pub" "/ca" none "user" = .ok out ∧
    Certificate.fromString (Concrete.realCrypto []) out = .ok c ∧ c.principals = ["user"] ∧
    signFileWithFile ⟨true, true, .none⟩ (Concrete.realCrypto []) D disk "/doc" "/user" none "file" = .ok out' ∧
    SshSignature.fromArmoredString out' = .ok s ∧
    VerifiedSshSignature.fromSshSignature (Concrete.realCrypto []) doc s "file" (some c.key) = .ok v ∧ v.message = doc := by
  obtain ⟨ca, hca⟩ := mersenne_file
  obtain ⟨user, huser⟩ := rfcEc_file
  have hpub : PublicKey.fromString (okOf [] rfcEcPriv.pubkey.display) = .ok rfcEcPriv.pubkey := by decide +kernel
  obtain ⟨e1, e2, e3⟩ := fourFiles_keys (ca := ca) (user := user) (pub := okOf [] rfcEcPriv.pubkey.display) (doc := doc)
  obtain ⟨out, c, out', s, v, h⟩ := C149_chain [] ⟨true, true, .none⟩ ⟨true, true, .none⟩ D D
    (fourFiles ca user (okOf [] rfcEcPriv.pubkey.display) doc) (fourFiles ca user (okOf [] rfcEcPriv.pubkey.display) doc)
    (Vector.replicate 32 1) (Vector.replicate 8 2) Certificate.standardExtensions "/user.pub" "/ca" "/doc" "/user" none none "user" "file"
    mersennePriv rfcEcPriv rfcEcPriv.pubkey doc rfl rfl (List.Perm.refl _) (by decide) (by decide) (by decide) (e1.trans hca)
    (.rsa _ rfl mersenne_numbers mersenne_supported) (e3.trans hpub) (e2.trans huser) (.p256 _ _ _ rfl rfl rfl rfcEc_pair) rfl ⟨rfl, rfl⟩ rfl
  exact ⟨_, out, c, out', s, v, rfl, h⟩

/-- For every document the user's signature is verified with an allowed signers file. -/
example (D : FidoDev) (T : Chrono) (doc : Bytes) : ∃ line a s v, rfcEcPriv.pubkey.display = .ok line ∧
    allowedSignersFromString T ("me@x".toList ++ ' ' :: line ++ ['\n']) = .ok [a] ∧ a.principals = ["me@x".toList] ∧
    VerifiedSshSignature.fromSshSignature (Concrete.realCrypto []) doc s "file" (some a.key) = .ok v ∧ v.message = doc := by
  obtain ⟨user, huser⟩ := rfcEc_file
  obtain ⟨_, e2, _⟩ := fourFiles_keys (ca := []) (user := user) (pub := []) (doc := doc)
  obtain ⟨line, a, _, s, v, h1, h2, h3, _, _, h4, h5⟩ := C149_allowed [] ⟨true, true, .none⟩ D T (fourFiles [] user [] doc) "/doc" "/user" none
    "file" rfcEcPriv doc "me@x".toList rfl (by decide) (by decide) (e2.trans huser) (.p256 _ _ _ rfl rfl rfl rfcEc_pair) rfl rfl
    ⟨⟨by decide, by decide, by unfold Simple; decide⟩, by unfold White; decide +kernel⟩
  exact ⟨line, a, s, v, h1, h2, h3, h4, h5⟩

/-- With the other secret sign-file-with-file panics. -/
example (D : FidoDev) (doc : Bytes) : ∃ disk, disk "/doc" = some doc ∧
    PrivateKey.fromPath ⟨true, true, .none⟩ (Concrete.realCrypto []) disk "/user" = .ok wrongEcPriv ∧
    signFileWithFile ⟨true, true, .none⟩ (Concrete.realCrypto []) D disk "/doc" "/user" none "file" = .panic := by
  obtain ⟨user, huser⟩ := wrongEc_file
  obtain ⟨_, e2, _⟩ := fourFiles_keys (ca := []) (user := user) (pub := []) (doc := doc)
  exact ⟨fourFiles [] user [] doc, rfl, e2.trans huser, (C149_wrong [] ⟨true, true, .none⟩ D (fourFiles [] user [] doc) (Vector.replicate 32 1)
    (Vector.replicate 8 2) Certificate.standardExtensions "/doc" "/user" none "user" "file" wrongEcPriv sampleEd doc (List.Perm.refl _) (by decide)
    (e2.trans huser) (.p256 _ _ _ rfl rfl rfl (by simp) otherEc_pair)).2 rfl⟩

end Ssh
