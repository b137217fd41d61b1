import Verif.Lemmas.Fido
import Verif.Props.PrivKey

/-! # FIDO: authenticator data, attestation, key generation -/

namespace Ssh
open Spec

/-! ## C61 -/

/-- C61: authenticator data is accepted exactly if it has the layout of the standard, with attested credential data and
a COSE key whose entries are known; bytes after the key are ignored. -/
theorem C61_exact (raw : Bytes) (a : AuthData) : AuthData.parse raw = .ok a ↔ ∃ fs junk, AuthDataIs raw a fs junk := parse_ok

/-- C61: parsing never panics. -/
theorem C61_total (raw : Bytes) : AuthData.parse raw ≠ .panic := parse_noPanic raw

/-- C61: the fields are the bytes at the fixed positions. -/
theorem C61_layout (raw : Bytes) (a : AuthData) (h : AuthData.parse raw = .ok a) :
    a.rpidHash = raw.take 32 ∧ raw[32]? = some a.flags ∧ a.signCount.toNat = natOf ((raw.drop 33).take 4) ∧
    a.aaguid = (raw.drop 37).take 16 ∧ a.credentialId = (raw.drop 55).take (natOf ((raw.drop 53).take 2)) ∧
    a.credentialId.length = natOf ((raw.drop 53).take 2) ∧ a.rpidHash.length = 32 ∧ a.aaguid.length = 16 ∧
    a.flags.toNat.testBit 6 = true := by
  obtain ⟨fs, junk, count, len, cose, rfl, l1, l2, h1, l3, l4, h2, h3, _, _⟩ := parse_ok.mp h
  have d0 : ∀ (x y : Bytes) (n : Nat), x.length = n → (x ++ y).take n = x ∧ (x ++ y).drop n = y := by
    rintro x y n rfl
    simp
  simp only [List.append_assoc]
  have e1 := d0 a.rpidHash ([a.flags] ++ (count ++ (a.aaguid ++ (len ++ (a.credentialId ++ (cose ++ junk)))))) 32 l1
  have e2 := d0 (a.rpidHash ++ [a.flags]) (count ++ (a.aaguid ++ (len ++ (a.credentialId ++ (cose ++ junk))))) 33 (by simp [l1])
  have e3 := d0 count (a.aaguid ++ (len ++ (a.credentialId ++ (cose ++ junk)))) 4 l2
  have e4 := d0 (a.rpidHash ++ [a.flags] ++ count) (a.aaguid ++ (len ++ (a.credentialId ++ (cose ++ junk)))) 37 (by simp [l1, l2])
  have e5 := d0 a.aaguid (len ++ (a.credentialId ++ (cose ++ junk))) 16 l3
  have e6 := d0 (a.rpidHash ++ [a.flags] ++ count ++ a.aaguid) (len ++ (a.credentialId ++ (cose ++ junk))) 53 (by simp [l1, l2, l3])
  have e7 := d0 len (a.credentialId ++ (cose ++ junk)) 2 l4
  have e8 := d0 (a.rpidHash ++ [a.flags] ++ count ++ a.aaguid ++ len) (a.credentialId ++ (cose ++ junk)) 55 (by simp [l1, l2, l3, l4])
  have e9 := d0 a.credentialId (cose ++ junk) _ rfl
  simp only [List.append_assoc] at e1 e2 e3 e4 e5 e6 e7 e8 e9
  refine ⟨e1.1.symm, ?_, by rw [e2.2, e3.1]; exact h1, by rw [e4.2, e5.1], by rw [e6.2, e7.1, e8.2, h2, e9.1],
    by rw [e6.2, e7.1, h2], l1, l3, h3⟩
  rw [List.getElem?_append_right (by omega), l1]
  rfl

/-- C61: bytes after accepted authenticator data change nothing. -/
theorem C61_trailing (raw junk : Bytes) (a : AuthData) (h : AuthData.parse raw = .ok a) : AuthData.parse (raw ++ junk) = .ok a := by
  obtain ⟨fs, j, count, len, cose, rfl, hr⟩ := parse_ok.mp h
  exact parse_ok.mpr ⟨fs, j ++ junk, count, len, cose, by simp, hr⟩

/-- An Ed25519 COSE key, entries in a non-canonical order. -/
def sampleCose : Bytes :=
  [0xa4, 0x03, 0x27, 0x01, 0x01, 0x21, 0x58, 0x20] ++ List.replicate 32 9 ++ [0x20, 0x06]

def sampleAuthData : Bytes :=
  List.replicate 32 1 ++ [0x45] ++ [0, 0, 0, 7] ++ List.replicate 16 2 ++ [0, 3] ++ [10, 11, 12] ++ sampleCose

example : AuthData.parse sampleAuthData =
    .ok ⟨List.replicate 32 1, 0x45, 7, List.replicate 16 2, [10, 11, 12], ⟨1, -8, List.replicate 32 9, some 6⟩⟩ := by decide +kernel

/-! ## C62 -/

/-- C62: an Ed25519 key in authenticator data becomes the SSH key with the same value, in whatever order and with whatever
integer encodings the entries come. -/
theorem C62_okp (rp count aaguid len id w junk v : Bytes) (flags : UInt8) (fs : List CoseField) (app : String)
    (l1 : rp.length = 32) (l2 : count.length = 4) (l3 : aaguid.length = 16) (l4 : len.length = 2) (l5 : natOf len = id.length)
    (hf : flags.toNat.testBit 6 = true) (hw : CoseMap fs w)
    (hp : fs.Perm [.keyType 1, .algorithm (-8), .curve 6, .x v]) :
    ∃ a kt, AuthData.parse (rp ++ [flags] ++ count ++ aaguid ++ len ++ id ++ w ++ junk) = .ok a ∧
      a.coseKey = ⟨1, -8, v, some 6⟩ ∧ KeyType.fromName "sk-ssh-ed25519@openssh.com" = .ok kt ∧
      a.sshPublicKey app = .ok ⟨kt, .ed25519 v (some app), none⟩ := by
  have h1 := List.perm_singleton.mp (hp.filterMap CoseField.keyType?)
  have h2 := List.perm_singleton.mp (hp.filterMap CoseField.algorithm?)
  have h3 := List.perm_singleton.mp (hp.filterMap CoseField.coordinate?)
  have h4 := List.perm_singleton.mp (hp.filterMap CoseField.curve?)
  have hs : (UInt32.ofNat (natOf count)).toNat = natOf count := by
    have := natOf_lt count
    rw [l2] at this
    rw [UInt32.toNat_ofNat']
    exact Nat.mod_eq_of_lt this
  refine ⟨⟨rp, flags, UInt32.ofNat (natOf count), aaguid, id, ⟨1, -8, v, some 6⟩⟩, _, parse_ok.mpr
    ⟨fs, junk, count, len, w, rfl, l1, l2, hs, l3, l4, l5, hf, hw, ?_⟩, rfl, rfl, rfl⟩
  exact ⟨by rw [h1]; rfl, by rw [h2]; rfl, by rw [h3]; rfl, by rw [h4]; rfl⟩

/-- The coordinate of an EC2 key that comes last. -/
theorem ec2_last {fs : List CoseField} {vx vy : Bytes} (hp : fs.Perm [.keyType 2, .algorithm (-7), .curve 1, .x vx, .y vy])
    (ho : List.Sublist [.x vx, .y vy] fs) : fs.filterMap CoseField.coordinate? = [vx, vy] := by
  have h3 := (hp.filterMap CoseField.coordinate?).length_eq
  have h5 := ho.filterMap CoseField.coordinate?
  exact (h5.eq_of_length (by rw [h3]; rfl)).symm

/-- C62: of an EC2 key only the last coordinate is kept, and the SSH key made from it has that coordinate as its
point. -/
theorem C62_ec2 (rp count aaguid len id w junk vx vy : Bytes) (flags : UInt8) (fs : List CoseField) (app : String)
    (l1 : rp.length = 32) (l2 : count.length = 4) (l3 : aaguid.length = 16) (l4 : len.length = 2) (l5 : natOf len = id.length)
    (hf : flags.toNat.testBit 6 = true) (hw : CoseMap fs w)
    (hp : fs.Perm [.keyType 2, .algorithm (-7), .curve 1, .x vx, .y vy]) (ho : List.Sublist [.x vx, .y vy] fs) :
    ∃ a kt, AuthData.parse (rp ++ [flags] ++ count ++ aaguid ++ len ++ id ++ w ++ junk) = .ok a ∧
      a.coseKey = ⟨2, -7, vy, some 1⟩ ∧ KeyType.fromName "sk-ecdsa-sha2-nistp256@openssh.com" = .ok kt ∧
      a.sshPublicKey app = .ok ⟨kt, .ecdsa ⟨.nistp256, "nistp256"⟩ vy (some app), none⟩ := by
  have h1 := List.perm_singleton.mp (hp.filterMap CoseField.keyType?)
  have h2 := List.perm_singleton.mp (hp.filterMap CoseField.algorithm?)
  have h3 := ec2_last hp ho
  have h4 := List.perm_singleton.mp (hp.filterMap CoseField.curve?)
  have hs : (UInt32.ofNat (natOf count)).toNat = natOf count := by
    have := natOf_lt count
    rw [l2] at this
    rw [UInt32.toNat_ofNat']
    exact Nat.mod_eq_of_lt this
  refine ⟨⟨rp, flags, UInt32.ofNat (natOf count), aaguid, id, ⟨2, -7, vy, some 1⟩⟩, _, parse_ok.mpr
    ⟨fs, junk, count, len, w, rfl, l1, l2, hs, l3, l4, l5, hf, hw, ?_⟩, rfl, rfl, rfl⟩
  exact ⟨by rw [h1]; rfl, by rw [h2]; rfl, by rw [h3]; rfl, by rw [h4]; rfl⟩

/-- C62: the SSH key depends on the algorithm and the kept value only; other algorithms are rejected. -/
theorem C62_ssh_key (a : AuthData) (app : String) (k : PublicKey) : a.sshPublicKey app = .ok k ↔
    k.comment = none ∧
    ((a.coseKey.algorithm = -7 ∧ k.keyType.name = "sk-ecdsa-sha2-nistp256@openssh.com" ∧ k.keyType ∈ keyTypes ∧
        ∃ c ∈ curves, c.identifier = "nistp256" ∧ k.kind = .ecdsa c a.coseKey.key (some app)) ∨
     (a.coseKey.algorithm = -8 ∧ k.keyType.name = "sk-ssh-ed25519@openssh.com" ∧ k.keyType ∈ keyTypes ∧
        k.kind = .ed25519 a.coseKey.key (some app))) := by
  unfold AuthData.sshPublicKey
  have ktE : ∀ kt ∈ keyTypes, kt.name = "sk-ecdsa-sha2-nistp256@openssh.com" →
      keyTypeUnwrap "sk-ecdsa-sha2-nistp256@openssh.com" = .ok kt := by decide +kernel
  have ktD : ∀ kt ∈ keyTypes, kt.name = "sk-ssh-ed25519@openssh.com" →
      keyTypeUnwrap "sk-ssh-ed25519@openssh.com" = .ok kt := by decide +kernel
  have cE : ∀ c ∈ curves, c.identifier = "nistp256" → c = ⟨.nistp256, "nistp256"⟩ := by decide +kernel
  have k1 : ∃ kt ∈ keyTypes, kt.name = "sk-ecdsa-sha2-nistp256@openssh.com" := by decide +kernel
  have k2 : ∃ kt ∈ keyTypes, kt.name = "sk-ssh-ed25519@openssh.com" := by decide +kernel
  obtain ⟨t1, m1, n1⟩ := k1
  obtain ⟨t2, m2, n2⟩ := k2
  have hc : curveUnwrap "nistp256" = .ok ⟨.nistp256, "nistp256"⟩ := rfl
  split
  · rename_i h
    rw [hc, Res.ok_bind, ktE t1 m1 n1, Res.ok_bind, Res.pure_eq]
    constructor
    · intro e; cases e
      exact ⟨rfl, .inl ⟨h, n1, m1, ⟨.nistp256, "nistp256"⟩, by decide +kernel, rfl, rfl⟩⟩
    · obtain ⟨kt, kind, cm⟩ := k
      rintro ⟨rfl, ⟨_, hn, hm, c, hc1, hc2, rfl⟩ | ⟨h', _⟩⟩
      · have := ktE kt hm hn
        rw [ktE t1 m1 n1] at this
        cases this
        rw [cE c hc1 hc2]
      · rw [h] at h'; exact absurd h' (by decide)
  · rename_i h
    split
    · rename_i h8
      rw [ktD t2 m2 n2, Res.ok_bind, Res.pure_eq]
      constructor
      · intro e; cases e
        exact ⟨rfl, .inr ⟨h8, n2, m2, rfl⟩⟩
      · obtain ⟨kt, kind, cm⟩ := k
        rintro ⟨rfl, ⟨h', _⟩ | ⟨_, hn, hm, rfl⟩⟩
        · exact absurd h' h
        · have := ktD kt hm hn
          rw [ktD t2 m2 n2] at this
          cases this
          rfl
    · rename_i h8
      refine ⟨nofun, ?_⟩
      rintro ⟨_, ⟨h', _⟩ | ⟨h', _⟩⟩
      · exact absurd h' h
      · exact absurd h' h8

example : CoseMap [.algorithm (-8), .keyType 1, .x (List.replicate 32 9), .curve 6] sampleCose := by
  refine ⟨by decide, [0xa4], sampleCose.drop 1, .inl ⟨by decide, rfl⟩, ?_, rfl⟩
  have i3 : CborInt 3 [3] := .inl ⟨3, rfl, .inl ⟨by decide, rfl⟩⟩
  have i8 : CborInt (-8) [0x27] := .inr ⟨7, rfl, by decide, .inl ⟨by decide, rfl⟩⟩
  have i1 : CborInt 1 [1] := .inl ⟨1, rfl, .inl ⟨by decide, rfl⟩⟩
  have i2 : CborInt (-2) [0x21] := .inr ⟨1, rfl, by decide, .inl ⟨by decide, rfl⟩⟩
  have im : CborInt (-1) [0x20] := .inr ⟨0, rfl, by decide, .inl ⟨by decide, rfl⟩⟩
  have i6 : CborInt 6 [6] := .inl ⟨6, rfl, .inl ⟨by decide, rfl⟩⟩
  have bs : CborBytes (List.replicate 32 9) ([0x58, 0x20] ++ List.replicate 32 9) :=
    ⟨[0x58, 0x20], .inr ⟨24, 1, [32], by decide, rfl, by decide, rfl⟩, rfl⟩
  exact .cons (f := .algorithm (-8)) (a := [3, 0x27]) ⟨_, _, i3, i8, rfl⟩
    (.cons (f := .keyType 1) (a := [1, 1]) ⟨_, _, i1, i1, rfl⟩
      (.cons (f := .x (List.replicate 32 9)) (a := [0x21] ++ ([0x58, 0x20] ++ List.replicate 32 9)) ⟨_, _, i2, bs, rfl⟩
        (.cons (f := .curve 6) (a := [0x20, 6]) ⟨_, _, im, i6, rfl⟩ .nil)))

/-- An EC2 key with the given coordinates. -/
def ec2AuthData (x y : UInt8) : Bytes :=
  List.replicate 32 1 ++ [0x41] ++ [0, 0, 0, 7] ++ List.replicate 16 2 ++ [0, 0] ++
    ([0xa5, 0x01, 0x02, 0x03, 0x26, 0x20, 0x01, 0x21, 0x58, 0x20] ++ List.replicate 32 x ++ [0x22, 0x58, 0x20] ++ List.replicate 32 y)

/-- C62: consequently different EC2 keys give the same SSH key. -/
theorem C62_ec2_collision : ∃ (x x' y : UInt8) (a a' : AuthData) (k : PublicKey), x ≠ x' ∧
    AuthData.parse (ec2AuthData x y) = .ok a ∧ AuthData.parse (ec2AuthData x' y) = .ok a' ∧
    a.sshPublicKey "ssh:" = .ok k ∧ a'.sshPublicKey "ssh:" = .ok k :=
  ⟨5, 6, 7, ⟨List.replicate 32 1, 0x41, 7, List.replicate 16 2, [], ⟨2, -7, List.replicate 32 7, some 1⟩⟩,
    ⟨List.replicate 32 1, 0x41, 7, List.replicate 16 2, [], ⟨2, -7, List.replicate 32 7, some 1⟩⟩, _,
    by decide, by decide +kernel, by decide +kernel, rfl, rfl⟩

/-! ## C63 -/

/-- C63: exactly which attestations are accepted, and what is returned. -/
theorem C63_exact (X : X509Env) (C : Crypto) (yubicoRoot : String) (authData sig challenge intermediate : Bytes) (alg : Int)
    (rootPem : Option String) (v : ValidAttestation) :
    verifyAuthData X C yubicoRoot authData sig challenge alg intermediate rootPem = .ok v ↔
    alg = -7 ∧ ∃ i, Attested X C (rootPem.getD yubicoRoot) intermediate authData challenge sig i ∧
      AuthData.parse authData = .ok v.authData ∧ ExtensionsDecode X i.extensions ∧ AttestationInfo X i.extensions v := verifyAuthData_ok

/-- C63: verification never panics. -/
theorem C63_total (X : X509Env) (C : Crypto) (yubicoRoot : String) (authData sig challenge intermediate : Bytes) (alg : Int)
    (rootPem : Option String) : verifyAuthData X C yubicoRoot authData sig challenge alg intermediate rootPem ≠ .panic :=
  verifyAuthData_noPanic X C yubicoRoot authData sig challenge intermediate alg rootPem

/-- Parsers and a signature check for the examples: one root, one certificate with all three extensions. -/
def sampleFidoX : X509Env where
  parsePem _ := some ⟨⟨"root", none, [], [1]⟩, [], [1]⟩
  parseDer b := if b = [2] then some ⟨⟨"ec", none, [4], [3]⟩, [("1.3.6.1.4.1.41482.13.1", [5, 4, 3]),
    ("1.3.6.1.4.1.45724.2.1.1", [0x38]), ("2.5.29.19", [])], [2]⟩ else none
  parseCsr _ := none
  verify i r := i.raw = [2] ∧ r.raw = [1]
  octetString b := some b
  bitString b := some b
  integer b := some b
  derSequence _ := none

def sampleFidoC : Crypto := { laxCrypto with ecdsaAsn1Verify := fun k m s => k = [4] ∧ m = sampleAuthData ++ [1, 2, 3] ∧ s = [9] }

/-- A verified attestation. -/
def sampleAttestation : ValidAttestation :=
  ⟨⟨List.replicate 32 1, 0x45, 7, List.replicate 16 2, [10, 11, 12], ⟨1, -8, List.replicate 32 9, some 6⟩⟩,
    some "5.4.3".toList, none, some [.usb, .nfc]⟩

theorem sampleAttestation_verifies (root : String) (pem : Option String) :
    verifyAuthData sampleFidoX sampleFidoC root sampleAuthData [9] [1, 2, 3] (-7) [2] pem = .ok sampleAttestation := by
  have : ∀ r, verifyAuthData sampleFidoX sampleFidoC r sampleAuthData [9] [1, 2, 3] (-7) [2] none = .ok sampleAttestation := by
    intro r
    show verifyAuthData sampleFidoX sampleFidoC "" sampleAuthData [9] [1, 2, 3] (-7) [2] none = .ok sampleAttestation
    decide +kernel
  cases pem with
  | none => exact this root
  | some r => exact this r

example : ∀ s, s ≠ [9] → ∀ v, verifyAuthData sampleFidoX sampleFidoC "" sampleAuthData s [1, 2, 3] (-7) [2] none ≠ .ok v := by
  intro s hs v h
  obtain ⟨_, i, ⟨_, _, _, _, h4⟩, _⟩ := (C63_exact ..).mp h
  exact hs (of_decide_eq_true h4).2.2

/-! ## C64 -/

/-- C64: moving bytes from the start of the challenge to the end of the authenticator data keeps an attestation valid, with the
same result. -/
theorem C64_boundary (X : X509Env) (C : Crypto) (yubicoRoot : String) (authData sig c1 c2 intermediate : Bytes) (alg : Int)
    (rootPem : Option String) (v : ValidAttestation)
    (h : verifyAuthData X C yubicoRoot authData sig (c1 ++ c2) alg intermediate rootPem = .ok v) :
    verifyAuthData X C yubicoRoot (authData ++ c1) sig c2 alg intermediate rootPem = .ok v := by
  rw [verifyAuthData_ok] at h ⊢
  obtain ⟨ha, i, ⟨r, h1, h2, h3, h4⟩, h5, h6, h7⟩ := h
  exact ⟨ha, i, ⟨r, h1, h2, h3, by rw [List.append_assoc]; exact h4⟩, C61_trailing _ _ _ h5, h6, h7⟩

/-- C64: and back, as long as what remains is still authenticator data. -/
theorem C64_back (X : X509Env) (C : Crypto) (yubicoRoot : String) (authData sig c1 c2 intermediate : Bytes) (alg : Int)
    (rootPem : Option String) (v : ValidAttestation) (a : AuthData) (hp : AuthData.parse authData = .ok a)
    (h : verifyAuthData X C yubicoRoot (authData ++ c1) sig c2 alg intermediate rootPem = .ok v) :
    verifyAuthData X C yubicoRoot authData sig (c1 ++ c2) alg intermediate rootPem = .ok v := by
  rw [verifyAuthData_ok] at h ⊢
  obtain ⟨ha, i, ⟨r, h1, h2, h3, h4⟩, h5, h6, h7⟩ := h
  rw [C61_trailing _ _ _ hp] at h5
  cases h5
  exact ⟨ha, i, ⟨r, h1, h2, h3, by rw [← List.append_assoc]; exact h4⟩, hp, h6, h7⟩

example : verifyAuthData sampleFidoX sampleFidoC "" (sampleAuthData ++ [1, 2]) [9] [3] (-7) [2] none = .ok sampleAttestation :=
  C64_boundary _ _ _ _ _ [1, 2] [3] _ _ _ _ (sampleAttestation_verifies _ _)

/-! ## C70 -/

theorem firstCert_spec (l : List Bytes) : FirstOrEmpty l (firstCert l) := by
  cases l with
  | nil => exact .inl ⟨rfl, rfl⟩
  | cons a r => exact .inr ⟨r, rfl⟩

theorem firstCert_unique {l : List Bytes} {c : Bytes} (h : FirstOrEmpty l c) : c = firstCert l := by
  obtain ⟨rfl, rfl⟩ | ⟨r, rfl⟩ := h <;> rfl

theorem flags_spec (att : CtapAttestation) : ReportedFlags att att.flags := by
  obtain ⟨a, b, c, d⟩ := att
  cases a <;> cases b <;> cases c <;> cases d <;> simp [ReportedFlags, CtapAttestation.flags]

theorem flags_unique {att : CtapAttestation} {f : UInt8} (h : ReportedFlags att f) : f = att.flags :=
  UInt8.toNat_inj.mp (h.trans (flags_spec att).symm)

theorem ctap_ok (X : X509Env) (C : Crypto) (yubicoRoot application comment : String) (pin path : Option String) (challenge : Bytes)
    (answer : Except String CtapAttestation) (k : FidoSshKey) :
    ctapGenerate X C yubicoRoot application comment pin path challenge answer = .ok k ↔
    ∃ att v, answer = .ok att ∧ k.attestation = ⟨att.authData, att.sig, firstCert att.x5c, C.sha256 challenge, att.alg⟩ ∧
      verifyAuthData X C yubicoRoot att.authData att.sig (C.sha256 challenge) att.alg (firstCert att.x5c) none = .ok v ∧
      v.authData.sshPublicKey application = .ok k.privateKey.pubkey ∧
      k.privateKey.keyType.name = "sk-ssh-ed25519@openssh.com" ∧ k.privateKey.keyType ∈ keyTypes ∧ k.privateKey.magic = 0 ∧
      k.privateKey.comment = comment ∧ k.privateKey.kind = .ed25519Sk ⟨att.flags, att.credentialId, [], pin, path⟩ := by
  have ktD : ∀ kt ∈ keyTypes, kt.name = "sk-ssh-ed25519@openssh.com" → KeyType.fromName "sk-ssh-ed25519@openssh.com" = .ok kt := by
    decide +kernel
  have k2 : ∃ kt ∈ keyTypes, kt.name = "sk-ssh-ed25519@openssh.com" := by decide +kernel
  obtain ⟨t2, m2, n2⟩ := k2
  unfold ctapGenerate
  constructor
  · intro h
    obtain ⟨att, h1, h⟩ := bind_ok_iff.mp h
    rw [ktD t2 m2 n2, Res.ok_bind] at h
    obtain ⟨ad, h3, h⟩ := bind_ok_iff.mp h
    obtain ⟨pk, h4, h⟩ := bind_ok_iff.mp h
    obtain ⟨v, h5, h⟩ := bind_ok_iff.mp h
    cases h
    have h5 : verifyAuthData X C yubicoRoot att.authData att.sig (C.sha256 challenge) att.alg (firstCert att.x5c) none = .ok v := h5
    obtain ⟨_, _, _, h6, _⟩ := verifyAuthData_ok.mp h5
    rw [h6] at h3
    cases h3
    exact ⟨att, v, ofExcept_ok.mp h1, rfl, h5, h4, n2, m2, rfl, rfl, rfl⟩
  · rintro ⟨att, v, rfl, h1, h2, h3, h4, h5, h6, h7, h8⟩
    obtain ⟨⟨kt, kind, pk, m, cm⟩, at'⟩ := k
    dsimp only at h1 h3 h4 h5 h6 h7 h8
    subst h1 h6 h7 h8
    obtain ⟨_, _, _, h9, _⟩ := verifyAuthData_ok.mp h2
    simp only [Res.ofExcept, Res.ok_bind]
    rw [ktD kt h5 h4, Res.ok_bind, h9, Res.ok_bind, h3, Res.ok_bind]
    have : (⟨att.authData, att.sig, firstCert att.x5c, C.sha256 challenge, att.alg⟩ : U2FAttestation).verify X C yubicoRoot = .ok v := h2
    rw [this]
    rfl

theorem moz_ok (X : X509Env) (C : Crypto) (yubicoRoot application comment : String) (pin : Option String) (challenge : Bytes)
    (att : MozAttestation) (k : FidoSshKey) :
    mozGenerate X C yubicoRoot application comment pin challenge att = .ok k ↔
    ∃ sig certs alg v, att.packed = some (sig, certs, alg) ∧ k.attestation = ⟨att.authData, sig, firstCert certs, challenge, alg⟩ ∧
      verifyAuthData X C yubicoRoot att.authData sig challenge alg (firstCert certs) none = .ok v ∧
      v.authData.sshPublicKey application = .ok k.privateKey.pubkey ∧
      k.privateKey.keyType.name = "sk-ssh-ed25519@openssh.com" ∧ k.privateKey.keyType ∈ keyTypes ∧ k.privateKey.magic = 0 ∧
      k.privateKey.comment = comment ∧ k.privateKey.kind = .ed25519Sk ⟨v.authData.flags, v.authData.credentialId, [], pin, none⟩ := by
  have ktD : ∀ kt ∈ keyTypes, kt.name = "sk-ssh-ed25519@openssh.com" → KeyType.fromName "sk-ssh-ed25519@openssh.com" = .ok kt := by
    decide +kernel
  have k2 : ∃ kt ∈ keyTypes, kt.name = "sk-ssh-ed25519@openssh.com" := by decide +kernel
  obtain ⟨t2, m2, n2⟩ := k2
  unfold mozGenerate
  constructor
  · intro h
    obtain ⟨ad, h3, h⟩ := bind_ok_iff.mp h
    rw [ktD t2 m2 n2, Res.ok_bind] at h
    obtain ⟨pk, h4, h⟩ := bind_ok_iff.mp h
    dsimp only at h
    split at h
    · cases h
    · rename_i sig certs alg hp
      obtain ⟨v, h5, h⟩ := bind_ok_iff.mp h
      cases h
      have h5 : verifyAuthData X C yubicoRoot att.authData sig challenge alg (firstCert certs) none = .ok v := h5
      obtain ⟨_, _, _, h6, _⟩ := verifyAuthData_ok.mp h5
      rw [h6] at h3
      cases h3
      exact ⟨sig, certs, alg, v, hp, rfl, h5, h4, n2, m2, rfl, rfl, rfl⟩
  · rintro ⟨sig, certs, alg, v, hp, h1, h2, h3, h4, h5, h6, h7, h8⟩
    obtain ⟨⟨kt, kind, pk, m, cm⟩, at'⟩ := k
    dsimp only at h1 h3 h4 h5 h6 h7 h8
    subst h1 h6 h7 h8
    obtain ⟨_, _, _, h9, _⟩ := verifyAuthData_ok.mp h2
    rw [h9, Res.ok_bind, ktD kt h5 h4, Res.ok_bind, h3, Res.ok_bind, hp]
    dsimp only
    have : (⟨att.authData, sig, firstCert certs, challenge, alg⟩ : U2FAttestation).verify X C yubicoRoot = .ok v := h2
    rw [this]
    rfl

/-- C70: with the CTAP backend a key is returned exactly if the device answered and the answer carries a valid attestation
under the built-in root, over the hash of the challenge of this call; the key is the attested one. -/
theorem C70_ctap (X : X509Env) (C : Crypto) (yubicoRoot application comment : String) (pin path : Option String) (challenge : Bytes)
    (answer : Except String CtapAttestation) (k : FidoSshKey) :
    ctapGenerate X C yubicoRoot application comment pin path challenge answer = .ok k ↔
    ∃ att cert v i flags, answer = .ok att ∧ FirstOrEmpty att.x5c cert ∧ att.alg = -7 ∧
      Attested X C yubicoRoot cert att.authData (C.sha256 challenge) att.sig i ∧
      AuthData.parse att.authData = .ok v.authData ∧ ExtensionsDecode X i.extensions ∧ AttestationInfo X i.extensions v ∧
      k.attestation = ⟨att.authData, att.sig, cert, C.sha256 challenge, att.alg⟩ ∧
      AttestedKey v.authData application k.privateKey.pubkey ∧ ReportedFlags att flags ∧
      k.privateKey.keyType.name = "sk-ssh-ed25519@openssh.com" ∧ k.privateKey.keyType ∈ keyTypes ∧ k.privateKey.magic = 0 ∧
      k.privateKey.comment = comment ∧ k.privateKey.kind = .ed25519Sk ⟨flags, att.credentialId, [], pin, path⟩ := by
  rw [ctap_ok]
  constructor
  · rintro ⟨att, v, h1, h2, h3, h4, h5, h6, h7, h8, h9⟩
    obtain ⟨ha, i, hi, hp, he, hf⟩ := verifyAuthData_ok.mp h3
    exact ⟨att, _, v, i, _, h1, firstCert_spec _, ha, hi, hp, he, hf, h2, (C62_ssh_key ..).mp h4, flags_spec att, h5, h6, h7, h8, h9⟩
  · rintro ⟨att, cert, v, i, flags, h1, hc, ha, hi, hp, he, hf, h2, h4, hfl, h5, h6, h7, h8, h9⟩
    cases firstCert_unique hc
    cases flags_unique hfl
    exact ⟨att, v, h1, h2, verifyAuthData_ok.mpr ⟨ha, i, hi, hp, he, hf⟩, (C62_ssh_key ..).mpr h4, h5, h6, h7, h8, h9⟩

/-- C70: the same with the Mozilla backend, where handle and flags are the attested ones too and the challenge itself is
signed. -/
theorem C70_mozilla (X : X509Env) (C : Crypto) (yubicoRoot application comment : String) (pin : Option String) (challenge : Bytes)
    (att : MozAttestation) (k : FidoSshKey) :
    mozGenerate X C yubicoRoot application comment pin challenge att = .ok k ↔
    ∃ sig certs cert alg v i, att.packed = some (sig, certs, alg) ∧ FirstOrEmpty certs cert ∧ alg = -7 ∧
      Attested X C yubicoRoot cert att.authData challenge sig i ∧
      AuthData.parse att.authData = .ok v.authData ∧ ExtensionsDecode X i.extensions ∧ AttestationInfo X i.extensions v ∧
      k.attestation = ⟨att.authData, sig, cert, challenge, alg⟩ ∧ AttestedKey v.authData application k.privateKey.pubkey ∧
      k.privateKey.keyType.name = "sk-ssh-ed25519@openssh.com" ∧ k.privateKey.keyType ∈ keyTypes ∧ k.privateKey.magic = 0 ∧
      k.privateKey.comment = comment ∧ k.privateKey.kind = .ed25519Sk ⟨v.authData.flags, v.authData.credentialId, [], pin, none⟩ := by
  rw [moz_ok]
  constructor
  · rintro ⟨sig, certs, alg, v, h1, h2, h3, h4, h5, h6, h7, h8, h9⟩
    obtain ⟨ha, i, hi, hp, he, hf⟩ := verifyAuthData_ok.mp h3
    exact ⟨sig, certs, _, alg, v, i, h1, firstCert_spec _, ha, hi, hp, he, hf, h2, (C62_ssh_key ..).mp h4, h5, h6, h7, h8, h9⟩
  · rintro ⟨sig, certs, cert, alg, v, i, h1, hc, ha, hi, hp, he, hf, h2, h4, h5, h6, h7, h8, h9⟩
    cases firstCert_unique hc
    exact ⟨sig, certs, alg, v, h1, h2, verifyAuthData_ok.mpr ⟨ha, i, hi, hp, he, hf⟩, (C62_ssh_key ..).mpr h4, h5, h6, h7, h8, h9⟩

/-- A device answer for the examples. -/
def sampleAnswer : CtapAttestation := ⟨true, true, true, false, [10, 11, 12], sampleAuthData, [9], [[2]], -7⟩

def sampleGenC : Crypto := { sampleFidoC with sha256 := fun _ => [1, 2, 3] }

theorem sample_generates : ∃ k, ctapGenerate sampleFidoX sampleGenC "" "ssh:" "me" none none [7] (.ok sampleAnswer) = .ok k ∧
    k.privateKey.pubkey.kind = .ed25519 (List.replicate 32 9) (some "ssh:") ∧
    k.privateKey.kind = .ed25519Sk ⟨0x45, [10, 11, 12], [], none, none⟩ :=
  ⟨⟨⟨⟨"sk-ssh-ed25519@openssh.com", "sk-ssh-ed25519@openssh.com", "ED25519-SK", false, true, .ed25519⟩,
      .ed25519Sk ⟨0x45, [10, 11, 12], [], none, none⟩,
      ⟨⟨"sk-ssh-ed25519@openssh.com", "sk-ssh-ed25519@openssh.com", "ED25519-SK", false, true, .ed25519⟩,
        .ed25519 (List.replicate 32 9) (some "ssh:"), none⟩, 0, "me"⟩,
    ⟨sampleAuthData, [9], [2], [1, 2, 3], -7⟩⟩, by decide +kernel, rfl, rfl⟩

/-! ## C71 -/

/-- C71: the application is not authenticated: with the same device answer, every application name is accepted and ends up in the
key (the hash of the relying party in the authenticator data is not compared with it). -/
theorem C71_application (X : X509Env) (C : Crypto) (yubicoRoot app app' comment : String) (pin path : Option String) (challenge : Bytes)
    (answer : Except String CtapAttestation) (k : FidoSshKey)
    (h : ctapGenerate X C yubicoRoot app comment pin path challenge answer = .ok k) :
    ∃ k', ctapGenerate X C yubicoRoot app' comment pin path challenge answer = .ok k' ∧ k'.attestation = k.attestation ∧
      k'.privateKey.kind = k.privateKey.kind ∧
      ((∃ c p, k.privateKey.pubkey.kind = .ecdsa c p (some app) ∧ k'.privateKey.pubkey.kind = .ecdsa c p (some app')) ∨
       (∃ p, k.privateKey.pubkey.kind = .ed25519 p (some app) ∧ k'.privateKey.pubkey.kind = .ed25519 p (some app'))) := by
  obtain ⟨att, v, h1, h2, h3, h4, h5⟩ := (ctap_ok ..).mp h
  obtain ⟨hc, ⟨ha, hn, hm, c, hc1, hc2, hk⟩ | ⟨ha, hn, hm, hk⟩⟩ := (C62_ssh_key ..).mp h4
  · let p' : PublicKey := ⟨k.privateKey.pubkey.keyType, .ecdsa c v.authData.coseKey.key (some app'), none⟩
    have hp : v.authData.sshPublicKey app' = .ok p' := (C62_ssh_key ..).mpr ⟨rfl, .inl ⟨ha, hn, hm, c, hc1, hc2, rfl⟩⟩
    refine ⟨{ k with privateKey := { k.privateKey with pubkey := p' } }, (ctap_ok ..).mpr ⟨att, v, h1, h2, h3, hp, h5⟩, rfl, rfl, .inl ?_⟩
    exact ⟨c, _, hk, rfl⟩
  · let p' : PublicKey := ⟨k.privateKey.pubkey.keyType, .ed25519 v.authData.coseKey.key (some app'), none⟩
    have hp : v.authData.sshPublicKey app' = .ok p' := (C62_ssh_key ..).mpr ⟨rfl, .inr ⟨ha, hn, hm, rfl⟩⟩
    refine ⟨{ k with privateKey := { k.privateKey with pubkey := p' } }, (ctap_ok ..).mpr ⟨att, v, h1, h2, h3, hp, h5⟩, rfl, rfl, .inr ?_⟩
    exact ⟨_, hk, rfl⟩

/-- The sample answer of a device gives a key for whatever application is named. -/
example : ∃ k', ctapGenerate sampleFidoX sampleGenC "" "ssh:other" "me" none none [7] (.ok sampleAnswer) = .ok k' ∧
    k'.privateKey.pubkey.kind = .ed25519 (List.replicate 32 9) (some "ssh:other") := by
  obtain ⟨k, h, hk, _⟩ := sample_generates
  obtain ⟨k', h', _, _, ⟨c, p, e, _⟩ | ⟨p, e, e'⟩⟩ := C71_application _ _ _ _ "ssh:other" _ _ _ _ _ _ h
  · rw [hk] at e; cases e
  · rw [hk] at e; cases e
    exact ⟨k', h', e'⟩

/-! ## C72 -/

/-- C72: user presence and verification are bits 0 and 2 of the flags. -/
theorem C72_flags (a : AuthData) : (a.userPresence = a.flags.toNat.testBit 0) ∧ (a.userVerification = a.flags.toNat.testBit 2) := by
  have : ∀ n : Fin 256, decide (UInt8.ofNat n &&& 0x1 > 0) = n.val.testBit 0 ∧ decide (UInt8.ofNat n &&& 0x4 > 0) = n.val.testBit 2 := by
    decide +kernel
  have h := this ⟨a.flags.toNat, a.flags.toNat_lt⟩
  simpa [AuthData.userPresence, AuthData.userVerification] using h

/-- C72: the flags byte of a generated key has exactly the reported bits. -/
theorem C72_ctap (a : CtapAttestation) (n : Nat) : a.flags.toNat.testBit n =
    ((n = 0 ∧ a.userPresent) ∨ (n = 2 ∧ a.userVerified) ∨ (n = 6 ∧ a.attestedData) ∨ (n = 7 ∧ a.extensionData) : Bool) := by
  unfold CtapAttestation.flags
  by_cases hn : n < 8
  · have : ∀ (b0 b1 b2 b3 : Bool) (n : Fin 8),
        (let ret : UInt8 := 0
         let ret := if b0 then ret ||| 0x01 else ret
         let ret := if b1 then ret ||| 0x04 else ret
         let ret := if b2 then ret ||| 0x40 else ret
         if b3 then ret ||| 0x80 else ret).toNat.testBit n =
        ((n.val = 0 ∧ b0) ∨ (n.val = 2 ∧ b1) ∨ (n.val = 6 ∧ b2) ∨ (n.val = 7 ∧ b3) : Bool) := by decide +kernel
    exact this _ _ _ _ ⟨n, hn⟩
  · have h256 : ∀ x : UInt8, x.toNat.testBit n = false := by
      intro x
      apply Nat.testBit_lt_two_pow
      have := x.toNat_lt
      have : 2 ^ 8 ≤ 2 ^ n := Nat.pow_le_pow_right (by decide) (by omega)
      omega
    rw [h256]
    symm
    rw [decide_eq_false_iff_not]
    omega

/-! ## C73 -/

theorem coordinate_length {fs : List CoseField} {w : Bytes} (h : CoseFields fs w) :
    ∀ v ∈ fs.filterMap CoseField.coordinate?, v.length ≤ w.length := by
  induction h with
  | nil => intro v hv; cases hv
  | @cons f fs a b hf _ ih =>
    have hb : ∀ v ∈ fs.filterMap CoseField.coordinate?, v.length ≤ (a ++ b).length := by
      intro v hv
      have := ih v hv
      rw [List.length_append]
      omega
    intro v hv
    rw [List.filterMap_cons] at hv
    cases f with
    | x u =>
      obtain ⟨a1, b1, _, ⟨h1, _, rfl⟩, rfl⟩ := hf
      rcases List.mem_cons.mp hv with rfl | hv
      · simp only [List.length_append]; omega
      · exact hb v hv
    | y u =>
      obtain ⟨a1, b1, _, ⟨h1, _, rfl⟩, rfl⟩ := hf
      rcases List.mem_cons.mp hv with rfl | hv
      · simp only [List.length_append]; omega
      · exact hb v hv
    | _ => exact hb v hv

/-- The key in authenticator data is not longer than the data. -/
theorem key_length {raw : Bytes} {a : AuthData} (h : AuthData.parse raw = .ok a) : a.coseKey.key.length ≤ raw.length := by
  obtain ⟨fs, junk, count, len, cose, rfl, _, _, _, _, _, _, _, ⟨_, hd, c, _, hf, rfl⟩, _, _, hk, _⟩ := parse_ok.mp h
  have : a.coseKey.key.length ≤ c.length := by
    rw [hk]
    cases hl : (fs.filterMap CoseField.coordinate?).getLast? with
    | none => simp
    | some v => exact coordinate_length hf v (List.mem_of_getLast? hl)
  simp only [List.length_append]
  omega

/-- C73: the file of a generated key can be read back, up to PIN and device path; the private key gets the type of the public
key. -/
theorem C73_file (F : Features) (C : Crypto) (X : X509Env) (yubicoRoot application comment : String) (pin path pass : Option String)
    (challenge : Bytes) (att : CtapAttestation) (k : FidoSshKey)
    (h : ctapGenerate X C yubicoRoot application comment pin path challenge (.ok att) = .ok k)
    (hs : application.utf8ByteSize < 4294967296 ∧ comment.utf8ByteSize < 4294967296 ∧ att.credentialId.length < 4294967296 ∧
      att.authData.length < 4294967296)
    (hl : ∀ w, k.privateKey.encode = .ok w → w.length < 4294967296) :
    ∃ s t, k.privateKey.kind = .ed25519Sk s ∧ k.privateKey.write = .ok t ∧
      PrivateKey.fromStringWithPassphrase F C t pass = .ok (stored { k.privateKey with
        keyType := k.privateKey.pubkey.keyType
        kind := match k.privateKey.pubkey.kind with
          | .ecdsa _ _ _ => .ecdsaSk s
          | _ => .ed25519Sk s }) := by
  obtain ⟨att', v, e, _, hv, hp, hn, hm, _, hcm, hk⟩ := (ctap_ok ..).mp h
  cases e
  obtain ⟨_, _, _, hpar, _⟩ := verifyAuthData_ok.mp hv
  have hlen := key_length hpar
  obtain ⟨hc, hcase⟩ := (C62_ssh_key ..).mp hp
  refine ⟨⟨att.flags, att.credentialId, [], pin, path⟩, ?_⟩
  obtain ⟨⟨kt, kind, pk, m, cm⟩, at'⟩ := k
  obtain ⟨pt, pkind, pc⟩ := pk
  dsimp only at hp hn hm hcm hk hc hcase hl ⊢
  subst hk hcm hc
  have e2 : ∀ (s : SkPrivateKey) (p : PublicKey) (a b : KeyType), (⟨a, .ed25519Sk s, p, m, cm⟩ : PrivateKey).encode =
      (⟨b, .ecdsaSk s, p, m, cm⟩ : PrivateKey).encode := fun s p a b => rfl
  have e3 : ∀ (s : SkPrivateKey) (p : PublicKey) (a b : KeyType), (⟨a, .ed25519Sk s, p, m, cm⟩ : PrivateKey).encode =
      (⟨b, .ed25519Sk s, p, m, cm⟩ : PrivateKey).encode := fun s p a b => rfl
  have w2 : ∀ (s : SkPrivateKey) (p : PublicKey) (a b : KeyType), (⟨a, .ed25519Sk s, p, m, cm⟩ : PrivateKey).write =
      (⟨b, .ecdsaSk s, p, m, cm⟩ : PrivateKey).write := fun s p a b => rfl
  have w3 : ∀ (s : SkPrivateKey) (p : PublicKey) (a b : KeyType), (⟨a, .ed25519Sk s, p, m, cm⟩ : PrivateKey).write =
      (⟨b, .ed25519Sk s, p, m, cm⟩ : PrivateKey).write := fun s p a b => rfl
  have q1 : ∀ t ∈ keyTypes, t.name = "sk-ecdsa-sha2-nistp256@openssh.com" → t.kind = .ecdsa ∧ t.isSk = true := by decide +kernel
  have q2 : ∀ t ∈ keyTypes, t.name = "sk-ssh-ed25519@openssh.com" → t.kind = .ed25519 ∧ t.isSk = true := by decide +kernel
  rcases hcase with ⟨_, hn', hm', c, hc1, _, rfl⟩ | ⟨_, hn', hm', rfl⟩
  · have hw : WellFormedPriv F.rsaSigning ⟨pt, .ecdsaSk ⟨att.flags, att.credentialId, [], pin, path⟩,
        ⟨pt, .ecdsa c v.authData.coseKey.key (some application), none⟩, m, cm⟩ :=
      ⟨hm', rfl, hs.2.1, (q1 pt hm' hn').1, hc1, hs.2.2.1, by omega, (q1 pt hm' hn').2, rfl, rfl, hs.1⟩
    obtain ⟨t, ht, hr⟩ := C41_roundtrip F C pass _ hw (by intro w hw'; exact hl w ((e2 _ _ _ _).trans hw'))
    exact ⟨t, rfl, (w2 _ _ _ _).trans ht, hr⟩
  · have hw : WellFormedPriv F.rsaSigning ⟨pt, .ed25519Sk ⟨att.flags, att.credentialId, [], pin, path⟩,
        ⟨pt, .ed25519 v.authData.coseKey.key (some application), none⟩, m, cm⟩ :=
      ⟨hm', rfl, hs.2.1, (q2 pt hm' hn').1, hs.2.2.1, by omega, (q2 pt hm' hn').2, rfl, rfl, hs.1⟩
    obtain ⟨t, ht, hr⟩ := C41_roundtrip F C pass _ hw (by intro w hw'; exact hl w ((e3 _ _ _ _).trans hw'))
    exact ⟨t, rfl, (w3 _ _ _ _).trans ht, hr⟩

/-- The sizes of the sample answer are within the bounds, and the key it leads to can be written. -/
example : ("ssh:".utf8ByteSize < 4294967296 ∧ "me".utf8ByteSize < 4294967296 ∧ sampleAnswer.credentialId.length < 4294967296 ∧
    sampleAnswer.authData.length < 4294967296) ∧
    (∃ k, ctapGenerate sampleFidoX sampleGenC "" "ssh:" "me" none none [7] (.ok sampleAnswer) = .ok k ∧
      ∀ w, k.privateKey.encode = .ok w → w.length < 4294967296) := by
  refine ⟨by decide +kernel, ?_⟩
  obtain ⟨k, hk, _⟩ := sample_generates
  refine ⟨k, hk, ?_⟩
  have hall : ∀ k, ctapGenerate sampleFidoX sampleGenC "" "ssh:" "me" none none [7] (.ok sampleAnswer) = .ok k →
      (match k.privateKey.encode with | .ok w => decide (w.length < 4294967296) | _ => true) = true := by
    intro k hk
    have : (match ctapGenerate sampleFidoX sampleGenC "" "ssh:" "me" none none [7] (.ok sampleAnswer) with
      | .ok k => (match k.privateKey.encode with | .ok w => decide (w.length < 4294967296) | _ => true)
      | _ => true) = true := by decide +kernel
    rw [hk] at this
    exact this
  intro w hw
  have := hall k hk
  rw [hw] at this
  exact of_decide_eq_true this

/-! ## C20 -/

/-- C20: an SSH key made from parsed authenticator data is well-formed. -/
theorem C20_fido (raw : Bytes) (a : AuthData) (app : String) (k : PublicKey) (h : AuthData.parse raw = .ok a)
    (hk : a.sshPublicKey app = .ok k) (hs : raw.length < 4294967296 ∧ app.utf8ByteSize < 4294967296) : WellFormedKey k := by
  have hlen := key_length h
  have q1 : ∀ t ∈ keyTypes, t.name = "sk-ecdsa-sha2-nistp256@openssh.com" → family t.kind = .ecdsa ∧ t.isSk = true := by decide +kernel
  have q2 : ∀ t ∈ keyTypes, t.name = "sk-ssh-ed25519@openssh.com" → family t.kind = .ed25519 ∧ t.isSk = true := by decide +kernel
  obtain ⟨_, ⟨_, hn, hm, c, hc1, _, hkk⟩ | ⟨_, hn, hm, hkk⟩⟩ := (C62_ssh_key ..).mp hk
  · refine ⟨hm, ?_⟩
    rw [hkk]
    exact ⟨(q1 _ hm hn).1, hc1, by omega, (q1 _ hm hn).2, hs.2⟩
  · refine ⟨hm, ?_⟩
    rw [hkk]
    exact ⟨(q2 _ hm hn).1, by omega, (q2 _ hm hn).2, hs.2⟩

example : ∃ a k, AuthData.parse sampleAuthData = .ok a ∧ a.sshPublicKey "ssh:" = .ok k ∧ sampleAuthData.length < 4294967296 := by
  obtain ⟨_, _, _, _, hp, _⟩ := verifyAuthData_ok.mp (sampleAttestation_verifies "" none)
  obtain ⟨k, hk, _⟩ := sample_generates
  obtain ⟨att, v, e, _, hv, hs, _⟩ := (ctap_ok ..).mp hk
  cases e
  obtain ⟨_, _, _, hp', _⟩ := verifyAuthData_ok.mp hv
  exact ⟨_, _, hp', hs, by decide +kernel⟩

end Ssh
