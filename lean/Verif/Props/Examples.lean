import Verif.Model.Examples
import Verif.Props.Encrypted
import Verif.Props.Files
import Verif.Props.Token
import Verif.Props.Display

/-! # The programs in `examples/`: C113-C118 -/

namespace Ssh

open Spec Reader Examples

/-! ## Texts with a line break at the end -/

theorem splitWhitespace_nl (s : List Char) : splitWhitespace (s ++ ['\n']) = splitWhitespace s := by
  suffices h : ∀ (n : Nat) (s : List Char), s.length ≤ n → splitWhitespace (s ++ ['\n']) = splitWhitespace s from h _ s (Nat.le_refl _)
  intro n
  induction n with
  | zero =>
    intro s hs
    rw [List.length_eq_zero_iff.mp (Nat.le_zero.mp hs)]
    rfl
  | succ n ih =>
    intro s hs
    obtain ⟨w, r, rfl, hw, hr⟩ := ws_cases s
    rcases hr with rfl | ⟨c, r', rfl, hc⟩
    · by_cases hne : w = []
      · subst hne; rfl
      · rw [List.append_nil, splitWhitespace_cons hne hw (by decide), splitWhitespace_word hne hw, splitWhitespace_nil]
    · have hl : r'.length ≤ n := by simp at hs; omega
      by_cases hne : w = []
      · subst hne
        simp only [List.nil_append, List.cons_append, splitWhitespace_ws hc]
        exact ih r' hl
      · rw [List.append_assoc, List.cons_append, splitWhitespace_cons hne hw hc, splitWhitespace_cons hne hw hc, ih r' hl]

theorem publicKey_println (s : List Char) : PublicKey.fromString (println s) = PublicKey.fromString s := by
  unfold PublicKey.fromString println
  rw [splitWhitespace_nl]

theorem certificate_println (C : Crypto) (s : List Char) : Certificate.fromString C (println s) = Certificate.fromString C s := by
  unfold Certificate.fromString println
  rw [splitWhitespace_nl]

theorem firstLine_cases (s : List Char) : ∃ l r, s = l ++ r ∧ '\n' ∉ l ∧ (r = [] ∨ ∃ r', r = '\n' :: r') := by
  induction s with
  | nil => exact ⟨[], [], rfl, by simp, .inl rfl⟩
  | cons c s ih =>
    by_cases hc : c = '\n'
    · exact ⟨[], c :: s, rfl, by simp, .inr ⟨s, by rw [hc]⟩⟩
    · obtain ⟨l, r, rfl, h1, h2⟩ := ih
      exact ⟨c :: l, r, rfl, by simp [h1, Ne.symm hc], h2⟩

theorem lines_println {s : List Char} (hne : s ≠ []) (h1 : s.getLast? ≠ some '\n') (h2 : s.getLast? ≠ some '\r') :
    lines (println s) = lines s := by
  suffices h : ∀ (n : Nat) (s : List Char), s.length ≤ n → s ≠ [] → s.getLast? ≠ some '\n' → s.getLast? ≠ some '\r' →
      lines (s ++ ['\n']) = lines s from h _ s (Nat.le_refl _) hne h1 h2
  clear hne h1 h2 s
  intro n
  induction n with
  | zero => intro s hs hne; exact absurd (List.length_eq_zero_iff.mp (Nat.le_zero.mp hs)) hne
  | succ n ih =>
    intro s hs hne h1 h2
    obtain ⟨l, r, rfl, hl, hr⟩ := firstLine_cases s
    rcases hr with rfl | ⟨r', rfl⟩
    · rw [List.append_nil] at *
      rw [lines_cons hl h2, lines_last hl hne, lines_nil]
    · have hr' : r' ≠ [] := by
        rintro rfl
        exact h1 (by simp)
      have e : ∀ x : List Char, l ++ '\n' :: x = (l ++ ['\n']) ++ x := by simp
      rw [List.append_assoc, List.cons_append, e, e r', lines_append (s := l ++ ['\n']) (.inr (by simp)),
        lines_append (s := l ++ ['\n']) (.inr (by simp))]
      congr 1
      refine ih r' (by simp at hs; omega) hr' ?_ ?_
      · rwa [e, List.getLast?_append, List.getLast?_eq_some_getLast hr', Option.some_or, ← List.getLast?_eq_some_getLast hr'] at h1
      · rwa [e, List.getLast?_append, List.getLast?_eq_some_getLast hr', Option.some_or, ← List.getLast?_eq_some_getLast hr'] at h2

/-! ## C113: sign-cert-with-file -/

theorem orPanic_ok {α : Type} {r : Res α} {a : α} : r.orPanic = .ok a ↔ r = .ok a := by
  cases r <;> simp [Res.orPanic]

theorem privkey_blob {F : Features} {C : Crypto} {pass : Option String} {t : List Char} {k : PrivateKey}
    (h : PrivateKey.fromStringWithPassphrase F C t pass = .ok k) :
    k.pubkey.comment = none ∧ ∃ kb, KeyBlob k.pubkey kb ∧ kb.length < 4294967296 := by
  obtain ⟨blob, w, rest, cipher, kdf, kdfData, kb, junk, sec, plain, pad, h1, rfl, ⟨w1, w2, w3, w4, w5, rfl, _, _, _, g4, g5⟩,
    hkb, h6, b, hb, _, _, hc, _⟩ := (C44_exact F C pass t k).mp h
  have := g4.1
  simp only [List.length_append] at this
  exact ⟨hc, kb, hkb, by omega⟩

theorem keyBlob_encode {k : PublicKey} {kb : Bytes} (h : KeyBlob k kb) (hl : kb.length < 4294967296) :
    ∀ b, k.encode = .ok b → b.length < 4294967296 := by
  intro b hb
  obtain ⟨g1, x1, x2, rfl, g2, g3⟩ := h
  have hle : ∀ kt ∈ keyTypes, (frameStr kt.plain).length ≤ (frameStr kt.name).length := by decide +kernel
  rw [encode_eq, keyMaterial_of g3] at hb
  simp only [Res.unwrap, Res.ok_bind, Res.ok.injEq] at hb
  have hx : x1 = frameStr k.keyType.name := g2.eq
  have hl' := hle _ g1
  rw [← hx] at hl'
  rw [← hb]
  simp only [List.length_append] at *
  omega

/-- The requested certificate: what both signing programs ask their CA to sign. -/
theorem request_ok {disk : Disk} {nonce : Option (Vector UInt8 32)} {rserial : Option (Vector UInt8 8)} {extensions : StrMap}
    {ca : PublicKey} {serial : UInt64} {file principal : String} {c : Certificate}
    (h : request disk nonce rserial extensions ca serial file principal = .ok c) :
    ∃ key c0, PublicKey.fromPath disk file = .ok key ∧ Certificate.builder nonce rserial key .user ca = .ok c0 ∧
      c = runCalls c0 [.serial serial, .keyId "key_id", .principal principal, .validAfter 0, .validBefore 0xFFFFFFFFFFFFFFFF,
        .setExtensions extensions] := by
  unfold request at h
  obtain ⟨key, hk, h⟩ := bind_ok_iff.mp h
  obtain ⟨c0, hc, h⟩ := bind_ok_iff.mp h
  refine ⟨key, c0, orPanic_ok.mp hk, orPanic_ok.mp hc, (Res.ok.inj h).symm⟩

theorem fromPath_ok {D : Disk} {path : String} {k : PublicKey} (h : PublicKey.fromPath D path = .ok k) :
    ∃ s, PublicKey.fromString s = .ok k := by
  unfold PublicKey.fromPath at h
  obtain ⟨s, _, h⟩ := bind_ok_iff.mp h
  exact ⟨s, h⟩

theorem privFromPath_ok {F : Features} {C : Crypto} {D : Disk} {path : String} {k : PrivateKey}
    (h : PrivateKey.fromPath F C D path = .ok k) : ∃ s, PrivateKey.fromStringWithPassphrase F C s none = .ok k := by
  unfold PrivateKey.fromPath PrivateKey.fromPathWithPassphrase at h
  obtain ⟨s, _, h⟩ := bind_ok_iff.mp h
  exact ⟨s, h⟩

/-- What is printed for a signed request is read back as the certificate asked for. -/
theorem request_printed {C : Crypto} {signer : Bytes → Res (Option Bytes)} {disk : Disk} {nonce : Option (Vector UInt8 32)}
    {rserial : Option (Vector UInt8 8)} {extensions : StrMap} {ca : PublicKey} {serial : UInt64} {file principal : String}
    {c c3 : Certificate} (he : extensions.Perm Certificate.standardExtensions) (hp : principal.utf8ByteSize < 4294967292)
    (hw : WellFormedKey ca) (hl : ∀ b, ca.encode = .ok b → b.length < 4294967296)
    (h : request disk nonce rserial extensions ca serial file principal = .ok c) (hs : c.sign C signer = .ok c3) :
    ∃ key, PublicKey.fromPath disk file = .ok key ∧ (c3.signature.length < 4294967296 →
      ∃ c', Certificate.fromString C (println c3.display) = .ok c' ∧
        c'.key.kind = key.kind ∧ c'.key.keyType.plain = key.keyType.plain ∧ c'.signatureKey.kind = ca.kind ∧
        c'.signatureKey.keyType.plain = ca.keyType.plain ∧ c'.certType = .user ∧ c'.serial = serial ∧ c'.keyId = "key_id" ∧
        c'.principals = [principal] ∧ c'.validAfter = 0 ∧ c'.validBefore = 0xFFFFFFFFFFFFFFFF ∧
        (∀ k, mapGet c'.criticalOptions k = none) ∧
        (∀ k, mapGet c'.extensions k = if k ∈ defaultExtensions then some "" else none) ∧ c'.comment = some "key_id") := by
  obtain ⟨key, c0, hk, hb, rfl⟩ := request_ok h
  refine ⟨key, hk, fun hsl => ?_⟩
  obtain ⟨s, hk'⟩ := fromPath_ok hk
  have hwk := C20_parsed key (.inr ⟨s, hk'⟩)
  obtain ⟨b1, b2, b3, b4, b5, b6, b7, b8, b9, b10⟩ : c0.nonce.length < 4294967296 ∧ c0.signatureKey = ca ∧ c0.certType = .user ∧
      c0.principals = [] ∧ c0.criticalOptions = [] ∧ c0.extensions = [] ∧ c0.key = key ∧ c0.keyType ∈ keyTypes ∧
      c0.keyType.isCert = true ∧ c0.keyType.plain = key.keyType.plain := by
    rcases builder_ok (nonce := nonce) (serial := rserial) (ca := ca) (role := .user) hwk.1 with
      ⟨n, s, rfl, rfl, kt, hkt, hcert, hplain, hb'⟩ | ⟨_, e, he⟩
    · rw [hb', Res.ok.injEq] at hb
      subst hb
      exact ⟨by simp, rfl, rfl, rfl, rfl, rfl, rfl, hkt, hcert, hplain⟩
    · rw [he] at hb; cases hb
  have hn : (extensions.map (·.1)).Nodup := (List.Perm.nodup_iff (he.map Prod.fst)).mpr C90_table.2.1
  have hcalls : ∀ x ∈ [BuilderCall.serial serial, .keyId "key_id", .principal principal, .validAfter 0,
      .validBefore 0xFFFFFFFFFFFFFFFF, .setExtensions extensions], x.Valid := by
    simp [BuilderCall.Valid, hn]
  have hsize : optionsSize extensions < 4294967296 := by
    have : optionsSize extensions = optionsSize Certificate.standardExtensions := by
      unfold optionsSize
      exact (he.map _).sum_nat
    rw [this]
    decide +kernel
  obtain ⟨c4, h4, hc4, k1, k2, k3, k4, k5, k6, k7, k8⟩ := C27_roundtrip C signer nonce rserial key ca .user c0 c3 _ [] extensions hwk
    hw hb hcalls (by simp [runCalls, BuilderCall.run, b5, Certificate.setSerial, Certificate.setKeyId, Certificate.addPrincipal,
      Certificate.setValidAfter, Certificate.setValidBefore, Certificate.setExtensions])
    (by simp [runCalls, BuilderCall.run, Certificate.setExtensions])
    (by
      simp only [runCalls, List.foldl_cons, List.foldl_nil, BuilderCall.run, Certificate.setSerial, Certificate.setKeyId,
        Certificate.addPrincipal, Certificate.setValidAfter, Certificate.setValidBefore, Certificate.setExtensions]
      refine ⟨b1, (by decide : "key_id".utf8ByteSize < 4294967296), ?_, by rw [b5]; decide, hsize, by rw [b2]; exact hl⟩
      rw [b4]
      simp [principalsSize]
      omega)
    (by
      rw [← hs]
      congr 1
      simp [runCalls, BuilderCall.run, b5, Certificate.setSerial, Certificate.setKeyId, Certificate.addPrincipal,
      Certificate.setValidAfter, Certificate.setValidBefore, Certificate.setExtensions]) hsl
  obtain ⟨tbs, sig, ht, hsig, hacc, rfl⟩ := (C28_sign _ _ _ _).mp hs
  have hd := cert_text_roundtrip C _ c4 h4
  obtain ⟨d1, d2, d3, d4, d5, d6, d7, d8, d9, d10, d11, d12, d13, d14⟩ := hc4
  simp only [runCalls, List.foldl_cons, List.foldl_nil, BuilderCall.run, Certificate.setSerial, Certificate.setKeyId,
        Certificate.addPrincipal, Certificate.setValidAfter, Certificate.setValidBefore, Certificate.setExtensions] at *
  have hdd : c4.display = Certificate.display { c0 with
      serial := serial, keyId := "key_id", principals := c0.principals ++ [principal], validAfter := 0,
      validBefore := 18446744073709551615, extensions := extensions, signature := sig,
      serialized := tbs ++ (u32 sig.length ++ sig) } := by
    unfold Certificate.display
    rw [d1, d7, k8]
  refine ⟨{ c4 with comment := (splitWhitespace c4.keyId.toList).head?.map String.ofList }, by
    rw [certificate_println, ← hd, hdd], k1, k2, k4, k5, k3, d5, d7, by rw [d8, b4]; rfl, d9, d10,
    fun k => by rw [d11 k, b5]; rfl, fun k => ?_, ?_⟩
  · rw [d12 k, mapGet_perm hn he k, standardExtensions_get]
  · simp only [d7]
    decide +kernel

theorem withPin_pubkey (k : PrivateKey) (pin : Option String) : (withPin k pin).pubkey = k.pubkey := by
  cases pin with
  | none => rfl
  | some p =>
    unfold withPin PrivateKey.setPin
    dsimp only
    split <;> rfl

theorem signCertWithFile_ok {F : Features} {C : Crypto} {D : FidoDev} {disk : Disk} {nonce : Option (Vector UInt8 32)}
    {rserial : Option (Vector UInt8 8)} {extensions : StrMap} {file sign : String} {pin : Option String} {principal : String}
    {out : List Char} (h : signCertWithFile F C D disk nonce rserial extensions file sign pin principal = .ok out) :
    ∃ ca c c3, PrivateKey.fromPath F C disk sign = .ok ca ∧
      request disk nonce rserial extensions ca.pubkey 0 file principal = .ok c ∧
      c.sign C ((withPin ca pin).sign F C D) = .ok c3 ∧ out = println c3.display := by
  unfold signCertWithFile at h
  obtain ⟨ca, hca, h⟩ := bind_ok_iff.mp h
  obtain ⟨c, hc, h⟩ := bind_ok_iff.mp h
  obtain ⟨c3, hs, h⟩ := bind_ok_iff.mp h
  refine ⟨ca, c, c3, orPanic_ok.mp hca, ?_, orPanic_ok.mp hs, (Res.ok.inj h).symm⟩
  simp only [withPin_pubkey] at hc
  exact hc

/-- C113: what sign-cert-with-file prints is read back as a certificate for the key in the file given, signed by the key in the
other file: a user certificate with serial 0 and key id `key_id`, for the one principal given and for all time, with the
standard extensions and no critical option. -/
theorem C113_printed (F : Features) (C : Crypto) (D : FidoDev) (disk : Disk) (nonce : Option (Vector UInt8 32))
    (rserial : Option (Vector UInt8 8)) (extensions : StrMap) (file sign : String) (pin : Option String) (principal : String)
    (out : List Char) (he : extensions.Perm Certificate.standardExtensions) (hp : principal.utf8ByteSize < 4294967292)
    (hsig : ∀ ca m s, PrivateKey.fromPath F C disk sign = .ok ca → (withPin ca pin).sign F C D m = .ok (some s) →
      s.length < 4294967296)
    (h : signCertWithFile F C D disk nonce rserial extensions file sign pin principal = .ok out) :
    ∃ ca key c, PrivateKey.fromPath F C disk sign = .ok ca ∧ PublicKey.fromPath disk file = .ok key ∧
      Certificate.fromString C out = .ok c ∧ c.key.kind = key.kind ∧ c.key.keyType.plain = key.keyType.plain ∧
      c.signatureKey.kind = ca.pubkey.kind ∧ c.signatureKey.keyType.plain = ca.pubkey.keyType.plain ∧ c.certType = .user ∧
      c.serial = 0 ∧ c.keyId = "key_id" ∧ c.principals = [principal] ∧ c.validAfter = 0 ∧
      c.validBefore = 0xFFFFFFFFFFFFFFFF ∧ (∀ k, mapGet c.criticalOptions k = none) ∧
      (∀ k, mapGet c.extensions k = if k ∈ defaultExtensions then some "" else none) ∧ c.comment = some "key_id" := by
  obtain ⟨ca, c, c3, hca, hc, hs, rfl⟩ := signCertWithFile_ok h
  obtain ⟨t, hca'⟩ := privFromPath_ok hca
  obtain ⟨hcom, kb, hkb, hkl⟩ := privkey_blob hca'
  obtain ⟨key, hk, hr⟩ := request_printed he hp (C20_privkey F C none t ca hca').1 (keyBlob_encode hkb hkl) hc hs
  obtain ⟨tbs, sig, _, hsg, _, rfl⟩ := (C28_sign _ _ _ _).mp hs
  obtain ⟨c', hc'⟩ := hr (hsig ca tbs sig hca hsg)
  exact ⟨ca, key, c', hca, hk, hc'⟩

theorem withPin_software {k : PrivateKey} (h : ConsistentKey k) (pin : Option String) : withPin k pin = k := by
  cases pin with
  | none => rfl
  | some p =>
    unfold withPin PrivateKey.setPin
    dsimp only
    obtain ⟨_, h⟩ := h
    split
    · rename_i s hk
      rw [hk] at h
      cases h
    · rename_i s hk
      rw [hk] at h
      cases h
    · rfl

theorem request_exists {disk : Disk} {nonce : Vector UInt8 32} {rserial : Vector UInt8 8} {extensions : StrMap}
    {ca key : PublicKey} {serial : UInt64} {file principal : String} (he : extensions.Perm Certificate.standardExtensions)
    (hp : principal.utf8ByteSize < 4294967292) (hw : WellFormedKey ca) (hl : ∀ b, ca.encode = .ok b → b.length < 4294967296)
    (hk : PublicKey.fromPath disk file = .ok key) :
    ∃ c, request disk (some nonce) (some rserial) extensions ca serial file principal = .ok c ∧ WellFormedCert c ∧
      c.signatureKey = ca := by
  obtain ⟨s, hk'⟩ := fromPath_ok hk
  have hwk := C20_parsed key (.inr ⟨s, hk'⟩)
  unfold request
  rw [hk]
  rcases builder_ok (nonce := some nonce) (serial := some rserial) (ca := ca) (role := .user) hwk.1 with
    ⟨n, s, _, _, kt, hkt, hcert, hplain, hb'⟩ | ⟨h, _⟩
  rotate_left
  · rcases h with h | h <;> cases h
  simp only [Res.orPanic, Res.ok_bind, hb']
  refine ⟨_, rfl, ?_, rfl⟩
  simp only [Certificate.setSerial, Certificate.setKeyId, Certificate.addPrincipal, Certificate.setValidAfter,
    Certificate.setValidBefore, Certificate.setExtensions]
  refine ⟨hkt, hcert, hplain.symm, hwk, hw, by simp, (List.Perm.nodup_iff (he.map Prod.fst)).mpr C90_table.2.1, by simp,
    (by decide : "key_id".utf8ByteSize < 4294967296), ?_, by simp [optionsSize], ?_, hl⟩
  · simp [principalsSize]
    omega
  · have : optionsSize extensions = optionsSize Certificate.standardExtensions := by
      unfold optionsSize
      exact (he.map _).sum_nat
    show optionsSize extensions < _
    rw [this]
    decide +kernel

/-- C113: with both files readable, random numbers available, and a CA key kept in software whose primitives accept what they
sign, a certificate is printed, unless the primitive refuses to sign; the program then panics. -/
theorem C113_prints (F : Features) (C : Crypto) (D : FidoDev) (disk : Disk) (nonce : Vector UInt8 32) (rserial : Vector UInt8 8)
    (extensions : StrMap) (file sign : String) (pin : Option String) (principal : String) (ca : PrivateKey) (key : PublicKey)
    (he : extensions.Perm Certificate.standardExtensions) (hp : principal.utf8ByteSize < 4294967292)
    (hca : PrivateKey.fromPath F C disk sign = .ok ca) (hk : PublicKey.fromPath disk file = .ok key)
    (hC : SignsCorrectly C) (hcon : ConsistentKey ca) :
    (∃ out, signCertWithFile F C D disk (some nonce) (some rserial) extensions file sign pin principal = .ok out) ∨
    ((∃ tbs, ca.sign F C D tbs = .ok none) ∧
      signCertWithFile F C D disk (some nonce) (some rserial) extensions file sign pin principal = .panic) := by
  obtain ⟨t, hca'⟩ := privFromPath_ok hca
  obtain ⟨hcom, kb, hkb, hkl⟩ := privkey_blob hca'
  obtain ⟨c, hc, hw, hsk⟩ := request_exists (nonce := nonce) (rserial := rserial) (serial := 0) (principal := principal) he hp
    (C20_privkey F C none t ca hca').1 (keyBlob_encode hkb hkl) hk
  unfold signCertWithFile
  rw [hca]
  simp only [Res.orPanic, Res.ok_bind, withPin_software hcon, hc]
  obtain ⟨p, pc, tbs, _, _, _, _, ht, _⟩ := tbs_wellFormed hw
  rcases sign_accepts (F := F) (D := D) hC hcon tbs with h | ⟨sig, h, ha⟩
  · refine .inr ⟨⟨tbs, h⟩, ?_⟩
    have e : c.sign C (ca.sign F C D) = .err .signingError := by
      unfold Certificate.sign
      rw [ht, Res.ok_bind, h]
      rfl
    rw [e]
    rfl
  · left
    rw [(C28_sign C (ca.sign F C D) c _).mpr ⟨tbs, sig, ht, h, by rw [hsk]; exact ha, rfl⟩]
    exact ⟨_, rfl⟩

/-- A file with an Ed25519 certificate, read as a public key, is the key made of the certificate's nonce. -/
theorem certificate_as_key {C : Crypto} {disk : Disk} {file : String} {old : Certificate} {key : PublicKey}
    (h : Certificate.fromPath C disk file = .ok old) (hk : old.keyType.kind = .ed25519Cert)
    (h' : PublicKey.fromPath disk file = .ok key) : key.kind = .ed25519 old.nonce none := by
  unfold Certificate.fromPath at h
  unfold PublicKey.fromPath at h'
  obtain ⟨s, hs, h⟩ := bind_ok_iff.mp h
  obtain ⟨s', hs', h'⟩ := bind_ok_iff.mp h'
  rw [hs, Res.ok.injEq] at hs'
  subst hs'
  obtain ⟨label, data, rest, blob, c0, t, e1, _, _, e2, e3, _, rfl⟩ := (certFromString_iff C s old).mp h
  obtain ⟨label', data', rest', blob', w, tl, e1', e2', e4, e5, _, e6⟩ := (pubFromString_iff s key).mp h'
  rw [e1] at e1'
  cases e1'
  rw [e2] at e2'
  cases e2'
  have hb : PublicKey.fromBytes blob = .ok { key with comment := none } := fromBytes_ok.mpr ⟨w, tl, e4, e5, rfl⟩
  rw [C85_ed25519 C blob c0 e3 hk, Res.ok.injEq] at hb
  have := congrArg PublicKey.kind hb
  exact this.symm

/-- C113: if the file given as the key to certify holds an Ed25519 certificate, the program does not notice: the certificate it
prints certifies the 32 random bytes of the other certificate's nonce, which nobody holds a private key for. -/
theorem C113_certificate_file (F : Features) (C : Crypto) (D : FidoDev) (disk : Disk) (nonce : Option (Vector UInt8 32))
    (rserial : Option (Vector UInt8 8)) (extensions : StrMap) (file sign : String) (pin : Option String) (principal : String)
    (out : List Char) (old : Certificate) (he : extensions.Perm Certificate.standardExtensions)
    (hp : principal.utf8ByteSize < 4294967292)
    (hsig : ∀ ca m s, PrivateKey.fromPath F C disk sign = .ok ca → (withPin ca pin).sign F C D m = .ok (some s) →
      s.length < 4294967296) (hold : Certificate.fromPath C disk file = .ok old) (hkind : old.keyType.kind = .ed25519Cert)
    (h : signCertWithFile F C D disk nonce rserial extensions file sign pin principal = .ok out) :
    ∃ c, Certificate.fromString C out = .ok c ∧ c.key.kind = .ed25519 old.nonce none := by
  obtain ⟨ca, key, c, _, hk, hc, hkk, _⟩ := C113_printed F C D disk nonce rserial extensions file sign pin principal out he hp hsig h
  exact ⟨c, hc, by rw [hkk]; exact certificate_as_key hold hkind hk⟩

/-- A disk with a public key, a private key and a certificate. -/
def sampleDisk : Disk := fun p =>
  if p = "/key.pub" then some (strBytes (String.ofList (okOf [] sampleEd.write)))
  else if p = "/ca" then some (strBytes (String.ofList (okOf [] samplePriv.write)))
  else if p = "/key-cert.pub" then some (strBytes (String.ofList sampleSigned.display))
  else none

/-- No authenticator is attached. -/
def noFido : FidoDev := ⟨fun _ _ _ _ _ => none, fun _ _ _ _ => .panic⟩

theorem sampleDisk_ca : PrivateKey.fromPath ⟨true, true, .none⟩ signingCrypto sampleDisk "/ca" =
    .ok { samplePriv with pubkey := { sampleEd with comment := none } } := by
  have h : Holds sampleDisk "/ca" (okOf [] samplePriv.write) := rfl
  rw [(C101_text _ _ sampleChrono _ _ _ none h).2.2.2.1]
  decide +kernel

theorem sampleDisk_key : PublicKey.fromPath sampleDisk "/key.pub" = .ok sampleEd := by
  have h : Holds sampleDisk "/key.pub" (okOf [] sampleEd.write) := rfl
  rw [(C101_text ⟨true, true, .none⟩ laxCrypto sampleChrono _ _ _ none h).1]
  decide +kernel

theorem sampleDisk_cert : Certificate.fromPath signingCrypto sampleDisk "/key-cert.pub" =
    .ok (okOf sampleCert (Certificate.fromString signingCrypto sampleSigned.display)) := by
  have h : Holds sampleDisk "/key-cert.pub" sampleSigned.display := rfl
  rw [(C101_text ⟨true, true, .none⟩ signingCrypto sampleChrono _ _ _ none h).2.1]
  exact okOf_eq (by decide +kernel)

theorem sampleDisk_cert_key : PublicKey.fromPath sampleDisk "/key-cert.pub" =
    .ok (okOf sampleEd (PublicKey.fromString sampleSigned.display)) := by
  have h : Holds sampleDisk "/key-cert.pub" sampleSigned.display := rfl
  rw [(C101_text ⟨true, true, .none⟩ signingCrypto sampleChrono _ _ _ none h).1]
  exact okOf_eq (by decide +kernel)

theorem samplePriv_consistent : ConsistentKey { samplePriv with pubkey := { sampleEd with comment := none } } :=
  ⟨by decide +kernel, rfl, rfl, by decide⟩

theorem samplePriv_signs (F : Features) (D : FidoDev) (tbs : Bytes) :
    PrivateKey.sign F signingCrypto D { samplePriv with pubkey := { sampleEd with comment := none } } tbs ≠ .ok none := by
  intro h
  cases h

example (pin : Option String) : ∀ file ∈ ["/key.pub", "/key-cert.pub"], ∃ out, signCertWithFile ⟨true, true, .none⟩ signingCrypto noFido
    sampleDisk (some (Vector.replicate 32 7)) (some (Vector.replicate 8 1)) Certificate.standardExtensions file "/ca" pin "me" =
      .ok out := by
  have key : ∀ file k, PublicKey.fromPath sampleDisk file = .ok k → ∃ out, signCertWithFile ⟨true, true, .none⟩ signingCrypto noFido
    sampleDisk (some (Vector.replicate 32 7)) (some (Vector.replicate 8 1)) Certificate.standardExtensions file "/ca" pin "me" =
      .ok out := by
    intro file k hk
    rcases C113_prints ⟨true, true, .none⟩ signingCrypto noFido sampleDisk (Vector.replicate 32 7) (Vector.replicate 8 1) _ file "/ca"
      pin "me" _ k (List.Perm.refl _) (by decide) sampleDisk_ca hk signingCrypto_correct samplePriv_consistent with h | ⟨⟨tbs, h⟩, _⟩
    · exact h
    · exact absurd h (samplePriv_signs _ _ _)
  intro file hf
  simp only [List.mem_cons, List.not_mem_nil, or_false] at hf
  rcases hf with rfl | rfl
  · exact key _ _ sampleDisk_key
  · exact key _ _ sampleDisk_cert_key

example : (okOf sampleCert (Certificate.fromString signingCrypto sampleSigned.display)).keyType.kind = .ed25519Cert := by decide +kernel

/-! ## C114: sign-file-with-file -/

theorem armored_println {t : List Char} (hne : t ≠ []) (h1 : t.getLast? ≠ some '\n') (h2 : t.getLast? ≠ some '\r') :
    SshSignature.fromArmoredString (println t) = SshSignature.fromArmoredString t := by
  unfold SshSignature.fromArmoredString dearmor
  rw [lines_println hne h1 h2]

theorem sigDisplay_last {s : SshSignature} {t : List Char} (h : s.display = .ok t) : t.getLast? = some '-' := by
  unfold SshSignature.display at h
  obtain ⟨b, _, h⟩ := bind_ok_iff.mp h
  cases h
  rw [List.getLast?_append]
  have : "\n-----END SSH SIGNATURE-----".toList.getLast? = some '-' := by decide +kernel
  rw [this]
  rfl

theorem keyBlob_unique {k : PublicKey} {b b' : Bytes} (h : KeyBlob k b) (h' : KeyBlob k b') : b = b' := by
  obtain ⟨_, x1, x2, rfl, g2, g3⟩ := h
  obtain ⟨_, y1, y2, rfl, g2', g3'⟩ := h'
  have := (keyMaterial_of g3).symm.trans (keyMaterial_of g3')
  rw [Option.some.injEq] at this
  rw [g2.eq, g2'.eq, this]

theorem signFileWithFile_ok {F : Features} {C : Crypto} {D : FidoDev} {disk : Disk} {file sign : String} {pin : Option String}
    {ns : String} {out : List Char} (h : signFileWithFile F C D disk file sign pin ns = .ok out) :
    ∃ k contents v t, PrivateKey.fromPath F C disk sign = .ok k ∧ disk file = some contents ∧
      VerifiedSshSignature.newWithPrivateKey F C D contents ns (withPin k pin) none = .ok v ∧ v.signature.display = .ok t ∧
      out = println t := by
  unfold signFileWithFile at h
  obtain ⟨k, hk, h⟩ := bind_ok_iff.mp h
  obtain ⟨contents, hc, h⟩ := bind_ok_iff.mp h
  obtain ⟨v, hv, h⟩ := bind_ok_iff.mp h
  obtain ⟨t, ht, h⟩ := bind_ok_iff.mp h
  refine ⟨k, contents, v, t, orPanic_ok.mp hk, ?_, orPanic_ok.mp hv, ht, (Res.ok.inj h).symm⟩
  cases hd : disk file with
  | none => rw [hd] at hc; cases hc
  | some x => rw [hd] at hc; cases hc; rfl

theorem new_signed {F : Features} {C : Crypto} {D : FidoDev} {k : PrivateKey} {msg : Bytes} {ns : String}
    {hash : Option HashAlgorithm} {v : VerifiedSshSignature}
    (h : VerifiedSshSignature.newWithPrivateKey F C D msg ns k hash = .ok v) :
    ∃ m, k.sign F C D m = .ok (some v.signature.signature) := by
  unfold VerifiedSshSignature.newWithPrivateKey at h
  simp only at h
  obtain ⟨o, hs, h⟩ := bind_ok_iff.mp h
  cases o with
  | none => cases h
  | some sig =>
    simp only [Res.ofOption, Res.ok_bind] at h
    obtain ⟨_, _, ha, rfl⟩ := (C35_exact _ _ _ _ _ _).mp h
    exact ⟨_, hs⟩

/-- C114: what sign-file-with-file prints is read back as a signature by the key in the key file, and verifies for the contents of
the file and the namespace given. -/
theorem C114_printed (F : Features) (C : Crypto) (D : FidoDev) (disk : Disk) (file sign : String) (pin : Option String)
    (ns : String) (out : List Char) (hn : ns ≠ "") (hn' : ns.utf8ByteSize < 4294967296)
    (hsig : ∀ k m s, PrivateKey.fromPath F C disk sign = .ok k → (withPin k pin).sign F C D m = .ok (some s) →
      s.length < 4294967296) (h : signFileWithFile F C D disk file sign pin ns = .ok out) :
    ∃ k contents s, PrivateKey.fromPath F C disk sign = .ok k ∧ disk file = some contents ∧
      SshSignature.fromArmoredString out = .ok s ∧ s.pubkey = k.pubkey ∧ s.namespace_ = ns ∧ s.hashAlgorithm = .sha512 ∧
      ∃ v, VerifiedSshSignature.fromSshSignature C contents s ns (some k.pubkey) = .ok v ∧ v.message = contents ∧
        v.signature = s := by
  obtain ⟨k, contents, v, t, hk, hc, hv, ht, rfl⟩ := signFileWithFile_ok h
  obtain ⟨s, hk'⟩ := privFromPath_ok hk
  obtain ⟨hcom, kb, hkb, hkl⟩ := privkey_blob hk'
  obtain ⟨c1, c2, c3, c4, c5⟩ := C39_sound F C D (withPin k pin) contents ns none v hv
  rw [withPin_pubkey] at c2 c5
  obtain ⟨m, hm⟩ := new_signed hv
  have hl := sigDisplay_last ht
  rw [armored_println (by rintro rfl; cases hl) (by rw [hl]; decide) (by rw [hl]; decide)]
  have hcn : ({ v.signature.pubkey with comment := none } : PublicKey) = k.pubkey := by
    rw [c2]
    exact (congrArg (fun c => (⟨k.pubkey.keyType, k.pubkey.kind, c⟩ : PublicKey)) hcom).symm
  obtain ⟨t', ht', hp⟩ := C37_roundtrip v.signature (by rw [c2]; exact (C20_privkey F C none s k hk').1) (by rw [c3]; exact hn)
    (by rw [c3]; exact hn') (hsig k m _ hk hm) (by
      intro b hb
      rw [hcn] at hb
      rw [keyBlob_unique hb hkb]
      exact hkl)
  rw [ht, Res.ok.injEq] at ht'
  subst ht'
  rw [hcn] at hp
  refine ⟨k, contents, _, hk, hc, hp, rfl, c3, c4, _, (C35_exact _ _ _ _ _ _).mpr ⟨c3.symm, ?_, ?_, rfl⟩, rfl, rfl⟩
  · intro k' e
    exact Option.some.inj e
  · simp only [c3, c4]
    exact c5

/-- C114: with an empty namespace a signature is printed as well, but no such text is ever read back. -/
theorem C114_empty (F : Features) (C : Crypto) (D : FidoDev) (disk : Disk) (file sign : String) (pin : Option String)
    (out : List Char) (h : signFileWithFile F C D disk file sign pin "" = .ok out) :
    ∀ s, SshSignature.fromArmoredString out ≠ .ok s := by
  intro s hs
  obtain ⟨k, contents, v, t, hk, hc, hv, ht, rfl⟩ := signFileWithFile_ok h
  obtain ⟨s', hk'⟩ := privFromPath_ok hk
  obtain ⟨hcom, kb, hkb, hkl⟩ := privkey_blob hk'
  obtain ⟨c1, c2, c3, c4, c5⟩ := C39_sound F C D (withPin k pin) contents "" none v hv
  rw [withPin_pubkey] at c2 c5
  have hl := sigDisplay_last ht
  rw [armored_println (by rintro rfl; cases hl) (by rw [hl]; decide) (by rw [hl]; decide)] at hs
  obtain ⟨blob, w, rest, res, junk, ha, rfl, hb⟩ := fromArmored_ok.mp hs
  obtain ⟨kb', hkb', hw⟩ := writePubKey_blob (k := v.signature.pubkey) (by rw [c2]; exact (C20_privkey F C none s' k hk').1)
  have hcn : ({ v.signature.pubkey with comment := none } : PublicKey) = k.pubkey := by
    rw [c2]
    exact (congrArg (fun c => (⟨k.pubkey.keyType, k.pubkey.kind, c⟩ : PublicKey)) hcom).symm
  rw [hcn] at hkb'
  have hkk := keyBlob_unique hkb' hkb
  subst hkk
  have e := toBytes_blob hw
  unfold SshSignature.display at ht
  rw [e, Res.ok_bind, Res.pure_eq, Res.ok.injEq] at ht
  generalize hB : magic ++ (u32 1 ++ (str kb' ++ (text v.signature.namespace_ ++ (str [] ++ (text (hashName v.signature.hashAlgorithm) ++
        str v.signature.signature))))) = B at ht
  have ha' := armor_of (header := "-----BEGIN SSH SIGNATURE-----") (footer := "-----END SSH SIGNATURE-----") (k := 75)
      (b := B) (tail := "-----END SSH SIGNATURE-----".toList) (by simp [← hB, magic]) (by decide) (by decide)
      ⟨[], lines_last (by decide) (by decide)⟩
  have h1 : "-----BEGIN SSH SIGNATURE-----\n".toList = "-----BEGIN SSH SIGNATURE-----".toList ++ ['\n'] := by decide +kernel
  have h2 : "\n-----END SSH SIGNATURE-----".toList = '\n' :: "-----END SSH SIGNATURE-----".toList := by decide +kernel
  rw [h1, h2] at ht
  simp only [List.append_assoc, List.cons_append, List.nil_append] at ht ha'
  rw [ht] at ha'
  have hu := (dearmor_ok (by decide)).mpr ha
  rw [(dearmor_ok (by decide)).mpr ha', Res.ok.injEq] at hu
  obtain ⟨_, hne, kb2, wKey, wNs, wRes, wHash, wSig, rfl, _, f1, f2, _⟩ := hb
  rw [← hB] at hu
  simp only [List.append_assoc] at hu
  have hu := List.append_cancel_left (List.append_cancel_left hu)
  obtain ⟨_, _, hu⟩ := readBytes_parses.unique (frame_str hkl) f1 hu
  rw [c3] at hu
  obtain ⟨hn, _, _⟩ := readString_parses.unique (frame_str (by decide) : Text "" (text "")) f2 hu
  exact hne hn.symm

example : ∀ ns ∈ ["file", ""], ∃ out, signFileWithFile ⟨true, true, .none⟩ signingCrypto noFido sampleDisk "/key.pub" "/ca" none ns =
    .ok out := by
  have key : ∀ contents ns, ∃ v t, VerifiedSshSignature.newWithPrivateKey ⟨true, true, .none⟩ signingCrypto noFido contents ns
      { samplePriv with pubkey := { sampleEd with comment := none } } none = .ok v ∧ v.signature.display = .ok t := by
    intro contents ns
    have hv : ∃ v, VerifiedSshSignature.newWithPrivateKey ⟨true, true, .none⟩ signingCrypto noFido contents ns
        { samplePriv with pubkey := { sampleEd with comment := none } } none = .ok v ∧
          v.signature.pubkey = { sampleEd with comment := none } := by
      unfold VerifiedSshSignature.newWithPrivateKey
      simp only
      rw [toSignedFormat_eq]
      rcases sign_accepts (F := ⟨true, true, .none⟩) (D := noFido) signingCrypto_correct samplePriv_consistent
        (signedData signingCrypto ns .sha512 contents) with h | ⟨sig, h, ha⟩
      · exact absurd h (samplePriv_signs _ _ _)
      · exact ⟨⟨⟨{ sampleEd with comment := none }, ns, .sha512, sig⟩, contents⟩, by
          simp only [Option.getD_none, h, Res.ok_bind, Res.ofOption]
          exact (C35_exact _ _ _ _ _ _).mpr ⟨rfl, fun _ h => Option.some.inj h, ha, rfl⟩, rfl⟩
    obtain ⟨v, hv, hp⟩ := hv
    obtain ⟨kb, _, hw⟩ := writePubKey_blob (k := v.signature.pubkey) (by rw [hp]; exact sampleEd_wf)
    have : ∃ t, v.signature.display = .ok t := by
      unfold SshSignature.display
      rw [toBytes_blob hw]
      exact ⟨_, rfl⟩
    obtain ⟨t, ht⟩ := this
    exact ⟨v, t, hv, ht⟩
  intro ns _
  obtain ⟨v, t, hv, ht⟩ := key (strBytes (String.ofList (okOf [] sampleEd.write))) ns
  unfold signFileWithFile
  rw [sampleDisk_ca]
  refine ⟨println t, ?_⟩
  have hd : sampleDisk "/key.pub" = some (strBytes (String.ofList (okOf [] sampleEd.write))) := rfl
  rw [hd]
  simp only [Res.unwrap, Res.ok_bind, withPin, hv, Res.orPanic, ht]
  rfl

/-! ## C115: ssh-cert-info and ssh-pubkey-from-cert -/

/-- `ls` are the lines of `s` before the first empty one. -/
def Listed (s : List Char) (ls : List (List Char)) : Prop :=
  (∀ l ∈ ls, l ≠ [] ∧ '\n' ∉ l) ∧
    (s ++ ['\n'] = (ls.map println).flatten ∨ ∃ rest, s ++ ['\n'] = (ls.map println).flatten ++ '\n' :: rest)

/-- What is printed for line number `i`. -/
def Report (C : Crypto) (T : ForeignTexts) (text : Certificate → Res (List Char)) (i : Nat) (l o : List Char) : Prop :=
  (∃ c, Certificate.fromString C l = .ok c ∧ text c = .ok o) ∨
    ∃ e, Certificate.fromString C l = .err e ∧
      o = "Line ".toList ++ (Nat.repr i).toList ++ ": Certificate not valid: ".toList ++ e.text T

theorem listed_exists (s : List Char) : ∃ ls, Listed s ls := by
  suffices h : ∀ (n : Nat) (s : List Char), s.length ≤ n → ∃ ls, Listed s ls from h _ s (Nat.le_refl _)
  intro n
  induction n with
  | zero =>
    intro s hs
    cases List.length_eq_zero_iff.mp (Nat.le_zero.mp hs)
    exact ⟨[], by simp, .inr ⟨[], rfl⟩⟩
  | succ n ih =>
    intro s hs
    obtain ⟨l, r, rfl, hl, hr⟩ := firstLine_cases s
    by_cases hne : l = []
    · subst hne
      rcases hr with rfl | ⟨r', rfl⟩
      · exact ⟨[], by simp, .inr ⟨[], rfl⟩⟩
      · exact ⟨[], by simp, .inr ⟨r' ++ ['\n'], rfl⟩⟩
    · rcases hr with rfl | ⟨r', rfl⟩
      · exact ⟨[l], by simp [hne, hl], .inl (by simp [println])⟩
      · obtain ⟨ls, h1, h2⟩ := ih r' (by simp at hs; omega)
        refine ⟨l :: ls, by
          intro x hx
          rcases List.mem_cons.mp hx with rfl | hx
          · exact ⟨hne, hl⟩
          · exact h1 x hx, ?_⟩
        rcases h2 with h2 | ⟨rest, h2⟩
        · exact .inl (by simp [println, h2])
        · exact .inr ⟨rest, by simp [println, h2]⟩

theorem listed_split {ls : List (List Char)} : ∀ {s : List Char}, Listed s ls →
    splitOn (· == '\n') s = ls ∨ ∃ t, splitOn (· == '\n') s = ls ++ [] :: t := by
  induction ls with
  | nil =>
    rintro s ⟨_, h | ⟨rest, h⟩⟩
    · simp at h
    · cases s with
      | nil => exact .inr ⟨[], rfl⟩
      | cons c s =>
        simp at h
        exact .inr ⟨splitOn (· == '\n') s, by simp [splitOn, h.1]⟩
  | cons l ls ih =>
    rintro s ⟨h1, h2⟩
    obtain ⟨hne, hl⟩ := h1 l (by simp)
    have hw : ∀ c ∈ l, (c == '\n') = false := by
      intro c hc
      simp
      rintro rfl
      exact hl hc
    have key : s = l ∧ ls = [] ∨ ∃ s', s = l ++ '\n' :: s' ∧ Listed s' ls := by
      have : ∃ x, s ++ ['\n'] = l ++ '\n' :: x ∧ (x = (ls.map println).flatten ∨ ∃ rest, x = (ls.map println).flatten ++ '\n' :: rest) := by
        rcases h2 with h2 | ⟨rest, h2⟩
        · exact ⟨_, by rw [h2]; simp [println], .inl rfl⟩
        · exact ⟨_, by rw [h2]; simp [println], .inr ⟨rest, rfl⟩⟩
      obtain ⟨x, hx, hx'⟩ := this
      rcases List.eq_nil_or_concat x with rfl | ⟨x', c, rfl⟩
      · left
        have e : s = l := by
          have := List.append_inj_left' hx (by simp)
          exact this
        refine ⟨e, ?_⟩
        rcases hx' with h | ⟨_, h⟩
        · cases ls with
          | nil => rfl
          | cons a as => simp [println] at h
        · simp at h
      · right
        rw [List.concat_eq_append] at hx hx'
        rw [← List.cons_append, ← List.append_assoc] at hx
        obtain ⟨e1, e2⟩ := List.append_inj' hx rfl
        cases e2
        exact ⟨x', e1, fun y hy => h1 y (by simp [hy]), hx'⟩
    rcases key with ⟨rfl, rfl⟩ | ⟨s', rfl, h⟩
    · exact .inl (splitOn_word _ hw)
    · rw [splitOn_word_sep _ hw (by simp)]
      rcases ih h with e | ⟨t, e⟩
      · exact .inl (by rw [e])
      · exact .inr ⟨t, by rw [e]; rfl⟩

theorem certLoop_eval {C : Crypto} {T : ForeignTexts} {text : Certificate → Res (List Char)}
    (htext : ∀ l c, Certificate.fromString C l = .ok c → ∃ t, text c = .ok t) (tail : List (List Char))
    (htail : tail = [] ∨ ∃ t, tail = [] :: t) (ls : List (List Char)) : ∀ (i : Nat), (∀ l ∈ ls, l ≠ []) →
    ∃ outs : List (List Char), certLoop C T text i (ls ++ tail) = .ok (outs.map println).flatten ∧ outs.length = ls.length ∧
      ∀ j l o, ls[j]? = some l → outs[j]? = some o → Report C T text (i + j) l o := by
  induction ls with
  | nil =>
    intro i _
    refine ⟨[], ?_, rfl, by simp⟩
    rcases htail with rfl | ⟨t, rfl⟩ <;> simp [certLoop]
  | cons l ls ih =>
    intro i hne
    obtain ⟨outs, h1, h2, h3⟩ := ih (i + 1) fun x hx => hne x (by simp [hx])
    have hl : l.isEmpty = false := by
      have := hne l (by simp)
      cases l with
      | nil => exact absurd rfl this
      | cons _ _ => rfl
    have ho : ∃ o, Report C T text i l o ∧ certLine C T text i l = .ok o := by
      unfold certLine
      cases hc : Certificate.fromString C l with
      | ok c =>
        obtain ⟨t, ht⟩ := htext l c hc
        exact ⟨t, .inl ⟨c, hc, ht⟩, ht⟩
      | err e => exact ⟨_, .inr ⟨e, hc, rfl⟩, rfl⟩
      | panic => exact absurd hc (C31_total C l)
    obtain ⟨o, hr, ho⟩ := ho
    refine ⟨o :: outs, ?_, by simp [h2], ?_⟩
    · rw [List.cons_append, certLoop, if_neg (by simp [hl])]
      rw [ho, Res.ok_bind, h1, Res.ok_bind]
      simp
    · intro j l' o' hj ho'
      cases j with
      | zero =>
        simp at hj ho'
        subst hj ho'
        exact hr
      | succ j =>
        simp only [List.getElem?_cons_succ] at hj ho'
        have := h3 j l' o' hj ho'
        rwa [Nat.add_right_comm, Nat.add_assoc] at this

/-- C115: on a file of text both programs print, for each line before the first empty one, what the line's certificate is shown
as, or that the line is not a certificate; they never panic. -/
theorem C115_lines (C : Crypto) (T : ForeignTexts) (text : Certificate → Res (List Char)) (disk : Disk) (path : String)
    (s : List Char) (ls : List (List Char)) (htext : ∀ l c, Certificate.fromString C l = .ok c → ∃ t, text c = .ok t)
    (h : Holds disk path s) (hls : Listed s ls) :
    ∃ outs : List (List Char), certProgram C T text disk [path] = .ok (outs.map println).flatten ∧ outs.length = ls.length ∧
      ∀ i l o, ls[i]? = some l → outs[i]? = some o → Report C T text i l o := by
  unfold certProgram
  simp only [readToString_ok.mpr h]
  have hne : ∀ l ∈ ls, l ≠ [] := fun l hl => (hls.1 l hl).1
  rcases listed_split hls with e | ⟨t, e⟩
  · have := certLoop_eval (T := T) htext [] (.inl rfl) ls 0 hne
    rw [List.append_nil] at this
    rw [e]
    simpa only [Nat.zero_add] using this
  · rw [e]
    simpa only [Nat.zero_add] using certLoop_eval (T := T) htext _ (.inr ⟨t, rfl⟩) ls 0 hne

/-- C115: every text has exactly one list of lines before the first empty one. -/
theorem C115_listed (s : List Char) : ∃ ls, Listed s ls ∧ ∀ ls', Listed s ls' → ls' = ls := by
  obtain ⟨ls, h⟩ := listed_exists s
  refine ⟨ls, h, fun ls' h' => ?_⟩
  have key : ∀ (a b : List (List Char)) (t t' : List (List Char)), (∀ l ∈ a, l ≠ []) → (∀ l ∈ b, l ≠ []) →
      (t = [] ∨ ∃ x, t = [] :: x) → (t' = [] ∨ ∃ x, t' = [] :: x) → a ++ t = b ++ t' → a = b := by
    intro a
    induction a with
    | nil =>
      intro b t t' _ hb ht ht' e
      cases b with
      | nil => rfl
      | cons y b =>
        exfalso
        rcases ht with rfl | ⟨x, rfl⟩
        · simp at e
        · simp at e
          exact hb y (by simp) (by first | exact e.1 | exact e.1.symm)
    | cons x a ih =>
      intro b t t' ha hb ht ht' e
      cases b with
      | nil =>
        exfalso
        rcases ht' with rfl | ⟨y, rfl⟩
        · simp at e
        · simp at e
          exact ha x (by simp) e.1
      | cons y b =>
        simp only [List.cons_append, List.cons.injEq] at e
        rw [e.1, ih b t t' (fun l hl => ha l (by simp [hl])) (fun l hl => hb l (by simp [hl])) ht ht' e.2]
  have hs : ∀ {ls}, Listed s ls → ∃ t, splitOn (· == '\n') s = ls ++ t ∧ (t = [] ∨ ∃ x, t = [] :: x) := by
    intro ls hl
    rcases listed_split hl with e | ⟨t, e⟩
    · exact ⟨[], by simp [e], .inl rfl⟩
    · exact ⟨_, e, .inr ⟨t, rfl⟩⟩
  obtain ⟨t, e, ht⟩ := hs h
  obtain ⟨t', e', ht'⟩ := hs h'
  exact key _ _ t' t (fun l hl => (h'.1 l hl).1) (fun l hl => (h.1 l hl).1) ht' ht (e'.symm.trans e)

theorem cert_texts_total (C : Crypto) (l : List Char) (c : Certificate) (h : Certificate.fromString C l = .ok c) :
    (∃ t, c.displayAlternate C = .ok t) ∧ ∃ t, c.key.display = .ok t ∧ PublicKey.fromString t = .ok c.key := by
  obtain ⟨label, data, rest, blob, c0, t, e1, _, _, e2, e3, _, rfl⟩ := (certFromString_iff C l c).mp h
  obtain ⟨w1, w2, _⟩ := C20_certificate C blob c0 e3
  constructor
  · obtain ⟨t, ht⟩ := C92_total C C blob c0 e3
    exact ⟨t, ht⟩
  · obtain ⟨w, wsig, rest, h1, ⟨k1, k2, k3, k4, k5, k6, _⟩, _⟩ := certFromBytes_ok.mp e3
    have hpl : ∀ kt ∈ keyTypes, ∀ p ∈ keyTypes, p.name = kt.plain → p.name = p.plain := by decide +kernel
    exact (pub_text_roundtrip c0.key w1 (hpl _ k1 _ k3 k4) (by rw [k5]; intro c hc; cases hc)).1

/-- C115: so ssh-cert-info prints the text of every certificate. -/
theorem C115_info (C : Crypto) (T : ForeignTexts) (disk : Disk) (path : String) (s : List Char) (ls : List (List Char))
    (h : Holds disk path s) (hls : Listed s ls) :
    ∃ outs : List (List Char), sshCertInfo C T disk [path] = .ok (outs.map println).flatten ∧ outs.length = ls.length ∧
      ∀ (i : Nat) l o c, ls[i]? = some l → outs[i]? = some o → Certificate.fromString C l = .ok c → c.displayAlternate C = .ok o := by
  obtain ⟨outs, h1, h2, h3⟩ := C115_lines C T (fun c => c.displayAlternate C) disk path s ls
    (fun l c hc => (cert_texts_total C l c hc).1) h hls
  refine ⟨outs, h1, h2, fun i l o c hl ho hc => ?_⟩
  rcases h3 i l o hl ho with ⟨c', hc', ht⟩ | ⟨e, he, _⟩
  · rw [hc, Res.ok.injEq] at hc'
    rw [hc']
    exact ht
  · rw [hc] at he
    cases he

/-- C115: and ssh-pubkey-from-cert prints, for every certificate, a line that is read as the certified key. -/
theorem C115_keys (C : Crypto) (T : ForeignTexts) (disk : Disk) (path : String) (s : List Char) (ls : List (List Char))
    (h : Holds disk path s) (hls : Listed s ls) :
    ∃ outs : List (List Char), sshPubkeyFromCert C T disk [path] = .ok (outs.map println).flatten ∧ outs.length = ls.length ∧
      ∀ (i : Nat) l o c, ls[i]? = some l → outs[i]? = some o → Certificate.fromString C l = .ok c →
        PublicKey.fromString (println o) = .ok c.key := by
  obtain ⟨outs, h1, h2, h3⟩ := C115_lines C T (fun c => c.key.display) disk path s ls
    (fun l c hc => let ⟨t, ht, _⟩ := (cert_texts_total C l c hc).2; ⟨t, ht⟩) h hls
  refine ⟨outs, h1, h2, fun i l o c hl ho hc => ?_⟩
  rcases h3 i l o hl ho with ⟨c', hc', ht⟩ | ⟨e, he, _⟩
  · rw [hc, Res.ok.injEq] at hc'
    subst hc'
    obtain ⟨t, ht', hp⟩ := (cert_texts_total C l c hc).2
    simp only at ht
    rw [ht, Res.ok.injEq] at ht'
    subst ht'
    rw [publicKey_println]
    exact hp
  · rw [hc] at he
    cases he

theorem splitOn_append (p : Char → Bool) {c : Char} (hc : p c = true) (s y : List Char) :
    splitOn p (s ++ c :: y) = splitOn p s ++ splitOn p y := by
  induction s with
  | nil => simp [splitOn, hc]
  | cons d s ih =>
    simp only [List.cons_append, splitOn, ih]
    split
    · rfl
    · cases h : splitOn p s with
      | nil => exact absurd h (splitOn_ne_nil p s)
      | cons a b => rfl

theorem certLoop_empty {C : Crypto} {T : ForeignTexts} {text : Certificate → Res (List Char)} (t t' ls : List (List Char)) :
    ∀ i, certLoop C T text i (ls ++ [] :: t) = certLoop C T text i (ls ++ [] :: t') := by
  induction ls with
  | nil => intro i; simp [certLoop]
  | cons l ls ih => intro i; simp only [List.cons_append, certLoop, ih]

/-- C115: what stands behind an empty line is never looked at: certificates there are silently left out. -/
theorem C115_ignored (C : Crypto) (T : ForeignTexts) (disk disk' : Disk) (path : String) (s x : List Char)
    (h : Holds disk path (s ++ ['\n', '\n'])) (h' : Holds disk' path (s ++ '\n' :: '\n' :: x)) :
    sshCertInfo C T disk' [path] = sshCertInfo C T disk [path] ∧
    sshPubkeyFromCert C T disk' [path] = sshPubkeyFromCert C T disk [path] := by
  have e : ∀ y, splitOn (· == '\n') (s ++ '\n' :: '\n' :: y) = splitOn (· == '\n') s ++ [] :: splitOn (· == '\n') y := by
    intro y
    rw [splitOn_append _ (by decide)]
    rfl
  unfold sshCertInfo sshPubkeyFromCert certProgram
  simp only [readToString_ok.mpr h, readToString_ok.mpr h', e]
  exact ⟨certLoop_empty _ _ _ _, certLoop_empty _ _ _ _⟩

/-- A file with the sample certificate, a line that is none, an empty line and the certificate again. -/
def sampleCertFile : List Char :=
  sampleSigned.display ++ "\nnonsense\n\n".toList ++ sampleSigned.display

example : Listed sampleCertFile [sampleSigned.display, "nonsense".toList] := by
  refine ⟨by decide +kernel, .inr ⟨sampleSigned.display ++ ['\n'], by decide +kernel⟩⟩


example : okOf [] (certLoop laxCrypto ⟨[], [], [], []⟩ (fun c => c.key.display) 0 (splitOn (· == '\n') sampleCertFile)) =
    "ssh-ed25519 AAAAC3NzaC1lZDI1NTE5AAAAAwECAw==\nLine 1: Certificate not valid: Unknown key type nonsense\n".toList := by
  decide +kernel

/-! ## C116: ssh-pkey-info and ssh-pubkey-info -/

theorem givenPassphrase_eq (rest : List String) : givenPassphrase rest = if rest.length = 1 then rest.head? else none := by
  match rest with
  | [] => rfl
  | [p] => rfl
  | _ :: _ :: _ => simp [givenPassphrase]

/-- C116: what ssh-pkey-info does with a path: it prints the fingerprint of the public half and the comment, or ends with the
parser's error or panic.  A passphrase is used only if it is the last argument. -/
theorem C116_private (F : Features) (C : Crypto) (T : ForeignTexts) (disk : Disk) (path : String) (rest : List String) :
    (∃ k b, PrivateKey.fromPathWithPassphrase F C disk path (if rest.length = 1 then rest.head? else none) = .ok k ∧
      k.pubkey.encode = .ok b ∧ sshPkeyInfo F C T disk (path :: rest) =
        .done (println ((Fingerprint.compute C .sha256 b).display ++ ' ' :: k.comment.toList))) ∨
    (∃ e, PrivateKey.fromPathWithPassphrase F C disk path (if rest.length = 1 then rest.head? else none) = .err e ∧
      sshPkeyInfo F C T disk (path :: rest) = .failed (notValid T e path)) ∨
    (PrivateKey.fromPathWithPassphrase F C disk path (if rest.length = 1 then rest.head? else none) = .panic ∧
      F.rsaSigning = true ∧ sshPkeyInfo F C T disk (path :: rest) = .panicked) := by
  unfold sshPkeyInfo
  simp only [← givenPassphrase_eq]
  cases h : PrivateKey.fromPathWithPassphrase F C disk path (givenPassphrase rest) with
  | ok k =>
    left
    have h' := h
    unfold PrivateKey.fromPathWithPassphrase at h'
    obtain ⟨t, _, h'⟩ := bind_ok_iff.mp h'
    obtain ⟨b, hb, hd⟩ := C96_total F C C _ t k h'
    exact ⟨k, b, rfl, hb, by simp only [hd]⟩
  | err e => exact .inr (.inl ⟨e, rfl, rfl⟩)
  | panic =>
    refine .inr (.inr ⟨rfl, ?_, rfl⟩)
    unfold PrivateKey.fromPathWithPassphrase at h
    rcases readToString_cases disk path with ⟨s, _, hs⟩ | ⟨_, hs⟩
    · rw [hs, Res.ok_bind] at h
      exact ((C47_exact F C _ s).mp h).1
    · rw [hs] at h
      cases h

/-- C116: of the private key only the public half and the comment are shown. -/
theorem C116_no_secret (F : Features) (C : Crypto) (T : ForeignTexts) (disk disk' : Disk) (path path' : String)
    (rest rest' : List String) (k k' : PrivateKey)
    (h : PrivateKey.fromPathWithPassphrase F C disk path (if rest.length = 1 then rest.head? else none) = .ok k)
    (h' : PrivateKey.fromPathWithPassphrase F C disk' path' (if rest'.length = 1 then rest'.head? else none) = .ok k')
    (h1 : k.pubkey = k'.pubkey) (h2 : k.comment = k'.comment) :
    sshPkeyInfo F C T disk (path :: rest) = sshPkeyInfo F C T disk' (path' :: rest') := by
  rcases C116_private F C T disk path rest with ⟨k1, b, e1, e2, e3⟩ | ⟨e, e1, _⟩ | ⟨e1, _⟩
  rotate_left
  · rw [h] at e1; cases e1
  · rw [h] at e1; cases e1
  rcases C116_private F C T disk' path' rest' with ⟨k2, b', e1', e2', e3'⟩ | ⟨e, e1', _⟩ | ⟨e1', _⟩
  rotate_left
  · rw [h'] at e1'; cases e1'
  · rw [h'] at e1'; cases e1'
  rw [h, Res.ok.injEq] at e1
  rw [h', Res.ok.injEq] at e1'
  subst e1 e1'
  rw [h1, e2', Res.ok.injEq] at e2
  subst e2
  rw [e3, e3', h2]

/-- C116: what ssh-pubkey-info does with a path: the length shown is 256 whatever the key; it never panics. -/
theorem C116_public (C : Crypto) (T : ForeignTexts) (disk : Disk) (path : String) (rest : List String) :
    (∃ k b, PublicKey.fromPath disk path = .ok k ∧ k.encode = .ok b ∧ sshPubkeyInfo C T disk (path :: rest) =
        .done (println ("256 ".toList ++ (Fingerprint.compute C .sha256 b).display ++
          ' ' :: (k.comment.getD "no comment").toList))) ∨
    ∃ e, PublicKey.fromPath disk path = .err e ∧ sshPubkeyInfo C T disk (path :: rest) = .failed (notValid T e path) := by
  unfold sshPubkeyInfo
  dsimp only
  cases h : PublicKey.fromPath disk path with
  | ok k =>
    left
    obtain ⟨s, hs⟩ := fromPath_ok h
    obtain ⟨_, b, _, _, _, _, _, _, _, _, _, he, _⟩ := encode_wellFormed (C20_parsed k (.inr ⟨s, hs⟩))
    refine ⟨k, b, rfl, he, ?_⟩
    unfold PublicKey.fingerprintWith
    simp only [he, Res.ok_bind, Res.pure_eq, Fingerprint.display]
    have : "256 SHA256:".toList = "256 ".toList ++ (FingerprintKind.sha256.display.toList ++ [':']) := by decide +kernel
    rw [this]
    simp [Fingerprint.compute]
  | err e => exact .inr ⟨e, rfl, rfl⟩
  | panic =>
    exfalso
    unfold PublicKey.fromPath at h
    rcases readToString_cases disk path with ⟨s, _, hs⟩ | ⟨_, hs⟩
    · rw [hs, Res.ok_bind] at h
      exact C17_total s h
    · rw [hs] at h
      cases h

example : (∃ k, PrivateKey.fromPathWithPassphrase ⟨true, true, .none⟩ signingCrypto sampleDisk "/ca" none = .ok k) ∧
    (∃ k, PublicKey.fromPath sampleDisk "/key.pub" = .ok k) ∧ PublicKey.fromPath sampleDisk "/other" = .err .io :=
  ⟨⟨_, sampleDisk_ca⟩, ⟨_, sampleDisk_key⟩, rfl⟩

end Ssh
