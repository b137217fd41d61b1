import Verif.Props.Policy

/-! # C112: encrypted key files are not authenticated -/

namespace Ssh

open Spec Reader

namespace Spec

/-- Bytewise exclusive or. -/
def xorBytes (a b : Bytes) : Bytes := List.zipWith (· ^^^ ·) a b

end Spec

theorem xorBytes_length {a b : Bytes} (h : b.length = a.length) : (xorBytes a b).length = a.length := by
  simp [xorBytes, h]

theorem xorBytes_append {a b a' b' : Bytes} (h : a.length = a'.length) :
    xorBytes (a ++ b) (a' ++ b') = xorBytes a a' ++ xorBytes b b' := by
  unfold xorBytes
  exact List.zipWith_append h

theorem xorBytes_zero (a : Bytes) : xorBytes a (List.replicate a.length 0) = a := by
  unfold xorBytes
  induction a with
  | nil => rfl
  | cons x a ih => simp [List.replicate_succ, ih]

theorem xorBytes_xor {a b : Bytes} (h : a.length = b.length) : xorBytes a (xorBytes a b) = b := by
  unfold xorBytes
  induction a generalizing b with
  | nil => cases b <;> simp_all
  | cons x a ih =>
    cases b with
    | nil => simp at h
    | cons y b =>
      simp only [List.zipWith_cons_cons]
      rw [ih (by simpa using h), ← UInt8.xor_assoc, UInt8.xor_self, UInt8.zero_xor]

/-- Changing encrypted bytes changes the decrypted bytes in the same way. -/
theorem xorOf_xor {stream : Nat → UInt8} {enc plain d : Bytes} (h : XorOf stream enc plain) (hd : d.length = enc.length) :
    XorOf stream (xorBytes enc d) (xorBytes plain d) := by
  obtain ⟨h1, h2⟩ := h
  have hl := xorBytes_length hd
  have hl' := xorBytes_length (a := plain) (b := d) (by omega)
  refine ⟨by omega, fun i hi => ?_⟩
  have hi' : i < enc.length := by omega
  have hp := h2 i hi'
  have hpi : plain[i]'(by omega) = enc[i] ^^^ stream i := by
    rw [List.getElem?_eq_getElem (by omega)] at hp
    exact Option.some.inj hp
  rw [List.getElem?_eq_getElem (by omega)]
  congr 1
  simp only [xorBytes, List.getElem_zipWith, hpi]
  rw [UInt8.xor_assoc, UInt8.xor_comm (stream i), UInt8.xor_assoc]

/-- C112: exclusive or with any difference commutes with decryption: there is nothing in the file that depends on the encrypted
bytes or the decrypted bytes as a whole. -/
theorem C112_bits (F : Features) (C : Crypto) (pass : Option String) (kdfData sec plain d : Bytes)
    (h : Decrypts F C "aes256-ctr" "bcrypt" pass kdfData sec plain) (hd : d.length = sec.length) :
    Decrypts F C "aes256-ctr" "bcrypt" pass kdfData (xorBytes sec d) (xorBytes plain d) := by
  rcases h with ⟨h, _⟩ | ⟨_, _, hF, p, hp, salt, rounds, w, rest, key, iv, e1, e2, e3, e4, e5⟩
  · exact absurd h (by decide)
  · refine .inr ⟨rfl, rfl, hF, p, hp, salt, rounds, w, rest, key, iv, e1, e2, e3, ?_, xorOf_xor e5 hd⟩
    rw [xorBytes_length hd]
    exact e4

example : Decrypts ⟨true, true, .none⟩ encCrypto "aes256-ctr" "bcrypt" (some "pw") (str [1, 2] ++ (u32 16 ++ [])) [7, 8] [6, 10] ∧
    Decrypts ⟨true, true, .none⟩ encCrypto "aes256-ctr" "bcrypt" (some "pw") (str [1, 2] ++ (u32 16 ++ [])) [6, 8] [7, 10] := by
  have h : Decrypts ⟨true, true, .none⟩ encCrypto "aes256-ctr" "bcrypt" (some "pw") (str [1, 2] ++ (u32 16 ++ [])) [7, 8] [6, 10] :=
    .inr ⟨rfl, rfl, rfl, "pw", rfl, [1, 2], 16, _, [], [1], [2], rfl, ⟨by decide, rfl⟩, rfl, rfl, rfl, by decide +kernel⟩
  exact ⟨h, C112_bits _ _ _ _ _ _ [1, 0] h rfl⟩

/-- A file whose encrypted section is replaced by one of the same length. -/
theorem keyFile_replace {cipher kdf : String} {kdfData pub pre mid suf w : Bytes}
    (h : KeyFile cipher kdf kdfData pub (pre ++ (mid ++ suf)) w) :
    ∃ head tail, w = head ++ (mid ++ tail) ∧ ∀ mid', mid'.length = mid.length →
      KeyFile cipher kdf kdfData pub (pre ++ (mid' ++ suf)) (head ++ (mid' ++ tail)) := by
  obtain ⟨w1, w2, w3, w4, w5, rfl, h1, h2, h3, h4, h5⟩ := h
  refine ⟨preamble ++ (w1 ++ (w2 ++ (w3 ++ (u32 1 ++ (w4 ++ (u32 (pre ++ (mid ++ suf)).length ++ pre)))))), suf, ?_, fun mid' hl => ?_⟩
  · rw [h5.2]
    simp only [List.append_assoc]
  · have hlen : (pre ++ (mid' ++ suf)).length = (pre ++ (mid ++ suf)).length := by simp [hl]
    exact ⟨w1, w2, w3, w4, u32 (pre ++ (mid' ++ suf)).length ++ (pre ++ (mid' ++ suf)),
      by rw [hlen]; simp only [List.append_assoc], h1, h2, h3, h4, by rw [hlen]; exact h5.1, rfl⟩

/-- C112: from an accepted encrypted file others are made without the passphrase: wherever the decrypted section is cut, the bytes of
the file that hold the middle part can be exchanged by their exclusive or with any `d`, and the result is accepted as the key that the
section with the middle part changed by `d` holds. -/
theorem C112_patch (F : Features) (C : Crypto) (pass : Option String) (kdfData pub sec w rest : Bytes) (k : PrivateKey)
    (hw : KeyFile "aes256-ctr" "bcrypt" kdfData pub sec w)
    (h : (PrivateKey.fromReader F C pass (Reader.new (w ++ rest))).1 = .ok k) :
    ∃ plain pad, PrivSection F.rsaSigning k pad plain ∧ ∀ a b c, plain = a ++ (b ++ c) →
      ∃ head mid tail, w = head ++ (mid ++ tail) ∧ mid.length = b.length ∧
        ∀ d k' pad' rest', d.length = b.length → k'.pubkey = k.pubkey →
          PrivSection F.rsaSigning k' pad' (a ++ (xorBytes b d ++ c)) →
          (PrivateKey.fromReader F C pass (Reader.new (head ++ (xorBytes mid d ++ tail) ++ rest'))).1 = .ok k' := by
  obtain ⟨v, rest', e, cipher, kdf, kdfData', kb, junk, sec', plain, pad, hw', hkb, hd, hb⟩ :=
    (keyFile_parses F C pass).new.mp h
  have hsame : cipher = "aes256-ctr" ∧ kdf = "bcrypt" ∧ kdfData = kdfData' ∧ pub = kb ++ junk ∧ sec = sec' := by
    obtain ⟨w1, w2, w3, w4, w5, rfl, h1, h2, h3, h4, h5⟩ := hw
    obtain ⟨v1, v2, v3, v4, v5, rfl, g1, g2, g3, g4, g5⟩ := hw'
    simp only [List.append_assoc] at e
    have e := List.append_cancel_left e
    obtain ⟨rfl, _, e⟩ := Reader.readString_parses.unique h1 g1 e
    obtain ⟨rfl, _, e⟩ := Reader.readString_parses.unique h2 g2 e
    obtain ⟨e3, _, e⟩ := Reader.readBytes_parses.unique h3 g3 e
    have e := List.append_cancel_left e
    obtain ⟨e4, _, e⟩ := Reader.readBytes_parses.unique h4 g4 e
    obtain ⟨e5, _, _⟩ := Reader.readBytes_parses.unique h5 g5 e
    exact ⟨rfl, rfl, e3, e4, e5⟩
  obtain ⟨rfl, rfl, rfl, rfl, rfl⟩ := hsame
  have hplen : plain.length = sec.length := by
    rcases hd with ⟨_, _, rfl⟩ | ⟨_, _, _, p, _, salt, rounds, w, rest, key, iv, _, _, _, _, hx⟩
    · rfl
    · exact hx.1
  refine ⟨plain, pad, hb, fun a b c hplain => ?_⟩
  have hslen : sec.length = a.length + (b.length + c.length) := by
    rw [← hplen, hplain]; simp
  obtain ⟨s1, s2, s3, hs, l1, l2, l3⟩ : ∃ s1 s2 s3, sec = s1 ++ (s2 ++ s3) ∧ s1.length = a.length ∧
      s2.length = b.length ∧ s3.length = c.length := by
    refine ⟨sec.take a.length, (sec.drop a.length).take b.length, (sec.drop a.length).drop b.length, ?_, ?_, ?_, ?_⟩
    · rw [List.take_append_drop, List.take_append_drop]
    · simp; omega
    · simp; omega
    · simp; omega
  rw [hs] at hw
  obtain ⟨head, tail, hwe, hw2⟩ : ∃ head tail, w = head ++ (s2 ++ tail) ∧ ∀ mid', mid'.length = s2.length →
      KeyFile "aes256-ctr" "bcrypt" kdfData (kb ++ junk) (s1 ++ (mid' ++ s3)) (head ++ (mid' ++ tail)) := by
    exact keyFile_replace hw
  refine ⟨head, s2, tail, hwe, l2, fun d k' pad' rest' hdl hpk hsec => ?_⟩
  have hd' := C112_bits F C pass kdfData sec plain
    (List.replicate a.length 0 ++ (d ++ List.replicate c.length 0)) hd (by simp [hdl, hslen])
  have esec : xorBytes sec (List.replicate a.length 0 ++ (d ++ List.replicate c.length 0)) =
      s1 ++ (xorBytes s2 d ++ s3) := by
    rw [hs, xorBytes_append (by simp [l1]), xorBytes_append (by omega), ← l1, xorBytes_zero, ← l3, xorBytes_zero]
  have eplain : xorBytes plain (List.replicate a.length 0 ++ (d ++ List.replicate c.length 0)) =
      a ++ (xorBytes b d ++ c) := by
    rw [hplain, xorBytes_append (by simp), xorBytes_append (by omega), xorBytes_zero, xorBytes_zero]
  rw [esec, eplain] at hd'
  rw [← hpk] at hkb
  exact (keyFile_parses F C pass).new.mpr ⟨_, rest', rfl, _, _, kdfData, kb, junk, _, _, pad',
    hw2 _ (by rw [xorBytes_length (by omega)]), hkb, hd', hsec⟩

/-- C112: whoever knows the comment of an encrypted key can replace it by another of the same length, without the passphrase:
exchanging bytes in one place of the file by their exclusive or with the old and the new comment makes a file that the passphrase
opens as the same key with the new comment. -/
theorem C112_comment (F : Features) (C : Crypto) (pass : Option String) (kdfData pub sec w rest : Bytes) (k : PrivateKey)
    (c' : String) (hw : KeyFile "aes256-ctr" "bcrypt" kdfData pub sec w)
    (h : (PrivateKey.fromReader F C pass (Reader.new (w ++ rest))).1 = .ok k)
    (hl : c'.utf8ByteSize = k.comment.utf8ByteSize) :
    ∃ head mid tail, w = head ++ (mid ++ tail) ∧ mid.length = k.comment.utf8ByteSize ∧
      ∀ rest', (PrivateKey.fromReader F C pass
        (Reader.new (head ++ (xorBytes mid (xorBytes (strBytes k.comment) (strBytes c')) ++ tail) ++ rest'))).1 =
        .ok { k with comment := c' } := by
  obtain ⟨plain, pad, ⟨b, hpl, hk1, hk2, hk3, x1, x2, x3, rfl, hx1, hx2, hx3⟩, hp⟩ := C112_patch F C pass kdfData pub sec w rest k hw h
  have ht : x3 = u32 k.comment.utf8ByteSize ++ strBytes k.comment := by
    have := hx3.2
    rw [show k.comment.toByteArray.data.toList = strBytes k.comment from rfl, strBytes_length] at this
    exact this
  have hcl : (strBytes k.comment).length = k.comment.utf8ByteSize := strBytes_length _
  have hcl' : (strBytes c').length = k.comment.utf8ByteSize := by rw [strBytes_length, hl]
  obtain ⟨head, mid, tail, hwe, hm, hp⟩ := hp
    (u32 k.magic.toNat ++ (u32 k.magic.toNat ++ (x1 ++ (x2 ++ u32 k.comment.utf8ByteSize)))) (strBytes k.comment) pad
    (by rw [hpl, ht]; simp only [List.append_assoc])
  refine ⟨head, mid, tail, hwe, by rw [hm, hcl], fun rest' => hp _ _ pad rest' (xorBytes_length (by omega)) rfl ?_⟩
  rw [xorBytes_xor (by omega)]
  refine ⟨x1 ++ (x2 ++ (u32 c'.utf8ByteSize ++ strBytes c')), ?_, hk1, hk2, hk3, x1, x2, _, rfl, hx1, hx2, ?_, ?_⟩
  · rw [hl]; simp only [List.append_assoc]
  · rw [show c'.toByteArray.data.toList = strBytes c' from rfl, hcl']; exact (text_size hx3).2
  · rw [show c'.toByteArray.data.toList = strBytes c' from rfl, strBytes_length]

/-- C112: bits of the secret of an encrypted Ed25519 key can be inverted without the passphrase and without an error at opening. -/
theorem C112_secret (F : Features) (C : Crypto) (pass : Option String) (kdfData pub sec w rest : Bytes) (k : PrivateKey) (s d : Bytes)
    (hw : KeyFile "aes256-ctr" "bcrypt" kdfData pub sec w)
    (h : (PrivateKey.fromReader F C pass (Reader.new (w ++ rest))).1 = .ok k) (hk : k.kind = .ed25519 s) (hl : d.length = s.length) :
    ∃ head mid tail, w = head ++ (mid ++ tail) ∧ mid.length = s.length ∧
      ∀ rest', (PrivateKey.fromReader F C pass (Reader.new (head ++ (xorBytes mid d ++ tail) ++ rest'))).1 =
        .ok { k with kind := .ed25519 (xorBytes s d) } := by
  obtain ⟨plain, pad, ⟨b, hpl, hk1, hk2, hk3, x1, x2, x3, rfl, hx1, hx2, hx3⟩, hp⟩ := C112_patch F C pass kdfData pub sec w rest k hw h
  rw [hk] at hx2
  obtain ⟨g1, g2, point, y1, y2, g3, rfl, g4, g5⟩ := hx2
  have ht : y2 = u32 s.length ++ s := g5.2
  obtain ⟨head, mid, tail, hwe, hm, hp⟩ := hp
    (u32 k.magic.toNat ++ (u32 k.magic.toNat ++ (x1 ++ (y1 ++ u32 s.length)))) s (x3 ++ pad)
    (by rw [hpl, ht]; simp only [List.append_assoc])
  refine ⟨head, mid, tail, hwe, hm, fun rest' => hp d _ pad rest' hl rfl ?_⟩
  have hlen := xorBytes_length hl
  refine ⟨x1 ++ ((y1 ++ (u32 s.length ++ xorBytes s d)) ++ x3), by simp only [List.append_assoc],
    hk1, hk2, hk3, x1, _, x3, rfl, hx1, ⟨g1, g2, point, y1, _, g3, rfl, g4, ?_, ?_⟩, hx3⟩
  · rw [hlen]; exact g5.1
  · rw [hlen]

/-- The sample key, encrypted. -/
theorem sampleEncrypted : ∃ kdfData pub sec w, KeyFile "aes256-ctr" "bcrypt" kdfData pub sec w ∧
    (PrivateKey.fromReader ⟨true, true, .none⟩ encCrypto (some "pw") (Reader.new (w ++ []))).1 = .ok (stored samplePriv) := by
  have hl : ∀ w, samplePriv.encode = .ok w → w.length < 4294967296 := by
    intro w hw
    rw [okOf_eq (d := []) (x := samplePriv.encode) (by decide +kernel)] at hw
    rw [← Res.ok.inj hw]
    decide +kernel
  obtain ⟨b, hb⟩ := privBlob_of samplePriv_wf
  obtain ⟨kb, _, e⟩ := encode_of_blob hb (noReserved_stored samplePriv)
  have e' := e
  rw [encode_stored] at e'
  obtain ⟨kb, sec, b, pad, ⟨_, _, _, _, _, _, _, _, _, h4, h5⟩, hkb, hb, rfl, _⟩ :=
    canonical_of_encode hb (noReserved_stored samplePriv) e (hl _ e')
  have hlen : ∀ s, (PrivateKey.xorStream (fun i => UInt8.ofNat (i + 1)) s).length = s.length := fun s =>
    (xorOf_iff (ks := fun i => UInt8.ofNat (i + 1)).mpr rfl).1
  generalize hsec : u32 (stored samplePriv).magic.toNat ++ _ = sec at h5
  refine ⟨str [1, 2] ++ (u32 (16 : UInt32).toNat ++ []), kb ++ [], PrivateKey.xorStream (fun i => UInt8.ofNat (i + 1)) sec, _,
    ⟨_, _, _, _, _, rfl, frame_str (by decide), frame_str (by decide), frame_str (by decide), by rw [List.append_nil]; exact h4,
      frame_str (by rw [hlen]; exact h5.1)⟩, ?_⟩
  refine (keyFile_parses _ _ _).new.mpr ⟨_, [], rfl, _, _, _, kb, [], _, sec, pad,
    ⟨_, _, _, _, _, rfl, frame_str (by decide), frame_str (by decide), frame_str (by decide), by rw [List.append_nil]; exact h4,
      frame_str (by rw [hlen]; exact h5.1)⟩, hkb, .inr ⟨rfl, rfl, rfl, "pw", rfl, [1, 2], 16, _, [], [1], [2], rfl,
      frame_str (by decide), rfl, rfl, ?_⟩, b, hsec.symm, hb⟩
  refine ⟨(hlen _).symm, fun i hi => ?_⟩
  have h := (xorOf_iff (ks := fun i => UInt8.ofNat (i + 1)) (enc := sec)).mpr rfl
  rw [hlen] at hi
  have := h.2 i hi
  rw [List.getElem?_eq_getElem (by rw [hlen]; exact hi), Option.some.injEq] at this
  rw [this, List.getElem?_eq_getElem hi]
  show some sec[i] = some ((sec[i] ^^^ UInt8.ofNat (i + 1)) ^^^ UInt8.ofNat (i + 1))
  rw [UInt8.xor_assoc, UInt8.xor_self, UInt8.xor_zero]

example : ∃ kdfData pub sec w, KeyFile "aes256-ctr" "bcrypt" kdfData pub sec w ∧
    ∃ w', w' ≠ w ∧ (PrivateKey.fromReader ⟨true, true, .none⟩ encCrypto (some "pw") (Reader.new (w' ++ []))).1 =
      .ok { stored samplePriv with comment := String.ofList (List.replicate (stored samplePriv).comment.utf8ByteSize 'x') } := by
  obtain ⟨kdfData, pub, sec, w, h, hk⟩ := sampleEncrypted
  obtain ⟨head, mid, tail, rfl, _, h'⟩ := C112_comment _ _ _ _ _ _ _ _ _
    (String.ofList (List.replicate (stored samplePriv).comment.utf8ByteSize 'x')) h hk (by decide +kernel)
  refine ⟨kdfData, pub, sec, _, h, _, ?_, h' []⟩
  intro e
  have := h' []
  rw [e, hk] at this
  exact absurd (congrArg PrivateKey.comment (Res.ok.inj this)) (by decide +kernel)

example : ∃ kdfData pub sec w, KeyFile "aes256-ctr" "bcrypt" kdfData pub sec w ∧
    ∃ w', (PrivateKey.fromReader ⟨true, true, .none⟩ encCrypto (some "pw") (Reader.new (w' ++ []))).1 =
      .ok { stored samplePriv with kind := .ed25519 (List.replicate 32 4) } := by
  obtain ⟨kdfData, pub, sec, w, h, hk⟩ := sampleEncrypted
  obtain ⟨head, mid, tail, rfl, _, h'⟩ := C112_secret _ _ _ _ _ _ _ _ _ (List.replicate 32 5) (List.replicate 32 1) h hk rfl
    (by decide)
  have e : xorBytes (List.replicate 32 5) (List.replicate 32 1) = List.replicate 32 4 := by decide +kernel
  have h' := h' []
  rw [e] at h'
  exact ⟨kdfData, pub, sec, _, h, _, h'⟩

end Ssh
