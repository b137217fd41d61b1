import Verif.Props.Encrypted

/-! # C125: the cost of opening an encrypted key file is set by the file -/

namespace Ssh

open Spec Reader

theorem decryptSection_eval {F : Features} {C : Crypto} {pass : String} {salt ws kdfData extra sec : Bytes} {rounds : UInt32}
    (hF : F.encryptedKeys = true) (hd : kdfData = ws ++ (u32 rounds.toNat ++ extra)) (hsalt : Frame salt ws) :
    PrivateKey.decryptSection F C "aes256-ctr" "bcrypt" (some pass) kdfData sec =
      match C.bcryptPbkdf pass salt rounds with
      | some (key, iv) =>
        if C.aesCtrOk key iv sec.length then .ok (PrivateKey.xorStream (C.aesKeystream key iv) sec) else .err .invalidFormat
      | none => .err .invalidFormat := by
  have hr : ((do
      let salt ← Reader.readBytes
      let rounds ← Reader.readU32
      return (salt, rounds) : Rd (Bytes × UInt32)) (Reader.new kdfData)).1 = .ok (salt, rounds) := by
    rw [(Parses.bind readBytes_parses fun salt => Parses.bind readU32_parses fun rounds => Parses.pure _).new]
    refine ⟨ws ++ (u32 rounds.toNat ++ []), extra, by rw [hd]; simp, _, _, _, rfl, hsalt, _, _, _, rfl, rfl, rfl, rfl⟩
  unfold PrivateKey.decryptSection
  rw [if_neg (by decide), if_pos (by decide)]
  dsimp only
  rw [if_pos hF, hr]
  rfl

theorem xorStream_congr {f g : Nat → UInt8} {sec : Bytes} (h : ∀ i < sec.length, f i = g i) :
    PrivateKey.xorStream f sec = PrivateKey.xorStream g sec := by
  have h1 := xorOf_iff.mpr (rfl : PrivateKey.xorStream f sec = _)
  apply xorOf_iff.mp
  refine ⟨h1.1, fun i hi => ?_⟩
  rw [h1.2 i hi, h i hi]

/-- C125: with an encrypted file and a passphrase, the key derivation function is asked for this passphrase and the salt and the
number of rounds in the file, whatever they are, and for nothing else: the result depends on no other call of it, and on the
cipher only under the derived key. -/
theorem C125_one_call (F : Features) (C C' : Crypto) (pass : String) (salt : Bytes) (rounds : UInt32)
    (extra kdfData pub sec ws w rest : Bytes) (hd : kdfData = ws ++ (u32 rounds.toNat ++ extra)) (hsalt : Frame salt ws)
    (hw : KeyFile "aes256-ctr" "bcrypt" kdfData pub sec w) (hs : sec ≠ [])
    (hk : C.bcryptPbkdf pass salt rounds = C'.bcryptPbkdf pass salt rounds)
    (ha : ∀ key iv, C.bcryptPbkdf pass salt rounds = some (key, iv) →
      C.aesCtrOk key iv sec.length = C'.aesCtrOk key iv sec.length ∧ ∀ i < sec.length, C.aesKeystream key iv i = C'.aesKeystream key iv i) :
    (PrivateKey.fromReader F C (some pass) (Reader.new (w ++ rest))).1 =
      (PrivateKey.fromReader F C' (some pass) (Reader.new (w ++ rest))).1 := by
  rw [fromReader_eval hw hs, fromReader_eval hw hs]
  congr 1
  funext pk
  unfold openEncrypted
  cases hF : F.encryptedKeys with
  | false =>
    have : ∀ C, PrivateKey.decryptSection F C "aes256-ctr" "bcrypt" (some pass) kdfData sec = .err .encryptedPrivateKeyNotSupported := by
      intro C
      unfold PrivateKey.decryptSection
      rw [if_neg (by decide), if_pos (by decide)]
      dsimp only
      rw [hF]
      rfl
    rw [this, this]
  | true =>
    rw [decryptSection_eval hF hd hsalt, decryptSection_eval hF hd hsalt, ← hk]
    cases e : C.bcryptPbkdf pass salt rounds with
    | none => rfl
    | some ki =>
      obtain ⟨key, iv⟩ := ki
      obtain ⟨h1, h2⟩ := ha key iv e
      dsimp only
      rw [h1, xorStream_congr h2]

/-- C125: if the function refuses them, the file is refused. -/
theorem C125_refused (F : Features) (C : Crypto) (pass : String) (salt : Bytes) (rounds : UInt32)
    (extra kdfData pub sec ws w rest : Bytes) (pk : PublicKey) (hF : F.encryptedKeys = true)
    (hd : kdfData = ws ++ (u32 rounds.toNat ++ extra)) (hsalt : Frame salt ws)
    (hw : KeyFile "aes256-ctr" "bcrypt" kdfData pub sec w) (hs : sec ≠ []) (hp : PublicKey.fromBytes pub = .ok pk)
    (hk : C.bcryptPbkdf pass salt rounds = none) :
    (PrivateKey.fromReader F C (some pass) (Reader.new (w ++ rest))).1 = .err .invalidFormat := by
  rw [fromReader_eval hw hs, hp, Res.ok_bind]
  unfold openEncrypted
  rw [decryptSection_eval hF hd hsalt, hk]
  rfl

/-- C125, finding: the number of rounds is four bytes in the clear, and changing them makes the same file with any number of
rounds up to 2^32 - 1; there is no upper limit and nothing that protects them. -/
theorem C125_rounds (rounds : UInt32) (extra kdfData pub sec ws w : Bytes)
    (hd : kdfData = ws ++ (u32 rounds.toNat ++ extra))
    (hw : KeyFile "aes256-ctr" "bcrypt" kdfData pub sec w) :
    ∃ head tail, w = head ++ (u32 rounds.toNat ++ tail) ∧
      ∀ rounds' : UInt32, KeyFile "aes256-ctr" "bcrypt" (ws ++ (u32 rounds'.toNat ++ extra)) pub sec (head ++ (u32 rounds'.toNat ++ tail)) := by
  obtain ⟨w1, w2, w3, w4, w5, rfl, h1, h2, h3, h4, h5⟩ := hw
  obtain ⟨hl, rfl⟩ := h3
  subst hd
  refine ⟨preamble ++ (w1 ++ (w2 ++ (u32 (ws ++ (u32 rounds.toNat ++ extra)).length ++ ws))),
    extra ++ (u32 1 ++ (w4 ++ w5)), ?_, fun r' => ?_⟩
  · simp only [List.append_assoc]
  · have hlen : (ws ++ (u32 r'.toNat ++ extra)).length = (ws ++ (u32 rounds.toNat ++ extra)).length := by
      simp only [List.length_append, u32_length]
    refine ⟨w1, w2, _, w4, w5, ?_, h1, h2, ⟨by rw [hlen]; exact hl, rfl⟩, h4, h5⟩
    simp only [List.append_assoc, hlen]

/-- The sample container asks for 16 rounds; made to ask for the largest number it is passed on, here to a function that
refuses that number. -/
example : ∃ pub sec w pk, KeyFile "aes256-ctr" "bcrypt" (str [1, 2] ++ (u32 4294967295 ++ [])) pub sec w ∧
    PublicKey.fromBytes pub = .ok pk ∧
    (PrivateKey.fromReader ⟨true, true, .none⟩ { encCrypto with bcryptPbkdf := fun _ _ r => if r = 4294967295 then none else some ([1], [2]) }
      (some "pw") (Reader.new (w ++ []))).1 = .err .invalidFormat := by
  obtain ⟨pub, sec, w, pk, h, hs, hp⟩ := sample_container "aes256-ctr" "bcrypt" (by decide) (by decide)
  obtain ⟨head, tail, _, h'⟩ := C125_rounds 16 [] _ pub sec (str [1, 2]) w (by simp) h
  exact ⟨pub, sec, _, pk, h' 4294967295, hp, C125_refused _ _ "pw" [1, 2] 4294967295 [] _ pub sec (str [1, 2]) _ [] pk rfl rfl
    (frame_str (by decide)) (h' 4294967295) hs hp (by simp)⟩

/-- The derivation may do anything on other arguments. -/
example : ∃ pub sec w, KeyFile "aes256-ctr" "bcrypt" (str [1, 2] ++ u32 16) pub sec w ∧
    (PrivateKey.fromReader ⟨true, true, .none⟩ encCrypto (some "pw") (Reader.new (w ++ []))).1 =
    (PrivateKey.fromReader ⟨true, true, .none⟩ { encCrypto with
        bcryptPbkdf := fun p s r => if p = "pw" ∧ s = [1, 2] ∧ r = 16 then some ([1], [2]) else none }
      (some "pw") (Reader.new (w ++ []))).1 := by
  obtain ⟨pub, sec, w, pk, h, hs, hp⟩ := sample_container "aes256-ctr" "bcrypt" (by decide) (by decide)
  exact ⟨pub, sec, w, h, C125_one_call _ _ _ "pw" [1, 2] 16 [] _ pub sec (str [1, 2]) w [] (by simp) (frame_str (by decide)) h hs rfl
    fun _ _ _ => ⟨rfl, fun _ _ => rfl⟩⟩

end Ssh
