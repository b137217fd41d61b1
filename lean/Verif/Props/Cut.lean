import Verif.Lemmas.Cut
import Verif.Props.Cert
import Verif.Props.SshSig
import Verif.Props.PrivKey

/-! # C122: what is said about a blob that ends too early -/

namespace Ssh

open Spec Reader

/-- C122: a public key blob. -/
theorem C122_public (data : Bytes) (k : PublicKey) (h : PublicKey.fromBytes data = .ok k) :
    CutBehaviour PublicKey.fromBytes data (fun _ => k) (.string :: keyParts k.kind) := by
  obtain ⟨l, rfl, h⟩ := keyBlob_cuts.run h
  exact h

/-- C122: an SSHSIG blob. -/
theorem C122_signature (data : Bytes) (s : SshSignature) (h : (SshSignature.fromReader (Reader.new data)).1 = .ok s) :
    CutBehaviour (fun b => (SshSignature.fromReader (Reader.new b)).1) data (fun _ => s)
      [.bare, .uint32, .string, .string, .string, .string, .string] := by
  obtain ⟨l, rfl, h⟩ := sigFromReader_cuts.run h
  exact h

/-- C122: the contents of a private key file. -/
theorem C122_private (F : Features) (C : Crypto) (pass : Option String) (data : Bytes) (k : PrivateKey)
    (h : (PrivateKey.fromReader F C pass (Reader.new data)).1 = .ok k) :
    CutBehaviour (fun b => (PrivateKey.fromReader F C pass (Reader.new b)).1) data (fun _ => k)
      [.bare, .string, .string, .string, .uint32, .string, .uint32, .bare] := by
  obtain ⟨l, rfl, h⟩ := (keyFile_cuts F C pass).run h
  exact h

/-- C122: a private key without container. -/
theorem C122_bare (F : Features) (data : Bytes) (k : PrivateKey) (h : PrivateKey.fromBytes F data = .ok k) :
    CutBehaviour (PrivateKey.fromBytes F) data (fun _ => k) (.string :: (privParts k.kind ++ [.string])) := by
  obtain ⟨l, rfl, h⟩ := (readPrivateKey_cuts F).run h
  exact h

/-- Body and signature of a certificate. -/
def certParts : Rd (Certificate × Bytes) := certBody >>= fun b => readBytes >>= fun s => pure (b, s)

theorem certParts_cuts : Cuts certParts (fun v l => l = bodyParts v.1.key.kind ++ [.string]) := by
  refine (Cuts.bind certBody_cuts fun b => Cuts.bind readBytes_cuts fun s => Cuts.pure _).mono ?_
  rintro v l ⟨_, _, _, rfl, rfl, _, _, _, rfl, rfl, rfl, rfl⟩
  rfl

theorem certFromBytes_of_parts_err {C : Crypto} {data : Bytes} {e : Err}
    (h : (certParts (Reader.new data)).1 = .err e) : Certificate.fromBytes C data = .err e := by
  rw [certFromBytes_eq, Rd.bind_eq]
  unfold certParts at h
  rw [Rd.bind_eq] at h
  rcases hb : certBody (Reader.new data) with ⟨x, r⟩
  rw [hb] at h
  cases x with
  | err e' => simpa using h
  | panic => simp at h
  | ok b =>
    simp only at h ⊢
    unfold certTail
    rw [Rd.bind_of_ok (show getOffset r = (.ok r.offset, r) from rfl)]
    rw [Rd.bind_eq] at h ⊢
    rcases hs : readBytes r with ⟨y, r2⟩
    rw [hs] at h
    cases y with
    | err e' => simpa using h
    | panic => simp at h
    | ok s => simp [Rd.pure_eq] at h

/-- C122: a certificate; cut behind its signature it is the same certificate with the bytes that are left. -/
theorem C122_certificate (C : Crypto) (data : Bytes) (c : Certificate) (h : Certificate.fromBytes C data = .ok c) :
    CutBehaviour (Certificate.fromBytes C) data (fun n => { c with serialized := data.take n })
      ([.string, .string] ++ keyParts c.key.kind ++ [.uint64, .uint32, .string, .string, .uint64, .uint64, .string,
        .string, .string, .string, .string]) := by
  obtain ⟨w, wsig, rest, hd, hbody, hsig, hacc, hcm, hser⟩ := certFromBytes_ok.mp h
  have hb : certBody (Reader.new data) = (.ok { c with signature := [], serialized := [], comment := none },
      adv (Reader.new data) w) :=
    (certBody_parses _ _ _).mpr ⟨w, ⟨(bodyExact_update _ _ _).mpr hbody, rfl, rfl, rfl⟩,
      at_new.mpr ⟨_, hd⟩, rfl⟩
  have hs : readBytes (adv (Reader.new data) w) = (.ok c.signature, adv (adv (Reader.new data) w) wsig) :=
    (readBytes_parses _ _ _).mpr ⟨wsig, hsig, (at_append.mp (at_new.mpr ⟨rest, by rw [hd]; simp⟩)).2, rfl⟩
  have hp : certParts (Reader.new data) = (.ok ({ c with signature := [], serialized := [], comment := none }, c.signature),
      adv (adv (Reader.new data) w) wsig) := by
    unfold certParts
    rw [Rd.bind_of_ok hb, Rd.bind_of_ok hs, Rd.pure_eq]
  obtain ⟨ps, hk, hf, hat, hadv, hcut⟩ := certParts_cuts _ _ _ hp
  obtain ⟨rest', hd'⟩ := at_new.mp hat
  have hlen : (partBytes ps).length = w.length + wsig.length := by
    have := congrArg Reader.offset hadv
    simp only [adv, Reader.new] at this
    omega
  refine ⟨ps, rest', ?_, hf, hd', fun n => ⟨fun hn => ?_, fun hn => ?_⟩⟩
  · rw [hk]; simp [bodyParts]
  · have := (hcut n).1 hn
    rw [cutTo_new] at this
    exact certFromBytes_of_parts_err this
  · rw [hlen] at hn
    refine certFromBytes_ok.mpr ⟨w, wsig, rest.take (n - w.length - wsig.length), ?_, hbody, hsig, hacc, hcm, rfl⟩
    rw [hd, List.take_append, List.take_append, List.take_of_length_le (by omega), List.take_of_length_le (by omega)]

/-- C122: the sample blob cut between its two parts, within the first and within the second. -/
example : PublicKey.fromBytes (u32 11 ++ "ssh-ed25519".toUTF8.data.toList ++ (u32 3 ++ [1, 2, 3])) = .ok { sampleEd with comment := none } ∧
    cutError [.string "ssh-ed25519".toUTF8.data.toList, .string [1, 2, 3]] 15 = .unexpectedEof ∧
    PublicKey.fromBytes (u32 11 ++ "ssh-ed25519".toUTF8.data.toList) = .err .unexpectedEof ∧
    cutError [.string "ssh-ed25519".toUTF8.data.toList, .string [1, 2, 3]] 14 = .invalidFormat ∧
    PublicKey.fromBytes (u32 11 ++ "ssh-ed2551".toUTF8.data.toList) = .err .invalidFormat ∧
    cutError [.string "ssh-ed25519".toUTF8.data.toList, .string [1, 2, 3]] 21 = .invalidFormat ∧
    PublicKey.fromBytes (u32 11 ++ "ssh-ed25519".toUTF8.data.toList ++ (u32 3 ++ [1, 2])) = .err .invalidFormat := by
  decide +kernel

/-- C122: a certificate without its signature, and without the last byte of it. -/
example : Certificate.fromBytes laxCrypto (okOf [] sampleCert.tbsCertificate) = .err .unexpectedEof ∧
    Certificate.fromBytes laxCrypto sampleSigned.serialized.dropLast = .err .invalidFormat := by
  decide +kernel

/-- C122: an SSHSIG blob that ends within the magic, behind it, and within the version. -/
example : (SshSignature.fromReader (Reader.new [0x53, 0x53])).1 = .err .unexpectedEof ∧
    (SshSignature.fromReader (Reader.new magic)).1 = .err .unexpectedEof ∧
    (SshSignature.fromReader (Reader.new (magic ++ [0, 0]))).1 = .err .invalidFormat := by
  decide +kernel

/-- C122: the sample signature, key file and key without container, whole and one byte short. -/
example : (∃ b s, sampleSshSig.toBytes = .ok b ∧ (SshSignature.fromReader (Reader.new b)).1 = .ok s ∧
      (SshSignature.fromReader (Reader.new b.dropLast)).1 = .err .invalidFormat) ∧
    (∃ b k, samplePriv.encode = .ok b ∧ (PrivateKey.fromReader ⟨true, true, .none⟩ laxCrypto none (Reader.new b)).1 = .ok k ∧
      (PrivateKey.fromReader ⟨true, true, .none⟩ laxCrypto none (Reader.new (b.take 30))).1 = .err .invalidFormat) := by
  refine ⟨⟨_, { sampleSshSig with pubkey := { sampleEd with comment := none } }, okOf_eq (d := []) (by decide +kernel), by decide +kernel,
    by decide +kernel⟩, _, stored samplePriv, okOf_eq (d := []) (by decide +kernel), by decide +kernel, by decide +kernel⟩

example : (∃ k, PrivateKey.fromBytes ⟨true, true, .none⟩ (frameStr "ssh-ed25519" ++ (frame [1] ++ (frame [2] ++ frameStr "c"))) = .ok k) ∧
    PrivateKey.fromBytes ⟨true, true, .none⟩ (frameStr "ssh-ed25519" ++ (frame [1] ++ frame [2])) = .err .unexpectedEof :=
  ⟨⟨⟨sampleEd.keyType, .ed25519 [2], ⟨sampleEd.keyType, .ed25519 [1] none, none⟩, 0, "c"⟩, by decide +kernel⟩, by decide +kernel⟩

end Ssh
