import Verif.Lemmas.Armor
import Verif.Lemmas.Utils
import Verif.Lemmas.Key

/-! # SSHSIG -/

namespace Ssh

open Spec Reader

theorem asStr_eq (h : HashAlgorithm) : h.asStr = hashName h := by cases h <;> rfl

theorem hash_eq (C : Crypto) (h : HashAlgorithm) (m : Bytes) : C.hash h m = digest C h m := by cases h <;> rfl

theorem toSignedFormat_eq (C : Crypto) (s : SshSignature) (m : Bytes) :
    s.toSignedFormat C m = signedData C s.namespace_ s.hashAlgorithm m := by
  unfold SshSignature.toSignedFormat signedData
  simp only [Writer.writeBytes_inner, Writer.writeString_inner, Writer.writeRawBytes_inner, Writer.new_inner,
    List.nil_append, List.append_assoc, asStr_eq, hash_eq]
  rfl

theorem hashName_small (h : HashAlgorithm) : (strBytes (hashName h)).length < 100 := by cases h <;> decide +kernel

theorem hashName_inj {a b : HashAlgorithm} (h : hashName a = hashName b) : a = b := by
  cases a <;> cases b <;> first | rfl | exact absurd h (by decide)

theorem readHash_ok {n : String} {a : HashAlgorithm} : ((if n = "sha256" then .ok HashAlgorithm.sha256
    else if n = "sha512" then .ok HashAlgorithm.sha512 else .err .unsupported : Res HashAlgorithm) = .ok a) ↔
    n = hashName a := by
  constructor
  · intro h
    split at h
    · cases h; assumption
    · split at h
      · cases h; assumption
      · cases h
  · rintro rfl
    cases a <;> decide

theorem sigFromReader_parses : Parses SshSignature.fromReader (fun s w => ∃ res junk, SigBlob s res junk w) := by
  unfold SshSignature.fromReader
  refine (Parses.bind (readRawBytes_parses (by decide)) fun pre => Parses.ite (fun _ => Parses.err _) fun hpre =>
    Parses.bind readU32_parses fun ver => Parses.ite (fun _ => Parses.err _) fun hver =>
    Parses.bind readBytes_parses fun pbuf => Parses.bind (Parses.lift _) fun pubkey =>
    Parses.bind readString_parses fun ns => Parses.ite (fun _ => Parses.err _) fun hns =>
    Parses.bind readString_parses fun res => Parses.bind readString_parses fun h =>
    Parses.bind (Parses.lift _) fun ha => Parses.bind readBytes_parses fun sig => Parses.pure _).congr ?_
  intro s w
  constructor
  · intro h
    obtain ⟨pre, w1, _, q1, h1, h⟩ := h
    rcases h with ⟨_, h⟩ | ⟨c1, h⟩
    · exact h.elim
    obtain ⟨ver, w2, _, q2, h2, h⟩ := h
    rcases h with ⟨_, h⟩ | ⟨c2, h⟩
    · exact h.elim
    obtain ⟨pbuf, w3, _, q3, h3, h⟩ := h
    obtain ⟨pubkey, w4, _, q4, ⟨h4, e4⟩, h⟩ := h
    obtain ⟨ns, w5, _, q5, h5, h⟩ := h
    rcases h with ⟨_, h⟩ | ⟨c3, h⟩
    · exact h.elim
    obtain ⟨res, w6, _, q6, h6, h⟩ := h
    obtain ⟨hn, w7, _, q7, h7, h⟩ := h
    obtain ⟨ha, w8, _, q8, ⟨h8, e8⟩, h⟩ := h
    obtain ⟨sig, w9, _, q9, h9, e10, e11⟩ := h
    obtain ⟨kb, junk, rfl, hkb, hcm⟩ := fromBytes_ok.mp h4
    have h8 := readHash_ok.mp h8
    have c1 : pre = sshsigMagic := by simpa using c1
    have c2 : ver = 1 := by simpa using c2
    have c3 : ns ≠ "" := by simpa [String.isEmpty_iff] using c3
    subst c1 c2
    subst e11 q9 e8 q8 q7 q6 q5 e4 q4 q3 q2 q1 e10
    subst h8
    refine ⟨res, junk, hcm, c3, kb, w3, w5, w6, w7, w9, ?_, hkb, h3, h5, h6, h7, h9⟩
    rw [← h1.1, h2]
    simp [sshsigMagic, magic]
  · rintro ⟨res, junk, hcm, c3, kb, w3, w5, w6, w7, w9, rfl, hkb, h3, h5, h6, h7, h9⟩
    refine ⟨magic, magic, _, rfl, ⟨rfl, rfl⟩, .inr ⟨by decide, ?_⟩⟩
    refine ⟨1, u32 1, _, rfl, rfl, .inr ⟨by decide, ?_⟩⟩
    refine ⟨_, w3, _, rfl, h3, ?_⟩
    refine ⟨s.pubkey, [], _, rfl, ⟨fromBytes_ok.mpr ⟨kb, junk, rfl, hkb, hcm⟩, rfl⟩, ?_⟩
    refine ⟨_, w5, _, rfl, h5, .inr ⟨by simpa [String.isEmpty_iff] using c3, ?_⟩⟩
    refine ⟨_, w6, _, rfl, h6, ?_⟩
    refine ⟨_, w7, _, rfl, h7, ?_⟩
    refine ⟨s.hashAlgorithm, [], _, rfl, ⟨readHash_ok.mpr rfl, rfl⟩, ?_⟩
    exact ⟨_, w9, [], (List.append_nil _).symm, h9, rfl, rfl⟩

theorem sigFromReader_noPanic (r : Reader) : (SshSignature.fromReader r).1 ≠ .panic := by
  unfold SshSignature.fromReader
  refine Rd.noPanic_bind (readRawBytes_noPanic _) (fun pre => ?_) r
  intro r
  split
  · simp
  refine Rd.noPanic_bind readU32_noPanic (fun ver => ?_) r
  intro r
  split
  · simp
  refine Rd.noPanic_bind readBytes_noPanic (fun pbuf => Rd.noPanic_bind
    (Rd.noPanic_lift (fromBytes_noPanic _)) fun pk => Rd.noPanic_bind readString_noPanic fun ns => ?_) r
  intro r
  split
  · simp
  refine Rd.noPanic_bind readString_noPanic (fun _ => Rd.noPanic_bind readString_noPanic fun h =>
    Rd.noPanic_bind (Rd.noPanic_lift ?_) fun _ => Rd.noPanic_bind readBytes_noPanic fun _ => Rd.noPanic_pure _) r
  split
  · simp
  · split <;> simp

/-- `from_armored_string` accepts exactly armored signature blobs. -/
theorem fromArmored_ok {t : List Char} {s : SshSignature} : SshSignature.fromArmoredString t = .ok s ↔
    ∃ blob w rest res junk, Armor "-----BEGIN SSH SIGNATURE-----" "-----END SSH SIGNATURE-----" t blob ∧
      blob = w ++ rest ∧ SigBlob s res junk w := by
  unfold SshSignature.fromArmoredString
  constructor
  · intro h
    cases hd : dearmor "-----BEGIN SSH SIGNATURE-----" "-----END SSH SIGNATURE-----" t with
    | err e => rw [hd] at h; cases h
    | panic => rw [hd] at h; cases h
    | ok blob =>
      rw [hd] at h
      obtain ⟨w, rest, h1, res, junk, h2⟩ := sigFromReader_parses.new.mp h
      exact ⟨blob, w, rest, res, junk, (dearmor_ok (by decide)).mp hd, h1, h2⟩
  · rintro ⟨blob, w, rest, res, junk, h1, h2, h3⟩
    rw [(dearmor_ok (by decide)).mpr h1]
    exact sigFromReader_parses.new.mpr ⟨w, rest, h2, res, junk, h3⟩

theorem fromArmored_noPanic (t : List Char) : SshSignature.fromArmoredString t ≠ .panic := by
  unfold SshSignature.fromArmoredString
  cases hd : dearmor "-----BEGIN SSH SIGNATURE-----" "-----END SSH SIGNATURE-----" t with
  | err e => simp
  | panic => exact absurd hd (dearmor_noPanic _ _ _)
  | ok blob => exact sigFromReader_noPanic _

/-- The public key as the writer embeds it. -/
theorem writePubKey_blob {k : PublicKey} (h : WellFormedKey k) :
    ∃ kb, KeyBlob { k with comment := none } kb ∧ ∀ w : Writer, w.writePubKey k = .ok (w.writeBytes kb) := by
  obtain ⟨m, hm⟩ := wellFormed_material h
  refine ⟨frameStr k.keyType.name ++ m, ⟨h.1, _, m, rfl, frameStr_name h.1, hm⟩, ?_⟩
  intro w
  rw [writePubKey_eq, keyMaterial_of hm]
  rfl

/-- Fields of a signature fit their length fields. -/
theorem toBytes_blob {s : SshSignature} {kb : Bytes} (hw : ∀ w : Writer, w.writePubKey s.pubkey = .ok (w.writeBytes kb)) :
    s.toBytes = .ok (magic ++ (u32 1 ++ (str kb ++ (text s.namespace_ ++ (str [] ++ (text (hashName s.hashAlgorithm) ++
      str s.signature)))))) := by
  unfold SshSignature.toBytes
  simp only [hw, Res.ok_bind, Res.pure_eq, Writer.writeBytes_inner, Writer.writeString_inner, Writer.writeU32_inner,
    Writer.writeRawBytes_inner, Writer.new_inner, List.nil_append, List.append_assoc, asStr_eq]
  rfl

end Ssh
