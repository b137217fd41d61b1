import Verif.Spec.Errors
import Verif.Lemmas.Cert
import Verif.Lemmas.SshSig
import Verif.Lemmas.PrivKey
import Verif.Lemmas.AllowedParse
import Verif.Lemmas.AllowedFile

/-! # Which errors the parsers return -/

namespace Ssh

open Spec Reader

/-- A result that is no error, or one of the listed variants. -/
def ErrIn {α : Type} (l : List Variant) (x : Res α) : Prop := ∀ e, x = .err e → variant e ∈ l

/-- A function over the reader with errors of the listed variants only. -/
def Errs {α : Type} (l : List Variant) (m : Rd α) : Prop := ∀ r, ErrIn l (m r).1

theorem ErrIn.ok {α : Type} {l : List Variant} (a : α) : ErrIn l (Res.ok a) := by intro e h; cases h
theorem ErrIn.panic {α : Type} {l : List Variant} : ErrIn l (Res.panic : Res α) := by intro e h; cases h
theorem ErrIn.err {α : Type} {l : List Variant} {e : Err} (h : variant e ∈ l) : ErrIn l (Res.err e : Res α) := by
  intro e' h'; cases h'; exact h

theorem ErrIn.mono {α : Type} {l l' : List Variant} {x : Res α} (h : ErrIn l x) (hl : l ⊆ l') : ErrIn l' x :=
  fun e he => hl (h e he)

theorem ErrIn.bind {α β : Type} {l : List Variant} {x : Res α} {f : α → Res β} (h : ErrIn l x) (hf : ∀ a, ErrIn l (f a)) :
    ErrIn l (x >>= f) := by
  cases x with
  | ok a => exact hf a
  | err e => exact fun e' h' => by cases h'; exact h e rfl
  | panic => exact .panic

theorem ErrIn.ite {α : Type} {l : List Variant} {c : Prop} [Decidable c] {x y : Res α} (hx : c → ErrIn l x) (hy : ¬ c → ErrIn l y) :
    ErrIn l (if c then x else y) := by
  split
  · exact hx ‹_›
  · exact hy ‹_›

theorem ErrIn.ofOption {α : Type} {l : List Variant} {e : Err} (o : Option α) (h : variant e ∈ l) : ErrIn l (Res.ofOption e o) := by
  cases o with
  | none => exact .err h
  | some a => exact .ok a

theorem ErrIn.unwrap {α : Type} {l : List Variant} (o : Option α) : ErrIn l (Res.unwrap o) := by
  cases o with
  | none => exact .panic
  | some a => exact .ok a

theorem Errs.mono {α : Type} {l l' : List Variant} {m : Rd α} (h : Errs l m) (hl : l ⊆ l') : Errs l' m :=
  fun r => (h r).mono hl

theorem Errs.lift {α : Type} {l : List Variant} {x : Res α} (h : ErrIn l x) : Errs l (Rd.lift x) := fun _ => h

theorem Errs.pure {α : Type} {l : List Variant} (a : α) : Errs l (Pure.pure a) := fun _ => .ok a

theorem Errs.err {α : Type} {l : List Variant} {e : Err} (h : variant e ∈ l) : Errs l (Rd.lift (.err e) : Rd α) := fun _ => .err h

theorem Errs.bind {α β : Type} {l : List Variant} {m : Rd α} {f : α → Rd β} (h : Errs l m) (hf : ∀ a, Errs l (f a)) :
    Errs l (m >>= f) := by
  intro r e he
  rw [Rd.bind_eq] at he
  rcases hm : m r with ⟨x, r'⟩
  rw [hm] at he
  cases x with
  | ok a => exact hf a r' e he
  | err e' =>
    simp only [Res.err.injEq] at he
    exact h r e (by rw [hm, ← he])
  | panic => simp at he

theorem Errs.ite {α : Type} {l : List Variant} {c : Prop} [Decidable c] {p q : Rd α} (hp : c → Errs l p) (hq : ¬ c → Errs l q) :
    Errs l (if c then p else q) := by
  split
  · exact hp ‹_›
  · exact hq ‹_›

theorem readBytes_errs : Errs [.eof, .format] readBytes := by
  intro r
  rw [readBytes_eq]
  split
  · exact .err (by decide)
  split
  · exact .err (by decide)
  split
  · exact .err (by decide)
  · exact .ok _

theorem readRawBytes_errs (n : Nat) : Errs [.eof] (readRawBytes n) := by
  intro r
  rw [readRawBytes_eq]
  split
  · exact .err (by decide)
  · exact .ok _

theorem readU32_errs : Errs [.eof, .format] readU32 := by
  intro r
  rw [readU32_eq]
  split
  · exact .err (by decide)
  split
  · exact .err (by decide)
  · exact .ok _

theorem readU64_errs : Errs [.eof, .format] readU64 := by
  intro r
  rw [readU64_eq]
  split
  · exact .err (by decide)
  split
  · exact .err (by decide)
  · exact .ok _

theorem readCstring_errs : Errs [.eof] readCstring := by
  intro r
  unfold readCstring
  rcases cstringLoop_cases r.inner r.offset [] with ⟨x, h⟩ | h <;> rw [h]
  · exact .ok _
  · exact .err (by decide)

theorem readString_errs : Errs [.eof, .format, .utf8] readString := by
  unfold readString
  refine Errs.bind (readBytes_errs.mono (by decide)) fun b => ?_
  cases fromUtf8 b with
  | none => exact .err (by decide)
  | some s => exact .pure s

theorem index_errIn {α : Type} {l : List Variant} (x : List α) (i : Nat) : ErrIn l (index x i) := .unwrap _

theorem sliceFrom_errIn {α : Type} {l : List Variant} (x : List α) (i : Nat) : ErrIn l (sliceFrom x i) := by
  unfold sliceFrom; exact .ite (fun _ => .ok _) (fun _ => .panic)

theorem subNat_errIn {l : List Variant} (x i : Nat) : ErrIn l (subNat x i) := by
  unfold subNat; exact .ite (fun _ => .ok _) (fun _ => .panic)

theorem readPositiveMpint_errs : Errs [.eof, .format] readPositiveMpint := by
  unfold readPositiveMpint
  refine Errs.bind readBytes_errs fun b => .ite (fun _ => .pure _) fun _ => .bind (.lift (index_errIn _ _)) fun b0 =>
    .ite (fun _ => .ite (fun _ => .err (by decide)) fun _ => .bind (.lift (index_errIn _ _)) fun b1 =>
      .ite (fun _ => .err (by decide)) fun _ => .lift (sliceFrom_errIn _ _)) fun _ => .ite (fun _ => .pure _) fun _ => .err (by decide)

theorem fromName_errIn (n : String) : ErrIn [.keyType] (KeyType.fromName n) := by
  rcases fromName_cases n with ⟨kt, h⟩ | h <;> rw [h]
  · exact .ok _
  · exact .err (by simp [variant])

theorem fromIdentifier_errIn (n : String) : ErrIn [.curve] (Curve.fromIdentifier n) := by
  unfold Curve.fromIdentifier
  repeat' split
  all_goals first | exact .ok _ | exact .err (by simp [variant])

theorem readApplication_errs (sk : Bool) : Errs [.eof, .format, .utf8] (PublicKey.readApplication sk) := by
  unfold PublicKey.readApplication
  exact .ite (fun _ => .bind readString_errs fun _ => .pure _) (fun _ => .pure _)

theorem readKind_errs (kt : KeyType) : Errs [.eof, .format, .utf8, .curve] (PublicKey.readKind kt) := by
  have hm := readPositiveMpint_errs.mono (l' := [.eof, .format, .utf8, .curve]) (by decide)
  have hb := readBytes_errs.mono (l' := [.eof, .format, .utf8, .curve]) (by decide)
  have ha := (readApplication_errs kt.isSk).mono (l' := [.eof, .format, .utf8, .curve]) (by decide)
  unfold PublicKey.readKind
  cases kt.kind with
  | rsa | rsaCert => exact .bind hm fun _ => .bind hm fun _ => .pure _
  | ecdsa | ecdsaCert =>
    exact .bind (readString_errs.mono (by decide)) fun s => .bind (.lift ((fromIdentifier_errIn s).mono (by decide))) fun _ =>
      .bind hb fun _ => .bind ha fun _ => .pure _
  | ed25519 | ed25519Cert => exact .bind hb fun _ => .bind ha fun _ => .pure _

/-- A known type name gives no unknown type. -/
theorem pubFromReader_errs_known {n : String} {kt : KeyType} (h : KeyType.fromName n = .ok kt) :
    Errs [.eof, .format, .utf8, .curve] (PublicKey.fromReader n) := by
  unfold PublicKey.fromReader
  rw [h]
  exact .bind (.lift (.ok _)) fun kt => .bind (readKind_errs kt) fun _ => .pure _

theorem pubFromReader_errs (n : String) : Errs [.eof, .format, .utf8, .curve, .keyType] (PublicKey.fromReader n) := by
  unfold PublicKey.fromReader
  exact .bind (.lift ((fromName_errIn n).mono (by decide))) fun kt => .bind ((readKind_errs kt).mono (by decide)) fun _ => .pure _

theorem pubFromBytes_errIn (b : Bytes) : ErrIn [.eof, .format, .utf8, .curve, .keyType] (PublicKey.fromBytes b) :=
  Errs.bind (readString_errs.mono (by decide)) (fun n => pubFromReader_errs n) _

theorem pubFromString_errIn (s : List Char) :
    ErrIn [.eof, .format, .utf8, .curve, .keyType, .decode, .mismatch] (PublicKey.fromString s) := by
  unfold PublicKey.fromString
  split
  · exact .err (by decide)
  · exact .err (by decide)
  · refine .bind ((fromName_errIn _).mono (by decide)) fun kt => .bind (.ofOption _ (by decide)) fun d => ?_
    exact Errs.bind (readString_errs.mono (by decide)) (fun n => .ite (fun _ => .err (by decide)) fun _ =>
      .bind ((pubFromReader_errs _).mono (by decide)) fun _ => .pure _) _

theorem readPrincipalsLoop_errIn (n : Nat) (r : Reader) (items : List String) :
    ErrIn [.format, .utf8] (readPrincipalsLoop n r items) := by
  fun_induction readPrincipalsLoop n r items with
  | case1 => exact .panic
  | case2 n r items v r' h ih => exact ih
  | case3 => exact .ok _
  | case4 n r items e r' hne h =>
    have := readString_errs r e (by rw [h])
    refine .err ?_
    simp only [List.mem_cons, List.not_mem_nil, or_false] at this ⊢
    rcases this with h1 | h1
    · cases e <;> simp_all [variant]
    · exact h1
  | case5 => exact .panic

theorem readOptionValue_errs : Errs [.eof, .format, .utf8] readOptionValue := by
  unfold readOptionValue
  exact .bind (readBytes_errs.mono (by decide)) fun b => .ite (fun _ => .lift (readString_errs _)) fun _ => .pure _

theorem readOptionsLoop_errIn (n : Nat) (r : Reader) (m : StrMap) :
    ErrIn [.eof, .format, .utf8] (readOptionsLoop n r m) := by
  fun_induction readOptionsLoop n r m with
  | case1 => exact .panic
  | case2 n r m name r' h value r'' h2 ih => exact ih
  | case3 n r m name r' h e r'' h2 => exact .err (readOptionValue_errs r' e (by rw [h2]))
  | case4 => exact .panic
  | case5 => exact .ok _
  | case6 n r m e r' hne h => exact .err (readString_errs r e (by rw [h]))
  | case7 => exact .panic

/-- The variants of `verify_signature`. -/
def verifyVariants : List Variant := [.eof, .format, .utf8, .keyType, .mismatch, .signature]

theorem readFixedRS_errs (n : Nat) : Errs [.eof, .format] (readFixedRS n) := by
  unfold readFixedRS
  exact .bind readPositiveMpint_errs fun r => .bind readPositiveMpint_errs fun s => .ite (fun _ => .err (by decide)) fun _ =>
    .bind (.lift (subNat_errIn _ _)) fun _ => .bind (.lift (subNat_errIn _ _)) fun _ => .pure _

theorem ringCheck_errIn (b : Bool) : ErrIn [.signature] (ringCheck b) := by
  cases b
  · exact .err (by decide)
  · exact .ok _

theorem readSignedMessage_errs (C : Crypto) (app : Option String) (m : Bytes) : Errs [.eof, .format] (readSignedMessage C app m) := by
  cases app with
  | none => exact .pure _
  | some a =>
    exact .bind ((readRawBytes_errs _).mono (by decide)) fun fl => .bind (.lift (index_errIn _ _)) fun _ =>
      .bind readU32_errs fun _ => .pure _

theorem verifySignature_errIn (C : Crypto) (sig msg : Bytes) (k : PublicKey) :
    ErrIn verifyVariants (verifySignature C sig msg k) := by
  unfold verifySignature
  have hb := readBytes_errs.mono (l' := verifyVariants) (by decide)
  have hm := fun app => (readSignedMessage_errs C app msg).mono (l' := verifyVariants) (by decide)
  have hr := fun b => (ringCheck_errIn b).mono (l' := verifyVariants) (by decide)
  refine Errs.bind (readString_errs.mono (by decide)) (fun n => .bind (.lift ((fromName_errIn n).mono (by decide))) fun kt =>
    .ite (fun _ => .err (by decide)) fun _ => ?_) _
  split
  · refine .bind hb fun inner => .bind (.lift ?_) fun al => ?_
    · unfold ecdsaSigAlg
      exact .ite (fun _ => .ok _) fun _ => .ite (fun _ => .ok _) fun _ => .ite (fun _ => .ok _) fun _ => .err (by decide)
    · exact .bind (.lift ((readFixedRS_errs _ _).mono (by decide))) fun _ => .bind (hm _) fun _ => .bind (.lift (hr _)) fun _ => .pure _
  · refine .bind (.lift ?_) fun al => .bind hb fun _ => .bind (.lift (hr _)) fun _ => .pure _
    unfold rsaSigAlg
    exact .ite (fun _ => .ok _) fun _ => .ite (fun _ => .ok _) fun _ => .ite (fun _ => .ok _) fun _ => .err (by decide)
  · refine .bind (.lift ?_) fun al => .bind hb fun _ => .bind (hm _) fun _ => .bind (.lift (hr _)) fun _ => .pure _
    unfold ed25519SigAlg
    exact .ite (fun _ => .ok _) fun _ => .ite (fun _ => .ok _) fun _ => .err (by decide)

/-- The variants of `Certificate::from_bytes`. -/
def certVariants : List Variant :=
  [.eof, .format, .utf8, .curve, .keyType, .notCertificate, .certType, .mismatch, .signature]

theorem certFromBytes_errIn (C : Crypto) (b : Bytes) : ErrIn certVariants (Certificate.fromBytes C b) := by
  unfold Certificate.fromBytes
  have hs := readString_errs.mono (l' := certVariants) (by decide)
  have hb := readBytes_errs.mono (l' := certVariants) (by decide)
  have h8 := readU64_errs.mono (l' := certVariants) (by decide)
  have ho := fun n r m => (readOptionsLoop_errIn n r m).mono (l' := certVariants) (by decide)
  refine Errs.bind hs (fun n => .bind (.lift ((fromName_errIn n).mono (by decide))) fun kt =>
    .ite (fun _ => .err (by decide)) fun _ => .bind hb fun nonce => .bind ((pubFromReader_errs _).mono (by decide)) fun key =>
    .bind h8 fun _ => .bind ?_ fun _ => .bind hs fun _ => .bind hb fun _ =>
    .bind (.lift ((readPrincipalsLoop_errIn _ _ _).mono (by decide))) fun _ => .bind h8 fun _ => .bind h8 fun _ =>
    .bind hb fun _ => .bind (.lift (ho _ _ _)) fun _ => .bind hb fun _ => .bind (.lift (ho _ _ _)) fun _ =>
    .bind hb fun _ => .bind hb fun _ => .bind (.lift ((pubFromBytes_errIn _).mono (by decide))) fun _ =>
    .bind (fun r => .ok _) fun _ => .bind hb fun _ => .bind (fun r => .ok _) fun _ =>
    .bind ((readRawBytes_errs _).mono (by decide)) fun _ =>
    .bind (.lift ((verifySignature_errIn _ _ _ _).mono (by decide))) fun _ => .pure _) _
  unfold Certificate.readCertType
  exact .bind (readU32_errs.mono (by decide)) fun n => .ite (fun _ => .pure _) fun _ => .ite (fun _ => .pure _) fun _ => .err (by simp [variant, certVariants])

theorem certFromString_errIn (C : Crypto) (s : List Char) : ErrIn (.decode :: certVariants) (Certificate.fromString C s) := by
  unfold Certificate.fromString
  split
  · exact .err (by decide)
  · refine .bind ((fromName_errIn _).mono (by decide)) fun kt => ?_
    split
    · exact .err (by decide)
    · exact .bind (.ofOption _ (by decide)) fun d => .bind ((certFromBytes_errIn C d).mono (by decide)) fun c =>
        .ite (fun _ => .err (by decide)) fun _ => .ok _

theorem armorBody_errIn (f : List Char) (ls : List (List Char)) (acc : List Char) : ErrIn [.format] (armorBody f ls acc) := by
  induction ls generalizing acc with
  | nil => exact .err (by decide)
  | cons l ls ih => exact .ite (fun _ => .ok _) fun _ => ih _

theorem dearmor_errIn (h f : String) (s : List Char) : ErrIn [.format, .decode] (dearmor h f s) := by
  unfold dearmor
  exact .ite (fun _ => .err (by decide)) fun _ => .bind ((armorBody_errIn _ _ _).mono (by decide)) fun _ => .ofOption _ (by decide)

theorem sigFromReader_errs : Errs [.eof, .format, .utf8, .curve, .keyType, .unsupported] SshSignature.fromReader := by
  unfold SshSignature.fromReader
  have hs := readString_errs.mono (l' := [.eof, .format, .utf8, .curve, .keyType, .unsupported]) (by decide)
  exact .bind ((readRawBytes_errs _).mono (by decide)) fun _ => .ite (fun _ => .err (by decide)) fun _ =>
    .bind (readU32_errs.mono (by decide)) fun _ => .ite (fun _ => .err (by decide)) fun _ =>
    .bind (readBytes_errs.mono (by decide)) fun _ => .bind (.lift ((pubFromBytes_errIn _).mono (by decide))) fun _ =>
    .bind hs fun _ => .ite (fun _ => .err (by decide)) fun _ => .bind hs fun _ => .bind hs fun _ =>
    .bind (.lift (.ite (fun _ => .ok _) fun _ => .ite (fun _ => .ok _) fun _ => .err (by decide))) fun _ =>
    .bind (readBytes_errs.mono (by decide)) fun _ => .pure _

theorem sigFromString_errIn (s : List Char) :
    ErrIn [.eof, .format, .utf8, .curve, .keyType, .unsupported, .decode] (SshSignature.fromArmoredString s) := by
  unfold SshSignature.fromArmoredString
  exact .bind ((dearmor_errIn _ _ _).mono (by decide)) fun d => (sigFromReader_errs _).mono (by decide)

theorem readCrt_errIn {l : List Variant} (F : Features) (d p : Bytes) : ErrIn l (readCrt F d p) := by
  unfold readCrt crtExponent
  exact .ite (fun _ => .bind (.bind (subNat_errIn _ _) fun _ => .ite (fun _ => .panic) fun _ => .ok _) fun _ => .ok _) fun _ => .ok _

theorem privKind_errs (F : Features) (kt : KeyType) : Errs [.eof, .format, .utf8, .curve, .keyType] (PrivateKey.readKind F kt) := by
  have hm := readPositiveMpint_errs.mono (l' := [.eof, .format, .utf8, .curve, .keyType]) (by decide)
  have hb := readBytes_errs.mono (l' := [.eof, .format, .utf8, .curve, .keyType]) (by decide)
  have hs := readString_errs.mono (l' := [.eof, .format, .utf8, .curve, .keyType]) (by decide)
  have hk : Errs [.eof, .format, .utf8, .curve, .keyType] PrivateKey.readSk :=
    .bind ((readRawBytes_errs _).mono (by decide)) fun _ => .bind (.lift (index_errIn _ _)) fun _ => .bind hb fun _ =>
      .bind hb fun _ => .pure _
  unfold PrivateKey.readKind
  cases kt.kind with
  | rsa =>
    exact .bind hm fun _ => .bind hm fun _ => .bind hm fun _ => .bind hm fun _ => .bind hm fun _ => .bind hm fun _ =>
      .bind (.lift (readCrt_errIn _ _ _)) fun _ => .bind (.lift (readCrt_errIn _ _ _)) fun _ => .pure _
  | ecdsa =>
    exact .bind hs fun s => .bind (.lift ((fromIdentifier_errIn s).mono (by decide))) fun _ => .bind hb fun _ =>
      .ite (fun _ => .bind hs fun _ => .bind hk fun _ => .pure _) fun _ => .bind hb fun _ => .pure _
  | ed25519 =>
    exact .bind hb fun _ =>
      .ite (fun _ => .bind hs fun _ => .bind hk fun _ => .pure _) fun _ => .bind hb fun _ => .pure _
  | _ => exact .err (by simp [variant])

theorem readPrivateKey_errs (F : Features) : Errs [.eof, .format, .utf8, .curve, .keyType] (PrivateKey.readPrivateKey F) := by
  have hs := readString_errs.mono (l' := [.eof, .format, .utf8, .curve, .keyType]) (by decide)
  unfold PrivateKey.readPrivateKey
  exact .bind hs fun n => .bind (.lift ((fromName_errIn n).mono (by decide))) fun kt => .bind (privKind_errs F kt) fun _ =>
    .bind hs fun _ => .pure _

/-- The variants of reading a private key file. -/
def privVariants : List Variant := [.eof, .format, .utf8, .curve, .keyType, .encrypted, .encryptionNotSupported]

theorem decryptSection_errIn (F : Features) (C : Crypto) (cipher kdf : String) (pass : Option String) (d s : Bytes) :
    ErrIn privVariants (PrivateKey.decryptSection F C cipher kdf pass d s) := by
  unfold PrivateKey.decryptSection
  refine .ite (fun _ => .ok _) fun _ => .ite (fun _ => ?_) fun _ => .err (by decide)
  split
  · refine .ite (fun _ => ?_) fun _ => .err (by decide)
    have h : Errs [.eof, .format] ((do
            let salt ← Reader.readBytes
            let rounds ← Reader.readU32
            return (salt, rounds) : Rd (Bytes × UInt32))) := .bind readBytes_errs fun _ => .bind readU32_errs fun _ => .pure _
    have h := (h.mono (l' := privVariants) (by decide)) (Reader.new d)
    split
    · split
      · exact .ite (fun _ => .ok _) fun _ => .err (by decide)
      · exact .err (by decide)
    · rename_i e he
      exact .err (h e he)
    · exact .panic
  · exact .err (by decide)

theorem openSection_errIn (F : Features) (k : PublicKey) (s : Bytes) : ErrIn privVariants (PrivateKey.openSection F k s) := by
  unfold PrivateKey.openSection
  have h4 := readU32_errs.mono (l' := privVariants) (by decide)
  exact Errs.bind h4 (fun _ => .bind h4 fun _ => .ite (fun _ => .err (by decide)) fun _ =>
    .bind ((readPrivateKey_errs F).mono (by decide)) fun _ => .ite (fun _ => .err (by decide)) fun _ => .pure _) _

theorem privFromReader_errs (F : Features) (C : Crypto) (pass : Option String) : Errs privVariants (PrivateKey.fromReader F C pass) := by
  unfold PrivateKey.fromReader
  have hs := readString_errs.mono (l' := privVariants) (by decide)
  have hb := readBytes_errs.mono (l' := privVariants) (by decide)
  have h4 := readU32_errs.mono (l' := privVariants) (by decide)
  exact .bind (readCstring_errs.mono (by decide)) fun _ => .ite (fun _ => .err (by decide)) fun _ => .bind hs fun _ =>
    .bind hs fun _ => .bind hb fun _ => .bind h4 fun _ => .ite (fun _ => .err (by decide)) fun _ => .bind hb fun _ =>
    .bind (.lift ((pubFromBytes_errIn _).mono (by decide))) fun _ => .bind h4 fun _ =>
    .bind ((readRawBytes_errs _).mono (by decide)) fun _ => .bind (.lift (decryptSection_errIn _ _ _ _ _ _ _)) fun _ =>
    .lift (openSection_errIn _ _ _)

theorem privFromString_errIn (F : Features) (C : Crypto) (s : List Char) (pass : Option String) :
    ErrIn (.decode :: privVariants) (PrivateKey.fromStringWithPassphrase F C s pass) := by
  unfold PrivateKey.fromStringWithPassphrase
  exact .bind ((dearmor_errIn _ _ _).mono (by decide)) fun d => (privFromReader_errs _ _ _ _).mono (by decide)

/-! ## Allowed signers -/

/-- No error, or an error of the splitter of the listed kinds. -/
def AsIn {α : Type} (l : List ASErr) (x : Res α) : Prop := ∀ e, x = .err e → ∃ a ∈ l, e = .invalidAllowedSigner a

theorem AsIn.asErr {α : Type} {l : List ASErr} {a : ASErr} (h : a ∈ l) : AsIn l (Ssh.asErr a : Res α) := by
  rintro e h'; cases h'; exact ⟨a, h, rfl⟩
theorem AsIn.ok {α : Type} {l : List ASErr} (a : α) : AsIn l (Res.ok a) := by intro e h; cases h
theorem AsIn.pure {α : Type} {l : List ASErr} (a : α) : AsIn l (Pure.pure a : Res α) := AsIn.ok a
theorem AsIn.panic {α : Type} {l : List ASErr} : AsIn l (.panic : Res α) := by intro e h; cases h
theorem AsIn.unwrap {α : Type} {l : List ASErr} (o : Option α) : AsIn l (Res.unwrap o) := by
  cases o; exact .panic; exact .ok _
theorem AsIn.mapErr {α : Type} {l : List ASErr} {a : ASErr} (h : a ∈ l) (r : Res α) :
    AsIn l (Res.mapErr (fun _ => .invalidAllowedSigner a) r) := by
  rintro e he
  cases r <;> simp [Res.mapErr] at he
  exact ⟨a, h, he.symm⟩
theorem AsIn.mono {α : Type} {l l' : List ASErr} {x : Res α} (h : AsIn l x) (hl : l ⊆ l') : AsIn l' x := by
  intro e he
  obtain ⟨a, ha, rfl⟩ := h e he
  exact ⟨a, hl ha, rfl⟩
theorem AsIn.bind {α β : Type} {l : List ASErr} {r : Res α} {f : α → Res β} (h : AsIn l r) (hf : ∀ a, AsIn l (f a)) :
    AsIn l (r >>= f) := by
  rintro e he
  cases r with
  | ok a => exact hf a e he
  | err e' => exact h e (by simpa using he)
  | panic => cases he
theorem AsIn.ite {α : Type} {l : List ASErr} {p : Prop} [Decidable p] {a b : Res α} (ha : AsIn l a) (hb : AsIn l b) :
    AsIn l (if p then a else b) := by
  split <;> assumption

theorem splitQuoteLoop_asIn (b : List Tok) : ∀ acc, AsIn [.invalidQuotes] (splitQuoteLoop b acc) := by
  induction b with
  | nil => intro acc; exact AsIn.asErr (by decide)
  | cons t ts ih => intro acc; rw [splitQuoteLoop]; exact .ite (.ok _) (ih _)

theorem splitQuote_asIn (b : List Tok) : AsIn [.invalidQuotes] (splitQuote b) := by
  cases b with
  | nil => exact AsIn.asErr (by decide)
  | cons t ts => rw [splitQuote]; exact .ite (.asErr (by decide)) (splitQuoteLoop_asIn _ _)

theorem asNext_asIn (q : Bool) (b : List Tok) : AsIn [.invalidQuotes] (asNext q b) := by
  unfold asNext
  dsimp only
  refine .ite (.pure _) (.bind (.unwrap _) fun f => .ite (.ite (.bind (splitQuote_asIn _) fun _ => .pure _) (.asErr (by decide))) ?_)
  split
  · refine .ite (.bind (splitQuote_asIn _) fun x => ?_) (.pure _)
    split
    · exact .ite (.asErr (by decide)) (.pure _)
    · exact .pure _
  · exact .pure _

/-- The errors of options. -/
def optionErrors : List ASErr := [.invalidQuotes, .duplicateOptions "namespaces", .duplicateOptions "valid-after",
  .duplicateOptions "valid-before", .invalidOption "valid-after", .invalidOption "valid-before", .missingKey]

theorem applyOption_asIn (T : Chrono) (o : Opts) (w : Tok) : AsIn optionErrors (applyOption T o w) := by
  unfold applyOption
  refine .ite (.asErr (by decide)) (.ite (.ok _) (.ite (.ite (.asErr (by decide)) (.ok _)) (.ite (.ite (.asErr (by decide))
    (.bind (.mapErr (by decide) _) fun _ => .pure _))
    (.ite (.ite (.asErr (by decide)) (.bind (.mapErr (by decide) _) fun _ => .pure _)) (.ok _)))))

theorem optionLoop_asIn (T : Chrono) (fuel : Nat) : ∀ b o, AsIn optionErrors (optionLoop T fuel b o) := by
  induction fuel with
  | zero => intro b o; exact AsIn.panic
  | succ n ih =>
    intro b o
    rw [optionLoop]
    refine .bind ((asNext_asIn _ _).mono (by decide)) fun x => ?_
    obtain ⟨t, r⟩ := x
    cases t with
    | none => exact .asErr (by decide)
    | some w =>
      refine .bind (applyOption_asIn _ _ _) fun y => ?_
      cases y with
      | none => exact .pure _
      | some o' => exact ih _ _

/-- The errors of a line with something on it. -/
def lineErrors : List ASErr := [.invalidQuotes, .invalidPrincipals, .missingKey, .duplicateOptions "namespaces",
  .duplicateOptions "valid-after", .duplicateOptions "valid-before", .invalidOption "valid-after",
  .invalidOption "valid-before", .invalidKey, .invalidTimestamps, .unexpectedEnd]

theorem asNext_none_trim {q : Bool} {b r : List Tok} (h : asNext q b = .ok (none, r)) : asTrim b = [] := by
  cases ht : asTrim b with
  | nil => rfl
  | cons t ts =>
    exfalso
    unfold asNext at h
    dsimp only at h
    rw [ht] at h
    simp only [List.isEmpty_cons, Bool.false_eq_true, if_false] at h
    obtain ⟨f, _, h⟩ := bind_ok_iff.mp h
    split at h
    · split at h
      · obtain ⟨⟨v, r2⟩, _, h⟩ := bind_ok_iff.mp h
        cases h
      · cases h
    · split at h
      · split at h
        · obtain ⟨⟨v, r2⟩, _, h⟩ := bind_ok_iff.mp h
          simp only at h
          split at h
          · split at h <;> cases h
          · cases h
        · cases h
      · cases h

theorem fromString_errors (T : Chrono) (s : List Char) (e : Err) (h : AllowedSigner.fromString T s = .err e) :
    (e = .invalidAllowedSigner .missingPrincipals ∧ Blank s) ∨
    (¬ Blank s ∧ ∃ a ∈ lineErrors, e = .invalidAllowedSigner a) := by
  unfold AllowedSigner.fromString at h
  dsimp only at h
  by_cases hb : Blank s
  · rw [asNext_blank true hb] at h
    cases h
    exact .inl ⟨rfl, hb⟩
  refine .inr ⟨hb, ?_⟩
  rcases hx : asNext true (splitTokens [] s) with ⟨⟨t, r⟩⟩ | e' | _
  · cases t with
    | none => exact absurd ((asTrim_nil_iff s).mp (asNext_none_trim hx)) hb
    | some p =>
      rw [hx] at h
      simp only [Res.ok_bind] at h
      refine AsIn.ite (l := lineErrors) (.asErr (by decide)) (.bind ((optionLoop_asIn _ _ _ _).mono (by decide)) fun y =>
        .bind ((asNext_asIn _ _).mono (by decide)) fun z => ?_) e h
      obtain ⟨t, r⟩ := z
      cases t with
      | none => exact .asErr (by decide)
      | some kd =>
        exact .bind (.mapErr (by decide) _) fun k => .ite (.asErr (by decide)) (.ite (.asErr (by decide)) (.pure _))
  · rw [hx] at h
    cases h
    exact (asNext_asIn _ _).mono (by decide) _ hx
  · rw [hx] at h; cases h

end Ssh
