import Verif.Spec.Cert
import Verif.Lemmas.Verify
import Verif.Lemmas.Lists

/-! # Lemmas about certificates -/

namespace Ssh

open Spec Reader

theorem isMapOf_insertAll (l : List (String × String)) : IsMapOf l (insertAll [] l) :=
  ⟨nodupKeys_insertAll (by simp [NodupKeys]) l, mapGet_insertAll_nil l⟩

theorem readCertType_parses : Parses Certificate.readCertType (fun t w => w = u32 (roleNumber t)) := by
  unfold Certificate.readCertType
  refine (Parses.bind readU32_parses fun n => Parses.ite (fun _ => Parses.pure CertType.user) (fun _ =>
    Parses.ite (fun _ => Parses.pure CertType.host) (fun _ => Parses.err _))).congr ?_
  intro t w
  constructor
  · rintro ⟨n, w1, w2, rfl, rfl, ⟨rfl, rfl, rfl⟩ | ⟨_, ⟨rfl, rfl, rfl⟩ | ⟨_, h⟩⟩⟩
    · rfl
    · rfl
    · exact h.elim
  · rintro rfl
    cases t with
    | user => exact ⟨1, u32 1, [], by simp [roleNumber], rfl, .inl ⟨rfl, rfl, rfl⟩⟩
    | host => exact ⟨2, u32 2, [], by simp [roleNumber], rfl, .inr ⟨by decide, .inl ⟨rfl, rfl, rfl⟩⟩⟩

theorem readCertType_noPanic (r : Reader) : (Certificate.readCertType r).1 ≠ .panic := by
  unfold Certificate.readCertType
  refine Rd.noPanic_bind readU32_noPanic (fun n r => ?_) r
  split
  · simp [Rd.pure_eq]
  split
  · simp [Rd.pure_eq]
  · simp

/-- The part of `from_bytes` before the signature. -/
def certBody : Rd Certificate := do
  let ktName ← Reader.readString
  let keyType ← Rd.lift (KeyType.fromName ktName)
  if !keyType.isCert then Rd.lift (.err .notCertificate)
  else do
    let nonce ← Reader.readBytes
    let key ← PublicKey.fromReader keyType.asPubkeyName
    let serial ← Reader.readU64
    let certType ← Certificate.readCertType
    let keyId ← Reader.readString
    let pbuf ← Reader.readBytes
    let principals ← Rd.lift (readPrincipals pbuf)
    let validAfter ← Reader.readU64
    let validBefore ← Reader.readU64
    let cbuf ← Reader.readBytes
    let criticalOptions ← Rd.lift (readOptions cbuf)
    let ebuf ← Reader.readBytes
    let extensions ← Rd.lift (readOptions ebuf)
    let reserved ← Reader.readBytes
    let sbuf ← Reader.readBytes
    let signatureKey ← Rd.lift (PublicKey.fromBytes sbuf)
    return {
      keyType, nonce, key, serial, certType, keyId, principals, validAfter, validBefore,
      criticalOptions, extensions, reserved, signatureKey, signature := [],
      comment := none, serialized := [] }

/-- The rest of `from_bytes`. -/
def certTail (C : Crypto) (data : Bytes) (b : Certificate) : Rd Certificate := do
  let signedLen ← Reader.getOffset
  let signature ← Reader.readBytes
  Reader.setOffset 0
  let signedBytes ← Reader.readRawBytes signedLen
  let _ ← Rd.lift (verifySignature C signature signedBytes b.signatureKey)
  return { b with signature := signature, serialized := data }

theorem certFromBytes_eq (C : Crypto) (data : Bytes) :
    Certificate.fromBytes C data = ((certBody >>= certTail C data) (Reader.new data)).1 := by
  unfold Certificate.fromBytes certBody certTail
  simp only [Rd.bind_assoc]
  congr 2
  refine congrFun (congrArg (fun f => readString >>= f) (funext fun n =>
    congrArg (fun f => Rd.lift (KeyType.fromName n) >>= f) (funext fun kt => ?_))) _
  cases kt.isCert with
  | false => rfl
  | true => simp only [Rd.bind_assoc, Rd.pure_bind, Bool.not_true, Bool.false_eq_true, if_false]

/-- `CertBody` with the exact list representation of the maps. -/
def BodyExact (c : Certificate) (w : Bytes) : Prop :=
  c.keyType ∈ keyTypes ∧ c.keyType.isCert = true ∧
  c.key.keyType ∈ keyTypes ∧ c.key.keyType.name = c.keyType.plain ∧ c.key.comment = none ∧
  c.signatureKey.comment = none ∧
  ∃ wName wNonce wKey wId pBuf wPrincipals cBuf wCritical eBuf wExtensions wReserved caBlob caJunk wCa
    critical extensions,
    w = wName ++ (wNonce ++ (wKey ++ (u64 c.serial.toNat ++ (u32 (roleNumber c.certType) ++ (wId ++
      (wPrincipals ++ (u64 c.validAfter.toNat ++ (u64 c.validBefore.toNat ++ (wCritical ++ (wExtensions ++
      (wReserved ++ wCa))))))))))) ∧
    Text c.keyType.name wName ∧ Frame c.nonce wNonce ∧ KeyMaterial c.key.keyType c.key.kind wKey ∧
    Text c.keyId wId ∧ Texts c.principals pBuf ∧ Frame pBuf wPrincipals ∧
    OptionPairs critical cBuf ∧ Frame cBuf wCritical ∧ c.criticalOptions = insertAll [] critical ∧
    OptionPairs extensions eBuf ∧ Frame eBuf wExtensions ∧ c.extensions = insertAll [] extensions ∧
    Frame c.reserved wReserved ∧ KeyBlob c.signatureKey caBlob ∧ Frame (caBlob ++ caJunk) wCa

theorem BodyExact.certBody {c : Certificate} {w : Bytes} (h : BodyExact c w) : CertBody c w := by
  obtain ⟨h1, h2, h3, h4, h5, h6, wName, wNonce, wKey, wId, pBuf, wPrincipals, cBuf, wCritical, eBuf, wExtensions,
    wReserved, caBlob, caJunk, wCa, critical, extensions, e0, e1, e2, e3, e4, e5, e6, e7, e8, e9, e10, e11, e12, e13,
    e14, e15⟩ := h
  exact ⟨h1, h2, h3, h4, h5, h6, wName, wNonce, wKey, wId, pBuf, wPrincipals, cBuf, wCritical, eBuf, wExtensions,
    wReserved, caBlob, caJunk, wCa, critical, extensions, e0, e1, e2, e3, e4, e5, e6, e7, e8,
    e9 ▸ isMapOf_insertAll _, e10, e11, e12 ▸ isMapOf_insertAll _, e13, e14, e15⟩

theorem certBody_parses : Parses certBody (fun c w => BodyExact c w ∧ c.signature = [] ∧ c.comment = none ∧
    c.serialized = []) := by
  unfold certBody
  refine (Parses.bind readString_parses fun n => Parses.bind (Parses.lift _) fun kt =>
    Parses.ite (fun _ => Parses.err _) (fun _ =>
    Parses.bind readBytes_parses fun nonce => Parses.bind (fromReader_parses _) fun key =>
    Parses.bind readU64_parses fun serial => Parses.bind readCertType_parses fun role =>
    Parses.bind readString_parses fun keyId => Parses.bind readBytes_parses fun pbuf =>
    Parses.bind (Parses.lift _) fun principals => Parses.bind readU64_parses fun va =>
    Parses.bind readU64_parses fun vb => Parses.bind readBytes_parses fun cbuf =>
    Parses.bind (Parses.lift _) fun crit => Parses.bind readBytes_parses fun ebuf =>
    Parses.bind (Parses.lift _) fun ext => Parses.bind readBytes_parses fun reserved =>
    Parses.bind readBytes_parses fun sbuf => Parses.bind (Parses.lift _) fun sk => Parses.pure _)).congr ?_
  intro c w
  constructor
  · rintro ⟨n, wName, _, q1, hn, kt, _, _, q2, ⟨hkt, p1⟩, ⟨_, h⟩ | ⟨hcert, h⟩⟩
    · exact h.elim
    obtain ⟨nonce, wNonce, _, q3, hnonce, h⟩ := h
    obtain ⟨key, wKey, _, q4, ⟨hk1, hk2, hk3, hk4⟩, h⟩ := h
    obtain ⟨serial, _, _, q5, p2, h⟩ := h
    obtain ⟨role, _, _, q6, p3, h⟩ := h
    obtain ⟨keyId, wId, _, q7, hId, h⟩ := h
    obtain ⟨pbuf, wP, _, q8, hP, h⟩ := h
    obtain ⟨principals, _, _, q9, ⟨hp, p4⟩, h⟩ := h
    obtain ⟨va, _, _, q10, p5, h⟩ := h
    obtain ⟨vb, _, _, q11, p6, h⟩ := h
    obtain ⟨cbuf, wC, _, q12, hC, h⟩ := h
    obtain ⟨crit, _, _, q13, ⟨hc, p7⟩, h⟩ := h
    obtain ⟨ebuf, wE, _, q14, hE, h⟩ := h
    obtain ⟨ext, _, _, q15, ⟨he, p8⟩, h⟩ := h
    obtain ⟨reserved, wR, _, q16, hR, h⟩ := h
    obtain ⟨sbuf, wS, _, q17, hS, h⟩ := h
    obtain ⟨sk, _, _, q18, ⟨hs, p9⟩, rfl, p10⟩ := h
    subst p1 p2 p3 p4 p5 p6 p7 p8 p9 p10 q18 q17 q16 q15 q14 q13 q12 q11 q10 q9 q8 q7 q6 q5 q4 q3 q2 q1
    obtain ⟨hkt1, rfl⟩ := fromName_ok.mp hkt
    rw [readPrincipals_ok] at hp
    obtain ⟨lc, rfl, hlc⟩ := readOptions_ok.mp hc
    obtain ⟨le, rfl, hle⟩ := readOptions_ok.mp he
    obtain ⟨caBlob, caJunk, rfl, hca, hcac⟩ := fromBytes_ok.mp hs
    refine ⟨⟨hkt1, by simpa using hcert, hk1, hk2, hk3, hcac, wName, wNonce, wKey, wId, pbuf, wP, cbuf, wC, ebuf, wE,
      wR, caBlob, caJunk, wS, lc, le, by simp, hn, hnonce, hk4, hId, hp, hP, hlc, hC, rfl, hle, hE, rfl, hR, hca, hS⟩,
      rfl, rfl, rfl⟩
  · rintro ⟨⟨h1, h2, h3, h4, h5, h6, wName, wNonce, wKey, wId, pBuf, wPrincipals, cBuf, wCritical, eBuf, wExtensions,
      wReserved, caBlob, caJunk, wCa, critical, extensions, e0, e1, e2, e3, e4, e5, e6, e7, e8, e9, e10, e11, e12, e13,
      e14, e15⟩, f1, f2, f3⟩
    refine ⟨c.keyType.name, wName, _, e0, e1, c.keyType, [], _, rfl, ⟨fromName_ok.mpr ⟨h1, rfl⟩, rfl⟩, .inr ⟨by simp [h2],
      c.nonce, wNonce, _, rfl, e2, c.key, wKey, _, rfl, ⟨h3, h4, h5, e3⟩, c.serial, _, _, rfl, rfl,
      c.certType, _, _, rfl, rfl, c.keyId, wId, _, rfl, e4, pBuf, wPrincipals, _, rfl, e6, c.principals, [], _, rfl,
      ⟨readPrincipals_ok.mpr e5, rfl⟩, c.validAfter, _, _, rfl, rfl, c.validBefore, _, _, rfl, rfl,
      cBuf, wCritical, _, rfl, e8, c.criticalOptions, [], _, rfl, ⟨readOptions_ok.mpr ⟨critical, e9, e7⟩, rfl⟩,
      eBuf, wExtensions, _, rfl, e11, c.extensions, [], _, rfl, ⟨readOptions_ok.mpr ⟨extensions, e12, e10⟩, rfl⟩,
      c.reserved, wReserved, _, rfl, e13, caBlob ++ caJunk, wCa, [], by simp, e15,
      c.signatureKey, [], [], rfl, ⟨fromBytes_ok.mpr ⟨caBlob, caJunk, rfl, e14, h6⟩, rfl⟩, ?_, rfl⟩⟩
    cases c
    simp only at f1 f2 f3
    subst f1; subst f2; subst f3
    rfl

theorem certBody_noPanic (r : Reader) : (certBody r).1 ≠ .panic := by
  unfold certBody
  refine Rd.noPanic_bind readString_noPanic (fun n => Rd.noPanic_bind (Rd.noPanic_lift (fromName_noPanic n))
    fun kt r => ?_) r
  split
  · simp
  exact Rd.noPanic_bind readBytes_noPanic (fun _ => Rd.noPanic_bind (fromReader_noPanic _) fun _ =>
    Rd.noPanic_bind readU64_noPanic fun _ => Rd.noPanic_bind readCertType_noPanic fun _ =>
    Rd.noPanic_bind readString_noPanic fun _ => Rd.noPanic_bind readBytes_noPanic fun _ =>
    Rd.noPanic_bind (Rd.noPanic_lift (readPrincipals_fuel _)) fun _ => Rd.noPanic_bind readU64_noPanic fun _ =>
    Rd.noPanic_bind readU64_noPanic fun _ => Rd.noPanic_bind readBytes_noPanic fun _ =>
    Rd.noPanic_bind (Rd.noPanic_lift (readOptions_fuel _)) fun _ => Rd.noPanic_bind readBytes_noPanic fun _ =>
    Rd.noPanic_bind (Rd.noPanic_lift (readOptions_fuel _)) fun _ => Rd.noPanic_bind readBytes_noPanic fun _ =>
    Rd.noPanic_bind readBytes_noPanic fun _ => Rd.noPanic_bind (Rd.noPanic_lift (fromBytes_noPanic _)) fun _ =>
    Rd.noPanic_pure _) r

theorem bodyExact_ne_nil {c : Certificate} {w : Bytes} (h : BodyExact c w) : w ≠ [] := by
  obtain ⟨_, _, _, _, _, _, wName, _, _, _, _, _, _, _, _, _, _, _, _, _, _, _, rfl, hn, _⟩ := h
  simp [text_ne_nil hn]

/-- The body grammar does not mention signature, comment and stored bytes. -/
theorem bodyExact_update {c : Certificate} {w : Bytes} (sig ser : Bytes) (cm : Option String) :
    BodyExact { c with signature := sig, comment := cm, serialized := ser } w ↔ BodyExact c w := Iff.rfl

theorem certFromBytes_ok {C : Crypto} {data : Bytes} {c : Certificate} : Certificate.fromBytes C data = .ok c ↔
    ∃ w wsig rest, data = w ++ (wsig ++ rest) ∧ BodyExact c w ∧ Frame c.signature wsig ∧
      Accepts C c.signatureKey w c.signature ∧ c.comment = none ∧ c.serialized = data := by
  rw [certFromBytes_eq]
  constructor
  · intro h
    rcases hx : (certBody >>= certTail C data) (Reader.new data) with ⟨x, r'⟩
    rw [hx] at h
    simp only at h
    subst h
    obtain ⟨b, r1, hb, ht⟩ := Rd.bind_ok.mp hx
    obtain ⟨w, ⟨hbody, _, hcm, _⟩, hat, rfl⟩ := (certBody_parses _ _ _).mp hb
    unfold certTail at ht
    obtain ⟨n, r2, h2, ht⟩ := Rd.bind_ok.mp ht
    simp only [getOffset, Prod.mk.injEq, Res.ok.injEq] at h2
    obtain ⟨rfl, rfl⟩ := h2
    obtain ⟨sig, r3, h3, ht⟩ := Rd.bind_ok.mp ht
    obtain ⟨wsig, hsig, hat2, rfl⟩ := (readBytes_parses _ _ _).mp h3
    obtain ⟨_, r4, h4, ht⟩ := Rd.bind_ok.mp ht
    simp only [setOffset, Prod.mk.injEq, true_and] at h4
    subst h4
    obtain ⟨signed, r5, h5, ht5⟩ := Rd.bind_ok.mp ht
    have hoff : (adv (Reader.new data) w).offset = w.length := by simp [adv, Reader.new]
    rw [hoff] at h5
    have hwpos : 0 < w.length := List.length_pos_iff.mpr (bodyExact_ne_nil hbody)
    obtain ⟨w', ⟨rfl, hl⟩, hat3, _⟩ := (readRawBytes_parses hwpos _ _ _).mp h5
    obtain ⟨rest, hdata⟩ := at_new.mp (at_append.mpr ⟨hat, hat2⟩)
    have hw : signed = w := by
      obtain ⟨rest3, hd3⟩ := hat3
      simp only [adv, Reader.new, List.drop_zero] at hd3
      rw [hdata, List.append_assoc] at hd3
      exact (List.append_inj hd3 hl.symm).1.symm
    subst hw
    obtain ⟨v, r6, h6, ht6⟩ := Rd.bind_ok.mp ht5
    have hv : verifySignature C sig signed b.signatureKey = .ok v := congrArg Prod.fst h6
    simp only [Rd.pure_eq, Prod.mk.injEq, Res.ok.injEq] at ht6
    obtain ⟨rfl, _⟩ := ht6
    exact ⟨signed, wsig, rest, by simpa using hdata, hbody, hsig, (verifySignature_ok.mp hv).1, hcm, rfl⟩
  · rintro ⟨w, wsig, rest, hd, hbody, hsig, hacc, hcm, hser⟩
    have hb : certBody (Reader.new data) = (.ok { c with signature := [], serialized := [], comment := none },
        adv (Reader.new data) w) :=
      (certBody_parses _ _ _).mpr ⟨w, ⟨hbody, rfl, rfl, rfl⟩, at_new.mpr ⟨_, hd⟩, rfl⟩
    have hwpos : 0 < w.length := List.length_pos_iff.mpr (bodyExact_ne_nil hbody)
    have hat : At (Reader.new data) (w ++ wsig) := at_new.mpr ⟨rest, by simpa using hd⟩
    have h3 : readBytes (adv (Reader.new data) w) = (.ok c.signature, adv (adv (Reader.new data) w) wsig) :=
      (readBytes_parses _ _ _).mpr ⟨wsig, hsig, (at_append.mp hat).2, rfl⟩
    have h5 : readRawBytes w.length ⟨data, 0⟩ = (.ok w, adv ⟨data, 0⟩ w) :=
      (readRawBytes_parses hwpos _ _ _).mpr ⟨w, ⟨rfl, rfl⟩, at_new.mpr ⟨_, hd⟩, rfl⟩
    have hoff : (adv (Reader.new data) w).offset = w.length := by simp [adv, Reader.new]
    rw [Rd.bind_of_ok hb]
    unfold certTail
    rw [Rd.bind_of_ok (show getOffset (adv (Reader.new data) w) = (.ok w.length, adv (Reader.new data) w) by
      simp [getOffset, hoff]), Rd.bind_of_ok h3]
    rw [Rd.bind_of_ok (show setOffset 0 (adv (adv (Reader.new data) w) wsig) = (.ok (), ⟨data, 0⟩) from rfl),
      Rd.bind_of_ok h5]
    rw [verifySignature_ok.mpr ⟨hacc, rfl⟩, Rd.bind_of_ok (Rd.lift_eq _ _), Rd.pure_eq]
    simp only [Res.ok.injEq]
    cases c
    simp only at hcm hser
    subst hcm; subst hser
    rfl

theorem certFromBytes_noPanic (C : Crypto) (data : Bytes) : Certificate.fromBytes C data ≠ .panic := by
  rw [certFromBytes_eq]
  refine Rd.noPanic_bind certBody_noPanic (fun b => ?_) _
  unfold certTail
  exact Rd.noPanic_bind (fun r => by simp [getOffset]) fun _ => Rd.noPanic_bind readBytes_noPanic fun _ =>
    Rd.noPanic_bind (fun r => by simp [setOffset]) fun _ => Rd.noPanic_bind (readRawBytes_noPanic _) fun _ =>
    Rd.noPanic_bind (Rd.noPanic_lift (verifySignature_noPanic _ _ _ _)) fun _ => Rd.noPanic_pure _

/-! ## Writing -/

/-- What `tbs_certificate` writes. -/
theorem tbs_eq (c : Certificate) : c.tbsCertificate = (c.keyType.asCertName >>= fun n =>
    Res.unwrap (keyMaterial c.key.keyType.isSk c.key.kind) >>= fun km => c.signatureKey.encode >>= fun ca =>
    .ok (frameStr n ++ (frame c.nonce ++ (km ++ (u64 c.serial.toNat ++ (u32 (roleNumber c.certType) ++
      (frameStr c.keyId ++ (frame (c.principals.flatMap frameStr) ++ (u64 c.validAfter.toNat ++
      (u64 c.validBefore.toNat ++ (frame (c.criticalOptions.flatMap optionBytes) ++
      (frame (c.extensions.flatMap optionBytes) ++ (frame [] ++ frame ca))))))))))))) := by
  unfold Certificate.tbsCertificate
  cases c.keyType.asCertName with
  | err e => rfl
  | panic => rfl
  | ok n =>
    simp only [Res.ok_bind, writePubKeyData_eq]
    cases keyMaterial c.key.keyType.isSk c.key.kind with
    | none => rfl
    | some km =>
      simp only [Res.unwrap, Res.ok_bind]
      cases c.signatureKey.encode with
      | err e => rfl
      | panic => rfl
      | ok ca =>
        have hrole : u32 c.certType.toU32.toNat = u32 (roleNumber c.certType) := by cases c.certType <;> rfl
        have h0 : u32 (0 : UInt32).toNat = frame [] := rfl
        simp only [Res.ok_bind, Res.pure_eq, Writer.writeBytes_inner, Writer.writeU32_inner,
          Writer.writeStringMap_inner, Writer.writeU64_inner, Writer.writeStringVec_inner, Writer.writeString_inner,
          Writer.new_inner, hrole, h0, List.nil_append, List.append_assoc]

theorem table_certName : ∀ kt ∈ keyTypes, kt.isCert = true → kt.asCertName = .ok kt.name := by decide +kernel

theorem table_plain_det : ∀ a ∈ keyTypes, ∀ b ∈ keyTypes, a.plain = b.plain →
    a.isSk = b.isSk ∧ family a.kind = family b.kind := by decide +kernel

/-- A key type that can verify has the same kind as its plain type. -/
theorem table_plain_kind : ∀ kt ∈ keyTypes, ∀ p ∈ keyTypes, p.name = kt.plain →
    (kt.kind = .rsa ∨ kt.kind = .ecdsa ∨ kt.kind = .ed25519) → p.kind = kt.kind := by decide +kernel

theorem optionBytes_len (kv : String × String) : (optionBytes kv).length =
    8 + kv.1.utf8ByteSize + (if kv.2 = "" then 0 else 4 + kv.2.utf8ByteSize) := by
  obtain ⟨n, v⟩ := kv
  simp only [optionBytes, optionDataBytes, List.length_append, frameStr_len, frame_len, strBytes_length]
  by_cases h : v = ""
  · subst h
    have : strBytes "" = [] := strBytes_eq_nil.mpr rfl
    simp [this]
    omega
  · have : strBytes v ≠ [] := fun e => h (strBytes_eq_nil.mp e)
    simp [this, h, frameStr_len, strBytes_length]
    omega

theorem optionsSize_eq (m : StrMap) : (m.flatMap optionBytes).length = optionsSize m := by
  rw [List.length_flatMap, optionsSize]
  congr 1
  exact List.map_congr_left fun kv _ => optionBytes_len kv

theorem principalsSize_eq (l : List String) : (l.flatMap frameStr).length = principalsSize l := by
  rw [List.length_flatMap, principalsSize]
  congr 1
  exact List.map_congr_left fun s _ => by rw [frameStr_len, strBytes_length]

theorem optionPairs_of_fits {m : StrMap} (h : optionsSize m < 4294967296) : OptionPairs m (m.flatMap optionBytes) := by
  apply optionPairs_of
  intro kv hkv
  have := le_sum_of_mem (List.mem_map_of_mem (f := fun kv : String × String =>
    8 + kv.1.utf8ByteSize + (if kv.2 = "" then 0 else 4 + kv.2.utf8ByteSize)) hkv)
  unfold optionsSize at h
  rw [strBytes_length, strBytes_length]
  by_cases hv : kv.2 = ""
  · have h0 : kv.2.utf8ByteSize = 0 := by rw [hv]; rfl
    simp only [hv, if_true] at this
    omega
  · simp only [hv, if_false] at this
    omega

theorem texts_of_fits {l : List String} (h : principalsSize l < 4294967296) : Texts l (l.flatMap frameStr) := by
  apply texts_of
  intro s hs
  have := le_sum_of_mem (List.mem_map_of_mem (f := fun s : String => 4 + s.utf8ByteSize) hs)
  unfold principalsSize at h
  rw [strBytes_length]
  omega

/-- The certificate that parsing the to-be-signed bytes of `c` yields: plain key types, no comments
on the keys, empty reserved field. -/
def normalCert (c : Certificate) (p pc : KeyType) : Certificate :=
  { c with key := ⟨p, c.key.kind, none⟩, signatureKey := ⟨pc, c.signatureKey.kind, none⟩, reserved := [] }

theorem tbs_wellFormed {c : Certificate} (h : WellFormedCert c) : ∃ p pc tbs, p ∈ keyTypes ∧ pc ∈ keyTypes ∧
    p.name = c.key.keyType.plain ∧ pc.name = c.signatureKey.keyType.plain ∧
    c.tbsCertificate = .ok tbs ∧ BodyExact (normalCert c p pc) tbs := by
  obtain ⟨h1, h2, h3, h4, h5, h6, h7, f1, f2, f3, f4, f5, f6⟩ := h
  obtain ⟨p, hp, p1, p2, p3, p4, p5⟩ := exists_plain h4.1
  obtain ⟨m, hm⟩ := wellFormed_material h4
  obtain ⟨pc, bc, mc, hpc, c1, c2, c3, c4, c5, hmc, hbc, hec, hblob⟩ := encode_wellFormed h5
  have hlen := f6 _ hec
  have htbs := tbs_eq c
  rw [table_certName _ h1 h2, keyMaterial_of hm, hec] at htbs
  simp only [Res.ok_bind, Res.unwrap] at htbs
  refine ⟨p, pc, _, hp, hpc, p1, c1, htbs, ?_⟩
  · refine ⟨h1, h2, hp, p1.trans h3, rfl, rfl, _, _, m, _, _, _, _, _, _, _, _, bc, [], _, c.criticalOptions,
      c.extensions, rfl, frameStr_name h1, Frame.of f1, (KeyMaterial_congr p5 p4 _ _).mpr hm,
      Text.of (by rw [strBytes_length]; exact f2), texts_of_fits f3, Frame.of (by rw [principalsSize_eq]; exact f3),
      optionPairs_of_fits f4, Frame.of (by rw [optionsSize_eq]; exact f4), (insertAll_nil_of_nodup h6).symm,
      optionPairs_of_fits f5, Frame.of (by rw [optionsSize_eq]; exact f5), (insertAll_nil_of_nodup h7).symm,
      Frame.of (by simp [normalCert]), hblob, ?_⟩
    rw [List.append_nil]
    exact Frame.of hlen

theorem accepts_congr {C : Crypto} {k k' : PublicKey} {msg sig : Bytes} (h1 : k.kind = k'.kind)
    (h2 : k.keyType.kind = k'.keyType.kind) : Accepts C k msg sig ↔ Accepts C k' msg sig := by
  unfold Accepts
  rw [h1, h2]

theorem accepts_kind {C : Crypto} {k : PublicKey} {msg sig : Bytes} (h : Accepts C k msg sig) :
    k.keyType.kind = .rsa ∨ k.keyType.kind = .ecdsa ∨ k.keyType.kind = .ed25519 := by
  obtain ⟨label, w1, w2, w3, rest, hs, ht, hv⟩ := h
  cases hk : k.kind <;> rw [hk] at hv
  · exact .inl hv.1
  · exact .inr (.inl hv.1)
  · exact .inr (.inr hv.1)

/-- The body determines the fields. -/
theorem bodyExact_unique {c c' : Certificate} {w w' rest rest' : Bytes} (h : BodyExact c w) (h' : BodyExact c' w')
    (e : w ++ rest = w' ++ rest') : w = w' ∧ rest = rest' ∧
      { c with signature := [], comment := none, serialized := [] } =
      { c' with signature := [], comment := none, serialized := [] } := by
  have := certBody_parses.unique (v := { c with signature := [], comment := none, serialized := [] })
    (v' := { c' with signature := [], comment := none, serialized := [] }) ⟨h, rfl, rfl, rfl⟩ ⟨h', rfl, rfl, rfl⟩ e
  exact ⟨this.2.1, this.2.2, this.1⟩

/-- From the specification of the body to the exact representation. -/
theorem certBody_exact {c : Certificate} {w : Bytes} (h : CertBody c w) : ∃ m m', BodyExact
    { c with criticalOptions := m, extensions := m' } w ∧ SameMap m c.criticalOptions ∧ SameMap m' c.extensions := by
  obtain ⟨h1, h2, h3, h4, h5, h6, wName, wNonce, wKey, wId, pBuf, wPrincipals, cBuf, wCritical, eBuf, wExtensions,
    wReserved, caBlob, caJunk, wCa, critical, extensions, e0, e1, e2, e3, e4, e5, e6, e7, e8, e9, e10, e11, e12, e13,
    e14, e15⟩ := h
  exact ⟨insertAll [] critical, insertAll [] extensions,
    ⟨h1, h2, h3, h4, h5, h6, wName, wNonce, wKey, wId, pBuf, wPrincipals, cBuf, wCritical, eBuf, wExtensions,
      wReserved, caBlob, caJunk, wCa, critical, extensions, e0, e1, e2, e3, e4, e5, e6, e7, e8,
      rfl, e10, e11, rfl, e13, e14, e15⟩,
    fun k => by rw [mapGet_insertAll_nil, e9.2], fun k => by rw [mapGet_insertAll_nil, e12.2]⟩

theorem mapGet_perm {m m' : StrMap} (hn : (m.map (·.1)).Nodup) (h : m.Perm m') : SameMap m m' := by
  have mem_iff : ∀ {l : StrMap}, (l.map (·.1)).Nodup → ∀ k v, mapGet l k = some v ↔ (k, v) ∈ l := by
    intro l
    induction l with
    | nil => simp [mapGet]
    | cons kv l ih =>
      obtain ⟨a, b⟩ := kv
      intro hl k v
      rw [List.map_cons, List.nodup_cons] at hl
      simp only [mapGet]
      by_cases hak : a = k
      · subst hak
        simp only [if_true, Option.some.injEq, List.mem_cons, Prod.mk.injEq, true_and]
        constructor
        · exact fun h => .inl h.symm
        · rintro (h | h)
          · exact h.symm
          · exact absurd (List.mem_map.mpr ⟨_, h, rfl⟩) hl.1
      · simp only [hak, if_false, ih hl.2, List.mem_cons, Prod.mk.injEq]
        constructor
        · exact fun h => .inr h
        · rintro (⟨h, _⟩ | h)
          · exact absurd h.symm hak
          · exact h
  have hn' : (m'.map (·.1)).Nodup := (List.Perm.nodup_iff (h.map Prod.fst)).mp hn
  intro k
  apply Option.ext
  intro v
  rw [mem_iff hn, mem_iff hn', h.mem_iff]

end Ssh
