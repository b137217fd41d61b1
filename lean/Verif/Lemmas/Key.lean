import Verif.Model.PubKey
import Verif.Spec.Key
import Verif.Lemmas.Writer

/-! # Key types and public keys -/

namespace Ssh

open Spec Reader

/-- The chain of tests as a search in a list. -/
def lookupName (n : String) : List KeyType → Res KeyType
  | [] => .err (.unknownKeyType n)
  | kt :: l => if n = kt.name then .ok kt else lookupName n l

theorem fromName_eq_lookup (n : String) : KeyType.fromName n = lookupName n keyTypes := rfl

theorem lookupName_ok {n : String} {kt : KeyType} {l : List KeyType}
    (hl : (l.map (·.name)).Nodup) : lookupName n l = .ok kt ↔ kt ∈ l ∧ kt.name = n := by
  induction l with
  | nil => simp [lookupName]
  | cons a l ih =>
    rw [List.map_cons, List.nodup_cons] at hl
    simp only [lookupName]
    by_cases h : n = a.name
    · rw [if_pos h]
      simp only [Res.ok.injEq]
      constructor
      · rintro rfl; exact ⟨by simp, h.symm⟩
      · rintro ⟨hm, hn⟩
        rcases List.mem_cons.mp hm with rfl | hm
        · rfl
        · exact absurd (List.mem_map.mpr ⟨kt, hm, hn.trans h⟩) hl.1
    · rw [if_neg h, ih hl.2]
      constructor
      · rintro ⟨h1, h2⟩; exact ⟨by simp [h1], h2⟩
      · rintro ⟨hm, hn⟩
        rcases List.mem_cons.mp hm with rfl | hm
        · exact absurd hn.symm h
        · exact ⟨hm, hn⟩

theorem fromName_ok {n : String} {kt : KeyType} :
    KeyType.fromName n = .ok kt ↔ kt ∈ keyTypes ∧ kt.name = n := by
  rw [fromName_eq_lookup]
  exact lookupName_ok (by decide +kernel)

theorem fromName_cases (n : String) :
    (∃ kt, KeyType.fromName n = .ok kt) ∨ KeyType.fromName n = .err (.unknownKeyType n) := by
  rw [fromName_eq_lookup]
  generalize keyTypes = l
  induction l with
  | nil => exact .inr rfl
  | cons a l ih =>
    simp only [lookupName]
    by_cases h : n = a.name
    · rw [if_pos h]; exact .inl ⟨_, rfl⟩
    · rw [if_neg h]; exact ih

theorem fromName_noPanic (n : String) : KeyType.fromName n ≠ .panic := by
  rcases fromName_cases n with ⟨kt, h⟩ | h <;> rw [h] <;> simp

theorem fromIdentifier_ok {n : String} {c : Curve} :
    Curve.fromIdentifier n = .ok c ↔ c ∈ curves ∧ c.identifier = n := by
  constructor
  · intro h
    unfold Curve.fromIdentifier at h
    iterate 3
      split at h
      · rename_i hn
        simp only [Res.ok.injEq] at h
        subst h
        exact ⟨by simp [curves], hn.symm⟩
    cases h
  · rintro ⟨h, rfl⟩
    have : ∀ c ∈ curves, Curve.fromIdentifier c.identifier = .ok c := by decide +kernel
    exact this c h

theorem fromIdentifier_noPanic (n : String) : Curve.fromIdentifier n ≠ .panic := by
  unfold Curve.fromIdentifier
  iterate 3
    split
    · simp
  simp

/-- Facts checked on the whole table. -/
theorem table_plain : ∀ kt ∈ keyTypes, ∃ p ∈ keyTypes, p.name = kt.plain ∧ p.plain = p.name ∧
    p.isCert = false ∧ p.isSk = kt.isSk ∧ family p.kind = family kt.kind := by decide +kernel

theorem table_cert : ∀ kt ∈ keyTypes, ∃ c ∈ keyTypes, kt.asCertName = .ok c.name ∧ c.isCert = true ∧
    c.plain = kt.plain ∧ c.isSk = kt.isSk ∧ family c.kind = family kt.kind := by decide +kernel

theorem table_name_inj : ∀ a ∈ keyTypes, ∀ b ∈ keyTypes, a.name = b.name → a = b := by decide +kernel

theorem table_name_len : ∀ a ∈ keyTypes, a.name.utf8ByteSize < 100 ∧ a.plain.utf8ByteSize < 100 := by
  decide +kernel

/-! ## Reading key material -/

theorem readApplication_parses (sk : Bool) :
    Parses (PublicKey.readApplication sk) (Application sk) := by
  unfold PublicKey.readApplication
  cases sk with
  | false =>
    simp only [Bool.false_eq_true, if_false]
    refine (Parses.pure none).congr ?_
    intro v w
    cases v <;> simp [Application]
  | true =>
    simp only [if_true]
    refine (Parses.bind readString_parses fun a => Parses.pure (some a)).congr ?_
    intro v w
    cases v with
    | none => simp [Application]
    | some s =>
      simp only [Application]
      constructor
      · rintro ⟨a, w1, w2, rfl, h, h2, rfl⟩
        simp only [Option.some.injEq] at h2
        subst h2
        simpa using h
      · intro h
        exact ⟨s, w, [], by simp, h, rfl, rfl⟩

theorem readRsa_parses : Parses (do
    let e ← readPositiveMpint
    let n ← readPositiveMpint
    return PublicKeyKind.rsa e n : Rd PublicKeyKind) (fun v w => ∃ e n, v = .rsa e n ∧
      ∃ w1 w2, w = w1 ++ w2 ∧ Mpint e w1 ∧ Mpint n w2) := by
  refine (Parses.bind readPositiveMpint_parses fun e => Parses.bind readPositiveMpint_parses
    fun n => Parses.pure (PublicKeyKind.rsa e n)).congr ?_
  intro v w
  constructor
  · rintro ⟨e, w1, w2, rfl, h1, n, w3, w4, rfl, h2, rfl, rfl⟩
    exact ⟨e, n, rfl, w1, w3, by simp, h1, h2⟩
  · rintro ⟨e, n, rfl, w1, w2, rfl, h1, h2⟩
    exact ⟨e, w1, w2, rfl, h1, n, w2, [], by simp, h2, rfl, rfl⟩

theorem readEd_parses (sk : Bool) : Parses (do
    let key ← readBytes
    let skApplication ← PublicKey.readApplication sk
    return PublicKeyKind.ed25519 key skApplication : Rd PublicKeyKind)
      (fun v w => ∃ k app, v = .ed25519 k app ∧
        ∃ w1 w2, w = w1 ++ w2 ∧ Frame k w1 ∧ Application sk app w2) := by
  refine (Parses.bind readBytes_parses fun e => Parses.bind (readApplication_parses sk)
    fun n => Parses.pure (PublicKeyKind.ed25519 e n)).congr ?_
  intro v w
  constructor
  · rintro ⟨e, w1, w2, rfl, h1, n, w3, w4, rfl, h2, rfl, rfl⟩
    exact ⟨e, n, rfl, w1, w3, by simp, h1, h2⟩
  · rintro ⟨e, n, rfl, w1, w2, rfl, h1, h2⟩
    exact ⟨e, w1, w2, rfl, h1, n, w2, [], by simp, h2, rfl, rfl⟩

theorem readEcdsa_parses (sk : Bool) : Parses (do
    let identifier ← readString
    let curve ← Rd.lift (Curve.fromIdentifier identifier)
    let key ← readBytes
    let skApplication ← PublicKey.readApplication sk
    return PublicKeyKind.ecdsa curve key skApplication : Rd PublicKeyKind)
      (fun v w => ∃ c k app, v = .ecdsa c k app ∧ c ∈ curves ∧
        ∃ w1 w2 w3, w = w1 ++ (w2 ++ w3) ∧ Text c.identifier w1 ∧ Frame k w2 ∧ Application sk app w3) := by
  refine (Parses.bind readString_parses fun i => Parses.bind (Parses.lift _) fun c =>
    Parses.bind readBytes_parses fun e => Parses.bind (readApplication_parses sk)
    fun n => Parses.pure (PublicKeyKind.ecdsa c e n)).congr ?_
  intro v w
  constructor
  · rintro ⟨i, w1, w2, rfl, h1, c, w3, w4, rfl, ⟨h2, rfl⟩, k, w5, w6, rfl, h3, app, w7, w8, rfl, h4, rfl, rfl⟩
    obtain ⟨h5, rfl⟩ := fromIdentifier_ok.mp h2
    exact ⟨c, k, app, rfl, h5, w1, w5, w7, by simp, h1, h3, h4⟩
  · rintro ⟨c, k, app, rfl, h5, w1, w5, w7, rfl, h1, h3, h4⟩
    exact ⟨c.identifier, w1, w5 ++ w7, by simp, h1, c, [], w5 ++ w7, by simp,
      ⟨fromIdentifier_ok.mpr ⟨h5, rfl⟩, rfl⟩, k, w5, w7, rfl, h3, app, w7, [], by simp, h4, rfl, rfl⟩

theorem readKind_parses (kt : KeyType) : Parses (PublicKey.readKind kt) (KeyMaterial kt) := by
  unfold PublicKey.readKind
  cases hk : kt.kind with
  | rsa | rsaCert =>
    refine readRsa_parses.congr ?_
    intro v w
    cases v
    · simp only [KeyMaterial, hk, family, true_and]
      exact ⟨by rintro ⟨e, n, h, h'⟩; cases h; exact h', fun h => ⟨_, _, rfl, h⟩⟩
    · simp [KeyMaterial, hk, family]
    · simp [KeyMaterial, hk, family]
  | ecdsa | ecdsaCert =>
    refine (readEcdsa_parses kt.isSk).congr ?_
    intro v w
    cases v
    · simp [KeyMaterial, hk, family]
    · simp only [KeyMaterial, hk, family, true_and]
      exact ⟨by rintro ⟨e, n, _, h, h'⟩; cases h; exact h', fun h => ⟨_, _, _, rfl, h⟩⟩
    · simp [KeyMaterial, hk, family]
  | ed25519 | ed25519Cert =>
    refine (readEd_parses kt.isSk).congr ?_
    intro v w
    cases v
    · simp [KeyMaterial, hk, family]
    · simp [KeyMaterial, hk, family]
    · simp only [KeyMaterial, hk, family, true_and]
      exact ⟨by rintro ⟨e, n, h, h'⟩; cases h; exact h', fun h => ⟨_, _, rfl, h⟩⟩

/-! ## No panics -/

theorem Rd.noPanic_bind {α β : Type} {m : Rd α} {f : α → Rd β} (hm : ∀ r, (m r).1 ≠ .panic)
    (hf : ∀ a r, (f a r).1 ≠ .panic) (r : Reader) : ((m >>= f) r).1 ≠ .panic := by
  rw [Ne, Rd.bind_panic]
  rintro (h | ⟨a, r', _, h⟩)
  · exact hm r h
  · exact hf a r' h

theorem Rd.noPanic_pure {α : Type} (a : α) (r : Reader) : ((Pure.pure a : Rd α) r).1 ≠ .panic := by
  simp [Rd.pure_eq]

theorem Rd.noPanic_lift {α : Type} {x : Res α} (h : x ≠ .panic) (r : Reader) :
    (Rd.lift x r).1 ≠ .panic := h

theorem readApplication_noPanic (sk : Bool) (r : Reader) :
    (PublicKey.readApplication sk r).1 ≠ .panic := by
  unfold PublicKey.readApplication
  cases sk
  · exact Rd.noPanic_pure _ r
  · exact Rd.noPanic_bind readString_noPanic (fun _ => Rd.noPanic_pure _) r

theorem readKind_noPanic (kt : KeyType) (r : Reader) : (PublicKey.readKind kt r).1 ≠ .panic := by
  unfold PublicKey.readKind
  cases kt.kind with
  | rsa | rsaCert =>
    exact Rd.noPanic_bind readPositiveMpint_noPanic (fun _ =>
      Rd.noPanic_bind readPositiveMpint_noPanic fun _ => Rd.noPanic_pure _) r
  | ecdsa | ecdsaCert =>
    exact Rd.noPanic_bind readString_noPanic (fun _ =>
      Rd.noPanic_bind (Rd.noPanic_lift (fromIdentifier_noPanic _)) fun _ =>
      Rd.noPanic_bind readBytes_noPanic fun _ =>
      Rd.noPanic_bind (readApplication_noPanic _) fun _ => Rd.noPanic_pure _) r
  | ed25519 | ed25519Cert =>
    exact Rd.noPanic_bind readBytes_noPanic (fun _ =>
      Rd.noPanic_bind (readApplication_noPanic _) fun _ => Rd.noPanic_pure _) r

theorem fromReader_noPanic (n : String) (r : Reader) : (PublicKey.fromReader n r).1 ≠ .panic :=
  Rd.noPanic_bind (Rd.noPanic_lift (fromName_noPanic _)) (fun _ =>
    Rd.noPanic_bind (readKind_noPanic _) fun _ => Rd.noPanic_pure _) r

theorem fromBytes_noPanic (data : Bytes) : PublicKey.fromBytes data ≠ .panic :=
  Rd.noPanic_bind readString_noPanic (fun _ => fromReader_noPanic _) _

/-! ## Whole keys -/

theorem fromReader_parses (n : String) : Parses (PublicKey.fromReader n)
    (fun k w => k.keyType ∈ keyTypes ∧ k.keyType.name = n ∧ k.comment = none ∧
      KeyMaterial k.keyType k.kind w) := by
  unfold PublicKey.fromReader
  refine (Parses.bind (Parses.lift _) fun kt => Parses.bind (readKind_parses kt)
    fun kind => Parses.pure (⟨kt, kind, none⟩ : PublicKey)).congr ?_
  intro k w
  constructor
  · rintro ⟨kt, w1, w2, rfl, ⟨h1, rfl⟩, kind, w3, w4, rfl, h2, rfl, rfl⟩
    obtain ⟨h3, rfl⟩ := fromName_ok.mp h1
    exact ⟨h3, rfl, rfl, by simpa using h2⟩
  · rintro ⟨h1, rfl, h2, h3⟩
    obtain ⟨kt, kind, comment⟩ := k
    simp only at h1 h2 h3
    subst h2
    exact ⟨kt, [], w, by simp, ⟨fromName_ok.mpr ⟨h1, rfl⟩, rfl⟩, kind, w, [], by simp, h3, rfl, rfl⟩

theorem keyBlob_parses : Parses (readString >>= fun n => PublicKey.fromReader n)
    (fun k w => KeyBlob k w ∧ k.comment = none) := by
  refine (Parses.bind readString_parses fun n => fromReader_parses n).congr ?_
  intro k w
  constructor
  · rintro ⟨n, w1, w2, rfl, h1, h2, rfl, h3, h4⟩
    exact ⟨⟨h2, w1, w2, rfl, h1, h4⟩, h3⟩
  · rintro ⟨⟨h2, w1, w2, rfl, h1, h4⟩, h3⟩
    exact ⟨_, w1, w2, rfl, h1, h2, rfl, h3, h4⟩

theorem fromBytes_ok {data : Bytes} {k : PublicKey} : PublicKey.fromBytes data = .ok k ↔
    ∃ w rest, data = w ++ rest ∧ KeyBlob k w ∧ k.comment = none :=
  keyBlob_parses.new

/-! ## Writing key material -/

/-- The bytes written after the type name; `none` for the missing-application panic. -/
def keyMaterial (isSk : Bool) : PublicKeyKind → Option Bytes
  | .rsa e n => some (frameMpint e ++ frameMpint n)
  | .ecdsa c k app =>
    if isSk then app.map fun a => frameStr c.identifier ++ (frame k ++ frameStr a)
    else some (frameStr c.identifier ++ frame k)
  | .ed25519 k app =>
    if isSk then app.map fun a => frame k ++ frameStr a else some (frame k)

theorem writePubKeyData_eq (w : Writer) (k : PublicKey) :
    w.writePubKeyData k = (Res.unwrap (keyMaterial k.keyType.isSk k.kind)) >>= fun b =>
      .ok ⟨w.inner ++ b⟩ := by
  have inner_ext : ∀ {a : Writer} {b : Bytes}, a.inner = b → a = ⟨b⟩ := by
    intro a b h; cases a; simp at h; simp [h]
  unfold Writer.writePubKeyData keyMaterial
  cases k.kind with
  | rsa e n => simp [Res.unwrap]; exact inner_ext (by simp)
  | ecdsa c key app =>
    simp only
    by_cases h : k.keyType.isSk
    · cases app with
      | none => simp [h, Res.unwrap]
      | some a => simp [h, Res.unwrap]; exact inner_ext (by simp)
    · simp [h, Res.unwrap]; exact inner_ext (by simp)
  | ed25519 key app =>
    simp only
    by_cases h : k.keyType.isSk
    · cases app with
      | none => simp [h, Res.unwrap]
      | some a => simp [h, Res.unwrap]; exact inner_ext (by simp)
    · simp [h, Res.unwrap]; exact inner_ext (by simp)

theorem encode_eq (k : PublicKey) :
    k.encode = (Res.unwrap (keyMaterial k.keyType.isSk k.kind)) >>= fun b =>
      .ok (frameStr k.keyType.plain ++ b) := by
  unfold PublicKey.encode keyMaterial
  cases k.kind with
  | rsa e n => simp [Res.unwrap]
  | ecdsa c key app =>
    simp only
    by_cases h : k.keyType.isSk
    · cases app with
      | none => simp [h, Res.unwrap]
      | some a => simp [h, Res.unwrap]
    · simp [h, Res.unwrap]
  | ed25519 key app =>
    simp only
    by_cases h : k.keyType.isSk
    · cases app with
      | none => simp [h, Res.unwrap]
      | some a => simp [h, Res.unwrap]
    · simp [h, Res.unwrap]

theorem writePubKey_eq (w : Writer) (k : PublicKey) :
    w.writePubKey k = (Res.unwrap (keyMaterial k.keyType.isSk k.kind)) >>= fun b =>
      .ok (w.writeBytes (frameStr k.keyType.name ++ b)) := by
  unfold Writer.writePubKey
  dsimp only
  rw [writePubKeyData_eq]
  cases keyMaterial k.keyType.isSk k.kind <;> simp [Res.unwrap]

theorem application_eq {sk : Bool} {app : Option String} {w : Bytes} (h : Application sk app w) :
    (sk = false ∧ app = none ∧ w = []) ∨ (sk = true ∧ ∃ a, app = some a ∧ w = frameStr a ∧ Text a w) := by
  cases sk <;> cases app <;> simp only [Application] at h
  · exact .inl ⟨rfl, rfl, h⟩
  · exact .inr ⟨rfl, _, rfl, h.eq, h⟩

/-- The encoding is determined by the key. -/
theorem keyMaterial_of {kt : KeyType} {kind : PublicKeyKind} {w : Bytes} (h : KeyMaterial kt kind w) :
    keyMaterial kt.isSk kind = some w := by
  cases kind with
  | rsa e n =>
    obtain ⟨_, w1, w2, rfl, h1, h2⟩ := h
    simp [keyMaterial, (mpint_eq h1).1, (mpint_eq h2).1]
  | ecdsa c key app =>
    obtain ⟨_, _, w1, w2, w3, rfl, h1, h2, h3⟩ := h
    rcases application_eq h3 with ⟨hs, rfl, rfl⟩ | ⟨hs, a, rfl, rfl, _⟩
    · simp [keyMaterial, hs, h1.eq, h2.eq]
    · simp [keyMaterial, hs, h1.eq, h2.eq]
  | ed25519 key app =>
    obtain ⟨_, w1, w2, rfl, h1, h2⟩ := h
    rcases application_eq h2 with ⟨hs, rfl, rfl⟩ | ⟨hs, a, rfl, rfl, _⟩
    · simp [keyMaterial, hs, h1.eq]
    · simp [keyMaterial, hs, h1.eq]

/-- Key material depends on the family and the hardware flag of the type only. -/
theorem KeyMaterial_congr {kt kt' : KeyType} (hf : family kt.kind = family kt'.kind)
    (hs : kt.isSk = kt'.isSk) (kind : PublicKeyKind) (w : Bytes) :
    KeyMaterial kt kind w ↔ KeyMaterial kt' kind w := by
  cases kind <;> simp only [KeyMaterial, hf, hs]

theorem appOk_application {sk : Bool} {app : Option String} (h : AppOk sk app) :
    ∃ w, Application sk app w := by
  cases app with
  | none => simp only [AppOk] at h; subst h; exact ⟨[], rfl⟩
  | some a =>
    simp only [AppOk] at h
    obtain ⟨rfl, h⟩ := h
    exact ⟨frameStr a, Text.of (by rw [strBytes_length]; exact h)⟩

theorem curves_small : ∀ c ∈ curves, c.identifier.utf8ByteSize < 100 := by decide +kernel

theorem mpintPayload_length {v : Bytes} (h : Shortest v) :
    (mpintPayload v).length = v.length + (if 0x80 ≤ v.headD 0 then 1 else 0) := by
  unfold mpintPayload
  rw [stripZeros_of_shortest h]
  cases v with
  | nil => rfl
  | cons b bs =>
    by_cases hb : 0x80 ≤ b <;> simp [hb]

theorem fitsMpint_mpint {v : Bytes} : FitsMpint v ↔ ∃ w, Mpint v w := by
  constructor
  · intro h
    exact ⟨_, mpint_iff.mpr ⟨h.1, by rw [mpintPayload_length h.1]; exact h.2, rfl⟩⟩
  · rintro ⟨w, h⟩
    obtain ⟨h1, h2, _⟩ := mpint_iff.mp h
    exact ⟨h1, by rw [← mpintPayload_length h1]; exact h2⟩

theorem application_appOk {sk : Bool} {app : Option String} {w : Bytes} (h : Application sk app w) :
    AppOk sk app := by
  rcases application_eq h with ⟨rfl, rfl, _⟩ | ⟨rfl, a, rfl, _, ht⟩
  · rfl
  · exact ⟨rfl, by rw [← strBytes_length]; exact ht.lt⟩

theorem material_wellFormed {k : PublicKey} {w : Bytes} (hk : k.keyType ∈ keyTypes)
    (h : KeyMaterial k.keyType k.kind w) : WellFormedKey k := by
  obtain ⟨kt, kind, c⟩ := k
  refine ⟨hk, ?_⟩
  cases kind with
  | rsa e n =>
    obtain ⟨h0, w1, w2, rfl, h1, h2⟩ := h
    exact ⟨h0, fitsMpint_mpint.mpr ⟨_, h1⟩, fitsMpint_mpint.mpr ⟨_, h2⟩⟩
  | ecdsa c key app =>
    obtain ⟨h0, hc, w1, w2, w3, rfl, h1, h2, h3⟩ := h
    exact ⟨h0, hc, h2.1, application_appOk h3⟩
  | ed25519 key app =>
    obtain ⟨h0, w1, w2, rfl, h1, h2⟩ := h
    exact ⟨h0, h1.1, application_appOk h2⟩

theorem wellFormed_material {k : PublicKey} (h : WellFormedKey k) :
    ∃ w, KeyMaterial k.keyType k.kind w := by
  obtain ⟨kt, kind, c⟩ := k
  obtain ⟨_, h⟩ := h
  cases kind with
  | rsa e n =>
    simp only at h
    obtain ⟨w1, h1⟩ := fitsMpint_mpint.mp h.2.1
    obtain ⟨w2, h2⟩ := fitsMpint_mpint.mp h.2.2
    exact ⟨_, h.1, _, _, rfl, h1, h2⟩
  | ecdsa c key app =>
    simp only at h
    obtain ⟨h1, h2, h3, h4⟩ := h
    obtain ⟨w, hw⟩ := appOk_application h4
    have := curves_small c h2
    exact ⟨_, h1, h2, _, _, w, rfl, Text.of (by rw [strBytes_length]; omega), Frame.of h3, hw⟩
  | ed25519 key app =>
    simp only at h
    obtain ⟨h1, h3, h4⟩ := h
    obtain ⟨w, hw⟩ := appOk_application h4
    exact ⟨_, h1, _, w, rfl, Frame.of h3, hw⟩

theorem wellFormed_iff {k : PublicKey} :
    WellFormedKey k ↔ k.keyType ∈ keyTypes ∧ ∃ w, KeyMaterial k.keyType k.kind w :=
  ⟨fun h => ⟨h.1, wellFormed_material h⟩, fun ⟨h1, _, h2⟩ => material_wellFormed h1 h2⟩

theorem frameStr_name {kt : KeyType} (h : kt ∈ keyTypes) : Text kt.name (frameStr kt.name) :=
  Text.of (by rw [strBytes_length]; have := table_name_len kt h; omega)

theorem frameStr_plain {kt : KeyType} (h : kt ∈ keyTypes) : Text kt.plain (frameStr kt.plain) :=
  Text.of (by rw [strBytes_length]; have := table_name_len kt h; omega)

/-- The key with the plain type of its type and without comment. -/
theorem exists_plain {kt : KeyType} (h : kt ∈ keyTypes) : ∃ p ∈ keyTypes, p.name = kt.plain ∧
    p.plain = kt.plain ∧ p.isCert = false ∧ p.isSk = kt.isSk ∧ family p.kind = family kt.kind := by
  obtain ⟨p, hp, h1, h2, h3, h4, h5⟩ := table_plain kt h
  exact ⟨p, hp, h1, by rw [h2, h1], h3, h4, h5⟩

/-- What encoding a well-formed key produces. -/
theorem encode_wellFormed {k : PublicKey} (h : WellFormedKey k) : ∃ p b m, p ∈ keyTypes ∧
    p.name = k.keyType.plain ∧ p.plain = k.keyType.plain ∧ p.isCert = false ∧
    p.isSk = k.keyType.isSk ∧ family p.kind = family k.keyType.kind ∧
    KeyMaterial k.keyType k.kind m ∧ b = frameStr k.keyType.plain ++ m ∧
    k.encode = .ok b ∧ KeyBlob ⟨p, k.kind, none⟩ b := by
  obtain ⟨p, hp, h1, h2, h3, h4, h5⟩ := exists_plain h.1
  obtain ⟨m, hm⟩ := wellFormed_material h
  refine ⟨p, frameStr k.keyType.plain ++ m, m, hp, h1, h2, h3, h4, h5, hm, rfl, ?_, hp, ?_⟩
  · rw [encode_eq, keyMaterial_of hm]; simp [Res.unwrap]
  · exact ⟨_, m, rfl, h1 ▸ frameStr_plain h.1, (KeyMaterial_congr h5 h4 _ _).mpr hm⟩

end Ssh
