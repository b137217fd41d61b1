import Verif.Spec.PivReasons
import Verif.Props.Piv
import Verif.Lemmas.Reasons

/-! # C129: which defect of X.509 keys and PIV attestations is reported as which error -/

namespace Ssh

open Spec

theorem ec_oid_known {oid : String} (point : Bytes) : (∃ k, EcKeyOf oid point k) ↔ oid ∈ ecOids.map Prod.fst := by
  constructor
  · rintro ⟨k, name, curve, hm, _⟩
    exact List.mem_map.mpr ⟨_, hm, rfl⟩
  · intro h
    have t1 : ∃ t ∈ keyTypes, t.name = "ecdsa-sha2-nistp256" := by decide +kernel
    have t2 : ∃ t ∈ keyTypes, t.name = "ecdsa-sha2-nistp384" := by decide +kernel
    obtain ⟨⟨o, name, curve⟩, hm, rfl⟩ := List.mem_map.mp h
    rcases List.mem_cons.mp hm with h | h
    · cases h
      obtain ⟨t, ht, hn⟩ := t1
      exact ⟨⟨t, .ecdsa _ point none, none⟩, _, _, hm, hn, ht, rfl, rfl⟩
    rcases List.mem_cons.mp h with h | h
    · cases h
      obtain ⟨t, ht, hn⟩ := t2
      exact ⟨⟨t, .ecdsa _ point none, none⟩, _, _, hm, hn, ht, rfl, rfl⟩
    · cases h

theorem ecdsaKeyOfOid_err {oid : String} {point : Bytes} {e : Err} :
    ecdsaKeyOfOid oid point = .err e ↔ e = .keyTypeMismatch ∧ oid ∉ ecOids.map Prod.fst := by
  rw [← ec_oid_known point]
  simp only [← ecdsaKeyOfOid_ok]
  rcases ecdsaKeyOfOid_cases oid point with ⟨k, h⟩ | h
  · rw [h]
    exact ⟨nofun, fun ⟨_, hn⟩ => absurd ⟨k, rfl⟩ hn⟩
  · rw [h, err_iff]
    exact ⟨fun e => ⟨e, nofun⟩, fun ⟨e, _⟩ => e⟩

theorem convertPki_err {i : Spki} {e : Err} : convertPki i = .err e ↔ KeyInfoFault i e := by
  have n : "1.2.840.10045.2.1" ≠ "1.2.840.113549.1.1.1" := by decide
  unfold convertPki
  by_cases h1 : i.algorithm = "1.2.840.113549.1.1.1"
  · rw [if_pos h1, err_iff]
    constructor
    · rintro rfl; exact .rsa h1
    · intro h
      cases h with
      | rsa => rfl
      | other hn => exact absurd h1 hn
      | curve oid ho => exact absurd (ho.1.symm.trans h1) n
  rw [if_neg h1]
  by_cases h2 : i.algorithm = "1.2.840.10045.2.1"
  · rw [if_pos h2]
    cases hp : i.parameters with
    | none =>
      simp only [Res.ofOption, Res.err_bind]
      rw [err_iff]
      constructor
      · rintro rfl
        exact .other h1 fun oid ho => by have := ho.2; rw [hp] at this; cases this
      · intro h
        cases h with
        | rsa h => exact absurd h h1
        | other => rfl
        | curve oid ho => have := ho.2; rw [hp] at this; cases this
    | some p =>
      cases p with
      | none =>
        simp only [Res.ofOption, Res.err_bind, Res.ok_bind]
        rw [err_iff]
        constructor
        · rintro rfl
          exact .other h1 fun oid ho => by have := ho.2; rw [hp] at this; cases this
        · intro h
          cases h with
          | rsa h => exact absurd h h1
          | other => rfl
          | curve oid ho => have := ho.2; rw [hp] at this; cases this
      | some oid =>
        simp only [Res.ofOption, Res.ok_bind]
        rw [ecdsaKeyOfOid_err]
        constructor
        · rintro ⟨rfl, hn⟩
          exact .curve oid ⟨h2, hp⟩ hn
        · intro h
          cases h with
          | rsa h => exact absurd h h1
          | other _ hn => exact absurd ⟨h2, hp⟩ (hn oid)
          | curve oid' ho hn =>
            have := ho.2
            rw [hp] at this
            cases this
            exact ⟨rfl, hn⟩
  · rw [if_neg h2, err_iff]
    constructor
    · rintro rfl; exact .other h1 fun oid ho => h2 ho.1
    · intro h
      cases h with
      | rsa h => exact absurd h h1
      | other => rfl
      | curve oid ho => exact absurd ho.1 h2

/-- C129: a certificate is refused as a source of a key with the error `e` exactly if it is unreadable, its key is RSA, of another
kind or on another curve, and `e` says which. -/
theorem C129_certificate (X : X509Env) (cert : Bytes) (e : Err) :
    pubkeyFromX509Certificate X cert = .err e ↔ ParsedFault ((X.parseDer cert).map (·.spki)) e := by
  unfold pubkeyFromX509Certificate
  cases X.parseDer cert with
  | none =>
    dsimp only [Option.map]
    rw [err_iff]
    exact ⟨fun h => h ▸ .unreadable, fun h => by cases h; rfl⟩
  | some c =>
    dsimp only [Option.map]
    rw [convertPki_err]
    exact ⟨.key _ _, fun h => by cases h; assumption⟩

/-- C129: the same for certificate requests. -/
theorem C129_csr (X : X509Env) (csr : Bytes) (e : Err) :
    pubkeyFromX509Csr X csr = .err e ↔ ParsedFault (X.parseCsr csr) e := by
  unfold pubkeyFromX509Csr
  cases X.parseCsr csr with
  | none =>
    dsimp only
    rw [err_iff]
    exact ⟨fun h => h ▸ .unreadable, fun h => by cases h; rfl⟩
  | some c =>
    dsimp only
    rw [convertPki_err]
    exact ⟨.key _ _, fun h => by cases h; assumption⟩

theorem derEncoding_err {X : X509Env} {key : Bytes} {e : Err} (h : derEncodingToSshPublicKey X key = .err e) :
    e = .parsingError ∨ e = .keyTypeMismatch ∧ ∃ o oid point, X.derSequence key = some o ∧ EcDer oid point o ∧ oid ∉ ecOids.map Prod.fst := by
  unfold derEncodingToSshPublicKey at h
  cases hd : X.derSequence key with
  | none => rw [hd] at h; exact .inl (err_iff.mp h)
  | some o =>
    rw [hd] at h
    simp only [Res.ofOption, Res.ok_bind] at h
    cases o with
    | oid _ => exact .inl (err_iff.mp h)
    | bitString _ => exact .inl (err_iff.mp h)
    | other => exact .inl (err_iff.mp h)
    | seq l =>
      simp only [DerObj.asSeq, Res.ok_bind] at h
      match l with
      | [] => exact .inl (err_iff.mp h)
      | [_] => exact .inl (err_iff.mp h)
      | _ :: _ :: _ :: _ => rw [if_pos (by simp)] at h; exact .inl (err_iff.mp h)
      | [p0, p1] =>
        rw [if_neg (by simp)] at h
        simp only [index, List.getElem?_cons_zero, List.getElem?_cons_succ, Res.unwrap, Res.ok_bind] at h
        cases p0 with
        | oid _ => exact .inl (err_iff.mp h)
        | bitString _ => exact .inl (err_iff.mp h)
        | other => exact .inl (err_iff.mp h)
        | seq os =>
          simp only [Res.ok_bind] at h
          match os with
          | [] => exact .inl (err_iff.mp h)
          | [_] => exact .inl (err_iff.mp h)
          | _ :: _ :: _ :: _ => rw [if_pos (by simp)] at h; exact .inl (err_iff.mp h)
          | [o0, o1] =>
            rw [if_neg (by simp)] at h
            simp only [List.getElem?_cons_zero, List.getElem?_cons_succ, Res.ok_bind] at h
            cases o0 with
            | seq _ => exact .inl (err_iff.mp h)
            | bitString _ => exact .inl (err_iff.mp h)
            | other => exact .inl (err_iff.mp h)
            | oid t =>
              cases o1 with
              | seq _ => exact .inl (err_iff.mp h)
              | bitString _ => exact .inl (err_iff.mp h)
              | other => exact .inl (err_iff.mp h)
              | oid sz =>
                simp only [DerObj.asOid, Res.ok_bind] at h
                by_cases ht : t = "1.2.840.10045.2.1"
                · rw [if_neg (not_not_intro ht)] at h
                  cases p1 with
                  | seq _ => exact .inl (err_iff.mp h)
                  | oid _ => exact .inl (err_iff.mp h)
                  | other => exact .inl (err_iff.mp h)
                  | bitString d =>
                    obtain ⟨h1, h2⟩ := ecdsaKeyOfOid_err.mp h
                    exact .inr ⟨h1, _, sz, d, rfl, by rw [ht, EcDer], h2⟩
                · rw [if_pos ht] at h
                  exact .inl (err_iff.mp h)

/-- C129: the same for DER encoded keys. -/
theorem C129_der (X : X509Env) (key : Bytes) (e : Err) :
    derEncodingToSshPublicKey X key = .err e ↔ DerFault (X.derSequence key) e := by
  have hk : ∀ o oid point, X.derSequence key = some o → EcDer oid point o → derEncodingToSshPublicKey X key = ecdsaKeyOfOid oid point := by
    intro o oid point hd ho
    unfold derEncodingToSshPublicKey EcDer at *
    rw [hd, ho]
    rfl
  constructor
  · intro h
    rcases derEncoding_err h with rfl | ⟨rfl, o, oid, point, h1, h2, h3⟩
    · cases hd : X.derSequence key with
      | none => exact .unreadable
      | some o =>
        refine .form o fun oid point ho => ?_
        rw [hk o oid point hd ho, ecdsaKeyOfOid_err] at h
        cases h.1
    · rw [h1]; exact .curve o oid point h2 h3
  · intro h
    generalize hd : X.derSequence key = d at h
    cases h with
    | unreadable => unfold derEncodingToSshPublicKey; rw [hd]; rfl
    | form o hn =>
      cases hr : derEncodingToSshPublicKey X key with
      | panic => exact absurd hr (derEncoding_noPanic X key)
      | ok k =>
        obtain ⟨o', oid, point, h1, h2, _⟩ := derEncoding_ok.mp hr
        rw [hd] at h1
        cases h1
        exact absurd h2 (hn oid point)
      | err e =>
        rcases derEncoding_err hr with rfl | ⟨_, o', oid, point, h1, h2, _⟩
        · rfl
        · rw [hd] at h1
          cases h1
          exact absurd h2 (hn oid point)
    | curve o oid point ho hn =>
      rw [hk o oid point hd ho, ecdsaKeyOfOid_err]
      exact ⟨rfl, hn⟩

/-! ## Attestations -/

theorem policy_serial (X : X509Env) (e : String × Bytes) : PolicyReadable e ∨ SerialReadable X e := by
  by_cases h : e.1 = "1.3.6.1.4.1.41482.3.8"
  · right
    intro h'
    rw [h] at h'
    exact absurd h' (by decide)
  · left
    intro h'
    exact absurd h' h

theorem pivFold_err (X : X509Env) (x : Err) (es : List (String × Bytes)) : ∀ v, es.foldlM (pivExtension X) v = .err x ↔
    x = .parsingError ∧
      ∃ pre e post, es = pre ++ e :: post ∧ (∀ x ∈ pre, SerialReadable X x ∧ PolicyReadable x) ∧ ¬ SerialReadable X e := by
  induction es with
  | nil => intro v; simp
  | cons e es ih =>
    intro v
    rw [List.foldlM_cons]
    obtain ⟨h1, h2, h3⟩ := pivExtension_eq X v e
    by_cases hp : PolicyReadable e
    · by_cases hs : SerialReadable X e
      · rw [h3 hp hs]
        show es.foldlM (pivExtension X) (pivApply X v e) = _ ↔ _
        rw [ih]
        constructor
        · rintro ⟨rfl, pre, y, post, rfl, ha, hn⟩
          refine ⟨rfl, e :: pre, y, post, rfl, ?_, hn⟩
          intro z hz
          rcases List.mem_cons.mp hz with rfl | hz
          · exact ⟨hs, hp⟩
          · exact ha z hz
        · rintro ⟨rfl, pre, y, post, he, ha, hn⟩
          refine ⟨rfl, ?_⟩
          cases pre with
          | nil => simp only [List.nil_append, List.cons.injEq] at he; rw [he.1] at hs; exact absurd hs hn
          | cons z pre =>
            simp only [List.cons_append, List.cons.injEq] at he
            exact ⟨pre, y, post, he.2, fun w hw => ha w (List.mem_cons_of_mem _ hw), hn⟩
      · rw [h2 hp hs]
        show Res.err _ = _ ↔ _
        rw [err_iff]
        constructor
        · rintro rfl; exact ⟨rfl, [], e, es, rfl, nofun, hs⟩
        · exact And.left
    · rw [h1 hp]
      show Res.panic = _ ↔ _
      refine ⟨nofun, ?_⟩
      rintro ⟨_, pre, y, post, he, ha, hn⟩
      exfalso
      cases pre with
      | nil =>
        simp only [List.nil_append, List.cons.injEq] at he
        rw [← he.1] at hn
        rcases policy_serial X e with h | h
        · exact hp h
        · exact hn h
      | cons z pre =>
        simp only [List.cons_append, List.cons.injEq] at he
        rw [he.1] at hp
        exact hp (ha z (by simp)).2

theorem getLast?_none_iff {α : Type} {l : List α} : l.getLast? = none ↔ l = [] := List.getLast?_eq_none_iff

theorem pivExtensions_err {X : X509Env} {k : PublicKey} {c : X509Cert} {e : Err} :
    pivExtensions X k c = .err e ↔ e = .parsingError ∧ ExtensionFault X c.extensions := by
  unfold pivExtensions ExtensionFault
  cases hf : c.extensions.foldlM (pivExtension X) ⟨none, none, none⟩ with
  | err x =>
    obtain ⟨rfl, hx⟩ := (pivFold_err X x c.extensions _).mp hf
    show Res.err _ = _ ↔ _
    rw [err_iff]
    exact ⟨fun h => ⟨h, .inl hx⟩, And.left⟩
  | panic =>
    show Res.panic = _ ↔ _
    refine ⟨nofun, ?_⟩
    rintro ⟨_, h | ⟨h, _⟩⟩
    · rw [(pivFold_err X _ c.extensions _).mpr ⟨rfl, h⟩] at hf; cases hf
    · rw [(pivFold_ok X c.extensions _ _).mpr ⟨h, rfl⟩] at hf; cases hf
  | ok v =>
    obtain ⟨hall, hv⟩ := (pivFold_ok X c.extensions _ _).mp hf
    rw [pivApply_fold] at hv
    simp only [Option.or_none] at hv
    subst hv
    have nf : ¬ ∃ pre e post, c.extensions = pre ++ e :: post ∧ (∀ x ∈ pre, SerialReadable X x ∧ PolicyReadable x) ∧ ¬ SerialReadable X e := by
      intro h
      rw [(pivFold_err X _ c.extensions _).mpr ⟨rfl, h⟩] at hf
      cases hf
    rw [eq_false nf, eq_true hall, false_or, true_and]
    simp only [Res.ok_bind]
    rw [← getLast?_none_iff (l := c.extensions.filterMap pivFirmware), ← getLast?_none_iff (l := c.extensions.filterMap (pivSerial X)),
      ← getLast?_none_iff (l := c.extensions.filterMap pivPolicies)]
    cases (c.extensions.filterMap pivFirmware).getLast? <;> cases (c.extensions.filterMap (pivSerial X)).getLast? <;>
      cases (c.extensions.filterMap pivPolicies).getLast? <;>
      simp [eq_comm]

/-- C129: an attestation is refused with the error `e` exactly if it has, under a readable root, a defect called `e`: unreadable
certificates, then the signatures, then the key, then the extensions. -/
theorem C129_attestation (X : X509Env) (yubicoRoot : String) (client intermediate : Bytes) (rootPem : Option String) (e : Err) :
    verifyCertificateChain X yubicoRoot client intermediate rootPem = .err e ↔
    AttestFault X (X.parsePem (rootPem.getD yubicoRoot)) (X.parseDer intermediate) (X.parseDer client) e := by
  unfold verifyCertificateChain
  cases X.parsePem (rootPem.getD yubicoRoot) with
  | none => exact ⟨nofun, nofun⟩
  | some r =>
    simp only [Res.unwrap, Res.ok_bind]
    cases X.parseDer intermediate with
    | none =>
      simp only [Res.ofOption, Res.err_bind]
      rw [err_iff]
      exact ⟨fun h => h ▸ .intermediate r _, fun h => by cases h; rfl⟩
    | some i =>
      simp only [Res.ofOption, Res.ok_bind]
      cases hc : X.parseDer client with
      | none =>
        simp only [Res.err_bind]
        rw [err_iff]
        exact ⟨fun h => h ▸ .client r i, fun h => by cases h; rfl⟩
      | some c =>
        simp only [Res.ok_bind]
        by_cases h1 : X.verify i r.spki = true
        · rw [if_neg (not_not_intro h1)]
          by_cases h2 : X.verify c i.spki = true
          · rw [if_neg (not_not_intro h2)]
            cases hk : pubkeyFromX509Certificate X client with
            | panic => exact absurd hk (pubkeyFromX509Certificate_noPanic X client)
            | err x =>
              have hx : KeyInfoFault c.spki x := by
                have := (C129_certificate X client x).mp hk
                rw [hc] at this
                cases this
                assumption
              simp only [Res.mapErr, Res.err_bind]
              rw [err_iff]
              constructor
              · rintro rfl; exact .key r i c x h1 h2 hx
              · intro h
                cases h with
                | signature _ _ _ hn => exact absurd ⟨h1, h2⟩ hn
                | key => rfl
                | extensions => rfl
            | ok k =>
              have hx : ∀ x, ¬ KeyInfoFault c.spki x := by
                intro x hx
                have := (C129_certificate X client x).mpr (by rw [hc]; exact .key _ _ hx)
                rw [hk] at this
                cases this
              simp only [Res.mapErr, Res.ok_bind]
              rw [pivExtensions_err]
              constructor
              · rintro ⟨rfl, he⟩; exact .extensions r i c h1 h2 hx he
              · intro h
                cases h with
                | signature _ _ _ hn => exact absurd ⟨h1, h2⟩ hn
                | key _ _ _ y _ _ hy => exact absurd hy (hx y)
                | extensions _ _ _ _ _ _ he => exact ⟨rfl, he⟩
          · rw [if_pos h2, err_iff]
            constructor
            · rintro rfl; exact .signature r i c fun h => h2 h.2
            · intro h
              cases h with
              | signature => rfl
              | key _ _ _ _ _ h => exact absurd h h2
              | extensions _ _ _ _ h => exact absurd h h2
        · rw [if_pos h1, err_iff]
          constructor
          · rintro rfl; exact .signature r i c fun h => h1 h.1
          · intro h
            cases h with
            | signature => rfl
            | key _ _ _ _ h => exact absurd h h1
            | extensions _ _ _ h => exact absurd h h1

/-! Examples: a missing extension, an unsigned client, and each defect of a key. -/

example : KeyInfoFault ⟨"1.2.840.10045.2.1", some (some "1.3.132.0.35"), [4], []⟩ .keyTypeMismatch ∧
    KeyInfoFault ⟨"1.2.840.10045.2.1", some none, [4], []⟩ .parsingError ∧
    KeyInfoFault ⟨"1.2.840.113549.1.1.1", none, [4], []⟩ .unsupported :=
  ⟨.curve "1.3.132.0.35" ⟨rfl, rfl⟩ (by decide), .other (by decide) (fun _ h => by cases h.2), .rsa rfl⟩

example : pubkeyFromX509Certificate samplePivX [7] = .err .parsingError ∧ pubkeyFromX509Csr samplePivX [2] = .err .parsingError :=
  ⟨(C129_certificate ..).mpr .unreadable, (C129_csr ..).mpr .unreadable⟩

example : verifyCertificateChain samplePivX "root" [9] [2] none = .err .invalidSignature :=
  (C129_attestation ..).mpr (.signature _ _ _ (by decide +kernel))

example : verifyCertificateChain samplePivX "root" [7] [2] none = .err .parsingError := (C129_attestation ..).mpr (.client _ _)

example : verifyCertificateChain { samplePivX with integer := fun _ => none } "root" [5] [2] none = .err .parsingError := by
  refine (C129_attestation ..).mpr (.extensions _ _ _ (by decide +kernel) (by decide +kernel) ?_ (.inl ⟨[_], _, _, rfl, ?_, ?_⟩))
  · intro e h
    cases h with
    | rsa h => exact absurd h (by decide)
    | other _ h => exact h "1.3.132.0.34" ⟨rfl, rfl⟩
    | curve oid h hn => cases h.2; exact hn (by decide)
  · intro x hx
    rcases List.mem_singleton.mp hx with rfl
    exact ⟨fun h => absurd h (by decide), fun h => absurd h (by decide)⟩
  · intro h
    exact h rfl rfl

end Ssh
