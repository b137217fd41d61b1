import Verif.Lemmas.Piv
import Verif.Props.Utils

/-! # Lemmas about methods on tokens -/

namespace Ssh
open Spec

variable {σ α β : Type}

/-- `Does` with the final state. -/
def DoesTo (D : YkDev σ) (m : Yk σ α) (s : σ) (ev : List YkEvent) (r : YkRes α) (s' : σ) : Prop :=
  Run D s ev s' ∧ ∀ tr, m (s, tr) = (r, (s', tr ++ ev))

theorem Spec.Run.append {D : YkDev σ} {s s1 s2 : σ} {a b : List YkEvent} (h1 : Run D s a s1) (h2 : Run D s1 b s2) : Run D s (a ++ b) s2 := by
  induction h1 with
  | nil => exact h2
  | cons h _ ih => exact .cons h (ih h2)

theorem run_one {D : YkDev σ} {s s1 : σ} {e : YkEvent} (h : Answered D s e s1) : Run D s [e] s1 := .cons h (.nil _)

theorem Spec.Does.det {D : YkDev σ} {m : Yk σ α} {s : σ} {a b : List YkEvent} {r r' : YkRes α} (h1 : Does D m s a r) (h2 : Does D m s b r') :
    a = b ∧ r = r' := by
  obtain ⟨s1, _, h1⟩ := h1
  obtain ⟨s2, _, h2⟩ := h2
  have := (h1 []).symm.trans (h2 [])
  simp only [List.nil_append, Prod.mk.injEq] at this
  exact ⟨this.2.2, this.1⟩

theorem DoesTo.pure {D : YkDev σ} {s : σ} (a : α) : DoesTo D (Pure.pure a : Yk σ α) s [] (.ok a) s :=
  ⟨.nil _, fun tr => by rw [List.append_nil]; rfl⟩

theorem DoesTo.fail {D : YkDev σ} {s : σ} (e : YkErr) : DoesTo D (Yk.fail e : Yk σ α) s [] (.err e) s :=
  ⟨.nil _, fun tr => by rw [List.append_nil]; rfl⟩

theorem DoesTo.crash {D : YkDev σ} {s : σ} : DoesTo D (Yk.crash : Yk σ α) s [] .panic s :=
  ⟨.nil _, fun tr => by rw [List.append_nil]; rfl⟩

theorem DoesTo.bind {D : YkDev σ} {m : Yk σ α} {f : α → Yk σ β} {s s1 s2 : σ} {a b : List YkEvent} {x : α} {r : YkRes β}
    (h1 : DoesTo D m s a (.ok x) s1) (h2 : DoesTo D (f x) s1 b r s2) : DoesTo D (m >>= f) s (a ++ b) r s2 := by
  refine ⟨h1.1.append h2.1, fun tr => ?_⟩
  show Yk.bind m f (s, tr) = _
  unfold Yk.bind
  rw [h1.2 tr]
  dsimp only
  rw [h2.2, List.append_assoc]

theorem DoesTo.bind_err {D : YkDev σ} {m : Yk σ α} {f : α → Yk σ β} {s s1 : σ} {a : List YkEvent} {e : YkErr}
    (h1 : DoesTo D m s a (.err e) s1) : DoesTo D (m >>= f) s a (.err e) s1 := by
  refine ⟨h1.1, fun tr => ?_⟩
  show Yk.bind m f (s, tr) = _
  unfold Yk.bind
  rw [h1.2 tr]

theorem DoesTo.bind_panic {D : YkDev σ} {m : Yk σ α} {f : α → Yk σ β} {s s1 : σ} {a : List YkEvent}
    (h1 : DoesTo D m s a .panic s1) : DoesTo D (m >>= f) s a .panic s1 := by
  refine ⟨h1.1, fun tr => ?_⟩
  show Yk.bind m f (s, tr) = _
  unfold Yk.bind
  rw [h1.2 tr]

/-- What `map_err` makes of a result. -/
def mapErrRes (e : YkErr) : YkRes α → YkRes α
  | .err _ => .err e
  | r => r

/-- What `unwrap` makes of a result. -/
def unwrapRes : YkRes α → YkRes α
  | .err _ => .panic
  | r => r

theorem DoesTo.mapErr {D : YkDev σ} {m : Yk σ α} {s s1 : σ} {a : List YkEvent} {r : YkRes α} {e : YkErr}
    (h1 : DoesTo D m s a r s1) : DoesTo D (Yk.mapErr m e) s a (mapErrRes e r) s1 := by
  refine ⟨h1.1, fun tr => ?_⟩
  unfold Yk.mapErr
  rw [h1.2 tr]
  cases r <;> rfl

theorem DoesTo.unwrap {D : YkDev σ} {m : Yk σ α} {s s1 : σ} {a : List YkEvent} {r : YkRes α}
    (h1 : DoesTo D m s a r s1) : DoesTo D (Yk.unwrap m) s a (unwrapRes r) s1 := by
  refine ⟨h1.1, fun tr => ?_⟩
  unfold Yk.unwrap
  rw [h1.2 tr]
  cases r <;> rfl

theorem DoesTo.ask {D : YkDev σ} {f : σ → Option α × σ} {ev : Option α → YkEvent} {s s1 : σ} {o : Option α}
    (hf : f s = (o, s1)) (ha : Answered D s (ev o) s1) : DoesTo D (Yk.ask f ev) s [ev o] (answer o) s1 := by
  refine ⟨run_one ha, fun tr => ?_⟩
  unfold Yk.ask
  dsimp only
  rw [hf]
  cases o <;> rfl

theorem DoesTo.tell {D : YkDev σ} {f : σ → Bool × σ} {ev : Bool → YkEvent} {s s1 : σ} {o : Bool}
    (hf : f s = (o, s1)) (ha : Answered D s (ev o) s1) :
    DoesTo D (Yk.tell f ev) s [ev o] (if o then .ok () else .err .internal) s1 := by
  refine ⟨run_one ha, fun tr => ?_⟩
  unfold Yk.tell
  dsimp only
  rw [hf]

theorem DoesTo.does {D : YkDev σ} {m : Yk σ α} {s s1 : σ} {a : List YkEvent} {r : YkRes α} (h : DoesTo D m s a r s1) : Does D m s a r :=
  ⟨s1, h⟩

theorem DoesTo.congr {D : YkDev σ} {m : Yk σ α} {s s1 : σ} {a b : List YkEvent} {r : YkRes α} (h : DoesTo D m s a r s1) (e : a = b) :
    DoesTo D m s b r s1 := e ▸ h

theorem readCert_does (D : YkDev σ) (conn slot : Nat) (s : σ) :
    DoesTo D (Yk.readCert D conn slot) s [.read conn slot (D.read conn slot s).1] (answer (D.read conn slot s).1) (D.read conn slot s).2 :=
  DoesTo.ask (ev := .read conn slot) rfl rfl

/-- The result of a request followed by a function on its answer. -/
def answerMap (f : α → β) : Option α → YkRes β
  | some a => .ok (f a)
  | none => .err .internal

theorem read_then (D : YkDev σ) (conn slot : Nat) (s : σ) (f : SlotCert → β) :
    DoesTo D (Yk.readCert D conn slot >>= fun c => Pure.pure (f c)) s [.read conn slot (D.read conn slot s).1]
      (answerMap f (D.read conn slot s).1) (D.read conn slot s).2 := by
  have h := readCert_does D conn slot s
  cases ho : (D.read conn slot s).1 with
  | none => rw [ho] at h; exact h.bind_err
  | some c => rw [ho] at h; exact (h.bind (f := fun c => Pure.pure (f c)) (DoesTo.pure (f c))).congr (List.append_nil _)

theorem configured_does (D : YkDev σ) (conn slot : Nat) (s : σ) :
    DoesTo D (Yk.configured D conn slot) s [.read conn slot (D.read conn slot s).1]
      (answerMap SlotCert.pki (D.read conn slot s).1) (D.read conn slot s).2 := read_then ..

theorem fetchCertificate_does (D : YkDev σ) (conn slot : Nat) (s : σ) :
    DoesTo D (Yk.fetchCertificate D conn slot) s [.read conn slot (D.read conn slot s).1]
      (answerMap SlotCert.bytes (D.read conn slot s).1) (D.read conn slot s).2 := read_then ..

theorem slotAlg_eq (C : Crypto) (p : Pki) : (Yk.slotAlg C p).1 = algOf p ∧ ∀ d, (Yk.slotAlg C p).2 d = slotDigest C (algOf p) d := by
  cases p <;> exact ⟨rfl, fun _ => rfl⟩

/-- The cases of `sign_data`, with the final state. -/
theorem signData_does (C : Crypto) (D : YkDev σ) (conn : Nat) (data : Bytes) (alg : AlgId) (slot : Nat) (s : σ) :
    (∃ s', DoesTo D (Yk.signData C D conn data alg slot) s [.read conn slot none] (.err .unprovisioned) s') ∨
    (∃ c s', algOf c.pki ≠ alg ∧ DoesTo D (Yk.signData C D conn data alg slot) s [.read conn slot (some c)] (.err .wrongKeyType) s') ∨
    (∃ c a s', algOf c.pki = alg ∧ DoesTo D (Yk.signData C D conn data alg slot) s
      [.read conn slot (some c), .sign conn (slotDigest C alg data) alg slot a] (answer a) s') := by
  have h := (configured_does D conn slot s).mapErr (e := .unprovisioned)
  unfold Yk.signData
  cases ho : (D.read conn slot s).1 with
  | none =>
    rw [ho] at h
    exact .inl ⟨_, h.bind_err⟩
  | some c =>
    rw [ho] at h
    right
    by_cases ha : algOf c.pki = alg
    · right
      subst ha
      let a := (D.sign conn (slotDigest C (algOf c.pki) data) (algOf c.pki) slot (D.read conn slot s).2).1
      refine ⟨c, a, _, rfl, h.bind (s2 := (D.sign conn (slotDigest C (algOf c.pki) data) (algOf c.pki) slot (D.read conn slot s).2).2) ?_⟩
      rw [if_neg (by rw [(slotAlg_eq C c.pki).1]; simp), (slotAlg_eq C c.pki).2]
      exact DoesTo.ask (ev := .sign conn (slotDigest C (algOf c.pki) data) (algOf c.pki) slot) rfl rfl
    · left
      refine ⟨c, _, ha, (h.bind (s2 := (D.read conn slot s).2) ?_).congr (List.append_nil _)⟩
      rw [if_pos (by rw [(slotAlg_eq C c.pki).1]; exact ha)]
      exact DoesTo.fail _

/-- The error `ssh_cert_fetch_pubkey` makes of an extraction error. -/
def pubkeyErr : Err → YkErr
  | .parsingError => .parsingError
  | .keyTypeMismatch => .wrongKeyType
  | _ => .unsupported

/-- The result of `ssh_cert_fetch_pubkey` on a certificate. -/
def pubkeyRes (X : X509Env) (b : Bytes) : YkRes PublicKey :=
  match pubkeyFromX509Certificate X b with
  | .ok k => .ok k
  | .err e => .err (pubkeyErr e)
  | .panic => .panic

theorem fetchPubkey_does (X : X509Env) (D : YkDev σ) (conn slot : Nat) (s : σ) :
    DoesTo D (Yk.fetchPubkey X D conn slot) s [.read conn slot (D.read conn slot s).1]
      (match (D.read conn slot s).1 with
       | none => .err .internal
       | some c => pubkeyRes X c.bytes) (D.read conn slot s).2 := by
  have h := fetchCertificate_does D conn slot s
  unfold Yk.fetchPubkey
  cases ho : (D.read conn slot s).1 with
  | none => rw [ho] at h; exact h.bind_err
  | some c =>
    rw [ho] at h
    refine (h.bind (s2 := (D.read conn slot s).2) (b := []) (r := pubkeyRes X c.bytes) ?_).congr (List.append_nil _)
    unfold pubkeyRes
    cases pubkeyFromX509Certificate X c.bytes with
    | ok k => exact DoesTo.pure _
    | panic => exact DoesTo.crash
    | err e => cases e <;> exact DoesTo.fail _

theorem pubkeyRes_noPanic (X : X509Env) (b : Bytes) : pubkeyRes X b ≠ .panic := by
  unfold pubkeyRes
  have := pubkeyFromX509Certificate_noPanic X b
  cases h : pubkeyFromX509Certificate X b with
  | ok k => nofun
  | err e => nofun
  | panic => exact absurd h this

theorem pubkeyRes_ok {X : X509Env} {b : Bytes} {k : PublicKey} : pubkeyRes X b = .ok k ↔ pubkeyFromX509Certificate X b = .ok k := by
  unfold pubkeyRes
  cases pubkeyFromX509Certificate X b with
  | ok k' => exact ⟨fun h => by cases h; rfl, fun h => by cases h; rfl⟩
  | err e => exact ⟨nofun, nofun⟩
  | panic => exact ⟨nofun, nofun⟩

theorem slotKey_iff {X : X509Env} {c : SlotCert} {k : PublicKey} : SlotKey X c k ↔ pubkeyFromX509Certificate X c.bytes = .ok k :=
  pubkeyFromX509Certificate_ok.symm

theorem slotKey_alg {X : X509Env} {c : SlotCert} {k : PublicKey} (h : SlotKey X c k) :
    ∃ curve point, k.kind = .ecdsa curve point none ∧ ((curve = ⟨.nistp256, "nistp256"⟩ ∧ keyAlg k = some .eccP256) ∨
      (curve = ⟨.nistp384, "nistp384"⟩ ∧ keyAlg k = some .eccP384)) := by
  obtain ⟨i, oid, _, _, name, curve, hm, _, _, hk, _⟩ := h
  refine ⟨curve, _, hk, ?_⟩
  unfold keyAlg
  rw [hk]
  rcases List.mem_cons.mp hm with h | h
  · cases h; exact .inl ⟨rfl, rfl⟩
  rcases List.mem_cons.mp h with h | h
  · cases h; exact .inr ⟨rfl, rfl⟩
  · cases h

/-- The cases of `get_ssh_key_type`. -/
theorem getSshKeyType_does (X : X509Env) (D : YkDev σ) (conn slot : Nat) (s : σ) :
    (∃ o e s', DoesTo D (Yk.getSshKeyType X D conn slot) s [.read conn slot o] (.err e) s' ∧
      ∀ c, o = some c → ¬ ∃ k, SlotKey X c k) ∨
    (∃ c k alg s', SlotKey X c k ∧ keyAlg k = some alg ∧
      DoesTo D (Yk.getSshKeyType X D conn slot) s [.read conn slot (some c)] (.ok alg) s') := by
  have h := fetchPubkey_does X D conn slot s
  unfold Yk.getSshKeyType
  cases ho : (D.read conn slot s).1 with
  | none =>
    rw [ho] at h
    exact .inl ⟨none, _, _, h.bind_err, nofun⟩
  | some c =>
    rw [ho] at h
    dsimp only at h
    cases hk : pubkeyRes X c.bytes with
    | panic => exact absurd hk (pubkeyRes_noPanic X c.bytes)
    | err e =>
      rw [hk] at h
      refine .inl ⟨some c, _, _, h.bind_err, ?_⟩
      intro _ ec ⟨k, hs⟩
      cases ec
      rw [slotKey_iff, ← pubkeyRes_ok, hk] at hs
      cases hs
    | ok k =>
      rw [hk] at h
      have hs : SlotKey X c k := slotKey_iff.mpr (pubkeyRes_ok.mp hk)
      obtain ⟨curve, point, hkk, ⟨rfl, ha⟩ | ⟨rfl, ha⟩⟩ := slotKey_alg hs
      · refine .inr ⟨c, k, _, _, hs, ha, (h.bind (s2 := (D.read conn slot s).2) ?_).congr (List.append_nil _)⟩
        rw [hkk]
        exact DoesTo.pure _
      · refine .inr ⟨c, k, _, _, hs, ha, (h.bind (s2 := (D.read conn slot s).2) ?_).congr (List.append_nil _)⟩
        rw [hkk]
        exact DoesTo.pure _

theorem fetchPubkey_ok {X : X509Env} {D : YkDev σ} {conn slot : Nat} {s s1 : σ} {c : SlotCert} {k : PublicKey}
    (hr : D.read conn slot s = (some c, s1)) (hk : SlotKey X c k) :
    DoesTo D (Yk.fetchPubkey X D conn slot) s [.read conn slot (some c)] (.ok k) s1 := by
  have h := fetchPubkey_does X D conn slot s
  rw [hr] at h
  dsimp only at h
  rw [pubkeyRes_ok.mpr (slotKey_iff.mp hk)] at h
  exact h

theorem getSshKeyType_ok {X : X509Env} {D : YkDev σ} {conn slot : Nat} {s s1 : σ} {c : SlotCert} {k : PublicKey} {alg : AlgId}
    (hr : D.read conn slot s = (some c, s1)) (hk : SlotKey X c k) (ha : keyAlg k = some alg) :
    DoesTo D (Yk.getSshKeyType X D conn slot) s [.read conn slot (some c)] (.ok alg) s1 := by
  rcases getSshKeyType_does X D conn slot s with ⟨o, e, s', h, hn⟩ | ⟨c', k', alg', s', h1, h2, h⟩
  · obtain ⟨hrun, _⟩ := h
    cases hrun with
    | cons b hrun =>
      have b : D.read conn slot s = _ := b
      rw [hr] at b
      cases b
      exact absurd ⟨k, hk⟩ (hn c rfl)
  · have hrun := h.1
    cases hrun with
    | cons b hrun =>
      have b : D.read conn slot s = _ := b
      cases hrun
      rw [hr] at b
      cases b
      have := slotKey_iff.mp h1
      rw [slotKey_iff.mp hk] at this
      cases this
      rw [ha] at h2
      cases h2
      exact h

theorem signData_ok {C : Crypto} {D : YkDev σ} {conn : Nat} {data : Bytes} {alg : AlgId} {slot : Nat} {s s1 s2 : σ} {c : SlotCert}
    {a : Option Bytes} (hr : D.read conn slot s = (some c, s1)) (ha : algOf c.pki = alg)
    (hs : D.sign conn (slotDigest C alg data) alg slot s1 = (a, s2)) :
    DoesTo D (Yk.signData C D conn data alg slot) s [.read conn slot (some c), .sign conn (slotDigest C alg data) alg slot a]
      (answer a) s2 := by
  rcases signData_does C D conn data alg slot s with ⟨s', h⟩ | ⟨c', s', h1, h⟩ | ⟨c', a', s', h1, h⟩
  · obtain ⟨hrun, _⟩ := h
    cases hrun with
    | cons b hrun =>
      have b : D.read conn slot s = _ := b
      rw [hr] at b
      cases b
  · obtain ⟨hrun, _⟩ := h
    cases hrun with
    | cons b hrun =>
      have b : D.read conn slot s = _ := b
      rw [hr] at b
      cases b
      exact absurd ha h1
  · have hrun := h.1
    cases hrun with
    | cons b hrun =>
      have b : D.read conn slot s = _ := b
      rw [hr] at b
      cases b
      cases hrun with
      | cons b hrun =>
        have b : D.sign conn (slotDigest C alg data) alg slot s1 = _ := b
        cases hrun
        rw [hs] at b
        cases b
        exact h

/-- What follows a signature in `ssh_cert_signer`. -/
def SignerTail (X : X509Env) (conn slot : Nat) (a : Option Bytes) (ev : List YkEvent) (r : YkRes Bytes) : Prop :=
  (a = none ∧ ev = [] ∧ r = .err .internal) ∨
  ∃ sig, a = some sig ∧
    ((ev = [.read conn slot none] ∧ r = .err .internal) ∨
     (∃ c e, ev = [.read conn slot (some c)] ∧ (¬ ∃ k, SlotKey X c k) ∧ r = .err e) ∨
     (∃ c k, ev = [.read conn slot (some c)] ∧ SlotKey X c k ∧
       ((∃ blob, formatSignatureForSsh k sig = .ok (some blob) ∧ r = .ok blob) ∨
        (formatSignatureForSsh k sig = .ok none ∧ r = .err .parsingError))))

theorem formatSignature_cases (k : PublicKey) (sig : Bytes) : ∃ o, formatSignatureForSsh k sig = .ok o := by
  unfold formatSignatureForSsh
  cases k.kind with
  | rsa _ _ => exact ⟨_, rfl⟩
  | ed25519 _ _ => exact ⟨_, rfl⟩
  | ecdsa _ _ _ =>
    obtain ⟨o, ho⟩ := C50_total sig
    unfold signatureConvertAsn1EcdsaToSsh
    dsimp only
    rw [ho]
    cases o with
    | none => exact ⟨_, rfl⟩
    | some p => exact ⟨_, rfl⟩

theorem sshCertSigner_does (X : X509Env) (C : Crypto) (D : YkDev σ) (conn : Nat) (buf : Bytes) (slot : Nat) (s : σ) :
    (∃ ev e s', DoesTo D (Yk.sshCertSigner X C D conn buf slot) s ev (.err e) s' ∧ (∀ x ∈ ev, ∃ o, x = .read conn slot o)) ∨
    (∃ c1 c2 k1 alg a ev r s', SlotKey X c1 k1 ∧ keyAlg k1 = some alg ∧ algOf c2.pki = alg ∧
      DoesTo D (Yk.sshCertSigner X C D conn buf slot) s
        ([.read conn slot (some c1), .read conn slot (some c2), .sign conn (slotDigest C alg buf) alg slot a] ++ ev) r s' ∧
      SignerTail X conn slot a ev r) := by
  unfold Yk.sshCertSigner
  rcases getSshKeyType_does X D conn slot s with ⟨o, e, s1, h, _⟩ | ⟨c1, k1, alg, s1, hs, ha, h⟩
  · exact .inl ⟨_, _, s1, h.mapErr.bind_err, fun x hx => ⟨o, by simpa using hx⟩⟩
  have h := h.mapErr (e := .unsupported)
  rcases signData_does C D conn buf alg slot s1 with ⟨s2, h2⟩ | ⟨c2, s2, _, h2⟩ | ⟨c2, a, s2, h21, h2⟩
  · refine .inl ⟨_, _, s2, h.bind h2.bind_err, ?_⟩
    intro x hx
    simp only [List.cons_append, List.nil_append, List.mem_cons, List.not_mem_nil, or_false] at hx
    rcases hx with rfl | rfl <;> exact ⟨_, rfl⟩
  · refine .inl ⟨_, _, s2, h.bind h2.bind_err, ?_⟩
    intro x hx
    simp only [List.cons_append, List.nil_append, List.mem_cons, List.not_mem_nil, or_false] at hx
    rcases hx with rfl | rfl <;> exact ⟨_, rfl⟩
  right
  cases a with
  | none => exact ⟨c1, c2, k1, alg, none, [], _, s2, hs, ha, h21, h.bind h2.bind_err, .inl ⟨rfl, rfl, rfl⟩⟩
  | some sig =>
    have h3 := fetchPubkey_does X D conn slot s2
    cases ho : (D.read conn slot s2).1 with
    | none =>
      rw [ho] at h3
      exact ⟨c1, c2, k1, alg, some sig, _, _, _, hs, ha, h21, h.bind (h2.bind h3.bind_err), .inr ⟨sig, rfl, .inl ⟨rfl, rfl⟩⟩⟩
    | some c =>
      rw [ho] at h3
      dsimp only at h3
      cases hk : pubkeyRes X c.bytes with
      | panic => exact absurd hk (pubkeyRes_noPanic X c.bytes)
      | err e =>
        rw [hk] at h3
        refine ⟨c1, c2, k1, alg, some sig, _, _, _, hs, ha, h21, h.bind (h2.bind h3.bind_err), .inr ⟨sig, rfl, .inr (.inl ⟨c, e, rfl, ?_, rfl⟩)⟩⟩
        rintro ⟨k, hs'⟩
        rw [slotKey_iff, ← pubkeyRes_ok, hk] at hs'
        cases hs'
      | ok k =>
        rw [hk] at h3
        have hs3 : SlotKey X c k := slotKey_iff.mpr (pubkeyRes_ok.mp hk)
        obtain ⟨o, hf⟩ := formatSignature_cases k sig
        cases o with
        | none =>
          refine ⟨c1, c2, k1, alg, some sig, _, .err .parsingError, (D.read conn slot s2).2, hs, ha, h21,
            h.bind (h2.bind ((h3.bind (b := []) ?_).congr (List.append_nil _))), .inr ⟨sig, rfl, .inr (.inr ⟨c, k, rfl, hs3, .inr ⟨hf, rfl⟩⟩)⟩⟩
          rw [hf]
          exact DoesTo.fail _
        | some blob =>
          refine ⟨c1, c2, k1, alg, some sig, _, .ok blob, (D.read conn slot s2).2, hs, ha, h21,
            h.bind (h2.bind ((h3.bind (b := []) ?_).congr (List.append_nil _))), .inr ⟨sig, rfl, .inr (.inr ⟨c, k, rfl, hs3, .inl ⟨blob, hf, rfl⟩⟩)⟩⟩
          rw [hf]
          exact DoesTo.pure _

theorem sshCertSigner_ok {X : X509Env} {C : Crypto} {D : YkDev σ} {conn : Nat} {buf : Bytes} {slot : Nat} {s s1 s2 s3 s4 : σ}
    {c1 c2 c3 : SlotCert} {k1 k3 : PublicKey} {alg : AlgId} {sig blob : Bytes}
    (h1 : D.read conn slot s = (some c1, s1)) (h2 : SlotKey X c1 k1) (h3 : keyAlg k1 = some alg)
    (h4 : D.read conn slot s1 = (some c2, s2)) (h5 : algOf c2.pki = alg)
    (h6 : D.sign conn (slotDigest C alg buf) alg slot s2 = (some sig, s3)) (h7 : D.read conn slot s3 = (some c3, s4))
    (h8 : SlotKey X c3 k3) (h9 : formatSignatureForSsh k3 sig = .ok (some blob)) :
    DoesTo D (Yk.sshCertSigner X C D conn buf slot) s [.read conn slot (some c1), .read conn slot (some c2),
      .sign conn (slotDigest C alg buf) alg slot (some sig), .read conn slot (some c3)] (.ok blob) s4 := by
  unfold Yk.sshCertSigner
  refine ((getSshKeyType_ok h1 h2 h3).mapErr (e := .unsupported)).bind
    ((signData_ok h4 h5 h6).bind (((fetchPubkey_ok h7 h8).bind (b := []) ?_).congr (List.append_nil _)))
  rw [h9]
  exact DoesTo.pure _

theorem openSerial_does (D : YkDev σ) (n : UInt32) (s : σ) :
    DoesTo D (Yk.openSerial D n) s [.openSerial n (D.openSerial n s).1]
      (mapErrRes .noSuchYubikey (answer (D.openSerial n s).1)) (D.openSerial n s).2 :=
  (DoesTo.ask (f := D.openSerial n) (ev := .openSerial n) rfl rfl).mapErr

/-- The cases of `CSRSigner::new`. -/
theorem csrSignerNew_does (D : YkDev σ) (n : UInt32) (slot : Nat) (s : σ) :
    (∃ ev s', DoesTo D (Yk.csrSignerNew D n slot) s ev .panic s' ∧
      (ev = [.openSerial n none] ∨ (∃ i, ev = [.openSerial n (some i), .read i slot none]) ∨
       ∃ i c, pkiPoint c.pki = none ∧ ev = [.openSerial n (some i), .read i slot (some c)])) ∨
    (∃ i c p s', pkiPoint c.pki = some p ∧
      DoesTo D (Yk.csrSignerNew D n slot) s [.openSerial n (some i), .read i slot (some c)] (.ok ⟨slot, n, p, algOf c.pki⟩) s') := by
  unfold Yk.csrSignerNew
  have h := (openSerial_does D n s).unwrap
  cases ho : (D.openSerial n s).1 with
  | none =>
    rw [ho] at h
    exact .inl ⟨_, _, h.bind_panic, .inl rfl⟩
  | some i =>
    rw [ho] at h
    have h2 := (configured_does D i slot (D.openSerial n s).2).unwrap
    cases hr : (D.read i slot (D.openSerial n s).2).1 with
    | none =>
      rw [hr] at h2
      exact .inl ⟨_, _, h.bind h2.bind_panic, .inr (.inl ⟨i, rfl⟩)⟩
    | some c =>
      rw [hr] at h2
      obtain ⟨pki, sub, by'⟩ := c
      cases pki with
      | rsa => exact .inl ⟨_, _, h.bind ((h2.bind DoesTo.crash).congr (List.append_nil _)), .inr (.inr ⟨i, _, rfl, rfl⟩)⟩
      | ecP256 p =>
        refine .inr ⟨i, ⟨.ecP256 p, sub, by'⟩, p, _, rfl,
          h.bind ((h2.bind (b := []) (s2 := (D.read i slot (D.openSerial n s).2).2) ?_).congr (List.append_nil _))⟩
        exact DoesTo.pure _
      | ecP384 p =>
        refine .inr ⟨i, ⟨.ecP384 p, sub, by'⟩, p, _, rfl,
          h.bind ((h2.bind (b := []) (s2 := (D.read i slot (D.openSerial n s).2).2) ?_).congr (List.append_nil _))⟩
        exact DoesTo.pure _

/-- The cases of `CSRSigner::sign`. -/
theorem csrSign_does (C : Crypto) (D : YkDev σ) (g : Yk.CsrSigner) (m : Bytes) (s : σ) :
    (∃ ev s', DoesTo D (Yk.csrSign C D g m) s ev (.err .internal) s' ∧ (∀ x ∈ ev, ∀ n d a sl r, x ≠ .sign n d a sl r)) ∨
    (∃ i c a s', algOf c.pki = g.algorithm ∧ DoesTo D (Yk.csrSign C D g m) s
      [.openSerial g.serial (some i), .read i g.slot (some c), .sign i (slotDigest C g.algorithm m) g.algorithm g.slot a] (answer a) s') := by
  unfold Yk.csrSign
  have h := (openSerial_does D g.serial s).mapErr (e := .internal)
  cases ho : (D.openSerial g.serial s).1 with
  | none =>
    rw [ho] at h
    exact .inl ⟨_, _, h.bind_err, by simp⟩
  | some i =>
    rw [ho] at h
    rcases signData_does C D i m g.algorithm g.slot (D.openSerial g.serial s).2 with ⟨s2, h2⟩ | ⟨c2, s2, _, h2⟩ | ⟨c2, a, s2, h21, h2⟩
    · exact .inl ⟨_, _, h.bind h2.mapErr, by simp⟩
    · exact .inl ⟨_, _, h.bind h2.mapErr, by simp⟩
    · refine .inr ⟨i, c2, a, s2, h21, ?_⟩
      have h3 := h.bind (f := fun conn => Yk.mapErr (Yk.signData C D conn m g.algorithm g.slot) .internal) (h2.mapErr (e := .internal))
      cases a <;> exact h3

/-- The cases of `generate_csr`. -/
theorem generateCsr_does (C : Crypto) (G : Rcgen) (D : YkDev σ) (conn slot : Nat) (cn : String) (s : σ) :
    (∃ ev e s', DoesTo D (Yk.generateCsr C G D conn slot cn) s ev (.err e) s' ∧ (∀ x ∈ ev, ∀ n d a sl r, x ≠ .sign n d a sl r)) ∨
    (∃ c0 ev s', pkiPoint c0.pki ≠ none ∧
      DoesTo D (Yk.generateCsr C G D conn slot cn) s (.read conn slot (some c0) :: ev) .panic s' ∧
      (ev = [.openSerial (D.serial conn) none] ∨ (∃ i, ev = [.openSerial (D.serial conn) (some i), .read i slot none]) ∨
       ∃ i c, pkiPoint c.pki = none ∧ ev = [.openSerial (D.serial conn) (some i), .read i slot (some c)])) ∨
    (∃ c0 c1 c2 i1 i2 p t a s', pkiPoint c1.pki = some p ∧ algOf c0.pki = algOf c1.pki ∧ algOf c2.pki = algOf c1.pki ∧
      G.tbs cn (algOf c1.pki) p = some t ∧
      DoesTo D (Yk.generateCsr C G D conn slot cn) s
        [.read conn slot (some c0), .openSerial (D.serial conn) (some i1), .read i1 slot (some c1),
         .openSerial (D.serial conn) (some i2), .read i2 slot (some c2), .sign i2 (slotDigest C (algOf c1.pki) t) (algOf c1.pki) slot a]
        (answerMap (G.finish t (algOf c1.pki)) a) s') := by
  unfold Yk.generateCsr
  have h := configured_does D conn slot s
  cases ho : (D.read conn slot s).1 with
  | none =>
    rw [ho] at h
    exact .inl ⟨_, _, _, h.bind_err, by simp⟩
  | some c0 =>
    rw [ho] at h
    have key : ∀ (alg : AlgId) (p0 : Bytes), pkiPoint c0.pki = some p0 → algOf c0.pki = alg →
        DoesTo D (match c0.pki with
          | .ecP256 _ => Pure.pure .eccP256
          | .ecP384 _ => Pure.pure .eccP384
          | .rsa => Yk.fail .unsupported : Yk σ AlgId) (D.read conn slot s).2 [] (.ok alg) (D.read conn slot s).2 := by
      intro alg p0 hp ha
      cases hc : c0.pki with
      | rsa => rw [hc] at hp; cases hp
      | ecP256 p => rw [hc] at ha; rw [← ha]; exact DoesTo.pure _
      | ecP384 p => rw [hc] at ha; rw [← ha]; exact DoesTo.pure _
    cases hp : pkiPoint c0.pki with
    | none =>
      left
      refine ⟨_, _, _, h.bind (DoesTo.bind_err (a := []) (e := .unsupported) (s1 := (D.read conn slot s).2) ?_), by simp⟩
      cases hc : c0.pki with
      | rsa => exact DoesTo.fail _
      | ecP256 p => rw [hc] at hp; cases hp
      | ecP384 p => rw [hc] at hp; cases hp
    | some p0 =>
      have h1 := key _ p0 hp rfl
      rcases csrSignerNew_does D (D.serial conn) slot (D.read conn slot s).2 with ⟨ev, s2, h2, hev⟩ | ⟨i1, c1, p, s2, hp1, h2⟩
      · exact .inr (.inl ⟨c0, ev, s2, by rw [hp]; nofun, h.bind (h1.bind h2.bind_panic), hev⟩)
      have h3 : DoesTo D (Yk.csrAlgorithm ⟨slot, D.serial conn, p, algOf c1.pki⟩ : Yk σ AlgId) s2 [] (.ok (algOf c1.pki)) s2 := by
        cases hc : c1.pki with
        | rsa => rw [hc] at hp1; cases hp1
        | ecP256 p => exact DoesTo.pure _
        | ecP384 p => exact DoesTo.pure _
      by_cases ha : algOf c1.pki = algOf c0.pki
      · cases ht : G.tbs cn (algOf c0.pki) p with
        | none =>
          left
          refine ⟨_, .internal, s2, h.bind (h1.bind (h2.bind (h3.bind (b := []) ?_))), by simp⟩
          rw [if_neg (by simp [ha]), ht]
          exact DoesTo.fail _
        | some t =>
          rcases csrSign_does C D ⟨slot, D.serial conn, p, algOf c1.pki⟩ t s2 with ⟨ev, s3, h4, hev⟩ | ⟨i2, c2, a, s3, ha2, h4⟩
          · left
            refine ⟨_, .internal, s3, h.bind (h1.bind (h2.bind (h3.bind (b := ev) ?_))), ?_⟩
            · rw [if_neg (by simp [ha]), ht]
              exact h4.bind_err
            · simp only [List.cons_append, List.nil_append, List.mem_cons]
              rintro x (rfl | rfl | rfl | hx)
              · nofun
              · nofun
              · nofun
              · exact hev x hx
          · right; right
            refine ⟨c0, c1, c2, i1, i2, p, t, a, s3, hp1, ha.symm, ha2, by rw [ha]; exact ht,
              h.bind (h1.bind (h2.bind (h3.bind (b := [.openSerial (D.serial conn) (some i2), .read i2 slot (some c2),
                .sign i2 (slotDigest C (algOf c1.pki) t) (algOf c1.pki) slot a]) ?_)))⟩
            rw [if_neg (by simp [ha]), ht]
            cases a with
            | none => exact h4.bind_err
            | some sig =>
              rw [← ha]
              refine (h4.bind (f := fun sig => Pure.pure (G.finish t (algOf c1.pki) sig)) (DoesTo.pure _)).congr (List.append_nil _)
      · left
        refine ⟨_, .internal, s2, h.bind (h1.bind (h2.bind (h3.bind (b := []) ?_))), by simp⟩
        rw [if_pos ha]
        exact DoesTo.fail _

end Ssh
