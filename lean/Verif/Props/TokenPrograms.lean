import Verif.Props.Slots
import Verif.Props.Fido

/-! # Programs for tokens (C118 to C120) -/

namespace Ssh
open Spec Examples

variable {σ α : Type}

/-! ## C118: sign-cert-with-yubikey -/

theorem new_does (D : YkDev σ) (s : σ) :
    DoesTo D (Yk.new D) s [.openFirst (D.openFirst s).1] (answer (D.openFirst s).1) (D.openFirst s).2 :=
  DoesTo.ask (ev := .openFirst) rfl rfl

/-- Keys in certificates are shorter than this. -/
def SmallKeys (X : X509Env) : Prop := ∀ b i, X.parseDer b = some i → i.spki.keyData.length < 4294967000

theorem slotKey_small {X : X509Env} (hX : SmallKeys X) {c : SlotCert} {k : PublicKey} (h : SlotKey X c k) :
    WellFormedKey k ∧ ∀ b, k.encode = .ok b → b.length < 4294967296 := by
  obtain ⟨i, oid, hi, _, hk⟩ := h
  have hl := hX _ _ hi
  refine ⟨C20_x509 _ _ _ hk (by omega), fun b hb => ?_⟩
  obtain ⟨curve, hc, hkind, hname, _, hsk, _⟩ := C66_consistent _ _ _ hk
  obtain ⟨_, _, _, _, hm, _⟩ := hk
  rw [encode_eq, hkind, hsk] at hb
  simp only [keyMaterial, Bool.false_eq_true, if_false, Res.unwrap, Res.ok_bind, Res.ok.injEq] at hb
  have h1 : ∀ t ∈ keyTypes, (frameStr t.plain).length ≤ 100 := by decide +kernel
  have h2 : ∀ c ∈ curves, (frameStr c.identifier).length ≤ 100 := by decide +kernel
  have := h1 _ hm
  have := h2 _ hc
  have h3 : ∀ b : Bytes, (frame b).length = 4 + b.length := by intro b; simp [frame]
  rw [← hb]
  simp only [List.length_append, h3]
  omega

/-- C118: what sign-cert-with-yubikey prints is read back as a certificate for the key in the file, signed by the key in the slot of
the first token found when the program began: a user certificate with that peculiar serial number, for the one principal given and all
time.  This holds for whatever tokens are there when it comes to signing. -/
theorem C118_printed (X : X509Env) (C : Crypto) (D : YkDev σ) (s : σ) (disk : Disk) (nonce : Option (Vector UInt8 32))
    (rserial : Option (Vector UInt8 8)) (extensions : StrMap) (slot : Nat) (file principal : String) (out : List Char)
    (he : extensions.Perm Certificate.standardExtensions) (hp : principal.utf8ByteSize < 4294967292) (hX : SmallKeys X)
    (hsig : ∀ s' m t, yubikeySigner X C D slot s' m = .ok (some t) → t.length < 4294967296)
    (h : signCertWithYubikey X C D (s, []) disk nonce rserial extensions slot file principal = .ok out) :
    ∃ conn s1 sc s2 ca key c, D.openFirst s = (some conn, s1) ∧ D.read conn slot s1 = (some sc, s2) ∧ SlotKey X sc ca ∧
      PublicKey.fromPath disk file = .ok key ∧
      Certificate.fromString C out = .ok c ∧ c.key.kind = key.kind ∧ c.key.keyType.plain = key.keyType.plain ∧
      c.signatureKey.kind = ca.kind ∧ c.signatureKey.keyType.plain = ca.keyType.plain ∧ c.certType = .user ∧
      c.serial = 0xFEFEFEFEFEFEFEFE ∧ c.keyId = "key_id" ∧ c.principals = [principal] ∧ c.validAfter = 0 ∧
      c.validBefore = 0xFFFFFFFFFFFFFFFF ∧ (∀ k, mapGet c.criticalOptions k = none) ∧
      (∀ k, mapGet c.extensions k = if k ∈ defaultExtensions then some "" else none) ∧ c.comment = some "key_id" := by
  unfold signCertWithYubikey at h
  have h0 := (new_does D s).unwrap
  cases hc : (D.openFirst s).1 with
  | none =>
    rw [hc] at h0
    have := (h0.bind_panic (f := fun conn => Yk.unwrap (Yk.fetchPubkey X D conn slot))).2 []
    rw [this] at h
    cases h
  | some conn =>
    rw [hc] at h0
    have h1 := (fetchPubkey_does X D conn slot (D.openFirst s).2).unwrap
    have h2 := (h0.bind (f := fun conn => Yk.unwrap (Yk.fetchPubkey X D conn slot)) h1).2 []
    rw [h2] at h
    cases hr : (D.read conn slot (D.openFirst s).2).1 with
    | none => rw [hr] at h; cases h
    | some sc =>
      rw [hr] at h
      dsimp only at h
      cases hk : pubkeyRes X sc.bytes with
      | err e => rw [hk] at h; cases h
      | panic => rw [hk] at h; cases h
      | ok ca =>
        rw [hk] at h
        simp only [unwrapRes] at h
        have hs : SlotKey X sc ca := slotKey_iff.mpr (pubkeyRes_ok.mp hk)
        obtain ⟨cert, hreq, h⟩ := bind_ok_iff.mp h
        obtain ⟨c3, hsign, h⟩ := bind_ok_iff.mp h
        cases h
        have hsign := orPanic_ok.mp hsign
        obtain ⟨hw, hl⟩ := slotKey_small hX hs
        obtain ⟨key, hkey, hprint⟩ := request_printed he hp hw hl hreq hsign
        obtain ⟨tbs, sig, _, hsg, _, rfl⟩ := (C28_sign _ _ _ _).mp hsign
        obtain ⟨c, hc'⟩ := hprint (hsig _ _ _ hsg)
        exact ⟨conn, _, sc, _, ca, key, c, Prod.ext hc rfl, Prod.ext hr rfl, hs, hkey, hc'⟩

/-! ## C119: yk-provision and yk-fingerprint -/

/-- C119: everything yk-provision can do.  A key is generated only after the token accepted PIN and management key, with the algorithm
and touch policy asked for and a PIN policy that never asks for the PIN again; if the program succeeds, all six steps happened, and the
key printed is the one in the certificate read back. -/
theorem C119_provision (X : X509Env) (D : YkDev σ) (slot : Nat) (subject : String) (pin mgm : Bytes) (alg : String) (secure : Bool)
    (s : σ) :
    ∃ ev r, Does D (provisionNewKey X D slot subject pin mgm alg secure) s ev r ∧ (∀ e, r ≠ .err e) ∧
      (∀ conn sl a p t key, .generate conn sl a p t key ∈ ev → sl = slot ∧ a = (if alg = "p256" then .eccP256 else .eccP384) ∧
        p = .never ∧ t = (if secure then .always else .never) ∧
        ∃ more, ev = .openFirst (some conn) :: .verifyPin conn pin true :: .authenticate conn mgm true ::
          .generate conn sl a p t key :: more) ∧
      (∀ k, r = .ok k → ∃ conn key c, SlotKey X c k ∧ ev = [.openFirst (some conn), .verifyPin conn pin true,
        .authenticate conn mgm true, .generate conn slot (if alg = "p256" then .eccP256 else .eccP384) .never
          (if secure then .always else .never) (some key), .selfSign conn slot subject key true, .read conn slot (some c)]) := by
  unfold provisionNewKey
  dsimp only
  generalize (if alg = "p256" then AlgId.eccP256 else AlgId.eccP384) = a
  generalize (if secure = true then TouchPolicy.always else TouchPolicy.never) = t
  have h0 := (new_does D s).unwrap
  cases hc : (D.openFirst s).1 with
  | none =>
    rw [hc] at h0
    refine ⟨_, _, h0.bind_panic.does, nofun, ?_, nofun⟩
    intro conn sl a p t key hm
    simp at hm
  | some conn =>
    rw [hc] at h0
    have fails : ∀ ev r s1, DoesTo D (Yk.unlock D conn pin mgm) (D.openFirst s).2 ev r s1 → (∀ u, r ≠ .ok u) →
        (∀ n sl a p t key, .generate n sl a p t key ∉ ev) →
        ∃ ev r, Does D (Yk.unwrap (Yk.new D) >>= fun conn => Yk.unwrap (Yk.unlock D conn pin mgm) >>= fun _ =>
            Yk.unwrap (Yk.provision X D conn slot subject a t .never)) s ev r ∧ (∀ e, r ≠ .err e) ∧
          (∀ conn sl a' p t' key, .generate conn sl a' p t' key ∈ ev → sl = slot ∧ a' = a ∧
            p = .never ∧ t' = t ∧
            ∃ more, ev = .openFirst (some conn) :: .verifyPin conn pin true :: .authenticate conn mgm true ::
              .generate conn sl a' p t' key :: more) ∧
          (∀ k, r = .ok k → ∃ conn key c, SlotKey X c k ∧ ev = [.openFirst (some conn), .verifyPin conn pin true,
            .authenticate conn mgm true, .generate conn slot a .never t (some key), .selfSign conn slot subject key true,
            .read conn slot (some c)]) := by
      intro ev r s1 h hr hg
      have h' := h.unwrap
      have e : unwrapRes r = .panic := by
        cases r with
        | ok u => exact absurd rfl (hr u)
        | err e => rfl
        | panic => rfl
      rw [e] at h'
      refine ⟨_, _, (h0.bind h'.bind_panic).does, nofun, ?_, nofun⟩
      intro n sl a p t key hm
      simp only [List.cons_append, List.nil_append, List.mem_cons, reduceCtorEq, false_or] at hm
      exact absurd hm (hg _ _ _ _ _ _)
    rcases C74_unlock D conn pin mgm (D.openFirst s).2 with ⟨s1, h1⟩ | ⟨_, s1, h1⟩ | ⟨_, ac, s1, h1⟩
    · exact fails _ _ s1 h1 nofun (by simp)
    · exact fails _ _ s1 h1 nofun (by simp)
    · cases ac with
      | false => exact fails _ _ s1 h1 nofun (by simp)
      | true =>
        have h1' := DoesTo.unwrap h1
        simp only [if_true, unwrapRes] at h1'
        have finish : ∀ ev r s2, DoesTo D (Yk.provision X D conn slot subject a t .never) s1 ev r s2 →
            Does D (Yk.unwrap (Yk.new D) >>= fun conn => Yk.unwrap (Yk.unlock D conn pin mgm) >>= fun _ =>
              Yk.unwrap (Yk.provision X D conn slot subject a t .never)) s
              (.openFirst (some conn) :: .verifyPin conn pin true :: .authenticate conn mgm true :: ev) (unwrapRes r) := by
          intro ev r s2 h2
          exact (h0.bind (f := fun conn => Yk.unwrap (Yk.unlock D conn pin mgm) >>= fun _ =>
            Yk.unwrap (Yk.provision X D conn slot subject a t .never))
            (h1'.bind (f := fun _ => Yk.unwrap (Yk.provision X D conn slot subject a t .never)) h2.unwrap)).does
        have gen : ∀ (g : Option Pki) (rest : List YkEvent), (∀ n sl a p t key, .generate n sl a p t key ∉ rest) →
            ∀ n sl a' p t' key, YkEvent.generate n sl a' p t' key ∈ (.openFirst (some conn) :: .verifyPin conn pin true ::
              .authenticate conn mgm true :: .generate conn slot a .never t g :: rest) →
            sl = slot ∧ a' = a ∧ p = .never ∧ t' = t ∧ ∃ more, (.openFirst (some conn) :: .verifyPin conn pin true ::
              .authenticate conn mgm true :: .generate conn slot a .never t g :: rest) =
              (.openFirst (some n) :: .verifyPin n pin true :: .authenticate n mgm true :: .generate n sl a' p t' key :: more :
                List YkEvent) := by
          intro g rest hrest n sl a' p t' key hm
          simp only [List.mem_cons, reduceCtorEq, false_or] at hm
          rcases hm with hm | hm
          · cases hm
            exact ⟨rfl, rfl, rfl, rfl, _, rfl⟩
          · exact absurd hm (hrest _ _ _ _ _ _)
        rcases C75_provision X D conn slot subject a t .never s1 with ⟨s2, h2⟩ | ⟨key, s2, h2⟩ | ⟨key, o, r, ⟨s2, h2⟩, hr, hk⟩
        · exact ⟨_, _, finish _ _ s2 h2, nofun, gen _ _ (by simp), nofun⟩
        · exact ⟨_, _, finish _ _ s2 h2, nofun, gen _ _ (by simp), nofun⟩
        · refine ⟨_, _, finish _ _ s2 h2, ?_, gen _ _ (by simp), ?_⟩
          · intro e he
            cases r <;> cases he
          · intro k he
            cases r with
            | ok k' =>
              cases he
              obtain ⟨c, rfl, hs⟩ := (hk k).mp rfl
              exact ⟨conn, key, c, hs, rfl⟩
            | err e => cases he
            | panic => cases he

/-- What the program asks about a slot, and the line it prints for the answers. -/
inductive SlotLine (X : X509Env) (C : Crypto) (slotText : Nat → List Char) (conn slot : Nat) : List YkEvent → List Char → Prop
  | none (o o' : Option SlotCert) : (∀ c c' k, o = some c → o' = some c' → ¬ SlotKey X c' k) →
      SlotLine X C slotText conn slot [.read conn slot o, .read conn slot o'] ('\t' :: slotText slot ++ ":\tNo cert found\n".toList)
  | key (c c' : SlotCert) (k : PublicKey) (b : Bytes) (a : Option Bytes) : SlotKey X c' k → k.encode = .ok b →
      SlotLine X C slotText conn slot [.read conn slot (some c), .read conn slot (some c'), .attest conn slot a]
        ('\t' :: slotText slot ++ ":\t[Fingerprint: ".toList ++ (Fingerprint.compute C .sha256 b).hash ++ "] [Attest: ".toList ++
          (if a = none then "No " else "Yes").toList ++ "] Subject: [".toList ++ c.subject.toList ++ "]\n".toList)

/-- What `attempt` makes of a result. -/
def attemptRes : YkRes α → YkRes (Option α)
  | .ok a => .ok (some a)
  | .err _ => .ok none
  | .panic => .panic

theorem DoesTo.attempt {D : YkDev σ} {m : Yk σ α} {s s1 : σ} {a : List YkEvent} {r : YkRes α} (h1 : DoesTo D m s a r s1) :
    DoesTo D (Examples.attempt m) s a (attemptRes r) s1 := by
  refine ⟨h1.1, fun tr => ?_⟩
  unfold Examples.attempt
  rw [h1.2 tr]
  cases r <;> rfl

theorem slotLine_does (X : X509Env) (C : Crypto) (D : YkDev σ) (slotText : Nat → List Char) (conn slot : Nat) (s : σ) :
    ∃ ev l s', DoesTo D (slotLine X C D slotText conn slot) s ev (.ok l) s' ∧ SlotLine X C slotText conn slot ev l := by
  have h1 : DoesTo D (Yk.fetchSubject D conn slot) s [.read conn slot (D.read conn slot s).1]
      (answerMap SlotCert.subject (D.read conn slot s).1) (D.read conn slot s).2 := read_then ..
  have h1 := h1.attempt
  have h2 := (fetchPubkey_does X D conn slot (D.read conn slot s).2).attempt
  generalize (D.read conn slot s).2 = s1 at *
  generalize (D.read conn slot s).1 = o at *
  generalize (D.read conn slot s1).2 = s2 at *
  generalize (D.read conn slot s1).1 = o' at *
  have hn : ∀ (subj : Option String) (key : Option PublicKey), DoesTo D (Examples.attempt (Yk.fetchSubject D conn slot)) s
        [.read conn slot o] (.ok subj) s1 →
      DoesTo D (Examples.attempt (Yk.fetchPubkey X D conn slot)) s1 [.read conn slot o'] (.ok key) s2 →
      (subj = .none ∨ key = .none) → (∀ c c' k, o = some c → o' = some c' → ¬ SlotKey X c' k) →
      ∃ ev l s', DoesTo D (slotLine X C D slotText conn slot) s ev (.ok l) s' ∧ SlotLine X C slotText conn slot ev l := by
    intro subj key g1 g2 hn hno
    have h3 : DoesTo D (slotReport C D slotText conn slot subj key) s2 []
        (.ok (println ('\t' :: slotText slot ++ ":\tNo cert found".toList))) s2 := by
      unfold slotReport
      rcases hn with rfl | rfl
      · exact DoesTo.pure _
      · cases subj <;> exact DoesTo.pure _
    refine ⟨_, _, _, g1.bind (g2.bind h3), ?_⟩
    have := SlotLine.none (C := C) (slotText := slotText) (conn := conn) (slot := slot) o o' hno
    simpa [println] using this
  cases o with
  | none =>
    cases o' with
    | none => exact hn _ _ h1 h2 (.inl rfl) (fun _ _ _ e => by cases e)
    | some c =>
      dsimp only at h2
      cases h : pubkeyRes X c.bytes with
      | ok k => rw [h] at h2; exact hn _ _ h1 h2 (.inl rfl) (fun _ _ _ e => by cases e)
      | err e => rw [h] at h2; exact hn _ _ h1 h2 (.inl rfl) (fun _ _ _ e => by cases e)
      | panic => exact absurd h (pubkeyRes_noPanic X c.bytes)
  | some c =>
    cases o' with
    | none => exact hn _ _ h1 h2 (.inr rfl) (fun _ _ _ _ e => by cases e)
    | some c' =>
      dsimp only at h2
      cases h : pubkeyRes X c'.bytes with
      | panic => exact absurd h (pubkeyRes_noPanic X c'.bytes)
      | err e =>
        rw [h] at h2
        refine hn _ _ h1 h2 (.inr rfl) ?_
        intro _ _ k _ e' hk
        cases e'
        rw [slotKey_iff, ← pubkeyRes_ok, h] at hk
        cases hk
      | ok k =>
        rw [h] at h2
        have hk : SlotKey X c' k := slotKey_iff.mpr (pubkeyRes_ok.mp h)
        have h3 : DoesTo D (Yk.fetchAttestation D conn slot) s2 [.attest conn slot (D.attest conn slot s2).1]
            (answer (D.attest conn slot s2).1) (D.attest conn slot s2).2 := DoesTo.ask (ev := .attest conn slot) rfl rfl
        have h3 := h3.attempt
        obtain ⟨b, hb⟩ : ∃ b, k.encode = .ok b := by
          obtain ⟨i, oid, _, _, hk⟩ := hk
          obtain ⟨curve, hc, hkind, _, _, hsk, _⟩ := C66_consistent _ _ _ hk
          rw [encode_eq, hkind, hsk]
          exact ⟨_, rfl⟩
        have hf : k.fingerprintWith C .sha256 = .ok (Fingerprint.compute C .sha256 b) := by
          unfold PublicKey.fingerprintWith
          rw [hb]
          rfl
        generalize (D.attest conn slot s2).2 = s3 at *
        generalize (D.attest conn slot s2).1 = a at *
        have e3 : attemptRes (answer a) = .ok a := by cases a <;> rfl
        rw [e3] at h3
        have hl := SlotLine.key (C := C) (slotText := slotText) (conn := conn) (slot := slot) c c' k b a hk hb
        have h4 : DoesTo D (slotReport C D slotText conn slot (some c.subject) (some k)) s2 [.attest conn slot a]
            (.ok (println ('\t' :: slotText slot ++ ":\t[Fingerprint: ".toList ++ (Fingerprint.compute C .sha256 b).hash ++
              "] [Attest: ".toList ++ (if a.isSome then "Yes" else "No ").toList ++ "] Subject: [".toList ++
              c.subject.toList ++ [']']))) s3 := by
          unfold slotReport
          refine (h3.bind (b := []) (s2 := s3) ?_).congr (List.append_nil _)
          rw [hf]
          exact DoesTo.pure _
        refine ⟨_, _, _, h1.bind (h2.bind h4), ?_⟩
        have e : (if a.isSome = true then "Yes" else "No ") = (if a = .none then "No " else "Yes") := by cases a <;> rfl
        rw [e]
        simpa [println] using hl

theorem slotLines_does (X : X509Env) (C : Crypto) (D : YkDev σ) (slotText : Nat → List Char) (conn : Nat) (slots : List Nat) :
    ∀ s, ∃ (rs : List (Nat × List YkEvent × List Char)) (s' : σ), rs.map (·.1) = slots ∧
      (∀ r ∈ rs, SlotLine X C slotText conn r.1 r.2.1 r.2.2) ∧
      DoesTo D (slotLines X C D slotText conn slots) s (rs.map (·.2.1)).flatten (.ok (rs.map (·.2.2)).flatten) s' := by
  induction slots with
  | nil => intro s; exact ⟨[], s, rfl, by simp, DoesTo.pure _⟩
  | cons slot rest ih =>
    intro s
    obtain ⟨ev, l, s1, h1, hl⟩ := slotLine_does X C D slotText conn slot s
    obtain ⟨rs, s2, hm, hr, h2⟩ := ih s1
    refine ⟨(slot, ev, l) :: rs, s2, by simp [hm], ?_, ?_⟩
    · intro r h
      rcases List.mem_cons.mp h with rfl | h
      · exact hl
      · exact hr r h
    unfold slotLines
    simp only [List.map_cons, List.flatten_cons]
    exact h1.bind ((h2.bind (f := fun more => Pure.pure (l ++ more)) (b := []) (DoesTo.pure _)).congr (List.append_nil _))

/-- C119: yk-fingerprint panics exactly if there is no token; otherwise it asks about each of its slots (0x9e twice) and prints a
line for the answers.  It only opens a token, reads certificates and fetches attestations. -/
theorem C119_fingerprint (X : X509Env) (C : Crypto) (D : YkDev σ) (slotText : Nat → List Char) (s : σ) :
    Does D (ykFingerprint X C D slotText) s [.openFirst none] .panic ∨
    ∃ conn, ∃ normal retired : List (Nat × List YkEvent × List Char),
      normal.map (·.1) = [0x9a, 0x9c, 0x9e, 0x9d, 0x9e, 0xf9] ∧ retired.map (·.1) = (List.range 20).map (0x82 + ·) ∧
      (∀ r ∈ normal ++ retired, SlotLine X C slotText conn r.1 r.2.1 r.2.2) ∧
      Does D (ykFingerprint X C D slotText) s
        (.openFirst (some conn) :: (normal.map (·.2.1)).flatten ++ (retired.map (·.2.1)).flatten)
        (.ok ("Normal Slots:\n".toList ++ (normal.map (·.2.2)).flatten ++ "Retired Slots:\n".toList ++
          (retired.map (·.2.2)).flatten)) := by
  unfold ykFingerprint
  have h0 := (new_does D s).unwrap
  cases hc : (D.openFirst s).1 with
  | none =>
    rw [hc] at h0
    exact .inl h0.bind_panic.does
  | some conn =>
    rw [hc] at h0
    obtain ⟨normal, s1, m1, l1, h1⟩ := slotLines_does X C D slotText conn normalSlots (D.openFirst s).2
    obtain ⟨retired, s2, m2, l2, h2⟩ := slotLines_does X C D slotText conn retiredSlots s1
    refine .inr ⟨conn, normal, retired, m1, m2, ?_, ?_⟩
    · intro r hr
      rcases List.mem_append.mp hr with hr | hr
      · exact l1 r hr
      · exact l2 r hr
    · have h3 := h2.bind (f := fun r => Pure.pure (println "Normal Slots:".toList ++ (normal.map (·.2.2)).flatten ++
        println "Retired Slots:".toList ++ r)) (DoesTo.pure _)
      rw [List.append_nil] at h3
      have h4 := h1.bind (f := fun n => slotLines X C D slotText conn retiredSlots >>= fun r =>
        Pure.pure (println "Normal Slots:".toList ++ n ++ println "Retired Slots:".toList ++ r)) h3
      exact (h0.bind (f := fun conn => slotLines X C D slotText conn normalSlots >>= fun n =>
        slotLines X C D slotText conn retiredSlots >>= fun r =>
        Pure.pure (println "Normal Slots:".toList ++ n ++ println "Retired Slots:".toList ++ r)) h4).does

/-- C119: nothing on a token is changed or used by yk-fingerprint. -/
theorem C119_fingerprint_reads (X : X509Env) (C : Crypto) (D : YkDev σ) (slotText : Nat → List Char) (s : σ) (ev : List YkEvent)
    (r : YkRes (List Char)) (h : Does D (ykFingerprint X C D slotText) s ev r) :
    ∀ e ∈ ev, (∃ o, e = .openFirst o) ∨ (∃ c sl o, e = .read c sl o) ∨ ∃ c sl o, e = .attest c sl o := by
  rcases C119_fingerprint X C D slotText s with h' | ⟨conn, normal, retired, _, _, hl, h'⟩
  · obtain ⟨rfl, _⟩ := h.det h'
    simp
  · obtain ⟨rfl, _⟩ := h.det h'
    intro e he
    have key : ∀ r ∈ normal ++ retired, ∀ e ∈ r.2.1, (∃ o, e = .openFirst o) ∨ (∃ c sl o, e = .read c sl o) ∨ ∃ c sl o, e = .attest c sl o := by
      intro r hr e he
      have := hl r hr
      generalize r.2.1 = ev at *
      generalize r.2.2 = l at *
      cases this with
      | none o o' =>
        simp only [List.mem_cons, List.not_mem_nil, or_false] at he
        rcases he with rfl | rfl
        · exact .inr (.inl ⟨_, _, _, rfl⟩)
        · exact .inr (.inl ⟨_, _, _, rfl⟩)
      | key c c' k b a =>
        simp only [List.mem_cons, List.not_mem_nil, or_false] at he
        rcases he with rfl | rfl | rfl
        · exact .inr (.inl ⟨_, _, _, rfl⟩)
        · exact .inr (.inl ⟨_, _, _, rfl⟩)
        · exact .inr (.inr ⟨_, _, _, rfl⟩)
    rcases List.mem_append.mp he with he | he
    · rcases List.mem_cons.mp he with rfl | he
      · exact .inl ⟨_, rfl⟩
      · obtain ⟨l, hl', he⟩ := List.mem_flatten.mp he
        obtain ⟨r, hr, rfl⟩ := List.mem_map.mp hl'
        exact key r (List.mem_append_left _ hr) e he
    · obtain ⟨l, hl', he⟩ := List.mem_flatten.mp he
      obtain ⟨r, hr, rfl⟩ := List.mem_map.mp hl'
      exact key r (List.mem_append_right _ hr) e he

/-! ## C120: into-ssh-pubkey and new-fido-sshkey -/

/-- C120: what into-ssh-pubkey prints for a file with an elliptic curve key is read back as that key; otherwise it prints the error.
It never panics. -/
theorem C120_into (X : X509Env) (T : ForeignTexts) (disk : Disk) (path : String) (contents : Bytes) (h : disk path = some contents)
    (hX : ∀ oid point o, X.derSequence contents = some o → EcDer oid point o → point.length < 4294967296) :
    (∃ k out, derEncodingToSshPublicKey X contents = .ok k ∧ intoSshPubkey X T disk [path] = .ok out ∧
      PublicKey.fromString out = .ok k) ∨
    ∃ e, derEncodingToSshPublicKey X contents = .err e ∧ intoSshPubkey X T disk [path] = .ok ("Error: ".toList ++ e.text T ++ ['\n']) := by
  unfold intoSshPubkey
  dsimp only
  rw [h]
  dsimp only
  cases hd : derEncodingToSshPublicKey X contents with
  | panic => exact absurd hd (C66_total X contents).2.2
  | err e => exact .inr ⟨e, rfl, rfl⟩
  | ok k =>
    left
    obtain ⟨o, oid, point, h1, h2, h3⟩ := (C66_der X contents k).mp hd
    have hw := C20_x509 oid point k h3 (hX _ _ _ h1 h2)
    obtain ⟨curve, hc, hk, hn, _, hsk, hcert⟩ := C66_consistent _ _ _ h3
    obtain ⟨_, _, _, _, hm, _, hcom⟩ := h3
    have hpl : ∀ t ∈ keyTypes, ∀ c ∈ curves, t.name = "ecdsa-sha2-" ++ c.identifier → t.name = t.plain := by decide +kernel
    obtain ⟨⟨t, ht, hp⟩, _⟩ := pub_text_roundtrip k hw (hpl _ hm _ hc hn) (by rw [hcom]; intro c hc; cases hc)
    refine ⟨k, println t, rfl, ?_, by rw [publicKey_println]; exact hp⟩
    dsimp only
    rw [ht]
    rfl

/-- C120: new-fido-sshkey prints a public key that is read back as the public half of the generated key, and the file it writes
is read back as a private key with that public half and the key handle.  The PIN goes nowhere. -/
theorem C120_fido (F : Features) (C : Crypto) (X : X509Env) (T : ForeignTexts) (yubicoRoot application comment : String)
    (pin path : Option String) (challenge : Bytes) (att : CtapAttestation) (k : FidoSshKey) (o : String)
    (h : ctapGenerate X C yubicoRoot application comment pin path challenge (.ok att) = .ok k)
    (hs : application.utf8ByteSize < 4294967296 ∧ comment.utf8ByteSize < 4294967296 ∧ att.credentialId.length < 4294967296 ∧
      att.authData.length < 4294967296)
    (hl : ∀ w, k.privateKey.encode = .ok w → w.length < 4294967296) :
    ∃ pub t k' flags, newFidoSshkey T (.ok k) (some o) = .ok (pub, some t) ∧
      newFidoSshkey T (.ok k) none = .ok (pub ++ "Your new private key handle:\n".toList ++ t ++ ['\n'], none) ∧
      PublicKey.fromString pub = .ok k.privateKey.pubkey ∧
      PrivateKey.fromString F C t = .ok k' ∧ k'.pubkey = k.privateKey.pubkey ∧ k'.comment = comment ∧
      ReportedFlags att flags ∧
      (k'.kind = .ecdsaSk ⟨flags, att.credentialId, [], none, none⟩ ∨
       k'.kind = .ed25519Sk ⟨flags, att.credentialId, [], none, none⟩) := by
  obtain ⟨s, t, hk, ht, hr⟩ := C73_file F C X yubicoRoot application comment pin path none challenge att k h hs hl
  obtain ⟨att', v, e, _, hv, hp, hn, hm, _, hcm, hkind⟩ := (ctap_ok ..).mp h
  cases e
  obtain ⟨_, _, _, hpar, _⟩ := verifyAuthData_ok.mp hv
  have hw := C20_fido att.authData v.authData application k.privateKey.pubkey hpar hp ⟨hs.2.2.2, hs.1⟩
  obtain ⟨hc, hcase⟩ := (C62_ssh_key ..).mp hp
  have hpl : ∀ t ∈ keyTypes, t.name = "sk-ecdsa-sha2-nistp256@openssh.com" ∨ t.name = "sk-ssh-ed25519@openssh.com" → t.name = t.plain := by
    decide +kernel
  have hpn : k.privateKey.pubkey.keyType.name = k.privateKey.pubkey.keyType.plain := by
    rcases hcase with ⟨_, a, b, _⟩ | ⟨_, a, b, _⟩
    · exact hpl _ b (.inl a)
    · exact hpl _ b (.inr a)
  obtain ⟨⟨p, hpt, hpp⟩, _⟩ := pub_text_roundtrip _ hw hpn (by rw [hc]; intro c hc; cases hc)
  have hs' : s = ⟨att.flags, att.credentialId, [], pin, path⟩ := by
    rw [hkind] at hk
    cases hk
    rfl
  subst hs'
  refine ⟨println p, t, _, _, ?_, ?_, by rw [publicKey_println]; exact hpp, hr, ?_, hcm, flags_spec att, ?_⟩
  · unfold newFidoSshkey
    simp only [hpt, ht, Res.ok_bind]
    rfl
  · unfold newFidoSshkey
    simp only [hpt, ht, Res.ok_bind]
    simp [println]
  · show ({ k.privateKey.pubkey with comment := none } : PublicKey) = _
    rw [← hc]
  · rcases hcase with ⟨_, _, _, c, _, _, hkk⟩ | ⟨_, _, _, hkk⟩
    · left
      unfold stored
      dsimp only
      rw [hkk]
    · right
      unfold stored
      dsimp only
      rw [hkk]

/-- C120: a failure is reported on standard output, and no file is written. -/
theorem C120_fido_failure (T : ForeignTexts) (e : Err) (o : Option String) :
    newFidoSshkey T (.err e) o = .ok ("Failed to generate new SSH Key: ".toList ++ e.text T ++ ['\n'], none) := rfl

/-! ## Samples -/

/-- The program can print a certificate, and the hypotheses of C118 hold for the sample parsers and token. -/
example : SmallKeys samplePivX ∧ Certificate.standardExtensions.Perm Certificate.standardExtensions ∧
    (∀ s' m t, yubikeySigner samplePivX signingCrypto stableToken 9 s' m = .ok (some t) → t.length < 4294967296) ∧
    ∃ out, signCertWithYubikey samplePivX signingCrypto stableToken ((), []) sampleDisk (some (Vector.replicate 32 7))
      (some (Vector.replicate 8 1)) Certificate.standardExtensions 9 "/key.pub" "me" = .ok out := by
  refine ⟨?_, List.Perm.refl _, ?_, ?_⟩
  · intro b i h
    unfold samplePivX at h
    dsimp only at h
    repeat' split at h
    all_goals cases h <;> decide
  · intro s' m t h
    have : (yubikeySigner samplePivX signingCrypto stableToken 9 s' m) = yubikeySigner samplePivX signingCrypto stableToken 9 ((), []) [] := rfl
    rw [this] at h
    have : ∀ t, yubikeySigner samplePivX signingCrypto stableToken 9 ((), []) [] = .ok (some t) → t.length < 4294967296 := by
      have e : (match yubikeySigner samplePivX signingCrypto stableToken 9 ((), []) [] with
        | .ok (some t) => decide (t.length < 4294967296) | _ => true) = true := by decide +kernel
      intro t h
      rw [h] at e
      exact of_decide_eq_true e
    exact this t h
  · have e : ∀ r : Res (List Char), (match r with | .ok _ => true | _ => false) = true → ∃ out, r = .ok out := by
      intro r h
      cases r with
      | ok o => exact ⟨o, rfl⟩
      | err e => cases h
      | panic => cases h
    apply e
    unfold signCertWithYubikey request
    rw [sampleDisk_key]
    decide +kernel

example : (provisionNewKey samplePivX sampleToken 9 "me" [1, 2] (List.replicate 24 7) "p384" true (none, [])).1 = .ok sampleP384 ∧
    (provisionNewKey samplePivX sampleToken 9 "me" [1, 3] (List.replicate 24 7) "p384" true (none, [])) =
      (.panic, (none, [.openFirst (some 1), .verifyPin 1 [1, 3] false])) := by
  constructor <;> decide +kernel

example : (match (ykFingerprint samplePivX signingCrypto stableToken (fun n => (Nat.repr n).toList) ((), [])) with
    | (.ok t, (_, ev)) => ("Normal Slots:\n\t154:\t[Fingerprint: ".toList.isPrefixOf t) && decide (60 < ev.length)
    | _ => false) = true := by
  decide +kernel

example (T : ForeignTexts) : ∃ out, intoSshPubkey samplePivX T (fun _ => some [4, 7]) ["/key.der"] = .ok out ∧
    PublicKey.fromString out = .ok sampleP256 := by
  have e : derEncodingToSshPublicKey samplePivX [4, 7] = .ok sampleP256 := by decide +kernel
  have hX : ∀ oid point o, samplePivX.derSequence [4, 7] = some o → EcDer oid point o → point.length < 4294967296 := by
    intro oid point o h1 h2
    obtain ⟨o', oid', point', g1, g2, g3⟩ := (C66_der samplePivX [4, 7] sampleP256).mp e
    cases h1
    cases h2
    decide
  rcases C120_into samplePivX T (fun _ => some [4, 7]) "/key.der" [4, 7] rfl hX with ⟨k, out, h1, h2, h3⟩ | ⟨e', h1, _⟩
  · rw [e] at h1
    cases h1
    exact ⟨out, h2, h3⟩
  · rw [e] at h1
    cases h1

example (F : Features) (T : ForeignTexts) : ∃ k pub t k', ctapGenerate sampleFidoX sampleGenC "" "ssh:" "me" none none [7] (.ok sampleAnswer) = .ok k ∧
    newFidoSshkey T (.ok k) (some "/key") = .ok (pub, some t) ∧ PublicKey.fromString pub = .ok k.privateKey.pubkey ∧
    PrivateKey.fromString F sampleGenC t = .ok k' ∧ k'.pubkey = k.privateKey.pubkey := by
  obtain ⟨k, hk, _⟩ := sample_generates
  have hall : (match ctapGenerate sampleFidoX sampleGenC "" "ssh:" "me" none none [7] (.ok sampleAnswer) with
      | .ok k => (match k.privateKey.encode with | .ok w => decide (w.length < 4294967296) | _ => true)
      | _ => true) = true := by decide +kernel
  obtain ⟨pub, t, k', _, h1, _, h2, h3, h4, _⟩ := C120_fido F sampleGenC sampleFidoX T "" "ssh:" "me" none none [7] sampleAnswer k "/key" hk
    (by decide +kernel) (by
      intro w hw
      rw [hk] at hall
      dsimp only at hall
      rw [hw] at hall
      exact of_decide_eq_true hall)
  exact ⟨k, pub, t, k', hk, h1, h2, h3, h4⟩

end Ssh
