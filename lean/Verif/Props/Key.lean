import Verif.Lemmas.Key
import Verif.Lemmas.TextSpec

/-! # C13–C20 and C69: key types, public keys, fingerprints, base64 -/

namespace Ssh

open Spec

/-! ## C13 -/

/-- C13: a key type obtained by name. -/
theorem C13_known (n : String) (kt : KeyType) (h : KeyType.fromName n = .ok kt) :
    kt.name = n ∧
    (∃ p, KeyType.fromName kt.asPubkeyName = .ok p ∧ p.isCert = false ∧ p.plain = kt.plain ∧
      p.isSk = kt.isSk ∧ family p.kind = family kt.kind) ∧
    (∃ cn c, kt.asCertName = .ok cn ∧ KeyType.fromName cn = .ok c ∧ c.isCert = true ∧
      c.plain = kt.plain ∧ c.isSk = kt.isSk ∧ family c.kind = family kt.kind) ∧
    (kt.isCert = true ↔ "-cert-v01@openssh.com".toList <:+ n.toList) ∧
    (kt.isSk = true ↔ "sk-".toList <+: n.toList) := by
  obtain ⟨hm, rfl⟩ := fromName_ok.mp h
  refine ⟨rfl, ?_, ?_, ?_⟩
  · obtain ⟨p, hp, h1, h2, h3, h4, h5⟩ := exists_plain hm
    exact ⟨p, fromName_ok.mpr ⟨hp, h1⟩, h3, h2, h4, h5⟩
  · obtain ⟨c, hc, h1, h2, h3, h4, h5⟩ := table_cert kt hm
    exact ⟨c.name, c, h1, fromName_ok.mpr ⟨hc, rfl⟩, h2, h3, h4, h5⟩
  · have : ∀ kt ∈ keyTypes, (kt.isCert = true ↔ "-cert-v01@openssh.com".toList <:+ kt.name.toList) ∧
      (kt.isSk = true ↔ "sk-".toList <+: kt.name.toList) := by decide +kernel
    exact this kt hm

/-- C13: every other name is rejected. -/
theorem C13_unknown (n : String) : KeyType.fromName n = .err (.unknownKeyType n) ↔
    n ∉ ["ssh-rsa", "rsa-sha2-256", "rsa-sha2-512", "ssh-rsa-cert-v01@openssh.com",
      "ecdsa-sha2-nistp256", "ecdsa-sha2-nistp384", "ecdsa-sha2-nistp521",
      "ecdsa-sha2-nistp256-cert-v01@openssh.com", "ecdsa-sha2-nistp384-cert-v01@openssh.com",
      "ecdsa-sha2-nistp521-cert-v01@openssh.com", "ssh-ed25519", "ssh-ed25519-cert-v01@openssh.com",
      "sk-ssh-ed25519@openssh.com", "sk-ssh-ed25519-cert-v01@openssh.com",
      "sk-ecdsa-sha2-nistp256@openssh.com", "sk-ecdsa-sha2-nistp256-cert-v01@openssh.com"] := by
  have e : _ = keyTypes.map (·.name) := show ["ssh-rsa", "rsa-sha2-256", "rsa-sha2-512",
      "ssh-rsa-cert-v01@openssh.com",
      "ecdsa-sha2-nistp256", "ecdsa-sha2-nistp384", "ecdsa-sha2-nistp521",
      "ecdsa-sha2-nistp256-cert-v01@openssh.com", "ecdsa-sha2-nistp384-cert-v01@openssh.com",
      "ecdsa-sha2-nistp521-cert-v01@openssh.com", "ssh-ed25519", "ssh-ed25519-cert-v01@openssh.com",
      "sk-ssh-ed25519@openssh.com", "sk-ssh-ed25519-cert-v01@openssh.com",
      "sk-ecdsa-sha2-nistp256@openssh.com", "sk-ecdsa-sha2-nistp256-cert-v01@openssh.com"] = _ from rfl
  rw [e]
  constructor
  · intro h hm
    obtain ⟨kt, h1, h2⟩ := List.mem_map.mp hm
    rw [fromName_ok.mpr ⟨h1, h2⟩] at h
    cases h
  · intro h
    rcases fromName_cases n with ⟨kt, hk⟩ | hk
    · obtain ⟨h1, h2⟩ := fromName_ok.mp hk
      exact absurd (List.mem_map.mpr ⟨kt, h1, h2⟩) h
    · exact hk

/-- C13: `Curve::from_identifier` succeeds on exactly three texts, with the curve of that name; every other text is
rejected with itself in the error; it never panics. -/
theorem C13_curve (n : String) :
    (∀ k i, Curve.fromIdentifier n = .ok ⟨k, i⟩ ↔
      i = n ∧ (n, k) ∈ [("nistp256", CurveKind.nistp256), ("nistp384", .nistp384), ("nistp521", .nistp521)]) ∧
    (∀ e, Curve.fromIdentifier n = .err e ↔ n ∉ ["nistp256", "nistp384", "nistp521"] ∧ e = .unknownCurve n) ∧
    Curve.fromIdentifier n ≠ .panic := by
  refine ⟨fun k i => ?_, fun e => ?_, fromIdentifier_noPanic n⟩
  · unfold Curve.fromIdentifier
    split
    · next h => subst h; cases k <;> simp [eq_comm]
    split
    · next h => subst h; cases k <;> simp [eq_comm]
    split
    · next h => subst h; cases k <;> simp [eq_comm]
    · next h1 h2 h3 => simp [h1, h2, h3]
  · unfold Curve.fromIdentifier
    split
    · next h => simp [h]
    split
    · next h => simp [h]
    split
    · next h => simp [h]
    · next h1 h2 h3 => simp [h1, h2, h3, eq_comm]

/-- C13: the identifiers of curves and the names of key types agree: an identifier is known exactly if prefixing it with
`ecdsa-sha2-` makes the name of a known plain key type, which then is of the ECDSA kind. -/
theorem C13_curve_names (n : String) : (∃ c, Curve.fromIdentifier n = .ok c) ↔
    ∃ kt, KeyType.fromName ("ecdsa-sha2-" ++ n) = .ok kt ∧ kt.isCert = false ∧ kt.kind = .ecdsa := by
  constructor
  · rintro ⟨⟨k, i⟩, h⟩
    have := ((C13_curve n).1 k i).mp h
    simp only [List.mem_cons, Prod.mk.injEq, List.not_mem_nil, or_false] at this
    rcases this.2 with ⟨rfl, _⟩ | ⟨rfl, _⟩ | ⟨rfl, _⟩ <;> exact ⟨_, rfl, rfl, rfl⟩
  · rintro ⟨kt, h, hc, hk⟩
    obtain ⟨hm, hn⟩ := fromName_ok.mp h
    have all : ∀ kt ∈ keyTypes, kt.isCert = false → "ecdsa-sha2-".toList <+: kt.name.toList →
        kt.name.toList.drop 11 ∈ ["nistp256".toList, "nistp384".toList, "nistp521".toList] := by decide +kernel
    have hd := all kt hm hc (by rw [hn, String.toList_append]; exact List.prefix_append _ _)
    rw [hn, String.toList_append, List.drop_append_of_le_length (by decide)] at hd
    have e : ("ecdsa-sha2-".toList.drop 11) = [] := by decide
    rw [e, List.nil_append] at hd
    simp only [List.mem_cons, List.not_mem_nil, or_false, String.toList_inj] at hd
    rcases hd with rfl | rfl | rfl <;> exact ⟨_, rfl⟩

example : Curve.fromIdentifier "nistp384" = .ok ⟨.nistp384, "nistp384"⟩ := rfl

example : Curve.fromIdentifier "ed25519" = .err (.unknownCurve "ed25519") := by decide +kernel

example : ∃ kt, KeyType.fromName "sk-ecdsa-sha2-nistp256-cert-v01@openssh.com" = .ok kt ∧
    kt.asCertName = .ok "sk-ecdsa-sha2-nistp256-cert-v01@openssh.com" := ⟨_, rfl, by decide +kernel⟩

/-! ## Sample keys used to show that hypotheses can be met -/

/-- An Ed25519 key. -/
def sampleEd : PublicKey :=
  ⟨⟨"ssh-ed25519", "ssh-ed25519", "ED25519", false, false, .ed25519⟩, .ed25519 [1, 2, 3] none, some "me@host"⟩

/-- A hardware ECDSA key. -/
def sampleSk : PublicKey :=
  ⟨⟨"sk-ecdsa-sha2-nistp256@openssh.com", "sk-ecdsa-sha2-nistp256@openssh.com", "ECDSA-SK", false, true, .ecdsa⟩,
    .ecdsa ⟨.nistp256, "nistp256"⟩ [4, 9] (some "ssh:"), none⟩

/-- An RSA key with a certificate type. -/
def sampleRsa : PublicKey :=
  ⟨⟨"ssh-rsa-cert-v01@openssh.com", "ssh-rsa", "RSA-CERT", true, false, .rsaCert⟩, .rsa [1, 0, 1] [0x90, 7], none⟩

theorem sampleEd_wf : WellFormedKey sampleEd :=
  ⟨by decide +kernel, rfl, by decide, rfl⟩

theorem sampleSk_wf : WellFormedKey sampleSk :=
  ⟨by decide +kernel, rfl, by decide, by decide, rfl, by decide⟩

theorem sampleRsa_wf : WellFormedKey sampleRsa :=
  ⟨by decide +kernel, rfl, ⟨by simp [Shortest], by decide⟩, ⟨by simp [Shortest], by decide⟩⟩

/-! ## C14 -/

/-- C14: decoding the encoding of a well-formed key, whatever follows it, gives the same key
material, the plain key type and no comment. -/
theorem C14_roundtrip (k : PublicKey) (suf : Bytes) (h : WellFormedKey k) :
    ∃ b p, k.encode = .ok b ∧ p ∈ keyTypes ∧ p.name = k.keyType.plain ∧ p.isCert = false ∧
      PublicKey.fromBytes (b ++ suf) = .ok { keyType := p, kind := k.kind, comment := none } := by
  obtain ⟨p, b, m, hp, h1, h2, h3, h4, h5, hm, _, he, hb⟩ := encode_wellFormed h
  exact ⟨b, p, he, hp, h1, h3, fromBytes_ok.mpr ⟨b, suf, rfl, hb, rfl⟩⟩

/-- C14: a key of a plain type without comment is reproduced. -/
theorem C14_roundtrip_plain (k : PublicKey) (h : WellFormedKey k) (hp : k.keyType.name = k.keyType.plain)
    (hc : k.comment = none) : ∃ b, k.encode = .ok b ∧ PublicKey.fromBytes b = .ok k := by
  obtain ⟨b, p, he, hpm, h1, _, hb⟩ := C14_roundtrip k [] h
  have : p = k.keyType := table_name_inj p hpm _ h.1 (h1.trans hp.symm)
  subst this
  refine ⟨b, he, ?_⟩
  rw [List.append_nil] at hb
  rw [hb]
  congr 1
  cases k
  simp only at hc
  rw [hc]

example : WellFormedKey sampleRsa ∧ WellFormedKey sampleSk ∧ sampleSk.keyType.name = sampleSk.keyType.plain :=
  ⟨sampleRsa_wf, sampleSk_wf, rfl⟩

/-! ## C15 -/

/-- C15: `from_bytes` accepts exactly inputs starting with the wire encoding of a key. -/
theorem C15_from_bytes (data : Bytes) (k : PublicKey) : PublicKey.fromBytes data = .ok k ↔
    ∃ w rest, data = w ++ rest ∧ KeyBlob k w ∧ k.comment = none := fromBytes_ok

/-- C15: it never panics. -/
theorem C15_total (data : Bytes) : PublicKey.fromBytes data ≠ .panic := fromBytes_noPanic data

/-- C15: re-encoding a key parsed under a plain type name reproduces the accepted bytes; under any
other type name the fields are reproduced after the plain name. -/
theorem C15_reencode (data : Bytes) (k : PublicKey) (h : PublicKey.fromBytes data = .ok k) :
    ∃ w1 w2 w1' rest, data = w1 ++ w2 ++ rest ∧ Text k.keyType.name w1 ∧ Text k.keyType.plain w1' ∧
      k.encode = .ok (w1' ++ w2) ∧ (k.keyType.name = k.keyType.plain → w1' = w1) := by
  obtain ⟨w, rest, rfl, ⟨hk, w1, w2, rfl, h1, h2⟩, _⟩ := fromBytes_ok.mp h
  refine ⟨w1, w2, frameStr k.keyType.plain, rest, rfl, h1, frameStr_plain hk, ?_, ?_⟩
  · rw [encode_eq, keyMaterial_of h2]; simp [Res.unwrap]
  · intro e; rw [← e, h1.eq]

/-- C15: two different keys are never read from the same input, and the consumed bytes are
determined too. -/
theorem C15_unambiguous (k k' : PublicKey) (w w' rest rest' : Bytes) (h : KeyBlob k w)
    (h' : KeyBlob k' w') (hc : k.comment = none) (hc' : k'.comment = none)
    (e : w ++ rest = w' ++ rest') : k = k' ∧ w = w' :=
  have := keyBlob_parses.unique ⟨h, hc⟩ ⟨h', hc'⟩ e
  ⟨this.1, this.2.1⟩

example : ∃ w, KeyBlob { sampleEd with comment := none } w :=
  ⟨_, by decide +kernel, _, _, rfl, ⟨by decide, rfl⟩, rfl, _, [], rfl, ⟨by decide, rfl⟩, rfl⟩

/-! ## C17: the text form -/

/-- `from_string` succeeds exactly when the text has a label word equal to the type name inside
the blob decoded from the second word; the comment is the third word. -/
theorem pubFromString_iff (s : List Char) (k : PublicKey) : PublicKey.fromString s = .ok k ↔
    ∃ label data rest blob w tl, splitWhitespace s = label :: data :: rest ∧
      b64Decode data = some blob ∧ blob = w ++ tl ∧ KeyBlob k w ∧ k.keyType.name.toList = label ∧
      k.comment = rest.head?.map String.ofList := by
  unfold PublicKey.fromString
  constructor
  · intro h
    split at h
    · cases h
    · cases h
    rename_i kt data rest hs
    simp only at h
    cases hn : KeyType.fromName (String.ofList kt) with
    | err e => rw [hn] at h; cases h
    | panic => rw [hn] at h; cases h
    | ok keyType =>
      rw [hn] at h
      cases hd : b64Decode data with
      | none => rw [hd] at h; cases h
      | some blob =>
        rw [hd] at h
        simp only [Res.ok_bind, Res.ofOption] at h
        generalize hr : Reader.readString (Reader.new blob) = x at h
        rw [Rd.bind_eq, hr] at h
        obtain ⟨x, r1⟩ := x
        cases x with
        | err e => cases h
        | panic => cases h
        | ok n =>
          simp only at h
          split at h
          · cases h
          rename_i hne
          have hne : String.ofList kt = n := by simpa using hne
          subst hne
          obtain ⟨w1, ht, ha, rfl⟩ := (Reader.readString_parses _ _ _).mp hr
          have h' := h
          rw [Rd.bind_eq] at h'
          rcases hk : PublicKey.fromReader (String.ofList kt) (adv (Reader.new blob) w1) with ⟨x | e | _, r2⟩
          · rw [hk] at h'
            simp only [Rd.pure_eq, Res.ok.injEq] at h'
            obtain ⟨w2, ⟨h1, h2, h3, h4⟩, ha2, rfl⟩ := (fromReader_parses _ _ _ _).mp hk
            obtain ⟨h5, h6⟩ := fromName_ok.mp hn
            have : x.keyType = keyType := table_name_inj _ h1 _ h5 (h2.trans h6.symm)
            subst this
            subst h'
            obtain ⟨tl, htl⟩ := at_new.mp (at_append.mpr ⟨ha, ha2⟩)
            exact ⟨kt, data, rest, blob, w1 ++ w2, tl, hs, hd, htl,
              ⟨h1, w1, w2, rfl, h2 ▸ ht, h4⟩, by simp [h2], rfl⟩
          · rw [hk] at h'; cases h'
          · rw [hk] at h'; cases h'
  · rintro ⟨label, data, rest, blob, w, tl, hs, hd, rfl, ⟨hk, w1, w2, rfl, ht, hm⟩, rfl, hc⟩
    rw [hs]
    simp only [String.ofList_toList, fromName_ok.mpr ⟨hk, rfl⟩, Res.ok_bind, hd, Res.ofOption]
    have h1 : Reader.readString (Reader.new (w1 ++ w2 ++ tl)) =
        (.ok k.keyType.name, adv (Reader.new (w1 ++ w2 ++ tl)) w1) :=
      (Reader.readString_parses _ _ _).mpr ⟨w1, ht, at_new.mpr ⟨w2 ++ tl, by simp⟩, rfl⟩
    rw [Rd.bind_of_ok h1, if_neg (by simp)]
    have h2 : PublicKey.fromReader k.keyType.name (adv (Reader.new (w1 ++ w2 ++ tl)) w1) =
        (.ok { k with comment := none }, adv (adv (Reader.new (w1 ++ w2 ++ tl)) w1) w2) :=
      (fromReader_parses _ _ _ _).mpr ⟨w2, ⟨hk, rfl, rfl, hm⟩,
        (at_append.mp (at_new.mpr ⟨tl, rfl⟩)).2, rfl⟩
    rw [Rd.bind_of_ok h2]
    simp only [Rd.pure_eq, Res.ok.injEq]
    cases k
    simp only at hc
    rw [hc]

/-- C17: `from_string` succeeds exactly when the text has a label word equal to the type name inside
the blob whose base64 is the second word; the comment is the third word. -/
theorem C17_from_string (s : List Char) (k : PublicKey) : PublicKey.fromString s = .ok k ↔
    ∃ label data rest blob w tl, TextWords s (label :: data :: rest) ∧
      Base64Lax blob data ∧ blob = w ++ tl ∧ KeyBlob k w ∧ k.keyType.name.toList = label ∧
      k.comment = rest.head?.map String.ofList := by
  simp only [pubFromString_iff, textWords_iff, base64Lax_iff]

/-- C17: the label is the type name inside the blob, and the type of the key. -/
theorem C17_label (s : List Char) (k : PublicKey) (h : PublicKey.fromString s = .ok k) :
    ∃ data rest blob w tl, TextWords s (k.keyType.name.toList :: data :: rest) ∧
      Base64Lax blob data ∧ blob = w ++ tl ∧ Text k.keyType.name w := by
  simp only [textWords_iff, base64Lax_iff]
  obtain ⟨label, data, rest, blob, w, tl, hs, hd, rfl, ⟨hk, w1, w2, rfl, ht, hm⟩, rfl, hc⟩ :=
    (pubFromString_iff s k).mp h
  exact ⟨data, rest, _, w1, w2 ++ tl, hs, hd, by simp, ht⟩

/-- C17: `from_string` never panics. -/
theorem C17_total (s : List Char) : PublicKey.fromString s ≠ .panic := by
  unfold PublicKey.fromString
  split
  · simp
  · simp
  · rename_i kt data rest hs
    rcases fromName_cases (String.ofList kt) with ⟨x, h⟩ | h
    · simp only [h, Res.ok_bind]
      cases b64Decode data with
      | none => simp [Res.ofOption]
      | some blob =>
        simp only [Res.ofOption, Res.ok_bind]
        refine Rd.noPanic_bind Reader.readString_noPanic (fun n => ?_) _
        intro r
        by_cases hn : String.ofList kt ≠ n
        · rw [if_pos hn]; simp
        · rw [if_neg hn]
          exact Rd.noPanic_bind (fromReader_noPanic _) (fun _ => Rd.noPanic_pure _) r
    · simp [h]

/-! ## C16 -/

theorem table_name_word : ∀ kt ∈ keyTypes, kt.name.toList ≠ [] ∧ ∀ c ∈ kt.name.toList, isWs c = false := by
  decide +kernel

theorem encode_ne_nil {k : PublicKey} {b : Bytes} (h : k.encode = .ok b) : b ≠ [] := by
  rw [encode_eq] at h
  cases hm : keyMaterial k.keyType.isSk k.kind with
  | none => rw [hm] at h; simp [Res.unwrap] at h
  | some m =>
    rw [hm] at h
    simp [Res.unwrap] at h
    subst h
    simp [frameStr, frame, u32]

/-- The text printed for a key parses back. -/
theorem text_roundtrip {k : PublicKey} (h : WellFormedKey k) (hp : k.keyType.name = k.keyType.plain)
    (hc : ∀ c, k.comment = some c → c ≠ "" ∧ ∀ x ∈ c.toList, isWs x = false) (tail : List Char)
    (ht : splitWhitespace tail = []) (htc : tail = [] ∨ ∃ c t, tail = c :: t ∧ isWs c = true) :
    ∃ b, k.encode = .ok b ∧
      PublicKey.fromString (k.keyType.name.toList ++ ' ' :: b64Encode b ++
        (match k.comment with | some c => ' ' :: c.toList | none => []) ++ tail) = .ok k := by
  obtain ⟨p, b, m, hpk, h1, h2, h3, h4, h5, hm, _, he, hb⟩ := encode_wellFormed h
  have hpe : p = k.keyType := table_name_inj p hpk _ h.1 (h1.trans hp.symm)
  subst hpe
  refine ⟨b, he, ?_⟩
  rw [pubFromString_iff]
  obtain ⟨hw1, hw2⟩ := table_name_word _ h.1
  have hbw : ∀ c ∈ b64Encode b, isWs c = false := fun c hc => (b64Encode_props b c hc).1
  have hbn := b64Encode_ne_nil (encode_ne_nil he)
  have word_tail : ∀ w : List Char, w ≠ [] → (∀ c ∈ w, isWs c = false) →
      splitWhitespace (w ++ tail) = [w] := by
    intro w hne hws
    rcases htc with rfl | ⟨c, t, rfl, hc'⟩
    · rw [List.append_nil]; exact splitWhitespace_word hne hws
    · rw [splitWhitespace_cons hne hws hc']
      rw [splitWhitespace_ws hc'] at ht
      rw [ht]
  cases hcm : k.comment with
  | none =>
    refine ⟨_, _, [], b, b, [], ?_, b64Decode_encode b, by simp, ?_, rfl, rfl⟩
    · simp only [List.append_nil, List.append_assoc, List.cons_append]
      rw [splitWhitespace_cons hw1 hw2 (by decide), word_tail _ hbn hbw]
    · exact hb
  | some c =>
    obtain ⟨hc1, hc2⟩ := hc c hcm
    have hc1' : c.toList ≠ [] := fun e => hc1 (by
      rw [← String.ofList_toList (s := c), e])
    refine ⟨_, _, [c.toList], b, b, [], ?_, b64Decode_encode b, by simp, ?_, rfl, by simp⟩
    · simp only [List.append_assoc, List.cons_append]
      rw [splitWhitespace_cons hw1 hw2 (by decide), splitWhitespace_cons hbn hbw (by decide),
        word_tail _ hc1' hc2]
    · exact hb

/-- `Display` and `write` of a well-formed key of a plain type parse back to it. -/
theorem pub_text_roundtrip (k : PublicKey) (h : WellFormedKey k)
    (hp : k.keyType.name = k.keyType.plain)
    (hc : ∀ c, k.comment = some c → c ≠ "" ∧ ∀ x ∈ c.toList, isWs x = false) :
    (∃ t, k.display = .ok t ∧ PublicKey.fromString t = .ok k) ∧
    (∃ t, k.write = .ok t ∧ PublicKey.fromString t = .ok k) := by
  constructor
  · obtain ⟨b, he, hf⟩ := text_roundtrip h hp hc [] rfl (.inl rfl)
    unfold PublicKey.display
    rw [he]
    cases hcm : k.comment with
    | none => exact ⟨_, rfl, by simpa [hcm] using hf⟩
    | some c => exact ⟨_, rfl, by simpa [hcm] using hf⟩
  · obtain ⟨b, he, hf⟩ := text_roundtrip h hp hc ['\n'] (by decide) (.inr ⟨_, _, rfl, by decide⟩)
    unfold PublicKey.write
    rw [he]
    cases hcm : k.comment with
    | none => exact ⟨_, rfl, by simpa [hcm] using hf⟩
    | some c => exact ⟨_, rfl, by simpa [hcm] using hf⟩

/-- C16: `Display` and `write` of a well-formed key of a plain type parse back to it; a comment
survives when it is a non-empty word. -/
theorem C16_text_roundtrip (k : PublicKey) (h : WellFormedKey k)
    (hp : k.keyType.name = k.keyType.plain)
    (hc : ∀ c, k.comment = some c → TextWord c.toList) :
    (∃ t, k.display = .ok t ∧ PublicKey.fromString t = .ok k) ∧
    (∃ t, k.write = .ok t ∧ PublicKey.fromString t = .ok k) :=
  pub_text_roundtrip k h hp fun c e => ⟨by rintro rfl; exact (hc _ e).1 rfl, fun x hx => isWs_false.mpr ((hc c e).2 x hx)⟩

/-- C16: a key parsed from text under a plain label prints to text that parses to the same key
(comment included). -/
theorem C16_parsed (s : List Char) (k : PublicKey) (h : PublicKey.fromString s = .ok k)
    (hp : k.keyType.name = k.keyType.plain) :
    (∃ t, k.display = .ok t ∧ PublicKey.fromString t = .ok k) ∧
    (∃ t, k.write = .ok t ∧ PublicKey.fromString t = .ok k) := by
  obtain ⟨label, data, rest, blob, w, tl, hs, hd, rfl, ⟨hk, w1, w2, rfl, ht, hm⟩, rfl, hc⟩ :=
    (pubFromString_iff s k).mp h
  refine pub_text_roundtrip k (material_wellFormed hk hm) hp ?_
  intro c hcc
  rw [hc] at hcc
  cases rest with
  | nil => cases hcc
  | cons x xs =>
    simp only [List.head?_cons, Option.map_some, Option.some.injEq] at hcc
    subst hcc
    obtain ⟨h1, h2⟩ := mem_splitWhitespace (s := s) (w := x) (by rw [hs]; simp)
    refine ⟨?_, by simpa using h2⟩
    intro e
    have := congrArg String.toList e
    simp at this
    exact h1 this

/-- C16: a multi-word comment is cut at its first word. -/
theorem C16_comment_truncated : ∃ (k k' : PublicKey) (t : List Char), WellFormedKey k ∧
    k.display = .ok t ∧ PublicKey.fromString t = .ok k' ∧ k.comment = some "a b" ∧
    k'.comment = some "a" := by
  refine ⟨{ sampleEd with comment := some "a b" }, { sampleEd with comment := some "a" }, _,
    ⟨by decide +kernel, rfl, by decide, rfl⟩, rfl, by decide +kernel, rfl, rfl⟩

/-- C16: a key whose type is not plain prints its own label over a blob with the plain name, which
the parser rejects. -/
theorem C16_nonplain_rejected (k : PublicKey) (h : WellFormedKey k) (hc : k.comment = none)
    (hp : k.keyType.name ≠ k.keyType.plain) :
    ∃ t, k.display = .ok t ∧ PublicKey.fromString t = .err .keyTypeMismatch := by
  obtain ⟨p, b, m, hpk, h1, h2, h3, h4, h5, hm, _, he, hk, w1, w2, hb, ht, _⟩ := encode_wellFormed h
  simp only at ht
  rw [h1] at ht
  obtain ⟨hw1, hw2⟩ := table_name_word _ h.1
  have hbw : ∀ c ∈ b64Encode b, isWs c = false := fun c hc => (b64Encode_props b c hc).1
  have hbn := b64Encode_ne_nil (encode_ne_nil he)
  unfold PublicKey.display
  rw [he]
  simp only [hc, Res.ok_bind, Res.pure_eq]
  refine ⟨_, rfl, ?_⟩
  unfold PublicKey.fromString
  rw [splitWhitespace_cons hw1 hw2 (by decide), splitWhitespace_word hbn hbw]
  simp only [String.ofList_toList, fromName_ok.mpr ⟨h.1, rfl⟩, Res.ok_bind, b64Decode_encode, Res.ofOption]
  have hr : Reader.readString (Reader.new b) = (.ok k.keyType.plain, adv (Reader.new b) w1) :=
    (Reader.readString_parses _ _ _).mpr ⟨w1, ht, at_new.mpr ⟨w2, hb⟩, rfl⟩
  rw [Rd.bind_of_ok hr, if_pos hp]
  rfl

example : WellFormedKey sampleEd ∧ sampleEd.keyType.name = sampleEd.keyType.plain ∧
    (∀ c, sampleEd.comment = some c → TextWord c.toList) := by
  refine ⟨sampleEd_wf, rfl, ?_⟩
  intro c hc
  cases hc
  refine ⟨by decide +kernel, fun c hc => isWs_false.mp ?_⟩
  revert c
  decide +kernel

example : WellFormedKey sampleRsa ∧ sampleRsa.comment = none ∧
    sampleRsa.keyType.name ≠ sampleRsa.keyType.plain := ⟨sampleRsa_wf, rfl, by decide⟩

/-! ## C18 -/

/-- C18: keys with the same encoding are the same key. -/
theorem C18_injective (k k' : PublicKey) (h : WellFormedKey k) (h' : WellFormedKey k')
    (e : k.encode = k'.encode) : k.keyType.plain = k'.keyType.plain ∧ k.kind = k'.kind := by
  obtain ⟨p, b, m, hpk, h1, h2, h3, h4, h5, hm, _, he, hb⟩ := encode_wellFormed h
  obtain ⟨p', b', m', hpk', h1', h2', h3', h4', h5', hm', _, he', hb'⟩ := encode_wellFormed h'
  rw [he, he'] at e
  simp only [Res.ok.injEq] at e
  have := C15_unambiguous ⟨p, k.kind, none⟩ ⟨p', k'.kind, none⟩ b b' [] [] hb hb' rfl rfl (by rw [e])
  simp only [PublicKey.mk.injEq, and_true] at this
  exact ⟨by rw [← h1, ← h1', this.1.1], this.1.2⟩

/-- C18: nor is one encoding a proper prefix of another. -/
theorem C18_prefix_free (k k' : PublicKey) (b b' s s' : Bytes) (h : WellFormedKey k)
    (h' : WellFormedKey k') (e : k.encode = .ok b) (e' : k'.encode = .ok b') (hs : b ++ s = b' ++ s') :
    k.keyType.plain = k'.keyType.plain ∧ k.kind = k'.kind ∧ b = b' := by
  obtain ⟨p, b1, m, hpk, h1, h2, h3, h4, h5, hm, _, he, hb⟩ := encode_wellFormed h
  obtain ⟨p', b1', m', hpk', h1', h2', h3', h4', h5', hm', _, he', hb'⟩ := encode_wellFormed h'
  rw [e] at he; rw [e'] at he'
  simp only [Res.ok.injEq] at he he'
  subst he; subst he'
  have := C15_unambiguous ⟨p, k.kind, none⟩ ⟨p', k'.kind, none⟩ b b' s s' hb hb' rfl rfl hs
  simp only [PublicKey.mk.injEq, and_true] at this
  exact ⟨by rw [← h1, ← h1', this.1.1], this.1.2, this.2⟩

example : WellFormedKey sampleEd ∧ WellFormedKey { sampleEd with comment := none } ∧
    sampleEd.encode = ({ sampleEd with comment := none } : PublicKey).encode :=
  ⟨sampleEd_wf, sampleEd_wf, rfl⟩

/-! ## C19 -/

theorem alphabet_no_eq : ∀ c ∈ b64Alphabet, c ≠ '=' := by decide +kernel

/-- Removing the padding does not change what is decoded. -/
theorem b64Decode_unpadded (b : Bytes) : b64Decode ((b64Encode b).takeWhile (· ≠ '=')) = some b := by
  fun_induction b64Encode b with
  | case1 => rfl
  | case2 a n =>
    have ha := a.toNat_lt
    have h1 : n / 64 < 64 := by simp only [n]; omega
    have h2 : n % 64 < 64 := by omega
    simp only [List.takeWhile_cons, decide_not, b64Char_ne_eq h1, b64Char_ne_eq h2, decide_false,
      Bool.not_false, if_true, decide_true, Bool.not_true, Bool.false_eq_true, if_false]
    simp only [b64Decode, b64Dec2, b64Val_char _ h1, b64Val_char _ h2, Option.bind_eq_bind,
      Option.bind_some]
    rw [if_pos (by simp only [n]; omega)]
    rw [u8_of_eq (a := a) (by simp only [n]; omega)]
  | case3 a b n =>
    have ha := a.toNat_lt
    have hb := b.toNat_lt
    have h1 : n / 4096 < 64 := by simp only [n]; omega
    have h2 : n / 64 % 64 < 64 := by omega
    have h3 : n % 64 < 64 := by omega
    simp only [List.takeWhile_cons, decide_not, b64Char_ne_eq h1, b64Char_ne_eq h2, b64Char_ne_eq h3,
      decide_false, Bool.not_false, if_true, decide_true, Bool.not_true, Bool.false_eq_true, if_false]
    simp only [b64Decode, b64Char_ne_eq h3, if_false, b64Dec3, b64Val_char _ h1,
      b64Val_char _ h2, b64Val_char _ h3, Option.bind_eq_bind, Option.bind_some]
    rw [if_pos (by simp only [n]; omega)]
    rw [u8_of_eq (a := a) (by simp only [n]; omega), u8_of_eq (a := b) (by simp only [n]; omega)]
  | case4 a b c rest n ih =>
    have ha := a.toNat_lt
    have hb := b.toNat_lt
    have hc := c.toNat_lt
    have h1 : n / 262144 < 64 := by simp only [n]; omega
    have h2 : n / 4096 % 64 < 64 := by omega
    have h3 : n / 64 % 64 < 64 := by omega
    have h4 : n % 64 < 64 := by omega
    have e1 : UInt8.ofNat ((((n / 262144 * 64 + n / 4096 % 64) * 64 + n / 64 % 64) * 64 + n % 64) / 65536) = a :=
      u8_of_eq (by simp only [n]; omega)
    have e2 : UInt8.ofNat ((((n / 262144 * 64 + n / 4096 % 64) * 64 + n / 64 % 64) * 64 + n % 64) / 256) = b :=
      u8_of_eq (by simp only [n]; omega)
    have e3 : UInt8.ofNat (((n / 262144 * 64 + n / 4096 % 64) * 64 + n / 64 % 64) * 64 + n % 64) = c :=
      u8_of_eq (by simp only [n]; omega)
    simp only [List.takeWhile_cons, decide_not, b64Char_ne_eq h1, b64Char_ne_eq h2, b64Char_ne_eq h3,
      b64Char_ne_eq h4, decide_false, Bool.not_false, if_true]
    simp only [decide_not] at ih
    generalize hr : List.takeWhile (fun x => !decide (x = '=')) (b64Encode rest) = t at *
    cases t with
    | nil =>
      simp only [b64Decode, Option.some.injEq] at ih
      subst ih
      simp only [b64Decode, b64Char_ne_eq h4, if_false, b64Val_char _ h1, b64Val_char _ h2,
        b64Val_char _ h3, b64Val_char _ h4, Option.bind_eq_bind, Option.bind_some, e1, e2, e3]
    | cons x xs =>
      simp only [b64Decode, b64Val_char _ h1, b64Val_char _ h2, b64Val_char _ h3, b64Val_char _ h4,
        Option.bind_eq_bind, Option.bind_some, ih, e1, e2, e3]

/-- The digest a fingerprint kind asks for. -/
def digestOf (C : Crypto) (kind : FingerprintKind) (b : Bytes) : Bytes :=
  match kind with
  | .sha256 => C.sha256 b
  | .sha384 => C.sha384 b
  | .sha512 => C.sha512 b

/-- The text before the digest in a printed fingerprint. -/
def digestPrefix (kind : FingerprintKind) : List Char :=
  match kind with
  | .sha256 => "SHA256:".toList
  | .sha384 => "SHA384:".toList
  | .sha512 => "SHA512:".toList

/-- C19: the printed fingerprint is the digest's name, a colon, and the base64 text of the digest of
the encoding without its padding. -/
theorem C19_text (C : Crypto) (k : PublicKey) (kind : FingerprintKind) (f : Fingerprint)
    (h : k.fingerprintWith C kind = .ok f) :
    ∃ b hash n, k.encode = .ok b ∧ '=' ∉ hash ∧
      Base64 (digestOf C kind b) (hash ++ List.replicate n '=') ∧
      f.display = digestPrefix kind ++ hash := by
  simp only [base64_iff, eq_comm (b := b64Encode _)]
  unfold PublicKey.fingerprintWith at h
  cases he : k.encode with
  | err e => rw [he] at h; cases h
  | panic => rw [he] at h; cases h
  | ok b =>
    rw [he] at h
    simp only [Res.ok_bind, Res.pure_eq, Res.ok.injEq] at h
    subst h
    have hd : digestOf C kind b = C.digest kind b := by cases kind <;> rfl
    have hpad : ∀ d : Bytes, ∃ n, b64Encode d =
        (b64Encode d).takeWhile (· ≠ '=') ++ List.replicate n '=' := by
      intro d
      refine ⟨((b64Encode d).dropWhile (· ≠ '=')).length, ?_⟩
      have : (b64Encode d).dropWhile (· ≠ '=') =
          List.replicate ((b64Encode d).dropWhile (· ≠ '=')).length '=' := by
        fun_induction b64Encode d with
        | case1 => rfl
        | case2 a n =>
          have ha := a.toNat_lt
          have h1 : n / 64 < 64 := by simp only [n]; omega
          have h2 : n % 64 < 64 := by omega
          simp [b64Char_ne_eq h1, b64Char_ne_eq h2]
        | case3 a b n =>
          have ha := a.toNat_lt
          have hb := b.toNat_lt
          have h1 : n / 4096 < 64 := by simp only [n]; omega
          have h2 : n / 64 % 64 < 64 := by omega
          have h3 : n % 64 < 64 := by omega
          simp [b64Char_ne_eq h1, b64Char_ne_eq h2, b64Char_ne_eq h3]
        | case4 a b c rest n ih =>
          have ha := a.toNat_lt
          have hb := b.toNat_lt
          have hc := c.toNat_lt
          have h1 : n / 262144 < 64 := by simp only [n]; omega
          have h2 : n / 4096 % 64 < 64 := by omega
          have h3 : n / 64 % 64 < 64 := by omega
          have h4 : n % 64 < 64 := by omega
          simpa [List.dropWhile_cons, b64Char_ne_eq h1, b64Char_ne_eq h2, b64Char_ne_eq h3,
            b64Char_ne_eq h4] using ih
      rw [← this]
      exact List.takeWhile_append_dropWhile.symm
    obtain ⟨n, hn⟩ := hpad (C.digest kind b)
    refine ⟨b, (b64Encode (C.digest kind b)).takeWhile (· ≠ '='), n, rfl, ?_, by rw [hd]; exact hn, ?_⟩
    · intro hm
      have := List.all_eq_true.mp (List.all_takeWhile (l := b64Encode (C.digest kind b))
        (p := fun x => decide (x ≠ '='))) '=' hm
      simp at this
    · have hp : ∀ kind : FingerprintKind, digestPrefix kind = kind.display.toList ++ [':'] := by
        intro kind; cases kind <;> decide +kernel
      simp [hp, Fingerprint.compute, Fingerprint.display]

/-- C19: the comment does not matter. -/
theorem C19_comment (C : Crypto) (k : PublicKey) (kind : FingerprintKind) (c : Option String) :
    ({ k with comment := c } : PublicKey).fingerprintWith C kind = k.fingerprintWith C kind := rfl

/-- C19: equal fingerprints mean equal digests of the encodings (by the same algorithm). -/
theorem C19_determines_digest (C : Crypto) (k k' : PublicKey) (kind kind' : FingerprintKind)
    (f : Fingerprint) (b b' : Bytes) (h : k.fingerprintWith C kind = .ok f)
    (h' : k'.fingerprintWith C kind' = .ok f) (hb : k.encode = .ok b) (hb' : k'.encode = .ok b') :
    kind = kind' ∧ digestOf C kind b = digestOf C kind b' := by
  unfold PublicKey.fingerprintWith at h h'
  rw [hb] at h
  rw [hb'] at h'
  simp only [Res.ok_bind, Res.pure_eq, Res.ok.injEq] at h h'
  subst h
  simp only [Fingerprint.compute, Fingerprint.mk.injEq] at h'
  obtain ⟨rfl, h'⟩ := h'
  refine ⟨rfl, ?_⟩
  have hd : ∀ b, digestOf C kind' b = C.digest kind' b := by intro b; cases kind' <;> rfl
  rw [hd, hd]
  have h1 := b64Decode_unpadded (C.digest kind' b)
  rw [← h', b64Decode_unpadded] at h1
  exact (Option.some.inj h1).symm

/-- C19: if the digest separates the two encodings, equal fingerprints mean the same key. -/
theorem C19_same_key (C : Crypto) (k k' : PublicKey) (kind : FingerprintKind) (f : Fingerprint)
    (w : WellFormedKey k) (w' : WellFormedKey k') (h : k.fingerprintWith C kind = .ok f)
    (h' : k'.fingerprintWith C kind = .ok f)
    (hC : ∀ b b', k.encode = .ok b → k'.encode = .ok b' → digestOf C kind b = digestOf C kind b' → b = b') :
    k.keyType.plain = k'.keyType.plain ∧ k.kind = k'.kind := by
  obtain ⟨p, b, m, _, _, _, _, _, _, _, _, he, _⟩ := encode_wellFormed w
  obtain ⟨p', b', m', _, _, _, _, _, _, _, _, he', _⟩ := encode_wellFormed w'
  have := (C19_determines_digest C k k' kind kind f b b' h h' he he').2
  apply C18_injective k k' w w'
  rw [he, he', hC b b' he he' this]

example (C : Crypto) : ∃ f, sampleEd.fingerprintWith C .sha256 = .ok f ∧
    ({ sampleEd with comment := none } : PublicKey).fingerprintWith C .sha256 = .ok f :=
  ⟨_, rfl, rfl⟩

/-! ## C20 -/

/-- C20: serialising a well-formed key never panics: encoding, printing, writing, fingerprinting,
and writing it into a certificate or a private key file. -/
theorem C20_wellFormed (C : Crypto) (k : PublicKey) (h : WellFormedKey k) :
    k.encode ≠ .panic ∧ k.display ≠ .panic ∧ k.write ≠ .panic ∧
    (∀ kind, k.fingerprintWith C kind ≠ .panic) ∧
    (∀ w : Writer, w.writePubKeyData k ≠ .panic ∧ w.writePubKey k ≠ .panic) := by
  obtain ⟨p, b, m, _, _, _, _, _, _, hm, _, he, _⟩ := encode_wellFormed h
  refine ⟨by simp [he], ?_, ?_, ?_, ?_⟩
  · unfold PublicKey.display; rw [he]; cases k.comment <;> simp
  · unfold PublicKey.write; rw [he]; cases k.comment <;> simp
  · intro kind; unfold PublicKey.fingerprintWith; rw [he]; simp
  · intro w
    rw [writePubKeyData_eq, writePubKey_eq, keyMaterial_of hm]
    simp [Res.unwrap]

/-- C20: every key returned by the two public key parsers is well-formed. -/
theorem C20_parsed (k : PublicKey) (h : (∃ data, PublicKey.fromBytes data = .ok k) ∨
    (∃ s, PublicKey.fromString s = .ok k)) : WellFormedKey k := by
  rcases h with ⟨data, h⟩ | ⟨s, h⟩
  · obtain ⟨w, rest, rfl, ⟨hk, w1, w2, rfl, h1, h2⟩, _⟩ := fromBytes_ok.mp h
    exact material_wellFormed hk h2
  · obtain ⟨label, data, rest, blob, w, tl, hs, hd, rfl, ⟨hk, w1, w2, rfl, ht, hm⟩, rfl, hc⟩ :=
      (pubFromString_iff s k).mp h
    exact material_wellFormed hk hm

example : PublicKey.fromBytes ([0, 0, 0, 11] ++ "ssh-ed25519".toUTF8.data.toList ++ [0, 0, 0, 1, 7]) =
    .ok ⟨⟨"ssh-ed25519", "ssh-ed25519", "ED25519", false, false, .ed25519⟩, .ed25519 [7] none, none⟩ := by
  decide +kernel

/-- The hypothesis is needed: a hand-made hardware key without application panics. -/
theorem C20_missing_application : ∃ k : PublicKey, k.encode = .panic :=
  ⟨{ sampleSk with kind := .ecdsa ⟨.nistp256, "nistp256"⟩ [4] none }, rfl⟩

/-! ## C69 -/

/-- C69: the encoder prints the base64 of RFC 4648: groups of six bits, symbols of the table, padding. -/
theorem C69_encode (b : Bytes) (s : List Char) : b64Encode b = s ↔ Base64 b s := by
  rw [base64_iff, eq_comm]

/-- C69: the decoder accepts exactly base64, from which some or all of the padding may be missing. -/
theorem C69_decode (s : List Char) (b : Bytes) : b64Decode s = some b ↔ Base64Lax b s := base64Lax_iff.symm

/-- RFC 4648, section 10. -/
example : b64Encode [102, 111, 111, 98, 97] = "Zm9vYmE=".toList ∧ b64Decode "Zm9vYg=".toList = some [102, 111, 111, 98] ∧
    b64Decode "Zm9vYh==".toList = none ∧ Base64 [102, 111] "Zm8=".toList := by
  refine ⟨by decide +kernel, by decide +kernel, by decide +kernel, ⟨[25, 38, 60], 1, ⟨by decide, 2, by decide, by decide⟩, by decide +kernel, by decide, by decide +kernel⟩⟩

/-- C69: decoding an encoding returns the bytes. -/
theorem C69_roundtrip (b : Bytes) : b64Decode (b64Encode b) = some b := b64Decode_encode b

/-- An encoding consists of the 64 symbols and `=`, none of which is whitespace or `-`. -/
theorem b64_alphabet (b : Bytes) : ∀ c ∈ b64Encode b,
    (c ∈ "ABCDEFGHIJKLMNOPQRSTUVWXYZabcdefghijklmnopqrstuvwxyz0123456789+/".toList ∨ c = '=') ∧
      isWs c = false ∧ c ≠ '-' ∧ c ≠ '\n' ∧ c ≠ '\r' := by
  intro c hc
  refine ⟨b64Encode_chars b c hc, ?_⟩
  obtain ⟨h1, h2, h3, h4, _⟩ := b64Encode_props b c hc
  refine ⟨h1, h3, h4, ?_⟩
  rintro rfl
  simp [isWs] at h1

/-- C69: an encoding consists of the 64 symbols and `=`, none of which is white space or `-`. -/
theorem C69_alphabet (b : Bytes) : ∀ c ∈ b64Encode b,
    (c ∈ "ABCDEFGHIJKLMNOPQRSTUVWXYZabcdefghijklmnopqrstuvwxyz0123456789+/".toList ∨ c = '=') ∧
      ¬ White c ∧ c ≠ '-' := by
  intro c hc
  obtain ⟨h1, h2, h3, _⟩ := b64_alphabet b c hc
  exact ⟨h1, isWs_false.mp h2, h3⟩

/-- C69: canonical text (whole groups of four) is determined by the bytes it decodes to. -/
theorem C69_injective (s t : List Char) (b : Bytes) (hs : b64Decode s = some b)
    (ht : b64Decode t = some b) (h1 : s.length % 4 = 0) (h2 : t.length % 4 = 0) : s = t := by
  rw [← b64Encode_of_decode h1 hs, b64Encode_of_decode h2 ht]

example : b64Decode "TWE=".toList = some [77, 97] ∧ "TWE=".toList.length % 4 = 0 := by decide +kernel

end Ssh
