import Verif.Props.AllowedExact
import Verif.Props.Examples

/-! # C144: names with spaces or line breaks in what is written and read again -/

namespace Ssh

open Spec Examples

/-! ## Certificates -/

theorem cert_display_nl {c : Certificate} (hk : c.keyType ∈ keyTypes) : '\n' ∈ c.display ↔ '\n' ∈ c.keyId.toList := by
  unfold Certificate.display
  have h1 : '\n' ∉ c.keyType.name.toList := fun h => absurd ((table_name_word _ hk).2 _ h) (by decide)
  have h2 : '\n' ∉ b64Encode c.serialized := fun h => (b64Encode_props _ _ h).2.2.2.1 rfl
  simp [h1, h2]

theorem cert_display_ne {c : Certificate} : c.display ≠ [] := by
  unfold Certificate.display
  simp

/-- C144: the text of an accepted certificate is one line exactly if its key id has no line break. -/
theorem C144_one_line (C : Crypto) (data : Bytes) (c : Certificate) (h : Certificate.fromBytes C data = .ok c) :
    FileLines c.display [c.display] ↔ '\n' ∉ c.keyId.toList := by
  obtain ⟨w, wsig, rest, _, h2, _⟩ := certFromBytes_ok.mp h
  rw [← cert_display_nl h2.1]
  constructor
  · intro h
    generalize hd : c.display = d at h
    generalize hl : [d] = ls at h
    cases h with
    | nil => cases hl
    | last l h1 _ => exact h1
    | lf l s ls h1 _ _ =>
      simp only [List.cons.injEq] at hl
      have := congrArg List.length hl.1
      simp at this
    | crlf l s ls h1 _ =>
      simp only [List.cons.injEq] at hl
      have := congrArg List.length hl.1
      simp at this
  · exact fun h => .last _ h cert_display_ne

example : ∃ c, Certificate.fromBytes laxCrypto sampleSigned.serialized = .ok c ∧ '\n' ∉ c.keyId.toList :=
  ⟨_, sampleSigned_parses, by decide +kernel⟩

theorem sampleSigned_keyId : (okOf sampleCert (Certificate.fromBytes laxCrypto sampleSigned.serialized)).keyId = "my id" := by decide +kernel

theorem holds_same (path : String) (s : List Char) : Holds (fun _ => some (strBytes (String.ofList s))) path s := rfl

/-- C144: ssh-pubkey-from-cert lists the keys of certificates that were written one after the other, each followed by a
line break, if no key id has a line break. -/
theorem C144_listing (C : Crypto) (T : ForeignTexts) (disk : Disk) (path : String) (cs : List Certificate)
    (hc : ∀ c ∈ cs, (∃ data, Certificate.fromBytes C data = .ok c) ∧ '\n' ∉ c.keyId.toList)
    (h : Holds disk path (cs.map fun c => c.display ++ ['\n']).flatten) :
    ∃ outs : List (List Char), sshPubkeyFromCert C T disk [path] = .ok (outs.map (· ++ ['\n'])).flatten ∧
      outs.length = cs.length ∧
      ∀ (i : Nat) c o, cs[i]? = some c → outs[i]? = some o → PublicKey.fromString o = .ok c.key := by
  have hls : Listed (cs.map fun c => c.display ++ ['\n']).flatten (cs.map (·.display)) := by
    refine ⟨fun l hl => ?_, .inr ⟨[], ?_⟩⟩
    · obtain ⟨c, hcm, rfl⟩ := List.mem_map.mp hl
      obtain ⟨⟨data, hd⟩, hn⟩ := hc c hcm
      obtain ⟨w, wsig, rest, _, h2, _⟩ := certFromBytes_ok.mp hd
      exact ⟨cert_display_ne, fun hm => hn ((cert_display_nl h2.1).mp hm)⟩
    · rw [List.map_map]
      rfl
  obtain ⟨outs, h1, h2, h3⟩ := C115_keys C T disk path _ _ h hls
  refine ⟨outs, h1, by rw [h2, List.length_map], fun i c o hi ho => ?_⟩
  obtain ⟨⟨data, hd⟩, _⟩ := hc c (List.mem_of_getElem? hi)
  have := h3 i c.display o _ (by rw [List.getElem?_map, hi]; rfl) ho (cert_text_roundtrip C data c hd)
  rwa [publicKey_println] at this

example : ∃ (disk : Disk) (cs : List Certificate), cs.length = 2 ∧
    (∀ c ∈ cs, (∃ data, Certificate.fromBytes laxCrypto data = .ok c) ∧ '\n' ∉ c.keyId.toList) ∧
    Holds disk "/certs" (cs.map fun c => c.display ++ ['\n']).flatten := by
  refine ⟨_, List.replicate 2 (okOf sampleCert (Certificate.fromBytes laxCrypto sampleSigned.serialized)),
    by rw [List.length_replicate], fun c hc => ?_, holds_same _ _⟩
  rw [List.eq_of_mem_replicate hc]
  exact ⟨⟨_, sampleSigned_parses⟩, by rw [sampleSigned_keyId]; decide⟩

/-- C144 (finding): a certificate whose key id continues, after a line break, with the text of another certificate is
listed as two certificates: the reader of the list gets the key of the other one as well. -/
theorem C144_injected (C : Crypto) (T : ForeignTexts) (disk : Disk) (path : String) (c c' : Certificate) (data data' : Bytes)
    (x : List Char) (hc : Certificate.fromBytes C data = .ok c) (hc' : Certificate.fromBytes C data' = .ok c')
    (hk : c.keyId.toList = x ++ '\n' :: c'.display) (hx : '\n' ∉ x) (hn : '\n' ∉ c'.keyId.toList)
    (h : Holds disk path (c.display ++ ['\n'])) :
    ∃ o o' : List Char, sshPubkeyFromCert C T disk [path] = .ok (o ++ '\n' :: o' ++ ['\n']) ∧
      PublicKey.fromString o = .ok c.key ∧ PublicKey.fromString o' = .ok c'.key := by
  obtain ⟨w, wsig, rest, b1, b2, b3, b4, b5, b6⟩ := certFromBytes_ok.mp hc
  obtain ⟨_, _, _, _, d2, _⟩ := certFromBytes_ok.mp hc'
  obtain ⟨hw1, hw2⟩ := table_name_word _ b2.1
  have n1 : '\n' ∉ c.keyType.name.toList := fun h => absurd (hw2 _ h) (by decide)
  have n2 : '\n' ∉ b64Encode c.serialized := fun h => (b64Encode_props _ _ h).2.2.2.1 rfl
  have hbw : ∀ x ∈ b64Encode c.serialized, isWs x = false := fun x hx => (b64Encode_props _ x hx).1
  have hbn : b64Encode c.serialized ≠ [] := b64Encode_ne_nil (by rw [b6, b1]; simp [bodyExact_ne_nil b2])
  generalize hl : c.keyType.name.toList ++ ' ' :: b64Encode c.serialized ++ ' ' :: x = l
  have hd : c.display = l ++ '\n' :: c'.display := by
    rw [← hl, Certificate.display, hk]
    simp
  have hparse : Certificate.fromString C l = .ok { c with comment := (splitWhitespace x).head?.map String.ofList } := by
    rw [← hl, certFromString_iff]
    refine ⟨c.keyType.name.toList, b64Encode c.serialized, splitWhitespace x, c.serialized, c, c.keyType, ?_, b2.1, rfl, b64Decode_encode _, ?_, rfl, rfl⟩
    · rw [List.append_assoc, List.cons_append, splitWhitespace_cons hw1 hw2 (by decide), splitWhitespace_cons hbn hbw (by decide)]
    · rw [b6]; exact hc
  have hls : Listed (c.display ++ ['\n']) [l, c'.display] := by
    refine ⟨fun y hy => ?_, .inr ⟨[], ?_⟩⟩
    · simp only [List.mem_cons, List.not_mem_nil, or_false] at hy
      rcases hy with rfl | rfl
      · rw [← hl]
        simp [n1, n2, hx]
      · exact ⟨cert_display_ne, fun hm => hn ((cert_display_nl d2.1).mp hm)⟩
    · rw [hd]
      simp [println]
  obtain ⟨outs, h1, h2, h3⟩ := C115_keys C T disk path _ _ h hls
  obtain ⟨o, o', rfl⟩ : ∃ o o', outs = [o, o'] := by
    match outs, h2 with
    | [o, o'], _ => exact ⟨o, o', rfl⟩
  have g0 := h3 0 _ o _ rfl rfl hparse
  have g1 := h3 1 _ o' _ rfl rfl (cert_text_roundtrip C data' c' hc')
  rw [publicKey_println] at g0 g1
  exact ⟨o, o', by rw [h1]; simp [println], g0, g1⟩

/-- A certificate whose key id goes on with the text of `sampleSigned`. -/
def brokenCert : Certificate :=
  okOf sampleCert (Certificate.addSignature laxCrypto { sampleCert with
    key := ⟨sampleEd.keyType, .ed25519 [5, 5] none, none⟩
    keyId := String.ofList ("me\n".toList ++ sampleSigned.display) } sampleSig)

theorem brokenCert_parses : Certificate.fromBytes laxCrypto brokenCert.serialized =
    .ok (okOf sampleCert (Certificate.fromBytes laxCrypto brokenCert.serialized)) := okOf_eq (by decide +kernel)

example : ∃ (disk : Disk) (c c' : Certificate) (data data' : Bytes) (x : List Char), Certificate.fromBytes laxCrypto data = .ok c ∧
    Certificate.fromBytes laxCrypto data' = .ok c' ∧ c.keyId.toList = x ++ '\n' :: c'.display ∧ '\n' ∉ x ∧ '\n' ∉ c'.keyId.toList ∧
    Holds disk "/certs" (c.display ++ ['\n']) ∧ c.key ≠ c'.key := by
  refine ⟨_, _, _, _, _, "me".toList, brokenCert_parses, sampleSigned_parses, ?_, by decide, ?_, holds_same _ _, ?_⟩
  · decide +kernel
  · rw [sampleSigned_keyId]; decide
  · decide +kernel

/-! ## Allowed signers -/

theorem mem_commaJoin {l : List (List Char)} {c : Char} (hc : c ≠ ',') (h : c ∈ commaJoin l) : ∃ x ∈ l, c ∈ x := by
  induction l with
  | nil => cases h
  | cons x xs ih =>
    cases xs with
    | nil => exact ⟨x, by simp, h⟩
    | cons y ys =>
      have h : c ∈ x ++ ',' :: commaJoin (y :: ys) := h
      rcases List.mem_append.mp h with h | h
      · exact ⟨x, by simp, h⟩
      · rcases List.mem_cons.mp h with h | h
        · exact absurd h hc
        · obtain ⟨z, hz, hcz⟩ := ih h
          exact ⟨z, by simp [hz], hcz⟩

theorem mem_spaced {ws : List (List Char)} {c : Char} (hc : c ≠ ' ') (h : c ∈ spaced ws) : ∃ w ∈ ws, c ∈ w := by
  induction ws with
  | nil => cases h
  | cons x xs ih =>
    cases xs with
    | nil => exact ⟨x, by simp, h⟩
    | cons y ys =>
      have h : c ∈ x ++ ' ' :: spaced (y :: ys) := h
      rcases List.mem_append.mp h with h | h
      · exact ⟨x, by simp, h⟩
      · rcases List.mem_cons.mp h with h | h
        · exact absurd h hc
        · obtain ⟨z, hz, hcz⟩ := ih h
          exact ⟨z, by simp [hz], hcz⟩

theorem spaced_getLast {w : List Char} (hw : w ≠ []) (ws : List (List Char)) : (spaced (ws ++ [w])).getLast? = w.getLast? := by
  induction ws with
  | nil => rfl
  | cons x xs ih =>
    rw [List.cons_append, spaced_cons (by simp), ← ih]
    have : spaced (xs ++ [w]) ≠ [] := by
      intro h
      rw [h] at ih
      cases w with
      | nil => exact hw rfl
      | cons c w => rw [List.getLast?_cons] at ih; cases ih
    rw [show x ++ ' ' :: spaced (xs ++ [w]) = (x ++ [' ']) ++ spaced (xs ++ [w]) by simp]
    exact getLast?_suffix this

/-- `a` names neither a principal nor a namespace with a line break. -/
def Unbroken (a : AllowedSigner) : Prop :=
  (∀ x ∈ a.principals, '\n' ∉ x) ∧ ∀ l, a.namespaces = some l → ∀ x ∈ l, '\n' ∉ x

theorem display_unbroken {a : AllowedSigner} {t : List Char} (ht : a.display = .ok t) (hk : a.key.keyType ∈ keyTypes)
    (hc : a.key.comment = none) (h : Unbroken a) : '\n' ∉ t := by
  obtain ⟨b, tl, he, rfl, htl⟩ := display_text ht
  have htl : tl = [] := by
    rcases htl with ⟨h, _⟩ | ⟨c, h, _⟩
    · exact h
    · rw [hc] at h; cases h
  subst htl
  rw [List.append_nil]
  have hnum : ∀ u : Int, '\n' ∉ (toString u).toList := fun u hm => by
    rcases int_chars u _ hm with h | h
    · exact absurd h (by decide)
    · exact absurd h (by decide)
  intro hm
  obtain ⟨w, hw, hm⟩ := mem_spaced (by decide) hm
  rcases List.mem_cons.mp hw with rfl | hw
  · obtain ⟨x, hx, hm⟩ := mem_commaJoin (by decide) hm
    exact h.1 x hx hm
  rcases List.mem_append.mp hw with hw | hw
  · unfold optWords at hw
    simp only [List.mem_append] at hw
    rcases hw with ((hw | hw) | hw) | hw
    · split at hw
      · rw [List.mem_singleton.mp hw] at hm; exact absurd hm (by decide)
      · cases hw
    · split at hw
      · rename_i l hl
        rw [List.mem_singleton.mp hw] at hm
        rcases List.mem_append.mp hm with hm | hm
        · exact absurd hm (by decide)
        · obtain ⟨x, hx, hm⟩ := mem_commaJoin (by decide) hm
          exact h.2 l hl x hx hm
      · cases hw
    · split at hw
      · rw [List.mem_singleton.mp hw] at hm
        rcases List.mem_append.mp hm with hm | hm
        · exact absurd hm (by decide)
        · exact hnum _ hm
      · cases hw
    · split at hw
      · rw [List.mem_singleton.mp hw] at hm
        rcases List.mem_append.mp hm with hm | hm
        · exact absurd hm (by decide)
        · exact hnum _ hm
      · cases hw
  · simp only [List.mem_cons, List.not_mem_nil, or_false] at hw
    rcases hw with rfl | rfl
    · exact absurd ((table_name_word _ hk).2 _ hm) (by decide)
    · exact (b64Encode_props _ _ hm).2.2.2.1 rfl

/-- The text of an entry that reads back begins with its first principal and ends with the key. -/
theorem display_ends {T : Chrono} {a : AllowedSigner} {t : List Char} (ht : a.display = .ok t)
    (hr : AllowedSigner.fromString T t = .ok a) :
    ∃ p ps r c, a.principals = p :: ps ∧ t = p ++ r ∧ p ≠ [] ∧ '#' ∉ p ∧ t.getLast? = some c ∧ isWs c = false := by
  obtain ⟨⟨h1, h2⟩, _, _, _, hwf, _, hc⟩ := (C56_exact T a t ht).mp hr
  obtain ⟨b, tl, he, rfl, htl⟩ := display_text ht
  have htl : tl = [] := by
    rcases htl with ⟨h, _⟩ | ⟨c, h, _⟩
    · exact h
    · rw [hc] at h; cases h
  subst htl
  rw [List.append_nil]
  obtain ⟨p, ps, hps⟩ := List.exists_cons_of_ne_nil h1
  have hbn := b64Encode_ne_nil (encode_ne_nil he)
  have hl := spaced_getLast hbn (commaJoin a.principals :: (optWords a ++ [a.key.keyType.name.toList]))
  obtain ⟨c, hcl⟩ : ∃ c, (b64Encode b).getLast? = some c := ⟨_, List.getLast?_eq_some_getLast hbn⟩
  have hj : ∃ r, commaJoin a.principals = p ++ r := by
    rw [hps]
    cases ps with
    | nil => exact ⟨[], by simp [commaJoin]⟩
    | cons q qs => exact ⟨_, rfl⟩
  obtain ⟨r, hj⟩ := hj
  refine ⟨p, ps, r ++ ' ' :: spaced (optWords a ++ [a.key.keyType.name.toList, b64Encode b]), c, hps, ?_,
    (h2 p (by simp [hps])).1, fun hm => ((h2 p (by simp [hps])).2.2 _ hm).2.2 rfl, ?_, (b64Encode_props _ _ (List.mem_of_getLast? hcl)).1⟩
  · rw [spaced_cons (by simp), hj]
    simp
  · rw [← hcl, ← hl]
    simp

/-- C144: entries that are each read back from their text are read back from a file of their texts, one per line, if no
name has a line break and the first principal does not begin with white space. -/
theorem C144_written (T : Chrono) (l : List AllowedSigner) (ts : List (List Char)) (hlen : ts.length = l.length)
    (ht : ∀ (i : Nat) a t, l[i]? = some a → ts[i]? = some t → a.display = .ok t ∧ AllowedSigner.fromString T t = .ok a)
    (hu : ∀ a ∈ l, Unbroken a) (hw : ∀ a ∈ l, ∀ p ps c, a.principals = p :: ps → p.head? = some c → ¬ White c) :
    allowedSignersFromString T (ts.map (· ++ ['\n'])).flatten = .ok l := by
  rw [C58_ok]
  refine ⟨ts, ?_, ?_⟩
  · induction ts generalizing l with
    | nil => exact .nil
    | cons t ts ih =>
      cases l with
      | nil => simp at hlen
      | cons a l =>
        obtain ⟨h1, h2⟩ := ht 0 a t rfl rfl
        have hx := (C56_exact T a t h1).mp h2
        obtain ⟨_, _, _, c, _, _, _, _, hl, hcw⟩ := display_ends h1 h2
        rw [List.map_cons, List.flatten_cons, List.append_assoc, List.singleton_append]
        refine .lf _ _ _ (display_unbroken h1 hx.2.2.2.2.1.1 hx.2.2.2.2.2.2 (hu a (by simp))) ?_
          (ih l (by simpa using hlen) (fun i => ht (i + 1)) (fun a ha => hu a (by simp [ha])) (fun a ha => hw a (by simp [ha])))
        rw [hl]
        rintro h
        cases h
        exact absurd hcw (by decide)
  · induction ts generalizing l with
    | nil =>
      cases l with
      | nil => exact .nil
      | cons a l => simp at hlen
    | cons t ts ih =>
      cases l with
      | nil => simp at hlen
      | cons a l =>
        obtain ⟨h1, h2⟩ := ht 0 a t rfl rfl
        obtain ⟨p, ps, r, c, hp, e, hne, hnh, hl, hcw⟩ := display_ends h1 h2
        obtain ⟨d, p', rfl⟩ := List.exists_cons_of_ne_nil hne
        have htr : Trimmed t t := by
          refine ⟨[], [], by simp, by simp, by simp, ?_, ?_⟩
          · intro x hx
            rw [e] at hx
            cases hx
            exact hw a (by simp) _ _ _ hp rfl
          · intro x hx
            rw [hl] at hx
            cases hx
            exact isWs_false.mp hcw
        refine .entry t t a ts l ?_ htr (allowed_ok.mp h2)
          (ih l (by simpa using hlen) (fun i => ht (i + 1)) (fun a ha => hu a (by simp [ha])) (fun a ha => hw a (by simp [ha])))
        rintro ⟨t', h3, h4⟩
        rw [trimmed_iff] at htr h3
        rw [htr] at h3
        subst h3
        rcases h4 with rfl | h4
        · simp at e
        · rw [e] at h4
          cases h4
          exact hnh (by simp)

/-- Two entries that are written and read again. -/
def twoEntries : List AllowedSigner :=
  [⟨["a@x".toList, "b".toList], true, some ["git".toList], none, none, sampleSk⟩,
   ⟨["c".toList], false, none, none, none, { sampleEd with comment := none }⟩]

example : ∃ ts : List (List Char), ts.length = twoEntries.length ∧
    (∀ (i : Nat) a t, twoEntries[i]? = some a → ts[i]? = some t → a.display = .ok t ∧ AllowedSigner.fromString sampleChrono t = .ok a) ∧
    (∀ a ∈ twoEntries, Unbroken a) ∧ ∀ a ∈ twoEntries, ∀ p ps c, a.principals = p :: ps → p.head? = some c → ¬ White c := by
  have h : ∀ a ∈ twoEntries, a.display = .ok (okOf [] a.display) ∧ AllowedSigner.fromString sampleChrono (okOf [] a.display) = .ok a := by
    decide +kernel
  refine ⟨twoEntries.map fun a => okOf [] a.display, by rw [List.length_map], ?_, ?_, ?_⟩
  · intro i a t h1 h2
    rw [List.getElem?_map, h1, Option.map_some, Option.some.injEq] at h2
    subst h2
    exact h a (List.mem_of_getElem? h1)
  · intro a ha
    simp only [twoEntries, List.mem_cons, List.not_mem_nil, or_false] at ha
    rcases ha with rfl | rfl
    · exact ⟨by decide, fun l hl => by cases hl; decide⟩
    · exact ⟨by decide, fun l hl => by cases hl⟩
  · intro a ha p ps c h1 h2
    simp only [twoEntries, List.mem_cons, List.not_mem_nil, or_false] at ha
    rcases ha with rfl | rfl
    · cases h1; cases h2; exact isWs_false.mp (by decide)
    · cases h1; cases h2; exact isWs_false.mp (by decide)

/-- A principal that begins with white space is read back from its text, but from a file without the white space. -/
example : let a : AllowedSigner := ⟨["\tc".toList], false, none, none, none, { sampleEd with comment := none }⟩
    let t := "\tc ssh-ed25519 AAAAC3NzaC1lZDI1NTE5AAAAAwECAw==".toList
    a.display = .ok t ∧ AllowedSigner.fromString sampleChrono t = .ok a ∧
      allowedSignersFromString sampleChrono (t ++ ['\n']) = .ok [{ a with principals := ["c".toList] }] := by decide +kernel

theorem fileLines_nl {s : List Char} {ls : List (List Char)} (h : FileLines s ls) : ∀ x ∈ ls, '\n' ∉ x := by
  induction h with
  | nil => simp
  | last l h1 _ => simpa using h1
  | lf l s ls h1 _ _ ih => simpa using ⟨h1, ih⟩
  | crlf l s ls h1 _ ih => simpa using ⟨h1, ih⟩

theorem chain_mem {ws : List (List Char)} : ∀ {s s' : List Char}, Chain s ws s' → ∀ w ∈ ws, ∀ c ∈ w, c ∈ s := by
  induction ws with
  | nil => intro _ _ _ w hw; cases hw
  | cons v ws ih =>
    rintro s s' ⟨r, ⟨n, rfl, _, _⟩, h⟩ w hw c hc
    rcases List.mem_cons.mp hw with rfl | hw
    · simp [hc]
    · simp [ih h w hw c hc]

theorem stripQuotes_mem {p v : List Char} (h : StripQuotes p v) {c : Char} (hc : c ∈ v) : c ∈ p := by
  obtain ⟨m, n, rfl, _⟩ := h
  simp [hc]

theorem line_unbroken {T : Chrono} {t : List Char} {a : AllowedSigner} (h : AllowedLine T t a) (hn : '\n' ∉ t) : Unbroken a := by
  obtain ⟨_, p, os, kt, kd, v, ⟨m, hchain, _⟩, hsq, ⟨_, rfl, _⟩, _, hoa, _, _, hns, _⟩ := h
  refine ⟨fun x hx hm => hn (chain_mem hchain p (by simp) _ (stripQuotes_mem hsq (commaJoin_of_mem hx hm))), fun l hl x hx hm => ?_⟩
  rw [hl] at hns
  have : l ∈ os.filterMap (·.2.ns?) := by rw [hns]; simp
  obtain ⟨o, ho, hol⟩ := List.mem_filterMap.mp this
  obtain ⟨key, value, ⟨_, hkv, _⟩, hst⟩ := hoa o ho
  cases hs : o.2 with
  | certAuthority => rw [hs] at hol; cases hol
  | validAfter t => rw [hs] at hol; cases hol
  | validBefore t => rw [hs] at hol; cases hol
  | namespaces l' =>
    rw [hs] at hol hst
    cases hol
    obtain ⟨_, pieces, ⟨_, hval, _⟩, rfl⟩ := hst
    have hmv : '\n' ∈ value := by rw [hval]; exact commaJoin_of_mem (List.mem_filter.mp hx).1 hm
    have hmo : '\n' ∈ o.1 := by
      rcases hkv with ⟨_, rfl⟩ | ⟨raw, e, hsq'⟩
      · cases hmv
      · rw [e]; simp [stripQuotes_mem hsq' hmv]
    exact hn (chain_mem hchain o.1 (by simp only [List.mem_cons, List.mem_append, List.mem_map]; exact .inr (.inl ⟨o, ho, rfl⟩)) _ hmo)

/-- C144: no entry of a file names a principal or a namespace with a line break. -/
theorem C144_file (T : Chrono) (s : List Char) (l : List AllowedSigner) (h : allowedSignersFromString T s = .ok l) :
    ∀ a ∈ l, Unbroken a := by
  obtain ⟨ls, h1, h2⟩ := (C58_ok T s l).mp h
  replace h1 := fileLines_nl h1
  clear h
  induction h2 with
  | nil => simp
  | skip x ls l _ _ ih => exact ih fun y hy => h1 y (by simp [hy])
  | entry x t a ls l _ htr hl _ ih =>
    intro b hb
    rcases List.mem_cons.mp hb with rfl | hb
    · refine line_unbroken hl fun hm => h1 x (by simp) ?_
      obtain ⟨u, v, rfl, _⟩ := htr
      simp [hm]
    · exact ih (fun y hy => h1 y (by simp [hy])) b hb

example : ∃ l, allowedSignersFromString sampleChrono ("# first\n\n".toList ++ sampleLine ++ "\r\n  ".toList ++ sampleLine ++ " \n".toList) = .ok l ∧
    l.length = 2 := ⟨[sampleEntry, sampleEntry], by decide +kernel, rfl⟩

/-- C144: so a file can be written again, from its entries, if each entry is read back from its text and no first
principal begins with white space. -/
theorem C144_rewrite (T : Chrono) (s : List Char) (l : List AllowedSigner) (h : allowedSignersFromString T s = .ok l)
    (hr : ∀ a ∈ l, ∃ t, a.display = .ok t ∧ AllowedSigner.fromString T t = .ok a)
    (hw : ∀ a ∈ l, ∀ p ps c, a.principals = p :: ps → p.head? = some c → ¬ White c) :
    ∃ ts : List (List Char), l.map (·.display) = ts.map .ok ∧
      allowedSignersFromString T (ts.map (· ++ ['\n'])).flatten = .ok l := by
  obtain ⟨ts, hts⟩ : ∃ ts : List (List Char), l.map (·.display) = ts.map .ok := by
    clear h hw
    induction l with
    | nil => exact ⟨[], rfl⟩
    | cons a l ih =>
      obtain ⟨t, ht, _⟩ := hr a (by simp)
      obtain ⟨ts, hts⟩ := ih fun a ha => hr a (by simp [ha])
      exact ⟨t :: ts, by simp [ht, hts]⟩
  refine ⟨ts, hts, C144_written T l ts (by simpa using (congrArg List.length hts).symm) (fun i a t hi hti => ?_) (C144_file T s l h) hw⟩
  have hd : a.display = .ok t := by
    have := congrArg (·[i]?) hts
    simpa [hi, hti] using this
  obtain ⟨t', ht', hf⟩ := hr a (List.mem_of_getElem? hi)
  rw [hd] at ht'
  cases ht'
  exact ⟨hd, hf⟩

example : ∃ s l, allowedSignersFromString sampleChrono s = .ok l ∧ l = twoEntries ∧
    (∀ a ∈ l, ∃ t, a.display = .ok t ∧ AllowedSigner.fromString sampleChrono t = .ok a) := by
  refine ⟨"# both\n\"a@x,b\" NAMESPACES=\"git\" cert-authority sk-ecdsa-sha2-nistp256@openssh.com AAAAInNrLWVjZHNhLXNoYTItbmlzdHAyNTZAb3BlbnNzaC5jb20AAAAIbmlzdHAyNTYAAAACBAkAAAAEc3NoOg==\r\n c ssh-ed25519 AAAAC3NzaC1lZDI1NTE5AAAAAwECAw== # x".toList,
    twoEntries, by decide +kernel, rfl, ?_⟩
  intro a ha
  simp only [twoEntries, List.mem_cons, List.not_mem_nil, or_false] at ha
  rcases ha with rfl | rfl
  · exact ⟨okOf [] (AllowedSigner.display ⟨["a@x".toList, "b".toList], true, some ["git".toList], none, none, sampleSk⟩), by decide +kernel⟩
  · exact ⟨okOf [] (AllowedSigner.display ⟨["c".toList], false, none, none, none, { sampleEd with comment := none }⟩), by decide +kernel⟩

/-- C144 (finding): a quoted principal with a space is written without quotes.  The line `"p cert-authority" key` says that
the key may sign for a principal of that odd name, and nothing about certificates; what is written for it says that
the key is an authority that certifies keys of `p`. -/
theorem C144_becomes_authority (T : Chrono) (p : List Char) (hp : p ≠ [] ∧ ',' ∉ p ∧ Simple p) (key : PublicKey)
    (hk : WellFormedKey key) (hkp : key.keyType.name = key.keyType.plain) (hkc : key.comment = none) :
    ∃ line t text, key.display = .ok text ∧ line = '"' :: (p ++ " cert-authority\" ".toList ++ text) ∧
      AllowedSigner.fromString T line = .ok ⟨[p ++ " cert-authority".toList], false, none, none, none, key⟩ ∧
      (⟨[p ++ " cert-authority".toList], false, none, none, none, key⟩ : AllowedSigner).display = .ok t ∧
      AllowedSigner.fromString T t = .ok ⟨[p], true, none, none, none, key⟩ := by
  obtain ⟨b, he, hf⟩ := text_roundtrip hk hkp (by rw [hkc]; intro c h; cases h) [] rfl (.inl rfl)
  rw [hkc] at hf
  simp only [List.append_nil] at hf
  obtain ⟨k1, k2, k3, k4⟩ := keyNames_props _ hk.1
  have htext : key.display = .ok (key.keyType.name.toList ++ ' ' :: b64Encode b) := by
    unfold PublicKey.display
    rw [he, hkc]
    rfl
  have hws : ∀ w ∈ [key.keyType.name.toList, b64Encode b], w ≠ [] ∧ Simple w := by
    intro w h
    simp only [List.mem_cons, List.not_mem_nil, or_false] at h
    rcases h with rfl | rfl
    · exact ⟨k1, k2⟩
    · exact ⟨b64Encode_ne_nil (encode_ne_nil he), b64_simple b⟩
  have hq : '"' ∉ p := fun h => (hp.2.2 _ h).2.1 rfl
  obtain ⟨t, ht, hft⟩ := C56_partial T ⟨[p], true, none, none, none, key⟩ ⟨by simp, by simpa using hp⟩ (by intro l h; cases h) ⟨rfl, rfl⟩ hk hkp hkc
  refine ⟨_, t, _, htext, rfl, ?_, ?_, hft⟩
  · rw [allowed_ok]
    have e : '"' :: (p ++ " cert-authority\" ".toList ++ (key.keyType.name.toList ++ ' ' :: b64Encode b)) =
        ('"' :: ((p ++ " cert-authority".toList) ++ ['"'])) ++ ' ' :: spaced [key.keyType.name.toList, b64Encode b] := by
      simp [spaced]
    have hnq : '"' ∉ p ++ " cert-authority".toList := by simp [hq]
    refine ⟨?_, '"' :: ((p ++ " cert-authority".toList) ++ ['"']), [], key.keyType.name.toList, b64Encode b, p ++ " cert-authority".toList,
      ⟨[], ⟨_, ⟨0, e, ⟨by simp, [], by simp, .inr ⟨_, hnq, rfl⟩⟩, .inr ⟨' ', _, rfl, .inl rfl⟩⟩, spaced_chain (by simp) hws 1⟩, 0, .inl rfl⟩,
      ⟨1, 1, by simp, ?_, ?_⟩, ⟨by simp, rfl, ?_⟩, by simp, by simp, keyWord_name hk.1, by simp, rfl, rfl, rfl, by simp, hf⟩
    · rw [e]
      intro h
      have := spaced_last hws
      rw [show ∀ (x y : List Char), x ++ ' ' :: y = (x ++ [' ']) ++ y by simp, getLast?_suffix (by simp [spaced])] at h
      exact this h
    · intro h
      exact hnq (List.mem_of_head? h)
    · intro h
      exact hnq (List.mem_of_getLast? h)
    · intro x hx
      simp only [List.mem_singleton] at hx
      subst hx
      simp [hp.2.1]
  · rw [display_words he hkc] at ht ⊢
    rw [← ht]
    simp [optWords, spaced, commaJoin]

example : ("alice".toList ≠ [] ∧ ',' ∉ "alice".toList ∧ Simple "alice".toList) ∧ WellFormedKey sampleEd ∧
    sampleEd.keyType.name = sampleEd.keyType.plain ∧ { sampleEd with comment := none }.comment = none :=
  ⟨⟨by decide, by decide, by unfold Simple; decide⟩, sampleEd_wf, by decide, rfl⟩

/-- C144 (finding): a single line may hold line breaks in quotes.  What is written for a principal `p key1`, line break,
`q` with the key `key2` is a file with two entries: `key1` for `p` and `key2` for `q`. -/
theorem C144_becomes_two (T : Chrono) (p q : List Char) (key1 key2 : PublicKey)
    (hp : (p ≠ [] ∧ ',' ∉ p ∧ Simple p) ∧ ∀ c ∈ p, ¬ White c) (hq : (q ≠ [] ∧ ',' ∉ q ∧ Simple q) ∧ ∀ c ∈ q, ¬ White c)
    (hk1 : WellFormedKey key1 ∧ key1.keyType.name = key1.keyType.plain ∧ key1.comment = none)
    (hk2 : WellFormedKey key2 ∧ key2.keyType.name = key2.keyType.plain ∧ key2.comment = none) :
    ∃ text t, key1.display = .ok text ∧
      (⟨[p ++ ' ' :: text ++ '\n' :: q], false, none, none, none, key2⟩ : AllowedSigner).display = .ok t ∧
      allowedSignersFromString T (t ++ ['\n']) =
        .ok [⟨[p], false, none, none, none, key1⟩, ⟨[q], false, none, none, none, key2⟩] := by
  have gen : ∀ (x : List Char) (key : PublicKey), (x ≠ [] ∧ ',' ∉ x ∧ Simple x) →
      (WellFormedKey key ∧ key.keyType.name = key.keyType.plain ∧ key.comment = none) →
      ∃ b, key.display = .ok (key.keyType.name.toList ++ ' ' :: b64Encode b) ∧ key.encode = .ok b ∧
        ∃ t, t = x ++ ' ' :: (key.keyType.name.toList ++ ' ' :: b64Encode b) ∧
        (⟨[x], false, none, none, none, key⟩ : AllowedSigner).display = .ok t ∧
        AllowedSigner.fromString T t = .ok ⟨[x], false, none, none, none, key⟩ := by
    intro x key hx hk
    obtain ⟨b, he, _⟩ := text_roundtrip hk.1 hk.2.1 (by rw [hk.2.2]; intro c h; cases h) [] rfl (.inl rfl)
    obtain ⟨t, ht, hft⟩ := C56_partial T ⟨[x], false, none, none, none, key⟩ ⟨by simp, by simpa using hx⟩ (by intro l h; cases h) ⟨rfl, rfl⟩ hk.1 hk.2.1 hk.2.2
    refine ⟨b, ?_, he, t, ?_, ht, hft⟩
    · unfold PublicKey.display
      rw [he, hk.2.2]
      rfl
    · rw [display_words he hk.2.2] at ht
      cases ht
      simp [optWords, spaced, commaJoin]
  obtain ⟨b1, d1, e1, t1, rfl, g1, f1⟩ := gen p key1 hp.1 hk1
  obtain ⟨b2, d2, e2, t2, rfl, g2, f2⟩ := gen q key2 hq.1 hk2
  refine ⟨_, _, d1, display_words e2 hk2.2.2, ?_⟩
  have := C144_written T [⟨[p], false, none, none, none, key1⟩, ⟨[q], false, none, none, none, key2⟩]
    [p ++ ' ' :: (key1.keyType.name.toList ++ ' ' :: b64Encode b1), q ++ ' ' :: (key2.keyType.name.toList ++ ' ' :: b64Encode b2)] rfl ?_ ?_ ?_
  · rw [← this]
    simp [optWords, spaced, commaJoin]
  · intro i a t h1 h2
    match i with
    | 0 => cases h1; cases h2; exact ⟨g1, f1⟩
    | 1 => cases h1; cases h2; exact ⟨g2, f2⟩
    | i + 2 => cases h1
  · intro a ha
    simp only [List.mem_cons, List.not_mem_nil, or_false] at ha
    have hw : White '\n' := isWs_iff.mp (by decide)
    rcases ha with rfl | rfl
    · exact ⟨by simpa using fun h => hp.2 _ h hw, fun l hl => by cases hl⟩
    · exact ⟨by simpa using fun h => hq.2 _ h hw, fun l hl => by cases hl⟩
  · intro a ha x xs c h1 h2
    simp only [List.mem_cons, List.not_mem_nil, or_false] at ha
    rcases ha with rfl | rfl
    · cases h1; exact hp.2 c (List.mem_of_head? h2)
    · cases h1; exact hq.2 c (List.mem_of_head? h2)

/-- The line that says so. -/
example : AllowedSigner.fromString sampleChrono
      "\"bob ssh-ed25519 AAAAC3NzaC1lZDI1NTE5AAAAAwECAw==\nmallory\" sk-ecdsa-sha2-nistp256@openssh.com AAAAInNrLWVjZHNhLXNoYTItbmlzdHAyNTZAb3BlbnNzaC5jb20AAAAIbmlzdHAyNTYAAAACBAkAAAAEc3NoOg==".toList =
    .ok ⟨["bob".toList ++ ' ' :: "ssh-ed25519 AAAAC3NzaC1lZDI1NTE5AAAAAwECAw==".toList ++ '\n' :: "mallory".toList], false, none, none, none, sampleSk⟩ ∧
    { sampleEd with comment := none }.display = .ok "ssh-ed25519 AAAAC3NzaC1lZDI1NTE5AAAAAwECAw==".toList := by decide +kernel

end Ssh
