import Verif.Lemmas.AllowedPrefix
import Verif.Props.PrivText

/-! # C101–C103: files -/

namespace Ssh

open Spec Reader

namespace Spec

/-- The file holds this text. -/
def Holds (D : Disk) (path : String) (s : List Char) : Prop := D path = some (strBytes (String.ofList s))

/-- In `D'` the file is cut short, at any byte. -/
def CutShort (D D' : Disk) (path : String) : Prop := ∃ b b', D path = some b ∧ D' path = some b' ∧ b' <+: b

/-- The same key, apart from the comment: none, or the beginning of the comment. -/
def CutKey (k k' : PublicKey) : Prop :=
  k'.keyType = k.keyType ∧ k'.kind = k.kind ∧ ∀ c', k'.comment = some c' → ∃ c, k.comment = some c ∧ c'.toList <+: c.toList

/-- The same entry, apart from the comment of its key. -/
def CutEntry (a a' : AllowedSigner) : Prop := a' = { a with key := a'.key } ∧ CutKey a.key a'.key

/-- The first entries, the last one possibly with a cut comment. -/
def CutEntries (l l' : List AllowedSigner) : Prop := l' <+: l ∨ ∃ ini a a' rest, l = ini ++ a :: rest ∧ l' = ini ++ [a'] ∧ CutEntry a a'

end Spec

/-! ## C101 -/

theorem readToString_ok {D : Disk} {path : String} {s : List Char} : readToString D path = .ok s ↔ Holds D path s := by
  unfold readToString Holds
  cases hd : D path with
  | none => simp
  | some b =>
    dsimp only
    cases hu : fromUtf8 b with
    | none =>
      simp only [reduceCtorEq, Option.some.injEq, false_iff]
      intro h
      rw [h, fromUtf8_strBytes] at hu
      cases hu
    | some u =>
      rw [← fromUtf8_eq_some.mp hu]
      simp only [Res.ok.injEq, Option.some.injEq]
      constructor
      · rintro rfl; simp
      · intro h; rw [strBytes_inj h]; simp

theorem readToString_cases (D : Disk) (path : String) : (∃ s, Holds D path s ∧ readToString D path = .ok s) ∨
    ((∀ s, ¬ Holds D path s) ∧ readToString D path = .err .io) := by
  cases h : readToString D path with
  | ok s => exact .inl ⟨s, readToString_ok.mp h, rfl⟩
  | err e =>
    right
    constructor
    · intro s hs
      rw [readToString_ok.mpr hs] at h
      cases h
    · unfold readToString at h
      cases hd : D path with
      | none => rw [hd] at h; exact h.symm
      | some b =>
        rw [hd] at h
        dsimp only at h
        cases hu : fromUtf8 b with
        | none => rw [hu] at h; exact h.symm
        | some u => rw [hu] at h; cases h
  | panic =>
    unfold readToString at h
    cases hd : D path with
    | none => rw [hd] at h; cases h
    | some b =>
      rw [hd] at h
      dsimp only at h
      cases hu : fromUtf8 b with
      | none => rw [hu] at h; cases h
      | some u => rw [hu] at h; cases h

/-- C101: reading from a file that holds text is parsing the text, for all five functions. -/
theorem C101_text (F : Features) (C : Crypto) (T : Chrono) (D : Disk) (path : String) (s : List Char) (pass : Option String) (h : Holds D path s) :
    PublicKey.fromPath D path = PublicKey.fromString s ∧ Certificate.fromPath C D path = Certificate.fromString C s ∧
    PrivateKey.fromPathWithPassphrase F C D path pass = PrivateKey.fromStringWithPassphrase F C s pass ∧
    PrivateKey.fromPath F C D path = PrivateKey.fromString F C s ∧
    allowedSignersFromPath T D path = allowedSignersFromString T s := by
  have h := readToString_ok.mpr h
  unfold PublicKey.fromPath Certificate.fromPath PrivateKey.fromPath PrivateKey.fromPathWithPassphrase allowedSignersFromPath PrivateKey.fromString
  rw [h]
  exact ⟨rfl, rfl, rfl, rfl, rfl⟩

/-- C101: a file that cannot be read or is not UTF-8 text is an I/O error. -/
theorem C101_other (F : Features) (C : Crypto) (T : Chrono) (D : Disk) (path : String) (pass : Option String) (h : ∀ s, ¬ Holds D path s) :
    PublicKey.fromPath D path = .err .io ∧ Certificate.fromPath C D path = .err .io ∧
    PrivateKey.fromPathWithPassphrase F C D path pass = .err .io ∧ PrivateKey.fromPath F C D path = .err .io ∧
    allowedSignersFromPath T D path = .err .io := by
  have h : readToString D path = .err .io := by
    rcases readToString_cases D path with ⟨s, h1, _⟩ | ⟨_, h1⟩
    · exact absurd h1 (h s)
    · exact h1
  unfold PublicKey.fromPath Certificate.fromPath PrivateKey.fromPath PrivateKey.fromPathWithPassphrase allowedSignersFromPath
  rw [h]
  exact ⟨rfl, rfl, rfl, rfl, rfl⟩

/-- C101: a key or certificate read from a file or string, written to a file, is read back: a public key of a plain
type, a certificate (with the first word of its key id as comment), a private key (what is stored of it). -/
theorem C101_written (F : Features) (C : Crypto) (D : Disk) (path : String) :
    (∀ p k, PublicKey.fromPath D p = .ok k → k.keyType.name = k.keyType.plain →
      ∃ t, k.write = .ok t ∧ ∀ D', Holds D' path t → PublicKey.fromPath D' path = .ok k) ∧
    (∀ data c, Certificate.fromBytes C data = .ok c → ∃ ws, TextWords c.keyId.toList ws ∧
      ∀ D', Holds D' path c.display → Certificate.fromPath C D' path =
        .ok { c with comment := ws.head?.map String.ofList }) ∧
    (∀ k, WellFormedPriv F.rsaSigning k → (∀ w, k.encode = .ok w → w.length < 4294967296) →
      ∃ t, k.write = .ok t ∧ ∀ D' pass, Holds D' path t → PrivateKey.fromPathWithPassphrase F C D' path pass = .ok (stored k)) := by
  refine ⟨?_, ?_, ?_⟩
  · intro p k h hp
    rcases readToString_cases D p with ⟨s, hs, _⟩ | ⟨hs, _⟩
    · rw [(C101_text F C sampleChrono D p s none hs).1] at h
      obtain ⟨t, ht, hk⟩ := (C16_parsed s k h hp).2
      exact ⟨t, ht, fun D' hd => by rw [(C101_text F C sampleChrono D' path t none hd).1, hk]⟩
    · rw [(C101_other F C sampleChrono D p none hs).1] at h
      cases h
  · intro data c h
    refine ⟨_, textWords_iff.mpr rfl, fun D' hd => ?_⟩
    rw [(C101_text F C sampleChrono D' path _ none hd).2.1, cert_text_roundtrip C data c h]
  · intro k h hl
    obtain ⟨t, ht, _⟩ := C41_roundtrip F C none k h hl
    refine ⟨t, ht, fun D' pass hd => ?_⟩
    obtain ⟨t', ht', hk⟩ := C41_roundtrip F C pass k h hl
    cases ht.symm.trans ht'
    rw [(C101_text F C sampleChrono D' path _ pass hd).2.2.1, hk]

example : PublicKey.fromPath (fun p => if p = "/a" then some (strBytes "ssh-ed25519 AAAAC3NzaC1lZDI1NTE5AAAAAwECAw== me\n") else none) "/a" =
    .ok { sampleEd with comment := some "me" } ∧
    PublicKey.fromPath (fun p => if p = "/a" then some (strBytes "x") else none) "/b" = .err .io := by
  constructor
  · rw [(C101_text ⟨false, false, .none⟩ laxCrypto sampleChrono _ "/a" "ssh-ed25519 AAAAC3NzaC1lZDI1NTE5AAAAAwECAw== me\n".toList none (by rfl)).1]
    decide +kernel
  · rfl

/-! ## C102 -/

theorem cutShort_text {D D' : Disk} {path : String} (hc : CutShort D D' path) {s s' : List Char} (h : Holds D path s) (h' : Holds D' path s') : s' <+: s := by
  obtain ⟨b, b', h1, h2, h3⟩ := hc
  unfold Holds at h h'
  cases h1.symm.trans h
  cases h2.symm.trans h'
  simpa using strBytes_prefix h3

theorem public_cut {s x : List Char} {k k' : PublicKey} (h : PublicKey.fromString (s ++ x) = .ok k) (h' : PublicKey.fromString s = .ok k') : CutKey k k' := by
  obtain ⟨label, data, rest, blob, w, tl, hs, hd, rfl, hb, _, hc⟩ := (pubFromString_iff _ k).mp h
  obtain ⟨label', data', rest', blob', w', tl', hs', hd', rfl, hb', _, hc'⟩ := (pubFromString_iff _ k').mp h'
  obtain ⟨_, ⟨x2, rfl⟩, h3⟩ := words_prefix hs' hs
  obtain ⟨y, hy⟩ := b64Decode_prefix _ (Nat.le_refl _) hd' hd
  have hb0 : KeyBlob { k with comment := none } w := hb
  have hb0' : KeyBlob { k' with comment := none } w' := hb'
  have := (C15_unambiguous _ _ w w' tl (tl' ++ y) hb0 hb0' rfl rfl (by rw [← hy]; simp)).1
  simp only [PublicKey.mk.injEq, and_true] at this
  refine ⟨this.1.symm, this.2.symm, fun c' hk => ?_⟩
  rw [hc'] at hk
  cases hr : rest'.head? with
  | none => rw [hr] at hk; cases hk
  | some c =>
    rw [hr] at hk
    cases hk
    obtain ⟨_, c2, h4, h5⟩ := h3 c hr
    exact ⟨String.ofList c2, by rw [hc, h4]; rfl, by simpa using h5⟩

/-- C102: the file of a public key cut short is refused or has the same key (the comment may be cut). -/
theorem C102_public (D D' : Disk) (path : String) (hc : CutShort D D' path) (k k' : PublicKey) (h : PublicKey.fromPath D path = .ok k)
    (h' : PublicKey.fromPath D' path = .ok k') : CutKey k k' := by
  obtain ⟨s, hs, h⟩ := bind_ok_iff.mp h
  obtain ⟨s', hs', h'⟩ := bind_ok_iff.mp h'
  obtain ⟨x, rfl⟩ := cutShort_text hc (readToString_ok.mp hs) (readToString_ok.mp hs')
  exact public_cut h h'

/-- C102: the file of a certificate cut short is refused or has the same certificate (the comment, and the bytes kept
behind the signature, may be cut). -/
theorem C102_certificate (C : Crypto) (D D' : Disk) (path : String) (hc : CutShort D D' path) (c c' : Certificate) (h : Certificate.fromPath C D path = .ok c)
    (h' : Certificate.fromPath C D' path = .ok c') :
    c' = { c with comment := c'.comment, serialized := c'.serialized } ∧ c'.serialized <+: c.serialized ∧
      ∀ x', c'.comment = some x' → ∃ x, c.comment = some x ∧ x'.toList <+: x.toList := by
  obtain ⟨s, hs, h⟩ := bind_ok_iff.mp h
  obtain ⟨s', hs', h'⟩ := bind_ok_iff.mp h'
  obtain ⟨x, rfl⟩ := cutShort_text hc (readToString_ok.mp hs) (readToString_ok.mp hs')
  obtain ⟨label, data, rest, blob, c0, t, hw, _, _, hd, hc0, _, rfl⟩ := (certFromString_iff C _ c).mp h
  obtain ⟨label', data', rest', blob', c0', t', hw', _, _, hd', hc0', _, rfl⟩ := (certFromString_iff C _ c').mp h'
  obtain ⟨_, ⟨x2, rfl⟩, h3⟩ := words_prefix hw' hw
  obtain ⟨y, rfl⟩ := b64Decode_prefix _ (Nat.le_refl _) hd' hd
  have := C34_trailing C blob' y c0' hc0'
  rw [hc0] at this
  cases this
  obtain ⟨_, _, _, _, _, _, _, _, hser⟩ := certFromBytes_ok.mp hc0'
  refine ⟨rfl, ⟨y, by simp only [hser]⟩, fun x' hk => ?_⟩
  simp only at hk
  cases hr : rest'.head? with
  | none => rw [hr] at hk; cases hk
  | some c =>
    rw [hr] at hk
    cases hk
    obtain ⟨_, c2, h4, h5⟩ := h3 c hr
    exact ⟨String.ofList c2, by simp [h4], by simpa using h5⟩

/-- C102: the file of a private key cut short is refused or has the same key. -/
theorem C102_private (F : Features) (C : Crypto) (pass : Option String) (D D' : Disk) (path : String) (hc : CutShort D D' path) (k k' : PrivateKey)
    (h : PrivateKey.fromPathWithPassphrase F C D path pass = .ok k) (h' : PrivateKey.fromPathWithPassphrase F C D' path pass = .ok k') : k' = k := by
  obtain ⟨s, hs, h⟩ := bind_ok_iff.mp h
  obtain ⟨s', hs', h'⟩ := bind_ok_iff.mp h'
  obtain ⟨x, rfl⟩ := cutShort_text hc (readToString_ok.mp hs) (readToString_ok.mp hs')
  obtain ⟨b, hb, h⟩ := bind_ok_iff.mp h
  obtain ⟨b', hb', h'⟩ := bind_ok_iff.mp h'
  cases armor_prefix (by decide +kernel) (by decide +kernel) ((dearmor_ok (by decide +kernel)).mp hb') ((dearmor_ok (by decide +kernel)).mp hb)
  rw [h] at h'
  cases h'
  rfl

/-- C102: an armored signature cut short is refused or is the same signature. -/
theorem C102_signature (t x : List Char) (s s' : SshSignature) (h : SshSignature.fromArmoredString (t ++ x) = .ok s)
    (h' : SshSignature.fromArmoredString t = .ok s') : s' = s := by
  obtain ⟨b, hb, h⟩ := bind_ok_iff.mp h
  obtain ⟨b', hb', h'⟩ := bind_ok_iff.mp h'
  cases armor_prefix (by decide +kernel) (by decide +kernel) ((dearmor_ok (by decide +kernel)).mp hb') ((dearmor_ok (by decide +kernel)).mp hb)
  rw [h] at h'
  cases h'
  rfl

theorem toList_inj {α : Type} {o o' : Option α} (h : o.toList = o'.toList) : o = o' := by
  cases o <;> cases o' <;> simp_all

theorem line_cut {T : Chrono} {s x : List Char} {a a' : AllowedSigner} (h : AllowedLine T (s ++ x) a) (h' : AllowedLine T s a') : CutEntry a a' := by
  obtain ⟨hq, p, os, kt, kd, v, ⟨m, hch, hbl⟩, hsq, hcl, hne, hos, hkt, hca, hns, hva, hvb, hord, hkey⟩ := h
  obtain ⟨hq', p', os', kt', kd', v', ⟨m', hch', hbl'⟩, hsq', hcl', hne', hos', hkt', hca', hns', hva', hvb', hord', hkey'⟩ := h'
  have e : p' :: (os'.map (·.1) ++ [kt', kd']) = (p' :: (os'.map (·.1) ++ [kt'])) ++ [kd'] := by simp
  rw [e] at hch'
  obtain ⟨m1, hc1, r1, hw1, _⟩ := chain_append.mp hch'
  have hm1 := nextWord_ne hw1
  have hc1' := chain_more x hc1 hm1
  have hpre := words_unique hq ⟨m, hch, hbl⟩ hc1'
  obtain ⟨rfl, hpre2⟩ := List.cons_prefix_cons.mp hpre
  obtain ⟨rfl, rfl⟩ := options_prefix hos' hos hkt' hkt hpre2
  have hkd : kd' <+: kd := by
    have e : p' :: (os'.map (·.1) ++ [kt', kd]) = (p' :: (os'.map (·.1) ++ [kt'])) ++ [kd] := by simp
    rw [e] at hch
    obtain ⟨m2, hc2, r2, hw2, _⟩ := chain_append.mp hch
    have huniq : ∀ {ws : List (List Char)} {s m m' : List Char}, s.getLast? ≠ some '"' → Chain s ws m → Chain s ws m' → m = m' := by
      intro ws
      induction ws with
      | nil => rintro s m m' _ rfl rfl; rfl
      | cons w ws ih =>
        rintro s m m' hs ⟨r, h1, h2⟩ ⟨r', h1', h2'⟩
        obtain ⟨_, rfl⟩ := nextWord_unique hs h1 h1'
        exact ih (nextWord_last h1 hs) h2 h2'
    have := huniq hq hc1' hc2
    subst this
    exact nextWord_last_prefix (chain_last hc1 hq') hw1 hw2 (chain_last hc1' hq)
  obtain ⟨y, rfl⟩ := hkd
  have hcut : CutKey a.key a'.key := public_cut (x := y) (by rw [List.append_assoc, List.cons_append]; exact hkey) hkey'
  refine ⟨?_, hcut⟩
  obtain ⟨pr, ca, ns, va, vb, key⟩ := a
  obtain ⟨pr', ca', ns', va', vb', key'⟩ := a'
  simp only at hcl hcl' hca hca' hns hns' hva hva' hvb hvb'
  have h1 : pr' = pr := by
    rw [← commaList_iff.mp hcl, ← commaList_iff.mp hcl', ← stripQuotes_iff.mp hsq, ← stripQuotes_iff.mp hsq']
  have h2 : ca' = ca := Bool.eq_iff_iff.mpr (hca'.trans hca.symm)
  rw [h1, h2, toList_inj (hns'.symm.trans hns), toList_inj (hva'.symm.trans hva), toList_inj (hvb'.symm.trans hvb)]

theorem trimmed_cut {l l' t t' : List Char} (hl : l <+: l' ∨ l = l' ++ ['\r']) (h : Trimmed l t) (h' : Trimmed l' t') (hne : t ≠ []) : t <+: t' := by
  rcases hl with ⟨g, rfl⟩ | rfl
  rotate_left
  · obtain ⟨a, b, rfl, ha, hb, h1, h2⟩ := trimmed_ws.mp h'
    have : Trimmed (a ++ (t' ++ b) ++ ['\r']) t' := trimmed_ws.mpr ⟨a, b ++ ['\r'], by simp, ha, by
      intro c hc
      rcases List.mem_append.mp hc with hc | hc
      · exact hb c hc
      · rw [List.mem_singleton.mp hc]; decide, h1, h2⟩
    rw [← trimmed_iff.mp h, trimmed_iff.mp this]
    exact List.prefix_rfl
  obtain ⟨a, b, rfl, ha, hb, h1, h2⟩ := trimmed_ws.mp h
  -- the end of what follows
  obtain ⟨u, hu1, hu2, hu3⟩ : ∃ u, t ++ (b ++ g) = t ++ u ++ ((b ++ g).drop u.length) ∧ (∀ c ∈ (b ++ g).drop u.length, isWs c = true) ∧
      (∀ c, (t ++ u).getLast? = some c → isWs c = false) := by
    generalize b ++ g = z
    obtain ⟨v, hv1, hv2, hv3⟩ := dropWhile_split isWs z.reverse
    refine ⟨(z.reverse.dropWhile isWs).reverse, ?_, ?_, ?_⟩
    · have : z = (z.reverse.dropWhile isWs).reverse ++ v.reverse := by
        rw [← List.reverse_append, ← hv1, List.reverse_reverse]
      generalize (z.reverse.dropWhile isWs).reverse = q at this
      rw [this]
      simp
    · have : z = (z.reverse.dropWhile isWs).reverse ++ v.reverse := by
        rw [← List.reverse_append, ← hv1, List.reverse_reverse]
      generalize (z.reverse.dropWhile isWs).reverse = q at this
      rw [this]
      simpa using hv2
    · intro c hc
      by_cases hq : (z.reverse.dropWhile isWs).reverse = []
      · rw [hq, List.append_nil] at hc
        exact h2 c hc
      · rw [getLast?_suffix hq, List.getLast?_reverse] at hc
        exact hv3 c hc
  have : Trimmed (a ++ (t ++ b) ++ g) (t ++ u) := by
    refine trimmed_ws.mpr ⟨a, (b ++ g).drop u.length, ?_, ha, hu2, ?_, hu3⟩
    · rw [← hu1]; simp
    · intro c hc
      cases t with
      | nil => exact absurd rfl hne
      | cons d t => exact h1 c (by simpa using hc)
  rw [← trimmed_iff.mp h', trimmed_iff.mp this]
  exact List.prefix_append _ _

theorem entries_append {T : Chrono} {ls ls' : List (List Char)} {l : List AllowedSigner} (h : Entries T (ls ++ ls') l) :
    ∃ l1 l2, l = l1 ++ l2 ∧ Entries T ls l1 ∧ Entries T ls' l2 := by
  induction ls generalizing l with
  | nil => exact ⟨[], l, rfl, .nil, h⟩
  | cons x ls ih =>
    cases h with
    | skip _ _ _ hn h2 =>
      obtain ⟨l1, l2, rfl, h3, h4⟩ := ih h2
      exact ⟨l1, l2, rfl, .skip _ _ _ hn h3, h4⟩
    | entry _ t a _ _ hn ht ha h2 =>
      obtain ⟨l1, l2, rfl, h3, h4⟩ := ih h2
      exact ⟨a :: l1, l2, rfl, .entry _ _ _ _ _ hn ht ha h3, h4⟩

/-- C102: an allowed signers file cut short is refused or has the first entries, unchanged up to the comment in the
last one. -/
theorem C102_allowed (T : Chrono) (D D' : Disk) (path : String) (hc : CutShort D D' path) (l l' : List AllowedSigner)
    (h : allowedSignersFromPath T D path = .ok l) (h' : allowedSignersFromPath T D' path = .ok l') : CutEntries l l' := by
  obtain ⟨s, hs, h⟩ := bind_ok_iff.mp h
  obtain ⟨s', hs', h'⟩ := bind_ok_iff.mp h'
  obtain ⟨x, rfl⟩ := cutShort_text hc (readToString_ok.mp hs) (readToString_ok.mp hs')
  obtain ⟨ls, hls, he⟩ := (C58_ok T _ l).mp h
  obtain ⟨ls', hls', he'⟩ := (C58_ok T _ l').mp h'
  rw [← lines_iff.mp hls] at he
  rw [← lines_iff.mp hls'] at he'
  rcases lines_prefix x _ s' (Nat.le_refl _) with h0 | ⟨ini, z, z', tl, e1, e2, e3⟩
  · rw [h0] at he'
    cases he'
    exact .inl List.nil_prefix
  rw [e1] at he'
  rw [e2] at he
  obtain ⟨l1, l2, rfl, h1, h2⟩ := entries_append he
  obtain ⟨l1', l2', rfl, h1', h2'⟩ := entries_append he'
  obtain rfl := entries_unique h1 h1'
  cases h2' with
  | skip _ _ _ hn h3 =>
    cases h3
    exact .inl (by simp)
  | entry _ t a _ _ hn ht ha h3 =>
    cases h3
    have hne : t ≠ [] := fun h => hn ⟨t, ht, .inl h⟩
    cases h2 with
    | skip _ _ _ hn' _ =>
      obtain ⟨t', ht', hh⟩ := hn'
      obtain ⟨g, rfl⟩ := trimmed_cut e3 ht ht' hne
      exfalso
      refine hn ⟨t, ht, .inr ?_⟩
      rcases hh with hh | hh
      · simp [hne] at hh
      · cases t with
        | nil => exact absurd rfl hne
        | cons c t => simpa using hh
    | entry _ t' a' _ _ hn' ht' ha' _ =>
      obtain ⟨g, rfl⟩ := trimmed_cut e3 ht ht' hne
      exact .inr ⟨l1, a', a, _, rfl, rfl, line_cut ha' ha⟩

/-- A file with two entries, the second one with a comment. -/
def sampleSigners : List Char := sampleLine ++ '\n' :: ("c@z ".toList ++ sampleKeyText ++ "\tme\n".toList)

/-- C102: cut at different places, the file has both entries, the second one with part of the comment, one entry, or
is refused. -/
example : (∃ l l2, allowedSignersFromString sampleChrono sampleSigners = .ok l ∧ l.length = 2 ∧
      allowedSignersFromString sampleChrono (sampleSigners.dropLast.dropLast) = .ok l2 ∧ l2.length = 2 ∧ l2 ≠ l) ∧
    allowedSignersFromString sampleChrono (sampleLine ++ ['\n']) = .ok [sampleEntry] ∧
    (∃ e, allowedSignersFromString sampleChrono (sampleLine ++ '\n' :: "c@z ssh-ed".toList) = .err e) :=
  ⟨⟨[sampleEntry, ⟨["c@z".toList], false, none, none, none, { sampleEd with comment := some "me" }⟩],
    [sampleEntry, ⟨["c@z".toList], false, none, none, none, { sampleEd with comment := some "m" }⟩],
    by decide +kernel, rfl, by decide +kernel, rfl, by decide +kernel⟩, by decide +kernel, ⟨.invalidAllowedSigners .invalidKey 1, by decide +kernel⟩⟩

example : PublicKey.fromString "ssh-ed25519 AAAAC3NzaC1lZDI1NTE5AAAAAwECAw== me".toList = .ok { sampleEd with comment := some "me" } ∧
    PublicKey.fromString "ssh-ed25519 AAAAC3NzaC1lZDI1NTE5AAAAAwECAw".toList = .ok { sampleEd with comment := none } ∧
    (∃ e, PublicKey.fromString "ssh-ed25519 AAAAC3NzaC1lZDI1NTE5AAAAAwEC".toList = .err e) :=
  ⟨by decide +kernel, by decide +kernel, .invalidFormat, by decide +kernel⟩

/-! ## C103 -/

theorem lines_append {s : List Char} (h : s = [] ∨ s.getLast? = some '\n') (s' : List Char) : lines (s ++ s') = lines s ++ lines s' := by
  have key : ∀ (n : Nat) (s : List Char), s.length ≤ n → (s = [] ∨ s.getLast? = some '\n') → lines (s ++ s') = lines s ++ lines s' := by
    intro n
    induction n with
    | zero =>
      intro s hn _
      rw [List.length_eq_zero_iff.mp (Nat.le_zero.mp hn)]
      rfl
    | succ n ih =>
      intro s hn hs
      rcases nl_cases s with hnl | ⟨l, r, rfl, hl⟩
      · rcases hs with rfl | hs
        · rfl
        · exact absurd (List.mem_of_getLast? hs) hnl
      · have hr : r = [] ∨ r.getLast? = some '\n' := by
          by_cases hr : r = []
          · exact .inl hr
          · right
            rcases hs with hs | hs
            · simp at hs
            · rwa [← List.singleton_append, ← List.append_assoc, getLast?_suffix hr] at hs
        have h2 := ih r (by simp at hn; omega) hr
        rw [List.append_assoc, List.cons_append]
        by_cases hc : l.getLast? = some '\r'
        · obtain ⟨q, rfl⟩ := List.getLast?_eq_some_iff.mp hc
          have hq' : '\n' ∉ q := by simp at hl; exact hl
          rw [List.append_assoc, List.singleton_append, lines_crlf hq', List.append_assoc, List.singleton_append, lines_crlf hq', h2]
          rfl
        · rw [lines_cons hl hc, lines_cons hl hc, h2]
          rfl
  exact key _ s (Nat.le_refl _) h

theorem entries_both {T : Chrono} {ls ls' : List (List Char)} {l l' : List AllowedSigner} (h : Entries T ls l) (h' : Entries T ls' l') :
    Entries T (ls ++ ls') (l ++ l') := by
  induction h with
  | nil => exact h'
  | skip _ _ _ hn _ ih => exact .skip _ _ _ hn ih
  | entry _ _ _ _ _ hn ht ha _ ih => exact .entry _ _ _ _ _ hn ht ha ih

/-- C103: of two files put together (the first one ends with a line break, or is empty), the entries are those of the
first and then those of the second; it is accepted exactly if both are. -/
theorem C103_concat (T : Chrono) (s s' : List Char) (hs : s = [] ∨ s.getLast? = some '\n') (l : List AllowedSigner) :
    allowedSignersFromString T (s ++ s') = .ok l ↔
      ∃ l1 l2, allowedSignersFromString T s = .ok l1 ∧ allowedSignersFromString T s' = .ok l2 ∧ l = l1 ++ l2 := by
  constructor
  · intro h
    obtain ⟨ls, hls, he⟩ := (C58_ok T _ l).mp h
    rw [← lines_iff.mp hls, lines_append hs] at he
    obtain ⟨l1, l2, rfl, h1, h2⟩ := entries_append he
    exact ⟨l1, l2, (C58_ok T _ _).mpr ⟨_, lines_iff.mpr rfl, h1⟩, (C58_ok T _ _).mpr ⟨_, lines_iff.mpr rfl, h2⟩, rfl⟩
  · rintro ⟨l1, l2, h1, h2, rfl⟩
    obtain ⟨ls, hls, h1⟩ := (C58_ok T _ _).mp h1
    obtain ⟨ls', hls', h2⟩ := (C58_ok T _ _).mp h2
    refine (C58_ok T _ _).mpr ⟨_, lines_iff.mpr (lines_append hs s'), ?_⟩
    rw [lines_iff.mp hls, lines_iff.mp hls']
    exact entries_both h1 h2

/-- C103: a bad line of the first file is reported as before; one of the second with the lines of the first added to
its number. -/
theorem C103_errors (T : Chrono) (s s' : List Char) (hs : s = [] ∨ s.getLast? = some '\n') :
    (∀ e, allowedSignersFromString T s = .err e → allowedSignersFromString T (s ++ s') = .err e) ∧
    (∀ l a n, allowedSignersFromString T s = .ok l → allowedSignersFromString T s' = .err (.invalidAllowedSigners a n) →
      ∃ ls, FileLines s ls ∧ allowedSignersFromString T (s ++ s') = .err (.invalidAllowedSigners a (ls.length + n))) := by
  constructor
  · intro e h
    obtain ⟨b, x, af, l, t, a, hl, hb, hx, ht, hf, rfl⟩ := (C58_err T _ e).mp h
    refine (C58_err T _ _).mpr ⟨b, x, af ++ lines s', l, t, a, lines_iff.mpr ?_, hb, hx, ht, hf, rfl⟩
    rw [lines_append hs, lines_iff.mp hl]
    simp
  · intro l a n h h'
    obtain ⟨ls, hls, h⟩ := (C58_ok T _ _).mp h
    obtain ⟨b, x, af, l', t, a', hl, hb, hx, ht, hf, he⟩ := (C58_err T _ _).mp h'
    cases he
    refine ⟨ls, hls, (C58_err T _ _).mpr ⟨ls ++ b, x, af, l ++ l', t, a, lines_iff.mpr ?_, entries_both h hb, hx, ht, hf, by simp⟩⟩
    rw [lines_append hs, lines_iff.mp hl, lines_iff.mp hls]
    simp

/-- C103: an allowed signers file cut at the end of a line is accepted, without a sign of the loss. -/
theorem C103_lost (T : Chrono) (s s' : List Char) (hs : s = [] ∨ s.getLast? = some '\n') (l : List AllowedSigner)
    (h : allowedSignersFromString T (s ++ s') = .ok l) : ∃ l1, allowedSignersFromString T s = .ok l1 ∧ l1 <+: l := by
  obtain ⟨l1, l2, h1, _, rfl⟩ := (C103_concat T s s' hs l).mp h
  exact ⟨l1, h1, List.prefix_append _ _⟩

example : allowedSignersFromString sampleChrono ((sampleLine ++ ['\n']) ++ sampleLine) = .ok [sampleEntry, sampleEntry] ∧
    allowedSignersFromString sampleChrono ((sampleLine ++ ['\n']) ++ "x".toList) = .err (.invalidAllowedSigners .missingKey 1) :=
  ⟨by decide +kernel, by decide +kernel⟩

end Ssh
