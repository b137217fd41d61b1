import Verif.Lemmas.Display
import Verif.Props.CertText
import Verif.Props.Wire

/-! # C89–C92: role names, standard extensions, order of options, the certificate as shown to people -/

namespace Ssh

open Spec Reader

/-! ## C89 -/

/-- C89: exactly four names of roles are accepted. -/
theorem C89_names (s : String) (t : CertType) : CertType.tryFrom s = some t ↔
    (t = .user ∧ (s = "user" ∨ s = "User")) ∨ (t = .host ∧ (s = "host" ∨ s = "Host")) := by
  unfold CertType.tryFrom
  split
  · rename_i h; subst h; cases t <;> decide
  · split
    · rename_i h; subst h; cases t <;> decide
    · split
      · rename_i h; subst h; cases t <;> decide
      · split
        · rename_i h; subst h; cases t <;> decide
        · simp_all

example : CertType.tryFrom "Host" = some .host ∧ CertType.tryFrom "HOST" = none := by decide

/-- C89 (finding): the text by which a role is shown is not accepted as its name. -/
theorem C89_display_not_accepted (t : CertType) : CertType.tryFrom (String.ofList t.display) = none := by
  cases t <;> decide +kernel

/-- C89: the texts of the two roles differ. -/
theorem C89_display_injective (t t' : CertType) (h : t.display = t'.display) : t = t' := by
  revert h
  cases t <;> cases t' <;> decide +kernel

example : CertType.user.display ≠ CertType.host.display := by decide +kernel

/-! ## C90 -/

/-- C90: the standard extensions are OpenSSH's default ones, each once, with no value. -/
theorem C90_table : (Certificate.standardExtensions.map (·.1)).Perm defaultExtensions ∧
    (Certificate.standardExtensions.map (·.1)).Nodup ∧ ∀ kv ∈ Certificate.standardExtensions, kv.2 = "" := by
  refine ⟨?_, by decide +kernel, by decide +kernel⟩
  decide +kernel

theorem standardExtensions_get (k : String) :
    mapGet Certificate.standardExtensions k = if k ∈ defaultExtensions then some "" else none := by
  by_cases hk : k ∈ defaultExtensions
  · rw [if_pos hk]
    revert k
    decide +kernel
  · rw [if_neg hk]
    have hno : ∀ m : StrMap, k ∉ m.map (·.1) → mapGet m k = none := by
      intro m
      induction m with
      | nil => intro _; rfl
      | cons kv m ih =>
        intro h
        simp only [List.map_cons, List.mem_cons, not_or] at h
        simp only [mapGet]
        rw [if_neg (Ne.symm h.1)]
        exact ih h.2
    exact hno _ fun h => hk (C90_table.1.mem_iff.mp h)

/-- C90: a certificate signed with the standard extensions, whatever the order in which the map is iterated, is parsed
with those extensions and no other. -/
theorem C90_roundtrip (C : Crypto) (signer : Bytes → Res (Option Bytes)) (c c3 : Certificate) (hw : WellFormedCert c)
    (he : c.extensions.Perm Certificate.standardExtensions) (hs : c.sign C signer = .ok c3)
    (hl : c3.signature.length < 4294967296) :
    ∃ c4, Certificate.fromBytes C c3.serialized = .ok c4 ∧
      ∀ k, mapGet c4.extensions k = if k ∈ defaultExtensions then some "" else none := by
  obtain ⟨tbs, sig, ht, _, ha, rfl⟩ := (C28_sign _ _ _ _).mp hs
  obtain ⟨c4, h4, hc4, _⟩ := signed_parses hw ht ha hl []
  rw [List.append_nil] at h4
  refine ⟨c4, h4, fun k => ?_⟩
  rw [hc4.2.2.2.2.2.2.2.2.2.2.2.1 k, mapGet_perm hw.2.2.2.2.2.2.1 he k, standardExtensions_get]

example : ∃ c3, ({ sampleCert with extensions := Certificate.standardExtensions } : Certificate).sign laxCrypto
    (fun _ => .ok (some sampleSig)) = .ok c3 ∧ c3.signature.length < 4294967296 :=
  ⟨_, okOf_eq (d := sampleCert) (by decide +kernel), by decide +kernel⟩

/-! ## C91 -/

/-- C91 (finding): PROTOCOL.certkeys demands options in the order of their names.  The order in which they are written
is the order of iteration, and every map of two or more entries has one which is not that order. -/
theorem C91_unordered (m : StrMap) (hm : (m.map (·.1)).Nodup) (h2 : 2 ≤ m.length) (h : optionsSize m < 4294967296) :
    ∃ order body, order.Perm m ∧ ¬ NamesOrdered order ∧ OptionPairs order body ∧
      ∀ pre, ((Writer.mk pre).writeStringMap order).inner = pre ++ (u32 body.length ++ body) := by
  obtain ⟨order, hp, hno⟩ : ∃ order : StrMap, order.Perm m ∧ ¬ NamesOrdered order := by
    by_cases ho : NamesOrdered m
    · refine ⟨m.reverse, List.reverse_perm m, fun hr => ?_⟩
      match m, h2 with
      | a :: b :: l, _ =>
        unfold NamesOrdered at ho hr
        have h1 : a.1 < b.1 := by simp only [List.map_cons, List.pairwise_cons, List.mem_cons] at ho; exact ho.1 _ (Or.inl rfl)
        rw [List.map_reverse, List.pairwise_reverse] at hr
        have h3 : b.1 < a.1 := by simp only [List.map_cons, List.pairwise_cons, List.mem_cons] at hr; exact hr.1 _ (Or.inl rfl)
        exact absurd h3 (String.lt_asymm h1)
    · exact ⟨m, List.Perm.refl _, ho⟩
  have hsz : (order.map optionSize).sum < 4294967296 := by
    have := optionsSize_perm hp
    unfold optionsSize at this h
    unfold optionSize
    omega
  have hl : (order.flatMap optionBytes).length = (order.map optionSize).sum := by
    rw [List.length_flatMap]
    congr 1
    exact List.map_congr_left fun p _ => optionBytes_length p
  refine ⟨order, order.flatMap optionBytes, hp, hno, ?_, fun pre => ?_⟩
  · apply optionPairs_of
    intro kv hkv
    have h1 : optionSize kv ≤ (order.map optionSize).sum := le_sum_of_mem (List.mem_map_of_mem hkv)
    have h2 := optionBytes_length kv
    unfold optionBytes optionDataBytes at h2
    by_cases hv : (strBytes kv.2).isEmpty
    · have : (strBytes kv.2).length = 0 := by simpa [List.isEmpty_iff] using hv
      simp [hv] at h2
      omega
    · simp [hv] at h2
      omega
  · simp [frame]

example : (sampleCert.extensions.map (·.1)).Nodup ∧ 2 ≤ sampleCert.extensions.length ∧
    optionsSize sampleCert.extensions < 4294967296 := by decide +kernel

/-- C91: the order is visible in the bytes to be signed: the same certificate iterated in two orders has two
serialisations. -/
theorem C91_order_visible (c : Certificate) (critical critical' extensions extensions' : StrMap)
    (h : WellFormedCert { c with criticalOptions := critical, extensions := extensions })
    (h' : WellFormedCert { c with criticalOptions := critical', extensions := extensions' })
    (e : ({ c with criticalOptions := critical, extensions := extensions } : Certificate).tbsCertificate =
      ({ c with criticalOptions := critical', extensions := extensions' } : Certificate).tbsCertificate) :
    critical = critical' ∧ extensions = extensions' := by
  obtain ⟨p, pc, tbs, hp, hpc, p1, c1, ht, hb⟩ := tbs_wellFormed h
  obtain ⟨p', pc', tbs', hp', hpc', p1', c1', ht', hb'⟩ := tbs_wellFormed h'
  rw [ht, ht'] at e
  simp only [Res.ok.injEq] at e
  subst e
  have := (bodyExact_unique (rest := []) (rest' := []) hb hb' rfl).2.2
  simp only [normalCert, Certificate.mk.injEq, PublicKey.mk.injEq] at this
  obtain ⟨_, _, _, _, _, _, _, _, _, a11, a12, _⟩ := this
  exact ⟨a11, a12⟩

example : WellFormedCert { sampleCert with extensions := [("permit-user-rc", ""), ("permit-pty", "")] } :=
  ⟨sampleCert_wf.1, sampleCert_wf.2.1, sampleCert_wf.2.2.1, sampleCert_wf.2.2.2.1, sampleCert_wf.2.2.2.2.1,
    sampleCert_wf.2.2.2.2.2.1, by decide +kernel, sampleCert_wf.2.2.2.2.2.2.2.1, sampleCert_wf.2.2.2.2.2.2.2.2.1,
    sampleCert_wf.2.2.2.2.2.2.2.2.2.1, sampleCert_wf.2.2.2.2.2.2.2.2.2.2.1, by decide +kernel,
    sampleCert_wf.2.2.2.2.2.2.2.2.2.2.2.2⟩

/-- C91 (finding): a field of options in any order, with any repetition of names, is accepted; the last value of each
name counts. -/
theorem C91_any_sequence_accepted (l : List (String × String)) (buf : Bytes) (h : OptionPairs l buf) :
    ∃ m, readOptions buf = .ok m ∧ ∀ k, mapGet m k = lastValue l k :=
  (C11_options_grammar buf).2.1 l h

example : ∃ l buf, OptionPairs l buf ∧ ¬ NamesOrdered l ∧ ¬ (l.map (·.1)).Nodup :=
  ⟨[("b", ""), ("a", ""), ("b", "")], _, .cons (w2 := u32 0) ⟨by decide +kernel, rfl⟩ ⟨[], ⟨by decide, rfl⟩, .inl ⟨rfl, rfl⟩⟩
    (.cons (w2 := u32 0) ⟨by decide +kernel, rfl⟩ ⟨[], ⟨by decide, rfl⟩, .inl ⟨rfl, rfl⟩⟩
      (.cons (w2 := u32 0) ⟨by decide +kernel, rfl⟩ ⟨[], ⟨by decide, rfl⟩, .inl ⟨rfl, rfl⟩⟩ .nil)),
    by unfold NamesOrdered; decide +kernel, by decide +kernel⟩

/-! ## C92 -/

/-- C92: every accepted certificate can be shown. -/
theorem C92_total (C C' : Crypto) (data : Bytes) (c : Certificate) (h : Certificate.fromBytes C data = .ok c) :
    ∃ t, c.displayAlternate C' = .ok t := by
  obtain ⟨w1, w2, _⟩ := C20_certificate C data c h
  obtain ⟨_, b, _, _, _, _, _, _, _, _, _, he, _⟩ := encode_wellFormed w1
  obtain ⟨_, b', _, _, _, _, _, _, _, _, _, he', _⟩ := encode_wellFormed w2
  rw [Certificate.displayAlternate_lines]
  unfold PublicKey.fingerprintWith
  rw [he, he']
  exact ⟨_, rfl⟩

example : ∃ c, Certificate.fromBytes laxCrypto sampleSigned.serialized = .ok c := ⟨_, sampleSigned_parses⟩

/-- C92: two certificates shown by the same text agree in everything the text is about, provided the texts in them have
no line breaks. -/
theorem C92_faithful (C : Crypto) (c c' : Certificate) (t : List Char) (hc : c.displayAlternate C = .ok t)
    (hc' : c'.displayAlternate C = .ok t) (hk : c.keyType ∈ keyTypes) (hk' : c'.keyType ∈ keyTypes)
    (ha : c.signatureKey.keyType ∈ keyTypes) (ha' : c'.signatureKey.keyType ∈ keyTypes)
    (ho : OneLiners c) (ho' : OneLiners c') :
    c.keyType = c'.keyType ∧ c.certType = c'.certType ∧
    c.key.fingerprintWith C .sha256 = c'.key.fingerprintWith C .sha256 ∧
    c.signatureKey.fingerprintWith C .sha256 = c'.signatureKey.fingerprintWith C .sha256 ∧
    c.signatureKey.keyType = c'.signatureKey.keyType ∧ c.keyId = c'.keyId ∧ c.serial = c'.serial ∧
    c.validAfter = c'.validAfter ∧ c.validBefore = c'.validBefore ∧ c.principals = c'.principals ∧
    c.criticalOptions.map (fun kv => kv.1 ++ " " ++ kv.2) = c'.criticalOptions.map (fun kv => kv.1 ++ " " ++ kv.2) ∧
    c.extensions.map (·.1) = c'.extensions.map (·.1) := by
  obtain ⟨fk, fc, h1, h2, rfl⟩ := Certificate.displayAlternate_ok hc
  obtain ⟨fk', fc', h1', h2', e⟩ := Certificate.displayAlternate_ok hc'
  have hl := unlines_inj (Certificate.prettyLines_oneLine h1 h2 hk ha ho) (Certificate.prettyLines_oneLine h1' h2' hk' ha' ho') e
  rw [h1, h1', h2, h2']
  obtain ⟨r1, r2, r3, r4, r5, r6, r7, r8, r9, r10, r11, r12⟩ := Certificate.prettyLines_inj h1 h1' h2 h2' hk hk' ha ha' hl
  exact ⟨r1, r2, by rw [r3], by rw [r4], r5, r6, r7, r8, r9, r10, r11, r12⟩

example : OneLiners sampleCert ∧ ∃ t, sampleCert.displayAlternate laxCrypto = .ok t :=
  ⟨by unfold OneLiners OneLine; decide +kernel, _, okOf_eq (d := []) (by decide +kernel)⟩

/-- C92: if moreover no name of a critical option has a space, the critical options agree. -/
theorem C92_critical (m m' : StrMap) (h : m.map (fun kv => kv.1 ++ " " ++ kv.2) = m'.map (fun kv => kv.1 ++ " " ++ kv.2))
    (hm : ∀ kv ∈ m, ' ' ∉ kv.1.toList) (hm' : ∀ kv ∈ m', ' ' ∉ kv.1.toList) : m = m' := by
  induction m generalizing m' with
  | nil => cases m' with
    | nil => rfl
    | cons b l' => simp at h
  | cons a l ih => cases m' with
    | nil => simp at h
    | cons b l' =>
      simp only [List.map_cons, List.cons.injEq] at h
      have e := congrArg String.toList h.1
      simp only [String.toList_append, List.append_assoc] at e
      obtain ⟨e1, _, e2⟩ := word_inj (p := (· = ' ')) (s := ' ') (t := ' ')
        (fun x hx hxs => hm a (by simp) (hxs ▸ hx)) (fun x hx hxs => hm' b (by simp) (hxs ▸ hx)) rfl rfl e
      rw [ih l' h.2 (fun kv hkv => hm kv (by simp [hkv])) (fun kv hkv => hm' kv (by simp [hkv]))]
      rw [Prod.ext (String.toList_inj.mp e1) (String.toList_inj.mp e2)]

example : ∀ kv ∈ sampleCert.criticalOptions, ' ' ∉ kv.1.toList := by decide +kernel

/-- C92 (finding): the values of extensions are not shown. -/
theorem C92_extension_values_hidden (C : Crypto) (c : Certificate) (m : StrMap)
    (h : m.map (·.1) = c.extensions.map (·.1)) :
    ({ c with extensions := m } : Certificate).displayAlternate C = c.displayAlternate C := by
  have e : m.map (·.1.toList) = c.extensions.map (·.1.toList) := by
    have := congrArg (List.map String.toList) h
    rw [List.map_map, List.map_map] at this
    exact this
  rw [Certificate.displayAlternate_lines, Certificate.displayAlternate_lines]
  simp only [Certificate.prettyLines, Certificate.validityLine, Certificate.criticalItems, e]

example : [("permit-pty", "no"), ("permit-user-rc", "")].map (·.1) = sampleCert.extensions.map (·.1) := by decide

/-- C92 (finding): a line break in a principal is shown as it is, so one principal passes for two. -/
theorem C92_principal_line_break (C : Crypto) (c : Certificate) (pre post : List String) (a b : String) :
    ({ c with principals := pre ++ (a ++ "\n\t" ++ b) :: post } : Certificate).displayAlternate C =
      ({ c with principals := pre ++ a :: b :: post } : Certificate).displayAlternate C := by
  have e : ({ c with principals := pre ++ (a ++ "\n\t" ++ b) :: post } : Certificate).prettyPrincipals =
      ({ c with principals := pre ++ a :: b :: post } : Certificate).prettyPrincipals := by
    unfold Certificate.prettyPrincipals
    have h : "\n\t".toList = ['\n', '\t'] := by decide +kernel
    have e1 : (pre ++ (a ++ "\n\t" ++ b) :: post).isEmpty = false := by cases pre <;> rfl
    have e2 : (pre ++ a :: b :: post).isEmpty = false := by cases pre <;> rfl
    simp only [e1, e2, List.flatMap_append, List.flatMap_cons,
      String.toList_append, h, List.append_assoc, List.cons_append, List.nil_append]
  unfold Certificate.displayAlternate
  rw [e]
  rfl

example : "root\n\tadmin" ≠ "root" := by decide

end Ssh
