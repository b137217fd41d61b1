import Verif.Spec.FidoErrors
import Verif.Props.Fido

/-! # C126: what is said about authenticator data and attestations that are refused -/

namespace Ssh
open Spec

theorem ofOption_err {α : Type} {e e' : Err} {o : Option α} : Res.ofOption e o = .err e' ↔ o = none ∧ e' = e := by
  cases o <;> simp [Res.ofOption, eq_comm]

theorem bind_err_iff {α β : Type} {x : Res α} {f : α → Res β} {e : Err} :
    (x >>= f) = .err e ↔ x = .err e ∨ ∃ a, x = .ok a ∧ f a = .err e := by
  cases x <;> simp

theorem none_of_begins {α : Type} {f : Bytes → Option (α × Bytes)} {P : α → Bytes → Prop}
    (hf : ∀ {b r v}, f b = some (v, r) ↔ ∃ w, P v w ∧ b = w ++ r) (b : Bytes) : f b = none ↔ ¬ ∃ v, Begins (P v) b := by
  constructor
  · rintro h ⟨v, w, r, hw, rfl⟩
    rw [hf.mpr ⟨w, hw, rfl⟩] at h
    cases h
  · intro h
    cases hb : f b with
    | none => rfl
    | some p =>
      obtain ⟨w, hw, e⟩ := hf.mp hb
      exact absurd ⟨p.1, w, p.2, hw, e⟩ h

theorem undefined_none {b : Bytes} : cborUndefined b = none ↔ b.head? ≠ some 0xf7 := by
  cases b with
  | nil => simp [cborUndefined]
  | cons h t => by_cases hh : h = 0xf7 <;> simp [cborUndefined, hh]

theorem coseEntry_err {b : Bytes} {k : CoseKey} {e : Err} : coseEntry b k = .err e ↔ BadEntry b e := by
  have ret : ∀ {α : Type} {e' : Err} {o : Option (α × Bytes)} {g : α × Bytes → CoseKey × Bytes},
      (Res.ofOption e' o >>= fun p => pure (g p)) = .err e ↔ o = none ∧ e = e' := by
    intro α e' o g
    cases o <;> simp [Res.ofOption, eq_comm]
  unfold coseEntry
  cases hi : readInteger b with
  | none =>
    have hn := (none_of_begins (P := CborInt) readInteger_iff b).mp hi
    constructor
    · intro h
      cases h
      exact .label hn
    · intro h
      cases h with
      | label _ => rfl
      | curve a r h1 h2 _ => exact absurd ⟨_, a, r, h1, h2⟩ hn
      | keyType a r h1 h2 _ => exact absurd ⟨_, a, r, h1, h2⟩ hn
      | algorithm a r h1 h2 _ => exact absurd ⟨_, a, r, h1, h2⟩ hn
      | coordinate l a r _ h1 h2 _ => exact absurd ⟨_, a, r, h1, h2⟩ hn
      | other l a r _ h1 h2 _ => exact absurd ⟨_, a, r, h1, h2⟩ hn
  | some p =>
    obtain ⟨l, b1⟩ := p
    obtain ⟨a, ha, hb⟩ := readInteger_iff.mp hi
    have same : ∀ {l' a' c}, CborInt l' a' → b = a' ++ c → l' = l ∧ c = b1 := by
      intro l' a' c h e
      have := readInteger_iff.mpr ⟨a', h, e⟩
      rw [hi] at this
      cases this
      exact ⟨rfl, rfl⟩
    dsimp only
    constructor
    · intro h
      split at h
      · rename_i hl; subst hl
        obtain ⟨h', rfl⟩ := ret.mp h
        clear h
        exact .curve a b1 ha hb ((none_of_begins (P := CborInt) readInteger_iff _).mp h')
      split at h
      · rename_i hl; subst hl
        obtain ⟨h', rfl⟩ := ret.mp h
        clear h
        exact .keyType a b1 ha hb ((none_of_begins (P := CborInt) readInteger_iff _).mp h')
      split at h
      · rename_i hl; subst hl
        obtain ⟨h', rfl⟩ := ret.mp h
        clear h
        exact .algorithm a b1 ha hb ((none_of_begins (P := CborInt) readInteger_iff _).mp h')
      split at h
      · rename_i hl
        obtain ⟨h', rfl⟩ := ret.mp h
        clear h
        exact .coordinate l a b1 hl ha hb ((none_of_begins (P := CborBytes) cborBytes_iff _).mp h')
      · rename_i n1 n2 n3 n4
        obtain ⟨h', rfl⟩ := ret.mp h
        clear h
        refine .other l a b1 ?_ ha hb (undefined_none.mp h')
        simp only [List.mem_cons, List.not_mem_nil, or_false]
        rintro (h | h | h | h | h)
        · exact n2 h
        · exact n3 h
        · exact n1 h
        · exact n4 (.inl h)
        · exact n4 (.inr h)
    · intro h
      cases h with
      | label hn => exact absurd ⟨l, a, b1, ha, hb⟩ hn
      | curve a' r h1 h2 h3 =>
        obtain ⟨rfl, rfl⟩ := same h1 h2
        rw [if_pos rfl]
        exact ret.mpr ⟨(none_of_begins (P := CborInt) readInteger_iff _).mpr h3, rfl⟩
      | keyType a' r h1 h2 h3 =>
        obtain ⟨rfl, rfl⟩ := same h1 h2
        rw [if_neg (by decide), if_pos rfl]
        exact ret.mpr ⟨(none_of_begins (P := CborInt) readInteger_iff _).mpr h3, rfl⟩
      | algorithm a' r h1 h2 h3 =>
        obtain ⟨rfl, rfl⟩ := same h1 h2
        rw [if_neg (by decide), if_neg (by decide), if_pos rfl]
        exact ret.mpr ⟨(none_of_begins (P := CborInt) readInteger_iff _).mpr h3, rfl⟩
      | coordinate l' a' r hl h1 h2 h3 =>
        obtain ⟨rfl, rfl⟩ := same h1 h2
        rw [if_neg (by rcases hl with rfl | rfl <;> decide), if_neg (by rcases hl with rfl | rfl <;> decide),
          if_neg (by rcases hl with rfl | rfl <;> decide), if_pos hl]
        exact ret.mpr ⟨(none_of_begins (P := CborBytes) cborBytes_iff _).mpr h3, rfl⟩
      | other l' a' r hl h1 h2 h3 =>
        obtain ⟨rfl, rfl⟩ := same h1 h2
        simp only [List.mem_cons, List.not_mem_nil, or_false, not_or] at hl
        obtain ⟨n1, n2, n3, n4, n5⟩ := hl
        rw [if_neg n3, if_neg n1, if_neg n2, if_neg (by rintro (h | h) <;> contradiction)]
        exact ret.mpr ⟨undefined_none.mpr h3, rfl⟩

theorem coseLoop_err {n : Nat} {e : Err} : ∀ {b : Bytes} {k : CoseKey}, coseLoop n b k = .err e ↔
    ∃ fs w r, fs.length < n ∧ CoseFields fs w ∧ b = w ++ r ∧ BadEntry r e := by
  induction n with
  | zero => intro b k; exact ⟨nofun, fun ⟨_, _, _, h, _⟩ => absurd h (Nat.not_lt_zero _)⟩
  | succ n ih =>
    intro b k
    rw [coseLoop]
    constructor
    · intro h
      rcases bind_err_iff.mp h with h | ⟨⟨k', r⟩, h1, h2⟩
      · exact ⟨[], [], b, by simp, .nil, rfl, coseEntry_err.mp h⟩
      · obtain ⟨f, w, hf, rfl, _⟩ := coseEntry_ok.mp h1
        obtain ⟨fs, w', r', hl, hfs, hr, hb⟩ := ih.mp h2
        dsimp only at hr
        subst hr
        exact ⟨f :: fs, w ++ w', r', by simp; omega, .cons hf hfs, by simp, hb⟩
    · rintro ⟨fs, w, r, hl, hfs, rfl, hb⟩
      cases hfs with
      | nil =>
        rw [List.nil_append, coseEntry_err.mpr hb]
        rfl
      | cons hf hfs =>
        rename_i f fs a b
        rw [coseEntry_ok.mpr ⟨f, a, hf, List.append_assoc _ _ _, rfl⟩]
        exact ih.mpr ⟨fs, b, r, by simpa using hl, hfs, rfl, hb⟩

theorem map_none (b : Bytes) : (∀ n r, cborMap b ≠ some (some n, r)) ↔ ¬ ∃ n, Begins (CborHead 5 n) b := by
  constructor
  · rintro h ⟨n, w, r, hw, rfl⟩
    exact h n r (cborMap_iff.mpr ⟨w, hw, rfl⟩)
  · intro h n r e
    obtain ⟨w, hw, e⟩ := cborMap_iff.mp e
    exact h ⟨n, w, r, hw, e⟩

theorem parseCose_err {b : Bytes} {e : Err} : parseCose b = .err e ↔ BadCose b e := by
  unfold parseCose
  constructor
  · intro h
    split at h
    · rename_i n rest hm
      obtain ⟨w, hw, rfl⟩ := cborMap_iff.mp hm
      split at h
      · cases h
        exact .long n ⟨w, rest, hw, rfl⟩ ‹_›
      · obtain ⟨fs, w', r, hl, hfs, rfl, hb⟩ := coseLoop_err.mp h
        exact .entry n w w' r fs e (by omega) hw hl hfs (List.append_assoc _ _ _).symm hb
    · rename_i hm
      cases h
      exact .map ((map_none b).mp fun n r h => hm n r h)
  · intro h
    cases h with
    | map h =>
      have h := (map_none b).mpr h
      split
      · exact absurd ‹_› (h _ _)
      · rfl
    | long n h hn =>
      obtain ⟨w, r, hw, rfl⟩ := h
      rw [cborMap_iff.mpr ⟨w, hw, rfl⟩]
      exact if_pos hn
    | entry n hd w r fs e hn hh hl hfs hb he =>
      subst hb
      rw [List.append_assoc, cborMap_iff.mpr ⟨hd, hh, rfl⟩]
      dsimp only
      rw [if_neg (by omega)]
      exact coseLoop_err.mpr ⟨fs, w, r, hl, hfs, rfl, he⟩

theorem readExact_eval (n : Nat) (b : Bytes) (msg : String) : AuthData.readExact n b msg =
    if n ≤ b.length then .ok (b.take n, b.drop n) else .err (.fidoError (.cborFormat msg)) := by
  unfold AuthData.readExact cborTake
  split <;> rfl

theorem foldExt_err {X : X509Env} {a : AuthData} {i : X509Cert} {e : Err} (h : fidoExtensions X a i = .err e) :
    ¬ ExtensionsDecode X i.extensions ∧ e = .parsingError := by
  have key : ∀ (es : List (String × Bytes)) v, es.foldlM (fidoExtension X) v = .err e → e = .parsingError := by
    intro es
    induction es with
    | nil => nofun
    | cons x es ih =>
      intro v h
      rw [List.foldlM_cons, fidoExtension_eq] at h
      split at h
      · exact ih _ h
      · cases h
        rfl
  refine ⟨fun hd => ?_, key _ _ h⟩
  have := (foldExt X i.extensions ⟨a, none, none, none⟩ _).mpr ⟨hd, rfl⟩
  have h : i.extensions.foldlM (fidoExtension X) ⟨a, none, none, none⟩ = .err e := h
  rw [this] at h
  cases h

/-- C126: authenticator data is refused exactly for these reasons, each with its own text; in a key, the first bad entry is
reported. -/
theorem C126_authData (raw : Bytes) (e : Err) : AuthData.parse raw = .err e ↔ BadAuthData raw e := by
  have hcl : beNat (((((raw.drop 32).drop 1).drop 4).drop 16).take 2) = credentialLength raw := by
    unfold credentialLength
    rw [beNat_eq_natOf, List.drop_drop, List.drop_drop, List.drop_drop]
  have hrest : (((((raw.drop 32).drop 1).drop 4).drop 16).drop 2).drop (credentialLength raw) = raw.drop (55 + credentialLength raw) := by
    simp only [List.drop_drop]
  unfold AuthData.parse
  simp only [readExact_eval]
  by_cases h1 : ¬ 32 ≤ raw.length
  · rw [if_neg h1]
    simp only [Res.err_bind, Res.err.injEq]
    constructor
    · rintro rfl; exact .rpid (by omega)
    · rintro (_ | _ | _ | _ | _ | _ | _ | _) <;> first | rfl | (exfalso; omega)
  have h1 := Classical.not_not.mp h1
  rw [if_pos h1]
  simp only [Res.ok_bind, List.length_drop]
  by_cases h2 : ¬ 1 ≤ raw.length - 32
  · rw [if_neg h2]
    simp only [Res.err_bind, Res.err.injEq]
    constructor
    · rintro rfl; exact .flags (by omega)
    · rintro (_ | _ | _ | _ | _ | _ | _ | _) <;> first | rfl | (exfalso; omega)
  have h2 := Classical.not_not.mp h2
  rw [if_pos h2]
  simp only [Res.ok_bind]
  obtain ⟨f, hf⟩ : ∃ f, raw[32]? = some f := ⟨raw[32], List.getElem?_eq_getElem _⟩
  have hfl : index ((raw.drop 32).take 1) 0 = .ok f := by
    unfold index
    rw [List.getElem?_take, if_pos (by decide), List.getElem?_drop, hf]
    rfl
  rw [hfl]
  simp only [Res.ok_bind, List.length_drop]
  by_cases h3 : ¬ 4 ≤ raw.length - 32 - 1
  · rw [if_neg h3]
    simp only [Res.err_bind, Res.err.injEq]
    constructor
    · rintro rfl; exact .count (by omega) (by omega)
    · rintro (_ | _ | _ | _ | _ | _ | _ | _) <;> first | rfl | (exfalso; omega)
  have h3 := Classical.not_not.mp h3
  rw [if_pos h3]
  simp only [Res.ok_bind, List.length_drop]
  by_cases h4 : ¬ 16 ≤ raw.length - 32 - 1 - 4
  · rw [if_neg h4]
    simp only [Res.err_bind, Res.err.injEq]
    constructor
    · rintro rfl; exact .aaguid (by omega) (by omega)
    · rintro (_ | _ | _ | _ | _ | _ | _ | _) <;> first | rfl | (exfalso; omega)
  have h4 := Classical.not_not.mp h4
  rw [if_pos h4]
  simp only [Res.ok_bind, List.length_drop]
  by_cases h5 : ¬ 2 ≤ raw.length - 32 - 1 - 4 - 16
  · rw [if_neg h5]
    simp only [Res.err_bind, Res.err.injEq]
    constructor
    · rintro rfl; exact .length (by omega) (by omega)
    · rintro (_ | _ | _ | _ | _ | _ | _ | _) <;> first | rfl | (exfalso; omega)
  have h5 := Classical.not_not.mp h5
  rw [if_pos h5]
  simp only [Res.ok_bind, List.length_drop]
  rw [hcl]
  by_cases h6 : ¬ credentialLength raw ≤ raw.length - 32 - 1 - 4 - 16 - 2
  · rw [if_neg h6]
    simp only [Res.err_bind, Res.err.injEq]
    constructor
    · rintro rfl; exact .credential (by omega) (by omega)
    · rintro (_ | _ | _ | _ | _ | _ | _ | _) <;> first | rfl | (exfalso; omega)
  have h6 := Classical.not_not.mp h6
  rw [if_pos h6]
  simp only [Res.ok_bind]
  rw [hrest]
  by_cases h7 : f &&& 0x40 = 0x40
  · rw [if_pos h7]
    have h7 := (bit6 f).mp h7
    constructor
    · intro h
      rcases bind_err_iff.mp h with h | ⟨k, _, h⟩
      · exact .key f e (by omega) hf h7 (parseCose_err.mp h)
      · cases h
    · intro h
      have : BadCose (raw.drop (55 + credentialLength raw)) e := by
        cases h with
        | key f' e' _ _ _ h => exact h
        | noKey f' _ hf' h' => rw [hf] at hf'; cases hf'; rw [h7] at h'; cases h'
        | _ => exfalso; omega
      rw [parseCose_err.mpr this]
      rfl
  · rw [if_neg h7]
    have h7 : f.toNat.testBit 6 = false := by
      cases h : f.toNat.testBit 6 with
      | false => rfl
      | true => exact absurd ((bit6 f).mpr h) h7
    constructor
    · intro h
      cases h
      exact .noKey f (by omega) hf h7
    · intro h
      cases h with
      | noKey _ _ _ _ => rfl
      | key f' _ _ hf' h' _ => rw [hf] at hf'; cases hf'; rw [h7] at h'; cases h'
      | _ => exfalso; omega

/-- C126: so for refused data there is exactly one reason. -/
theorem C126_one_reason (raw : Bytes) : (∃ a fs junk, AuthDataIs raw a fs junk ∧ ∀ e, ¬ BadAuthData raw e) ∨
    ∃ e, BadAuthData raw e ∧ (∀ e', BadAuthData raw e' → e' = e) ∧ ∀ a fs junk, ¬ AuthDataIs raw a fs junk := by
  cases h : AuthData.parse raw with
  | ok a =>
    obtain ⟨fs, junk, hi⟩ := parse_ok.mp h
    refine .inl ⟨a, fs, junk, hi, fun e he => ?_⟩
    rw [(C126_authData raw e).mpr he] at h
    cases h
  | err e =>
    refine .inr ⟨e, (C126_authData raw e).mp h, fun e' he => ?_, fun a fs junk hi => ?_⟩
    · rw [(C126_authData raw e').mpr he] at h
      cases h
      rfl
    · rw [parse_ok.mpr ⟨fs, junk, hi⟩] at h
      cases h
  | panic => exact absurd h (parse_noPanic raw)

/-- C126: an attestation is refused exactly for these reasons: nothing is said about the authenticator data unless both signatures
are good. -/
theorem C126_attestation (X : X509Env) (C : Crypto) (yubicoRoot : String) (authData sig challenge cert : Bytes) (alg : Int)
    (rootPem : Option String) (e : Err) :
    verifyAuthData X C yubicoRoot authData sig challenge alg cert rootPem = .err e ↔
      BadAttestation X C (rootPem.getD yubicoRoot) authData sig challenge cert alg e := by
  unfold verifyAuthData
  by_cases h7 : ¬ alg = -7
  · rw [if_neg h7]
    by_cases h8 : alg = -8
    · rw [if_pos h8]
      simp only [Res.err.injEq]
      constructor
      · rintro rfl; exact .eddsa h8
      · rintro (_ | h | _ | _ | _ | _ | _) <;> first | rfl | (exfalso; contradiction) | skip
        exact absurd (by simp [h8]) h
    · rw [if_neg h8]
      simp only [Res.err.injEq]
      constructor
      · rintro rfl; exact .algorithm (by simp [h7, h8])
      · rintro (_ | h | _ | _ | _ | _ | _) <;> first | rfl | (exfalso; contradiction)
  have h7 := Classical.not_not.mp h7
  rw [if_pos h7]
  have na : ¬ alg = -8 := by rw [h7]; decide
  have nb : ¬ alg ∉ [-7, -8] := by rw [h7]; decide
  cases hr : X.parsePem (rootPem.getD yubicoRoot) with
  | none =>
    simp only [Res.ofOption, Res.err_bind, Res.err.injEq]
    constructor
    · rintro rfl; exact .certificates h7 (.inl hr)
    · intro h
      cases h with
      | eddsa h => exact absurd h na
      | algorithm h => exact absurd h nb
      | certificates _ _ => rfl
      | chain r i _ h => rw [hr] at h; cases h
      | signature r i _ h => rw [hr] at h; cases h
      | data i _ _ h => obtain ⟨_, h, _⟩ := h; rw [hr] at h; cases h
      | extension i a fs j _ h => rfl
  | some root =>
    cases hd : X.parseDer cert with
    | none =>
      simp only [Res.ofOption, Res.ok_bind, Res.err_bind, Res.err.injEq]
      constructor
      · rintro rfl; exact .certificates h7 (.inr hd)
      · intro h
        cases h with
        | eddsa h => exact absurd h na
        | algorithm h => exact absurd h nb
        | certificates _ _ => rfl
        | chain r i _ _ h => rw [hd] at h; cases h
        | signature r i _ _ h => rw [hd] at h; cases h
        | data i _ _ h => obtain ⟨_, _, h, _⟩ := h; rw [hd] at h; cases h
        | extension i a fs j _ h => rfl
    | some i =>
      simp only [Res.ofOption, Res.ok_bind]
      cases hv : X.verify i root.spki with
      | false =>
        rw [if_pos (by simp)]
        simp only [Res.err.injEq]
        constructor
        · rintro rfl; exact .chain root i h7 hr hd hv
        · intro h
          cases h with
          | eddsa h => exact absurd h na
          | algorithm h => exact absurd h nb
          | certificates _ h => rw [hr, hd] at h; rcases h with h | h <;> cases h
          | chain _ _ _ _ _ _ => rfl
          | signature _ _ _ _ _ _ _ => rfl
          | data i' _ _ h => obtain ⟨r', h1, h2, h3, _⟩ := h; rw [hr] at h1; rw [hd] at h2; cases h1; cases h2; rw [hv] at h3; cases h3
          | extension i' a fs j _ h => obtain ⟨r', h1, h2, h3, _⟩ := h; rw [hr] at h1; rw [hd] at h2; cases h1; cases h2; rw [hv] at h3; cases h3
      | true =>
        rw [if_neg (by simp)]
        cases hs : C.ecdsaAsn1Verify i.spki.keyData (authData ++ challenge) sig with
        | false =>
          rw [if_pos (by simp)]
          simp only [Res.err.injEq]
          constructor
          · rintro rfl; exact .signature root i h7 hr hd hv hs
          · intro h
            cases h with
            | eddsa h => exact absurd h na
            | algorithm h => exact absurd h nb
            | certificates _ h => rw [hr, hd] at h; rcases h with h | h <;> cases h
            | chain _ _ _ _ _ _ => rfl
            | signature _ _ _ _ _ _ _ => rfl
            | data i' _ _ h => obtain ⟨r', h1, h2, _, h3⟩ := h; rw [hr] at h1; rw [hd] at h2; cases h1; cases h2; rw [hs] at h3; cases h3
            | extension i' a fs j _ h => obtain ⟨r', h1, h2, _, h3⟩ := h; rw [hr] at h1; rw [hd] at h2; cases h1; cases h2; rw [hs] at h3; cases h3
        | true =>
          rw [if_neg (by simp)]
          have hat : Attested X C (rootPem.getD yubicoRoot) cert authData challenge sig i := ⟨root, hr, hd, hv, hs⟩
          constructor
          · intro h
            rcases bind_err_iff.mp h with h | ⟨a, ha, h⟩
            · exact .data i e h7 hat ((C126_authData _ _).mp h)
            · obtain ⟨fs, junk, hi⟩ := parse_ok.mp ha
              obtain ⟨h1, rfl⟩ := foldExt_err h
              exact .extension i a fs junk h7 hat hi h1
          · intro h
            cases h with
            | eddsa h => exact absurd h na
            | algorithm h => exact absurd h nb
            | certificates _ h => rw [hr, hd] at h; rcases h with h | h <;> cases h
            | chain r' i' _ h1 h2 h3 => rw [hr] at h1; rw [hd] at h2; cases h1; cases h2; rw [hv] at h3; cases h3
            | signature r' i' _ h1 h2 _ h3 => rw [hr] at h1; rw [hd] at h2; cases h1; cases h2; rw [hs] at h3; cases h3
            | data i' _ _ _ h => rw [(C126_authData _ _).mpr h]; rfl
            | extension i' a fs j _ h hi hx =>
              obtain ⟨r', _, h2, _⟩ := h
              rw [hd] at h2
              cases h2
              rw [parse_ok.mpr ⟨fs, j, hi⟩, Res.ok_bind]
              cases hf : fidoExtensions X a i with
              | ok v => exact absurd (fidoExtensions_ok.mp hf).2.1 hx
              | err e' => rw [(foldExt_err hf).2]
              | panic => exact absurd hf (foldExt_noPanic X _ _)

theorem sshKey_err {a : AuthData} {app : String} {e : Err} :
    a.sshPublicKey app = .err e ↔ a.coseKey.algorithm ∉ [-7, -8] ∧ e = .parsingError := by
  have k1 : curveUnwrap "nistp256" = .ok ⟨.nistp256, "nistp256"⟩ := by decide +kernel
  have k2 : ∃ t, keyTypeUnwrap "sk-ecdsa-sha2-nistp256@openssh.com" = .ok t := ⟨_, rfl⟩
  have k3 : ∃ t, keyTypeUnwrap "sk-ssh-ed25519@openssh.com" = .ok t := ⟨_, rfl⟩
  obtain ⟨t2, k2⟩ := k2
  obtain ⟨t3, k3⟩ := k3
  unfold AuthData.sshPublicKey
  rw [k1, k2, k3]
  split
  · rename_i h; simp [h]
  split
  · rename_i h; simp [h]
  · rename_i h1 h2; simp [h1, h2, eq_comm]

theorem sshKey_noPanic (a : AuthData) (app : String) : a.sshPublicKey app ≠ .panic := by
  obtain ⟨t1, k1⟩ : ∃ t, curveUnwrap "nistp256" = .ok t := ⟨_, rfl⟩
  obtain ⟨t2, k2⟩ : ∃ t, keyTypeUnwrap "sk-ecdsa-sha2-nistp256@openssh.com" = .ok t := ⟨_, rfl⟩
  obtain ⟨t3, k3⟩ : ∃ t, keyTypeUnwrap "sk-ssh-ed25519@openssh.com" = .ok t := ⟨_, rfl⟩
  unfold AuthData.sshPublicKey
  rw [k1, k2, k3]
  split
  · simp
  split <;> simp

/-- C126: with the CTAP backend the answer of the device is refused exactly for these reasons. -/
theorem C126_ctap (X : X509Env) (C : Crypto) (yubicoRoot application comment : String) (pin path : Option String) (challenge : Bytes)
    (att : CtapAttestation) (e : Err) :
    ctapGenerate X C yubicoRoot application comment pin path challenge (.ok att) = .err e ↔
      BadAuthData att.authData e ∨ ∃ a fs junk, AuthDataIs att.authData a fs junk ∧
        (a.coseKey.algorithm ∉ [-7, -8] ∧ e = .parsingError ∨
         a.coseKey.algorithm ∈ [-7, -8] ∧ ∃ cert, FirstOrEmpty att.x5c cert ∧
          BadAttestation X C yubicoRoot att.authData att.sig (C.sha256 challenge) cert att.alg e) := by
  obtain ⟨kt, hkt⟩ : ∃ kt, KeyType.fromName "sk-ssh-ed25519@openssh.com" = .ok kt := ⟨_, rfl⟩
  unfold ctapGenerate
  simp only [Res.ofExcept, Res.ok_bind, hkt]
  constructor
  · intro h
    rcases bind_err_iff.mp h with h | ⟨a, ha, h⟩
    · exact .inl ((C126_authData _ _).mp h)
    obtain ⟨fs, junk, hi⟩ := parse_ok.mp ha
    refine .inr ⟨a, fs, junk, hi, ?_⟩
    rcases bind_err_iff.mp h with h | ⟨pk, hpk, h⟩
    · exact .inl (sshKey_err.mp h)
    refine .inr ⟨?_, firstCert att.x5c, firstCert_spec _, ?_⟩
    · by_cases hx : a.coseKey.algorithm ∈ [-7, -8]
      · exact hx
      · rw [sshKey_err.mpr ⟨hx, rfl⟩] at hpk
        cases hpk
    · rcases bind_err_iff.mp h with h | ⟨v, _, h⟩
      · exact (C126_attestation X C yubicoRoot att.authData att.sig (C.sha256 challenge) (firstCert att.x5c) att.alg none e).mp h
      · cases h
  · rintro (h | ⟨a, fs, junk, hi, ⟨ha, rfl⟩ | ⟨ha, cert, hc, h⟩⟩)
    · rw [(C126_authData _ _).mpr h]
      rfl
    · rw [parse_ok.mpr ⟨fs, junk, hi⟩, Res.ok_bind, sshKey_err.mpr ⟨ha, rfl⟩]
      rfl
    · cases firstCert_unique hc
      rw [parse_ok.mpr ⟨fs, junk, hi⟩, Res.ok_bind]
      cases hk : a.sshPublicKey application with
      | ok pk =>
        rw [Res.ok_bind]
        exact bind_err_iff.mpr (.inl ((C126_attestation X C yubicoRoot att.authData att.sig (C.sha256 challenge) (firstCert att.x5c) att.alg none e).mpr h))
      | err e' => exact absurd ha (sshKey_err.mp hk).1
      | panic => exact absurd hk (sshKey_noPanic a application)

/-- C126: the same with the Mozilla backend, where the attestation must also be packed. -/
theorem C126_mozilla (X : X509Env) (C : Crypto) (yubicoRoot application comment : String) (pin : Option String) (challenge : Bytes)
    (att : MozAttestation) (e : Err) :
    mozGenerate X C yubicoRoot application comment pin challenge att = .err e ↔
      BadAuthData att.authData e ∨ ∃ a fs junk, AuthDataIs att.authData a fs junk ∧
        (a.coseKey.algorithm ∉ [-7, -8] ∧ e = .parsingError ∨
         a.coseKey.algorithm ∈ [-7, -8] ∧
          (att.packed = none ∧ e = .fidoError (.unknown "Wrong attestation format") ∨
           ∃ sig certs cert alg, att.packed = some (sig, certs, alg) ∧ FirstOrEmpty certs cert ∧
            BadAttestation X C yubicoRoot att.authData sig challenge cert alg e)) := by
  obtain ⟨kt, hkt⟩ : ∃ kt, KeyType.fromName "sk-ssh-ed25519@openssh.com" = .ok kt := ⟨_, rfl⟩
  unfold mozGenerate
  constructor
  · intro h
    rcases bind_err_iff.mp h with h | ⟨a, ha, h⟩
    · exact .inl ((C126_authData _ _).mp h)
    obtain ⟨fs, junk, hi⟩ := parse_ok.mp ha
    refine .inr ⟨a, fs, junk, hi, ?_⟩
    rw [hkt, Res.ok_bind] at h
    rcases bind_err_iff.mp h with h | ⟨pk, hpk, h⟩
    · exact .inl (sshKey_err.mp h)
    refine .inr ⟨?_, ?_⟩
    · by_cases hx : a.coseKey.algorithm ∈ [-7, -8]
      · exact hx
      · rw [sshKey_err.mpr ⟨hx, rfl⟩] at hpk
        cases hpk
    · obtain ⟨ad, packed⟩ := att
      cases packed with
      | none =>
        cases h
        exact .inl ⟨rfl, rfl⟩
      | some p =>
        obtain ⟨sig, certs, alg⟩ := p
        rcases bind_err_iff.mp h with h | ⟨v, _, h⟩
        · exact .inr ⟨sig, certs, _, alg, rfl, firstCert_spec _,
            (C126_attestation X C yubicoRoot ad sig challenge (firstCert certs) alg none e).mp h⟩
        · cases h
  · rintro (h | ⟨a, fs, junk, hi, ⟨ha, rfl⟩ | ⟨ha, h⟩⟩)
    · rw [(C126_authData _ _).mpr h]
      rfl
    · rw [parse_ok.mpr ⟨fs, junk, hi⟩, Res.ok_bind, hkt, Res.ok_bind, sshKey_err.mpr ⟨ha, rfl⟩]
      rfl
    · rw [parse_ok.mpr ⟨fs, junk, hi⟩, Res.ok_bind, hkt, Res.ok_bind]
      cases hk : a.sshPublicKey application with
      | err e' => exact absurd ha (sshKey_err.mp hk).1
      | panic => exact absurd hk (sshKey_noPanic a application)
      | ok pk =>
        rw [Res.ok_bind]
        obtain ⟨ad, packed⟩ := att
        rcases h with ⟨hp, rfl⟩ | ⟨sig, certs, cert, alg, hp, hc, h⟩
        · dsimp only at hp
          subst hp
          rfl
        · dsimp only at hp
          subst hp
          cases firstCert_unique hc
          exact bind_err_iff.mpr (.inl ((C126_attestation X C yubicoRoot ad sig challenge (firstCert certs) alg none e).mpr h))

/-- C126: no byte is read beyond those given: cutting accepted data anywhere inside it gives an error that names what is missing. -/
theorem C126_cut (raw : Bytes) (n : Nat) (h : n < 55) (hl : 55 ≤ raw.length) :
    ∃ s ∈ ["Could not read RPID", "Could not read flags", "Could not read sign count", "Could not read AAGUID",
      "Could not read credential length"], AuthData.parse (raw.take n) = .err (.fidoError (.cborFormat s)) := by
  have hn : (raw.take n).length = n := by rw [List.length_take]; omega
  by_cases h1 : n < 32
  · exact ⟨_, by simp, (C126_authData _ _).mpr (.rpid (by omega))⟩
  by_cases h2 : n = 32
  · exact ⟨_, by simp, (C126_authData _ _).mpr (.flags (by omega))⟩
  by_cases h3 : n < 37
  · exact ⟨_, by simp, (C126_authData _ _).mpr (.count (by omega) (by omega))⟩
  by_cases h4 : n < 53
  · exact ⟨_, by simp, (C126_authData _ _).mpr (.aaguid (by omega) (by omega))⟩
  · exact ⟨_, by simp, (C126_authData _ _).mpr (.length (by omega) (by omega))⟩

/-- Cut in the fields, cut in the key, and an entry with an unknown label. -/
example : AuthData.parse (sampleAuthData.take 40) = .err (.fidoError (.cborFormat "Could not read AAGUID")) ∧
    AuthData.parse (sampleAuthData.take 80) = .err (.fidoError (.cborFormat "Could not bytes for key -2|-3 (key)")) ∧
    AuthData.parse (sampleAuthData.take 58 ++ [0xa1, 0x04, 0x01]) = .err (.fidoError (.cborElse 4)) ∧
    AuthData.parse (sampleAuthData.take 58 ++ [0xbf, 0xff]) = .err (.fidoError (.cborFormat "Refusing to read indefinite map")) := by
  decide +kernel

example : BadAuthData (sampleAuthData.take 40) (.fidoError (.cborFormat "Could not read AAGUID")) := .aaguid (by decide) (by decide)

/-- Attestation that is not packed; a key of an unknown algorithm. -/
example : mozGenerate sampleFidoX sampleFidoC "" "ssh:" "me" none [1, 2, 3] ⟨sampleAuthData, none⟩ =
      .err (.fidoError (.unknown "Wrong attestation format")) ∧
    ctapGenerate sampleFidoX sampleGenC "" "ssh:" "me" none none [7] (.ok ⟨true, true, true, false, [],
      sampleAuthData.take 58 ++ [0xa1, 0x03, 0x28], [9], [[2]], -7⟩) = .err .parsingError := by decide +kernel

/-- A wrong challenge; a truncated chain. -/
example : BadAttestation sampleFidoX sampleFidoC "" sampleAuthData [9] [1, 2] [2] (-7) .invalidSignature ∧
    BadAttestation sampleFidoX sampleFidoC "" sampleAuthData [9] [1, 2, 3] [] (-7) .parsingError := by
  constructor
  · exact (C126_attestation sampleFidoX sampleFidoC "" sampleAuthData [9] [1, 2] [2] (-7) none _).mp (by decide +kernel)
  · exact (C126_attestation sampleFidoX sampleFidoC "" sampleAuthData [9] [1, 2, 3] [] (-7) none _).mp (by decide +kernel)

end Ssh
