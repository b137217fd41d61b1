import Verif.Spec.Piv
import Verif.Lemmas.Fido

/-! # Lemmas about X.509 keys and PIV attestations -/

namespace Ssh
open Spec

theorem ecdsaKeyOfOid_ok {oid : String} {point : Bytes} {k : PublicKey} :
    ecdsaKeyOfOid oid point = .ok k ↔ EcKeyOf oid point k := by
  have n12 : "1.2.840.10045.3.1.7" ≠ "1.3.132.0.34" := by decide
  have t1 : ∀ t ∈ keyTypes, t.name = "ecdsa-sha2-nistp256" → keyTypeUnwrap "ecdsa-sha2-nistp256" = .ok t := by decide +kernel
  have t2 : ∀ t ∈ keyTypes, t.name = "ecdsa-sha2-nistp384" → keyTypeUnwrap "ecdsa-sha2-nistp384" = .ok t := by decide +kernel
  have x1 : ∃ t ∈ keyTypes, t.name = "ecdsa-sha2-nistp256" := by decide +kernel
  have x2 : ∃ t ∈ keyTypes, t.name = "ecdsa-sha2-nistp384" := by decide +kernel
  have c1 : curveUnwrap "nistp256" = .ok ⟨.nistp256, "nistp256"⟩ := by decide +kernel
  have c2 : curveUnwrap "nistp384" = .ok ⟨.nistp384, "nistp384"⟩ := by decide +kernel
  obtain ⟨kt, kind, cm⟩ := k
  unfold ecdsaKeyOfOid EcKeyOf ecOids
  by_cases h1 : oid = "1.2.840.10045.3.1.7"
  · subst h1
    obtain ⟨t, hm, hn⟩ := x1
    rw [if_pos rfl, t1 t hm hn, c1]
    constructor
    · intro h
      cases h
      exact ⟨_, _, List.mem_cons_self, hn, hm, rfl, rfl⟩
    · rintro ⟨name, curve, h, h2, h3, h4, h5⟩
      rcases List.mem_cons.mp h with h | h
      · cases h
        have := t1 _ h3 h2
        rw [t1 t hm hn] at this
        cases this
        dsimp only at h4 h5
        subst h4 h5
        rfl
      · rcases List.mem_cons.mp h with h | h
        · exact absurd (congrArg Prod.fst h) n12
        · cases h
  rw [if_neg h1]
  by_cases h2 : oid = "1.3.132.0.34"
  · subst h2
    obtain ⟨t, hm, hn⟩ := x2
    rw [if_pos rfl, t2 t hm hn, c2]
    constructor
    · intro h
      cases h
      exact ⟨_, _, List.mem_cons_of_mem _ List.mem_cons_self, hn, hm, rfl, rfl⟩
    · rintro ⟨name, curve, h, h2, h3, h4, h5⟩
      rcases List.mem_cons.mp h with h | h
      · exact absurd (congrArg Prod.fst h) n12.symm
      rcases List.mem_cons.mp h with h | h
      · cases h
        have := t2 _ h3 h2
        rw [t2 t hm hn] at this
        cases this
        dsimp only at h4 h5
        subst h4 h5
        rfl
      · cases h
  rw [if_neg h2]
  refine ⟨nofun, ?_⟩
  rintro ⟨name, curve, h, _⟩
  rcases List.mem_cons.mp h with h | h
  · exact absurd (congrArg Prod.fst h) h1
  rcases List.mem_cons.mp h with h | h
  · exact absurd (congrArg Prod.fst h) h2
  · cases h

theorem ecdsaKeyOfOid_cases (oid : String) (point : Bytes) :
    (∃ k, ecdsaKeyOfOid oid point = .ok k) ∨ ecdsaKeyOfOid oid point = .err .keyTypeMismatch := by
  have t1 : ∃ t ∈ keyTypes, keyTypeUnwrap "ecdsa-sha2-nistp256" = .ok t := by decide +kernel
  have t2 : ∃ t ∈ keyTypes, keyTypeUnwrap "ecdsa-sha2-nistp384" = .ok t := by decide +kernel
  have c1 : curveUnwrap "nistp256" = .ok ⟨.nistp256, "nistp256"⟩ := by decide +kernel
  have c2 : curveUnwrap "nistp384" = .ok ⟨.nistp384, "nistp384"⟩ := by decide +kernel
  unfold ecdsaKeyOfOid
  obtain ⟨_, _, t1⟩ := t1
  obtain ⟨_, _, t2⟩ := t2
  rw [t1, t2, c1, c2]
  split
  · exact .inl ⟨_, rfl⟩
  split
  · exact .inl ⟨_, rfl⟩
  · exact .inr rfl

theorem ecdsaKeyOfOid_noPanic (oid : String) (point : Bytes) : ecdsaKeyOfOid oid point ≠ .panic := by
  rcases ecdsaKeyOfOid_cases oid point with ⟨k, h⟩ | h <;> rw [h] <;> nofun

theorem convertPki_ok {i : Spki} {k : PublicKey} : convertPki i = .ok k ↔ ∃ oid, EcInfo i oid ∧ EcKeyOf oid i.keyData k := by
  unfold convertPki EcInfo
  have n : "1.2.840.113549.1.1.1" ≠ "1.2.840.10045.2.1" := by decide
  split
  · rename_i h
    exact ⟨nofun, fun ⟨_, ⟨h', _⟩, _⟩ => absurd (h.symm.trans h') n⟩
  split
  · rename_i h
    constructor
    · intro hk
      obtain ⟨p, h1, hk⟩ := bind_ok_iff.mp hk
      obtain ⟨o, h2, hk⟩ := bind_ok_iff.mp hk
      rw [ofOption_ok] at h1 h2
      subst h2
      exact ⟨o, ⟨h, h1⟩, ecdsaKeyOfOid_ok.mp hk⟩
    · rintro ⟨o, ⟨_, h1⟩, h2⟩
      rw [h1]
      exact ecdsaKeyOfOid_ok.mpr h2
  · rename_i h
    exact ⟨nofun, fun ⟨_, ⟨h', _⟩, _⟩ => absurd h' h⟩

theorem convertPki_noPanic (i : Spki) : convertPki i ≠ .panic := by
  unfold convertPki
  split
  · nofun
  split
  · cases i.parameters with
    | none => nofun
    | some p =>
      cases p with
      | none => nofun
      | some o => exact ecdsaKeyOfOid_noPanic _ _
  · nofun

theorem pubkeyFromX509Certificate_ok {X : X509Env} {b : Bytes} {k : PublicKey} : pubkeyFromX509Certificate X b = .ok k ↔
    ∃ c oid, X.parseDer b = some c ∧ EcInfo c.spki oid ∧ EcKeyOf oid c.spki.keyData k := by
  unfold pubkeyFromX509Certificate
  cases X.parseDer b with
  | none => exact ⟨nofun, nofun⟩
  | some c =>
    rw [convertPki_ok]
    exact ⟨fun ⟨o, h⟩ => ⟨c, o, rfl, h⟩, fun ⟨_, o, rfl, h⟩ => ⟨o, h⟩⟩

theorem pubkeyFromX509Certificate_noPanic (X : X509Env) (b : Bytes) : pubkeyFromX509Certificate X b ≠ .panic := by
  unfold pubkeyFromX509Certificate
  split
  · exact convertPki_noPanic _
  · nofun

theorem derEncoding_ok {X : X509Env} {b : Bytes} {k : PublicKey} : derEncodingToSshPublicKey X b = .ok k ↔
    ∃ o oid point, X.derSequence b = some o ∧ EcDer oid point o ∧ EcKeyOf oid point k := by
  unfold derEncodingToSshPublicKey
  cases X.derSequence b with
  | none => exact ⟨nofun, nofun⟩
  | some o =>
    have e : (∃ o' oid point, some o = some o' ∧ EcDer oid point o' ∧ EcKeyOf oid point k) ↔
        ∃ oid point, EcDer oid point o ∧ EcKeyOf oid point k :=
      ⟨fun ⟨_, a, b, rfl, h⟩ => ⟨a, b, h⟩, fun ⟨a, b, h⟩ => ⟨_, a, b, rfl, h⟩⟩
    rw [e]
    unfold EcDer
    simp only [Res.ofOption, Res.ok_bind]
    cases o with
    | oid s => exact ⟨nofun, fun ⟨_, _, h, _⟩ => nomatch h⟩
    | bitString s => exact ⟨nofun, fun ⟨_, _, h, _⟩ => nomatch h⟩
    | other => exact ⟨nofun, fun ⟨_, _, h, _⟩ => nomatch h⟩
    | seq l =>
      simp only [DerObj.asSeq, Res.ok_bind]
      match l with
      | [] => exact ⟨nofun, fun ⟨_, _, h, _⟩ => nomatch h⟩
      | [_] => exact ⟨nofun, fun ⟨_, _, h, _⟩ => nomatch h⟩
      | _ :: _ :: _ :: _ => exact ⟨fun h => by simp at h, fun ⟨_, _, h, _⟩ => nomatch h⟩
      | [p0, p1] =>
        rw [if_neg (by simp)]
        simp only [index, List.getElem?_cons_zero, List.getElem?_cons_succ, Res.unwrap, Res.ok_bind]
        cases p0 with
        | oid s => exact ⟨nofun, fun ⟨_, _, h, _⟩ => nomatch h⟩
        | bitString s => exact ⟨nofun, fun ⟨_, _, h, _⟩ => nomatch h⟩
        | other => exact ⟨nofun, fun ⟨_, _, h, _⟩ => nomatch h⟩
        | seq os =>
          simp only [Res.ok_bind]
          match os with
          | [] => exact ⟨nofun, fun ⟨_, _, h, _⟩ => nomatch h⟩
          | [_] => exact ⟨nofun, fun ⟨_, _, h, _⟩ => nomatch h⟩
          | _ :: _ :: _ :: _ => exact ⟨fun h => by simp at h, fun ⟨_, _, h, _⟩ => nomatch h⟩
          | [o0, o1] =>
            rw [if_neg (by simp)]
            simp only [List.getElem?_cons_zero, List.getElem?_cons_succ, Res.ok_bind]
            cases o0 with
            | seq s => exact ⟨nofun, fun ⟨_, _, h, _⟩ => nomatch h⟩
            | bitString s => exact ⟨nofun, fun ⟨_, _, h, _⟩ => nomatch h⟩
            | other => exact ⟨nofun, fun ⟨_, _, h, _⟩ => nomatch h⟩
            | oid s0 =>
              cases o1 with
              | seq s => exact ⟨nofun, fun ⟨_, _, h, _⟩ => nomatch h⟩
              | bitString s => exact ⟨nofun, fun ⟨_, _, h, _⟩ => nomatch h⟩
              | other => exact ⟨nofun, fun ⟨_, _, h, _⟩ => nomatch h⟩
              | oid s1 =>
                simp only [DerObj.asOid, Res.ok_bind]
                split
                · rename_i hn
                  refine ⟨nofun, fun ⟨_, _, h, _⟩ => ?_⟩
                  cases h
                  exact absurd rfl hn
                · rename_i hn
                  have hn : s0 = _ := Decidable.not_not.mp hn
                  subst hn
                  cases p1 with
                  | seq s => exact ⟨nofun, fun ⟨_, _, h, _⟩ => nomatch h⟩
                  | oid s => exact ⟨nofun, fun ⟨_, _, h, _⟩ => nomatch h⟩
                  | other => exact ⟨nofun, fun ⟨_, _, h, _⟩ => nomatch h⟩
                  | bitString d =>
                    simp only [DerObj.asBitString, Res.ok_bind, ecdsaKeyOfOid_ok]
                    constructor
                    · intro h
                      exact ⟨s1, d, rfl, h⟩
                    · rintro ⟨_, _, h, h2⟩
                      cases h
                      exact h2

theorem derEncoding_noPanic (X : X509Env) (b : Bytes) : derEncodingToSshPublicKey X b ≠ .panic := by
  unfold derEncodingToSshPublicKey
  cases X.derSequence b with
  | none => nofun
  | some o =>
    cases o with
    | oid s => nofun
    | bitString s => nofun
    | other => nofun
    | seq l =>
      match l with
      | [] => nofun
      | [_] => nofun
      | _ :: _ :: _ :: _ => simp [Res.ofOption, DerObj.asSeq]
      | [p0, p1] =>
        cases p0 with
        | oid s => nofun
        | bitString s => nofun
        | other => nofun
        | seq os =>
          match os with
          | [] => nofun
          | [_] => nofun
          | _ :: _ :: _ :: _ => simp [Res.ofOption, DerObj.asSeq, index, Res.unwrap]
          | [o0, o1] =>
            cases o0 with
            | seq s => nofun
            | bitString s => nofun
            | other => nofun
            | oid s0 =>
              cases o1 with
              | seq s => nofun
              | bitString s => nofun
              | other => nofun
              | oid s1 =>
                simp only [Res.ofOption, DerObj.asSeq, index, Res.unwrap, DerObj.asOid, Res.ok_bind, List.length_cons, List.length_nil,
                  List.getElem?_cons_zero, List.getElem?_cons_succ, ne_eq, not_true_eq_false, if_false]
                split
                · nofun
                · cases p1 with
                  | bitString d => exact ecdsaKeyOfOid_noPanic _ _
                  | _ => nofun

/-! ## Extensions -/

/-- What one readable extension changes. -/
def pivApply (X : X509Env) (v : PivExt) (e : String × Bytes) : PivExt where
  firmware := (pivFirmware e).or v.firmware
  serial := ((pivSerial X e).map UInt64.ofNat).or v.serial
  policies := (pivPolicies e).or v.policies

theorem pivExtension_eq (X : X509Env) (v : PivExt) (e : String × Bytes) :
    (¬ PolicyReadable e → pivExtension X v e = .panic) ∧
    (PolicyReadable e → ¬ SerialReadable X e → pivExtension X v e = .err .parsingError) ∧
    (PolicyReadable e → SerialReadable X e → pivExtension X v e = .ok (pivApply X v e)) := by
  obtain ⟨oid, val⟩ := e
  unfold pivExtension pivApply pivFirmware pivSerial pivPolicies PolicyReadable SerialReadable
  dsimp only
  have n12 : "1.3.6.1.4.1.41482.3.3" ≠ "1.3.6.1.4.1.41482.3.7" := by decide
  have n13 : "1.3.6.1.4.1.41482.3.3" ≠ "1.3.6.1.4.1.41482.3.8" := by decide
  have n23 : "1.3.6.1.4.1.41482.3.7" ≠ "1.3.6.1.4.1.41482.3.8" := by decide
  by_cases h1 : oid = "1.3.6.1.4.1.41482.3.3"
  · subst h1
    rw [if_pos rfl, beq_self_eq_true, (beq_eq_false_iff_ne).mpr n12, (beq_eq_false_iff_ne).mpr n13]
    refine ⟨fun h => absurd (fun h' => absurd h' n13) h, fun _ h => absurd (fun h' => absurd h' n12) h, fun _ _ => ?_⟩
    match val with
    | [] => rfl
    | [a] => rfl
    | [a, b] => rfl
    | [a, b, c] =>
      rw [if_neg (by simp)]
      simp [versionText, index, Res.unwrap, String.toList_append]
      rfl
    | a :: b :: c :: d :: s => rw [if_pos (by simp)]; rfl
  rw [if_neg h1]
  by_cases h2 : oid = "1.3.6.1.4.1.41482.3.7"
  · subst h2
    rw [if_pos rfl, beq_self_eq_true, (beq_eq_false_iff_ne).mpr n12.symm, (beq_eq_false_iff_ne).mpr n23]
    refine ⟨fun h => absurd (fun h' => absurd h' n23) h, ?_⟩
    cases hs : X.integer val with
    | none => exact ⟨fun _ _ => rfl, fun _ h => absurd rfl (h rfl)⟩
    | some s =>
      refine ⟨fun _ h => absurd (fun _ => nofun) h, fun _ _ => ?_⟩
      show (if s.length > 8 then _ else _) = _
      by_cases h8 : s.length ≤ 8
      · rw [if_neg (by omega)]
        have hsub : subNat 8 s.length = .ok (8 - s.length) := by simp [subNat, h8]
        rw [hsub]
        have : beNat (List.replicate (8 - s.length) 0 ++ s) = natOf s := by
          rw [beNat_eq_natOf]
          generalize 8 - s.length = n
          induction n with
          | zero => rfl
          | succ n ih => simpa [List.replicate_succ, natOf] using ih
        simp only [Res.ok_bind, this, if_pos h8]
        rfl
      · rw [if_pos (by omega)]
        simp only [if_neg h8]
        rfl
  rw [if_neg h2]
  by_cases h3 : oid = "1.3.6.1.4.1.41482.3.8"
  · subst h3
    rw [if_pos rfl, beq_self_eq_true, (beq_eq_false_iff_ne).mpr n13.symm, (beq_eq_false_iff_ne).mpr n23.symm]
    match val with
    | [] => exact ⟨fun _ => rfl, fun h => absurd (h rfl) (by simp), fun h => absurd (h rfl) (by simp)⟩
    | [a] => exact ⟨fun _ => rfl, fun h => absurd (h rfl) (by simp), fun h => absurd (h rfl) (by simp)⟩
    | a :: b :: s => exact ⟨fun h => absurd (fun _ => by simp) h, fun _ h => absurd (fun h' => absurd h' n23.symm) h, fun _ _ => rfl⟩
  rw [if_neg h3, (beq_eq_false_iff_ne).mpr h1, (beq_eq_false_iff_ne).mpr h2, (beq_eq_false_iff_ne).mpr h3]
  exact ⟨fun h => absurd (fun h' => absurd h' h3) h, fun _ h => absurd (fun h' => absurd h' h2) h, fun _ _ => rfl⟩

theorem pivFold_ok (X : X509Env) (es : List (String × Bytes)) : ∀ v v', es.foldlM (pivExtension X) v = .ok v' ↔
    (∀ e ∈ es, SerialReadable X e ∧ PolicyReadable e) ∧ v' = es.foldl (pivApply X) v := by
  induction es with
  | nil => intro v v'; simp [eq_comm]
  | cons e es ih =>
    intro v v'
    rw [List.foldlM_cons, List.forall_mem_cons, List.foldl_cons]
    obtain ⟨e1, e2, e3⟩ := pivExtension_eq X v e
    by_cases h1 : PolicyReadable e
    · by_cases h2 : SerialReadable X e
      · rw [e3 h1 h2, Res.ok_bind, ih]
        exact ⟨fun x => ⟨⟨⟨h2, h1⟩, x.1⟩, x.2⟩, fun x => ⟨x.1.2, x.2⟩⟩
      · rw [e2 h1 h2]
        exact ⟨nofun, fun x => absurd x.1.1.1 h2⟩
    · rw [e1 h1]
      exact ⟨nofun, fun x => absurd x.1.1.2 h1⟩

theorem pivFold_panic (X : X509Env) (es : List (String × Bytes)) : ∀ v, es.foldlM (pivExtension X) v = .panic ↔
    ∃ pre e post, es = pre ++ e :: post ∧ (∀ x ∈ pre, SerialReadable X x ∧ PolicyReadable x) ∧ ¬ PolicyReadable e := by
  induction es with
  | nil => intro v; simp
  | cons e es ih =>
    intro v
    rw [List.foldlM_cons]
    obtain ⟨e1, e2, e3⟩ := pivExtension_eq X v e
    by_cases h1 : PolicyReadable e
    · by_cases h2 : SerialReadable X e
      · rw [e3 h1 h2, Res.ok_bind, ih]
        constructor
        · rintro ⟨pre, x, post, rfl, h3, h4⟩
          refine ⟨e :: pre, x, post, rfl, ?_, h4⟩
          intro y hy
          rcases List.mem_cons.mp hy with rfl | hy
          · exact ⟨h2, h1⟩
          · exact h3 y hy
        · rintro ⟨pre, x, post, h, h3, h4⟩
          cases pre with
          | nil => cases h; exact absurd h1 h4
          | cons p pre =>
            cases h
            exact ⟨pre, x, post, rfl, fun y hy => h3 y (List.mem_cons_of_mem _ hy), h4⟩
      · rw [e2 h1 h2]
        refine ⟨nofun, ?_⟩
        rintro ⟨pre, x, post, h, h3, h4⟩
        cases pre with
        | nil => cases h; exact absurd h1 h4
        | cons p pre =>
          cases h
          exact absurd (h3 _ List.mem_cons_self).1 h2
    · rw [e1 h1]
      exact ⟨fun _ => ⟨[], e, es, rfl, nofun, h1⟩, fun _ => rfl⟩

theorem pivApply_fold (X : X509Env) (es : List (String × Bytes)) : ∀ v, es.foldl (pivApply X) v =
    { firmware := ((es.filterMap pivFirmware).getLast?).or v.firmware,
      serial := (((es.filterMap (pivSerial X)).getLast?).map UInt64.ofNat).or v.serial,
      policies := ((es.filterMap pivPolicies).getLast?).or v.policies } := by
  have ho : ∀ {α β : Type} (f : α → Option β) (a : α) (l : List α) (d : Option β), ((List.filterMap f (a :: l)).getLast?).or d =
      ((List.filterMap f l).getLast?).or ((f a).or d) := by
    intro α β f a l d
    rw [List.filterMap_cons]
    cases f a with
    | none => simp
    | some b =>
      rw [List.getLast?_cons]
      cases (List.filterMap f l).getLast? <;> rfl
  have hm : ∀ {α β γ : Type} (f : α → Option β) (g : β → γ) (a : α) (l : List α) (d : Option γ),
      (((List.filterMap f (a :: l)).getLast?).map g).or d = (((List.filterMap f l).getLast?).map g).or (((f a).map g).or d) := by
    intro α β γ f g a l d
    rw [List.filterMap_cons]
    cases f a with
    | none => simp
    | some b =>
      rw [List.getLast?_cons]
      cases (List.filterMap f l).getLast? <;> rfl
  induction es with
  | nil => intro v; simp
  | cons e es ih =>
    intro v
    rw [List.foldl_cons, ih, ho, ho, hm]
    rfl

/-- Serial numbers fit 64 bits. -/
theorem pivSerial_lt {X : X509Env} {es : List (String × Bytes)} {n : Nat} (h : (es.filterMap (pivSerial X)).getLast? = some n) :
    n < 2 ^ 64 := by
  obtain ⟨e, _, he⟩ := List.mem_filterMap.mp (List.mem_of_getLast? h)
  unfold pivSerial at he
  split at he
  · rename_i s _ _
    split at he
    · rename_i h8
      cases he
      refine Nat.lt_of_lt_of_le (natOf_lt s) ?_
      calc 256 ^ s.length ≤ 256 ^ 8 := Nat.pow_le_pow_right (by decide) h8
        _ = 2 ^ 64 := by decide
    · cases he
  · cases he

theorem pivExtensions_ok {X : X509Env} {k : PublicKey} {c : X509Cert} {v : ValidPivKey} : pivExtensions X k c = .ok v ↔
    v.publicKey = k ∧ (∀ e ∈ c.extensions, SerialReadable X e ∧ PolicyReadable e) ∧ PivInfo X c.extensions v := by
  unfold pivExtensions PivInfo
  rw [bind_ok_iff]
  obtain ⟨pk, fw, se, to, pi⟩ := v
  dsimp only
  constructor
  · rintro ⟨w, h1, h2⟩
    obtain ⟨h0, rfl⟩ := (pivFold_ok ..).mp h1
    rw [pivApply_fold] at h2
    simp only [Option.or_none] at h2
    split at h2
    · rename_i f s p hf hs hp
      cases h2
      obtain ⟨n, hn, rfl⟩ := Option.map_eq_some_iff.mp hs
      refine ⟨rfl, h0, hf, ?_, hp⟩
      rw [hn, UInt64.toNat_ofNat_of_lt' (pivSerial_lt hn)]
    · cases h2
  · rintro ⟨rfl, h1, h2, h3, h4⟩
    refine ⟨_, (pivFold_ok ..).mpr ⟨h1, rfl⟩, ?_⟩
    rw [pivApply_fold]
    simp only [Option.or_none, h2, h3, h4, Option.map_some, UInt64.ofNat_toNat]
    rfl

theorem pivExtensions_panic {X : X509Env} {k : PublicKey} {c : X509Cert} : pivExtensions X k c = .panic ↔
    ∃ pre e post, c.extensions = pre ++ e :: post ∧ (∀ x ∈ pre, SerialReadable X x ∧ PolicyReadable x) ∧ ¬ PolicyReadable e := by
  unfold pivExtensions
  rw [bind_panic_iff, pivFold_panic]
  constructor
  · rintro (h | ⟨v, _, h⟩)
    · exact h
    · split at h <;> cases h
  · exact .inl

theorem verifyCertificateChain_ok {X : X509Env} {yubicoRoot : String} {client inter : Bytes} {pem : Option String} {v : ValidPivKey} :
    verifyCertificateChain X yubicoRoot client inter pem = .ok v ↔
    ∃ c oid, CertChain X (pem.getD yubicoRoot) client inter c ∧ EcInfo c.spki oid ∧ EcKeyOf oid c.spki.keyData v.publicKey ∧
      (∀ e ∈ c.extensions, SerialReadable X e ∧ PolicyReadable e) ∧ PivInfo X c.extensions v := by
  unfold verifyCertificateChain CertChain
  constructor
  · intro h
    obtain ⟨r, h1, h⟩ := bind_ok_iff.mp h
    obtain ⟨i, h2, h⟩ := bind_ok_iff.mp h
    obtain ⟨c, h3, h⟩ := bind_ok_iff.mp h
    split at h
    · cases h
    rename_i h4
    split at h
    · cases h
    rename_i h5
    obtain ⟨k, h6, h⟩ := bind_ok_iff.mp h
    have h6 : pubkeyFromX509Certificate X client = .ok k := by
      cases hk : pubkeyFromX509Certificate X client with
      | ok k' => rw [hk] at h6; exact h6
      | err e => rw [hk] at h6; cases h6
      | panic => rw [hk] at h6; cases h6
    obtain ⟨rfl, h7, h8⟩ := pivExtensions_ok.mp h
    obtain ⟨c', oid, e, h9, h10⟩ := pubkeyFromX509Certificate_ok.mp h6
    have h1 : X.parsePem (pem.getD yubicoRoot) = some r := by
      cases hp : X.parsePem (pem.getD yubicoRoot) with
      | none => rw [hp] at h1; cases h1
      | some r' => rw [hp] at h1; cases h1; rfl
    rw [ofOption_ok] at h2 h3
    rw [h3] at e
    cases e
    exact ⟨c, oid, ⟨r, i, h1, h2, h3, by simpa using h4, by simpa using h5⟩, h9, h10, h7, h8⟩
  · rintro ⟨c, oid, ⟨r, i, h1, h2, h3, h4, h5⟩, h6, h7, h8, h9⟩
    have hk := pubkeyFromX509Certificate_ok.mpr ⟨c, oid, h3, h6, h7⟩
    rw [h1, h2, h3, hk]
    simp only [Res.unwrap, Res.ofOption, Res.ok_bind]
    rw [if_neg (by simp [h4]), if_neg (by simp [h5])]
    simp only [Res.mapErr, Res.ok_bind]
    exact pivExtensions_ok.mpr ⟨rfl, h8, h9⟩

theorem verifyCertificateChain_panic {X : X509Env} {yubicoRoot : String} {client inter : Bytes} {pem : Option String} :
    verifyCertificateChain X yubicoRoot client inter pem = .panic ↔ X.parsePem (pem.getD yubicoRoot) = none ∨
    ∃ c k pre e post, CertChain X (pem.getD yubicoRoot) client inter c ∧ pubkeyFromX509Certificate X client = .ok k ∧
      c.extensions = pre ++ e :: post ∧ (∀ x ∈ pre, SerialReadable X x ∧ PolicyReadable x) ∧ ¬ PolicyReadable e := by
  unfold verifyCertificateChain CertChain
  cases h1 : X.parsePem (pem.getD yubicoRoot) with
  | none => exact ⟨fun _ => .inl rfl, fun _ => rfl⟩
  | some r =>
    simp only [Res.unwrap, Res.ok_bind]
    cases h2 : X.parseDer inter with
    | none => exact ⟨nofun, fun h => by rcases h with h | ⟨_, _, _, _, _, ⟨_, _, _, h, _⟩, _⟩ <;> cases h⟩
    | some i =>
      simp only [Res.ofOption, Res.ok_bind]
      cases h3 : X.parseDer client with
      | none => exact ⟨nofun, fun h => by rcases h with h | ⟨_, _, _, _, _, ⟨_, _, _, _, h, _⟩, _⟩ <;> cases h⟩
      | some c =>
        simp only [Res.ok_bind]
        split
        · rename_i h4
          refine ⟨nofun, ?_⟩
          rintro (h | ⟨_, _, _, _, _, ⟨_, _, e1, e2, e3, h, _⟩, _⟩)
          · cases h
          · cases e1; cases e2; exact absurd h h4
        rename_i h4
        split
        · rename_i h5
          refine ⟨nofun, ?_⟩
          rintro (h | ⟨_, _, _, _, _, ⟨_, _, e1, e2, e3, _, h⟩, _⟩)
          · cases h
          · cases e1; cases e2; cases e3; exact absurd h h5
        rename_i h5
        cases hk : pubkeyFromX509Certificate X client with
        | panic => exact absurd hk (pubkeyFromX509Certificate_noPanic X client)
        | err e => exact ⟨nofun, fun h => by rcases h with h | ⟨_, _, _, _, _, _, h, _⟩ <;> cases h⟩
        | ok k =>
          simp only [Res.mapErr, Res.ok_bind]
          rw [pivExtensions_panic]
          constructor
          · rintro ⟨pre, e, post, h6, h7, h8⟩
            exact .inr ⟨c, k, pre, e, post, ⟨r, i, rfl, rfl, rfl, by simpa using h4, by simpa using h5⟩, rfl, h6, h7, h8⟩
          · rintro (h | ⟨c', _, pre, e, post, ⟨_, _, _, _, e3, _⟩, _, h6⟩)
            · cases h
            · cases e3; exact ⟨pre, e, post, h6⟩

end Ssh
