import Verif.Model.Cert
import Verif.Lemmas.Writer

/-! # Principal and option lists -/

namespace Ssh

open Spec Reader

/-! ## When does `read_string` report the end of the input -/

theorem readString_eof {r : Reader} (h : r.inner.length ≤ r.offset) :
    readString r = (.err .unexpectedEof, r) := by
  unfold readString
  exact Rd.bind_of_err (by rw [readBytes_eq, if_pos h])

theorem readString_not_eof {r r' : Reader} (h : readString r = (.err .unexpectedEof, r')) :
    r.inner.length ≤ r.offset := by
  apply Nat.le_of_not_lt
  intro hlt
  unfold readString at h
  rw [Rd.bind_eq, readBytes_eq, if_neg (by omega)] at h
  split at h
  · rename_i b r1 _
    cases hb : fromUtf8 b <;> rw [hb] at h <;> simp [Rd.pure_eq] at h
  · rename_i e r1 he
    split at he
    · simp only [Prod.mk.injEq, Res.err.injEq] at he h
      obtain ⟨rfl, _⟩ := he
      simp at h
    split at he
    · simp only [Prod.mk.injEq, Res.err.injEq] at he h
      obtain ⟨rfl, _⟩ := he
      simp at h
    · simp at he
  · simp at h

/-- Remaining bytes. -/
def rem (r : Reader) : Nat := r.inner.length - r.offset

theorem at_le_rem {r : Reader} {w : Bytes} (h : At r w) : w.length ≤ rem r := by
  obtain ⟨rest, h⟩ := h
  have := congrArg List.length h
  simp at this
  unfold rem; omega

theorem rem_adv {r : Reader} {w : Bytes} : rem (adv r w) = rem r - w.length := by
  unfold rem adv; simp; omega

theorem drop_adv {r : Reader} {w : Bytes} (h : At r w) :
    r.inner.drop r.offset = w ++ (adv r w).inner.drop (adv r w).offset := by
  obtain ⟨rest, h⟩ := h
  rw [adv, ← List.drop_drop, h, List.drop_left]

theorem nil_of_rem {r : Reader} (h : rem r = 0) : r.inner.drop r.offset = [] :=
  List.drop_eq_nil_of_le (by unfold rem at h; omega)

/-! ## Principals -/

theorem texts_cons_iff {l : List String} {buf : Bytes} (hb : buf ≠ []) :
    Texts l buf ↔ ∃ s ss w rest, l = s :: ss ∧ buf = w ++ rest ∧ Text s w ∧ Texts ss rest := by
  constructor
  · intro h
    cases h with
    | nil => exact absurd rfl hb
    | cons h t => exact ⟨_, _, _, _, rfl, rfl, h, t⟩
  · rintro ⟨s, ss, w, rest, rfl, rfl, h, t⟩
    exact .cons h t

theorem texts_nil_iff {l : List String} : Texts l [] ↔ l = [] := by
  constructor
  · intro h
    generalize hb : ([] : Bytes) = b at h
    cases h with
    | nil => rfl
    | cons h t =>
      have := text_ne_nil h
      simp at hb; exact absurd hb.1 this
  · rintro rfl; exact .nil

theorem readPrincipalsLoop_ok {fuel : Nat} {r : Reader} {items ps : List String}
    (hf : rem r < fuel) : readPrincipalsLoop fuel r items = .ok ps ↔
      ∃ l, ps = items ++ l ∧ Texts l (r.inner.drop r.offset) := by
  induction fuel generalizing r items with
  | zero => omega
  | succ fuel ih =>
    unfold readPrincipalsLoop
    by_cases hend : r.inner.length ≤ r.offset
    · rw [readString_eof hend]
      rw [List.drop_eq_nil_of_le hend]
      simp only [texts_nil_iff, exists_eq_right, List.append_nil, Res.ok.injEq]
      exact eq_comm
    have hne : r.inner.drop r.offset ≠ [] := by
      intro h0
      have := congrArg List.length h0
      simp at this; omega
    rcases hs : readString r with ⟨v | e | _, r'⟩
    · obtain ⟨w, hw, hat, rfl⟩ := (readString_parses r v r').mp hs
      have hwn := text_ne_nil hw
      have hwl : 0 < w.length := List.length_pos_iff.mpr hwn
      have hle := at_le_rem hat
      simp only
      rw [ih (by rw [rem_adv]; omega)]
      constructor
      · rintro ⟨l, rfl, hl⟩
        refine ⟨v :: l, by simp, ?_⟩
        rw [drop_adv hat]
        exact .cons hw hl
      · rintro ⟨l, rfl, hl⟩
        obtain ⟨s, ss, w', rest', rfl, he, ht, hts⟩ := (texts_cons_iff hne).mp hl
        rw [drop_adv hat] at he
        obtain ⟨rfl, rfl, rfl⟩ := readString_parses.unique hw ht he
        exact ⟨ss, by simp, hts⟩
    · have hno : ∀ l, ¬ Texts l (r.inner.drop r.offset) := by
        intro l hl
        obtain ⟨s, ss, w', rest', rfl, he, ht, hts⟩ := (texts_cons_iff hne).mp hl
        have := (readString_parses r s (adv r w')).mpr ⟨w', ht, ⟨rest', he⟩, rfl⟩
        rw [hs] at this
        simp at this
      cases e <;> simp only [hno, and_false, exists_false, iff_false] <;> try simp
      exact absurd (readString_not_eof hs) hend
    · exact absurd (by rw [hs]) (readString_noPanic r)

/-- `read_principals` accepts exactly concatenations of framed UTF-8 strings. -/
theorem readPrincipals_ok {buf : Bytes} {ps : List String} :
    readPrincipals buf = .ok ps ↔ Texts ps buf := by
  unfold readPrincipals
  rw [readPrincipalsLoop_ok (by simp [rem, Reader.new])]
  simp [Reader.new]

theorem readPrincipalsLoop_noPanic {fuel : Nat} {r : Reader} {items : List String}
    (hf : rem r < fuel) : readPrincipalsLoop fuel r items ≠ .panic := by
  induction fuel generalizing r items with
  | zero => omega
  | succ fuel ih =>
    unfold readPrincipalsLoop
    rcases hs : readString r with ⟨v | e | _, r'⟩
    · obtain ⟨w, hw, hat, rfl⟩ := (readString_parses r v r').mp hs
      have hwl : 0 < w.length := List.length_pos_iff.mpr (text_ne_nil hw)
      have hle := at_le_rem hat
      exact ih (by rw [rem_adv]; omega)
    · cases e <;> simp
    · exact absurd (by rw [hs]) (readString_noPanic r)

theorem readPrincipals_fuel (buf : Bytes) : readPrincipals buf ≠ .panic :=
  readPrincipalsLoop_noPanic (by simp [rem, Reader.new])

/-! ## Options -/

theorem readOptionValue_parses : Parses readOptionValue OptionData := by
  unfold readOptionValue
  refine (Parses.bind (H := fun d v w => ((d = [] ∧ v = "") ∨ ∃ w1 rest, d = w1 ++ rest ∧ Text v w1)
    ∧ w = []) readBytes_parses ?_).congr ?_
  · intro d
    cases d with
    | nil =>
      simp only [List.isEmpty_nil, Bool.not_true, Bool.false_eq_true, if_false]
      refine (Parses.pure "").congr ?_
      intro v w
      constructor
      · rintro ⟨rfl, rfl⟩; exact ⟨.inl ⟨trivial, rfl⟩, rfl⟩
      · rintro ⟨⟨_, h⟩ | ⟨w1, rest, h, ht⟩, rfl⟩
        · exact ⟨h, rfl⟩
        · have := text_ne_nil ht
          simp at h; exact absurd h.1 this
    | cons b bs =>
      simp only [List.isEmpty_cons, Bool.not_false, if_true]
      refine (Parses.lift _).congr ?_
      intro v w
      rw [readString_parses.new]
      simp
  · intro v w
    simp only [OptionData]
    constructor
    · rintro ⟨b, w1, w2, rfl, hf, hs, rfl⟩
      exact ⟨b, by simpa using hf, hs⟩
    · rintro ⟨d, hf, hs⟩
      exact ⟨d, w, [], by simp, hf, hs, rfl⟩

theorem readOptionValue_noPanic (r : Reader) : (readOptionValue r).1 ≠ .panic := by
  unfold readOptionValue
  intro h
  rw [Rd.bind_panic] at h
  rcases h with h | ⟨b, r', _, h⟩
  · exact readBytes_noPanic r h
  · cases b with
    | nil => simp [Rd.pure_eq] at h
    | cons x xs =>
      simp only [List.isEmpty_cons, Bool.not_false, if_true, Rd.lift_eq] at h
      exact readString_noPanic _ h

theorem optionPairs_cons_iff {l : List (String × String)} {buf : Bytes} (hb : buf ≠ []) :
    OptionPairs l buf ↔ ∃ n v ss w1 w2 rest, l = (n, v) :: ss ∧ buf = w1 ++ (w2 ++ rest) ∧ Text n w1 ∧
      OptionData v w2 ∧ OptionPairs ss rest := by
  constructor
  · intro h
    cases h with
    | nil => exact absurd rfl hb
    | cons hn hv t => exact ⟨_, _, _, _, _, _, rfl, by simp, hn, hv, t⟩
  · rintro ⟨n, v, ss, w1, w2, rest, rfl, rfl, hn, hv, t⟩
    rw [← List.append_assoc]
    exact .cons hn hv t

theorem optionPairs_nil_iff {l : List (String × String)} : OptionPairs l [] ↔ l = [] := by
  constructor
  · intro h
    generalize hb : ([] : Bytes) = b at h
    cases h with
    | nil => rfl
    | cons h _ t =>
      have := text_ne_nil h
      simp at hb; exact absurd hb.1 this
  · rintro rfl; exact .nil

/-- Insert the pairs one after the other. -/
def insertAll (m : StrMap) (l : List (String × String)) : StrMap :=
  l.foldl (fun m kv => mapInsert m kv.1 kv.2) m

theorem readOptionsLoop_ok {fuel : Nat} {r : Reader} {m m' : StrMap}
    (hf : rem r < fuel) : readOptionsLoop fuel r m = .ok m' ↔
      ∃ l, m' = insertAll m l ∧ OptionPairs l (r.inner.drop r.offset) := by
  induction fuel generalizing r m with
  | zero => omega
  | succ fuel ih =>
    unfold readOptionsLoop
    by_cases hend : r.inner.length ≤ r.offset
    · rw [readString_eof hend]
      rw [List.drop_eq_nil_of_le hend]
      simp only [optionPairs_nil_iff, exists_eq_right, insertAll, List.foldl_nil, Res.ok.injEq]
      exact eq_comm
    have hne : r.inner.drop r.offset ≠ [] := by
      intro h0
      have := congrArg List.length h0
      simp at this; omega
    rcases hs : readString r with ⟨n | e | _, r'⟩
    · obtain ⟨w, hw, hat, rfl⟩ := (readString_parses r n r').mp hs
      have hwl : 0 < w.length := List.length_pos_iff.mpr (text_ne_nil hw)
      have hle := at_le_rem hat
      simp only
      rcases hv : readOptionValue (adv r w) with ⟨v | e | _, r''⟩
      · obtain ⟨w2, hw2, hat2, rfl⟩ := (readOptionValue_parses _ v r'').mp hv
        have hle2 := at_le_rem hat2
        simp only
        rw [ih (by rw [rem_adv, rem_adv]; omega)]
        constructor
        · rintro ⟨l, rfl, hl⟩
          refine ⟨(n, v) :: l, by simp [insertAll], ?_⟩
          rw [drop_adv hat, drop_adv hat2, ← List.append_assoc]
          exact .cons hw hw2 hl
        · rintro ⟨l, rfl, hl⟩
          obtain ⟨n', v', ss, w1', w2', rest', rfl, he, ht, hd, hts⟩ := (optionPairs_cons_iff hne).mp hl
          rw [drop_adv hat] at he
          obtain ⟨rfl, rfl, he'⟩ := readString_parses.unique hw ht he
          rw [drop_adv hat2] at he'
          obtain ⟨rfl, rfl, rfl⟩ := readOptionValue_parses.unique hw2 hd he'
          exact ⟨ss, by simp [insertAll], hts⟩
      · simp only [reduceCtorEq, false_iff]
        rintro ⟨l, rfl, hl⟩
        obtain ⟨n', v', ss, w1', w2', rest', rfl, he, ht, hd, hts⟩ := (optionPairs_cons_iff hne).mp hl
        rw [drop_adv hat] at he
        obtain ⟨rfl, rfl, he'⟩ := readString_parses.unique hw ht he
        have := (readOptionValue_parses (adv r w) v' _).mpr ⟨w2', hd, ⟨rest', he'⟩, rfl⟩
        rw [hv] at this
        simp at this
      · exact absurd (by rw [hv]) (readOptionValue_noPanic (adv r w))
    · have hno : ∀ l, ¬ OptionPairs l (r.inner.drop r.offset) := by
        intro l hl
        obtain ⟨n', v', ss, w1', w2', rest', rfl, he, ht, hd, hts⟩ := (optionPairs_cons_iff hne).mp hl
        have := (readString_parses r n' (adv r w1')).mpr ⟨w1', ht, ⟨_, he⟩, rfl⟩
        rw [hs] at this
        simp at this
      cases e <;> simp only [hno, and_false, exists_false, iff_false] <;> try simp
      exact absurd (readString_not_eof hs) hend
    · exact absurd (by rw [hs]) (readString_noPanic r)

/-- `read_options` accepts exactly sequences of (name, data) pairs. -/
theorem readOptions_ok {buf : Bytes} {m : StrMap} :
    readOptions buf = .ok m ↔ ∃ l, m = insertAll [] l ∧ OptionPairs l buf := by
  unfold readOptions
  rw [readOptionsLoop_ok (by simp [rem, Reader.new])]
  simp [Reader.new]

theorem readOptionsLoop_noPanic {fuel : Nat} {r : Reader} {m : StrMap}
    (hf : rem r < fuel) : readOptionsLoop fuel r m ≠ .panic := by
  induction fuel generalizing r m with
  | zero => omega
  | succ fuel ih =>
    unfold readOptionsLoop
    rcases hs : readString r with ⟨n | e | _, r'⟩
    · obtain ⟨w, hw, hat, rfl⟩ := (readString_parses r n r').mp hs
      have hwl : 0 < w.length := List.length_pos_iff.mpr (text_ne_nil hw)
      have hle := at_le_rem hat
      simp only
      rcases hv : readOptionValue (adv r w) with ⟨v | e | _, r''⟩
      · obtain ⟨w2, hw2, hat2, rfl⟩ := (readOptionValue_parses _ v r'').mp hv
        have hle2 := at_le_rem hat2
        exact ih (by rw [rem_adv, rem_adv]; omega)
      · simp
      · exact absurd (by rw [hv]) (readOptionValue_noPanic (adv r w))
    · cases e <;> simp
    · exact absurd (by rw [hs]) (readString_noPanic r)

theorem readOptions_fuel (buf : Bytes) : readOptions buf ≠ .panic :=
  readOptionsLoop_noPanic (by simp [rem, Reader.new])

/-! ## Maps -/

theorem mapGet_mapInsert (m : StrMap) (k v k' : String) :
    mapGet (mapInsert m k v) k' = if k = k' then some v else mapGet m k' := by
  induction m with
  | nil => simp [mapInsert, mapGet]
  | cons kv m ih =>
    obtain ⟨a, b⟩ := kv
    simp only [mapInsert]
    by_cases h : a = k
    · subst h
      simp only [if_true, mapGet]
      split <;> simp_all
    · simp only [h, if_false, mapGet, ih]
      by_cases h2 : a = k'
      · subst h2
        have : k ≠ a := fun e => h e.symm
        simp [this]
      · simp [h2]

theorem mapGet_insertAll (m : StrMap) (l : List (String × String)) (k : String) :
    mapGet (insertAll m l) k = match lastValue l k with
      | some v => some v
      | none => mapGet m k := by
  induction l generalizing m with
  | nil => simp [insertAll, lastValue]
  | cons kv l ih =>
    obtain ⟨a, b⟩ := kv
    have : insertAll m ((a, b) :: l) = insertAll (mapInsert m a b) l := rfl
    rw [this, ih]
    simp only [lastValue, mapGet_mapInsert]
    cases lastValue l k with
    | some v => rfl
    | none =>
      simp only
      by_cases h : a = k <;> simp [h]

theorem mapGet_insertAll_nil (l : List (String × String)) (k : String) :
    mapGet (insertAll [] l) k = lastValue l k := by
  rw [mapGet_insertAll]
  cases lastValue l k <;> rfl

/-- The names occur once. -/
def NodupKeys (m : StrMap) : Prop := (m.map (·.1)).Nodup

theorem mapInsert_keys (m : StrMap) (k v : String) :
    (mapInsert m k v).map (·.1) = if k ∈ m.map (·.1) then m.map (·.1) else m.map (·.1) ++ [k] := by
  induction m with
  | nil => simp [mapInsert]
  | cons kv m ih =>
    obtain ⟨a, b⟩ := kv
    simp only [mapInsert]
    by_cases h : a = k
    · simp [h]
    · have h' : ¬ k = a := fun e => h e.symm
      simp only [h, if_false, List.map_cons, ih, List.mem_cons, h', false_or]
      split <;> simp

theorem nodupKeys_mapInsert {m : StrMap} (h : NodupKeys m) (k v : String) :
    NodupKeys (mapInsert m k v) := by
  unfold NodupKeys at *
  rw [mapInsert_keys]
  split
  · exact h
  · rename_i hk
    rw [List.nodup_append]
    refine ⟨h, by simp, ?_⟩
    intro a ha b hb
    simp only [List.mem_singleton] at hb
    subst hb
    rintro rfl; exact hk ha

theorem nodupKeys_insertAll {m : StrMap} (h : NodupKeys m) (l : List (String × String)) :
    NodupKeys (insertAll m l) := by
  induction l generalizing m with
  | nil => exact h
  | cons kv l ih => exact ih (nodupKeys_mapInsert h _ _)

theorem mapInsert_new {m : StrMap} {k v : String} (h : k ∉ m.map (·.1)) :
    mapInsert m k v = m ++ [(k, v)] := by
  induction m with
  | nil => rfl
  | cons kv m ih =>
    obtain ⟨a, b⟩ := kv
    simp only [List.map_cons, List.mem_cons, not_or] at h
    have h' : ¬ a = k := fun e => h.1 e.symm
    simp [mapInsert, h', ih h.2]

/-- Inserting distinct new names appends them. -/
theorem insertAll_of_nodup {m : StrMap} {l : List (String × String)} (h : NodupKeys (m ++ l)) :
    insertAll m l = m ++ l := by
  induction l generalizing m with
  | nil => simp [insertAll]
  | cons kv l ih =>
    obtain ⟨k, v⟩ := kv
    have hk : k ∉ m.map (·.1) := by
      unfold NodupKeys at h
      rw [List.map_append, List.nodup_append] at h
      intro hk
      exact h.2.2 k hk k (by simp) rfl
    have : insertAll m ((k, v) :: l) = insertAll (mapInsert m k v) l := rfl
    rw [this, mapInsert_new hk, ih (by simpa using h)]
    simp

theorem insertAll_nil_of_nodup {l : StrMap} (h : NodupKeys l) : insertAll [] l = l := by
  simpa using insertAll_of_nodup (m := []) (by simpa using h)

end Ssh
