import Verif.Lemmas.AllowedSigner
import Verif.Lemmas.PrivKey

/-! # Options and lines of allowed signers files -/

namespace Ssh

open Spec

/-! ## Words -/

theorem nextWord_last {s w rest : List Char} (h : NextWord s w rest) (hs : s.getLast? ≠ some '"') :
    rest.getLast? ≠ some '"' := by
  obtain ⟨n, rfl, _, _⟩ := h
  by_cases hr : rest = []
  · subst hr; simp
  · rwa [← List.append_assoc, getLast?_suffix hr] at hs

theorem word_head {w : List Char} (h : Word w) : w.head? ≠ some ' ' ∧ w.head? ≠ some '#' := by
  obtain ⟨hne, a, ha, h⟩ := h
  cases a with
  | nil =>
    rcases h with rfl | ⟨b, _, rfl⟩
    · exact absurd rfl hne
    · simp
  | cons c a =>
    have := ha c (by simp)
    rcases h with rfl | ⟨b, _, rfl⟩ <;> simp [this.1, this.2.2]

theorem asNext_nextWord (q : Bool) {s w rest : List Char} (hs : s.getLast? ≠ some '"') (h : NextWord s w rest) :
    asNext q (splitTokens [] s) = .ok (some w, splitTokens [] rest) := by
  obtain ⟨n, rfl, hw, hr⟩ := h
  have hh := word_head hw
  have hne : w ≠ [] := hw.1
  have e1 : (w ++ rest).head? = w.head? := by cases w with
    | nil => exact absurd rfl hne
    | cons c w => rfl
  have hne1 : w ++ rest ≠ [] := by simp [hne]
  have ht : asTrim (splitTokens [] (List.replicate n ' ' ++ (w ++ rest))) = splitTokens [] (w ++ rest) := by
    rw [asTrim_spaces, asTrim_word (by rw [e1]; exact hh.1) (by rw [e1]; exact hh.2)]
  have hl1 : (w ++ rest).getLast? ≠ some '"' := by rwa [getLast?_suffix hne1] at hs
  have hl : (splitTokens [] (w ++ rest)).getLast? ≠ some ['"'] := fun e => hl1 ((splitTokens_last _).mp e)
  rw [asNext_eq (by rw [ht]; exact splitTokens_ne_nil hne1) (by rw [ht]; exact hl), ht]
  have hrt : ∀ c r, rest = c :: r → (c = ' ' ∨ c = '#') → splitTokens [] rest = [c] :: splitTokens [] r := by
    rintro c r rfl (rfl | rfl) <;> simp [splitTokens, isDelim]
  obtain ⟨_, a, ha, rfl | ⟨body, hb, rfl⟩⟩ := hw
  · have ha := plain_iff.mpr ha
    rcases hr with rfl | ⟨c, r, rfl, hc⟩
    · rw [List.append_nil, takeWord_plain ha]
      rfl
    · have hcd : isDelim c = true := by rcases hc with rfl | rfl <;> decide
      rw [takeWord_delim ha hcd]
      dsimp only
      rw [if_neg (by rcases hc with rfl | rfl <;> decide), hrt c r rfl hc]
      rfl
  · have ha := plain_iff.mpr ha
    rw [List.append_assoc, List.cons_append, List.append_assoc, List.singleton_append, takeWord_delim ha (by decide)]
    dsimp only
    rw [if_pos rfl]
    have e : splitQuote (['"'] :: splitTokens [] (body ++ '"' :: rest)) = splitQuoteLoop (splitTokens [] (body ++ '"' :: rest)) ['"'] := by
      simp [splitQuote]
    rw [e, splitQuoteLoop_found body rest hb]
    simp only [Res.ok_bind, List.nil_append]
    rcases hr with rfl | ⟨c, r, rfl, hc⟩
    · rfl
    · rw [hrt c r rfl hc]
      dsimp only
      rw [if_neg (by rcases hc with rfl | rfl <;> simp)]
      rfl

theorem asTrim_nil_iff (s : List Char) : asTrim (splitTokens [] s) = [] ↔ Blank s := by
  refine ⟨fun h => ?_, asTrim_blank⟩
  obtain ⟨n, s1, rfl, h1⟩ := spaces_cases s
  rw [asTrim_spaces] at h
  cases hs1 : s1 with
  | nil => exact ⟨n, .inl (by simp)⟩
  | cons c s2 =>
    by_cases hc : c = '#'
    · subst hc; exact ⟨n, .inr ⟨s2, rfl⟩⟩
    · rw [asTrim_word h1 (by simp [hs1, hc])] at h
      exact absurd h (splitTokens_ne_nil (by simp [hs1]))

theorem asNext_blank (q : Bool) {s : List Char} (h : Blank s) : asNext q (splitTokens [] s) = .ok (none, []) :=
  asNext_nil (asTrim_blank h)

theorem asNext_some (q : Bool) {s w : List Char} {r : List Tok} (hs : s.getLast? ≠ some '"') :
    asNext q (splitTokens [] s) = .ok (some w, r) ↔ ∃ rest, NextWord s w rest ∧ r = splitTokens [] rest := by
  constructor
  · intro h
    rcases asNext_cases q s hs with ⟨_, e⟩ | ⟨w', rest, hw, e⟩ | e
    · rw [e] at h; cases h
    · rw [e] at h; cases h; exact ⟨rest, hw, rfl⟩
    · rw [e] at h; cases h
  · rintro ⟨rest, h, rfl⟩
    exact asNext_nextWord q hs h

theorem asNext_noPanic (q : Bool) {s : List Char} (hs : s.getLast? ≠ some '"') : asNext q (splitTokens [] s) ≠ .panic := by
  intro h
  rcases asNext_cases q s hs with ⟨_, e⟩ | ⟨w', rest, hw, e⟩ | e <;> (rw [e] at h; cases h)

/-! ### Every word uses up a token -/

theorem asTrim_length (b : List Tok) : (asTrim b).length ≤ b.length := by
  induction b with
  | nil => simp [asTrim]
  | cons t ts ih =>
    rw [asTrim]
    split
    · simp; omega
    · split <;> simp

theorem asTrim_head {b : List Tok} : (asTrim b).head? ≠ some [' '] ∧ (asTrim b).head? ≠ some ['#'] := by
  induction b with
  | nil => simp [asTrim]
  | cons t ts ih =>
    rw [asTrim]
    split
    · exact ih
    · split
      · simp
      · rename_i h1 h2
        simp [h1, h2]

theorem takeWord_length (b : List Tok) : ∀ acc, (takeWord b acc).2.length ≤ b.length := by
  induction b with
  | nil => intro acc; simp [takeWord]
  | cons t ts ih =>
    intro acc
    rw [takeWord]
    split
    · simp
    · have := ih (acc ++ t); simp; omega

theorem splitQuoteLoop_length (b : List Tok) : ∀ acc v r, splitQuoteLoop b acc = .ok (v, r) → r.length < b.length := by
  induction b with
  | nil => intro acc v r h; cases h
  | cons t ts ih =>
    intro acc v r h
    rw [splitQuoteLoop] at h
    split at h
    · cases h; simp
    · have := ih _ _ _ h; simp; omega

theorem splitQuote_length {b : List Tok} {v r} (h : splitQuote b = .ok (v, r)) : r.length < b.length := by
  cases b with
  | nil => cases h
  | cons t ts =>
    rw [splitQuote] at h
    split at h
    · cases h
    · have := splitQuoteLoop_length _ _ _ _ h; simp; omega

theorem asNext_length {q : Bool} {b r : List Tok} {w : Tok} (h : asNext q b = .ok (some w, r)) : r.length < b.length := by
  have hl := asTrim_length b
  have hh := @asTrim_head b
  unfold asNext at h
  dsimp only at h
  generalize asTrim b = b1 at h hl hh
  cases b1 with
  | nil => cases h
  | cons t ts =>
    rw [if_neg (by simp), bind_ok_iff] at h
    obtain ⟨f, _, h⟩ := h
    split at h
    · split at h
      · rw [bind_ok_iff] at h
        obtain ⟨⟨v, r'⟩, h1, h2⟩ := h
        have := splitQuote_length h1
        cases h2
        simp only [List.length_cons] at *
        omega
      · cases h
    · have hd : t ≠ [' '] ∧ t ≠ ['#'] := by simpa using hh
      by_cases htq : t = ['"']
      · have e : takeWord (t :: ts) [] = ([], t :: ts) := by rw [takeWord, if_pos (.inr (.inl htq))]
        rw [e] at h
        dsimp only at h
        rw [if_pos htq, bind_ok_iff] at h
        obtain ⟨⟨v, r'⟩, h1, h2⟩ := h
        have := splitQuote_length h1
        dsimp only at h2
        split at h2
        · split at h2
          · cases h2
          · cases h2
            simp only [List.length_cons] at *
            omega
        · cases h2
          simp only [List.length_cons, List.length_nil] at *
          omega
      · have e : takeWord (t :: ts) [] = takeWord ts t := by
          rw [takeWord, if_neg (fun e => e.elim hd.1 (fun e => e.elim htq hd.2)), List.nil_append]
        rw [e] at h
        have hlt := takeWord_length ts t
        rcases htw : takeWord ts t with ⟨s, _ | ⟨t1, rest⟩⟩
        · rw [htw] at h
          cases h
          simp only [List.length_cons] at *
          simp
          omega
        · rw [htw] at h hlt
          dsimp only at h hlt
          split at h
          · rw [bind_ok_iff] at h
            obtain ⟨⟨v, r'⟩, h1, h2⟩ := h
            have := splitQuote_length h1
            dsimp only at h2
            split at h2
            · split at h2
              · cases h2
              · cases h2
                simp only [List.length_cons] at *
                omega
            · cases h2
              simp only [List.length_cons, List.length_nil] at *
              omega
          · cases h
            simp only [List.length_cons] at *
            omega

/-! ### A quote at the end -/

/-- The tokens are used up or end with a quote. -/
def EndsQ (b : List Tok) : Prop := b = [] ∨ b.getLast? = some ['"']

theorem endsQ_tail {t : Tok} {ts : List Tok} (h : EndsQ (t :: ts)) : EndsQ ts := by
  rcases h with h | h
  · cases h
  · cases ts with
    | nil => exact .inl rfl
    | cons t' ts => right; simpa [List.getLast?_cons] using h

theorem endsQ_trim {b : List Tok} (h : EndsQ b) : EndsQ (asTrim b) := by
  induction b with
  | nil => exact .inl rfl
  | cons t ts ih =>
    rw [asTrim]
    split
    · exact ih (endsQ_tail h)
    · split
      · exact .inl rfl
      · exact h

theorem endsQ_loop {b : List Tok} (h : EndsQ b) : ∀ acc v r, splitQuoteLoop b acc = .ok (v, r) → EndsQ r := by
  induction b with
  | nil => intro acc v r h; cases h
  | cons t ts ih =>
    intro acc v r e
    rw [splitQuoteLoop] at e
    split at e
    · cases e; exact endsQ_tail h
    · exact ih (endsQ_tail h) _ _ _ e

theorem endsQ_splitQuote {b : List Tok} (h : EndsQ b) {v r} (e : splitQuote b = .ok (v, r)) : EndsQ r := by
  cases b with
  | nil => cases e
  | cons t ts =>
    rw [splitQuote] at e
    split at e
    · cases e
    · exact endsQ_loop (endsQ_tail h) _ _ _ e

theorem splitQuoteLoop_err (b : List Tok) : ∀ acc, (∃ x, splitQuoteLoop b acc = .ok x) ∨ splitQuoteLoop b acc = asErr .invalidQuotes := by
  induction b with
  | nil => intro acc; exact .inr rfl
  | cons t ts ih =>
    intro acc
    rw [splitQuoteLoop]
    split
    · exact .inl ⟨_, rfl⟩
    · exact ih _

theorem asNext_endsQ {q : Bool} {b : List Tok} (h : EndsQ b) :
    asNext q b = .ok (none, []) ∨ asNext q b = asErr .invalidQuotes ∨
    (q = true ∧ ∃ w r, asNext q b = .ok (some w, r) ∧ EndsQ r) := by
  have ht := endsQ_trim h
  cases hb : asTrim b with
  | nil => exact .inl (asNext_nil hb)
  | cons t ts =>
    right
    rw [hb] at ht
    rcases ht with ht | hl
    · cases ht
    · have e : asNext q b = (if q then do
          let (v, rest) ← splitQuote (t :: ts)
          return (some v, rest)
        else asErr .invalidQuotes) := by
        unfold asNext
        simp only [hb, hl, Res.unwrap, Res.ok_bind]
        rw [if_neg (by simp), if_pos trivial]
      rw [e]
      cases q with
      | false => exact .inl rfl
      | true =>
        rw [if_pos rfl]
        have hs : (∃ x, splitQuote (t :: ts) = .ok x) ∨ splitQuote (t :: ts) = asErr .invalidQuotes := by
          rw [splitQuote]
          split
          · exact .inr rfl
          · exact splitQuoteLoop_err _ _
        rcases hs with ⟨⟨v, r⟩, hs⟩ | hs
        · right
          refine ⟨rfl, v, r, by rw [hs]; rfl, endsQ_splitQuote (.inr hl) hs⟩
        · left
          rw [hs]; rfl

/-- A line that ends with a quote is rejected. -/
theorem fromString_endsQ (T : Chrono) {s : List Char} (h : s.getLast? = some '"') :
    ∃ e, AllowedSigner.fromString T s = asErr e := by
  have hq : EndsQ (splitTokens [] s) := .inr ((splitTokens_last s).mpr h)
  unfold AllowedSigner.fromString
  dsimp only
  rcases asNext_endsQ (q := true) hq with e | e | ⟨_, w, r, e, hr⟩
  · rw [e]; exact ⟨_, rfl⟩
  · rw [e]; exact ⟨_, rfl⟩
  · rw [e]
    simp only [Res.ok_bind]
    split
    · exact ⟨_, rfl⟩
    · rw [optionLoop]
      rcases asNext_endsQ (q := false) hr with e | e | ⟨h, _⟩
      · rw [e]; exact ⟨_, rfl⟩
      · rw [e]; exact ⟨_, rfl⟩
      · cases h

/-! ## Text -/

theorem dropWhile_replicate (q : Char) (n : Nat) (v : List Char) (h : v.head? ≠ some q) :
    (List.replicate n q ++ v).dropWhile (· == q) = v := by
  induction n with
  | zero =>
    cases v with
    | nil => rfl
    | cons c v =>
      have : ¬ c = q := by simpa using h
      simp [this]
  | succ n ih => rw [List.replicate_succ, List.cons_append, List.dropWhile_cons]; simpa using ih

theorem dropWhile_cases (q : Char) (s : List Char) :
    ∃ n, s = List.replicate n q ++ s.dropWhile (· == q) ∧ (s.dropWhile (· == q)).head? ≠ some q := by
  induction s with
  | nil => exact ⟨0, rfl, by simp⟩
  | cons c s ih =>
    rw [List.dropWhile_cons]
    by_cases h : c = q
    · obtain ⟨n, e, hh⟩ := ih
      refine ⟨n + 1, ?_, ?_⟩
      · simp only [h, beq_self_eq_true, if_true]
        rw [List.replicate_succ, List.cons_append, ← e]
      · simpa [h] using hh
    · exact ⟨0, by simp [h], by simp [h]⟩

theorem trimEnd_replicate (q : Char) (n : Nat) (v : List Char) (h : v.getLast? ≠ some q) :
    trimEnd (· == q) (v ++ List.replicate n q) = v := by
  unfold trimEnd
  rw [List.reverse_append, List.reverse_replicate, dropWhile_replicate q n v.reverse (by rwa [List.head?_reverse]),
    List.reverse_reverse]

theorem trimEnd_cases (q : Char) (s : List Char) :
    ∃ n, s = trimEnd (· == q) s ++ List.replicate n q ∧ (trimEnd (· == q) s).getLast? ≠ some q := by
  obtain ⟨n, e, h⟩ := dropWhile_cases q s.reverse
  refine ⟨n, ?_, ?_⟩
  · unfold trimEnd
    have := congrArg List.reverse e
    rw [List.reverse_reverse, List.reverse_append, List.reverse_replicate] at this
    exact this
  · unfold trimEnd
    rwa [List.getLast?_reverse]

theorem stripQuotes_iff {p v : List Char} : StripQuotes p v ↔ trimQuotes p = v := by
  unfold trimQuotes trimMatches trimStart
  constructor
  · rintro ⟨m, n, rfl, h1, h2⟩
    cases v with
    | nil =>
      rw [List.nil_append, ← List.replicate_append_replicate.symm, ← List.append_nil (List.replicate _ _),
        dropWhile_replicate _ _ _ (by simp)]
      rfl
    | cons c v =>
      rw [dropWhile_replicate _ _ _ (by simpa using h1), trimEnd_replicate _ _ _ h2]
  · rintro rfl
    obtain ⟨m, e, h⟩ := dropWhile_cases '"' p
    obtain ⟨n, e', h'⟩ := trimEnd_cases '"' (p.dropWhile (· == '"'))
    refine ⟨m, n, ?_, ?_, h'⟩
    · rw [← e', ← e]
    · generalize p.dropWhile (· == '"') = r at *
      intro hh
      apply h
      rw [e']
      cases hv : trimEnd (· == '"') r with
      | nil => rw [hv] at hh; cases hh
      | cons c w => rw [hv] at hh; simpa using hh

theorem stripQuotes_id {v : List Char} (h : '"' ∉ v) : trimQuotes v = v := by
  rw [← stripQuotes_iff]
  refine ⟨0, 0, by simp, ?_, ?_⟩
  · intro e; exact h (List.mem_of_head? e)
  · intro e; exact h (List.mem_of_getLast? e)

theorem commaList_iff {v : List Char} {l : List (List Char)} : CommaList v l ↔ splitOn (· == ',') v = l := by
  constructor
  · rintro ⟨hne, rfl, h⟩
    induction l with
    | nil => exact absurd rfl hne
    | cons x xs ih =>
      have hx : ∀ c ∈ x, (c == ',') = false := by
        intro c hc
        have : c ≠ ',' := by rintro rfl; exact h x (by simp) hc
        simpa using this
      cases xs with
      | nil => rw [commaJoin, splitOn_word _ hx]
      | cons y ys =>
        rw [commaJoin, splitOn_word_sep _ hx (by decide), ih (by simp) (fun z hz => h z (by simp [hz]))]
        intro hh; cases hh
  · rintro rfl
    refine ⟨splitOn_ne_nil _ _, ?_, ?_⟩
    · induction v with
      | nil => rfl
      | cons c v ih =>
        rw [splitOn]
        split
        · rename_i hc
          have hc : c = ',' := by simpa using hc
          cases hs : splitOn (· == ',') v with
          | nil => exact absurd hs (splitOn_ne_nil _ _)
          | cons x xs => rw [commaJoin, ← hs, ← ih, hc]; rfl; intro h; cases h
        · cases hs : splitOn (· == ',') v with
          | nil => exact absurd hs (splitOn_ne_nil _ _)
          | cons x xs =>
            rw [hs] at ih
            cases xs with
            | nil => simpa [commaJoin] using ih
            | cons y ys => simpa [commaJoin] using ih
    · intro x hx hc
      have := mem_splitOn hx ',' hc
      simp at this

theorem lowerAscii_eq (s : List Char) : lowerAscii s = lower s := by
  unfold lowerAscii lower
  apply List.map_congr_left
  intro c _
  by_cases h : 'A' ≤ c ∧ c ≤ 'Z'
  · rw [if_pos h]
    obtain ⟨h1, h2⟩ := h
    have h1 : 65 ≤ c.toNat := h1
    have h2 : c.toNat ≤ 90 := h2
    have : ∀ n, n < 91 → 65 ≤ n → Char.ofNat (n + 32) = (Char.ofNat n).toLower := by decide +kernel
    rw [this _ (by omega) h1, Char.ofNat_toNat]
  · rw [if_neg h]
    unfold Char.toLower
    rw [dif_neg]
    exact h

theorem splitOnce_none {c : Char} {s : List Char} : splitOnce c s = none ↔ c ∉ s := by
  induction s with
  | nil => simp [splitOnce]
  | cons x xs ih =>
    rw [splitOnce]
    split
    · rename_i h; simp [h]
    · rename_i h
      rw [Option.map_eq_none_iff, ih]
      simp [Ne.symm h]

theorem splitOnce_some {c : Char} {s a b : List Char} : splitOnce c s = some (a, b) ↔ c ∉ a ∧ s = a ++ c :: b := by
  induction s generalizing a with
  | nil => simp [splitOnce]
  | cons x xs ih =>
    rw [splitOnce]
    split
    · rename_i h
      subst h
      constructor
      · intro h; cases h; simp
      · rintro ⟨h, e⟩
        cases a with
        | nil => simp at e; simp [e]
        | cons y a => simp at e; simp [e.1] at h
    · rename_i h
      constructor
      · intro hh
        rw [Option.map_eq_some_iff] at hh
        obtain ⟨⟨a', b'⟩, h1, h2⟩ := hh
        cases h2
        obtain ⟨h3, h4⟩ := ih.mp h1
        exact ⟨by simp [h3, Ne.symm h], by rw [h4]; rfl⟩
      · rintro ⟨h1, e⟩
        cases a with
        | nil => simp at e; exact absurd e.1 h
        | cons y a =>
          simp at e
          rw [Option.map_eq_some_iff]
          refine ⟨(a, b), ih.mpr ⟨fun hh => h1 (by simp [hh]), e.2⟩, by simp [e.1]⟩

theorem keyValue_iff {w key value : List Char} : KeyValue w key value ↔
    ((splitOnce '=' w).getD (w, [])).1 = key ∧ trimQuotes ((splitOnce '=' w).getD (w, [])).2 = value ∧ '"' ∉ value := by
  unfold KeyValue
  cases h : splitOnce '=' w with
  | none =>
    have hn := splitOnce_none.mp h
    simp only [Option.getD_none]
    constructor
    · rintro ⟨h1, ⟨rfl, rfl⟩ | ⟨raw, rfl, _⟩, h3⟩
      · exact ⟨rfl, rfl, h3⟩
      · simp at hn
    · rintro ⟨rfl, rfl, h3⟩
      exact ⟨hn, .inl ⟨rfl, rfl⟩, h3⟩
  | some ab =>
    obtain ⟨a, b⟩ := ab
    obtain ⟨ha, rfl⟩ := splitOnce_some.mp h
    simp only [Option.getD_some]
    constructor
    · rintro ⟨h1, ⟨rfl, rfl⟩ | ⟨raw, e, h2⟩, h3⟩
      · simp at h1
      · have := splitOnce_some.mpr ⟨h1, e⟩
        rw [h] at this
        cases this
        exact ⟨rfl, stripQuotes_iff.mp h2, h3⟩
    · rintro ⟨rfl, rfl, h3⟩
      exact ⟨ha, .inr ⟨b, rfl, stripQuotes_iff.mpr rfl⟩, h3⟩

/-! ## Timestamps -/

theorem byteLen_eq (s : List Char) : byteLen s = utf8Len s := by
  unfold byteLen utf8Len
  exact strBytes_length _

/-- The date-time of a text. -/
def dateOf (T : Chrono) (s : List Char) : Option Int :=
  if utf8Len s = 8 then T.parseDate s else if utf8Len s = 12 then T.parseMinute s
  else if utf8Len s = 14 then T.parseSecond s else none

theorem dateOf_iff {T : Chrono} {s : List Char} {t : Int} : dateOf T s = some t ↔ DateTime T s t := by
  unfold dateOf DateTime
  by_cases h8 : utf8Len s = 8
  · simp [h8]
  · by_cases h12 : utf8Len s = 12
    · simp [h12]
    · by_cases h14 : utf8Len s = 14
      · simp [h14]
      · simp [h8, h12, h14]

theorem parseTimestamp_eq (T : Chrono) (s : List Char) : parseTimestamp T s =
    (match dateOf T (trimEnd (· == 'Z') (trimQuotes s)) with
     | none => asErr .invalidTimestamp
     | some dt => if (trimQuotes s).getLast? = some 'Z' then .ok dt else Res.unwrap (T.localUnix dt)) := by
  unfold parseTimestamp
  generalize trimQuotes s = v
  dsimp only
  have hd : ∀ d (k : Int → Res Int), (if byteLen d = 8 then Res.ofOption (.invalidAllowedSigner .invalidTimestamp) (T.parseDate d) >>= k
      else if byteLen d = 12 then Res.ofOption (.invalidAllowedSigner .invalidTimestamp) (T.parseMinute d) >>= k
      else if byteLen d = 14 then Res.ofOption (.invalidAllowedSigner .invalidTimestamp) (T.parseSecond d) >>= k
      else asErr .invalidTimestamp >>= k) = (match dateOf T d with | none => asErr .invalidTimestamp | some dt => k dt) := by
    intro d k
    unfold dateOf
    rw [byteLen_eq]
    by_cases h8 : utf8Len d = 8
    · rw [if_pos h8, if_pos h8]; cases T.parseDate d <;> rfl
    · rw [if_neg h8, if_neg h8]
      by_cases h12 : utf8Len d = 12
      · rw [if_pos h12, if_pos h12]; cases T.parseMinute d <;> rfl
      · rw [if_neg h12, if_neg h12]
        by_cases h14 : utf8Len d = 14
        · rw [if_pos h14, if_pos h14]; cases T.parseSecond d <;> rfl
        · rw [if_neg h14, if_neg h14]; rfl
  by_cases hz : v.getLast? = some 'Z'
  · rw [if_neg (fun h => h.2 hz)]
    simp only [hz, if_true]
    exact hd _ _
  · have ht : trimEnd (· == 'Z') v = v := by
      have := trimEnd_replicate 'Z' 0 v hz
      rwa [List.replicate_zero, List.append_nil] at this
    rw [ht]
    simp only [hz, if_false]
    by_cases ho : byteLen v % 2 = 1
    · rw [if_pos ⟨ho, fun h => h⟩]
      rw [byteLen_eq] at ho
      have : dateOf T v = none := by
        unfold dateOf
        rw [if_neg (by omega), if_neg (by omega), if_neg (by omega)]
      rw [this]
    · rw [if_neg (fun h => ho h.1)]
      exact hd _ _

theorem getLast?_replicate_append {d : List Char} {n : Nat} (hd : d.getLast? ≠ some 'Z') :
    (d ++ List.replicate n 'Z').getLast? = some 'Z' ↔ n ≠ 0 := by
  cases n with
  | zero => simpa using hd
  | succ n =>
    rw [getLast?_suffix (by simp), List.getLast?_replicate]
    simp

theorem parseTimestamp_ok {T : Chrono} {s : List Char} {t : Int} :
    parseTimestamp T s = .ok t ↔ ∃ v, StripQuotes s v ∧ Timestamp T v t := by
  rw [parseTimestamp_eq]
  have h1 : (∃ v, StripQuotes s v ∧ Timestamp T v t) ↔ Timestamp T (trimQuotes s) t := by
    constructor
    · rintro ⟨v, h, ht⟩; rw [stripQuotes_iff.mp h]; exact ht
    · intro h; exact ⟨_, stripQuotes_iff.mpr rfl, h⟩
  rw [h1]
  generalize trimQuotes s = v
  obtain ⟨n, e, hl⟩ := trimEnd_cases 'Z' v
  unfold Timestamp
  have huniq : ∀ d n', v = d ++ List.replicate n' 'Z' → d.getLast? ≠ some 'Z' → d = trimEnd (· == 'Z') v := by
    intro d n' e' h'
    rw [e', trimEnd_replicate _ _ _ h']
  constructor
  · intro h
    cases hd : dateOf T (trimEnd (· == 'Z') v) with
    | none => rw [hd] at h; cases h
    | some dt =>
      rw [hd] at h
      refine ⟨_, n, dt, e, hl, dateOf_iff.mp hd, ?_⟩
      dsimp only at h
      have hz : v.getLast? = some 'Z' ↔ n ≠ 0 := by
        conv => lhs; rw [e]
        exact getLast?_replicate_append hl
      by_cases hn : n = 0
      · rw [if_pos hn]
        rw [if_neg (fun h => hz.mp h hn)] at h
        cases hu : T.localUnix dt with
        | none => rw [hu] at h; cases h
        | some u => rw [hu] at h; cases h; rfl
      · rw [if_neg hn]
        rw [if_pos (hz.mpr hn)] at h
        cases h; rfl
  · rintro ⟨d, n', dt, e', h', hdt, ht⟩
    rw [← huniq d n' e' h', dateOf_iff.mpr hdt]
    dsimp only
    have hz : v.getLast? = some 'Z' ↔ n' ≠ 0 := by
      rw [e']
      exact getLast?_replicate_append h'
    by_cases hn : n' = 0
    · rw [if_pos hn] at ht
      rw [if_neg (fun h => hz.mp h hn), ht]; rfl
    · rw [if_neg hn] at ht
      rw [if_pos (hz.mpr hn), ht]

theorem parseTimestamp_panic {T : Chrono} {s : List Char} :
    parseTimestamp T s = .panic ↔ ∃ d dt, StripQuotes s d ∧ d.getLast? ≠ some 'Z' ∧ DateTime T d dt ∧ T.localUnix dt = none := by
  rw [parseTimestamp_eq]
  constructor
  · intro h
    cases hd : dateOf T (trimEnd (· == 'Z') (trimQuotes s)) with
    | none => rw [hd] at h; cases h
    | some dt =>
      rw [hd] at h
      dsimp only at h
      split at h
      · cases h
      · rename_i hz
        have ht : trimEnd (· == 'Z') (trimQuotes s) = trimQuotes s := by
          have := trimEnd_replicate 'Z' 0 (trimQuotes s) hz
          rwa [List.replicate_zero, List.append_nil] at this
        rw [ht] at hd
        refine ⟨trimQuotes s, dt, stripQuotes_iff.mpr rfl, hz, dateOf_iff.mp hd, ?_⟩
        cases hu : T.localUnix dt with
        | none => rfl
        | some u => rw [hu] at h; cases h
  · rintro ⟨d, dt, h1, hz, hdt, hu⟩
    rw [stripQuotes_iff.mp h1]
    have ht : trimEnd (· == 'Z') d = d := by
      have := trimEnd_replicate 'Z' 0 d hz
      rwa [List.replicate_zero, List.append_nil] at this
    rw [ht, dateOf_iff.mpr hdt]
    dsimp only
    rw [if_neg hz, hu]
    rfl

end Ssh
