import Verif.Model.Splitter
import Verif.Lemmas.AllowedLine
import Verif.Props.Machine
import Verif.Props.AllowedSigner

/-! # C141: allowed signers lines with the data structures of the code -/

namespace Ssh
open Spec

namespace Splitter

/-- Bytes of a text. -/
def blen (s : List Char) : Nat := (s.map Char.utf8Size).sum

theorem blen_append (a b : List Char) : blen (a ++ b) = blen a + blen b := by simp [blen]

theorem blen_pos {s : List Char} (h : s ≠ []) : 0 < blen s := by
  cases s with
  | nil => exact absurd rfl h
  | cons c s => have := c.utf8Size_pos; simp only [blen, List.map_cons, List.sum_cons]; omega

theorem byteLen_blen (s : List Char) : byteLen s = blen s := by
  rw [byteLen_eq]
  unfold utf8Len
  induction s with
  | nil => rfl
  | cons c s ih => rw [show c :: s = [c] ++ s from rfl, String.ofList_append, String.utf8ByteSize_append, ih, blen_append]; simp [blen]

theorem byteSplit_append (p q : List Char) : byteSplit (p ++ q) (blen p) = some (p, q) := by
  induction p with
  | nil => cases q <;> rfl
  | cons c p ih =>
    have hc := c.utf8Size_pos
    obtain ⟨i, hi⟩ : ∃ i, blen (c :: p) = i + 1 := ⟨blen (c :: p) - 1, by have := blen_pos (s := c :: p) (by simp); omega⟩
    have hb : blen (c :: p) = c.utf8Size + blen p := by simp [blen]
    rw [hi, List.cons_append, byteSplit, if_pos (by omega), show i + 1 - c.utf8Size = blen p by omega, ih]
    rfl

theorem strSlice_append (p q r : List Char) : strSlice (p ++ (q ++ r)) (blen p) (blen (p ++ q)) = .ok q := by
  unfold strSlice
  rw [← List.append_assoc, byteSplit_append]
  simp only
  rw [byteSplit_append]

theorem newLoop_eq {M : Machine} (s : List Char) (hs : blen s < 2 ^ M.bits) (rest : List Char) :
    ∀ (p cur : List Char) (buffer : List Tok), s = p ++ (cur ++ rest) →
    ∃ last buffer', newLoop M s (matchIndices rest (blen (p ++ cur))) (blen p) buffer = .ok (last, buffer') ∧
      ∃ p' cur', s = p' ++ cur' ∧ last = blen p' ∧
        buffer' ++ (if cur' = [] then [] else [cur']) = buffer ++ splitTokens cur rest := by
  induction rest with
  | nil =>
    intro p cur buffer e
    exact ⟨_, _, rfl, p, cur, by simpa using e, rfl, by simp [splitTokens]⟩
  | cons c rest ih =>
    intro p cur buffer e
    by_cases hc : isDelim c = true
    · have h1 : blen (p ++ cur) + c.utf8Size = blen (p ++ cur ++ [c]) := by rw [blen_append (p ++ cur)]; simp [blen]
      have hle : blen (p ++ cur ++ [c]) ≤ blen s := by
        rw [e, show p ++ (cur ++ c :: rest) = (p ++ cur ++ [c]) ++ rest by simp, blen_append _ rest]; omega
      have hadd : M.add (blen (p ++ cur)) (byteLen [c]) = .ok (blen (p ++ cur ++ [c])) := by
        rw [byteLen_blen, show blen [c] = c.utf8Size by simp [blen], ← h1]
        exact Machine.fit_ok (by omega)
      obtain ⟨last, buffer', e1, p', cur', e2, e3, e4⟩ := ih (p ++ cur ++ [c]) [] ((buffer ++ (if cur = [] then [] else [cur])) ++ [[c]])
        (by rw [e]; simp)
      refine ⟨last, buffer', ?_, p', cur', e2, e3, ?_⟩
      · rw [List.append_nil] at e1
        have hbuf : pushBefore s (blen p) (blen (p ++ cur)) buffer = .ok (buffer ++ (if cur = [] then [] else [cur])) := by
          unfold pushBefore
          by_cases hcur : cur = []
          · subst hcur
            rw [if_neg (by simp), if_pos rfl, List.append_nil]
          · have := blen_pos hcur
            rw [if_pos (by rw [blen_append]; omega), if_neg hcur, e, strSlice_append]
            rfl
        rw [matchIndices, if_pos hc, h1, newLoop, hbuf, Res.ok_bind]
        simp only
        rw [hadd, Res.ok_bind]
        exact e1
      · rw [e4, splitTokens, if_pos hc]; simp
    · obtain ⟨last, buffer', e1, p', cur', e2, e3, e4⟩ := ih p (cur ++ [c]) buffer (by rw [e]; simp)
      refine ⟨last, buffer', ?_, p', cur', e2, e3, ?_⟩
      · rw [matchIndices, if_neg hc]
        rw [← List.append_assoc, blen_append (p ++ cur)] at e1
        simpa [blen] using e1
      · rw [e4, splitTokens, if_neg hc]

/-- The tokens found by positions. -/
theorem new_eq {M : Machine} (s : List Char) (hs : blen s < 2 ^ M.bits) : new M s = .ok (splitTokens [] s).reverse := by
  obtain ⟨last, buffer', e1, p', cur', e2, e3, e4⟩ := newLoop_eq s hs s [] [] [] rfl
  unfold new
  rw [show newLoop M s (matchIndices s 0) 0 [] = .ok (last, buffer') from e1, Res.ok_bind, byteLen_blen]
  simp only
  rw [List.nil_append] at e4
  rw [← e4]
  have hl : blen s = blen p' + blen cur' := by rw [e2, blen_append]
  by_cases hcur : cur' = []
  · rw [if_neg (by rw [hl, hcur, e3]; simp [blen]), if_pos hcur, List.append_nil]
    rfl
  · have := blen_pos hcur
    rw [if_pos (by omega), if_neg hcur]
    unfold strSliceFrom
    rw [e3, e2, byteSplit_append]
    rfl

/-! ## The `Vec` -/

theorem pop_nil : pop [] = none := rfl

theorem pop_reverse (t : Tok) (ts : List Tok) : pop (t :: ts).reverse = some (t, ts.reverse) := by
  simp [pop]

theorem trim_nil : trim [] = [] := by unfold trim; rfl

theorem trim_eq (b : List Tok) : trim b.reverse = (asTrim b).reverse := by
  induction b with
  | nil => exact trim_nil
  | cons t ts ih =>
    unfold trim asTrim
    have h1 : (t :: ts).reverse.getLast? = some t := by simp
    have h2 : (t :: ts).reverse.dropLast = ts.reverse := by simp
    split
    · rename_i last hl
      rw [h1] at hl
      cases hl
      rw [h2, ih, trim_nil]
      split
      · rfl
      split
      · rfl
      · rfl
    · rename_i hl
      rw [h1] at hl
      cases hl

/-- The tokens left, as a `Vec`. -/
def back {α : Type} : Res (α × List Tok) → Res (α × List Tok)
  | .ok (a, b) => .ok (a, b.reverse)
  | .err e => .err e
  | .panic => .panic

theorem splitQuoteLoop_eq (b : List Tok) (s : Tok) : splitQuoteLoop b.reverse s = back (Ssh.splitQuoteLoop b s) := by
  induction b generalizing s with
  | nil => unfold splitQuoteLoop; rfl
  | cons t ts ih =>
    unfold splitQuoteLoop Ssh.splitQuoteLoop
    split
    · rename_i token buffer' h
      rw [pop_reverse] at h
      cases h
      simp only
      split
      · rfl
      · exact ih _
    · rename_i h
      rw [pop_reverse] at h
      cases h

theorem splitQuote_eq (b : List Tok) : splitQuote b.reverse = back (Ssh.splitQuote b) := by
  unfold splitQuote Ssh.splitQuote
  cases b with
  | nil => rfl
  | cons t ts =>
    rw [pop_reverse]
    simp only
    split
    · rfl
    · exact splitQuoteLoop_eq _ _

theorem takeWord_eq (b : List Tok) (s : Tok) :
    takeWord b.reverse s = ((Ssh.takeWord b s).1, (Ssh.takeWord b s).2.reverse) := by
  induction b generalizing s with
  | nil => unfold takeWord; rfl
  | cons t ts ih =>
    unfold takeWord Ssh.takeWord
    split
    · rename_i last buffer' h
      rw [pop_reverse] at h
      cases h
      by_cases ht : t = [' '] ∨ t = ['"'] ∨ t = ['#']
      · rw [if_pos ht, if_pos (by simpa using ht)]
        simp
      · rw [if_neg ht, if_neg (by simpa using ht)]
        exact ih _
    · rename_i h
      rw [pop_reverse] at h
      cases h

theorem getLast?_reverse' (b : List Tok) : b.reverse.getLast? = b.head? := by simp

theorem next_eq (q : Bool) (b : List Tok) : next q b.reverse = back (asNext q b) := by
  unfold next asNext
  simp only
  rw [trim_eq]
  generalize asTrim b = b
  rw [List.isEmpty_reverse]
  split
  · rename_i h
    rw [List.isEmpty_iff.mp h]
    rfl
  rename_i hne
  have hi : index b.reverse 0 = Res.unwrap b.getLast? := by rw [index, ← List.head?_eq_getElem?, List.head?_reverse]
  rw [hi]
  cases hg : b.getLast? with
  | none => rfl
  | some first =>
    simp only [Res.unwrap, Res.ok_bind]
    split
    · split
      · rw [splitQuote_eq]
        rcases Ssh.splitQuote b with ⟨v, r⟩ | e | _ <;> rfl
      · rfl
    · rw [takeWord_eq]
      simp only
      generalize Ssh.takeWord b [] = w
      obtain ⟨s, rest⟩ := w
      simp only [getLast?_reverse']
      cases rest with
      | nil => rfl
      | cons t ts =>
        simp only [List.head?_cons]
        split
        · rw [splitQuote_eq]
          rcases Ssh.splitQuote (t :: ts) with ⟨v, r⟩ | e | _
          · simp only [back, Res.ok_bind, getLast?_reverse']
            cases r with
            | nil => rfl
            | cons t' ts' =>
              simp only [List.head?_cons]
              by_cases ht : t' ≠ [' '] ∧ t' ≠ ['#']
              · rw [if_pos ht, if_pos (by simpa using ht)]
                rfl
              · rw [if_neg ht, if_neg (by simpa using ht)]
                rfl
          · rfl
          · rfl
        · rfl

/-! ## The whole line -/

/-- The names of the options. -/
def optionNames : List (List Char) :=
  ["cert-authority".toList, "namespaces".toList, "valid-after".toList, "valid-before".toList]

/-- Among the texts that `lower` turns into the name of an option are just the variants of it in upper and lower case
letters of ASCII. -/
def LowersNames (lower : List Char → List Char) : Prop := ∀ s, ∀ name ∈ optionNames, lower s = name ↔ lowerAscii s = name

theorem applyOption_eq {lower : List Char → List Char} (hl : LowersNames lower) (T : Chrono) (o : Opts) (t : Tok) :
    applyOption lower T o t = Ssh.applyOption T o t := by
  have h1 : ∀ s, lower s = "cert-authority".toList ↔ lowerAscii s = "cert-authority".toList := fun s => hl s _ (by simp [optionNames])
  have h2 : ∀ s, lower s = "namespaces".toList ↔ lowerAscii s = "namespaces".toList := fun s => hl s _ (by simp [optionNames])
  have h3 : ∀ s, lower s = "valid-after".toList ↔ lowerAscii s = "valid-after".toList := fun s => hl s _ (by simp [optionNames])
  have h4 : ∀ s, lower s = "valid-before".toList ↔ lowerAscii s = "valid-before".toList := fun s => hl s _ (by simp [optionNames])
  unfold applyOption Ssh.applyOption
  simp only [h1, h2, h3, h4]

/-- The tokens left after the loop, as a `Vec`. -/
def back3 {α β : Type} : Res (α × β × List Tok) → Res (α × β × List Tok)
  | .ok (a, o, b) => .ok (a, o, b.reverse)
  | .err e => .err e
  | .panic => .panic

theorem optionLoop_eq {lower : List Char → List Char} (hl : LowersNames lower) (T : Chrono) (n : Nat) :
    ∀ (fuel : Nat) (b : List Tok) (o : Opts), b.length < n → b.length < fuel →
      optionLoop lower T n b.reverse o = some (back3 (Ssh.optionLoop T fuel b o)) := by
  induction n with
  | zero => intro _ _ _ h; omega
  | succ n ih =>
    intro fuel b o h1 h2
    cases fuel with
    | zero => omega
    | succ fuel =>
      unfold optionLoop Ssh.optionLoop
      rw [next_eq]
      cases hn : asNext false b with
      | err e => rfl
      | panic => rfl
      | ok p =>
        obtain ⟨_ | t, r⟩ := p
        · rfl
        · have := asNext_length hn
          simp only [back, Res.ok_bind, applyOption_eq hl]
          cases ha : Ssh.applyOption T o t with
          | err e => rfl
          | panic => rfl
          | ok o' =>
            cases o' with
            | none => rfl
            | some o' => exact ih fuel r o' (by omega) (by omega)

theorem splitTokens_length (s : List Char) : ∀ cur, (splitTokens cur s).length ≤ s.length + (if cur = [] then 0 else 1) := by
  induction s with
  | nil => intro cur; unfold splitTokens; split <;> simp
  | cons c s ih =>
    intro cur
    unfold splitTokens
    split
    · have := ih []
      simp only [if_true] at this
      simp only [List.length_append, List.length_cons]
      split <;> simp <;> omega
    · have := ih (cur ++ [c])
      simp only [List.append_eq_nil_iff, List.cons_ne_nil, and_false, if_false] at this
      simp only [List.length_cons]
      omega

theorem finish_eq (principals : List (List Char)) (kt : Tok) (o : Opts) (b : List Tok) :
    finish principals kt o b.reverse = (do
      let (ktok, toks) ← asNext false b
      match ktok with
      | none => asErr .invalidKey
      | some keyData => do
        let key ← Res.mapErr (fun _ => .invalidAllowedSigner .invalidKey) (PublicKey.fromString (kt ++ ' ' :: keyData))
        if emptyWindow o.validBefore o.validAfter then asErr .invalidTimestamps
        else if ¬ (asTrim toks).isEmpty then asErr .unexpectedEnd
        else return {
          principals, certAuthority := o.certAuthority, namespaces := o.namespaces,
          validAfter := o.validAfter, validBefore := o.validBefore, key }) := by
  unfold finish
  rw [next_eq]
  cases hn : asNext false b with
  | err e => rfl
  | panic => rfl
  | ok p =>
    obtain ⟨_ | t, r⟩ := p
    · rfl
    · simp only [back, Res.ok_bind, trim_eq, List.isEmpty_reverse]

end Splitter

open Splitter

/-- C141: with the positions and the stack of tokens of the code, a line of a length that the target can hold is parsed
as with the tokens in reading order; the loop over the options ends after at most as many rounds as the line has
characters and one more. -/
theorem C141_line (M : Machine) (lower : List Char → List Char) (hl : LowersNames lower) (T : Chrono) (n : Nat)
    (s : List Char) (hs : (String.ofList s).utf8ByteSize < 2 ^ M.bits) (hn : s.length < n) :
    Splitter.fromString M lower T n s = some (AllowedSigner.fromString T s) := by
  have hb : blen s < 2 ^ M.bits := by rw [← byteLen_blen, byteLen_eq]; exact hs
  unfold Splitter.fromString Splitter.start AllowedSigner.fromString
  rw [new_eq s hb]
  simp only [Res.ok_bind, next_eq]
  cases hp : asNext true (splitTokens [] s) with
  | err e => rfl
  | panic => rfl
  | ok p =>
    obtain ⟨_ | p, r⟩ := p
    · rfl
    · have h1 := asNext_length hp
      have h2 := splitTokens_length s []
      simp only [if_true] at h2
      simp only [back, Res.ok_bind]
      split
      · rename_i principals buffer h
        by_cases ha : (splitOn (· == ',') (trimQuotes p)).any (·.isEmpty) = true
        · rw [if_pos ha] at h
          cases h
        · rw [if_neg ha] at h ⊢
          cases h
          rw [optionLoop_eq hl T n (r.length + 1) r Opts.empty (by omega) (by omega)]
          cases hq : Ssh.optionLoop T (r.length + 1) r Opts.empty with
          | err e => rfl
          | panic => rfl
          | ok q =>
            obtain ⟨kt, o, b⟩ := q
            simp only [back3, Res.ok_bind, finish_eq]
            rfl
      · rename_i e h
        by_cases ha : (splitOn (· == ',') (trimQuotes p)).any (·.isEmpty) = true
        · rw [if_pos ha] at h ⊢
          cases h
          rfl
        · rw [if_neg ha] at h
          cases h
      · rename_i h
        by_cases ha : (splitOn (· == ',') (trimQuotes p)).any (·.isEmpty) = true
        · rw [if_pos ha] at h
          cases h
        · rw [if_neg ha] at h
          cases h

example : Splitter.fromString ⟨32, true⟩ lowerAscii sampleChrono 1000 sampleLine = some (.ok sampleEntry) := by
  rw [C141_line _ _ (fun _ _ _ => Iff.rfl) _ _ _ (by decide +kernel) (by decide +kernel)]
  exact congrArg some (by decide +kernel)

/-- C141: the stack never holds an empty token, and its tokens put together are the line. -/
theorem C141_tokens (M : Machine) (s : List Char) (hs : (String.ofList s).utf8ByteSize < 2 ^ M.bits) :
    ∃ b, Splitter.new M s = .ok b ∧ b.reverse.flatten = s ∧ ∀ t ∈ b, t ≠ [] ∧ (t = [' '] ∨ t = ['"'] ∨ t = ['#'] ∨
      ∀ c ∈ t, c ≠ ' ' ∧ c ≠ '"' ∧ c ≠ '#') := by
  have hb : blen s < 2 ^ M.bits := by rw [← byteLen_blen, byteLen_eq]; exact hs
  refine ⟨_, new_eq s hb, ?_, ?_⟩
  · have key : ∀ (s cur : List Char), (splitTokens cur s).flatten = cur ++ s := by
      intro s
      induction s with
      | nil => intro cur; unfold splitTokens; split <;> simp_all
      | cons c s ih =>
        intro cur
        unfold splitTokens
        split
        · split <;> simp_all
        · rw [ih]; simp
    simpa using key s []
  · have hd : ∀ c, isDelim c = true ↔ c = ' ' ∨ c = '"' ∨ c = '#' := by
      intro c; simp [isDelim, or_assoc]
    have key : ∀ (s cur : List Char), (∀ c ∈ cur, isDelim c = false) → ∀ t ∈ splitTokens cur s,
        t ≠ [] ∧ (t = [' '] ∨ t = ['"'] ∨ t = ['#'] ∨ ∀ c ∈ t, isDelim c = false) := by
      intro s
      induction s with
      | nil =>
        intro cur hc t ht
        unfold splitTokens at ht
        split at ht
        · cases ht
        · rw [List.mem_singleton] at ht
          subst ht
          exact ⟨by assumption, .inr (.inr (.inr hc))⟩
      | cons c s ih =>
        intro cur hc t ht
        unfold splitTokens at ht
        split at ht
        · rename_i hdc
          rw [List.mem_append, List.mem_cons] at ht
          rcases ht with ht | rfl | ht
          · split at ht
            · cases ht
            · rw [List.mem_singleton] at ht
              subst ht
              exact ⟨by assumption, .inr (.inr (.inr hc))⟩
          · refine ⟨by simp, ?_⟩
            rcases (hd c).mp hdc with rfl | rfl | rfl
            · exact .inl rfl
            · exact .inr (.inl rfl)
            · exact .inr (.inr (.inl rfl))
          · exact ih [] (by simp) t ht
        · rename_i hdc
          refine ih (cur ++ [c]) ?_ t ht
          intro x hx
          rw [List.mem_append, List.mem_singleton] at hx
          rcases hx with hx | rfl
          · exact hc x hx
          · exact Bool.eq_false_iff.mpr hdc
    intro t ht
    rw [List.mem_reverse] at ht
    obtain ⟨h1, h2⟩ := key s [] (by simp) t ht
    refine ⟨h1, ?_⟩
    rcases h2 with h2 | h2 | h2 | h2
    · exact .inl h2
    · exact .inr (.inl h2)
    · exact .inr (.inr (.inl h2))
    · refine .inr (.inr (.inr fun c hc => ?_))
      have := h2 c hc
      have h3 : ¬ (c = ' ' ∨ c = '"' ∨ c = '#') := fun h => by rw [(hd c).mpr h] at this; cases this
      exact ⟨fun h => h3 (.inl h), fun h => h3 (.inr (.inl h)), fun h => h3 (.inr (.inr h))⟩

example : Splitter.new ⟨32, true⟩ "a é=\"x #\" k".toList =
    .ok ["k".toList, " ".toList, "\"".toList, "#".toList, " ".toList, "x".toList, "\"".toList, "é=".toList, " ".toList, "a".toList] := by
  decide +kernel

/-- The assumption about `to_lowercase` is met by the lower case of ASCII. -/
example : LowersNames lowerAscii := fun _ _ _ => Iff.rfl

end Ssh
