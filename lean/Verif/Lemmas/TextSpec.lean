import Verif.Lemmas.Text
import Verif.Spec.Text

/-! # The text functions against their specification -/

namespace Ssh
open Spec

theorem isWs_iff {c : Char} : isWs c = true ↔ White c := by
  unfold isWs White whiteSpace
  simp only [Bool.or_eq_true, Bool.and_eq_true, decide_eq_true_eq, beq_iff_eq, List.mem_cons, List.not_mem_nil, or_false]
  omega

theorem isWs_false {c : Char} : isWs c = false ↔ ¬ White c := by
  rw [← isWs_iff]; simp

theorem textWords_iff {s : List Char} {ws : List (List Char)} : TextWords s ws ↔ splitWhitespace s = ws := by
  have hw : ∀ {w : List Char}, TextWord w → w ≠ [] ∧ ∀ c ∈ w, isWs c = false :=
    fun h => ⟨h.1, fun c hc => isWs_false.mpr (h.2 c hc)⟩
  constructor
  · intro h
    induction h with
    | nil => rfl
    | blank c s ws h _ ih => rw [splitWhitespace_ws (isWs_iff.mpr h), ih]
    | last w h => exact splitWhitespace_word (hw h).1 (hw h).2
    | word w c s ws h hc _ ih => rw [splitWhitespace_cons (hw h).1 (hw h).2 (isWs_iff.mpr hc), ih]
  · rintro rfl
    induction hn : s.length using Nat.strongRecOn generalizing s with
    | ind n ih =>
      have hcase : ∀ t : List Char, (∀ c ∈ t, isWs c = false) ∨ ∃ l c r, t = l ++ c :: r ∧ (∀ c ∈ l, isWs c = false) ∧ isWs c = true := by
        intro t
        induction t with
        | nil => left; simp
        | cons c t iht =>
          cases hc : isWs c with
          | true => exact .inr ⟨[], c, t, rfl, by simp, hc⟩
          | false =>
            rcases iht with h | ⟨l, d, r, rfl, h1, h2⟩
            · left; intro x hx; rcases List.mem_cons.mp hx with rfl | hx
              · exact hc
              · exact h x hx
            · refine .inr ⟨c :: l, d, r, rfl, ?_, h2⟩
              intro x hx; rcases List.mem_cons.mp hx with rfl | hx
              · exact hc
              · exact h1 x hx
      rcases hcase s with h | ⟨l, c, r, rfl, h1, h2⟩
      · cases s with
        | nil => exact .nil
        | cons c s =>
          rw [splitWhitespace_word (by simp) h]
          exact .last _ ⟨by simp, fun c hc => isWs_false.mp (h c hc)⟩
      · have := ih r.length (by subst hn; simp; omega) rfl
        cases l with
        | nil => rw [List.nil_append, splitWhitespace_ws h2]; exact .blank _ _ _ (isWs_iff.mp h2) this
        | cons x l =>
          rw [splitWhitespace_cons (by simp) h1 h2]
          exact .word _ _ _ _ ⟨by simp, fun c hc => isWs_false.mp (h1 c hc)⟩ (isWs_iff.mp h2) this

theorem textWords_unique {s : List Char} {a b : List (List Char)} (h : TextWords s a) (h' : TextWords s b) : a = b := by
  rw [← textWords_iff.mp h, ← textWords_iff.mp h']

theorem textWords_exists (s : List Char) : ∃ ws, TextWords s ws := ⟨_, textWords_iff.mpr rfl⟩

/-! ## Lines -/

theorem splitInclusiveNl_word {l : List Char} (hl : '\n' ∉ l) (s : List Char) :
    splitInclusiveNl (l ++ '\n' :: s) = (l ++ ['\n']) :: splitInclusiveNl s := by
  induction l with
  | nil => simp [splitInclusiveNl]
  | cons c l ih =>
    have hc : c ≠ '\n' := fun e => hl (by simp [e])
    rw [List.cons_append, splitInclusiveNl, if_neg hc, ih fun h => hl (by simp [h])]
    rfl

theorem splitInclusiveNl_last {l : List Char} (hl : '\n' ∉ l) (hne : l ≠ []) :
    splitInclusiveNl l = [l] := by
  induction l with
  | nil => exact absurd rfl hne
  | cons c l ih =>
    have hc : c ≠ '\n' := fun e => hl (by simp [e])
    rw [splitInclusiveNl, if_neg hc]
    cases l with
    | nil => simp [splitInclusiveNl]
    | cons d l => rw [ih (fun h => hl (by simp [h])) (by simp)]

/-- A line ended by a newline, not ending in a carriage return. -/
theorem lines_cons {l : List Char} (hl : '\n' ∉ l) (hr : l.getLast? ≠ some '\r') (s : List Char) :
    lines (l ++ '\n' :: s) = l :: lines s := by
  unfold lines
  rw [splitInclusiveNl_word hl, List.map_cons]
  congr 1
  unfold stripNl
  rw [if_pos (by simp)]
  simp [stripSuffix, hr]

/-- The last line without newline. -/
theorem lines_last {l : List Char} (hl : '\n' ∉ l) (hne : l ≠ []) : lines l = [l] := by
  unfold lines
  rw [splitInclusiveNl_last hl hne, List.map_cons, List.map_nil]
  unfold stripNl
  rw [if_neg]
  intro h
  exact hl (List.mem_of_getLast? h)

theorem lines_nil : lines [] = [] := rfl

theorem lines_crlf {l : List Char} (hl : '\n' ∉ l) (s : List Char) : lines (l ++ '\r' :: '\n' :: s) = l :: lines s := by
  have e : l ++ '\r' :: '\n' :: s = (l ++ ['\r']) ++ '\n' :: s := by simp
  have hl' : '\n' ∉ l ++ ['\r'] := by simp [hl]
  rw [e]
  unfold lines
  have h := splitInclusiveNl_word hl' s
  rw [h, List.map_cons]
  congr 1
  unfold stripNl
  simp [stripSuffix]

theorem nl_cases (s : List Char) : '\n' ∉ s ∨ ∃ l r, s = l ++ '\n' :: r ∧ '\n' ∉ l := by
  induction s with
  | nil => left; simp
  | cons c s ih =>
    by_cases h : c = '\n'
    · exact .inr ⟨[], s, by simp [h], by simp⟩
    · rcases ih with ih | ⟨body, rest, rfl, hb⟩
      · left; simp [ih, Ne.symm h]
      · exact .inr ⟨c :: body, rest, rfl, by simp [hb, Ne.symm h]⟩

theorem lines_iff {s : List Char} {ls : List (List Char)} : FileLines s ls ↔ lines s = ls := by
  constructor
  · intro h
    induction h with
    | nil => rfl
    | last l h1 h2 => exact lines_last h1 h2
    | lf l s ls h1 h2 _ ih => rw [lines_cons h1 h2, ih]
    | crlf l s ls h1 _ ih => rw [lines_crlf h1, ih]
  · rintro rfl
    induction hn : s.length using Nat.strongRecOn generalizing s with
    | ind n ih =>
      rcases nl_cases s with h | ⟨l, r, rfl, hl⟩
      · cases s with
        | nil => exact .nil
        | cons c s => rw [lines_last h (by simp)]; exact .last _ h (by simp)
      · have := ih r.length (by subst hn; simp; omega) rfl
        by_cases hr : l.getLast? = some '\r'
        · obtain ⟨l', rfl⟩ := List.getLast?_eq_some_iff.mp hr
          have hl' : '\n' ∉ l' := fun h => hl (by simp [h])
          rw [List.append_assoc, List.singleton_append, lines_crlf hl']
          exact .crlf _ _ _ hl' this
        · rw [lines_cons hl hr]
          exact .lf _ _ _ hl hr this

/-! ## Bits -/

theorem bits_length (n x : Nat) : (bits n x).length = n := by
  induction n generalizing x with
  | zero => rfl
  | succ n ih => simp [bits, ih]

theorem bits_add (m n x : Nat) : bits (m + n) x = bits m (x / 2 ^ n) ++ bits n x := by
  induction n generalizing x with
  | zero => simp [bits]
  | succ n ih =>
    rw [← Nat.add_assoc, bits, bits, ih, List.append_assoc, Nat.div_div_eq_div_mul, ← Nat.pow_succ']

theorem bits_mod (n x : Nat) : bits n (x % 2 ^ n) = bits n x := by
  induction n generalizing x with
  | zero => rfl
  | succ n ih =>
    rw [bits, bits, ← ih (x / 2), ← ih (x % 2 ^ (n + 1) / 2)]
    have h1 : x % 2 ^ (n + 1) / 2 % 2 ^ n = x / 2 % 2 ^ n := by
      rw [Nat.pow_succ', Nat.mod_mul_right_div_self, Nat.mod_mod]
    have h2 : x % 2 ^ (n + 1) % 2 = x % 2 := by
      rw [Nat.pow_succ', Nat.mod_mul_right_mod]
    rw [h1, h2]

theorem bits_inj {n x y : Nat} (hx : x < 2 ^ n) (hy : y < 2 ^ n) (h : bits n x = bits n y) : x = y := by
  induction n generalizing x y with
  | zero => omega
  | succ n ih =>
    rw [bits, bits] at h
    obtain ⟨h1, h2⟩ := List.append_inj h (by simp [bits_length])
    have := ih (by rw [Nat.pow_succ] at hx; omega) (by rw [Nat.pow_succ] at hy; omega) h1
    simp only [List.cons.injEq, and_true] at h2
    have e : (x % 2 = 1) ↔ (y % 2 = 1) := by
      rw [← beq_iff_eq, ← beq_iff_eq (a := y % 2), h2]
    omega

theorem bits_zero (n : Nat) : bits n 0 = List.replicate n false := by
  induction n with
  | zero => rfl
  | succ n ih => rw [bits, Nat.zero_div, ih, List.replicate_succ']; rfl

theorem flat_length (gs : List Nat) (n : Nat) : (gs.flatMap (bits n)).length = n * gs.length := by
  induction gs with
  | nil => rfl
  | cons g gs ih => simp [bits_length, ih, Nat.mul_add, Nat.add_comm]

theorem flat_length8 (b : Bytes) : (b.flatMap (fun x => bits 8 x.toNat)).length = 8 * b.length := by
  induction b with
  | nil => rfl
  | cons g gs ih => simp [bits_length, ih, Nat.mul_add, Nat.add_comm]

theorem flat_inj {gs hs : List Nat} (hg : ∀ g ∈ gs, g < 64) (hh : ∀ g ∈ hs, g < 64) (hl : gs.length = hs.length)
    (h : gs.flatMap (bits 6) = hs.flatMap (bits 6)) : gs = hs := by
  induction gs generalizing hs with
  | nil => cases hs with
    | nil => rfl
    | cons => simp at hl
  | cons g gs ih => cases hs with
    | nil => simp at hl
    | cons k hs =>
      rw [List.flatMap_cons, List.flatMap_cons] at h
      obtain ⟨h1, h2⟩ := List.append_inj h (by simp [bits_length])
      rw [bits_inj (n := 6) (hg g (by simp)) (hh k (by simp)) h1,
        ih (fun x hx => hg x (by simp [hx])) (fun x hx => hh x (by simp [hx])) (by simpa using hl) h2]

theorem sextets_unique {b : Bytes} {gs hs : List Nat} (h : Sextets b gs) (h' : Sextets b hs) : gs = hs := by
  obtain ⟨h1, z, hz, h2⟩ := h
  obtain ⟨h1', z', hz', h2'⟩ := h'
  have e := congrArg List.length h2
  have e' := congrArg List.length h2'
  rw [flat_length, List.length_append, flat_length8, List.length_replicate] at e e'
  have hl : gs.length = hs.length := by omega
  have : z = z' := by omega
  subst this
  exact flat_inj h1 h1' hl (h2.trans h2'.symm)

theorem symbol_char : ∀ n, n < 64 → symbol n = b64Char n := by decide +kernel

theorem bits_group (n : Nat) : bits 6 (n / 262144) ++ (bits 6 (n / 4096 % 64) ++ (bits 6 (n / 64 % 64) ++ bits 6 (n % 64))) =
    bits 8 (n / 65536) ++ (bits 8 (n / 256 % 256) ++ bits 8 (n % 256)) := by
  have m6 : ∀ x, bits 6 (x % 64) = bits 6 x := bits_mod 6
  have m8 : ∀ x, bits 8 (x % 256) = bits 8 x := bits_mod 8
  have a6 : ∀ m x, bits (m + 6) x = bits m (x / 64) ++ bits 6 x := fun m x => bits_add m 6 x
  have a8 : ∀ m x, bits (m + 8) x = bits m (x / 256) ++ bits 8 x := fun m x => bits_add m 8 x
  rw [m6, m6, m6, m8, m8]
  have l : bits 24 n = bits 6 (n / 262144) ++ (bits 6 (n / 4096) ++ (bits 6 (n / 64) ++ bits 6 n)) := by
    rw [a6 18 n, a6 12 (n / 64), a6 6 (n / 64 / 64), Nat.div_div_eq_div_mul, Nat.div_div_eq_div_mul]
    simp only [Nat.div_div_eq_div_mul, List.append_assoc, Nat.reduceMul]
  have r : bits 24 n = bits 8 (n / 65536) ++ (bits 8 (n / 256) ++ bits 8 n) := by
    rw [a8 16 n, a8 8 (n / 256), Nat.div_div_eq_div_mul]
    simp only [List.append_assoc]
  rw [← l, r]

/-- The encoder: groups of six bits, symbols, padding. -/
theorem encode_groups (b : Bytes) : ∃ gs k, Sextets b gs ∧ b64Encode b = gs.map symbol ++ List.replicate k '=' ∧ k < 4 ∧
    (b64Encode b).length % 4 = 0 := by
  fun_induction b64Encode b with
  | case1 => exact ⟨[], 0, ⟨by simp, 0, by omega, rfl⟩, rfl, by omega, rfl⟩
  | case2 a n =>
    have ha := a.toNat_lt
    have h1 : n / 64 < 64 := by simp only [n]; omega
    have h2 : n % 64 < 64 := by omega
    refine ⟨[n / 64, n % 64], 2, ⟨by simp [h1, h2], 4, by omega, ?_⟩, ?_, by omega, by simp⟩
    · have e1 := bits_add 6 6 n
      have e2 := bits_add 8 4 n
      rw [show (2:Nat) ^ 6 = 64 from rfl, ← bits_mod 6 n, show (2:Nat) ^ 6 = 64 from rfl] at e1
      have : n / 2 ^ 4 = a.toNat := by simp only [n]; omega
      rw [this, ← bits_mod 4 n, show n % 2 ^ 4 = 0 by simp only [n]; omega, bits_zero] at e2
      simp only [List.flatMap_cons, List.flatMap_nil, List.append_nil]
      rw [← e1, ← e2]
    · simp [symbol_char _ h1, symbol_char _ h2]
  | case3 a b n =>
    have ha := a.toNat_lt
    have hb := b.toNat_lt
    have h1 : n / 4096 < 64 := by simp only [n]; omega
    have h2 : n / 64 % 64 < 64 := by omega
    have h3 : n % 64 < 64 := by omega
    refine ⟨[n / 4096, n / 64 % 64, n % 64], 1, ⟨by simp [h1, h2, h3], 2, by omega, ?_⟩, ?_, by omega, by simp⟩
    · have e1 := bits_add 12 6 n
      have e3 := bits_add 6 6 (n / 2 ^ 6)
      rw [← bits_mod 6 (n / 2 ^ 6), Nat.div_div_eq_div_mul] at e3
      rw [e3, ← bits_mod 6 n] at e1
      have e2 := bits_add 16 2 n
      have e4 := bits_add 8 8 (n / 2 ^ 2)
      rw [← bits_mod 8 (n / 2 ^ 2), Nat.div_div_eq_div_mul, show n / (2 ^ 2 * 2 ^ 8) = a.toNat by simp only [n]; omega,
        show n / 2 ^ 2 % 2 ^ 8 = b.toNat by simp only [n]; omega] at e4
      rw [e4, ← bits_mod 2 n, show n % 2 ^ 2 = 0 by simp only [n]; omega, bits_zero] at e2
      simp only [List.flatMap_cons, List.flatMap_nil, List.append_nil]
      have := e1.symm.trans e2
      simpa [List.append_assoc] using this
    · simp [symbol_char _ h1, symbol_char _ h2, symbol_char _ h3]
  | case4 a b c rest n ih =>
    have ha := a.toNat_lt
    have hb := b.toNat_lt
    have hc := c.toNat_lt
    have h1 : n / 262144 < 64 := by simp only [n]; omega
    have h2 : n / 4096 % 64 < 64 := by omega
    have h3 : n / 64 % 64 < 64 := by omega
    have h4 : n % 64 < 64 := by omega
    obtain ⟨gs, k, ⟨hg, z, hz, he⟩, hs, hk, hl⟩ := ih
    refine ⟨n / 262144 :: n / 4096 % 64 :: n / 64 % 64 :: n % 64 :: gs, k, ⟨?_, z, hz, ?_⟩, ?_, hk, ?_⟩
    · intro g hg'
      simp only [List.mem_cons] at hg'
      rcases hg' with rfl | rfl | rfl | rfl | h
      · exact h1
      · exact h2
      · exact h3
      · exact h4
      · exact hg g h
    · have e := bits_group n
      have i1 : n / 65536 = a.toNat := by simp only [n]; omega
      have i2 : n / 256 % 256 = b.toNat := by simp only [n]; omega
      have i3 : n % 256 = c.toNat := by simp only [n]; omega
      rw [i1, i2, i3] at e
      have e := congrArg (· ++ gs.flatMap (bits 6)) e
      simp only [List.append_assoc] at e
      simp only [List.flatMap_cons, List.append_assoc]
      rw [e, he]
    · rw [hs]; simp [symbol_char _ h1, symbol_char _ h2, symbol_char _ h3, symbol_char _ h4]
    · simp only [List.length_cons]; omega

theorem base64_iff {b : Bytes} {s : List Char} : Base64 b s ↔ s = b64Encode b := by
  obtain ⟨gs, k, h1, h2, h3, h4⟩ := encode_groups b
  constructor
  · rintro ⟨gs', k', h1', h2', h3', h4'⟩
    have := sextets_unique h1 h1'
    subst this
    rw [h2] at h4
    rw [h2'] at h4'
    simp only [List.length_append, List.length_map, List.length_replicate] at h4 h4'
    rw [h2', h2, show k' = k by omega]
  · rintro rfl
    exact ⟨gs, k, h1, h2, h3, h4⟩

theorem b64Char_eq {n : Nat} (h : n < 64) : b64Char n ≠ '=' := b64Char_ne_eq h

theorem append_pad {s t : List Char} {k : Nat} {x : Char} (h : s ++ List.replicate k '=' = x :: t) (hx : x ≠ '=') :
    ∃ s', s = x :: s' ∧ s' ++ List.replicate k '=' = t := by
  cases s with
  | nil =>
    cases k with
    | zero => cases h
    | succ k => rw [List.nil_append, List.replicate_succ] at h; exact absurd (List.cons.inj h).1.symm hx
  | cons c s => exact ⟨s, by rw [(List.cons.inj h).1], (List.cons.inj h).2⟩

theorem decode_lax (b : Bytes) (k : Nat) : ∀ s, s ++ List.replicate k '=' = b64Encode b → b64Decode s = some b := by
  fun_induction b64Encode b with
  | case1 =>
    intro s h
    have : s = [] := (List.append_eq_nil_iff.mp h).1
    subst this; rfl
  | case2 a n =>
    intro s h0
    have ha := a.toNat_lt
    have h1 : n / 64 < 64 := by simp only [n]; omega
    have h2 : n % 64 < 64 := by omega
    obtain ⟨s1, rfl, h1'⟩ := append_pad h0 (b64Char_eq h1)
    obtain ⟨s2, rfl, h2'⟩ := append_pad h1' (b64Char_eq h2)
    have hd : b64Dec2 (b64Char (n / 64)) (b64Char (n % 64)) = some [a] := by
      simp only [b64Dec2, b64Val_char _ h1, b64Val_char _ h2, Option.bind_eq_bind, Option.bind_some]
      rw [if_pos (by simp only [n]; omega), u8_of_eq (a := a) (by simp only [n]; omega)]
    match s2, h2' with
    | [], _ => exact hd
    | [x], h =>
      obtain rfl := (List.cons.inj h).1
      simpa only [b64Decode, if_true] using hd
    | [x, y], h =>
      obtain rfl := (List.cons.inj h).1
      obtain rfl := (List.cons.inj (List.cons.inj h).2).1
      simpa only [b64Decode, if_true] using hd
    | x :: y :: z :: s, h => simp at h
  | case3 a b n =>
    intro s h0
    have ha := a.toNat_lt
    have hb := b.toNat_lt
    have h1 : n / 4096 < 64 := by simp only [n]; omega
    have h2 : n / 64 % 64 < 64 := by omega
    have h3 : n % 64 < 64 := by omega
    obtain ⟨s1, rfl, h1'⟩ := append_pad h0 (b64Char_eq h1)
    obtain ⟨s2, rfl, h2'⟩ := append_pad h1' (b64Char_eq h2)
    obtain ⟨s3, rfl, h3'⟩ := append_pad h2' (b64Char_eq h3)
    have hd : b64Dec3 (b64Char (n / 4096)) (b64Char (n / 64 % 64)) (b64Char (n % 64)) = some [a, b] := by
      simp only [b64Dec3, b64Val_char _ h1, b64Val_char _ h2, b64Val_char _ h3, Option.bind_eq_bind, Option.bind_some]
      rw [if_pos (by simp only [n]; omega), u8_of_eq (a := a) (by simp only [n]; omega), u8_of_eq (a := b) (by simp only [n]; omega)]
    match s3, h3' with
    | [], _ => simpa only [b64Decode, b64Char_eq h3, if_false] using hd
    | [x], h =>
      obtain rfl := (List.cons.inj h).1
      simpa only [b64Decode, if_true, b64Char_eq h3, if_false] using hd
    | x :: y :: s, h => simp at h
  | case4 a b c rest n ih =>
    intro s h0
    have ha := a.toNat_lt
    have hb := b.toNat_lt
    have hc := c.toNat_lt
    have h1 : n / 262144 < 64 := by simp only [n]; omega
    have h2 : n / 4096 % 64 < 64 := by omega
    have h3 : n / 64 % 64 < 64 := by omega
    have h4 : n % 64 < 64 := by omega
    have e1 : UInt8.ofNat ((((n / 262144 * 64 + n / 4096 % 64) * 64 + n / 64 % 64) * 64 + n % 64) / 65536) = a :=
      u8_of_eq (by simp only [n]; omega)
    have e2 : UInt8.ofNat ((((n / 262144 * 64 + n / 4096 % 64) * 64 + n / 64 % 64) * 64 + n % 64) / 256) = b :=
      u8_of_eq (by simp only [n]; omega)
    have e3 : UInt8.ofNat (((n / 262144 * 64 + n / 4096 % 64) * 64 + n / 64 % 64) * 64 + n % 64) = c :=
      u8_of_eq (by simp only [n]; omega)
    obtain ⟨s1, rfl, h1'⟩ := append_pad h0 (b64Char_eq h1)
    obtain ⟨s2, rfl, h2'⟩ := append_pad h1' (b64Char_eq h2)
    obtain ⟨s3, rfl, h3'⟩ := append_pad h2' (b64Char_eq h3)
    obtain ⟨s4, rfl, h4'⟩ := append_pad h3' (b64Char_eq h4)
    have ih := ih _ h4'
    cases s4 with
    | nil =>
      simp only [b64Decode, Option.some.injEq] at ih
      subst ih
      simp only [b64Decode, b64Char_eq h4, if_false, b64Val_char _ h1, b64Val_char _ h2,
        b64Val_char _ h3, b64Val_char _ h4, Option.bind_eq_bind, Option.bind_some, e1, e2, e3]
    | cons x xs =>
      simp only [b64Decode, b64Val_char _ h1, b64Val_char _ h2, b64Val_char _ h3, b64Val_char _ h4,
        Option.bind_eq_bind, Option.bind_some, ih, e1, e2, e3]

theorem decode_pad : ∀ (n : Nat) (s : List Char) (b : Bytes), s.length ≤ n → b64Decode s = some b →
    ∃ k, (s ++ List.replicate k '=').length % 4 = 0 ∧ b64Decode (s ++ List.replicate k '=') = some b := by
  intro n
  induction n with
  | zero =>
    intro s b hl h
    have : s = [] := List.length_eq_zero_iff.mp (by omega)
    subst this
    exact ⟨0, rfl, h⟩
  | succ n ih =>
    intro s b hl h
    match s, h with
    | [], h => exact ⟨0, rfl, h⟩
    | [_], h => cases h
    | [x, y], h => exact ⟨2, by simp, by simpa [b64Decode, List.replicate] using h⟩
    | [x, y, z], h =>
      refine ⟨1, by simp, ?_⟩
      simp only [b64Decode] at h
      simpa [b64Decode, List.replicate] using h
    | [x, y, z, w], h => exact ⟨0, by simp, by simpa using h⟩
    | x :: y :: z :: w :: v :: r, h =>
      simp only [b64Decode, Option.bind_eq_bind, Option.bind_eq_some_iff, Option.some.injEq] at h
      obtain ⟨i1, g1, i2, g2, i3, g3, i4, g4, tl, ht, rfl⟩ := h
      obtain ⟨k, h1, h2⟩ := ih (v :: r) tl (by simp at hl ⊢; omega) ht
      refine ⟨k, by simp at h1 ⊢; omega, ?_⟩
      simp only [List.cons_append] at h2 ⊢
      simp only [b64Decode, g1, g2, g3, g4, Option.bind_eq_bind, Option.bind_some, h2]

theorem base64Lax_iff {b : Bytes} {s : List Char} : Base64Lax b s ↔ b64Decode s = some b := by
  unfold Base64Lax
  simp only [base64_iff]
  constructor
  · rintro ⟨k, h⟩; exact decode_lax _ _ _ h
  · intro h
    obtain ⟨k, h1, h2⟩ := decode_pad _ s b (Nat.le_refl _) h
    exact ⟨k, (b64Encode_of_decode h1 h2).symm⟩

end Ssh
