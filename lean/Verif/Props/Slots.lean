import Verif.Props.Examples
import Verif.Props.Calendar

/-! # Slot names (C117) and programs for tokens (C118) -/

namespace Ssh
open Spec Examples

/-! ## C117 -/

/-- The hexadecimal digits with their values. -/
def hexDigits : List (Char × Nat) :=
  [('0', 0), ('1', 1), ('2', 2), ('3', 3), ('4', 4), ('5', 5), ('6', 6), ('7', 7), ('8', 8), ('9', 9), ('a', 10), ('b', 11),
    ('c', 12), ('d', 13), ('e', 14), ('f', 15), ('A', 10), ('B', 11), ('C', 12), ('D', 13), ('E', 14), ('F', 15)]

/-- The names of retired slots that are understood: `R` and a number up to 20, possibly with a leading zero or plus sign. -/
inductive Retired : List Char → Nat → Prop
  | one (d : Char) (n : Nat) : (d, n) ∈ hexDigits → n < 10 → Retired ['R', d] n
  | plus (d : Char) (n : Nat) : (d, n) ∈ hexDigits → n < 10 → Retired ['R', '+', d] n
  | two (d e : Char) (n m : Nat) : (d, n) ∈ hexDigits → (e, m) ∈ hexDigits → n < 10 → m < 10 → 10 * n + m ≤ 20 →
      Retired ['R', d, e] (10 * n + m)

/-- The other names that are understood: `0x` and two hexadecimal digits. -/
def Hexadecimal (s : List Char) (v : Nat) : Prop :=
  ∃ a b x y, (a, x) ∈ hexDigits ∧ (b, y) ∈ hexDigits ∧ s = ['0', 'x', a, b] ∧ v = 16 * x + y

/-- The names taken for hexadecimal ones: `0x` and two more bytes. -/
def HexShape (s : List Char) : Prop := ∃ t, s = '0' :: 'x' :: t ∧ (strBytes (String.ofList t)).length = 2

theorem digit_iff (c : Char) (n : Nat) : (c.isDigit = true ∧ n = c.toNat - 48) ↔ (c, n) ∈ hexDigits ∧ n < 10 := by
  constructor
  · rintro ⟨h, rfl⟩
    have h' : 48 ≤ c.toNat ∧ c.toNat ≤ 57 := by
      simp only [Char.isDigit, Bool.and_eq_true, decide_eq_true_eq] at h
      exact ⟨h.1, h.2⟩
    have hc : c = Char.ofNat c.toNat := (Char.ofNat_toNat c).symm
    generalize c.toNat = m at *
    subst hc
    have : ∀ m, m ≤ 57 → 48 ≤ m → (Char.ofNat m, m - 48) ∈ hexDigits ∧ m - 48 < 10 := by decide +kernel
    exact this m h'.2 h'.1
  · rintro ⟨h, h'⟩
    have : ∀ p ∈ hexDigits, p.2 < 10 → p.1.isDigit = true ∧ p.2 = p.1.toNat - 48 := by decide +kernel
    exact this _ h h'

theorem hexVal_iff (c : Char) (n : Nat) : hexVal c = some n ↔ (c, n) ∈ hexDigits := by
  constructor
  · intro h
    have hb : c.toNat ≤ 102 := by
      unfold hexVal at h
      split at h
      · rename_i h1; exact Nat.le_trans h1.2 (by decide)
      · split at h
        · rename_i h1; exact h1.2
        · split at h
          · rename_i h1; exact Nat.le_trans h1.2 (by decide)
          · cases h
    have hc : c = Char.ofNat c.toNat := (Char.ofNat_toNat c).symm
    generalize c.toNat = m at *
    subst hc
    have : ∀ m ≤ 102, ∀ n, hexVal (Char.ofNat m) = some n → (Char.ofNat m, n) ∈ hexDigits := by
      intro m hm
      have : ∀ m ≤ 102, (hexVal (Char.ofNat m)).all (fun n => decide ((Char.ofNat m, n) ∈ hexDigits)) = true := by decide +kernel
      intro n hn
      have := this m hm
      rw [hn] at this
      simpa using this
    exact this m hb n h
  · intro h
    have : ∀ p ∈ hexDigits, hexVal p.1 = some p.2 := by decide +kernel
    exact this _ h

theorem hexDigits_unique {c : Char} {n m : Nat} (h : (c, n) ∈ hexDigits) (h' : (c, m) ∈ hexDigits) : n = m := by
  rw [← hexVal_iff] at h h'
  rw [h] at h'
  exact Option.some.inj h'

theorem hexDigits_lt {c : Char} {n : Nat} (h : (c, n) ∈ hexDigits) : n < 16 := by
  have : ∀ p ∈ hexDigits, p.2 < 16 := by decide +kernel
  exact this _ h

theorem hexDigits_size {c : Char} {n : Nat} (h : (c, n) ∈ hexDigits) : c.utf8Size = 1 ∧ c ≠ '+' := by
  have : ∀ p ∈ hexDigits, p.1.utf8Size = 1 ∧ p.1 ≠ '+' := by decide +kernel
  exact this _ h

theorem ofList_size (c : Char) (t : List Char) :
    (String.ofList (c :: t)).utf8ByteSize = c.utf8Size + (String.ofList t).utf8ByteSize := by
  simp

theorem short_cases {t : List Char} (h : (String.ofList t).utf8ByteSize = 1 ∨ (String.ofList t).utf8ByteSize = 2) :
    (∃ c, t = [c]) ∨ ∃ c d, t = [c, d] := by
  match t, h with
  | [], h => simp at h
  | [c], _ => exact .inl ⟨c, rfl⟩
  | [c, d], _ => exact .inr ⟨c, d, rfl⟩
  | c :: d :: e :: r, h =>
    exfalso
    rw [ofList_size, ofList_size, ofList_size] at h
    have := c.utf8Size_pos
    have := d.utf8Size_pos
    have := e.utf8Size_pos
    omega

theorem retired_not_hex {s : List Char} {n : Nat} (h : Retired s n) : ¬ HexShape s := by
  rintro ⟨t, rfl, _⟩
  cases h

theorem retired_unique {s : List Char} {n m : Nat} (h : Retired s n) (h' : Retired s m) : n = m := by
  cases h with
  | one d n h1 _ => cases h' with | one _ _ h2 _ => exact hexDigits_unique h1 h2
  | plus d n h1 _ =>
    cases h' with
    | plus _ _ h2 _ => exact hexDigits_unique h1 h2
    | two _ _ _ _ h2 => exact absurd rfl (hexDigits_size h2).2
  | two d e a b h1 h2 =>
    cases h' with
    | plus _ _ h3 _ => exact absurd rfl (hexDigits_size h1).2
    | two _ _ _ _ h3 h4 => rw [hexDigits_unique h1 h3, hexDigits_unique h2 h4]

theorem retired_size {s : List Char} {n : Nat} (h : Retired s n) :
    ∃ t, s = 'R' :: t ∧ ((String.ofList t).utf8ByteSize = 1 ∨ (String.ofList t).utf8ByteSize = 2) := by
  cases h with
  | one d n h1 _ => exact ⟨_, rfl, .inl (by rw [ofList_size, (hexDigits_size h1).1]; rfl)⟩
  | plus d n h1 _ => exact ⟨_, rfl, .inr (by rw [ofList_size, ofList_size, (hexDigits_size h1).1]; rfl)⟩
  | two d e a b h1 h2 =>
    exact ⟨_, rfl, .inr (by rw [ofList_size, ofList_size, (hexDigits_size h1).1, (hexDigits_size h2).1]; rfl)⟩

theorem hexadecimal_unique {s : List Char} {n m : Nat} (h : Hexadecimal s n) (h' : Hexadecimal s m) : n = m := by
  obtain ⟨a, b, x, y, h1, h2, rfl, rfl⟩ := h
  obtain ⟨a', b', x', y', h1', h2', e, rfl⟩ := h'
  cases e
  rw [hexDigits_unique h1 h1', hexDigits_unique h2 h2']

theorem hexadecimal_shape {s : List Char} {n : Nat} (h : Hexadecimal s n) : HexShape s := by
  obtain ⟨a, b, x, y, h1, h2, rfl, rfl⟩ := h
  refine ⟨_, rfl, ?_⟩
  rw [strBytes_length, ofList_size, ofList_size, (hexDigits_size h1).1, (hexDigits_size h2).1]
  rfl

theorem parseU8_retired {t : List Char} (h : (String.ofList t).utf8ByteSize = 1 ∨ (String.ofList t).utf8ByteSize = 2) (v : Nat) :
    (parseU8 t = some v ∧ v ≤ 20) ↔ Retired ('R' :: t) v := by
  rcases short_cases h with ⟨c, rfl⟩ | ⟨c, d, rfl⟩
  · have e : parseU8 [c] = if c.isDigit = true then (if c.toNat - 48 ≤ 255 then some (c.toNat - 48) else none) else none := by
      unfold parseU8
      simp
      split <;> simp_all
    rw [e]
    constructor
    · rintro ⟨h1, h2⟩
      split at h1
      · rename_i hd
        split at h1
        · cases h1
          exact .one _ _ ((digit_iff _ _).mp ⟨hd, rfl⟩).1 ((digit_iff _ _).mp ⟨hd, rfl⟩).2
        · cases h1
      · cases h1
    · intro h
      cases h with
      | one _ _ h1 h2 =>
        obtain ⟨hd, rfl⟩ := (digit_iff _ _).mpr ⟨h1, h2⟩
        rw [if_pos hd, if_pos (by omega)]
        exact ⟨rfl, by omega⟩
  · by_cases hc : c = '+'
    · subst hc
      have e : parseU8 ['+', d] = if d.isDigit = true then (if d.toNat - 48 ≤ 255 then some (d.toNat - 48) else none) else none := by
        unfold parseU8
        simp
        split <;> simp_all
      rw [e]
      constructor
      · rintro ⟨h1, h2⟩
        split at h1
        · rename_i hd
          split at h1
          · cases h1
            exact .plus _ _ ((digit_iff _ _).mp ⟨hd, rfl⟩).1 ((digit_iff _ _).mp ⟨hd, rfl⟩).2
          · cases h1
        · cases h1
      · intro h
        cases h with
        | plus _ _ h1 h2 =>
          obtain ⟨hd, rfl⟩ := (digit_iff _ _).mpr ⟨h1, h2⟩
          rw [if_pos hd, if_pos (by omega)]
          exact ⟨rfl, by omega⟩
        | two _ _ _ _ h1 => exact absurd rfl (hexDigits_size h1).2
    · have e : parseU8 [c, d] = if c.isDigit = true ∧ d.isDigit = true then
          (if (c.toNat - 48) * 10 + (d.toNat - 48) ≤ 255 then some ((c.toNat - 48) * 10 + (d.toNat - 48)) else none) else none := by
        unfold parseU8
        split
        · rename_i heq; cases heq; exact absurd rfl hc
        · simp
          cases c.isDigit <;> cases d.isDigit <;> simp
      rw [e]
      constructor
      · rintro ⟨h1, h2⟩
        split at h1
        · rename_i hd
          split at h1
          · cases h1
            obtain ⟨a1, a2⟩ := (digit_iff _ _).mp ⟨hd.1, rfl⟩
            obtain ⟨b1, b2⟩ := (digit_iff _ _).mp ⟨hd.2, rfl⟩
            rw [Nat.mul_comm] at h2 ⊢
            exact .two _ _ _ _ a1 b1 a2 b2 h2
          · cases h1
        · cases h1
      · intro h
        cases h with
        | plus => exact absurd rfl hc
        | two _ _ _ _ h1 h2 h3 h4 h5 =>
          obtain ⟨hd, rfl⟩ := (digit_iff _ _).mpr ⟨h1, h3⟩
          obtain ⟨hd', rfl⟩ := (digit_iff _ _).mpr ⟨h2, h4⟩
          rw [if_pos ⟨hd, hd'⟩, Nat.mul_comm, if_pos (by omega)]
          exact ⟨rfl, h5⟩

/-- Everything the parser can do. -/
theorem slotParser_cases (isSlot : Nat → Bool) (s : List Char) :
    (∃ n, Retired s n ∧ slotParser isSlot s = if isSlot (0x81 + n) then .ok (some (0x81 + n)) else .panic) ∨
    (∃ v, Hexadecimal s v ∧ slotParser isSlot s = if isSlot v then .ok (some v) else .panic) ∨
    (HexShape s ∧ (∀ v, ¬ Hexadecimal s v) ∧ slotParser isSlot s = .panic) ∨
    ((∀ n, ¬ Retired s n) ∧ ¬ HexShape s ∧ slotParser isSlot s = .ok none) := by
  unfold slotParser
  dsimp only
  by_cases h1 : ((String.ofList s).utf8ByteSize = 2 ∨ (String.ofList s).utf8ByteSize = 3) ∧ ['R'].isPrefixOf s = true
  · rw [if_pos h1]
    obtain ⟨hl, hp⟩ := h1
    obtain ⟨t, rfl⟩ : ∃ t, s = 'R' :: t := by
      cases s with
      | nil => simp at hp
      | cons c t => simp at hp; exact ⟨t, by rw [hp]⟩
    rw [ofList_size, show 'R'.utf8Size = 1 from rfl] at hl
    have ht : (String.ofList t).utf8ByteSize = 1 ∨ (String.ofList t).utf8ByteSize = 2 := by omega
    have hx : ¬ HexShape ('R' :: t) := by rintro ⟨_, e, _⟩; cases e
    simp only [List.drop_succ_cons, List.drop_zero]
    cases hv : parseU8 t with
    | none =>
      refine .inr (.inr (.inr ⟨fun n hn => ?_, hx, rfl⟩))
      rw [← parseU8_retired ht, hv] at hn
      cases hn.1
    | some v =>
      dsimp only
      by_cases h20 : v ≤ 20
      · rw [if_pos h20]
        exact .inl ⟨v, (parseU8_retired ht v).mp ⟨hv, h20⟩, rfl⟩
      · rw [if_neg h20]
        refine .inr (.inr (.inr ⟨fun n hn => ?_, hx, rfl⟩))
        rw [← parseU8_retired ht, hv] at hn
        exact h20 (Option.some.inj hn.1 ▸ hn.2)
  · rw [if_neg h1]
    have hr : ∀ n, ¬ Retired s n := by
      intro n hn
      obtain ⟨t, rfl, ht⟩ := retired_size hn
      refine h1 ⟨?_, by simp⟩
      rw [ofList_size, show 'R'.utf8Size = 1 from rfl]
      omega
    by_cases h2 : (String.ofList s).utf8ByteSize = 4 ∧ ['0', 'x'].isPrefixOf s = true
    · rw [if_pos h2]
      obtain ⟨hl, hp⟩ := h2
      obtain ⟨t, rfl⟩ : ∃ t, s = '0' :: 'x' :: t := by
        match s, hp with
        | [], hp => simp at hp
        | [c], hp => simp at hp
        | c :: d :: t, hp => simp at hp; exact ⟨t, by rw [hp.1, hp.2]⟩
      have hs : HexShape ('0' :: 'x' :: t) := by
        refine ⟨t, rfl, ?_⟩
        rw [ofList_size, ofList_size, show '0'.utf8Size = 1 from rfl, show 'x'.utf8Size = 1 from rfl] at hl
        rw [strBytes_length]
        omega
      simp only [List.drop_succ_cons, List.drop_zero]
      by_cases hab : ∃ a b, t = [a, b]
      · obtain ⟨a, b, rfl⟩ := hab
        dsimp only
        cases ha : hexVal a with
        | none =>
          refine .inr (.inr (.inl ⟨hs, ?_, rfl⟩))
          rintro v ⟨a', b', x, y, k1, k2, e, _⟩
          cases e
          rw [← hexVal_iff, ha] at k1
          cases k1
        | some x =>
          cases hb : hexVal b with
          | none =>
            refine .inr (.inr (.inl ⟨hs, ?_, rfl⟩))
            rintro v ⟨a', b', x, y, k1, k2, e, _⟩
            cases e
            rw [← hexVal_iff, hb] at k2
            cases k2
          | some y =>
            exact .inr (.inl ⟨_, ⟨a, b, x, y, (hexVal_iff _ _).mp ha, (hexVal_iff _ _).mp hb, rfl, rfl⟩, rfl⟩)
      · refine .inr (.inr (.inl ⟨hs, ?_, ?_⟩))
        · rintro v ⟨a, b, x, y, k1, k2, e, _⟩
          cases e
          exact hab ⟨a, b, rfl⟩
        · split
          · rename_i a b; exact absurd ⟨a, b, rfl⟩ hab
          · rfl
    · rw [if_neg h2]
      refine .inr (.inr (.inr ⟨hr, ?_, rfl⟩))
      rintro ⟨t, rfl, ht⟩
      refine h2 ⟨?_, by simp⟩
      rw [ofList_size, ofList_size, show '0'.utf8Size = 1 from rfl, show 'x'.utf8Size = 1 from rfl, ← strBytes_length, ht]

/-- C117: the slot names that are understood, and the slot they name. -/
theorem C117_accepts (isSlot : Nat → Bool) (s : List Char) (v : Nat) :
    slotParser isSlot s = .ok (some v) ↔ isSlot v = true ∧ ((∃ n, Retired s n ∧ v = 0x81 + n) ∨ Hexadecimal s v) := by
  rcases slotParser_cases isSlot s with ⟨n, h, e⟩ | ⟨w, h, e⟩ | ⟨h, h', e⟩ | ⟨h, h', e⟩ <;> rw [e]
  · constructor
    · intro h1
      split at h1
      · rename_i hs; cases h1; exact ⟨hs, .inl ⟨n, h, rfl⟩⟩
      · cases h1
    · rintro ⟨hs, ⟨m, hm, rfl⟩ | hx⟩
      · rw [retired_unique h hm, if_pos hs]
      · exact absurd (hexadecimal_shape hx) (retired_not_hex h)
  · constructor
    · intro h1
      split at h1
      · rename_i hs; cases h1; exact ⟨hs, .inr h⟩
      · cases h1
    · rintro ⟨hs, ⟨m, hm, rfl⟩ | hx⟩
      · exact absurd (hexadecimal_shape h) (retired_not_hex hm)
      · rw [hexadecimal_unique h hx, if_pos hs]
  · refine ⟨nofun, ?_⟩
    rintro ⟨hs, ⟨m, hm, rfl⟩ | hx⟩
    · exact absurd h (retired_not_hex hm)
    · exact absurd hx (h' _)
  · refine ⟨nofun, ?_⟩
    rintro ⟨hs, ⟨m, hm, rfl⟩ | hx⟩
    · exact absurd hm (h _)
    · exact absurd (hexadecimal_shape hx) h'

/-- C117: names that are understood but name no slot, and names of the hexadecimal shape that are none, make the program panic. -/
theorem C117_panics (isSlot : Nat → Bool) (s : List Char) :
    slotParser isSlot s = .panic ↔ (∃ n, Retired s n ∧ isSlot (0x81 + n) = false) ∨
      (HexShape s ∧ ∀ v, Hexadecimal s v → isSlot v = false) := by
  rcases slotParser_cases isSlot s with ⟨n, h, e⟩ | ⟨w, h, e⟩ | ⟨h, h', e⟩ | ⟨h, h', e⟩ <;> rw [e]
  · constructor
    · intro h1
      split at h1
      · cases h1
      · rename_i hs; exact .inl ⟨n, h, by simpa using hs⟩
    · rintro (⟨m, hm, hs⟩ | ⟨hx, _⟩)
      · rw [retired_unique h hm, if_neg (by simp [hs])]
      · exact absurd hx (retired_not_hex h)
  · constructor
    · intro h1
      split at h1
      · cases h1
      · rename_i hs
        exact .inr ⟨hexadecimal_shape h, fun v hv => by rw [← hexadecimal_unique h hv]; simpa using hs⟩
    · rintro (⟨m, hm, hs⟩ | ⟨hx, hv⟩)
      · exact absurd (hexadecimal_shape h) (retired_not_hex hm)
      · rw [if_neg (by simp [hv _ h])]
  · exact ⟨fun _ => .inr ⟨h, fun v hv => absurd hv (h' v)⟩, fun _ => rfl⟩
  · refine ⟨nofun, ?_⟩
    rintro (⟨m, hm, hs⟩ | ⟨hx, hv⟩)
    · exact absurd hm (h _)
    · exact absurd hx h'

/-- C117: every other name is refused without a panic; there is no other error. -/
theorem C117_refuses (isSlot : Nat → Bool) (s : List Char) :
    (slotParser isSlot s = .ok none ↔ (∀ n, ¬ Retired s n) ∧ ¬ HexShape s) ∧ ∀ e, slotParser isSlot s ≠ .err e := by
  rcases slotParser_cases isSlot s with ⟨n, h, e⟩ | ⟨w, h, e⟩ | ⟨h, h', e⟩ | ⟨h, h', e⟩ <;> rw [e]
  · refine ⟨⟨fun h1 => ?_, fun ⟨h1, _⟩ => absurd h (h1 n)⟩, fun e h1 => ?_⟩ <;> (split at h1 <;> cases h1)
  · refine ⟨⟨fun h1 => ?_, fun ⟨_, h1⟩ => absurd (hexadecimal_shape h) h1⟩, fun e h1 => ?_⟩ <;> (split at h1 <;> cases h1)
  · exact ⟨⟨nofun, fun ⟨_, h1⟩ => absurd h h1⟩, nofun⟩
  · exact ⟨⟨fun _ => ⟨h, h'⟩, fun _ => rfl⟩, nofun⟩

/-- C117: the check of the command line accepts exactly the names that are understood, and panics where the parser does. -/
theorem C117_validator (isSlot : Nat → Bool) (s : List Char) :
    (slotValidator isSlot s = .ok true ↔ ∃ v, slotParser isSlot s = .ok (some v)) ∧
    (slotValidator isSlot s = .panic ↔ slotParser isSlot s = .panic) := by
  unfold slotValidator
  cases h : slotParser isSlot s with
  | ok o => cases o <;> simp [Res.ok_bind, Res.pure_eq]
  | err e => exact absurd h ((C117_refuses isSlot s).2 e)
  | panic => exact ⟨⟨nofun, nofun⟩, fun _ => rfl, fun _ => rfl⟩

/-- The slots of the PIV application. -/
def pivSlots : List Nat := normalSlots ++ retiredSlots

example : slotParser (pivSlots.contains ·) "R1".toList = .ok (some 0x82) ∧ slotParser (pivSlots.contains ·) "R20".toList = .ok (some 0x95) ∧
    slotParser (pivSlots.contains ·) "0x9A".toList = .ok (some 0x9a) ∧ slotParser (pivSlots.contains ·) "R0".toList = .panic ∧
    slotParser (pivSlots.contains ·) "0x00".toList = .panic ∧ slotParser (pivSlots.contains ·) "0xzz".toList = .panic ∧
    slotParser (pivSlots.contains ·) "0xé".toList = .panic ∧ slotParser (pivSlots.contains ·) "R21".toList = .ok none ∧
    slotParser (pivSlots.contains ·) "9a".toList = .ok none := by decide +kernel

example : Retired "R+7".toList 7 ∧ Hexadecimal "0xF9".toList 0xf9 ∧ HexShape "0xé".toList :=
  ⟨.plus '7' 7 (by decide) (by decide), ⟨'F', '9', 15, 9, by decide, by decide, rfl, rfl⟩, ⟨_, rfl, by decide +kernel⟩⟩

end Ssh
