import Verif.Spec.Calendar
import Verif.Props.AllowedExact

/-! # C110, C111: bounds of allowed signers on the calendar; C56 with a calendar -/

namespace Ssh

open Spec

/-! ## The calendar -/

theorem yearStart_bounds (y : Nat) : 365 * y ≤ yearStart y ∧ yearStart y ≤ 366 * y := by
  induction y with
  | zero => exact ⟨Nat.le_refl _, Nat.le_refl _⟩
  | succ y ih => simp only [yearStart]; split <;> omega

theorem yearStart_1970 : yearStart 1970 = 719528 := by decide +kernel

theorem yearStart_add (y k : Nat) : yearStart y + 365 * k ≤ yearStart (y + k) := by
  induction k with
  | zero => exact Nat.le_refl _
  | succ k ih =>
    have : yearStart (y + (k + 1)) = yearStart (y + k) + if leapYear (y + k) then 366 else 365 := rfl
    rw [this]
    split <;> omega

theorem yearStart_mono {y z : Nat} (h : y ≤ z) : yearStart y ≤ yearStart z := by
  have := yearStart_add y (z - y)
  rw [Nat.add_sub_cancel' h] at this
  omega

theorem months_fit : ∀ leap : Bool, ∀ m < 13, monthStart leap m + monthLength leap m ≤ (if leap then 366 else 365) ∧
    ∀ m' < 13, m < m' → monthStart leap m + monthLength leap m ≤ monthStart leap m' := by decide

theorem isDate_iff {y m d : Nat} : isDate y m d = true ↔ 1 ≤ m ∧ m ≤ 12 ∧ 1 ≤ d ∧ d ≤ monthLength (leapYear y) m := by
  simp [isDate, and_assoc]

/-- Later dates have larger day numbers. -/
theorem civilDays_lt {y m d y' m' d' : Nat} (h : isDate y m d = true) (h' : isDate y' m' d' = true)
    (hlt : y < y' ∨ (y = y' ∧ (m < m' ∨ (m = m' ∧ d < d')))) : civilDays y m d < civilDays y' m' d' := by
  obtain ⟨h1, h2, h3, h4⟩ := isDate_iff.mp h
  obtain ⟨g1, g2, g3, g4⟩ := isDate_iff.mp h'
  have key : yearStart y + monthStart (leapYear y) m + (d - 1) < yearStart y' + monthStart (leapYear y') m' + (d' - 1) := by
    rcases hlt with hy | ⟨rfl, hm | ⟨rfl, hd⟩⟩
    · have hs := yearStart_mono (y := y + 1) (z := y') hy
      have hf := (months_fit (leapYear y) m (by omega)).1
      simp only [yearStart] at hs
      omega
    · have hf := (months_fit (leapYear y) m (by omega)).2 m' (by omega) hm
      omega
    · omega
  unfold civilDays
  omega

theorem unixDate_some {n : Nat} {x : Int} : unixDate n = some x ↔ isDate (n / 10000) (n / 100 % 100) (n % 100) = true ∧
    x = 86400 * civilDays (n / 10000) (n / 100 % 100) (n % 100) := by
  unfold unixDate
  split
  · rename_i h
    rw [Option.some.injEq]
    exact ⟨fun e => ⟨h, e.symm⟩, fun e => e.2.symm⟩
  · rename_i h
    simp [h]

theorem unixMinute_some {n : Nat} {x : Int} : unixMinute n = some x ↔ n / 100 % 100 < 24 ∧ n % 100 < 60 ∧
    ∃ u, unixDate (n / 10000) = some u ∧ x = u + (3600 * (n / 100 % 100) + 60 * (n % 100) : Nat) := by
  unfold unixMinute
  split
  · rename_i h
    rw [Option.map_eq_some_iff]
    exact ⟨fun ⟨u, h1, h2⟩ => ⟨h.1, h.2, u, h1, h2.symm⟩, fun ⟨_, _, u, h1, h2⟩ => ⟨u, h1, h2.symm⟩⟩
  · rename_i h
    constructor
    · intro e; cases e
    · rintro ⟨h1, h2, _⟩; exact absurd ⟨h1, h2⟩ h

theorem unixSecond_some {n : Nat} {x : Int} : unixSecond n = some x ↔ n % 100 ≤ 60 ∧
    ∃ u, unixMinute (n / 100) = some u ∧ x = u + (min (n % 100) 59 : Nat) := by
  unfold unixSecond
  split
  · rename_i h
    rw [Option.map_eq_some_iff]
    exact ⟨fun ⟨u, h1, h2⟩ => ⟨h, u, h1, h2.symm⟩, fun ⟨_, u, h1, h2⟩ => ⟨u, h1, h2.symm⟩⟩
  · rename_i h
    constructor
    · intro e; cases e
    · rintro ⟨h1, _⟩; exact absurd h1 h

theorem unixDate_mono {a b : Nat} {x y : Int} (ha : unixDate a = some x) (hb : unixDate b = some y) (h : a < b) :
    x + 86400 ≤ y := by
  obtain ⟨h1, e1⟩ := unixDate_some.mp ha
  obtain ⟨h2, e2⟩ := unixDate_some.mp hb
  have a1 : a / 100 / 100 = a / 10000 := Nat.div_div_eq_div_mul _ _ _
  have a2 : b / 100 / 100 = b / 10000 := Nat.div_div_eq_div_mul _ _ _
  have := civilDays_lt h1 h2 (by omega)
  omega

theorem unixMinute_mono {a b : Nat} {x y : Int} (ha : unixMinute a = some x) (hb : unixMinute b = some y) (h : a < b) :
    x + 60 ≤ y := by
  obtain ⟨h1, h2, u, hu, rfl⟩ := unixMinute_some.mp ha
  obtain ⟨g1, g2, v, hv, rfl⟩ := unixMinute_some.mp hb
  have a1 : a / 100 / 100 = a / 10000 := Nat.div_div_eq_div_mul _ _ _
  have a2 : b / 100 / 100 = b / 10000 := Nat.div_div_eq_div_mul _ _ _
  rcases Nat.lt_or_ge (a / 10000) (b / 10000) with hd | hd
  · have := unixDate_mono hu hv hd
    omega
  · have he : a / 10000 = b / 10000 := by omega
    rw [he, hv] at hu
    have := Option.some.inj hu
    omega

theorem unixSecond_mono {a b : Nat} {x y : Int} (ha : unixSecond a = some x) (hb : unixSecond b = some y) (h : a ≤ b) :
    x ≤ y ∧ (a < b → x = y → a % 100 = 59 ∧ b % 100 = 60) := by
  obtain ⟨h1, u, hu, rfl⟩ := unixSecond_some.mp ha
  obtain ⟨g1, v, hv, rfl⟩ := unixSecond_some.mp hb
  rcases Nat.lt_or_ge (a / 100) (b / 100) with hd | hd
  · have := unixMinute_mono hu hv hd
    omega
  · have he : a / 100 = b / 100 := by omega
    rw [he, hv] at hu
    have := Option.some.inj hu
    omega

/-! ## C110: bounds in UTC -/

theorem digit_props {c : Char} (h : c.isDigit = true) : c ≠ 'Z' ∧ c ≠ '"' ∧ c.utf8Size = 1 := by
  have h' : 48 ≤ c.toNat ∧ c.toNat ≤ 57 := by
    simp only [Char.isDigit, Bool.and_eq_true, decide_eq_true_eq] at h
    exact ⟨h.1, h.2⟩
  refine ⟨?_, ?_, ?_⟩
  · rintro rfl; revert h'; decide
  · rintro rfl; revert h'; decide
  · unfold Char.utf8Size
    rw [if_pos]
    show c.val.toNat ≤ _
    have : c.val.toNat = c.toNat := rfl
    rw [this]
    exact Nat.le_trans h'.2 (by decide)

theorem digits_utf8Len {d : List Char} (h : ∀ c ∈ d, c.isDigit = true) : utf8Len d = d.length := by
  unfold utf8Len
  induction d with
  | nil => rfl
  | cons c d ih =>
    have h1 := (digit_props (h c (by simp))).2.2
    rw [String.ofList_cons, String.utf8ByteSize_append, ih fun x hx => h x (by simp [hx])]
    simp [h1]
    omega

theorem digits_dateTime {T : Chrono} (hT : Calendar T) {d : List Char} (h : ∀ c ∈ d, c.isDigit = true) {t : Int} :
    DateTime T d t ↔ unixOf d = some t := by
  unfold DateTime unixOf
  rw [digits_utf8Len h]
  split
  · rename_i hl
    rw [hT.date d hl h]
    simp [hl]
  · split
    · rename_i _ hl
      rw [hT.minute d hl h]
      simp [hl]
    · split
      · rename_i _ _ hl
        rw [hT.second d hl h]
        simp [hl]
      · simp_all

/-- A calendar in a time zone `east` seconds east of UTC, reading nothing but digits. -/
def plainChrono (east : Int) : Chrono where
  parseDate s := if s.all Char.isDigit then unixDate (number s) else none
  parseMinute s := if s.all Char.isDigit then unixMinute (number s) else none
  parseSecond s := if s.all Char.isDigit then unixSecond (number s) else none
  localUnix dt := some (dt - east)

theorem plainChrono_calendar (east : Int) : Calendar (plainChrono east) := by
  constructor
  · intro s _ h; exact if_pos (List.all_eq_true.mpr h)
  · intro s _ h; exact if_pos (List.all_eq_true.mpr h)
  · intro s _ h; exact if_pos (List.all_eq_true.mpr h)
  · intro s _
    have : ¬ (('-' :: s).all Char.isDigit = true) := by rw [List.all_cons]; simp [show Char.isDigit '-' = false by decide]
    exact ⟨if_neg (t := unixDate (number ('-' :: s))) this, if_neg (t := unixMinute (number ('-' :: s))) this, if_neg (t := unixSecond (number ('-' :: s))) this⟩

theorem plainChrono_offsets : Offsets (plainChrono 3600) ∧ ∀ dt, (plainChrono 3600).localUnix dt ≠ some (dt + 1617) := by
  refine ⟨?_, ?_⟩
  · intro dt t h
    have := Option.some.inj h
    omega
  · intro dt h
    have := Option.some.inj h
    omega

/-- C110: a bound of decimal digits followed by `Z` (or several) is accepted exactly if it is a date of the calendar, with 8, 12
or 14 digits, and denotes the Unix time of that date in UTC. -/
theorem C110_utc (T : Chrono) (hT : Calendar T) (d : List Char) (h : ∀ c ∈ d, c.isDigit = true) (n : Nat) (t : Int) :
    parseTimestamp T (d ++ List.replicate (n + 1) 'Z') = .ok t ↔ unixOf d = some t := by
  rw [C60_timestamp, ← digits_dateTime hT h]
  have hlast : d.getLast? ≠ some 'Z' := fun e => (digit_props (h _ (List.mem_of_getLast? e))).1 rfl
  have hq : '"' ∉ d ++ List.replicate (n + 1) 'Z' := by
    intro hm
    rcases List.mem_append.mp hm with hm | hm
    · exact (digit_props (h _ hm)).2.1 rfl
    · exact absurd (List.mem_replicate.mp hm).2 (by decide)
  constructor
  · rintro ⟨v, hv, ht⟩
    rw [stripQuotes_iff, stripQuotes_id hq] at hv
    subst hv
    obtain ⟨d', n', dt, e, hl', hd, hif⟩ := ht
    have hcut : ∀ (x y : List Char) (a b : Nat), x.getLast? ≠ some 'Z' → y.getLast? ≠ some 'Z' →
        x ++ List.replicate a 'Z' = y ++ List.replicate b 'Z' → x = y ∧ a = b := by
      intro x y a
      induction a with
      | zero =>
        intro b hx hy e
        cases b with
        | zero => simpa using e
        | succ b =>
          rw [List.replicate_zero, List.append_nil] at e
          rw [e, List.replicate_succ', ← List.append_assoc] at hx
          simp at hx
      | succ a ih =>
        intro b hx hy e
        cases b with
        | zero =>
          rw [List.replicate_zero, List.append_nil] at e
          rw [← e, List.replicate_succ', ← List.append_assoc] at hy
          simp at hy
        | succ b =>
          rw [List.replicate_succ', List.replicate_succ', ← List.append_assoc, ← List.append_assoc] at e
          obtain ⟨h1, h2⟩ := ih b hx hy (List.append_cancel_right e)
          exact ⟨h1, by rw [h2]⟩
    obtain ⟨rfl, rfl⟩ := hcut _ _ _ _ hlast hl' e
    rw [if_neg (by omega)] at hif
    rw [hif]
    exact hd
  · intro hd
    exact ⟨_, stripQuotes_self hq, d, n + 1, t, rfl, hlast, hd, by rw [if_neg (by omega)]⟩

example : parseTimestamp (plainChrono 3600) ("20240229".toList ++ List.replicate 1 'Z') = .ok 1709164800 :=
  (C110_utc _ (plainChrono_calendar _) _ (by decide) 0 _).mpr (by decide +kernel)

/-- C110: bounds of the same form are ordered as their digits: a text that is not smaller denotes a time that is not earlier.
(Not strictly: second 60 is second 59.) -/
theorem C110_order (T : Chrono) (hT : Calendar T) (d d' : List Char) (h : ∀ c ∈ d, c.isDigit = true)
    (h' : ∀ c ∈ d', c.isDigit = true) (hl : d.length = d'.length) (hn : number d ≤ number d') (t t' : Int)
    (ht : parseTimestamp T (d ++ ['Z']) = .ok t) (ht' : parseTimestamp T (d' ++ ['Z']) = .ok t') :
    t ≤ t' ∧ (d.length ≠ 14 → number d < number d' → t < t') := by
  have e := (C110_utc T hT d h 0 t).mp ht
  have e' := (C110_utc T hT d' h' 0 t').mp ht'
  unfold unixOf at e e'
  rw [← hl] at e'
  split at e
  · rename_i h8
    rw [if_pos h8] at e'
    rcases Nat.lt_or_eq_of_le hn with h1 | h1
    · have := unixDate_mono e e' h1
      omega
    · rw [h1, e'] at e
      have := Option.some.inj e
      omega
  · rename_i h8
    rw [if_neg h8] at e'
    split at e
    · rename_i h12
      rw [if_pos h12] at e'
      rcases Nat.lt_or_eq_of_le hn with h1 | h1
      · have := unixMinute_mono e e' h1
        omega
      · rw [h1, e'] at e
        have := Option.some.inj e
        omega
    · rename_i h12
      rw [if_neg h12] at e'
      split at e
      · rename_i h14
        rw [if_pos h14] at e'
        exact ⟨(unixSecond_mono e e' hn).1, fun h => absurd h14 h⟩
      · cases e

example : parseTimestamp (plainChrono 3600) ("20240229".toList ++ ['Z']) = .ok 1709164800 ∧
    parseTimestamp (plainChrono 3600) ("20240301".toList ++ ['Z']) = .ok 1709251200 ∧ (1709164800 : Int) < 1709251200 := by
  have h1 : parseTimestamp (plainChrono 3600) ("20240229".toList ++ ['Z']) = .ok 1709164800 := by decide +kernel
  have h2 : parseTimestamp (plainChrono 3600) ("20240301".toList ++ ['Z']) = .ok 1709251200 := by decide +kernel
  exact ⟨h1, h2, (C110_order _ (plainChrono_calendar _) _ _ (by decide) (by decide) (by decide) (by decide) _ _ h1 h2).2
    (by decide) (by decide)⟩

theorem midnight_forms (n : Nat) : unixMinute (n * 10000) = unixDate n ∧ unixSecond (n * 100) = unixMinute n := by
  constructor
  · unfold unixMinute
    rw [if_pos (by omega)]
    have h1 : n * 10000 / 10000 = n := by omega
    have h2 : n * 10000 / 100 % 100 = 0 := by omega
    have h3 : n * 10000 % 100 = 0 := by omega
    rw [h1, h2, h3]
    cases unixDate n <;> simp
  · unfold unixSecond
    rw [if_pos (by omega)]
    have h1 : n * 100 / 100 = n := by omega
    have h3 : n * 100 % 100 = 0 := by omega
    rw [h1, h3]
    cases unixMinute n <;> simp

theorem number_append (d e : List Char) : number (d ++ e) = Nat.ofDigitChars 10 e (number d) := by
  unfold number
  rw [Nat.ofDigitChars_append]

/-- C110: adding `0000` to a date or `00` to a time of minutes changes nothing: a date means its midnight and a minute its
beginning. -/
theorem C110_midnight (T : Chrono) (hT : Calendar T) (d : List Char) (h : ∀ c ∈ d, c.isDigit = true) (t : Int) :
    (d.length = 8 → (parseTimestamp T (d ++ ['Z']) = .ok t ↔ parseTimestamp T (d ++ ['0', '0', '0', '0', 'Z']) = .ok t)) ∧
    (d.length = 12 → (parseTimestamp T (d ++ ['Z']) = .ok t ↔ parseTimestamp T (d ++ ['0', '0', 'Z']) = .ok t)) := by
  have e1 := C110_utc T hT d h 0 t
  constructor
  · intro hl
    have e2 := C110_utc T hT (d ++ ['0', '0', '0', '0']) (by
      intro c hc
      rcases List.mem_append.mp hc with hc | hc
      · exact h c hc
      · simp at hc; rw [hc]; decide) 0 t
    rw [List.append_assoc] at e2
    refine e1.trans (Iff.trans ?_ e2.symm)
    have hn : number (d ++ ['0', '0', '0', '0']) = number d * 10000 := by
      rw [number_append]
      simp [Nat.ofDigitChars]
      omega
    unfold unixOf
    rw [if_pos hl, if_neg (by simp [hl]), if_pos (by simp [hl]), hn, (midnight_forms _).1]
  · intro hl
    have e2 := C110_utc T hT (d ++ ['0', '0']) (by
      intro c hc
      rcases List.mem_append.mp hc with hc | hc
      · exact h c hc
      · simp at hc; rw [hc]; decide) 0 t
    rw [List.append_assoc] at e2
    refine e1.trans (Iff.trans ?_ e2.symm)
    have hn : number (d ++ ['0', '0']) = number d * 100 := by
      rw [number_append]
      simp [Nat.ofDigitChars]
      omega
    unfold unixOf
    rw [if_neg (by omega), if_pos hl, if_neg (by simp [hl]), if_neg (by simp [hl]), if_pos (by simp [hl]), hn,
      (midnight_forms _).2]

example : parseTimestamp (plainChrono 3600) ("20240229".toList ++ ['0', '0', '0', '0', 'Z']) = .ok 1709164800 :=
  ((C110_midnight _ (plainChrono_calendar _) _ (by decide) _).1 (by decide)).mp (by decide +kernel)

/-- C110: second 60, a leap second, means second 59. -/
theorem C110_leap (T : Chrono) (hT : Calendar T) (d : List Char) (h : ∀ c ∈ d, c.isDigit = true) (hl : d.length = 12) (t : Int) :
    parseTimestamp T (d ++ ['6', '0', 'Z']) = .ok t ↔ parseTimestamp T (d ++ ['5', '9', 'Z']) = .ok t := by
  have key : ∀ a b : Char, a.isDigit = true → b.isDigit = true →
      (parseTimestamp T (d ++ [a, b, 'Z']) = .ok t ↔ unixSecond (Nat.ofDigitChars 10 [a, b] (number d)) = some t) := by
    intro a b ha hb
    have e2 := C110_utc T hT (d ++ [a, b]) (by
      intro c hc
      rcases List.mem_append.mp hc with hc | hc
      · exact h c hc
      · simp at hc; rcases hc with rfl | rfl <;> assumption) 0 t
    rw [List.append_assoc] at e2
    refine Iff.trans e2 ?_
    unfold unixOf
    rw [if_neg (by simp [hl]), if_neg (by simp [hl]), if_pos (by simp [hl]), number_append]
  rw [key _ _ (by decide) (by decide), key _ _ (by decide) (by decide)]
  have h1 : Nat.ofDigitChars 10 ['6', '0'] (number d) = number d * 100 + 60 := by simp [Nat.ofDigitChars]; omega
  have h2 : Nat.ofDigitChars 10 ['5', '9'] (number d) = number d * 100 + 59 := by simp [Nat.ofDigitChars]; omega
  rw [h1, h2]
  unfold unixSecond
  have a1 : (number d * 100 + 60) % 100 = 60 := by omega
  have a2 : (number d * 100 + 59) % 100 = 59 := by omega
  have a3 : (number d * 100 + 60) / 100 = number d := by omega
  have a4 : (number d * 100 + 59) / 100 = number d := by omega
  rw [a1, a2, a3, a4]
  simp

example : parseTimestamp (plainChrono 3600) ("200002292359".toList ++ ['6', '0', 'Z']) = .ok 951868799 :=
  (C110_leap _ (plainChrono_calendar _) _ (by decide) (by decide) _).mpr (by decide +kernel)

/-! ## C111: a bound that was printed is not read as the same bound -/

theorem nat_text (n : Nat) : (toString n).toList = Nat.toDigits 10 n := by
  show (String.ofList (Nat.toDigits 10 n)).toList = _
  rw [String.toList_ofList]

theorem nat_digits (n : Nat) : ∀ c ∈ (toString n).toList, c.isDigit = true := by
  rw [nat_text]
  intro c hc
  exact Nat.isDigit_of_mem_toDigits (by decide) (by decide) hc

theorem nat_number (n : Nat) : number (toString n).toList = n := by
  rw [nat_text]
  exact Nat.ofDigitChars_ten_toDigits

theorem civil_bounds {y m d : Nat} (h : isDate y m d = true) : (365 * y : Nat) - 719528 ≤ civilDays y m d ∧
    civilDays y m d ≤ (366 * y + 365 : Nat) - 719528 ∧ (1970 ≤ y → (365 * (y - 1970) : Nat) ≤ civilDays y m d) ∧
    (y < 1970 → civilDays y m d < 0) := by
  obtain ⟨h1, h2, h3, h4⟩ := isDate_iff.mp h
  have hf := (months_fit (leapYear y) m (by omega)).1
  have hb := yearStart_bounds y
  have h70 := yearStart_1970
  unfold civilDays
  have hle : (if leapYear y = true then 366 else 365) ≤ 366 := by split <;> omega
  refine ⟨by omega, by omega, fun hy => ?_, fun hy => ?_⟩
  · have := yearStart_add 1970 (y - 1970)
    rw [Nat.add_sub_cancel' hy] at this
    omega
  · have h1 := yearStart_mono (y := y + 1) (z := 1970) hy
    have h2 : yearStart (y + 1) = yearStart y + if leapYear y then 366 else 365 := rfl
    omega

theorem year1970 : ∀ m < 13, ∀ d < 32, isDate 1970 m d = true → 228 < monthStart false m + (d - 1) →
    100 * m + d ≥ 818 := by decide +kernel

theorem year1970' : ∀ m < 13, ∀ d < 32, isDate 1970 m d = true → monthStart false m + (d - 1) = 228 → 100 * m + d = 817 := by
  decide +kernel

theorem civil1970 (m d : Nat) : civilDays 1970 m d = (monthStart false m + (d - 1) : Nat) := by
  unfold civilDays
  have : leapYear 1970 = false := by decide
  rw [this]
  omega

/-- C111: no date is at the Unix time written by its own digits, unless the time zone is 26 minutes and 57 seconds west of UTC. -/
theorem digits_not_own_time {n : Nat} {dt : Int} (h : unixDate n = some dt ∨ unixMinute n = some dt ∨ unixSecond n = some dt)
    (h1 : (n : Int) ≤ dt + 57600) (h2 : dt ≤ n + 57600) : (n : Int) - dt = 1617 := by
  have date : ∀ {k : Nat} {x : Int}, unixDate k = some x → ∃ y m d, k / 10000 = y ∧ k / 100 % 100 = m ∧ k % 100 = d ∧
      isDate y m d = true ∧ x = 86400 * civilDays y m d := by
    intro k x hk
    obtain ⟨i1, i2⟩ := unixDate_some.mp hk
    exact ⟨_, _, _, rfl, rfl, rfl, i1, i2⟩
  rcases h with h | h | h
  · obtain ⟨y, m, d, e1, e2, e3, i1, i2⟩ := date h
    have hb := civil_bounds i1
    have hy : y = 1970 := by
      rcases Nat.lt_trichotomy y 1970 with hlt | rfl | hgt
      · have := hb.2.2.2 hlt
        omega
      · rfl
      · have := hb.2.2.1 (by omega)
        omega
    subst hy
    obtain ⟨k1, k2, k3, k4⟩ := isDate_iff.mp i1
    have hf : d ≤ 31 := Nat.le_trans k4 (by
      have : ∀ (b : Bool), ∀ m < 13, monthLength b m ≤ 31 := by decide
      exact this _ _ (by omega))
    have y1 := year1970 m (by omega) d (by omega) i1
    have y2 := year1970' m (by omega) d (by omega) i1
    rw [civil1970] at i2
    have hn : n = 19700000 + 100 * m + d := by
      have : n / 100 / 100 = n / 10000 := Nat.div_div_eq_div_mul _ _ _
      omega
    omega
  · obtain ⟨_, _, u, hu, e⟩ := unixMinute_some.mp h
    obtain ⟨y, m, d, e1, e2, e3, i1, i2⟩ := date hu
    have hb := civil_bounds i1
    omega
  · obtain ⟨_, v, hv, e⟩ := unixSecond_some.mp h
    obtain ⟨_, _, u, hu, e'⟩ := unixMinute_some.mp hv
    obtain ⟨y, m, d, e1, e2, e3, i1, i2⟩ := date hu
    have hb := civil_bounds i1
    omega

theorem bound_no_timestamp (T : Chrono) (hT : Calendar T) (hO : Offsets T) (hz : ∀ dt, T.localUnix dt ≠ some (dt + 1617)) (u : Int) :
    ¬ Timestamp T (toString u).toList u := by
  rintro ⟨d, k, dt, e, _, hd, hif⟩
  have hk : k = 0 := by
    cases k with
    | zero => rfl
    | succ k =>
      have : 'Z' ∈ (toString u).toList := by rw [e]; simp
      exact absurd rfl (int_simple u _ this).2.2.2
  subst hk
  rw [List.replicate_zero, List.append_nil] at e
  subst e
  rw [if_pos rfl] at hif
  cases u with
  | ofNat n =>
    have htx : (toString (Int.ofNat n)).toList = (toString n).toList := rfl
    rw [htx, digits_dateTime hT (nat_digits n)] at hd
    have hu : unixDate n = some dt ∨ unixMinute n = some dt ∨ unixSecond n = some dt := by
      unfold unixOf at hd
      rw [nat_number] at hd
      split at hd
      · exact .inl hd
      · split at hd
        · exact .inr (.inl hd)
        · split at hd
          · exact .inr (.inr hd)
          · cases hd
    have ho := hO _ _ hif
    have := digits_not_own_time hu ho.1 ho.2
    refine hz dt ?_
    rw [hif]
    congr 1
    have : (Int.ofNat n : Int) = n := rfl
    omega
  | negSucc n =>
    have htx : (toString (Int.negSucc n)).toList = '-' :: (toString (n + 1)).toList := by
      rw [Int.toString_eq_repr]
      show ("-" ++ Nat.repr (n + 1)).toList = _
      rw [String.toList_append]
      rfl
    rw [htx] at hd
    obtain ⟨s1, s2, s3⟩ := hT.signed _ (nat_digits (n + 1))
    rcases hd with ⟨_, h⟩ | ⟨_, h⟩ | ⟨_, h⟩
    · rw [s1] at h; cases h
    · rw [s2] at h; cases h
    · rw [s3] at h; cases h

/-- C56 on the calendar: an entry is reproduced from its text exactly if it has no bounds, its principals and namespaces need no
quoting, and its key has a plain type and no comment. -/
theorem C56_calendar (T : Chrono) (hT : Calendar T) (hO : Offsets T) (hz : ∀ dt, T.localUnix dt ≠ some (dt + 1617))
    (a : AllowedSigner) (t : List Char) (ht : a.display = .ok t) :
    AllowedSigner.fromString T t = .ok a ↔
      (a.principals ≠ [] ∧ ∀ x ∈ a.principals, x ≠ [] ∧ ',' ∉ x ∧ Simple x) ∧
      (∀ l, a.namespaces = some l → ∀ x ∈ l, x ≠ [] ∧ ',' ∉ x ∧ Simple x) ∧
      a.validAfter = none ∧ a.validBefore = none ∧
      WellFormedKey a.key ∧ a.key.keyType.name = a.key.keyType.plain ∧ a.key.comment = none := by
  rw [C56_exact T a t ht]
  constructor
  · rintro ⟨h1, h2, h3, _, h5⟩
    refine ⟨h1, h2, ?_, ?_, h5⟩
    · cases hv : a.validAfter with
      | none => rfl
      | some u => exact absurd (h3 u (.inl hv)) (bound_no_timestamp T hT hO hz u)
    · cases hv : a.validBefore with
      | none => rfl
      | some u => exact absurd (h3 u (.inr hv)) (bound_no_timestamp T hT hO hz u)
  · rintro ⟨h1, h2, h3, h4, h5⟩
    refine ⟨h1, h2, ?_, ?_, h5⟩
    · rintro u (h | h)
      · rw [h3] at h; cases h
      · rw [h4] at h; cases h
    · intro x y h; rw [h3] at h; cases h

example : ∃ a t, AllowedSigner.display a = .ok t ∧ AllowedSigner.fromString (plainChrono 3600) t = .ok a ∧
    a.principals = ["a@x".toList] := by
  have h : AllowedSigner.display ⟨["a@x".toList], true, some ["git".toList], none, none, { sampleEd with comment := none }⟩ =
      .ok (okOf [] (AllowedSigner.display ⟨["a@x".toList], true, some ["git".toList], none, none, { sampleEd with comment := none }⟩)) :=
    okOf_eq (by decide +kernel)
  refine ⟨_, _, h, (C56_calendar _ (plainChrono_calendar _) plainChrono_offsets.1 plainChrono_offsets.2 _ _ h).mpr ?_, rfl⟩
  refine ⟨⟨by decide, by unfold Simple; decide⟩, ?_, rfl, rfl, C20_allowed_signer sampleChrono sampleLine sampleEntry sampleLine_parses, rfl, rfl⟩
  intro l h
  cases h
  unfold Simple
  decide

/-- C111: a bound printed as a Unix time is not read back as that bound. -/
theorem C111_bound (T : Chrono) (hT : Calendar T) (hO : Offsets T) (hz : ∀ dt, T.localUnix dt ≠ some (dt + 1617)) (u : Int) :
    parseTimestamp T (toString u).toList ≠ .ok u := by
  intro h
  obtain ⟨v, hv, ht⟩ := (C60_timestamp T _ u).mp h
  have hq : '"' ∉ (toString u).toList := by
    intro hm
    rcases int_chars u _ hm with h | h
    · exact absurd h (by decide)
    · exact (digit_props h).2.1 rfl
  rw [stripQuotes_iff, stripQuotes_id hq] at hv
  subst hv
  exact bound_no_timestamp T hT hO hz u ht

example : parseTimestamp (plainChrono 3600) (toString (19700817 : Int)).toList ≠ .ok 19700817 :=
  C111_bound _ (plainChrono_calendar _) plainChrono_offsets.1 plainChrono_offsets.2 _

/-- C111: the exception is real: 26 minutes and 57 seconds west of UTC the bound 19700817 is its own date. -/
theorem C111_exception : parseTimestamp (plainChrono (-1617)) (toString (19700817 : Int)).toList = .ok 19700817 := by
  apply (C60_timestamp _ _ _).mpr
  refine ⟨"19700817".toList, ⟨0, 0, by decide, by decide, by decide⟩, "19700817".toList, 0, 19699200, by decide, by decide, .inl ⟨by decide, ?_⟩, by decide⟩
  decide +kernel

/-- The hypotheses can be met, and the calendar is the one in use. -/
example : Calendar (plainChrono 3600) ∧ Offsets (plainChrono 3600) ∧
    (∀ dt, (plainChrono 3600).localUnix dt ≠ some (dt + 1617)) ∧
    unixOf "20240229".toList = some 1709164800 ∧ unixOf "20230229".toList = none ∧ unixOf "19000229".toList = none ∧
    unixOf "20000229235960".toList = some 951868799 ∧ unixOf "197001010000".toList = some 0 ∧ unixOf "197001012400".toList = none := by
  refine ⟨plainChrono_calendar _, ?_, ?_, by decide +kernel, by decide +kernel, by decide +kernel, by decide +kernel,
    by decide +kernel, by decide +kernel⟩
  · intro dt t h
    have := Option.some.inj h
    omega
  · intro dt h
    have := Option.some.inj h
    omega

end Ssh
