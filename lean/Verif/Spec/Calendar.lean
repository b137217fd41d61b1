import Verif.Spec.AllowedSigner

/-!
# The civil calendar, and what is assumed of the crate `chrono`

Proleptic Gregorian calendar, written from its rules.  Only `Chrono` of the model is used.
-/

namespace Ssh.Spec

/-- Leap years. -/
def leapYear (y : Nat) : Bool := y % 4 == 0 && (y % 100 != 0 || y % 400 == 0)

/-- Days of a month, January is 1. -/
def monthLength (leap : Bool) : Nat → Nat
  | 1 => 31 | 2 => if leap then 29 else 28 | 3 => 31 | 4 => 30 | 5 => 31 | 6 => 30
  | 7 => 31 | 8 => 31 | 9 => 30 | 10 => 31 | 11 => 30 | 12 => 31 | _ => 0

/-- Days from the 1st of January to the 1st of a month. -/
def monthStart (leap : Bool) (m : Nat) : Nat := ((List.range m).map (monthLength leap)).sum

/-- Days from the 1st of January of year 0 to that of year `y`. -/
def yearStart : Nat → Nat
  | 0 => 0
  | y + 1 => yearStart y + if leapYear y then 366 else 365

/-- Days since 1970-01-01. -/
def civilDays (y m d : Nat) : Int :=
  (yearStart y + monthStart (leapYear y) m + (d - 1) : Nat) - (yearStart 1970 : Nat)

/-- There is such a date. -/
def isDate (y m d : Nat) : Bool := 1 ≤ m && m ≤ 12 && 1 ≤ d && d ≤ monthLength (leapYear y) m

/-- Unix time of the date written as the number YYYYMMDD. -/
def unixDate (n : Nat) : Option Int :=
  if isDate (n / 10000) (n / 100 % 100) (n % 100) then some (86400 * civilDays (n / 10000) (n / 100 % 100) (n % 100)) else none

/-- Unix time of YYYYMMDDHHMM. -/
def unixMinute (n : Nat) : Option Int :=
  if n / 100 % 100 < 24 ∧ n % 100 < 60 then
    (unixDate (n / 10000)).map (· + (3600 * (n / 100 % 100) + 60 * (n % 100) : Nat))
  else none

/-- Unix time of YYYYMMDDHHMMSS; a leap second, 60, is counted like 59. -/
def unixSecond (n : Nat) : Option Int :=
  if n % 100 ≤ 60 then (unixMinute (n / 100)).map (· + (min (n % 100) 59 : Nat)) else none

/-- The number written by decimal digits. -/
def number (s : List Char) : Nat := Nat.ofDigitChars 10 s 0

/-- What is assumed of `chrono`: texts of exactly 8, 12 and 14 decimal digits are read as civil dates and times; a sign
followed by digits is rejected (the digits are all taken for the year).  Nothing is assumed about other texts. -/
structure Calendar (T : Chrono) : Prop where
  date : ∀ s, s.length = 8 → (∀ c ∈ s, c.isDigit = true) → T.parseDate s = unixDate (number s)
  minute : ∀ s, s.length = 12 → (∀ c ∈ s, c.isDigit = true) → T.parseMinute s = unixMinute (number s)
  second : ∀ s, s.length = 14 → (∀ c ∈ s, c.isDigit = true) → T.parseSecond s = unixSecond (number s)
  signed : ∀ s, (∀ c ∈ s, c.isDigit = true) →
    T.parseDate ('-' :: s) = none ∧ T.parseMinute ('-' :: s) = none ∧ T.parseSecond ('-' :: s) = none

/-- What is assumed of the local time zone: it is at most 16 hours from UTC. -/
def Offsets (T : Chrono) : Prop := ∀ dt t, T.localUnix dt = some t → t ≤ dt + 57600 ∧ dt ≤ t + 57600

/-- Unix time of a text of digits, by its length. -/
def unixOf (s : List Char) : Option Int :=
  if s.length = 8 then unixDate (number s)
  else if s.length = 12 then unixMinute (number s)
  else if s.length = 14 then unixSecond (number s)
  else none

end Ssh.Spec
