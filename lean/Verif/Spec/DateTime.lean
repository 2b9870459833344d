import Verif.Model.DateTime
import Verif.Spec.Duration

/-! # What a date is (specification for C27, C50 to C52) -/

namespace Verif

/-- A date of the years 1 to 9999 with a nanosecond part below a microsecond and, if it has a time
zone, an offset of less than a day. -/
def DateTime.Valid (a : DateTime) : Prop :=
  (0 ≤ a.wall ∧ a.wall < 3652059 * 86400 * 1000000) ∧ (0 ≤ a.nanosecond ∧ a.nanosecond < 1000) ∧
  ∀ o, a.tz = some o → -(86400 * 1000000) < o ∧ o < 86400 * 1000000

/-- The wall clock in nanoseconds since the start of year 1. -/
def DateTime.wallNs (a : DateTime) : Int := a.wall * 1000 + a.nanosecond

/-- The instant in nanoseconds: wall clock minus the offset from UTC. -/
def DateTime.instant (a : DateTime) : Int := (a.wall - a.tz.getD 0) * 1000 + a.nanosecond

/-- Both dates have a time zone, or neither has. -/
def DateTime.SameKind (a b : DateTime) : Prop := a.tz.isSome = b.tz.isSome

/-- The leap years of the calendar. -/
def LeapYear (y : Nat) : Prop := 400 ∣ y ∨ (4 ∣ y ∧ ¬ 100 ∣ y)

/-- The days of a year. -/
def yearDays (y : Nat) : Nat := if 400 ∣ y ∨ (4 ∣ y ∧ ¬ 100 ∣ y) then 366 else 365

/-- The days of a month. -/
def monthDays (y : Nat) : Nat → Nat
  | 1 => 31
  | 2 => if 400 ∣ y ∨ (4 ∣ y ∧ ¬ 100 ∣ y) then 29 else 28
  | 3 => 31
  | 4 => 30
  | 5 => 31
  | 6 => 30
  | 7 => 31
  | 8 => 31
  | 9 => 30
  | 10 => 31
  | 11 => 30
  | 12 => 31
  | _ => 0

/-- The number of a day: all the days of the years before it, from year 1 on, those of the months before it, and its day of
the month. -/
def dayNumber (y m d : Nat) : Nat :=
  ((List.range' 1 (y - 1)).map yearDays).sum + ((List.range' 1 (m - 1)).map (monthDays y)).sum + d

/-- The microseconds from the start of the calendar to a date, in UTC if the date has a time zone. The nanosecond does not
count. -/
def DateFields.instantMicros (v : DateFields) : Int :=
  (dayNumber v.year v.month v.day * 86400 + v.hour * 3600 + v.minute * 60 + v.second) * 1000000 + v.microsecond -
    (match v.offset with | some o => o * 1000000 | none => 0)

/-- The day is one of the month. -/
def DayOfMonth (y m d : Nat) : Prop :=
  1 ≤ d ∧ d ≤ 31 ∧ (m = 4 ∨ m = 6 ∨ m = 9 ∨ m = 11 → d ≤ 30) ∧ (m = 2 → d ≤ 29 ∧ (d = 29 → LeapYear y))

/-- The fields are those of a day in the calendar and a time of the day. -/
def DateFields.Valid (v : DateFields) : Prop :=
  (1 ≤ v.year ∧ v.year ≤ 9999) ∧ (1 ≤ v.month ∧ v.month ≤ 12) ∧
  DayOfMonth v.year v.month v.day ∧ v.hour ≤ 23 ∧ v.minute ≤ 59 ∧ v.second ≤ 59 ∧
  v.microsecond < 1000000 ∧ v.nanosecond < 1000 ∧
  ∀ o, v.offset = some o → -86400 < o ∧ o < 86400

/-- The time zone is a whole number of minutes from UTC. -/
def DateFields.MinuteZone (v : DateFields) : Prop := ∀ o, v.offset = some o → o % 60 = 0

/-- The year has the text of its four digits. -/
def FourDigits (year4 : Nat → PyStr) (y : Nat) : Prop := year4 y = padDigits 4 y

end Verif
