import Verif.Model.Duration

/-!
# PSDateTime: arithmetic and CLIXML text

Models /repo/src/psrpcore/types/_primitive.py:316-426 and
/repo/src/psrpcore/types/_serializer.py:80-86, 305-367, 489-523.
-/

namespace Verif

/-! ## Arithmetic -/

/-- A `PSDateTime` as its arithmetic sees it (/repo/src/psrpcore/types/_primitive.py:317-364): the wall
clock in microseconds since 0001-01-01T00:00:00, the offset of its time zone from UTC in microseconds
if it has one, and the `nanosecond` attribute. The calendar fields are those of the standard library
and stand in one to one relation to the microseconds. Time zones have a fixed offset. -/
structure DateTime where
  wall : Int
  tz : Option Int
  nanosecond : Int
deriving DecidableEq, Repr

namespace DateTime

/-- One more than the last microsecond of 9999-12-31, `datetime.datetime.max`
(/repo/src/psrpcore/types/_primitive.py:317). -/
def wallEnd : Int := 3652059 * 86400000000

/-- `datetime.datetime.__add__` of the standard library followed by `PSDateTime(...)`
(/repo/src/psrpcore/types/_primitive.py:397, 345-364): the nanosecond of the result is 0. -/
def stdAdd (a : DateTime) (us : Int) : Except Err DateTime :=
  if 0 ≤ a.wall + us ∧ a.wall + us < wallEnd then .ok { a with wall := a.wall + us, nanosecond := 0 }
  else .error .overflowError

/-- `__add__`, /repo/src/psrpcore/types/_primitive.py:392-407. The `+=` of line 403 adds a plain
timedelta to a date whose nanosecond is 0, which does no carry. -/
def add (a : DateTime) (d : Duration) : Except Err DateTime :=
  let diff := a.nanosecond + d.nanoseconds
  match stdAdd a d.micros with
  | .error e => .error e
  | .ok new =>
    if diff > 999 then
      match stdAdd new (diff / 1000) with
      | .error e => .error e
      | .ok new => .ok { new with nanosecond := diff % 1000 }
    else .ok { new with nanosecond := diff }

/-- `__sub__` of a duration, /repo/src/psrpcore/types/_primitive.py:413-414. -/
def sub (a : DateTime) (d : Duration) : Except Err DateTime :=
  match d.neg with
  | .error e => .error e
  | .ok m => add a m

/-- `datetime.datetime.__sub__` of two dates of the standard library, called at
/repo/src/psrpcore/types/_primitive.py:416: the time between them in microseconds; a date with and one
without a time zone cannot be subtracted. -/
def stdDiff (a b : DateTime) : Except Err Int :=
  match a.tz, b.tz with
  | none, none => .ok (a.wall - b.wall)
  | some x, some y => .ok ((a.wall - x) - (b.wall - y))
  | _, _ => .error .typeError

/-- `__sub__` of a date, /repo/src/psrpcore/types/_primitive.py:416-418. -/
def diff (a b : DateTime) : Except Err Duration :=
  match stdDiff a b with
  | .error e => .error e
  | .ok us =>
    match Duration.ofMicros us with
    | .error e => .error e
    | .ok td =>
      match Duration.new td 0 with
      | .error e => .error e
      | .ok d =>
        match Duration.ofNanos (a.nanosecond - b.nanosecond) with
        | .error e => .error e
        | .ok n => d.add n

/-- `PSDateTime(dt)` for a `dt` that is a `datetime`, /repo/src/psrpcore/types/_primitive.py:340-364:
the nanosecond attribute comes from the keyword only. -/
def copy (a : DateTime) (nanosecond : Int := 0) : DateTime := { a with nanosecond := nanosecond }

/-- `==`: `PSDateTime` has no comparison methods (/repo/src/psrpcore/types/_primitive.py:317-426), so
those of `datetime.datetime` run, which know nothing of the nanosecond attribute. -/
def eq (a b : DateTime) : Bool :=
  match stdDiff a b with
  | .ok us => us == 0
  | .error _ => false

/-- `<`, inherited as `==` is (/repo/src/psrpcore/types/_primitive.py:317-426). -/
def lt (a b : DateTime) : Except Err Bool := (stdDiff a b).map (fun us => decide (us < 0))

end DateTime

/-! ## Text -/

/-- The fields of a `PSDateTime` as its text form shows them
(/repo/src/psrpcore/types/_serializer.py:489-523). `offset` is the offset of the time zone from UTC in
seconds; parts of a second are not modelled. A `tzinfo` with the offset 0 is taken to be
`datetime.timezone.utc`; another one is written as `+00:00`. -/
structure DateFields where
  year : Nat
  month : Nat
  day : Nat
  hour : Nat
  minute : Nat
  second : Nat
  microsecond : Nat
  nanosecond : Nat
  offset : Option Int
deriving DecidableEq, Repr

/-- `strftime("%z")` for an offset of `o` seconds: sign, hours, minutes, and seconds if any
(/repo/src/psrpcore/types/_serializer.py:518). -/
def offsetText (o : Int) : PyStr :=
  let a := o.natAbs
  (if o < 0 then 45 else 43) :: (padDigits 2 (a / 3600) ++ padDigits 2 (a / 60 % 60) ++
    (if a % 60 = 0 then [] else padDigits 2 (a % 60)))

/-- The time zone part, /repo/src/psrpcore/types/_serializer.py:512-519. -/
def zoneText : Option Int → PyStr
  | none => []
  | some o => if o = 0 then lit "Z" else (offsetText o).take 3 ++ 58 :: (offsetText o).drop 3

/-- The fraction part, /repo/src/psrpcore/types/_serializer.py:504-510. -/
def fractionText (v : DateFields) : PyStr :=
  if v.microsecond ≠ 0 ∨ v.nanosecond ≠ 0 then
    46 :: (padDigits 6 v.microsecond ++ (if v.nanosecond ≠ 0 then natStr (v.nanosecond / 100) else []))
  else []

/-- `_serialize_datetime`, /repo/src/psrpcore/types/_serializer.py:489-523. `year4` is `%Y` of the
platform's `strftime`, which pads with zeros to four digits on some platforms only. -/
def serializeDateTime (year4 : Nat → PyStr) (v : DateFields) : PyStr :=
  year4 v.year ++ 45 :: padDigits 2 v.month ++ 45 :: padDigits 2 v.day ++ 84 :: padDigits 2 v.hour ++
    58 :: padDigits 2 v.minute ++ 58 :: padDigits 2 v.second ++ fractionText v ++ zoneText v.offset

/-- `n` decimal digits at the start of a text, and the rest
(/repo/src/psrpcore/types/_serializer.py:361, `strptime`). `strptime` also accepts months, days, hours,
minutes and seconds of one digit, and digits other than ASCII; no writer produces them and they are
not modelled. -/
def takeNum (n : Nat) (s : PyStr) : Option (Nat × PyStr) :=
  if (s.take n).length = n ∧ (s.take n).all (fun c => (asciiDigit c).isSome) then
    some (digitsVal ((s.take n).map (· - 48)), s.drop n)
  else none

/-- One given character (/repo/src/psrpcore/types/_serializer.py:361). -/
def takeChar (c : Nat) (s : PyStr) : Option PyStr := if s.head? = some c then some (s.drop 1) else none

/-- Days of a month, as checked by the `datetime` constructor
(/repo/src/psrpcore/types/_primitive.py:347). -/
def daysInMonth (y m : Nat) : Nat :=
  if m = 2 then (if y % 4 = 0 ∧ (y % 100 ≠ 0 ∨ y % 400 = 0) then 29 else 28)
  else if m = 4 ∨ m = 6 ∨ m = 9 ∨ m = 11 then 30 else 31

/-- `date.toordinal`, the number of a day with 1 for the first of January of year 1, for the comparison of dates
(/repo/src/psrpcore/types/_primitive.py:347; `_days_before_year`, `_days_before_month` of `datetime`). -/
def toOrdinal (y m d : Nat) : Nat :=
  let n := y - 1
  (n * 365 + n / 4 - n / 100 + n / 400) +
    (([31, 28, 31, 30, 31, 30, 31, 31, 30, 31, 30, 31].take (m - 1)).sum + (if m > 2 ∧ daysInMonth y 2 = 29 then 1 else 0)) + d

/-- The microseconds by which dates are compared and hashed, /repo/src/psrpcore/types/_primitive.py:347-428: `PSDateTime` has
no `__eq__` and no `__hash__` but those of `datetime`. They know nothing of the nanosecond; the offset is taken off if
there is one. The offset is that of a fixed time zone. -/
def DateFields.micros (v : DateFields) : Int :=
  (((toOrdinal v.year v.month v.day * 24 + v.hour) * 60 + v.minute) * 60 + v.second - v.offset.getD 0) * 1000000 + v.microsecond

/-- The ranges checked by `strptime` and the `datetime` constructor
(/repo/src/psrpcore/types/_serializer.py:361, /repo/src/psrpcore/types/_primitive.py:347). -/
def dateOk (y mo d h mi s : Nat) : Bool :=
  1 ≤ y && y ≤ 9999 && 1 ≤ mo && mo ≤ 12 && 1 ≤ d && d ≤ daysInMonth y mo && h ≤ 23 && mi ≤ 59 && s ≤ 59

/-- `%Y-%m-%dT%H:%M:%S` of `strptime`, /repo/src/psrpcore/types/_serializer.py:361, 364. -/
def scanDate (s : PyStr) : Option (DateFields × PyStr) := do
  let (y, s) ← takeNum 4 s
  let s ← takeChar 45 s
  let (mo, s) ← takeNum 2 s
  let s ← takeChar 45 s
  let (d, s) ← takeNum 2 s
  let s ← takeChar 84 s
  let (h, s) ← takeNum 2 s
  let s ← takeChar 58 s
  let (mi, s) ← takeNum 2 s
  let s ← takeChar 58 s
  let (se, s) ← takeNum 2 s
  if dateOk y mo d h mi se then
    some ({ year := y, month := mo, day := d, hour := h, minute := mi, second := se, microsecond := 0, nanosecond := 0, offset := none }, s)
  else none

/-- The longest run of digits at the start of a text
(/repo/src/psrpcore/types/_serializer.py:82, `\d+`). -/
def digitRun (s : PyStr) : PyStr := s.takeWhile (fun c => (asciiDigit c).isSome)

/-- `.%f` of `strptime`: a point, one to six digits, read as if zeros followed
(/repo/src/psrpcore/types/_serializer.py:361). -/
def scanMicro (s : PyStr) : Option (Nat × PyStr) :=
  let ds := digitRun (s.drop 1)
  if s.head? = some 46 ∧ 1 ≤ ds.length ∧ ds.length ≤ 6 then
    some (digitsVal (ds.map (· - 48) ++ List.replicate (6 - ds.length) 0), (s.drop 1).drop ds.length)
  else none

/-- `%z` of `strptime` on a sign and four digits, or an empty format on an empty rest
(/repo/src/psrpcore/types/_serializer.py:344-361). The seconds `%z` accepts are not modelled. -/
def scanZone (zoned : Bool) (s : PyStr) : Option (Option Int) :=
  if zoned then
    match takeNum 2 (s.drop 1) with
    | none => none
    | some (h, s2) =>
      match takeNum 2 s2 with
      | none => none
      | some (m, s3) =>
        if s3 = [] ∧ m ≤ 59 ∧ h ≤ 23 then
          if s.head? = some 43 then some (some ((h * 3600 + m * 60 : Nat) : Int))
          else if s.head? = some 45 then some (some (-((h * 3600 + m * 60 : Nat) : Int)))
          else none
        else none
  else if s = [] then some none else none

/-- `PSDateTime.strptime`, first with and then without a fraction
(/repo/src/psrpcore/types/_serializer.py:360-364). -/
def strptime (zoned : Bool) (s : PyStr) : Option DateFields :=
  match scanDate s with
  | none => none
  | some (v, s) =>
    match scanMicro s with
    | some (us, s) => (scanZone zoned s).map (fun z => { v with microsecond := us, offset := z })
    | none => (scanZone zoned s).map (fun z => { v with offset := z })

/-- `_DATETIME_TZ_OFFSET_PATTERN` at the start of a text: a sign, one or two digits, a colon, one or
two digits and the end; the values of the groups
(/repo/src/psrpcore/types/_serializer.py:86, 346-349). `$` also matches before a final newline, which
is not modelled. -/
def matchOffset (s : PyStr) : Option (Nat × Nat × Nat) :=
  let sign := s.headD 0
  let h := digitRun (s.drop 1)
  let rest := (s.drop 1).drop h.length
  let m := digitRun (rest.drop 1)
  if (sign = 43 ∨ sign = 45) ∧ 1 ≤ h.length ∧ h.length ≤ 2 ∧ rest.head? = some 58 ∧
      1 ≤ m.length ∧ m.length ≤ 2 ∧ (rest.drop 1).drop m.length = [] then
    some (sign, digitsVal (h.map (· - 48)), digitsVal (m.map (· - 48)))
  else none

/-- `_DATETIME_TZ_OFFSET_PATTERN.search`: the text before the first place that matches, and the groups
(/repo/src/psrpcore/types/_serializer.py:343). -/
def searchOffset : PyStr → Option (PyStr × Nat × Nat × Nat)
  | [] => none
  | c :: cs =>
    match matchOffset (c :: cs) with
    | some r => some ([], r)
    | none => (searchOffset cs).map (fun r => (c :: r.1, r.2))

/-- The fraction split off and shortened to microseconds, and the nanoseconds of its last digit
(/repo/src/psrpcore/types/_serializer.py:322-341). A fraction of more than seven digits is refused by
`strptime` afterwards; its nanoseconds are not modelled. -/
def splitFraction (s : PyStr) : PyStr × Nat :=
  let tail := s.drop 19
  let fs := digitRun (tail.drop 1)
  if tail.head? = some 46 ∧ 1 ≤ fs.length then
    let rest := ((tail.drop 1).drop fs.length).takeWhile (· ≠ 10)
    if fs.length > 6 then
      (s.take 19 ++ 46 :: (fs.dropLast ++ rest), digitsVal ((fs.drop (fs.length - 1)).map (· - 48)) * 10 ^ (9 - fs.length))
    else (s.take 19 ++ 46 :: (fs ++ rest), 0)
  else (s, 0)

/-- `_deserialize_datetime`, /repo/src/psrpcore/types/_serializer.py:305-367. -/
def deserializeDateTime (s : PyStr) : Except Err DateFields :=
  let (text, ns) := splitFraction s
  let parsed :=
    match searchOffset text with
    | some (before, sign, h, m) => strptime true (before ++ sign :: (padDigits 2 h ++ padDigits 2 m))
    | none =>
      if text.getLast? = some 90 then strptime true (text.dropLast ++ lit "+0000")
      else strptime false text
  match parsed with
  | none => .error .valueError
  | some v => .ok { v with nanosecond := ns }

end Verif
