import Verif.Model.Version

/-!
# PSDuration and its CLIXML text

Models /repo/src/psrpcore/types/_primitive.py:66-91, 429-573 and
/repo/src/psrpcore/types/_serializer.py:91-104, 370-403, 526-568.
-/

namespace Verif

/-- The attributes of a `PSDuration` (/repo/src/psrpcore/types/_primitive.py:451, 469-470). A plain
`datetime.timedelta` is one with `nanoseconds = 0` (the `getattr` default at line 86). -/
structure Duration where
  days : Int
  seconds : Int
  microseconds : Int
  nanoseconds : Int
deriving DecidableEq, Repr

namespace Duration

/-- `_timedelta_total_nanoseconds`, /repo/src/psrpcore/types/_primitive.py:66-91. -/
def totalNs (d : Duration) : Int :=
  d.nanoseconds + d.microseconds * 1000 + d.seconds * 1000000000 + d.days * 86400000000000

/-- `datetime.timedelta(microseconds=us)` of the standard library, as called at
/repo/src/psrpcore/types/_primitive.py:469: the normal form, or `OverflowError` for a magnitude of
more than 999999999 days. -/
def ofMicros (us : Int) : Except Err Duration :=
  let days := us / 86400000000
  let rest := us % 86400000000
  if -999999999 ≤ days ∧ days ≤ 999999999 then
    .ok { days := days, seconds := rest / 1000000, microseconds := rest % 1000000, nanoseconds := 0 }
  else .error .overflowError

/-- `PSDuration(td, nanoseconds=n)`, /repo/src/psrpcore/types/_primitive.py:453-472. `td` stands for
the duration built from the other arguments (lines 460-463). -/
def new (td : Duration) (n : Int) : Except Err Duration :=
  let n := n + td.totalNs
  let us := n / 1000
  let ns := n % 1000
  match ofMicros us with
  | .ok d => .ok { d with nanoseconds := ns }
  | .error e => .error e

/-- `datetime.timedelta()`, /repo/src/psrpcore/types/_primitive.py:463. -/
def zero : Duration := { days := 0, seconds := 0, microseconds := 0, nanoseconds := 0 }

/-- `PSDuration(nanoseconds=n)`, /repo/src/psrpcore/types/_primitive.py:453-472. -/
def ofNanos (n : Int) : Except Err Duration := new zero n

/-- `__add__`, /repo/src/psrpcore/types/_primitive.py:504-510. -/
def add (a b : Duration) : Except Err Duration := ofNanos (a.totalNs + b.totalNs)

/-- `__sub__`, /repo/src/psrpcore/types/_primitive.py:512-518. -/
def sub (a b : Duration) : Except Err Duration := ofNanos (a.totalNs - b.totalNs)

/-- `__neg__`, /repo/src/psrpcore/types/_primitive.py:527-528. -/
def neg (a : Duration) : Except Err Duration := ofNanos (-a.totalNs)

/-- `__rsub__`, `other - self` for a plain timedelta `other`,
/repo/src/psrpcore/types/_primitive.py:520-525. -/
def rsub (a other : Duration) : Except Err Duration :=
  match neg a with
  | .ok m => add m other
  | .error e => .error e

/-- `__pos__`, /repo/src/psrpcore/types/_primitive.py:530-531. -/
def pos (a : Duration) : Duration := a

/-- `__eq__`, /repo/src/psrpcore/types/_primitive.py:533-538. -/
def eq (a b : Duration) : Bool := a.totalNs == b.totalNs
/-- `__ne__`, /repo/src/psrpcore/types/_primitive.py:540-545. -/
def ne (a b : Duration) : Bool := a.totalNs != b.totalNs
/-- `__le__`, /repo/src/psrpcore/types/_primitive.py:547-552. -/
def le (a b : Duration) : Bool := decide (a.totalNs ≤ b.totalNs)
/-- `__lt__`, /repo/src/psrpcore/types/_primitive.py:554-559. -/
def lt (a b : Duration) : Bool := decide (a.totalNs < b.totalNs)
/-- `__ge__`, /repo/src/psrpcore/types/_primitive.py:561-566. -/
def ge (a b : Duration) : Bool := decide (a.totalNs ≥ b.totalNs)
/-- `__gt__`, /repo/src/psrpcore/types/_primitive.py:568-573. -/
def gt (a b : Duration) : Bool := decide (a.totalNs > b.totalNs)

/-- The microseconds of the `datetime.timedelta` part; what the inherited methods see
(/repo/src/psrpcore/types/_primitive.py:430). -/
def micros (d : Duration) : Int :=
  d.microseconds + d.seconds * 1000000 + d.days * 86400000000

/-- `abs(d)`: `PSDuration` has no `__abs__` (/repo/src/psrpcore/types/_primitive.py:430-573), so the
one of `datetime.timedelta` runs, which returns a plain timedelta. -/
def abs (d : Duration) : Except Err Duration :=
  if d.days < 0 then ofMicros (-d.micros) else ofMicros d.micros

/-- `d * k`: `PSDuration` has no `__mul__` (/repo/src/psrpcore/types/_primitive.py:430-573), so the
one of `datetime.timedelta` runs, which returns a plain timedelta. -/
def mul (d : Duration) (k : Int) : Except Err Duration := ofMicros (d.micros * k)

/-- `td + d` with a plain timedelta on the left: `PSDuration` has no `__radd__`
(/repo/src/psrpcore/types/_primitive.py:430-573), so the addition of `datetime.timedelta` runs,
which returns a plain timedelta. -/
def radd (td d : Duration) : Except Err Duration := ofMicros (td.micros + d.micros)

end Duration

/-- `n` with exactly `w` decimal digits: the digits after the point of `f"{x:.7f}"`
(/repo/src/psrpcore/types/_serializer.py:562) and the fields of `strftime` (lines 507, 521). -/
def padDigits : Nat → Nat → PyStr
  | 0, _ => []
  | w + 1, n => padDigits w (n / 10) ++ [48 + n % 10]

/-- `f"{ticks / 10000000:.7f}"`, /repo/src/psrpcore/types/_serializer.py:557, 562. The floating point
division and the rounding to 7 digits are taken as exact: `ticks` is below 6·10⁸, so the error of the
division is far below half of the last digit. -/
def fixed7 (ticks : Nat) : PyStr := natStr (ticks / 10000000) ++ 46 :: padDigits 7 (ticks % 10000000)

/-- `s.rstrip(".0")`, /repo/src/psrpcore/types/_serializer.py:564. -/
def rstripDotZero (s : PyStr) : PyStr :=
  (s.reverse.dropWhile (fun c => c == 46 || c == 48)).reverse

/-- `s.zfill(1)`, /repo/src/psrpcore/types/_serializer.py:564. -/
def zfill1 (s : PyStr) : PyStr := if s = [] then lit "0" else s

/-- `f"{n}X" if n else ""`, /repo/src/psrpcore/types/_serializer.py:552, 559-561. -/
def countText (n : Nat) (unit : Nat) : PyStr := if n = 0 then [] else natStr n ++ [unit]

/-- The `T` part, /repo/src/psrpcore/types/_serializer.py:555-566. -/
def timeText (ticks : Nat) : PyStr :=
  let hours := ticks / 36000000000
  let ticks := ticks % 36000000000
  let minutes := ticks / 600000000
  let ticks := ticks % 600000000
  let hoursStr := countText hours 72
  let minutesStr := countText minutes 77
  let secondsStr :=
    if ticks ≠ 0 ∨ (hoursStr = [] ∧ minutesStr = []) then zfill1 (rstripDotZero (fixed7 ticks)) ++ [83]
    else []
  84 :: (hoursStr ++ minutesStr ++ secondsStr)

/-- `_serialize_duration` on a non-negative number of ticks,
/repo/src/psrpcore/types/_serializer.py:550-568. -/
def ticksText (ticks : Nat) : PyStr :=
  let days := ticks / 864000000000
  let ticks := ticks % 864000000000
  80 :: (countText days 68 ++ (if ticks ≠ 0 ∨ days = 0 then timeText ticks else []))

/-- `_serialize_duration`, /repo/src/psrpcore/types/_serializer.py:526-568. -/
def serializeDuration (d : Duration) : PyStr :=
  let ticks := d.totalNs / 100
  if ticks < 0 then 45 :: ticksText (-ticks).toNat else ticksText ticks.toNat

/-- `((?P<x>\d+)U)?`: a number followed by the letter `U`, or nothing
(/repo/src/psrpcore/types/_serializer.py:95-98), and `int(x or 0)` of it (lines 389-391). No
backtracking is needed: what follows a number is never a digit. -/
def scanCount (uni : Nat → Option Nat) (unit : Nat) (s : PyStr) : Nat × PyStr :=
  let (ds, rest) := PSVersion.scanDigits uni s
  if ds ≠ [] ∧ rest.head? = some unit then (digitsVal ds, rest.drop 1) else (0, s)

/-- `(?P<seconds>\d*(\.(?P<fraction>\d{1,7}))?)S)?`: whole seconds and the digits of the fraction, or
nothing (/repo/src/psrpcore/types/_serializer.py:99-100). `int(float(seconds))` (line 393) is taken
as the whole seconds exactly; the float rounds correctly below 10⁸ seconds. -/
def scanSeconds (uni : Nat → Option Nat) (s : PyStr) : Nat × List Nat × PyStr :=
  let (ds, rest) := PSVersion.scanDigits uni s
  if rest.head? = some 83 then (digitsVal ds, [], rest.drop 1)
  else if rest.head? = some 46 then
    let (fs, rest2) := PSVersion.scanDigits uni (rest.drop 1)
    if 1 ≤ fs.length ∧ fs.length ≤ 7 ∧ rest2.head? = some 83 then (digitsVal ds, fs, rest2.drop 1)
    else (0, [], s)
  else (0, [], s)

/-- `int(fraction.ljust(7, "0"))`, /repo/src/psrpcore/types/_serializer.py:397. -/
def fractionTicks (fs : List Nat) : Nat := digitsVal (fs ++ List.replicate (7 - fs.length) 0)

/-- `(?=.)`: some character other than a newline follows
(/repo/src/psrpcore/types/_serializer.py:94, 96). -/
def dotAhead (s : PyStr) : Bool := s ≠ [] ∧ s.head? ≠ some 10

/-- The `T` part of `_DURATION_PATTERN` and the nanoseconds it stands for
(/repo/src/psrpcore/types/_serializer.py:96-102, 390-397). -/
def scanTime (uni : Nat → Option Nat) (s : PyStr) : Option Nat :=
  if dotAhead s then
    let (hours, s1) := scanCount uni 72 s
    let (minutes, s2) := scanCount uni 77 s1
    let (seconds, fraction, s3) := scanSeconds uni s2
    if PSVersion.atEnd s3 then
      some ((seconds + minutes * 60 + hours * 3600) * 1000000000 + fractionTicks fraction * 100)
    else none
  else none

/-- `_DURATION_PATTERN` after the sign, and the nanoseconds the text stands for
(/repo/src/psrpcore/types/_serializer.py:94-102, 389-399). -/
def scanDuration (uni : Nat → Option Nat) (s : PyStr) : Option Nat :=
  if s.head? = some 80 ∧ dotAhead (s.drop 1) then
    let (days, s1) := scanCount uni 68 (s.drop 1)
    if PSVersion.atEnd s1 then some (days * 86400 * 1000000000)
    else if s1.head? = some 84 then (scanTime uni (s1.drop 1)).map (days * 86400 * 1000000000 + ·)
    else none
  else none

/-- `_deserialize_duration`, /repo/src/psrpcore/types/_serializer.py:370-403. -/
def deserializeDuration (uni : Nat → Option Nat) (s : PyStr) : Except Err Duration :=
  let negative := s.head? = some 45
  match scanDuration uni (if negative then s.drop 1 else s) with
  | none => .error .valueError
  | some total => Duration.ofNanos (if negative then -(total : Int) else total)

end Verif
