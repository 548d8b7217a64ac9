import Verif.Model.Basic

/-!
# Dates of Type-J containers (`iso8601_to_epoch_time`, `taimpl/src/internal/typej.c:87-123`)

`strptime` is a library function and a parameter of the model; `timegm` is modelled by the formula that POSIX gives for seconds since the Epoch
(proleptic Gregorian calendar; the day of the month may exceed the length of the month, the result is then a day of the next month).
-/

namespace Sa

/-- `struct tm` as filled by `%Y-%m-%dT%H:%M:%S`, with the full year and months from 1. -/
structure Tm where
  year : Nat
  mon : Nat
  mday : Nat
  hour : Nat
  min : Nat
  sec : Nat
  deriving DecidableEq, Repr

/-- Days before the first day of month `m` in a common year. -/
def monthStart : Nat → Nat
  | 1 => 0 | 2 => 31 | 3 => 59 | 4 => 90 | 5 => 120 | 6 => 151 | 7 => 181 | 8 => 212 | 9 => 243 | 10 => 273 | 11 => 304 | _ => 334

/-- `tm_yday`, from 0. -/
def tmYday (t : Tm) : Nat :=
  monthStart t.mon + (if (t.year % 4 = 0 ∧ t.year % 100 ≠ 0 ∨ t.year % 400 = 0) ∧ 2 < t.mon then 1 else 0) + (t.mday - 1)

/-- `timegm`: POSIX.1-2017, XBD 4.16 "Seconds Since the Epoch", extended to years before 1970 with divisions rounding down. -/
def timegm (t : Tm) : Int :=
  t.sec + t.min * 60 + t.hour * 3600 + (tmYday t : Int) * 86400 + ((t.year : Int) - 1970) * 31536000 + (((t.year : Int) - 1969) / 4) * 86400 -
    (((t.year : Int) - 1901) / 100) * 86400 + (((t.year : Int) - 1601) / 400) * 86400

/-- `iso8601_to_epoch_time`, typej.c:87-123.  `strptime` gets the string and gives the fields and the position where it stopped, or NULL.  The bytes behind
the string are zero. -/
def iso8601ToEpochTime (strptime : Bytes → Option (Tm × Nat)) (s : Bytes) : Option UInt64 :=
  if s.length ≠ 20 then none else
  match strptime s with
  | none => none
  | some (tm, pos) =>
    if (s[pos]?).getD 0 ≠ 0x5a then none else
    let t := timegm tm
    if t < 0 ∧ t ≠ -1 then none else
    some (UInt64.ofInt t)

end Sa
