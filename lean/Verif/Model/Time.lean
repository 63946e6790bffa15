import Verif.Model.Eth
/-
`time` crate 0.3.36: `OffsetDateTime::from_unix_timestamp_nanos` and formatting with `Rfc3339`, as used at
packages/ic_siwe/src/siwe.rs:119-125.  Dependency modelled from its published source, for the
non-negative timestamps (`u64 as i128`) the code passes.
-/
namespace Siwe

/-- `time::util::is_leap_year`. -/
def isLeapYear (y : Nat) : Bool := y % 4 == 0 && (y % 25 != 0 || y % 16 == 0)

/-- `Date::from_julian_day_unchecked` for Julian days at or after the Unix epoch; `(year, ordinal)`.
All intermediate values are non-negative there, so `Nat` arithmetic is exact. -/
def yearOrdinal (julianDay : Nat) : Nat × Nat :=
  let z := julianDay - 1721119
  let g := 100 * z - 25
  let a := g / 3652425
  let b := a - a / 4
  let year := (100 * b + g) / 36525
  let ordinal := b + z - 36525 * year / 100
  if isLeapYear year then
    let ordinal := ordinal + 60
    if ordinal ≥ 367 then (year + 1, ordinal - 366) else (year, ordinal)
  else
    let ordinal := ordinal + 59
    if ordinal ≥ 366 then (year + 1, ordinal - 365) else (year, ordinal)

/-- `CUMULATIVE_DAYS_IN_MONTH_COMMON_LEAP`. -/
def cumulativeDays (leap : Bool) : List Nat :=
  if leap then [31, 60, 91, 121, 152, 182, 213, 244, 274, 305, 335]
  else [31, 59, 90, 120, 151, 181, 212, 243, 273, 304, 334]

/-- `Date::month_day`: the chain of comparisons from December down to January.
`days` is the cumulative table without its first `11 - days.length` entries reversed, `m` the month tried. -/
def monthDayGo (ordinal : Nat) : List Nat → Nat → Nat × Nat
  | [], _ => (1, ordinal)
  | d :: rest, m => if ordinal > d then (m, ordinal - d) else monthDayGo ordinal rest (m - 1)

/-- `Date::month_day`. -/
def monthDay (year ordinal : Nat) : Nat × Nat :=
  monthDayGo ordinal (cumulativeDays (isLeapYear year)).reverse 12

/-- `time::formatting::format_number_pad_zero::<W>`: decimal, left padded with zeros to width `W`. -/
def padZero (w n : Nat) : Bytes := List.replicate (w - (decimal n).length) 48 ++ decimal n

/-- The fractional second of `Rfc3339`: nothing when zero, else `.` and the digits without trailing zeros. -/
def subsecond (nanos : Nat) : Bytes :=
  if nanos = 0 then []
  else 46 :: (
    if nanos % 10 ≠ 0 then padZero 9 nanos
    else if nanos / 10 % 10 ≠ 0 then padZero 8 (nanos / 10)
    else if nanos / 100 % 10 ≠ 0 then padZero 7 (nanos / 100)
    else if nanos / 1000 % 10 ≠ 0 then padZero 6 (nanos / 1000)
    else if nanos / 10000 % 10 ≠ 0 then padZero 5 (nanos / 10000)
    else if nanos / 100000 % 10 ≠ 0 then padZero 4 (nanos / 100000)
    else if nanos / 1000000 % 10 ≠ 0 then padZero 3 (nanos / 1000000)
    else if nanos / 10000000 % 10 ≠ 0 then padZero 2 (nanos / 10000000)
    else padZero 1 (nanos / 100000000))

/-- `OffsetDateTime::format(&Rfc3339)` on year and ordinal `yo`, second of the day `s` and nanosecond `nanos`:
siwe.rs:119-125, `.unwrap()`ed there.  Fails, hence panics, for years after 9999. -/
def rfc3339Text {ε : Type} (yo : Nat × Nat) (s nanos : Nat) : Res ε Bytes :=
  if yo.1 > 9999 then .panic
  else
    .ok (padZero 4 yo.1 ++ [45] ++ padZero 2 (monthDay yo.1 yo.2).1 ++ [45] ++ padZero 2 (monthDay yo.1 yo.2).2
      ++ [84] ++ padZero 2 (s / 3600) ++ [58] ++ padZero 2 (s % 3600 / 60) ++ [58] ++ padZero 2 (s % 60)
      ++ subsecond nanos ++ [90])

/-- siwe.rs:119-121 and 123-125: `OffsetDateTime::from_unix_timestamp_nanos(t as i128).unwrap()` and
`.format(&Rfc3339).unwrap()`.  The first fails outside years -9999..=9999, the second outside 0..=9999;
both failures are a panic. 2440588 is the Julian day of 1970-01-01. -/
def rfc3339 {ε : Type} (t : UInt64) : Res ε Bytes :=
  rfc3339Text (yearOrdinal (2440588 + t.toNat / 1000000000 / 86400)) (t.toNat / 1000000000 % 86400)
    (t.toNat % 1000000000)

end Siwe
