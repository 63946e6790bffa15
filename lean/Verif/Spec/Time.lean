import Verif.Model.Basic
/-
Independent specification of RFC 3339 UTC timestamps: the calendar counted year by year and month by month from
1970-01-01, and the text format `YYYY-MM-DDTHH:MM:SS[.fraction]Z`.
-/
namespace Siwe.Spec

/-- Gregorian leap years. -/
def leapYear (y : Nat) : Bool := y % 4 == 0 && (y % 100 != 0 || y % 400 == 0)

/-- Days from 1970-01-01 to January 1 of the year `1970 + k`. -/
def daysToYear : Nat → Nat
  | 0 => 0
  | k + 1 => daysToYear k + if leapYear (1970 + k) then 366 else 365

/-- Month lengths. -/
def monthLengths (y : Nat) : List Nat :=
  [31, if leapYear y then 29 else 28, 31, 30, 31, 30, 31, 31, 30, 31, 30, 31]

/-- A date and time of day, to the nanosecond. -/
structure Civil where
  year : Nat
  month : Nat
  day : Nat
  hour : Nat
  minute : Nat
  second : Nat
  nanos : Nat

/-- The fields are in range, from 1970 to 9999. -/
def Civil.Valid (c : Civil) : Prop :=
  1970 ≤ c.year ∧ c.year ≤ 9999 ∧ 1 ≤ c.month ∧ c.month ≤ 12 ∧ 1 ≤ c.day ∧
  (∃ n, (monthLengths c.year)[c.month - 1]? = some n ∧ c.day ≤ n) ∧
  c.hour < 24 ∧ c.minute < 60 ∧ c.second < 60 ∧ c.nanos < 1000000000

/-- Nanoseconds since 1970-01-01T00:00:00Z (without leap seconds, as Unix time counts). -/
def Civil.toNanos (c : Civil) : Nat :=
  ((((daysToYear (c.year - 1970) + ((monthLengths c.year).take (c.month - 1)).sum + (c.day - 1)) * 24
    + c.hour) * 60 + c.minute) * 60 + c.second) * 1000000000 + c.nanos

/-- `w` decimal digits denoting `n`. -/
def Digits (w n : Nat) (ds : Bytes) : Prop :=
  ds.length = w ∧ (∀ c ∈ ds, 48 ≤ c ∧ c ≤ 57) ∧
    ds.foldl (fun a c => 10 * a + (c.toNat - 48)) 0 = n

/-- `txt` is an RFC 3339 UTC timestamp for `c`. -/
def IsTimestamp (txt : Bytes) (c : Civil) : Prop :=
  ∃ y mo d h mi s frac,
    txt = y ++ ascii "-" ++ mo ++ ascii "-" ++ d ++ ascii "T" ++ h ++ ascii ":" ++ mi ++ ascii ":" ++ s
      ++ frac ++ ascii "Z" ∧
    Digits 4 c.year y ∧ Digits 2 c.month mo ∧ Digits 2 c.day d ∧
    Digits 2 c.hour h ∧ Digits 2 c.minute mi ∧ Digits 2 c.second s ∧
    ((frac = [] ∧ c.nanos = 0) ∨
      ∃ w n ds, frac = ascii "." ++ ds ∧ 1 ≤ w ∧ w ≤ 9 ∧ Digits w n ds ∧ c.nanos = n * 10 ^ (9 - w))

end Siwe.Spec
