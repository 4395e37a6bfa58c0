import Verif.Base.Basic

/-! The Gregorian calendar, Unix time, and the two ASN.1 time formats of RFC 5280. -/

namespace Verif.Spec

def isLeap (y : Nat) : Bool := (decide (y % 4 = 0) && !decide (y % 100 = 0)) || decide (y % 400 = 0)

def monthLength (y : Nat) : Nat → Nat
  | 2 => if isLeap y then 29 else 28
  | 4 | 6 | 9 | 11 => 30
  | _ => 31

/-- Days from the start of year 0 (proleptic Gregorian calendar) to the start of year `y`. -/
def daysBeforeYear : Nat → Nat
  | 0 => 0
  | y + 1 => daysBeforeYear y + if isLeap y then 366 else 365

/-- Days from the start of year `y` to the start of its month `m`. -/
def daysBeforeMonth (y m : Nat) : Nat := ((List.range (m - 1)).map (fun i => monthLength y (i + 1))).sum

structure DateTime where
  year : Nat
  month : Nat
  day : Nat
  hour : Nat
  minute : Nat
  second : Nat

/-- An existing date and time of day, with a four-digit year. -/
structure DateTime.Valid (d : DateTime) : Prop where
  year : d.year ≤ 9999
  month1 : 1 ≤ d.month
  month2 : d.month ≤ 12
  day1 : 1 ≤ d.day
  day2 : d.day ≤ monthLength d.year d.month
  hour : d.hour < 24
  minute : d.minute < 60
  second : d.second < 60

/-- Seconds since 1970-01-01 00:00:00 UTC, without leap seconds (POSIX). -/
def unixTime (d : DateTime) : Int :=
  ((daysBeforeYear d.year : Int) + daysBeforeMonth d.year d.month + d.day - 1 - daysBeforeYear 1970) * 86400 + d.hour * 3600 + d.minute * 60 + d.second

/-- The last `k` decimal digits of `n`, in ASCII. -/
def decimal : Nat → Nat → List Byte
  | 0, _ => []
  | k + 1, n => decimal k (n / 10) ++ [BitVec.ofNat 8 (48 + n % 10)]

/-- month, day, hours, minutes, seconds and the letter Z -/
def timeTail (d : DateTime) : List Byte :=
  decimal 2 d.month ++ decimal 2 d.day ++ decimal 2 d.hour ++ decimal 2 d.minute ++ decimal 2 d.second ++ ascii "Z"

/-- GeneralizedTime as RFC 5280 4.1.2.5.2 prescribes: YYYYMMDDHHMMSSZ -/
def generalizedTime (d : DateTime) : List Byte := decimal 4 d.year ++ timeTail d

/-- UTCTime as RFC 5280 4.1.2.5.1 prescribes: YYMMDDHHMMSSZ, for the years 1950 - 2049 -/
def utcTime (d : DateTime) : List Byte := decimal 2 (d.year % 100) ++ timeTail d

end Verif.Spec
