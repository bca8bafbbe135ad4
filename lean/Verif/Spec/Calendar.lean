import Verif.Http
/-
The Gregorian calendar and the UTC clock, specified by how one day follows another and how one second follows another,
and the fixed-length date of HTTP (IMF-fixdate, RFC 9110 §5.6.7).
-/
namespace Httpsig

def isLeapYear (y : Int) : Prop := y % 4 = 0 ∧ (y % 100 ≠ 0 ∨ y % 400 = 0)

instance (y : Int) : Decidable (isLeapYear y) := inferInstanceAs (Decidable (_ ∧ _))

/-- Length of a month (1 = January). -/
def monthLength (y m : Int) : Int :=
  if m = 2 then (if isLeapYear y then 29 else 28)
  else if m = 4 ∨ m = 6 ∨ m = 9 ∨ m = 11 then 30
  else 31

/-- The day after a date. -/
def nextDay : Int × Int × Int → Int × Int × Int
  | (y, m, d) =>
    if d < monthLength y m then (y, m, d + 1)
    else if m < 12 then (y, m + 1, 1)
    else (y + 1, 1, 1)

/-- A reading of a UTC calendar clock (weekday 0 = Sunday). -/
structure Clock where
  weekday : Int
  date : Int × Int × Int
  hour : Int
  minute : Int
  second : Int
deriving DecidableEq

/-- One second later. -/
def Clock.tick (c : Clock) : Clock :=
  if c.second < 59 then { c with second := c.second + 1 }
  else if c.minute < 59 then { c with second := 0, minute := c.minute + 1 }
  else if c.hour < 23 then { c with second := 0, minute := 0, hour := c.hour + 1 }
  else ⟨if c.weekday = 6 then 0 else c.weekday + 1, nextDay c.date, 0, 0, 0⟩

/-- Thursday, 1 January 1970, 00:00:00. -/
def Clock.epoch : Clock := ⟨4, (1970, 1, 1), 0, 0, 0⟩

/-- The clock a number of seconds after the epoch. -/
def Clock.after : Nat → Clock
  | 0 => .epoch
  | n + 1 => (Clock.after n).tick

/-- The decimal digit of a number below ten. -/
def digitOf (n : Nat) : Char := Char.ofNat (48 + n)

/-- Two digits. -/
def twoDigits (n : Nat) : Str := [digitOf (n / 10), digitOf (n % 10)]

/-- Four digits. -/
def fourDigits (n : Nat) : Str := twoDigits (n / 100) ++ twoDigits (n % 100)

def dayNames : List Str := [str% "Sun", str% "Mon", str% "Tue", str% "Wed", str% "Thu", str% "Fri", str% "Sat"]

def monthNames : List Str :=
  [str% "Jan", str% "Feb", str% "Mar", str% "Apr", str% "May", str% "Jun",
   str% "Jul", str% "Aug", str% "Sep", str% "Oct", str% "Nov", str% "Dec"]

/-- IMF-fixdate. -/
def Clock.imf (c : Clock) : Str :=
  (dayNames[c.weekday.toNat]?.getD []) ++ [',', ' '] ++ twoDigits c.date.2.2.toNat ++ [' '] ++
  (monthNames[c.date.2.1.toNat - 1]?.getD []) ++ [' '] ++ fourDigits c.date.1.toNat ++ [' '] ++
  twoDigits c.hour.toNat ++ [':'] ++ twoDigits c.minute.toNat ++ [':'] ++ twoDigits c.second.toNat ++ [' ', 'G', 'M', 'T']

/-- A year in any number of digits: four digits for the years 0 to 9999, else a sign and at least four digits. -/
def yearText (y : Int) : Str :=
  if 0 ≤ y ∧ y ≤ 9999 then fourDigits y.toNat
  else (if y < 0 then '-' else '+') :: (if y.natAbs < 10000 then fourDigits y.natAbs else (toString y.natAbs).toList)

/-- Like IMF-fixdate, with any year. -/
def Clock.text (c : Clock) : Str :=
  (dayNames[c.weekday.toNat]?.getD []) ++ [',', ' '] ++ twoDigits c.date.2.2.toNat ++ [' '] ++
  (monthNames[c.date.2.1.toNat - 1]?.getD []) ++ [' '] ++ yearText c.date.1 ++ [' '] ++
  twoDigits c.hour.toNat ++ [':'] ++ twoDigits c.minute.toNat ++ [':'] ++ twoDigits c.second.toNat ++ [' ', 'G', 'M', 'T']

end Httpsig
