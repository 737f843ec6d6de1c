import Verif.Model.DateTime
/-!
Instants and calendar dates: the fields of a UTC `datetime` for a number of microseconds since 1970 and back (`Value.datetime` carries the instant,
`DateTime` the fields that `strftime` and the constructor of `datetime` use). Proleptic Gregorian calendar, as in CPython's `datetime`.
-/
namespace Openleadr

def daysInYear (y : Nat) : Nat := if isLeap y then 366 else 365

/-- Days from the first day of year 1 to the first day of year `y`. -/
def yearStart : Nat → Nat
  | 0 => 0
  | 1 => 0
  | y + 2 => yearStart (y + 1) + daysInYear (y + 1)

/-- Days from the first of January to the first day of month `m`. -/
def monthStart (y : Nat) : Nat → Nat
  | 0 => 0
  | 1 => 0
  | m + 2 => monthStart y (m + 1) + daysInMonth y (m + 1)

/-- The year that contains the day `n` days after the first day of year `y`, and the day of that year (from 0). -/
def findYear : Nat → Nat → Nat → Nat × Nat
  | 0, y, n => (y, n)
  | fuel + 1, y, n => if n < daysInYear y then (y, n) else findYear fuel (y + 1) (n - daysInYear y)

/-- The same for the months of a year; day of the month from 0. -/
def findMonth (y : Nat) : Nat → Nat → Nat → Nat × Nat
  | 0, m, n => (m, n)
  | fuel + 1, m, n => if n < daysInMonth y m then (m, n) else findMonth y fuel (m + 1) (n - daysInMonth y m)

/-- Days from the first day of year 1 to the first of January 1970 (`date(1970, 1, 1).toordinal() - 1`). -/
def epochDays : Nat := 719162

/-- The fields of the instant `us` microseconds after 1970 (UTC). Python has no instants before year 1 and after year 9999. -/
def DateTime.ofMicros (us : Int) : DateTime :=
  let y := findYear 9999 1 (us / usPerDay + epochDays).toNat
  let m := findMonth y.1 11 1 y.2
  let t := (us % usPerDay).toNat
  { year := y.1, month := m.1, day := m.2 + 1, hour := t / 3600000000, minute := t / 60000000 % 60, second := t / 1000000 % 60, micro := t % 1000000 }

/-- The instant with these fields. -/
def DateTime.toMicros (d : DateTime) : Int :=
  ((yearStart d.year + monthStart d.year d.month + (d.day - 1) : Nat) - (epochDays : Int)) * usPerDay
    + ((d.hour * 3600000000 + d.minute * 60000000 + d.second * 1000000 + d.micro : Nat) : Int)

end Openleadr
