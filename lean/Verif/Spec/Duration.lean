/-!
Specification of duration texts (RFC 5545 `dur-value`, with the year and month parts that the library also documents).
Independent of the model: only core list and digit printing functions.
-/
namespace Openleadr.Spec

/-- A number as written: some leading zeros and the decimal digits of the value. -/
structure Num where
  zeros : Nat
  val : Nat

/-- The text of a number. -/
def Num.text (n : Num) : List Char := List.replicate n.zeros '0' ++ Nat.toDigits 10 n.val

/-- An optional part of a duration text: the number and its letter. -/
def part (n : Option Num) (letter : Char) : List Char :=
  match n with
  | none => []
  | some n => n.text ++ [letter]

def val (n : Option Num) : Nat :=
  match n with
  | none => 0
  | some n => n.val

/-- `+` or `-` or nothing. -/
inductive Sign | none | plus | minus

def Sign.text : Sign → List Char
  | .none => []
  | .plus => ['+']
  | .minus => ['-']

def Sign.factor : Sign → Int
  | .minus => -1
  | _ => 1

/-- The time part, introduced by `T`. -/
structure TimePart where
  hours : Option Num
  minutes : Option Num
  seconds : Option Num

/-- A duration in the date/time form. -/
structure DateDuration where
  sign : Sign
  years : Option Num
  months : Option Num
  days : Option Num
  time : Option TimePart

def DateDuration.text (d : DateDuration) : List Char :=
  d.sign.text ++ ['P'] ++ part d.years 'Y' ++ part d.months 'M' ++ part d.days 'D' ++
    match d.time with
    | none => []
    | some t => ['T'] ++ part t.hours 'H' ++ part t.minutes 'M' ++ part t.seconds 'S'

/-- The number of seconds that a duration text means, without its sign (1 year = 365 days, 1 month = 30 days). -/
def DateDuration.magnitude (d : DateDuration) : Nat :=
  86400 * (365 * val d.years + 30 * val d.months + val d.days) +
    match d.time with
    | none => 0
    | some t => 3600 * val t.hours + 60 * val t.minutes + val t.seconds

/-- The number of seconds that a duration text means. -/
def DateDuration.seconds (d : DateDuration) : Int := d.sign.factor * d.magnitude

/-- A duration in the week form. -/
structure WeekDuration where
  sign : Sign
  weeks : Num

def WeekDuration.text (d : WeekDuration) : List Char := d.sign.text ++ ['P'] ++ d.weeks.text ++ ['W']

def WeekDuration.seconds (d : WeekDuration) : Int := d.sign.factor * (7 * 86400 * d.weeks.val : Nat)

/-- The durations (in whole seconds) that Python's `timedelta` can hold (documented range of `timedelta`). -/
def inTimedeltaRange (secs : Int) : Prop := -(999999999 * 86400) ≤ secs ∧ secs < 1000000000 * 86400

instance (s : Int) : Decidable (inTimedeltaRange s) := inferInstanceAs (Decidable (_ ∧ _))

/-- Largest timedelta of Python: `timedelta(days=999999999, hours=23, minutes=59, seconds=59, microseconds=999999)`. -/
def maxTimedelta : Int := 1000000000 * 86400 * 1000000 - 1

/-- Smallest timedelta of Python: `timedelta(-999999999)`. -/
def minTimedelta : Int := -(999999999 * 86400 * 1000000)

end Openleadr.Spec
