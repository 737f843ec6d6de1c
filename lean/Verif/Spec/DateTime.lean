/-! Specification of timestamp texts `YYYY-MM-DDThh:mm:ss[.][fraction]Z`, without reference to the parser. -/
namespace Openleadr.Spec

/-- A timestamp text, cut into its parts. -/
structure TimestampText where
  year : List Char
  month : List Char
  day : List Char
  hour : List Char
  minute : List Char
  second : List Char
  dot : Bool
  fraction : List Char
  rest : List Char

def digits (l : List Char) (n : Nat) : Prop := l.length = n ∧ ∀ c ∈ l, c.isDigit

structure TimestampText.WellFormed (t : TimestampText) : Prop where
  year : digits t.year 4
  month : digits t.month 2
  day : digits t.day 2
  hour : digits t.hour 2
  minute : digits t.minute 2
  second : digits t.second 2
  fraction : ∀ c ∈ t.fraction, c.isDigit

def TimestampText.text (t : TimestampText) : List Char :=
  t.year ++ '-' :: (t.month ++ '-' :: (t.day ++ 'T' :: (t.hour ++ ':' :: (t.minute ++ ':' :: (t.second ++
    ((if t.dot then ['.'] else []) ++ (t.fraction ++ 'Z' :: t.rest)))))))

/-- The number written by decimal digits. -/
def number (l : List Char) : Nat := Nat.ofDigitChars 10 l 0

/-- Whole microseconds of the decimal fraction `0.d₁d₂…dₖ`: ⌊d₁…dₖ · 10⁶ / 10ᵏ⌋. -/
def microsOfFraction (l : List Char) : Nat := number l * 1000000 / 10 ^ l.length

/-- The days of a month in the Gregorian calendar. -/
def monthLength (year month : Nat) : Nat :=
  match month with
  | 1 => 31 | 3 => 31 | 5 => 31 | 7 => 31 | 8 => 31 | 10 => 31 | 12 => 31
  | 4 => 30 | 6 => 30 | 9 => 30 | 11 => 30
  | 2 => if year % 400 = 0 ∨ (year % 4 = 0 ∧ year % 100 ≠ 0) then 29 else 28
  | _ => 0

/-- The fields form a date and time of day of the years 1 to 9999. -/
def validDateTime (year month day hour minute second micro : Nat) : Prop :=
  1 ≤ year ∧ year ≤ 9999 ∧ 1 ≤ month ∧ month ≤ 12 ∧ 1 ≤ day ∧ day ≤ monthLength year month ∧
  hour < 24 ∧ minute < 60 ∧ second < 60 ∧ micro < 1000000

end Openleadr.Spec
