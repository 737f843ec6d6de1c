import Verif.Model.Duration
/-!
Timestamps: `datetimeformat` and `parse_datetime` (openleadr/utils.py).
A `datetime` is modelled by its fields in UTC (`astimezone(timezone.utc)` of line 325 is taken as already done).
-/
namespace Openleadr

/-- The fields of a `datetime.datetime` in UTC. -/
structure DateTime where
  year : Nat
  month : Nat
  day : Nat
  hour : Nat
  minute : Nat
  second : Nat
  micro : Nat
  deriving DecidableEq, Repr

def isLeap (y : Nat) : Bool := y % 4 == 0 && (y % 100 != 0 || y % 400 == 0)

def daysInMonth (y m : Nat) : Nat :=
  if m = 2 then (if isLeap y then 29 else 28)
  else if m = 4 ∨ m = 6 ∨ m = 9 ∨ m = 11 then 30 else 31

/-- The range checks of the constructor `datetime(...)` (CPython `check_date_args`, `check_time_args`). -/
def DateTime.valid (d : DateTime) : Bool :=
  decide (1 ≤ d.year ∧ d.year ≤ 9999 ∧ 1 ≤ d.month ∧ d.month ≤ 12 ∧ 1 ≤ d.day ∧ d.day ≤ daysInMonth d.year d.month
    ∧ d.hour ≤ 23 ∧ d.minute ≤ 59 ∧ d.second ≤ 59 ∧ d.micro ≤ 999999)

/-- Decimal text of `n`, zero padded on the left to width `w`. -/
def padText (w n : Nat) : Text := List.replicate (w - (natText n).length) '0' ++ natText n

/-- openleadr/utils.py:319-325 `datetimeformat` on a datetime, with the default format
    `"%Y-%m-%dT%H:%M:%S.%fZ"` (line 31). `%Y` is not padded (glibc). -/
def datetimeformat (d : DateTime) : Text :=
  natText d.year ++ ['-'] ++ padText 2 d.month ++ ['-'] ++ padText 2 d.day ++ ['T'] ++ padText 2 d.hour ++ [':']
    ++ padText 2 d.minute ++ [':'] ++ padText 2 d.second ++ ['.'] ++ padText 6 d.micro ++ ['Z']

/-- `(\d{n})` at the start of the text: exactly `n` digits. -/
def takeDigits (n : Nat) (s : Text) : Option (Text × Text) :=
  match n, s with
  | 0, s => some ([], s)
  | n + 1, c :: s => if c.isDigit then (takeDigits n s).map (fun (ds, r) => (c :: ds, r)) else none
  | _ + 1, [] => none

/-- A literal character of the regular expression. -/
def lit (c : Char) (s : Text) : Option Text :=
  match s with
  | c' :: r => if c' = c then some r else none
  | [] => none

/-- The result of `parse_datetime`: a datetime, or the text itself when it does not have the format. -/
inductive DtResult
  | dt (d : DateTime)
  | unchanged (t : Text)
  deriving DecidableEq, Repr

/-- The groups of `re.match` (openleadr/utils.py:273): year, month, day, hour, minute, second and the fraction.
    `\.?(\d{1,6})?\d*Z`: an optional dot, all digits (the first six of them are the group), then `Z`. -/
def datetimeMatch (s : Text) : Option (Text × Text × Text × Text × Text × Text × Option Text) := do
  let (y, s) ← takeDigits 4 s
  let s ← lit '-' s
  let (mo, s) ← takeDigits 2 s
  let s ← lit '-' s
  let (d, s) ← takeDigits 2 s
  let s ← lit 'T' s
  let (h, s) ← takeDigits 2 s
  let s ← lit ':' s
  let (mi, s) ← takeDigits 2 s
  let s ← lit ':' s
  let (sec, s) ← takeDigits 2 s
  let s := (lit '.' s).getD s
  let ds := s.takeWhile Char.isDigit
  let _ ← lit 'Z' (s.dropWhile Char.isDigit)
  some (y, mo, d, h, mi, sec, if ds = [] then none else some (ds.take 6))

/-- openleadr/utils.py:276-280: the microseconds of the fraction group, padded with zeros on the right. -/
def microOfGroup (frac : Option Text) : Nat :=
  match frac with
  | none => 0
  | some f => intOfDigits (f ++ List.replicate (6 - f.length) '0')

/-- openleadr/utils.py:269-284 `parse_datetime` on a text. -/
def parseDatetime (value : Text) : Res DtResult :=
  match datetimeMatch value with
  | some (y, mo, d, h, mi, s, frac) =>
    let micro := microOfGroup frac                                                     -- 276-280
    let dt : DateTime := ⟨intOfDigits y, intOfDigits mo, intOfDigits d, intOfDigits h, intOfDigits mi, intOfDigits s, micro⟩
    if dt.valid then .ok (.dt dt) else .error .valueError                              -- 281
  | none => .ok (.unchanged value)                                                     -- 282-284

end Openleadr
