import Verif.Py.Value
/-!
Durations: `timedeltaformat` and `parse_duration` (openleadr/utils.py).

A `timedelta` is its number of microseconds (an `Int`), which Python keeps normalised as
`days` (floor), `0 ≤ seconds < 86400`, `0 ≤ microseconds < 10^6`.
-/
namespace Openleadr

/-- Microseconds in a second, and in a day. -/
def usPerSec : Int := 1000000
def usPerDay : Int := 86400000000

/-- `timedelta.days` (floor division). -/
def tdDays (d : Int) : Int := d / usPerDay
/-- `timedelta.seconds` (0 ≤ seconds < 86400). -/
def tdSeconds (d : Int) : Nat := ((d % usPerDay) / usPerSec).toNat
/-- `timedelta.microseconds`. -/
def tdMicros (d : Int) : Nat := (d % usPerSec).toNat

/-- The constructor `timedelta(microseconds=us)`: `OverflowError` when `|days| > 999999999`
    (Python's documented range of `timedelta`). -/
def mkTimedelta (us : Int) : Res Int :=
  if -999999999 ≤ tdDays us ∧ tdDays us ≤ 999999999 then .ok us else .error .overflowError

/-- `f"{n}"` of a natural number. -/
def natText (n : Nat) : Text := Nat.toDigits 10 n

/-- `f"{n}"` of an integer. -/
def intText (n : Int) : Text := if n < 0 then '-' :: natText n.natAbs else natText n.natAbs

/-- openleadr/utils.py:328-348 `timedeltaformat` on a timedelta. -/
def timedeltaformat (value : Int) : Text :=
  let days := tdDays value                              -- 334
  let hours := tdSeconds value / 3600                   -- 335
  let seconds := tdSeconds value % 3600
  let minutes := seconds / 60                           -- 336
  let seconds := seconds % 60
  ['P']                                                 -- 337
    ++ (if days ≠ 0 then intText days ++ ['D'] else []) -- 338-339
    ++ (if hours ≠ 0 ∨ minutes ≠ 0 ∨ seconds ≠ 0 then ['T'] else [])  -- 340-341
    ++ (if hours ≠ 0 then natText hours ++ ['H'] else [])             -- 342-343
    ++ (if minutes ≠ 0 then natText minutes ++ ['M'] else [])         -- 344-345
    ++ (if seconds ≠ 0 then natText seconds ++ ['S'] else [])         -- 346-347

/-- `int(g)` on a text of ASCII digits. (Python's 4300 digit limit is not modelled.) -/
def intOfDigits (ds : Text) : Nat := Nat.ofDigitChars 10 ds 0

/-- One optional group `(?:(\d+)C)?` of the regular expression, matched at the start of `s`.
    `\d+` takes all leading digits; giving digits back cannot make the following letter match. -/
def optGroup (c : Char) (s : Text) : Option Text × Text :=
  match s.dropWhile Char.isDigit with
  | [] => (none, s)
  | c' :: rest =>
    if c' = c ∧ s.takeWhile Char.isDigit ≠ [] then (some (s.takeWhile Char.isDigit), rest) else (none, s)

/-- `int(g) if g else 0` (openleadr/utils.py:297). -/
def groupInt (g : Option Text) : Nat :=
  match g with
  | none => 0
  | some ds => intOfDigits ds

/-- The optional sign `(\+|\-)?` of the regular expression, matched at the start. -/
def optSign (s : Text) : Option Char × Text :=
  match s with
  | '+' :: r => (some '+', r)
  | '-' :: r => (some '-', r)
  | s => (none, s)

/-- The optional `T?`. -/
def skipT (s : Text) : Text :=
  match s with
  | 'T' :: r => r
  | s => s

/-- The groups of `re.match(regex, value)` (openleadr/utils.py:293-294):
    `(sign, [years, months, days, hours, minutes, seconds, weeks])`, or `none` when there is no match.
    The regular expression is `A|B` where `A` is the sign, the letter P and six optional groups and `B`
    is `(?:(\d+)W)`: the week alternative applies to the whole pattern, not to the part after P.
    (`re.match` does not look at what follows the match.)  -/
def durationMatch (value : Text) : Option (Option Char × List (Option Text)) :=
  match optSign value with
  | (sign, 'P' :: s) =>
    let (years, s) := optGroup 'Y' s
    let (months, s) := optGroup 'M' s
    let (days, s) := optGroup 'D' s
    let s := skipT s
    let (hours, s) := optGroup 'H' s
    let (minutes, s) := optGroup 'M' s
    let (seconds, _) := optGroup 'S' s
    some (sign, [years, months, days, hours, minutes, seconds, none])
  | _ =>
    match optGroup 'W' value with
    | (some w, _) => some (none, [none, none, none, none, none, none, some w])
    | (none, _) => none

/-- openleadr/utils.py:287-309 `parse_duration` on a text. -/
def parseDuration (value : Text) : Res Int :=
  match durationMatch value with
  | some (sign, [years, months, days, hours, minutes, seconds, weeks]) =>
    let days := groupInt days + 365 * groupInt years + 30 * groupInt months     -- 298-305
    -- 306: timedelta(weeks=, days=, hours=, minutes=, seconds=)
    match mkTimedelta (usPerSec * (((groupInt weeks * 7 + days) * 86400 + groupInt hours * 3600
                        + groupInt minutes * 60 + groupInt seconds : Nat) : Int)) with
    | .error e => .error e
    | .ok duration =>
      if sign = some '-' then mkTimedelta (-1 * duration) else .ok duration      -- 307-309
  | _ => .error .valueError                                                      -- 295-296

/-- `parse_duration` on an arbitrary value: a timedelta is returned as it is (291-292), a value that is neither
    a timedelta nor a text makes `re.match` raise `TypeError` (294). -/
def parseDurationV (value : Value) : Res Value :=
  match value with
  | .timedelta d => .ok (.timedelta d)
  | .str s => (parseDuration s.toList).map .timedelta
  | _ => .error .typeError

/-- `timedeltaformat` on an arbitrary value: other values are returned unchanged (332-333). -/
def timedeltaformatV (value : Value) : Value :=
  match value with
  | .timedelta d => .str (String.ofList (timedeltaformat d))
  | v => v

end Openleadr
