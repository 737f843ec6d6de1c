import Verif.Model.DateTime
/-!
Replay protection of signed messages (openleadr/messaging.py:175-216).
-/
namespace Openleadr

/-- Days before 1 January of the year (CPython `_days_before_year`). -/
def daysBeforeYear (y : Nat) : Nat := (y - 1) * 365 + (y - 1) / 4 - (y - 1) / 100 + (y - 1) / 400

/-- Days in the year before the first of the month (CPython `_days_before_month`). -/
def daysBeforeMonth (y m : Nat) : Nat := ((List.range (m - 1)).map (fun i => daysInMonth y (i + 1))).sum

/-- The instant of a UTC datetime in microseconds; comparing two aware datetimes compares these. -/
def DateTime.micros (d : DateTime) : Int :=
  ((((((daysBeforeYear d.year + daysBeforeMonth d.year d.month + d.day : Nat) : Int) * 24 + d.hour) * 60 + d.minute) * 60 + d.second)
    * 1000000 + d.micro)

/-- openleadr/messaging.py:215 `REPLAY_PROTECT_MAX_TIME_DELTA`, in microseconds. -/
def maxAge : Int := 5000000

/-- openleadr/messaging.py:216 `NONCE_CACHE`, a set of pairs, as a list without repetitions. -/
abbrev NonceCache := List (DateTime × String)

/-- The readings of the clock and the iteration order of the set, which is arbitrary. -/
structure Surroundings where
  clock : Nat → Int
  order : NonceCache → NonceCache

/-- The loop of openleadr/messaging.py:209-211: the `j`-th pair is compared with reading `i + j`. -/
def evict (clock : Nat → Int) : Nat → NonceCache → NonceCache
  | _, [] => []
  | i, x :: xs => if x.1.micros < clock i - maxAge then evict clock (i + 1) xs else x :: evict clock (i + 1) xs

/-- openleadr/messaging.py:207-211 `_update_nonce_cache`, from reading `i` on. -/
def updateNonceCache (s : Surroundings) (i : Nat) (cache : NonceCache) (x : DateTime × String) : NonceCache :=
  evict s.clock i (s.order (if x ∈ cache then cache else cache ++ [x]))

/-- What `_verify_replay_protect` finds in the message: `findtext` for timestamp and nonce. -/
structure Stamp where
  timestamp : Option Text
  nonce : Option String
  deriving DecidableEq, Repr

/-- openleadr/messaging.py:190-204 `_verify_replay_protect` with the clock from reading `i` on. A missing timestamp makes `parse_datetime`
    raise `TypeError`, which becomes `ValueError` like every error there (195-196); a text that is not a timestamp is handed back by
    `parse_datetime` and cannot be compared with a datetime. -/
def verifyReplay (s : Surroundings) (i : Nat) (cache : NonceCache) (m : Stamp) : NonceCache × Res Unit :=
  match m.timestamp with
  | none => (cache, .error .valueError)
  | some text =>
    match parseDatetime text with
    | .error _ => (cache, .error .valueError)                                   -- 195-196
    | .ok parsed =>
      match m.nonce with
      | none => (cache, .error .valueError)                                     -- 198-199
      | some nonce =>
        match parsed with
        | .unchanged _ => (cache, .error .typeError)                            -- 200: str < datetime
        | .dt t =>
          if t.micros < s.clock i - maxAge then (cache, .error .valueError)     -- 200-201
          else if (t, nonce) ∈ cache then (cache, .error .valueError)           -- 202-203
          else (updateNonceCache s (i + 1) cache (t, nonce), .ok ())            -- 204

/-- The number of readings a check makes at most (one for the age, one for each pair of the cache). -/
def readings (cache : NonceCache) : Nat := cache.length + 2

/-- A sequence of checks; for each message whether it was accepted. -/
def runChecks (s : Surroundings) : Nat → NonceCache → List Stamp → NonceCache × List Bool
  | _, cache, [] => (cache, [])
  | i, cache, m :: ms =>
    let x := verifyReplay s i cache m
    let y := runChecks s (i + readings cache) x.1 ms
    (y.1, x.2.isOk :: y.2)

/-- openleadr/messaging.py:175-187 `_create_replay_protect`: the stamp of a message that is made at `now` with the nonce of `uuid4().hex`. -/
def createReplay (now : DateTime) (nonce : String) : Stamp := ⟨some (datetimeformat now), some nonce⟩

end Openleadr
