import Verif.Model.Duration
/-!
Schedules (openleadr/utils.py:499-523 `cron_config`). The result is handed to APScheduler's cron trigger, whose meaning is modelled by
`cronFires` (assumption about the library: a field `*/n` of the seconds, minutes or hours matches the values 0, n, 2n, … of the field,
a step of 0 is refused).
-/
namespace Openleadr

/-- One field of a cron expression: `*`, a literal, or `*/n`. -/
inductive CronField
  | star
  | lit (n : Nat)
  | every (n : Nat)
  deriving DecidableEq, Repr

/-- The dict that `cron_config` returns. -/
structure CronConfig where
  second : CronField
  minute : CronField
  hour : CronField
  jitter : Option Int
  deriving DecidableEq, Repr

/-- `timedelta(minutes=1)`, `timedelta(hours=1)`, `timedelta(hours=24)` in microseconds. -/
def usPerMin : Int := 60 * 1000000
def usPerHour : Int := 3600 * 1000000

/-- openleadr/utils.py:499-523 `cron_config`. `interval` in microseconds; `int(x / 60)` truncates towards zero (the float division is
    exact enough below one day: results closer to an integer than 1e-8 do not occur). -/
def cronConfig (interval : Int) (randomizeSeconds : Bool) : CronConfig :=
  let jitter : Option Int :=
    if randomizeSeconds then some (min (Int.tdiv interval (10 * 1000000)) 300) else none      -- 520-522
  if interval < usPerMin then
    { second := .every (tdSeconds interval), minute := .star, hour := .star, jitter }    -- 503-506
  else if interval < usPerHour then
    { second := .lit 0, minute := .every (Int.tdiv interval usPerMin).toNat, hour := .star, jitter }  -- 507-510
  else if interval < usPerDay then
    { second := .lit 0, minute := .lit 0, hour := .every (Int.tdiv interval usPerHour).toNat, jitter } -- 511-514
  else
    { second := .lit 0, minute := .lit 0, hour := .lit 0, jitter }                             -- 515-518

/-- Does a field accept a value (APScheduler)? -/
def CronField.accepts : CronField → Nat → Bool
  | .star, _ => true
  | .lit n, v => v == n
  | .every n, v => v % n == 0

/-- APScheduler refuses a step of zero when the trigger is made. -/
def CronField.valid : CronField → Bool
  | .every 0 => false
  | _ => true

/-- The trigger can be made. -/
def CronConfig.valid (c : CronConfig) : Bool := c.second.valid && c.minute.valid && c.hour.valid

/-- The trigger (without jitter) fires at the instant `t` (microseconds since a midnight). -/
def cronFires (c : CronConfig) (t : Nat) : Bool :=
  t % 1000000 == 0 &&
  c.second.accepts (t / 1000000 % 60) && c.minute.accepts (t / 1000000 / 60 % 60) && c.hour.accepts (t / 1000000 / 3600 % 24)

end Openleadr
