import Verif.Model.Members
/-!
Measurements: openleadr/enums.py:203-417, openleadr/objects.py:147-161, openleadr/utils.py:557-606.
-/
namespace Openleadr

/-- openleadr/enums.py:203-221 `_CURRENCIES` -/
def currencies : List String :=
  ["AFN", "ALL", "AMD", "ANG", "AOA", "ARS", "AUD", "AWG", "AZN", "BAM", "BBD", "BDT", "BGN", "BHD", "BIF", "BMD", "BND", "BOB",
   "BOV", "BRL", "BSD", "BTN", "BWP", "BYR", "BZD", "CAD", "CDF", "CHE", "CHF", "CHW", "CLF", "CLP", "CNY", "COP", "COU", "CRC",
   "CUC", "CUP", "CVE", "CZK", "DJF", "DKK", "DOP", "DZD", "EEK", "EGP", "ERN", "ETB", "EUR", "FJD", "FKP", "GBP", "GEL", "GHS",
   "GIP", "GMD", "GNF", "GTQ", "GWP", "GYD", "HKD", "HNL", "HRK", "HTG", "HUF", "IDR", "ILS", "INR", "IQD", "IRR", "ISK", "JMD",
   "JOD", "JPY", "KES", "KGS", "KHR", "KMF", "KPW", "KRW", "KWD", "KYD", "KZT", "LAK", "LBP", "LKR", "LRD", "LSL", "LTL", "LVL",
   "LYD", "MAD", "MAD", "MDL", "MGA", "MKD", "MMK", "MNT", "MOP", "MRO", "MUR", "MVR", "MWK", "MXN", "MXV", "MYR", "MZN", "NAD",
   "NGN", "NIO", "NOK", "NPR", "NZD", "OMR", "PAB", "PEN", "PGK", "PHP", "PKR", "PLN", "PYG", "QAR", "RON", "RSD", "RUB", "RWF",
   "SAR", "SBD", "SCR", "SDG", "SEK", "SGD", "SHP", "SLL", "SOS", "SRD", "STD", "SVC", "SYP", "SZL", "THB", "TJS", "TMT", "TND",
   "TOP", "TRY", "TTD", "TWD", "TZS", "UAH", "UGX", "USD", "USN", "USS", "UYI", "UYU", "UZS", "VEF", "VND", "VUV", "WST", "XAF",
   "XAG", "XAU", "XBA", "XBB", "XBC", "XBD", "XCD", "XDR", "XFU", "XOF", "XPD", "XPF", "XPF", "XPF", "XPT", "XTS", "XXX", "YER",
   "ZAR", "ZMK", "ZWL"]

/-- openleadr/enums.py:223-238 `_ACCEPTABLE_UNITS` -/
def acceptableUnits : List (String × List String) :=
  [("currency", currencies),
   ("currencyPerKW", currencies),
   ("currencyPerKWh", currencies),
   ("currencyPerThm", currencies),
   ("current", ["A"]),
   ("energyApparent", ["VAh"]),
   ("energyReactive", ["VARh"]),
   ("energyReal", ["Wh"]),
   ("frequency", ["Hz"]),
   ("powerApparent", ["VA"]),
   ("powerReactive", ["VAR"]),
   ("powerReal", ["W"]),
   ("pulseCount", ["count"]),
   ("temperature", ["celsius", "fahrenheit"]),
   ("Therm", ["thm"]),
   ("voltage", ["V"])]

/-- openleadr/enums.py:240-255 `_MEASUREMENT_DESCRIPTIONS` -/
def measurementDescriptions : List (String × String) :=
  [("currency", "currency"),
   ("currencyPerKW", "currencyPerKW"),
   ("currencyPerKWh", "currencyPerKWh"),
   ("currencyPerThm", "currency"),
   ("current", "Current"),
   ("energyApparent", "ApparentEnergy"),
   ("energyReactive", "ReactiveEnergy"),
   ("energyReal", "RealEnergy"),
   ("frequency", "Frequency"),
   ("powerApparent", "ApparentPower"),
   ("powerReactive", "ReactivePower"),
   ("powerReal", "RealPower"),
   ("pulseCount", "pulse count"),
   ("temperature", "temperature"),
   ("Therm", "Therm"),
   ("voltage", "Voltage")]

/-- openleadr/enums.py:257-273 `_MEASUREMENT_NAMESPACES`; the second key is spelled as in the source. -/
def measurementNamespaces : List (String × String) :=
  [("currency", "oadr"),
   ("currencyPerWK", "oadr"),
   ("currencyPerKWh", "oadr"),
   ("currencyPerThm", "oadr"),
   ("current", "oadr"),
   ("energyApparent", "power"),
   ("energyReactive", "power"),
   ("energyReal", "power"),
   ("frequency", "oadr"),
   ("powerApparent", "power"),
   ("powerReactive", "power"),
   ("powerReal", "power"),
   ("pulseCount", "oadr"),
   ("temperature", "oadr"),
   ("Therm", "oadr"),
   ("voltage", "power"),
   ("customUnit", "oadr")]

/-- Python's `str.lower`, for ASCII letters (all texts it is compared with are ASCII). -/
def lowerText (s : String) : List Char := s.toList.map Char.toLower

/-- `'power' in name` -/
def mentionsPower (name : String) : Bool := isInfix "power".toList name.toList

/-- `key in value`: dicts have keys, lists and tuples have members, texts have parts; anything else, also a dataclass instance, raises
    `TypeError`. -/
def pyIn (key : String) (value : Value) : Res Bool :=
  match value with
  | .dict d => .ok (Dict.has d key)
  | .list l => .ok (l.contains (.str key))
  | .tuple l => .ok (l.contains (.str key))
  | .str s => .ok (isInfix key.toList s.toList)
  | _ => .error .typeError

/-- openleadr/utils.py:595-606: the attributes of a power measurement. -/
def checkPower (name : String) (m : Dict) : Res Unit :=
  if mentionsPower name then
    match Dict.get? m "power_attributes" with
    | some a =>
      match pyIn "voltage" a, pyIn "ac" a, pyIn "hertz" a with
      | .ok true, .ok true, .ok true => .ok ()
      | .error e, _, _ => .error e
      | .ok false, _, _ => .error .valueError                                            -- 597-601
      | .ok true, .error e, _ => .error e
      | .ok true, .ok false, _ => .error .valueError
      | .ok true, .ok true, .error e => .error e
      | .ok true, .ok true, .ok false => .error .valueError
    | none => .error .valueError                                                         -- 602-606
  else .ok ()

/-- openleadr/utils.py:571-593: name, description and unit; the dict after the corrections. -/
def checkNamed (name : String) (description unit : Value) (m : Dict) : Dict × Res Unit :=
  match Dict.get? measurementDescriptions name with                                      -- 571
  | some required =>
    let checkUnit (m : Dict) : Dict × Res Unit :=
      match Dict.get? acceptableUnits name with                                          -- 586
      | some units =>
        match unit with
        | .str u => if units.contains u then (m, .ok ()) else (m, .error .valueError)    -- 586-588
        | _ => (m, .error .valueError)
      | none => (m, .error .keyError)
    match description with
    | .str d =>
      if d = required then checkUnit m                                                   -- 573
      else if lowerText d = lowerText required then checkUnit (Dict.set m "description" (.str required))   -- 574-579
      else (m, .error .valueError)                                                       -- 580-584
    | _ => (m, .error .attributeError)                                                   -- `description.lower()`
  | none =>
    if name = "customUnit" then (m, .ok ())                                              -- 590
    else (Dict.set m "name" (.str "customUnit"), .ok ())                                 -- 591-594

/-- openleadr/utils.py:557-606 `validate_report_measurement_dict`: the dict afterwards and whether it was accepted. A name that is no text is
    taken to raise `TypeError` (`'power' in name`; for a list or dict the outcome is not modelled exactly). -/
def validateMeasurement (m : Dict) : Dict × Res Unit :=
  match Dict.get? m "name", Dict.get? m "description", Dict.get? m "unit" with
  | some name, some description, some unit =>
    match name with
    | .str name =>
      match checkNamed name description unit m with
      | (m', .error e) => (m', .error e)
      | (m', .ok ()) => (m', checkPower name m')
    | _ => (m, .error .typeError)
  | _, _, _ => (m, .error .valueError)                                                   -- 560-564

/-- openleadr/objects.py:140-161 `Measurement` (with `PowerAttributes`). -/
structure Measurement where
  name : String
  description : String
  unit : Option String
  acceptable : List String := []
  scale : Option String := none
  power : Option (Int × Int × Bool) := none
  pulseFactor : Option Int := none
  ns : String := "power"
  deriving DecidableEq, Repr, Inhabited

/-- openleadr/objects.py:158-161 `Measurement.__post_init__`. -/
def Measurement.init (m : Measurement) : Measurement :=
  match Dict.get? measurementNamespaces m.name with
  | some ns => { m with ns := ns }
  | none => { m with name := "customUnit", ns := (Dict.get? measurementNamespaces "customUnit").getD "" }

/-- One member of `MEASUREMENTS`: description and units from the tables, the unit is the first acceptable one. -/
def standardMeasurement (name : String) (scale : Option String) (power : Option (Int × Int × Bool)) (pulse : Option Int) : Measurement :=
  ({ name := name, description := (Dict.get? measurementDescriptions name).getD "", unit := ((Dict.get? acceptableUnits name).getD []).head?,
     acceptable := (Dict.get? acceptableUnits name).getD [], scale := scale, power := power, pulseFactor := pulse } : Measurement).init

/-- openleadr/enums.py:276-417 `MEASUREMENTS`. -/
def standardMeasurements : List (String × Measurement) :=
  [("VOLTAGE", standardMeasurement "voltage" (some "none") none none),
   ("CURRENT", standardMeasurement "current" (some "none") none none),
   ("ENERGY_REAL", standardMeasurement "energyReal" (some "none") none none),
   ("REAL_ENERGY", standardMeasurement "energyReal" (some "none") none none),
   ("ACTIVE_ENERGY", standardMeasurement "energyReal" (some "none") none none),
   ("ENERGY_REACTIVE", standardMeasurement "energyReactive" (some "none") none none),
   ("REACTIVE_ENERGY", standardMeasurement "energyReactive" (some "none") none none),
   ("ENERGY_APPARENT", standardMeasurement "energyApparent" (some "none") none none),
   ("APPARENT_ENERGY", standardMeasurement "energyApparent" (some "none") none none),
   ("ACTIVE_POWER", standardMeasurement "powerReal" (some "none") (some (50, 230, true)) none),
   ("REAL_POWER", standardMeasurement "powerReal" (some "none") (some (50, 230, true)) none),
   ("POWER_REAL", standardMeasurement "powerReal" (some "none") (some (50, 230, true)) none),
   ("REACTIVE_POWER", standardMeasurement "powerReactive" (some "none") (some (50, 230, true)) none),
   ("POWER_REACTIVE", standardMeasurement "powerReactive" (some "none") (some (50, 230, true)) none),
   ("APPARENT_POWER", standardMeasurement "powerApparent" (some "none") (some (50, 230, true)) none),
   ("POWER_APPARENT", standardMeasurement "powerApparent" (some "none") (some (50, 230, true)) none),
   ("FREQUENCY", standardMeasurement "frequency" (some "none") none none),
   ("PULSE_COUNT", standardMeasurement "pulseCount" none none (some 1000)),
   ("TEMPERATURE", standardMeasurement "temperature" (some "none") none none),
   ("THERM", standardMeasurement "Therm" (some "none") none none),
   ("CURRENCY", standardMeasurement "currency" (some "none") none none),
   ("CURRENCY_PER_KW", standardMeasurement "currencyPerKW" (some "none") none none),
   ("CURRENCY_PER_KWH", standardMeasurement "currencyPerKWh" (some "none") none none),
   ("CURRENCY_PER_THM", standardMeasurement "currencyPerThm" (some "none") none none)]

end Openleadr
