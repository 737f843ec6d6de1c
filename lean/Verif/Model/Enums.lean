import Verif.Py.Value
/-!
The enumerations of the library: the metaclass `Enum` and the classes made with it (openleadr/enums.py:24-181).

A class is the list of its attributes in the order of the source, each with its value; the names that `dir` gives besides those (inherited from
`object`, made by Python) all begin with an underscore, which ones they are is left open (`inherited`), and so are the names of the
metaclass (`metaNames`), of which `members`, `values` and `mro` do not begin with an underscore.
-/
namespace Openleadr

/-- An attribute name that is not private, `not item.startswith("_")` (openleadr/enums.py:31). -/
def publicName (n : String) : Bool := n.toList.head? != some '_'

/-- A name put into a sorted set of names; texts are compared character by character. -/
def insertName (n : String) : List String → List String
  | [] => [n]
  | m :: l => if n < m then n :: m :: l else if n = m then m :: l else m :: insertName n l

/-- openleadr/enums.py:28-31 `Enum.members`: the sorted set of the names of the class that are not names of the metaclass and not private. -/
def enumMembers (metaNames inherited : List String) (own : List (String × String)) : List String :=
  (((own.map Prod.fst ++ inherited).filter (fun n => !metaNames.contains n)).filter publicName).foldr insertName []

/-- openleadr/enums.py:25-26 `Enum.__getitem__`, for a name that is an attribute of the class itself. -/
def enumItem (own : List (String × String)) (n : String) : Option String := (own.find? (fun x => x.1 == n)).map Prod.snd

/-- openleadr/enums.py:33-35 `Enum.values` -/
def enumValues (metaNames inherited : List String) (own : List (String × String)) : List String :=
  (enumMembers metaNames inherited own).filterMap (enumItem own)

/-- openleadr/enums.py:38-44 `EVENT_STATUS` -/
def classEventStatus : List (String × String) :=
  [("NONE", "none"), ("FAR", "far"), ("NEAR", "near"), ("ACTIVE", "active"), ("COMPLETED", "completed"), ("CANCELLED", "cancelled")]

/-- openleadr/enums.py:47-58 `SIGNAL_TYPE` -/
def classSignalType : List (String × String) :=
  [("DELTA", "delta"), ("LEVEL", "level"), ("MULTIPLIER", "multiplier"), ("PRICE", "price"), ("PRICE_MULTIPLIER", "priceMultiplier"),
   ("PRICE_RELATIVE", "priceRelative"), ("SETPOINT", "setpoint"), ("X_LOAD_CONTROL_CAPACITY", "x-loadControlCapacity"),
   ("X_LOAD_CONTROL_LEVEL_OFFSET", "x-loadControlLevelOffset"), ("X_LOAD_CONTROL_PERCENT_OFFSET", "x-loadControlPercentOffset"),
   ("X_LOAD_CONTROL_SETPOINT", "x-loadControlSetpoint")]

/-- openleadr/enums.py:61-72 `SIGNAL_NAME` -/
def classSignalName : List (String × String) :=
  [("SIMPLE", "SIMPLE"), ("simple", "simple"), ("ELECTRICITY_PRICE", "ELECTRICITY_PRICE"), ("ENERGY_PRICE", "ENERGY_PRICE"),
   ("DEMAND_CHARGE", "DEMAND_CHARGE"), ("BID_PRICE", "BID_PRICE"), ("BID_LOAD", "BID_LOAD"), ("BID_ENERGY", "BID_ENERGY"),
   ("CHARGE_STATE", "CHARGE_STATE"), ("LOAD_DISPATCH", "LOAD_DISPATCH"), ("LOAD_CONTROL", "LOAD_CONTROL")]

/-- openleadr/enums.py:75-86 `SI_SCALE_CODE` -/
def classSiScaleCode : List (String × String) :=
  [("p", "p"), ("n", "n"), ("micro", "micro"), ("m", "m"), ("c", "c"), ("d", "d"), ("k", "k"), ("M", "M"), ("G", "G"), ("T", "T"),
   ("none", "none")]

/-- openleadr/enums.py:89-91 `OPT` -/
def classOpt : List (String × String) :=
  [("OPT_IN", "optIn"), ("OPT_OUT", "optOut")]

/-- openleadr/enums.py:94-102 `OPT_REASON` -/
def classOptReason : List (String × String) :=
  [("ECONOMIC", "economic"), ("EMERGENCY", "emergency"), ("MUST_RUN", "mustRun"), ("NOT_PARTICIPATING", "notParticipating"),
   ("OUTAGE_RUN_STATUS", "outageRunStatus"), ("OVERRIDE_STATUS", "overrideStatus"), ("PARTICIPATING", "participating"),
   ("X_SCHEDULE", "x-schedule")]

/-- openleadr/enums.py:105-118 `READING_TYPE` -/
def classReadingType : List (String × String) :=
  [("DIRECT_READ", "Direct Read"), ("NET", "Net"), ("ALLOCATED", "Allocated"), ("ESTIMATED", "Estimated"), ("SUMMED", "Summed"),
   ("DERIVED", "Derived"), ("MEAN", "Mean"), ("PEAK", "Peak"), ("HYBRID", "Hybrid"), ("CONTRACT", "Contract"), ("PROJECTED", "Projected"),
   ("X_RMS", "x-RMS"), ("X_NOT_APPLICABLE", "x-notApplicable")]

/-- openleadr/enums.py:121-145 `REPORT_TYPE` -/
def classReportType : List (String × String) :=
  [("READING", "reading"), ("USAGE", "usage"), ("DEMAND", "demand"), ("SET_POINT", "setPoint"), ("DELTA_USAGE", "deltaUsage"),
   ("DELTA_SET_POINT", "deltaSetPoint"), ("DELTA_DEMAND", "deltaDemand"), ("BASELINE", "baseline"), ("DEVIATION", "deviation"),
   ("AVG_USAGE", "avgUsage"), ("AVG_DEMAND", "avgDemand"), ("OPERATING_STATE", "operatingState"),
   ("UP_REGULATION_CAPACITY_AVAILABLE", "upRegulationCapacityAvailable"),
   ("DOWN_REGULATION_CAPACITY_AVAILABLE", "downRegulationCapacityAvailable"), ("REGULATION_SETPOINT", "regulationSetpoint"),
   ("STORED_ENERGY", "storedEnergy"), ("TARGET_ENERGY_STORAGE", "targetEnergyStorage"), ("AVAILABLE_ENERGY_STORAGE", "availableEnergyStorage"),
   ("PRICE", "price"), ("LEVEL", "level"), ("POWER_FACTOR", "powerFactor"), ("PERCENT_USAGE", "percentUsage"),
   ("PERCENT_DEMAND", "percentDemand"), ("X_RESOURCE_STATUS", "x-resourceStatus")]

/-- openleadr/enums.py:173-181 `REPORT_NAME` -/
def classReportName : List (String × String) :=
  [("METADATA_HISTORY_USAGE", "METADATA_HISTORY_USAGE"), ("HISTORY_USAGE", "HISTORY_USAGE"),
   ("METADATA_HISTORY_GREENBUTTON", "METADATA_HISTORY_GREENBUTTON"), ("HISTORY_GREENBUTTON", "HISTORY_GREENBUTTON"),
   ("METADATA_TELEMETRY_USAGE", "METADATA_TELEMETRY_USAGE"), ("TELEMETRY_USAGE", "TELEMETRY_USAGE"),
   ("METADATA_TELEMETRY_STATUS", "METADATA_TELEMETRY_STATUS"), ("TELEMETRY_STATUS", "TELEMETRY_STATUS")]

/-- openleadr/enums.py:148-170 `SIGNAL_TARGET_MRID` -/
def classSignalTarget : List (String × String) :=
  [("THERMOSTAT", "Thermostat"), ("STRIP_HEATER", "Strip_Heater"), ("BASEBOARD_HEATER", "Baseboard_Heater"), ("WATER_HEATER", "Water_Heater"),
   ("POOL_PUMP", "Pool_Pump"), ("SAUNA", "Sauna"), ("HOT_TUB", "Hot_tub"), ("SMART_APPLIANCE", "Smart_Appliance"), ("IRRIGATION_PUMP", "Irrigation_Pump"),
   ("MANAGED_COMMERCIAL_AND_INDUSTRIAL_LOADS", "Managed_Commercial_and_Industrial_Loads"),
   ("SIMPLE_RESIDENTIAL_ON_OFF_LOADS", "Simple_Residential_On_Off_Loads"), ("EXTERIOR_LIGHTING", "Exterior_Lighting"),
   ("INTERIOR_LIGHTING", "Interior_Lighting"), ("ELECTRIC_VEHICLE", "Electric_Vehicle"), ("GENERATION_SYSTEMS", "Generation_Systems"),
   ("LOAD_CONTROL_SWITCH", "Load_Control_Switch"), ("SMART_INVERTER", "Smart_Inverter"), ("EVSE", "EVSE"), ("RESU", "RESU"),
   ("ENERGY_MANAGEMENT_SYSTEM", "Energy_Management_System"), ("SMART_ENERGY_MODULE", "Smart_Energy_Module"), ("STORAGE", "Storage")]

end Openleadr
