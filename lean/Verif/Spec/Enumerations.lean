/-!
The enumerated texts of the OpenADR 2.0b schema, as the schema files that come with the library prescribe them. Nothing of the model is used
here. White space: only texts that the schema's normalization of `xs:token` leaves as they are count as valid here.
-/
namespace Openleadr

/-- openleadr/schema/oadr_ei_20b.xsd:12-45 `EventStatusEnumeratedType` -/
def schemaEventStatus : List String :=
  ["none", "far", "near", "active", "completed", "cancelled"]

/-- openleadr/schema/oadr_ei_20b.xsd:258-319 `SignalTypeEnumeratedType` -/
def schemaSignalType : List String :=
  ["delta", "level", "multiplier", "price", "priceMultiplier", "priceRelative", "setpoint", "x-loadControlCapacity", "x-loadControlLevelOffset",
   "x-loadControlPercentOffset", "x-loadControlSetpoint"]

/-- openleadr/schema/oadr_ei_20b.xsd:461-519 `SignalNameEnumeratedType` -/
def schemaSignalName : List String :=
  ["SIMPLE", "simple", "ELECTRICITY_PRICE", "ENERGY_PRICE", "DEMAND_CHARGE", "BID_PRICE", "BID_LOAD", "BID_ENERGY", "CHARGE_STATE",
   "LOAD_DISPATCH", "LOAD_CONTROL"]

/-- openleadr/schema/oadr_siscale_20b.xsd:32-105 `SiScaleCodeType` -/
def schemaSiScaleCode : List String :=
  ["p", "n", "micro", "m", "c", "d", "k", "M", "G", "T", "none"]

/-- openleadr/schema/oadr_ei_20b.xsd:188-193 `OptTypeType` -/
def schemaOptType : List String :=
  ["optIn", "optOut"]

/-- openleadr/schema/oadr_ei_20b.xsd:599-613 `OptReasonEnumeratedType` -/
def schemaOptReason : List String :=
  ["economic", "emergency", "mustRun", "notParticipating", "outageRunStatus", "overrideStatus", "participating", "x-schedule"]

/-- openleadr/schema/oadr_ei_20b.xsd:823-891 `ReadingTypeEnumeratedType` -/
def schemaReadingType : List String :=
  ["Direct Read", "Net", "Allocated", "Estimated", "Summed", "Derived", "Mean", "Peak", "Hybrid", "Contract", "Projected", "x-RMS",
   "x-notApplicable"]

/-- openleadr/schema/oadr_ei_20b.xsd:684-810 `ReportEnumeratedType` -/
def schemaReportType : List String :=
  ["reading", "usage", "demand", "setPoint", "deltaUsage", "deltaSetPoint", "deltaDemand", "baseline", "deviation", "avgUsage", "avgDemand",
   "operatingState", "upRegulationCapacityAvailable", "downRegulationCapacityAvailable", "regulationSetpoint", "storedEnergy",
   "targetEnergyStorage", "availableEnergyStorage", "price", "level", "powerFactor", "percentUsage", "percentDemand", "x-resourceStatus"]

/-- openleadr/schema/oadr_ei_20b.xsd:644-655 `reportNameEnumeratedType` -/
def schemaReportName : List String :=
  ["METADATA_HISTORY_USAGE", "HISTORY_USAGE", "METADATA_HISTORY_GREENBUTTON", "HISTORY_GREENBUTTON", "METADATA_TELEMETRY_USAGE",
   "TELEMETRY_USAGE", "METADATA_TELEMETRY_STATUS", "TELEMETRY_STATUS"]

/-- White space in XML. -/
def xmlSpace (c : Char) : Bool := c == ' ' || c == '\t' || c == '\n' || c == '\r'

/-- No two blanks in a row, none at the end. -/
def collapsed : List Char → Bool
  | [] => true
  | [c] => !xmlSpace c
  | c :: d :: l => !(xmlSpace c && (c != ' ' || xmlSpace d)) && collapsed (d :: l)

/-- openleadr/schema/oadr_ei_20b.xsd:54-61 `EiExtensionTokenType`: the pattern `x-\S.*` for the user's own texts. -/
def SchemaExtension (s : String) : Prop := ∃ c rest, s.toList = 'x' :: '-' :: c :: rest ∧ xmlSpace c = false ∧ collapsed (c :: rest) = true

/-- A text of the enumeration or of the user's own (openleadr/schema/oadr_ei_20b.xsd:454-459, 592-597, 641-643, 677-682, 816-821). -/
def SchemaText (l : List String) (s : String) : Prop := s ∈ l ∨ SchemaExtension s

end Openleadr
