/-!
The measurements of the OpenADR 2.0b schema, as the schema files that come with the library prescribe them. Nothing of the model is used here.
-/
namespace Openleadr

/-- What the schema prescribes for one measurement element: the prefix of its namespace, the texts allowed in `itemDescription` and those allowed
    in `itemUnits`. -/
structure SchemaItem where
  ns : String
  descriptions : List String
  units : List String

/-- openleadr/schema/oadr_ISO_ISO3AlphaCurrencyCode_20100407.xsd: the enumerated codes. -/
def isoCurrencies : List String :=
  ["AED", "AFN", "ALL", "AMD", "ANG", "AOA", "ARS", "AUD", "AWG", "AZN", "BAM", "BBD", "BDT", "BGN", "BHD", "BIF", "BMD",
   "BND", "BOB", "BOV", "BRL", "BSD", "BTN", "BWP", "BYR", "BZD", "CAD", "CDF", "CHE", "CHF", "CHW", "CLF", "CLP", "CNY",
   "COP", "COU", "CRC", "CUC", "CUP", "CVE", "CZK", "DJF", "DKK", "DOP", "DZD", "EEK", "EGP", "ERN", "ETB", "EUR", "FJD",
   "FKP", "GBP", "GEL", "GHS", "GIP", "GMD", "GNF", "GTQ", "GWP", "GYD", "HKD", "HNL", "HRK", "HTG", "HUF", "IDR", "ILS",
   "INR", "IQD", "IRR", "ISK", "JMD", "JOD", "JPY", "KES", "KGS", "KHR", "KMF", "KPW", "KRW", "KWD", "KYD", "KZT", "LAK",
   "LBP", "LKR", "LRD", "LSL", "LTL", "LVL", "LYD", "MAD", "MAD", "MDL", "MGA", "MKD", "MMK", "MNT", "MOP", "MRO", "MUR",
   "MVR", "MWK", "MXN", "MXV", "MYR", "MZN", "NAD", "NGN", "NIO", "NOK", "NPR", "NZD", "OMR", "PAB", "PEN", "PGK", "PHP",
   "PKR", "PLN", "PYG", "QAR", "RON", "RSD", "RUB", "RWF", "SAR", "SBD", "SCR", "SDG", "SEK", "SGD", "SHP", "SLL", "SOS",
   "SRD", "STD", "SVC", "SYP", "SZL", "THB", "TJS", "TMT", "TND", "TOP", "TRY", "TTD", "TWD", "TZS", "UAH", "UGX", "USD",
   "USN", "USS", "UYI", "UYU", "UZS", "VEF", "VND", "VUV", "WST", "XAF", "XAG", "XAU", "XBA", "XBB", "XBC", "XBD", "XCD",
   "XDR", "XFU", "XOF", "XPD", "XPF", "XPF", "XPF", "XPT", "XTS", "XXX", "YER", "ZAR", "ZMK", "ZWL"]

/-- openleadr/schema/oadr_20b.xsd:658-664 `currencyItemDescriptionType`. -/
def currencyTexts : List String := ["currency", "currencyPerKW", "currencyPerKWh"]

/-- openleadr/schema/oadr_20b.xsd:619-756 and openleadr/schema/oadr_power_20b.xsd:91-236: the elements that may stand for `emix:itemBase` and have
    a fixed or enumerated description and unit. -/
def schemaItem : String → Option SchemaItem
  | "current" => some ⟨"oadr", ["Current"], ["A"]⟩
  | "currency" => some ⟨"oadr", currencyTexts, isoCurrencies⟩
  | "currencyPerKWh" => some ⟨"oadr", currencyTexts, isoCurrencies⟩
  | "currencyPerKW" => some ⟨"oadr", currencyTexts, isoCurrencies⟩
  | "currencyPerThm" => some ⟨"oadr", currencyTexts, isoCurrencies⟩
  | "frequency" => some ⟨"oadr", ["Frequency"], ["Hz"]⟩
  | "Therm" => some ⟨"oadr", ["Therm"], ["thm"]⟩
  | "temperature" => some ⟨"oadr", ["temperature"], ["celsius", "fahrenheit"]⟩
  | "pulseCount" => some ⟨"oadr", ["pulse count"], ["count"]⟩
  | "voltage" => some ⟨"power", ["Voltage"], ["V"]⟩
  | "energyApparent" => some ⟨"power", ["ApparentEnergy"], ["VAh"]⟩
  | "energyReactive" => some ⟨"power", ["ReactiveEnergy"], ["VARh"]⟩
  | "energyReal" => some ⟨"power", ["RealEnergy"], ["Wh"]⟩
  | "powerApparent" => some ⟨"power", ["ApparentPower"], ["VA"]⟩
  | "powerReactive" => some ⟨"power", ["ReactivePower"], ["VAR"]⟩
  | "powerReal" => some ⟨"power", ["RealPower"], ["W", "J/s"]⟩
  | _ => none

/-- openleadr/schema/oadr_siscale_20b.xsd:34-110 `SiScaleCodeType`. -/
def siScales : List String := ["p", "n", "micro", "m", "c", "d", "k", "M", "G", "T", "none"]

/-- The description and the unit are ones the schema allows in the element with this name; a custom unit may have any (oadr_20b.xsd:604-618). -/
def SchemaAllows (name desc unit : String) : Prop :=
  name = "customUnit" ∨ ∃ item, schemaItem name = some item ∧ desc ∈ item.descriptions ∧ unit ∈ item.units

end Openleadr
