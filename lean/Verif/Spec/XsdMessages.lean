import Verif.Spec.Xsd
/-!
The messages of the OpenADR 2.0b schema, transcribed from openleadr/schema. Left out, because the library never sends them: the elements
`oadrServiceSpecificInfo` and `oadrExtensions` of oadrCreatedPartyRegistration (oadr_20b.xsd:386-400), `emix:serviceArea`, `power:serviceLocation` (both
of GML), `ei:eiEventBaseline`, the payloads `oadrPayloadResourceStatus` and `oadrGBPayload`, the item `oadrGBDataDescription`, and the signature: a
document with these is not called valid here.
-/
namespace Openleadr.Xsd

/-! ### Names (oadr_20b.xsd:3) -/

def oadr (n : String) : QName := ("http://openadr.org/oadr-2.0b/2012/07", n)
def ei (n : String) : QName := ("http://docs.oasis-open.org/ns/energyinterop/201110", n)
def pyld (n : String) : QName := ("http://docs.oasis-open.org/ns/energyinterop/201110/payloads", n)
def emix (n : String) : QName := ("http://docs.oasis-open.org/ns/emix/2011/06", n)
def power (n : String) : QName := ("http://docs.oasis-open.org/ns/emix/2011/06/power", n)
def scale (n : String) : QName := ("http://docs.oasis-open.org/ns/emix/2011/06/siscale", n)
def xcal (n : String) : QName := ("urn:ietf:params:xml:ns:icalendar-2.0", n)
def strm (n : String) : QName := ("urn:ietf:params:xml:ns:icalendar-2.0:stream", n)

/-! ### Parts -/

/-- `xs:anyURI` (oadr_emix_20b.xsd:12-14); every text is one by XML Schema 1.1. -/
def anyURI : XType := .simple (fun _ => True)
/-- oadr_xcal_20b.xsd:21-25 `DurationPropType` -/
def durationProp : XType := seq [one (xcal "duration") durationValue]
/-- oadr_xcal_20b.xsd:45-54 `dtstart` -/
def dtstart : XType := seq [one (xcal "date-time") dateTime]
/-- oadr_xcal_20b.xsd:56-82 `properties` -/
def properties : XType := seq [
  one (xcal "dtstart") dtstart, one (xcal "duration") durationProp,
  opt (xcal "tolerance") (seq [one (xcal "tolerate") (seq [opt (xcal "startafter") durationValue])]),
  opt (ei "x-eiNotification") durationProp, opt (ei "x-eiRampUp") durationProp, opt (ei "x-eiRecovery") durationProp]
/-- oadr_xcal_20b.xsd:119-128 `WsCalendarIntervalType` -/
def calendarInterval : XType := seq [one (xcal "properties") properties]
/-- oadr_xcal_20b.xsd:95-114 `VavailabilityType` -/
def vavailability : XType := seq [one (xcal "components") (seq [many (xcal "available") (seq [one (xcal "properties") properties])])]

/-- oadr_ei_20b.xsd:200-206 `EiResponseType` -/
def eiResponse : XType := seq [one (ei "responseCode") responseCode, opt (ei "responseDescription") string, one (pyld "requestID") string]
/-- oadr_ei_20b.xsd:81-89 `QualifiedEventIDType` -/
def qualifiedEventID : XType := seq [one (ei "eventID") string, one (ei "modificationNumber") unsignedInt]
/-- oadr_ei_20b.xsd:208-227 `eventResponses` -/
def eventResponses : XType := seq [many (ei "eventResponse") (seq [
  one (ei "responseCode") responseCode, opt (ei "responseDescription") string, one (pyld "requestID") string,
  one (ei "qualifiedEventID") qualifiedEventID, one (ei "optType") (token schemaOptType)])]

/-- oadr_power_20b.xsd:8-25 `EndDeviceAssetType`, `MeterAssetType` -/
def asset : XType := seq [one (power "mrid") string]
/-- oadr_power_20b.xsd:28-62 `PnodeType`, `AggregatedPnodeType`, `ServiceDeliveryPointType` -/
def node : XType := seq [one (power "node") string]
/-- oadr_ei_20b.xsd:407-423 `EiTargetType` -/
def target : XType := seq [
  many (power "aggregatedPnode") node, many (power "endDeviceAsset") asset, many (power "meterAsset") asset, many (power "pnode") node,
  many (power "serviceDeliveryPoint") node,
  many (power "transportInterface") (seq [one (power "pointOfReceipt") string, one (power "pointOfDelivery") string]),
  many (ei "groupID") string, many (ei "groupName") string, many (ei "resourceID") string, many (ei "venID") string, many (ei "partyID") string]

/-- oadr_siscale_20b.xsd:26 `siScaleCode` -/
def siScaleCode : Part := one (scale "siScaleCode") (exactly schemaSiScaleCode)
/-- oadr_power_20b.xsd:252-259 `powerAttributes` -/
def powerAttributes : Part :=
  one (power "powerAttributes") (seq [one (power "hertz") decimal, one (power "voltage") decimal, one (power "ac") boolean])
/-- An item: description, units, and what follows. -/
def item (q : String → QName) (description units : XType) (rest : List Part) : XType :=
  seq (one (q "itemDescription") description :: one (q "itemUnits") units :: rest)
/-- oadr_20b.xsd:640-664 `currencyType` -/
def currency : XType := item oadr (token currencyTexts) (token isoCurrencies) [siScaleCode]
/-- The substitution group of `emix:itemBase`: oadr_20b.xsd:604-747, oadr_power_20b.xsd:92-230. -/
def itemBase : List (QName × XType) := [
  (oadr "customUnit", item oadr string string [siScaleCode]),
  (oadr "current", item oadr (exactly ["Current"]) (exactly ["A"]) [siScaleCode]),
  (oadr "currency", currency), (oadr "currencyPerKWh", currency), (oadr "currencyPerKW", currency), (oadr "currencyPerThm", currency),
  (oadr "frequency", item oadr (exactly ["Frequency"]) (exactly ["Hz"]) [siScaleCode]),
  (oadr "Therm", item oadr (exactly ["Therm"]) (exactly ["thm"]) [siScaleCode]),
  (oadr "temperature", item oadr (exactly ["temperature"]) (token ["celsius", "fahrenheit"]) [siScaleCode]),
  (oadr "pulseCount", item oadr (exactly ["pulse count"]) (exactly ["count"]) [one (oadr "pulseFactor") float]),
  (power "voltage", item power (exactly ["Voltage"]) (exactly ["V"]) [siScaleCode]),
  (power "energyApparent", item power (exactly ["ApparentEnergy"]) (exactly ["VAh"]) [siScaleCode]),
  (power "energyReactive", item power (exactly ["ReactiveEnergy"]) (exactly ["VARh"]) [siScaleCode]),
  (power "energyReal", item power (exactly ["RealEnergy"]) (exactly ["Wh"]) [siScaleCode]),
  (power "powerApparent", item power (exactly ["ApparentPower"]) (exactly ["VA"]) [siScaleCode, powerAttributes]),
  (power "powerReactive", item power (exactly ["ReactivePower"]) (exactly ["VAR"]) [siScaleCode, powerAttributes]),
  (power "powerReal", item power (exactly ["RealPower"]) (token ["W", "J/s"]) [siScaleCode, powerAttributes])]

/-! ### Reports -/

/-- oadr_ei_20b.xsd:967-980 `SpecifierPayloadType` -/
def specifierPayload : XType := seq [one (ei "rID") string, (0, some 1, itemBase), one (ei "readingType") (extended schemaReadingType)]
/-- oadr_ei_20b.xsd:941-964 `ReportSpecifierType` -/
def reportSpecifier : XType := seq [
  one (ei "reportSpecifierID") string, one (xcal "granularity") durationProp, one (ei "reportBackDuration") durationProp,
  opt (ei "reportInterval") calendarInterval, some' (ei "specifierPayload") specifierPayload]
/-- oadr_20b.xsd:750-758 `oadrReportRequestType` -/
def reportRequest : XType := seq [one (ei "reportRequestID") string, one (ei "reportSpecifier") reportSpecifier]
/-- oadr_20b.xsd:597-601 `oadrPendingReportsType` -/
def pendingReports : XType := seq [many (ei "reportRequestID") string]
/-- oadr_20b.xsd:819-837 `oadrSamplingRateType` -/
def samplingRate : XType := seq [one (oadr "oadrMinPeriod") durationValue, one (oadr "oadrMaxPeriod") durationValue, one (oadr "oadrOnChange") boolean]
/-- oadr_20b.xsd:800-818 `oadrReportDescriptionType` -/
def reportDescription : XType := seq [
  one (ei "rID") string, opt (ei "reportSubject") target, opt (ei "reportDataSource") target, one (ei "reportType") (extended schemaReportType),
  (0, some 1, itemBase), one (ei "readingType") (extended schemaReadingType), opt (emix "marketContext") anyURI,
  opt (oadr "oadrSamplingRate") samplingRate]

/-- oadr_20b.xsd:941-964 `oadrDataQualityType` -/
def dataQualities : List String := [
  "No Quality - No Value", "No New Value - Previous Value Used", "Quality Bad - Non Specific", "Quality Bad - Configuration Error",
  "Quality Bad - Not Connected", "Quality Bad - Device Failure", "Quality Bad - Sensor Failure", "Quality Bad - Last Known Value",
  "Quality Bad - Comm Failure", "Quality Bad - Out of Service", "Quality Uncertain - Non Specific", "Quality Uncertain - Last Usable Value",
  "Quality Uncertain - Sensor Not Accurate", "Quality Uncertain - EU Units Exceeded", "Quality Uncertain - Sub Normal",
  "Quality Good - Non Specific", "Quality Good - Local Override", "Quality Limit - Field/Not", "Quality Limit - Field/Low",
  "Quality Limit - Field/High", "Quality Limit - Field/Constant"]
/-- oadr_ei_20b.xsd:141-151 `PayloadFloatType` -/
def payloadFloat : XType := seq [one (ei "value") float]
/-- oadr_ei_20b.xsd:907-933 `ReportPayloadType`, oadr_20b.xsd:920-934 `oadrReportPayloadType` -/
def reportPayload : XType := seq [
  one (ei "rID") string, opt (ei "confidence") (.simple (IsUnsigned 100)), opt (ei "accuracy") float, one (ei "payloadFloat") payloadFloat,
  opt (oadr "oadrDataQuality") (extended dataQualities)]
/-- oadr_ei_20b.xsd:386-394 `signalPayloadType` -/
def signalPayload : XType := seq [one (ei "payloadFloat") payloadFloat]
/-- oadr_ei_20b.xsd:110-117 `IntervalType` -/
def interval : XType := seq [
  opt (xcal "dtstart") dtstart, opt (xcal "duration") durationProp, opt (xcal "uid") (seq [one (xcal "text") string]),
  (1, none, [(ei "signalPayload", signalPayload), (oadr "oadrReportPayload", reportPayload)])]
/-- oadr_strm_20b.xsd:8-17 `intervals` -/
def intervals : XType := seq [some' (ei "interval") interval]
/-- oadr_strm_20b.xsd:26-35 `StreamBaseType`, oadr_20b.xsd:761-797 `oadrReportType` -/
def report : XType := seq [
  opt (xcal "dtstart") dtstart, opt (xcal "duration") durationProp, opt (strm "intervals") intervals,
  opt (ei "eiReportID") string, many (oadr "oadrReportDescription") reportDescription, one (ei "reportRequestID") string,
  one (ei "reportSpecifierID") string, opt (ei "reportName") (extended schemaReportName), one (ei "createdDateTime") dateTime]

/-! ### Events -/

/-- oadr_ei_20b.xsd:337-380 `eventDescriptorType` -/
def eventDescriptor : XType := seq [
  one (ei "eventID") string, one (ei "modificationNumber") unsignedInt, opt (ei "modificationDateTime") dateTime,
  opt (ei "modificationReason") string, opt (ei "priority") unsignedInt, one (ei "eiMarketContext") (seq [one (emix "marketContext") anyURI]),
  one (ei "createdDateTime") dateTime, one (ei "eventStatus") (token schemaEventStatus), opt (ei "testEvent") string, opt (ei "vtnComment") string]
/-- oadr_ei_20b.xsd:245-250 `eiActivePeriodType` -/
def activePeriod : XType := seq [one (xcal "properties") properties, one (xcal "components") .any]
/-- oadr_ei_20b.xsd:426-452 `eiEventSignalType` -/
def eventSignal : XType := seq [
  one (strm "intervals") intervals, opt (ei "eiTarget") target, one (ei "signalName") (extended schemaSignalName),
  one (ei "signalType") (token schemaSignalType), one (ei "signalID") string, (0, some 1, itemBase),
  opt (ei "currentValue") (seq [one (ei "payloadFloat") payloadFloat])]
/-- oadr_ei_20b.xsd:231-238 `eiEventType`, 526-538 `eiEventSignalsType` -/
def event : XType := seq [
  one (ei "eventDescriptor") eventDescriptor, one (ei "eiActivePeriod") activePeriod,
  one (ei "eiEventSignals") (seq [some' (ei "eiEventSignal") eventSignal]), one (ei "eiTarget") target]

/-! ### Messages -/

/-- oadr_ei_20b.xsd:1002-1011 `schemaVersion` -/
def schemaVersion : List (QName × (List Char → Prop)) := [(ei "schemaVersion", fun t => IsToken ["2.0a", "2.0b"] t ∨ IsExtension t)]
/-- A message: a sequence that may have a version. -/
def message (parts : List Part) : XType := .sequence schemaVersion parts
/-- oadr_20b.xsd:174-182 `oadrCancelReportType` -/
def cancelReport : XType := message [
  one (pyld "requestID") string, some' (ei "reportRequestID") string, one (pyld "reportToFollow") boolean, opt (ei "venID") string]
/-- oadr_20b.xsd:472-477 `oadrProfileType` -/
def profileName : XType := token ["2.0a", "2.0b"]
/-- oadr_20b.xsd:500-505 `oadrTransportType` -/
def transportName : XType := token ["simpleHttp", "xmpp"]
/-- oadr_20b.xsd:450-494 `oadrProfiles` -/
def profiles : XType := seq [some' (oadr "oadrProfile") (seq [
  one (oadr "oadrProfileName") profileName,
  one (oadr "oadrTransports") (seq [some' (oadr "oadrTransport") (seq [one (oadr "oadrTransportName") transportName])])])]

/-- The messages, oadr_20b.xsd:27-56, with their types, 59-440. -/
def messages : List (QName × XType) := [
  (oadr "oadrDistributeEvent", message [
    opt (ei "eiResponse") eiResponse, one (pyld "requestID") string, one (ei "vtnID") string,
    many (oadr "oadrEvent") (seq [one (ei "eiEvent") event, one (oadr "oadrResponseRequired") (exactly ["always", "never"])])]),
  (oadr "oadrCreatedEvent", message [
    one (pyld "eiCreatedEvent") (seq [one (ei "eiResponse") eiResponse, opt (ei "eventResponses") eventResponses, one (ei "venID") string])]),
  (oadr "oadrRequestEvent", message [
    one (pyld "eiRequestEvent") (seq [one (pyld "requestID") string, one (ei "venID") string, opt (pyld "replyLimit") unsignedInt])]),
  (oadr "oadrResponse", message [one (ei "eiResponse") eiResponse, opt (ei "venID") string]),
  (oadr "oadrCancelOpt", message [one (pyld "requestID") string, one (ei "optID") string, one (ei "venID") string]),
  (oadr "oadrCanceledOpt", message [one (ei "eiResponse") eiResponse, opt (ei "optID") string]),
  (oadr "oadrCreateOpt", message [
    one (ei "optID") string, one (ei "optType") (token schemaOptType), one (ei "optReason") (extended schemaOptReason),
    opt (emix "marketContext") anyURI, one (ei "venID") string, opt (xcal "vavailability") vavailability, one (ei "createdDateTime") dateTime,
    one (pyld "requestID") string, opt (ei "qualifiedEventID") qualifiedEventID, one (ei "eiTarget") target, opt (oadr "oadrDeviceClass") target]),
  (oadr "oadrCreatedOpt", message [one (ei "eiResponse") eiResponse, one (ei "optID") string]),
  (oadr "oadrCancelReport", cancelReport),
  (oadr "oadrCanceledReport", message [one (ei "eiResponse") eiResponse, one (oadr "oadrPendingReports") pendingReports, opt (ei "venID") string]),
  (oadr "oadrCreateReport", message [one (pyld "requestID") string, some' (oadr "oadrReportRequest") reportRequest, opt (ei "venID") string]),
  (oadr "oadrCreatedReport", message [one (ei "eiResponse") eiResponse, one (oadr "oadrPendingReports") pendingReports, opt (ei "venID") string]),
  (oadr "oadrRegisterReport", message [
    one (pyld "requestID") string, many (oadr "oadrReport") report, opt (ei "venID") string, opt (ei "reportRequestID") string]),
  (oadr "oadrRegisteredReport", message [one (ei "eiResponse") eiResponse, many (oadr "oadrReportRequest") reportRequest, opt (ei "venID") string]),
  (oadr "oadrUpdateReport", message [one (pyld "requestID") string, many (oadr "oadrReport") report, opt (ei "venID") string]),
  (oadr "oadrUpdatedReport", message [one (ei "eiResponse") eiResponse, opt (oadr "oadrCancelReport") cancelReport, opt (ei "venID") string]),
  (oadr "oadrCancelPartyRegistration", message [one (pyld "requestID") string, one (ei "registrationID") string, opt (ei "venID") string]),
  (oadr "oadrCanceledPartyRegistration", message [one (ei "eiResponse") eiResponse, opt (ei "registrationID") string, opt (ei "venID") string]),
  (oadr "oadrCreatePartyRegistration", message [
    one (pyld "requestID") string, opt (ei "registrationID") string, opt (ei "venID") string, one (oadr "oadrProfileName") profileName,
    one (oadr "oadrTransportName") transportName, opt (oadr "oadrTransportAddress") string, one (oadr "oadrReportOnly") boolean,
    one (oadr "oadrXmlSignature") boolean, opt (oadr "oadrVenName") string, opt (oadr "oadrHttpPullModel") boolean]),
  (oadr "oadrCreatedPartyRegistration", message [
    one (ei "eiResponse") eiResponse, opt (ei "registrationID") string, opt (ei "venID") string, one (ei "vtnID") string,
    one (oadr "oadrProfiles") profiles, opt (oadr "oadrRequestedOadrPollFreq") durationProp]),
  (oadr "oadrRequestReregistration", message [one (ei "venID") string]),
  (oadr "oadrQueryRegistration", message [one (pyld "requestID") string]),
  (oadr "oadrPoll", message [one (ei "venID") string])]

/-- `xs:ID`: a name without a colon (ASCII only). -/
def IsId (t : List Char) : Prop := isXmlName (String.ofList (collapse t)) = true ∧ ':' ∉ t
/-- oadr_20b.xsd:27-56 `oadrSignedObject`, with one of these messages. -/
def signedObject (choice : List (QName × XType)) : XType := .sequence [(oadr "Id", IsId)] [(1, some 1, choice)]
/-- oadr_20b.xsd:17-24 `oadrPayload` -/
def payload (choice : List (QName × XType)) : XType := seq [one (oadr "oadrSignedObject") (signedObject choice)]

/-- A text is a document with this root. -/
def Document (txt : List Char) (root : Tree) : Prop := txt = "<?xml version=\"1.0\" encoding=\"utf-8\"?>\n".toList ++ root.text ∧ root.Plain

/-- A document is valid, with one of these messages. -/
def ValidFor (choice : List (QName × XType)) (root : Tree) : Prop := elementName [] root = some (oadr "oadrPayload") ∧ Fits [] (payload choice) root

/-- A document is valid. -/
def Valid (root : Tree) : Prop := ValidFor messages root

/-- A text is a document, and it is not valid however it is taken apart. -/
def Invalid (txt : List Char) : Prop := (∃ root, Document txt root) ∧ ∀ root, Document txt root → ¬ Valid root

/-- A document is valid and holds a message of this type. -/
def ValidAs (type : String) (root : Tree) : Prop := ValidFor (messages.filter (fun m => m.1 = oadr type)) root

end Openleadr.Xsd
