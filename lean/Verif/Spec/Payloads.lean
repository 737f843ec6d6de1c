import Verif.Spec.Wire
import Verif.Model.Measurements
import Verif.Lemmas.Calendar
/-!
The payloads of the messages, as the documentation of the library describes them. Entries stand in the order of the schema; what is sent may
have them in any order (`Conforms`).
-/
namespace Openleadr

/-- A text, if there is one. -/
def text? (s : Option String) : Option Value := s.map .str

/-- A duration, if there is one. -/
def span? (d : Option Int) : Option Value := d.map .timedelta

/-- The `response` entry of answers. -/
structure ResponseP where
  code : Int
  description : String
  requestId : String

def ResponseP.dict (r : ResponseP) : Dict :=
  [("response_code", .int r.code), ("response_description", .str r.description), ("request_id", .str r.requestId)]

structure ResponseP.Good (lib : Lib) (r : ResponseP) : Prop where
  description : Ordinary lib r.description
  requestId : Ordinary lib r.requestId

/-- The `response` entry of a message that need not repeat the id of a request. -/
structure LooseResponseP where
  code : Int
  description : String
  requestId : Option String

def LooseResponseP.dict (r : LooseResponseP) : Dict :=
  [("response_code", .int r.code), ("response_description", .str r.description)] ++ entry? "request_id" (text? r.requestId)

/-- As it is received: a missing id is there as `None`. -/
def LooseResponseP.received (r : LooseResponseP) : Dict :=
  [("response_code", .int r.code), ("response_description", .str r.description), ("request_id", (text? r.requestId).getD .none)]

structure LooseResponseP.Good (lib : Lib) (r : LooseResponseP) : Prop where
  description : Ordinary lib r.description
  requestId : ∀ x, r.requestId = some x → Ordinary lib x

/-- The `pending_reports` entry. -/
def pendingP (ids : List String) : Value := .list (ids.map (fun id => .dict [("report_request_id", .str id)]))

/-- oadrCreatePartyRegistration -/
structure RegistrationP where
  requestId : String
  registrationId : Option String
  venId : Option String
  profileName : String
  transportName : String
  transportAddress : String
  reportOnly : Bool
  xmlSignature : Bool
  venName : String
  httpPullModel : Bool

def RegistrationP.dict (r : RegistrationP) : Dict :=
  [("request_id", .str r.requestId)] ++ entry? "registration_id" (text? r.registrationId) ++ entry? "ven_id" (text? r.venId) ++
  [("profile_name", .str r.profileName), ("transport_name", .str r.transportName), ("transport_address", .str r.transportAddress),
    ("report_only", .bool r.reportOnly), ("xml_signature", .bool r.xmlSignature), ("ven_name", .str r.venName),
    ("http_pull_model", .bool r.httpPullModel)]

structure RegistrationP.Good (lib : Lib) (r : RegistrationP) : Prop where
  requestId : Ordinary lib r.requestId
  registrationId : ∀ x, r.registrationId = some x → Ordinary lib x
  venId : ∀ x, r.venId = some x → Ordinary lib x
  profileName : Ordinary lib r.profileName
  transportName : Ordinary lib r.transportName
  transportAddress : Ordinary lib r.transportAddress
  venName : Ordinary lib r.venName

/-- A profile of oadrCreatedPartyRegistration. -/
structure ProfileP where
  name : String
  transports : List String

def ProfileP.dict (r : ProfileP) : Dict :=
  [("profile_name", .str r.name), ("transports", .list ((r.transports.map (fun t => [("transport_name", .str t)])).map .dict))]

structure ProfileP.Good (lib : Lib) (r : ProfileP) : Prop where
  name : Ordinary lib r.name
  nonempty : r.transports ≠ []
  transports : ∀ t ∈ r.transports, Ordinary lib t

/-- oadrCreatedPartyRegistration -/
structure RegisteredP where
  response : ResponseP
  registrationId : Option String
  venId : Option String
  vtnId : String
  profiles : List ProfileP
  pollFreq : Option Int

def RegisteredP.dict (r : RegisteredP) : Dict :=
  [("response", .dict r.response.dict)] ++ entry? "registration_id" (text? r.registrationId) ++ entry? "ven_id" (text? r.venId) ++
  [("vtn_id", .str r.vtnId), ("profiles", .list ((r.profiles.map ProfileP.dict).map .dict))] ++
  entry? "requested_oadr_poll_freq" (span? r.pollFreq)

/-- As it is received: missing ids are there as `None`. -/
def RegisteredP.received (r : RegisteredP) : Dict :=
  [("response", .dict r.response.dict), ("registration_id", (text? r.registrationId).getD .none), ("ven_id", (text? r.venId).getD .none),
    ("vtn_id", .str r.vtnId), ("profiles", .list ((r.profiles.map ProfileP.dict).map .dict))] ++
  entry? "requested_oadr_poll_freq" (span? r.pollFreq)

structure RegisteredP.Good (lib : Lib) (r : RegisteredP) : Prop where
  response : r.response.Good lib
  registrationId : ∀ x, r.registrationId = some x → Ordinary lib x
  venId : ∀ x, r.venId = some x → Ordinary lib x
  vtnId : Ordinary lib r.vtnId
  nonempty : r.profiles ≠ []
  profiles : ∀ p ∈ r.profiles, p.Good lib
  pollFreq : ∀ d, r.pollFreq = some d → Spans d

/-- The interval for which reports are wanted. -/
structure PeriodP where
  start : Int
  duration : Int

def PeriodP.dict (r : PeriodP) : Dict := [("dtstart", .datetime r.start), ("duration", .timedelta r.duration)]

structure PeriodP.Good (r : PeriodP) : Prop where
  start : Datable r.start
  duration : Spans r.duration

/-- A request for a report. -/
structure ReportRequestP where
  requestId : String
  specifierId : String
  granularity : Int
  backDuration : Option Int
  interval : Option PeriodP
  payloads : List (String × String)

/-- One of the values that are wanted. -/
def specifierPayload (p : String × String) : Dict := [("r_id", .str p.1), ("reading_type", .str p.2)]

def ReportRequestP.specifier (r : ReportRequestP) : Dict :=
  [("report_specifier_id", .str r.specifierId), ("granularity", .timedelta r.granularity)] ++
  entry? "report_back_duration" (span? r.backDuration) ++ entry? "report_interval" (r.interval.map (fun i => .dict i.dict)) ++
  [("specifier_payloads", .list ((r.payloads.map specifierPayload).map .dict))]

def ReportRequestP.dict (r : ReportRequestP) : Dict :=
  [("report_request_id", .str r.requestId), ("report_specifier", .dict r.specifier)]

structure ReportRequestP.Good (lib : Lib) (r : ReportRequestP) : Prop where
  requestId : Ordinary lib r.requestId
  specifierId : Ordinary lib r.specifierId
  granularity : Spans r.granularity
  backDuration : ∀ d, r.backDuration = some d → Spans d
  interval : ∀ i, r.interval = some i → i.Good
  nonempty : r.payloads ≠ []
  payloads : ∀ p ∈ r.payloads, Ordinary lib p.1 ∧ Ordinary lib p.2

/-- A list of dicts; an empty one is not received. -/
def dicts? (l : List Dict) : Option Value := if l = [] then none else some (.list (l.map .dict))

/-- An answer to an event. -/
structure EventResponseP where
  code : Int
  description : Option String
  requestId : String
  eventId : String
  modification : Int
  optType : String

def EventResponseP.dict (r : EventResponseP) : Dict :=
  [("response_code", .int r.code)] ++ entry? "response_description" (text? r.description) ++
  [("request_id", .str r.requestId), ("event_id", .str r.eventId), ("modification_number", .int r.modification), ("opt_type", .str r.optType)]

structure EventResponseP.Good (lib : Lib) (r : EventResponseP) : Prop where
  description : ∀ x, r.description = some x → Ordinary lib x
  requestId : Ordinary lib r.requestId
  eventId : Ordinary lib r.eventId
  optType : Ordinary lib r.optType

/-- oadrCreatedEvent -/
structure CreatedEventP where
  response : LooseResponseP
  eventResponses : Option (List EventResponseP)
  venId : String

def CreatedEventP.dict (r : CreatedEventP) : Dict :=
  [("response", .dict r.response.dict)] ++
  entry? "event_responses" (r.eventResponses.map (fun l => .list ((l.map EventResponseP.dict).map .dict))) ++ [("ven_id", .str r.venId)]

/-- As it is received: the id of the request is there only if there are no `event_responses`, and an empty list of them is `None`. -/
def CreatedEventP.received (r : CreatedEventP) : Dict :=
  [("response", .dict (match r.eventResponses with
    | none => r.response.received
    | some _ => { r.response with requestId := none }.received))] ++
  entry? "event_responses" (r.eventResponses.map (fun l => (dicts? (l.map EventResponseP.dict)).getD .none)) ++ [("ven_id", .str r.venId)]

structure CreatedEventP.Good (lib : Lib) (r : CreatedEventP) : Prop where
  response : r.response.Good lib
  eventResponses : ∀ l, r.eventResponses = some l → ∀ e ∈ l, e.Good lib
  venId : Ordinary lib r.venId

/-- The `cancel_report` entry of oadrUpdatedReport. -/
structure CancelP where
  requestId : String
  reportRequestIds : List String
  toFollow : Bool
  venId : Option String

def CancelP.dict (r : CancelP) : Dict :=
  [("request_id", .str r.requestId), ("report_request_id", .list (r.reportRequestIds.map .str)), ("report_to_follow", .bool r.toFollow)] ++
  entry? "ven_id" (text? r.venId)

/-- As it is received: a single id is there without its list, an empty list is not there. -/
def CancelP.received (r : CancelP) : Dict :=
  [("request_id", .str r.requestId)] ++ entry? "report_request_id" (match r.reportRequestIds with
    | [] => none
    | [s] => some (.str s)
    | ss => some (.list (ss.map .str))) ++ [("report_to_follow", .bool r.toFollow)] ++ entry? "ven_id" (text? r.venId)

structure CancelP.Good (lib : Lib) (r : CancelP) : Prop where
  requestId : Ordinary lib r.requestId
  reportRequestIds : ∀ s ∈ r.reportRequestIds, Ordinary lib s
  venId : ∀ x, r.venId = some x → Ordinary lib x

/-- oadrUpdatedReport -/
structure UpdatedReportP where
  response : LooseResponseP
  cancel : Option CancelP
  venId : Option String

def UpdatedReportP.dict (r : UpdatedReportP) : Dict :=
  [("response", .dict r.response.dict)] ++ entry? "cancel_report" (r.cancel.map (fun c => .dict c.dict)) ++ entry? "ven_id" (text? r.venId)

def UpdatedReportP.received (r : UpdatedReportP) : Dict :=
  [("response", .dict r.response.received)] ++ entry? "cancel_report" (r.cancel.map (fun c => .dict c.received)) ++ entry? "ven_id" (text? r.venId)

structure UpdatedReportP.Good (lib : Lib) (r : UpdatedReportP) : Prop where
  response : r.response.Good lib
  cancel : ∀ c, r.cancel = some c → c.Good lib
  venId : ∀ x, r.venId = some x → Ordinary lib x

/-! ### Measurements -/

/-- The size of a unit: a scale, or a factor for pulses. -/
inductive SizeP
  | scale (code : String)
  | pulse (factor : Int)

def SizeP.entry : SizeP → String × Value
  | .scale c => ("scale", .str c)
  | .pulse f => ("pulse_factor", .int f)

def SizeP.Good (lib : Lib) : SizeP → Prop
  | .scale c => Ordinary lib c
  | .pulse f => f ≠ 0

/-- The attributes of an electric power. -/
structure PowerP where
  hertz : Int
  voltage : Int
  ac : Bool

def PowerP.dict (r : PowerP) : Dict := [("hertz", .int r.hertz), ("voltage", .int r.voltage), ("ac", .bool r.ac)]

/-- A measurement, with its namespace and the units that are acceptable for it. -/
structure MeasurementP where
  name : String
  ns : String
  description : String
  unit : String
  size : SizeP
  power : Option PowerP
  acceptable : Option Value

def MeasurementP.dict (r : MeasurementP) : Dict :=
  [("name", .str r.name), ("ns", .str r.ns), ("description", .str r.description), ("unit", .str r.unit), r.size.entry] ++
  entry? "power_attributes" (r.power.map (fun p => .dict p.dict)) ++ entry? "acceptable_units" r.acceptable

/-- As it is received: without the namespace and the acceptable units. -/
def MeasurementP.received (r : MeasurementP) : Dict :=
  [("name", .str r.name)] ++ entry? "power_attributes" (r.power.map (fun p => .dict p.dict)) ++
  [("description", .str r.description), ("unit", .str r.unit), r.size.entry]

/-- As it is received if a description before it has no measurement: under its own name, with the names of the elements. -/
def MeasurementP.raw (r : MeasurementP) : Dict :=
  [("item_description", .str r.description), ("item_units", .str r.unit), (match r.size with
    | .scale c => ("si_scale_code", .str c)
    | .pulse f => ("pulse_factor", .int f))] ++
  entry? "power_attributes" (r.power.map (fun p => .dict p.dict))

structure MeasurementP.Good (lib : Lib) (r : MeasurementP) : Prop where
  name : (r.name, r.ns) ∈ measurementNamespaces
  description : Ordinary lib r.description
  unit : Ordinary lib r.unit
  size : r.size.Good lib

/-- The members of a list up to the first one without a measurement are received in the usual form, all others as they are. -/
def upToFirst {α : Type} (raw : α → Dict) (done : α → Option Dict) : List α → List Dict
  | [] => []
  | x :: l => match done x with
    | some d => d :: upToFirst raw done l
    | none => (x :: l).map raw

/-! ### Reports -/

/-- What a description refers to (openleadr/objects.py:72-86 `Target`); `others` are the kinds that are not sent. -/
structure TargetP where
  mrid : Option String
  groupId : Option String
  groupName : Option String
  resourceId : Option String
  venId : Option String
  partyId : Option String
  others : Dict

def TargetP.dict (r : TargetP) : Dict :=
  [("end_device_asset", match r.mrid with
    | some m => .dict [("mrid", .str m)]
    | none => .none)] ++
  entry? "group_id" (text? r.groupId) ++ entry? "group_name" (text? r.groupName) ++ entry? "resource_id" (text? r.resourceId) ++
  entry? "ven_id" (text? r.venId) ++ entry? "party_id" (text? r.partyId) ++ r.others

/-- As it is received as the subject of a description: the id of the asset only. -/
def TargetP.subject (r : TargetP) : Option Value := r.mrid.map (fun m => .dict [("end_device_asset", .dict [("mrid", .str m)])])

/-- The entries that are received of the source of data of a description. -/
def TargetP.members (r : TargetP) : Dict :=
  entry? "group_id" (text? r.groupId) ++ entry? "group_name" (text? r.groupName) ++ entry? "resource_id" (text? r.resourceId) ++
  entry? "ven_id" (text? r.venId) ++ entry? "party_id" (text? r.partyId)

/-- As it is received as the source of data of a description: without the asset, and `None` if nothing is left. -/
def TargetP.source (r : TargetP) : Value := if r.members = [] then .none else .dict r.members

structure TargetP.Good (lib : Lib) (r : TargetP) : Prop where
  mrid : ∀ x, r.mrid = some x → Ordinary lib x
  groupId : ∀ x, r.groupId = some x → Ordinary lib x
  groupName : ∀ x, r.groupName = some x → Ordinary lib x
  resourceId : ∀ x, r.resourceId = some x → Ordinary lib x
  venId : ∀ x, r.venId = some x → Ordinary lib x
  partyId : ∀ x, r.partyId = some x → Ordinary lib x
  others : ∀ k ∈ ["end_device_asset", "emix_interfaces", "group_id", "group_name", "resource_id", "ven_id", "party_id"], Dict.get? r.others k = none

/-- How often values can be had. -/
structure SamplingP where
  minPeriod : Int
  maxPeriod : Int
  onChange : Bool

def SamplingP.dict (r : SamplingP) : Dict :=
  [("min_period", .timedelta r.minPeriod), ("max_period", .timedelta r.maxPeriod), ("on_change", .bool r.onChange)]

structure SamplingP.Good (r : SamplingP) : Prop where
  minPeriod : Spans r.minPeriod
  maxPeriod : Spans r.maxPeriod

/-- A description of a report. -/
structure DescriptionP where
  rId : String
  subject : Option TargetP
  source : Option TargetP
  reportType : String
  measurement : Option MeasurementP
  readingType : String
  marketContext : Option String
  sampling : Option SamplingP

def DescriptionP.dict (r : DescriptionP) : Dict :=
  [("r_id", .str r.rId)] ++ entry? "report_subject" (r.subject.map (fun t => .dict t.dict)) ++
  entry? "report_data_source" (r.source.map (fun t => .dict t.dict)) ++ [("report_type", .str r.reportType)] ++
  entry? "measurement" (r.measurement.map (fun m => .dict m.dict)) ++ [("reading_type", .str r.readingType)] ++
  entry? "market_context" (text? r.marketContext) ++ entry? "sampling_rate" (r.sampling.map (fun s => .dict s.dict))

/-- The entries before and after the measurement, as they are received. -/
def DescriptionP.before (r : DescriptionP) : Dict :=
  [("r_id", .str r.rId)] ++ entry? "report_subject" (r.subject.bind TargetP.subject) ++ entry? "report_data_source" (r.source.map TargetP.source) ++
  [("report_type", .str r.reportType)]

def DescriptionP.after (r : DescriptionP) : Dict :=
  [("reading_type", .str r.readingType)] ++ entry? "market_context" (text? r.marketContext) ++
  entry? "sampling_rate" (r.sampling.map (fun s => .dict s.dict))

/-- As it is received if a description before it, or itself, has no measurement. -/
def DescriptionP.raw (r : DescriptionP) : Dict :=
  r.before ++ (match r.measurement with
    | some m => [(m.name, .dict m.raw)]
    | none => []) ++ r.after

/-- As it is received if it and all before it have measurements. -/
def DescriptionP.done (r : DescriptionP) : Option Dict :=
  r.measurement.map (fun m => r.before ++ r.after ++ [("measurement", .dict m.received)])

structure DescriptionP.Good (lib : Lib) (r : DescriptionP) : Prop where
  rId : Ordinary lib r.rId
  subject : ∀ t, r.subject = some t → t.Good lib
  source : ∀ t, r.source = some t → t.Good lib
  reportType : Ordinary lib r.reportType
  measurement : ∀ m, r.measurement = some m → m.Good lib
  readingType : Ordinary lib r.readingType
  marketContext : ∀ x, r.marketContext = some x → Ordinary lib x
  sampling : ∀ s, r.sampling = some s → s.Good

/-- A value of a report; `number` is what is sent, an integer or float, and `value` the float that is received. -/
structure ReadingP where
  start : Int
  duration : Option Int
  rId : String
  confidence : Option Int
  accuracy : Option Int
  quality : Option String
  number : Value
  value : String

/-- An integer, if there is one. -/
def int? (i : Option Int) : Option Value := i.map .int

def ReadingP.dict (r : ReadingP) : Dict :=
  [("dtstart", .datetime r.start)] ++ entry? "duration" (span? r.duration) ++
  [("report_payload", .dict ([("r_id", .str r.rId)] ++ entry? "confidence" (int? r.confidence) ++ entry? "accuracy" (int? r.accuracy) ++
    entry? "data_quality" (text? r.quality) ++ [("value", r.number)]))]

/-- As it is received: the value is a float. -/
def ReadingP.received (r : ReadingP) : Dict := { r with number := .float r.value }.dict

structure ReadingP.Good (lib : Lib) (r : ReadingP) : Prop where
  start : Datable r.start
  duration : ∀ d, r.duration = some d → Spans d
  rId : Ordinary lib r.rId
  quality : ∀ x, r.quality = some x → Ordinary lib x
  number : AsFloat lib r.number r.value

/-- A report with values; `duration` and `mode` are not sent. -/
structure ReportP where
  start : Option Int
  readings : Option (List ReadingP)
  reportId : Option String
  descriptions : Option (List DescriptionP)
  requestId : String
  specifierId : String
  name : Option String
  created : Int
  duration : Option Value
  mode : Option Value

/-- A point in time, if there is one. -/
def date? (d : Option Int) : Option Value := d.map .datetime

def ReportP.dict (r : ReportP) : Dict :=
  entry? "dtstart" (date? r.start) ++ entry? "intervals" (r.readings.map (fun l => .list ((l.map ReadingP.dict).map .dict))) ++
  entry? "report_id" (text? r.reportId) ++ entry? "report_descriptions" (r.descriptions.map (fun l => .list ((l.map DescriptionP.dict).map .dict))) ++
  [("report_request_id", .str r.requestId), ("report_specifier_id", .str r.specifierId)] ++ entry? "report_name" (text? r.name) ++
  [("created_date_time", .datetime r.created)] ++ entry? "duration" r.duration ++ entry? "data_collection_mode" r.mode

/-- As it is received: a missing id is there as `None`. -/
def ReportP.received (r : ReportP) : Dict :=
  entry? "dtstart" (date? r.start) ++ entry? "intervals" (dicts? ((r.readings.getD []).map ReadingP.received)) ++
  [("report_id", (text? r.reportId).getD .none)] ++
  entry? "report_descriptions" (dicts? (upToFirst DescriptionP.raw DescriptionP.done (r.descriptions.getD []))) ++
  [("report_request_id", .str r.requestId), ("report_specifier_id", .str r.specifierId)] ++ entry? "report_name" (text? r.name) ++
  [("created_date_time", .datetime r.created)]

structure ReportP.Good (lib : Lib) (r : ReportP) : Prop where
  start : ∀ d, r.start = some d → Datable d
  readings : ∀ l, r.readings = some l → ∀ i ∈ l, i.Good lib
  reportId : ∀ x, r.reportId = some x → Ordinary lib x
  descriptions : ∀ l, r.descriptions = some l → ∀ d ∈ l, d.Good lib
  requestId : Ordinary lib r.requestId
  specifierId : Ordinary lib r.specifierId
  name : ∀ x, r.name = some x → Ordinary lib x
  created : Datable r.created

/-- Reports with values. -/
structure UpdateReportP where
  requestId : String
  reports : List ReportP
  venId : Option String

def UpdateReportP.dict (r : UpdateReportP) : Dict :=
  [("request_id", .str r.requestId), ("reports", .list ((r.reports.map ReportP.dict).map .dict))] ++ entry? "ven_id" (text? r.venId)

/-- As it is received: no reports instead of an empty list. -/
def UpdateReportP.received (r : UpdateReportP) : Dict :=
  [("request_id", .str r.requestId)] ++ entry? "reports" (dicts? (r.reports.map ReportP.received)) ++ entry? "ven_id" (text? r.venId)

structure UpdateReportP.Good (lib : Lib) (r : UpdateReportP) : Prop where
  requestId : Ordinary lib r.requestId
  reports : ∀ x ∈ r.reports, x.Good lib
  venId : ∀ x, r.venId = some x → Ordinary lib x

/-- The offer of a report; `start`, `intervals` and `mode` are not sent. -/
structure OfferP where
  duration : Option Int
  reportId : Option String
  descriptions : List DescriptionP
  requestId : Option Value
  specifierId : String
  name : String
  created : Int
  start : Option Value
  intervals : Option Value
  mode : Option Value

def OfferP.dict (r : OfferP) : Dict :=
  entry? "duration" (span? r.duration) ++ entry? "report_id" (text? r.reportId) ++
  [("report_descriptions", .list ((r.descriptions.map DescriptionP.dict).map .dict))] ++ entry? "report_request_id" r.requestId ++
  [("report_specifier_id", .str r.specifierId), ("report_name", .str r.name), ("created_date_time", .datetime r.created)] ++
  entry? "dtstart" r.start ++ entry? "intervals" r.intervals ++ entry? "data_collection_mode" r.mode

/-- The offer of a report with this name is about metadata. -/
def Metadata (name : String) : Bool := "METADATA".toList.isPrefixOf name.toList

/-- As it is received: the id of a report with a name of metadata is not sent, and a missing id of the request is received as zero. -/
def OfferP.received (r : OfferP) : Dict :=
  entry? "duration" (span? r.duration) ++ entry? "report_id" (if Metadata r.name then none else text? r.reportId) ++
  entry? "report_descriptions" (dicts? (upToFirst DescriptionP.raw DescriptionP.done r.descriptions)) ++
  [("report_request_id", r.requestId.getD (.int 0)), ("report_specifier_id", .str r.specifierId), ("report_name", .str r.name),
   ("created_date_time", .datetime r.created)]

structure OfferP.Good (lib : Lib) (r : OfferP) : Prop where
  duration : ∀ d, r.duration = some d → Spans d
  reportId : ∀ x, r.reportId = some x → Ordinary lib x
  descriptions : ∀ d ∈ r.descriptions, d.Good lib
  requestId : ∀ x, r.requestId = some x → (∃ i, x = .int i) ∨ ∃ s, x = .str s ∧ Ordinary lib s
  specifierId : Ordinary lib r.specifierId
  name : Ordinary lib r.name
  created : Datable r.created

/-- Offers of reports. -/
structure RegisterReportP where
  requestId : String
  reports : List OfferP
  venId : Option String

def RegisterReportP.dict (r : RegisterReportP) : Dict :=
  [("request_id", .str r.requestId), ("reports", .list ((r.reports.map OfferP.dict).map .dict))] ++ entry? "ven_id" (text? r.venId)

/-- As it is received: no reports instead of an empty list. -/
def RegisterReportP.received (r : RegisterReportP) : Dict :=
  [("request_id", .str r.requestId)] ++ entry? "reports" (dicts? (r.reports.map OfferP.received)) ++ entry? "ven_id" (text? r.venId)

structure RegisterReportP.Good (lib : Lib) (r : RegisterReportP) : Prop where
  requestId : Ordinary lib r.requestId
  reports : ∀ x ∈ r.reports, x.Good lib
  venId : ∀ x, r.venId = some x → Ordinary lib x

end Openleadr
