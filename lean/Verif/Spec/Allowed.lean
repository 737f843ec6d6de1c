import Verif.Spec.SchemaValid
import Verif.Spec.OptPayloads
/-!
What the schema asks of payloads, beyond texts that can be sent and durations that are not negative.
-/
namespace Openleadr

/-- A code of three digits. -/
def ResponseCode (i : Int) : Prop := 100 ≤ i ∧ i ≤ 999

/-- A number of 32 bits. -/
def Unsigned32 (i : Int) : Prop := 0 ≤ i ∧ i ≤ (4294967295 : Nat)

/-- Python's text of a float that XML Schema reads, too: not `inf` or `nan`. -/
def SchemaNumber (v : Value) : Prop := ∀ r, v = .float r → Xsd.IsFloat r.toList

structure RegistrationP.Allowed (r : RegistrationP) : Prop where
  profileName : r.profileName ∈ ["2.0a", "2.0b"]
  transportName : r.transportName ∈ ["simpleHttp", "xmpp"]

structure ProfileP.Allowed (r : ProfileP) : Prop where
  name : r.name ∈ ["2.0a", "2.0b"]
  transports : ∀ t ∈ r.transports, t ∈ ["simpleHttp", "xmpp"]

structure RegisteredP.Allowed (r : RegisteredP) : Prop where
  response : ResponseCode r.response.code
  profiles : ∀ p ∈ r.profiles, p.Allowed

structure ReportRequestP.Allowed (r : ReportRequestP) : Prop where
  backDuration : r.backDuration ≠ none
  payloads : ∀ p ∈ r.payloads, SchemaText schemaReadingType p.2

structure EventResponseP.Allowed (r : EventResponseP) : Prop where
  code : ResponseCode r.code
  modification : Unsigned32 r.modification
  optType : r.optType ∈ schemaOptType

structure CreatedEventP.Allowed (r : CreatedEventP) : Prop where
  response : ResponseCode r.response.code
  eventResponses : ∀ l, r.eventResponses = some l → ∀ e ∈ l, e.Allowed

structure UpdatedReportP.Allowed (r : UpdatedReportP) : Prop where
  response : ResponseCode r.response.code
  cancel : ∀ c, r.cancel = some c → c.reportRequestIds ≠ []

/-- The attributes of an electric power are there exactly if it is one; a size is a scale, except for pulses. -/
structure MeasurementP.Allowed (r : MeasurementP) : Prop where
  item : SchemaAllows r.name r.description r.unit
  size : (r.name ≠ "pulseCount" ∧ ∃ c ∈ schemaSiScaleCode, r.size = .scale c) ∨ (r.name = "pulseCount" ∧ ∃ f, r.size = .pulse f)
  power : r.power.isSome = true ↔ r.name ∈ ["powerApparent", "powerReactive", "powerReal"]

structure DescriptionP.Allowed (r : DescriptionP) : Prop where
  reportType : SchemaText schemaReportType r.reportType
  measurement : ∀ m, r.measurement = some m → m.Allowed
  readingType : SchemaText schemaReadingType r.readingType

structure ReadingP.Allowed (r : ReadingP) : Prop where
  confidence : ∀ c, r.confidence = some c → 0 ≤ c ∧ c ≤ (100 : Nat)
  quality : ∀ x, r.quality = some x → SchemaText Xsd.dataQualities x
  number : SchemaNumber r.number

structure ReportP.Allowed (r : ReportP) : Prop where
  readings : ∀ l, r.readings = some l → ∀ i ∈ l, i.Allowed
  descriptions : ∀ l, r.descriptions = some l → ∀ d ∈ l, d.Allowed
  name : ∀ x, r.name = some x → SchemaText schemaReportName x

structure OfferP.Allowed (r : OfferP) : Prop where
  descriptions : ∀ d ∈ r.descriptions, d.Allowed
  name : SchemaText schemaReportName r.name

/-- At most one target. -/
structure OptP.Allowed (r : OptP) : Prop where
  optType : r.optType ∈ schemaOptType
  reason : SchemaText schemaOptReason r.reason
  modification : ∀ i, r.modification = some i → Unsigned32 i
  targets : ∀ l, r.targets = some l → l.length ≤ 1

structure IntervalP.Allowed (r : IntervalP) : Prop where
  number : SchemaNumber r.number

structure SignalP.Allowed (r : SignalP) : Prop where
  nonempty : r.intervals ≠ []
  intervals : ∀ i ∈ r.intervals, i.Allowed
  name : SchemaText schemaSignalName r.name
  type : r.type ∈ schemaSignalType
  measurement : ∀ m, r.measurement = some m → m.Allowed
  current : ∀ c, r.current = some c → SchemaNumber c.1

structure DescriptorP.Allowed (r : DescriptorP) : Prop where
  modification : Unsigned32 r.modification
  priority : ∀ i, r.priority = some i → Unsigned32 i
  status : r.status ∈ schemaEventStatus

structure EventP.Allowed (r : EventP) : Prop where
  descriptor : r.descriptor.Allowed
  nonempty : r.signals ≠ []
  signals : ∀ s ∈ r.signals, s.Allowed
  targets : r.targets ≠ none
  response : r.response ∈ ["always", "never"]

structure DistributeEventP.Allowed (r : DistributeEventP) : Prop where
  response : ∀ x, r.response = some x → ResponseCode x.code
  events : ∀ e ∈ r.events, e.Allowed

end Openleadr
