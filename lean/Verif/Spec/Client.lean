import Verif.Model.Client
/-!
What the properties of the client say, without the code: the kinds of messages, the identity that follows from the messages exchanged, and what each type of
poll answer may do.
-/
namespace Openleadr

/-- The message type under which something is sent. -/
def Outgoing.kind : Outgoing → String
  | .poll _ => "oadrPoll"
  | .query => "oadrQueryRegistration"
  | .register _ _ => "oadrCreatePartyRegistration"
  | .cancelRegistration _ _ => "oadrCancelPartyRegistration"
  | .canceledRegistration _ _ _ _ => "oadrCanceledPartyRegistration"
  | .response _ => "oadrResponse"
  | .requestEvent _ => "oadrRequestEvent"
  | .createdEvent _ _ => "oadrCreatedEvent"
  | .registerReports _ _ => "oadrRegisterReport"
  | .createdReport _ _ _ => "oadrCreatedReport"
  | .canceledReport _ _ => "oadrCanceledReport"
  | .registeredReport _ _ => "oadrRegisteredReport"
  | .createOpt _ _ => "oadrCreateOpt"
  | .cancelOpt _ _ => "oadrCancelOpt"

/-- The ids by which a VEN is known, and how often it is to poll. -/
structure Identity where
  venId : Value
  registrationId : Value
  frequency : Value
  deriving DecidableEq

/-- The response code of an answer. -/
def codeOf (p : Payload) : Option Value :=
  match Dict.get? p.fields "response" with
  | some (.dict r) => Dict.get? r "response_code"
  | _ => none

/-- A field of the answer, if it is there and not empty. -/
def fieldOf (p : Payload) (k : String) : Option Value := (Dict.get? p.fields k).filter Value.truthy

/-- An answer that can be read: not an empty body, and not an error without a description. -/
def readable : Answer → Bool
  | none => false
  | some (_, p) =>
    match Dict.get? p.fields "response" with
    | none => true
    | some (.dict r) => decide (Dict.get? r "response_code" = none ∨ Dict.get? r "response_code" = some (.int 200) ∨ Dict.has r "response_description" = true)
    | some _ => false

/-- How one exchange changes the identity. The answer to a query also counts: `run` takes over the registration id it carries. -/
def identityStep (i : Identity) : Outgoing × Answer → Identity
  | (.register _ _, some (some _, p)) =>
    if codeOf p = some (.int 200) then
      ⟨(fieldOf p "ven_id").getD i.venId, (fieldOf p "registration_id").getD .none,
       if (fieldOf p "registration_id").isSome then (Dict.get? p.fields "requested_oadr_poll_freq").getD (.timedelta 10000000) else i.frequency⟩
    else i
  | (.query, some (t, p)) =>
    if readable (some (t, p)) then { i with registrationId := (Dict.get? p.fields "registration_id").getD i.registrationId } else i
  | (.cancelRegistration _ _, some (t, p)) =>
    if t = some "oadrCanceledPartyRegistration" ∧ codeOf p = some (.int 200) then { i with registrationId := .none } else i
  | (.canceledRegistration code _ _ _, a) => if code = 200 ∧ readable a then { i with registrationId := .none } else i
  | _ => i

/-- The parts of a client. -/
inductive Part
  | identity | polling | reporting | events | opts | workers | stopped
  deriving DecidableEq

def Part.same : Part → Client → Client → Prop
  | .identity, c, d => c.venId = d.venId ∧ c.registrationId = d.registrationId ∧ c.pollFrequency = d.pollFrequency
  | .polling, c, d => c.polling = d.polling
  | .reporting, c, d => c.reporting = d.reporting ∧ c.samples = d.samples
  | .events, c, d => c.events = d.events ∧ c.calls = d.calls
  | .opts, c, d => c.opts = d.opts
  | .workers, c, d => c.workers = d.workers
  | .stopped, c, d => c.stopped = d.stopped

/-- Which parts a poll answer of a type may change. -/
def mayChange : String → List Part
  | "oadrDistributeEvent" => [.events]
  | "oadrCreateReport" => [.reporting]
  | "oadrCancelReport" => [.reporting]
  | "oadrCancelPartyRegistration" => [.identity, .polling, .reporting]
  | "oadrRequestReregistration" => [.identity, .polling, .reporting, .events, .workers, .stopped]
  | _ => []

/-- What may be sent because of it, at most once each and in this order. -/
def maySend : String → List String
  | "oadrDistributeEvent" => ["oadrCreatedEvent"]
  | "oadrCreateReport" => ["oadrCreatedReport"]
  | "oadrCancelReport" => ["oadrCanceledReport"]
  | "oadrRegisterReport" => ["oadrRegisteredReport"]
  | "oadrCancelPartyRegistration" => ["oadrCanceledPartyRegistration"]
  | "oadrRequestReregistration" =>
    ["oadrResponse", "oadrCreatePartyRegistration", "oadrRegisterReport", "oadrCreatedReport", "oadrRequestEvent", "oadrCreatedEvent"]
  | _ => []

end Openleadr
