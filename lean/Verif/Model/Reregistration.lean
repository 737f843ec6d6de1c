import Verif.Model.Exchange
/-!
The messages by which a VEN that the VTN does not know registers again, and by which a VEN ends its registration: what
openleadr/client.py:1262-1275 (`_poll`), 1068-1078 (`send_response`), 481-488 (`create_party_reregistration`) and 502-518 (`cancel_party_registration`) send, one
after the other, and what the VTN answers.

Simplifications: the VTN keeps its VENs in a table that its `ven_lookup` reads and its registration handlers write; the messages about reports and events that
follow a registration are left out here (they do not change the ids, C50).
-/
namespace Openleadr

/-- The VENs that the VTN knows, by their ids. -/
abbrev Table := List (String × Dict)

/-- A `ven_lookup` in a table of VENs by their ids (such as `{'123': {...}}.get(ven_id)`). -/
def tableLookup (table : List (String × Dict)) (ven : Value) : Except Exn (Option Dict) :=
  match ven with
  | .str s => .ok (Dict.get? table s)
  | _ => .ok none

/-- The server, while its table is this one. -/
def Config.looking (c : Config) (table : Table) : Config := { c with venLookup := some (tableLookup table) }

/-- client.py:1072-1077: the payload of `send_response` with its defaults. -/
def responsePayload (ven : String) : Dict :=
  [("ven_id", .str ven), ("response", .dict [("response_code", .int 200), ("response_description", .str "OK"), ("request_id", .none)])]

/-- client.py:488, 434-442: a registration of a VEN that has an id. -/
def againArgs (name ven requestId : String) (reg : Option String) : RegisterArgs :=
  { venName := name, venId := some ven, requestId := requestId, registrationId := reg }

/-- client.py:507-510: the payload of the cancellation. -/
def cancelPayload (requestId ven reg : String) : Dict := [("request_id", .str requestId), ("registration_id", .str reg), ("ven_id", .str ven)]

/-- What the client gets of an exchange. -/
abbrev Got := Res (Option (Option String × Dict))

/-- The VTN: its nonces, its table, and the state of its poll service. -/
structure Registrar (P : Type) where
  cache : NonceCache
  table : Table
  polls : P

/-- The first three messages of a poll that is answered by a request to register again: the poll, the empty response, the registration. -/
def registerAgain (k : Link) (c : Config) (u : RegistrationUser Table) (freq : Int) (psvc : Service P) (secure : Bool) (peer : Option String)
    (name ven requestId : String) (reg : Option String) (x : Registrar P) : Registrar P × List Got :=
  let a1 := exchange k (c.looking x.table) psvc x.cache x.polls secure peer "oadrPoll" [("ven_id", .str ven)]
  let a2 := exchange k (c.looking x.table) (registrationService u (.timedelta freq)) a1.1.1 x.table secure peer "oadrResponse" (responsePayload ven)
  let a3 := exchange k (c.looking a2.1.2) (registrationService u (.timedelta freq)) a2.1.1 a2.1.2 secure peer "oadrCreatePartyRegistration"
    (againArgs name ven requestId reg).payload
  (⟨a3.1.1, a3.1.2, a1.1.2⟩, [a1.2, a2.2, a3.2])

/-- The world with these answers to the messages from the `n`-th on. An exception of `_create_message` is taken for a failed request: the client does as little. -/
def World.answering (w : World) (n : Nat) (answers : List Got) : World :=
  { w with net := fun i => if n ≤ i then (match answers[i - n]? with | some (.ok a) => answerOf a | some (.error _) => some (none, noPayload) | none => w.net i)
                           else w.net i }

/-- A text, where the client holds one. -/
def textOf : Value → Option String
  | .str s => some s
  | _ => none

/-- client.py:1272: whether the answer to the poll asks for another registration. -/
def asksAgain : Got → Bool
  | .ok (some (some t, _)) => decide (t = "oadrRequestReregistration")
  | _ => false

/-- client.py:1262-1275: one poll of the client, whose ids are texts, with the registration that may follow from it. The answers to further messages are those
    of the world. -/
def pollOrRegister (k : Link) (c : Config) (u : RegistrationUser Table) (freq : Int) (psvc : Service P) (secure : Bool) (peer : Option String)
    (name requestId : String) (w : World) (x : Registrar P × Client) : Registrar P × Client :=
  let ven := (textOf x.2.venId).getD ""
  let a := exchange k (c.looking x.1.table) psvc x.1.cache x.1.polls secure peer "oadrPoll" [("ven_id", .str ven)]
  let y := if asksAgain a.2 then registerAgain k c u freq psvc secure peer name ven requestId (textOf x.2.registrationId) x.1
    else (⟨a.1.1, x.1.table, a.1.2⟩, [a.2])
  (y.1, (clientPoll (w.answering x.2.log.length y.2) x.2).1)

/-- client.py:502-513: the cancellation of a registration. -/
def endRegistration (k : Link) (c : Config) (u : RegistrationUser Table) (freq : Int) (secure : Bool) (peer : Option String) (requestId ven reg : String)
    (x : Registrar P) : Registrar P × Got :=
  let a := exchange k (c.looking x.table) (registrationService u (.timedelta freq)) x.cache x.table secure peer "oadrCancelPartyRegistration"
    (cancelPayload requestId ven reg)
  (⟨a.1.1, a.1.2, x.polls⟩, a.2)

/-- What can happen to a VTN and a registered VEN: the VTN's table becomes another one, or the VEN polls. -/
inductive RegistrarStep
  | changes (table : Table)
  | polls (k : Link) (w : World) (requestId : String)

def registrarStep (c : Config) (u : RegistrationUser Table) (freq : Int) (psvc : Service P) (secure : Bool) (peer : Option String) (name : String)
    (x : Registrar P × Client) : RegistrarStep → Registrar P × Client
  | .changes table => ({ x.1 with table := table }, x.2)
  | .polls k w requestId => pollOrRegister k c u freq psvc secure peer name requestId w x

end Openleadr
