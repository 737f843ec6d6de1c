import Verif.Model.Messaging
import Verif.Model.RegistrationService
import Verif.Model.Client
/-!
A request of the client from its payload to the answer it reads: `_create_message`, the handler of the server, and `_perform_request`
(openleadr/client.py:1087-1134, openleadr/service/vtn_service.py:45-164), with the library's own parser and renderer at both ends.

Simplifications: neither side signs messages (for that see Model/Signed), and the hooks are left out. Whether the schema accepts a text is arbitrary (`Config.validate` on the server,
`accepts` on the client).
-/
namespace Openleadr

/-- openleadr/messaging.py:45-62 on the server: the exceptions of xmltodict and of `normalize_dict` are all answered alike (vtn_service.py:152-156). -/
def parseText (lib : Lib) (s : String) : Except Exn (String × Dict) :=
  match parseMessage lib s.toList with
  | .ok (t, .dict d) => .ok (t, d)
  | .ok (_, _) => .error (.other .attributeError)
  | .error e => .error (.other e)

/-- openleadr/messaging.py:65-88 on the server. -/
def renderText (lib : Lib) (now : Int) (type : String) (p : Dict) : Except Exn String :=
  match createMessage lib now type p with
  | .ok t => .ok (String.ofList t)
  | .error e => .error (.other e)

/-- A server with the library's own parser and renderer. -/
def wired (c : Config) (lib : Lib) (now : Int) : Config := { c with parse := parseText lib, render := renderText lib now }

/-- What the client gets of a reply (client.py:1093-1127): `none` when the body is empty; the type is `none` for another status than 200, for an
    exception that left the handler of the server (aiohttp answers with status 500), and for a text that cannot be read. -/
def clientReads (lib : Lib) (accepts : String → Bool) (reply : Except Exn HttpReply) : Option (Option String × Dict) :=
  match reply with
  | .error _ => some (none, [])
  | .ok r =>
    if r.status ≠ 200 then some (none, [])
    else if r.text = "" then none
    else if accepts r.text = false then some (none, [])
    else match parseText lib r.text with
      | .ok (t, d) => some (some t, d)
      | .error _ => some (none, [])

/-- What surrounds an exchange: the libraries, the clocks of both sides, the client's view of the schema, and the server's view of time and of its
    nonces, which only matter for signed messages. -/
structure Link where
  lib : Lib
  clientNow : Int
  serverNow : Int
  accepts : String → Bool
  surroundings : Surroundings
  count : Nat

/-- A request of the client: `_create_message` and `_perform_request`. The state of the server afterwards, and what the client gets; an exception of
    `_create_message` is one of the client's. The headers are those of aiohttp (client.py:1318 sets the content type). -/
def exchange (k : Link) (c : Config) (svc : Service S) (cache : NonceCache) (st : S) (secure : Bool) (peer : Option String) (type : String) (p : Dict) :
    (NonceCache × S) × Res (Option (Option String × Dict)) :=
  match createMessage k.lib k.clientNow type p with
  | .error e => ((cache, st), .error e)
  | .ok txt =>
    let x := handle (wired c k.lib k.serverNow) svc k.surroundings k.count cache st ⟨some "application/xml", secure, peer, String.ofList txt⟩
    (x.1, .ok (clientReads k.lib k.accepts x.2))

/-- The arguments of `create_party_registration` with their defaults (client.py:414-417), and the attributes of the client it uses. -/
structure RegisterArgs where
  venName : String
  venId : Option String
  requestId : String
  registrationId : Option String := none
  httpPullModel : Bool := true
  xmlSignature : Bool := false
  reportOnly : Bool := false
  profileName : String := "2.0b"
  transportName : String := "simpleHttp"
  transportAddress : Option String := none

/-- A text that may be `None`. -/
def textOrNone (t : Option String) : Value := match t with | some s => .str s | none => .none

/-- client.py:433-446: the payload of the registration. -/
def RegisterArgs.payload (a : RegisterArgs) : Dict :=
  [("request_id", .str a.requestId), ("ven_name", .str a.venName), ("ven_id", textOrNone a.venId), ("http_pull_model", .bool a.httpPullModel),
   ("xml_signature", .bool a.xmlSignature), ("report_only", .bool a.reportOnly), ("profile_name", .str a.profileName),
   ("transport_name", .str a.transportName), ("transport_address", textOrNone a.transportAddress), ("registration_id", textOrNone a.registrationId)]

/-- What the client's request returns, for the model of the client. -/
def answerOf (x : Option (Option String × Dict)) : Answer := x.map (fun y => (y.1, ⟨y.2, none, none, none⟩))

end Openleadr
