import Verif.Model.Replay
import Verif.Py.Value
/-!
The request handler of the VTN services: checks, authentication, dispatch and replies
(openleadr/service/vtn_service.py:45-210, openleadr/messaging.py:101-172).

Simplifications: the server hooks (`hooks.call`, openleadr/hooks.py:35-38) only create tasks and are left out here; logging is left out; the
user's lookup functions are functions of the VEN id; a handler does not change the message it is given.
-/
namespace Openleadr

/-- Truth of a Python value (`if v:`); opaque objects and instants are true. -/
def Value.truthy : Value → Bool
  | .none => false
  | .bool b => b
  | .int i => decide (i ≠ 0)
  | .float r => decide (r ≠ "0.0" ∧ r ≠ "-0.0")
  | .str s => decide (s ≠ "")
  | .bytes b => !b.isEmpty
  | .timedelta us => decide (us ≠ 0)
  | .list l => !l.isEmpty
  | .tuple l => !l.isEmpty
  | .dict d => !d.isEmpty
  | .datetime _ | .func _ | .obj _ _ => true

mutual
/-- `dataclasses.asdict` on a value. -/
def Value.plain : Value → Value
  | .obj _ d => .dict (plainDict d)
  | .dict d => .dict (plainDict d)
  | .list l => .list (plainList l)
  | .tuple l => .tuple (plainList l)
  | v => v
/-- The same for the elements of a list. -/
def plainList : List Value → List Value
  | [] => []
  | v :: l => v.plain :: plainList l
/-- The same for the values of a dict. -/
def plainDict : List (String × Value) → List (String × Value)
  | [] => []
  | (k, v) :: d => (k, v.plain) :: plainDict d
end

/-- The exceptions that the handler tells apart (vtn_service.py:116-156): those of openleadr/errors.py, of lxml and of signxml, and the others. -/
inductive Exn
  | reregister (ven : Value)                       -- errors.py:97-100
  | sendEmpty                                      -- errors.py:103-104
  | protocol (code : Nat) (description : String)   -- errors.py:19-93
  | http (code : Nat) (description : String)       -- errors.py:12-16
  | xmlSyntax (message : String)
  | fingerprint (message : String)                 -- errors.py:8-9
  | invalidSignature
  | other (e : Err)
  deriving DecidableEq, Repr

/-- What the handler of a message type returns: nothing, a pair of message type and payload, or something that cannot be unpacked. -/
inductive Returned
  | nothing
  | pair (type : String) (payload : Value)
  | malformed (e : Err)

/-- The parts of a signed message that authentication looks at: the fingerprint of the certificate in the message (openleadr/utils.py:426-438
    and 399-404; `AttributeError` when there is none), the outcome of `VERIFIER.verify`, and the replay protection. -/
structure Tree where
  signer : Except Exn String
  verify : Option Exn
  stamp : Stamp

/-- A request as it arrives: header, transport and content. `peer` is the fingerprint of the client certificate of the connection
    (openleadr/utils.py:526-531). -/
structure Request where
  contentType : Option String
  secure : Bool
  peer : Option String
  content : String

/-- What the library is configured with, and the parsers. -/
structure Config where
  vtnId : String
  verifySignatures : Bool
  fingerprintLookup : Option (Value → Except Exn Value)
  venLookup : Option (Value → Except Exn (Option Dict))
  validate : String → Except Exn Tree                     -- messaging.py:91-98
  parse : String → Except Exn (String × Dict)             -- messaging.py:45-62
  render : String → Dict → Except Exn String              -- messaging.py:65-88, `_create_message`
  newId : String                                          -- `utils.generate_id()`

/-- A service: its name at the endpoint and its handlers by message type (vtn_service.py:38-43), over a state. -/
structure Service (S : Type) where
  name : String
  handlers : List (String × (S → Dict → S × Except Exn Returned))

/-- The reply: HTTP status, text, and the OpenADR message the text was made from, if any. -/
structure HttpReply where
  status : Nat
  text : String
  message : Option (String × Dict)
  deriving DecidableEq, Repr

/-- openleadr/messaging.py:101-113 `validate_xml_signature` without a fingerprint. -/
def validateXmlSignature (s : Surroundings) (i : Nat) (cache : NonceCache) (tree : Tree) : NonceCache × Except Exn Unit :=
  match tree.signer with
  | .error e => (cache, .error e)                                     -- 105
  | .ok _ =>
    match tree.verify with
    | some e => (cache, .error e)                                     -- 112
    | none =>
      match verifyReplay s i cache tree.stamp with                    -- 113
      | (cache', .ok ()) => (cache', .ok ())
      | (cache', .error e) => (cache', .error (.other e))

/-- The code of `NotRegisteredOrAuthorizedError` (openleadr/errors.py:82-86, enums.py:184-195). -/
def notAuthorized : Exn := .protocol 463 "NOT REGISTERED OR AUTHORIZED"

/-- `except ValueError` in openleadr/messaging.py:141 and 169 (`UnicodeError` is a `ValueError`). -/
def onValueError (e : Exn) : Exn := if e = .other .valueError ∨ e = .other .unicodeError then notAuthorized else e

/-- openleadr/messaging.py:130-140: the fingerprint that is expected for the VEN. -/
def expectedFingerprint (c : Config) (ven : Value) : Except Exn Value :=
  match c.fingerprintLookup with
  | some lookup =>
    match lookup ven with
    | .error e => .error (onValueError e)
    | .ok v => if v.truthy then .ok v else .error notAuthorized       -- 134-135
  | none =>
    match c.venLookup with
    | some lookup =>
      match lookup ven with
      | .error e => .error (onValueError e)
      | .ok none => .error notAuthorized                              -- 138-139
      | .ok (some info) =>
        if info = [] then .error notAuthorized                        -- an empty dict is false
        else .ok ((Dict.get? info "fingerprint").getD .none)          -- 140
    | none => .error (.other .attributeError)                         -- not called without a lookup (vtn_service.py:83-90)

/-- openleadr/messaging.py:120-172 `authenticate_message`. The texts of the errors are left out. -/
def authenticateMessage (c : Config) (s : Surroundings) (i : Nat) (cache : NonceCache) (r : Request) (tree : Tree) (payload : Dict) :
    NonceCache × Except Exn Unit :=
  match r.secure, Dict.get? payload "ven_id" with
  | true, some ven =>                                                 -- 123
    match r.peer with
    | none => (cache, .error notAuthorized)                           -- 125-128
    | some peer =>
      match expectedFingerprint c ven with                            -- 130-144
      | .error e => (cache, .error e)
      | .ok expected =>
        if expected = .none then (cache, .error notAuthorized)        -- 146-150
        else if Value.str peer ≠ expected then (cache, .error notAuthorized)          -- 152-155
        else if c.verifySignatures then                               -- 157
          match tree.signer with                                      -- 158-159
          | .error e => (cache, .error e)
          | .ok signer =>
            if Value.str signer ≠ expected then (cache, .error notAuthorized)         -- 160-165
            else
              match validateXmlSignature s i cache tree with          -- 167-172
              | (cache', .ok ()) => (cache', .ok ())
              | (cache', .error e) => (cache', .error (onValueError e))
        else (cache, .ok ())
  | _, _ => (cache, .ok ())

/-- openleadr/service/vtn_service.py:201-210 `error_response`. The second `if` has no `elif`, so the first has no effect. -/
def errorResponse (type : String) (code : Nat) (description : String) : String × Dict :=
  let response := if type = "oadrRequestEvent" then "oadrDistributeEvent" else "oadrResponse"
  (response, [("response", .dict [("response_code", .int code), ("response_description", .str description)])])

/-- openleadr/service/vtn_service.py:174-178: the payload of a handler's reply as a dict. Setting an item (182) of a value that is not a dict
    raises `TypeError`. -/
def payloadDict : Value → Except Exn Dict
  | .obj _ d => .ok (plainDict d)
  | .none => .ok []
  | .dict d => .ok d
  | _ => .error (.other .typeError)

/-- openleadr/service/vtn_service.py:182-189. -/
def finishPayload (c : Config) (message : Dict) (payload : Dict) : Dict :=
  let p := Dict.set payload "vtn_id" (.str c.vtnId)                                        -- 182
  let p := match Dict.get? message "ven_id" with                                           -- 183-184
    | some ven => if ((Dict.get? p "ven_id").getD .none).truthy then p else Dict.set p "ven_id" ven
    | none => p
  let p := Dict.set p "response" (.dict [("request_id", (Dict.get? message "request_id").getD .none), ("response_code", .int 200),
    ("response_description", .str "OK")])                                                  -- 186-188
  Dict.set p "request_id" (.str c.newId)                                                   -- 189

/-- openleadr/service/vtn_service.py:166-199 `handle_message`. 459 is `COMPLIANCE_ERROR` (openleadr/enums.py:184-195). -/
def handleMessage (c : Config) (svc : Service S) (st : S) (type : String) (message : Dict) : S × Except Exn (String × Dict) :=
  match Dict.get? svc.handlers type with
  | some h =>
    match h st message with                                                                -- 170-172
    | (st', .error e) => (st', .error e)
    | (st', .ok .nothing) => (st', .ok ("oadrResponse", finishPayload c message []))       -- 180
    | (st', .ok (.malformed e)) => (st', .error (.other e))                                -- 174
    | (st', .ok (.pair t v)) =>
      match payloadDict v with
      | .error e => (st', .error e)
      | .ok p => (st', .ok (t, finishPayload c message p))
  | none =>
    (st, .ok (errorResponse "oadrResponse" 459                                             -- 192-196
      s!"A message of type {type} should not be sent to this endpoint ({svc.name})"))

/-- openleadr/service/vtn_service.py:75-79: whether the VEN is asked to register again. -/
def checkKnown (c : Config) (type : String) (message : Dict) : Except Exn Unit :=
  if type = "oadrCreatePartyRegistration" ∨ type = "oadrQueryRegistration" then .ok ()
  else
    match Dict.get? message "ven_id", c.venLookup with
    | some ven, some lookup =>
      match lookup ven with
      | .error e => .error e
      | .ok none => .error (.reregister ven)
      | .ok (some info) => if (Dict.get? info "registration_id").getD .none = .none then .error (.reregister ven) else .ok ()
    | _, _ => .ok ()

/-- openleadr/service/vtn_service.py:82-94. -/
def authenticate (c : Config) (s : Surroundings) (i : Nat) (cache : NonceCache) (r : Request) (tree : Tree) (message : Dict) :
    NonceCache × Except Exn Unit :=
  if c.fingerprintLookup.isSome ∨ c.venLookup.isSome then authenticateMessage c s i cache r tree message
  else (cache, .ok ())                                                                     -- 91-94: only logged

/-- The outcome of the `try` block of vtn_service.py:49-115: the message type when it is already known, and the reply or the exception. -/
structure Outcome where
  type : Option String
  result : Except Exn (String × Dict)

/-- openleadr/service/vtn_service.py:51-52: the header starts with `application/xml`, in any case. -/
def isXml (contentType : Option String) : Bool :=
  ("application/xml".toList).isPrefixOf ((contentType.getD "").toList.map Char.toLower)

/-- openleadr/service/vtn_service.py:49-115: from the request to the reply's type and payload. The keyword arguments of line 53 do not exist
    in `HTTPError.__init__` (errors.py:13), so a `TypeError` is raised there. -/
def process (c : Config) (svc : Service S) (s : Surroundings) (i : Nat) (cache : NonceCache) (st : S) (r : Request) :
    (NonceCache × S) × Outcome :=
  if isXml r.contentType = false then
    ((cache, st), ⟨none, .error (.other .typeError)⟩)                                      -- 52-55
  else
    match c.validate r.content with                                                        -- 60
    | .error e => ((cache, st), ⟨none, .error e⟩)
    | .ok tree =>
      match c.parse r.content with                                                         -- 63
      | .error e => ((cache, st), ⟨none, .error e⟩)
      | .ok (type, message) =>
        if type = "oadrResponse" then ((cache, st), ⟨some type, .error .sendEmpty⟩)        -- 65-66
        else if ∃ v, Dict.get? message "vtn_id" = some v ∧ v ≠ .none ∧ v ≠ .str c.vtnId then
          ((cache, st), ⟨some type, .error (.protocol 452 "The supplied vtnID is invalid.")⟩)  -- 68-72
        else
          match checkKnown c type message with
          | .error e => ((cache, st), ⟨some type, .error e⟩)
          | .ok () =>
            match (if r.secure ∧ Dict.has message "ven_id" then authenticate c s i cache r tree message else (cache, .ok ())) with
            | (cache', .error e) => ((cache', st), ⟨some type, .error e⟩)
            | (cache', .ok ()) =>
              let message := if r.secure ∧ type = "oadrCreatePartyRegistration" then       -- 99-100
                Dict.set message "fingerprint" (match r.peer with | some p => .str p | none => .none) else message
              match handleMessage c svc st type message with                               -- 101-107
              | (st', .error e) => ((cache', st'), ⟨some type, .error e⟩)
              | (st', .ok (rt, rp)) =>
                let rp := if Dict.has rp "response" then rp else Dict.set rp "response" (.dict [("response_code", .int 200),
                  ("response_description", .str "OK"), ("request_id", (Dict.get? message "request_id").getD .none)])  -- 109-112
                let rp := Dict.set rp "vtn_id" (.str c.vtnId)                              -- 113
                let rp := if Dict.has rp "ven_id" then rp else
                  Dict.set rp "ven_id" ((Dict.get? message "ven_id").getD .none)           -- 114-115
                ((cache', st'), ⟨some type, .ok (rt, rp)⟩)

/-- The message types of the four services (`@handler` in openleadr/service/): what `handlers` holds at each endpoint. `OptService` is not
    among the services of the server (openleadr/server.py:89-92). -/
def endpoints : List (String × List String) :=
  [("EiEvent", ["oadrRequestEvent", "oadrCreatedEvent"]),                       -- event_service.py:36, 86
   ("EiReport", ["oadrRegisterReport", "oadrUpdateReport", "oadrCreatedReport", "oadrRegisteredReport"]),  -- report_service.py:73, 226, 263, 294
   ("OadrPoll", ["oadrPoll"]),                                                  -- poll_service.py:113
   ("EiRegisterParty", ["oadrQueryRegistration", "oadrCreatePartyRegistration", "oadrCancelPartyRegistration"])]  -- registration_service.py:70, 88, 129

/-- A message as a reply with status 200; an error of `_create_message` leaves the handler (it is raised inside an `except` or `else` clause). -/
def sendMessage (c : Config) (type : String) (payload : Dict) : Except Exn HttpReply :=
  match c.render type payload with
  | .error e => .error e
  | .ok text => .ok ⟨200, text, some (type, payload)⟩

/-- openleadr/service/vtn_service.py:116-164: the reply that is sent. An OpenADR error before the message type is known would raise
    `UnboundLocalError`, a `NameError` (here `attributeError`). -/
def reply (c : Config) (o : Outcome) : Except Exn HttpReply :=
  match o.result with
  | .ok (type, payload) => sendMessage c type payload                                      -- 157-162
  | .error (.reregister ven) => sendMessage c "oadrRequestReregistration" [("ven_id", ven)]  -- 116-122
  | .error .sendEmpty => .ok ⟨200, "", none⟩                                               -- 123-126
  | .error (.protocol code description) =>                                                 -- 127-135
    match o.type with
    | none => .error (.other .attributeError)
    | some type => let (t, p) := errorResponse type code description; sendMessage c t p
  | .error (.http code description) => .ok ⟨code, description, none⟩                       -- 136-139
  | .error (.xmlSyntax m) => .ok ⟨400, "XML failed validation: " ++ m, none⟩               -- 140-143
  | .error (.fingerprint m) => .ok ⟨403, m, none⟩                                          -- 144-147
  | .error .invalidSignature => .ok ⟨403, "Invalid Signature", none⟩                       -- 148-151
  | .error (.other _) => .ok ⟨500, "", none⟩                                               -- 152-156

/-- openleadr/service/vtn_service.py:45-164 `handler`: the state afterwards and the reply, or the exception that leaves the handler (aiohttp
    then answers with its own HTTP 500 page). -/
def handle (c : Config) (svc : Service S) (s : Surroundings) (i : Nat) (cache : NonceCache) (st : S) (r : Request) :
    (NonceCache × S) × Except Exn HttpReply :=
  let x := process c svc s i cache st r
  (x.1, reply c x.2)

end Openleadr
