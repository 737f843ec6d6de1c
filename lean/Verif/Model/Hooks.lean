import Verif.Model.Handler
import Verif.Model.Text
/-!
The hooks of the client, with the request that passes them, and the hooks of the server, with the handler that passes them
(openleadr/client.py:125-129, 368-381, 1087-1142; openleadr/hooks.py; openleadr/service/vtn_service.py:45-199).

Simplifications: no hook is added while the hooks of a point are run; logging is left out; HTTP status, content, schema validation, signature and
parsing of an answer are given (`Wire`).
-/
namespace Openleadr

/-- Hooks by point, each with the hooks in the order they were added. A hook is a number. -/
abbrev Hooks := List (String × List Nat)

/-- client.py:125-129 -/
def clientHookPoints : List String := ["before_send_xml", "after_receive_xml", "before_schema_validation", "before_parse_xml", "after_parse_xml"]

/-- openleadr/hooks.py:19-22 -/
def serverHookPoints : List String := ["before_parse", "before_handle", "after_handle", "before_respond"]

/-- No hooks at any of the points. -/
def noHooks (points : List String) : Hooks := points.map (fun h => (h, []))

/-- client.py:368-381 `add_hook`; openleadr/hooks.py:25-32 `register` is the same for the server. -/
def addHook (h : Hooks) (name : String) (hook : Nat) : Hooks × Res Unit :=
  match Dict.get? h name with
  | none => (h, .error .valueError)
  | some l => (Dict.set h name (l ++ [hook]), .ok ())

/-! ### The client -/

/-- How a call of a hook ends: it returns, it raises an `Exception`, or it raises another `BaseException` (the task is cancelled). -/
inductive HookEnd
  | done
  | raises (e : Err)
  | aborts
  deriving DecidableEq

/-- What hooks do, over a state of the user: a call with arguments changes the state, may change mutable arguments, and ends. -/
abbrev HookCode (σ : Type) := Nat → σ → List Value → σ × List Value × HookEnd

/-- A call of a hook that was made: point, hook and arguments. -/
structure HookRun where
  point : String
  hook : Nat
  args : List Value
  deriving DecidableEq

/-- The user's state, the calls that were made, the arguments afterwards, and whether a `BaseException` left the loop. -/
structure HookLoop (σ : Type) where
  state : σ
  runs : List HookRun
  args : List Value
  aborted : Bool

/-- client.py:1137-1142: the loop of `_execute_hooks` with its `try`. -/
def hookLoop (code : HookCode σ) (point : String) : List Nat → σ → List Value → HookLoop σ
  | [], s, args => ⟨s, [], args, false⟩
  | k :: ks, s, args =>
    match code k s args with
    | (s', args', .done) =>
      let r := hookLoop code point ks s' args'
      { r with runs := ⟨point, k, args⟩ :: r.runs }
    | (s', args', .raises _) =>                                     -- 1140-1142: logged
      let r := hookLoop code point ks s' args'
      { r with runs := ⟨point, k, args⟩ :: r.runs }
    | (s', args', .aborts) => ⟨s', [⟨point, k, args⟩], args', true⟩

/-- client.py:1136-1142 `_execute_hooks`. All points the client passes are in `self.hooks` (theorem `c63_registered`), so the `KeyError` of an
    unknown point is left out. -/
def executeHooks (code : HookCode σ) (h : Hooks) (point : String) (s : σ) (args : List Value) : HookLoop σ :=
  hookLoop code point ((Dict.get? h point).getD []) s args

/-- The outside of a request: what the server sends (status and content, or an exception), and what validation and parsing say about it. -/
structure Wire where
  transfer : Option (Nat × List UInt8)
  schemaOk : List UInt8 → Bool
  signatureOk : List UInt8 → Bool
  parse : List UInt8 → Option (String × Value)

/-- What `_perform_request` gives back: `None`, a pair of message type and payload (`None, {}` after every failure), or a `BaseException`. -/
inductive WireReply
  | nothing
  | pair (type : Option String) (payload : Value)
  | aborted
  deriving DecidableEq

/-- `return None, {}` -/
def WireReply.failed : WireReply := .pair none (.dict [])

/-- client.py:1113-1122: from the content of the answer on. -/
def receiveHooked (code : HookCode σ) (h : Hooks) (w : Wire) (content : List UInt8) (s : σ) : σ × List HookRun × WireReply :=
  match ensureStr (.bytes content) with
  | .error _ => (s, [], .failed)
  | .ok text =>
    let r1 := executeHooks code h "before_schema_validation" s [text]
    if r1.aborted then (r1.state, r1.runs, .aborted)
    else if w.schemaOk content = false then (r1.state, r1.runs, .failed)
    else if w.signatureOk content = false then (r1.state, r1.runs, .failed)
    else
      let r2 := executeHooks code h "before_parse_xml" r1.state [text]
      if r2.aborted then (r2.state, r1.runs ++ r2.runs, .aborted)
      else
        match w.parse content with
        | none => (r2.state, r1.runs ++ r2.runs, .failed)
        | some (type, payload) =>
          let r3 := executeHooks code h "after_parse_xml" r2.state [.str type, payload]
          if r3.aborted then (r3.state, r1.runs ++ r2.runs ++ r3.runs, .aborted)
          else (r3.state, r1.runs ++ r2.runs ++ r3.runs, .pair (some type) ((r3.args[1]?).getD payload))

/-- client.py:1087-1134 `_perform_request`, with its hooks; the check of the response code (1129-1133), which only logs, is left out. -/
def requestHooked (code : HookCode σ) (h : Hooks) (w : Wire) (message : Value) (s : σ) : σ × List HookRun × WireReply :=
  match ensureStr message with
  | .error _ => (s, [], .failed)
  | .ok text =>
    let r1 := executeHooks code h "before_send_xml" s [text]                        -- 1091
    if r1.aborted then (r1.state, r1.runs, .aborted)
    else
      match w.transfer with                                                         -- 1092
      | none => (r1.state, r1.runs, .failed)                                        -- 1099-1106
      | some (status, content) =>
        match ensureStr (.bytes content) with
        | .error _ => (r1.state, r1.runs, .failed)
        | .ok received =>
          let r2 := executeHooks code h "after_receive_xml" r1.state [received]     -- 1094
          if r2.aborted then (r2.state, r1.runs ++ r2.runs, .aborted)
          else if status ≠ 200 then (r2.state, r1.runs ++ r2.runs, .failed)         -- 1095-1098
          else if content = [] then (r2.state, r1.runs ++ r2.runs, .nothing)        -- 1107-1108
          else
            match receiveHooked code h w content r2.state with
            | (s', runs, reply) => (s', r1.runs ++ r2.runs ++ runs, reply)

/-! ### The server -/

/-- What calling a hook of the server gives: a coroutine, which becomes a task; something else; or an exception. -/
inductive HookCall
  | coroutine
  | value
  | raises (e : Err)
  deriving DecidableEq

/-- openleadr/hooks.py:35-38 `call`: the tasks made and the outcome; `create_task` raises `TypeError` for what is not a coroutine. -/
def callHooks (code : Nat → List Value → HookCall) (point : String) (args : List Value) : List Nat → List HookRun × Except Exn Unit
  | [] => ([], .ok ())
  | k :: ks =>
    match code k args with
    | .coroutine =>
      match callHooks code point args ks with
      | (tasks, r) => (⟨point, k, args⟩ :: tasks, r)
    | .value => ([], .error (.other .typeError))
    | .raises e => ([], .error (.other e))

/-- `hooks.call(point, *args)` -/
def callPoint (code : Nat → List Value → HookCall) (h : Hooks) (point : String) (args : List Value) : List HookRun × Except Exn Unit :=
  callHooks code point args ((Dict.get? h point).getD [])

/-- vtn_service.py:166-199 `handle_message` with its hooks. -/
def handleMessageHooked (code : Nat → List Value → HookCall) (h : Hooks) (c : Config) (svc : Service S) (st : S) (type : String) (message : Dict) :
    List HookRun × S × Except Exn (String × Dict) :=
  match callPoint code h "before_handle" [.str type, .dict message] with              -- 167
  | (t1, .error e) => (t1, st, .error e)
  | (t1, .ok ()) =>
    match handleMessage c svc st type message with
    | (st', .error e) => (t1, st', .error e)
    | (st', .ok (rt, rp)) =>
      match callPoint code h "after_handle" [.str rt, .dict rp] with                  -- 198
      | (t2, .error e) => (t1 ++ t2, st', .error e)
      | (t2, .ok ()) => (t1 ++ t2, st', .ok (rt, rp))

/-- vtn_service.py:109-115 -/
def completePayload (c : Config) (message rp : Dict) : Dict :=
  let rp := if Dict.has rp "response" then rp else Dict.set rp "response" (.dict [("response_code", .int 200),
    ("response_description", .str "OK"), ("request_id", (Dict.get? message "request_id").getD .none)])
  let rp := Dict.set rp "vtn_id" (.str c.vtnId)
  if Dict.has rp "ven_id" then rp else Dict.set rp "ven_id" ((Dict.get? message "ven_id").getD .none)

/-- vtn_service.py:49-115 as in `process`, with the hooks. -/
def processHooked (code : Nat → List Value → HookCall) (h : Hooks) (c : Config) (svc : Service S) (s : Surroundings) (i : Nat) (cache : NonceCache)
    (st : S) (r : Request) : List HookRun × (NonceCache × S) × Outcome :=
  if isXml r.contentType = false then ([], (cache, st), ⟨none, .error (.other .typeError)⟩)
  else
    match callPoint code h "before_parse" [.str r.content] with                       -- 57
    | (t0, .error e) => (t0, (cache, st), ⟨none, .error e⟩)
    | (t0, .ok ()) =>
      match c.validate r.content with
      | .error e => (t0, (cache, st), ⟨none, .error e⟩)
      | .ok tree =>
        match c.parse r.content with
        | .error e => (t0, (cache, st), ⟨none, .error e⟩)
        | .ok (type, message) =>
          if type = "oadrResponse" then (t0, (cache, st), ⟨some type, .error .sendEmpty⟩)
          else if ∃ v, Dict.get? message "vtn_id" = some v ∧ v ≠ .none ∧ v ≠ .str c.vtnId then
            (t0, (cache, st), ⟨some type, .error (.protocol 452 "The supplied vtnID is invalid.")⟩)
          else
            match checkKnown c type message with
            | .error e => (t0, (cache, st), ⟨some type, .error e⟩)
            | .ok () =>
              match (if r.secure ∧ Dict.has message "ven_id" then authenticate c s i cache r tree message else (cache, .ok ())) with
              | (cache', .error e) => (t0, (cache', st), ⟨some type, .error e⟩)
              | (cache', .ok ()) =>
                let message := if r.secure ∧ type = "oadrCreatePartyRegistration" then
                  Dict.set message "fingerprint" (match r.peer with | some p => .str p | none => .none) else message
                match handleMessageHooked code h c svc st type message with
                | (t, st', .error e) => (t0 ++ t, (cache', st'), ⟨some type, .error e⟩)
                | (t, st', .ok (rt, rp)) => (t0 ++ t, (cache', st'), ⟨some type, .ok (rt, completePayload c message rp)⟩)

/-- vtn_service.py:45-164 `handler` with its hooks: `before_respond` is called outside the `try`, so its exception leaves the handler. -/
def handleHooked (code : Nat → List Value → HookCall) (h : Hooks) (c : Config) (svc : Service S) (s : Surroundings) (i : Nat) (cache : NonceCache)
    (st : S) (r : Request) : List HookRun × (NonceCache × S) × Except Exn HttpReply :=
  match processHooked code h c svc s i cache st r with
  | (t, x, o) =>
    match reply c o with
    | .error e => (t, x, .error e)
    | .ok answer =>
      match callPoint code h "before_respond" [.str answer.text] with                 -- 163
      | (t', .error e) => (t ++ t', x, .error e)
      | (t', .ok ()) => (t ++ t', x, .ok answer)

end Openleadr
