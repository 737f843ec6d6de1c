import Verif.Model.Handler
/-!
The registration service of the VTN (openleadr/service/registration_service.py:64-146).

Simplifications: a coroutine is the value it returns; an object of the user's own class is not sized.
-/
namespace Openleadr

/-- `len(result) != 2` and the unpacking (registration_service.py:98-106): the two parts, `none` for another length, or the exception of `len` or of `result[0]`
    (a dict has no item 0 among its texts). -/
def pairOf : Value → Res (Option (Value × Value))
  | .str s =>
    match s.toList with
    | [a, b] => .ok (some (.str (String.ofList [a]), .str (String.ofList [b])))
    | _ => .ok none
  | .bytes l =>
    match l with
    | [a, b] => .ok (some (.int a.toNat, .int b.toNat))
    | _ => .ok none
  | .list l | .tuple l =>
    match l with
    | [a, b] => .ok (some (a, b))
    | _ => .ok none
  | .dict d => if d.length = 2 then .error .keyError else .ok none
  | _ => .error .typeError

/-- registration_service.py:107-111, 113-115: the profiles, from the names in the message. -/
def profilesOf (message : Dict) : Res Value :=
  match Dict.get? message "transport_name" with
  | none => .error .keyError
  | some t =>
    match Dict.get? message "profile_name" with
    | none => .error .keyError
    | some p => .ok (.list [.dict [("profile_name", p), ("transports", .list [.dict [("transport_name", t)]])]])

/-- registration_service.py:97-116: the payload for the result of the user's handler. -/
def registrationPayload (pollFreq : Value) (message : Dict) (result : Value) : Res Dict :=
  if result = .bool false ∨ result = .none then
    match profilesOf message with
    | .error e => .error e
    | .ok p => .ok [("profiles", p), ("requested_oadr_poll_freq", pollFreq)]
  else
    match pairOf result with
    | .error e => .error e
    | .ok none => .ok []
    | .ok (some (v, r)) =>
      match profilesOf message with
      | .error e => .error e
      | .ok p => .ok [("ven_id", v), ("registration_id", r), ("profiles", p), ("requested_oadr_poll_freq", pollFreq)]

/-- The user's handlers; `onQuery` is optional (registration_service.py:75). -/
structure RegistrationUser (S : Type) where
  onCreate : S → Dict → S × Except Exn Value
  onCancel : S → Dict → S × Except Exn Returned
  onQuery : Option (S → Dict → S × Except Exn Returned)

/-- registration_service.py:118-127, 138-146: the placeholders. -/
def placeholderUser (S : Type) : RegistrationUser S := ⟨fun s _ => (s, .ok (.bool false)), fun s _ => (s, .ok .nothing), none⟩

/-- registration_service.py:88-116 -/
def handleRegistration (u : RegistrationUser S) (pollFreq : Value) (s : S) (message : Dict) : S × Except Exn Returned :=
  match u.onCreate s message with
  | (s, .error e) => (s, .error e)
  | (s, .ok result) =>
    match registrationPayload pollFreq message result with
    | .error e => (s, .error (.other e))
    | .ok p => (s, .ok (.pair "oadrCreatedPartyRegistration" (.dict p)))

/-- registration_service.py:70-86 -/
def handleQuery (u : RegistrationUser S) (pollFreq : Value) (s : S) (message : Dict) : S × Except Exn Returned :=
  match u.onQuery with
  | some f => f s message
  | none =>
    match Dict.get? message "request_id" with
    | none => (s, .error (.other .keyError))
    | some q => (s, .ok (.pair "oadrCreatedPartyRegistration" (.dict [("request_id", q),
        ("profiles", .list [.dict [("profile_name", .str "2.0b"), ("transports", .list [.dict [("transport_name", .str "simpleHttp")]])]]),
        ("requested_oadr_poll_freq", pollFreq)])))

/-- registration_service.py:64-146 -/
def registrationService (u : RegistrationUser S) (pollFreq : Value) : Service S :=
  ⟨"EiRegisterParty", [("oadrQueryRegistration", handleQuery u pollFreq), ("oadrCreatePartyRegistration", handleRegistration u pollFreq),
    ("oadrCancelPartyRegistration", u.onCancel)]⟩

end Openleadr
