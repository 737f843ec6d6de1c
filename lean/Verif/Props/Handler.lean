import Verif.Model.Handler
import Verif.Lemmas.Dict
/-!
C38 A message that carries a VEN id reaches its handler only from that VEN.
C39 Requests are dispatched to the service that owns their endpoint.
C40 Every request gets a well-defined reply.
C41 Error replies have the type that answers the request.
C42 Unknown VENs are told to register again.
C43 Replies carry the request id and the VEN id.
-/
namespace Openleadr

/-! ### helpers -/

/-- The request is a well-formed message of the given type for this VTN. -/
structure Readable (c : Config) (r : Request) (tree : Tree) (type : String) (message : Dict) : Prop where
  header : isXml r.contentType = true
  valid : c.validate r.content = .ok tree
  parsed : c.parse r.content = .ok (type, message)
  notResponse : type ≠ "oadrResponse"
  vtn : ∀ v, Dict.get? message "vtn_id" = some v → v = .none ∨ v = .str c.vtnId

/-- The message as it is given to the handler (vtn_service.py:99-100). -/
def handed (r : Request) (type : String) (message : Dict) : Dict :=
  if r.secure ∧ type = "oadrCreatePartyRegistration" then
    Dict.set message "fingerprint" (match r.peer with | some p => .str p | none => .none) else message

/-- The last touches on a reply (vtn_service.py:109-115). -/
def touchUp (c : Config) (message : Dict) (rp : Dict) : Dict :=
  let rp := if Dict.has rp "response" then rp else Dict.set rp "response" (.dict [("response_code", .int 200),
    ("response_description", .str "OK"), ("request_id", (Dict.get? message "request_id").getD .none)])
  let rp := Dict.set rp "vtn_id" (.str c.vtnId)
  if Dict.has rp "ven_id" then rp else Dict.set rp "ven_id" ((Dict.get? message "ven_id").getD .none)

/-- The outcome of the authentication step. -/
def authStep (c : Config) (s : Surroundings) (i : Nat) (cache : NonceCache) (r : Request) (tree : Tree) (message : Dict) :
    NonceCache × Except Exn Unit :=
  if r.secure ∧ Dict.has message "ven_id" then authenticate c s i cache r tree message else (cache, .ok ())

/-- What happens after the authentication. -/
def dispatched (c : Config) (svc : Service S) (st : S) (r : Request) (cache : NonceCache) (type : String) (message : Dict) :
    (NonceCache × S) × Outcome :=
  match handleMessage c svc st type (handed r type message) with
  | (st', .error e) => ((cache, st'), ⟨some type, .error e⟩)
  | (st', .ok (rt, rp)) => ((cache, st'), ⟨some type, .ok (rt, touchUp c (handed r type message) rp)⟩)

theorem process_readable (c : Config) (svc : Service S) (s : Surroundings) (i : Nat) (cache : NonceCache) (st : S) (r : Request)
    (tree : Tree) (type : String) (message : Dict) (h : Readable c r tree type message) :
    process c svc s i cache st r =
      match checkKnown c type message with
      | .error e => ((cache, st), ⟨some type, .error e⟩)
      | .ok () =>
        match authStep c s i cache r tree message with
        | (cache', .error e) => ((cache', st), ⟨some type, .error e⟩)
        | (cache', .ok ()) => dispatched c svc st r cache' type message := by
  have hv : ¬ ∃ v, Dict.get? message "vtn_id" = some v ∧ v ≠ .none ∧ v ≠ .str c.vtnId := by
    rintro ⟨v, h1, h2, h3⟩
    rcases h.vtn v h1 with h4 | h4
    · exact h2 h4
    · exact h3 h4
  unfold process
  simp only [h.header, h.valid, h.parsed, h.notResponse, hv, Bool.true_eq_false, if_false]
  rfl

/-- An unreadable request changes nothing and never reaches a handler. -/
theorem process_unreadable (c : Config) (s : Surroundings) (i : Nat) (cache : NonceCache) (r : Request)
    (h : ¬ ∃ tree type message, Readable c r tree type message) :
    ∃ o, ∀ (S : Type) (svc : Service S) (st : S), process c svc s i cache st r = ((cache, st), o) := by
  unfold process
  by_cases h1 : isXml r.contentType = true
  · simp only [h1, Bool.true_eq_false, if_false]
    cases h2 : c.validate r.content with
    | error e => exact ⟨_, fun _ _ _ => rfl⟩
    | ok tree =>
      cases h3 : c.parse r.content with
      | error e => exact ⟨_, fun _ _ _ => rfl⟩
      | ok x =>
        obtain ⟨type, message⟩ := x
        simp only
        by_cases h4 : type = "oadrResponse"
        · simp only [h4, if_true]; exact ⟨_, fun _ _ _ => rfl⟩
        · simp only [h4, if_false]
          by_cases h5 : ∃ v, Dict.get? message "vtn_id" = some v ∧ v ≠ .none ∧ v ≠ .str c.vtnId
          · simp only [h5, if_true]; exact ⟨_, fun _ _ _ => rfl⟩
          · refine absurd ⟨tree, type, message, h1, h2, h3, h4, fun v hv => ?_⟩ h
            by_cases h6 : v = .none
            · exact .inl h6
            · by_cases h7 : v = .str c.vtnId
              · exact .inr h7
              · exact absurd ⟨v, hv, h6, h7⟩ h5
  · simp only [h1, if_true]; exact ⟨_, fun _ _ _ => rfl⟩

/-! ### C38 -/

/-- The fingerprint the user's lookup has for the VEN id. -/
def Registered (c : Config) (ven : Value) (fp : String) : Prop :=
  (∃ lookup, c.fingerprintLookup = some lookup ∧ lookup ven = .ok (.str fp)) ∨
  (c.fingerprintLookup = none ∧ ∃ lookup info, c.venLookup = some lookup ∧ lookup ven = .ok (some info) ∧
    Dict.get? info "fingerprint" = some (.str fp))

/-- The message comes from the VEN whose id it carries: both certificates have the registered fingerprint, the signature is valid, and the
    message is fresh (C36). -/
def Authentic (c : Config) (s : Surroundings) (i : Nat) (cache : NonceCache) (r : Request) (tree : Tree) (ven : Value) : Prop :=
  ∃ fp, Registered c ven fp ∧ r.peer = some fp ∧ tree.signer = .ok fp ∧ tree.verify = none ∧ (verifyReplay s i cache tree.stamp).2 = .ok ()

theorem expected_registered (c : Config) (ven : Value) (fp : String) (h : expectedFingerprint c ven = .ok (.str fp)) :
    Registered c ven fp := by
  unfold expectedFingerprint at h
  cases h1 : c.fingerprintLookup with
  | some lookup =>
    simp only [h1] at h
    cases h2 : lookup ven with
    | error e => simp [h2] at h
    | ok v =>
      simp only [h2] at h
      split at h
      · cases h; exact .inl ⟨lookup, h1, h2⟩
      · cases h
  | none =>
    simp only [h1] at h
    cases h2 : c.venLookup with
    | none => simp [h2] at h
    | some lookup =>
      simp only [h2] at h
      cases h3 : lookup ven with
      | error e => simp [h3] at h
      | ok o =>
        cases o with
        | none => simp [h3] at h
        | some info =>
          simp only [h3] at h
          split at h
          · cases h
          · refine .inr ⟨h1, lookup, info, h2, h3, ?_⟩
            cases h4 : Dict.get? info "fingerprint" with
            | none => simp [h4] at h
            | some w => simp only [h4, Option.getD_some, Except.ok.injEq] at h; rw [h]

/-- The check refuses everything that is not authentic and then leaves the nonce memory unchanged. -/
theorem authenticate_only (c : Config) (hs : c.verifySignatures = true) (hl : c.fingerprintLookup.isSome ∨ c.venLookup.isSome)
    (s : Surroundings) (i : Nat) (cache : NonceCache) (r : Request) (hr : r.secure = true) (tree : Tree) (message : Dict) (ven : Value)
    (hven : Dict.get? message "ven_id" = some ven) (h : ¬ Authentic c s i cache r tree ven) :
    ∃ e, authStep c s i cache r tree message = (cache, .error e) := by
  have hhas : Dict.has message "ven_id" = true := by simp [Dict.has, hven]
  simp only [authStep, hr, hhas, and_self, if_true, authenticate, hl, authenticateMessage, hven]
  cases hp : r.peer with
  | none => exact ⟨_, rfl⟩
  | some peer =>
    simp only
    cases he : expectedFingerprint c ven with
    | error e => exact ⟨_, rfl⟩
    | ok expected =>
      simp only
      by_cases h1 : expected = .none
      · simp [h1]
      · simp only [h1, if_false]
        by_cases h2 : Value.str peer = expected
        · simp only [h2, ne_eq, not_true, if_false, hs, if_true]
          cases h3 : tree.signer with
          | error e => exact ⟨_, rfl⟩
          | ok signer =>
            simp only
            by_cases h4 : Value.str signer = expected
            · simp only [h4, not_true, if_false]
              simp only [validateXmlSignature, h3]
              cases h5 : tree.verify with
              | some e => exact ⟨_, rfl⟩
              | none =>
                simp only
                cases h6 : verifyReplay s i cache tree.stamp with
                | mk cache' res =>
                  cases res with
                  | error e =>
                    have := congrArg Prod.fst h6
                    have hc : cache' = cache := by
                      have h7 : (verifyReplay s i cache tree.stamp).2 = .error e := by rw [h6]
                      have h8 : (verifyReplay s i cache tree.stamp).1 = cache := by
                        unfold verifyReplay at h7 ⊢
                        split
                        · rfl
                        · split
                          · rfl
                          · split
                            · rfl
                            · split
                              · rfl
                              · split
                                · rfl
                                · split
                                  · rfl
                                  · simp_all
                      rw [h6] at h8; exact h8
                    subst hc
                    exact ⟨_, rfl⟩
                  | ok u =>
                    exfalso
                    apply h
                    have hsp : signer = peer := by rw [← h2] at h4; simpa using h4
                    subst hsp
                    exact ⟨signer, expected_registered c ven signer (by rw [he, ← h2]), hp, h3, h5, by rw [h6]⟩
            · simp [h4]
        · simp [h2]

/-- **C38**: on a secure connection with signature verification and a lookup, a message that carries a VEN id and is not authentic changes
    neither the state of the service nor the nonce memory, and the outcome does not depend on the handlers: none of them runs. -/
theorem c38_refused_without_effect (c : Config) (hs : c.verifySignatures = true)
    (hl : c.fingerprintLookup.isSome ∨ c.venLookup.isSome) (s : Surroundings) (i : Nat) (cache : NonceCache) (r : Request)
    (hr : r.secure = true) (tree : Tree) (type : String) (message : Dict) (hv : c.validate r.content = .ok tree)
    (hp : c.parse r.content = .ok (type, message)) (ven : Value) (hven : Dict.get? message "ven_id" = some ven)
    (h : ¬ Authentic c s i cache r tree ven) :
    ∃ out, ∀ (S : Type) (svc : Service S) (st : S), handle c svc s i cache st r = ((cache, st), out) := by
  by_cases hread : ∃ tree type message, Readable c r tree type message
  · obtain ⟨tree', type', message', hread⟩ := hread
    have h1 := hread.valid
    have h2 := hread.parsed
    rw [hv] at h1; rw [hp] at h2
    cases h1; cases h2
    obtain ⟨e, he⟩ := authenticate_only c hs hl s i cache r hr tree message ven hven h
    have hproc : ∃ o, ∀ (S : Type) (svc : Service S) (st : S), process c svc s i cache st r = ((cache, st), o) := by
      cases hk : checkKnown c type message with
      | error e' => exact ⟨_, fun S svc st => by rw [process_readable c svc s i cache st r tree type message hread, hk]⟩
      | ok u => exact ⟨_, fun S svc st => by rw [process_readable c svc s i cache st r tree type message hread, hk]; simp only [he]; rfl⟩
    obtain ⟨o, ho⟩ := hproc
    exact ⟨reply c o, fun S svc st => by simp only [handle, ho]⟩
  · obtain ⟨o, ho⟩ := process_unreadable c s i cache r hread
    exact ⟨reply c o, fun S svc st => by simp only [handle, ho]⟩

/-- **C38**, the other direction: an authentic message of a known VEN reaches its handler, and its pair is remembered. -/
theorem c38_authentic_reaches_handler (c : Config) (hs : c.verifySignatures = true) (svc : Service S) (s : Surroundings) (i : Nat)
    (cache : NonceCache) (st : S) (r : Request) (hr : r.secure = true) (tree : Tree) (type : String) (message : Dict)
    (hread : Readable c r tree type message) (ven : Value) (hven : Dict.get? message "ven_id" = some ven)
    (fp : String) (hreg : Registered c ven fp) (hfp : fp ≠ "") (hpeer : r.peer = some fp) (hsig : tree.signer = .ok fp)
    (hver : tree.verify = none) (hrep : (verifyReplay s i cache tree.stamp).2 = .ok ()) (hknown : checkKnown c type message = .ok ()) :
    process c svc s i cache st r = dispatched c svc st r (verifyReplay s i cache tree.stamp).1 type message := by
  have hexp : expectedFingerprint c ven = .ok (.str fp) := by
    unfold expectedFingerprint
    rcases hreg with ⟨lookup, h1, h2⟩ | ⟨h1, lookup, info, h2, h3, h4⟩
    · simp [h1, h2, Value.truthy, hfp]
    · have : info ≠ [] := by rintro rfl; simp [Dict.get?] at h4
      simp [h1, h2, h3, this, h4]
  have hl : c.fingerprintLookup.isSome ∨ c.venLookup.isSome := by
    rcases hreg with ⟨lookup, h1, h2⟩ | ⟨h1, lookup, info, h2, h3, h4⟩
    · simp [h1]
    · simp [h2]
  have hhas : Dict.has message "ven_id" = true := by simp [Dict.has, hven]
  have hauth : authStep c s i cache r tree message = ((verifyReplay s i cache tree.stamp).1, .ok ()) := by
    cases hx : verifyReplay s i cache tree.stamp with
    | mk cache' res =>
      rw [hx] at hrep
      simp only at hrep
      subst hrep
      simp [authStep, hr, hhas, authenticate, hl, authenticateMessage, hven, hpeer, hexp, hs, hsig, validateXmlSignature, hver, hx]
  rw [process_readable c svc s i cache st r tree type message hread, hknown]
  simp only [hauth]

/-- A configuration for the examples: the message is in the content's first word. -/
def plainConfig : Config where
  vtnId := "vtn"
  verifySignatures := true
  fingerprintLookup := none
  venLookup := none
  validate := fun _ => .ok ⟨.ok "AA", none, ⟨some "2024-01-01T00:00:00Z".toList, some "n"⟩⟩
  parse := fun content => .ok (content, [("ven_id", .str "ven1"), ("request_id", .str "r1")])
  render := fun type _ => .ok type
  newId := "id"

/-- A service that counts. -/
def countingService (types : List String) : Service Nat :=
  ⟨"EiTest", types.map (fun t => (t, fun n _ => (n + 1, .ok (.pair "oadrResponse" (.dict [])))))⟩

/-- A clock that stands at the beginning of 2024. -/
def newYear : Surroundings := ⟨fun _ => (⟨2024, 1, 1, 0, 0, 0, 0⟩ : DateTime).micros, id⟩

/-- **C38, refuted** without a lookup: the check is skipped and the message is handled, whatever the certificates. -/
theorem c38_no_lookup_violated :
    let r : Request := ⟨some "application/xml", true, some "BB", "oadrPoll"⟩
    (¬ ∃ tree, plainConfig.validate r.content = .ok tree ∧ Authentic plainConfig newYear 0 [] r tree (.str "ven1")) ∧
    (handle plainConfig (countingService ["oadrPoll"]) newYear 0 [] 0 r).1 = ([], 1) := by
  refine ⟨?_, by decide +kernel⟩
  rintro ⟨tree, h1, fp, hreg, hpeer, hsig, _⟩
  cases h1
  rcases hreg with ⟨lookup, h, _⟩ | ⟨_, lookup, info, h, _⟩ <;> exact nomatch h

/-- The same with a lookup. -/
def lookupConfig : Config :=
  { plainConfig with venLookup := some (fun _ => .ok (some [("registration_id", .str "reg"), ("fingerprint", .str "AA")])) }

/-- non-vacuity: the message of the right VEN is handled, and not a second time; with another client certificate it is refused with 463. -/
example :
    let r : Request := ⟨some "application/xml", true, some "AA", "oadrPoll"⟩
    let x := handle lookupConfig (countingService ["oadrPoll"]) newYear 0 [] 0 r
    let y := handle lookupConfig (countingService ["oadrPoll"]) newYear 9 x.1.1 x.1.2 r
    x.1.2 = 1 ∧ y.1 = x.1 := by decide +kernel
example :
    let x := handle lookupConfig (countingService ["oadrPoll"]) newYear 0 [] 0 ⟨some "application/xml", true, some "BB", "oadrPoll"⟩
    x.1 = ([], 0) ∧ x.2 = .ok ⟨200, "oadrResponse", some ("oadrResponse", [("response", .dict [("response_code", .int 463),
      ("response_description", .str "NOT REGISTERED OR AUTHORIZED")])])⟩ := by decide +kernel

/-! ### C39 -/

/-- **C39**: a request depends only on the handler that is registered for its message type at the endpoint. -/
theorem c39_only_own_handler (c : Config) (a b : Service S) (s : Surroundings) (i : Nat) (cache : NonceCache) (st : S) (r : Request)
    (hname : a.name = b.name)
    (h : ∀ tree type message, Readable c r tree type message → Dict.get? a.handlers type = Dict.get? b.handlers type) :
    handle c a s i cache st r = handle c b s i cache st r := by
  by_cases hread : ∃ tree type message, Readable c r tree type message
  · obtain ⟨tree, type, message, hread⟩ := hread
    have : process c a s i cache st r = process c b s i cache st r := by
      rw [process_readable c a s i cache st r tree type message hread, process_readable c b s i cache st r tree type message hread]
      have hd : ∀ cache', dispatched c a st r cache' type message = dispatched c b st r cache' type message := by
        intro cache'
        simp only [dispatched, handleMessage, h tree type message hread, hname]
      simp only [hd]
    simp only [handle, this]
  · obtain ⟨o, ho⟩ := process_unreadable c s i cache r hread
    simp only [handle, ho]

/-- **C39**: the handler gets the message and its state is kept. -/
theorem c39_handler_runs (c : Config) (svc : Service S) (st : S) (r : Request) (cache : NonceCache) (type : String) (message : Dict)
    (h : S → Dict → S × Except Exn Returned) (hh : Dict.get? svc.handlers type = some h) :
    (dispatched c svc st r cache type message).1 = (cache, (h st (handed r type message)).1) := by
  simp only [dispatched, handleMessage, hh]
  cases h st (handed r type message) with
  | mk st' res =>
    cases res with
    | error e => rfl
    | ok ret =>
      cases ret with
      | nothing => rfl
      | malformed e => rfl
      | pair t v =>
        simp only
        cases payloadDict v <;> rfl

/-- **C39**: a message type that does not belong to the endpoint is refused with the compliance error (459), no handler runs and the state of
    the service does not change. -/
theorem c39_wrong_endpoint (c : Config) (svc : Service S) (st : S) (r : Request) (cache : NonceCache) (type : String) (message : Dict)
    (hh : Dict.get? svc.handlers type = none) :
    ∃ payload, dispatched c svc st r cache type message = ((cache, st), ⟨some type, .ok ("oadrResponse", payload)⟩) ∧
      ∃ response, Dict.get? payload "response" = some (.dict response) ∧ Dict.get? response "response_code" = some (.int 459) := by
  refine ⟨touchUp c (handed r type message) (errorResponse "oadrResponse" 459
      s!"A message of type {type} should not be sent to this endpoint ({svc.name})").2, ?_, ?_⟩
  · simp only [dispatched, handleMessage, hh]
    simp [errorResponse]
  · refine ⟨[("response_code", .int 459), ("response_description",
      .str s!"A message of type {type} should not be sent to this endpoint ({svc.name})")], ?_, rfl⟩
    simp [touchUp, errorResponse, Dict.has, Dict.get?, Dict.set]

/-- **C39**: no message type belongs to two endpoints (the whole table). -/
theorem c39_one_endpoint : (endpoints.flatMap Prod.snd).Nodup ∧ (endpoints.map Prod.fst).Nodup := by decide

/-- non-vacuity: a poll at the event endpoint. -/
example : (handle lookupConfig (countingService ["oadrRequestEvent", "oadrCreatedEvent"]) newYear 0 [] 0
    ⟨some "application/xml", false, none, "oadrPoll"⟩).1 = ([], 0) := by decide +kernel

/-! ### C40, C41 -/

/-- **C40**: an unexpected error of a handler gives an empty HTTP 500. -/
theorem c40_handler_error (c : Config) (svc : Service S) (st : S) (r : Request) (cache : NonceCache) (type : String) (message : Dict)
    (h : S → Dict → S × Except Exn Returned) (hh : Dict.get? svc.handlers type = some h) (e : Err)
    (he : (h st (handed r type message)).2 = .error (.other e)) :
    reply c (dispatched c svc st r cache type message).2 = .ok ⟨500, "", none⟩ := by
  simp only [dispatched, handleMessage, hh]
  cases hx : h st (handed r type message) with
  | mk st' res => rw [hx] at he; simp only at he; subst he; rfl

/-- **C40**: an invalid document gives HTTP 400. -/
theorem c40_invalid_document (c : Config) (svc : Service S) (s : Surroundings) (i : Nat) (cache : NonceCache) (st : S) (r : Request)
    (hct : isXml r.contentType = true) (m : String)
    (h : c.validate r.content = .error (.xmlSyntax m)) :
    handle c svc s i cache st r = ((cache, st), .ok ⟨400, "XML failed validation: " ++ m, none⟩) := by
  simp [handle, process, hct, h, reply]

/-- **C40, refuted** for the content type: every request with another content type gets HTTP 500 instead of 400, as the error is raised with
    the wrong keyword arguments. -/
theorem c40_content_type_violated (c : Config) (svc : Service S) (s : Surroundings) (i : Nat) (cache : NonceCache) (st : S) (r : Request)
    (hct : isXml r.contentType = false) :
    handle c svc s i cache st r = ((cache, st), .ok ⟨500, "", none⟩) := by
  simp [handle, process, hct, reply]

/-- The forms a reply can have: the message of the handler, the re-registration request, an error message with the code of the error, or a
    plain HTTP reply. -/
inductive ReplyForm : Outcome → HttpReply → Prop
  | handler (type : Option String) (t : String) (p : Dict) (text : String) : ReplyForm ⟨type, .ok (t, p)⟩ ⟨200, text, some (t, p)⟩
  | reregister (type : Option String) (ven : Value) (text : String) :
      ReplyForm ⟨type, .error (.reregister ven)⟩ ⟨200, text, some ("oadrRequestReregistration", [("ven_id", ven)])⟩
  | oadrError (type : Option String) (code : Nat) (description : String) (t : String) (text : String) :
      ReplyForm ⟨type, .error (.protocol code description)⟩ ⟨200, text, some (t, [("response", .dict [("response_code", .int code),
        ("response_description", .str description)])])⟩
  | empty (type : Option String) : ReplyForm ⟨type, .error .sendEmpty⟩ ⟨200, "", none⟩
  | http (type : Option String) (code : Nat) (description : String) : ReplyForm ⟨type, .error (.http code description)⟩ ⟨code, description, none⟩
  | syntaxError (type : Option String) (m : String) : ReplyForm ⟨type, .error (.xmlSyntax m)⟩ ⟨400, "XML failed validation: " ++ m, none⟩
  | fingerprint (type : Option String) (m : String) : ReplyForm ⟨type, .error (.fingerprint m)⟩ ⟨403, m, none⟩
  | signature (type : Option String) : ReplyForm ⟨type, .error .invalidSignature⟩ ⟨403, "Invalid Signature", none⟩
  | internal (type : Option String) (e : Err) : ReplyForm ⟨type, .error (.other e)⟩ ⟨500, "", none⟩

/-- Before the message type is known no OpenADR error is raised (the parsers of XML raise none). -/
theorem process_type_known (c : Config) (svc : Service S) (s : Surroundings) (i : Nat) (cache : NonceCache) (st : S) (r : Request)
    (h1 : ∀ x code d, c.validate x ≠ .error (.protocol code d)) (h2 : ∀ x code d, c.parse x ≠ .error (.protocol code d))
    (code : Nat) (d : String) (h : (process c svc s i cache st r).2.result = .error (.protocol code d)) :
    ∃ type, (process c svc s i cache st r).2.type = some type := by
  unfold process at h ⊢
  split
  · rename_i hct; simp [hct] at h
  · rename_i hct
    rw [if_neg hct] at h
    cases hv : c.validate r.content with
    | error e => rw [hv] at h; simp only at h; exact absurd (by rw [hv]; exact congrArg _ (Except.error.inj h)) (h1 r.content code d)
    | ok tree =>
      rw [hv] at h
      cases hp : c.parse r.content with
      | error e =>
        rw [hp] at h; simp only at h; exact absurd (by rw [hp]; exact congrArg _ (Except.error.inj h)) (h2 r.content code d)
      | ok x =>
        obtain ⟨type, message⟩ := x
        refine ⟨type, ?_⟩
        simp only
        split
        · rfl
        · split
          · rfl
          · split
            · rfl
            · split
              · rfl
              · split <;> rfl

/-- **C40** (partial: what is missing are errors while the reply message is made, see below): when the reply message can be made, every
    request gets exactly one reply, and it has the form that belongs to its outcome. -/
theorem c40_reply_forms_partial (c : Config) (svc : Service S) (s : Surroundings) (i : Nat) (cache : NonceCache) (st : S) (r : Request)
    (h1 : ∀ x code d, c.validate x ≠ .error (.protocol code d)) (h2 : ∀ x code d, c.parse x ≠ .error (.protocol code d))
    (hrender : ∀ t p, ∃ text, c.render t p = .ok text) :
    ∃ rep, (handle c svc s i cache st r).2 = .ok rep ∧ ReplyForm (process c svc s i cache st r).2 rep := by
  have hknown := process_type_known c svc s i cache st r h1 h2
  simp only [handle]
  generalize (process c svc s i cache st r).2 = o at hknown
  obtain ⟨type, result⟩ := o
  have hsend : ∀ t p, ∃ text, sendMessage c t p = .ok ⟨200, text, some (t, p)⟩ := by
    intro t p
    obtain ⟨text, ht⟩ := hrender t p
    exact ⟨text, by simp [sendMessage, ht]⟩
  cases result with
  | ok x =>
    obtain ⟨t, p⟩ := x
    obtain ⟨text, ht⟩ := hsend t p
    exact ⟨_, ht, .handler type t p text⟩
  | error e =>
    cases e with
    | reregister ven =>
      obtain ⟨text, ht⟩ := hsend "oadrRequestReregistration" [("ven_id", ven)]
      exact ⟨_, ht, .reregister type ven text⟩
    | sendEmpty => exact ⟨_, rfl, .empty type⟩
    | protocol code d =>
      obtain ⟨t0, ht0⟩ := hknown code d rfl
      simp only at ht0
      subst ht0
      obtain ⟨text, ht⟩ := hsend (errorResponse t0 code d).1 (errorResponse t0 code d).2
      exact ⟨_, ht, .oadrError _ code d _ text⟩
    | http code d => exact ⟨_, rfl, .http type code d⟩
    | xmlSyntax m => exact ⟨_, rfl, .syntaxError type m⟩
    | fingerprint m => exact ⟨_, rfl, .fingerprint type m⟩
    | invalidSignature => exact ⟨_, rfl, .signature type⟩
    | other e => exact ⟨_, rfl, .internal type e⟩

/-- **C40, refuted**: an error while the reply message is made leaves the handler without a reply. With a preparation of messages that needs
    the events of an `oadrDistributeEvent` (openleadr/preflight.py:69) this happens for every OpenADR error of an `oadrRequestEvent`. -/
theorem c40_error_escapes_violated (c : Config) (hrender : ∀ p, Dict.get? p "events" = none → c.render "oadrDistributeEvent" p = .error (.other .keyError))
    (code : Nat) (d : String) : reply c ⟨some "oadrRequestEvent", .error (.protocol code d)⟩ = .error (.other .keyError) := by
  have : c.render "oadrDistributeEvent" [("response", .dict [("response_code", .int code), ("response_description", .str d)])] =
      .error (.other .keyError) := hrender _ rfl
  simp [reply, errorResponse, sendMessage, this]

/-- **C41** (partial: what is missing are the type of the reply and the request id, see below): an OpenADR error is answered with a message
    that carries its code and description. -/
theorem c41_code_and_description_partial (type : String) (code : Nat) (description : String) :
    ∃ response, Dict.get? (errorResponse type code description).2 "response" = some (.dict response) ∧
      Dict.get? response "response_code" = some (.int code) ∧ Dict.get? response "response_description" = some (.str description) :=
  ⟨_, rfl, rfl, rfl⟩

/-- The message type that normally answers a request (OpenADR 2.0b, and the handlers of openleadr/service/). -/
def answerType (type : String) : String :=
  if type = "oadrQueryRegistration" ∨ type = "oadrCreatePartyRegistration" then "oadrCreatedPartyRegistration"
  else if type = "oadrCancelPartyRegistration" then "oadrCanceledPartyRegistration"
  else if type = "oadrRequestEvent" then "oadrDistributeEvent"
  else if type = "oadrRegisterReport" then "oadrRegisteredReport"
  else if type = "oadrUpdateReport" then "oadrUpdatedReport"
  else "oadrResponse"

/-- **C41**: exactly which requests get the right type of reply when they fail: the others get an `oadrResponse`. -/
theorem c41_reply_type_partial (type : String) (code : Nat) (description : String) :
    (errorResponse type code description).1 = answerType type ↔
      type ∉ ["oadrQueryRegistration", "oadrCreatePartyRegistration", "oadrCancelPartyRegistration", "oadrRegisterReport", "oadrUpdateReport"] := by
  simp only [errorResponse, answerType]
  by_cases h1 : type = "oadrQueryRegistration"
  · subst h1; decide
  · by_cases h2 : type = "oadrCreatePartyRegistration"
    · subst h2; decide
    · by_cases h3 : type = "oadrCancelPartyRegistration"
      · subst h3; decide
      · by_cases h4 : type = "oadrRequestEvent"
        · subst h4; decide
        · by_cases h5 : type = "oadrRegisterReport"
          · subst h5; decide
          · by_cases h6 : type = "oadrUpdateReport"
            · subst h6; decide
            · simp [h1, h2, h3, h4, h5, h6]

/-- **C41, refuted**: a registration that fails is answered with an `oadrResponse`, as the assignment of line 203 is overwritten. -/
theorem c41_registration_violated (code : Nat) (description : String) :
    (errorResponse "oadrCreatePartyRegistration" code description).1 = "oadrResponse" := rfl

/-- **C41, C43, refuted**: no error reply carries the request id. -/
theorem c41_request_id_violated (type : String) (code : Nat) (description : String) :
    ∃ response, (errorResponse type code description).2 = [("response", .dict response)] ∧ Dict.get? response "request_id" = none :=
  ⟨_, rfl, rfl⟩

/-- non-vacuity: an error of a poll handler. -/
example : reply plainConfig ⟨some "oadrPoll", .error (.protocol 452 "INVALID ID")⟩ = .ok ⟨200, "oadrResponse", some ("oadrResponse",
    [("response", .dict [("response_code", .int 452), ("response_description", .str "INVALID ID")])])⟩ := by decide +kernel

/-! ### C42 -/

/-- **C42**: a VEN that the lookup does not know, or that has no registration id, is asked to register again by every message other than the
    registration messages; nothing changes and no handler runs. This comes before the authentication. -/
theorem c42_reregistration (c : Config) (s : Surroundings) (i : Nat) (cache : NonceCache) (r : Request) (tree : Tree) (type : String)
    (message : Dict) (hread : Readable c r tree type message)
    (htype : type ≠ "oadrCreatePartyRegistration" ∧ type ≠ "oadrQueryRegistration") (ven : Value)
    (hven : Dict.get? message "ven_id" = some ven) (lookup : Value → Except Exn (Option Dict)) (hl : c.venLookup = some lookup)
    (hunknown : lookup ven = .ok none ∨ ∃ info, lookup ven = .ok (some info) ∧
      (Dict.get? info "registration_id" = none ∨ Dict.get? info "registration_id" = some .none))
    (S : Type) (svc : Service S) (st : S) :
    handle c svc s i cache st r = ((cache, st), sendMessage c "oadrRequestReregistration" [("ven_id", ven)]) := by
  have hk : checkKnown c type message = .error (.reregister ven) := by
    simp only [checkKnown, htype.1, htype.2, or_self, if_false, hven, hl]
    rcases hunknown with h | ⟨info, h, h' | h'⟩
    · simp [h]
    · simp [h, h']
    · simp [h, h']
  simp only [handle, process_readable c svc s i cache st r tree type message hread, hk, reply]

/-- **C42**: and only those: a VEN with a registration id is not asked to register again because of the lookup. -/
theorem c42_known_not_asked (c : Config) (type : String) (message : Dict) (ven : Value) (hven : Dict.get? message "ven_id" = some ven)
    (lookup : Value → Except Exn (Option Dict)) (hl : c.venLookup = some lookup) (info : Dict) (hk : lookup ven = .ok (some info))
    (reg : Value) (hreg : Dict.get? info "registration_id" = some reg) (hn : reg ≠ .none) : checkKnown c type message = .ok () := by
  simp [checkKnown, hven, hl, hk, hreg, hn]

/-- **C42**: registering is not refused to a VEN that the lookup does not know: a message that creates or asks for a registration and passes the
    authentication is handled. -/
theorem c42_may_register (c : Config) (s : Surroundings) (i : Nat) (cache cache' : NonceCache) (r : Request) (tree : Tree) (type : String)
    (message : Dict) (hread : Readable c r tree type message) (htype : type = "oadrCreatePartyRegistration" ∨ type = "oadrQueryRegistration")
    (hauth : authStep c s i cache r tree message = (cache', .ok ())) (S : Type) (svc : Service S) (st : S) :
    process c svc s i cache st r = dispatched c svc st r cache' type message := by
  simp [process_readable c svc s i cache st r tree type message hread, checkKnown, htype, hauth]

/-- non-vacuity: an unknown VEN polls. -/
example :
    let c := { plainConfig with venLookup := some (fun v => if v = .str "ven2" then .ok (some [("registration_id", .str "reg")]) else .ok none) }
    handle c (countingService ["oadrPoll"]) newYear 0 [] 7 ⟨some "application/XML; charset=utf-8", true, none, "oadrPoll"⟩ =
      (([], 7), .ok ⟨200, "oadrRequestReregistration", some ("oadrRequestReregistration", [("ven_id", .str "ven1")])⟩) := by decide +kernel

/-! ### C43 -/

theorem has_set_self (d : Dict) (k : String) (v : Value) : Dict.has (Dict.set d k v) k = true := by
  simp [Dict.has, Dict.get?_set_self]

theorem has_set_other (d : Dict) (k k' : String) (v : Value) (h : k' ≠ k) : Dict.has (Dict.set d k v) k' = Dict.has d k' := by
  simp [Dict.has, Dict.get?_set_other d k k' v h]

/-- The VEN id of a prepared reply: the handler's, unless it is missing or false. -/
theorem finishPayload_ven (c : Config) (message payload : Dict) (ven : Value) (h : Dict.get? message "ven_id" = some ven) :
    Dict.get? (finishPayload c message payload) "ven_id" =
      some (match Dict.get? payload "ven_id" with
        | some v => if v.truthy then v else ven
        | none => ven) := by
  simp only [finishPayload, h]
  rw [Dict.get?_set_other _ _ _ _ (by decide), Dict.get?_set_other _ _ _ _ (by decide), Dict.get?_set_other _ _ _ _ (by decide)]
  cases hp : Dict.get? payload "ven_id" with
  | none => simp [Value.truthy, Dict.get?_set_self]
  | some v =>
    simp only [Option.getD_some]
    by_cases hv : v.truthy = true
    · simp only [hv, if_true]; rw [Dict.get?_set_other _ _ _ _ (by decide), hp]
    · simp only [hv, Bool.false_eq_true, if_false]; rw [Dict.get?_set_self]

theorem finishPayload_response (c : Config) (message payload : Dict) :
    Dict.get? (finishPayload c message payload) "response" =
      some (.dict [("request_id", (Dict.get? message "request_id").getD .none), ("response_code", .int 200),
        ("response_description", .str "OK")]) := by
  simp only [finishPayload]
  rw [Dict.get?_set_other _ _ _ _ (by decide), Dict.get?_set_self]

theorem touchUp_get (c : Config) (message rp : Dict) (k : String) (v : Value) (hk : k ≠ "vtn_id") (h : Dict.get? rp k = some v) :
    Dict.get? (touchUp c message rp) k = some v := by
  have h1 : Dict.has rp k = true := by simp [Dict.has, h]
  have step1 : Dict.get? (if Dict.has rp "response" then rp else Dict.set rp "response" (.dict [("response_code", .int 200),
      ("response_description", .str "OK"), ("request_id", (Dict.get? message "request_id").getD .none)])) k = some v := by
    split
    · exact h
    · rename_i hr
      rw [Dict.get?_set_other _ _ _ _ (by rintro rfl; exact hr h1), h]
  unfold touchUp
  generalize (if Dict.has rp "response" then rp else Dict.set rp "response" (.dict [("response_code", .int 200),
      ("response_description", .str "OK"), ("request_id", (Dict.get? message "request_id").getD .none)])) = q at step1
  simp only
  split
  · rw [Dict.get?_set_other _ _ _ _ hk, step1]
  · rename_i hven
    rw [Dict.get?_set_other, Dict.get?_set_other _ _ _ _ hk, step1]
    rintro rfl
    apply hven
    rw [Dict.has, Dict.get?_set_other _ _ _ _ hk, step1]
    rfl

theorem touchUp_vtn (c : Config) (message rp : Dict) : Dict.get? (touchUp c message rp) "vtn_id" = some (.str c.vtnId) := by
  unfold touchUp
  generalize (if Dict.has rp "response" then rp else Dict.set rp "response" (.dict [("response_code", .int 200),
      ("response_description", .str "OK"), ("request_id", (Dict.get? message "request_id").getD .none)])) = q
  simp only
  split
  · rw [Dict.get?_set_self]
  · rw [Dict.get?_set_other _ _ _ _ (by decide), Dict.get?_set_self]

theorem handed_get (r : Request) (type : String) (message : Dict) (k : String) (hk : k ≠ "fingerprint") :
    Dict.get? (handed r type message) k = Dict.get? message k := by
  simp only [handed]
  split
  · rw [Dict.get?_set_other _ _ _ _ hk]
  · rfl

/-- **C43** (partial: what is missing are the error replies, see `c41_request_id_violated`): the reply of a handler names the VTN, echoes the
    request id of the message with code 200, and names the VEN: as the handler's reply does, or else the VEN id of the message. -/
theorem c43_reply_echoes_partial (c : Config) (svc : Service S) (st : S) (r : Request) (cache : NonceCache) (type : String) (message : Dict)
    (h : S → Dict → S × Except Exn Returned) (hh : Dict.get? svc.handlers type = some h) (rt : String) (rp : Dict)
    (ho : (dispatched c svc st r cache type message).2.result = .ok (rt, rp)) :
    Dict.get? rp "vtn_id" = some (.str c.vtnId) ∧
    (∃ response, Dict.get? rp "response" = some (.dict response) ∧
      Dict.get? response "request_id" = some ((Dict.get? message "request_id").getD .none) ∧ Dict.get? response "response_code" = some (.int 200)) ∧
    (∀ ven, Dict.get? message "ven_id" = some ven →
      Dict.get? rp "ven_id" = some ven ∨
      (∃ t p v, (h st (handed r type message)).2 = .ok (.pair t (.dict p)) ∧ Dict.get? p "ven_id" = some v ∧ v.truthy = true ∧
        Dict.get? rp "ven_id" = some v) ∨
      ∃ t cls p v, (h st (handed r type message)).2 = .ok (.pair t (.obj cls p)) ∧ Dict.get? (plainDict p) "ven_id" = some v ∧
        v.truthy = true ∧ Dict.get? rp "ven_id" = some v) := by
  have main : ∀ p : Dict, rp = touchUp c (handed r type message) (finishPayload c (handed r type message) p) →
      Dict.get? rp "vtn_id" = some (.str c.vtnId) ∧
      (∃ response, Dict.get? rp "response" = some (.dict response) ∧
        Dict.get? response "request_id" = some ((Dict.get? message "request_id").getD .none) ∧ Dict.get? response "response_code" = some (.int 200)) ∧
      (∀ ven, Dict.get? message "ven_id" = some ven → Dict.get? rp "ven_id" = some ven ∨
        ∃ v, Dict.get? p "ven_id" = some v ∧ v.truthy = true ∧ Dict.get? rp "ven_id" = some v) := by
    rintro p rfl
    refine ⟨touchUp_vtn _ _ _, ⟨_, touchUp_get _ _ _ _ _ (by decide) (finishPayload_response _ _ _), ?_, rfl⟩, ?_⟩
    · rw [handed_get r type message "request_id" (by decide)]; rfl
    · intro ven hven
      have hven' : Dict.get? (handed r type message) "ven_id" = some ven := by rw [handed_get _ _ _ _ (by decide)]; exact hven
      rw [touchUp_get _ _ _ _ _ (by decide) (finishPayload_ven c _ p ven hven')]
      cases hp : Dict.get? p "ven_id" with
      | none => exact .inl rfl
      | some v =>
        by_cases hv : v.truthy = true
        · exact .inr ⟨v, rfl, hv, by simp [hv]⟩
        · exact .inl (by simp [hv])
  simp only [dispatched, handleMessage, hh] at ho
  cases hx : h st (handed r type message) with
  | mk st' res =>
    rw [hx] at ho
    cases res with
    | error e => simp at ho
    | ok ret =>
      cases ret with
      | malformed e => simp at ho
      | nothing =>
        simp only [Except.ok.injEq, Prod.mk.injEq] at ho
        obtain ⟨h1, h2, h3⟩ := main [] ho.2.symm
        exact ⟨h1, h2, fun ven hv => (h3 ven hv).elim .inl (fun ⟨v, h, _⟩ => by simp [Dict.get?] at h)⟩
      | pair t v =>
        simp only at ho
        cases hp : payloadDict v with
        | error e => simp [hp] at ho
        | ok p =>
          simp only [hp, Except.ok.injEq, Prod.mk.injEq] at ho
          obtain ⟨h1, h2, h3⟩ := main p ho.2.symm
          refine ⟨h1, h2, fun ven hv => ?_⟩
          rcases h3 ven hv with h | ⟨w, hw1, hw2, hw3⟩
          · exact .inl h
          · right
            cases v with
            | dict d => simp only [payloadDict, Except.ok.injEq] at hp; subst hp; exact .inl ⟨t, d, w, rfl, hw1, hw2, hw3⟩
            | obj cls d => simp only [payloadDict, Except.ok.injEq] at hp; subst hp; exact .inr ⟨t, cls, d, w, rfl, hw1, hw2, hw3⟩
            | none => simp only [payloadDict, Except.ok.injEq] at hp; subst hp; simp [Dict.get?] at hw1
            | _ => simp [payloadDict] at hp

/-- **C43, refuted** for error replies: the request id of the request is not echoed. -/
theorem c43_error_reply_violated :
    let c := { plainConfig with venLookup := some (fun _ => .ok (some [("registration_id", .str "reg")])) }
    let svc : Service Unit := ⟨"OadrPoll", [("oadrPoll", fun _ _ => ((), .error (.protocol 452 "INVALID ID")))]⟩
    ∃ rep p response, (handle c svc newYear 0 [] () ⟨some "application/xml", false, none, "oadrPoll"⟩).2 = .ok rep ∧
      rep.message = some ("oadrResponse", p) ∧ Dict.get? p "response" = some (.dict response) ∧
      Dict.get? response "request_id" = none ∧ Dict.get? p "ven_id" = none :=
  ⟨_, _, _, rfl, rfl, rfl, rfl, rfl⟩

/-- non-vacuity: the reply to a poll. -/
example : (handle plainConfig (countingService ["oadrPoll"]) newYear 0 [] 0 ⟨some "application/xml", false, none, "oadrPoll"⟩).2 =
    .ok ⟨200, "oadrResponse", some ("oadrResponse", [("vtn_id", .str "vtn"), ("ven_id", .str "ven1"),
      ("response", .dict [("request_id", .str "r1"), ("response_code", .int 200), ("response_description", .str "OK")]),
      ("request_id", .str "id")])⟩ := by decide +kernel

/-- **C70, refuted**, the consequence: a poll handler that returns a list of events makes the request fail with HTTP 500. -/
theorem c70_list_is_error_violated (c : Config) (st : S) (r : Request) (cache : NonceCache) (message : Dict) (name : String)
    (h : S → Dict → S × Except Exn Returned) (l : List Value)
    (hh : (h st (handed r "oadrPoll" message)).2 = .ok (.pair "oadrDistributeEvent" (.list l))) :
    reply c (dispatched c ⟨name, [("oadrPoll", h)]⟩ st r cache "oadrPoll" message).2 = .ok ⟨500, "", none⟩ := by
  simp only [dispatched, handleMessage, Dict.get?, if_true]
  cases hx : h st (handed r "oadrPoll" message) with
  | mk st' res => rw [hx] at hh; simp only at hh; subst hh; rfl

end Openleadr
