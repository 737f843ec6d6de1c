import Verif.Lemmas.Parts
/-!
C67: what is received is what was sent, message by message.

In all theorems of this file the payload that is sent may differ from the one given here in the order of its entries, in entries that are `None`,
and in objects that stand for dicts (`Conforms`). Texts are `Ordinary`: without markup, line ends or white space at the ends, and neither numbers
nor booleans. What happens to other texts is the subject of C68 and C69.
-/
namespace Openleadr

variable {lib : Lib} {now : Int}

/-- **C67** for oadrPoll. -/
theorem c67_poll {ven : String} (h : Ordinary lib ven) : Survives lib now "oadrPoll" [("ven_id", .str ven)] :=
  arrives_of (by rfl) (fun _ => .cons (carries_text "venID" "ven_id" (by lk) h) .nil) (by simp) (by simp)

/-- **C67** for oadrQueryRegistration. -/
theorem c67_query_registration {id : String} (h : Ordinary lib id) : Survives lib now "oadrQueryRegistration" [("request_id", .str id)] :=
  arrives_of (by rfl) (fun _ => .cons (carries_text "requestID" "request_id" (by lk) h) .nil) (by simp) (by simp)

/-- **C67** for oadrRequestReregistration. -/
theorem c67_request_reregistration {ven : String} (h : Ordinary lib ven) : Survives lib now "oadrRequestReregistration" [("ven_id", .str ven)] :=
  arrives_of (by rfl) (fun _ => .cons (carries_text "venID" "ven_id" (by lk) h) .nil) (by simp) (by simp)

/-- **C67** for oadrCancelOpt. -/
theorem c67_cancel_opt {id opt ven : String} (h1 : Ordinary lib id) (h2 : Ordinary lib opt) (h3 : Ordinary lib ven) :
    Survives lib now "oadrCancelOpt" [("request_id", .str id), ("opt_id", .str opt), ("ven_id", .str ven)] :=
  arrives_of (by rfl) (fun _ => .cons (carries_text "requestID" "request_id" (by lk) h1)
    (.cons (carries_text "optID" "opt_id" (by lk) h2) (.cons (carries_text "venID" "ven_id" (by lk) h3) .nil))) (by simp) (by simp)

/-- **C67** for oadrCancelPartyRegistration. -/
theorem c67_cancel_party_registration {id reg ven : String} (h1 : Ordinary lib id) (h2 : Ordinary lib reg) (h3 : Ordinary lib ven) :
    Survives lib now "oadrCancelPartyRegistration" [("request_id", .str id), ("registration_id", .str reg), ("ven_id", .str ven)] :=
  arrives_of (by rfl) (fun _ => .cons (carries_text "requestID" "request_id" (by lk) h1)
    (.cons (carries_text "registrationID" "registration_id" (by lk) h2) (.cons (carries_text "venID" "ven_id" (by lk) h3) .nil))) (by simp) (by simp)

/-- **C67** for oadrCancelReport (with one report request). -/
theorem c67_cancel_report {id req ven : String} {follow : Bool} (h1 : Ordinary lib id) (h2 : Ordinary lib req) (h3 : Ordinary lib ven) :
    Survives lib now "oadrCancelReport"
      [("request_id", .str id), ("report_request_id", .str req), ("report_to_follow", .bool follow), ("ven_id", .str ven)] :=
  arrives_of (by rfl) (fun _ => .cons (carries_text "requestID" "request_id" (by lk) h1)
    (.cons (carries_text "reportRequestID" "report_request_id" (by lk) h2)
    (.cons (carries_bool "reportToFollow" "report_to_follow" follow (by lk)) (.cons (carries_text "venID" "ven_id" (by lk) h3) .nil))))
    (by simp) (by simp)

/-- **C67** for oadrCanceledOpt. -/
theorem c67_canceled_opt (sound : lib.Sound) {r : ResponseP} {opt : String} (h1 : r.Good lib) (h2 : Ordinary lib opt) :
    Survives lib now "oadrCanceledOpt" [("response", .dict r.dict), ("opt_id", .str opt)] :=
  arrives_of (by rfl) (fun _ => .cons (carries_response sound h1 (by lk)) (.cons (carries_text "optID" "opt_id" (by lk) h2) .nil))
    (by simp) (by simp)

/-- **C67** for oadrCreatedOpt. -/
theorem c67_created_opt (sound : lib.Sound) {r : ResponseP} {opt : String} (h1 : r.Good lib) (h2 : Ordinary lib opt) :
    Survives lib now "oadrCreatedOpt" [("response", .dict r.dict), ("opt_id", .str opt)] :=
  arrives_of (by rfl) (fun _ => .cons (carries_response sound h1 (by lk)) (.cons (carries_text "optID" "opt_id" (by lk) h2) .nil))
    (by simp) (by simp)

/-- **C67** for oadrCanceledPartyRegistration. -/
theorem c67_canceled_party_registration (sound : lib.Sound) {r : ResponseP} {reg ven : String} (h1 : r.Good lib) (h2 : Ordinary lib reg)
    (h3 : Ordinary lib ven) :
    Survives lib now "oadrCanceledPartyRegistration" [("response", .dict r.dict), ("registration_id", .str reg), ("ven_id", .str ven)] :=
  arrives_of (by rfl) (fun _ => .cons (carries_response sound h1 (by lk)) (.cons (carries_text "registrationID" "registration_id" (by lk) h2)
    (.cons (carries_text "venID" "ven_id" (by lk) h3) .nil))) (by simp) (by simp)

/-- **C67** for oadrCreatedReport, with any number of pending reports. -/
theorem c67_created_report (sound : lib.Sound) {r : ResponseP} {ids : List String} {ven : Option String} (h1 : r.Good lib)
    (h2 : PendingIds lib ids) (h3 : ∀ x, ven = some x → Ordinary lib x) :
    Survives lib now "oadrCreatedReport"
      ([("response", .dict r.dict), ("pending_reports", pendingP ids)] ++ entry? "ven_id" (text? ven)) :=
  arrives_of (by rfl) (fun _ => .cons (carries_response sound h1 (by lk)) (.cons (carries_pending sound (by lk) h2)
    (.cons (carries_text? "venID" "ven_id" (by lk) h3) .nil))) (by simp) (by simp)

/-- **C67** for oadrCanceledReport, with any number of pending reports. -/
theorem c67_canceled_report (sound : lib.Sound) {r : ResponseP} {ids : List String} {ven : Option String} (h1 : r.Good lib)
    (h2 : PendingIds lib ids) (h3 : ∀ x, ven = some x → Ordinary lib x) :
    Survives lib now "oadrCanceledReport"
      ([("response", .dict r.dict), ("pending_reports", pendingP ids)] ++ entry? "ven_id" (text? ven)) :=
  arrives_of (by rfl) (fun _ => .cons (carries_response sound h1 (by lk)) (.cons (carries_pending sound (by lk) h2)
    (.cons (carries_text? "venID" "ven_id" (by lk) h3) .nil))) (by simp) (by simp)

/-- **C67, refuted** for a single pending report whose id is an integer that is not written as Python writes it, such as `007`: its id is received as `7`. (Several
    ids are received as they were sent.) -/
theorem c67_pending_id_violated (sound : lib.Sound) {r : ResponseP} {id : String} {i : Int} (h1 : r.Good lib) (hw : OnWire id)
    (hi : looksInt lib id.toList = true) (hr : lib.readInt id = some i) (hn : id ≠ String.ofList (intText i)) (hb : id ≠ "true" ∧ id ≠ "false")
    {ven : Option String} (h3 : ∀ x, ven = some x → Ordinary lib x) :
    ∃ id', id' ≠ id ∧ Arrives lib now "oadrCreatedReport" ([("response", .dict r.dict), ("pending_reports", pendingP [id])] ++ entry? "ven_id" (text? ven))
      ([("response", .dict r.dict), ("pending_reports", pendingP [id'])] ++ entry? "ven_id" (text? ven)) := by
  refine ⟨String.ofList (intText i), hn.symm, arrives_of (by rfl) (fun _ => .cons (carries_response sound h1 (by lk))
    (.cons (carries_pendingRead (ids := [id]) (fun _ => .int i) (by lk) (by simpa using hw) (fun x e => ?_))
    (.cons (carries_text? "venID" "ven_id" (by lk) h3) .nil))) (by simp [idsRead, pyText]) (by simp)⟩
  cases e
  refine ⟨?_, by simp, by simp⟩
  rw [leafValue_text lib _ _ (by decide +kernel), if_neg (by simp [hb.1, hb.2])]
  simp [plainText, hi, hr]

/-- **C67**: a whole number or a boolean word from another program is the same number, whether it comes as `payloadInt` or as `payloadFloat`. -/
theorem c67_payload_kinds (h1 : lib.readFloat "1" = some "1.0") (h0 : lib.readFloat "0" = some "0.0") {v : Value} (hv : (∃ i, v = .int i) ∨ ∃ b, v = .bool b) :
    ∃ i, payloadValue lib [("payload_int", .dict [("value", v)])] = .ok (some (.int i)) ∧
      ∀ r, lib.readFloat (String.ofList (intText i)) = some r → payloadValue lib [("payload_float", .dict [("value", v)])] = .ok (some (.float r)) := by
  rcases hv with ⟨i, rfl⟩ | ⟨b, rfl⟩
  · refine ⟨i, by simp [payloadValue, Dict.get?, Dict.has, keyIn, entryAt, toInt, Except.map], fun r hr => ?_⟩
    simp [payloadValue, Dict.get?, Dict.has, keyIn, entryAt, toFloat, Except.map, hr]
  · refine ⟨if b then 1 else 0, by simp [payloadValue, Dict.get?, Dict.has, keyIn, entryAt, toInt, Except.map], fun r hr => ?_⟩
    have : r = if b then "1.0" else "0.0" := by
      cases b
      · have : String.ofList (intText 0) = "0" := by decide +kernel
        simp only [Bool.false_eq_true, if_false] at hr ⊢
        rw [this, h0] at hr
        exact (Option.some.inj hr).symm
      · have : String.ofList (intText 1) = "1" := by decide +kernel
        simp only [if_true] at hr ⊢
        rw [this, h1] at hr
        exact (Option.some.inj hr).symm
    subst this
    simp [payloadValue, Dict.get?, Dict.has, keyIn, entryAt, toFloat, Except.map]

/-- **C67**: an element without a value is not taken for a value; the payload is left as it was received. -/
theorem c67_payload_empty (d : Dict) {key : String} (hk : key = "signal_payload" ∨ key = "current_value") :
    unnest lib d key (.dict [("payload_float", .dict [("value", .none)])]) = .ok d := by
  have h1 : singular "signal_payload" = "signal_payloa" := by decide +kernel
  have h2 : singular "current_value" = "current_valu" := by decide +kernel
  rcases hk with rfl | rfl <;>
    simp [unnest, onlyEntry, payloadValue, Dict.get?, keyIn, entryAt, Dict.has, h1, h2]

/-- **C67**: a report with a value as `payloadInt`, which the schema does not know, is never read as a report without values: whatever the value and the other
    entries are, the message cannot be read. -/
theorem c67_report_int (d p : Dict) (v : Value) (hp : p.length ≠ 1) (hi : Dict.get? p "payload_int" = some (.dict [("value", v)]))
    (hf : Dict.get? p "payload_float" = none) : unnest lib d "report_payload" (.dict p) = .error .keyError := by
  have ho : ∀ k, onlyEntry (.dict p) k = none := by
    intro k
    match p, hp with
    | [], _ => rfl
    | _ :: _ :: _, _ => rfl
  simp [unnest, ho, reportPayload, keyIn, Dict.has, hi, hf, entryAt, Dict.get?, Except.map]

/-- **C67** for oadrCreatePartyRegistration. -/
theorem c67_create_party_registration {r : RegistrationP} (h : r.Good lib) : Survives lib now "oadrCreatePartyRegistration" r.dict := by
  refine arrives_of (by rfl) (fun _ =>
    .cons (carries_text "requestID" "request_id" ?_ h.requestId)
    (.cons (carries_text? "registrationID" "registration_id" ?_ h.registrationId)
    (.cons (carries_text? "venID" "ven_id" ?_ h.venId)
    (.cons (carries_text "oadrProfileName" "profile_name" ?_ h.profileName)
    (.cons (carries_text "oadrTransportName" "transport_name" ?_ h.transportName)
    (.cons (carries_text "oadrTransportAddress" "transport_address" ?_ h.transportAddress)
    (.cons (carries_bool "oadrReportOnly" "report_only" r.reportOnly ?_)
    (.cons (carries_bool "oadrXmlSignature" "xml_signature" r.xmlSignature ?_)
    (.cons (carries_text "oadrVenName" "ven_name" ?_ h.venName)
    (.cons (carries_bool "oadrHttpPullModel" "http_pull_model" r.httpPullModel ?_) .nil)))))))))) (by simp [RegistrationP.dict]) (by simp [RegistrationP.dict])
  all_goals lkd [RegistrationP.dict]

/-- **C67** for oadrRequestEvent. -/
theorem c67_request_event (sound : lib.Sound) {id ven : String} {limit : Option Int} (h1 : Ordinary lib id) (h2 : Ordinary lib ven) :
    Survives lib now "oadrRequestEvent"
      ([("request_id", .str id), ("ven_id", .str ven)] ++ entry? "reply_limit" (limit.map .int)) := by
  refine arrives_inside (by rfl) (fun n => inside_replace (key' := "request_event") (ikey := "eiRequestEvent")
    (inside_elem (.cons (carries_text "requestID" "request_id" (by lk) h1) (.cons (carries_text "venID" "ven_id" (by lk) h2)
      (.cons (carries_given "replyLimit" "reply_limit" (v := limit.map .int) (by lk) ?_) .nil))) (by simp) (by simp))
    (by decide +kernel) (by decide +kernel) (by decide +kernel) (by simp) (by decide +kernel))
  intro y hy
  cases limit with
  | none => simp at hy
  | some i =>
    simp only [Option.map_some, Option.some.injEq] at hy
    subst hy
    exact wired_int sound i (by decide +kernel)

/-- **C67** for oadrCreateReport: exactly what is received, with any number of report requests. An empty list of them is not received. -/
theorem c67_create_report_arrives {id ven : String} {rs : List ReportRequestP} (h1 : Ordinary lib id) (h2 : Ordinary lib ven)
    (h3 : ∀ r ∈ rs, r.Good lib) :
    Arrives lib now "oadrCreateReport"
      [("request_id", .str id), ("report_requests", .list ((rs.map ReportRequestP.dict).map .dict)), ("ven_id", .str ven)]
      ([("request_id", .str id)] ++ entry? "report_requests" (dicts? (rs.map ReportRequestP.dict)) ++ [("ven_id", .str ven)]) :=
  arrives_of (by rfl) (fun _ => .cons (carries_text "requestID" "request_id" (by lk) h1) (.cons (carries_reportRequests h3 (by lk))
    (.cons (carries_text "venID" "ven_id" (by lk) h2) .nil))) (by simp) (by simp)

/-- **C67** for oadrCreateReport, with any number of report requests but none. -/
theorem c67_create_report {id ven : String} {rs : List ReportRequestP} (h1 : Ordinary lib id) (h2 : Ordinary lib ven)
    (h3 : ∀ r ∈ rs, r.Good lib) (h4 : rs ≠ []) :
    Survives lib now "oadrCreateReport"
      [("request_id", .str id), ("report_requests", .list ((rs.map ReportRequestP.dict).map .dict)), ("ven_id", .str ven)] := by
  have := c67_create_report_arrives (now := now) h1 h2 h3
  simpa [Survives, dicts?, h4, entry?] using this

/-- **C67** for oadrRegisteredReport: exactly what is received, with any number of report requests. An empty list of them is not received. -/
theorem c67_registered_report_arrives (sound : lib.Sound) {r : ResponseP} {ven : Option String} {rs : List ReportRequestP} (h1 : r.Good lib)
    (h2 : ∀ x, ven = some x → Ordinary lib x) (h3 : ∀ r ∈ rs, r.Good lib) :
    Arrives lib now "oadrRegisteredReport"
      ([("response", .dict r.dict), ("report_requests", .list ((rs.map ReportRequestP.dict).map .dict))] ++ entry? "ven_id" (text? ven))
      ([("response", .dict r.dict)] ++ entry? "report_requests" (dicts? (rs.map ReportRequestP.dict)) ++ entry? "ven_id" (text? ven)) :=
  arrives_of (by rfl) (fun _ => .cons (carries_response sound h1 (by lk)) (.cons (carries_reportRequests h3 (by lk))
    (.cons (carries_text? "venID" "ven_id" (by lk) h2) .nil))) (by simp) (by simp)

/-- **C67** for oadrRegisteredReport, with any number of report requests but none. -/
theorem c67_registered_report (sound : lib.Sound) {r : ResponseP} {ven : Option String} {rs : List ReportRequestP} (h1 : r.Good lib)
    (h2 : ∀ x, ven = some x → Ordinary lib x) (h3 : ∀ r ∈ rs, r.Good lib) (h4 : rs ≠ []) :
    Survives lib now "oadrRegisteredReport"
      ([("response", .dict r.dict), ("report_requests", .list ((rs.map ReportRequestP.dict).map .dict))] ++ entry? "ven_id" (text? ven)) := by
  have := c67_registered_report_arrives (now := now) sound h1 h2 h3
  simpa [Survives, dicts?, h4, entry?] using this

/-- **C67** for oadrCreatedPartyRegistration: exactly what is received. Ids that are not given are received as `None`. -/
theorem c67_created_party_registration_arrives (sound : lib.Sound) {r : RegisteredP} (h : r.Good lib) :
    Arrives lib now "oadrCreatedPartyRegistration" r.dict r.received := by
  have opt : ∀ (n : Nat) {s : Option String} {name key key' : String} (hl : lookup r.dict [key'] = .ok (text? s)) (hs : ∀ x, s = some x → Ordinary lib x)
      (hk : textKey key' = true) (hf : leafFacts name [] key key' = true) (he : emptyFacts name [] key key' = true),
      Carries lib n r.dict (.cond (.given [key']) [leaf name [key']] [.empty (.fixed name) []]) key [key'] [(key', (text? s).getD .none)] := by
    intro n s name key key' hl hs hk hf he
    cases s with
    | none => exact carries_no (surely_given hl (by simp [text?])) (carries_empty key key' he)
    | some x => exact carries_yes (surely_given hl (by simp [text?])) (carries_text key key' hl (hs x rfl) hk hf)
  refine arrives_of (by rfl) (fun n => .cons (carries_response sound h.response (by lkd [RegisteredP.dict]))
    (.cons (opt _ (key := "registrationID") (by lkd [RegisteredP.dict]) h.registrationId (by decide +kernel) (by decide +kernel) (by decide +kernel))
    (.cons (opt _ (key := "venID") (by lkd [RegisteredP.dict]) h.venId (by decide +kernel) (by decide +kernel) (by decide +kernel))
    (.cons (carries_text "vtnID" "vtn_id" (by lkd [RegisteredP.dict]) h.vtnId)
    (.cons (carries_profiles h.nonempty h.profiles (by lkd [RegisteredP.dict]))
    (.cons (carries_opt (key := "oadrRequestedOadrPollFreq") (key' := "requested_oadr_poll_freq") (v := span? r.pollFreq) (by lkd [RegisteredP.dict])
      (fun y hy => ?_)) .nil)))))) (by simp [RegisteredP.received]) (by simp [RegisteredP.received])
  simp only [span?, Option.map_eq_some_iff] at hy
  obtain ⟨d, hd, rfl⟩ := hy
  exact ⟨by simp, carries_spanIn "oadrRequestedOadrPollFreq" "requested_oadr_poll_freq" (by lkd [RegisteredP.dict, hd, span?]) (h.pollFreq d hd)⟩

/-- **C67** for oadrCreatedPartyRegistration, if both ids are given. -/
theorem c67_created_party_registration (sound : lib.Sound) {r : RegisteredP} (h : r.Good lib) (h1 : r.registrationId ≠ none) (h2 : r.venId ≠ none) :
    Survives lib now "oadrCreatedPartyRegistration" r.dict := by
  have := c67_created_party_registration_arrives (now := now) sound h
  have e : r.received = r.dict := by
    obtain ⟨x, hx⟩ := Option.ne_none_iff_exists'.mp h1
    obtain ⟨y, hy⟩ := Option.ne_none_iff_exists'.mp h2
    simp [RegisteredP.received, RegisteredP.dict, hx, hy, text?, entry?]
  rwa [e] at this

/-- **C67** for oadrCreatedEvent: exactly what is received. The id of the request is received only if there are no answers to events, and a
    message with an empty list of answers is received with `None` in its place. -/
theorem c67_created_event_arrives (sound : lib.Sound) {r : CreatedEventP} (h : r.Good lib) :
    Arrives lib now "oadrCreatedEvent" r.dict r.received := by
  have hl : lookup r.dict ["event_responses"] = .ok (r.eventResponses.map (fun l => .list ((l.map EventResponseP.dict).map .dict))) := by
    lkd [CreatedEventP.dict]
  refine arrives_inside (by rfl) (fun n => inside_replace (key' := "created_event") (ikey := "eiCreatedEvent")
    (inside_elem (.cons (carries_createdResponse sound h.response) (.cons (key := "eventResponses") (keys := ["event_responses"])
      (out := entry? "event_responses" (r.eventResponses.map (fun l => (dicts? (l.map EventResponseP.dict)).getD .none))) ?_
      (.cons (carries_text "venID" "ven_id" (by lkd [CreatedEventP.dict]) h.venId) .nil))) (by simp [CreatedEventP.received]; rfl) (by simp [CreatedEventP.received]))
    (by decide +kernel) (by decide +kernel) (by decide +kernel) (by simp) (by decide +kernel))
  cases he : r.eventResponses with
  | none =>
    rw [he] at hl
    exact carries_skip _ _ (surely_given hl (by simp))
  | some l =>
    rw [he] at hl
    refine carries_yes (surely_given hl (by simp)) ?_
    by_cases hne : l = []
    · subst hne
      simp only [Option.map_some, List.map_nil, dicts?, if_true, Option.getD_none, entry?]
      exact carries_void "eventResponses" "event_responses" (by simp only [List.map_nil, Option.map_some] at hl; simp [sureAll, sure, hl, eachPiece])
    · have := carries_eventResponses (n := n + 16) (env := r.dict) sound hne (h.eventResponses l he) (by lkd [CreatedEventP.dict, he])
      simpa [dicts?, hne, entry?] using this

/-- **C67** for oadrCreatedEvent: messages with an id of the request or with answers to events, but not both. -/
theorem c67_created_event (sound : lib.Sound) {r : CreatedEventP} (h : r.Good lib) (h1 : r.eventResponses = none) (h2 : r.response.requestId ≠ none) :
    Survives lib now "oadrCreatedEvent" r.dict := by
  have := c67_created_event_arrives (now := now) sound h
  have e : r.received = r.dict := by
    obtain ⟨x, hx⟩ := Option.ne_none_iff_exists'.mp h2
    simp [CreatedEventP.received, CreatedEventP.dict, LooseResponseP.received, LooseResponseP.dict, h1, hx, text?, entry?]
  rwa [e] at this

/-- **C67** for oadrResponse: exactly what is received. A missing id of the request is received as `None`. -/
theorem c67_response_arrives (sound : lib.Sound) {r : LooseResponseP} {ven : String} (h : r.Good lib) (h2 : Ordinary lib ven) :
    Arrives lib now "oadrResponse" [("response", .dict r.dict), ("ven_id", .str ven)] [("response", .dict r.received), ("ven_id", .str ven)] :=
  arrives_of (by rfl) (fun _ => .cons (carries_looseResponse sound h (by lk)) (.cons (carries_text "venID" "ven_id" (by lk) h2) .nil))
    (by simp) (by simp)

/-- **C67** for oadrResponse, if there is an id of the request. -/
theorem c67_response (sound : lib.Sound) {r : LooseResponseP} {ven : String} (h : r.Good lib) (h2 : Ordinary lib ven) (h3 : r.requestId ≠ none) :
    Survives lib now "oadrResponse" [("response", .dict r.dict), ("ven_id", .str ven)] := by
  have := c67_response_arrives (now := now) sound h h2
  have e : r.received = r.dict := by
    obtain ⟨x, hx⟩ := Option.ne_none_iff_exists'.mp h3
    simp [LooseResponseP.received, LooseResponseP.dict, hx, text?, entry?]
  rwa [e] at this

/-- **C67** for oadrUpdatedReport: exactly what is received. -/
theorem c67_updated_report_arrives (sound : lib.Sound) {r : UpdatedReportP} (h : r.Good lib) :
    Arrives lib now "oadrUpdatedReport" r.dict r.received := by
  refine arrives_of (by rfl) (fun n => .cons (carries_looseResponse sound h.response (by lkd [UpdatedReportP.dict]))
    (.cons (key := "oadrCancelReport") (keys := ["cancel_report"]) (out := entry? "cancel_report" (r.cancel.map (fun c => .dict c.received))) ?_
    (.cons (carries_text? "venID" "ven_id" (by lkd [UpdatedReportP.dict]) h.venId) .nil)))
    (by simp [UpdatedReportP.received]) (by simp [UpdatedReportP.received])
  have hl : lookup r.dict ["cancel_report"] = .ok (r.cancel.map (fun c => .dict c.dict)) := by lkd [UpdatedReportP.dict]
  cases hc : r.cancel with
  | none =>
    rw [hc] at hl
    exact carries_skip _ _ (surely_given hl (by simp))
  | some c =>
    rw [hc] at hl
    exact carries_yes (surely_given hl (by simp)) (carries_cancel (h.cancel c hc) (by lkd [UpdatedReportP.dict, hc]))

/-- **C67** for oadrUpdatedReport, if there is an id of the request and no reports are cancelled, or at least two. -/
theorem c67_updated_report (sound : lib.Sound) {r : UpdatedReportP} (h : r.Good lib) (h1 : r.response.requestId ≠ none)
    (h2 : ∀ c, r.cancel = some c → 2 ≤ c.reportRequestIds.length) : Survives lib now "oadrUpdatedReport" r.dict := by
  have := c67_updated_report_arrives (now := now) sound h
  have e : r.received = r.dict := by
    obtain ⟨x, hx⟩ := Option.ne_none_iff_exists'.mp h1
    have hr : r.response.received = r.response.dict := by simp [LooseResponseP.received, LooseResponseP.dict, hx, text?, entry?]
    have hc : r.cancel.map (fun c => Value.dict c.received) = r.cancel.map (fun c => Value.dict c.dict) := by
      cases hc : r.cancel with
      | none => rfl
      | some c =>
        have h2 := h2 c hc
        match h : c.reportRequestIds with
        | [] => simp [h] at h2
        | [s] => simp [h] at h2
        | s :: s' :: ss => simp [CancelP.received, CancelP.dict, h, entry?]
    simp [UpdatedReportP.received, UpdatedReportP.dict, hr, hc]
  rwa [e] at this

end Openleadr
