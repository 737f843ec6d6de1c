import Verif.Lemmas.ValidMessage
/-!
C104: what the library says is valid against the schema it comes with: requests and answers.
-/
namespace Openleadr

variable {lib : Lib} {now : Int}

/-! ### Parts -/

/-- The prefixes inside most messages. -/
abbrev plainNames : Xsd.Names := messageNames [] []

section
variable {env : Dict}

/-- The response of an answer. -/
theorem gives_response {r : ResponseP} (h : r.Good lib) (hc : ResponseCode r.code) (hl : lookup env ["response"] = .ok (some (.dict r.dict))) :
    Gives lib env plainNames eiResponse [(Xsd.ei "eiResponse", Xsd.eiResponse)] 1 :=
  gives_el (.one (gives_code (i := r.code) (by rw [lookup_in hl]; rfl) hc) (.one (gives_text (s := r.description) (by rw [lookup_in hl]; rfl) h.description.toOnWire)
    (.one (gives_text (s := r.requestId) (by rw [lookup_in hl]; rfl) h.requestId.toOnWire) .nil)))

/-- The id of a request that may be missing: then the element is empty. -/
theorem gives_looseId {names : Xsd.Names} {s : Option String} {name : String} {attrs : List (String × String)} {path : List String} {q : Xsd.QName} (hl : lookup env path = .ok (text? s))
    (h : ∀ x, s = some x → OnWire x) (hf : tagFacts names name attrs q = true := by decide +kernel) :
    Gives lib env names (.cond (.given path) [leaf name path .plain attrs] [.empty (.fixed name) attrs]) [(q, Xsd.string)] 1 := by
  cases s with
  | none => exact gives_no (surely_given hl (by simp [text?])) (gives_empty trivial hf)
  | some x => exact gives_yes (surely_given hl (by simp [text?])) (gives_text hl (h x rfl) hf)

/-- The list of pending reports. -/
theorem gives_pending {ids : List String} (h : ∀ s ∈ ids, OnWire s) (hl : lookup env ["pending_reports"] = .ok (some (pendingP ids))) :
    Gives lib env plainNames pendingReports [(Xsd.oadr "oadrPendingReports", Xsd.pendingReports)] 1 :=
  gives_el (.many (gives_each (xs := ids) (F := fun id => [("report_request_id", .str id)]) (by rw [hl]; simp [pendingP])
    (fun _ x hx => gives_text (by lk) (h x hx))) (Nat.zero_le _) .nil)

/-- The requests for reports. -/
theorem gives_reportRequests {rs : List ReportRequestP} (h : ∀ r ∈ rs, r.Good lib) (ha : ∀ r ∈ rs, r.Allowed)
    (hl : lookup env ["report_requests"] = .ok (some (.list ((rs.map ReportRequestP.dict).map .dict)))) :
    Gives lib env plainNames (.loop "report_request" ["report_requests"] [tReportRequest]) [(Xsd.oadr "oadrReportRequest", Xsd.reportRequest)] rs.length := by
  refine gives_each hl (fun i r hr => ?_)
  have g := h r hr
  obtain ⟨d, hd⟩ := Option.ne_none_iff_exists'.mp (ha r hr).backDuration
  have interval : Maybe lib (loopEnv env "report_request" i (.dict r.dict)) (Xsd.inside (Xsd.inside plainNames []) [("xmlns:xcal", nsXcal)])
      (ifGiven ["report_request", "report_specifier", "report_interval"] [
        el "ei:reportInterval" [el "xcal:properties" [
          el "xcal:dtstart" [leaf "xcal:date-time" ["report_request", "report_specifier", "report_interval", "dtstart"] .datetimeformat],
          el "xcal:duration" [leaf "xcal:duration" ["report_request", "report_specifier", "report_interval", "duration"] .timedeltaformat]]]])
      [(Xsd.ei "reportInterval", Xsd.calendarInterval)] :=
    maybe_given (o := r.interval) (f := fun i => .dict i.dict) (by lkd [ReportRequestP.dict, ReportRequestP.specifier]) (by simp) (fun x hx =>
      gives_el (.one (gives_el (.one (gives_moment (by lkd [ReportRequestP.dict, ReportRequestP.specifier, hx, PeriodP.dict]) (g.interval x hx).start)
        (.one (gives_span (by lkd [ReportRequestP.dict, ReportRequestP.specifier, hx, PeriodP.dict]) (g.interval x hx).duration)
          (.skip (.skip (.skip (.skip .nil))))))) .nil))
  exact gives_el (.one (gives_text (by lkd [ReportRequestP.dict]) g.requestId.toOnWire)
    (.one (gives_el (.one (gives_text (by lkd [ReportRequestP.dict, ReportRequestP.specifier]) g.specifierId.toOnWire)
      (.one (gives_span (by lkd [ReportRequestP.dict, ReportRequestP.specifier]) g.granularity)
      (.one (gives_yes (surely_given (v := some (.timedelta d)) (by lkd [ReportRequestP.dict, ReportRequestP.specifier, hd, span?]) (by simp))
        (gives_span (by lkd [ReportRequestP.dict, ReportRequestP.specifier, hd, span?]) (g.backDuration d hd)))
      (.maybe interval
      (.many (gives_each (xs := r.payloads) (F := specifierPayload) (by lkd [ReportRequestP.dict, ReportRequestP.specifier]) (fun j p hp =>
        gives_el (.one (gives_text (by lkd [specifierPayload]) (g.payloads p hp).1.toOnWire)
          (.skip (.one (gives_extended (by lkd [specifierPayload]) (g.payloads p hp).2.toOnWire ((ha r hr).payloads p hp)) .nil)))))
        (List.length_pos_iff.2 g.nonempty) .nil)))))) .nil))

end

/-! ### Messages -/

/-- **C104** for oadrPoll. -/
theorem c104_poll {ven : String} (h : OnWire ven) : SchemaValid lib now "oadrPoll" [("ven_id", .str ven)] :=
  schemaValid_of 22 (by rfl) (by rfl) (.one (gives_text (by lk) h) .nil)

/-- **C104** for oadrQueryRegistration. -/
theorem c104_query_registration {id : String} (h : OnWire id) : SchemaValid lib now "oadrQueryRegistration" [("request_id", .str id)] :=
  schemaValid_of 21 (by rfl) (by rfl) (.one (gives_text (by lk) h) .nil)

/-- **C104** for oadrRequestReregistration. -/
theorem c104_request_reregistration {ven : String} (h : OnWire ven) : SchemaValid lib now "oadrRequestReregistration" [("ven_id", .str ven)] :=
  schemaValid_of 20 (by rfl) (by rfl) (.one (gives_text (by lk) h) .nil)

/-- **C104** for oadrRequestEvent. -/
theorem c104_request_event {id ven : String} {limit : Option Int} (h1 : OnWire id) (h2 : OnWire ven) (h3 : ∀ i, limit = some i → Unsigned32 i) :
    SchemaValid lib now "oadrRequestEvent" ([("request_id", .str id), ("ven_id", .str ven)] ++ entry? "reply_limit" (limit.map .int)) :=
  schemaValid_of 2 (by rfl) (by rfl) (.one (gives_el (.one (gives_text (by lk) h1) (.one (gives_text (by lk) h2)
    (.maybe (maybe_given (o := limit) (f := .int) (by lk) (by simp) (fun i hi => gives_unsigned (by lkd [hi]) (h3 i hi))) .nil)))) .nil)

/-- **C104** for oadrCancelOpt. -/
theorem c104_cancel_opt {id opt ven : String} (h1 : OnWire id) (h2 : OnWire opt) (h3 : OnWire ven) :
    SchemaValid lib now "oadrCancelOpt" [("request_id", .str id), ("opt_id", .str opt), ("ven_id", .str ven)] :=
  schemaValid_of 4 (by rfl) (by rfl) (.one (gives_text (by lk) h1) (.one (gives_text (by lk) h2) (.one (gives_text (by lk) h3) .nil)))

/-- **C104** for oadrCancelPartyRegistration. -/
theorem c104_cancel_party_registration {id reg ven : String} (h1 : OnWire id) (h2 : OnWire reg) (h3 : OnWire ven) :
    SchemaValid lib now "oadrCancelPartyRegistration" [("request_id", .str id), ("registration_id", .str reg), ("ven_id", .str ven)] :=
  schemaValid_of 16 (by rfl) (by rfl) (.one (gives_text (by lk) h1) (.one (gives_text (by lk) h2) (.one (gives_text (by lk) h3) .nil)))

/-- **C104** for oadrCancelReport (with one report request). -/
theorem c104_cancel_report {id req ven : String} {follow : Bool} (h1 : OnWire id) (h2 : OnWire req) (h3 : OnWire ven) :
    SchemaValid lib now "oadrCancelReport"
      [("request_id", .str id), ("report_request_id", .str req), ("report_to_follow", .bool follow), ("ven_id", .str ven)] :=
  schemaValid_of 8 (by rfl) (by rfl) (.one (gives_text (by lk) h1) (.many (gives_text (by lk) h2) (Nat.le_refl _) (.one (gives_bool (b := follow) (by lk))
    (.one (gives_text (by lk) h3) .nil))))

/-- **C104** for oadrCanceledOpt. -/
theorem c104_canceled_opt {r : ResponseP} {opt : String} (h1 : r.Good lib) (hc : ResponseCode r.code) (h2 : OnWire opt) :
    SchemaValid lib now "oadrCanceledOpt" [("response", .dict r.dict), ("opt_id", .str opt)] :=
  schemaValid_of 5 (by rfl) (by rfl) (.one (gives_response h1 hc (by lk)) (.one (gives_text (by lk) h2) .nil))

/-- **C104** for oadrCreatedOpt. -/
theorem c104_created_opt {r : ResponseP} {opt : String} (h1 : r.Good lib) (hc : ResponseCode r.code) (h2 : OnWire opt) :
    SchemaValid lib now "oadrCreatedOpt" [("response", .dict r.dict), ("opt_id", .str opt)] :=
  schemaValid_of 7 (by rfl) (by rfl) (.one (gives_response h1 hc (by lk)) (.one (gives_text (by lk) h2) .nil))

/-- **C104** for oadrCanceledPartyRegistration. -/
theorem c104_canceled_party_registration {r : ResponseP} {reg ven : String} (h1 : r.Good lib) (hc : ResponseCode r.code) (h2 : OnWire reg) (h3 : OnWire ven) :
    SchemaValid lib now "oadrCanceledPartyRegistration" [("response", .dict r.dict), ("registration_id", .str reg), ("ven_id", .str ven)] :=
  schemaValid_of 17 (by rfl) (by rfl) (.one (gives_response h1 hc (by lk)) (.one (gives_text (by lk) h2) (.one (gives_text (by lk) h3) .nil)))

/-- **C104** for oadrCreatedReport, with any number of pending reports. -/
theorem c104_created_report {r : ResponseP} {ids : List String} {ven : Option String} (h1 : r.Good lib) (hc : ResponseCode r.code)
    (h2 : ∀ s ∈ ids, OnWire s) (h3 : ∀ x, ven = some x → OnWire x) :
    SchemaValid lib now "oadrCreatedReport" ([("response", .dict r.dict), ("pending_reports", pendingP ids)] ++ entry? "ven_id" (text? ven)) :=
  schemaValid_of 11 (by rfl) (by rfl) (.one (gives_response h1 hc (by lk)) (.one (gives_pending h2 (by lk)) (.maybe (maybe_text (by lk) h3) .nil)))

/-- **C104** for oadrCanceledReport, with any number of pending reports. -/
theorem c104_canceled_report {r : ResponseP} {ids : List String} {ven : Option String} (h1 : r.Good lib) (hc : ResponseCode r.code)
    (h2 : ∀ s ∈ ids, OnWire s) (h3 : ∀ x, ven = some x → OnWire x) :
    SchemaValid lib now "oadrCanceledReport" ([("response", .dict r.dict), ("pending_reports", pendingP ids)] ++ entry? "ven_id" (text? ven)) :=
  schemaValid_of 9 (by rfl) (by rfl) (.one (gives_response h1 hc (by lk)) (.one (gives_pending h2 (by lk)) (.maybe (maybe_text (by lk) h3) .nil)))

/-- **C104** for oadrCreatePartyRegistration. -/
theorem c104_create_party_registration {r : RegistrationP} (h : r.Good lib) (ha : r.Allowed) : SchemaValid lib now "oadrCreatePartyRegistration" r.dict := by
  refine schemaValid_of 18 (by rfl) (by rfl) (.one (gives_text ?_ h.requestId.toOnWire)
    (.maybe (maybe_text ?_ (fun x hx => (h.registrationId x hx).toOnWire)) (.maybe (maybe_text ?_ (fun x hx => (h.venId x hx).toOnWire))
    (.one (gives_token ?_ h.profileName.toOnWire ha.profileName) (.one (gives_token ?_ h.transportName.toOnWire ha.transportName)
    (.one (gives_text ?_ h.transportAddress.toOnWire) (.one (gives_bool (b := r.reportOnly) ?_) (.one (gives_bool (b := r.xmlSignature) ?_)
    (.one (gives_text ?_ h.venName.toOnWire) (.one (gives_bool (b := r.httpPullModel) ?_) .nil))))))))))
  all_goals lkd [RegistrationP.dict]

/-- **C104** for oadrCreatedPartyRegistration. -/
theorem c104_created_party_registration {r : RegisteredP} (h : r.Good lib) (ha : r.Allowed) : SchemaValid lib now "oadrCreatedPartyRegistration" r.dict := by
  have profiles : Gives lib r.dict plainNames (el "oadr:oadrProfiles" [
      .loop "profile" ["profiles"] [
        el "oadr:oadrProfile" [
          leaf "oadr:oadrProfileName" ["profile", "profile_name"],
          el "oadr:oadrTransports" [
            .loop "transport" ["profile", "transports"] [
              el "oadr:oadrTransport" [leaf "oadr:oadrTransportName" ["transport", "transport_name"]]]]]]]) [(Xsd.oadr "oadrProfiles", Xsd.profiles)] 1 :=
    gives_el (.many (gives_each (xs := r.profiles) (F := ProfileP.dict) (by lkd [RegisteredP.dict]) (fun _ p hp =>
      gives_el (.one (gives_token (by lkd [ProfileP.dict]) (h.profiles p hp).name.toOnWire (ha.profiles p hp).name)
        (.one (gives_el (.many (gives_each (xs := p.transports) (F := fun t => [("transport_name", .str t)]) (by lkd [ProfileP.dict]) (fun _ t ht =>
          gives_el (.one (gives_token (by lk) ((h.profiles p hp).transports t ht).toOnWire ((ha.profiles p hp).transports t ht)) .nil)))
          (List.length_pos_iff.2 (h.profiles p hp).nonempty) .nil)) .nil)))) (List.length_pos_iff.2 h.nonempty) .nil)
  exact schemaValid_of 19 (by rfl) (by rfl) (.one (gives_response h.response ha.response (by lkd [RegisteredP.dict]))
    (.one (gives_looseId (s := r.registrationId) (by lkd [RegisteredP.dict]) (fun x hx => (h.registrationId x hx).toOnWire))
    (.one (gives_looseId (s := r.venId) (by lkd [RegisteredP.dict]) (fun x hx => (h.venId x hx).toOnWire))
    (.one (gives_text (by lkd [RegisteredP.dict]) h.vtnId.toOnWire) (.one profiles
    (.maybe (maybe_given (o := r.pollFreq) (f := .timedelta) (by lkd [RegisteredP.dict, span?]) (by simp) (fun d hd =>
      gives_span (by lkd [RegisteredP.dict, hd, span?]) (h.pollFreq d hd))) .nil))))))

/-- **C104** for oadrCreateReport, with any number of report requests but none. -/
theorem c104_create_report {id ven : String} {rs : List ReportRequestP} (h1 : OnWire id) (h2 : OnWire ven)
    (h3 : ∀ r ∈ rs, r.Good lib) (ha : ∀ r ∈ rs, r.Allowed) (h4 : rs ≠ []) :
    SchemaValid lib now "oadrCreateReport"
      [("request_id", .str id), ("report_requests", .list ((rs.map ReportRequestP.dict).map .dict)), ("ven_id", .str ven)] :=
  schemaValid_of 10 (by rfl) (by rfl) (.one (gives_text (by lk) h1) (.many (gives_reportRequests h3 ha (by lk)) (List.length_pos_iff.2 h4)
    (.one (gives_text (by lk) h2) .nil)))

/-- **C104** for oadrRegisteredReport, with any number of report requests. -/
theorem c104_registered_report {r : ResponseP} {ven : Option String} {rs : List ReportRequestP} (h1 : r.Good lib) (hc : ResponseCode r.code)
    (h2 : ∀ x, ven = some x → OnWire x) (h3 : ∀ r ∈ rs, r.Good lib) (ha : ∀ r ∈ rs, r.Allowed) :
    SchemaValid lib now "oadrRegisteredReport"
      ([("response", .dict r.dict), ("report_requests", .list ((rs.map ReportRequestP.dict).map .dict))] ++ entry? "ven_id" (text? ven)) :=
  schemaValid_of 13 (by rfl) (by rfl) (.one (gives_response h1 hc (by lk)) (.many (gives_reportRequests h3 ha (by lk)) (Nat.zero_le _)
    (.maybe (maybe_text (by lk) h2) .nil)))

/-- **C104** for oadrResponse. -/
theorem c104_response {r : LooseResponseP} {ven : String} (h : r.Good lib) (hc : ResponseCode r.code) (h2 : OnWire ven) :
    SchemaValid lib now "oadrResponse" [("response", .dict r.dict), ("ven_id", .str ven)] :=
  schemaValid_of 3 (by rfl) (by rfl) (.one (gives_el (.one (gives_code (i := r.code) (by lkd [LooseResponseP.dict]) hc)
    (.one (gives_text (s := r.description) (by lkd [LooseResponseP.dict]) h.description.toOnWire)
    (.one (gives_looseId (s := r.requestId) (by lkd [LooseResponseP.dict]) (fun x hx => (h.requestId x hx).toOnWire)) .nil))))
    (.one (gives_text (by lk) h2) .nil))

/-- **C104** for oadrCreatedEvent, with any number of answers to events. -/
theorem c104_created_event {r : CreatedEventP} (h : r.Good lib) (ha : r.Allowed) : SchemaValid lib now "oadrCreatedEvent" r.dict := by
  have hl : lookup r.dict ["event_responses"] = .ok (r.eventResponses.map (fun l => .list ((l.map EventResponseP.dict).map .dict))) := by
    lkd [CreatedEventP.dict]
  have hl2 : lookup r.dict ["response", "request_id"] = .ok (text? r.response.requestId) := by
    lkd [CreatedEventP.dict, LooseResponseP.dict]
  have id : Gives lib r.dict (Xsd.inside (Xsd.inside plainNames [("xmlns", nsPyld)]) [])
      (.cond (.both (.neg (.given ["event_responses"])) (.given ["response", "request_id"]))
        [requestId ["response", "request_id"]] [el "requestID" [] [("xmlns", nsPyld)]]) [(Xsd.pyld "requestID", Xsd.string)] 1 := by
    have hempty : Gives lib r.dict (Xsd.inside (Xsd.inside plainNames [("xmlns", nsPyld)]) []) (el "requestID" [] [("xmlns", nsPyld)])
        [(Xsd.pyld "requestID", Xsd.string)] 1 := by
      refine ⟨[.elem "requestID" [("xmlns", nsPyld)] []], rfl, rfl, ?_, .cons (List.mem_singleton.2 rfl) (by decide +kernel)
        (.simple rfl (attributes_declared _ (by decide +kernel)) rfl trivial) .nil⟩
      intro k hk
      rw [List.mem_singleton.1 hk]
      exact ⟨sound_elem (by decide +kernel) (by simp), rfl⟩
    cases he : r.eventResponses with
    | some l =>
      rw [he] at hl
      exact gives_no (by simp [surely, holds, hl, Except.map]) hempty
    | none =>
      rw [he] at hl
      cases hi : r.response.requestId with
      | none =>
        rw [hi] at hl2
        exact gives_no (by simp [surely, holds, hl, hl2, text?, Except.map]) hempty
      | some x =>
        rw [hi] at hl2
        exact gives_yes (by simp [surely, holds, hl, hl2, text?, Except.map]) (gives_text hl2 (h.response.requestId x hi).toOnWire)
  refine schemaValid_of 1 (by rfl) (by rfl) (.one (gives_el (.one (gives_el
    (.one (gives_code (i := r.response.code) (by lkd [CreatedEventP.dict, LooseResponseP.dict]) ha.response)
    (.one (gives_text (s := r.response.description) (by lkd [CreatedEventP.dict, LooseResponseP.dict]) h.response.description.toOnWire) (.one id .nil))))
    (.maybe (maybe_given hl (by simp) (fun l hr => ?_)) (.one (gives_text (by lkd [CreatedEventP.dict]) h.venId.toOnWire) .nil)))) .nil)
  refine gives_el (.many (gives_each (xs := l) (F := EventResponseP.dict) (by rw [hl, hr]; rfl) (fun i e he => ?_)) (Nat.zero_le _) .nil)
  have g := h.eventResponses l hr e he
  have a := ha.eventResponses l hr e he
  exact gives_el (.one (gives_code (by lkd [EventResponseP.dict]) a.code)
    (.maybe (maybe_text (by lkd [EventResponseP.dict]) (fun x hx => (g.description x hx).toOnWire))
    (.one (gives_text (by lkd [EventResponseP.dict]) g.requestId.toOnWire)
    (.one (gives_el (.one (gives_text (by lkd [EventResponseP.dict]) g.eventId.toOnWire)
      (.one (gives_unsigned (by lkd [EventResponseP.dict]) a.modification) .nil)))
    (.one (gives_token (by lkd [EventResponseP.dict]) g.optType.toOnWire a.optType) .nil)))))

/-- **C104** for oadrUpdatedReport. -/
theorem c104_updated_report {r : UpdatedReportP} (h : r.Good lib) (ha : r.Allowed) : SchemaValid lib now "oadrUpdatedReport" r.dict := by
  refine schemaValid_of 15 (by rfl) (by rfl) (.one (gives_el (.one (gives_code (i := r.response.code) (by lkd [UpdatedReportP.dict, LooseResponseP.dict]) ha.response)
    (.one (gives_text (s := r.response.description) (by lkd [UpdatedReportP.dict, LooseResponseP.dict]) h.response.description.toOnWire)
    (.one (gives_looseId (s := r.response.requestId) (by lkd [UpdatedReportP.dict, LooseResponseP.dict]) (fun x hx => (h.response.requestId x hx).toOnWire)) .nil))))
    (.maybe (maybe_given (o := r.cancel) (f := fun c => .dict c.dict) (by lkd [UpdatedReportP.dict]) (by simp) (fun c hc => ?_))
    (.maybe (maybe_text (by lkd [UpdatedReportP.dict]) (fun x hx => (h.venId x hx).toOnWire)) .nil)))
  have g := h.cancel c hc
  have ids := gives_loop (lib := lib) (env := r.dict) (names := Xsd.inside (messageNames [("xmlns:pyld", nsPyld)] []) []) (var := "report_request_id")
    (over := ["cancel_report", "report_request_id"]) (t := leaf "ei:reportRequestID" ["report_request_id"]) (alts := [(Xsd.ei "reportRequestID", Xsd.string)])
    (l := c.reportRequestIds.map .str) (by lkd [UpdatedReportP.dict, hc, CancelP.dict]) (fun i x hx => by
      obtain ⟨s, hs, rfl⟩ := List.mem_map.1 hx
      exact gives_text (by lk) (g.reportRequestIds s hs).toOnWire)
  exact gives_el (.one (gives_text (by lkd [UpdatedReportP.dict, hc, CancelP.dict]) g.requestId.toOnWire)
    (.many ids (by rw [List.length_map]; exact List.length_pos_iff.2 (ha.cancel c hc))
    (.one (gives_bool (b := c.toFollow) (by lkd [UpdatedReportP.dict, hc, CancelP.dict]))
    (.maybe (maybe_textTrue (s := c.venId) (by lkd [UpdatedReportP.dict, hc, CancelP.dict]) (fun x hx => (g.venId x hx).toOnWire)) .nil))))

end Openleadr
