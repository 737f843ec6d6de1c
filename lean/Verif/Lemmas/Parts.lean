import Verif.Lemmas.Shapes
/-!
Parts of messages.
-/
namespace Openleadr

variable {lib : Lib} {n : Nat} {env : Dict}

/-! ### Loops over lists of structures -/

theorem each_map {α : Type} {xs : List α} {F G : α → Dict} {P : Nat → Value → Dict → Prop}
    (h : ∀ x ∈ xs, ∀ i, P i (.dict (F x)) (G x)) :
    ∀ (i : Nat) (v : Value) (d : Dict), ((xs.map F).map Value.dict)[i]? = some v → (xs.map G)[i]? = some d → P i v d := by
  intro i v d hv hd
  simp only [List.getElem?_map, Option.map_eq_some_iff, Option.map_map] at hv hd
  obtain ⟨x, hx, rfl⟩ := hd
  obtain ⟨x', hx', rfl⟩ := hv
  obtain rfl : x = x' := Option.some.inj (hx.symm.trans hx')
  exact h x (List.mem_of_getElem? hx) i

/-- A loop over a list of structures that stay where they are. -/
theorem carries_wraps {α : Type} {var : String} {over : List String} {t : Tmpl} (key key' : String) {xs : List α} {F : α → Dict} (G : α → Dict)
    (hl : lookup env over = .ok (some (.list ((xs.map F).map .dict)))) (hne : xs ≠ [])
    (each : ∀ x ∈ xs, ∀ i, Inside lib n (loopEnv env var i (.dict (F x))) t key (G x))
    (stable : ∀ x ∈ xs, normalize lib n (G x) = .ok (G x)) (keeps : ∀ x ∈ xs, Keeps key' (G x))
    (hf : nestFacts key key' = true := by decide +kernel) :
    Carries lib n env (.loop var over [t]) key [key'] [(key', wrapDicts (xs.map G))] :=
  carries_wrap key' hl (by simp) (each_map each) (by simpa using stable) (by simpa using hne) (by simpa using keeps) hf

/-- A loop over a list of structures, in an element of their own. -/
theorem carries_list {α : Type} {outer : String} {attrs : List (String × String)} {var : String} {over : List String} {t : Tmpl} (okey okey' key key' : String)
    {xs : List α} {F : α → Dict} (G : α → Dict)
    (hl : lookup env over = .ok (some (.list ((xs.map F).map .dict)))) (hne : xs ≠ [])
    (each : ∀ x ∈ xs, ∀ i, Inside lib n (loopEnv env var i (.dict (F x))) t key (G x))
    (stable : ∀ x ∈ xs, normalize lib n (G x) = .ok (G x)) (keeps : ∀ x ∈ xs, Keeps key' (G x))
    (hf : nestFacts key key' = true := by decide +kernel) (h0 : localName outer = okey := by decide +kernel)
    (h2 : elemFacts attrs [(key, [key'])] = true := by decide +kernel) (hf' : nestFacts okey okey' = true := by decide +kernel)
    (hg : (decide (singular okey' = key') && decide (key' ≠ "duration") && decide (key' ≠ okey')) = true := by decide +kernel) :
    Carries lib (n + 1) env (el outer [.loop var over [t]] attrs) okey [okey'] [(okey', .list ((xs.map G).map .dict))] := by
  have := carries_plural okey' key' (inside_elem (.cons (carries_wraps key key' G hl hne each stable keeps hf) .nil) rfl (by simp) h0 h2) hf' hg
  rwa [asListV_wrap] at this

/-- A loop over a list of structures that are collected in a list. -/
theorem carries_collects {α : Type} {var : String} {over : List String} {t : Tmpl} (key key' key'' : String) {xs : List α} {F : α → Dict} (G : α → Dict)
    (hl : lookup env over = .ok (some (.list ((xs.map F).map .dict))))
    (each : ∀ x ∈ xs, ∀ i, Inside lib n (loopEnv env var i (.dict (F x))) t key (G x))
    (stable : ∀ x ∈ xs, normalize lib n (G x) = .ok (G x))
    (hf : pluralFacts key key' = true := by decide +kernel) (hs : key' ++ "s" = key'' := by decide +kernel) :
    Carries lib n env (.loop var over [t]) key [key''] (entry? key'' (dicts? (xs.map G))) := by
  by_cases hne : xs = []
  · subst hne
    exact carries_nothing key [key''] hl
  · have := carries_collect key' key'' hl (by simp) (each_map each) (by simpa using stable) (by simpa using hne) hf hs
    simpa [dicts?, hne, entry?] using this

/-! ### Responses -/

theorem carries_looseResponse (sound : lib.Sound) {r : LooseResponseP} (hr : r.Good lib) {name : String} {attrs attrs' : List (String × String)}
    (hl : Dict.get? env "response" = some (.dict r.dict)) (he : emptyFacts name attrs' "requestID" "request_id" = true := by decide +kernel)
    (hf : leafFacts name attrs "requestID" "request_id" = true := by decide +kernel) :
    Carries lib (n + 1) env (el "ei:eiResponse" [
      leaf "ei:responseCode" ["response", "response_code"], leaf "ei:responseDescription" ["response", "response_description"],
      .cond (.given ["response", "request_id"]) [leaf name ["response", "request_id"] .plain attrs] [.empty (.fixed name) attrs']])
      "eiResponse" ["response"] [("response", .dict r.received)] := by
  refine carries_dict "response" (inside_elem (.cons (carries_int sound "responseCode" "response_code" (i := r.code) ?_)
    (.cons (carries_text "responseDescription" "response_description" ?_ hr.description)
    (.cons (key := "requestID") (keys := ["request_id"]) (out := [("request_id", (text? r.requestId).getD .none)]) ?_ .nil))) (by simp [LooseResponseP.received])
    (by simp [LooseResponseP.received])) (by simp [LooseResponseP.received]) (by simp [LooseResponseP.received, Dict.has, Dict.get?])
  · lkd [LooseResponseP.dict, hl]
  · lkd [LooseResponseP.dict, hl]
  · have hlk : lookup env ["response", "request_id"] = .ok (text? r.requestId) := by lkd [LooseResponseP.dict, hl]
    cases h : r.requestId with
    | none =>
      rw [h] at hlk
      exact carries_no (surely_given hlk (by simp [text?])) (carries_empty "requestID" "request_id" he)
    | some x =>
      rw [h] at hlk
      exact carries_yes (surely_given hlk (by simp [text?])) (carries_text "requestID" "request_id" hlk (hr.requestId x h) (by decide +kernel) hf)

/-! ### Profiles -/

theorem settled_transport {t : String} (h : Ordinary lib t) : Settled lib 1 [("transport_name", .str t)] :=
  settled_of (.cons (settled_text 0 h) .nil)

theorem settled_profile {p : ProfileP} (h : p.Good lib) : Settled lib 2 p.dict :=
  settled_of (ks := ["profile_name", "transports"]) (.cons (settled_text 1 h.name) (.cons (settled_dicts (fun d hd => by
    simp only [List.mem_map] at hd
    obtain ⟨t, ht, rfl⟩ := hd
    exact settled_transport (h.transports t ht))) .nil))

theorem carries_profiles {ps : List ProfileP} (hne : ps ≠ []) (hp : ∀ p ∈ ps, p.Good lib)
    (hl : Dict.get? env "profiles" = some (.list ((ps.map ProfileP.dict).map .dict))) :
    Carries lib (n + 5) env (el "oadr:oadrProfiles" [
      .loop "profile" ["profiles"] [
        el "oadr:oadrProfile" [
          leaf "oadr:oadrProfileName" ["profile", "profile_name"],
          el "oadr:oadrTransports" [
            .loop "transport" ["profile", "transports"] [
              el "oadr:oadrTransport" [leaf "oadr:oadrTransportName" ["transport", "transport_name"]]]]]]])
      "oadrProfiles" ["profiles"] [("profiles", .list ((ps.map ProfileP.dict).map .dict))] := by
  refine carries_list (n := n + 4) "oadrProfiles" "profiles" "oadrProfile" "profile" (F := ProfileP.dict) ProfileP.dict (by simp [lookup, walk, hl]) hne (fun p hm i => ?_)
    (fun p hm => settled_profile (hp p hm) _ (by omega)) (fun p _ => .inl (by simp [ProfileP.dict, Dict.has, Dict.get?]))
  refine inside_elem (.cons (carries_text "oadrProfileName" "profile_name" (by lkd [ProfileP.dict]) (hp p hm).name)
    (.cons (carries_list "oadrTransports" "transports" "oadrTransport" "transport" (xs := p.transports) (F := fun t => [("transport_name", .str t)])
      (fun t => [("transport_name", .str t)]) (by lkd [ProfileP.dict]) (hp p hm).nonempty (fun t ht j => ?_)
      (fun t ht => settled_transport ((hp p hm).transports t ht) _ (by omega))
      (fun t _ => .inr ⟨_, _, rfl, by decide +kernel⟩)) .nil)) (by simp [ProfileP.dict]) (by simp [ProfileP.dict])
  exact inside_elem (.cons (carries_text "oadrTransportName" "transport_name" (by lk) ((hp p hm).transports t ht)) .nil) (by simp) (by simp)

/-! ### Report requests -/

theorem settled_period {p : PeriodP} : Settled lib 1 p.dict :=
  settled_of (ks := ["dtstart", "duration"]) (.cons (settled_other 0 (by simp [isLeaf])) (.cons (settled_duration 0) .nil))

theorem settled_span? {k : String} {d : Option Int} (m : Nat) (ht : durationKeys.contains k = true := by decide +kernel)
    (hf : steadyKey k = true := by decide +kernel) : ∀ x, span? d = some x → SettledEntry lib m k x := by
  intro x hx
  cases d with
  | none => simp [span?] at hx
  | some d =>
    simp only [span?, Option.map_some, Option.some.injEq] at hx
    subst hx
    exact settled_duration m ht hf

theorem settled_spanOther? {k : String} {d : Option Int} (m : Nat) (ht : durationKeys.contains k = false := by decide +kernel)
    (hf : steadyKey k = true := by decide +kernel) : ∀ x, span? d = some x → SettledEntry lib m k x := by
  intro x hx
  cases d with
  | none => simp [span?] at hx
  | some d =>
    simp only [span?, Option.map_some, Option.some.injEq] at hx
    subst hx
    exact settled_other m (by simp [isLeaf]) ht hf

theorem settled_text? {k : String} {s : Option String} (m : Nat) (h : ∀ x, s = some x → Ordinary lib x) (ht : textKey k = true := by decide +kernel)
    (hf : steadyKey k = true := by decide +kernel) : ∀ x, text? s = some x → SettledEntry lib m k x := by
  intro x hx
  cases s with
  | none => simp [text?] at hx
  | some s =>
    simp only [text?, Option.map_some, Option.some.injEq] at hx
    subst hx
    exact settled_text m (h s rfl) ht hf

theorem settled_int {k : String} {i : Int} (m : Nat) (ht : durationKeys.contains k = false := by decide +kernel)
    (hf : steadyKey k = true := by decide +kernel) : SettledEntry lib m k (.int i) := settled_other m (by simp [isLeaf]) ht hf

theorem settled_specifierPayload {p : String × String} (h : Ordinary lib p.1 ∧ Ordinary lib p.2) : Settled lib 1 (specifierPayload p) :=
  settled_of (ks := ["r_id", "reading_type"]) (.cons (settled_text 0 h.1) (.cons (settled_text 0 h.2) .nil))

theorem settled_specifier {r : ReportRequestP} (h : r.Good lib) : Settled lib 2 r.specifier := by
  have h1 : Settles lib 1 ["report_specifier_id", "granularity", "report_back_duration", "report_interval", "specifier_payloads"] r.specifier := by
    simp only [ReportRequestP.specifier, List.nil_append, List.cons_append, List.append_assoc]
    refine .cons (settled_text 1 h.specifierId) (.cons (settled_other 1 (by simp [isLeaf]))
      (.opt (settled_spanOther? 1) (.opt (fun x hx => ?_) (.cons (settled_dicts (fun d hd => ?_)) .nil))))
    · simp only [Option.map_eq_some_iff] at hx
      obtain ⟨i, -, rfl⟩ := hx
      exact settled_dict settled_period (.inl (by simp [PeriodP.dict, Dict.has, Dict.get?]))
    · simp only [List.mem_map] at hd
      obtain ⟨p, hp, rfl⟩ := hd
      exact settled_specifierPayload (h.payloads p hp)
  exact settled_of h1

theorem settled_reportRequest {r : ReportRequestP} (h : r.Good lib) : Settled lib 3 r.dict :=
  settled_of (ks := ["report_request_id", "report_specifier"]) (.cons (settled_text 2 h.requestId) (.cons (settled_dict (settled_specifier h)
    (.inl (by cases h1 : r.backDuration <;> cases h2 : r.interval <;>
                simp [ReportRequestP.specifier, Dict.has, Dict.get?, entry?, h1, h2, span?]))) .nil))

/-- `<x><properties>dtstart, duration</properties></x>` -/
theorem carries_period {name : String} (key key' : String) {path : List String} {p : PeriodP} (hp : p.Good)
    (h1 : lookup env (path ++ ["dtstart"]) = .ok (some (.datetime p.start))) (h2 : lookup env (path ++ ["duration"]) = .ok (some (.timedelta p.duration)))
    (h0 : localName name = key := by decide +kernel) (hf : nestFacts key key' = true := by decide +kernel)
    (hg : (decide ("properties" ≠ key') && decide ("properties" ≠ singular key')) = true := by decide +kernel) :
    Carries lib (n + 3) env (el name [el "xcal:properties" [
        el "xcal:dtstart" [leaf "xcal:date-time" (path ++ ["dtstart"]) .datetimeformat],
        el "xcal:duration" [leaf "xcal:duration" (path ++ ["duration"]) .timedeltaformat]]]) key [key'] [(key', .dict p.dict)] := by
  refine carries_properties key' (rest := []) (inside_elem (.cons (carries_dict "properties" (key := "properties") (d := p.dict) (inside_elem
    (.cons (carries_dateIn "dtstart" "dtstart" h1 hp.start) (.cons (carries_spanIn "duration" "duration" h2 hp.duration) .nil))
      (by simp [PeriodP.dict]) (by simp [PeriodP.dict])) (by simp [PeriodP.dict]) (by simp [PeriodP.dict, Dict.has, Dict.get?])) .nil)
      (by simp) (by simp) h0) (by simp) hf hg

theorem inside_reportRequest {r : ReportRequestP} (hr : r.Good lib) (hl : Dict.get? env "report_request" = some (.dict r.dict)) :
    Inside lib (n + 6) env tReportRequest "oadrReportRequest" r.dict := by
  refine inside_elem (.cons (carries_text "reportRequestID" "report_request_id" (s := r.requestId) (by lkd [hl, ReportRequestP.dict]) hr.requestId)
    (.cons (carries_dict "report_specifier" (key := "reportSpecifier") (d := r.specifier) (inside_elem
      (.cons (carries_text "reportSpecifierID" "report_specifier_id" (s := r.specifierId)
        (by lkd [hl, ReportRequestP.dict, ReportRequestP.specifier]) hr.specifierId)
      (.cons (carries_spanIn "granularity" "granularity" (us := r.granularity) (by lkd [hl, ReportRequestP.dict, ReportRequestP.specifier]) hr.granularity)
      (.cons (carries_opt (key := "reportBackDuration") (key' := "report_back_duration") (v := span? r.backDuration)
        (by lkd [hl, ReportRequestP.dict, ReportRequestP.specifier]) (fun y hy => ?_))
      (.cons (carries_opt (key := "reportInterval") (key' := "report_interval") (v := r.interval.map (fun i => .dict i.dict))
        (by lkd [hl, ReportRequestP.dict, ReportRequestP.specifier]) (fun y hy => ?_))
      (.cons (carries_collects "specifierPayload" "specifier_payload" "specifier_payloads" (xs := r.payloads) (F := specifierPayload) specifierPayload
        (by lkd [hl, ReportRequestP.dict, ReportRequestP.specifier]) (fun p hp i => ?_)
        (fun p hp => settled_specifierPayload (hr.payloads p hp) _ (by omega))) .nil)))))
      ?_ ?_) ?_ ?_) .nil)) ?_ ?_
  · simp only [span?, Option.map_eq_some_iff] at hy
    obtain ⟨d, hd, rfl⟩ := hy
    exact ⟨by simp, carries_spanIn "reportBackDuration" "report_back_duration" (by lkd [hl, ReportRequestP.dict, ReportRequestP.specifier, hd, span?])
      (hr.backDuration d hd)⟩
  · simp only [Option.map_eq_some_iff] at hy
    obtain ⟨i, hi, rfl⟩ := hy
    exact ⟨by simp, carries_period "reportInterval" "report_interval" (path := ["report_request", "report_specifier", "report_interval"]) (hr.interval i hi)
      (by lkd [hl, ReportRequestP.dict, ReportRequestP.specifier, hi, PeriodP.dict]) (by lkd [hl, ReportRequestP.dict, ReportRequestP.specifier, hi, PeriodP.dict])⟩
  · exact inside_elem (.cons (carries_text "rID" "r_id" (by lkd [specifierPayload]) (hr.payloads p hp).1)
      (.cons (carries_text "readingType" "reading_type" (by lkd [specifierPayload]) (hr.payloads p hp).2) .nil))
      (by simp [specifierPayload]) (by simp [specifierPayload])
  · simp [ReportRequestP.specifier, dicts?, hr.nonempty, entry?]
  · simp [ReportRequestP.specifier]
  · simp [ReportRequestP.specifier]
  · cases h1 : r.backDuration <;> cases h2 : r.interval <;>
      simp [ReportRequestP.specifier, Dict.has, Dict.get?, entry?, h1, h2, span?]
  · simp [ReportRequestP.dict]
  · simp [ReportRequestP.dict]

theorem carries_reportRequests {rs : List ReportRequestP} (hr : ∀ r ∈ rs, r.Good lib)
    (hl : Dict.get? env "report_requests" = some (.list ((rs.map ReportRequestP.dict).map .dict))) :
    Carries lib (n + 6) env (.loop "report_request" ["report_requests"] [tReportRequest]) "oadrReportRequest" ["report_requests"]
      (entry? "report_requests" (dicts? (rs.map ReportRequestP.dict))) :=
  carries_collects "oadrReportRequest" "report_request" "report_requests" (F := ReportRequestP.dict) ReportRequestP.dict (by simp [lookup, walk, hl])
    (fun r hm _ => inside_reportRequest (hr r hm) (by simp [loopEnv, Dict.get?])) (fun r hm => settled_reportRequest (hr r hm) _ (by omega))

/-! ### Answers to events -/

theorem settled_eventResponse {r : EventResponseP} (h : r.Good lib) : Settled lib 1 r.dict := by
  have h1 : Settles lib 0 ["response_code", "response_description", "request_id", "event_id", "modification_number", "opt_type"] r.dict :=
    .cons (settled_int 0) (.opt (settled_text? 0 h.description) (.cons (settled_text 0 h.requestId) (.cons (settled_text 0 h.eventId)
      (.cons (settled_int 0) (.cons (settled_text 0 h.optType) .nil)))))
  exact settled_of h1

theorem inside_eventResponse (sound : lib.Sound) {r : EventResponseP} (hr : r.Good lib) (hl : Dict.get? env "event_response" = some (.dict r.dict)) :
    Inside lib (n + 2) env (el "ei:eventResponse" [
              leaf "ei:responseCode" ["event_response", "response_code"],
              ifGiven ["event_response", "response_description"] [
                leaf "ei:responseDescription" ["event_response", "response_description"]],
              requestId ["event_response", "request_id"],
              el "ei:qualifiedEventID" [
                leaf "ei:eventID" ["event_response", "event_id"], leaf "ei:modificationNumber" ["event_response", "modification_number"]],
              leaf "ei:optType" ["event_response", "opt_type"]]) "eventResponse" r.dict := by
  refine inside_elem (.cons (carries_int sound "responseCode" "response_code" (i := r.code) ?_)
    (.cons (carries_text? "responseDescription" "response_description" ?_ hr.description)
    (.cons (carries_text "requestID" "request_id" ?_ hr.requestId)
    (.cons (carries_qualified sound (e := r.eventId) (m := r.modification) ?_ hr.eventId ?_)
    (.cons (carries_text "optType" "opt_type" ?_ hr.optType) .nil))))) (by simp [EventResponseP.dict]) (by simp [EventResponseP.dict])
  all_goals lkd [hl, EventResponseP.dict]

theorem carries_eventResponses (sound : lib.Sound) {rs : List EventResponseP} (hne : rs ≠ []) (hr : ∀ r ∈ rs, r.Good lib)
    (hl : Dict.get? env "event_responses" = some (.list ((rs.map EventResponseP.dict).map .dict))) :
    Carries lib (n + 3) env (el "ei:eventResponses" [
          .loop "event_response" ["event_responses"] [
            el "ei:eventResponse" [
              leaf "ei:responseCode" ["event_response", "response_code"],
              ifGiven ["event_response", "response_description"] [
                leaf "ei:responseDescription" ["event_response", "response_description"]],
              requestId ["event_response", "request_id"],
              el "ei:qualifiedEventID" [
                leaf "ei:eventID" ["event_response", "event_id"], leaf "ei:modificationNumber" ["event_response", "modification_number"]],
              leaf "ei:optType" ["event_response", "opt_type"]]]])
      "eventResponses" ["event_responses"] [("event_responses", .list ((rs.map EventResponseP.dict).map .dict))] :=
  carries_list (n := n + 2) "eventResponses" "event_responses" "eventResponse" "event_response" (F := EventResponseP.dict) EventResponseP.dict
    (by simp [lookup, walk, hl]) hne (fun r hm _ => inside_eventResponse sound (hr r hm) (by simp [loopEnv, Dict.get?]))
    (fun r hm => settled_eventResponse (hr r hm) _ (by omega)) (fun r _ => .inl (by
      cases h : r.description <;> simp [EventResponseP.dict, Dict.has, Dict.get?, entry?, h, text?]))

/-- `<x></x>`, where the contents vanish. -/
theorem carries_void {name : String} (key key' : String) {body : List Tmpl} {attrs : List (String × String)} (hb : sureAll lib env body = .ok [])
    (hf : emptyFacts name attrs key key' = true := by decide +kernel) :
    Carries lib n env (el name body attrs) key [key'] [(key', .none)] := by
  simp only [emptyFacts, Bool.and_eq_true, decide_eq_true_eq, Bool.not_eq_true'] at hf
  obtain ⟨⟨⟨⟨⟨f1, f2⟩, f3⟩, f4⟩, f5⟩, f6⟩ := hf
  refine carries_one .none ?_ (by simp) (appends_none lib _ key key' f2 f3 f4 f6) (by simp [Dict.keys])
  simp [el, sure, hb, sureKey, f1, elementValue, f5, charsOf, childDict, closeValue, strip]

theorem carries_createdResponse (sound : lib.Sound) {r : CreatedEventP} (hr : r.response.Good lib) :
    Carries lib (n + 1) r.dict (el "ei:eiResponse" [
        leaf "ei:responseCode" ["response", "response_code"], leaf "ei:responseDescription" ["response", "response_description"],
        .cond (.both (.neg (.given ["event_responses"])) (.given ["response", "request_id"]))
          [requestId ["response", "request_id"]] [el "requestID" [] [("xmlns", nsPyld)]]])
      "eiResponse" ["response"] [("response", .dict (match r.eventResponses with
        | none => r.response.received
        | some _ => { r.response with requestId := none }.received))] := by
  have hlk : lookup r.dict ["response", "request_id"] = .ok (text? r.response.requestId) := by lkd [CreatedEventP.dict, LooseResponseP.dict]
  have hle : lookup r.dict ["event_responses"] = .ok (r.eventResponses.map (fun l => .list ((l.map EventResponseP.dict).map .dict))) := by
    lkd [CreatedEventP.dict]
  have h2 : Carries lib n r.dict (.cond (.both (.neg (.given ["event_responses"])) (.given ["response", "request_id"]))
          [requestId ["response", "request_id"]] [el "requestID" [] [("xmlns", nsPyld)]]) "requestID" ["request_id"]
        [("request_id", match r.eventResponses with
          | none => (text? r.response.requestId).getD .none
          | some _ => .none)] := by
    cases he : r.eventResponses with
    | none =>
      rw [he] at hle
      cases h : r.response.requestId with
      | none =>
        rw [h] at hlk
        exact carries_no (by simp [surely, holds, hle, hlk, Except.map, text?]) (carries_blank "requestID" "request_id")
      | some x =>
        rw [h] at hlk
        exact carries_yes (by simp [surely, holds, hle, hlk, Except.map, text?])
          (carries_text "requestID" "request_id" hlk (hr.requestId x h))
    | some l =>
      rw [he] at hle
      exact carries_no (by simp [surely, holds, hle, Except.map]) (carries_blank "requestID" "request_id")
  refine carries_dict "response" (inside_elem (.cons (carries_int sound "responseCode" "response_code" (i := r.response.code) ?_)
    (.cons (carries_text "responseDescription" "response_description" ?_ hr.description) (.cons h2 .nil))) ?_ ?_) ?_ ?_
  · lkd [CreatedEventP.dict, LooseResponseP.dict]
  · lkd [CreatedEventP.dict, LooseResponseP.dict]
  · split <;> simp [LooseResponseP.received, text?]
  · split <;> simp [LooseResponseP.received]
  · split <;> simp [LooseResponseP.received]
  · split <;> simp [LooseResponseP.received, Dict.has, Dict.get?]

/-! ### Reports that are cancelled -/

theorem carries_cancel {r : CancelP} (hr : r.Good lib) (hl : Dict.get? env "cancel_report" = some (.dict r.dict)) :
    Carries lib (n + 1) env (el "oadr:oadrCancelReport" [
        leaf "pyld:requestID" ["cancel_report", "request_id"],
        .loop "report_request_id" ["cancel_report", "report_request_id"] [leaf "ei:reportRequestID" ["report_request_id"]],
        leaf "pyld:reportToFollow" ["cancel_report", "report_to_follow"] .booleanformat,
        ifTrue ["cancel_report", "ven_id"] [leaf "ei:venID" ["cancel_report", "ven_id"]]])
      "oadrCancelReport" ["cancel_report"] [("cancel_report", .dict r.received)] := by
  have htexts := carries_texts (lib := lib) (n := n) (env := env) (var := "report_request_id") (over := ["cancel_report", "report_request_id"])
    (t := leaf "ei:reportRequestID" ["report_request_id"]) (key := "reportRequestID") "report_request_id"
    (l := r.reportRequestIds.map .str) (ss := r.reportRequestIds) (by lkd [hl, CancelP.dict]) (by simp)
    (fun i x s hx hss => by
      simp only [List.getElem?_map, hss, Option.map_some, Option.some.injEq] at hx
      subst hx
      exact sure_text (by lk) (hr.reportRequestIds s (List.mem_of_getElem? hss)).toOnWire (by decide +kernel) (by decide +kernel))
    (fun s e => hr.reportRequestIds s (by simp [e]))
  refine carries_dict "cancel_report" (inside_elem (.cons (carries_text "requestID" "request_id" ?_ hr.requestId) (.cons htexts
    (.cons (carries_bool "reportToFollow" "report_to_follow" r.toFollow ?_) (.cons (carries_true "venID" "ven_id" (v := text? r.venId) ?_ (fun y hy => ?_)) .nil)))) ?_ ?_) ?_ ?_
  · lkd [hl, CancelP.dict]
  · lkd [hl, CancelP.dict]
  · lkd [hl, CancelP.dict]
  · refine ⟨wired_text? hr.venId (by decide +kernel) y hy, ?_⟩
    simp only [text?, Option.map_eq_some_iff] at hy
    obtain ⟨x, hx, rfl⟩ := hy
    simp [Value.truthy, (hr.venId x hx).notEmpty]
  · match h : r.reportRequestIds with
    | [] => simp [CancelP.received, h, entry?]
    | [s] => simp [CancelP.received, h, entry?, wrapTexts]
    | s :: s' :: ss => simp [CancelP.received, h, entry?, wrapTexts]
  · simp [CancelP.received]
  · simp [CancelP.received]
    omega
  · simp [CancelP.received, Dict.has, Dict.get?, Dict.get?_append, Dict.get?_entry?]

end Openleadr
