import Verif.Lemmas.Client
import Verif.Props.VenEvents
/-! Properties C49, C50, C51: polling and registration of the client. -/
namespace Openleadr

/-! ### C49: poll answers -/

theorem clientEvents_frame (w : World) (c : Client) (p : Payload) :
    ∃ ev ca lg, (clientEvents w c p).1 = { c with events := ev, calls := ca, log := lg } := by
  unfold clientEvents clientOnEvent
  split
  · split
    · exact ⟨c.events, c.calls, c.log, rfl⟩
    · split
      · exact ⟨_, _, c.log, rfl⟩
      · rw [send_fst]; exact ⟨_, _, _, rfl⟩
  · exact ⟨c.events, c.calls, c.log, rfl⟩

theorem reportsCreated_frame (w : World) (c : Client) (rs : List ReportRequest) :
    ∃ re sa, (reportsCreated w c rs).1 = { c with reporting := re, samples := sa } := by
  unfold reportsCreated
  split
  · exact ⟨_, _, rfl⟩
  · split <;> exact ⟨c.reporting, c.samples, rfl⟩

theorem clientRequests_frame (w : World) (c : Client) (p : Payload) :
    ∃ re sa lg, (clientRequests w c p).1 = { c with reporting := re, samples := sa, log := lg } := by
  unfold clientRequests
  split
  · rename_i rs _
    obtain ⟨re, sa, h⟩ := reportsCreated_frame w c rs
    unfold clientCreateReport
    split
    · rename_i d e hd; rw [hd] at h
      exact ⟨re, sa, c.log, h⟩
    · rename_i d m hd; rw [hd] at h
      have h' : d = { c with reporting := re, samples := sa } := h
      split
      · exact ⟨re, sa, c.log, h⟩
      · rw [send_fst, h']; exact ⟨re, sa, _, rfl⟩
  · exact ⟨c.reporting, c.samples, c.log, rfl⟩

theorem clientCancelReport_frame (w : World) (c : Client) (m : CancelReport) :
    ∃ re sa lg, (clientCancelReport w c m).1 = { c with reporting := re, samples := sa, log := lg } := by
  unfold clientCancelReport
  split
  · exact ⟨c.reporting, c.samples, c.log, rfl⟩
  · split
    · exact ⟨_, _, c.log, rfl⟩
    · exact ⟨_, _, c.log, rfl⟩
    · rw [send_fst]; exact ⟨_, _, _, rfl⟩

theorem onCancel_frame (w : World) (c : Client) (m : Dict) :
    ∃ rg re po lg, (onCancelPartyRegistration w c m).1 = { c with registrationId := rg, reporting := re, polling := po, log := lg } := by
  unfold onCancelPartyRegistration
  split
  · exact ⟨c.registrationId, c.reporting, c.polling, c.log, rfl⟩
  split
  · exact ⟨c.registrationId, c.reporting, c.polling, c.log, rfl⟩
  split
  · exact ⟨c.registrationId, c.reporting, c.polling, c.log, rfl⟩
  split
  · rw [request_fst]; exact ⟨c.registrationId, c.reporting, c.polling, _, rfl⟩
  · rename_i q _ _
    have h := request_fst w (forgetReports c) (.canceledRegistration 200 q c.venId c.registrationId)
    split
    · rename_i d e hd; rw [hd] at h
      exact ⟨c.registrationId, none, none, _, h⟩
    · rename_i d hd; rw [hd] at h
      have h' : d = _ := h
      rw [h']
      exact ⟨.none, none, none, _, rfl⟩

theorem registrationAnswer_frame (c : Client) (d : Dict) :
    ∃ ve rg fr, registrationAnswer c d = { c with venId := ve, registrationId := rg, pollFrequency := fr } := by
  unfold registrationAnswer
  simp only []
  split <;> split <;> exact ⟨_, _, _, rfl⟩

theorem createParty_frame (w : World) (c : Client) (r : Value) :
    ∃ ve rg fr lg, (createPartyRegistration w c r).1 = { c with venId := ve, registrationId := rg, pollFrequency := fr, log := lg } := by
  unfold createPartyRegistration
  split
  · exact ⟨_, _, _, _, rfl⟩
  · exact ⟨_, _, _, _, rfl⟩
  · rename_i t p _
    split
    · exact ⟨_, _, _, _, rfl⟩
    · split
      · exact ⟨_, _, _, _, rfl⟩
      · obtain ⟨ve, rg, fr, h⟩ := registrationAnswer_frame (perform w c (.register c.venId r)).1 p.fields
        exact ⟨ve, rg, fr, _, h⟩

theorem createParty_log (w : World) (c : Client) (r : Value) :
    (createPartyRegistration w c r).1.log = c.log ++ [(.register c.venId r, w.net c.log.length)] := by
  unfold createPartyRegistration
  split
  · rfl
  · rfl
  · rename_i t p _
    split
    · rfl
    · split
      · rfl
      · obtain ⟨ve, rg, fr, h⟩ := registrationAnswer_frame (perform w c (.register c.venId r)).1 p.fields
        simp only []
        rw [h]; rfl

theorem registerReports_frame (w : World) (c : Client) :
    ∃ re sa lg, (registerReports w c).1 = { c with reporting := re, samples := sa, log := lg } := by
  unfold registerReports
  split
  · exact ⟨c.reporting, c.samples, c.log, rfl⟩
  · rename_i s _
    split
    · exact ⟨c.reporting, c.samples, _, rfl⟩
    · rename_i t p _
      obtain ⟨re, sa, lg, h⟩ := clientRequests_frame w (perform w c (.registerReports c.venId s.reports)).1 p
      exact ⟨re, sa, lg, h⟩

theorem syncEvents_frame (w : World) (c : Client) :
    ∃ ev ca lg, (syncEvents w c).1 = { c with events := ev, calls := ca, log := lg } := by
  unfold syncEvents
  split
  · exact ⟨c.events, c.calls, _, rfl⟩
  · rename_i t p _
    obtain ⟨ev, ca, lg, h⟩ := clientEvents_frame w (perform w c (.requestEvent c.venId)).1 p
    exact ⟨ev, ca, lg, h⟩

theorem startWorker_frame (c : Client) : ∃ wo, startWorker c = { c with workers := wo } := by
  unfold startWorker
  split
  · split
    · exact ⟨c.workers, rfl⟩
    · exact ⟨_, rfl⟩
  · exact ⟨c.workers, rfl⟩

theorem reregister_opts (w : World) (c : Client) : (createPartyReregistration w c).1.opts = c.opts := by
  obtain ⟨ve, rg, fr, lg, h⟩ := createParty_frame w c c.registrationId
  unfold createPartyReregistration
  split
  · rename_i d e hd; rw [hd] at h
    have h' : d = _ := h
    rw [h']
  · rename_i d hd; rw [hd] at h
    have h' : d = _ := h
    split
    · obtain ⟨re, sa, lg2, h2⟩ := registerReports_frame w d
      split
      · rename_i d2 e hd2; rw [hd2] at h2
        have h2' : d2 = _ := h2
        rw [h2', h']
      · rename_i d2 hd2; rw [hd2] at h2
        have h2' : d2 = _ := h2
        obtain ⟨wo, h3⟩ := startWorker_frame d2
        obtain ⟨ev, ca, lg3, h4⟩ := syncEvents_frame w (startWorker d2)
        rw [h4, h3, h2', h']
    · rw [h']; rfl

/-- The parsed answer that the next poll gets. -/
def Polls (w : World) (c : Client) (t : String) (p : Payload) : Prop := w.net c.log.length = some (some t, p) ∧ readable (some (some t, p)) = true

theorem clientPoll_eq {w : World} {c : Client} {t : String} {p : Payload} (h : Polls w c t p) :
    clientPoll w c = actOnPoll w (perform w c (.poll c.venId)).1 t p := by
  have : unpack (perform w c (.poll c.venId)).2 = .ok (some t, p) := by
    show unpack (checkAnswer (w.net c.log.length)) = _
    rcases unpack_check (w.net c.log.length) with ⟨x, hx, _, hu⟩ | ⟨hr, _⟩
    · rw [h.1] at hx; cases hx; rw [hu]
    · rw [h.1, h.2] at hr; cases hr
  unfold clientPoll
  rw [this]

/-- **C49**: a poll answer changes only the part of the client that its type is about: events for an event message, reports for report requests and their
    cancellation, the registration for its cancellation, anything but opts for a re-registration, and nothing for every other type. -/
theorem c49_parts (w : World) (c : Client) (t : String) (p : Payload) (h : Polls w c t p) (part : Part) (hp : part ∉ mayChange t) :
    part.same c (clientPoll w c).1 := by
  rw [clientPoll_eq h]
  generalize hd : (perform w c (.poll c.venId)).1 = d
  have hsame : ∀ q : Part, q.same c d := by
    intro q; subst hd; cases q <;> simp [Part.same, perform]
  suffices hs : part.same d (actOnPoll w d t p).1 by
    have := hsame part
    cases part <;> simp only [Part.same] at hs this ⊢ <;> grind
  have refl : part.same d d := by cases part <;> simp [Part.same]
  unfold actOnPoll
  split
  · exact refl
  split
  · rename_i ht; subst ht
    have : part = .opts := by cases part <;> simp_all [mayChange]
    subst this
    simp only [Part.same]
    split
    · rename_i e1 e2 he
      have := congrArg Prod.fst he
      rw [send_fst] at this
      rw [← this]; rfl
    · rename_i e1 he
      have := congrArg Prod.fst he
      rw [send_fst] at this
      rw [reregister_opts]
      exact (congrArg Client.opts this : _ = e1.opts)
  split
  · rename_i ht; subst ht
    obtain ⟨ev, ca, lg, hf⟩ := clientEvents_frame w d p
    rw [hf]
    cases part <;> simp_all [mayChange, Part.same]
  split
  · exact refl
  split
  · rename_i ht; subst ht
    obtain ⟨re, sa, lg, hf⟩ := clientRequests_frame w d p
    rw [hf]
    cases part <;> simp_all [mayChange, Part.same]
  split
  · split
    · exact refl
    · rw [request_fst]
      cases part <;> simp [Part.same, perform]
  split
  · rename_i ht; subst ht
    obtain ⟨rg, re, po, lg, hf⟩ := onCancel_frame w d p.fields
    rw [hf]
    cases part <;> simp_all [mayChange, Part.same]
  split
  · rename_i ht; subst ht
    split
    · rename_i m _
      obtain ⟨re, sa, lg, hf⟩ := clientCancelReport_frame w d m
      rw [hf]
      cases part <;> simp_all [mayChange, Part.same]
    · exact refl
  · exact refl

/-- **C49**: after the poll itself, only messages that belong to the type of the answer are sent: each at most once and in the given order. -/
theorem c49_sends (w : World) (c : Client) (t : String) (p : Payload) (h : Polls w c t p) :
    ∃ new, (clientPoll w c).1.log = c.log ++ (.poll c.venId, some (some t, p)) :: new ∧ (new.map (fun x => x.1.kind)).Sublist (maySend t) := by
  rw [clientPoll_eq h]
  obtain ⟨new, h1, h2, _⟩ := (actOnPoll_sends w (perform w c (.poll c.venId)).1 t p).sent
  refine ⟨new, ?_, h2⟩
  rw [h1]
  simp [perform, h.1]

/-- **C49**: an empty response, and a message of any type that is none of the known ones, causes no action: the poll itself is all that is recorded. -/
theorem c49_no_action (w : World) (c : Client) (t : String) (p : Payload) (h : Polls w c t p)
    (ht : t ∉ ["oadrRequestReregistration", "oadrDistributeEvent", "oadrUpdateReport", "oadrCreateReport", "oadrRegisterReport",
      "oadrCancelPartyRegistration", "oadrCancelReport"]) :
    clientPoll w c = ({ c with log := c.log ++ [(.poll c.venId, some (some t, p))] }, .ok ()) := by
  rw [clientPoll_eq h]
  simp only [List.mem_cons, List.not_mem_nil, or_false, not_or] at ht
  unfold actOnPoll
  simp only [ht, if_false, ite_self, perform, h.1]

/-- **C49**: an exchange that failed (no connection, an error status, an unreadable message) causes no action either. -/
theorem c49_failed (w : World) (c : Client) (h : w.net c.log.length = some (none, noPayload)) :
    clientPoll w c = ({ c with log := c.log ++ [(.poll c.venId, some (none, noPayload))] }, .ok ()) := by
  have : unpack (perform w c (.poll c.venId)).2 = .ok (none, noPayload) := by
    show unpack (checkAnswer (w.net c.log.length)) = _
    rw [h]; rfl
  unfold clientPoll
  rw [this]
  simp [perform, h]

/-- **C49**: a non-empty list of events is given to the event handling, and the responses it produces, and nothing else, are sent. -/
theorem c49_events (w : World) (c : Client) (p : Payload) (m : EventMessage) (h : Polls w c "oadrDistributeEvent" p) (hm : p.events = some m)
    (hne : m.events ≠ []) :
    ∃ ev ca out, onEventMessage w.handlers (w.clock (c.log.length + 1)) c.calls c.events m = (ev, ca, out) ∧
      (clientPoll w c).1.events = ev ∧ (clientPoll w c).1.calls = ca ∧
      (clientPoll w c).1.log.map Prod.fst = c.log.map Prod.fst ++ .poll c.venId :: (out.map (Outgoing.createdEvent c.venId)).toList := by
  rw [clientPoll_eq h]
  have hlen : (perform w c (.poll c.venId)).1.log.length = c.log.length + 1 := by simp [perform]
  show ∃ ev ca out, _ ∧ (clientEvents w _ p).1.events = ev ∧ (clientEvents w _ p).1.calls = ca ∧ (clientEvents w _ p).1.log.map Prod.fst = _
  unfold clientEvents
  rw [hm]
  simp only [hne, if_false]
  unfold clientOnEvent
  rw [hlen]
  split
  · rename_i ev ca he
    exact ⟨ev, ca, none, he, rfl, rfl, by simp [perform]⟩
  · rename_i ev ca out he
    rw [send_fst]
    exact ⟨ev, ca, some out, he, rfl, rfl, by simp [perform]⟩

/-- **C49**: report requests are given to the report handling (for a VEN that still has its reports). -/
theorem c49_requests (w : World) (c : Client) (p : Payload) (rs : List ReportRequest) (s : VenReports)
    (h : Polls w c "oadrCreateReport" p) (hr : p.requests = some rs) (hs : c.reporting = some s) :
    ∃ s' sa reply, createReport (w.user (c.log.length + 1)) (w.now (c.log.length + 1)) s rs = (s', sa, reply) ∧
      (clientPoll w c).1.reporting = some s' ∧ (clientPoll w c).1.samples = c.samples ++ sa ∧
      ∀ m q, reply = .ok m → Dict.get? p.fields "request_id" = some q →
        (clientPoll w c).1.log.map Prod.fst = c.log.map Prod.fst ++ [.poll c.venId, .createdReport c.venId m q] := by
  rw [clientPoll_eq h]
  have hlen : (perform w c (.poll c.venId)).1.log.length = c.log.length + 1 := by simp [perform]
  have hs' : (perform w c (.poll c.venId)).1.reporting = some s := hs
  show ∃ s' sa reply, _ ∧ (clientRequests w _ p).1.reporting = some s' ∧ (clientRequests w _ p).1.samples = _ ∧
    ∀ m q, _ → _ → (clientRequests w _ p).1.log.map Prod.fst = _
  unfold clientRequests
  rw [hr]
  unfold clientCreateReport reportsCreated
  rw [hs', hlen]
  simp only []
  generalize createReport (w.user (c.log.length + 1)) (w.now (c.log.length + 1)) s rs = r
  obtain ⟨s', sa, reply⟩ := r
  refine ⟨s', sa, reply, rfl, ?_⟩
  cases reply with
  | error e => exact ⟨rfl, rfl, by intro m q hm; cases hm⟩
  | ok m =>
    simp only []
    split
    · rename_i e hq
      refine ⟨rfl, rfl, ?_⟩
      intro m q _ hq2
      simp [requestIdOf, hq2] at hq
    · rename_i q hq
      rw [send_fst]
      refine ⟨rfl, rfl, ?_⟩
      intro m q2 hm hq2
      cases hm
      simp only [requestIdOf, hq2, Except.ok.injEq] at hq
      subst hq
      simp [perform]

/-- **C49**: a cancellation of a report is given to the report handling. -/
theorem c49_cancel_report (w : World) (c : Client) (p : Payload) (m : CancelReport) (s : VenReports)
    (h : Polls w c "oadrCancelReport" p) (hr : p.cancel = some m) (hs : c.reporting = some s) :
    ∃ s' sa reply, cancelReport (w.user (c.log.length + 1)) (w.user' (c.log.length + 1)) (w.now (c.log.length + 1)) (w.now' (c.log.length + 1)) s m =
        (s', sa, reply) ∧ (clientPoll w c).1.reporting = some s' ∧ (clientPoll w c).1.samples = c.samples ++ sa ∧
      ∀ o, reply = .ok o →
        (clientPoll w c).1.log.map Prod.fst = c.log.map Prod.fst ++ .poll c.venId :: (o.map (Outgoing.canceledReport c.venId)).toList := by
  rw [clientPoll_eq h]
  have hlen : (perform w c (.poll c.venId)).1.log.length = c.log.length + 1 := by simp [perform]
  have hs' : (perform w c (.poll c.venId)).1.reporting = some s := hs
  have hact : actOnPoll w (perform w c (.poll c.venId)).1 "oadrCancelReport" p = clientCancelReport w (perform w c (.poll c.venId)).1 m := by
    simp [actOnPoll, hr]
  rw [hact]
  unfold clientCancelReport
  rw [hs', hlen]
  simp only []
  generalize cancelReport (w.user (c.log.length + 1)) (w.user' (c.log.length + 1)) (w.now (c.log.length + 1)) (w.now' (c.log.length + 1)) s m = r
  obtain ⟨s', sa, reply⟩ := r
  refine ⟨s', sa, reply, rfl, ?_⟩
  cases reply with
  | error e => exact ⟨rfl, rfl, by intro o ho; cases ho⟩
  | ok o =>
    cases o with
    | none => exact ⟨rfl, rfl, by intro o ho; cases ho; simp [perform]⟩
    | some reply =>
      simp only [send_fst]
      exact ⟨rfl, rfl, by intro o ho; cases ho; simp [perform]⟩

/-- **C49**: a request to register again is acknowledged, and then the VEN registers with the ids it has. -/
theorem c49_reregister (w : World) (c : Client) (p : Payload) (h : Polls w c "oadrRequestReregistration" p)
    (hok : ∃ x, checkAnswer (w.net (c.log.length + 1)) = .ok x) :
    ∃ rest, (clientPoll w c).1.log.map Prod.fst =
      c.log.map Prod.fst ++ .poll c.venId :: .response c.venId :: .register c.venId c.registrationId :: rest := by
  rw [clientPoll_eq h]
  generalize hd : (perform w c (.poll c.venId)).1 = d
  have hlog : d.log = c.log ++ [(.poll c.venId, w.net c.log.length)] := by rw [← hd]; rfl
  have hv : d.venId = c.venId := by rw [← hd]; rfl
  have hr : d.registrationId = c.registrationId := by rw [← hd]; rfl
  obtain ⟨x, hx⟩ := hok
  have hsend : send w d (.response d.venId) = ((perform w d (.response d.venId)).1, .ok ()) := by
    unfold send
    have : (perform w d (.response d.venId)).2 = .ok x := by
      show checkAnswer (w.net d.log.length) = _
      rw [hlog]; simpa using hx
    split
    · rename_i e1 e2 he; rw [he] at this; cases this
    · rename_i e1 a he; rw [he]
  have hact : actOnPoll w d "oadrRequestReregistration" p = createPartyReregistration w (perform w d (.response d.venId)).1 := by
    simp [actOnPoll, hsend]
  rw [hact]
  generalize hd2 : (perform w d (.response d.venId)).1 = d2
  have hlog2 : d2.log.map Prod.fst = c.log.map Prod.fst ++ [.poll c.venId, .response c.venId] := by
    rw [← hd2]; simp [perform, hlog, hv]
  have hv2 : d2.venId = c.venId := by rw [← hd2]; exact hv
  have hr2 : d2.registrationId = c.registrationId := by rw [← hd2]; exact hr
  -- the first message of the registration
  have hfirst := createParty_log w d2 d2.registrationId
  have key : ∀ e : Client, ∀ k, Sends (createPartyRegistration w d2 d2.registrationId).1 e k →
      ∃ rest, e.log.map Prod.fst = c.log.map Prod.fst ++ .poll c.venId :: .response c.venId :: .register c.venId c.registrationId :: rest := by
    intro e k hs
    obtain ⟨new, h1, _, _⟩ := hs.sent
    refine ⟨new.map Prod.fst, ?_⟩
    rw [h1, hfirst, List.map_append, List.map_append, hlog2, hv2, hr2]
    simp
  unfold createPartyReregistration
  split
  · rename_i e1 e2 he
    refine key e1 [] ?_
    rw [he]; exact Sends.rfl' e1
  · rename_i e1 he
    rw [he] at key
    split
    · split
      · rename_i e2 e3 he2
        have := registerReports_sends w e1
        rw [he2] at this
        exact key e2 _ this
      · rename_i e2 he2
        have := registerReports_sends w e1
        rw [he2] at this
        exact key _ _ ((this.trans (startWorker_sends e2)).trans (syncEvents_sends w _))
    · exact key _ [] (Sends.quiet rfl rfl)

/-- A world in which the `n`-th message gets the `n`-th of the given answers, and later ones an empty response. -/
def okResponse : Payload := ⟨[("response", .dict [("response_code", .int 200), ("response_description", .str "OK"), ("request_id", .str "q")])], none, none, none⟩
def worldOf (answers : List Answer) : World :=
  ⟨fun n => (answers[n]?).getD (some (some "oadrResponse", okResponse)), ⟨fun _ _ => .ok (.str "optIn"), fun _ _ _ => .ok (.str "optIn")⟩,
   fun _ _ => 0, fun _ _ => .number (.int 1), fun _ _ => .number (.int 1), fun _ => 0, fun _ => 0⟩
/-- The answer to a registration. -/
def registered (venId registrationId : String) (freq : Int) : Payload :=
  ⟨[("response", .dict [("response_code", .int 200), ("response_description", .str "OK"), ("request_id", .str "q")]), ("ven_id", .str venId),
    ("registration_id", .str registrationId), ("requested_oadr_poll_freq", .timedelta freq)], none, none, none⟩

/-- **C49, refuted** for a reply with an empty body: the result of the exchange is `None`, which cannot be taken apart, so the poll raises `TypeError`;
    when it is the first one, the start of the VEN is abandoned and polling is never set up. -/
theorem c49_empty_body_violated :
    (∀ w c, w.net c.log.length = none → (clientPoll w c).2 = .error .typeError) ∧
    (∃ w, (runClient w (newClient .none)).2 = .error .typeError ∧ (runClient w (newClient .none)).1.polling = none ∧
      (runClient w (newClient .none)).1.registrationId = .str "r1") := by
  constructor
  · intro w c h
    have : unpack (perform w c (.poll c.venId)).2 = .error .typeError := by
      show unpack (checkAnswer (w.net c.log.length)) = _
      rw [h]; rfl
    unfold clientPoll
    rw [this]
  · refine ⟨worldOf [some (some "oadrCreatedPartyRegistration", okResponse), some (some "oadrCreatedPartyRegistration", registered "v1" "r1" 10000000),
      some (some "oadrRegisteredReport", okResponse), some (some "oadrDistributeEvent", okResponse), none], ?_⟩
    decide +kernel

/-- **C49, refuted** for a report sent by the VTN: the client calls a method that does not exist, so the poll raises `AttributeError`. -/
theorem c49_update_report_violated (w : World) (c : Client) (p : Payload) (h : Polls w c "oadrUpdateReport" p) :
    (clientPoll w c).2 = .error .attributeError := by
  rw [clientPoll_eq h]
  simp [actOnPoll]

/-- **C49, refuted** for an answer with an error code and no description (the description is optional): the error is to be logged, but its description is looked
    up first, so that the poll raises `KeyError` and whatever the answer asks for is not done. -/
theorem c49_no_description_violated :
    ∃ (p : Payload) (m : EventMessage), p.events = some m ∧ m.events ≠ [] ∧ codeOf p = some (.int 452) ∧
      ∀ w c, w.net c.log.length = some (some "oadrDistributeEvent", p) →
        (clientPoll w c).2 = .error .keyError ∧ (clientPoll w c).1.calls = c.calls := by
  refine ⟨⟨[("response", .dict [("response_code", .int 452), ("request_id", .str "q")])], some ⟨.str "VTN", .str "q", [venEvent "e" 0]⟩, none, none⟩, _, rfl, by simp, by decide +kernel, ?_⟩
  intro w c h
  have : unpack (perform w c (.poll c.venId)).2 = .error .keyError := by
    show unpack (checkAnswer (w.net c.log.length)) = _
    rw [h]; rfl
  unfold clientPoll
  rw [this]
  exact ⟨rfl, rfl⟩

end Openleadr
