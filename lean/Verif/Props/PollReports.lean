import Verif.Props.PollCancels
import Verif.Props.RegisterExchange
import Verif.Props.VenRequests
/-! Property C95 for reports that the VTN asks for in the answer to a poll. -/
namespace Openleadr

variable {S : Type}

/-- What a VTN sends for a handler that returns nothing, as it is received (vtn_service.py:180-189). -/
def settled (ven : String) : Dict :=
  [("response", .dict [("response_code", .int 200), ("response_description", .str "OK"), ("request_id", .none)]), ("ven_id", .str ven)]

/-- The answer without content to a message that has no id of its own. -/
theorem answer_settled {lib : Lib} {now : Int} {c : Config} {m : Dict} {ven : String} (sound : lib.Sound) (hm : Dict.get? m "ven_id" = some (.str ven))
    (hid : Dict.get? m "request_id" = none) (hven : Ordinary lib ven) : Received lib now "oadrResponse" (c.answers m []) (settled ven) := by
  have harr := c67_response_arrives (now := now) sound (r := ⟨200, "OK", none⟩) ⟨ordinary_OK sound, by simp⟩ hven
  have e : settled ven = [("response", .dict (LooseResponseP.received ⟨200, "OK", none⟩)), ("ven_id", .str ven)] := by
    simp [settled, LooseResponseP.received, text?]
  rw [e]
  refine received_agree (t := tResponse) (by rfl) (fun j hj => ?_) (harr [("response", .dict [("request_id", .none), ("response_code", .int 200),
    ("response_description", .str "OK")]), ("ven_id", .str ven)] ?_)
  · have hr : tResponse.reads.all (fun j => j == "response" || j == "ven_id") = true := by decide +kernel
    have := List.all_eq_true.mp hr j hj
    simp only [Bool.or_eq_true, beq_iff_eq] at this
    rw [Config.answers, completed_get]
    rcases this with rfl | rfl <;> simp [Dict.get?, hm, hid, Value.truthy]
  · refine conforms_entries (ks := ["response", "ven_id"]) rfl (by decide) (within_cons (within_cons (within_nil _))) ?_
    refine all_cons (.inl ⟨.dict (LooseResponseP.dict ⟨200, "OK", none⟩), ?_, ?_⟩) (all_cons (.inl ⟨.str ven, ?_, .same _⟩) all_nil)
    · simp [Dict.get?]
    · refine conforms_entries (ks := ["request_id", "response_code", "response_description"]) rfl (by decide)
        (by simp [LooseResponseP.dict, text?, entry?]; exact within_cons (within_cons (within_nil _))) ?_
      refine all_cons (.inr ⟨?_, rfl, by decide⟩) (all_cons (accounted_as (v := some _) ?_) (all_cons (accounted_as (v := some _) ?_) all_nil)) <;>
        simp [LooseResponseP.dict, Dict.get?, text?, entry?]
    · simp [Dict.get?]

/-- The handler takes note of a message that has no id of its own, and returns nothing. -/
theorem noted_exchanged {k : Link} {c : Config} {svc : Service S} {cache : NonceCache} {st st' : S} {secure : Bool} {peer : Option String} {ven type : String}
    {p m : Dict} {h : S → Dict → S × Except Exn Returned} (sound : k.lib.Sound) (hs : Received k.lib k.clientNow type p m)
    (hm : Dict.get? m "ven_id" = some (.str ven)) (hid : Dict.get? m "request_id" = none) (hven : Ordinary k.lib ven)
    (hn : Dict.get? m "vtn_id" = none) (ht : type ≠ "oadrResponse" ∧ type ≠ "oadrCreatePartyRegistration") (hin : LetsIn k c secure peer cache ven)
    (hval : ∀ txt, createMessage k.lib k.clientNow type p = .ok txt → ∃ tree, c.validate (String.ofList txt) = .ok tree)
    (hh : Dict.get? svc.handlers type = some h) (hr : h st m = (st', .ok .nothing))
    (hacc : ∀ txt, createMessage k.lib k.serverNow "oadrResponse" (c.answers m []) = .ok txt → k.accepts (String.ofList txt) = true) :
    exchange k c svc cache st secure peer type p = ((cache, st'), .ok (some (some "oadrResponse", settled ven))) := by
  have hrec := answer_settled (now := k.serverNow) (c := c) sound hm hid hven
  refine exchange_answered hs (fun txt h1 h2 => ?_) hrec hacc
  obtain ⟨tree, hv⟩ := hval txt h1
  have hw : withPeer secure peer type m = m := by simp [withPeer, ht.2]
  have hmsg : handleMessage c svc st type (withPeer secure peer type m) = (st', .ok ("oadrResponse", finishPayload c m [])) := by
    rw [hw]
    simp only [handleMessage, hh, hr]
  rw [handle_passed hv h2 ht.1 (by simp [hn]) (hin.known _ _ hm) (hin.authentic txt tree _ hv hm) hmsg, hw]
  rfl

/-- The handler raises something that is not a protocol error: the VEN gets an answer without content. -/
theorem failed_exchanged {k : Link} {c : Config} {svc : Service S} {cache : NonceCache} {st st' : S} {secure : Bool} {peer : Option String} {ven type : String}
    {p m : Dict} {e : Err} {h : S → Dict → S × Except Exn Returned} (hs : Received k.lib k.clientNow type p m) (hm : Dict.get? m "ven_id" = some (.str ven))
    (hn : Dict.get? m "vtn_id" = none) (ht : type ≠ "oadrResponse" ∧ type ≠ "oadrCreatePartyRegistration") (hin : LetsIn k c secure peer cache ven)
    (hval : ∀ txt, createMessage k.lib k.clientNow type p = .ok txt → ∃ tree, c.validate (String.ofList txt) = .ok tree)
    (hh : Dict.get? svc.handlers type = some h) (hr : h st m = (st', .error (.other e))) :
    exchange k c svc cache st secure peer type p = ((cache, st'), .ok (some (none, []))) := by
  obtain ⟨txt, h1, h2⟩ := hs
  obtain ⟨tree, hv⟩ := hval txt h1
  have hw : withPeer secure peer type m = m := by simp [withPeer, ht.2]
  have hmsg : handleMessage c svc st type (withPeer secure peer type m) = (st', .error (.other e)) := by
    rw [hw]
    simp only [handleMessage, hh, hr]
  have := handle_raised (now := k.serverNow) hv h2 ht.1 (by simp [hn]) (hin.known _ _ hm) (hin.authentic txt tree _ hv hm) hmsg
  simp only [exchange, h1]
  rw [show (⟨some "application/xml", secure, peer, String.ofList txt⟩ : Request) = requestOf secure peer txt from rfl, this]
  simp [clientReads]

/-! ### Requested reports -/

/-- The requests as the VEN receives them. -/
def orderReceived (id ven : String) (out : List RequestOut) : Dict :=
  [("request_id", .str id), ("report_requests", .list (((out.map wireRequest).map ReportRequestP.dict).map .dict)), ("ven_id", .str ven)]

theorem order_answered {lib : Lib} {now : Int} {c : Config} {ven : String} {u : Dict} {v : Value} {out : List RequestOut} (hven : Ordinary lib ven) (hid : Ordinary lib c.newId)
    (ho : ∀ q ∈ out, q.Sendable lib) (hne : out ≠ []) (h1 : Dict.get? u "report_requests" = some v)
    (hc : Conforms v (.list (((out.map wireRequest).map ReportRequestP.dict).map .dict)))
    (h2 : Dict.get? u "ven_id" = none ∨ Dict.get? u "ven_id" = some (.str ven)) (h3 : Dict.get? u "report_request" = none)
    (h4 : Dict.get? u "specifier_payload" = none) :
    Received lib now "oadrCreateReport" (c.answers (pollMessage ven) u) (orderReceived c.newId ven out) := by
  have hg : ∀ r ∈ out.map wireRequest, r.Good lib := fun x hx => by
    obtain ⟨q, hq, rfl⟩ := List.mem_map.mp hx
    exact good_wireRequest (ho q hq)
  have hr := c67_create_report (now := now) hid hven hg (by simpa using hne) [("request_id", .str c.newId), ("report_requests", v), ("ven_id", .str ven)] (by
    refine conforms_entries (ks := ["request_id", "report_requests", "ven_id"]) rfl (by decide) (within_cons (within_cons (within_cons (within_nil _)))) ?_
    refine all_cons (.inl ⟨_, ?_, .same _⟩) (all_cons (.inl ⟨_, ?_, hc⟩) (all_cons (.inl ⟨_, ?_, .same _⟩) all_nil)) <;> simp [Dict.get?])
  refine received_agree (t := tCreateReport) (by rfl) (fun j hj => ?_) hr
  have hr : tCreateReport.reads.all (fun j => j == "request_id" || j == "report_requests" || j == "ven_id" || j == "report_request" || j == "specifier_payload") = true := by
    decide +kernel
  have := List.all_eq_true.mp hr j hj
  simp only [Bool.or_eq_true, beq_iff_eq] at this
  rw [answers_get c u ven hven.notEmpty h2]
  rcases this with (((rfl | rfl) | rfl) | rfl) | rfl <;> simp [Dict.get?, h1, h3, h4]

/-- What the VEN reads in it. -/
theorem order_read {lib : Lib} {id ven : String} {out : List RequestOut} (ho : ∀ q ∈ out, q.Sendable lib) :
    (Payload.parsed (orderReceived id ven out)).requests = some (out.map RequestOut.asked) := by
  have := read_requests ho
  have hg : Dict.get? (orderReceived id ven out) "report_requests" = some (.list (((out.map wireRequest).map ReportRequestP.dict).map .dict)) := by
    simp [orderReceived, Dict.get?]
  simp only [Payload.parsed, readRequests, hg, Option.bind_some, Value.list?, this]

/-- The confirmation as the VTN receives it. -/
def confirmation (code : Nat) (id ven : String) (ids : List String) : Dict :=
  [("response", responseOf code (.str id)), ("pending_reports", pendingP ids), ("ven_id", .str ven)]

theorem confirmation_received {lib : Lib} {now : Int} (sound : lib.Sound) {code : Nat} {id ven : String} {ids : List String} (hid : Ordinary lib id)
    (hv : Ordinary lib ven) (hi : ∀ x ∈ ids, Ordinary lib x) :
    Received lib now "oadrCreatedReport" ((⟨code, ids.map Value.str⟩ : CreatedReport).payload (.str id) (.str ven)) (confirmation code id ven ids) := by
  have hp : PendingIds lib ids := ⟨fun x h => (hi x h).toOnWire, fun x h => .inl (hi x (by simp [h]))⟩
  have h := c67_created_report (now := now) sound (r := ⟨code, if code = 200 then "OK" else "ERROR", id⟩) (ven := some ven)
    ⟨ordinary_described sound code, hid⟩ hp (fun x hx => by cases hx; exact hv) _ (conforms_confirmation sound)
  have e : [("response", .dict (ResponseP.dict ⟨code, if code = 200 then "OK" else "ERROR", id⟩)), ("pending_reports", pendingP ids)] ++
      entry? "ven_id" (text? (some ven)) = confirmation code id ven ids := by
    simp [confirmation, responseOf, ResponseP.dict, text?, entry?]
  rw [e] at h
  exact h

/-- What a VTN does that wants reports: it says so in its answer to the poll, with its own classes or with dicts, and its handler for the confirmation makes `st'` of
    the state; the ids and the intervals are ordinary. -/
structure Orders (k : Connection S) (x : Serving S) (st : S) (n : Nat) (ven : String) (out : List RequestOut) (u : Dict) : Prop where
  through : k.Through x.1 ven n
  through' : k.Through x.1 ven (n + 1)
  requests : ∀ q ∈ out, q.Sendable (k.link n).lib
  some : out ≠ []
  ids : ∀ q ∈ out, Ordinary (k.link (n + 1)).lib q.requestId
  newId : Ordinary (k.link n).lib k.config.newId
  newId' : Ordinary (k.link (n + 1)).lib k.config.newId
  poll : ∃ h, Dict.get? (k.service "OadrPoll").handlers "oadrPoll" = .some h ∧ h x.2 (pollMessage ven) = (st, .ok (.pair "oadrCreateReport" (.dict u)))
  what : ∃ v, Dict.get? u "report_requests" = .some v ∧ Conforms v (.list (((out.map wireRequest).map ReportRequestP.dict).map .dict))
  whom : Dict.get? u "ven_id" = none ∨ Dict.get? u "ven_id" = .some (.str ven)
  else' : Dict.get? u "report_request" = none ∧ Dict.get? u "specifier_payload" = none
  valid : k.Valid n "oadrPoll" (pollMessage ven) "oadrCreateReport" (k.config.answers (pollMessage ven) u)
  valid' : ∀ code, k.Valid (n + 1) "oadrCreatedReport" ((⟨code, (out.map RequestOut.requestId).map Value.str⟩ : CreatedReport).payload (.str k.config.newId) (.str ven))
    "oadrResponse" (k.config.answers (confirmation code k.config.newId ven (out.map RequestOut.requestId)) [])

/-- The poll that is answered by the requests. -/
theorem ordered_polled {k : Connection S} {x : Serving S} {st : S} {n : Nat} {ven : String} {out : List RequestOut} {u : Dict} (h : Orders k x st n ven out u) :
    k.deliver n (.poll (.str ven)) x = ((x.1, st), .ok (some (some "oadrCreateReport", orderReceived k.config.newId ven out))) := by
  obtain ⟨hd, hh, hpoll⟩ := h.poll
  obtain ⟨v, hv, hc⟩ := h.what
  exact polled k x st ven _ _ u _ hd h.through hh hpoll (order_answered h.through.venId h.newId h.requests h.some hv hc h.whom h.else'.1 h.else'.2) h.valid

/-- What the VEN gets for its poll. -/
def orderedBy (k : Connection S) (ven : String) (out : List RequestOut) : Option String × Payload :=
  (some "oadrCreateReport", Payload.parsed (orderReceived k.config.newId ven out))

/-- What the VEN does with the requests. -/
theorem ordered_step (w : World) (y : Client) (k : Connection S) (ven : String) (lib : Lib) (out : List RequestOut) (s : VenReports) (ho : ∀ q ∈ out, q.Sendable lib)
    (hv : y.venId = .str ven) (hs : y.reporting = some s) (h1 : w.net y.log.length = some (orderedBy k ven out)) (s' : VenReports) (sa : List SampleCall)
    (r : Res CreatedReport) (hc : createReport (w.user (y.log.length + 1)) (w.now (y.log.length + 1)) s (out.map RequestOut.asked) = (s', sa, r)) :
    (∀ reply, r = .ok reply → (clientPoll w y).1 =
      { y with reporting := some s', samples := y.samples ++ sa, log := y.log ++ [(.poll (.str ven), some (orderedBy k ven out)), (.createdReport (.str ven) reply (.str k.config.newId), w.net (y.log.length + 1))] } ∧
      ∀ b, checkAnswer (w.net (y.log.length + 1)) = .ok b → (clientPoll w y).2 = .ok ()) ∧
    ∀ e, r = .error e → clientPoll w y =
      ({ y with reporting := some s', samples := y.samples ++ sa, log := y.log ++ [(.poll (.str ven), some (orderedBy k ven out))] }, .error e) := by
  have hp : Polls w y "oadrCreateReport" (orderedBy k ven out).2 := by
    refine ⟨h1, ?_⟩
    simp [readable, orderedBy, Payload.parsed, orderReceived, Dict.get?]
  rw [clientPoll_eq hp]
  have hread : (orderedBy k ven out).2.requests = some (out.map RequestOut.asked) := order_read ho
  have hq : requestIdOf (orderedBy k ven out).2.fields = .ok (.str k.config.newId) := by
    simp [requestIdOf, orderedBy, Payload.parsed, orderReceived, Dict.get?]
  have hact : ∀ d, actOnPoll w d "oadrCreateReport" (orderedBy k ven out).2 = clientCreateReport w d (orderedBy k ven out).2 (out.map RequestOut.asked) := fun d => by
    simp [actOnPoll, clientRequests, hread]
  rw [hact]
  have hlen : (perform w y (.poll y.venId)).1.log.length = y.log.length + 1 := by simp [perform]
  have hs' : (perform w y (.poll y.venId)).1.reporting = some s := hs
  have hmade : reportsCreated w (perform w y (.poll y.venId)).1 (out.map RequestOut.asked) =
      ({ (perform w y (.poll y.venId)).1 with reporting := some s', samples := (perform w y (.poll y.venId)).1.samples ++ sa }, r) := by
    simp only [reportsCreated, hs', hlen, hc]
  unfold clientCreateReport
  rw [hmade]
  refine ⟨fun reply e => ?_, fun e he => ?_⟩
  · subst e
    simp only [hq]
    cases hb : checkAnswer (w.net (y.log.length + 1)) with
    | error e => simp [send, perform, hb, h1, hv]
    | ok b => simp [send, perform, hb, h1, hv]
  · subst he
    simp [perform, h1, hv]

/-- The whole poll, when the VTN takes note of the confirmation. -/
theorem ordered_run (k : Connection S) (w : World) (n : Nat) (x : Serving S) (st st' : S) (y : Client) (ven : String) (out : List RequestOut) (u : Dict)
    (s s' : VenReports) (sa : List SampleCall) (reply : CreatedReport) (b : Option String × Dict) (hv : y.venId = .str ven) (hs : y.reporting = some s)
    (h : Orders k x st y.log.length ven out u)
    (hc : createReport (w.user (y.log.length + 1)) (w.now (y.log.length + 1)) s (out.map RequestOut.asked) = (s', sa, .ok reply))
    (h2 : k.deliver (y.log.length + 1) (.createdReport (.str ven) reply (.str k.config.newId)) (x.1, st) = ((x.1, st'), .ok (some b)))
    (hb : ∃ a, checkAnswer (some (b.1, Payload.parsed b.2)) = .ok a) :
    k.run clientPoll w (n + 2) (x, y) = (((x.1, st'),
      { y with reporting := some s', samples := y.samples ++ sa, log := y.log ++ [(.poll (.str ven), some (orderedBy k ven out)),
        (.createdReport (.str ven) reply (.str k.config.newId), some (b.1, Payload.parsed b.2))] }), .ok ()) := by
  have h1 := ordered_polled h
  rw [← hv] at h1
  generalize hb1 : (.ok (some (some "oadrCreateReport", orderReceived k.config.newId ven out)) : Got) = a1 at h1
  generalize hb2 : (.ok (some b) : Got) = a2 at h2
  have hlog : ∀ as : List Got, as[0]? = some a1 → (w.hearing y.log.length as).net y.log.length = some (orderedBy k ven out) := fun as h =>
    hearing_net w y.log.length as 0 (some (some "oadrCreateReport", orderReceived k.config.newId ven out)) (by rw [h, ← hb1])
  have hnet : (w.hearing y.log.length [a1, a2]).net (y.log.length + 1) = some (b.1, Payload.parsed b.2) :=
    hearing_net w y.log.length _ 1 (some b) (by rw [← hb2]; rfl)
  have s1 := ((ordered_step (w.hearing y.log.length [a1]) y k ven _ out s h.requests hv hs (hlog [a1] rfl) s' sa _ hc).1 reply rfl).1
  obtain ⟨s2, s3⟩ := (ordered_step (w.hearing y.log.length [a1, a2]) y k ven _ out s h.requests hv hs (hlog [a1, a2] rfl) s' sa _ hc).1 reply rfl
  obtain ⟨a, ha⟩ := hb
  have s4 := s3 a (by rw [hnet]; exact ha)
  rw [run_two k w n x _ _ y _ _ (.createdReport (.str ven) reply (.str k.config.newId)) _ h1 (by rw [s1]; simp; rfl) h2 (by rw [s2]; simp)]
  rw [s4, s2, hnet]

/-- The reply of the VEN names the requests in order. -/
theorem reply_ordered {user : Sampler} {now : Int} {s s' : VenReports} {lib : Lib} {out : List RequestOut} {sa : List SampleCall} {reply : CreatedReport}
    (ho : ∀ q ∈ out, q.Sendable lib) (hc : createReport user now s (out.map RequestOut.asked) = (s', sa, .ok reply)) :
    reply = ⟨reply.code, (out.map RequestOut.requestId).map Value.str⟩ := by
  have := (c58_reply _ _ s s' _ sa reply (by
    intro rr hrr
    obtain ⟨q, hq, rfl⟩ := List.mem_map.mp hrr
    obtain ⟨t, ht, -⟩ := (ho q hq).specifierId
    exact ⟨t, ht⟩) hc).1
  obtain ⟨code, ids⟩ := reply
  simp only [CreatedReport.mk.injEq, true_and]
  simp only [] at this
  subst this
  simp [RequestOut.asked, Function.comp_def]

/-- **C95**: a VEN that is asked for reports in the answer to its poll does what it does with these requests (C58), and the VTN's handler for confirmations is given the
    confirmation: it has the id of the VTN's message, names all the requests in their order, and its code is 200, or 452 if one of them asks for something with an
    invalid id. Nothing else is sent. -/
theorem c95_reports_created (k : Connection S) (w : World) (n : Nat) (x : Serving S) (st st' : S) (y : Client) (ven : String) (out : List RequestOut) (u : Dict)
    (s s' : VenReports) (sa : List SampleCall) (reply : CreatedReport) (hv : y.venId = .str ven) (hs : y.reporting = some s)
    (h : Orders k x st y.log.length ven out u)
    (hc : createReport (w.user (y.log.length + 1)) (w.now (y.log.length + 1)) s (out.map RequestOut.asked) = (s', sa, .ok reply))
    (hconf : ∃ hd, Dict.get? (k.service "EiReport").handlers "oadrCreatedReport" = some hd ∧
      hd st [("response", .dict [("response_code", .int reply.code), ("response_description", .str (if reply.code = 200 then "OK" else "ERROR")),
          ("request_id", .str k.config.newId)]),
        ("pending_reports", .list (out.map (fun q => .dict [("report_request_id", .str q.requestId)]))), ("ven_id", .str ven)] = (st', .ok .nothing)) :
    (reply.code = 452 ↔ ∃ rr ∈ out.map RequestOut.asked, AsksInvalid rr) ∧ (reply.code = 200 ↔ ¬ ∃ rr ∈ out.map RequestOut.asked, AsksInvalid rr) ∧
    ∃ a b, k.run clientPoll w (n + 2) (x, y) = (((x.1, st'),
      { y with reporting := some s', samples := y.samples ++ sa, log := y.log ++ [(.poll (.str ven), a), (.createdReport (.str ven) reply (.str k.config.newId), b)] }), .ok ()) := by
  have hr := reply_ordered h.requests hc
  have h58 := c58_reply _ _ s s' _ sa reply (by
    intro rr hrr
    obtain ⟨q, hq, rfl⟩ := List.mem_map.mp hrr
    obtain ⟨t, ht, -⟩ := (h.requests q hq).specifierId
    exact ⟨t, ht⟩) hc
  obtain ⟨hd, hh, ha⟩ := hconf
  have hval := h.valid' reply.code
  have ha' : hd st (confirmation reply.code k.config.newId ven (out.map RequestOut.requestId)) = (st', .ok .nothing) := by
    rw [← ha]
    simp [confirmation, responseOf, pendingP, Function.comp_def]
  have h2 : k.deliver (y.log.length + 1) (.createdReport (.str ven) reply (.str k.config.newId)) (x.1, st) =
      ((x.1, st'), .ok (some (some "oadrResponse", settled ven))) := by
    rw [hr]
    exact noted_exchanged h.through'.sound (confirmation_received h.through'.sound h.newId' h.through'.venId (by
        intro i hi
        obtain ⟨q, hq, rfl⟩ := List.mem_map.mp hi
        exact h.ids q hq)) (by simp [confirmation, Dict.get?]) (by simp [confirmation, Dict.get?]) h.through'.venId (by simp [confirmation, Dict.get?])
      (by simp [Outgoing.message]) h.through'.letsIn hval.there hh ha' hval.back
  refine ⟨h58.2.1, h58.2.2.1, some (orderedBy k ven out), some (some "oadrResponse", Payload.parsed (settled ven)),
    ordered_run k w n x st st' y ven out u s s' sa reply _ hv hs h hc h2 ⟨some (some "oadrResponse", Payload.parsed (settled ven)), ?_⟩⟩
  simp [checkAnswer, Payload.parsed, settled, Dict.get?, Dict.has]

/-- **C95**: with the handlers of the library, a VTN that requested reports of this VEN when it registered them has noted the ids of the reports. -/
theorem c95_reports_noted (k : Connection ReportVtn) (w : World) (n : Nat) (x : Serving ReportVtn) (st : ReportVtn) (y : Client) (ven : String) (out qs : List RequestOut)
    (u : Dict) (s s' : VenReports) (sa : List SampleCall) (reply : CreatedReport) (hv : y.venId = .str ven) (hs : y.reporting = some s)
    (h : Orders k x st y.log.length ven out u)
    (hc : createReport (w.user (y.log.length + 1)) (w.now (y.log.length + 1)) s (out.map RequestOut.asked) = (s', sa, .ok reply))
    (hd : Dict.get? (k.service "EiReport").handlers "oadrCreatedReport" = some createdReportHandler) (hq : Dict.get? st.1.requested ven = some qs) :
    ∃ a b, k.run clientPoll w (n + 2) (x, y) = (((x.1, ({ st.1 with created := Dict.set st.1.created ven ((Dict.get? st.1.created ven).getD [] ++ out.map (fun q => .str q.requestId)) }, st.2)),
      { y with reporting := some s', samples := y.samples ++ sa, log := y.log ++ [(.poll (.str ven), a), (.createdReport (.str ven) reply (.str k.config.newId), b)] }), .ok ()) := by
  refine (c95_reports_created k w n x st _ y ven out u s s' sa reply hv hs h hc ⟨_, hd, ?_⟩).2.2
  simp [createdReportHandler, venKey, Dict.get?, createdReport, hq, Value.list?, entryIn, Function.comp_def]

/-- **C95, refuted** for a VTN that asks for reports only in the answers to polls: the handler of the library raises on the confirmation, after it noted the ids; the
    VEN gets an empty answer with status 500, and carries on as if nothing had happened. -/
theorem c95_unexpected_violated (k : Connection ReportVtn) (w : World) (n : Nat) (x : Serving ReportVtn) (st : ReportVtn) (y : Client) (ven : String) (out : List RequestOut)
    (u : Dict) (s s' : VenReports) (sa : List SampleCall) (reply : CreatedReport) (hv : y.venId = .str ven) (hs : y.reporting = some s)
    (h : Orders k x st y.log.length ven out u)
    (hc : createReport (w.user (y.log.length + 1)) (w.now (y.log.length + 1)) s (out.map RequestOut.asked) = (s', sa, .ok reply))
    (hd : Dict.get? (k.service "EiReport").handlers "oadrCreatedReport" = some createdReportHandler) (hq : Dict.get? st.1.requested ven = none) :
    (k.run clientPoll w (n + 2) (x, y)).2 = .ok () ∧
    (k.run clientPoll w (n + 2) (x, y)).1.2.log.getLast? = some (.createdReport (.str ven) reply (.str k.config.newId), some (none, Payload.parsed [])) ∧
    (k.run clientPoll w (n + 2) (x, y)).1.2.reporting = some s' ∧
    Dict.get? (k.run clientPoll w (n + 2) (x, y)).1.1.2.1.created ven = some ((Dict.get? st.1.created ven).getD [] ++ out.map (fun q => .str q.requestId)) := by
  have hr := reply_ordered h.requests hc
  have hval := h.valid' reply.code
  have ha : createdReportHandler st (confirmation reply.code k.config.newId ven (out.map RequestOut.requestId)) =
      (({ st.1 with created := Dict.set st.1.created ven ((Dict.get? st.1.created ven).getD [] ++ out.map (fun q => .str q.requestId)) }, st.2),
        .error (.other .keyError)) := by
    simp [createdReportHandler, venKey, confirmation, Dict.get?, createdReport, hq, Value.list?, entryIn, Function.comp_def, pendingP, serviceExn]
  have h2 : k.deliver (y.log.length + 1) (.createdReport (.str ven) reply (.str k.config.newId)) (x.1, st) =
      ((x.1, ({ st.1 with created := Dict.set st.1.created ven ((Dict.get? st.1.created ven).getD [] ++ out.map (fun q => .str q.requestId)) }, st.2)), .ok (some (none, []))) := by
    rw [hr]
    exact failed_exchanged (confirmation_received h.through'.sound h.newId' h.through'.venId (by
        intro i hi
        obtain ⟨q, hq, rfl⟩ := List.mem_map.mp hi
        exact h.ids q hq)) (by simp [confirmation, Dict.get?]) (by simp [confirmation, Dict.get?])
      (by simp [Outgoing.message]) h.through'.letsIn hval.there hd ha
  rw [ordered_run k w n x st _ y ven out u s s' sa reply _ hv hs h hc h2 ⟨some (none, Payload.parsed []), rfl⟩]
  simp [Dict.get?_set]

/-- **C95, refuted** for requests that the VEN fails on (C58): the VTN hears nothing of them. -/
theorem c95_silent_violated (k : Connection S) (w : World) (n : Nat) (x : Serving S) (st : S) (y : Client) (ven : String) (out : List RequestOut) (u : Dict)
    (s s' : VenReports) (sa : List SampleCall) (e : Err) (hv : y.venId = .str ven) (hs : y.reporting = some s) (h : Orders k x st y.log.length ven out u)
    (hc : createReport (w.user (y.log.length + 1)) (w.now (y.log.length + 1)) s (out.map RequestOut.asked) = (s', sa, .error e)) :
    ∃ a, k.run clientPoll w (n + 1) (x, y) = (((x.1, st),
      { y with reporting := some s', samples := y.samples ++ sa, log := y.log ++ [(.poll (.str ven), a)] }), .error e) := by
  have h1 := ordered_polled h
  rw [← hv] at h1
  generalize hb1 : (.ok (some (some "oadrCreateReport", orderReceived k.config.newId ven out)) : Got) = a1 at h1
  have hnet : (w.hearing y.log.length [a1]).net y.log.length = some (orderedBy k ven out) :=
    hearing_net w y.log.length [a1] 0 (some (some "oadrCreateReport", orderReceived k.config.newId ven out)) (by rw [← hb1]; rfl)
  have s1 := (ordered_step (w.hearing y.log.length [a1]) y k ven _ out s h.requests hv hs hnet s' sa _ hc).2 e rfl
  refine ⟨some (orderedBy k ven out), ?_⟩
  rw [run_one k w n x _ y _ h1 (by rw [s1]; simp), s1]

end Openleadr
