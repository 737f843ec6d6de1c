import Verif.Props.PollAnswers
/-! Property C95 for cancelled reports. -/
namespace Openleadr

variable {S : Type} {lib : Lib} {now : Int}

/-- Pending reports that are not mentioned are written like none. -/
theorem pending_undefined (p : Dict) (hp : Dict.get? p "pending_reports" = none) :
    createMessage lib now "oadrCanceledReport" p = createMessage lib now "oadrCanceledReport" (p ++ [("pending_reports", .list [])]) := by
  have hl : lookup p ["pending_reports"] = .ok none := by simp [lookup, walk, hp]
  have hl' : lookup (p ++ [("pending_reports", .list [])]) ["pending_reports"] = .ok (some (.list [])) := by
    simp [lookup, walk, Dict.get?_append, hp, Dict.get?]
  have hv : render lib p pendingReports = render lib (p ++ [("pending_reports", .list [])]) pendingReports := by
    simp only [pendingReports, el, render, renderAll, tagText, hl, hl']
    rfl
  have hr : ∀ t : Tmpl, t.reads.all (· != "pending_reports") = true → render lib p t = render lib (p ++ [("pending_reports", .list [])]) t := by
    intro t ht
    refine render_agree lib t _ _ (fun k hk => ?_)
    have : k ≠ "pending_reports" := by
      have := List.all_eq_true.mp ht k hk
      simpa using this
    simp [Dict.get?_append, Dict.get?, Ne.symm this]
  have htmpl : render lib p tCanceledReport = render lib (p ++ [("pending_reports", .list [])]) tCanceledReport := by
    have h1 := hr eiResponse (by decide +kernel)
    have h2 := hr optionalVen (by decide +kernel)
    have hall : ∀ t t' t'' : Tmpl, render lib p t = render lib (p ++ [("pending_reports", .list [])]) t →
        render lib p t' = render lib (p ++ [("pending_reports", .list [])]) t' → render lib p t'' = render lib (p ++ [("pending_reports", .list [])]) t'' →
        ∀ name attrs, render lib p (el name [t, t', t''] attrs) = render lib (p ++ [("pending_reports", .list [])]) (el name [t, t', t''] attrs) := by
      intro t t' t'' h h' h'' name attrs
      simp only [el, render, renderAll, h, h', h'', tagText]
    have hone : ∀ t : Tmpl, render lib p t = render lib (p ++ [("pending_reports", .list [])]) t →
        ∀ name attrs, render lib p (el name [t] attrs) = render lib (p ++ [("pending_reports", .list [])]) (el name [t] attrs) := by
      intro t h name attrs
      simp only [el, render, renderAll, h, tagText]
    exact hone _ (hall _ _ _ h1 hv h2 _ _) _ _
  have ht : Dict.get? templates "oadrCanceledReport" = some tCanceledReport := by rfl
  simp only [createMessage, preflightMessage, show ("oadrCanceledReport" = "oadrDistributeEvent") = False from by decide,
    show ("oadrCanceledReport" = "oadrRegisterReport") = False from by decide, if_false, renderMessage, ht, htmpl]

/-- The confirmation as the VTN receives it. -/
def canceledReceived (q ven : String) (pending : List String) : Dict :=
  [("response", responseOf 200 (.str q)), ("pending_reports", pendingP pending), ("ven_id", .str ven)]

theorem canceledReport_received (sound : lib.Sound) {m q ven : String} (pending : Bool) (hm : Ordinary lib m) (hq : Ordinary lib q) (hv : Ordinary lib ven) :
    Received lib now "oadrCanceledReport"
      (CanceledReport.payload ⟨.str m, .str q, if pending then [.str q] else []⟩ (.str ven)) (canceledReceived m ven (if pending then [q] else [])) := by
  have hpend : PendingIds lib (if pending then [q] else []) := by
    cases pending
    · exact ⟨by simp, by simp⟩
    · exact ⟨by simp [hq.toOnWire], fun id h => by simp only [if_true, List.cons.injEq, and_true] at h; subst h; exact .inl hq⟩
  have h := c67_canceled_report (now := now) sound (r := ⟨200, "OK", m⟩) (ids := if pending then [q] else []) (ven := some ven) ⟨ordinary_OK sound, hm⟩ hpend
    (fun x hx => by cases hx; exact hv) _ (.same _)
  have hsame : [("response", .dict (ResponseP.dict ⟨200, "OK", m⟩)), ("pending_reports", pendingP (if pending then [q] else []))] ++ entry? "ven_id" (text? (some ven)) =
      canceledReceived m ven (if pending then [q] else []) := by
    simp [canceledReceived, responseOf, ResponseP.dict, text?, entry?]
  rw [hsame] at h
  have hreads : ∀ p : Dict, (Dict.get? p "response" = some (responseOf 200 (.str m))) → Dict.get? p "pending_reports" = some (pendingP (if pending then [q] else [])) →
      Dict.get? p "ven_id" = some (.str ven) → Dict.get? p "pending_report" = none → AgreeOn tCanceledReport.reads p (canceledReceived m ven (if pending then [q] else [])) := by
    intro p h1 h2 h3 h4 j hj
    have hr : tCanceledReport.reads.all (fun j => j == "response" || j == "pending_reports" || j == "ven_id" || j == "pending_report") = true := by decide +kernel
    have := List.all_eq_true.mp hr j hj
    simp only [Bool.or_eq_true, beq_iff_eq] at this
    rcases this with ((rfl | rfl) | rfl) | rfl
    · rw [h1]; simp [canceledReceived, Dict.get?]
    · rw [h2]; simp [canceledReceived, Dict.get?]
    · rw [h3]; simp [canceledReceived, Dict.get?]
    · rw [h4]; simp [canceledReceived, Dict.get?]
  cases pending with
  | true =>
    refine received_agree (t := tCanceledReport) (by rfl) (hreads _ ?_ ?_ ?_ ?_) h <;>
      simp [CanceledReport.payload, Dict.get?, pendingP]
  | false =>
    obtain ⟨txt, h1, h2⟩ : Received lib now "oadrCanceledReport"
        (CanceledReport.payload ⟨.str m, .str q, []⟩ (.str ven) ++ [("pending_reports", .list [])]) (canceledReceived m ven []) :=
      received_agree (t := tCanceledReport) (by rfl) (hreads _ (by simp [CanceledReport.payload, Dict.get?]) (by simp [CanceledReport.payload, Dict.get?, pendingP])
        (by simp [CanceledReport.payload, Dict.get?]) (by simp [CanceledReport.payload, Dict.get?])) h
    refine ⟨txt, ?_, h2⟩
    rw [← h1, pending_undefined _ (by simp [CanceledReport.payload, Dict.get?])]
    rfl

/-- The cancellation as the VEN receives it. -/
def cancelReportReceived (id q ven : String) (follow : Bool) : Dict :=
  [("request_id", .str id), ("report_request_id", .str q), ("report_to_follow", .bool follow), ("ven_id", .str ven)]

theorem cancelReport_answered {c : Config} {ven q : String} {follow : Bool} {u : Dict} (hven : Ordinary lib ven) (hq : Ordinary lib q)
    (hid : Ordinary lib c.newId) (h1 : Dict.get? u "report_request_id" = some (.str q)) (h3 : Dict.get? u "report_to_follow" = some (.bool follow))
    (h2 : Dict.get? u "ven_id" = none ∨ Dict.get? u "ven_id" = some (.str ven)) :
    Received lib now "oadrCancelReport" (c.answers (pollMessage ven) u) (cancelReportReceived c.newId q ven follow) := by
  refine received_agree (t := tCancelReport) (by rfl) (fun j hj => ?_) (c67_cancel_report (follow := follow) hid hq hven _ (.same _))
  have hr : tCancelReport.reads.all (fun j => j == "request_id" || j == "report_request_id" || j == "report_to_follow" || j == "ven_id") = true := by decide +kernel
  have := List.all_eq_true.mp hr j hj
  simp only [Bool.or_eq_true, beq_iff_eq] at this
  rw [answers_get c u ven hven.notEmpty h2]
  rcases this with ((rfl | rfl) | rfl) | rfl <;> simp [Dict.get?, h1, h3]

/-- What the VEN reads in it. -/
theorem cancelReport_read (id q ven : String) (follow : Bool) :
    (Payload.parsed (cancelReportReceived id q ven follow)).cancel = some ⟨.str q, some follow, some (.str id)⟩ := by
  cases follow <;> simp [Payload.parsed, readCancel, cancelReportReceived, Dict.get?]

/-- What a VTN does that wants to cancel a report: it says so in its answer to the poll; it has no handler for the confirmation (as in report_service.py); its
    ids and those of the VEN are ordinary texts. -/
structure Recalls (k : Connection S) (x : Serving S) (st : S) (n : Nat) (ven q : String) (follow : Bool) (u : Dict) : Prop where
  through : k.Through x.1 ven n
  through' : k.Through x.1 ven (n + 1)
  request : Ordinary (k.link n).lib q
  request' : Ordinary (k.link (n + 1)).lib q
  newId : Ordinary (k.link n).lib k.config.newId
  newId' : Ordinary (k.link (n + 1)).lib k.config.newId
  poll : ∃ h, Dict.get? (k.service "OadrPoll").handlers "oadrPoll" = some h ∧ h x.2 (pollMessage ven) = (st, .ok (.pair "oadrCancelReport" (.dict u)))
  named : (k.service "EiReport").name = "EiReport"
  unhandled : Dict.get? (k.service "EiReport").handlers "oadrCanceledReport" = none
  what : Dict.get? u "report_request_id" = some (.str q)
  follows : Dict.get? u "report_to_follow" = some (.bool follow)
  whom : Dict.get? u "ven_id" = none ∨ Dict.get? u "ven_id" = some (.str ven)
  valid : k.Valid n "oadrPoll" (pollMessage ven) "oadrCancelReport" (k.config.answers (pollMessage ven) u)
  valid' : k.Valid (n + 1) "oadrCanceledReport" (CanceledReport.payload ⟨.str k.config.newId, .str q, if follow then [.str q] else []⟩ (.str ven))
    "oadrResponse" (completed k.config (canceledReceived k.config.newId ven (if follow then [q] else [])) (errorResponse "oadrResponse" 459
      "A message of type oadrCanceledReport should not be sent to this endpoint (EiReport)").2)

/-- What the VEN gets for its poll. -/
def recalledBy (k : Connection S) (ven q : String) (follow : Bool) : Option String × Payload :=
  (some "oadrCancelReport", Payload.parsed (cancelReportReceived k.config.newId q ven follow))

/-- What the VEN does when it finds the request. -/
theorem recalled_step (w : World) (y : Client) (k : Connection S) (ven q : String) (follow : Bool) (s s' : VenReports) (sa : List SampleCall) (hv : y.venId = .str ven)
    (hs : y.reporting = some s) (h1 : w.net y.log.length = some (recalledBy k ven q follow)) (reply : CanceledReport)
    (hc : cancelReport (w.user (y.log.length + 1)) (w.user' (y.log.length + 1)) (w.now (y.log.length + 1)) (w.now' (y.log.length + 1)) s
      ⟨.str q, some follow, some (.str k.config.newId)⟩ = (s', sa, .ok (some reply))) :
    (clientPoll w y).1 = 
      { y with reporting := some s', samples := y.samples ++ sa, log := y.log ++ [(.poll (.str ven), some (recalledBy k ven q follow)), (.canceledReport (.str ven) reply, w.net (y.log.length + 1))] } ∧
    ∀ b, checkAnswer (w.net (y.log.length + 1)) = .ok b → (clientPoll w y).2 = .ok () := by
  have hp : Polls w y "oadrCancelReport" (recalledBy k ven q follow).2 := by
    refine ⟨h1, ?_⟩
    simp [readable, recalledBy, Payload.parsed, cancelReportReceived, Dict.get?]
  rw [clientPoll_eq hp]
  have hact : ∀ d, actOnPoll w d "oadrCancelReport" (recalledBy k ven q follow).2 = clientCancelReport w d ⟨.str q, some follow, some (.str k.config.newId)⟩ := fun d => by
    simp [actOnPoll, recalledBy, cancelReport_read]
  rw [hact]
  have hlen : (perform w y (.poll y.venId)).1.log.length = y.log.length + 1 := by simp [perform]
  have hs' : (perform w y (.poll y.venId)).1.reporting = some s := hs
  unfold clientCancelReport
  rw [hs']
  simp only [hlen, hc]
  cases hb : checkAnswer (w.net (y.log.length + 1)) with
  | error e => simp [send, perform, hb, h1, hv]
  | ok b => simp [send, perform, hb, h1, hv]

/-- The poll that is answered by the cancellation. -/
theorem recalled_polled {k : Connection S} {x : Serving S} {st : S} {n : Nat} {ven q : String} {follow : Bool} {u : Dict} (h : Recalls k x st n ven q follow u) :
    k.deliver n (.poll (.str ven)) x = ((x.1, st), .ok (some (some "oadrCancelReport", cancelReportReceived k.config.newId q ven follow))) := by
  obtain ⟨hd, hh, hpoll⟩ := h.poll
  exact polled k x st ven _ _ u _ hd h.through hh hpoll (cancelReport_answered h.through.venId h.request h.newId h.what h.follows h.whom) h.valid

/-- **C95**: a VEN that is told to cancel a report it was asked for cancels it: the request and its job are no longer there, the other requests and their jobs are, and
    nothing else of the VEN changes but what a last report takes; it confirms with the id of the VTN's message, names the request as pending if and only if a report
    is to follow, and sends nothing else. (The cancellation is supposed not to fail in one of the callbacks of the user, cf. C60.) -/
theorem c95_report_cancelled (k : Connection S) (w : World) (n : Nat) (x : Serving S) (st : S) (y : Client) (ven q : String) (follow : Bool) (u : Dict)
    (s s' : VenReports) (sa : List SampleCall) (reply : CanceledReport) (hv : y.venId = .str ven) (hs : y.reporting = some s) (hinv : VenInv s)
    (h : Recalls k x st y.log.length ven q follow u)
    (hc : cancelReport (w.user (y.log.length + 1)) (w.user' (y.log.length + 1)) (w.now (y.log.length + 1)) (w.now' (y.log.length + 1)) s
      ⟨.str q, some follow, some (.str k.config.newId)⟩ = (s', sa, .ok (some reply))) :
    (∃ a b, k.run clientPoll w (n + 2) (x, y) = (((x.1, st),
      { y with reporting := some s', samples := y.samples ++ sa, log := y.log ++ [(.poll (.str ven), a),
        (.canceledReport (.str ven) ⟨.str k.config.newId, .str q, if follow then [.str q] else []⟩, b)] }), .ok ())) ∧
    ∃ rq pre post, s.requests = pre ++ rq :: post ∧ rq.requestId = .str q ∧ (∀ r ∈ pre, r.requestId ≠ .str q) ∧ s'.requests = pre ++ post ∧
      s'.jobs = s.jobs.filter (fun j => decide (some j.id ≠ rq.job)) ∧ s'.reports = s.reports ∧ s'.callbacks = s.callbacks ∧
      ∃ new, s'.pending = s.pending ++ new ∧ ∀ o ∈ new, o.requestId = .str q := by
  obtain ⟨rq, pre, post, c1, c2, c3, c4, c5, -, -, c6, c7, -, c8, -, d1, d2, d3⟩ := c60_cancelled _ _ _ _ s s' hinv _ sa reply hc
  refine ⟨?_, rq, pre, post, c1, c2, c3, c4, c5, c6, c7, c8⟩
  have hreply : reply = ⟨.str k.config.newId, .str q, if follow then [.str q] else []⟩ := by
    obtain ⟨r1, r2, r3⟩ := reply
    simp only [Option.some.injEq] at d1 d2 d3
    subst d1 d2
    rcases d3 with ⟨rfl, rfl⟩ | ⟨rfl, rfl⟩ <;> rfl
  subst hreply
  have h1 := recalled_polled h
  rw [← hv] at h1
  have hd : Ordinary (k.link (y.log.length + 1)).lib "A message of type oadrCanceledReport should not be sent to this endpoint (EiReport)" :=
    ordinary_word h.through'.sound (by decide +kernel) (onWire_of (by decide +kernel)) (by decide) (by decide)
  have h2 : k.deliver (y.log.length + 1) (.canceledReport (.str ven) ⟨.str k.config.newId, .str q, if follow then [.str q] else []⟩) (x.1, st) =
      ((x.1, st), .ok (some (some "oadrResponse", notHandled "oadrCanceledReport" "EiReport" ven))) := by
    have := unhandled_exchanged (k := k.link (y.log.length + 1)) (c := k.config) (svc := k.service "EiReport") (cache := x.1) (st := st)
      (secure := k.secure) (peer := k.peer) (ven := ven) h.through'.sound
      (canceledReport_received (now := (k.link (y.log.length + 1)).clientNow) h.through'.sound follow h.newId' h.request' h.through'.venId)
      (by simp [canceledReceived, Dict.get?]) h.through'.venId (by simp [canceledReceived, Dict.get?]) (by decide) h.through'.letsIn h.valid'.there
      h.unhandled (by rw [h.named]; exact hd) (by rw [h.named]; exact h.valid'.back)
    rw [h.named] at this
    exact this
  generalize hb1 : (.ok (some (some "oadrCancelReport", cancelReportReceived k.config.newId q ven follow)) : Got) = a1 at h1
  generalize hb2 : (.ok (some (some "oadrResponse", notHandled "oadrCanceledReport" "EiReport" ven)) : Got) = a2 at h2
  have hlog : ∀ as : List Got, as[0]? = some a1 → (w.hearing y.log.length as).net y.log.length = some (recalledBy k ven q follow) := fun as h =>
    hearing_net w y.log.length as 0 (some (some "oadrCancelReport", cancelReportReceived k.config.newId q ven follow)) (by rw [h, ← hb1])
  have hb : (w.hearing y.log.length [a1, a2]).net (y.log.length + 1) = some (unheard "oadrCanceledReport" "EiReport" ven) :=
    hearing_net w y.log.length _ 1 (some (some "oadrResponse", notHandled "oadrCanceledReport" "EiReport" ven)) (by rw [← hb2]; rfl)
  have s1 := (recalled_step _ y k ven q follow s s' sa hv hs (hlog [a1] rfl) _ hc).1
  obtain ⟨s2, s3⟩ := recalled_step _ y k ven q follow s s' sa hv hs (hlog [a1, a2] rfl) _ hc
  have s4 := s3 _ (by
    rw [hb]
    simp [unheard, Payload.parsed, checkAnswer, notHandled, Dict.get?, Dict.has]
    rfl)
  refine ⟨some (recalledBy k ven q follow), (w.hearing y.log.length [a1, a2]).net (y.log.length + 1), ?_⟩
  rw [run_two k w n x _ _ y _ _ (.canceledReport (.str ven) ⟨.str k.config.newId, .str q, if follow then [.str q] else []⟩) _ h1 (by rw [s1]; simp; rfl) h2
    (by rw [s2]; simp)]
  rw [s4, s2]

/-- **C95**: told to cancel a report that it was not asked for, the VEN changes nothing and says nothing. -/
theorem c95_report_unknown (k : Connection S) (w : World) (n : Nat) (x : Serving S) (st : S) (y : Client) (ven q : String) (follow : Bool) (u : Dict) (s : VenReports)
    (hv : y.venId = .str ven) (hs : y.reporting = some s) (h : Recalls k x st y.log.length ven q follow u) (hq : ∀ r ∈ s.requests, r.requestId ≠ .str q) :
    ∃ a, k.run clientPoll w (n + 1) (x, y) = (((x.1, st), { y with log := y.log ++ [(.poll (.str ven), a)] }), .ok ()) := by
  have h1 := recalled_polled h
  rw [← hv] at h1
  generalize hb1 : (.ok (some (some "oadrCancelReport", cancelReportReceived k.config.newId q ven follow)) : Got) = a1 at h1
  have hnet : (w.hearing y.log.length [a1]).net y.log.length = some (recalledBy k ven q follow) :=
    hearing_net w y.log.length [a1] 0 (some (some "oadrCancelReport", cancelReportReceived k.config.newId q ven follow)) (by rw [← hb1]; rfl)
  have hp : Polls (w.hearing y.log.length [a1]) y "oadrCancelReport" (recalledBy k ven q follow).2 := by
    refine ⟨hnet, ?_⟩
    simp [readable, recalledBy, Payload.parsed, cancelReportReceived, Dict.get?]
  have hstep : clientPoll (w.hearing y.log.length [a1]) y =
      ({ y with log := y.log ++ [(.poll (.str ven), some (recalledBy k ven q follow))] }, .ok ()) := by
    rw [clientPoll_eq hp]
    have hact : ∀ d, actOnPoll (w.hearing y.log.length [a1]) d "oadrCancelReport" (recalledBy k ven q follow).2 =
        clientCancelReport (w.hearing y.log.length [a1]) d ⟨.str q, some follow, some (.str k.config.newId)⟩ := fun d => by
      simp [actOnPoll, recalledBy, cancelReport_read]
    rw [hact]
    have hs' : (perform (w.hearing y.log.length [a1]) y (.poll y.venId)).1.reporting = some s := hs
    unfold clientCancelReport
    rw [hs']
    simp only [c60_unknown _ _ _ _ s ⟨.str q, some follow, some (.str k.config.newId)⟩ hq]
    simp [perform, hnet, hv, hs]
  refine ⟨some (recalledBy k ven q follow), ?_⟩
  rw [run_one k w n x _ y _ h1 (by rw [hstep]; simp), hstep]

end Openleadr
