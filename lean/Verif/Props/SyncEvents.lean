import Verif.Lemmas.Conversation
import Verif.Props.PollAnswers
import Verif.Props.EventRound
/-!
C96: the events that the whole client gets from a whole VTN, when it asks for them at its start and when it polls.
-/
namespace Openleadr

/-- What the handler of the VTN is given of a request for events. -/
def requestMessage (id ven : String) : Dict := [("request_id", .str id), ("ven_id", .str ven)]

theorem request_received {lib : Lib} {now : Int} {id ven : String} (sound : lib.Sound) (h1 : Ordinary lib id) (h2 : Ordinary lib ven) :
    Received lib now "oadrRequestEvent" [("request_id", .str id), ("ven_id", .str ven), ("reply_limit", .none)] (requestMessage id ven) := by
  have h := c67_request_event (now := now) sound (limit := none) h1 h2
  refine h _ (conforms_entries (ks := ["request_id", "ven_id", "reply_limit"]) rfl (by decide) (by
    simp [entry?]; exact within_cons (within_cons (within_nil _))) ?_)
  refine all_cons (.inl ⟨.str id, ?_, .same _⟩) (all_cons (.inl ⟨.str ven, ?_, .same _⟩) (all_cons (.inr ⟨?_, rfl, by decide⟩) all_nil)) <;>
    simp [Dict.get?, entry?]

/-- The message of events that is sent for a request. -/
theorem request_answers (c : Config) (id ven : String) (v : Value) :
    c.answers (requestMessage id ven) [("events", v)] = messageWith v c.vtnId ven c.newId (.str id) := by
  simp [Config.answers, completed, finishPayload, Dict.set, Dict.get?, Value.truthy, messageWith, requestMessage, Dict.has]

/-- A request for events of a VEN that has some, whether or not they were handed out before. -/
theorem request_distributes {k : Link} {c : Config} {env : Env} {vtnClock : Nat → Int} {cache : NonceCache} {s s1 : Server} {log effects : List Effect}
    {secure : Bool} {peer : Option String} {ven id : String} {es : List Event} (con : Connected k c secure peer cache ven) (hid : Ordinary k.lib id)
    (hval : ∀ txt, createMessage k.lib k.clientNow "oadrRequestEvent" [("request_id", .str id), ("ven_id", .str ven), ("reply_limit", .none)] = .ok txt →
      ∃ tree, c.validate (String.ofList txt) = .ok tree)
    (hacc : ∀ txt, createMessage k.lib k.serverNow "oadrDistributeEvent" (messageWith (.list (es.map Event.object)) c.vtnId ven c.newId (.str id)) = .ok txt →
      k.accepts (String.ofList txt) = true)
    (hint : s.external = false) (htake : takeEvents vtnClock s ven = (s1, some es))
    (hdel : deliverAll env s1.delivery es = (effects, none)) (hes : ∀ e ∈ es, e.Sendable k.lib) :
    exchange k c (eventService env vtnClock) cache (s, log) secure peer "oadrRequestEvent" [("request_id", .str id), ("ven_id", .str ven), ("reply_limit", .none)] =
      ((cache, (s1, log ++ effects)), .ok (some (some "oadrDistributeEvent",
        receivedWith (es.map (fun e => eventP k.lib (e.prepared k.serverNow))) c.vtnId c.newId (some id)))) := by
  have hreq : requestEvent env vtnClock s ven = (s1, effects, .ok (.distribute es)) := by
    simp [requestEvent, hint, htake, hdel]
  have hans := request_answers c id ven (.list (es.map Event.object))
  rw [Config.answers] at hans
  refine reply_exchanged (h := requestHandler env vtnClock) (u := [("events", .list (es.map Event.object))]) (request_received con.sound hid con.venId)
    (by simp [requestMessage, Dict.get?]) (by simp [requestMessage, Dict.get?]) (by decide) con.letsIn hval (by simp [eventService, Dict.get?]) ?_ ?_ ?_
  · simp [requestHandler, venKey, requestMessage, Dict.get?, served, hreq, Reply.returned]
  · rw [hans]
    exact events_received con.sound con.now con.zero hes (rid := some id) (by simp [hid]) con.vtnId con.newId
  · rw [hans]
    exact hacc

/-- What the VEN receives when there is nothing for it. -/
def nothingFor (id ven : String) : Dict :=
  [("response", .dict [("response_code", .int 200), ("response_description", .str "OK"), ("request_id", .str id)]), ("ven_id", .str ven)]

/-- A request for events of a VEN that has none. -/
theorem request_nothing {k : Link} {c : Config} {env : Env} {vtnClock : Nat → Int} {cache : NonceCache} {s : Server} {log : List Effect}
    {secure : Bool} {peer : Option String} {ven id : String} (con : Connected k c secure peer cache ven) (hid : Ordinary k.lib id)
    (hval : ∀ txt, createMessage k.lib k.clientNow "oadrRequestEvent" [("request_id", .str id), ("ven_id", .str ven), ("reply_limit", .none)] = .ok txt →
      ∃ tree, c.validate (String.ofList txt) = .ok tree)
    (hacc : ∀ txt, createMessage k.lib k.serverNow "oadrResponse" (c.answers (requestMessage id ven) []) = .ok txt → k.accepts (String.ofList txt) = true)
    (hint : s.external = false) (hq : s.queue ven = []) :
    exchange k c (eventService env vtnClock) cache (s, log) secure peer "oadrRequestEvent" [("request_id", .str id), ("ven_id", .str ven), ("reply_limit", .none)] =
      ((cache, (s, log)), .ok (some (some "oadrResponse", nothingFor id ven))) := by
  have hreq : requestEvent env vtnClock s ven = (s, [], .ok .response) := by
    simp only [requestEvent, hint, takeEvents]
    cases hg : Dict.get? s.events ven with
    | none => simp
    | some q =>
      have : q = [] := by simpa [Server.queue, hg] using hq
      subst this
      simp
  refine reply_exchanged (h := requestHandler env vtnClock) (u := []) (request_received con.sound hid con.venId)
    (by simp [requestMessage, Dict.get?]) (by simp [requestMessage, Dict.get?]) (by decide) con.letsIn hval (by simp [eventService, Dict.get?]) ?_ ?_ hacc
  · simp [requestHandler, venKey, requestMessage, Dict.get?, served, hreq, Reply.returned]
  · have harr := c67_response_arrives (now := k.serverNow) con.sound (r := ⟨200, "OK", some id⟩) ⟨ordinary_OK con.sound, by simp [hid]⟩ con.venId
    have e : nothingFor id ven = [("response", .dict (LooseResponseP.received ⟨200, "OK", some id⟩)), ("ven_id", .str ven)] := by
      simp [nothingFor, LooseResponseP.received, text?]
    rw [e]
    refine received_agree (t := tResponse) (by rfl) (fun j hj => ?_) (harr [("response", .dict [("request_id", .str id), ("response_code", .int 200),
      ("response_description", .str "OK")]), ("ven_id", .str ven)] ?_)
    · have hr : tResponse.reads.all (fun j => j == "response" || j == "ven_id") = true := by decide +kernel
      have := List.all_eq_true.mp hr j hj
      simp only [Bool.or_eq_true, beq_iff_eq] at this
      rcases this with rfl | rfl <;>
        simp [completed, finishPayload, requestMessage, Dict.set, Dict.has, Dict.get?, Value.truthy]
    · refine conforms_entries (ks := ["response", "ven_id"]) rfl (by decide) (within_cons (within_cons (within_nil _))) ?_
      refine all_cons (.inl ⟨.dict (LooseResponseP.dict ⟨200, "OK", some id⟩), ?_, ?_⟩) (all_cons (.inl ⟨.str ven, ?_, .same _⟩) all_nil)
      · simp [Dict.get?]
      · refine conforms_entries (ks := ["request_id", "response_code", "response_description"]) rfl (by decide)
          (by simp [LooseResponseP.dict, text?, entry?]; exact within_cons (within_cons (within_cons (within_nil _)))) ?_
        refine all_cons (.inl ⟨.str id, ?_, .same _⟩) (all_cons (accounted_as (v := some _) ?_) (all_cons (accounted_as (v := some _) ?_) all_nil)) <;>
          simp [LooseResponseP.dict, Dict.get?, text?, entry?]
      · simp [Dict.get?]

/-! ### The client -/

/-- An action that gets events: it begins with a message, and what it does with events in the answer is `_on_event`. -/
structure Fetches (act : World → Client → Client × Res Unit) (m : Value → Outgoing) : Prop where
  first : ∀ w c, (act w c).1.log[c.log.length]? = some (m c.venId, w.net c.log.length)
  events : ∀ w c p, w.net c.log.length = some (some "oadrDistributeEvent", p) → checkAnswer (w.net c.log.length) = .ok (w.net c.log.length) →
    act w c = clientEvents w { c with log := c.log ++ [(m c.venId, some (some "oadrDistributeEvent", p))] } p

theorem poll_fetches : Fetches clientPoll .poll where
  first := clientPoll_first
  events w c p h1 h2 := by
    rw [h1] at h2
    simp [clientPoll, perform, h2, h1, unpack, actOnPoll]

theorem sync_fetches : Fetches syncEvents .requestEvent where
  first w c := by
    have h : ∀ (d : Client) ks, Sends (perform w c (.requestEvent c.venId)).1 d ks → d.log[c.log.length]? = some (.requestEvent c.venId, w.net c.log.length) := by
      intro d ks hs
      obtain ⟨new, h1, -⟩ := hs.sent
      rw [h1]
      simp [perform]
    unfold syncEvents
    split
    · exact h _ _ (Sends.rfl' _)
    · exact h _ _ (events_sends w _ _)
  events w c p h1 h2 := by
    rw [h1] at h2
    simp only [syncEvents, perform, h2, h1, unpack]

/-- What the VEN gets to read of events. -/
def gotEvents (k : Connection S) (n : Nat) (es : List Event) (rid : Option String) : Dict :=
  receivedWith (es.map (fun e => eventP (k.link n).lib (e.prepared (k.link n).serverNow))) k.config.vtnId k.config.newId rid

/-- The message of events that the client then acts on. -/
def eventsFor (k : Connection S) (n : Nat) (es : List Event) : EventMessage :=
  ⟨.str k.config.vtnId, .str k.config.newId, es.map (Event.arrived (k.link n).lib (k.link n).serverNow)⟩

theorem got_readable (k : Connection S) (n : Nat) (es : List Event) (rid : Option String) :
    checkAnswer (some (some "oadrDistributeEvent", Payload.parsed (gotEvents k n es rid))) =
      .ok (some (some "oadrDistributeEvent", Payload.parsed (gotEvents k n es rid))) := by
  have h : Dict.get? (gotEvents k n es rid) "response" =
      some (.dict [("response_code", .int 200), ("response_description", .str "OK"), ("request_id", .str (rid.getD "None"))]) := by
    simp [gotEvents, receivedWith, Dict.get?]
  have h' : (Payload.parsed (gotEvents k n es rid)).fields = gotEvents k n es rid := rfl
  simp only [checkAnswer, h', h]
  simp [Dict.get?]

/-- Events that come in the answer to the first message of an action, until the callbacks of the VTN. -/
theorem fetched_run {act : World → Client → Client × Res Unit} {m : Value → Outgoing} (hf : Fetches act m) {k : Connection Vtn} {env : Env} {vtnClock : Nat → Int}
    {w : World} {n : Nat} {x : Serving Vtn} {y : Client} {ven : String} {rid : Option String} {es : List Event} {s1 : Server} {log1 : List Effect}
    (hv : y.venId = .str ven) (con : Connected (k.link (y.log.length + 1)) k.config k.secure k.peer x.1 ven)
    (hlib : (k.link (y.log.length + 1)).lib = (k.link y.log.length).lib) (hsvc : k.service "EiEvent" = eventService env vtnClock)
    (h1 : k.deliver y.log.length (m y.venId) x = ((x.1, (s1, log1)), .ok (some (some "oadrDistributeEvent", gotEvents k y.log.length es rid))))
    (hne : es ≠ []) (hes : ∀ e ∈ es, e.Sendable (k.link y.log.length).lib) (hw : ∀ e ∈ es, e.Whole) (hext : s1.external = false)
    (hval' : ∀ a txt, (onEventMessage w.handlers (w.clock (y.log.length + 1)) y.calls y.events (eventsFor k y.log.length es)).2.2 = some a →
      createMessage (k.link (y.log.length + 1)).lib (k.link (y.log.length + 1)).clientNow "oadrCreatedEvent" (a.payload (.str ven)) = .ok txt →
      ∃ tree, k.config.validate (String.ofList txt) = .ok tree) :
    let asked := onEventMessage w.handlers (w.clock (y.log.length + 1)) y.calls y.events (eventsFor k y.log.length es)
    let told := createdEvent env s1 ven ((entriesOf asked.2.2).map VenResponse.handled)
    (k.run act w (n + 2) (x, y)).1.1 = (x.1, (told.1, log1 ++ told.2.1)) ∧
    ∃ lg, (k.run act w (n + 2) (x, y)).1.2 = { y with events := asked.1, calls := asked.2.1, log := lg } := by
  intro asked told
  have hread : (Payload.parsed (gotEvents k y.log.length es rid)).events = some (eventsFor k y.log.length es) := read_message hne hes hw
  have hcheck := got_readable k y.log.length es rid
  generalize ha1 : (.ok (some (some "oadrDistributeEvent", gotEvents k y.log.length es rid)) : Got) = a1 at h1
  have hnet : ∀ as : List Got, as[0]? = some a1 → (w.hearing y.log.length as).net y.log.length =
      some (some "oadrDistributeEvent", Payload.parsed (gotEvents k y.log.length es rid)) := fun as h =>
    hearing_net w y.log.length as 0 (some (some "oadrDistributeEvent", gotEvents k y.log.length es rid)) (by rw [h, ← ha1])
  generalize hp : Payload.parsed (gotEvents k y.log.length es rid) = p at hread hcheck hnet
  have hnil : (eventsFor k y.log.length es).events ≠ [] := by simpa [eventsFor] using hne
  have hstep : ∀ as : List Got, as[0]? = some a1 → act (w.hearing y.log.length as) y = clientOnEvent (w.hearing y.log.length as)
      { y with log := y.log ++ [(m y.venId, some (some "oadrDistributeEvent", p))] } (eventsFor k y.log.length es) := by
    intro as h
    rw [hf.events _ _ p (hnet as h) (by rw [hnet as h]; exact hcheck)]
    simp only [clientEvents, hread, if_neg hnil]
  cases hr : asked.2.2 with
  | none =>
    have hasked : asked = (asked.1, asked.2.1, none) := by rw [← hr]
    have hdo : act (w.hearing y.log.length [a1]) y =
        ({ y with events := asked.1, calls := asked.2.1, log := y.log ++ [(m y.venId, some (some "oadrDistributeEvent", p))] }, .ok ()) := by
      rw [hstep [a1] rfl, clientOnEvent]
      simp only [List.length_append, List.length_singleton]
      rw [show onEventMessage (w.hearing y.log.length [a1]).handlers ((w.hearing y.log.length [a1]).clock (y.log.length + 1)) y.calls y.events
        (eventsFor k y.log.length es) = (asked.1, asked.2.1, none) from hasked]
    have htold : told = (s1, [], .ok .response) := by
      show createdEvent env s1 ven _ = _
      simp [hr, entriesOf, createdEvent, hext, respondAll]
    have := act_one k act w (n + 1) x _ y (m y.venId) a1 (fun w => hf.first w y) h1 (by rw [hdo]; simp)
    rw [this, hdo, htold]
    exact ⟨by simp, _, rfl⟩
  | some a =>
    have hasked : asked = (asked.1, asked.2.1, some a) := by rw [← hr]
    have hsend : a.Sendable (k.link (y.log.length + 1)).lib := by
      refine answers_sendable w.handlers (w.clock (y.log.length + 1)) y.calls y.events _ rfl con.newId (fun e he => ?_) hasked
      simp only [eventsFor, List.mem_map] at he
      obtain ⟨e', he', rfl⟩ := he
      rw [arrived_id, hlib]; exact (hes e' he').wired.id
    have h3 := answers_handled (env := env) (vtnClock := vtnClock) (s := s1) (log := log1) con.sound con.venId hsend con.letsIn (fun txt => hval' a txt hr)
    have htold : told = createdEvent env s1 ven (a.responses.map VenResponse.handled) := by
      show createdEvent env s1 ven _ = _
      simp only [hr, entriesOf]
    generalize hy : k.deliver (y.log.length + 1) (.createdEvent (.str ven) a) (x.1, (s1, log1)) = z
    have hz : z.1 = (x.1, (told.1, log1 ++ told.2.1)) := by
      rw [← hy, htold, ← h3, ← hsvc]
      rfl
    obtain ⟨z1, b⟩ := z
    simp only at hz
    subst hz
    have hdo : ∀ as : List Got, as[0]? = some a1 → (act (w.hearing y.log.length as) y).1 =
        { y with events := asked.1, calls := asked.2.1, log := y.log ++ [(m y.venId, some (some "oadrDistributeEvent", p)),
          (.createdEvent (.str ven) a, (w.hearing y.log.length as).net (y.log.length + 1))] } := by
      intro as h
      rw [hstep as h, clientOnEvent]
      simp only [List.length_append, List.length_singleton]
      rw [show onEventMessage (w.hearing y.log.length as).handlers ((w.hearing y.log.length as).clock (y.log.length + 1)) y.calls y.events
        (eventsFor k y.log.length es) = (asked.1, asked.2.1, some a) from hasked]
      simp only [send_fst, perform, hv, List.append_assoc, List.singleton_append, List.length_append, List.length_singleton]
    have := act_two k act w n x _ _ y (m y.venId) a1 b (.createdEvent (.str ven) a) ((w.hearing y.log.length [a1]).net (y.log.length + 1)) (fun w => hf.first w y) h1
      (by rw [hdo [a1] rfl]; simp) hy (by rw [hdo [a1, b] rfl]; simp)
    rw [this]
    exact ⟨rfl, _, hdo [a1, b] rfl⟩

/-- What is told, for an action whose first message the VTN answers by handing out the queue. -/
theorem fetched_told {act : World → Client → Client × Res Unit} {m : Value → Outgoing} (hf : Fetches act m) {k : Connection Vtn} {env : Env} {vtnClock : Nat → Int}
    {w : World} {n : Nat} {x : Serving Vtn} {y : Client} {ven : String} {rid : Option String} {es : List Event} {s1 t : Server} {effects : List Effect}
    (hv : y.venId = .str ven) (con : Connected (k.link (y.log.length + 1)) k.config k.secure k.peer x.1 ven)
    (hlib : (k.link (y.log.length + 1)).lib = (k.link y.log.length).lib) (hsvc : k.service "EiEvent" = eventService env vtnClock)
    (h1 : k.deliver y.log.length (m y.venId) x = ((x.1, (t, x.2.2 ++ effects)), .ok (some (some "oadrDistributeEvent", gotEvents k y.log.length es rid))))
    (ht : t.external = s1.external ∧ t.callbacks = s1.callbacks ∧ t.doneFutures = s1.doneFutures ∧ t.queue ven = s1.queue ven)
    (hval' : ∀ a txt, (onEventMessage w.handlers (w.clock (y.log.length + 1)) y.calls y.events (eventsFor k y.log.length es)).2.2 = some a →
      createMessage (k.link (y.log.length + 1)).lib (k.link (y.log.length + 1)).clientNow "oadrCreatedEvent" (a.payload (.str ven)) = .ok txt →
      ∃ tree, k.config.validate (String.ofList txt) = .ok tree)
    (hint : x.2.1.external = false) (htake : takeEvents vtnClock x.2.1 ven = (s1, some es)) (hne : es ≠ [])
    (hes : ∀ e ∈ es, e.Sendable (k.link y.log.length).lib) (hw : ∀ e ∈ es, e.Whole)
    (hlow : isLowerText k.config.vtnId = false) (hd : Distinct es) (htot : w.handlers.Total) (hq : ∀ e, env.raises e = none) (hun : Unshared x.2.1)
    (hrem : Remembered y.events (eventsFor k y.log.length es).events)
    (hover : ∀ p ∈ es.zipIdx, asksFor (w.clock (y.log.length + 1)) p.1 p.2 = true → p.1.status ≠ .completed) :
    let z := (k.run act w (n + 2) (x, y)).1
    (∃ vs, vs.length = es.length ∧ (∀ p ∈ es.zip vs, Justified w.handlers y.events (p.1.arrived (k.link y.log.length).lib (k.link y.log.length).serverNow) p.2) ∧
      z.2.calls = y.calls ++ dueCalls y.events (eventsFor k y.log.length es).events ∧
      z.1.2.2 = x.2.2 ++ effects ++
        ((es.zip vs).zipIdx.filter (fun p => asksFor (w.clock (y.log.length + 1)) p.1.1 p.2)).flatMap (fun p => told x.2.1 ven p.1.1.id (optText p.1.2))) ∧
    z.1.2.1.updated = t.updated ∧ (∃ ev ca lg, z.2 = { y with events := ev, calls := ca, log := lg }) := by
  intro z
  have hext : t.external = false := by
    have := (takeEvents_frame vtnClock x.2.1 ven).1
    rw [htake] at this
    exact ht.1.trans (this.trans hint)
  obtain ⟨r1, lg, r2⟩ := fetched_run (n := n) hf hv con hlib hsvc h1 hne hes hw hext hval'
  have hd' : Distinct (eventsFor k y.log.length es).events := List.pairwise_map.mpr hd
  obtain ⟨s', vs, hda, hlen, hj⟩ := decideAll_justified w.handlers htot (eventsFor k y.log.length es).events y.calls y.events hd' hrem
  have hres : resultsOf w.handlers y.calls y.events (eventsFor k y.log.length es) =
      (s', y.calls ++ dueCalls y.events (eventsFor k y.log.length es).events, false, fixResults (eventsFor k y.log.length es).events vs) := by
    unfold resultsOf
    rw [show (eventsFor k y.log.length es).vtnId = .str k.config.vtnId from rfl]
    simp [hlow, hda]
  have hlen' : vs.length = es.length := by simpa [eventsFor] using hlen
  have hent := entries_onEventMessage w.handlers (w.clock (y.log.length + 1)) y.calls y.events (eventsFor k y.log.length es)
  rw [hres] at hent
  simp only [eventsFor, responsesFor_decided (k.link y.log.length).lib (k.link y.log.length).serverNow (w.clock (y.log.length + 1)) _ es vs 0 hlen'] at hent
  have hc := answers_told (env := env) (lib := (k.link y.log.length).lib) (now := (k.link y.log.length).serverNow) (q := .str k.config.newId) (vs := vs) hint htake
    ht hd hq hun hover
  rw [← hent] at hc
  refine ⟨⟨vs, hlen', fun p hp => ?_, ?_, ?_⟩, ?_, ⟨_, _, lg, r2⟩⟩
  · refine hj (p.1.arrived (k.link y.log.length).lib (k.link y.log.length).serverNow, p.2) ?_
    rw [eventsFor, List.zip_map_left, List.mem_map]
    exact ⟨p, hp, rfl⟩
  · show (k.run act w (n + 2) (x, y)).1.2.calls = _
    rw [r2]
    show (onEventMessage w.handlers (w.clock (y.log.length + 1)) y.calls y.events (eventsFor k y.log.length es)).2.1 = _
    rw [(onEventMessage_state w.handlers _ y.calls y.events _).2, hres]
  · show (k.run act w (n + 2) (x, y)).1.1.2.2 = _
    rw [r1]
    show x.2.2 ++ effects ++ _ = _
    congr 1
  · show (k.run act w (n + 2) (x, y)).1.1.2.1.updated = _
    rw [r1]
    simp only [createdEvent_state, hext]
    exact (respondAll_frame env t ven _).1

/-- **C96** (partial: see the refutations of C87 for what is asked of the ids and of the events). A VEN that asks for its events, as it does when it starts and after
    each re-registration, gets its whole queue, whether or not it was told of the events before: its handlers are called exactly for the events that are new or
    changed for it, in the order of the message, with the events as they were added; and the callbacks of the VTN are called, or its futures resolved, exactly for
    the events that ask for an answer and are not over, each with the decision of the handlers for this event. Nothing else of the client changes, and an update
    that the VTN has noted for a VEN stays noted, so that the next poll hands out the events once more. -/
theorem c96_sync_partial {k : Connection Vtn} {env : Env} {vtnClock : Nat → Int}
    {w : World} {n : Nat} {x : Serving Vtn} {y : Client} {ven : String} {es : List Event} {s1 : Server} {effects : List Effect}
    (hv : y.venId = .str ven) (con : Connected (k.link y.log.length) k.config k.secure k.peer x.1 ven)
    (con' : Connected (k.link (y.log.length + 1)) k.config k.secure k.peer x.1 ven)
    (hlib : (k.link (y.log.length + 1)).lib = (k.link y.log.length).lib) (hsvc : k.service "EiEvent" = eventService env vtnClock)
    (hid : Ordinary (k.link y.log.length).lib (k.dressing.ids y.log.length))
    (hval : k.Valid y.log.length "oadrRequestEvent" [("request_id", .str (k.dressing.ids y.log.length)), ("ven_id", .str ven), ("reply_limit", .none)]
      "oadrDistributeEvent" (messageWith (.list (es.map Event.object)) k.config.vtnId ven k.config.newId (.str (k.dressing.ids y.log.length))))
    (hval' : ∀ a txt, (onEventMessage w.handlers (w.clock (y.log.length + 1)) y.calls y.events (eventsFor k y.log.length es)).2.2 = some a →
      createMessage (k.link (y.log.length + 1)).lib (k.link (y.log.length + 1)).clientNow "oadrCreatedEvent" (a.payload (.str ven)) = .ok txt →
      ∃ tree, k.config.validate (String.ofList txt) = .ok tree)
    (hint : x.2.1.external = false) (htake : takeEvents vtnClock x.2.1 ven = (s1, some es)) (hne : es ≠ [])
    (hdel : deliverAll env s1.delivery es = (effects, none)) (hes : ∀ e ∈ es, e.Sendable (k.link y.log.length).lib) (hw : ∀ e ∈ es, e.Whole)
    (hlow : isLowerText k.config.vtnId = false) (hd : Distinct es) (htot : w.handlers.Total) (hq : ∀ e, env.raises e = none) (hun : Unshared x.2.1)
    (hrem : Remembered y.events (eventsFor k y.log.length es).events)
    (hover : ∀ p ∈ es.zipIdx, asksFor (w.clock (y.log.length + 1)) p.1 p.2 = true → p.1.status ≠ .completed) :
    let z := (k.run syncEvents w (n + 2) (x, y)).1
    (∃ vs, vs.length = es.length ∧ (∀ p ∈ es.zip vs, Justified w.handlers y.events (p.1.arrived (k.link y.log.length).lib (k.link y.log.length).serverNow) p.2) ∧
      z.2.calls = y.calls ++ dueCalls y.events (eventsFor k y.log.length es).events ∧
      z.1.2.2 = x.2.2 ++ effects ++
        ((es.zip vs).zipIdx.filter (fun p => asksFor (w.clock (y.log.length + 1)) p.1.1 p.2)).flatMap (fun p => told x.2.1 ven p.1.1.id (optText p.1.2))) ∧
    (∀ v, z.1.2.1.flag v = x.2.1.flag v) ∧ (∃ ev ca lg, z.2 = { y with events := ev, calls := ca, log := lg }) := by
  intro z
  have h1 : k.deliver y.log.length (.requestEvent y.venId) x = ((x.1, (s1, x.2.2 ++ effects)), .ok (some (some "oadrDistributeEvent",
      gotEvents k y.log.length es (some (k.dressing.ids y.log.length))))) := by
    have := request_distributes (log := x.2.2) con hid hval.there hval.back hint htake hdel hes
    rw [hv, ← hsvc] at *
    exact this
  obtain ⟨r1, r2, r3⟩ := fetched_told (n := n) sync_fetches hv con' hlib hsvc h1 ⟨rfl, rfl, rfl, rfl⟩ hval' hint htake hne hes hw hlow hd htot hq hun hrem hover
  refine ⟨r1, fun v => ?_, r3⟩
  have := (takeEvents_frame vtnClock x.2.1 ven).2.1
  rw [htake] at this
  show Server.flag z.1.2.1 v = _
  simp only [Server.flag]
  rw [show z.1.2.1.updated = x.2.1.updated from r2.trans this]

/-- **C96** for polls (partial, as above): a poll of the whole client for which there is an update does the same, and the update counts as delivered. -/
theorem c96_poll_partial {k : Connection Vtn} {env : Env} {vtnClock : Nat → Int}
    {w : World} {n : Nat} {x : Serving Vtn} {y : Client} {ven : String} {es : List Event} {s1 : Server} {effects : List Effect}
    (hv : y.venId = .str ven) (con : Connected (k.link y.log.length) k.config k.secure k.peer x.1 ven)
    (con' : Connected (k.link (y.log.length + 1)) k.config k.secure k.peer x.1 ven)
    (hlib : (k.link (y.log.length + 1)).lib = (k.link y.log.length).lib) (hsvc : k.service "EiEvent" = eventService env vtnClock)
    (hpoll : k.service "OadrPoll" = pollService env vtnClock)
    (hval : k.Valid y.log.length "oadrPoll" [("ven_id", .str ven)]
      "oadrDistributeEvent" (messageWith (.list (es.map Event.object)) k.config.vtnId ven k.config.newId .none))
    (hval' : ∀ a txt, (onEventMessage w.handlers (w.clock (y.log.length + 1)) y.calls y.events (eventsFor k y.log.length es)).2.2 = some a →
      createMessage (k.link (y.log.length + 1)).lib (k.link (y.log.length + 1)).clientNow "oadrCreatedEvent" (a.payload (.str ven)) = .ok txt →
      ∃ tree, k.config.validate (String.ofList txt) = .ok tree)
    (hint : x.2.1.external = false) (hflag : x.2.1.flag ven = true) (htake : takeEvents vtnClock x.2.1 ven = (s1, some es)) (hne : es ≠ [])
    (hdel : deliverAll env s1.delivery es = (effects, none)) (hes : ∀ e ∈ es, e.Sendable (k.link y.log.length).lib) (hw : ∀ e ∈ es, e.Whole)
    (hlow : isLowerText k.config.vtnId = false) (hd : Distinct es) (htot : w.handlers.Total) (hq : ∀ e, env.raises e = none) (hun : Unshared x.2.1)
    (hrem : Remembered y.events (eventsFor k y.log.length es).events)
    (hover : ∀ p ∈ es.zipIdx, asksFor (w.clock (y.log.length + 1)) p.1 p.2 = true → p.1.status ≠ .completed) :
    let z := (k.run clientPoll w (n + 2) (x, y)).1
    (∃ vs, vs.length = es.length ∧ (∀ p ∈ es.zip vs, Justified w.handlers y.events (p.1.arrived (k.link y.log.length).lib (k.link y.log.length).serverNow) p.2) ∧
      z.2.calls = y.calls ++ dueCalls y.events (eventsFor k y.log.length es).events ∧
      z.1.2.2 = x.2.2 ++ effects ++
        ((es.zip vs).zipIdx.filter (fun p => asksFor (w.clock (y.log.length + 1)) p.1.1 p.2)).flatMap (fun p => told x.2.1 ven p.1.1.id (optText p.1.2))) ∧
    (∀ v, z.1.2.1.flag v = if v = ven then false else x.2.1.flag v) ∧ (∃ ev ca lg, z.2 = { y with events := ev, calls := ca, log := lg }) := by
  intro z
  have h1 : k.deliver y.log.length (.poll y.venId) x = ((x.1, ({ s1 with updated := Dict.set s1.updated ven false }, x.2.2 ++ effects)),
      .ok (some (some "oadrDistributeEvent", gotEvents k y.log.length es none))) := by
    have := poll_distributes (log := x.2.2) con.sound con.venId con.vtnId con.newId con.now con.zero con.letsIn hval.there hval.back hint hflag htake hdel hes
    rw [hv, ← hpoll] at *
    exact this
  obtain ⟨r1, r2, r3⟩ := fetched_told (n := n) (s1 := s1) poll_fetches hv con' hlib hsvc h1 ⟨rfl, rfl, rfl, rfl⟩ hval' hint htake hne hes hw hlow hd htot hq hun hrem hover
  refine ⟨r1, fun v => ?_, r3⟩
  have := (takeEvents_frame vtnClock x.2.1 ven).2.1
  rw [htake] at this
  show Server.flag z.1.2.1 v = _
  simp only [Server.flag]
  rw [show z.1.2.1.updated = Dict.set s1.updated ven false from r2, Dict.get?_set, show s1.updated = x.2.1.updated from this]
  split <;> simp_all

/-- **C96** for a VEN for which there is nothing: asking for events changes nothing on either side, and raises nothing. -/
theorem c96_sync_nothing {k : Connection Vtn} {env : Env} {vtnClock : Nat → Int} {w : World} {n : Nat} {x : Serving Vtn} {y : Client} {ven : String}
    (hv : y.venId = .str ven) (con : Connected (k.link y.log.length) k.config k.secure k.peer x.1 ven) (hsvc : k.service "EiEvent" = eventService env vtnClock)
    (hid : Ordinary (k.link y.log.length).lib (k.dressing.ids y.log.length))
    (hval : k.Valid y.log.length "oadrRequestEvent" [("request_id", .str (k.dressing.ids y.log.length)), ("ven_id", .str ven), ("reply_limit", .none)]
      "oadrResponse" (k.config.answers (requestMessage (k.dressing.ids y.log.length) ven) []))
    (hint : x.2.1.external = false) (hq : x.2.1.queue ven = []) :
    ∃ a, k.run syncEvents w (n + 1) (x, y) = ((x, { y with log := y.log ++ [(.requestEvent (.str ven), a)] }), .ok ()) := by
  have h1 : k.deliver y.log.length (.requestEvent y.venId) x = (x, .ok (some (some "oadrResponse", nothingFor (k.dressing.ids y.log.length) ven))) := by
    have := request_nothing (env := env) (vtnClock := vtnClock) (log := x.2.2) con hid hval.there hval.back hint hq
    rw [hv, ← hsvc] at *
    exact this
  generalize ha1 : (.ok (some (some "oadrResponse", nothingFor (k.dressing.ids y.log.length) ven)) : Got) = a1 at h1
  have hnet : (w.hearing y.log.length [a1]).net y.log.length = some (some "oadrResponse", Payload.parsed (nothingFor (k.dressing.ids y.log.length) ven)) :=
    hearing_net w y.log.length [a1] 0 (some (some "oadrResponse", nothingFor (k.dressing.ids y.log.length) ven)) (by rw [← ha1]; rfl)
  have hdo : syncEvents (w.hearing y.log.length [a1]) y =
      ({ y with log := y.log ++ [(.requestEvent (.str ven), some (some "oadrResponse", Payload.parsed (nothingFor (k.dressing.ids y.log.length) ven)))] }, .ok ()) := by
    have hc : checkAnswer (some (some "oadrResponse", Payload.parsed (nothingFor (k.dressing.ids y.log.length) ven))) =
        .ok (some (some "oadrResponse", Payload.parsed (nothingFor (k.dressing.ids y.log.length) ven))) := by
      simp [checkAnswer, Payload.parsed, nothingFor, Dict.get?]
    have he : (Payload.parsed (nothingFor (k.dressing.ids y.log.length) ven)).events = none := by
      simp [Payload.parsed, readEventMessage, nothingFor, Dict.get?]
    simp only [syncEvents, perform, hnet, hc, unpack, clientEvents, he, hv]
  refine ⟨some (some "oadrResponse", Payload.parsed (nothingFor (k.dressing.ids y.log.length) ven)), ?_⟩
  rw [act_one k syncEvents w n x _ y (.requestEvent y.venId) a1 (fun w => sync_fetches.first w y) h1 (by rw [hdo]; simp), hdo]

end Openleadr
