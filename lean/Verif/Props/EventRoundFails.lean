import Verif.Props.EventRound
import Verif.Props.ErrorReplies
import Verif.Props.Preflight
/-!
C87: polls in which no event reaches the VEN, and an example in which events do.
-/
namespace Openleadr

/-! ### Nothing to tell -/

/-- What a VEN receives in answer to a poll when there is nothing for it. -/
def nothingNew (x : Value) : Dict :=
  [("response", .dict [("response_code", .int 200), ("response_description", .str "OK"), ("request_id", .none)]), ("ven_id", x)]

/-- The poll is answered with an oadrResponse. -/
theorem poll_nothing {k : Link} {c : Config} {env : Env} {vtnClock : Nat → Int} {cache : NonceCache} {st : Vtn} {secure : Bool} {peer : Option String}
    {ven x y : Value} (sound : k.lib.Sound) (hw : Wired k.lib "ven_id" .plain ven x) (hw' : Wired k.lib "ven_id" .plain x y)
    (hk : checkKnown c "oadrPoll" [("ven_id", x)] = .ok ())
    (ha : ∀ txt tree, c.validate (String.ofList txt) = .ok tree → (if secure ∧ Dict.has [("ven_id", x)] "ven_id" then
      authenticate c k.surroundings k.count cache (requestOf secure peer txt) tree [("ven_id", x)] else (cache, .ok ())) = (cache, .ok ()))
    (hval : ∀ txt, createMessage k.lib k.clientNow "oadrPoll" [("ven_id", ven)] = .ok txt → ∃ tree, c.validate (String.ofList txt) = .ok tree)
    (hacc : ∀ p txt, createMessage k.lib k.serverNow "oadrResponse" p = .ok txt → k.accepts (String.ofList txt) = true)
    (hh : pollHandler env vtnClock st [("ven_id", x)] = (st, .ok (.pair "oadrResponse" (.dict [])))) :
    exchange k c (pollService env vtnClock) cache st secure peer "oadrPoll" [("ven_id", ven)] = ((cache, st), .ok (some (some "oadrResponse", nothingNew y))) := by
  have hr : Arrives k.lib k.serverNow "oadrResponse" [("response", .dict (LooseResponseP.dict ⟨200, "OK", none⟩)), ("ven_id", x)] (nothingNew y) :=
    arrives_of (by rfl) (fun _ => .cons (carries_looseResponse sound (r := ⟨200, "OK", none⟩) ⟨ordinary_OK sound, by simp⟩ (by lk))
      (.cons (carries_leaf "venID" "ven_id" (by lk) hw') .nil)) (by simp [nothingNew, LooseResponseP.received, text?]) (by simp [nothingNew])
  have hr' : Received k.lib k.serverNow "oadrResponse" (completed c [("ven_id", x)] (finishPayload c [("ven_id", x)] [])) (nothingNew y) := by
    have h1 := hr [("response", .dict [("request_id", .none), ("response_code", .int 200), ("response_description", .str "OK")]), ("ven_id", x)] (by
      refine conforms_entries (ks := ["response", "ven_id"]) rfl (by decide) (within_cons (within_cons (within_nil _))) ?_
      refine all_cons (.inl ⟨_, by simp [Dict.get?]; rfl, ?_⟩) (all_cons (.inl ⟨_, by simp [Dict.get?], .same _⟩) all_nil)
      refine conforms_entries (ks := ["request_id", "response_code", "response_description"]) rfl (by decide)
        (within_append (within_cons (within_cons (within_nil _))) within_entry) ?_
      refine all_cons (.inr ⟨?_, ?_, by decide⟩) (all_cons (accounted_as (v := some _) ?_) (all_cons (accounted_as (v := some _) ?_) all_nil)) <;>
        simp [LooseResponseP.dict, Dict.get?, Dict.get?_append, Dict.get?_entry?, text?])
    refine received_agree (t := tResponse) (by rfl) (fun j hj => ?_) h1
    have hr : tResponse.reads.all (fun j => j != "vtn_id" && j != "request_id") = true := by decide +kernel
    have hne : j ≠ "vtn_id" ∧ j ≠ "request_id" := by
      have := List.all_eq_true.mp hr j hj
      simpa using this
    simp [completed, finishPayload, Dict.set, Dict.has, Dict.get?, Value.truthy, Ne.symm hne.1, Ne.symm hne.2] <;> grind
  refine exchange_answered (poll_received hw) (fun txt h1 h2 => ?_) hr' (fun txt h => hacc _ txt h)
  obtain ⟨tree, hv⟩ := hval txt h1
  have hw0 : withPeer secure peer "oadrPoll" [("ven_id", x)] = [("ven_id", x)] := by simp [withPeer]
  have hm : handleMessage c (pollService env vtnClock) st "oadrPoll" (withPeer secure peer "oadrPoll" [("ven_id", x)]) =
      (st, .ok ("oadrResponse", finishPayload c [("ven_id", x)] [])) := by
    rw [hw0]
    simp only [handleMessage, pollService, Dict.get?, if_true, hh, payloadDict]
  rw [handle_passed hv h2 (by decide) (by simp [Dict.get?]) hk (ha txt tree hv) hm, hw0]

/-- A poll without news changes nothing. -/
theorem round_nothing {k : Link} {c : Config} {env : Env} {h : VenHandlers} {vtnClock venClock : Nat → Int} {secure : Bool} {peer : Option String}
    {ven : Value} {x : Sides} {y : Dict} (he : exchange k c (pollService env vtnClock) x.cache x.vtn secure peer "oadrPoll" [("ven_id", ven)] =
      ((x.cache, x.vtn), .ok (some (some "oadrResponse", y)))) :
    pollRound k c env h vtnClock venClock secure peer ven x = x := by
  rw [pollRound, he]
  split
  · rename_i hc
    simp only [Prod.mk.injEq, Except.ok.injEq, Option.some.injEq] at hc
    exact absurd hc.2.1 (by decide)
  · rename_i hc
    simp only [Prod.mk.injEq] at hc
    obtain ⟨⟨rfl, rfl⟩, -⟩ := hc
    rfl

/-- **C87**: a poll of a VEN for which nothing was added or cancelled since the last one changes nothing and calls nobody, on either side. -/
theorem c87_nothing_new {k : Link} {c : Config} {env : Env} {h : VenHandlers} {vtnClock venClock : Nat → Int} {x : Sides}
    {secure : Bool} {peer : Option String} {ven : String} (con : Connected k c secure peer x.cache ven)
    (hval : ∀ txt, createMessage k.lib k.clientNow "oadrPoll" [("ven_id", .str ven)] = .ok txt → ∃ tree, c.validate (String.ofList txt) = .ok tree)
    (hacc : ∀ p txt, createMessage k.lib k.serverNow "oadrResponse" p = .ok txt → k.accepts (String.ofList txt) = true)
    (hint : x.vtn.1.external = false) (hflag : x.vtn.1.flag ven = false) :
    pollRound k c env h vtnClock venClock secure peer (.str ven) x = x := by
  refine round_nothing (poll_nothing con.sound (wired_text con.venId (by decide +kernel)) (wired_text con.venId (by decide +kernel))
    (con.letsIn.known _ _ (by simp [Dict.get?])) (fun txt tree hv => con.letsIn.authentic txt tree _ hv (by simp [Dict.get?])) hval hacc ?_)
  simp [pollHandler, venKey, Dict.get?, poll, hint, hflag, served, Reply.returned]

/-- **C87, refuted** for a VEN whose id is a number: whatever there is in its queue, its polls are answered as if there were nothing, because its id is read as
    a number and the queue is kept under a text (if the VTN looks VENs up, they are not even known, see C85). -/
theorem c87_number_violated {k : Link} {c : Config} {env : Env} {h : VenHandlers} {vtnClock venClock : Nat → Int} {x : Sides} {peer : Option String} (i : Int)
    (sound : k.lib.Sound) (hl : c.venLookup = none)
    (hval : ∀ txt, createMessage k.lib k.clientNow "oadrPoll" [("ven_id", .str (String.ofList (intText i)))] = .ok txt →
      ∃ tree, c.validate (String.ofList txt) = .ok tree)
    (hacc : ∀ p txt, createMessage k.lib k.serverNow "oadrResponse" p = .ok txt → k.accepts (String.ofList txt) = true) :
    pollRound k c env h vtnClock venClock false peer (.str (String.ofList (intText i))) x = x := by
  refine round_nothing (poll_nothing sound (x := .int i) (y := .int i)
    (wired_taken sound (safe_onWire _ (intText_ne i) (intText_safe i)) (intText_taken sound i) (by decide +kernel)) (wired_int sound i (by decide +kernel))
    (by simp [checkKnown, hl, Dict.get?]) (fun _ _ _ => by simp) hval hacc ?_)
  simp [pollHandler, venKey, Dict.get?, Reply.returned]

/-! ### Events that cannot be sent -/

/-- The poll of a VEN whose events cannot be sent: the handler has done its work, and then the message cannot be made. -/
theorem poll_refused {k : Link} {c : Config} {env : Env} {vtnClock : Nat → Int} {cache : NonceCache} {s s1 : Server} {log effects : List Effect}
    {secure : Bool} {peer : Option String} {ven : String} {es : List Event} {err : Err} (hven : Ordinary k.lib ven) (hin : LetsIn k c secure peer cache ven)
    (hval : ∀ txt, createMessage k.lib k.clientNow "oadrPoll" [("ven_id", .str ven)] = .ok txt → ∃ tree, c.validate (String.ofList txt) = .ok tree)
    (hint : s.external = false) (hflag : s.flag ven = true) (htake : takeEvents vtnClock s ven = (s1, some es))
    (hdel : deliverAll env s1.delivery es = (effects, none))
    (herr : createMessage k.lib k.serverNow "oadrDistributeEvent" (messageWith (.list (es.map Event.object)) c.vtnId ven c.newId .none) = .error err) :
    exchange k c (pollService env vtnClock) cache (s, log) secure peer "oadrPoll" [("ven_id", .str ven)] =
      ((cache, ({ s1 with updated := Dict.set s1.updated ven false }, log ++ effects)), .ok (some (none, []))) := by
  have hpoll : poll env vtnClock s ven = ({ s1 with updated := Dict.set s1.updated ven false }, effects, .ok (.distribute es)) := by
    simp [poll, hint, hflag, requestEvent, htake, hdel]
  obtain ⟨txt, h1, h2⟩ := poll_received (now := k.clientNow) (wired_text hven (by decide +kernel))
  obtain ⟨tree, hv⟩ := hval txt h1
  have hh : handleMessage c (pollService env vtnClock) (s, log) "oadrPoll" (withPeer secure peer "oadrPoll" [("ven_id", .str ven)]) =
      (({ s1 with updated := Dict.set s1.updated ven false }, log ++ effects), .ok ("oadrDistributeEvent",
        messageWith (.list (es.map Event.object)) c.vtnId ven c.newId .none)) := by
    have hw : withPeer secure peer "oadrPoll" [("ven_id", .str ven)] = [("ven_id", .str ven)] := by simp [withPeer]
    rw [hw]
    simp only [handleMessage, pollService, Dict.get?, if_true, pollHandler, venKey, served, hpoll, Reply.returned, payloadDict]
    simp [finishPayload, Dict.set, Dict.get?, Value.truthy, messageWith]
  have hp := handle_passed (now := k.serverNow) hv h2 (by decide) (by simp [Dict.get?]) (hin.known _ _ (by simp [Dict.get?]))
    (hin.authentic txt tree _ hv (by simp [Dict.get?])) hh
  have hcomp : completed c (withPeer secure peer "oadrPoll" [("ven_id", .str ven)]) (messageWith (.list (es.map Event.object)) c.vtnId ven c.newId .none) =
      messageWith (.list (es.map Event.object)) c.vtnId ven c.newId .none := by
    simp [completed, withPeer, messageWith, Dict.has, Dict.get?, Dict.set]
  rw [hcomp] at hp
  have hs : sendMessage (wired c k.lib k.serverNow) "oadrDistributeEvent" (messageWith (.list (es.map Event.object)) c.vtnId ven c.newId .none) =
      .error (.other err) := by
    simp only [sendMessage, wired, renderText, herr]
  rw [hs] at hp
  simp only [exchange, h1]
  rw [show (⟨some "application/xml", secure, peer, String.ofList txt⟩ : Request) = requestOf secure peer txt from rfl, hp]
  rfl

/-- **C87, refuted** for a VEN that has an event with a level that SIMPLE signals do not have (`add_event` takes any): the poll gets no events at all, neither this
    one nor the others, but the callbacks for deliveries are called, and the update is taken as delivered: until another event is added or cancelled for this VEN
    its polls are answered as if there were nothing. -/
theorem c87_poisoned_violated {k : Link} {c : Config} {env : Env} {h : VenHandlers} {vtnClock venClock : Nat → Int} {x : Sides}
    {secure : Bool} {peer : Option String} {ven : String} {s1 : Server} {es : List Event} {effects : List Effect}
    (con : Connected k c secure peer x.cache ven)
    (hval : ∀ txt, createMessage k.lib k.clientNow "oadrPoll" [("ven_id", .str ven)] = .ok txt → ∃ tree, c.validate (String.ofList txt) = .ok tree)
    (hacc : ∀ p txt, createMessage k.lib k.serverNow "oadrResponse" p = .ok txt → k.accepts (String.ofList txt) = true)
    (hint : x.vtn.1.external = false) (hflag : x.vtn.1.flag ven = true) (htake : takeEvents vtnClock x.vtn.1 ven = (s1, some es))
    (hdel : deliverAll env s1.delivery es = (effects, none)) (hp : ∀ e ∈ es, e.Plain)
    {e : Event} (he : e ∈ es) {s : Signal} (hs : s ∈ e.signals) (hn : s.signalName = "SIMPLE") {i : Interval} (hi : i ∈ s.intervals) (hl : i.payload ∉ simpleLevels) :
    ∃ y, pollRound k c env h vtnClock venClock secure peer (.str ven) x = y ∧ y.ven = x.ven ∧ y.calls = x.calls ∧ y.vtn.2 = x.vtn.2 ++ effects ∧
      y.vtn.1.queue ven = s1.queue ven ∧ ∀ h' vtnClock' venClock', pollRound k c env h' vtnClock' venClock' secure peer (.str ven) y = y := by
  have herr : ∃ err, createMessage k.lib k.serverNow "oadrDistributeEvent" (messageWith (.list (es.map Event.object)) c.vtnId ven c.newId .none) = .error err := by
    have hm := plain_message (vtn := c.vtnId) (ven := ven) (id := c.newId) (rid := .none) hp (by simp [Value.asPlain])
    obtain ⟨err, h⟩ := c64_refused_levels k.serverNow (.dict (messageWith (.list ((es.map Event.fields).map .dict)) c.vtnId ven c.newId .none))
      (.dict e.fields) (.dict s.fields) (.dict i.fields)
      (by simp only [field, messageWith, Dict.get?, if_true, Option.getD_some, kids, List.mem_map]; exact ⟨_, ⟨e, he, rfl⟩, rfl⟩)
      (by simp only [field, (Event.gets e).2.1, Option.getD_some, kids, List.mem_map]; exact ⟨_, ⟨s, hs, rfl⟩, rfl⟩)
      (by simp [field, Signal.fields, Dict.get?, hn])
      (by simp only [field, Signal.fields, Dict.get?, if_true, Option.getD_some, kids, List.mem_map]; exact ⟨_, ⟨i, hi, rfl⟩, rfl⟩)
      (by simpa [field, Interval.fields, Dict.get?] using hl)
    refine ⟨err, ?_⟩
    simp only [createMessage, preflightMessage, if_true, hm, h]
  obtain ⟨err, herr⟩ := herr
  have hr := poll_refused (env := env) (log := x.vtn.2) con.venId con.letsIn hval hint hflag htake hdel herr
  have hext : s1.external = false := by
    have := (takeEvents_frame vtnClock x.vtn.1 ven).1
    rw [htake] at this
    exact this.trans hint
  have hround : pollRound k c env h vtnClock venClock secure peer (.str ven) x =
      ⟨x.cache, ({ s1 with updated := Dict.set s1.updated ven false }, x.vtn.2 ++ effects), x.ven, x.calls⟩ := by
    rw [pollRound, show x.vtn = (x.vtn.1, x.vtn.2) from rfl, hr]
  refine ⟨_, hround, rfl, rfl, rfl, rfl, fun h' vtnClock' venClock' => ?_⟩
  refine c87_nothing_new con hval hacc hext ?_
  simp [Server.flag, Dict.get?_set_self]

/-! ### Clocks, and periods that are lost -/

theorem refreshed_ids (clock : Nat → Int) (i : Nat) (l : List Event) : (refreshAll clock i l).map Event.id = l.map Event.id := by
  induction l generalizing i with
  | nil => rfl
  | cons e l ih =>
    simp only [refreshAll, List.map_cons, ih, List.cons.injEq, and_true]
    unfold refresh
    split
    · simp only []; split <;> rfl
    · rfl

theorem same_of_ids {l : List Event} (h : Distinct l) {a b : Event} (ha : a ∈ l) (hb : b ∈ l) (hi : a.id = b.id) : a = b := by
  induction l with
  | nil => simp at ha
  | cons e l ih =>
    obtain ⟨h1, h2⟩ := List.pairwise_cons.mp h
    rcases List.mem_cons.mp ha with ha' | ha' <;> rcases List.mem_cons.mp hb with hb' | hb'
    · rw [ha', hb']
    · exact absurd hi (ha' ▸ h1 b hb')
    · exact absurd hi.symm (hb' ▸ h1 a ha')
    · exact ih h2 ha' hb'

/-- An event that is over when it is handed out is not in the queue any more. -/
theorem handed_dropped {clock : Nat → Int} {s s1 : Server} {ven : String} {es : List Event} (htake : takeEvents clock s ven = (s1, some es))
    (hd : Distinct (s.queue ven)) {e : Event} (he : e ∈ es) (hc : e.status = .completed) : ∀ a ∈ s1.queue ven, a.id ≠ e.id := by
  obtain ⟨h1, h2, -⟩ := takeEvents_spec clock s ven
  rw [htake] at h1 h2
  simp only at h1 h2
  rw [h1]
  have hd' : Distinct (refreshAll clock 0 (s.queue ven)) := by
    have := hd
    unfold Distinct at this ⊢
    rw [← List.pairwise_map (f := Event.id) (R := fun a b => a ≠ b)] at this ⊢
    rwa [refreshed_ids]
  split at h2
  · cases h2
  · simp only [Option.some.injEq] at h2
    subst h2
    have hm : e ∈ refreshAll clock 0 (s.queue ven) := by
      unfold handedOut at he
      split at he
      · exact (List.mem_filter.mp he).1
      · exact (arrange_perm _).mem_iff.mp he
    intro a ha hi
    obtain ⟨ha1, ha2⟩ := List.mem_filter.mp ha
    have := same_of_ids hd' ha1 hm hi
    subst this
    simp [nc, hc] at ha2

/-- **C87, refuted** when the clocks differ: the first of several events is over for the VTN (it hands it out one last time) but not yet for the VEN, which
    answers; the VTN does not know the event any more, and the callbacks of none of the events are called, although the handlers of the VEN were. -/
theorem c87_clock_violated {k : Link} {c : Config} {env : Env} {h : VenHandlers} {vtnClock venClock : Nat → Int} {x : Sides}
    {secure : Bool} {peer : Option String} {ven : String} {s1 : Server} {e : Event} {rest : List Event} {effects : List Effect}
    (con : Connected k c secure peer x.cache ven)
    (hval : ∀ txt, createMessage k.lib k.clientNow "oadrPoll" [("ven_id", .str ven)] = .ok txt → ∃ tree, c.validate (String.ofList txt) = .ok tree)
    (hacc : ∀ txt, createMessage k.lib k.serverNow "oadrDistributeEvent" (messageWith (.list ((e :: rest).map Event.object)) c.vtnId ven c.newId .none) = .ok txt →
      k.accepts (String.ofList txt) = true)
    (hval' : ∀ a txt, (onEventMessage h venClock x.calls x.ven ⟨.str c.vtnId, .str c.newId, (e :: rest).map (Event.arrived k.lib k.serverNow)⟩).2.2 = some a →
      createMessage k.lib k.clientNow "oadrCreatedEvent" (a.payload (.str ven)) = .ok txt → ∃ tree, c.validate (String.ofList txt) = .ok tree)
    (hint : x.vtn.1.external = false) (hflag : x.vtn.1.flag ven = true) (htake : takeEvents vtnClock x.vtn.1 ven = (s1, some (e :: rest)))
    (hdel : deliverAll env s1.delivery (e :: rest) = (effects, none)) (hes : ∀ a ∈ e :: rest, a.Sendable k.lib) (hw : ∀ a ∈ e :: rest, a.Whole)
    (hlow : isLowerText c.vtnId = false) (hd : Distinct (e :: rest)) (hdq : Distinct (x.vtn.1.queue ven)) (ht : h.Total)
    (hrem : Remembered x.ven ((e :: rest).map (Event.arrived k.lib k.serverNow)))
    (hover : e.status = .completed) (hasks : asksFor venClock e 0 = true) :
    (pollRound k c env h vtnClock venClock secure peer (.str ven) x).calls = x.calls ++ dueCalls x.ven ((e :: rest).map (Event.arrived k.lib k.serverNow)) ∧
      (pollRound k c env h vtnClock venClock secure peer (.str ven) x).vtn.2 = x.vtn.2 ++ effects := by
  have hd' : Distinct ((e :: rest).map (Event.arrived k.lib k.serverNow)) := List.pairwise_map.mpr hd
  obtain ⟨s', vs, hda, hlen, hj⟩ := decideAll_justified h ht ((e :: rest).map (Event.arrived k.lib k.serverNow)) x.calls x.ven hd' hrem
  have hres : resultsOf h x.calls x.ven ⟨.str c.vtnId, .str c.newId, (e :: rest).map (Event.arrived k.lib k.serverNow)⟩ =
      (s', x.calls ++ dueCalls x.ven ((e :: rest).map (Event.arrived k.lib k.serverNow)), false,
        fixResults ((e :: rest).map (Event.arrived k.lib k.serverNow)) vs) := by
    unfold resultsOf; simp only [hlow, hda, Bool.false_eq_true, if_false]
  have hlen' : vs.length = (e :: rest).length := by simpa using hlen
  have hround := round_done con hval hacc hval' hint hflag htake (by simp) hdel hes hw
  simp only at hround
  have hent := entries_onEventMessage h venClock x.calls x.ven ⟨.str c.vtnId, .str c.newId, (e :: rest).map (Event.arrived k.lib k.serverNow)⟩
  rw [hres] at hent
  simp only [responsesFor_decided k.lib k.serverNow venClock _ (e :: rest) vs 0 hlen'] at hent
  rw [hround]
  refine ⟨?_, ?_⟩
  · show (onEventMessage h venClock x.calls x.ven _).2.1 = _
    rw [(onEventMessage_state h venClock x.calls x.ven _).2, hres]
  · have f1 := (takeEvents_frame vtnClock x.vtn.1 ven).1
    rw [htake] at f1
    have hgone := handed_dropped htake hdq (List.mem_cons_self ..) hover
    match vs, hlen', hent with
    | v :: vs, _, hent =>
      have hc : (createdEvent env { s1 with updated := Dict.set s1.updated ven false } ven
          ((entriesOf (onEventMessage h venClock x.calls x.ven
            ⟨.str c.vtnId, .str c.newId, (e :: rest).map (Event.arrived k.lib k.serverNow)⟩).2.2).map VenResponse.handled)).2.1 = [] := by
        rw [hent]
        have he : ({ s1 with updated := Dict.set s1.updated ven false } : Server).external = false := f1.trans hint
        simp only [createdEvent]
        rw [if_neg (by rw [he]; simp)]
        simp only [List.zip_cons_cons, List.zipIdx_cons, List.filter_cons, hasks, if_true, List.map_cons, respondAll]
        have hone : ∀ r : EventResponse, r.eventId = e.id → ∃ err, respondOne env { s1 with updated := Dict.set s1.updated ven false } ven r =
            ({ s1 with updated := Dict.set s1.updated ven false }, [], some err) := by
          intro r hr
          unfold respondOne
          simp only []
          cases hq : Dict.get? s1.events ven with
          | none => exact ⟨_, rfl⟩
          | some q =>
            have hqq : s1.queue ven = q := by simp [Server.queue, hq]
            have hf : q.find? (hasIdAndNumber r) = none := by
              rw [List.find?_eq_none]
              intro a ha
              have := hgone a (hqq ▸ ha)
              simp [hasIdAndNumber, hr, this]
            simp only [hf]
            split
            · exact ⟨_, rfl⟩
            · exact ⟨_, rfl⟩
        obtain ⟨err, herr⟩ := hone (VenResponse.handled ⟨responseCode (e.arrived k.lib k.serverNow), .str (optText v), .str c.newId, e.modnum, e.id⟩) rfl
        rw [herr]
      show x.vtn.2 ++ effects ++ _ = _
      rw [hc, List.append_nil]

/-- **C87, refuted** for the notice of an event: the VEN never sees that an event is near, whatever ramp-up period it has, because the period is received under
    another name than the one it is looked for. -/
theorem c87_never_near_violated (lib : Lib) (t now : Int) (e : Event) : determineStatus now (e.arrived lib t).activePeriod ≠ .near := by
  have hr : (e.arrived lib t).activePeriod.rampUp = none := rfl
  unfold determineStatus
  rw [hr]
  split
  · simp
  · split
    · simp
    · simp

/-- With a ramp-up period it is near for the VTN. -/
example : determineStatus 95 { dtstart := 100, duration := 50, rampUp := some 10 } = .near := by decide

end Openleadr
