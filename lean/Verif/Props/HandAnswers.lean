import Verif.Props.UnknownEvent
import Verif.Props.SyncCases
/-!
C97 answers that a VEN gives by hand (client.py:549-565 `created_event`), and what becomes of ids that look like numbers.
-/
namespace Openleadr

variable {lib : Lib} {n : Nat} {env : Dict}

/-! ### Answers as they are received when an id is taken for something else -/

theorem settled_taken {s k : String} {v : Value} (m : Nat) (hs : OnWire s) (h : TakenFor lib s v) (ht : textKey k = true := by decide +kernel)
    (hd : durationKeys.contains k = false := by decide +kernel) (hf : steadyKey k = true := by decide +kernel) : SettledEntry lib m k v := by
  cases h with
  | text h1 h2 h3 => exact settled_text m ⟨hs, h3, h1, h2⟩ ht hf
  | yes _ => exact settled_other m (by simp [isLeaf]) hd hf
  | no _ => exact settled_other m (by simp [isLeaf]) hd hf
  | integer i _ _ => exact settled_other m (by simp [isLeaf]) hd hf
  | number r _ _ _ => exact settled_other m (by simp [isLeaf]) hd hf

/-- An answer whose event id is taken for `v`. -/
def takenResponse (r : EventResponseP) (v : Value) : Dict :=
  [("response_code", .int r.code)] ++ entry? "response_description" (text? r.description) ++
  [("request_id", .str r.requestId), ("event_id", v), ("modification_number", .int r.modification), ("opt_type", .str r.optType)]

/-- The parts of an answer other than the event id. -/
structure EventResponseP.Rest (lib : Lib) (r : EventResponseP) : Prop where
  description : ∀ x, r.description = some x → Ordinary lib x
  requestId : Ordinary lib r.requestId
  optType : Ordinary lib r.optType

theorem settled_takenResponse {r : EventResponseP} {v : Value} (h : r.Rest lib) (hs : OnWire r.eventId) (ht : TakenFor lib r.eventId v) :
    Settled lib 1 (takenResponse r v) := by
  have h1 : Settles lib 0 ["response_code", "response_description", "request_id", "event_id", "modification_number", "opt_type"] (takenResponse r v) :=
    .cons (settled_int 0) (.opt (settled_text? 0 h.description) (.cons (settled_text 0 h.requestId) (.cons (settled_taken 0 hs ht)
      (.cons (settled_int 0) (.cons (settled_text 0 h.optType) .nil)))))
  exact settled_of h1

theorem carries_qualified_taken (sound : lib.Sound) {p1 p2 : List String} {e : String} {v : Value} {m : Int}
    (h1 : lookup env p1 = .ok (some (.str e))) (he : OnWire e) (hv : TakenFor lib e v) (h2 : lookup env p2 = .ok (some (.int m))) :
    Carries lib (n + 1) env (el "ei:qualifiedEventID" [leaf "ei:eventID" p1, leaf "ei:modificationNumber" p2]) "qualifiedEventID"
      ["event_id", "modification_number"] [("event_id", v), ("modification_number", .int m)] := by
  have hin : Inside lib (n + 1) env (el "ei:qualifiedEventID" [leaf "ei:eventID" p1, leaf "ei:modificationNumber" p2]) "qualifiedEventID"
      [("event_id", v), ("modification_number", .int m)] :=
    inside_elem (.cons (carries_taken sound "eventID" "event_id" h1 he hv) (.cons (carries_int sound "modificationNumber" "modification_number" h2) .nil))
      (by simp) (by simp)
  refine carries_inside hin (fun raw hr => ?_) (by simp [Dict.keys])
  intro acc hf
  have hkey : normalizeKey "qualifiedEventID" = "qualified_event_id" := by decide +kernel
  have hat : isAttribute "qualifiedEventID" = false := by decide +kernel
  simp only [hkey] at hf
  have f1 : "qualified_event_id" ∉ Dict.keys acc := hf _ (by simp)
  have f2 : "event_id" ∉ Dict.keys acc := hf _ (by simp [Dict.keys])
  have f3 : "modification_number" ∉ Dict.keys acc := hf _ (by simp [Dict.keys])
  simp only [stepEntry, hat, Bool.false_eq_true, if_false, hkey, entryValue, hr, Except.map]
  rw [settle_qualified lib _ _ _ (Dict.get?_set_self _ _ _), Dict.set_new _ _ _ f1, erase_append_single _ _ _ f1, Dict.set_new _ _ _ f2,
    Dict.set_new]
  · simp
  · simp only [Dict.keys, List.map_append, List.mem_append] at f3 ⊢
    simp [f3]

theorem inside_takenResponse (sound : lib.Sound) {r : EventResponseP} {v : Value} (hr : r.Rest lib) (hs : OnWire r.eventId) (ht : TakenFor lib r.eventId v)
    (hl : Dict.get? env "event_response" = some (.dict r.dict)) :
    Inside lib (n + 2) env (el "ei:eventResponse" [
              leaf "ei:responseCode" ["event_response", "response_code"],
              ifGiven ["event_response", "response_description"] [
                leaf "ei:responseDescription" ["event_response", "response_description"]],
              requestId ["event_response", "request_id"],
              el "ei:qualifiedEventID" [
                leaf "ei:eventID" ["event_response", "event_id"], leaf "ei:modificationNumber" ["event_response", "modification_number"]],
              leaf "ei:optType" ["event_response", "opt_type"]]) "eventResponse" (takenResponse r v) := by
  refine inside_elem (.cons (carries_int sound "responseCode" "response_code" (i := r.code) ?_)
    (.cons (carries_text? "responseDescription" "response_description" ?_ hr.description)
    (.cons (carries_text "requestID" "request_id" ?_ hr.requestId)
    (.cons (carries_qualified_taken sound (e := r.eventId) (m := r.modification) ?_ hs ht ?_)
    (.cons (carries_text "optType" "opt_type" ?_ hr.optType) .nil))))) (by simp [takenResponse]) (by simp [takenResponse])
  all_goals lkd [hl, EventResponseP.dict]

/-- A message with answers as it is received, if the ids of the events are taken for what `read` says and that of the VEN for `v`. -/
def takenAnswers (r : CreatedEventP) (l : List EventResponseP) (read : String → Value) (v : Value) : Dict :=
  [("response", .dict { r.response with requestId := none }.received),
   ("event_responses", .list ((l.map (fun e => takenResponse e (read e.eventId))).map .dict)), ("ven_id", v)]

theorem taken_arrives {now : Int} (sound : lib.Sound) {r : CreatedEventP} {l : List EventResponseP} {read : String → Value} {v : Value} (hr : r.response.Good lib)
    (he : r.eventResponses = some l) (hne : l ≠ []) (hl : ∀ e ∈ l, e.Rest lib ∧ OnWire e.eventId ∧ TakenFor lib e.eventId (read e.eventId))
    (hv : OnWire r.venId) (ht : TakenFor lib r.venId v) :
    Arrives lib now "oadrCreatedEvent" r.dict (takenAnswers r l read v) := by
  have hlk : lookup r.dict ["event_responses"] = .ok (some (.list ((l.map EventResponseP.dict).map .dict))) := by
    lkd [CreatedEventP.dict, he]
  refine arrives_inside (by rfl) (fun n => inside_replace (key' := "created_event") (ikey := "eiCreatedEvent")
    (inside_elem (.cons (by have := carries_createdResponse (n := n + 18) sound hr; rw [he] at this; exact this) (.cons (key := "eventResponses") (keys := ["event_responses"])
      (out := [("event_responses", .list ((l.map (fun e => takenResponse e (read e.eventId))).map .dict))]) ?_
      (.cons (carries_taken sound "venID" "ven_id" (by lkd [CreatedEventP.dict]) hv ht) .nil))) (by simp [takenAnswers]) (by simp [takenAnswers]))
    (by decide +kernel) (by decide +kernel) (by decide +kernel) (by simp) (by decide +kernel))
  refine carries_yes (surely_given hlk (by simp)) ?_
  exact carries_list (n := n + 18) "eventResponses" "event_responses" "eventResponse" "event_response" (F := EventResponseP.dict)
    (fun e => takenResponse e (read e.eventId)) hlk hne
    (fun e hm _ => inside_takenResponse sound (hl e hm).1 (hl e hm).2.1 (hl e hm).2.2 (by simp [loopEnv, Dict.get?]))
    (fun e hm => settled_takenResponse (hl e hm).1 (hl e hm).2.1 (hl e hm).2.2 _ (by omega)) (fun e _ => .inl (by
      cases h : e.description <;> simp [takenResponse, Dict.has, Dict.get?, entry?, h, text?]))

theorem taken_unique (sound : lib.Sound) {s : String} {v v' : Value} (h : TakenFor lib s v) (h' : TakenFor lib s v') : v = v' := by
  have h1 := leafValue_takenFor (k := "ven_id") sound (by decide +kernel) h
  rw [leafValue_takenFor sound (by decide +kernel) h'] at h1
  exact (Except.ok.inj h1).symm

theorem taken_ordinary {s : String} (h : Ordinary lib s) : TakenFor lib s (.str s) := .text h.notTrue h.notFalse h.notNumber

/-- What is made of the id of an event. -/
noncomputable def readAs (lib : Lib) (s : String) : Value := by
  classical
  exact if h : ∃ v, TakenFor lib s v then h.choose else .none

theorem readAs_taken {s : String} {v : Value} (h : TakenFor lib s v) : TakenFor lib s (readAs lib s) := by
  have : ∃ v, TakenFor lib s v := ⟨v, h⟩
  simp only [readAs, this, dite_true]
  exact this.choose_spec

theorem readAs_eq (sound : lib.Sound) {s : String} {v : Value} (h : TakenFor lib s v) : readAs lib s = v := taken_unique sound (readAs_taken h) h

/-- A message with answers for events whose ids need not be ordinary. -/
structure CreatedEvent.Readable (lib : Lib) (a : CreatedEvent) : Prop where
  request : ∃ r, a.requestId = .str r ∧ Ordinary lib r
  some : a.responses ≠ []
  each : ∀ r ∈ a.responses, r.requestId = a.requestId ∧ (OnWire r.eventId ∧ ∃ v, TakenFor lib r.eventId v) ∧ (r.optType = .str "optIn" ∨ r.optType = .str "optOut")

theorem taken_received {now : Int} {ven q : String} {v : Value} {a : CreatedEvent} (sound : lib.Sound) (hven : OnWire ven) (ht : TakenFor lib ven v)
    (ha : a.Readable lib) (hq : a.requestId = .str q) (hoq : Ordinary lib q) :
    Received lib now "oadrCreatedEvent" (a.payload (.str ven)) (takenAnswers (createdP a q ven) (a.responses.map (responseP q)) (readAs lib) v) := by
  refine taken_arrives (now := now) sound ⟨ordinary_described sound _, fun x hx => ?_⟩ rfl (by simp [ha.some]) (fun e he => ?_) hven ht _
    (answers_conform hq (fun r hr => ⟨(ha.each r hr).1, (ha.each r hr).2.2⟩))
  · simp only [createdP, Option.some.injEq] at hx
    subst hx; exact hoq
  · simp only [List.mem_map] at he
    obtain ⟨r, hr, rfl⟩ := he
    obtain ⟨-, ⟨h1, v, h2⟩, h3⟩ := ha.each r hr
    refine ⟨⟨fun x hx => ?_, hoq, ?_⟩, h1, readAs_taken h2⟩
    · simp only [responseP, Option.some.injEq] at hx
      subst hx; exact ordinary_described sound _
    · refine ordinary_opt sound ?_
      rcases h3 with h | h <;> simp [responseP, h, Value.text?]

theorem readResponse_taken (q : String) (r : VenResponse) (v : Value) :
    readResponse (.dict (takenResponse (responseP q r) v)) = match v with
      | .str id => some ⟨id, r.modnum, (r.optType.text?).getD ""⟩
      | _ => none := by
  have g1 : Dict.get? (takenResponse (responseP q r) v) "event_id" = some v := by
    simp [takenResponse, Dict.get?, Dict.get?_append, Dict.get?_entry?]
  have g2 : Dict.get? (takenResponse (responseP q r) v) "modification_number" = some (.int r.modnum) := by
    simp [takenResponse, responseP, Dict.get?, Dict.get?_append, Dict.get?_entry?]
  have g3 : Dict.get? (takenResponse (responseP q r) v) "opt_type" = some (.str ((r.optType.text?).getD "")) := by
    simp [takenResponse, responseP, Dict.get?, Dict.get?_append, Dict.get?_entry?]
  simp only [readResponse, g1, g2, g3]
  cases v <;> rfl

/-- The answers are read up to the first one whose id is not a text any more. -/
theorem readResponses_taken (sound : lib.Sound) {q : String} {r : VenResponse} {v : Value} (hr : TakenFor lib r.eventId v) (hv : ∀ t, v ≠ .str t) (post : List VenResponse)
    (pre : List VenResponse) (hpre : ∀ x ∈ pre, Ordinary lib x.eventId) :
    readResponses ((((pre ++ r :: post).map (responseP q)).map (fun e => takenResponse e (readAs lib e.eventId))).map .dict) = (pre.map VenResponse.handled, false) := by
  induction pre with
  | nil =>
    have e : readAs lib (responseP q r).eventId = v := readAs_eq sound hr
    simp only [List.nil_append, List.map_cons, readResponses, e, readResponse_taken, List.map_nil]
  | cons x pre ih =>
    have e : readAs lib (responseP q x).eventId = .str x.eventId := readAs_eq sound (taken_ordinary (hpre x (by simp)))
    simp only [List.cons_append, List.map_cons, readResponses, e, readResponse_taken, ih (fun y hy => hpre y (by simp [hy])), VenResponse.handled]

theorem handleMessage_state {S : Type} {c : Config} {svc : Service S} {st : S} {type : String} {m : Dict} {h : S → Dict → S × Except Exn Returned}
    (hh : Dict.get? svc.handlers type = some h) : (handleMessage c svc st type m).1 = (h st m).1 := by
  simp only [handleMessage, hh]
  generalize h st m = x
  obtain ⟨st', r⟩ := x
  cases r with
  | error e => rfl
  | ok r => cases r <;> simp only <;> split <;> simp_all

/-- What a message with answers does to the VTN is what the handler does to it. -/
theorem created_state {k : Link} {c : Config} {env : Env} {vtnClock : Nat → Int} {cache : NonceCache} {st : Vtn} {secure : Bool} {peer : Option String} {p m : Dict}
    (hrec : Received k.lib k.clientNow "oadrCreatedEvent" p m) (hn : Dict.get? m "vtn_id" = none) (hk : checkKnown c "oadrCreatedEvent" m = .ok ())
    (ha : ∀ txt tree, c.validate (String.ofList txt) = .ok tree →
      (if secure ∧ Dict.has m "ven_id" then authenticate c k.surroundings k.count cache (requestOf secure peer txt) tree m else (cache, .ok ())) = (cache, .ok ()))
    (hval : ∀ txt, createMessage k.lib k.clientNow "oadrCreatedEvent" p = .ok txt → ∃ tree, c.validate (String.ofList txt) = .ok tree) :
    (exchange k c (eventService env vtnClock) cache st secure peer "oadrCreatedEvent" p).1 = (cache, (createdHandler env st m).1) := by
  obtain ⟨txt, h1, h2⟩ := hrec
  obtain ⟨tree, hv⟩ := hval txt h1
  have hs := handle_state (now := k.serverNow) (svc := eventService env vtnClock) (st := st) hv h2 (by decide) (by simp [hn]) hk (ha txt tree hv)
  have hw : withPeer secure peer "oadrCreatedEvent" m = m := by simp [withPeer]
  simp only [exchange, h1]
  rw [show (⟨some "application/xml", secure, peer, String.ofList txt⟩ : Request) = requestOf secure peer txt from rfl, hs, hw,
    handleMessage_state (h := createdHandler env) (by simp [eventService, Dict.get?])]

/-- **C97, refuted** for events whose id is the text of a number (`add_event` takes any `event_id`): whatever the VEN answers for such an event is refused, because
    its id is read as a number and is not found; and the answers for other events that come after it in the message are lost with it. -/
theorem c97_number_violated {k : Link} {c : Config} {env : Env} {vtnClock : Nat → Int} {cache : NonceCache} {s : Server} {log : List Effect}
    {secure : Bool} {peer : Option String} {ven : String} {a : CreatedEvent} {pre post : List VenResponse} {r : VenResponse} {v : Value}
    (sound : k.lib.Sound) (hven : Ordinary k.lib ven) (ha : a.Readable k.lib) (hresp : a.responses = pre ++ r :: post)
    (hpre : ∀ x ∈ pre, Ordinary k.lib x.eventId) (hr : TakenFor k.lib r.eventId v) (hnum : ∀ t, v ≠ .str t) (hin : LetsIn k c secure peer cache ven)
    (hval : ∀ txt, createMessage k.lib k.clientNow "oadrCreatedEvent" (a.payload (.str ven)) = .ok txt → ∃ tree, c.validate (String.ofList txt) = .ok tree) :
    (exchange k c (eventService env vtnClock) cache (s, log) secure peer "oadrCreatedEvent" (a.payload (.str ven))).1 =
      (cache, ((createdEvent env s ven (pre.map VenResponse.handled)).1, log ++ (createdEvent env s ven (pre.map VenResponse.handled)).2.1)) := by
  obtain ⟨q, hq, hoq⟩ := ha.request
  have hrec := taken_received (now := k.clientNow) sound hven.toOnWire (taken_ordinary hven) ha hq hoq
  have gv : Dict.get? (takenAnswers (createdP a q ven) (a.responses.map (responseP q)) (readAs k.lib) (.str ven)) "ven_id" = some (.str ven) := by
    simp [takenAnswers, Dict.get?]
  have gn : Dict.get? (takenAnswers (createdP a q ven) (a.responses.map (responseP q)) (readAs k.lib) (.str ven)) "vtn_id" = none := by
    simp [takenAnswers, Dict.get?]
  have ge : Dict.get? (takenAnswers (createdP a q ven) (a.responses.map (responseP q)) (readAs k.lib) (.str ven)) "event_responses" =
      some (.list (((a.responses.map (responseP q)).map (fun e => takenResponse e (readAs k.lib e.eventId))).map .dict)) := by
    simp [takenAnswers, Dict.get?]
  have hread := readResponses_taken (q := q) sound hr hnum post pre hpre
  rw [created_state hrec gn (hin.known _ _ gv) (fun txt tree hv => hin.authentic txt tree _ hv gv) hval]
  generalize takenAnswers (createdP a q ven) (a.responses.map (responseP q)) (readAs k.lib) (.str ven) = m at gv ge
  rw [hresp] at ge
  congr 1
  simp only [createdHandler, venKey, gv, ge, hread, served]
  generalize createdEvent env s ven _ = y
  obtain ⟨s', eff, o⟩ := y
  cases o <;> rfl

/-- **C97, refuted** for VENs whose id is the text of a number: whatever they answer, nobody is told (95: `KeyError`). -/
theorem c97_number_ven_violated {k : Link} {c : Config} {env : Env} {vtnClock : Nat → Int} {cache : NonceCache} {s : Server} {log : List Effect}
    {peer : Option String} {ven : String} {a : CreatedEvent} {v : Value}
    (sound : k.lib.Sound) (hven : OnWire ven) (ht : TakenFor k.lib ven v) (hnum : ∀ t, v ≠ .str t) (ha : a.Readable k.lib) (hl : c.venLookup = none)
    (hval : ∀ txt, createMessage k.lib k.clientNow "oadrCreatedEvent" (a.payload (.str ven)) = .ok txt → ∃ tree, c.validate (String.ofList txt) = .ok tree) :
    (exchange k c (eventService env vtnClock) cache (s, log) false peer "oadrCreatedEvent" (a.payload (.str ven))).1 = (cache, (s, log)) := by
  obtain ⟨q, hq, hoq⟩ := ha.request
  have hrec := taken_received (now := k.clientNow) sound hven ht ha hq hoq
  have gv : Dict.get? (takenAnswers (createdP a q ven) (a.responses.map (responseP q)) (readAs k.lib) v) "ven_id" = some v := by
    simp [takenAnswers, Dict.get?]
  have gn : Dict.get? (takenAnswers (createdP a q ven) (a.responses.map (responseP q)) (readAs k.lib) v) "vtn_id" = none := by
    simp [takenAnswers, Dict.get?]
  have ge : Dict.get? (takenAnswers (createdP a q ven) (a.responses.map (responseP q)) (readAs k.lib) v) "event_responses" =
      some (.list (((a.responses.map (responseP q)).map (fun e => takenResponse e (readAs k.lib e.eventId))).map .dict)) := by
    simp [takenAnswers, Dict.get?]
  rw [created_state hrec gn (by simp [checkKnown, hl]) (fun txt tree hv => by simp) hval]
  obtain ⟨r0, rs, hrs⟩ := List.exists_cons_of_ne_nil ha.some
  generalize takenAnswers (createdP a q ven) (a.responses.map (responseP q)) (readAs k.lib) v = m at gv ge
  rw [hrs] at ge
  have hkey : venKey m = .other := by
    simp only [venKey, gv]
  simp only [createdHandler, hkey, ge, List.map_cons]

/-! ### An answer by hand -/

/-- The answer that `created_event` sends. -/
def handAnswer (q id opt : String) (num : Int) : CreatedEvent := ⟨200, .str q, [⟨200, .str opt, .str q, num, id⟩]⟩

theorem handAnswer_sendable {q id opt : String} {num : Int} (hq : Ordinary lib q) (hid : Ordinary lib id) (ho : opt = "optIn" ∨ opt = "optOut") :
    (handAnswer q id opt num).Sendable lib where
  request := ⟨q, rfl, hq⟩
  some := by simp [handAnswer]
  each := by
    intro r hr
    simp only [handAnswer, List.mem_singleton] at hr
    subst hr
    exact ⟨rfl, hid, by rcases ho with rfl | rfl <;> simp⟩

/-- One answer for an event of the queue. -/
theorem createdEvent_told (env : Env) (hq : ∀ e, env.raises e = none) (s : Server) (ven : String) (r : EventResponse) (hint : s.external = false)
    (hnd : (Dict.keys s.callbacks).Nodup) (hk : ∃ e ∈ s.queue ven, e.id = r.eventId ∧ e.modnum = r.modificationNumber) :
    ∃ s', createdEvent env s ven [r] = (s', told s ven r.eventId r.optType, .ok .response) ∧
      (∀ id, Dict.get? s'.callbacks id = if id = r.eventId then none else Dict.get? s.callbacks id) := by
  obtain ⟨h1, h2, -⟩ := respondOne_told env hq s ven r hk
  have hgone : Dict.get? (respondOne env s ven r).1.callbacks r.eventId = none := by
    obtain ⟨e, he, e1, e2⟩ := hk
    have fire : ∀ t : Server, t.callbacks = s.callbacks → Dict.get? (fireCallback env t ven r).1.callbacks r.eventId = none := by
      intro t ht
      simp only [fireCallback, ht]
      split
      · rw [ht]; assumption
      · split <;> exact Dict.get?_erase_self _ _ hnd
      · exact Dict.get?_erase_self _ _ hnd
    simp only [respondOne]
    cases hg : Dict.get? s.events ven with
    | none => simp [Server.queue, hg] at he
    | some q =>
      have hqq : s.queue ven = q := by simp [Server.queue, hg]
      simp only
      cases hf : q.find? (hasIdAndNumber r) with
      | none =>
        have := List.find?_eq_none.mp hf e (by rw [← hqq]; exact he)
        simp [hasIdAndNumber, e1, e2] at this
      | some x =>
        refine fire _ ?_
        split <;> rfl
  refine ⟨(respondOne env s ven r).1, ?_, fun id => ?_⟩
  · simp only [createdEvent, hint, Bool.false_eq_true, if_false, respondAll]
    generalize respondOne env s ven r = y at h1
    obtain ⟨s', eff, o⟩ := y
    cases h1
    simp
  · split
    · rename_i e; rw [e]; exact hgone
    · rename_i e; exact h2 id e

/-- **C97** (partial: see the refutations for ids that look like numbers). An answer that the VEN gives by hand, for an event of its queue with the number it has
    there: the callback of the event is called once with the decision (or its future resolved), and is not there any more; the callbacks of other events stay;
    nothing of the client changes, and nothing is raised. -/
theorem c97_by_hand_partial {k : Connection Vtn} {env : Env} {vtnClock : Nat → Int} {w : World} {n : Nat} {x : Serving Vtn} {y : Client} {ven q id opt : String}
    {num : Int} (hv : y.venId = .str ven) (con : Connected (k.link y.log.length) k.config k.secure k.peer x.1 ven)
    (hsvc : k.service "EiEvent" = eventService env vtnClock) (hoq : Ordinary (k.link y.log.length).lib q) (hid : Ordinary (k.link y.log.length).lib id)
    (ho : opt = "optIn" ∨ opt = "optOut")
    (hval : ∀ txt, createMessage (k.link y.log.length).lib (k.link y.log.length).clientNow "oadrCreatedEvent" ((handAnswer q id opt num).payload (.str ven)) = .ok txt →
      ∃ tree, k.config.validate (String.ofList txt) = .ok tree)
    (hacc : ∀ p txt, createMessage (k.link y.log.length).lib (k.link y.log.length).serverNow "oadrResponse" p = .ok txt →
      (k.link y.log.length).accepts (String.ofList txt) = true)
    (hint : x.2.1.external = false) (hnd : (Dict.keys x.2.1.callbacks).Nodup) (hq : ∀ e, env.raises e = none) (hk : ∃ e ∈ x.2.1.queue ven, e.id = id ∧ e.modnum = num) :
    ∃ a s', k.run (createdEventByHand (.str q) id (.str opt) num) w (n + 1) (x, y) =
        (((x.1, (s', x.2.2 ++ told x.2.1 ven id opt)), { y with log := y.log ++ [(.createdEvent (.str ven) (handAnswer q id opt num), a)] }), .ok ()) ∧
      ∀ id', Dict.get? s'.callbacks id' = if id' = id then none else Dict.get? x.2.1.callbacks id' := by
  obtain ⟨cache, s, log⟩ := x
  have ha := handAnswer_sendable (num := num) hoq hid ho
  obtain ⟨s', hce, hcb⟩ := createdEvent_told env hq s ven ⟨id, num, opt⟩ hint hnd hk
  obtain ⟨gv, gn, gh⟩ := answers_read (ven := ven) (q := q) ha env s log
  have gi : Dict.get? (createdP (handAnswer q id opt num) q ven).received "request_id" = none := by
    simp [createdP, CreatedEventP.received, Dict.get?, Dict.get?_append, Dict.get?_entry?]
  have hm : (handAnswer q id opt num).responses.map VenResponse.handled = [⟨id, num, opt⟩] := by
    simp [handAnswer, VenResponse.handled, Value.text?]
  rw [hm, hce] at gh
  have h1 : k.deliver y.log.length (.createdEvent (.str ven) (handAnswer q id opt num)) (cache, (s, log)) =
      ((cache, (s', log ++ told s ven id opt)), .ok (some (some "oadrResponse", settled ven))) := by
    have := reply_exchanged (svc := eventService env vtnClock) (h := createdHandler env) (u := []) (answers_received con.sound con.venId ha rfl hoq) gv gn
      (by decide) con.letsIn hval (by simp [eventService, Dict.get?]) (by rw [gh]; rfl) (answer_settled con.sound gv gi con.venId) (hacc _)
    rw [← hsvc] at this
    exact this
  generalize ha1 : (.ok (some (some "oadrResponse", settled ven)) : Got) = a1 at h1
  have hnet : (w.hearing y.log.length [a1]).net y.log.length = some (some "oadrResponse", Payload.parsed (settled ven)) :=
    hearing_net w y.log.length [a1] 0 (some (some "oadrResponse", settled ven)) (by rw [← ha1]; rfl)
  have hdo : createdEventByHand (.str q) id (.str opt) num (w.hearing y.log.length [a1]) y =
      ({ y with log := y.log ++ [(.createdEvent (.str ven) (handAnswer q id opt num), some (some "oadrResponse", Payload.parsed (settled ven)))] }, .ok ()) := by
    have hc : checkAnswer (some (some "oadrResponse", Payload.parsed (settled ven))) = .ok (some (some "oadrResponse", Payload.parsed (settled ven))) := by
      simp [checkAnswer, Payload.parsed, settled, Dict.get?]
    simp only [createdEventByHand, request, perform, hnet, hc, unpack, hv, handAnswer]
  refine ⟨some (some "oadrResponse", Payload.parsed (settled ven)), s', ?_, hcb⟩
  have hfirst : ∀ w : World, (createdEventByHand (.str q) id (.str opt) num w y).1.log[y.log.length]? =
      some (.createdEvent (.str ven) (handAnswer q id opt num), w.net y.log.length) := by
    intro w
    simp only [createdEventByHand, request, hv]
    split <;> simp [perform, handAnswer]
  rw [act_one k _ w n _ _ y _ a1 hfirst h1 (by rw [hdo]; simp), hdo]

/-- **C97**: once the callback of an event is gone, further answers tell nobody. -/
theorem c97_once (env : Env) (s : Server) (ven id opt : String) (num : Int) (hint : s.external = false) (hc : Dict.get? s.callbacks id = none) :
    (createdEvent env s ven [⟨id, num, opt⟩]).2.1 = [] := by
  simp only [createdEvent, hint, Bool.false_eq_true, if_false, respondAll, respondOne]
  cases hg : Dict.get? s.events ven with
  | none => rfl
  | some q =>
    simp only
    cases hf : q.find? (hasIdAndNumber ⟨id, num, opt⟩) with
    | none => by_cases h : (s.completedOf ven).contains id = true <;> simp only [h] <;> rfl
    | some e =>
      simp only
      have : ∀ t : Server, t.callbacks = s.callbacks → fireCallback env t ven ⟨id, num, opt⟩ = (t, [], none) := by
        intro t ht
        simp only [fireCallback, ht, hc]
      rw [this _ (by split <;> rfl)]
      rfl

/-- The same as the VEN gets it: for an event whose id looks like a number the answer is refused with 452, whether the event is there or not, and the VTN stays
    as it is. -/
theorem c97_number_refused {k : Link} {c : Config} {env : Env} {vtnClock : Nat → Int} {cache : NonceCache} {s : Server} {log : List Effect}
    {peer : Option String} {ven q id opt : String} {num : Int} {v : Value} (sound : k.lib.Sound) (hven : Ordinary k.lib ven) (hoq : Ordinary k.lib q)
    (hid : OnWire id) (ht : TakenFor k.lib id v) (hnum : ∀ t, v ≠ .str t) (ho : opt = "optIn" ∨ opt = "optOut") (hin : LetsIn k c false peer cache ven)
    (hval : ∀ txt, createMessage k.lib k.clientNow "oadrCreatedEvent" ((handAnswer q id opt num).payload (.str ven)) = .ok txt → ∃ tree, c.validate (String.ofList txt) = .ok tree)
    (hacc : ∀ p txt, createMessage k.lib k.serverNow "oadrResponse" p = .ok txt → k.accepts (String.ofList txt) = true)
    (hint : s.external = false) (hq : Dict.get? s.events ven ≠ none) :
    exchange k c (eventService env vtnClock) cache (s, log) false peer "oadrCreatedEvent" ((handAnswer q id opt num).payload (.str ven)) =
      ((cache, (s, log)), .ok (some (some "oadrResponse", errorReceived 452 "INVALID ID"))) := by
  have ha : (handAnswer q id opt num).Readable k.lib := by
    refine ⟨⟨q, rfl, hoq⟩, by simp [handAnswer], fun r hr => ?_⟩
    simp only [handAnswer, List.mem_singleton] at hr
    subst hr
    exact ⟨rfl, ⟨hid, v, ht⟩, by rcases ho with rfl | rfl <;> simp⟩
  have hrec := taken_received (now := k.clientNow) sound hven.toOnWire (taken_ordinary hven) ha rfl hoq
  have hread := readResponses_taken (q := q) (r := ⟨200, .str opt, .str q, num, id⟩) sound ht hnum [] [] (by simp)
  have gv : Dict.get? (takenAnswers (createdP (handAnswer q id opt num) q ven) ((handAnswer q id opt num).responses.map (responseP q)) (readAs k.lib) (.str ven)) "ven_id" =
      some (.str ven) := by simp [takenAnswers, Dict.get?]
  have gn : Dict.get? (takenAnswers (createdP (handAnswer q id opt num) q ven) ((handAnswer q id opt num).responses.map (responseP q)) (readAs k.lib) (.str ven)) "vtn_id" =
      none := by simp [takenAnswers, Dict.get?]
  have ge : Dict.get? (takenAnswers (createdP (handAnswer q id opt num) q ven) ((handAnswer q id opt num).responses.map (responseP q)) (readAs k.lib) (.str ven))
      "event_responses" = some (.list (((([] ++ [⟨200, .str opt, .str q, num, id⟩] : List VenResponse).map (responseP q)).map
        (fun e => takenResponse e (readAs k.lib e.eventId))).map .dict)) := by simp [takenAnswers, handAnswer, Dict.get?]
  refine c86_raised k c _ cache (s, log) (s, log) peer _ _ _ 452 "INVALID ID" (createdHandler env) sound hrec (by decide)
    (ordinary_word sound (by decide +kernel) (onWire_of (by decide +kernel)) (by decide) (by decide)) hval (by simp [gn]) (hin.known _ _ gv)
    (by simp [eventService, Dict.get?]) ?_ hacc
  generalize takenAnswers _ _ _ _ = m at gv ge
  have hg : (Dict.get? s.events ven).isNone = false := by
    cases h : Dict.get? s.events ven with
    | none => exact absurd h hq
    | some _ => rfl
  simp only [createdHandler, venKey, gv, ge, hread, served, createdEvent, hint, respondAll, List.map_nil, Bool.false_eq_true, if_false, List.append_nil, hg]

/-- The VEN accepts by hand the event that was added, and the callback `7` is told; the example of C96 goes on in this way if the handler of the VEN takes its time. -/
example (w : World) (y : Client) (hv : y.venId = .str "ven1") :
    (syncWire.run (createdEventByHand (.str "req1") "event1" (.str "optIn") 0) w 1 (([], ((addEvent Server.init askedArgs).1, [])), y)).1.1.2.2 =
      [.responded 7 "ven1" "event1" "optIn"] := by
  obtain ⟨a, s', h, -⟩ := c97_by_hand_partial (k := syncWire) (env := quietEnv) (vtnClock := fun _ => 0) (w := w) (n := 0) (q := "req1") (id := "event1") (opt := "optIn") (num := 0)
    (x := ([], ((addEvent Server.init askedArgs).1, []))) (y := y) hv loudVtn_connected rfl (ordinary_of (s := "req1") (by decide +kernel))
    (ordinary_of (s := "event1") (by decide +kernel)) (.inl rfl) (fun _ _ => ⟨_, rfl⟩) (fun _ _ _ => rfl) rfl (by decide +kernel) (fun _ => rfl)
    ⟨_, List.mem_singleton.mpr rfl, rfl, rfl⟩
  rw [h]
  rfl

/-- The same event with the id `123`: the answer is refused. -/
example : exchange sampleLink loudVtn (eventService quietEnv (fun _ => 0)) [] ((addEvent Server.init { askedArgs with eventId := "123" }).1, []) false none "oadrCreatedEvent"
      ((handAnswer "req1" "123" "optIn" 0).payload (.str "ven1")) =
    (([], ((addEvent Server.init { askedArgs with eventId := "123" }).1, [])), .ok (some (some "oadrResponse", errorReceived 452 "INVALID ID"))) :=
  c97_number_refused plainLib_sound (ordinary_of (by decide +kernel)) (ordinary_of (by decide +kernel)) (safe_onWire _ (intText_ne 123) (intText_safe 123))
    (intText_taken plainLib_sound 123) (by simp) (.inl rfl) loudVtn_connected.letsIn (fun _ _ => ⟨_, rfl⟩) (fun _ _ _ => rfl) rfl (by decide +kernel)

end Openleadr
