import Verif.Lemmas.EventReading
import Verif.Props.Recognition
/-!
C87: events from the queue of the VTN to the handler of the VEN, and its decision back to the callback.
-/
namespace Openleadr

/-- The state of the server after a message that passes its checks. -/
theorem handle_state {lib : Lib} {now : Int} {c : Config} {svc : Service S} {s : Surroundings} {i : Nat} {cache cache' : NonceCache} {st : S}
    {secure : Bool} {peer : Option String} {type : String} {m : Dict} {txt : Text} {tree : Tree}
    (hv : c.validate (String.ofList txt) = .ok tree) (hp : parseMessage lib txt = .ok (type, .dict m)) (ht : type ≠ "oadrResponse")
    (hn : ∀ v, Dict.get? m "vtn_id" = some v → v = .none ∨ v = .str c.vtnId) (hk : checkKnown c type m = .ok ())
    (ha : (if secure ∧ Dict.has m "ven_id" then authenticate c s i cache (requestOf secure peer txt) tree m else (cache, .ok ())) = (cache', .ok ())) :
    (handle (wired c lib now) svc s i cache st (requestOf secure peer txt)).1 = (cache', (handleMessage c svc st type (withPeer secure peer type m)).1) := by
  have hx : isXml (some "application/xml") = true := by decide +kernel
  have hn' : ¬ ∃ v, Dict.get? m "vtn_id" = some v ∧ v ≠ .none ∧ v ≠ .str (wired c lib now).vtnId := by
    rintro ⟨v, h1, h2, h3⟩
    rcases hn v h1 with h | h
    · exact h2 h
    · exact h3 h
  have hk' : checkKnown (wired c lib now) type m = .ok () := hk
  have ha' : (if secure ∧ Dict.has m "ven_id" then authenticate (wired c lib now) s i cache (requestOf secure peer txt) tree m else (cache, .ok ())) =
    (cache', .ok ()) := ha
  have hv' : (wired c lib now).validate (String.ofList txt) = .ok tree := hv
  have hp' : (wired c lib now).parse (String.ofList txt) = .ok (type, m) := parseText_received hp
  have hq : (process (wired c lib now) svc s i cache st (requestOf secure peer txt)).1 =
      (cache', (handleMessage (wired c lib now) svc st type (withPeer secure peer type m)).1) := by
    unfold process
    rw [if_neg (by rw [requestOf, hx]; simp), show (requestOf secure peer txt).content = String.ofList txt from rfl, hv', hp']
    simp only []
    rw [if_neg ht, if_neg hn', hk']
    simp only []
    rw [show (if (requestOf secure peer txt).secure = true ∧ Dict.has m "ven_id" = true then
      authenticate (wired c lib now) s i cache (requestOf secure peer txt) tree m else (cache, .ok ())) = (cache', .ok ()) from ha']
    simp only []
    have hw : (if (requestOf secure peer txt).secure = true ∧ type = "oadrCreatePartyRegistration" then
      Dict.set m "fingerprint" (match (requestOf secure peer txt).peer with | some p => .str p | none => .none) else m) = withPeer secure peer type m := rfl
    erw [hw]
    generalize handleMessage (wired c lib now) svc st type (withPeer secure peer type m) = x
    obtain ⟨st', r⟩ := x
    cases r with
    | error e => rfl
    | ok r => obtain ⟨rt, rp⟩ := r; rfl
  exact hq

/-- The VTN lets this VEN in: it knows it, and its checks of the connection, if there are any, are passed. -/
structure LetsIn (k : Link) (c : Config) (secure : Bool) (peer : Option String) (cache : NonceCache) (ven : String) : Prop where
  known : ∀ type m, Dict.get? m "ven_id" = some (.str ven) → checkKnown c type m = .ok ()
  authentic : ∀ txt tree m, c.validate (String.ofList txt) = .ok tree → Dict.get? m "ven_id" = some (.str ven) →
    (if secure ∧ Dict.has m "ven_id" then authenticate c k.surroundings k.count cache (requestOf secure peer txt) tree m else (cache, .ok ())) = (cache, .ok ())

/-- The poll of a VEN for which there are events. -/
theorem poll_distributes {k : Link} {c : Config} {env : Env} {vtnClock : Nat → Int} {cache : NonceCache} {s s1 : Server} {log effects : List Effect}
    {secure : Bool} {peer : Option String} {ven : String} {es : List Event} (sound : k.lib.Sound) (hven : Ordinary k.lib ven) (hvtn : Ordinary k.lib c.vtnId)
    (hid : Ordinary k.lib c.newId) (hnow : Datable k.serverNow) (hz : AsFloat k.lib (.int 0) (floatOf k.lib (.int 0)))
    (hin : LetsIn k c secure peer cache ven)
    (hval : ∀ txt, createMessage k.lib k.clientNow "oadrPoll" [("ven_id", .str ven)] = .ok txt → ∃ tree, c.validate (String.ofList txt) = .ok tree)
    (hacc : ∀ txt, createMessage k.lib k.serverNow "oadrDistributeEvent" (messageWith (.list (es.map Event.object)) c.vtnId ven c.newId .none) = .ok txt →
      k.accepts (String.ofList txt) = true)
    (hint : s.external = false) (hflag : s.flag ven = true) (htake : takeEvents vtnClock s ven = (s1, some es))
    (hdel : deliverAll env s1.delivery es = (effects, none)) (hes : ∀ e ∈ es, e.Sendable k.lib) :
    exchange k c (pollService env vtnClock) cache (s, log) secure peer "oadrPoll" [("ven_id", .str ven)] =
      ((cache, ({ s1 with updated := Dict.set s1.updated ven false }, log ++ effects)), .ok (some (some "oadrDistributeEvent",
        receivedWith (es.map (fun e => eventP k.lib (e.prepared k.serverNow))) c.vtnId c.newId none))) := by
  have hpoll : poll env vtnClock s ven = ({ s1 with updated := Dict.set s1.updated ven false }, effects, .ok (.distribute es)) := by
    simp [poll, hint, hflag, requestEvent, htake, hdel]
  refine exchange_answered (rp := messageWith (.list (es.map Event.object)) c.vtnId ven c.newId .none)
    (poll_received (wired_text hven (by decide +kernel))) (fun txt h1 h2 => ?_)
    (events_received sound hnow hz hes (rid := none) (by simp) hvtn hid) hacc
  obtain ⟨tree, hv⟩ := hval txt h1
  have hh : handleMessage c (pollService env vtnClock) (s, log) "oadrPoll" (withPeer secure peer "oadrPoll" [("ven_id", .str ven)]) =
      (({ s1 with updated := Dict.set s1.updated ven false }, log ++ effects), .ok ("oadrDistributeEvent",
        messageWith (.list (es.map Event.object)) c.vtnId ven c.newId .none)) := by
    have hw : withPeer secure peer "oadrPoll" [("ven_id", .str ven)] = [("ven_id", .str ven)] := by simp [withPeer]
    rw [hw]
    simp only [handleMessage, pollService, Dict.get?, if_true, pollHandler, venKey, served, hpoll, Reply.returned, payloadDict]
    simp [finishPayload, Dict.set, Dict.get?, Value.truthy, messageWith]
  rw [handle_passed hv h2 (by decide) (by simp [Dict.get?]) (hin.known _ _ (by simp [Dict.get?])) (hin.authentic txt tree _ hv (by simp [Dict.get?])) hh]
  congr 2

/-- The answers as they are handled by the VTN. -/
def VenResponse.handled (r : VenResponse) : EventResponse := ⟨r.eventId, r.modnum, (r.optType.text?).getD ""⟩

/-- A message with answers that can be sent. -/
structure CreatedEvent.Sendable (lib : Lib) (a : CreatedEvent) : Prop where
  request : ∃ r, a.requestId = .str r ∧ Ordinary lib r
  some : a.responses ≠ []
  each : ∀ r ∈ a.responses, r.requestId = a.requestId ∧ Ordinary lib r.eventId ∧ (r.optType = .str "optIn" ∨ r.optType = .str "optOut")

/-- The answers on the wire. -/
def responseP (q : String) (r : VenResponse) : EventResponseP :=
  ⟨r.code, some (if r.code = 200 then "OK" else "ERROR"), q, r.eventId, r.modnum, (r.optType.text?).getD ""⟩

def createdP (a : CreatedEvent) (q ven : String) : CreatedEventP :=
  ⟨⟨a.code, if a.code = 200 then "OK" else "ERROR", some q⟩, some (a.responses.map (responseP q)), ven⟩

theorem ordinary_described {lib : Lib} (sound : lib.Sound) (n : Nat) : Ordinary lib (if n = 200 then "OK" else "ERROR") := by
  split
  · exact ordinary_OK sound
  · exact ordinary_word sound (by decide +kernel) (onWire_of (by decide +kernel)) (by decide) (by decide)

theorem conforms_answer {r : VenResponse} {q : String} (h1 : r.requestId = .str q) (h2 : r.optType = .str "optIn" ∨ r.optType = .str "optOut") :
    Conforms r.payload (.dict (responseP q r).dict) := by
  refine conforms_entries (ks := ["response_code", "response_description", "opt_type", "request_id", "modification_number", "event_id"]) rfl (by decide)
    (within_append (within_append (within_cons (within_nil _)) within_entry) (within_cons (within_cons (within_cons (within_cons (within_nil _)))))) ?_
  refine all_cons (accounted_as (v := some _) ?_) (all_cons (accounted_as (v := some _) ?_) (all_cons (.inl ⟨_, ?_, .same _⟩) (all_cons (.inl ⟨_, ?_, .same _⟩)
    (all_cons (accounted_as (v := some _) ?_) (all_cons (accounted_as (v := some _) ?_) all_nil))))) <;>
    simp [responseP, EventResponseP.dict, Dict.get?, Dict.get?_append, Dict.get?_entry?, text?, h1]
  rcases h2 with h | h <;> simp [h, Value.text?]

theorem read_answers {q : String} (l : List VenResponse) (h : ∀ r ∈ l, r.optType = .str "optIn" ∨ r.optType = .str "optOut") :
    readResponses (((l.map (responseP q)).map EventResponseP.dict).map .dict) = (l.map VenResponse.handled, true) := by
  induction l with
  | nil => rfl
  | cons r l ih =>
    have hr : readResponse (.dict (responseP q r).dict) = some r.handled := by
      have g1 : Dict.get? (responseP q r).dict "event_id" = some (.str r.eventId) := by
        simp [responseP, EventResponseP.dict, Dict.get?, Dict.get?_append, Dict.get?_entry?]
      have g2 : Dict.get? (responseP q r).dict "modification_number" = some (.int r.modnum) := by
        simp [responseP, EventResponseP.dict, Dict.get?, Dict.get?_append, Dict.get?_entry?]
      have g3 : Dict.get? (responseP q r).dict "opt_type" = some (.str ((r.optType.text?).getD "")) := by
        simp [responseP, EventResponseP.dict, Dict.get?, Dict.get?_append, Dict.get?_entry?]
      simp only [readResponse, g1, g2, g3, VenResponse.handled]
    simp only [List.map_cons, readResponses, hr, ih (fun x hx => h x (by simp [hx]))]

/-- The payload of the answers is what the wire rules are about. -/
theorem answers_conform {a : CreatedEvent} {q ven : String} (hq : a.requestId = .str q)
    (ha : ∀ r ∈ a.responses, r.requestId = a.requestId ∧ (r.optType = .str "optIn" ∨ r.optType = .str "optOut")) :
    Conforms (.dict (a.payload (.str ven))) (.dict (createdP a q ven).dict) := by
  have hl : Conforms (.list (a.responses.map VenResponse.payload)) (.list (((a.responses.map (responseP q)).map EventResponseP.dict).map .dict)) := by
    refine .list _ _ (by simp) (fun i x y hx hy => ?_)
    simp only [List.getElem?_map, Option.map_map, Option.map_eq_some_iff, Function.comp_apply] at hx hy
    obtain ⟨r, hr, rfl⟩ := hx
    obtain ⟨r', hr', rfl⟩ := hy
    rw [hr] at hr'
    cases hr'
    obtain ⟨h1, h3⟩ := ha r (List.mem_of_getElem? hr)
    exact conforms_answer (h1.trans hq) h3
  have hr : Conforms (.dict [("response_code", .int a.code), ("response_description", .str (if a.code = 200 then "OK" else "ERROR")), ("request_id", a.requestId)])
      (.dict (createdP a q ven).response.dict) := by
    refine conforms_entries (ks := ["response_code", "response_description", "request_id"]) rfl (by decide)
      (within_append (within_cons (within_cons (within_nil _))) within_entry) ?_
    refine all_cons (accounted_as (v := some _) ?_) (all_cons (accounted_as (v := some _) ?_) (all_cons (.inl ⟨_, ?_, .same _⟩) all_nil)) <;>
      simp [createdP, LooseResponseP.dict, Dict.get?, Dict.get?_append, Dict.get?_entry?, text?, hq]
  refine conforms_entries (ks := ["response", "event_responses", "ven_id"]) rfl (by decide)
    (within_append (within_append (within_cons (within_nil _)) within_entry) (within_cons (within_nil _))) ?_
  refine all_cons (.inl ⟨_, ?_, hr⟩) (all_cons (.inl ⟨_, ?_, hl⟩) (all_cons (accounted_as (v := some _) ?_) all_nil))
  · simp [createdP, CreatedEventP.dict, Dict.get?]
  · simp [createdP, CreatedEventP.dict, Dict.get?, Dict.get?_append, Dict.get?_entry?]
  · simp [createdP, CreatedEventP.dict, Dict.get?, Dict.get?_append, Dict.get?_entry?]

/-- The answers of the VEN arrive at the VTN. -/
theorem answers_received {lib : Lib} {now : Int} {ven q : String} {a : CreatedEvent} (sound : lib.Sound) (hven : Ordinary lib ven) (ha : a.Sendable lib)
    (hq : a.requestId = .str q) (hoq : Ordinary lib q) :
    Received lib now "oadrCreatedEvent" (a.payload (.str ven)) (createdP a q ven).received := by
  have hgood : (createdP a q ven).Good lib := by
    refine ⟨⟨ordinary_described sound _, fun x hx => ?_⟩, fun l hl e he => ?_, hven⟩
    · simp only [createdP, Option.some.injEq] at hx
      subst hx; exact hoq
    · simp only [createdP, Option.some.injEq] at hl
      subst hl
      simp only [List.mem_map] at he
      obtain ⟨r, hr, rfl⟩ := he
      obtain ⟨-, h2, h3⟩ := ha.each r hr
      refine ⟨fun x hx => ?_, hoq, h2, ?_⟩
      · simp only [responseP, Option.some.injEq] at hx
        subst hx; exact ordinary_described sound _
      · refine ordinary_opt sound ?_
        rcases h3 with h | h <;> simp [responseP, h, Value.text?]
  exact c67_created_event_arrives (now := now) sound hgood _ (answers_conform hq (fun r hr => ⟨(ha.each r hr).1, (ha.each r hr).2.2⟩))

/-- What the handler of the VTN finds in the answers. -/
theorem answers_read {lib : Lib} {ven q : String} {a : CreatedEvent} (ha : a.Sendable lib) (env : Env) (s : Server) (log : List Effect) :
    Dict.get? (createdP a q ven).received "ven_id" = some (.str ven) ∧ Dict.get? (createdP a q ven).received "vtn_id" = none ∧
    createdHandler env (s, log) (createdP a q ven).received = served log (createdEvent env s ven (a.responses.map VenResponse.handled)) := by
  have gv : Dict.get? (createdP a q ven).received "ven_id" = some (.str ven) := by
    simp [createdP, CreatedEventP.received, Dict.get?, Dict.get?_append, Dict.get?_entry?]
  have gn : Dict.get? (createdP a q ven).received "vtn_id" = none := by
    simp [createdP, CreatedEventP.received, Dict.get?, Dict.get?_append, Dict.get?_entry?]
  have ge : Dict.get? (createdP a q ven).received "event_responses" = some (.list (((a.responses.map (responseP q)).map EventResponseP.dict).map .dict)) := by
    have : dicts? ((a.responses.map (responseP q)).map EventResponseP.dict) = some (.list (((a.responses.map (responseP q)).map EventResponseP.dict).map .dict)) := by
      rw [dicts?, if_neg (by simp [ha.some])]
    have h' : Dict.get? (createdP a q ven).received "event_responses" = some ((dicts? ((a.responses.map (responseP q)).map EventResponseP.dict)).getD .none) := by
      simp [createdP, CreatedEventP.received, Dict.get?, Dict.get?_append, Dict.get?_entry?]
    rw [h', this]; rfl
  refine ⟨gv, gn, ?_⟩
  generalize (createdP a q ven).received = m at gv ge
  simp only [createdHandler, venKey, gv, ge, read_answers _ (fun r hr => (ha.each r hr).2.2)]

/-- The answers of the VEN are handled by the VTN. -/
theorem answers_handled {k : Link} {c : Config} {env : Env} {vtnClock : Nat → Int} {cache : NonceCache} {s : Server} {log : List Effect}
    {secure : Bool} {peer : Option String} {ven : String} {a : CreatedEvent} (sound : k.lib.Sound) (hven : Ordinary k.lib ven) (ha : a.Sendable k.lib)
    (hin : LetsIn k c secure peer cache ven)
    (hval : ∀ txt, createMessage k.lib k.clientNow "oadrCreatedEvent" (a.payload (.str ven)) = .ok txt → ∃ tree, c.validate (String.ofList txt) = .ok tree) :
    (exchange k c (eventService env vtnClock) cache (s, log) secure peer "oadrCreatedEvent" (a.payload (.str ven))).1 =
      (cache, ((createdEvent env s ven (a.responses.map VenResponse.handled)).1, log ++ (createdEvent env s ven (a.responses.map VenResponse.handled)).2.1)) := by
  obtain ⟨q, hq, hoq⟩ := ha.request
  obtain ⟨txt, h1, h2⟩ := answers_received (now := k.clientNow) sound hven ha hq hoq
  obtain ⟨tree, hv⟩ := hval txt h1
  obtain ⟨gv, gn, gh⟩ := answers_read (ven := ven) (q := q) ha env s log
  have hs := handle_state (now := k.serverNow) (svc := eventService env vtnClock) (st := (s, log)) hv h2 (by decide) (by simp [gn]) (hin.known _ _ gv)
    (hin.authentic txt tree _ hv gv)
  have hh : (handleMessage c (eventService env vtnClock) (s, log) "oadrCreatedEvent" (withPeer secure peer "oadrCreatedEvent" (createdP a q ven).received)).1 =
      ((createdEvent env s ven (a.responses.map VenResponse.handled)).1, log ++ (createdEvent env s ven (a.responses.map VenResponse.handled)).2.1) := by
    have hw : withPeer secure peer "oadrCreatedEvent" (createdP a q ven).received = (createdP a q ven).received := by simp [withPeer]
    rw [hw]
    generalize (createdP a q ven).received = m at gh
    have hc := gh
    have hf : Dict.get? (eventService env vtnClock).handlers "oadrCreatedEvent" = some (createdHandler env) := by
      simp [eventService, Dict.get?]
    simp only [handleMessage, hf, hc]
    generalize createdEvent env s ven (a.responses.map VenResponse.handled) = x
    obtain ⟨s', eff, r⟩ := x
    cases r with
    | error e => rfl
    | ok r =>
      simp only [served]
      cases r <;> simp only [Reply.returned] <;> split <;> simp_all
  simp only [exchange, h1]
  rw [show (⟨some "application/xml", secure, peer, String.ofList txt⟩ : Request) = requestOf secure peer txt from rfl, hs, hh]

end Openleadr
