import Verif.Props.SchemaInvalid
/-!
C104: what becomes of events that the VTN hands out in a message that is not valid.
-/
namespace Openleadr

open Xsd (seq one opt many some' ei oadr pyld emix string)

variable {lib : Lib} {now : Int} {env : Dict} {names : Xsd.Names}

/-- **C104**: the text of a document says whether it is valid; it does not matter how it is taken apart into elements and character data. -/
theorem c104_one_document {choice : List (Xsd.QName × Xsd.XType)} {txt : Text} {r s : Xsd.Tree} (hr : Xsd.Document txt r) (hs : Xsd.Document txt s) :
    Xsd.ValidFor choice r ↔ Xsd.ValidFor choice s := ⟨Xsd.validFor_unique hr hs, Xsd.validFor_unique hs hr⟩

theorem isUnsigned_only {limit : Nat} {i : Int} (h : Xsd.IsUnsigned limit (intText i)) : 0 ≤ i ∧ i ≤ limit := by
  obtain ⟨sign, ds, h1, h2, h3, h4⟩ := h
  rw [collapse_safe (intText_safe i), intText] at h1
  have hd := digits_natText i.natAbs
  split at h1
  · rcases h4 with rfl | rfl | ⟨rfl, h5⟩
    · rw [List.nil_append] at h1
      exact absurd (h2.2 '-' (by rw [← h1]; simp)) (by decide)
    · simp at h1
    · simp only [List.cons_append, List.nil_append, List.cons.injEq, true_and] at h1
      rw [← h1, number_natText] at h5
      omega
  · have hn : ∀ c, c ∈ natText i.natAbs → c.isDigit = true := hd.2
    rw [h1] at hn
    rcases h4 with rfl | rfl | ⟨rfl, -⟩
    · rw [List.nil_append] at h1
      rw [← h1, number_natText] at h3
      omega
    · exact absurd (hn '+' (by simp)) (by decide)
    · exact absurd (hn '-' (by simp)) (by decide)

theorem eachTree_append (f : Nat → Value → Res (List Xsd.Tree)) : ∀ (a b : List Value) (i : Nat) {x y : List Xsd.Tree},
    eachTree f i a = .ok x → eachTree f (i + a.length) b = .ok y → eachTree f i (a ++ b) = .ok (x ++ y)
  | [], b, i, x, y, h1, h2 => by
    cases h1
    simpa using h2
  | v :: a, b, i, x, y, h1, h2 => by
    rw [List.cons_append]
    unfold eachTree at h1 ⊢
    cases h3 : f i v with
    | error e => simp [h3] at h1
    | ok t =>
      simp only [h3] at h1 ⊢
      cases h4 : eachTree f (i + 1) a with
      | error e => simp [h4] at h1
      | ok t' =>
        simp only [h4] at h1
        cases h1
        rw [eachTree_append f a b (i + 1) h4 (by rw [List.length_cons] at h2; rw [← h2]; congr 1; omega)]
        simp

/-- A loop over a list of structures, one of which gives something else than the others. -/
theorem fills_among {α : Type} {var : String} {over : List String} {t : Tmpl} {alts bad} {pre post : List α} {x : α} {F : α → Dict}
    (hl : lookup env over = .ok (some (.list (((pre ++ x :: post).map F).map .dict))))
    (h : ∀ i, ∀ y ∈ pre ++ post, Gives lib (loopEnv env var i (.dict (F y))) names t alts 1)
    (hx : ∀ i, Gives lib (loopEnv env var i (.dict (F x))) names t bad 1) :
    Fills lib env names [.loop var over [t]] [(0, none, alts), (1, some 1, bad), (0, none, alts)] := by
  have each : ∀ l : List α, (∀ y ∈ l, y ∈ pre ++ post) → ∀ i, ∃ ks, eachTree (fun i x => growAll lib (loopEnv env var i x) [t]) i ((l.map F).map .dict) = .ok ks ∧
      (∀ k ∈ ks, Sound1 k ∧ k.element.isSome = true) ∧ Xsd.Choices names alts ks := by
    intro l hm i
    obtain ⟨ks, h1, -, h3, h4⟩ := eachTree_gives (lib := lib) (env := env) (names := names) [t] var alts (fun _ => 1) ((l.map F).map .dict) (fun i x hx => by
      simp only [List.map_map, List.mem_map] at hx
      obtain ⟨y, hy, rfl⟩ := hx
      obtain ⟨ks, g1, g2⟩ := h i y (hm y hy)
      exact ⟨ks, by rw [growAll_one]; exact g1, g2⟩) i
    exact ⟨ks, h1, h3, h4⟩
  obtain ⟨a, a1, a2, a3⟩ := each pre (fun y hy => by simp [hy]) 0
  obtain ⟨b, b1, b2, b3, b4⟩ := hx (0 + ((pre.map F).map Value.dict).length)
  obtain ⟨c, c1, c2, c3⟩ := each post (fun y hy => by simp [hy]) (0 + ((pre.map F).map Value.dict).length + 1)
  have hg : grow lib env (.loop var over [t]) = .ok (a ++ (b ++ c)) := by
    have e : ((pre ++ x :: post).map F).map Value.dict = (pre.map F).map Value.dict ++ (.dict (F x) :: (post.map F).map Value.dict) := by simp
    rw [e] at hl
    have := eachTree_append (fun i x => growAll lib (loopEnv env var i x) [t]) _ (.dict (F x) :: (post.map F).map Value.dict) 0 (y := b ++ c) a1 (by
      simp only [eachTree, growAll_one, b1]
      simp only [growAll_one] at c1
      rw [c1])
    simp only [grow, hl, this]
  refine ⟨a ++ (b ++ c), by rw [growAll_one]; exact hg, ?_, ?_⟩
  · intro k hk
    simp only [List.mem_append] at hk
    rcases hk with hk | hk | hk
    · exact a2 k hk
    · exact b3 k hk
    · exact c2 k hk
  · refine .part 0 none a3 (Nat.zero_le _) (by simp) (.part 1 (some 1) b4 (by omega) (by simp [b2]) ?_)
    have := Xsd.Sequence.part (names := names) 0 none c3 (Nat.zero_le _) (by simp) .nil
    simpa using this

/-- What an event has in place of what the schema allows, if its priority is not an unsigned integer of 32 bits. -/
def misprioritized : Xsd.XType := seq [one (ei "eiEvent") (seq [
    one (ei "eventDescriptor") (seq [
      one (ei "eventID") string, one (ei "modificationNumber") Xsd.unsignedInt, opt (ei "modificationDateTime") Xsd.dateTime,
      opt (ei "modificationReason") string, one (ei "priority") (notA (Xsd.IsUnsigned 4294967295)), one (ei "eiMarketContext") (seq [one (emix "marketContext") Xsd.anyURI]),
      one (ei "createdDateTime") Xsd.dateTime, one (ei "eventStatus") (Xsd.token schemaEventStatus), opt (ei "testEvent") string, opt (ei "vtnComment") string]),
    one (ei "eiActivePeriod") Xsd.activePeriod,
    one (ei "eiEventSignals") (seq [some' (ei "eiEventSignal") Xsd.eventSignal]), one (ei "eiTarget") Xsd.target]),
  one (oadr "oadrResponseRequired") (Xsd.exactly ["always", "never"])]

theorem gives_misprioritized {r : EventP} (h : r.Good lib) (hm : Unsigned32 r.descriptor.modification) (hst : r.descriptor.status ∈ schemaEventStatus)
    (hne : r.signals ≠ []) (hsg : ∀ s ∈ r.signals, s.Allowed) (htg : r.targets ≠ none) (hrs : r.response ∈ ["always", "never"])
    {i : Int} (hp : r.descriptor.priority = some i) (hi : ¬ Unsigned32 i) (hv : Dict.get? env "event" = some (.dict r.dict)) :
    Gives lib env plainNames tEvent [(oadr "oadrEvent", misprioritized)] 1 := by
  obtain ⟨ts, ht⟩ := Option.ne_none_iff_exists'.1 htg
  have hl : lookup env ["event", "targets"] = .ok (some (.list ((ts.map EventTargetP.dict).map .dict))) := by lkd [hv, EventP.dict, ht]
  have he : Dict.get? r.dict "event_descriptor" = some (.dict r.descriptor.dict) := by simp [EventP.dict, Dict.get?]
  have hd := h.descriptor
  generalize hdd : r.descriptor = d at *
  have hlp : lookup env ["event", "event_descriptor", "priority"] = .ok (some (.int i)) := by lkd [hv, he, DescriptorP.dict, hp, int?]
  exact gives_el (.one (gives_el (.one (gives_el
    (.one (gives_text (by lkd [hv, he, DescriptorP.dict]) hd.eventId.toOnWire)
    (.one (gives_unsigned (by lkd [hv, he, DescriptorP.dict]) hm)
    (.maybe (maybe_given (o := d.modified) (f := .datetime) (by lkd [hv, he, DescriptorP.dict, date?]) (by simp) (fun x hx =>
      gives_datetime (by lkd [hv, he, DescriptorP.dict, date?, hx]) (hd.modified x hx)))
    (.maybe (maybe_text (by lkd [hv, he, DescriptorP.dict]) (fun x hx => (hd.reason x hx).toOnWire))
    (.one (gives_yes (by simp [surely, hlp]) (gives_leaf hlp (reads_int (fun hu => hi (isUnsigned_only hu)))))
    (.one (gives_el (.one (gives_uri (by lkd [hv, he, DescriptorP.dict]) hd.marketContext.toOnWire) .nil))
    (.one (gives_datetime (by lkd [hv, he, DescriptorP.dict]) hd.created)
    (.one (gives_token (by lkd [hv, he, DescriptorP.dict]) hd.status.toOnWire hst)
    (.maybe (maybe_given (o := d.test) (f := .bool) (by lkd [hv, he, DescriptorP.dict, bool?]) (by simp) (fun b hb =>
      gives_leaf (v := .bool b) (by lkd [hv, he, DescriptorP.dict, bool?, hb]) (reads_bool.weaken fun _ _ => trivial)))
    (.maybe (maybe_text (by lkd [hv, he, DescriptorP.dict]) (fun x hx => (hd.comment x hx).toOnWire)) .nil)))))))))))
    (.one (gives_active h.period hv (by simp [EventP.dict, Dict.get?]))
    (.one (gives_el (.many (gives_each (xs := r.signals) (F := SignalP.dict) (by lkd [hv, EventP.dict]) (fun i s hs =>
      gives_signal (h.signals s hs) (hsg s hs) (by simp [loopEnv, Dict.get?]))) (List.length_pos_iff.2 hne) .nil))
    (.nothing (grow_skip (surely_truthy (v := none) (by lkd [hv, EventP.dict]) (by simp)))
    (.one (gives_yes (surely_given hl (by simp)) (gives_eventTarget (h.targets ts ht) hl)) .nil))))))
    (.one (gives_exactly (by lkd [hv, EventP.dict]) h.response.toOnWire hrs) .nil))

/-- The event, without its priority. -/
def Event.unprioritized (e : Event) : Event := { e with descriptor := { e.descriptor with priority := none } }

/-- **C104, refuted** for the events of the queue of a VEN (objects as `add_event` and `add_raw_event` keep them) as soon as one of them has a priority that is
    not an unsigned integer of 32 bits, such as -1: the message with all of them is sent, and is not valid. -/
theorem c104_priority_violated (sound : lib.Sound) {pre post : List Event} {e : Event} {vtn ven id : String} {rid : Option String} (hnow : Datable now)
    (hz : AsFloat lib (.int 0) (floatOf lib (.int 0))) (h : ∀ x ∈ pre ++ e :: post, x.Sendable lib) (ha : ∀ x ∈ pre ++ post, x.Allowed)
    (he : e.unprioritized.Allowed) {i : Int} (hp : e.descriptor.priority = some i) (hi : ¬ Unsigned32 i) (hr : ∀ x, rid = some x → OnWire x)
    (hv : OnWire vtn) (hid : OnWire id) :
    ∃ txt, createMessage lib now "oadrDistributeEvent" (messageWith (.list ((pre ++ e :: post).map Event.object)) vtn ven id (textOrNone rid)) = .ok txt ∧
      Xsd.Invalid txt := by
  have hpl : (textOrNone rid).asPlain = textOrNone rid ∧ ∀ l, textOrNone rid ≠ .list l := by cases rid <;> simp [textOrNone, Value.asPlain]
  have hpre := preflight_objects (now := now) (vtn := vtn) (ven := ven) (id := id) (fun e he => (h e he).plain) (fun e he => (h e he).sound) hpl
  have hc := conforms_meant (now := now) (vtn := vtn) (ven := ven) (id := id) (rid := rid) h
  have hs := h e (by simp)
  have mem : ∀ x, x ∈ pre ++ post → x ∈ pre ++ e :: post := by
    intro x hx
    rcases List.mem_append.1 hx with hx | hx <;> simp [hx]
  have hes : e.unprioritized.Sendable lib :=
    ⟨⟨hs.1.1, hs.1.2, hs.1.3, hs.1.4, hs.1.5⟩, ⟨hs.2.1, hs.2.2, hs.2.3, hs.2.4, hs.2.5, hs.2.6⟩,
      ⟨hs.3.1, hs.3.2, hs.3.3, hs.3.4, hs.3.5, hs.3.6, hs.3.7, hs.3.8, hs.3.9, hs.3.10, hs.3.11, hs.3.12, hs.3.13, hs.3.14, hs.3.15, hs.3.16, hs.3.17⟩⟩
  have hal := allowed_prepared (now := now) hes he
  refine invalid_of 0 _ hpre hc (by rfl) (by rfl) (parts' := [
      opt (ei "eiResponse") Xsd.eiResponse, one (pyld "requestID") string, one (ei "vtnID") string,
      many (oadr "oadrEvent") (seq [one (ei "eiEvent") Xsd.event, one (oadr "oadrResponseRequired") (Xsd.exactly ["always", "never"])]),
      one (oadr "oadrEvent") misprioritized,
      many (oadr "oadrEvent") (seq [one (ei "eiEvent") Xsd.event, one (oadr "oadrResponseRequired") (Xsd.exactly ["always", "never"])])])
    (.opt (gives_yes (surely_given (v := some (.dict [("response_code", .int 200), ("response_description", .str "OK"), ("request_id", textOrNone rid)]))
      (by lkd [meantWith]) (by simp)) (gives_answer hr (by lkd [meantWith]))) (Nat.le_refl _)
    (.one (gives_text (by lkd [meantWith]) hid) (.one (gives_text (by lkd [meantWith]) hv)
    (fills_among (pre := pre) (post := post) (x := e) (F := fun e => (eventP lib (e.prepared now)).dict) (by lkd [meantWith, List.map_map, Function.comp_def])
      (fun j x hx => ?_) (fun j => ?_)))))
    (.inner 3 0 4 rfl (Nat.le_refl 1) rfl rfl (by decide +kernel) rfl (.inner 0 0 0 rfl (Nat.le_refl 1) rfl rfl (by decide +kernel) rfl
      (.inner 0 0 0 rfl (Nat.le_refl 1) rfl rfl (by decide +kernel) rfl (.inner 4 0 4 rfl (Nat.le_refl 1) rfl rfl (by decide +kernel) rfl (clash_not _)))))
    (by decide +kernel) (by decide +kernel)
  · exact gives_event (good_prepared sound hnow hz (h x (mem x hx))) (allowed_prepared (h x (mem x hx)) (ha x hx)) (by simp [loopEnv, Dict.get?])
  · exact gives_misprioritized (good_prepared sound hnow hz hs) hal.descriptor.modification hal.descriptor.status hal.nonempty hal.signals hal.targets hal.response hp hi
      (by simp [loopEnv, Dict.get?])

/-- A check of messages that lets no document pass that is not valid. -/
def RefusesInvalid (accepts : String → Bool) : Prop := ∀ txt, Xsd.Invalid txt → accepts (String.ofList txt) = false

/-- What the client gets when the server's message is refused. -/
theorem exchange_refused {k : Link} {c : Config} {svc : Service S} {cache cache' : NonceCache} {st st' : S} {secure : Bool} {peer : Option String}
    {type rt : String} {p m rp : Dict} (hs : Received k.lib k.clientNow type p m)
    (hp : ∀ txt, createMessage k.lib k.clientNow type p = .ok txt → parseMessage k.lib txt = .ok (type, .dict m) →
      (handle (wired c k.lib k.serverNow) svc k.surroundings k.count cache st (requestOf secure peer txt)) =
        ((cache', st'), sendMessage (wired c k.lib k.serverNow) rt rp))
    {txt : Text} (hr : createMessage k.lib k.serverNow rt rp = .ok txt) (hne : String.ofList txt ≠ "") (ha : k.accepts (String.ofList txt) = false) :
    exchange k c svc cache st secure peer type p = ((cache', st'), .ok (some (none, []))) := by
  obtain ⟨txt', h1, h2⟩ := hs
  have hh := hp txt' h1 h2
  simp only [requestOf] at hh
  have hs : sendMessage (wired c k.lib k.serverNow) rt rp = .ok ⟨200, String.ofList txt, some (rt, rp)⟩ := by
    simp only [sendMessage, wired, renderText, hr]
  simp only [exchange, h1, hh, hs, clientReads, ne_eq, not_true_eq_false, if_false, hne, ha, if_true]

/-- **C104, refuted** in operation: one event with a priority like -1 in the queue of a VEN, and a VEN that checks messages against the schema does not get any of
    its events: its poll brings nothing, the VTN tells those who wait for it that the events are delivered, remembers that there is nothing new, and the next
    poll is answered without events. -/
theorem c104_lost_violated {k : Link} {c : Config} {env : Env} {vtnClock : Nat → Int} {cache : NonceCache} {s s1 : Server} {log effects : List Effect}
    {secure : Bool} {peer : Option String} {ven : String} {pre post : List Event} {e : Event} (sound : k.lib.Sound) (hven : Ordinary k.lib ven) (hvtn : Ordinary k.lib c.vtnId)
    (hid : Ordinary k.lib c.newId) (hnow : Datable k.serverNow) (hz : AsFloat k.lib (.int 0) (floatOf k.lib (.int 0)))
    (hin : LetsIn k c secure peer cache ven)
    (hval : ∀ txt root, Xsd.Document txt root → Xsd.Valid root → ∃ tree, c.validate (String.ofList txt) = .ok tree) (hacc : RefusesInvalid k.accepts)
    (hint : s.external = false) (hflag : s.flag ven = true) (htake : takeEvents vtnClock s ven = (s1, some (pre ++ e :: post)))
    (hdel : deliverAll env s1.delivery (pre ++ e :: post) = (effects, none)) (hes : ∀ x ∈ pre ++ e :: post, x.Sendable k.lib)
    (ha : ∀ x ∈ pre ++ post, x.Allowed) (he : e.unprioritized.Allowed) {i : Int} (hp : e.descriptor.priority = some i) (hi : ¬ Unsigned32 i) :
    ∃ s2, exchange k c (pollService env vtnClock) cache (s, log) secure peer "oadrPoll" [("ven_id", .str ven)] =
        ((cache, (s2, log ++ effects)), .ok (some (none, []))) ∧
      s2.events = s1.events ∧ s2.delivery = s1.delivery ∧ ∀ env clock, poll env clock s2 ven = (s2, [], .ok .response) := by
  have hext : s1.external = false := by
    have := (takeEvents_frame vtnClock s ven).1
    rw [htake] at this
    exact this.trans hint
  refine ⟨{ s1 with updated := Dict.set s1.updated ven false }, ?_, rfl, rfl, ?_⟩
  · have hpoll : poll env vtnClock s ven = ({ s1 with updated := Dict.set s1.updated ven false }, effects, .ok (.distribute (pre ++ e :: post))) := by
      simp [poll, hint, hflag, requestEvent, htake, hdel]
    obtain ⟨txt, h1, h2⟩ := c104_priority_violated (now := k.serverNow) (ven := ven) (rid := none) sound hnow hz hes ha he hp hi (by simp) hvtn.toOnWire hid.toOnWire
    have hne : String.ofList txt ≠ "" := by
      obtain ⟨⟨root, h3, -⟩, -⟩ := h2
      intro e
      have := congrArg String.toList e
      rw [String.toList_ofList, h3] at this
      simp at this
    refine exchange_refused (poll_received (wired_text hven (by decide +kernel))) (fun txt g1 g2 => ?_) h1 hne (hacc txt h2)
    obtain ⟨t, r, a1, a2, a3⟩ := c104_poll (lib := k.lib) (now := k.clientNow) hven.toOnWire _ (.same _)
    rw [a1, Except.ok.injEq] at g1
    subst g1
    obtain ⟨tree, hv⟩ := hval _ _ a2 (validAs_valid a3)
    have hh : handleMessage c (pollService env vtnClock) (s, log) "oadrPoll" (withPeer secure peer "oadrPoll" [("ven_id", .str ven)]) =
        (({ s1 with updated := Dict.set s1.updated ven false }, log ++ effects), .ok ("oadrDistributeEvent",
          messageWith (.list ((pre ++ e :: post).map Event.object)) c.vtnId ven c.newId .none)) := by
      have hw : withPeer secure peer "oadrPoll" [("ven_id", .str ven)] = [("ven_id", .str ven)] := by simp [withPeer]
      rw [hw]
      simp only [handleMessage, pollService, Dict.get?, if_true, pollHandler, venKey, served, hpoll, Reply.returned, payloadDict]
      simp [finishPayload, Dict.set, Dict.get?, Value.truthy, messageWith]
    rw [handle_passed hv g2 (by decide) (by simp [Dict.get?]) (hin.known _ _ (by simp [Dict.get?])) (hin.authentic _ tree _ hv (by simp [Dict.get?])) hh]
    congr 2
  · intro env clock
    simp [poll, hext, Server.flag, Dict.get?_set]

/-- An event, with this priority. -/
def Event.prioritized (e : Event) (i : Int) : Event := { e with descriptor := { e.descriptor with priority := some i } }

/-- Beside them: the event of the example of C87, added again with the priority -1, makes the message with both invalid; alone, the first one is valid. -/
example : ∃ e, (addEvent Server.init askedArgs).1.queue "ven1" = [e] ∧
    (∃ txt, createMessage plainLib 0 "oadrDistributeEvent" (messageWith (.list [e.object, (e.prioritized (-1)).object]) "vtn" "ven1" "id1" .none) = .ok txt ∧ Xsd.Invalid txt) ∧
    ∃ txt root, createMessage plainLib 0 "oadrDistributeEvent" (messageWith (.list [e.object]) "vtn" "ven1" "id1" .none) = .ok txt ∧
      Xsd.Document txt root ∧ Xsd.ValidAs "oadrDistributeEvent" root := by
  obtain ⟨e, h1, h2, h3⟩ := c104_added_event (s := Server.init) (s' := (addEvent Server.init askedArgs).1) (a := askedArgs) (id := "event1") askedArgs_good rfl
    (.inl (by decide +kernel)) (by
      intro i hi r hr
      rw [askedArgs, List.mem_singleton] at hi
      subst hi
      cases hr)
  have hes : (e.prioritized (-1)).Sendable plainLib :=
    ⟨⟨h2.1.1, h2.1.2, h2.1.3, h2.1.4, h2.1.5⟩, ⟨h2.2.1, h2.2.2, h2.2.3, h2.2.4, h2.2.5, h2.2.6⟩,
      ⟨h2.3.1, h2.3.2, h2.3.3, h2.3.4, h2.3.5, h2.3.6, h2.3.7, h2.3.8, h2.3.9, h2.3.10, h2.3.11, h2.3.12, h2.3.13, h2.3.14, h2.3.15, h2.3.16, h2.3.17⟩⟩
  have hal : (e.prioritized (-1)).unprioritized.Allowed := ⟨h3.1, by simp [Event.unprioritized], h3.3, h3.4, h3.5, h3.6, h3.7⟩
  have hn : Datable 0 := by constructor <;> decide +kernel
  refine ⟨e, h1, c104_priority_violated (pre := [e]) (post := []) (e := e.prioritized (-1)) (rid := none) (i := -1) plainLib_sound hn (asFloat_plain 0 _ (by decide +kernel))
      (by simpa using ⟨h2, hes⟩) (by simpa using h3) hal rfl (by simp [Unsigned32]) (by simp) (onWire_of (by decide +kernel)) (onWire_of (by decide +kernel)),
    c104_queued_events (es := [e]) (rid := none) plainLib_sound hn (asFloat_plain 0 _ (by decide +kernel)) (by simpa using h2) (by simpa using h3) (by simp)
      (onWire_of (by decide +kernel)) (onWire_of (by decide +kernel))⟩

/-- An element cut in two ways, and written in two ways: one text is one document. -/
example : Xsd.nodes [.elem "a" [("b", "c>d")] [.chars ['x'], .chars ['y'], .elem "e" [] []]] =
    Xsd.nodes [.elem "a" [("b", "c>d")] [.chars ['x', 'y'], .empty "e" []]] := by simp [Xsd.nodes]

end Openleadr
