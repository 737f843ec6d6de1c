import Verif.Lemmas.Clash
import Verif.Props.SchemaValidEvents
import Verif.Props.OptObject
import Verif.Props.AddedRound
import Verif.Props.Enums
/-!
C104: what the library says is valid against the schema it comes with: the opts that users make, and the events in the queues of the VTN.
-/
namespace Openleadr

variable {lib : Lib} {now : Int}

/-- What the schema asks of an event in the queue, beyond what can be sent. -/
structure Event.Allowed (e : Event) : Prop where
  modification : Unsigned32 e.descriptor.modificationNumber
  priority : ∀ i, e.descriptor.priority = some i → Unsigned32 i
  nonempty : e.signals ≠ []
  intervals : ∀ s ∈ e.signals, s.intervals ≠ []
  names : ∀ s ∈ e.signals, SchemaText schemaSignalName s.signalName ∧ s.signalType ∈ schemaSignalType
  numbers : ∀ s ∈ e.signals, ∀ i ∈ s.intervals, SchemaNumber i.payload
  currents : ∀ s ∈ e.signals, ∀ v, s.currentValue = some v → SchemaNumber v

theorem status_allowed (s : Status) : s.text ∈ schemaEventStatus := by cases s <;> decide +kernel

theorem allowed_prepared {e : Event} (hs : e.Sendable lib) (h : e.Allowed) : (eventP lib (e.prepared now)).Allowed where
  descriptor := ⟨h.modification, h.priority, status_allowed _⟩
  nonempty := by simpa [eventP, Event.prepared] using h.nonempty
  signals := by
    intro s hm
    simp only [eventP, Event.prepared, List.mem_map, List.map_map, Function.comp_apply] at hm
    obtain ⟨a, ha, rfl⟩ := hm
    obtain ⟨n1, n2, -⟩ := prepared_names a
    refine ⟨by simpa [signalP, prepared_intervals] using h.intervals a ha, ?_, by simpa only [signalP, n1] using (h.names a ha).1,
      by simpa only [signalP, n2] using (h.names a ha).2, by simp [signalP], ?_⟩
    · intro i hi
      simp only [signalP, prepared_intervals, List.mem_map] at hi
      obtain ⟨j, hj, rfl⟩ := hi
      exact ⟨h.numbers a ha j hj⟩
    · intro c hc
      simp only [signalP, Option.map_eq_some_iff] at hc
      obtain ⟨v, hv, rfl⟩ := hc
      rcases prepared_current a with hp | hp
      · exact h.currents a ha v (hp ▸ hv)
      · rw [hp, Option.some.injEq] at hv
        subst hv
        intro r hr
        cases hr
  targets := by
    obtain ⟨ts, ht, -⟩ := hs.sound.targets
    simp [eventP, Event.prepared, ht]
  response := by
    rcases hs.sound.response with h | h <;> simp [eventP, Event.prepared, h]

/-- The answer in front of the events: the id of a request that had none is the text `None`. -/
theorem gives_answer {env : Dict} {rid : Option String} (hr : ∀ x, rid = some x → OnWire x)
    (hl : lookup env ["response"] = .ok (some (.dict [("response_code", .int 200), ("response_description", .str "OK"), ("request_id", textOrNone rid)]))) :
    Gives lib env plainNames eiResponse [(Xsd.ei "eiResponse", Xsd.eiResponse)] 1 := by
  refine gives_el (.one (gives_code (i := 200) (by rw [lookup_in hl]; rfl) ⟨by decide, by decide⟩)
    (.one (gives_text (s := "OK") (by rw [lookup_in hl]; rfl) (onWire_of (by decide +kernel))) (.one ?_ .nil)))
  cases rid with
  | none => exact gives_leaf (v := .none) (by rw [lookup_in hl]; rfl) (reads_safe (t := "None".toList) rfl ⟨_, rfl, rfl⟩ (by decide) (by decide) trivial)
  | some x => exact gives_text (s := x) (by rw [lookup_in hl]; rfl) (hr x rfl)

/-- **C104** for the messages with which the VTN hands out events of its queues (objects as `add_event` and `add_raw_event` keep them), prepared as they are sent. -/
theorem c104_queued_events (sound : lib.Sound) {es : List Event} {vtn ven id : String} {rid : Option String} (hnow : Datable now)
    (hz : AsFloat lib (.int 0) (floatOf lib (.int 0))) (h : ∀ e ∈ es, e.Sendable lib) (ha : ∀ e ∈ es, e.Allowed) (hr : ∀ x, rid = some x → OnWire x)
    (hv : OnWire vtn) (hi : OnWire id) :
    ∃ txt root, createMessage lib now "oadrDistributeEvent" (messageWith (.list (es.map Event.object)) vtn ven id (textOrNone rid)) = .ok txt ∧
      Xsd.Document txt root ∧ Xsd.ValidAs "oadrDistributeEvent" root := by
  have hp : (textOrNone rid).asPlain = textOrNone rid ∧ ∀ l, textOrNone rid ≠ .list l := by cases rid <;> simp [textOrNone, Value.asPlain]
  have hpre := preflight_objects (now := now) (vtn := vtn) (ven := ven) (id := id) (fun e he => (h e he).plain) (fun e he => (h e he).sound) hp
  have hc := conforms_meant (now := now) (vtn := vtn) (ven := ven) (id := id) (rid := rid) h
  exact valid_of 0 _ hpre hc (by rfl) (by rfl)
    (.opt (gives_yes (surely_given (v := some (.dict [("response_code", .int 200), ("response_description", .str "OK"), ("request_id", textOrNone rid)]))
      (by lkd [meantWith]) (by simp)) (gives_answer hr (by lkd [meantWith]))) (Nat.le_refl _)
    (.one (gives_text (by lkd [meantWith]) hi) (.one (gives_text (by lkd [meantWith]) hv)
    (.many (gives_each (xs := es) (F := fun e => (eventP lib (e.prepared now)).dict) (by lkd [meantWith, List.map_map, Function.comp_def]) (fun i e he =>
      gives_event (good_prepared sound hnow hz (h e he)) (allowed_prepared (h e he) (ha e he)) (by simp [loopEnv, Dict.get?]))) (Nat.zero_le _) .nil))))
    (by decide +kernel)

/-- **C104** for the opts that users make with `create_opt`, for at most one target. -/
theorem c104_made_opt (sound : lib.Sound) {q ven : String} {o : OptObject} (h : o.Sendable lib q ven) (hm : Unsigned32 o.modificationNumber) (h1 : o.targets.length ≤ 1) :
    ∃ txt root, createMessage lib now "oadrCreateOpt" (o.payload q ven) = .ok txt ∧ Xsd.Document txt root ∧ Xsd.ValidAs "oadrCreateOpt" root :=
  c104_create_opt (wire_good sound h) ⟨h.optType, .inl h.optReason, fun i hi => by cases hi; exact hm, fun l hl => by cases hl; simpa using h1⟩ _ (conforms_opt h.targets)

/-- **C104** for the events that are made with `add_event`, with the names of signals that the schema has, and with values that are numbers for XML. -/
theorem c104_added_event {s s' : Server} {a : AddArgs} {id : String} (good : a.Good lib) (h : addEvent s a = (s', .ok (some id)))
    (hn : SchemaText schemaSignalName a.signalName) (hx : ∀ i ∈ a.intervals, SchemaNumber i.payload) :
    ∃ e, s'.queue a.ven = s.queue a.ven ++ [e] ∧ e.Sendable lib ∧ e.Allowed := by
  obtain ⟨-, hext, hreq, p, hp, -, hq, -⟩ := added_state h
  refine ⟨_, hq, (added_sendable good hreq hp).1, ?_⟩
  have hsig : (addedEvent a p).signals = [{ intervals := a.intervals, signalName := a.signalName, signalType := a.signalType, signalId := a.signalId }] := rfl
  have one : ∀ {q : Signal → Prop}, q { intervals := a.intervals, signalName := a.signalName, signalType := a.signalType, signalId := a.signalId } →
      ∀ s ∈ (addedEvent a p).signals, q s := by
    intro q hq s hs
    rw [hsig, List.mem_singleton] at hs
    exact hs ▸ hq
  have hne : a.intervals ≠ [] := by
    intro e
    rw [e] at hp
    simp [activePeriodOf] at hp
  have z : Unsigned32 0 := ⟨by decide, by decide⟩
  refine ⟨z, fun i hi => by cases hi; exact z, by rw [hsig]; simp, one hne, one ⟨hn, ?_⟩, one hx, one (by simp)⟩
  have hin : s.external = false := by
    cases he : s.external with
    | false => rfl
    | true => simp [addEvent, he] at h
  obtain ⟨e1, e2, _⟩ := lists_schema
  have key := c25_refused_iff s a hin
  rw [e1, e2] at key
  refine Decidable.byContradiction fun hc => ?_
  obtain ⟨err, he⟩ := key.mpr (.inr (.inl hc))
  rw [h] at he
  cases he

/-- The event that is added in the example of C87 is handed out in a valid message. -/
example : ∃ e, (addEvent Server.init askedArgs).1.queue "ven1" = [e] ∧ ∃ txt root,
    createMessage plainLib 0 "oadrDistributeEvent" (messageWith (.list [e.object]) "vtn" "ven1" "id1" .none) = .ok txt ∧
    Xsd.Document txt root ∧ Xsd.ValidAs "oadrDistributeEvent" root := by
  obtain ⟨e, h1, h2, h3⟩ := c104_added_event (s := Server.init) (s' := (addEvent Server.init askedArgs).1) (a := askedArgs) (id := "event1") askedArgs_good rfl
    (.inl (by decide +kernel)) (by
      intro i hi r hr
      rw [askedArgs, List.mem_singleton] at hi
      subst hi
      cases hr)
  refine ⟨e, h1, c104_queued_events (es := [e]) (rid := none) plainLib_sound (by constructor <;> decide +kernel) (asFloat_plain 0 _ (by decide +kernel)) (by simpa using h2) (by simpa using h3) (by simp)
    (onWire_of (by decide +kernel)) (onWire_of (by decide +kernel))⟩

/-- A check of messages that lets all valid documents pass. -/
def AcceptsValid (accepts : String → Bool) : Prop := ∀ txt root, Xsd.Document txt root → Xsd.Valid root → accepts (String.ofList txt) = true

/-- **C104** in operation: the poll of a VEN and its answer with events pass every check that lets valid documents pass, on both sides, and the VEN reads the events. -/
theorem c104_events_pass {k : Link} {c : Config} {env : Env} {vtnClock : Nat → Int} {cache : NonceCache} {s s1 : Server} {log effects : List Effect}
    {secure : Bool} {peer : Option String} {ven : String} {es : List Event} (sound : k.lib.Sound) (hven : Ordinary k.lib ven) (hvtn : Ordinary k.lib c.vtnId)
    (hid : Ordinary k.lib c.newId) (hnow : Datable k.serverNow) (hz : AsFloat k.lib (.int 0) (floatOf k.lib (.int 0)))
    (hin : LetsIn k c secure peer cache ven)
    (hval : ∀ txt root, Xsd.Document txt root → Xsd.Valid root → ∃ tree, c.validate (String.ofList txt) = .ok tree) (hacc : AcceptsValid k.accepts)
    (hint : s.external = false) (hflag : s.flag ven = true) (htake : takeEvents vtnClock s ven = (s1, some es))
    (hdel : deliverAll env s1.delivery es = (effects, none)) (hes : ∀ e ∈ es, e.Sendable k.lib) (ha : ∀ e ∈ es, e.Allowed) :
    exchange k c (pollService env vtnClock) cache (s, log) secure peer "oadrPoll" [("ven_id", .str ven)] =
      ((cache, ({ s1 with updated := Dict.set s1.updated ven false }, log ++ effects)), .ok (some (some "oadrDistributeEvent",
        receivedWith (es.map (fun e => eventP k.lib (e.prepared k.serverNow))) c.vtnId c.newId none))) := by
  refine poll_distributes sound hven hvtn hid hnow hz hin (fun txt ht => ?_) (fun txt ht => ?_) hint hflag htake hdel hes
  · obtain ⟨t, r, h1, h2, h3⟩ := c104_poll (lib := k.lib) (now := k.clientNow) hven.toOnWire _ (.same _)
    rw [h1, Except.ok.injEq] at ht
    subst ht
    exact hval _ _ h2 (validAs_valid h3)
  · obtain ⟨t, r, h1, h2, h3⟩ := c104_queued_events (now := k.serverNow) (ven := ven) (rid := none) sound hnow hz hes ha (by simp) hvtn.toOnWire hid.toOnWire
    rw [show (textOrNone none : Value) = .none from rfl, ht, Except.ok.injEq] at h1
    subst h1
    exact hacc _ _ h2 (validAs_valid h3)

end Openleadr
