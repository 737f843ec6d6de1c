import Verif.Model.EventExchange
import Verif.Lemmas.EventReady
/-!
The events of the server on their way into a message: as plain dicts, and prepared for sending.
-/
namespace Openleadr

/-! ### As plain dicts -/

def Descriptor.fields (d : Descriptor) : Dict :=
  [("event_id", .str d.eventId), ("modification_number", .int d.modificationNumber), ("market_context", .str d.marketContext),
    ("event_status", .str d.status.text), ("created_date_time", orNone (d.created.map .datetime)), ("modification_date_time", orNone (d.modified.map .datetime)),
    ("priority", orNone (d.priority.map .int)), ("test_event", .bool d.testEvent), ("vtn_comment", textOrNone d.vtnComment)]

def ActivePeriod.fields (p : ActivePeriod) : Dict :=
  [("dtstart", .datetime p.dtstart), ("duration", .timedelta p.duration),
    ("tolerance", orNone (p.tolerance.map (fun d => .dict [("startafter", .timedelta d)]))), ("notification_period", orNone (p.notification.map .timedelta)),
    ("ramp_up_period", orNone (p.rampUp.map .timedelta)), ("recovery_period", orNone (p.recovery.map .timedelta))]

def Interval.fields (i : Interval) : Dict :=
  [("dtstart", .datetime i.dtstart), ("duration", .timedelta i.duration), ("signal_payload", i.payload), ("uid", orNone (i.uid.map .int))]

/-- A list of targets, and a grouping, as values. -/
def targetsValue (ts : Option Targets) : Value := orNone (ts.map (fun ts => .list (ts.map .dict)))
def groupsValue (g : Option TargetsByType) : Value := orNone (g.map (fun g => .dict g.toDict))

def Signal.fields (s : Signal) : Dict :=
  [("intervals", .list ((s.intervals.map Interval.fields).map .dict)), ("signal_name", .str s.signalName), ("signal_type", .str s.signalType),
    ("signal_id", .str s.signalId), ("current_value", orNone s.currentValue), ("targets", targetsValue s.targets),
    ("targets_by_type", groupsValue s.targetsByType), ("measurement", .none)]

def Event.fields (e : Event) : Dict :=
  [("event_descriptor", .dict e.descriptor.fields), ("event_signals", .list ((e.signals.map Signal.fields).map .dict)),
    ("targets", targetsValue e.targets), ("targets_by_type", groupsValue e.targetsByType), ("active_period", .dict e.activePeriod.fields),
    ("response_required", textOrNone e.responseRequired)]

theorem plainList_map (l : List Value) : plainList l = l.map Value.plain := by
  induction l with
  | nil => rfl
  | cons v l ih => simp [plainList, ih]

theorem plainDict_map (d : Dict) : plainDict d = d.map (fun e => (e.1, e.2.plain)) := by
  induction d with
  | nil => rfl
  | cons e d ih => obtain ⟨k, v⟩ := e; simp [plainDict, ih]

theorem plain_orNone (v : Option Value) : (orNone v).plain = orNone (v.map Value.plain) := by
  cases v <;> simp [orNone, Value.plain]

theorem plain_textOrNone (t : Option String) : (textOrNone t).plain = textOrNone t := by
  cases t <;> simp [textOrNone, Value.plain]

/-- Values without objects inside. -/
structure Event.Plain (e : Event) : Prop where
  payloads : ∀ s ∈ e.signals, ∀ i ∈ s.intervals, i.payload.plain = i.payload
  currents : ∀ s ∈ e.signals, ∀ v, s.currentValue = some v → v.plain = v
  signalTargets : ∀ s ∈ e.signals, (targetsValue s.targets).plain = targetsValue s.targets ∧ (groupsValue s.targetsByType).plain = groupsValue s.targetsByType
  targets : (targetsValue e.targets).plain = targetsValue e.targets
  groups : (groupsValue e.targetsByType).plain = groupsValue e.targetsByType

theorem plain_descriptor (d : Descriptor) : d.object.plain = .dict d.fields := by
  cases h1 : d.created <;> cases h2 : d.modified <;> cases h3 : d.priority <;> cases h4 : d.vtnComment <;>
    simp [Descriptor.object, Descriptor.fields, Value.plain, plainDict, orNone, textOrNone, h1, h2, h3, h4]

theorem plain_period (p : ActivePeriod) : p.object.plain = .dict p.fields := by
  cases h1 : p.tolerance <;> cases h2 : p.notification <;> cases h3 : p.rampUp <;> cases h4 : p.recovery <;>
    simp [ActivePeriod.object, ActivePeriod.fields, Value.plain, plainDict, orNone, h1, h2, h3, h4]

theorem plain_interval (i : Interval) (h : i.payload.plain = i.payload) : i.object.plain = .dict i.fields := by
  cases h1 : i.uid <;> simp [Interval.object, Interval.fields, Value.plain, plainDict, orNone, h1, h]

theorem plain_signal (s : Signal) (h1 : ∀ i ∈ s.intervals, i.payload.plain = i.payload) (h2 : ∀ v, s.currentValue = some v → v.plain = v)
    (h3 : (targetsValue s.targets).plain = targetsValue s.targets) (h4 : (groupsValue s.targetsByType).plain = groupsValue s.targetsByType) :
    s.object.plain = .dict s.fields := by
  have hi : plainList (s.intervals.map Interval.object) = (s.intervals.map Interval.fields).map .dict := by
    rw [plainList_map, List.map_map, List.map_map]
    exact List.map_congr_left (fun i hi => plain_interval i (h1 i hi))
  have hc : (orNone s.currentValue).plain = orNone s.currentValue := by
    cases h : s.currentValue with
    | none => rfl
    | some v => exact h2 v h
  simp only [targetsValue, groupsValue] at h3 h4
  simp only [Signal.object, Signal.fields, Value.plain, plainDict, hi, hc, targetsValue, groupsValue, h3, h4]

theorem plain_event (e : Event) (h : e.Plain) : e.object.plain = .dict e.fields := by
  have hs : plainList (e.signals.map Signal.object) = (e.signals.map Signal.fields).map .dict := by
    rw [plainList_map, List.map_map, List.map_map]
    exact List.map_congr_left (fun s hs => plain_signal s (h.payloads s hs) (h.currents s hs) (h.signalTargets s hs).1 (h.signalTargets s hs).2)
  have ht := h.targets
  have hg := h.groups
  simp only [targetsValue, groupsValue] at ht hg
  simp only [Event.object, Event.fields, Value.plain, plainDict, hs, plain_descriptor, plain_period, plain_textOrNone, targetsValue, groupsValue, ht, hg]

/-! ### Prepared -/

/-- The sum of the durations of the intervals. -/
def Signal.total (s : Signal) : Int := (s.intervals.map Interval.duration).sum

/-- The signal with the current value that is sent: 0 instead of any other for SIMPLE signals. -/
def Signal.prepared (s : Signal) : Signal :=
  if s.signalName = "SIMPLE" ∧ (orNone s.currentValue).isZero = false then { s with currentValue := some (.int 0) } else s

/-- The duration that is sent: the sum of the durations of the intervals, the same for all signals. -/
def Event.sentDuration (e : Event) : Int := match e.signals with | [] => e.activePeriod.duration | s :: _ => s.total

/-- The event as it is sent. -/
def Event.prepared (now : Int) (e : Event) : Event :=
  { e with descriptor := { e.descriptor with created := some (e.descriptor.created.getD now) }, signals := e.signals.map Signal.prepared,
           activePeriod := { e.activePeriod with duration := e.sentDuration } }

/-- What is asked of an event that can be sent, apart from its texts and numbers. -/
structure Event.Sound (e : Event) : Prop where
  totals : ∀ s ∈ e.signals, s.total = e.sentDuration
  durations : ∀ s ∈ e.signals, ∀ i ∈ s.intervals, Spans i.duration
  short : e.sentDuration ≤ Spec.maxTimedelta
  levels : ∀ s ∈ e.signals, s.signalName = "SIMPLE" → ∀ i ∈ s.intervals, i.payload.isLevel = true
  response : e.responseRequired = some "always" ∨ e.responseRequired = some "never"
  targets : ∃ ts, e.targets = some ts ∧ e.targetsByType = some (groupTargetsByType ts)

theorem Event.gets (e : Event) : Dict.get? e.fields "event_descriptor" = some (.dict e.descriptor.fields) ∧
    Dict.get? e.fields "event_signals" = some (.list ((e.signals.map Signal.fields).map .dict)) ∧
    Dict.get? e.fields "targets" = some (targetsValue e.targets) ∧ Dict.get? e.fields "targets_by_type" = some (groupsValue e.targetsByType) ∧
    Dict.get? e.fields "active_period" = some (.dict e.activePeriod.fields) ∧
    Dict.get? e.fields "response_required" = some (textOrNone e.responseRequired) := by
  simp [Event.fields, Dict.get?]

theorem Signal.gets (s : Signal) : Dict.get? s.fields "intervals" = some (.list ((s.intervals.map Interval.fields).map .dict)) ∧
    Dict.get? s.fields "signal_name" = some (.str s.signalName) ∧ Dict.get? s.fields "current_value" = some (orNone s.currentValue) ∧
    Dict.get? s.fields "measurement" = some .none := by
  simp [Signal.fields, Dict.get?]

theorem signalDuration_fields {s : Signal} {d : Int} (hd : ∀ i ∈ s.intervals, Spans i.duration) (ht : s.total = d) (hm : d ≤ Spec.maxTimedelta) :
    signalDuration (.dict s.fields) = .ok d := by
  have hi : eachOk intervalDuration ((s.intervals.map Interval.fields).map .dict) = .ok (s.intervals.map Interval.duration) := by
    clear hd ht
    generalize s.intervals = l
    induction l with
    | nil => rfl
    | cons i l ih =>
      have : intervalDuration (.dict i.fields) = .ok i.duration := by simp [intervalDuration, item, Interval.fields, Dict.get?, parseDurationV]
      simp only [List.map_cons, eachOk, this, ih]
  have hnn : ∀ x ∈ s.intervals.map Interval.duration, 0 ≤ x := by
    intro x hx
    simp only [List.mem_map] at hx
    obtain ⟨i, hi, rfl⟩ := hx
    obtain ⟨secs, h1, h2, -⟩ := hd i hi
    omega
  simp only [signalDuration, item, s.gets.1, elements, hi]
  simp only [Signal.total] at ht
  rw [sumDurations_spans hnn 0 (by omega) (by rw [ht]; omega), ht]
  simp

theorem adjust_fields {e : Event} (h : e.Sound) :
    adjustDuration (.dict e.fields) = .ok (.dict { e with activePeriod := { e.activePeriod with duration := e.sentDuration } }.fields) := by
  obtain ⟨g1, g2, -, -, g5, -⟩ := e.gets
  have hp : Dict.get? e.activePeriod.fields "duration" = some (.timedelta e.activePeriod.duration) := by simp [ActivePeriod.fields, Dict.get?]
  have hid : Dict.get? e.descriptor.fields "event_id" = some (.str e.descriptor.eventId) := by simp [Descriptor.fields, Dict.get?]
  have hs : eachOk signalDuration ((e.signals.map Signal.fields).map .dict) = .ok (e.signals.map (fun _ => e.sentDuration)) := by
    have h1 := h.totals
    have h2 := h.durations
    have h3 := h.short
    generalize e.sentDuration = d at h1 h3
    generalize e.signals = l at h1 h2
    induction l with
    | nil => rfl
    | cons s l ih =>
      simp only [List.map_cons, eachOk, signalDuration_fields (h2 s (by simp)) (h1 s (by simp)) h3,
        ih (fun x hx => h1 x (by simp [hx])) (fun x hx => h2 x (by simp [hx]))]
  have hset : modifyItem (.dict e.fields) "active_period" (fun p => setItem p "duration" (.timedelta e.sentDuration)) =
      .ok (.dict { e with activePeriod := { e.activePeriod with duration := e.sentDuration } }.fields) := by
    simp only [modifyItem, item, g5, setItem]
    simp [Event.fields, ActivePeriod.fields, Dict.set]
  simp only [adjustDuration, item, g1, g2, g5, hp, hid, signalDurations, elements, hs]
  by_cases he : e.sentDuration = e.activePeriod.duration
  · rw [if_pos (by simp [he])]
    have : { e with activePeriod := { e.activePeriod with duration := e.sentDuration } } = e := by rw [he]
    rw [this]
  · cases hl : e.signals with
    | nil => exact absurd (by simp [Event.sentDuration, hl]) he
    | cons s l =>
      rw [if_neg (by simp [he])]
      simp only [List.map_cons]
      rw [if_pos (by simp), hset]
      rw [hl]

theorem eachSignalFields {e : Event} {f : Value → Res Value} (g : Signal → Signal) (h : ∀ s ∈ e.signals, f (.dict s.fields) = .ok (.dict (g s).fields)) :
    modifyItem (.dict e.fields) "event_signals" (forEach f) = .ok (.dict { e with signals := e.signals.map g }.fields) := by
  have he : eachOk f ((e.signals.map Signal.fields).map .dict) = .ok ((e.signals.map (fun s => (g s).fields)).map .dict) := by
    generalize e.signals = l at h
    induction l with
    | nil => rfl
    | cons s l ih => simp only [List.map_cons, eachOk, h s (by simp), ih (fun x hx => h x (by simp [hx]))]
  simp only [modifyItem, item, e.gets.2.1, forEach, elements, he, setItem]
  simp [Event.fields, Dict.set, Function.comp_def]

theorem simple_fields {e : Event} (h : ∀ s ∈ e.signals, s.signalName = "SIMPLE" → ∀ i ∈ s.intervals, i.payload.isLevel = true) : checkSimple (.dict e.fields) = .ok (.dict e.fields) := by
  have he : { e with signals := e.signals.map id } = e := by simp
  rw [← congrArg (fun e : Event => (Except.ok (Value.dict e.fields) : Res Value)) he]
  refine eachSignalFields (e := e) (f := checkSimpleSignal) id (fun s hs => ?_)
  · obtain ⟨g1, g2, -⟩ := s.gets
    simp only [checkSimpleSignal, item, g1, g2]
    by_cases en : s.signalName = "SIMPLE"
    · have : forEach checkLevel (.list ((s.intervals.map Interval.fields).map .dict)) = .ok (.list ((s.intervals.map Interval.fields).map .dict)) := by
        refine forEach_same (fun x hx => ?_)
        simp only [List.map_map, List.mem_map, Function.comp_apply] at hx
        obtain ⟨i, hm, rfl⟩ := hx
        have hg : Dict.get? i.fields "signal_payload" = some i.payload := by simp [Interval.fields, Dict.get?]
        simp [checkLevel, item, hg, h s hs en i hm]
      simp only [en, if_true, this, id]
    · simp [en]

theorem Status.text_ne (s : Status) : s.text ≠ "ACTIVE" := by cases s <;> decide

theorem zero_fields (e : Event) : zeroCurrent (.dict e.fields) = .ok (.dict { e with signals := e.signals.map Signal.prepared }.fields) := by
  refine eachSignalFields (e := e) Signal.prepared (fun s hs => ?_)
  obtain ⟨-, g2, g3, -⟩ := s.gets
  have hst : Dict.get? e.descriptor.fields "event_status" = some (.str e.descriptor.status.text) := by simp [Descriptor.fields, Dict.get?]
  simp only [zeroSignal, pyIn, Dict.has, g3, Option.isSome_some, item, g2, e.gets.1, hst, Signal.prepared]
  by_cases hz : (orNone s.currentValue).isZero = true
  · simp [hz]
  · by_cases en : s.signalName = "SIMPLE"
    · simp only [hz, en, Bool.false_eq_true, if_false, if_true, Value.str.injEq, Status.text_ne, setItem, true_and]
      simp [Signal.fields, Dict.set, orNone, en]
    · simp [hz, en]

theorem namespaces_fields (e : Event) : namespaces (.dict e.fields) = .ok (.dict e.fields) := by
  have he : { e with signals := e.signals.map id } = e := by simp
  rw [← congrArg (fun e : Event => (Except.ok (Value.dict e.fields) : Res Value)) he]
  refine eachSignalFields (e := e) (f := onMeasurement setNamespace) id (fun s hs => ?_)
  · obtain ⟨-, -, -, g4⟩ := s.gets
    simp [onMeasurement, pyIn, Dict.has, g4, item]

theorem response_fields {e : Event} (h : e.responseRequired = some "always" ∨ e.responseRequired = some "never") : requireResponse (.dict e.fields) = .ok (.dict e.fields) := by
  have g := e.gets.2.2.2.2.2
  rcases h with hr | hr <;> simp [requireResponse, pyIn, Dict.has, g, item, hr, textOrNone]

theorem created_fields (now : Int) (e : Event) :
    stampCreated now (.dict e.fields) = .ok (.dict { e with descriptor := { e.descriptor with created := some (e.descriptor.created.getD now) } }.fields) := by
  have hc : Dict.get? e.descriptor.fields "created_date_time" = some (orNone (e.descriptor.created.map .datetime)) := by simp [Descriptor.fields, Dict.get?]
  simp only [stampCreated, modifyItem, item, e.gets.1, stampDescriptor, pyIn, Dict.has, hc, Option.isSome_some]
  cases hd : e.descriptor.created with
  | none => simp [orNone, Value.truthy, setItem, Descriptor.fields, Dict.set, hd, Event.fields]
  | some t => simp [orNone, Value.truthy, setItem, Descriptor.fields, Dict.set, hd, Event.fields]

theorem sameEntries_self (d : Dict) (h : (Dict.keys d).Nodup) : sameEntries d d = true := by
  simp only [sameEntries, decide_true, Bool.true_and, List.all_eq_true, decide_eq_true_eq]
  intro e he
  exact Dict.get?_of_mem d h e.1 e.2 he

theorem eachOk_targets (ts : Targets) : eachOk targetEntriesV (ts.map .dict) = .ok ts := by
  induction ts with
  | nil => rfl
  | cons t ts ih => simp [eachOk, targetEntriesV, ih]

theorem targets_fields {e : Event} (h : ∃ ts, e.targets = some ts ∧ e.targetsByType = some (groupTargetsByType ts)) : checkTargets (.dict e.fields) = .ok (.dict e.fields) := by
  obtain ⟨ts, h1, h2⟩ := h
  obtain ⟨-, -, g3, g4, -⟩ := e.gets
  have hsame : sameTargets (groupTargetsByType ts) (.dict (groupTargetsByType ts).toDict) = true := by
    refine sameEntries_self _ ?_
    have := (foldl_groupTarget_good ts [] ⟨by simp [Dict.keys], by simp [Dict.get?]⟩).1
    simpa [Dict.keys, TargetsByType.toDict, Function.comp_def, groupTargetsByType] using this
  simp only [checkTargets, pyIn, Dict.has, g3, g4, Option.isSome_some, item, h1, h2, targetsValue, groupsValue, orNone, Option.map_some, Option.getD_some,
    groupTargetsV, elements, eachOk_targets, hsame, if_true]

/-- The message that the server sends with events (vtn_service.py:182-189), apart from the events. -/
def messageWith (events : Value) (vtn ven id : String) (rid : Value) : Dict :=
  [("events", events), ("vtn_id", .str vtn), ("ven_id", .str ven),
    ("response", .dict [("request_id", rid), ("response_code", .int 200), ("response_description", .str "OK")]), ("request_id", .str id)]

/-- A step of the preparation, on all events. -/
theorem each_event {f : Value → Res Value} {g : Event → Event} {es : List Event} {vtn ven id : String} {rid : Value}
    (h : ∀ e ∈ es, f (.dict e.fields) = .ok (.dict (g e).fields)) :
    modifyItem (.dict (messageWith (.list ((es.map Event.fields).map .dict)) vtn ven id rid)) "events" (forEach f) =
      .ok (.dict (messageWith (.list (((es.map g).map Event.fields).map .dict)) vtn ven id rid)) := by
  have he : eachOk f ((es.map Event.fields).map .dict) = .ok (((es.map g).map Event.fields).map .dict) := by
    induction es with
    | nil => rfl
    | cons e es ih => simp only [List.map_cons, eachOk, h e (by simp), ih (fun x hx => h x (by simp [hx]))]
  have hg : Dict.get? (messageWith (.list ((es.map Event.fields).map .dict)) vtn ven id rid) "events" = some (.list ((es.map Event.fields).map .dict)) := by
    simp [messageWith, Dict.get?]
  simp only [modifyItem, item, hg, forEach, elements, he, setItem]
  simp [messageWith, Dict.set]

theorem phases_step {f : Value → Res Value} {fs : List (Value → Res Value)} {g : Event → Event} {es : List Event} {vtn ven id : String} {rid out : Value}
    (h : ∀ e ∈ es, f (.dict e.fields) = .ok (.dict (g e).fields))
    (hr : phases "events" (.dict (messageWith (.list (((es.map g).map Event.fields).map .dict)) vtn ven id rid)) fs = .ok out) :
    phases "events" (.dict (messageWith (.list ((es.map Event.fields).map .dict)) vtn ven id rid)) (f :: fs) = .ok out := by
  rw [phases, each_event h, ← hr]

/-- The message as plain dicts. -/
theorem plain_message {es : List Event} {vtn ven id : String} {rid : Value} (hp : ∀ e ∈ es, e.Plain) (hr : rid.asPlain = rid ∧ ∀ l, rid ≠ .list l) :
    (messageWith (.list (es.map Event.object)) vtn ven id rid).map (fun e => (e.1, plainEntry e.2)) =
      messageWith (.list ((es.map Event.fields).map .dict)) vtn ven id rid := by
  have : (es.map Event.object).map Value.asPlain = (es.map Event.fields).map .dict := by
    rw [List.map_map, List.map_map]
    refine List.map_congr_left (fun e he => ?_)
    have := plain_event e (hp e he)
    simp only [Function.comp_apply]
    rw [← this]
    rfl
  simp only [messageWith, List.map_cons, List.map_nil, plainEntry, this, Value.asPlain]

/-- The events as they are sent. -/
theorem preflight_objects {now : Int} {es : List Event} {vtn ven id : String} {rid : Value} (hp : ∀ e ∈ es, e.Plain) (h : ∀ e ∈ es, e.Sound)
    (hr : rid.asPlain = rid ∧ ∀ l, rid ≠ .list l) :
    preflightMessage now "oadrDistributeEvent" (messageWith (.list (es.map Event.object)) vtn ven id rid) =
      .ok (.dict (messageWith (.list (((es.map (Event.prepared now)).map Event.fields).map .dict)) vtn ven id rid)) := by
  have h0 := plain_message (vtn := vtn) (ven := ven) (id := id) hp hr
  rw [preflightMessage, if_pos rfl, h0, preflightDistributeEvent]
  refine phases_step (g := fun e => { e with activePeriod := { e.activePeriod with duration := e.sentDuration } }) (fun e he => adjust_fields (h e he)) ?_
  refine phases_step (g := fun e => e) (fun e he => simple_fields ?_) ?_
  · simp only [List.mem_map] at he
    obtain ⟨a, ha, rfl⟩ := he
    exact (h a ha).levels
  refine phases_step (g := fun e => { e with signals := e.signals.map Signal.prepared }) (fun e _ => zero_fields e) ?_
  refine phases_step (g := fun e => e) (fun e _ => namespaces_fields e) ?_
  refine phases_step (g := fun e => e) (fun e he => response_fields ?_) ?_
  · simp only [List.mem_map, exists_eq_right] at he
    obtain ⟨a, ⟨b, hb, rfl⟩, rfl⟩ := he
    exact (h b hb).response
  refine phases_step (g := fun e => { e with descriptor := { e.descriptor with created := some (e.descriptor.created.getD now) } }) (fun e _ => created_fields now e) ?_
  refine phases_step (g := fun e => e) (fun e he => targets_fields ?_) ?_
  · simp only [List.mem_map, exists_eq_right] at he
    obtain ⟨a, ⟨b, ⟨c, hc, rfl⟩, rfl⟩, rfl⟩ := he
    exact (h c hc).targets
  simp only [phases, List.map_map, Function.comp_def, List.map_id', Event.prepared]

end Openleadr
