import Verif.Lemmas.EventWire
/-!
The events of the server as the VEN reads them.
-/
namespace Openleadr

variable {lib : Lib} {now : Int}

/-- A signal as the VEN gets it: values are floats, intervals have numbers, and there are no targets. -/
def Signal.view (lib : Lib) (s : Signal) : Signal :=
  { s with intervals := s.intervals.mapIdx (fun i x => { x with payload := .float (floatOf lib x.payload), uid := some i }),
           currentValue := s.currentValue.map (fun v => .float (floatOf lib v)), targets := none, targetsByType := none, measurement := none }

/-- An event as the VEN gets it: the targets are sorted by their kinds and are one entry each, and of the period only begin and duration are found. -/
def Event.view (lib : Lib) (e : Event) : Event :=
  { e with signals := e.signals.map (Signal.view lib), targets := e.targets.map (fun ts => targetsReceived (ts.map targetP)), targetsByType := none,
           activePeriod := { dtstart := e.activePeriod.dtstart, duration := e.activePeriod.duration } }

theorem statusOf_text (s : Status) : statusOf s.text = some s := by cases s <;> decide

theorem read_descriptor (d : Descriptor) (h : ∃ t, d.created = some t) : readDescriptor (.dict (descriptorP d).received) = some d := by
  obtain ⟨t, ht⟩ := h
  have g1 : entryIn (.dict (descriptorP d).received) "event_id" = some (.str d.eventId) := by simp [entryIn, descriptorP, DescriptorP.received, Dict.get?]
  have g2 : entryIn (.dict (descriptorP d).received) "modification_number" = some (.int d.modificationNumber) := by
    simp [entryIn, descriptorP, DescriptorP.received, Dict.get?]
  have g3 : entryIn (.dict (descriptorP d).received) "market_context" = some (.str d.marketContext) := by
    simp [entryIn, descriptorP, DescriptorP.received, Dict.get?, Dict.get?_append, Dict.get?_entry?]
  have g4 : entryIn (.dict (descriptorP d).received) "event_status" = some (.str d.status.text) := by
    simp [entryIn, descriptorP, DescriptorP.received, Dict.get?, Dict.get?_append, Dict.get?_entry?]
  have g5 : (entryIn (.dict (descriptorP d).received) "created_date_time").bind Value.date? = d.created := by
    simp [entryIn, descriptorP, DescriptorP.received, Dict.get?, Dict.get?_append, Dict.get?_entry?, ht, Value.date?]
  have g6 : (entryIn (.dict (descriptorP d).received) "modification_date_time").bind Value.date? = d.modified := by
    simp [entryIn, descriptorP, DescriptorP.received, Dict.get?, Dict.get?_append, Dict.get?_entry?]
    cases d.modified <;> simp [date?, Value.date?]
  have g7 : (entryIn (.dict (descriptorP d).received) "priority").bind Value.int? = d.priority := by
    simp [entryIn, descriptorP, DescriptorP.received, Dict.get?, Dict.get?_append, Dict.get?_entry?]
    cases d.priority <;> simp [int?, Value.int?]
  have g8 : ((entryIn (.dict (descriptorP d).received) "test_event").bind Value.bool?) = some d.testEvent := by
    simp [entryIn, descriptorP, DescriptorP.received, Dict.get?, Dict.get?_append, Dict.get?_entry?, bool?, Value.bool?]
  have g9 : ((entryIn (.dict (descriptorP d).received) "vtn_comment").bind Value.text?) = d.vtnComment := by
    simp [entryIn, descriptorP, DescriptorP.received, Dict.get?, Dict.get?_append, Dict.get?_entry?]
    cases d.vtnComment <;> simp [text?, Value.text?]
  rw [readDescriptor, g1, g2, g3, g4, g5, g6, g7, g8, g9]
  simp [Value.text?, Value.int?, statusOf_text]

theorem read_period (p : ActivePeriod) : readPeriod (.dict (periodP p).received) = some { dtstart := p.dtstart, duration := p.duration } := by
  have g1 : entryIn (.dict (periodP p).received) "dtstart" = some (.datetime p.dtstart) := by simp [entryIn, periodP, ActiveP.received, Dict.get?]
  have g2 : entryIn (.dict (periodP p).received) "duration" = some (.timedelta p.duration) := by simp [entryIn, periodP, ActiveP.received, Dict.get?]
  have g3 : entryIn (.dict (periodP p).received) "notification_period" = none := by
    simp [entryIn, periodP, ActiveP.received, Dict.get?, Dict.get?_append, Dict.get?_entry?]
  have g4 : entryIn (.dict (periodP p).received) "ramp_up_period" = none := by
    simp [entryIn, periodP, ActiveP.received, Dict.get?, Dict.get?_append, Dict.get?_entry?]
  have g5 : entryIn (.dict (periodP p).received) "recovery_period" = none := by
    simp [entryIn, periodP, ActiveP.received, Dict.get?, Dict.get?_append, Dict.get?_entry?]
  rw [readPeriod, g1, g2, g3, g4, g5]
  simp [Value.date?, Value.span?]

theorem read_interval (n : Nat) (i : Interval) :
    readInterval (.dict ((intervalP lib i).received n)) = some { i with payload := .float (floatOf lib i.payload), uid := some (n : Int) } := by
  have g1 : entryIn (.dict ((intervalP lib i).received n)) "dtstart" = some (.datetime i.dtstart) := by
    simp [entryIn, intervalP, IntervalP.received, Dict.get?, Dict.get?_append, Dict.get?_entry?, date?]
  have g2 : entryIn (.dict ((intervalP lib i).received n)) "duration" = some (.timedelta i.duration) := by
    simp [entryIn, intervalP, IntervalP.received, Dict.get?, Dict.get?_append, Dict.get?_entry?, span?]
  have g3 : entryIn (.dict ((intervalP lib i).received n)) "signal_payload" = some (.float (floatOf lib i.payload)) := by
    simp [entryIn, intervalP, IntervalP.received, Dict.get?, Dict.get?_append, Dict.get?_entry?]
  have g4 : entryIn (.dict ((intervalP lib i).received n)) "uid" = some (.int n) := by
    simp [entryIn, intervalP, IntervalP.received, Dict.get?, Dict.get?_append, Dict.get?_entry?]
  rw [readInterval, g1, g2, g3, g4]
  simp [Value.date?, Value.span?, Value.int?]

theorem mapM_some {α β : Type} {f : α → Option β} {g : α → β} {l : List α} (h : ∀ a ∈ l, f a = some (g a)) : l.mapM f = some (l.map g) := by
  induction l with
  | nil => rfl
  | cons a l ih => simp [List.mapM_cons, h a (by simp), ih (fun x hx => h x (by simp [hx]))]

theorem mapM_dicts {α β : Type} {f : Value → Option β} {g : α → Dict} {r : α → β} {l : List α} (h : ∀ a ∈ l, f (.dict (g a)) = some (r a)) :
    ((l.map g).map Value.dict).mapM f = some (l.map r) := by
  induction l with
  | nil => rfl
  | cons a l ih => simp only [List.map_cons, List.mapM_cons, h a (by simp), ih (fun x hx => h x (by simp [hx]))]; rfl

theorem read_intervals (l : List Interval) (n : Nat) :
    ((((l.map (intervalP lib)).mapIdx (fun i => IntervalP.received (i + n))).map Value.dict).mapM readInterval) =
      some (l.mapIdx (fun i x => { x with payload := .float (floatOf lib x.payload), uid := some ((i + n : Nat) : Int) })) := by
  induction l generalizing n with
  | nil => rfl
  | cons i l ih =>
    have := ih (n + 1)
    simp only [List.map_cons, List.mapIdx_cons, List.mapM_cons, Nat.zero_add, read_interval]
    have e2 : ∀ i : Nat, i + 1 + n = i + (n + 1) := fun i => by omega
    simp only [e2]
    rw [this]
    simp

theorem read_signal {s : Signal} (h : s.intervals ≠ []) : readSignal (.dict (signalP lib s).raw) = some (s.view lib) := by
  have hl : listed ((s.intervals.map (intervalP lib)).mapIdx IntervalP.received) =
      .list (((s.intervals.map (intervalP lib)).mapIdx IntervalP.received).map .dict) := by
    rw [listed, if_neg]
    simp [h]
  have g1 : entryIn (.dict (signalP lib s).raw) "intervals" = some (.list (((s.intervals.map (intervalP lib)).mapIdx IntervalP.received).map .dict)) := by
    rw [← hl]
    simp [entryIn, SignalP.raw, signalP, SignalP.before, Dict.get?]
  have g2 : entryIn (.dict (signalP lib s).raw) "signal_name" = some (.str s.signalName) := by
    simp [entryIn, SignalP.raw, signalP, SignalP.before, Dict.get?]
  have g3 : entryIn (.dict (signalP lib s).raw) "signal_type" = some (.str s.signalType) := by
    simp [entryIn, SignalP.raw, signalP, SignalP.before, Dict.get?]
  have g4 : entryIn (.dict (signalP lib s).raw) "signal_id" = some (.str s.signalId) := by
    simp [entryIn, SignalP.raw, signalP, SignalP.before, Dict.get?]
  have g5 : entryIn (.dict (signalP lib s).raw) "current_value" = s.currentValue.map (fun v => .float (floatOf lib v)) := by
    simp [entryIn, SignalP.raw, signalP, SignalP.before, SignalP.after, Dict.get?, Dict.get?_append, Dict.get?_entry?, Function.comp_def]
  have := read_intervals (lib := lib) s.intervals 0
  simp only [Nat.add_zero] at this
  rw [readSignal, g1, g2, g3, g4, g5]
  simp only [Value.list?, Option.bind_eq_bind, Option.bind_some, Value.text?, this, Signal.view]

theorem upTo_raw (l : List Signal) : upToFirst SignalP.raw SignalP.done (l.map (signalP lib)) = l.map (fun s => (signalP lib s).raw) := by
  cases l with
  | nil => rfl
  | cons s l => simp [upToFirst, SignalP.done, signalP]

/-- An event with signals and intervals is read by the VEN. -/
theorem read_event {e : Event} (several : Bool) (hc : ∃ t, e.descriptor.created = some t) (hs : e.signals ≠ []) (hi : ∀ s ∈ e.signals, s.intervals ≠ [])
    (hr : ∃ r, e.responseRequired = some r) : readEvent (.dict ((eventP lib e).received several)) = some (e.view lib) := by
  obtain ⟨r, hr⟩ := hr
  have g1 : entryIn (.dict ((eventP lib e).received several)) "event_descriptor" = some (.dict (descriptorP e.descriptor).received) := by
    simp [entryIn, eventP, EventP.received, EventP.inner, Dict.get?]
  have g2 : entryIn (.dict ((eventP lib e).received several)) "active_period" = some (.dict (periodP e.activePeriod).received) := by
    simp [entryIn, eventP, EventP.received, EventP.inner, Dict.get?]
  have hl : listed (upToFirst SignalP.raw SignalP.done (e.signals.map (signalP lib))) = .list ((e.signals.map (fun s => (signalP lib s).raw)).map .dict) := by
    rw [upTo_raw, listed, if_neg]
    simp [hs]
  have g3 : entryIn (.dict ((eventP lib e).received several)) "event_signals" = some (.list ((e.signals.map (fun s => (signalP lib s).raw)).map .dict)) := by
    rw [← hl]
    simp [entryIn, eventP, EventP.received, EventP.inner, Dict.get?]
  have g4 : ((entryIn (.dict ((eventP lib e).received several)) "targets").bind Value.list?).bind (fun l => l.mapM Value.dict?) =
      e.targets.map (fun ts => targetsReceived (ts.map targetP)) := by
    cases ht : e.targets with
    | none => simp [entryIn, eventP, EventP.received, EventP.inner, EventP.targetEntries, Dict.get?, ht]
    | some ts =>
      have : entryIn (.dict ((eventP lib e).received several)) "targets" = some (.list ((targetsReceived (ts.map targetP)).map .dict)) := by
        simp [entryIn, eventP, EventP.received, EventP.inner, EventP.targetEntries, Dict.get?, ht]
      rw [this]
      simp only [Option.bind_some, Value.list?, Option.map_some]
      have := mapM_some (l := (targetsReceived (ts.map targetP)).map Value.dict) (f := Value.dict?) (g := fun v => (Value.dict? v).getD [])
        (fun v hv => by simp only [List.mem_map] at hv; obtain ⟨d, -, rfl⟩ := hv; rfl)
      rw [this]
      simp [Function.comp_def, Value.dict?]
  have g5 : (entryIn (.dict ((eventP lib e).received several)) "response_required").bind Value.text? = e.responseRequired := by
    have : Dict.get? ((eventP lib e).targetEntries several) "response_required" = none := by
      simp only [EventP.targetEntries]
      split
      · rfl
      · split <;> simp [Dict.get?]
    simp only [entryIn, EventP.received, EventP.inner, Dict.get?_append, this]
    simp [Dict.get?, eventP, hr, Value.text?]
  have hm := mapM_dicts (l := e.signals) (g := fun s => (signalP lib s).raw) (f := readSignal) (r := Signal.view lib) (fun s hs => read_signal (hi s hs))
  rw [readEvent, g1, g2, g3, g4, g5]
  simp only [Value.list?, Option.bind_eq_bind, Option.bind_some, read_descriptor _ hc, read_period, hm, Event.view]

end Openleadr
