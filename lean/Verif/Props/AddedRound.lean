import Verif.Props.EventRoundFails
import Verif.Props.ServerAdd
import Verif.Lemmas.ServerAgree
/-!
C87: an event from `add_event` to its callback, in one poll.
-/
namespace Openleadr

/-- Arguments of `add_event` that can be sent. -/
structure AddArgs.Good (lib : Lib) (a : AddArgs) : Prop where
  id : Ordinary lib a.eventId
  context : Ordinary lib a.marketContext
  signal : Ordinary lib a.signalName ∧ Ordinary lib a.signalType ∧ Ordinary lib a.signalId
  now : Datable a.now
  starts : ∀ i ∈ a.intervals, Datable i.dtstart
  durations : ∀ i ∈ a.intervals, Spans i.duration
  total : Spans (a.intervals.map Interval.duration).sum
  payloads : ∀ i ∈ a.intervals, AsFloat lib i.payload (floatOf lib i.payload) ∧ i.payload.plain = i.payload
  numbers : ∀ i ∈ a.intervals, i.uid = none
  levels : a.signalName = "SIMPLE" → ∀ i ∈ a.intervals, i.payload.isLevel = true
  targets : ∀ t ∈ pickTargets a, GoodTarget lib t
  plain : (targetsValue (some (pickTargets a))).plain = targetsValue (some (pickTargets a)) ∧
    (groupsValue (some (groupTargetsByType (pickTargets a)))).plain = groupsValue (some (groupTargetsByType (pickTargets a)))

/-- The event in the queue. -/
def addedEvent (a : AddArgs) (p : ActivePeriod) : Event := withDefaults (makeEvent a p) p

theorem activePeriodOf_bare {l : List (Int × Int)} {p : ActivePeriod} (h : activePeriodOf l = .ok p) :
    p = { dtstart := p.dtstart, duration := p.duration } ∧ ∃ i ∈ l, p.dtstart = i.1 := by
  cases l with
  | nil => simp [activePeriodOf] at h
  | cons i r =>
    simp only [activePeriodOf, Except.ok.injEq] at h
    subst h
    refine ⟨rfl, ?_⟩
    have := (minList_spec i.1 (r.map (fun j => j.1))).1
    rw [List.mem_cons] at this
    rcases this with h | h
    · exact ⟨i, by simp, h⟩
    · obtain ⟨j, hj, he⟩ := List.mem_map.mp h
      exact ⟨j, by simp [hj], he.symm⟩

/-- The server after `add_event`. -/
theorem added_state {s s' : Server} {a : AddArgs} {id : String} (h : addEvent s a = (s', .ok (some id))) :
    id = a.eventId ∧ s'.external = false ∧ (a.responseRequired = "always" ∨ a.responseRequired = "never") ∧
    ∃ p, activePeriodOf (a.intervals.map (fun i => (i.dtstart, i.duration))) = .ok p ∧ s'.flag a.ven = true ∧
      s'.queue a.ven = s.queue a.ven ++ [addedEvent a p] ∧ s'.callbacks = setOpt s.callbacks a.eventId a.callback ∧
      s'.delivery = setOpt s.delivery a.eventId a.delivery ∧ s'.doneFutures = s.doneFutures := by
  simp only [addEvent] at h
  split at h
  · simp at h
  · rename_i hext
    split at h
    · simp at h
    · rename_i hreq
      split at h
      · simp at h
      · split at h
        · simp at h
        · cases hp : activePeriodOf (a.intervals.map (fun i => (i.dtstart, i.duration))) with
          | error e => rw [hp] at h; simp at h
          | ok p =>
            rw [hp] at h
            simp only at h
            have hp1 := (activePeriodOf_bare hp).1
            have hp' : eventPeriod (makeEvent a p).signals = .ok p := by
              simp only [eventPeriod, makeEvent, List.mapM_cons, List.mapM_nil, hp, bind, Except.bind, pure, Except.pure]
              rw [hp1]
              simp [activePeriodOf, minList, maxList]
              omega
            simp only [addRawEvent, hp'] at h
            cases hc : callbackOk (makeEvent a p) a.callback with
            | error e => rw [hc] at h; simp at h
            | ok _ =>
              rw [hc] at h
              simp only [Prod.mk.injEq, Except.ok.injEq, Option.some.injEq] at h
              obtain ⟨rfl, rfl⟩ := h
              refine ⟨rfl, by simpa using hext, Decidable.not_not.mp hreq, p, rfl, ?_, ?_, rfl, rfl, rfl⟩
              · simp [Server.flag, Dict.get?_set_self]
              · simp [Server.queue, Dict.get?_set_self, addedEvent]

/-- Events that were added with good arguments can be sent. -/
theorem added_sendable {lib : Lib} {a : AddArgs} {p : ActivePeriod} (good : a.Good lib)
    (hreq : a.responseRequired = "always" ∨ a.responseRequired = "never")
    (hp : activePeriodOf (a.intervals.map (fun i => (i.dtstart, i.duration))) = .ok p) : (addedEvent a p).Sendable lib ∧ (addedEvent a p).Whole := by
  obtain ⟨hbare, i, hi, hstart⟩ := activePeriodOf_bare hp
  obtain ⟨j, hj, rfl⟩ := List.mem_map.mp hi
  have hsig : (addedEvent a p).signals = [{ intervals := a.intervals, signalName := a.signalName, signalType := a.signalType, signalId := a.signalId }] := rfl
  have one : ∀ {q : Signal → Prop}, q { intervals := a.intervals, signalName := a.signalName, signalType := a.signalType, signalId := a.signalId } →
      ∀ s ∈ (addedEvent a p).signals, q s := by
    intro q hq s hs
    rw [hsig, List.mem_singleton] at hs
    exact hs ▸ hq
  have hdur : (addedEvent a p).sentDuration = (a.intervals.map Interval.duration).sum := rfl
  have hact : (addedEvent a p).activePeriod = p := rfl
  refine ⟨⟨⟨one (fun i hi => (good.payloads i hi).2), one (by simp), one ⟨rfl, rfl⟩, good.plain.1, good.plain.2⟩,
    ⟨one rfl, one good.durations, ?_, one (fun h => good.levels h), ?_, ⟨_, rfl, rfl⟩⟩,
    ⟨good.id, good.context, ?_, ?_, ?_, ?_, ?_, ?_, ?_, ?_, ?_, one good.signal, one good.starts, one (fun i hi => (good.payloads i hi).1),
      one good.numbers, one (by simp), ?_⟩⟩, ⟨?_, one ?_⟩⟩
  · rw [hdur]; obtain ⟨_, _, _, h⟩ := good.total; exact h
  · rcases hreq with h | h
    · exact .inl (by simp [addedEvent, withDefaults, makeEvent, h])
    · exact .inr (by simp [addedEvent, withDefaults, makeEvent, h])
  · intro d hd; cases hd; exact good.now
  · intro d hd; cases hd; exact good.now
  · intro t ht; cases ht
  · rw [hact, hstart]; exact good.starts j hj
  · rw [hdur]; exact good.total
  · rw [hact, hbare]; intro d hd; cases hd
  · rw [hact, hbare]; intro d hd; cases hd
  · rw [hact, hbare]; intro d hd; cases hd
  · rw [hact, hbare]; intro d hd; cases hd
  · intro ts hts t ht; cases hts; exact good.targets t ht
  · rw [hsig]; simp
  · intro hnil; simp only at hnil; rw [hnil] at hj; simp at hj

theorem refresh_sendable {lib : Lib} {e : Event} {t t' : Int} (ht : Datable t') (h : e.Sendable lib ∧ e.Whole) :
    (refresh t t' e).Sendable lib ∧ (refresh t t' e).Whole := by
  unfold refresh
  split
  · simp only []
    split
    · obtain ⟨⟨h1, h2, h3⟩, h4⟩ := h
      exact ⟨⟨⟨h1.1, h1.2, h1.3, h1.4, h1.5⟩, ⟨h2.1, h2.2, h2.3, h2.4, h2.5, h2.6⟩,
        ⟨h3.id, h3.context, fun d hd => by cases hd; exact ht, h3.modified, h3.comment, h3.start, h3.duration, h3.tolerance, h3.notification, h3.rampUp,
          h3.recovery, h3.names, h3.starts, h3.payloads, h3.numbers, h3.currents, h3.targets⟩⟩, ⟨h4.1, h4.2⟩⟩
    · exact h
  · exact h

theorem refresh_members (t t' : Int) (e : Event) : (refresh t t' e).signals = e.signals ∧ (refresh t t' e).activePeriod = e.activePeriod ∧
    (refresh t t' e).id = e.id ∧ (refresh t t' e).responseRequired = e.responseRequired := by
  unfold refresh
  split
  · simp only []; split <;> exact ⟨rfl, rfl, rfl, rfl⟩
  · exact ⟨rfl, rfl, rfl, rfl⟩

theorem determineStatus_running {now : Int} {p : ActivePeriod} (h : now < p.dtstart + p.duration) : determineStatus now p ≠ .completed := by
  unfold determineStatus
  rw [if_neg (by omega)]
  split
  · simp
  · split
    · split <;> simp
    · simp

theorem determineStatus_cancelled (now : Int) (p : ActivePeriod) : determineStatus now p ≠ .cancelled := by
  unfold determineStatus
  split
  · simp
  · split
    · simp
    · split
      · split <;> simp
      · simp

/-- The only event of a VEN is handed out. -/
theorem take_single {clock : Nat → Int} {s : Server} {ven : String} {e : Event} (hq : s.queue ven = [e]) (hs : (refresh (clock 0) (clock 1) e).status ≠ .completed) :
    ∃ s1, takeEvents clock s ven = (s1, some [refresh (clock 0) (clock 1) e]) := by
  refine ⟨(takeEvents clock s ven).1, ?_⟩
  have := (takeEvents_spec clock s ven).2.1
  rw [hq] at this
  simp only [List.cons_ne_nil, if_false, refreshAll, handedOut, List.length_singleton, if_true, List.filter_cons, nc, hs, ne_eq, not_false_eq_true, decide_true,
    List.filter_nil] at this
  rw [← this]

/-- What the VEN is told of the signals: names, types, and begins and durations of the intervals. -/
def signalsOf (e : Event) : List (String × String × List (Int × Int)) :=
  e.signals.map (fun s => (s.signalName, s.signalType, s.intervals.map (fun i => (i.dtstart, i.duration))))

theorem viewed_signal (lib : Lib) (s : Signal) : (s.prepared.view lib).signalName = s.signalName ∧ (s.prepared.view lib).signalType = s.signalType ∧
    (s.prepared.view lib).intervals.map (fun i => (i.dtstart, i.duration)) = s.intervals.map (fun i => (i.dtstart, i.duration)) := by
  obtain ⟨n1, n2, -⟩ := prepared_names s
  refine ⟨n1, n2, ?_⟩
  simp only [Signal.view, prepared_intervals]
  refine List.ext_getElem (by simp) (fun i h1 h2 => ?_)
  simp

/-- What the next request of the VEN gets of an event that is added for a VEN that had none, and is not over. -/
structure AddedOne (lib : Lib) (env : Env) (vtnClock venClock : Nat → Int) (s' s1 : Server) (a : AddArgs) (e : Event) : Prop where
  take : takeEvents vtnClock s' a.ven = (s1, some [e])
  sendable : e.Sendable lib ∧ e.Whole
  delivered : deliverAll env s1.delivery [e] = ((match Dict.get? s'.delivery a.eventId with | none => [] | some d => [.delivered d]), none)
  asks : asksFor venClock e 0 = true
  running : e.status ≠ .completed
  id : e.id = a.eventId
  signals : e.signals = [{ intervals := a.intervals, signalName := a.signalName, signalType := a.signalType, signalId := a.signalId }]

theorem added_handed {lib : Lib} {env : Env} {vtnClock venClock : Nat → Int} {s s' : Server} {a : AddArgs} {id : String} (good : a.Good lib)
    (hq : ∀ e, env.raises e = none) (hempty : s.queue a.ven = []) (hadd : addEvent s a = (s', .ok (some id)))
    (hasks : a.responseRequired = "always") (hclock : Datable (vtnClock 1))
    (hvtn : ∃ i ∈ a.intervals, vtnClock 0 < i.dtstart + i.duration)
    (hven : ∀ i ∈ a.intervals, venClock 0 < i.dtstart + (a.intervals.map Interval.duration).sum) :
    ∃ s1 e, AddedOne lib env vtnClock venClock s' s1 a e := by
  obtain ⟨rfl, hint, hreq, p, hp, hflag, hqueue, hcbs, hdels, hdone⟩ := added_state hadd
  rw [hempty, List.nil_append] at hqueue
  obtain ⟨r1, r2, r3, r4⟩ := refresh_members (vtnClock 0) (vtnClock 1) (addedEvent a p)
  have hrun : (refresh (vtnClock 0) (vtnClock 1) (addedEvent a p)).status ≠ .completed := by
    obtain ⟨i, hi, hlt⟩ := hvtn
    have hle : i.dtstart + i.duration ≤ p.dtstart + p.duration := by
      have he : eventPeriod (addedEvent a p).signals = .ok p := by
        have hp1 := (activePeriodOf_bare hp).1
        simp only [eventPeriod, addedEvent, withDefaults, makeEvent, List.mapM_cons, List.mapM_nil, hp, bind, Except.bind, pure, Except.pure]
        rw [hp1]
        simp [activePeriodOf, minList, maxList]
        omega
      exact ((c17_event_period_spans_signals _ _ he).2.2 _ (List.mem_singleton.mpr rfl) i hi).2
    have hds : determineStatus (vtnClock 0) p ≠ .completed := determineStatus_running (by omega)
    have hst : (addedEvent a p).status = .cancelled → False := fun hc => determineStatus_cancelled _ _ hc
    unfold refresh
    split
    · simp only []
      split
      · exact hds
      · rename_i h1 h2
        simp only [ne_eq, Decidable.not_not] at h2
        rw [h2]
        exact hds
    · rename_i h1
      exact absurd (by simpa using h1) hst
  obtain ⟨s1, htake⟩ := take_single hqueue hrun
  refine ⟨s1, _, htake, refresh_sendable (t := vtnClock 0) hclock (added_sendable good hreq hp), ?_, ?_, hrun, r3, ?_⟩
  · have hf := (takeEvents_frame vtnClock s' a.ven).2.2.2.1
    rw [htake] at hf
    simp only at hf
    have hid : (refresh (vtnClock 0) (vtnClock 1) (addedEvent a p)).id = a.eventId := r3
    simp only [deliverAll, hid, hf, hq]
    cases Dict.get? s'.delivery a.eventId <;> rfl
  · obtain ⟨-, i, hi, hstart⟩ := activePeriodOf_bare hp
    obtain ⟨j, hj, rfl⟩ := List.mem_map.mp hi
    have := hven j hj
    simp only [asksFor, decide_eq_true_eq, r2, r4, Event.sentDuration, r1]
    refine ⟨by simp [addedEvent, withDefaults, makeEvent, hasks], ?_⟩
    simp only [addedEvent, withDefaults, makeEvent, Signal.total, hstart]
    omega
  · rw [r1]; rfl

/-- The event as the VEN reads it has the signals that were asked for. -/
theorem AddedOne.signalsOf {lib : Lib} {env : Env} {vtnClock venClock : Nat → Int} {s' s1 : Server} {a : AddArgs} {e : Event} {now : Int}
    (h : AddedOne lib env vtnClock venClock s' s1 a e) :
    signalsOf (e.arrived lib now) = [(a.signalName, a.signalType, a.intervals.map (fun i => (i.dtstart, i.duration)))] := by
  simp only [Openleadr.signalsOf, Event.arrived, Event.view, Event.prepared, h.signals, List.map_cons, List.map_nil]
  obtain ⟨v1, v2, v3⟩ := viewed_signal lib { intervals := a.intervals, signalName := a.signalName, signalType := a.signalType, signalId := a.signalId }
  rw [v1, v2, v3]

/-- **C87** (partial: see the refutations). An event that is added with a callback for a VEN that had none, and is not over: at the next poll the handler of the VEN
    is called once, with the event, and the callback is told once, with what the handler decided (anything but `optIn` being a refusal). -/
theorem c87_added_partial {k : Link} {c : Config} {env : Env} {h : VenHandlers} {vtnClock venClock : Nat → Int} {x : Sides} {secure : Bool} {peer : Option String}
    {s s' : Server} {a : AddArgs} {id : String} {n : Nat} (con : Connected k c secure peer x.cache a.ven) (good : a.Good k.lib)
    (hval : ∀ t p txt, createMessage k.lib k.clientNow t p = .ok txt → ∃ tree, c.validate (String.ofList txt) = .ok tree)
    (hacc : ∀ p txt, createMessage k.lib k.serverNow "oadrDistributeEvent" p = .ok txt → k.accepts (String.ofList txt) = true)
    (hlow : isLowerText c.vtnId = false) (ht : h.Total) (hq : ∀ e, env.raises e = none)
    (hempty : s.queue a.ven = []) (hadd : addEvent s a = (s', .ok (some id))) (hx : x.vtn.1 = s') (hun : Unshared s')
    (hasks : a.responseRequired = "always") (hcb : a.callback = some (.func n true))
    (hnew : ∀ r ∈ x.ven.received, r.id ≠ a.eventId) (hclock : Datable (vtnClock 1))
    (hvtn : ∃ i ∈ a.intervals, vtnClock 0 < i.dtstart + i.duration)
    (hven : ∀ i ∈ a.intervals, venClock 0 < i.dtstart + (a.intervals.map Interval.duration).sum) :
    ∃ e v calls, (pollRound k c env h vtnClock venClock secure peer (.str a.ven) x).calls = x.calls ++ [.onEvent e] ∧ h.onEvent calls e = .ok v ∧
      e.id = a.eventId ∧ signalsOf e = [(a.signalName, a.signalType, a.intervals.map (fun i => (i.dtstart, i.duration)))] ∧
      (pollRound k c env h vtnClock venClock secure peer (.str a.ven) x).vtn.2 =
        x.vtn.2 ++ (match Dict.get? s'.delivery a.eventId with | none => [] | some d => [.delivered d]) ++ [.responded n a.ven a.eventId (optText v)] := by
  obtain ⟨s1, e, hh⟩ := added_handed (venClock := venClock) good hq hempty hadd hasks hclock hvtn hven
  obtain ⟨rfl, hint, hreq, p, hp, hflag, hqueue, hcbs, hdels, hdone⟩ := added_state hadd
  subst hx
  obtain ⟨h1, vs, h2, h3, h4⟩ := c87_new_events_partial (h := h) (venClock := venClock) con (fun txt => hval _ _ txt) (fun txt => hacc _ txt) (fun _ txt _ => hval _ _ txt) hint hflag hh.take (by simp)
    hh.delivered (by simpa using hh.sendable.1) (by simpa using hh.sendable.2) hlow (by simp [Distinct]) ht hq hun
    (by
      intro e' he r hr
      rw [List.mem_singleton] at he
      subst he
      exact hh.id ▸ hnew r hr)
    (by
      intro q hq _
      simp only [List.zipIdx_cons, List.zipIdx_nil, List.mem_singleton] at hq
      subst hq
      exact hh.running)
  match vs, h2 with
  | [v], _ =>
    obtain ⟨calls, hv⟩ := h3 (e, v) (by simp)
    refine ⟨_, v, calls, h1, hv, (arrived_id ..).trans hh.id, hh.signalsOf, ?_⟩
    rw [h4]
    simp only [List.zip_cons_cons, List.zip_nil_right, List.zipIdx_cons, List.zipIdx_nil, List.filter_cons, hh.asks, if_true, List.filter_nil, List.flatMap_cons,
      List.flatMap_nil, List.append_nil]
    congr 1
    rw [hh.id]
    simp only [told, hcbs, hcb, setOpt]
    simp [Dict.get?_set_self]

/-- An event in an hour, for half an hour, with a callback. -/
def askedArgs : AddArgs :=
  { ven := "ven1", signalName := "SIMPLE", signalType := "level", intervals := [{ dtstart := 3600000000, duration := 1800000000, payload := .int 1 }],
    eventId := "event1", signalId := "sig1", now := 0, callback := some (.func 7 true) }

theorem askedArgs_good : askedArgs.Good plainLib where
  id := ordinary_of (by decide +kernel)
  context := ordinary_of (by decide +kernel)
  signal := ⟨ordinary_of (by decide +kernel), ordinary_of (by decide +kernel), ordinary_of (by decide +kernel)⟩
  now := by constructor <;> decide +kernel
  starts := by
    intro i hi
    rw [askedArgs, List.mem_singleton] at hi
    subst hi
    constructor <;> decide +kernel
  durations := by
    intro i hi
    rw [askedArgs, List.mem_singleton] at hi
    subst hi
    exact spans_of (by decide +kernel)
  total := spans_of (by decide +kernel)
  payloads := by
    intro i hi
    rw [askedArgs, List.mem_singleton] at hi
    subst hi
    exact ⟨asFloat_plain 1 _ (by decide +kernel), rfl⟩
  numbers := by
    intro i hi
    rw [askedArgs, List.mem_singleton] at hi
    subst hi
    rfl
  levels := by
    intro _ i hi
    rw [askedArgs, List.mem_singleton] at hi
    subst hi
    rfl
  targets := by
    intro t ht
    rw [show pickTargets askedArgs = [[("ven_id", .str "ven1")]] from rfl, List.mem_singleton] at ht
    subst ht
    refine ⟨?_, by decide +kernel⟩
    intro k hk
    by_cases h : k = "ven_id"
    · subst h
      exact .inr (.inr ⟨"ven1", by decide +kernel, ordinary_of (by decide +kernel)⟩)
    · exact .inl (by simp [Dict.get?, Ne.symm h])
  plain := by constructor <;> decide +kernel

def loudVtn : Config := { sampleVtn with vtnId := "VTN1" }

theorem loudVtn_connected : Connected sampleLink loudVtn false none [] "ven1" where
  sound := plainLib_sound
  venId := ordinary_of (by decide +kernel)
  vtnId := ordinary_of (by decide +kernel)
  newId := ordinary_of (by decide +kernel)
  now := by constructor <;> decide +kernel
  zero := asFloat_plain 0 _ (by decide +kernel)
  letsIn := ⟨by intro type m hm; simp [checkKnown, loudVtn, sampleVtn, hm], by intros; simp⟩

/-- An event is added, the VEN polls, its handler opts in, and the callback `7` is told. -/
example : (pollRound sampleLink loudVtn quietEnv easyHandlers (fun _ => 0) (fun _ => 0) false none (.str "ven1")
    ⟨[], ((addEvent Server.init askedArgs).1, []), ⟨[], []⟩, []⟩).vtn.2 = [.responded 7 "ven1" "event1" "optIn"] := by
  obtain ⟨e, v, calls, -, hv, -, -, h⟩ := c87_added_partial (k := sampleLink) (c := loudVtn) (env := quietEnv) (h := easyHandlers) (vtnClock := fun _ => 0)
    (venClock := fun _ => 0) (x := ⟨[], ((addEvent Server.init askedArgs).1, []), ⟨[], []⟩, []⟩) (s := Server.init) (a := askedArgs) (id := "event1") (n := 7)
    loudVtn_connected askedArgs_good (fun _ _ _ _ => ⟨_, rfl⟩) (fun _ _ _ => rfl) (by decide +kernel) ⟨fun _ _ => ⟨_, rfl⟩, fun _ _ _ => ⟨_, rfl⟩⟩ (fun _ => rfl)
    rfl rfl rfl (by
      intro id id' f h1
      change Dict.get? [("event1", Callback.func 7 true)] id = some (.future f) at h1
      simp only [Dict.get?] at h1
      split at h1 <;> simp at h1) rfl rfl (by simp) (by constructor <;> decide +kernel) ⟨_, List.mem_singleton.mpr rfl, by decide +kernel⟩ (by
      intro i hi
      rw [askedArgs, List.mem_singleton] at hi
      subst hi
      decide +kernel)
  rw [show askedArgs.ven = "ven1" from rfl] at h
  rw [h]
  cases hv
  rfl

end Openleadr
