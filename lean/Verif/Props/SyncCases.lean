import Verif.Props.SyncEvents
import Verif.Props.AddedRound
import Verif.Props.PollCases
/-!
C96 for an event that is added before the VEN starts, and concrete cases.
-/
namespace Openleadr

/-- **C96** (partial: see the refutations of C87). An event that is added with a callback for a VEN that had none, and is not over: when the VEN starts, or registers
    again, its handler is called once, with the event, and the callback is told once, with what the handler decided (anything but `optIn` being a refusal). -/
theorem c96_added_partial {k : Connection Vtn} {env : Env} {vtnClock : Nat → Int} {w : World} {n c : Nat} {x : Serving Vtn} {y : Client}
    {s : Server} {a : AddArgs} {id : String} (hv : y.venId = .str a.ven) (con : Connected (k.link y.log.length) k.config k.secure k.peer x.1 a.ven)
    (con' : Connected (k.link (y.log.length + 1)) k.config k.secure k.peer x.1 a.ven)
    (hlib : (k.link (y.log.length + 1)).lib = (k.link y.log.length).lib) (hsvc : k.service "EiEvent" = eventService env vtnClock)
    (good : a.Good (k.link y.log.length).lib) (hid : Ordinary (k.link y.log.length).lib (k.dressing.ids y.log.length))
    (hval : ∀ i t p txt, createMessage (k.link i).lib (k.link i).clientNow t p = .ok txt → ∃ tree, k.config.validate (String.ofList txt) = .ok tree)
    (hacc : ∀ i p txt, createMessage (k.link i).lib (k.link i).serverNow "oadrDistributeEvent" p = .ok txt → (k.link i).accepts (String.ofList txt) = true)
    (hlow : isLowerText k.config.vtnId = false) (ht : w.handlers.Total) (hq : ∀ e, env.raises e = none)
    (hempty : s.queue a.ven = []) (hadd : addEvent s a = (x.2.1, .ok (some id))) (hun : Unshared x.2.1)
    (hasks : a.responseRequired = "always") (hcb : a.callback = some (.func c true))
    (hnew : ∀ r ∈ y.events.received, r.id ≠ a.eventId) (hclock : Datable (vtnClock 1))
    (hvtn : ∃ i ∈ a.intervals, vtnClock 0 < i.dtstart + i.duration)
    (hven : ∀ i ∈ a.intervals, w.clock (y.log.length + 1) 0 < i.dtstart + (a.intervals.map Interval.duration).sum) :
    ∃ e v calls, (k.run syncEvents w (n + 2) (x, y)).1.2.calls = y.calls ++ [.onEvent e] ∧ w.handlers.onEvent calls e = .ok v ∧
      e.id = a.eventId ∧ signalsOf e = [(a.signalName, a.signalType, a.intervals.map (fun i => (i.dtstart, i.duration)))] ∧
      (k.run syncEvents w (n + 2) (x, y)).1.1.2.2 =
        x.2.2 ++ (match Dict.get? x.2.1.delivery a.eventId with | none => [] | some d => [.delivered d]) ++ [.responded c a.ven a.eventId (optText v)] := by
  obtain ⟨s1, e, hh⟩ := added_handed (venClock := w.clock (y.log.length + 1)) good hq hempty hadd hasks hclock hvtn hven
  obtain ⟨rfl, hint, hreq, p, hp, hflag, hqueue, hcbs, hdels, hdone⟩ := added_state hadd
  have hf : y.events.received.find? (fun r => decide (r.id = (e.arrived (k.link y.log.length).lib (k.link y.log.length).serverNow).id)) = none := by
    rw [List.find?_eq_none]
    intro r hr
    rw [arrived_id, hh.id, decide_eq_true_eq]
    exact hnew r hr
  obtain ⟨⟨vs, h1, h2, h3, h4⟩, -⟩ := c96_sync_partial (n := n) (w := w) hv con con' hlib hsvc hid ⟨fun txt => hval _ _ _ txt, fun txt => hacc _ _ txt⟩
    (fun _ txt _ => hval _ _ _ txt) hint hh.take (by simp) hh.delivered (by simpa using hh.sendable.1) (by simpa using hh.sendable.2) hlow (by simp [Distinct]) ht hq hun
    (by
      intro e' he r hr
      simp only [eventsFor, List.map_cons, List.map_nil, List.mem_singleton] at he
      subst he
      rw [hf] at hr
      cases hr)
    (by
      intro q hq _
      simp only [List.zipIdx_cons, List.zipIdx_nil, List.mem_singleton] at hq
      subst hq
      exact hh.running)
  match vs, h1 with
  | [v], _ =>
    have hj := h2 (e, v) (by simp)
    simp only [Justified, hf] at hj
    obtain ⟨calls, hv'⟩ := hj
    refine ⟨_, v, calls, ?_, hv', (arrived_id ..).trans hh.id, hh.signalsOf, ?_⟩
    · rw [h3]
      simp only [eventsFor, List.map_cons, List.map_nil, dueCalls, List.filterMap_cons, hf, List.filterMap_nil]
    · rw [h4]
      simp only [List.zip_cons_cons, List.zip_nil_right, List.zipIdx_cons, List.zipIdx_nil, List.filter_cons, hh.asks, if_true, List.filter_nil, List.flatMap_cons,
        List.flatMap_nil, List.append_nil]
      congr 1
      rw [hh.id]
      simp only [told, hcbs, hcb, setOpt]
      simp [Dict.get?_set_self]

/-- The VTN with its own event service, whose id has capital letters. -/
def syncWire : Connection Vtn :=
  ⟨fun _ => sampleLink, loudVtn, fun _ => eventService quietEnv (fun _ => 0), false, none, ⟨"ven", fun _ => "id1x", [], sampleAlong⟩⟩

theorem syncWire_id {i : Nat} : Ordinary (syncWire.link i).lib (syncWire.dressing.ids i) := ordinary_of (s := "id1x") (by decide +kernel)

/-- An event is added, the VEN starts, its handler opts in, and the callback `7` is told. -/
example (w : World) (hw : w.handlers = easyHandlers) (hc : ∀ n i, w.clock n i = 0) (y : Client) (hv : y.venId = .str "ven1") (hr : y.events.received = []) :
    (syncWire.run syncEvents w 2 (([], ((addEvent Server.init askedArgs).1, [])), y)).1.1.2.2 = [.responded 7 "ven1" "event1" "optIn"] := by
  obtain ⟨e, v, calls, -, hv, -, -, h⟩ := c96_added_partial (k := syncWire) (env := quietEnv) (vtnClock := fun _ => 0) (w := w) (n := 0) (c := 7)
    (x := ([], ((addEvent Server.init askedArgs).1, []))) (y := y) (s := Server.init) (a := askedArgs) (id := "event1") hv
    loudVtn_connected loudVtn_connected rfl rfl askedArgs_good syncWire_id (fun _ _ _ _ _ => ⟨_, rfl⟩) (fun _ _ _ _ => rfl) (by decide +kernel)
    (by rw [hw]; exact ⟨fun _ _ => ⟨_, rfl⟩, fun _ _ _ => ⟨_, rfl⟩⟩) (fun _ => rfl)
    rfl rfl (by
      intro id id' f h1
      change Dict.get? [("event1", Callback.func 7 true)] id = some (.future f) at h1
      simp only [Dict.get?] at h1
      split at h1 <;> simp at h1) rfl rfl (by simp [hr]) (by constructor <;> decide +kernel) ⟨_, List.mem_singleton.mpr rfl, by decide +kernel⟩ (by
      intro i hi
      rw [askedArgs, List.mem_singleton] at hi
      subst hi
      rw [hc]
      decide +kernel)
  rw [show askedArgs.ven = "ven1" from rfl] at h
  rw [h]
  rw [hw] at hv
  cases hv
  rfl

/-- Nobody has added an event. -/
example (w : World) (y : Client) (hv : y.venId = .str "ven1") :
    ∃ a, syncWire.run syncEvents w 1 (([], (Server.init, [])), y) = ((([], (Server.init, [])), { y with log := y.log ++ [(.requestEvent (.str "ven1"), a)] }), .ok ()) :=
  c96_sync_nothing (k := syncWire) (env := quietEnv) (vtnClock := fun _ => 0) (n := 0) hv loudVtn_connected rfl syncWire_id
    ⟨fun _ _ => ⟨_, rfl⟩, fun _ _ => rfl⟩ rfl rfl

end Openleadr
