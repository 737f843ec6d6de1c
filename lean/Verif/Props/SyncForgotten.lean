import Verif.Props.SyncEvents
import Verif.Props.KeepsUp
import Verif.Props.SyncCases
/-!
C96 for a VEN that starts over with an event in its memory of which it has forgotten the decision.
-/
namespace Openleadr

theorem fix_declined (es : List Event) : fixResults es (es.map (fun _ => .str "optOut")) = es.map (fun _ => .str "optOut") := by
  induction es with
  | nil => rfl
  | cons e es ih => simp [fixResults, ih, fixResult, validOpt]

theorem zip_const (es : List Event) (v : Value) : es.zip (es.map (fun _ => v)) = es.map (fun e => (e, v)) := by
  induction es with
  | nil => rfl
  | cons e es ih => simp [ih]

/-- **C96, refuted** for a VEN that registers again while the VTN still has an event in its queue of which the VEN has forgotten its decision (as it does when the
    event is cancelled, see C91): no handler is called for the events behind it, however new they are, and the callbacks of the VTN are told that the VEN declines
    every event that asks for an answer, also those that its user has accepted before and those that its user accepts now. -/
theorem c96_forgotten_violated {k : Connection Vtn} {env : Env} {vtnClock : Nat → Int}
    {w : World} {n : Nat} {x : Serving Vtn} {y : Client} {ven : String} {before after : List Event} {e : Event} {s1 : Server} {effects : List Effect}
    (hv : y.venId = .str ven) (con : Connected (k.link y.log.length) k.config k.secure k.peer x.1 ven)
    (con' : Connected (k.link (y.log.length + 1)) k.config k.secure k.peer x.1 ven)
    (hlib : (k.link (y.log.length + 1)).lib = (k.link y.log.length).lib) (hsvc : k.service "EiEvent" = eventService env vtnClock)
    (hid : Ordinary (k.link y.log.length).lib (k.dressing.ids y.log.length))
    (hval : k.Valid y.log.length "oadrRequestEvent" [("request_id", .str (k.dressing.ids y.log.length)), ("ven_id", .str ven), ("reply_limit", .none)]
      "oadrDistributeEvent" (messageWith (.list ((before ++ e :: after).map Event.object)) k.config.vtnId ven k.config.newId (.str (k.dressing.ids y.log.length))))
    (hval' : ∀ a txt, (onEventMessage w.handlers (w.clock (y.log.length + 1)) y.calls y.events (eventsFor k y.log.length (before ++ e :: after))).2.2 = some a →
      createMessage (k.link (y.log.length + 1)).lib (k.link (y.log.length + 1)).clientNow "oadrCreatedEvent" (a.payload (.str ven)) = .ok txt →
      ∃ tree, k.config.validate (String.ofList txt) = .ok tree)
    (hint : x.2.1.external = false) (htake : takeEvents vtnClock x.2.1 ven = (s1, some (before ++ e :: after)))
    (hdel : deliverAll env s1.delivery (before ++ e :: after) = (effects, none)) (hes : ∀ a ∈ before ++ e :: after, a.Sendable (k.link y.log.length).lib)
    (hw : ∀ a ∈ before ++ e :: after, a.Whole) (hlow : isLowerText k.config.vtnId = false) (hd : Distinct (before ++ e :: after)) (htot : w.handlers.Total)
    (hq : ∀ e, env.raises e = none) (hun : Unshared x.2.1) (hs : y.events.Single)
    (hrem : Remembered y.events before) (hf : Forgotten y.events e)
    (hover : ∀ p ∈ (before ++ e :: after).zipIdx, asksFor (w.clock (y.log.length + 1)) p.1 p.2 = true → p.1.status ≠ .completed) :
    let z := (k.run syncEvents w (n + 2) (x, y)).1
    z.2.calls = y.calls ++ dueCalls y.events (before.map (Event.arrived (k.link y.log.length).lib (k.link y.log.length).serverNow)) ∧
    z.1.2.2 = x.2.2 ++ effects ++
      ((before ++ e :: after).zipIdx.filter (fun p => asksFor (w.clock (y.log.length + 1)) p.1 p.2)).flatMap (fun p => told x.2.1 ven p.1.id "optOut") := by
  intro z
  have h1 : k.deliver y.log.length (.requestEvent y.venId) x = ((x.1, (s1, x.2.2 ++ effects)), .ok (some (some "oadrDistributeEvent",
      gotEvents k y.log.length (before ++ e :: after) (some (k.dressing.ids y.log.length))))) := by
    have := request_distributes (log := x.2.2) con hid hval.there hval.back hint htake hdel hes
    rw [hv, ← hsvc] at *
    exact this
  have hext : s1.external = false := by
    have := (takeEvents_frame vtnClock x.2.1 ven).1
    rw [htake] at this
    exact this.trans hint
  obtain ⟨r1, lg, r2⟩ := fetched_run (n := n) sync_fetches hv con' hlib hsvc h1 (by simp) hes hw hext hval'
  generalize hes' : before ++ e :: after = es at *
  have hd' : Distinct ((before.map (Event.arrived (k.link y.log.length).lib (k.link y.log.length).serverNow)) ++
      e.arrived (k.link y.log.length).lib (k.link y.log.length).serverNow :: after.map (Event.arrived (k.link y.log.length).lib (k.link y.log.length).serverNow)) := by
    have : Distinct (es.map (Event.arrived (k.link y.log.length).lib (k.link y.log.length).serverNow)) := List.pairwise_map.mpr hd
    rw [← hes', List.map_append, List.map_cons] at this
    exact this
  have hrem' : Remembered y.events (before.map (Event.arrived (k.link y.log.length).lib (k.link y.log.length).serverNow)) := by
    intro a' ha'
    obtain ⟨a, ha, rfl⟩ := List.mem_map.mp ha'
    exact hrem a ha
  have hstop := decideAll_stops (h := w.handlers) htot (calls := y.calls) hs hd' hrem'
    (hf : Forgotten y.events (e.arrived (k.link y.log.length).lib (k.link y.log.length).serverNow))
  rw [← List.map_cons, ← List.map_append, hes'] at hstop
  have hres : (resultsOf w.handlers y.calls y.events (eventsFor k y.log.length es)).2 =
      (y.calls ++ dueCalls y.events (before.map (Event.arrived (k.link y.log.length).lib (k.link y.log.length).serverNow)), false,
        (eventsFor k y.log.length es).events.map (fun _ => .str "optOut")) := by
    unfold resultsOf
    simp only [eventsFor, hlow, Bool.false_eq_true, if_false]
    cases hda : decideAll w.handlers y.calls y.events (es.map (Event.arrived (k.link y.log.length).lib (k.link y.log.length).serverNow)) with
    | mk s' u =>
      rw [hda] at hstop
      simp only at hstop
      subst hstop
      rfl
  have hent := entries_onEventMessage w.handlers (w.clock (y.log.length + 1)) y.calls y.events (eventsFor k y.log.length es)
  rw [hres, ← fix_declined] at hent
  have hvs : (eventsFor k y.log.length es).events.map (fun _ => Value.str "optOut") = es.map (fun _ => Value.str "optOut") := by simp [eventsFor]
  rw [hvs] at hent
  simp only [eventsFor, responsesFor_decided (k.link y.log.length).lib (k.link y.log.length).serverNow (w.clock (y.log.length + 1)) _ es
    (es.map (fun _ => Value.str "optOut")) 0 (by simp)] at hent
  have hc := answers_told (env := env) (lib := (k.link y.log.length).lib) (now := (k.link y.log.length).serverNow) (q := .str k.config.newId)
    (vs := es.map (fun _ => Value.str "optOut")) (t := s1) hint htake ⟨rfl, rfl, rfl, rfl⟩ hd hq hun hover
  rw [← hent] at hc
  refine ⟨?_, ?_⟩
  · show (k.run syncEvents w (n + 2) (x, y)).1.2.calls = _
    rw [r2]
    show (onEventMessage w.handlers (w.clock (y.log.length + 1)) y.calls y.events (eventsFor k y.log.length es)).2.1 = _
    rw [(onEventMessage_state w.handlers _ y.calls y.events _).2, hres]
  · show (k.run syncEvents w (n + 2) (x, y)).1.1.2.2 = _
    rw [r1]
    show x.2.2 ++ effects ++ _ = _
    congr 1
    refine hc.trans ?_
    rw [zip_const, List.zipIdx_map, List.filter_map, List.flatMap_map]
    rfl

/-- The event of the example of `c96_added_partial`, at a VEN that knows it but has no decision about it (its handler has raised an exception the first time): the VTN is
    told that the VEN declines, and the handler, which would accept, is not asked. -/
example (w : World) (hw : w.handlers = easyHandlers) (hc : ∀ n i, w.clock n i = 0) (y : Client) (hv : y.venId = .str "ven1")
    (hy : y.events = ⟨[venEvent "event1" 0], []⟩) :
    (syncWire.run syncEvents w 2 (([], ((addEvent Server.init askedArgs).1, [])), y)).1.2.calls = y.calls ∧
    (syncWire.run syncEvents w 2 (([], ((addEvent Server.init askedArgs).1, [])), y)).1.1.2.2 = [.responded 7 "ven1" "event1" "optOut"] := by
  obtain ⟨s1, e, hh⟩ := added_handed (lib := sampleLink.lib) (env := quietEnv) (vtnClock := fun _ => 0) (venClock := w.clock (y.log.length + 1)) (s := Server.init)
    (s' := (addEvent Server.init askedArgs).1) (a := askedArgs) (id := "event1") askedArgs_good (fun _ => rfl) rfl rfl rfl (by constructor <;> decide +kernel)
    ⟨_, List.mem_singleton.mpr rfl, by decide +kernel⟩ (by
      intro i hi
      rw [askedArgs, List.mem_singleton] at hi
      subst hi
      rw [hc]
      decide +kernel)
  have hm : e.modnum = 0 := by
    have h0 : (takeEvents (fun _ => 0) (addEvent Server.init askedArgs).1 askedArgs.ven).2.map (List.map Event.modnum) = some [0] := by decide +kernel
    rw [hh.take] at h0
    simpa using h0
  have hid : e.id = "event1" := hh.id
  have hf : Forgotten y.events e := ⟨venEvent "event1" 0, by rw [hy, hid]; decide +kernel, hm.symm, by rw [hy]; rfl⟩
  obtain ⟨h1, h2⟩ := c96_forgotten_violated (k := syncWire) (env := quietEnv) (vtnClock := fun _ => 0) (w := w) (n := 0)
    (x := ([], ((addEvent Server.init askedArgs).1, []))) (y := y) (ven := "ven1") (before := []) (after := []) (e := e) (s1 := s1) hv
    loudVtn_connected loudVtn_connected rfl rfl syncWire_id ⟨fun _ _ => ⟨_, rfl⟩, fun _ _ => rfl⟩ (fun _ _ _ _ => ⟨_, rfl⟩) rfl hh.take hh.delivered
    (by intro a ha; rw [List.nil_append, List.mem_singleton] at ha; subst ha; exact hh.sendable.1) (by simpa using hh.sendable.2) (by decide +kernel) (by simp [Distinct])
    (by rw [hw]; exact ⟨fun _ _ => ⟨_, rfl⟩, fun _ _ _ => ⟨_, rfl⟩⟩) (fun _ => rfl) (by
      intro id id' f h1
      change Dict.get? [("event1", Callback.func 7 true)] id = some (.future f) at h1
      simp only [Dict.get?] at h1
      split at h1 <;> simp at h1)
    (by intro id; rw [hy]; simp only [ofId]; exact (List.length_filter_le _ _)) (by intro a ha; simp at ha) hf (by
      intro q hq _
      simp only [List.nil_append, List.zipIdx_cons, List.zipIdx_nil, List.mem_singleton] at hq
      subst hq
      exact hh.running)
  refine ⟨by rw [h1]; simp [dueCalls], ?_⟩
  rw [h2]
  simp only [List.nil_append, List.zipIdx_cons, List.zipIdx_nil, List.filter_cons, hh.asks, if_true, List.filter_nil, List.flatMap_cons, List.flatMap_nil, List.append_nil, hid]
  rfl

end Openleadr
