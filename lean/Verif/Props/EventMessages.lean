import Verif.Lemmas.EventReady
/-!
C67 for messages with events.
-/
namespace Openleadr

variable {lib : Lib} {now : Int}

/-- **C67** for oadrDistributeEvent: exactly what is received of a message that can be prepared, with any number of events, signals, intervals and
    targets. The intervals get numbers and their values become floats, the targets of signals are not received, the targets of events are sorted by
    their kinds and grouped, periods get other names, and empty lists are received as `None` or not at all. -/
theorem c67_distribute_event_arrives (sound : lib.Sound) {r : DistributeEventP} (h : r.Good lib) (p sent : Dict)
    (hp : preflightMessage now "oadrDistributeEvent" p = .ok (.dict sent)) (hc : Conforms (.dict sent) (.dict r.dict)) :
    Received lib now "oadrDistributeEvent" p r.received :=
  received_of sent hp hc (by rfl) (template_ok "oadrDistributeEvent" _ (by rfl)) (fun n => inside_elem
    (.cons (carries_response? sound h.response (by lkd [DistributeEventP.dict]))
    (.cons (carries_text "requestID" "request_id" (by lkd [DistributeEventP.dict]) h.requestId)
    (.cons (carries_text "vtnID" "vtn_id" (by lkd [DistributeEventP.dict]) h.vtnId)
    (.cons (carries_events (n := n + 12) sound h.events (by lkd [DistributeEventP.dict])) .nil)))) (by simp [DistributeEventP.received]) (by simp [DistributeEventP.received]))
    (by decide +kernel)

/-- **C67** for oadrDistributeEvent: exactly what is received of events that are left as they are when they are prepared. -/
theorem c67_ready_event_arrives (sound : lib.Sound) {r : DistributeEventP} (h : r.Good lib) (hr : ∀ x ∈ r.events, x.Ready) :
    Received lib now "oadrDistributeEvent" r.dict r.received :=
  c67_distribute_event_arrives sound h r.dict r.dict (preflight_events_ready h hr) (.same _)

end Openleadr
