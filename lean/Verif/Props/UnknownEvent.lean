import Verif.Props.ErrorReplies
import Verif.Props.EventRound
/-! Property C86 for answers to events that the VTN does not know. -/
namespace Openleadr

/-- **C86**: an answer of a VEN to an event that its queue does not hold (with that number) and that is not completed: the VEN receives the invalid-id error 452, and
    the VTN stays as it is and calls nobody. -/
theorem c86_unknown_event (k : Link) (c : Config) (env : Env) (vtnClock : Nat → Int) (cache : NonceCache) (s : Server) (log : List Effect) (peer : Option String)
    (ven : String) (a : CreatedEvent) (r : VenResponse) (sound : k.lib.Sound) (hven : Ordinary k.lib ven) (ha : a.Sendable k.lib) (hr : a.responses = [r])
    (hin : LetsIn k c false peer cache ven)
    (hval : ∀ txt, createMessage k.lib k.clientNow "oadrCreatedEvent" (a.payload (.str ven)) = .ok txt → ∃ tree, c.validate (String.ofList txt) = .ok tree)
    (hacc : ∀ p txt, createMessage k.lib k.serverNow "oadrResponse" p = .ok txt → k.accepts (String.ofList txt) = true)
    (hx : s.external = false) (hq : Dict.get? s.events ven ≠ none) (hno : ∀ e ∈ s.queue ven, ¬ (e.id = r.eventId ∧ e.modnum = r.modnum))
    (hc : r.eventId ∉ s.completedOf ven) :
    exchange k c (eventService env vtnClock) cache (s, log) false peer "oadrCreatedEvent" (a.payload (.str ven)) =
      ((cache, (s, log)), .ok (some (some "oadrResponse", errorReceived 452 "INVALID ID"))) := by
  obtain ⟨q, h1, h2⟩ := ha.request
  obtain ⟨gv, gn, gh⟩ := answers_read (ven := ven) (q := q) ha env s log
  have hce := c34_unknown_refused_partial env s ven r.handled hx hq hno hc
  have hm : a.responses.map VenResponse.handled = [r.handled] := by rw [hr]; rfl
  rw [hm, hce] at gh
  refine c86_raised k c _ cache (s, log) (s, log) peer _ _ _ 452 "INVALID ID" (createdHandler env) sound (answers_received sound hven ha h1 h2) (by decide) ?_ hval
    (by simp [gn]) (hin.known _ _ gv) (by simp [eventService, Dict.get?]) ?_ hacc
  · exact ordinary_word sound (by decide +kernel) (onWire_of (by decide +kernel)) (by decide) (by decide)
  · rw [gh]
    simp [served, serviceExn]

/-- The answer to an event that was never there. -/
def strayAnswer : CreatedEvent := ⟨200, .str "req1", [⟨200, .str "optIn", .str "req1", 0, "other"⟩]⟩

example : exchange sampleLink sampleVtn (eventService quietEnv (fun _ => 0)) [] (sampleServer, []) false none "oadrCreatedEvent" (strayAnswer.payload (.str "ven1")) =
    (([], (sampleServer, [])), .ok (some (some "oadrResponse", errorReceived 452 "INVALID ID"))) :=
  c86_unknown_event _ _ _ _ _ _ _ _ _ strayAnswer _ plainLib_sound (ordinary_of (by decide +kernel))
    ⟨⟨_, rfl, ordinary_of (by decide +kernel)⟩, by simp [strayAnswer], by
      intro r hr
      simp only [strayAnswer, List.mem_cons, List.not_mem_nil, or_false] at hr
      subst hr
      exact ⟨rfl, ordinary_of (by decide +kernel), .inl rfl⟩⟩ rfl
    ⟨fun _ m hm => by simp [checkKnown, sampleVtn, hm], fun _ _ _ _ _ => by simp⟩ (fun _ _ => ⟨_, rfl⟩) (fun _ _ _ => rfl) rfl (by decide +kernel) (by decide +kernel)
    (by decide +kernel)

end Openleadr
