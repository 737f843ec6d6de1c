import Verif.Props.EventExchange
import Verif.Props.VenEvents
import Verif.Props.ServerResponses
/-!
C87: one poll of a VEN for which there are events, until the callbacks of the VTN.
-/
namespace Openleadr

/-- What is asked of the two sides: the VEN has an id that is a text on the other side too, the VTN knows it, and so on. -/
structure Connected (k : Link) (c : Config) (secure : Bool) (peer : Option String) (cache : NonceCache) (ven : String) : Prop where
  sound : k.lib.Sound
  venId : Ordinary k.lib ven
  vtnId : Ordinary k.lib c.vtnId
  newId : Ordinary k.lib c.newId
  now : Datable k.serverNow
  zero : AsFloat k.lib (.int 0) (floatOf k.lib (.int 0))
  letsIn : LetsIn k c secure peer cache ven

/-- An event with signals and intervals. -/
structure Event.Whole (e : Event) : Prop where
  signals : e.signals ≠ []
  intervals : ∀ s ∈ e.signals, s.intervals ≠ []

/-- The event as the VEN gets it. -/
def Event.arrived (lib : Lib) (now : Int) (e : Event) : Event := (e.prepared now).view lib

theorem read_message {lib : Lib} {now : Int} {es : List Event} {vtn id : String} {rid : Option String} (hne : es ≠ []) (hs : ∀ e ∈ es, e.Sendable lib)
    (hw : ∀ e ∈ es, e.Whole) :
    readEventMessage (receivedWith (es.map (fun e => eventP lib (e.prepared now))) vtn id rid) =
      some ⟨.str vtn, .str id, es.map (Event.arrived lib now)⟩ := by
  have he : Dict.get? (receivedWith (es.map (fun e => eventP lib (e.prepared now))) vtn id rid) "events" =
      some (.list ((es.map (fun e => (eventP lib (e.prepared now)).received (decide (2 ≤ es.length)))).map .dict)) := by
    simp [receivedWith, Dict.get?, Dict.get?_entry?, dicts?, hne, Function.comp_def]
  have h1 : Dict.get? (receivedWith (es.map (fun e => eventP lib (e.prepared now))) vtn id rid) "vtn_id" = some (.str vtn) := by
    simp [receivedWith, Dict.get?]
  have h2 : Dict.get? (receivedWith (es.map (fun e => eventP lib (e.prepared now))) vtn id rid) "request_id" = some (.str id) := by
    simp [receivedWith, Dict.get?]
  have hm := mapM_dicts (l := es) (g := fun e => (eventP lib (e.prepared now)).received (decide (2 ≤ es.length))) (f := readEvent)
    (r := Event.arrived lib now) (fun e hm => by
      refine read_event _ ⟨_, rfl⟩ ?_ ?_ ?_
      · simp only [Event.prepared, ne_eq, List.map_eq_nil_iff]; exact (hw e hm).signals
      · intro s hs'
        simp only [Event.prepared, List.mem_map] at hs'
        obtain ⟨a, ha, rfl⟩ := hs'
        rw [prepared_intervals]; exact (hw e hm).intervals a ha
      · rcases (hs e hm).sound.response with h | h
        · exact ⟨_, h⟩
        · exact ⟨_, h⟩)
  rw [readEventMessage, he, h1, h2]
  simp only [Option.bind_eq_bind, Option.bind_some, Value.list?, hm]

theorem responsesFor_valid (clock : Nat → Int) (q : Value) (es : List Event) (vs : List Value) (i : Nat)
    (h : vs = es.map (fun _ => .str "optOut") ∨ ∃ ws, vs = fixResults es ws) :
    ∀ r ∈ responsesFor clock q i es vs, r.requestId = q ∧ (∃ e ∈ es, r.eventId = e.id) ∧ (r.optType = .str "optIn" ∨ r.optType = .str "optOut") := by
  have hshape : ∀ (es : List Event) (vs : List Value) (i : Nat) (r : VenResponse), r ∈ responsesFor clock q i es vs →
      r.requestId = q ∧ ∃ e ∈ es, r.eventId = e.id := by
    intro es
    induction es with
    | nil => intro vs i r hr; simp [responsesFor] at hr
    | cons e es ih =>
      intro vs i r hr
      cases vs with
      | nil => simp [responsesFor] at hr
      | cons v vs =>
        simp only [responsesFor] at hr
        split at hr
        · rcases List.mem_cons.mp hr with rfl | hr
          · exact ⟨rfl, e, by simp, rfl⟩
          · obtain ⟨h1, e', h2, h3⟩ := ih vs (i + 1) r hr
            exact ⟨h1, e', by simp [h2], h3⟩
        · obtain ⟨h1, e', h2, h3⟩ := ih vs (i + 1) r hr
          exact ⟨h1, e', by simp [h2], h3⟩
  intro r hr
  refine ⟨(hshape es vs i r hr).1, (hshape es vs i r hr).2, ?_⟩
  rcases h with rfl | ⟨ws, rfl⟩
  · exact .inr (responsesFor_optOut _ _ _ _ _ hr)
  · obtain ⟨p, -, -, -, h3, -⟩ := responsesFor_mem clock q es ws i r hr
    rw [h3, sent]
    split
    · assumption
    · exact .inr rfl

/-- Whatever the handlers do, the answers of the VEN can be sent. -/
theorem answers_sendable {lib : Lib} (h : VenHandlers) (clock : Nat → Int) (calls : List VenCall) (s : VenState) (m : EventMessage) {q : String}
    (hq : m.requestId = .str q) (ho : Ordinary lib q) (he : ∀ e ∈ m.events, Ordinary lib e.id) {s' : VenState} {calls' : List VenCall} {a : CreatedEvent}
    (ha : onEventMessage h clock calls s m = (s', calls', some a)) : a.Sendable lib := by
  have hres : (resultsOf h calls s m).2.2.2 = m.events.map (fun _ => .str "optOut") ∨ ∃ ws, (resultsOf h calls s m).2.2.2 = fixResults m.events ws := by
    unfold resultsOf
    split
    · split
      · exact .inl rfl
      · split
        · exact .inr ⟨_, rfl⟩
        · exact .inl rfl
    · exact .inl rfl
  have hv := responsesFor_valid clock m.requestId m.events _ 0 hres
  unfold onEventMessage at ha
  generalize hx : resultsOf h calls s m = x at ha hv
  obtain ⟨s1, c1, inv, vs⟩ := x
  simp only at ha hv
  split at ha
  · simp at ha
  · rename_i r rs hr
    simp only [Prod.mk.injEq, Option.some.injEq] at ha
    obtain ⟨-, -, rfl⟩ := ha
    refine ⟨⟨q, hq, ho⟩, by simp, fun y hy => ?_⟩
    rw [hr] at hv
    obtain ⟨h1, ⟨e, h2, h2'⟩, h3⟩ := hv y hy
    exact ⟨h1, h2' ▸ he e h2, h3⟩

theorem arrived_id (lib : Lib) (now : Int) (e : Event) : (e.arrived lib now).id = e.id := rfl

/-- One poll, from the queue to the callbacks. -/
theorem round_done {k : Link} {c : Config} {env : Env} {h : VenHandlers} {vtnClock venClock : Nat → Int} {x : Sides}
    {secure : Bool} {peer : Option String} {ven : String} {s1 : Server} {es : List Event} {effects : List Effect}
    (con : Connected k c secure peer x.cache ven)
    (hval : ∀ txt, createMessage k.lib k.clientNow "oadrPoll" [("ven_id", .str ven)] = .ok txt → ∃ tree, c.validate (String.ofList txt) = .ok tree)
    (hacc : ∀ txt, createMessage k.lib k.serverNow "oadrDistributeEvent" (messageWith (.list (es.map Event.object)) c.vtnId ven c.newId .none) = .ok txt →
      k.accepts (String.ofList txt) = true)
    (hval' : ∀ a txt, (onEventMessage h venClock x.calls x.ven ⟨.str c.vtnId, .str c.newId, es.map (Event.arrived k.lib k.serverNow)⟩).2.2 = some a →
      createMessage k.lib k.clientNow "oadrCreatedEvent" (a.payload (.str ven)) = .ok txt → ∃ tree, c.validate (String.ofList txt) = .ok tree)
    (hint : x.vtn.1.external = false) (hflag : x.vtn.1.flag ven = true) (htake : takeEvents vtnClock x.vtn.1 ven = (s1, some es)) (hne : es ≠ [])
    (hdel : deliverAll env s1.delivery es = (effects, none)) (hes : ∀ e ∈ es, e.Sendable k.lib) (hw : ∀ e ∈ es, e.Whole) :
    let asked := onEventMessage h venClock x.calls x.ven ⟨.str c.vtnId, .str c.newId, es.map (Event.arrived k.lib k.serverNow)⟩
    let told := createdEvent env { s1 with updated := Dict.set s1.updated ven false } ven ((entriesOf asked.2.2).map VenResponse.handled)
    pollRound k c env h vtnClock venClock secure peer (.str ven) x = ⟨x.cache, (told.1, x.vtn.2 ++ effects ++ told.2.1), asked.1, asked.2.1⟩ := by
  intro asked told
  have h1 := poll_distributes (log := x.vtn.2) con.sound con.venId con.vtnId con.newId con.now con.zero con.letsIn hval hacc hint hflag htake hdel hes
  have h2 := read_message (now := k.serverNow) (vtn := c.vtnId) (id := c.newId) (rid := none) hne hes hw
  have hext : s1.external = false := by
    have := (takeEvents_frame vtnClock x.vtn.1 ven).1
    rw [htake] at this
    exact this.trans hint
  let s2 : Server := { s1 with updated := Dict.set s1.updated ven false }
  have hx2 : s2.external = false := hext
  have hround : pollRound k c env h vtnClock venClock secure peer (.str ven) x = (match asked with
      | (s, calls, none) => ⟨x.cache, (s2, x.vtn.2 ++ effects), s, calls⟩
      | (s, calls, some a) =>
        match exchange k c (eventService env vtnClock) x.cache (s2, x.vtn.2 ++ effects) secure peer "oadrCreatedEvent" (a.payload (.str ven)) with
        | ((cache', vtn'), _) => ⟨cache', vtn', s, calls⟩) := by
    rw [pollRound, show x.vtn = (x.vtn.1, x.vtn.2) from rfl, h1]
    simp only [h2]
    rfl
  rw [hround]
  cases ha : asked.2.2 with
  | none =>
    have hasked : asked = (asked.1, asked.2.1, none) := by rw [← ha]
    have htold : told = (s2, [], .ok .response) := by
      show createdEvent env s2 ven _ = _
      simp [ha, entriesOf, createdEvent, hx2, respondAll]
    rw [htold, hasked]
    simp
  | some a =>
    have hasked : asked = (asked.1, asked.2.1, some a) := by rw [← ha]
    have hsend : a.Sendable k.lib := by
      refine answers_sendable h venClock x.calls x.ven _ rfl con.newId (fun e he => ?_) hasked
      simp only [List.mem_map] at he
      obtain ⟨e', he', rfl⟩ := he
      rw [arrived_id]; exact (hes e' he').wired.id
    have h3 := answers_handled (env := env) (vtnClock := vtnClock) (s := s2) (log := x.vtn.2 ++ effects) con.sound con.venId hsend con.letsIn
      (fun txt => hval' a txt ha)
    have htold : told = createdEvent env s2 ven (a.responses.map VenResponse.handled) := by
      show createdEvent env s2 ven _ = _
      simp only [ha, entriesOf]
    generalize hy : exchange k c (eventService env vtnClock) x.cache (s2, x.vtn.2 ++ effects) secure peer "oadrCreatedEvent" (a.payload (.str ven)) = y at h3
    obtain ⟨⟨c', v'⟩, r⟩ := y
    simp only [Prod.mk.injEq] at h3
    obtain ⟨rfl, rfl⟩ := h3
    rw [hasked]
    simp only [hy, htold]

/-! ### What the callbacks are told -/

/-- What the user of the VTN is told when the answer `opt` for event `id` comes: the callback is called, or the future is resolved unless it is already. -/
def told (s : Server) (ven id opt : String) : List Effect :=
  match Dict.get? s.callbacks id with
  | none => []
  | some (.func c _) => [.responded c ven id opt]
  | some (.future f) => if s.doneFutures.contains f then [] else [.resolved f opt]

/-- No future stands for two events. -/
def Unshared (s : Server) : Prop :=
  ∀ id id' f, Dict.get? s.callbacks id = some (.future f) → Dict.get? s.callbacks id' = some (.future f) → id = id'

theorem respondOne_told (env : Env) (hq : ∀ e, env.raises e = none) (s : Server) (ven : String) (r : EventResponse)
    (hk : ∃ e ∈ s.queue ven, e.id = r.eventId ∧ e.modnum = r.modificationNumber) :
    (respondOne env s ven r).2 = (told s ven r.eventId r.optType, none) ∧
    (∀ id, id ≠ r.eventId → Dict.get? (respondOne env s ven r).1.callbacks id = Dict.get? s.callbacks id) ∧
    (∀ f, Dict.get? s.callbacks r.eventId ≠ some (.future f) → (respondOne env s ven r).1.doneFutures.contains f = s.doneFutures.contains f) := by
  have fire : ∀ t : Server, t.callbacks = s.callbacks → t.doneFutures = s.doneFutures →
      (fireCallback env t ven r).2 = (told s ven r.eventId r.optType, none) ∧
      (∀ id, id ≠ r.eventId → Dict.get? (fireCallback env t ven r).1.callbacks id = Dict.get? s.callbacks id) ∧
      (∀ f, Dict.get? s.callbacks r.eventId ≠ some (.future f) → (fireCallback env t ven r).1.doneFutures.contains f = s.doneFutures.contains f) := by
    intro t h1 h2
    simp only [fireCallback, told, h1, h2]
    cases hc : Dict.get? s.callbacks r.eventId with
    | none => simp [h1, h2]
    | some cb =>
      cases cb with
      | func cb b => simp [hq, h2]; exact fun id hid => Dict.get?_erase_other _ _ _ hid
      | future f =>
        simp only
        split
        · refine ⟨rfl, fun id hid => Dict.get?_erase_other _ _ _ hid, fun g _ => by simp [h2]⟩
        · refine ⟨rfl, fun id hid => Dict.get?_erase_other _ _ _ hid, fun g hg => ?_⟩
          have hgf : g ≠ f := fun h => hg (by rw [h])
          simp [hgf]
  obtain ⟨e, he, e1, e2⟩ := hk
  simp only [respondOne]
  cases hg : Dict.get? s.events ven with
  | none => simp [Server.queue, hg] at he
  | some q =>
    have hqq : s.queue ven = q := by simp [Server.queue, hg]
    simp only
    cases hf : q.find? (hasIdAndNumber r) with
    | none =>
      have := List.find?_eq_none.mp hf e (by rw [← hqq]; exact he)
      simp [hasIdAndNumber, e1, e2] at this
    | some x =>
      simp only
      split
      · exact fire _ rfl rfl
      · exact fire _ rfl rfl

theorem told_same {s t : Server} (ven id opt : String) (h1 : Dict.get? t.callbacks id = Dict.get? s.callbacks id)
    (h2 : ∀ f, Dict.get? s.callbacks id = some (.future f) → t.doneFutures.contains f = s.doneFutures.contains f) : told t ven id opt = told s ven id opt := by
  simp only [told, h1]
  cases hc : Dict.get? s.callbacks id with
  | none => rfl
  | some cb =>
    cases cb with
    | func c b => rfl
    | future f => simp only [h2 f hc]

/-- Answers for events that are in the queue, each event once: everybody is told. -/
theorem respondAll_told (env : Env) (hq : ∀ e, env.raises e = none) (ven : String) (rs : List EventResponse) (s : Server)
    (hid : rs.Pairwise (fun a b => a.eventId ≠ b.eventId)) (hun : Unshared s)
    (hk : ∀ r ∈ rs, ∃ e ∈ s.queue ven, e.id = r.eventId ∧ e.modnum = r.modificationNumber) :
    (respondAll env s ven rs).2 = (rs.flatMap (fun r => told s ven r.eventId r.optType), none) := by
  have main : ∀ (rs : List EventResponse) (t : Server), rs.Pairwise (fun a b => a.eventId ≠ b.eventId) →
      (∀ r ∈ rs, ∃ e ∈ t.queue ven, e.id = r.eventId ∧ e.modnum = r.modificationNumber) →
      (∀ r ∈ rs, Dict.get? t.callbacks r.eventId = Dict.get? s.callbacks r.eventId ∧
        ∀ f, Dict.get? s.callbacks r.eventId = some (.future f) → t.doneFutures.contains f = s.doneFutures.contains f) →
      (respondAll env t ven rs).2 = (rs.flatMap (fun r => told s ven r.eventId r.optType), none) := by
    intro rs
    induction rs with
    | nil => intro t _ _ _; rfl
    | cons r rs ih =>
      intro t hp hk hs
      rw [List.pairwise_cons] at hp
      obtain ⟨h1, h2, h3⟩ := respondOne_told env hq t ven r (hk r (by simp))
      have hkeep : ∀ r' ∈ rs, ∃ e ∈ (respondOne env t ven r).1.queue ven, e.id = r'.eventId ∧ e.modnum = r'.modificationNumber := by
        intro r' hr'
        obtain ⟨e, he, g1, g2⟩ := hk r' (by simp [hr'])
        refine ⟨e, respondOne_mem env t ven r e he ?_, g1, g2⟩
        rintro ⟨h, _⟩
        exact hp.1 r' hr' (h.trans g1)
      have hrest := ih (respondOne env t ven r).1 hp.2 hkeep (fun r' hr' => by
        obtain ⟨g1, g2⟩ := hs r' (by simp [hr'])
        refine ⟨(h2 _ (hp.1 r' hr').symm).trans g1, fun f hf => (h3 f ?_).trans (g2 f hf)⟩
        rw [(hs r (by simp)).1]
        exact fun hc => hp.1 r' hr' (hun _ _ f hc hf))
      rw [told_same ven r.eventId r.optType (hs r (by simp)).1 (hs r (by simp)).2] at h1
      simp only [respondAll]
      generalize hy : respondOne env t ven r = y at h1 hrest
      obtain ⟨t', effs, o⟩ := y
      simp only [Prod.mk.injEq] at h1
      obtain ⟨rfl, rfl⟩ := h1
      simp only [hrest, List.flatMap_cons]
  exact main rs s hid hk (fun r _ => ⟨rfl, fun _ _ => rfl⟩)

/-! ### C87 -/

/-- The opt type that goes to the callback for a decision of the handler. -/
def optText (v : Value) : String := if v = .str "optIn" then "optIn" else "optOut"

/-- The event asks for an answer, and is not over for the VEN when it gets there: its end is that of its intervals. -/
def asksFor (clock : Nat → Int) (e : Event) (i : Nat) : Bool :=
  decide (e.responseRequired = some "always" ∧ ¬ (0 < e.sentDuration ∧ e.activePeriod.dtstart + e.sentDuration ≤ clock i))

theorem answerFor_text (v : Value) : answerFor v = .str (optText v) := by
  unfold answerFor optText
  by_cases h1 : v = .str "optIn"
  · simp [h1]
  · by_cases h2 : v = .str "optOut" <;> simp [h1, h2]

theorem responsesFor_decided (lib : Lib) (now : Int) (clock : Nat → Int) (q : Value) (es : List Event) (vs : List Value) (i : Nat) (h : vs.length = es.length) :
    responsesFor clock q i (es.map (Event.arrived lib now)) (fixResults (es.map (Event.arrived lib now)) vs) =
      (((es.zip vs).zipIdx i).filter (fun p => asksFor clock p.1.1 p.2)).map (fun p =>
        (⟨responseCode (p.1.1.arrived lib now), .str (optText p.1.2), q, p.1.1.modnum, p.1.1.id⟩ : VenResponse)) := by
  induction es generalizing vs i with
  | nil => simp [responsesFor]
  | cons e es ih =>
    cases vs with
    | nil => simp at h
    | cons v vs =>
      have ih' := ih vs (i + 1) (by simpa using h)
      have hc : ((e.arrived lib now).responseRequired = some "always" ∧ determineStatus (clock i) (e.arrived lib now).activePeriod ≠ .completed) ↔
          asksFor clock e i = true := by
        rw [not_completed_iff, asksFor, decide_eq_true_iff]
        exact Iff.rfl
      simp only [List.map_cons, fixResults, responsesFor, List.zip_cons_cons, List.zipIdx_cons, List.filter_cons]
      by_cases hw : asksFor clock e i = true
      · rw [if_pos (hc.mpr hw), if_pos hw, List.map_cons, ih', fixResult_always _ _ (hc.mpr hw).1]
        have : sent v = .str (optText v) := answerFor_text v
        rw [this]
        rfl
      · rw [if_neg (fun h' => hw (hc.mp h')), if_neg hw, ih']

theorem zip_index_mem {es : List Event} {vs : List Value} {i : Nat} {p : (Event × Value) × Nat} (h : p ∈ (es.zip vs).zipIdx i) : (p.1.1, p.2) ∈ es.zipIdx i := by
  induction es generalizing vs i with
  | nil => simp at h
  | cons e es ih =>
    cases vs with
    | nil => simp at h
    | cons v vs =>
      simp only [List.zip_cons_cons, List.zipIdx_cons, List.mem_cons] at h ⊢
      rcases h with rfl | h
      · exact .inl rfl
      · exact .inr (ih h)

theorem pairwise_asked {clock : Nat → Int} {es : List Event} {vs : List Value} {i : Nat} (hd : Distinct es) :
    (((es.zip vs).zipIdx i).filter (fun p => asksFor clock p.1.1 p.2)).Pairwise (fun a b => a.1.1.id ≠ b.1.1.id) := by
  refine List.Pairwise.filter _ ?_
  induction es generalizing vs i with
  | nil => simp
  | cons e es ih =>
    cases vs with
    | nil => simp
    | cons v vs =>
      rw [Distinct, List.pairwise_cons] at hd
      simp only [List.zip_cons_cons, List.zipIdx_cons, List.pairwise_cons]
      refine ⟨fun p hp => ?_, ih hd.2⟩
      exact hd.1 p.1.1 (List.fst_mem_of_mem_zipIdx (zip_index_mem hp))

/-- An event that is handed out and is not completed is still in the queue. -/
theorem handed_kept {clock : Nat → Int} {s s1 : Server} {ven : String} {es : List Event} (htake : takeEvents clock s ven = (s1, some es)) {e : Event} (he : e ∈ es)
    (hc : e.status ≠ .completed) : e ∈ s1.queue ven := by
  obtain ⟨h1, h2, -⟩ := takeEvents_spec clock s ven
  rw [htake] at h1 h2
  simp only at h1 h2
  rw [h1]
  split at h2
  · cases h2
  · simp only [Option.some.injEq] at h2
    subst h2
    have hm : e ∈ refreshAll clock 0 (s.queue ven) := by
      unfold handedOut at he
      split at he
      · exact (List.mem_filter.mp he).1
      · exact (arrange_perm _).mem_iff.mp he
    exact List.mem_filter.mpr ⟨hm, by simp [nc, hc]⟩

/-- What is told when the answers for events that were handed out come to the VTN. -/
theorem answers_told {env : Env} {lib : Lib} {now : Int} {q : Value} {ven : String} {vtnClock venClock : Nat → Int} {s s1 t : Server} {es : List Event}
    {vs : List Value} (hint : s.external = false) (htake : takeEvents vtnClock s ven = (s1, some es))
    (ht : t.external = s1.external ∧ t.callbacks = s1.callbacks ∧ t.doneFutures = s1.doneFutures ∧ t.queue ven = s1.queue ven)
    (hd : Distinct es) (hq : ∀ e, env.raises e = none) (hun : Unshared s)
    (hover : ∀ p ∈ es.zipIdx, asksFor venClock p.1 p.2 = true → p.1.status ≠ .completed) :
    (createdEvent env t ven
      (((((es.zip vs).zipIdx).filter (fun p => asksFor venClock p.1.1 p.2)).map (fun p =>
          (⟨responseCode (p.1.1.arrived lib now), .str (optText p.1.2), q, p.1.1.modnum, p.1.1.id⟩ : VenResponse))).map VenResponse.handled)).2.1 =
      ((es.zip vs).zipIdx.filter (fun p => asksFor venClock p.1.1 p.2)).flatMap (fun p => told s ven p.1.1.id (optText p.1.2)) := by
  obtain ⟨f1, f2, f3, f4, f5, -⟩ := takeEvents_frame vtnClock s ven
  rw [htake] at f1 f3 f5
  simp only at f1 f3 f5
  obtain ⟨t1, t2, t3, t4⟩ := ht
  have hall := respondAll_told env hq ven
    (((((es.zip vs).zipIdx).filter (fun p => asksFor venClock p.1.1 p.2)).map (fun p =>
      (⟨responseCode (p.1.1.arrived lib now), .str (optText p.1.2), q, p.1.1.modnum, p.1.1.id⟩ : VenResponse))).map VenResponse.handled)
    t
    (by rw [List.pairwise_map, List.pairwise_map]; exact pairwise_asked hd)
    (by simp only [Unshared, t2, f3]; exact hun)
    (by
      intro r hr
      simp only [List.mem_map] at hr
      obtain ⟨-, ⟨p, hp, rfl⟩, rfl⟩ := hr
      obtain ⟨hp1, hp2⟩ := List.mem_filter.mp hp
      have hz := zip_index_mem hp1
      exact ⟨p.1.1, by rw [t4]; exact handed_kept htake (List.fst_mem_of_mem_zipIdx hz) (hover _ hz hp2), rfl, rfl⟩)
  have he : t.external = false := t1.trans (f1.trans hint)
  simp only [createdEvent]
  rw [if_neg (by rw [he]; simp)]
  generalize respondAll env t ven _ = y at hall ⊢
  obtain ⟨u, effs, o⟩ := y
  simp only [Prod.mk.injEq] at hall
  obtain ⟨rfl, rfl⟩ := hall
  simp only [List.flatMap_map]
  congr 1
  funext p
  exact told_same (s := s) ven _ _ (by rw [t2, f3]) (fun f _ => by rw [t3, f5])

/-- What is told, whatever the results are that the VEN answers with. -/
theorem round_told {k : Link} {c : Config} {env : Env} {h : VenHandlers} {vtnClock venClock : Nat → Int} {x : Sides}
    {secure : Bool} {peer : Option String} {ven : String} {s1 : Server} {es : List Event} {effects : List Effect}
    (con : Connected k c secure peer x.cache ven)
    (hval : ∀ txt, createMessage k.lib k.clientNow "oadrPoll" [("ven_id", .str ven)] = .ok txt → ∃ tree, c.validate (String.ofList txt) = .ok tree)
    (hacc : ∀ txt, createMessage k.lib k.serverNow "oadrDistributeEvent" (messageWith (.list (es.map Event.object)) c.vtnId ven c.newId .none) = .ok txt →
      k.accepts (String.ofList txt) = true)
    (hval' : ∀ a txt, (onEventMessage h venClock x.calls x.ven ⟨.str c.vtnId, .str c.newId, es.map (Event.arrived k.lib k.serverNow)⟩).2.2 = some a →
      createMessage k.lib k.clientNow "oadrCreatedEvent" (a.payload (.str ven)) = .ok txt → ∃ tree, c.validate (String.ofList txt) = .ok tree)
    (hint : x.vtn.1.external = false) (hflag : x.vtn.1.flag ven = true) (htake : takeEvents vtnClock x.vtn.1 ven = (s1, some es)) (hne : es ≠ [])
    (hdel : deliverAll env s1.delivery es = (effects, none)) (hes : ∀ e ∈ es, e.Sendable k.lib) (hw : ∀ e ∈ es, e.Whole)
    (hd : Distinct es) (hq : ∀ e, env.raises e = none) (hun : Unshared x.vtn.1)
    (hover : ∀ p ∈ es.zipIdx, asksFor venClock p.1 p.2 = true → p.1.status ≠ .completed) {s' : VenState} {calls' : List VenCall} {invalid : Bool}
    {vs : List Value} (hlen : vs.length = es.length)
    (hres : resultsOf h x.calls x.ven ⟨.str c.vtnId, .str c.newId, es.map (Event.arrived k.lib k.serverNow)⟩ =
      (s', calls', invalid, fixResults (es.map (Event.arrived k.lib k.serverNow)) vs)) :
    (pollRound k c env h vtnClock venClock secure peer (.str ven) x).calls = calls' ∧
    (pollRound k c env h vtnClock venClock secure peer (.str ven) x).ven = s' ∧
    (pollRound k c env h vtnClock venClock secure peer (.str ven) x).vtn.2 = x.vtn.2 ++ effects ++
      ((es.zip vs).zipIdx.filter (fun p => asksFor venClock p.1.1 p.2)).flatMap (fun p => told x.vtn.1 ven p.1.1.id (optText p.1.2)) := by
  have hround := round_done con hval hacc hval' hint hflag htake hne hdel hes hw
  simp only at hround
  have hent := entries_onEventMessage h venClock x.calls x.ven ⟨.str c.vtnId, .str c.newId, es.map (Event.arrived k.lib k.serverNow)⟩
  rw [hres] at hent
  simp only [responsesFor_decided k.lib k.serverNow venClock _ es vs 0 hlen] at hent
  rw [hround]
  refine ⟨?_, ?_, ?_⟩
  · show (onEventMessage h venClock x.calls x.ven _).2.1 = _
    rw [(onEventMessage_state h venClock x.calls x.ven _).2, hres]
  · show (onEventMessage h venClock x.calls x.ven _).1 = _
    rw [(onEventMessage_state h venClock x.calls x.ven _).1, hres]
  · have hc := answers_told (env := env) (lib := k.lib) (now := k.serverNow) (q := .str c.newId) (vs := vs) hint htake
      (t := { s1 with updated := Dict.set s1.updated ven false }) ⟨rfl, rfl, rfl, rfl⟩ hd hq hun hover
    rw [← hent] at hc
    show x.vtn.2 ++ effects ++ _ = _
    rw [hc]

/-- **C87** (partial: see the refutations for what is asked of the ids and of the events). One poll of a VEN for which there are events, over the wire and back:
    its handlers are called exactly for the events that are new or changed for it, in the order of the message, with the events as they were added; and the
    callbacks of the VTN are called, or its futures resolved, exactly for the events that ask for an answer and are not over, each with the id of the VEN, the id
    of the event and the decision that the handlers of the VEN made for this event. -/
theorem c87_decisions_partial {k : Link} {c : Config} {env : Env} {h : VenHandlers} {vtnClock venClock : Nat → Int} {x : Sides}
    {secure : Bool} {peer : Option String} {ven : String} {s1 : Server} {es : List Event} {effects : List Effect}
    (con : Connected k c secure peer x.cache ven)
    (hval : ∀ txt, createMessage k.lib k.clientNow "oadrPoll" [("ven_id", .str ven)] = .ok txt → ∃ tree, c.validate (String.ofList txt) = .ok tree)
    (hacc : ∀ txt, createMessage k.lib k.serverNow "oadrDistributeEvent" (messageWith (.list (es.map Event.object)) c.vtnId ven c.newId .none) = .ok txt →
      k.accepts (String.ofList txt) = true)
    (hval' : ∀ a txt, (onEventMessage h venClock x.calls x.ven ⟨.str c.vtnId, .str c.newId, es.map (Event.arrived k.lib k.serverNow)⟩).2.2 = some a →
      createMessage k.lib k.clientNow "oadrCreatedEvent" (a.payload (.str ven)) = .ok txt → ∃ tree, c.validate (String.ofList txt) = .ok tree)
    (hint : x.vtn.1.external = false) (hflag : x.vtn.1.flag ven = true) (htake : takeEvents vtnClock x.vtn.1 ven = (s1, some es)) (hne : es ≠ [])
    (hdel : deliverAll env s1.delivery es = (effects, none)) (hes : ∀ e ∈ es, e.Sendable k.lib) (hw : ∀ e ∈ es, e.Whole)
    (hlow : isLowerText c.vtnId = false) (hd : Distinct es) (ht : h.Total) (hq : ∀ e, env.raises e = none) (hun : Unshared x.vtn.1)
    (hrem : Remembered x.ven (es.map (Event.arrived k.lib k.serverNow)))
    (hover : ∀ p ∈ es.zipIdx, asksFor venClock p.1 p.2 = true → p.1.status ≠ .completed) :
    ∃ vs, vs.length = es.length ∧ (∀ p ∈ es.zip vs, Justified h x.ven (p.1.arrived k.lib k.serverNow) p.2) ∧
      (pollRound k c env h vtnClock venClock secure peer (.str ven) x).calls = x.calls ++ dueCalls x.ven (es.map (Event.arrived k.lib k.serverNow)) ∧
      (pollRound k c env h vtnClock venClock secure peer (.str ven) x).vtn.2 = x.vtn.2 ++ effects ++
        ((es.zip vs).zipIdx.filter (fun p => asksFor venClock p.1.1 p.2)).flatMap (fun p => told x.vtn.1 ven p.1.1.id (optText p.1.2)) := by
  have hd' : Distinct (es.map (Event.arrived k.lib k.serverNow)) := List.pairwise_map.mpr hd
  obtain ⟨s', vs, hda, hlen, hj⟩ := decideAll_justified h ht (es.map (Event.arrived k.lib k.serverNow)) x.calls x.ven hd' hrem
  have hres : resultsOf h x.calls x.ven ⟨.str c.vtnId, .str c.newId, es.map (Event.arrived k.lib k.serverNow)⟩ =
      (s', x.calls ++ dueCalls x.ven (es.map (Event.arrived k.lib k.serverNow)), false, fixResults (es.map (Event.arrived k.lib k.serverNow)) vs) := by
    unfold resultsOf; simp [hlow, hda]
  have hlen' : vs.length = es.length := by simpa using hlen
  obtain ⟨h1, -, h2⟩ := round_told con hval hacc hval' hint hflag htake hne hdel hes hw hd hq hun hover hlen' hres
  refine ⟨vs, hlen', fun p hp => ?_, h1, h2⟩
  refine hj (p.1.arrived k.lib k.serverNow, p.2) ?_
  rw [List.zip_map_left, List.mem_map]
  exact ⟨p, hp, rfl⟩

/-- **C87** (partial, as above) for a VEN to which all these events are new: its handler is called once for each of them, in order, and what it decides is what
    the callbacks are told. -/
theorem c87_new_events_partial {k : Link} {c : Config} {env : Env} {h : VenHandlers} {vtnClock venClock : Nat → Int} {x : Sides}
    {secure : Bool} {peer : Option String} {ven : String} {s1 : Server} {es : List Event} {effects : List Effect}
    (con : Connected k c secure peer x.cache ven)
    (hval : ∀ txt, createMessage k.lib k.clientNow "oadrPoll" [("ven_id", .str ven)] = .ok txt → ∃ tree, c.validate (String.ofList txt) = .ok tree)
    (hacc : ∀ txt, createMessage k.lib k.serverNow "oadrDistributeEvent" (messageWith (.list (es.map Event.object)) c.vtnId ven c.newId .none) = .ok txt →
      k.accepts (String.ofList txt) = true)
    (hval' : ∀ a txt, (onEventMessage h venClock x.calls x.ven ⟨.str c.vtnId, .str c.newId, es.map (Event.arrived k.lib k.serverNow)⟩).2.2 = some a →
      createMessage k.lib k.clientNow "oadrCreatedEvent" (a.payload (.str ven)) = .ok txt → ∃ tree, c.validate (String.ofList txt) = .ok tree)
    (hint : x.vtn.1.external = false) (hflag : x.vtn.1.flag ven = true) (htake : takeEvents vtnClock x.vtn.1 ven = (s1, some es)) (hne : es ≠ [])
    (hdel : deliverAll env s1.delivery es = (effects, none)) (hes : ∀ e ∈ es, e.Sendable k.lib) (hw : ∀ e ∈ es, e.Whole)
    (hlow : isLowerText c.vtnId = false) (hd : Distinct es) (ht : h.Total) (hq : ∀ e, env.raises e = none) (hun : Unshared x.vtn.1)
    (hnew : ∀ e ∈ es, ∀ r ∈ x.ven.received, r.id ≠ e.id)
    (hover : ∀ p ∈ es.zipIdx, asksFor venClock p.1 p.2 = true → p.1.status ≠ .completed) :
    (pollRound k c env h vtnClock venClock secure peer (.str ven) x).calls = x.calls ++ es.map (fun e => .onEvent (e.arrived k.lib k.serverNow)) ∧
    ∃ vs, vs.length = es.length ∧ (∀ p ∈ es.zip vs, ∃ calls, h.onEvent calls (p.1.arrived k.lib k.serverNow) = .ok p.2) ∧
      (pollRound k c env h vtnClock venClock secure peer (.str ven) x).vtn.2 = x.vtn.2 ++ effects ++
        ((es.zip vs).zipIdx.filter (fun p => asksFor venClock p.1.1 p.2)).flatMap (fun p => told x.vtn.1 ven p.1.1.id (optText p.1.2)) := by
  have hf : ∀ e ∈ es, x.ven.received.find? (fun r => decide (r.id = (e.arrived k.lib k.serverNow).id)) = none := by
    intro e he
    rw [List.find?_eq_none]
    intro r hr
    rw [arrived_id, decide_eq_true_eq]
    exact hnew e he r hr
  obtain ⟨vs, h1, h2, h3, h4⟩ := c87_decisions_partial con hval hacc hval' hint hflag htake hne hdel hes hw hlow hd ht hq hun (by
    intro e he r hr
    simp only [List.mem_map] at he
    obtain ⟨e', he', rfl⟩ := he
    rw [hf e' he'] at hr
    cases hr) hover
  refine ⟨?_, vs, h1, fun p hp => ?_, h4⟩
  · rw [h3, dueCalls, List.filterMap_map]
    congr 1
    clear hes hw hd hne hover htake hacc hval' h1 h2 h3 h4 hdel hnew
    induction es with
    | nil => rfl
    | cons e es ih =>
      rw [List.filterMap_cons, List.map_cons, ih (fun e he => hf e (by simp [he]))]
      simp only [Function.comp_apply, hf e (by simp)]
  · have := h2 p hp
    rw [Justified, hf p.1 (List.of_mem_zip (show (p.1, p.2) ∈ _ from hp)).1] at this
    exact this

/-- **C87, refuted** for a VTN whose id is in lower case, as in the examples of the documentation: whatever its handlers would decide, the VEN does not ask them,
    and the callbacks are told that it declines. -/
theorem c87_lower_case_violated {k : Link} {c : Config} {env : Env} {h : VenHandlers} {vtnClock venClock : Nat → Int} {x : Sides}
    {secure : Bool} {peer : Option String} {ven : String} {s1 : Server} {es : List Event} {effects : List Effect}
    (con : Connected k c secure peer x.cache ven)
    (hval : ∀ txt, createMessage k.lib k.clientNow "oadrPoll" [("ven_id", .str ven)] = .ok txt → ∃ tree, c.validate (String.ofList txt) = .ok tree)
    (hacc : ∀ txt, createMessage k.lib k.serverNow "oadrDistributeEvent" (messageWith (.list (es.map Event.object)) c.vtnId ven c.newId .none) = .ok txt →
      k.accepts (String.ofList txt) = true)
    (hval' : ∀ a txt, (onEventMessage h venClock x.calls x.ven ⟨.str c.vtnId, .str c.newId, es.map (Event.arrived k.lib k.serverNow)⟩).2.2 = some a →
      createMessage k.lib k.clientNow "oadrCreatedEvent" (a.payload (.str ven)) = .ok txt → ∃ tree, c.validate (String.ofList txt) = .ok tree)
    (hint : x.vtn.1.external = false) (hflag : x.vtn.1.flag ven = true) (htake : takeEvents vtnClock x.vtn.1 ven = (s1, some es)) (hne : es ≠ [])
    (hdel : deliverAll env s1.delivery es = (effects, none)) (hes : ∀ e ∈ es, e.Sendable k.lib) (hw : ∀ e ∈ es, e.Whole)
    (hlow : isLowerText c.vtnId = true) (hd : Distinct es) (hq : ∀ e, env.raises e = none) (hun : Unshared x.vtn.1)
    (hover : ∀ p ∈ es.zipIdx, asksFor venClock p.1 p.2 = true → p.1.status ≠ .completed) :
    (pollRound k c env h vtnClock venClock secure peer (.str ven) x).calls = x.calls ∧
    (pollRound k c env h vtnClock venClock secure peer (.str ven) x).ven = x.ven ∧
    (pollRound k c env h vtnClock venClock secure peer (.str ven) x).vtn.2 = x.vtn.2 ++ effects ++
      (es.zipIdx.filter (fun p => asksFor venClock p.1 p.2)).flatMap (fun p => told x.vtn.1 ven p.1.id "optOut") := by
  have hfix : ∀ l : List Event, fixResults l (l.map (fun _ => .str "optOut")) = l.map (fun _ => .str "optOut") := by
    intro l
    induction l with
    | nil => rfl
    | cons e l ih => simp [fixResults, fixResult, validOpt, ih]
  have hres : resultsOf h x.calls x.ven ⟨.str c.vtnId, .str c.newId, es.map (Event.arrived k.lib k.serverNow)⟩ =
      (x.ven, x.calls, true, fixResults (es.map (Event.arrived k.lib k.serverNow)) (es.map (fun _ => .str "optOut"))) := by
    have := hfix (es.map (Event.arrived k.lib k.serverNow))
    rw [List.map_map] at this
    unfold resultsOf
    simp only [hlow, if_true, List.map_map]
    rw [show (es.map (fun _ => Value.str "optOut")) = es.map ((fun _ => Value.str "optOut") ∘ Event.arrived k.lib k.serverNow) from rfl, this]
  obtain ⟨h1, h2, h3⟩ := round_told con hval hacc hval' hint hflag htake hne hdel hes hw hd hq hun hover (by simp) hres
  refine ⟨h1, h2, h3.trans ?_⟩
  congr 1
  have hz : ∀ (l : List Event) (i : Nat), ((l.zip (l.map (fun _ => Value.str "optOut"))).zipIdx i) = (l.zipIdx i).map (fun p => ((p.1, .str "optOut"), p.2)) := by
    intro l
    induction l with
    | nil => intro i; rfl
    | cons e l ih => intro i; simp [ih]
  rw [hz, List.filter_map, List.flatMap_map]
  rfl

end Openleadr
