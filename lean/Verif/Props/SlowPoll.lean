import Verif.Model.SlowPoll
import Verif.Props.ToldOnce
/-!
C110: what the VTN does while a VEN decides about its events.
-/
namespace Openleadr

/-- A poll with something in between. -/
def PollSetting.slow (p : PollSetting) (h : VenHandlers) (ven : String) (f : Server → Server) (x : Sides) : Sides :=
  let y := pollStart p.k p.c p.env h p.vtnClock p.venClock p.secure p.peer (.str ven) x
  pollFinish p.k p.c p.env p.vtnClock p.secure p.peer (.str ven) y.2 (y.1.meanwhile f)

/-- With nothing in between, both halves are the poll of Model/EventExchange. -/
theorem c110_halves (p : PollSetting) (h : VenHandlers) (ven : String) (x : Sides) : p.slow h ven id x = p.round h ven x := by
  simp only [PollSetting.slow, PollSetting.round, pollRound, pollStart]
  generalize exchange p.k p.c (pollService p.env p.vtnClock) x.cache x.vtn p.secure p.peer "oadrPoll" [("ven_id", .str ven)] = y
  obtain ⟨⟨cache, vtn⟩, r⟩ := y
  by_cases hr : ∃ d, r = .ok (some (some "oadrDistributeEvent", d))
  · obtain ⟨d, rfl⟩ := hr
    simp only
    cases readEventMessage d with
    | none => rfl
    | some m =>
      simp only
      generalize onEventMessage h p.venClock x.calls x.ven m = z
      obtain ⟨s, calls, a⟩ := z
      cases a <;> rfl
  · split
    · rename_i heq
      exact absurd ⟨_, (Prod.mk.inj heq).2⟩ hr
    · rename_i heq
      obtain ⟨h1, -⟩ := Prod.mk.inj heq
      obtain ⟨rfl, rfl⟩ := Prod.mk.inj h1
      split
      · rename_i heq'
        exact absurd ⟨_, (Prod.mk.inj heq').2⟩ hr
      · rename_i heq'
        obtain ⟨h2, -⟩ := Prod.mk.inj heq'
        obtain ⟨rfl, rfl⟩ := Prod.mk.inj h2
        rfl

/-- Whatever is done in between, the VEN decides the same. -/
theorem slow_ven (p : PollSetting) (h : VenHandlers) (ven : String) (f : Server → Server) (x : Sides) :
    (p.slow h ven f x).ven = (p.round h ven x).ven ∧ (p.slow h ven f x).calls = (p.round h ven x).calls := by
  have hfin : ∀ (a : Option CreatedEvent) (y : Sides), (pollFinish p.k p.c p.env p.vtnClock p.secure p.peer (.str ven) a y).ven = y.ven ∧
      (pollFinish p.k p.c p.env p.vtnClock p.secure p.peer (.str ven) a y).calls = y.calls := by
    intro a y
    cases a with
    | none => exact ⟨rfl, rfl⟩
    | some a => exact ⟨rfl, rfl⟩
  rw [← c110_halves]
  simp only [PollSetting.slow, (hfin _ _).1, (hfin _ _).2]
  exact ⟨rfl, rfl⟩

/-! ### Adding and answering -/

/-- openleadr/server.py:306-313: the state after an addition to a queue that there is. -/
def Server.plus (s : Server) (ven : String) (e : Event) (cb : Option Callback) (dl : Option Nat) : Server :=
  { s with events := Dict.set s.events ven (s.queue ven ++ [e]), updated := Dict.set s.updated ven true,
           callbacks := setOpt s.callbacks e.id cb, delivery := setOpt s.delivery e.id dl }

theorem dict_set_set (d : List (String × α)) (k : String) (v w : α) : Dict.set (Dict.set d k v) k w = Dict.set d k w := by
  induction d with
  | nil => simp [Dict.set]
  | cons p d ih =>
    obtain ⟨k', u⟩ := p
    by_cases h : k' = k <;> simp [Dict.set, h, ih]

theorem dict_erase_set (d : List (String × α)) {k k' : String} (v : α) (h : k ≠ k') : Dict.erase (Dict.set d k v) k' = Dict.set (Dict.erase d k') k v := by
  induction d with
  | nil => simp [Dict.set, Dict.erase, h]
  | cons p d ih =>
    obtain ⟨j, u⟩ := p
    by_cases h1 : j = k
    · subst h1
      simp [Dict.set, Dict.erase, h]
    · by_cases h2 : j = k'
      · subst h2
        simp [Dict.set, Dict.erase, h1]
      · simp [Dict.set, Dict.erase, h1, h2, ih]

theorem setOpt_erase (d : List (String × α)) {k k' : String} (v : Option α) (h : k ≠ k') : Dict.erase (setOpt d k v) k' = setOpt (Dict.erase d k') k v := by
  cases v with
  | none => rfl
  | some v => exact dict_erase_set d v h

theorem setOpt_get? {α : Type} (d : List (String × α)) {k k' : String} (v : Option α) (h : k ≠ k') : Dict.get? (setOpt d k v) k' = Dict.get? d k' := by
  cases v with
  | none => rfl
  | some v => exact Dict.get?_set_other _ _ _ _ h.symm

theorem eraseFirst_append {P : α → Bool} {l : List α} {b : α} (h : ∃ a ∈ l, P a = true) : eraseFirst P (l ++ [b]) = eraseFirst P l ++ [b] := by
  induction l with
  | nil => simp at h
  | cons a l ih =>
    simp only [List.cons_append, eraseFirst]
    cases hp : P a with
    | true => simp
    | false =>
      obtain ⟨c, hc, hP⟩ := h
      rcases List.mem_cons.mp hc with rfl | hc
      · rw [hp] at hP; cases hP
      · simp [ih ⟨c, hc, hP⟩]

theorem fireCallback_plus (env : Env) (s : Server) (ven : String) (e : Event) (cb : Option Callback) (dl : Option Nat) (r : EventResponse) (h : e.id ≠ r.eventId) :
    fireCallback env (s.plus ven e cb dl) ven r = ((fireCallback env s ven r).1.plus ven e cb dl, (fireCallback env s ven r).2) ∧
      (fireCallback env s ven r).1.events = s.events := by
  have h1 : Dict.get? (s.plus ven e cb dl).callbacks r.eventId = Dict.get? s.callbacks r.eventId := setOpt_get? _ _ h
  have h2 : Dict.erase (s.plus ven e cb dl).callbacks r.eventId = setOpt (Dict.erase s.callbacks r.eventId) e.id cb := setOpt_erase _ _ h
  unfold fireCallback
  simp only [h1, h2]
  cases Dict.get? s.callbacks r.eventId with
  | none => exact ⟨rfl, rfl⟩
  | some c =>
    cases c with
    | func c b => exact ⟨rfl, rfl⟩
    | future f =>
      have h3 : (s.plus ven e cb dl).doneFutures = s.doneFutures := rfl
      simp only [h3]
      by_cases hf : s.doneFutures.contains f = true
      · simp only [hf, if_true]
        exact ⟨rfl, trivial⟩
      · simp only [hf]
        exact ⟨rfl, rfl⟩

theorem respondOne_plus (env : Env) {s : Server} {ven : String} (e : Event) (cb : Option Callback) (dl : Option Nat) (r : EventResponse) (h : e.id ≠ r.eventId)
    {q : List Event} (hq : Dict.get? s.events ven = some q) :
    respondOne env (s.plus ven e cb dl) ven r = ((respondOne env s ven r).1.plus ven e cb dl, (respondOne env s ven r).2) ∧
      ∃ q', Dict.get? (respondOne env s ven r).1.events ven = some q' := by
  have hqueue : s.queue ven = q := by rw [Server.queue, hq]; rfl
  have h1 : Dict.get? (s.plus ven e cb dl).events ven = some (q ++ [e]) := by rw [Server.plus, hqueue]; exact Dict.get?_set_self _ _ _
  have hno : hasIdAndNumber r e = false := by simp [hasIdAndNumber, h]
  have h2 : (q ++ [e]).find? (hasIdAndNumber r) = q.find? (hasIdAndNumber r) := by
    rw [List.find?_append]
    cases q.find? (hasIdAndNumber r) with
    | none => simp [hno]
    | some a => rfl
  have h3 : (s.plus ven e cb dl).completedOf ven = s.completedOf ven := rfl
  unfold respondOne
  simp only [hq, h1, h2, h3]
  cases hf : q.find? (hasIdAndNumber r) with
  | none =>
    simp only
    split <;> exact ⟨rfl, q, hq⟩
  | some a =>
    simp only
    by_cases hc : a.status = .cancelled
    · simp only [hc, if_true]
      have herase : eraseFirst (hasId r.eventId) (q ++ [e]) = eraseFirst (hasId r.eventId) q ++ [e] := by
        refine eraseFirst_append ⟨a, List.mem_of_find?_eq_some hf, ?_⟩
        have := List.find?_some hf
        simp only [hasIdAndNumber, Bool.and_eq_true] at this
        exact this.1
      have hst : ({ s.plus ven e cb dl with events := Dict.set (s.plus ven e cb dl).events ven (eraseFirst (hasId r.eventId) (q ++ [e])) } : Server) =
          Server.plus { s with events := Dict.set s.events ven (eraseFirst (hasId r.eventId) q) } ven e cb dl := by
        simp only [Server.plus, dict_set_set, herase, Server.queue, Dict.get?_set_self, Option.getD_some]
      rw [hst]
      obtain ⟨g1, g2⟩ := fireCallback_plus env { s with events := Dict.set s.events ven (eraseFirst (hasId r.eventId) q) } ven e cb dl r h
      refine ⟨g1, eraseFirst (hasId r.eventId) q, ?_⟩
      rw [g2]
      exact Dict.get?_set_self _ _ _
    · simp only [hc, if_false]
      obtain ⟨g1, g2⟩ := fireCallback_plus env s ven e cb dl r h
      exact ⟨g1, q, by rw [g2]; exact hq⟩

theorem respondAll_plus (env : Env) {s : Server} {ven : String} (e : Event) (cb : Option Callback) (dl : Option Nat) {rs : List EventResponse}
    (h : ∀ r ∈ rs, e.id ≠ r.eventId) {q : List Event} (hq : Dict.get? s.events ven = some q) :
    respondAll env (s.plus ven e cb dl) ven rs = ((respondAll env s ven rs).1.plus ven e cb dl, (respondAll env s ven rs).2) ∧
      ∃ q', Dict.get? (respondAll env s ven rs).1.events ven = some q' := by
  induction rs generalizing s q with
  | nil => exact ⟨rfl, q, hq⟩
  | cons r rs ih =>
    obtain ⟨h1, q', h2⟩ := respondOne_plus env e cb dl r (h r (by simp)) hq
    simp only [respondAll, h1]
    generalize respondOne env s ven r = y at h2
    obtain ⟨s', eff, o⟩ := y
    cases o with
    | some err => exact ⟨rfl, q', h2⟩
    | none =>
      obtain ⟨g1, g2⟩ := ih (fun r hr => h r (by simp [hr])) h2
      simp only [g1]
      exact ⟨trivial, g2⟩

/-- An addition that is accepted once is accepted in every state, and what it does. -/
theorem addEvent_form {s s' : Server} {a : AddArgs} {id : String} (h : addEvent s a = (s', .ok (some id))) :
    ∃ e, e.id = a.eventId ∧ ∀ t q, t.external = false → Dict.get? t.events a.ven = some q → addEvent t a = (t.plus a.ven e a.callback a.delivery, .ok (some a.eventId)) := by
  simp only [addEvent] at h
  split at h
  · simp at h
  · split at h
    · simp at h
    · rename_i hreq
      split at h
      · simp at h
      · rename_i ht
        split at h
        · simp at h
        · rename_i hs
          cases hp : activePeriodOf (a.intervals.map (fun i => (i.dtstart, i.duration))) with
          | error e => rw [hp] at h; simp at h
          | ok p =>
            rw [hp] at h
            simp only [addRawEvent] at h
            cases hc : callbackOk (makeEvent a p) a.callback with
            | error e => rw [hc] at h; simp at h
            | ok u =>
              rw [hc] at h
              simp only at h
              cases hper : eventPeriod (makeEvent a p).signals with
              | error e => rw [hper] at h; simp at h
              | ok period =>
                refine ⟨withDefaults (makeEvent a p) period, rfl, fun t q hext hq => ?_⟩
                have hens : ensureKey t.events a.ven [] = t.events := by rw [ensureKey, hq]
                simp only [addEvent, hext, Bool.false_eq_true, if_false, if_neg hreq, if_neg ht, if_neg hs, hp, addRawEvent, hc, hper, hens, Server.plus]
                rfl

/-- Answers to other events and an addition can change places. -/
theorem createdEvent_add (env : Env) {s : Server} {a : AddArgs} {id : String} (hadd : (addEvent s a).2 = .ok (some id)) {rs : List EventResponse}
    (h : ∀ r ∈ rs, a.eventId ≠ r.eventId) {q : List Event} (hq : Dict.get? s.events a.ven = some q) (hext : s.external = false) :
    (createdEvent env (addEvent s a).1 a.ven rs).1 = (addEvent (createdEvent env s a.ven rs).1 a).1 ∧
    (createdEvent env (addEvent s a).1 a.ven rs).2 = (createdEvent env s a.ven rs).2 ∧
    (addEvent s a).1.external = false ∧ (∃ q', Dict.get? (addEvent s a).1.events a.ven = some q') := by
  obtain ⟨e, he, hform⟩ := addEvent_form (s := s) (s' := (addEvent s a).1) (a := a) (id := id) (Prod.ext rfl hadd)
  obtain ⟨h1, q', h2⟩ := respondAll_plus env e a.callback a.delivery (by rw [he]; exact h) hq
  have hx := (respondAll_frame env s a.ven rs).2.2.2.1
  have hs := hform s q hext hq
  have hr := hform _ q' (hx.trans hext) h2
  have hext' : (s.plus a.ven e a.callback a.delivery).external = false := hext
  rw [hs]
  refine ⟨?_, ?_, hext, s.queue a.ven ++ [e], Dict.get?_set_self _ _ _⟩
  · rw [createdEvent_state, createdEvent_state, if_neg (by rw [hext']; simp), if_neg (by rw [hext]; simp), hr, h1]
  · simp only [createdEvent, hext, hext', Bool.false_eq_true, if_false, h1]
    generalize respondAll env s a.ven rs = y
    obtain ⟨s', eff, o⟩ := y
    cases o <;> rfl

theorem createdEvent_addEvents (env : Env) {ven : String} (l : List AddArgs) {s : Server} {rs : List EventResponse}
    (hl : ∀ a ∈ l, a.ven = ven ∧ (∃ t id, t.external = false ∧ (addEvent t a).2 = .ok (some id)) ∧ ∀ r ∈ rs, a.eventId ≠ r.eventId)
    {q : List Event} (hq : Dict.get? s.events ven = some q) (hext : s.external = false) :
    (createdEvent env (addEvents s l) ven rs).1 = addEvents (createdEvent env s ven rs).1 l ∧
    (createdEvent env (addEvents s l) ven rs).2 = (createdEvent env s ven rs).2 ∧ (addEvents s l).external = false := by
  induction l generalizing s q with
  | nil => exact ⟨rfl, rfl, hext⟩
  | cons a l ih =>
    obtain ⟨rfl, ⟨t, id, -, ht⟩, hr⟩ := hl a (by simp)
    obtain ⟨e, he, hform⟩ := addEvent_form (s := t) (s' := (addEvent t a).1) (a := a) (id := id) (Prod.ext rfl ht)
    obtain ⟨h1, h2, h3, q', h4⟩ := createdEvent_add env (s := s) (a := a) (by rw [hform s q hext hq]) hr hq hext
    obtain ⟨g1, g2, g3⟩ := ih (s := (addEvent s a).1) (fun b hb => hl b (by simp [hb])) h4 h3
    refine ⟨?_, g2.trans h2, g3⟩
    show (createdEvent env (addEvents (addEvent s a).1 l) a.ven rs).1 = addEvents (addEvent (createdEvent env s a.ven rs).1 a).1 l
    rw [g1, h1]

/-! ### The halves -/

theorem taken_queue {clock : Nat → Int} {s s1 : Server} {ven : String} {es : List Event} (h : takeEvents clock s ven = (s1, some es)) :
    ∃ q, Dict.get? s1.events ven = some q := by
  unfold takeEvents at h
  split at h
  · simp at h
  · simp at h
  · simp only at h
    split at h <;> simp only [Prod.mk.injEq] at h <;> obtain ⟨rfl, -⟩ := h <;> exact ⟨_, Dict.get?_set_self _ _ _⟩

theorem slow_none {p : PollSetting} {h : VenHandlers} {ven : String} {f : Server → Server} {x : Sides}
    (hn : (pollStart p.k p.c p.env h p.vtnClock p.venClock p.secure p.peer (.str ven) x).2 = none) :
    p.slow h ven f x = (p.round h ven x).meanwhile f := by
  rw [← c110_halves]
  simp only [PollSetting.slow, hn, pollFinish]
  rfl

theorem start_nothing {p : PollSetting} {lib : Lib} {h : VenHandlers} {ven : String} {x : Sides} (hx : Ready lib ven x) (hp : p.Fine lib ven x)
    (hflag : x.vtn.1.flag ven = false) : (pollStart p.k p.c p.env h p.vtnClock p.venClock p.secure p.peer (.str ven) x).2 = none := by
  have con := hp.con
  have he := poll_nothing (env := p.env) (vtnClock := p.vtnClock) (st := x.vtn) con.sound (wired_text con.venId (by decide +kernel)) (wired_text con.venId (by decide +kernel))
    (con.letsIn.known _ _ (by simp [Dict.get?])) (fun txt tree hv => con.letsIn.authentic txt tree _ hv (by simp [Dict.get?])) (fun txt => hp.asked _ _ txt)
    (fun q txt => hp.taken _ q txt) (by simp [pollHandler, venKey, Dict.get?, poll, hx.internal, hflag, served, Reply.returned])
  rw [pollStart, he]
  split
  · rename_i hc
    simp only [Prod.mk.injEq, Except.ok.injEq, Option.some.injEq] at hc
    exact absurd hc.2.1 (by decide)
  · rfl

/-- The first half of a poll when there is something new. -/
theorem start_done {p : PollSetting} {lib : Lib} {h : VenHandlers} {ven : String} {x : Sides} (hx : Ready lib ven x) (hp : p.Fine lib ven x)
    (hflag : x.vtn.1.flag ven = true) {s1 : Server} {es : List Event} (htake : takeEvents p.vtnClock x.vtn.1 ven = (s1, some es)) :
    (∀ e ∈ es, e.Sendable p.k.lib ∧ e.Whole) ∧
    (es = [] → (pollStart p.k p.c p.env h p.vtnClock p.venClock p.secure p.peer (.str ven) x).2 = none) ∧
    (es ≠ [] → pollStart p.k p.c p.env h p.vtnClock p.venClock p.secure p.peer (.str ven) x =
      (⟨x.cache, ({ s1 with updated := Dict.set s1.updated ven false }, x.vtn.2 ++ (deliverAll p.env s1.delivery es).1),
          (onEventMessage h p.venClock x.calls x.ven ⟨.str p.c.vtnId, .str p.c.newId, es.map (Event.arrived p.k.lib p.k.serverNow)⟩).1,
          (onEventMessage h p.venClock x.calls x.ven ⟨.str p.c.vtnId, .str p.c.newId, es.map (Event.arrived p.k.lib p.k.serverNow)⟩).2.1⟩,
        (onEventMessage h p.venClock x.calls x.ven ⟨.str p.c.vtnId, .str p.c.newId, es.map (Event.arrived p.k.lib p.k.serverNow)⟩).2.2)) := by
  obtain ⟨rfl, con, hval, hacc, hlow, hq, hclock, hagree, hlive⟩ := hp
  have hes : ∀ e ∈ es, e.Sendable p.k.lib ∧ e.Whole := by
    intro e he
    obtain ⟨a, ha, j, rfl⟩ := handed_from htake he
    exact refresh_sendable (hclock _) (hx.good a ha)
  have hdel : deliverAll p.env s1.delivery es = ((deliverAll p.env s1.delivery es).1, none) := Prod.ext rfl (deliverAll_quiet _ hq _ _)
  have hpoll := poll_distributes (log := x.vtn.2) con.sound con.venId con.vtnId con.newId con.now con.zero con.letsIn (fun txt => hval _ _ txt)
    (fun txt => hacc _ _ txt) hx.internal hflag htake hdel (fun e he => (hes e he).1)
  refine ⟨hes, ?_, ?_⟩
  · rintro rfl
    rw [pollStart, show x.vtn = (x.vtn.1, x.vtn.2) from rfl, hpoll]
    have : readEventMessage (receivedWith (([] : List Event).map (fun e => eventP p.k.lib (e.prepared p.k.serverNow))) p.c.vtnId p.c.newId none) = none := by
      simp [readEventMessage, receivedWith, Dict.get?, Dict.get?_entry?, dicts?]
    simp only [this]
  · intro hne
    have h2 := read_message (now := p.k.serverNow) (vtn := p.c.vtnId) (id := p.c.newId) (rid := none) hne (fun e he => (hes e he).1) (fun e he => (hes e he).2)
    rw [pollStart, show x.vtn = (x.vtn.1, x.vtn.2) from rfl, hpoll]
    simp only [h2]

/-- A poll when there is something new, and something is done in between. -/
theorem slow_done {p : PollSetting} {lib : Lib} {h : VenHandlers} {ven : String} {x : Sides} {f : Server → Server} (hx : Ready lib ven x) (hp : p.Fine lib ven x)
    (hflag : x.vtn.1.flag ven = true) {s1 : Server} {es : List Event} (htake : takeEvents p.vtnClock x.vtn.1 ven = (s1, some es)) (hne : es ≠ [])
    (hf : (f { s1 with updated := Dict.set s1.updated ven false }).external = false) :
    let asked := onEventMessage h p.venClock x.calls x.ven ⟨.str p.c.vtnId, .str p.c.newId, es.map (Event.arrived p.k.lib p.k.serverNow)⟩
    let told := createdEvent p.env (f { s1 with updated := Dict.set s1.updated ven false }) ven ((entriesOf asked.2.2).map VenResponse.handled)
    p.slow h ven f x = ⟨x.cache, (told.1, x.vtn.2 ++ (deliverAll p.env s1.delivery es).1 ++ told.2.1), asked.1, asked.2.1⟩ := by
  intro asked told
  obtain ⟨hes, -, hstart⟩ := start_done (h := h) hx hp hflag htake
  have hstart := hstart hne
  have con := hp.con
  show pollFinish p.k p.c p.env p.vtnClock p.secure p.peer (.str ven) (pollStart p.k p.c p.env h p.vtnClock p.venClock p.secure p.peer (.str ven) x).2
    ((pollStart p.k p.c p.env h p.vtnClock p.venClock p.secure p.peer (.str ven) x).1.meanwhile f) = _
  rw [hstart]
  cases ha : asked.2.2 with
  | none =>
    have htold : told = (f { s1 with updated := Dict.set s1.updated ven false }, [], .ok .response) := by
      show createdEvent p.env (f { s1 with updated := Dict.set s1.updated ven false }) ven _ = _
      simp [ha, entriesOf, createdEvent, hf, respondAll]
    rw [htold]
    simp only [pollFinish, Sides.meanwhile, List.append_nil]
    rfl
  | some a =>
    have hasked : asked = (asked.1, asked.2.1, some a) := by rw [← ha]
    have hsend : a.Sendable p.k.lib := by
      refine answers_sendable h p.venClock x.calls x.ven _ rfl con.newId (fun e he => ?_) hasked
      simp only [List.mem_map] at he
      obtain ⟨e', he', rfl⟩ := he
      rw [arrived_id]; exact (hes e' he').1.wired.id
    have h3 := answers_handled (env := p.env) (vtnClock := p.vtnClock) (s := f { s1 with updated := Dict.set s1.updated ven false })
      (log := x.vtn.2 ++ (deliverAll p.env s1.delivery es).1) con.sound con.venId hsend con.letsIn (fun txt => hp.asked _ _ txt)
    have htold : told = createdEvent p.env (f { s1 with updated := Dict.set s1.updated ven false }) ven (a.responses.map VenResponse.handled) := by
      show createdEvent p.env (f { s1 with updated := Dict.set s1.updated ven false }) ven _ = _
      simp only [ha, entriesOf]
    simp only [pollFinish, Sides.meanwhile]
    generalize exchange p.k p.c (eventService p.env p.vtnClock) x.cache (f { s1 with updated := Dict.set s1.updated ven false }, x.vtn.2 ++ (deliverAll p.env s1.delivery es).1) p.secure p.peer
      "oadrCreatedEvent" (a.payload (.str ven)) = y at h3
    obtain ⟨⟨c', v'⟩, r⟩ := y
    simp only [Prod.mk.injEq] at h3
    obtain ⟨rfl, rfl⟩ := h3
    rw [htold]

theorem responsesFor_from {clock : Nat → Int} {q : Value} {es : List Event} {vs : List Value} {i : Nat} {r : VenResponse} (h : r ∈ responsesFor clock q i es vs) :
    ∃ e ∈ es, e.id = r.eventId := by
  induction es generalizing vs i with
  | nil => simp [responsesFor] at h
  | cons e es ih =>
    cases vs with
    | nil => simp [responsesFor] at h
    | cons v vs =>
      simp only [responsesFor] at h
      split at h
      · rcases List.mem_cons.mp h with rfl | h
        · exact ⟨e, by simp, rfl⟩
        · obtain ⟨a, h1, h2⟩ := ih h
          exact ⟨a, by simp [h1], h2⟩
      · obtain ⟨a, h1, h2⟩ := ih h
        exact ⟨a, by simp [h1], h2⟩

/-! ### Events that are added -/

/-- **C110** (partial: events that are added; for cancellations see below): if events are added for a VEN while it decides, the poll ends in exactly the state in which
    it would have ended if they had been added after it, on both sides. Its answers are taken as usual, and the next poll brings what was added. -/
theorem c110_added_partial {p : PollSetting} {lib : Lib} {h : VenHandlers} {ven : String} {x : Sides} (hx : Ready lib ven x) (hp : p.Fine lib ven x) (l : List AddArgs)
    (hl : ∀ a ∈ l, a.ven = ven ∧ (∃ t id, t.external = false ∧ (addEvent t a).2 = .ok (some id)) ∧ ∀ e ∈ x.vtn.1.queue ven, e.id ≠ a.eventId) :
    p.slow h ven (fun s => addEvents s l) x = (p.round h ven x).meanwhile (fun s => addEvents s l) := by
  cases hflag : x.vtn.1.flag ven with
  | false => exact slow_none (start_nothing hx hp hflag)
  | true =>
    obtain ⟨s1, es, htake⟩ : ∃ s1 es, takeEvents p.vtnClock x.vtn.1 ven = (s1, some es) := by
      have := (takeEvents_spec p.vtnClock x.vtn.1 ven).2.1
      rw [if_neg (hx.news hflag)] at this
      exact ⟨_, _, Prod.ext rfl this⟩
    by_cases hne : es = []
    · exact slow_none ((start_done hx hp hflag htake).2.1 hne)
    · have f1 : s1.external = false := by
        have := (takeEvents_frame p.vtnClock x.vtn.1 ven).1
        rw [htake] at this
        exact this.trans hx.internal
      obtain ⟨q, hq⟩ := taken_queue htake
      have hadds : ∀ rs : List EventResponse, (∀ r ∈ rs, ∃ e ∈ es, e.id = r.eventId) →
          (createdEvent p.env (addEvents { s1 with updated := Dict.set s1.updated ven false } l) ven rs).1 =
            addEvents (createdEvent p.env { s1 with updated := Dict.set s1.updated ven false } ven rs).1 l ∧
          (createdEvent p.env (addEvents { s1 with updated := Dict.set s1.updated ven false } l) ven rs).2 =
            (createdEvent p.env { s1 with updated := Dict.set s1.updated ven false } ven rs).2 ∧
          (addEvents { s1 with updated := Dict.set s1.updated ven false } l).external = false := by
        intro rs hrs
        refine createdEvent_addEvents p.env l (fun a ha => ?_) (q := q) hq f1
        obtain ⟨h1, h2, h3⟩ := hl a ha
        refine ⟨h1, h2, fun r hr => ?_⟩
        obtain ⟨e, he, hei⟩ := hrs r hr
        obtain ⟨b, hb, j, rfl⟩ := handed_from htake he
        rw [(refresh_members ..).2.2.1] at hei
        rw [← hei]
        exact (h3 b hb).symm
      rw [← c110_halves, slow_done (f := id) hx hp hflag htake hne f1, slow_done (f := fun s => addEvents s l) hx hp hflag htake hne (hadds [] (by simp)).2.2]
      generalize hask : onEventMessage h p.venClock x.calls x.ven ⟨.str p.c.vtnId, .str p.c.newId, es.map (Event.arrived p.k.lib p.k.serverNow)⟩ = asked
      have hent := entries_onEventMessage h p.venClock x.calls x.ven ⟨.str p.c.vtnId, .str p.c.newId, es.map (Event.arrived p.k.lib p.k.serverNow)⟩
      rw [hask] at hent
      obtain ⟨g1, g2, -⟩ := hadds ((entriesOf asked.2.2).map VenResponse.handled) (by
        intro r hr
        obtain ⟨r', hr', rfl⟩ := List.mem_map.mp hr
        rw [hent] at hr'
        obtain ⟨e', he', hei⟩ := responsesFor_from hr'
        obtain ⟨e, he, rfl⟩ := List.mem_map.mp he'
        exact ⟨e, he, hei⟩)
      simp only [Sides.meanwhile, id_eq, g1, g2]

/-- So the histories of C91 go on: what C91 says of them (every version is told once, in order, and a poll brings what is new) also holds with events that are added while
    the VEN decides. -/
theorem c110_history_partial {p : PollSetting} {lib : Lib} {h : VenHandlers} (ht : h.Total) {ven : String} {x : Sides} (hx : Lived lib h ven x) (hp : p.Fine lib ven x)
    {a : AddArgs} {t t' : Server} {id : String} (hadd : addEvent t a = (t', .ok (some id))) (hven : a.ven = ven) (good : a.Good lib)
    (hreq : a.responseRequired = "always") (hq : ∀ e ∈ x.vtn.1.queue ven, e.id ≠ a.eventId) (hc : ∀ c ∈ x.calls, c.event.id ≠ a.eventId) :
    Lived lib h ven (p.slow h ven (fun s => addEvents s [a]) x) := by
  have hi := lived_inStep ht hx
  have hext : t.external = false := by
    cases he : t.external with
    | false => rfl
    | true => simp [addEvent, he] at hadd
  rw [c110_added_partial hi.ready hp [a] (by
    intro b hb
    rw [List.mem_singleton] at hb
    subst hb
    exact ⟨hven, ⟨t, id, hext, by rw [hadd]⟩, hq⟩)]
  have hr := lived_inStep ht (Lived.poll p hx hp)
  have hboth : (∀ e ∈ (p.round h ven x).vtn.1.queue ven, e.id ≠ a.eventId) ∧ (∀ c ∈ (p.round h ven x).calls, c.event.id ≠ a.eventId) := by
    cases hflag : x.vtn.1.flag ven with
    | false =>
      have : p.round h ven x = x := c87_nothing_new hp.con (fun txt => hp.asked _ _ txt) (fun q txt => hp.taken _ q txt) hi.internal hflag
      rw [this]; exact ⟨hq, hc⟩
    | true =>
      obtain ⟨es, d⟩ := round_delivers ht hi.ready hp hflag
      obtain ⟨s1, htake⟩ := d.handed
      have hes : ∀ e ∈ es, e.id ≠ a.eventId := by
        intro e he
        obtain ⟨b, hb, j, rfl⟩ := handed_from htake he
        rw [(refresh_members ..).2.2.1]
        exact hq b hb
      refine ⟨fun e he => hes e (d.left e he).1, fun c hcm => ?_⟩
      rw [d.calls, List.mem_append] at hcm
      rcases hcm with hcm | hcm
      · exact hc c hcm
      · obtain ⟨e, he, -, hv⟩ := mem_due.mp (List.mem_map.mpr ⟨c, hcm, rfl⟩ :
          (c.event.id, c.event.modnum) ∈ versions (dueCalls x.ven (es.map (Event.arrived p.k.lib p.k.serverNow))))
        rw [← (Prod.mk.inj hv).1]
        exact hes e he
  obtain ⟨s2, hs2⟩ : ∃ s2, addEvent (p.round h ven x).vtn.1 a = (s2, .ok (some a.eventId)) := by
    simp only [addEvent, hext, Bool.false_eq_true, if_false] at hadd
    simp only [addEvent, hr.internal, Bool.false_eq_true, if_false]
    split at hadd
    · simp at hadd
    · rename_i h1
      rw [if_neg h1]
      split at hadd
      · simp at hadd
      · rename_i h2
        rw [if_neg h2]
        split at hadd
        · simp at hadd
        · rename_i h3
          rw [if_neg h3]
          cases hper : activePeriodOf (a.intervals.map (fun i => (i.dtstart, i.duration))) with
          | error e => rw [hper] at hadd; simp at hadd
          | ok period =>
            rw [hper] at hadd
            simp only [addRawEvent] at hadd ⊢
            cases hcb : callbackOk (makeEvent a period) a.callback with
            | error e => rw [hcb] at hadd; simp at hadd
            | ok u =>
              rw [hcb] at hadd
              simp only at hadd ⊢
              cases hep : eventPeriod (makeEvent a period).signals with
              | error e => rw [hep] at hadd; simp at hadd
              | ok q => exact ⟨_, rfl⟩
  have := Lived.add (Lived.poll p hx hp) hs2 hven good hreq hboth.1 hboth.2
  have heq : (p.round h ven x).meanwhile (fun s => addEvents s [a]) = { p.round h ven x with vtn := (s2, (p.round h ven x).vtn.2) } := by
    simp only [Sides.meanwhile, addEvents, List.foldl_cons, List.foldl_nil, hs2]
  rw [heq]
  exact this

/-! ### Events that are cancelled -/

/-- The answers to the events of a message, cut at one that is answered. -/
theorem responsesFor_split {clock : Nat → Int} {q : Value} {before after : List Event} {a : Event} {vs : List Value} {i : Nat}
    (hl : vs.length = (before ++ a :: after).length)
    (ha : a.responseRequired = some "always" ∧ determineStatus (clock (i + before.length)) a.activePeriod ≠ .completed) :
    ∃ r1 r r2, responsesFor clock q i (before ++ a :: after) vs = r1 ++ r :: r2 ∧ (∀ r' ∈ r1, ∃ e ∈ before, e.id = r'.eventId) ∧ r.eventId = a.id ∧ r.modnum = a.modnum := by
  induction before generalizing vs i with
  | nil =>
    cases vs with
    | nil => simp at hl
    | cons v vs =>
      simp only [List.length_nil, Nat.add_zero] at ha
      simp only [List.nil_append, responsesFor]
      rw [if_pos ha]
      exact ⟨[], _, _, rfl, by simp, rfl, rfl⟩
  | cons e before ih =>
    cases vs with
    | nil => simp at hl
    | cons v vs =>
      obtain ⟨r1, r, r2, h1, h2, h3, h4⟩ := ih (vs := vs) (i := i + 1) (by simpa using hl) (by
        rw [List.length_cons] at ha
        rw [show i + 1 + before.length = i + (before.length + 1) by omega]
        exact ha)
      simp only [List.cons_append, responsesFor, h1]
      have hr1 : ∀ r' ∈ r1, ∃ b ∈ e :: before, b.id = r'.eventId := by
        intro r' hr'
        obtain ⟨b, hb, hbi⟩ := h2 r' hr'
        exact ⟨b, by simp [hb], hbi⟩
      split
      · refine ⟨_ :: r1, r, r2, rfl, ?_, h3, h4⟩
        intro r' hr'
        rcases List.mem_cons.mp hr' with rfl | hr'
        · exact ⟨e, by simp, rfl⟩
        · exact hr1 r' hr'
      · exact ⟨r1, r, r2, rfl, hr1, h3, h4⟩

theorem respondOne_about {env : Env} {s : Server} {ven : String} {r : EventResponse} {c : Nat} {v i o : String}
    (h : Effect.responded c v i o ∈ (respondOne env s ven r).2.1) : i = r.eventId := by
  have fire : ∀ t : Server, Effect.responded c v i o ∈ (fireCallback env t ven r).2.1 → i = r.eventId := by
    intro t ht
    unfold fireCallback at ht
    split at ht
    · simp at ht
    · simp only at ht
      split at ht <;> simp at ht
    · simp at ht
      exact ht.2.2.1
  unfold respondOne at h
  split at h
  · simp at h
  · split at h
    · split at h <;> simp at h
    · exact fire _ h

/-- Answers to a message of which one names a version that the VTN does not have any more: that one is refused, and nothing is done for it and for those behind it. -/
theorem respondAll_stale (env : Env) {ven : String} {rs1 rs2 : List EventResponse} {r : EventResponse} {s : Server}
    (hst : ∀ e ∈ s.queue ven, hasIdAndNumber r e = false) :
    (∀ b ∈ s.queue ven, (∀ r' ∈ rs1, r'.eventId ≠ b.id) → b ∈ (respondAll env s ven (rs1 ++ r :: rs2)).1.queue ven) ∧
    ∀ c v i o, Effect.responded c v i o ∈ (respondAll env s ven (rs1 ++ r :: rs2)).2.1 → ∃ r' ∈ rs1, r'.eventId = i := by
  induction rs1 generalizing s with
  | nil =>
    have hone : (respondOne env s ven r).1 = s ∧ (respondOne env s ven r).2.1 = [] ∧ (respondOne env s ven r).2.2 ≠ none := by
      unfold respondOne
      cases hq : Dict.get? s.events ven with
      | none => exact ⟨rfl, rfl, by simp⟩
      | some q =>
        have hn : q.find? (hasIdAndNumber r) = none := by
          rw [List.find?_eq_none]
          intro e he
          rw [hst e (by rw [Server.queue, hq]; exact he)]
          simp
        simp only [hn]
        split <;> exact ⟨rfl, rfl, by simp⟩
    simp only [List.nil_append, respondAll]
    generalize respondOne env s ven r = y at hone
    obtain ⟨s', eff, o⟩ := y
    obtain ⟨rfl, rfl, h3⟩ := hone
    cases o with
    | none => exact absurd rfl h3
    | some err => exact ⟨fun b hb _ => hb, by simp⟩
  | cons r' rs1 ih =>
    have hsub := respondOne_sub env s ven ven r'
    have hmem := fun b hb hne => respondOne_mem env s ven r' b hb hne
    have habout := fun c v i o => respondOne_about (env := env) (s := s) (ven := ven) (r := r') (c := c) (v := v) (i := i) (o := o)
    simp only [List.cons_append, respondAll]
    generalize respondOne env s ven r' = y at hsub hmem habout
    obtain ⟨s', eff, o⟩ := y
    cases o with
    | some err =>
      refine ⟨fun b hb hne => hmem b hb (fun hc => hne r' (by simp) hc.1), fun c v i o' h => ⟨r', by simp, ?_⟩⟩
      exact (habout c v i o' h).symm
    | none =>
      obtain ⟨g1, g2⟩ := ih (s := s') (fun e he => hst e (hsub e he))
      refine ⟨fun b hb hne => g1 b (hmem b hb (fun hc => hne r' (by simp) hc.1)) (fun r'' hr'' => hne r'' (by simp [hr''])), fun c v i o' h => ?_⟩
      rcases List.mem_append.mp h with h | h
      · exact ⟨r', by simp, (habout c v i o' h).symm⟩
      · obtain ⟨r'', h1, h2⟩ := g2 c v i o' h
        exact ⟨r'', by simp [h1], h2⟩

/-- The VEN asks its handlers about an event that was handed out exactly if the VTN says that it is not over. -/
theorem asked_iff {p : PollSetting} {lib : Lib} {ven : String} {x : Sides} (hp : p.Fine lib ven x) {s1 : Server} {es : List Event}
    (htake : takeEvents p.vtnClock x.vtn.1 ven = (s1, some es)) {e : Event} (he : e ∈ es) (i : Nat) :
    ((e.arrived p.k.lib p.k.serverNow).responseRequired = some "always" ∧ determineStatus (p.venClock i) (e.arrived p.k.lib p.k.serverNow).activePeriod ≠ .completed) ↔
      e.answered := by
  have hc : ((e.arrived p.k.lib p.k.serverNow).responseRequired = some "always" ∧ determineStatus (p.venClock i) (e.arrived p.k.lib p.k.serverNow).activePeriod ≠ .completed) ↔
      asksFor p.venClock e i = true := by
    rw [not_completed_iff, asksFor, decide_eq_true_iff]
    exact Iff.rfl
  rw [hc]
  obtain ⟨a, ha, j, rfl⟩ := handed_from htake he
  have hdur := refresh_duration (p.vtnClock j) (p.vtnClock (j + 1)) a
  have hper := (refresh_members (p.vtnClock j) (p.vtnClock (j + 1)) a).2.1
  rw [asksFor, decide_eq_true_eq, hdur, hper, Event.answered, refresh_status]
  refine and_congr_right (fun _ => ?_)
  by_cases hs : a.status = .cancelled
  · rw [if_pos hs]
    simpa [Event.overThere] using hp.live a ha i hs
  · rw [if_neg hs, not_over_iff, hp.agree a ha j i hs]
    simp [Event.overThere]

/-- **C110, refuted** for an event that is cancelled while the VEN decides: its answer names a version that the VTN does not have any more, so the VTN refuses the
    message there. The decisions about this event and about all the events behind it are told to nobody; and a confirmation of another cancellation behind it is lost, so
    that the VTN keeps that event, while the VEN has forgotten its decision about it. The next poll then reaches the handlers only as far as that event
    (`c110_unheard_violated`). -/
theorem c110_cancelled_violated {p : PollSetting} {lib : Lib} {h : VenHandlers} (ht : h.Total) {ven : String} {x : Sides} (hx : Ready lib ven x) (hp : p.Fine lib ven x)
    (hflag : x.vtn.1.flag ven = true) {s1 : Server} {before after : List Event} {a : Event}
    (htake : takeEvents p.vtnClock x.vtn.1 ven = (s1, some (before ++ a :: after))) (ha : a.answered) :
    let y := p.slow h ven (fun s => cancelEvent s ven a.id) x
    y.vtn.1.flag ven = true ∧ cancelled a ∈ y.vtn.1.queue ven ∧
      (∀ e ∈ a :: after, toldAbout ven e.id y.vtn.2 = toldAbout ven e.id x.vtn.2) ∧
      ∀ b ∈ after, b.status = .cancelled → b ∈ y.vtn.1.queue ven ∧
        ((Dict.keys x.ven.responded).Nodup → Dict.has x.ven.responded b.id = true → Forgotten y.ven b) := by
  intro y
  obtain ⟨hd, hd1⟩ := handed_distinct htake hx.distinct
  have f1 : s1.external = false := by
    have := (takeEvents_frame p.vtnClock x.vtn.1 ven).1
    rw [htake] at this
    exact this.trans hx.internal
  have hkeep : ∀ e ∈ before ++ a :: after, e.status ≠ .completed → e ∈ s1.queue ven := fun e he hc => handed_kept htake he hc
  have hq1 : a ∈ s1.queue ven := hkeep a (by simp) ha.2
  obtain ⟨s3, hs3⟩ : ∃ s3, s3 = cancelEvent { s1 with updated := Dict.set s1.updated ven false } ven a.id := ⟨_, rfl⟩
  have hcan := (cancelEvent_cases { s1 with updated := Dict.set s1.updated ven false } ven a.id).resolve_left (fun g => g.2 a hq1 rfl)
  have hform := hcan.2
  rw [← hs3] at hform
  have hqueue : s3.queue ven = updateFirst (hasId a.id) cancelled (s1.queue ven) := by
    rw [hform]; simp [Server.queue, Dict.get?_set_self]
  have hflag3 : s3.flag ven = true := by rw [hform]; simp [Server.flag, Dict.get?_set_self]
  have hext3 : s3.external = false := by rw [hform]; exact f1
  have hd3 : Distinct (s3.queue ven) := by rw [hqueue]; exact distinct_ids (updated_ids _ _) hd1
  have hca : cancelled a ∈ s3.queue ven := by
    rw [hqueue]
    obtain ⟨a', h1, h2, h3⟩ := updated_first hq1 rfl
    rwa [same_of_ids hd1 h1 hq1 h2] at h3
  have hstale : ∀ e ∈ s3.queue ven, ∀ r : EventResponse, r.eventId = a.id → r.modificationNumber = a.modnum → hasIdAndNumber r e = false := by
    intro e he r h1 h2
    by_cases hi : e.id = a.id
    · have : e = cancelled a := same_of_ids hd3 he hca hi
      have hm : e.modnum = a.modnum + 1 := by rw [this]; rfl
      have : ¬ (e.modnum = a.modnum) := by omega
      simp [hasIdAndNumber, h1, h2, hi, this]
    · simp [hasIdAndNumber, h1, hi]
  have hother : ∀ b ∈ after, b.status ≠ .completed → b ∈ s3.queue ven := by
    intro b hb hc
    rw [hqueue]
    have hne : b.id ≠ a.id := ((List.pairwise_cons.mp (List.pairwise_append.mp hd).2.1).1 b hb).symm
    have hbq := hkeep b (by simp [hb]) hc
    generalize s1.queue ven = l at hbq
    induction l with
    | nil => simp at hbq
    | cons e l ih =>
      simp only [updateFirst]
      rcases List.mem_cons.mp hbq with rfl | hbq
      · rw [if_neg (by simpa [hasId] using hne)]
        simp
      · split
        · simp [hbq]
        · simp [ih hbq]
  have hslow := slow_done (h := h) (f := fun s => cancelEvent s ven a.id) hx hp hflag htake (by simp) (by rw [← hs3]; exact hext3)
  simp only [← hs3] at hslow
  generalize hask : onEventMessage h p.venClock x.calls x.ven ⟨.str p.c.vtnId, .str p.c.newId, (before ++ a :: after).map (Event.arrived p.k.lib p.k.serverNow)⟩ = asked at hslow
  have hent := entries_onEventMessage h p.venClock x.calls x.ven ⟨.str p.c.vtnId, .str p.c.newId, (before ++ a :: after).map (Event.arrived p.k.lib p.k.serverNow)⟩
  rw [hask] at hent
  have hlen := resultsOf_length h x.calls x.ven ⟨.str p.c.vtnId, .str p.c.newId, (before ++ a :: after).map (Event.arrived p.k.lib p.k.serverNow)⟩
  simp only [List.map_append, List.map_cons] at hent hlen
  obtain ⟨r1, r, r2, hsplit, hr1, hr, hrm⟩ := responsesFor_split (clock := p.venClock) (q := .str p.c.newId) (i := 0) hlen
    ((asked_iff hp htake (e := a) (by simp) _).mpr ha)
  rw [hsplit] at hent
  have hrs : (entriesOf asked.2.2).map VenResponse.handled = r1.map VenResponse.handled ++ r.handled :: r2.map VenResponse.handled := by
    rw [hent, List.map_append, List.map_cons]
  rw [hrs] at hslow
  obtain ⟨g1, g2⟩ := respondAll_stale p.env (ven := ven) (rs1 := r1.map VenResponse.handled) (rs2 := r2.map VenResponse.handled) (r := r.handled) (s := s3)
    (fun e he => hstale e he _ hr hrm)
  have hids : ∀ r' ∈ r1.map VenResponse.handled, ∃ e ∈ before, e.id = r'.eventId := by
    intro r' hr'
    obtain ⟨r0, h0, rfl⟩ := List.mem_map.mp hr'
    obtain ⟨e', he', hei⟩ := hr1 r0 h0
    obtain ⟨e, he, rfl⟩ := List.mem_map.mp he'
    exact ⟨e, he, hei⟩
  have happ : ∀ e ∈ a :: after, ∀ r' ∈ r1.map VenResponse.handled, r'.eventId ≠ e.id := by
    intro e he r' hr'
    obtain ⟨b, hb, hbi⟩ := hids r' hr'
    rw [← hbi]
    exact (List.pairwise_append.mp hd).2.2 b hb e he
  have hstate : y.vtn.1 = (respondAll p.env s3 ven (r1.map VenResponse.handled ++ r.handled :: r2.map VenResponse.handled)).1 := by
    show (p.slow h ven (fun s => cancelEvent s ven a.id) x).vtn.1 = _
    rw [hslow]
    simp only
    rw [createdEvent_state, if_neg (by rw [hext3]; simp)]
  have hlog : y.vtn.2 = x.vtn.2 ++ (deliverAll p.env s1.delivery (before ++ a :: after)).1 ++
      (respondAll p.env s3 ven (r1.map VenResponse.handled ++ r.handled :: r2.map VenResponse.handled)).2.1 := by
    show (p.slow h ven (fun s => cancelEvent s ven a.id) x).vtn.2 = _
    rw [hslow]
    simp only [createdEvent, hext3, Bool.false_eq_true, if_false]
    generalize respondAll p.env s3 ven (r1.map VenResponse.handled ++ r.handled :: r2.map VenResponse.handled) = z
    obtain ⟨z1, z2, z3⟩ := z
    cases z3 <;> rfl
  refine ⟨?_, ?_, ?_, fun b hb hbc => ⟨?_, fun hn hh => ?_⟩⟩
  · rw [hstate, Server.flag, (respondAll_frame ..).1]
    exact hflag3
  · rw [hstate]
    exact g1 _ hca (fun r' hr' => happ a (by simp) r' hr')
  · intro e he
    rw [hlog, toldAbout_append, toldAbout_append, toldAbout_delivered ven e.id (deliverAll_delivered _ _ _), List.append_nil]
    have : toldAbout ven e.id (respondAll p.env s3 ven (r1.map VenResponse.handled ++ r.handled :: r2.map VenResponse.handled)).2.1 = [] := by
      rw [toldAbout, List.filter_eq_nil_iff]
      intro f hf
      cases f with
      | responded c v i o =>
        obtain ⟨r', h1, h2⟩ := g2 c v i o hf
        have := happ e he r' h1
        rw [h2] at this
        simp [this]
      | _ => simp
    rw [this, List.append_nil]
  · rw [hstate]
    exact g1 b (hother b hb (by rw [hbc]; simp)) (fun r' hr' => happ b (by simp [hb]) r' hr')
  · obtain ⟨es, d⟩ := round_delivers ht hx hp hflag
    obtain ⟨s1', htake'⟩ := d.handed
    rw [htake] at htake'
    obtain ⟨-, hes⟩ := Prod.mk.inj htake'
    rw [Option.some.injEq] at hes
    subst hes
    have hven : y.ven = (p.round h ven x).ven := (slow_ven p h ven _ x).1
    have hbm : b ∈ before ++ a :: after := by simp [hb]
    have hab := d.current b hbm
    rw [VenState.about, Option.map_eq_some_iff] at hab
    obtain ⟨r0, h1, h2⟩ := hab
    rw [hven]
    exact ⟨r0, h1, h2, d.forgotten b hbm hbc hn hh⟩

/-- **C110, refuted**: what follows from that, at the next poll, whatever was added in the meantime. The handlers hear of the events up to the one whose confirmation was
    lost. For the events behind it no handler is called, now or later. -/
theorem c110_unheard_violated {p p' : PollSetting} {lib : Lib} {h : VenHandlers} (ht : h.Total) {ven : String} {x : Sides} (hx : Ready lib ven x) (hp : p.Fine lib ven x)
    (hflag : x.vtn.1.flag ven = true) {s1 : Server} {before after : List Event} {a b : Event}
    (htake : takeEvents p.vtnClock x.vtn.1 ven = (s1, some (before ++ a :: after))) (ha : a.answered) (hb : b ∈ after) (hbc : b.status = .cancelled)
    (hn : (Dict.keys x.ven.responded).Nodup) (hh : Dict.has x.ven.responded b.id = true) {z : Sides}
    (hz : z.ven = (p.slow h ven (fun s => cancelEvent s ven a.id) x).ven) (hp' : p'.Fine lib ven z) (hint : z.vtn.1.external = false)
    (hgood : ∀ e ∈ z.vtn.1.queue ven, e.Sendable lib ∧ e.Whole) (hdist : Distinct (z.vtn.1.queue ven)) (hflag' : z.vtn.1.flag ven = true)
    {s2 : Server} {before' after' : List Event} {b' : Event} (htake' : takeEvents p'.vtnClock z.vtn.1 ven = (s2, some (before' ++ b' :: after')))
    (hb' : b'.id = b.id ∧ b'.modnum = b.modnum) (hrem : Remembered z.ven before') :
    (p'.round h ven z).calls = z.calls ++ dueCalls z.ven (before'.map (Event.arrived p'.k.lib p'.k.serverNow)) ∧
      (∀ e ∈ after', timesCalled (p'.round h ven z).calls e.id e.modnum = timesCalled z.calls e.id e.modnum) ∧
      ∀ p'' : PollSetting, p''.Fine lib ven (p'.round h ven z) → p''.round h ven (p'.round h ven z) = p'.round h ven z := by
  obtain ⟨-, -, -, hall⟩ := c110_cancelled_violated ht hx hp hflag htake ha
  obtain ⟨-, hfor⟩ := hall b hb hbc
  obtain ⟨r, h1, h2, h3⟩ := hfor hn hh
  rw [← hz] at h1 h3
  have hs : z.ven.Single := by
    obtain ⟨es, d⟩ := round_delivers ht hx hp hflag
    rw [hz, (slow_ven p h ven _ x).1]
    exact d.single
  exact c91_never_violated ht hp' hint hgood hdist hs hflag' htake' hrem ⟨r, by rw [hb'.1]; exact h1, by rw [hb'.2]; exact h2, by rw [hb'.1]; exact h3⟩

/-! ### Concrete cases -/

theorem later_fresh : ∀ e ∈ added1.vtn.1.queue "ven1", e.id ≠ laterArgs.eventId := by
  rw [queue_added1]
  intro e he
  rw [List.mem_singleton.mp he]
  decide +kernel

/-- A second event is added while the VEN decides about the first one. This is a history of C91. -/
example : Lived plainLib easyHandlers "ven1" ((pollAt 0).slow easyHandlers "ven1" (fun s => addEvents s [laterArgs]) added1) := by
  refine c110_history_partial easy_total lived_added1 fine_added1 (a := laterArgs) (t := Server.init) (id := "event2") (by rfl) rfl
    (eventArgs_good _ _ _ (ordinary_of (by decide +kernel)) (by constructor <;> decide +kernel)) rfl later_fresh ?_
  intro c hc
  rw [show added1.calls = [] from rfl] at hc
  simp at hc

/-- The first event is decided about once. -/
example : timesCalled ((pollAt 0).slow easyHandlers "ven1" (fun s => addEvents s [laterArgs]) added1).calls "event1" 0 = 1 := by
  have h1 := called_polled1
  unfold polled1 at h1
  rw [← (slow_ven (pollAt 0) easyHandlers "ven1" (fun s => addEvents s [laterArgs]) added1).2] at h1
  exact h1

theorem later_accepted : ∀ a ∈ [laterArgs], a.ven = "ven1" ∧ (∃ t id, t.external = false ∧ (addEvent t a).2 = .ok (some id)) ∧ ∀ e ∈ added1.vtn.1.queue "ven1", e.id ≠ a.eventId := by
  intro b hb
  rw [List.mem_singleton] at hb
  subst hb
  exact ⟨rfl, ⟨Server.init, "event2", rfl, by decide +kernel⟩, later_fresh⟩

theorem later_anywhere {s : Server} (hint : s.external = false) : ∃ s', addEvent s laterArgs = (s', .ok (some "event2")) := by
  refine ⟨(addEvent s laterArgs).1, Prod.ext rfl ?_⟩
  simp only [addEvent, hint, Bool.false_eq_true, if_false]
  rw [if_neg (by decide +kernel), if_neg (by decide +kernel), if_neg (by decide +kernel),
    show activePeriodOf (laterArgs.intervals.map (fun i => (i.dtstart, i.duration))) = .ok { dtstart := 9000000000, duration := 1800000000 } from by decide +kernel]
  simp only [addRawEvent, show callbackOk (makeEvent laterArgs { dtstart := 9000000000, duration := 1800000000 }) laterArgs.callback = .ok () from by decide +kernel,
    show eventPeriod (makeEvent laterArgs { dtstart := 9000000000, duration := 1800000000 }).signals = .ok { dtstart := 9000000000, duration := 1800000000 } from by decide +kernel]
  rfl

theorem later_queued {z : Sides} (hint : z.vtn.1.external = false) : ∃ e ∈ (z.meanwhile (fun s => addEvents s [laterArgs])).vtn.1.queue "ven1", e.id = "event2" := by
  obtain ⟨e, he⟩ := later_anywhere hint
  obtain ⟨-, -, -, p, -, -, h2, -⟩ := added_state he
  have hven : laterArgs.ven = "ven1" := rfl
  rw [hven] at h2
  simp only [Sides.meanwhile, addEvents, List.foldl_cons, List.foldl_nil, he]
  exact ⟨addedEvent laterArgs p, by rw [h2]; simp, rfl⟩

/-- The second event waits for the next poll. -/
example : ∃ e ∈ ((pollAt 0).slow easyHandlers "ven1" (fun s => addEvents s [laterArgs]) added1).vtn.1.queue "ven1", e.id = "event2" := by
  rw [c110_added_partial (lived_inStep easy_total lived_added1).ready fine_added1 [laterArgs] later_accepted]
  exact later_queued (lived_inStep easy_total (Lived.poll _ lived_added1 fine_added1)).internal

/-- A VTN with an event, and with another one that was cancelled. -/
def twoVtn : Server := cancelEvent (addEvent (addEvent Server.init firstArgs).1 laterArgs).1 "ven1" "event2"

theorem queue_two : twoVtn.queue "ven1" = [event1, cancelled event2] := by rfl

/-- The VEN had accepted the second event. -/
def twoSides : Sides := ⟨[], (twoVtn, []), ⟨[event2.arrived plainLib 0], [("event2", .str "optIn")]⟩, []⟩

/-- While the VEN decides about the first event, and confirms that the second one is cancelled, the first one is cancelled as well. The confirmation is lost; the VEN has
    nothing to say about the second event any more. -/
example : let y := (pollAt 0).slow easyHandlers "ven1" (fun s => cancelEvent s "ven1" "event1") twoSides
    refresh 0 0 (cancelled event2) ∈ y.vtn.1.queue "ven1" ∧ Forgotten y.ven (refresh 0 0 (cancelled event2)) ∧ y.vtn.1.flag "ven1" = true := by
  intro y
  have hgood1 : firstArgs.Good plainLib := eventArgs_good _ _ _ (ordinary_of (by decide +kernel)) (by constructor <;> decide +kernel)
  have hgood2 : laterArgs.Good plainLib := eventArgs_good _ _ _ (ordinary_of (by decide +kernel)) (by constructor <;> decide +kernel)
  have hq : twoSides.vtn.1.queue "ven1" = [event1, cancelled event2] := queue_two
  have hfine : (pollAt 0).Fine plainLib "ven1" twoSides := by
    refine pollAt_fine datable0 rfl ?_ ?_ <;> rw [hq] <;> intro e he <;> rcases (by simpa using he : e = event1 ∨ e = cancelled event2) with rfl | rfl
    · rfl
    · rfl
    · intro h; exact absurd h (by decide +kernel)
    · intro _ h; exact absurd h.2 (by decide +kernel)
  have hready : Ready plainLib "ven1" twoSides := by
    refine ⟨rfl, ?_, ?_, ?_, ?_, ?_⟩ <;> rw [hq] at *
    · intro e he
      rcases (by simpa using he : e = event1 ∨ e = cancelled event2) with rfl | rfl
      · exact added_sendable hgood1 (.inl rfl) rfl
      · exact cancelled_members (added_sendable hgood2 (.inl rfl) rfl)
    · exact List.pairwise_pair.mpr (by decide +kernel)
    · simp
    · intro id; simp [twoSides, ofId, List.filter_cons]; split <;> simp
    · intro e he hm
      rcases (by simpa using he : e = event1 ∨ e = cancelled event2) with rfl | rfl
      · exact absurd hm (by decide +kernel)
      · exact absurd hm (by decide +kernel)
  have htake : takeEvents (fun _ => 0) twoVtn "ven1" = ((takeEvents (fun _ => 0) twoVtn "ven1").1, some ([] ++ refresh 0 0 event1 :: [refresh 0 0 (cancelled event2)])) := by
    refine Prod.ext rfl ?_
    decide +kernel
  have hid : (refresh 0 0 event1).id = "event1" := by decide +kernel
  have h := c110_cancelled_violated (p := pollAt 0) (h := easyHandlers) easy_total hready hfine (by rfl) htake (by decide +kernel)
  simp only [hid] at h
  have hy : (pollAt 0).slow easyHandlers "ven1" (fun s => cancelEvent s "ven1" "event1") twoSides = y := rfl
  rw [hy] at h
  generalize y = z at h
  obtain ⟨h1, -, -, h4⟩ := h
  obtain ⟨h5, h6⟩ := h4 (refresh 0 0 (cancelled event2)) (by simp) (by decide +kernel)
  exact ⟨h5, h6 (by decide +kernel) (by decide +kernel), h1⟩

end Openleadr
