import Verif.Spec.Server
import Verif.Lemmas.Events
import Verif.Lemmas.Dict
/-! Helper lemmas for the event side of the VTN. -/
namespace Openleadr
open Spec

/-- not completed -/
def nc (e : Event) : Bool := decide (e.status ≠ .completed)

theorem evolves_refl (e : Event) : Evolves e e := ⟨rfl, Int.le_refl _⟩

theorem evolves_trans {a b c : Event} (h1 : Evolves a b) (h2 : Evolves b c) : Evolves a c := by
  refine ⟨?_, Int.le_trans h1.2 h2.2⟩
  rw [h2.1, h1.1]

theorem evolves_refresh (now now' : Int) (e : Event) : Evolves e (refresh now now' e) := by
  refine ⟨?_, ?_⟩
  · simp only [refresh]
    split
    · split <;> rfl
    · rfl
  · have := refresh_modnum now now' e
    simp only [Event.modnum] at this
    omega

theorem evolves_cancelled (e : Event) : Evolves e (cancelled e) := by
  refine ⟨rfl, ?_⟩
  show e.descriptor.modificationNumber ≤ e.descriptor.modificationNumber + 1
  omega

theorem evolves_id {a b : Event} (h : Evolves a b) : b.id = a.id := by rw [h.1]
theorem evolves_period {a b : Event} (h : Evolves a b) : b.activePeriod = a.activePeriod := by rw [h.1]

/-! ### eraseFirst, popCompleted -/

theorem eraseFirst_sublist (p : α → Bool) (l : List α) : (eraseFirst p l).Sublist l := by
  induction l with
  | nil => exact List.Sublist.refl _
  | cons a l ih =>
    simp only [eraseFirst]
    split
    · exact List.sublist_cons_self _ _
    · exact ih.cons_cons a

theorem eraseFirst_mem (p : α → Bool) (l : List α) (a : α) (h : a ∈ l) (hp : p a = false) : a ∈ eraseFirst p l := by
  induction l with
  | nil => simp at h
  | cons b l ih =>
    simp only [eraseFirst]
    simp only [List.mem_cons] at h
    split
    · rcases h with rfl | h
      · rename_i hb; rw [hp] at hb; cases hb
      · exact h
    · rcases h with rfl | h
      · simp
      · simp [ih h]

theorem eraseFirst_filter (e : Event) (l : List Event) (he : e.status = .completed) :
    (eraseFirst (fun x => decide (x = e)) l).filter nc = l.filter nc := by
  induction l with
  | nil => rfl
  | cons a l ih =>
    simp only [eraseFirst]
    split
    · rename_i h
      have h : a = e := by simpa using h
      subst h
      have hn : nc a = false := by simp [nc, he]
      simp [hn]
    · simp [List.filter_cons, ih]

theorem eraseFirst_countP (e x : Event) (l : List Event) :
    (eraseFirst (fun y => decide (y = e)) l).countP (fun y => decide (y = x)) =
      l.countP (fun y => decide (y = x)) - (if e = x then 1 else 0) := by
  induction l with
  | nil => simp [eraseFirst]
  | cons a l ih =>
    simp only [eraseFirst]
    by_cases hae : a = e
    · subst hae
      simp only [decide_true, if_true]
      rw [List.countP_cons]
      by_cases hax : a = x
      · simp [hax]
      · simp [hax]
    · simp only [hae, decide_false, Bool.false_eq_true, if_false]
      rw [List.countP_cons, List.countP_cons, ih]
      by_cases hex : e = x
      · have hax : ¬ a = x := fun h => hae (h.trans hex.symm)
        simp [hax, hex]
      · simp [hex]

theorem popCompleted_filter (stored : List Event) (ids : List String) (l : List Event) :
    (popCompleted stored ids l).1.filter nc = stored.filter nc := by
  induction l generalizing stored ids with
  | nil => rfl
  | cons e l ih =>
    simp only [popCompleted]
    split
    · rename_i h; rw [ih, eraseFirst_filter e stored h]
    · exact ih _ _

theorem popCompleted_count (stored : List Event) (ids : List String) (l : List Event) (x : Event) (hx : x.status = .completed)
    (h : stored.countP (fun y => decide (y = x)) ≤ l.countP (fun y => decide (y = x))) :
    (popCompleted stored ids l).1.countP (fun y => decide (y = x)) = 0 := by
  induction l generalizing stored ids with
  | nil => simpa [popCompleted] using h
  | cons e l ih =>
    simp only [popCompleted]
    rw [List.countP_cons] at h
    split
    · refine ih _ _ ?_
      rw [eraseFirst_countP]
      by_cases hex : e = x
      · simp [hex] at h ⊢; omega
      · simp [hex] at h ⊢; omega
    · rename_i he
      have hex : ¬ e = x := fun hh => he (by rw [hh]; exact hx)
      refine ih _ _ ?_
      simpa [hex] using h

theorem popCompleted_queue (stored : List Event) (ids : List String) (l : List Event) (h : l.Perm stored) :
    (popCompleted stored ids l).1 = stored.filter nc := by
  rw [← popCompleted_filter stored ids l]
  symm
  rw [List.filter_eq_self]
  intro x hx
  cases hn : nc x with
  | true => rfl
  | false =>
    have hc : x.status = .completed := by simpa [nc] using hn
    have := popCompleted_count stored ids l x hc (by rw [h.countP_eq]; exact Nat.le_refl _)
    rw [List.countP_eq_zero] at this
    exact absurd (decide_eq_true rfl) (this x hx)

theorem popCompleted_ids (stored : List Event) (ids : List String) (l : List Event) :
    (popCompleted stored ids l).2 = ids ++ (l.filter (fun e => decide (e.status = .completed))).map Event.id := by
  induction l generalizing stored ids with
  | nil => simp [popCompleted]
  | cons e l ih =>
    simp only [popCompleted]
    split
    · rename_i h; rw [ih]; simp [h]
    · rename_i h; rw [ih]; simp [h]

/-! ### takeEvents -/

/-- The list that `request_event` hands out for a non-empty queue. -/
def handedOut (l : List Event) : List Event := if l.length = 1 then l.filter nc else arrange l

theorem takeEvents_spec (clock : Nat → Int) (s : Server) (ven : String) :
    (takeEvents clock s ven).1.queue ven = (refreshAll clock 0 (s.queue ven)).filter nc ∧
    (takeEvents clock s ven).2 =
      (if s.queue ven = [] then none else some (handedOut (refreshAll clock 0 (s.queue ven)))) ∧
    (takeEvents clock s ven).1.completedOf ven =
      s.completedOf ven ++ ((arrange (refreshAll clock 0 (s.queue ven))).filter (fun e => decide (e.status = .completed))).map Event.id := by
  have hqdef : s.queue ven = (Dict.get? s.events ven).getD [] := rfl
  cases hq : Dict.get? s.events ven with
  | none =>
    rw [hq] at hqdef
    simp only [Option.getD_none] at hqdef
    simp [takeEvents, hq, hqdef, refreshAll, arrange, sortByStart, sortByPriority, stableSort]
  | some q =>
    rw [hq] at hqdef
    simp only [Option.getD_some] at hqdef
    rw [hqdef]
    cases q with
    | nil => simp [takeEvents, hq, hqdef, refreshAll, arrange, sortByStart, sortByPriority, stableSort]
    | cons e q =>
      have hc : ∀ (t : Server) (new : List String), t.completedIds = recordCompleted s.completedIds ven (s.completedOf ven) new →
          t.completedOf ven = new := by
        intro t new ht
        show (Dict.get? t.completedIds ven).getD [] = new
        rw [ht]
        simp only [recordCompleted]
        by_cases h : s.completedOf ven = new
        · rw [if_pos h]; exact h
        · rw [if_neg h, Dict.get?_set_self]; rfl
      simp only [takeEvents, hq]
      by_cases h1 : (refreshAll clock 0 (e :: q)).length = 1
      · obtain ⟨x, hx⟩ := List.length_eq_one_iff.mp h1
        have ho : orderEvents clock (e :: q) none none = ⟨[x], [x], true⟩ := by simp [orderEvents, hx]
        rw [ho]
        simp only [if_true, popCompletedAliased, hx]
        by_cases hx' : x.status = .completed
        · have hn : nc x = false := by simp [nc, hx']
          simp only [hx', if_true]
          refine ⟨?_, ?_, ?_⟩
          · simp [Server.queue, Dict.get?_set_self, hn]
          · simp [handedOut, hn]
          · refine hc _ _ ?_
            simp [arrange, sortByStart, sortByPriority, stableSort, insertSorted, hx']
        · have hn : nc x = true := by simp [nc, hx']
          simp only [hx', if_false]
          refine ⟨?_, ?_, ?_⟩
          · simp [Server.queue, Dict.get?_set_self, hn]
          · simp [handedOut, hn]
          · refine hc _ _ ?_
            have : (List.filter (fun e => decide (e.status = Status.completed)) (arrange [x])) = [] := by
              rw [List.filter_eq_nil_iff]
              intro a ha
              have := (arrange_perm [x]).mem_iff.mp ha
              simp only [List.mem_singleton] at this
              subst this
              simp [hx']
            simp [this]
      · have ho : orderEvents clock (e :: q) none none =
            ⟨refreshAll clock 0 (e :: q), arrange (refreshAll clock 0 (e :: q)), false⟩ := by
          simp [orderEvents, h1, window]
        rw [ho]
        simp only [Bool.false_eq_true, if_false]
        refine ⟨?_, ?_, ?_⟩
        · simp only [Server.queue, Dict.get?_set_self, Option.getD_some]
          exact popCompleted_queue _ _ _ (arrange_perm _)
        · simp [handedOut, h1]
        · refine hc _ _ ?_
          simp only [popCompleted_ids]

/-- Only the queue and the completed record of that VEN change. -/
theorem takeEvents_frame (clock : Nat → Int) (s : Server) (ven : String) :
    (takeEvents clock s ven).1.external = s.external ∧ (takeEvents clock s ven).1.updated = s.updated ∧
    (takeEvents clock s ven).1.callbacks = s.callbacks ∧ (takeEvents clock s ven).1.delivery = s.delivery ∧
    (takeEvents clock s ven).1.doneFutures = s.doneFutures ∧
    ∀ v, v ≠ ven → Dict.get? (takeEvents clock s ven).1.events v = Dict.get? s.events v ∧
      Dict.get? (takeEvents clock s ven).1.completedIds v = Dict.get? s.completedIds v := by
  have hr : ∀ (new : List String) v, v ≠ ven →
      Dict.get? (recordCompleted s.completedIds ven (s.completedOf ven) new) v = Dict.get? s.completedIds v := by
    intro new v hv
    simp only [recordCompleted]
    split
    · rfl
    · rw [Dict.get?_set_other _ _ _ _ hv]
  simp only [takeEvents]
  split
  · simp
  · simp
  · split
    · refine ⟨rfl, rfl, rfl, rfl, rfl, ?_⟩
      intro v hv
      exact ⟨Dict.get?_set_other _ _ _ _ hv, hr _ v hv⟩
    · refine ⟨rfl, rfl, rfl, rfl, rfl, ?_⟩
      intro v hv
      exact ⟨Dict.get?_set_other _ _ _ _ hv, hr _ v hv⟩

/-- The state after `request_event` (internal) is that of `takeEvents`. -/
theorem requestEvent_state (env : Env) (clock : Nat → Int) (s : Server) (ven : String) (h : s.external = false) :
    (requestEvent env clock s ven).1 = (takeEvents clock s ven).1 := by
  simp only [requestEvent, h, Bool.false_eq_true, if_false]
  split
  · rfl
  · split <;> rfl

theorem requestEvent_state_external (env : Env) (clock : Nat → Int) (s : Server) (ven : String) (h : s.external = true) :
    (requestEvent env clock s ven).1 = s := by
  simp only [requestEvent, h, if_true]
  split
  · rfl
  · split <;> rfl

/-- If the reply is an event list, it is the handed out list; a reply without list means an empty queue. -/
theorem requestEvent_reply (env : Env) (clock : Nat → Int) (s : Server) (ven : String) (h : s.external = false) :
    (s.queue ven = [] → (requestEvent env clock s ven).2.2 = .ok .response) ∧
    (s.queue ven ≠ [] → (requestEvent env clock s ven).2.2 =
      match (deliverAll env s.delivery (handedOut (refreshAll clock 0 (s.queue ven)))).2 with
      | some err => .error err
      | none => .ok (.distribute (handedOut (refreshAll clock 0 (s.queue ven))))) := by
  obtain ⟨_, h2, _⟩ := takeEvents_spec clock s ven
  obtain ⟨_, _, _, hd, _⟩ := takeEvents_frame clock s ven
  simp only [requestEvent, h, Bool.false_eq_true, if_false, h2, hd]
  constructor
  · intro he; simp [he]
  · intro hne
    simp only [hne, if_false]
    cases hx : deliverAll env s.delivery (handedOut (refreshAll clock 0 (s.queue ven))) with
    | mk effs o => cases o <;> rfl

theorem poll_state (env : Env) (clock : Nat → Int) (s : Server) (ven : String) :
    (poll env clock s ven).1 = s ∨
    (s.external = false ∧ s.flag ven = true ∧ (poll env clock s ven).1 = (takeEvents clock s ven).1) ∨
    (s.external = false ∧ s.flag ven = true ∧
      (poll env clock s ven).1 = { (takeEvents clock s ven).1 with updated := Dict.set s.updated ven false }) := by
  simp only [poll]
  split
  · split <;> exact .inl rfl
  · rename_i he
    have he : s.external = false := by simpa using he
    split
    · rename_i hf
      have hs := requestEvent_state env clock s ven he
      have hu := (takeEvents_frame clock s ven).2.1
      cases hx : requestEvent env clock s ven with
      | mk s' r =>
        obtain ⟨effs, rep⟩ := r
        rw [hx] at hs
        simp only at hs
        subst hs
        cases rep with
        | error e => exact .inr (.inl ⟨he, hf, rfl⟩)
        | ok rep => refine .inr (.inr ⟨he, hf, ?_⟩); simp only [hu]
    · exact .inl rfl

/-! ### respond -/

theorem fireCallback_frame (env : Env) (s : Server) (ven : String) (r : EventResponse) :
    (fireCallback env s ven r).1.events = s.events ∧ (fireCallback env s ven r).1.updated = s.updated ∧
    (fireCallback env s ven r).1.completedIds = s.completedIds ∧ (fireCallback env s ven r).1.delivery = s.delivery ∧
    (fireCallback env s ven r).1.external = s.external := by
  simp only [fireCallback]
  split
  · simp
  · split <;> simp
  · simp

/-- One response only touches the queue of its VEN (and the callbacks): either nothing is removed, or the first event with the id, and then
    a cancelled event with that id was in the queue. -/
theorem respondOne_queue (env : Env) (s : Server) (ven : String) (r : EventResponse) :
    (respondOne env s ven r).1.events = s.events ∨
    ((∃ c ∈ s.queue ven, c.id = r.eventId ∧ c.status = .cancelled) ∧
      (respondOne env s ven r).1.events = Dict.set s.events ven (eraseFirst (hasId r.eventId) (s.queue ven))) := by
  simp only [respondOne]
  cases hq : Dict.get? s.events ven with
  | none => exact .inl rfl
  | some q =>
    simp only
    cases hf : q.find? (hasIdAndNumber r) with
    | none => simp only; split <;> exact .inl rfl
    | some e =>
      simp only
      have hqq : s.queue ven = q := by simp [Server.queue, hq]
      by_cases hc : e.status = .cancelled
      · right
        have hm := List.mem_of_find?_eq_some hf
        have hp := List.find?_some hf
        simp only [hasIdAndNumber, Bool.and_eq_true, beq_iff_eq] at hp
        refine ⟨⟨e, hqq ▸ hm, hp.1, hc⟩, ?_⟩
        rw [if_pos hc, (fireCallback_frame _ _ _ _).1, hqq]
      · left
        rw [if_neg hc, (fireCallback_frame _ _ _ _).1]

theorem respondOne_frame (env : Env) (s : Server) (ven : String) (r : EventResponse) :
    (respondOne env s ven r).1.updated = s.updated ∧ (respondOne env s ven r).1.completedIds = s.completedIds ∧
    (respondOne env s ven r).1.delivery = s.delivery ∧ (respondOne env s ven r).1.external = s.external := by
  simp only [respondOne]
  split
  · simp
  · split
    · split <;> simp
    · obtain ⟨_, h2, h3, h4, h5⟩ := fireCallback_frame env
        (if Event.status ‹Event› = .cancelled then
          { s with events := Dict.set s.events ven (eraseFirst (hasId r.eventId) ‹List Event›) } else s) ven r
      rw [h2, h3, h4, h5]
      split <;> simp

theorem respondAll_frame (env : Env) (s : Server) (ven : String) (rs : List EventResponse) :
    (respondAll env s ven rs).1.updated = s.updated ∧ (respondAll env s ven rs).1.completedIds = s.completedIds ∧
    (respondAll env s ven rs).1.delivery = s.delivery ∧ (respondAll env s ven rs).1.external = s.external ∧
    ∀ v, v ≠ ven → Dict.get? (respondAll env s ven rs).1.events v = Dict.get? s.events v := by
  induction rs generalizing s with
  | nil => simp [respondAll]
  | cons r rs ih =>
    have h1 := respondOne_frame env s ven r
    have h2 : ∀ v, v ≠ ven → Dict.get? (respondOne env s ven r).1.events v = Dict.get? s.events v := by
      intro v hv
      rcases respondOne_queue env s ven r with h | ⟨_, h⟩
      · rw [h]
      · rw [h, Dict.get?_set_other _ _ _ _ hv]
    simp only [respondAll]
    cases hx : respondOne env s ven r with
    | mk s' x =>
      obtain ⟨effs, o⟩ := x
      rw [hx] at h1 h2
      cases o with
      | some err => simpa using ⟨h1.1, h1.2.1, h1.2.2.1, h1.2.2.2, h2⟩
      | none =>
        simp only
        obtain ⟨i1, i2, i3, i4, i5⟩ := ih s'
        simp only at h1 h2
        rw [i1, i2, i3, i4]
        exact ⟨h1.1, h1.2.1, h1.2.2.1, h1.2.2.2, fun v hv => (i5 v hv).trans (h2 v hv)⟩

theorem respondOne_mem (env : Env) (s : Server) (ven : String) (r : EventResponse) (e : Event) (he : e ∈ s.queue ven)
    (h : ¬ (r.eventId = e.id ∧ ∃ c ∈ s.queue ven, c.id = e.id ∧ c.status = .cancelled)) :
    e ∈ (respondOne env s ven r).1.queue ven := by
  rcases respondOne_queue env s ven r with hq | ⟨⟨c, hc, hci, hcs⟩, hq⟩
  · simp only [Server.queue, hq]; exact he
  · simp only [Server.queue, hq, Dict.get?_set_self, Option.getD_some]
    refine eraseFirst_mem _ _ e he ?_
    simp only [hasId, beq_eq_false_iff_ne, ne_eq]
    intro hid
    exact h ⟨hid.symm, c, hc, hci.trans hid.symm, hcs⟩

theorem respondOne_sub (env : Env) (s : Server) (ven v : String) (r : EventResponse) (e : Event)
    (he : e ∈ (respondOne env s ven r).1.queue v) : e ∈ s.queue v := by
  rcases respondOne_queue env s ven r with hq | ⟨_, hq⟩
  · simpa only [Server.queue, hq] using he
  · by_cases hv : v = ven
    · subst hv
      simp only [Server.queue, hq, Dict.get?_set_self, Option.getD_some] at he
      exact (eraseFirst_sublist _ _).subset he
    · simpa only [Server.queue, hq, Dict.get?_set_other _ _ _ _ hv] using he

theorem respondAll_mem (env : Env) (s : Server) (ven : String) (rs : List EventResponse) (e : Event) (he : e ∈ s.queue ven)
    (h : ¬ ((∃ r ∈ rs, r.eventId = e.id) ∧ ∃ c ∈ s.queue ven, c.id = e.id ∧ c.status = .cancelled)) :
    e ∈ (respondAll env s ven rs).1.queue ven := by
  induction rs generalizing s with
  | nil => exact he
  | cons r rs ih =>
    have h1 : e ∈ (respondOne env s ven r).1.queue ven := by
      refine respondOne_mem env s ven r e he ?_
      rintro ⟨hr, hc⟩
      exact h ⟨⟨r, by simp, hr⟩, hc⟩
    have h2 := respondOne_sub env s ven ven r
    simp only [respondAll]
    cases hx : respondOne env s ven r with
    | mk s' x =>
      obtain ⟨effs, o⟩ := x
      rw [hx] at h1 h2
      cases o with
      | some err => exact h1
      | none =>
        simp only at h1 h2 ⊢
        refine ih s' h1 ?_
        rintro ⟨⟨r', hr', hre⟩, c, hc, hcc⟩
        exact h ⟨⟨r', by simp [hr'], hre⟩, c, h2 c hc, hcc⟩

theorem respondAll_sub (env : Env) (s : Server) (ven v : String) (rs : List EventResponse) (e : Event)
    (he : e ∈ (respondAll env s ven rs).1.queue v) : e ∈ s.queue v := by
  induction rs generalizing s with
  | nil => exact he
  | cons r rs ih =>
    simp only [respondAll] at he
    have h2 := respondOne_sub env s ven v r
    cases hx : respondOne env s ven r with
    | mk s' x =>
      obtain ⟨effs, o⟩ := x
      rw [hx] at he h2
      cases o with
      | some err => exact h2 e he
      | none => exact h2 e (ih s' he)

theorem createdEvent_state (env : Env) (s : Server) (ven : String) (rs : List EventResponse) :
    (createdEvent env s ven rs).1 = if s.external then s else (respondAll env s ven rs).1 := by
  simp only [createdEvent]
  cases hx : s.external with
  | true =>
    simp only [if_true]
    cases respondExternal env ven rs with
    | mk a b => cases b <;> rfl
  | false =>
    simp only [Bool.false_eq_true, if_false]
    cases respondAll env s ven rs with
    | mk s' x => obtain ⟨a, b⟩ := x; cases b <;> rfl

/-! ### adding and cancelling -/

theorem ensureKey_get (d : List (String × List Event)) (k v : String) :
    Dict.get? (ensureKey d k []) v = if v = k then some ((Dict.get? d k).getD []) else Dict.get? d v := by
  simp only [ensureKey]
  split
  · rename_i x h
    split
    · rename_i hv; subst hv; rw [h]; rfl
    · rfl
  · rename_i h
    rw [Dict.get?_set]
    split
    · rw [h]; rfl
    · rfl

theorem addRawEvent_spec (s : Server) (ven : String) (event : Event) (cb : Option Callback) (d : Option Nat) :
    (∃ err, (addRawEvent s ven event cb d).2 = .error err ∧
        ((addRawEvent s ven event cb d).1 = s ∨ (addRawEvent s ven event cb d).1 = { s with events := ensureKey s.events ven [] }) ∧
        (callbackOk event cb = .error err ∨ eventPeriod event.signals = .error err)) ∨
    (∃ period, callbackOk event cb = .ok () ∧ eventPeriod event.signals = .ok period ∧ (addRawEvent s ven event cb d).2 = .ok event.id ∧
        (addRawEvent s ven event cb d).1 =
          { s with events := Dict.set (ensureKey s.events ven []) ven (s.queue ven ++ [withDefaults event period]),
                   updated := Dict.set s.updated ven true,
                   callbacks := setOpt s.callbacks event.id cb,
                   delivery := setOpt s.delivery event.id d }) := by
  simp only [addRawEvent]
  cases hc : callbackOk event cb with
  | error e => exact .inl ⟨e, rfl, .inl rfl, .inl rfl⟩
  | ok u =>
    simp only
    cases hp : eventPeriod event.signals with
    | error e => exact .inl ⟨e, rfl, .inr rfl, .inr rfl⟩
    | ok period => exact .inr ⟨period, trivial, rfl, rfl, rfl⟩

theorem addRawEvent_queue (s : Server) (ven : String) (event : Event) (cb : Option Callback) (d : Option Nat) (v : String) :
    (addRawEvent s ven event cb d).1.queue v = s.queue v ∨
    (v = ven ∧ ∃ period, eventPeriod event.signals = .ok period ∧
      (addRawEvent s ven event cb d).1.queue v = s.queue v ++ [withDefaults event period]) := by
  rcases addRawEvent_spec s ven event cb d with ⟨err, _, h | h, _⟩ | ⟨period, _, hp, _, h⟩
  · exact .inl (by rw [h])
  · left
    rw [h]
    simp only [Server.queue, ensureKey_get]
    split
    · rename_i hv; subst hv; rfl
    · rfl
  · rw [h]
    by_cases hv : v = ven
    · subst hv
      refine .inr ⟨rfl, period, hp, ?_⟩
      simp [Server.queue, Dict.get?_set_self]
    · left
      simp [Server.queue, Dict.get?_set_other _ _ _ _ hv, ensureKey_get, hv]

theorem addRawEvent_frame (s : Server) (ven : String) (event : Event) (cb : Option Callback) (d : Option Nat) :
    (addRawEvent s ven event cb d).1.external = s.external ∧
    (addRawEvent s ven event cb d).1.completedIds = s.completedIds ∧
    (addRawEvent s ven event cb d).1.doneFutures = s.doneFutures ∧
    ∀ v, v ≠ ven → SameFor v s (addRawEvent s ven event cb d).1 := by
  rcases addRawEvent_spec s ven event cb d with ⟨err, _, h | h, _⟩ | ⟨period, _, hp, _, h⟩
  · rw [h]; exact ⟨rfl, rfl, rfl, fun v _ => ⟨rfl, rfl, rfl⟩⟩
  · rw [h]
    refine ⟨rfl, rfl, rfl, fun v hv => ⟨?_, rfl, rfl⟩⟩
    simp [ensureKey_get, hv]
  · rw [h]
    refine ⟨rfl, rfl, rfl, fun v hv => ⟨?_, ?_, rfl⟩⟩
    · simp [Dict.get?_set_other _ _ _ _ hv, ensureKey_get, hv]
    · simp [Dict.get?_set_other _ _ _ _ hv]

/-- `add_event` either leaves the state alone or is an `add_raw_event` of the event made from the arguments. -/
theorem addEvent_cases (s : Server) (a : AddArgs) :
    (addEvent s a).1 = s ∨
    (s.external = false ∧ ∃ period, activePeriodOf (a.intervals.map (fun i => (i.dtstart, i.duration))) = .ok period ∧
      (addEvent s a).1 = (addRawEvent s a.ven (makeEvent a period) a.callback a.delivery).1) := by
  simp only [addEvent]
  split
  · exact .inl rfl
  · rename_i he
    have he : s.external = false := by simpa using he
    split
    · exact .inl rfl
    · split
      · exact .inl rfl
      · split
        · exact .inl rfl
        · cases hp : activePeriodOf (a.intervals.map (fun i => (i.dtstart, i.duration))) with
          | error e => exact .inl rfl
          | ok period =>
            refine .inr ⟨he, period, rfl, ?_⟩
            simp only
            cases hx : addRawEvent s a.ven (makeEvent a period) a.callback a.delivery with
            | mk s' r => cases r <;> rfl

theorem updateFirst_mem (p : α → Bool) (f : α → α) (l : List α) (a : α) (h : a ∈ l) :
    a ∈ updateFirst p f l ∨ (p a = true ∧ f a ∈ updateFirst p f l) := by
  induction l with
  | nil => simp at h
  | cons b l ih =>
    simp only [updateFirst]
    simp only [List.mem_cons] at h
    split
    · rename_i hb
      rcases h with rfl | h
      · exact .inr ⟨hb, by simp⟩
      · exact .inl (by simp [h])
    · rcases h with rfl | h
      · exact .inl (by simp)
      · rcases ih h with h | ⟨h1, h2⟩
        · exact .inl (by simp [h])
        · exact .inr ⟨h1, by simp [h2]⟩

theorem updateFirst_mem_rev (p : α → Bool) (f : α → α) (l : List α) (b : α) (h : b ∈ updateFirst p f l) :
    b ∈ l ∨ ∃ a ∈ l, p a = true ∧ b = f a := by
  induction l with
  | nil => simp [updateFirst] at h
  | cons a l ih =>
    simp only [updateFirst] at h
    split at h
    · rename_i ha
      simp only [List.mem_cons] at h
      rcases h with rfl | h
      · exact .inr ⟨a, by simp, ha, rfl⟩
      · exact .inl (by simp [h])
    · simp only [List.mem_cons] at h
      rcases h with rfl | h
      · exact .inl (by simp)
      · rcases ih h with h | ⟨a', h1, h2⟩
        · exact .inl (by simp [h])
        · exact .inr ⟨a', by simp [h1], h2⟩

theorem cancelEvent_cases (s : Server) (ven id : String) :
    (cancelEvent s ven id = s ∧ ∀ e ∈ s.queue ven, e.id ≠ id) ∨
    ((∃ e ∈ s.queue ven, e.id = id) ∧ cancelEvent s ven id =
      { s with events := Dict.set s.events ven (updateFirst (hasId id) cancelled (s.queue ven)),
               updated := Dict.set s.updated ven true }) := by
  simp only [cancelEvent]
  cases hq : Dict.get? s.events ven with
  | none => exact .inl ⟨rfl, by simp [Server.queue, hq]⟩
  | some q =>
    have hqq : s.queue ven = q := by simp [Server.queue, hq]
    simp only
    cases hf : q.find? (hasId id) with
    | none =>
      refine .inl ⟨rfl, ?_⟩
      rw [hqq]
      intro e he
      have := List.find?_eq_none.mp hf e he
      simpa [hasId] using this
    | some e =>
      refine .inr ⟨⟨e, hqq ▸ List.mem_of_find?_eq_some hf, ?_⟩, by rw [hqq]⟩
      simpa [hasId] using List.find?_some hf

/-! ### one step -/

/-- For every VEN other than that of the operation nothing changes. -/
theorem step_frame (env : Env) (s : Server) (op : Op) (v : String) (hv : v ≠ op.ven) : SameFor v s (step env s op).1 := by
  cases op with
  | add a =>
    simp only [step]
    rcases addEvent_cases s a with h | ⟨_, p, _, h⟩
    · rw [h]; exact ⟨rfl, rfl, rfl⟩
    · rw [h]; exact (addRawEvent_frame s a.ven _ _ _).2.2.2 v hv
  | addRaw ven e c d => exact (addRawEvent_frame s ven e c d).2.2.2 v hv
  | cancel ven id =>
    simp only [step]
    rcases cancelEvent_cases s ven id with ⟨h, _⟩ | ⟨_, h⟩
    · rw [h]; exact ⟨rfl, rfl, rfl⟩
    · rw [h]; exact ⟨Dict.get?_set_other _ _ _ _ hv, Dict.get?_set_other _ _ _ _ hv, rfl⟩
  | request ven clock =>
    simp only [step]
    cases he : s.external with
    | true => rw [requestEvent_state_external env clock s ven he]; exact ⟨rfl, rfl, rfl⟩
    | false =>
      rw [requestEvent_state env clock s ven he]
      obtain ⟨_, h2, _, _, _, h6⟩ := takeEvents_frame clock s ven
      exact ⟨(h6 v hv).1, by rw [h2], (h6 v hv).2⟩
  | poll ven clock =>
    simp only [step]
    obtain ⟨_, h2, _, _, _, h6⟩ := takeEvents_frame clock s ven
    rcases poll_state env clock s ven with h | ⟨_, _, h⟩ | ⟨_, _, h⟩
    · rw [h]; exact ⟨rfl, rfl, rfl⟩
    · rw [h]; exact ⟨(h6 v hv).1, by rw [h2], (h6 v hv).2⟩
    · rw [h]; exact ⟨(h6 v hv).1, Dict.get?_set_other _ _ _ _ hv, (h6 v hv).2⟩
  | respond ven rs =>
    simp only [step, createdEvent_state]
    split
    · exact ⟨rfl, rfl, rfl⟩
    · obtain ⟨h1, h2, _, _, h5⟩ := respondAll_frame env s ven rs
      exact ⟨h5 v hv, by rw [h1], by rw [h2]⟩

theorem sameFor_queue {v : String} {s s' : Server} (h : SameFor v s s') : s'.queue v = s.queue v := by
  simp only [Server.queue, h.1]

theorem mem_refreshAll_of_mem (clock : Nat → Int) (i : Nat) (l : List Event) (e : Event) (h : e ∈ l) :
    ∃ j, refresh (clock j) (clock (j + 1)) e ∈ refreshAll clock i l := by
  induction l generalizing i with
  | nil => simp at h
  | cons a l ih =>
    simp only [List.mem_cons] at h
    rcases h with rfl | h
    · exact ⟨i, by simp [refreshAll]⟩
    · obtain ⟨j, hj⟩ := ih (i + 2) h
      exact ⟨j, by simp [refreshAll, hj]⟩

/-- A refreshed event is completed only if it was not cancelled and has ended. -/
theorem refresh_completed (now now' : Int) (e : Event) (h : (refresh now now' e).status = .completed) :
    e.status ≠ .cancelled ∧ determineStatus now e.activePeriod = .completed := by
  by_cases hc : e.status = .cancelled
  · simp [refresh, hc] at h
  · refine ⟨hc, ?_⟩
    simp only [refresh] at h
    rw [if_pos hc] at h
    by_cases hs : e.status = determineStatus now e.activePeriod
    · simp only [hs, ne_eq, not_true, if_false] at h
      exact h
    · rw [if_pos hs] at h; exact h

/-- What one step does to an event in a queue: it evolves, unless the step may end it. -/
theorem step_keeps (env : Env) (s : Server) (op : Op) (ven : String) (e : Event) (he : e ∈ s.queue ven)
    (h : ¬ ((∃ clock, Asks op ven clock ∧ e.status ≠ .cancelled ∧ ∃ i, determineStatus (clock i) e.activePeriod = .completed) ∨
            (∃ rs, op = .respond ven rs ∧ (∃ r ∈ rs, r.eventId = e.id) ∧ ∃ c ∈ s.queue ven, c.id = e.id ∧ c.status = .cancelled))) :
    ∃ e' ∈ (step env s op).1.queue ven, Evolves e e' := by
  by_cases hv : ven = op.ven
  · -- the operation is about this VEN
    have take : ∀ clock, Asks op ven clock → ∃ e' ∈ (takeEvents clock s ven).1.queue ven, Evolves e e' := by
      intro clock hasks
      rw [(takeEvents_spec clock s ven).1]
      obtain ⟨j, hj⟩ := mem_refreshAll_of_mem clock 0 _ e he
      refine ⟨_, List.mem_filter.mpr ⟨hj, ?_⟩, evolves_refresh _ _ _⟩
      simp only [nc, decide_eq_true_eq]
      intro hcomp
      obtain ⟨h1, h2⟩ := refresh_completed _ _ _ hcomp
      exact h (.inl ⟨clock, hasks, h1, j, h2⟩)
    have addQ : ∀ event cb d, ∃ e' ∈ (addRawEvent s ven event cb d).1.queue ven, Evolves e e' := by
      intro event cb d
      rcases addRawEvent_queue s ven event cb d ven with hq | ⟨_, p, _, hq⟩
      · exact ⟨e, hq ▸ he, evolves_refl e⟩
      · exact ⟨e, by rw [hq]; simp [he], evolves_refl e⟩
    cases op with
    | add a =>
      simp only [Op.ven] at hv; subst hv
      simp only [step]
      rcases addEvent_cases s a with hs | ⟨_, p, _, hs⟩
      · exact ⟨e, by rw [hs]; exact he, evolves_refl e⟩
      · rw [hs]; exact addQ _ _ _
    | addRaw v ev c d => simp only [Op.ven] at hv; subst hv; exact addQ _ _ _
    | cancel v id =>
      simp only [Op.ven] at hv; subst hv
      simp only [step]
      rcases cancelEvent_cases s ven id with ⟨hs, _⟩ | ⟨_, hs⟩
      · exact ⟨e, by rw [hs]; exact he, evolves_refl e⟩
      · rw [hs]
        simp only [Server.queue, Dict.get?_set_self, Option.getD_some]
        rcases updateFirst_mem (hasId id) cancelled _ e he with hm | ⟨_, hm⟩
        · exact ⟨e, hm, evolves_refl e⟩
        · exact ⟨_, hm, evolves_cancelled e⟩
    | request v clock =>
      simp only [Op.ven] at hv; subst hv
      simp only [step]
      cases hx : s.external with
      | true => rw [requestEvent_state_external env clock s ven hx]; exact ⟨e, he, evolves_refl e⟩
      | false => rw [requestEvent_state env clock s ven hx]; exact take clock (.inl rfl)
    | poll v clock =>
      simp only [Op.ven] at hv; subst hv
      simp only [step]
      rcases poll_state env clock s ven with hs | ⟨_, _, hs⟩ | ⟨_, _, hs⟩
      · rw [hs]; exact ⟨e, he, evolves_refl e⟩
      · rw [hs]; exact take clock (.inr rfl)
      · rw [hs]; exact take clock (.inr rfl)
    | respond v rs =>
      simp only [Op.ven] at hv; subst hv
      simp only [step, createdEvent_state]
      split
      · exact ⟨e, he, evolves_refl e⟩
      · refine ⟨e, respondAll_mem env s ven rs e he ?_, evolves_refl e⟩
        rintro ⟨h1, h2⟩
        exact h (.inr ⟨rs, rfl, h1, h2⟩)
  · exact ⟨e, by rw [sameFor_queue (step_frame env s op ven hv)]; exact he, evolves_refl e⟩

end Openleadr
