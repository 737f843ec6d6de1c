import Verif.Lemmas.KeepsUp
/-!
C91: the VEN keeps up with the VTN, over every history of events that are added and cancelled, polls, and whatever other VENs do.
-/
namespace Openleadr

/-! ### Histories -/

/-- What surrounds a poll: the messages, the configuration of the VTN, user code, the clocks and the connection. -/
structure PollSetting where
  k : Link
  c : Config
  env : Env
  vtnClock : Nat → Int
  venClock : Nat → Int
  secure : Bool
  peer : Option String

def PollSetting.round (p : PollSetting) (h : VenHandlers) (ven : String) (x : Sides) : Sides :=
  pollRound p.k p.c p.env h p.vtnClock p.venClock p.secure p.peer (.str ven) x

/-- An event is over for the VTN at this time: it looks at the period of the event. -/
def Event.overAt (e : Event) (t : Int) : Prop := 0 < e.activePeriod.duration ∧ e.activePeriod.dtstart + e.activePeriod.duration ≤ t

/-- An event is over for the VEN at this time: it is told the sum of the durations of the intervals. -/
def Event.overThere (e : Event) (t : Int) : Prop := 0 < e.sentDuration ∧ e.activePeriod.dtstart + e.sentDuration ≤ t

/-- A poll that works: both sides are connected and take each other's messages, the VTN has no lower-case id, user code does not raise, and the two sides agree about
    which events are over; a cancelled event is not over. -/
structure PollSetting.Fine (p : PollSetting) (lib : Lib) (ven : String) (x : Sides) : Prop where
  same : p.k.lib = lib
  con : Connected p.k p.c p.secure p.peer x.cache ven
  asked : ∀ t q txt, createMessage p.k.lib p.k.clientNow t q = .ok txt → ∃ tree, p.c.validate (String.ofList txt) = .ok tree
  taken : ∀ t q txt, createMessage p.k.lib p.k.serverNow t q = .ok txt → p.k.accepts (String.ofList txt) = true
  loud : isLowerText p.c.vtnId = false
  quiet : ∀ e, p.env.raises e = none
  clock : ∀ i, Datable (p.vtnClock i)
  agree : ∀ e ∈ x.vtn.1.queue ven, ∀ i j, e.status ≠ .cancelled → (e.overAt (p.vtnClock i) ↔ e.overThere (p.venClock j))
  live : ∀ e ∈ x.vtn.1.queue ven, ∀ j, e.status = .cancelled → ¬ e.overThere (p.venClock j)

/-- The histories of a VEN `ven` whose handlers `h` do not raise, and its VTN. -/
inductive Lived (lib : Lib) (h : VenHandlers) (ven : String) : Sides → Prop
  /-- Both sides are started. -/
  | start (cache : NonceCache) (log : List Effect) : Lived lib h ven ⟨cache, (Server.init, log), ⟨[], []⟩, []⟩
  /-- An event that asks for an answer is added for this VEN, with an id that was not used before. -/
  | add {x : Sides} {a : AddArgs} {s' : Server} {id : String} : Lived lib h ven x → addEvent x.vtn.1 a = (s', .ok (some id)) → a.ven = ven → a.Good lib →
      a.responseRequired = "always" → (∀ e ∈ x.vtn.1.queue ven, e.id ≠ a.eventId) → (∀ c ∈ x.calls, c.event.id ≠ a.eventId) →
      Lived lib h ven { x with vtn := (s', x.vtn.2) }
  /-- An event of this VEN is cancelled. -/
  | cancel {x : Sides} (id : String) : Lived lib h ven x → Lived lib h ven { x with vtn := (cancelEvent x.vtn.1 ven id, x.vtn.2) }
  /-- Something that does not concern this VEN: the events, polls and answers of others. -/
  | other {x : Sides} {cache : NonceCache} {s' : Server} {log : List Effect} : Lived lib h ven x → s'.queue ven = x.vtn.1.queue ven →
      s'.flag ven = x.vtn.1.flag ven → s'.external = x.vtn.1.external → Lived lib h ven ⟨cache, (s', log), x.ven, x.calls⟩
  /-- The VEN logs the statuses of its events (client.py:1237-1249). -/
  | log {x : Sides} (clock : Nat → Int) : Lived lib h ven x → Lived lib h ven { x with ven := { x.ven with received := statusLog clock 0 x.ven.received } }
  /-- The VEN cleans up (client.py:1251-1260), and forgets no event that the VTN still has. -/
  | forget {x : Sides} (clock : Nat → Int) : Lived lib h ven x →
      (∀ e ∈ x.vtn.1.queue ven, ∀ r ∈ x.ven.received, r.id = e.id → r ∈ cleanup clock x.ven.received) →
      Lived lib h ven { x with ven := { x.ven with received := cleanup clock x.ven.received } }
  /-- The VEN polls. -/
  | poll {x : Sides} (p : PollSetting) : Lived lib h ven x → p.Fine lib ven x → Lived lib h ven (p.round h ven x)

/-! ### The invariant -/

/-- What holds at all times. -/
structure InStep (lib : Lib) (ven : String) (x : Sides) : Prop where
  internal : x.vtn.1.external = false
  good : ∀ e ∈ x.vtn.1.queue ven, (e.Sendable lib ∧ e.Whole) ∧ e.responseRequired = some "always"
  distinct : Distinct (x.vtn.1.queue ven)
  news : x.vtn.1.flag ven = true → x.vtn.1.queue ven ≠ []
  once : (versions x.calls).Nodup
  single : x.ven.Single
  known : ∀ id n, x.ven.about id = some n → (id, n) ∈ versions x.calls
  told : ∀ v ∈ versions x.calls, ∀ e ∈ x.vtn.1.queue ven, e.id = v.1 → ∃ n, x.ven.about v.1 = some n ∧ v.2 ≤ n
  below : ∀ e ∈ x.vtn.1.queue ven, ∀ n, x.ven.about e.id = some n → n ≤ e.modnum ∧ (n = e.modnum → ∃ v, Dict.get? x.ven.responded e.id = some v)
  current : x.vtn.1.flag ven = false → ∀ e ∈ x.vtn.1.queue ven, x.ven.about e.id = some e.modnum

theorem cancelled_members {lib : Lib} {e : Event} (h : e.Sendable lib ∧ e.Whole) : (cancelled e).Sendable lib ∧ (cancelled e).Whole := by
  obtain ⟨⟨h1, h2, h3⟩, h4⟩ := h
  exact ⟨⟨⟨h1.1, h1.2, h1.3, h1.4, h1.5⟩, ⟨h2.1, h2.2, h2.3, h2.4, h2.5, h2.6⟩,
    ⟨h3.id, h3.context, h3.created, h3.modified, h3.comment, h3.start, h3.duration, h3.tolerance, h3.notification, h3.rampUp,
      h3.recovery, h3.names, h3.starts, h3.payloads, h3.numbers, h3.currents, h3.targets⟩⟩, ⟨h4.1, h4.2⟩⟩

/-- An event after a cancellation is one from before, or it is the one that was cancelled. -/
theorem updated_from {id : String} {l : List Event} {e : Event} (h : e ∈ updateFirst (hasId id) cancelled l) :
    e ∈ l ∨ ∃ a ∈ l, a.id = id ∧ e = cancelled a := by
  induction l with
  | nil => simp [updateFirst] at h
  | cons a l ih =>
    simp only [updateFirst] at h
    split at h
    · rename_i ha
      rcases List.mem_cons.mp h with rfl | h
      · exact .inr ⟨a, by simp, by simpa [hasId] using ha, rfl⟩
      · exact .inl (by simp [h])
    · rcases List.mem_cons.mp h with rfl | h
      · exact .inl (by simp)
      · rcases ih h with h | ⟨b, h1, h2⟩
        · exact .inl (by simp [h])
        · exact .inr ⟨b, by simp [h1], h2⟩

theorem updated_ids (id : String) (l : List Event) : (updateFirst (hasId id) cancelled l).map Event.id = l.map Event.id := by
  induction l with
  | nil => rfl
  | cons a l ih =>
    simp only [updateFirst]
    split
    · rfl
    · simp [ih]

theorem distinct_ids {l m : List Event} (h : l.map Event.id = m.map Event.id) (hd : Distinct m) : Distinct l := by
  unfold Distinct at hd ⊢
  rw [← List.pairwise_map (f := Event.id) (R := fun a b => a ≠ b)] at hd ⊢
  rw [h]; exact hd

theorem statusLog_about (clock : Nat → Int) (s : VenState) (id : String) :
    VenState.about { s with received := statusLog clock 0 s.received } id = s.about id := by
  have h := congrArg (fun l => (l.head?).map (fun p : String × Int × ActivePeriod => p.2.1)) (ofId_statusLog id clock s.received 0)
  simp only [List.head?_map, Option.map_map] at h
  rw [about_ofId, about_ofId]
  exact h

/-- Without duplicates, what is known of an event does not depend on the order. -/
theorem about_mem {s : VenState} (hs : s.Single) {id : String} {n : Int} : s.about id = some n ↔ ∃ r ∈ s.received, r.id = id ∧ r.modnum = n := by
  rw [about_ofId]
  have h1 := hs id
  have h2 : ∀ r, r ∈ ofId id s.received ↔ r ∈ s.received ∧ r.id = id := by intro r; simp [ofId]
  generalize ofId id s.received = l at h1 h2
  match l with
  | [] =>
    simp only [List.head?_nil, Option.map_none, reduceCtorEq, false_iff]
    rintro ⟨r, hr, hi, -⟩
    exact absurd ((h2 r).mpr ⟨hr, hi⟩) (by simp)
  | [x] =>
    simp only [List.head?_cons, Option.map_some, Option.some.injEq]
    constructor
    · rintro rfl
      obtain ⟨a, b⟩ := (h2 x).mp (by simp)
      exact ⟨x, a, b, rfl⟩
    · rintro ⟨r, hr, hi, rfl⟩
      have := (h2 r).mpr ⟨hr, hi⟩
      rw [List.mem_singleton] at this
      rw [this]
  | x :: y :: l => simp at h1

theorem inStep_start (lib : Lib) (ven : String) (cache : NonceCache) (log : List Effect) : InStep lib ven ⟨cache, (Server.init, log), ⟨[], []⟩, []⟩ := by
  have hq : Server.init.queue ven = [] := rfl
  have hf : Server.init.flag ven = false := rfl
  refine ⟨rfl, ?_, ?_, ?_, ?_, ?_, ?_, ?_, ?_, ?_⟩ <;> simp only [hq, hf] <;> simp [Distinct, versions, VenState.Single, ofId, VenState.about]

theorem inStep_add {lib : Lib} {x : Sides} {a : AddArgs} {s' : Server} {id : String} (hx : InStep lib a.ven x)
    (hadd : addEvent x.vtn.1 a = (s', .ok (some id))) (good : a.Good lib) (hreq : a.responseRequired = "always")
    (hq : ∀ e ∈ x.vtn.1.queue a.ven, e.id ≠ a.eventId) (hc : ∀ c ∈ x.calls, c.event.id ≠ a.eventId) : InStep lib a.ven { x with vtn := (s', x.vtn.2) } := by
  obtain ⟨rfl, hint, -, p, hp, hflag, hqueue, -⟩ := added_state hadd
  have hv : ∀ v ∈ versions x.calls, v.1 ≠ a.eventId := by
    intro v hv
    obtain ⟨c, h1, rfl⟩ := List.mem_map.mp hv
    exact hc c h1
  have hnone : x.ven.about a.eventId = none := by
    cases h : x.ven.about a.eventId with
    | none => rfl
    | some n => exact absurd rfl (hv _ (hx.known _ _ h))
  have hid : (addedEvent a p).id = a.eventId := rfl
  have hm : ∀ e, e ∈ s'.queue a.ven ↔ e ∈ x.vtn.1.queue a.ven ∨ e = addedEvent a p := by intro e; rw [hqueue]; simp
  refine ⟨hint, ?_, ?_, ?_, hx.once, hx.single, hx.known, ?_, ?_, ?_⟩
  · intro e he
    rcases (hm e).mp he with he | rfl
    · exact hx.good e he
    · exact ⟨added_sendable good (.inl hreq) hp, by simp [addedEvent, withDefaults, makeEvent, hreq]⟩
  · show Distinct (s'.queue a.ven)
    rw [hqueue, Distinct, List.pairwise_append]
    exact ⟨hx.distinct, by simp, by intro e he b hb; rw [List.mem_singleton] at hb; subst hb; rw [hid]; exact hq e he⟩
  · intro _; show s'.queue a.ven ≠ []; rw [hqueue]; simp
  · intro v hv' e he hi
    rcases (hm e).mp he with he | rfl
    · exact hx.told v hv' e he hi
    · exact absurd hi.symm (hv v hv')
  · intro e he n hn
    rcases (hm e).mp he with he | rfl
    · exact hx.below e he n hn
    · rw [hid, hnone] at hn; cases hn
  · intro hf
    rw [hflag] at hf
    cases hf

theorem inStep_cancel {lib : Lib} {ven : String} {x : Sides} (id : String) (hx : InStep lib ven x) :
    InStep lib ven { x with vtn := (cancelEvent x.vtn.1 ven id, x.vtn.2) } := by
  rcases cancelEvent_cases x.vtn.1 ven id with ⟨h, -⟩ | ⟨⟨e0, he0, -⟩, h⟩
  · rw [h]; exact hx
  · have hqueue : (cancelEvent x.vtn.1 ven id).queue ven = updateFirst (hasId id) cancelled (x.vtn.1.queue ven) := by
      rw [h]; simp [Server.queue, Dict.get?_set_self]
    have hflag : (cancelEvent x.vtn.1 ven id).flag ven = true := by rw [h]; simp [Server.flag, Dict.get?_set_self]
    have hext : (cancelEvent x.vtn.1 ven id).external = x.vtn.1.external := by rw [h]
    have hm : ∀ e ∈ (cancelEvent x.vtn.1 ven id).queue ven, ∃ a ∈ x.vtn.1.queue ven, e = a ∨ e = cancelled a := by
      intro e he
      rw [hqueue] at he
      rcases updated_from he with h | ⟨a, h1, -, h2⟩
      · exact ⟨e, h, .inl rfl⟩
      · exact ⟨a, h1, .inr h2⟩
    have hsame : ∀ a : Event, (cancelled a).id = a.id := fun _ => rfl
    have hmore : ∀ a : Event, (cancelled a).modnum = a.modnum + 1 := fun _ => rfl
    refine ⟨hext.trans hx.internal, ?_, ?_, ?_, hx.once, hx.single, hx.known, ?_, ?_, ?_⟩
    · intro e he
      obtain ⟨a, ha, rfl | rfl⟩ := hm e he
      · exact hx.good e ha
      · exact ⟨cancelled_members (hx.good a ha).1, (hx.good a ha).2⟩
    · show Distinct ((cancelEvent x.vtn.1 ven id).queue ven)
      rw [hqueue]; exact distinct_ids (updated_ids _ _) hx.distinct
    · intro _ hnil
      have hl := congrArg List.length (updated_ids id (x.vtn.1.queue ven))
      rw [← hqueue] at hl
      simp only at hnil
      rw [hnil] at hl
      simp only [List.map_nil, List.length_nil, List.length_map] at hl
      rw [List.length_eq_zero_iff.mp hl.symm] at he0
      simp at he0
    · intro v hv e he hi
      obtain ⟨a, ha, rfl | rfl⟩ := hm e he
      · exact hx.told v hv e ha hi
      · exact hx.told v hv a ha hi
    · intro e he n hn
      obtain ⟨a, ha, rfl | rfl⟩ := hm e he
      · exact hx.below e ha n hn
      · obtain ⟨h1, -⟩ := hx.below a ha n hn
        rw [hmore]
        exact ⟨by omega, fun h => by omega⟩
    · intro hf
      rw [hflag] at hf
      cases hf

theorem inStep_other {lib : Lib} {ven : String} {x : Sides} {cache : NonceCache} {s' : Server} {log : List Effect} (hx : InStep lib ven x)
    (hq : s'.queue ven = x.vtn.1.queue ven) (hf : s'.flag ven = x.vtn.1.flag ven) (he : s'.external = x.vtn.1.external) :
    InStep lib ven ⟨cache, (s', log), x.ven, x.calls⟩ := by
  obtain ⟨h1, h2, h3, h4, h5, h6, h7, h8, h9, h10⟩ := hx
  refine ⟨he.trans h1, ?_, ?_, ?_, h5, h6, h7, ?_, ?_, ?_⟩ <;> simp only [hq, hf] <;> assumption

/-- Both the log of the statuses and a clean-up that leaves the events of the VTN. -/
theorem inStep_ven {lib : Lib} {ven : String} {x : Sides} {v : VenState} (hx : InStep lib ven x) (hs : v.Single)
    (hsame : ∀ e ∈ x.vtn.1.queue ven, v.about e.id = x.ven.about e.id) (hless : ∀ id n, v.about id = some n → x.ven.about id = some n)
    (hr : v.responded = x.ven.responded) : InStep lib ven { x with ven := v } := by
  obtain ⟨h1, h2, h3, h4, h5, h6, h7, h8, h9, h10⟩ := hx
  refine ⟨h1, h2, h3, h4, h5, hs, fun id n h => h7 id n (hless id n h), ?_, ?_, ?_⟩
  · intro w hw e he hi
    obtain ⟨n, hn, hle⟩ := h8 w hw e he hi
    refine ⟨n, ?_, hle⟩
    have := hsame e he
    rw [hi, hn] at this
    exact this
  · intro e he n hn
    simp only [hsame e he, hr] at hn ⊢
    exact h9 e he n hn
  · intro hf e he
    rw [show v.about e.id = _ from hsame e he]
    exact h10 hf e he

theorem not_over_iff (e : Event) (t : Int) : determineStatus t e.activePeriod ≠ .completed ↔ ¬ e.overAt t := not_completed_iff _ _

/-- What is handed out: the events of the queue, up to refreshed statuses. -/
theorem handed_from {clock : Nat → Int} {s s1 : Server} {ven : String} {es : List Event} (htake : takeEvents clock s ven = (s1, some es)) {e : Event} (he : e ∈ es) :
    ∃ a ∈ s.queue ven, ∃ j, e = refresh (clock j) (clock (j + 1)) a := by
  obtain ⟨-, h2, -⟩ := takeEvents_spec clock s ven
  rw [htake] at h2
  simp only at h2
  split at h2
  · cases h2
  · simp only [Option.some.injEq] at h2
    subst h2
    refine refreshed_from (i := 0) ?_
    unfold handedOut at he
    split at he
    · exact (List.mem_filter.mp he).1
    · exact (arrange_perm _).mem_iff.mp he

/-- What stays in the queue was handed out, and is not completed. -/
theorem kept_handed {clock : Nat → Int} {s s1 : Server} {ven : String} {es : List Event} (htake : takeEvents clock s ven = (s1, some es)) {e : Event}
    (he : e ∈ s1.queue ven) : e ∈ es ∧ e.status ≠ .completed := by
  obtain ⟨h1, h2, -⟩ := takeEvents_spec clock s ven
  rw [htake] at h1 h2
  simp only at h1 h2
  rw [h1] at he
  split at h2
  · cases h2
  · simp only [Option.some.injEq] at h2
    subst h2
    refine ⟨?_, by simpa [nc] using (List.mem_filter.mp he).2⟩
    unfold handedOut
    split
    · exact he
    · exact (arrange_perm _).mem_iff.mpr (List.mem_filter.mp he).1

theorem handed_distinct {clock : Nat → Int} {s s1 : Server} {ven : String} {es : List Event} (htake : takeEvents clock s ven = (s1, some es))
    (hd : Distinct (s.queue ven)) : Distinct es ∧ Distinct (s1.queue ven) := by
  obtain ⟨h1, h2, -⟩ := takeEvents_spec clock s ven
  rw [htake] at h1 h2
  simp only at h1 h2
  have hr : Distinct (refreshAll clock 0 (s.queue ven)) := distinct_ids (refreshed_ids _ _ _) hd
  split at h2
  · cases h2
  · simp only [Option.some.injEq] at h2
    subst h2
    refine ⟨?_, h1 ▸ hr.filter _⟩
    unfold handedOut
    split
    · exact hr.filter _
    · exact ((arrange_perm _).pairwise_iff (fun h => Ne.symm h)).mpr hr

/-- What a poll needs. -/
structure Ready (lib : Lib) (ven : String) (x : Sides) : Prop where
  internal : x.vtn.1.external = false
  good : ∀ e ∈ x.vtn.1.queue ven, e.Sendable lib ∧ e.Whole
  distinct : Distinct (x.vtn.1.queue ven)
  news : x.vtn.1.flag ven = true → x.vtn.1.queue ven ≠ []
  single : x.ven.Single
  below : ∀ e ∈ x.vtn.1.queue ven, x.ven.about e.id = some e.modnum → ∃ v, Dict.get? x.ven.responded e.id = some v

theorem InStep.ready {lib : Lib} {ven : String} {x : Sides} (hx : InStep lib ven x) : Ready lib ven x :=
  ⟨hx.internal, fun e he => (hx.good e he).1, hx.distinct, hx.news, hx.single, fun e he hn => (hx.below e he _ hn).2 rfl⟩

/-- What a poll does when there is something new. -/
structure Delivered (p : PollSetting) (ven : String) (x y : Sides) (es : List Event) : Prop where
  handed : ∃ s1, takeEvents p.vtnClock x.vtn.1 ven = (s1, some es)
  place : y.cache = x.cache
  internal : y.vtn.1.external = false
  silent : y.vtn.1.flag ven = false
  left : ∀ e ∈ y.vtn.1.queue ven, e ∈ es ∧ e.status ≠ .completed ∧ (e.responseRequired = some "always" → e.status ≠ .cancelled)
  stays : ∀ e ∈ es, e.status ≠ .completed → e.responseRequired ≠ some "always" ∨ e.status ≠ .cancelled → e ∈ y.vtn.1.queue ven
  held : ∀ r ∈ y.ven.received, r ∈ x.ven.received ∨ r ∈ es.map (Event.arrived p.k.lib p.k.serverNow)
  distinct : Distinct (y.vtn.1.queue ven)
  single : y.ven.Single
  current : ∀ e ∈ es, y.ven.about e.id = some e.modnum
  others : ∀ id, (∀ e ∈ es, e.id ≠ id) → y.ven.about id = x.ven.about id
  remembered : ∀ e ∈ es, e.status ≠ .completed → e.status ≠ .cancelled → ∃ v, Dict.get? y.ven.responded e.id = some v
  forgotten : ∀ e ∈ es, e.status = .cancelled → (Dict.keys x.ven.responded).Nodup → Dict.has x.ven.responded e.id = true → Dict.get? y.ven.responded e.id = none
  calls : y.calls = x.calls ++ dueCalls x.ven (es.map (Event.arrived p.k.lib p.k.serverNow))

/-- An event that was handed out is answered. -/
def Event.answered (e : Event) : Prop := e.responseRequired = some "always" ∧ e.status ≠ .completed

instance (e : Event) : Decidable e.answered := inferInstanceAs (Decidable (_ ∧ _))

/-- What the VTN gets to hear in a poll when there is something new: the state `s1` is that in which it handed out the events, and `rs` are the answers. -/
structure Heard (p : PollSetting) (h : VenHandlers) (ven : String) (x y : Sides) (es : List Event) : Prop where
  answers : ∃ s1 rs, s1.callbacks = x.vtn.1.callbacks ∧ y.vtn.1 = (respondAll p.env s1 ven rs).1 ∧ rs.Pairwise (fun a b => a.eventId ≠ b.eventId) ∧
    (∀ r ∈ rs, ∃ e ∈ s1.queue ven, e.id = r.eventId ∧ e.modnum = r.modificationNumber) ∧
    (∀ r ∈ rs, ∃ e ∈ es, e.answered ∧ e.id = r.eventId) ∧ ∀ e ∈ es, e.answered → ∃ r ∈ rs, r.eventId = e.id
  told : Unshared x.vtn.1 → ∃ vs s' effects, vs.length = es.length ∧
    decideAll h x.calls x.ven (es.map (Event.arrived p.k.lib p.k.serverNow)) = (s', y.calls, .ok vs) ∧
    (∀ f ∈ effects, ∃ n, f = .delivered n) ∧
    y.vtn.2 = x.vtn.2 ++ effects ++ ((es.zip vs).filter (fun q => decide q.1.answered)).flatMap (fun q => told x.vtn.1 ven q.1.id (optText q.2))

theorem zipIdx_filter_flatMap {f : α → List β} {P : α → Nat → Bool} {Q : α → Bool} (l : List α) (i : Nat) (h : ∀ a ∈ l, ∀ n, P a n = Q a) :
    ((l.zipIdx i).filter (fun p => P p.1 p.2)).flatMap (fun p => f p.1) = (l.filter Q).flatMap f := by
  induction l generalizing i with
  | nil => rfl
  | cons a l ih =>
    have := ih (i + 1) (fun b hb => h b (by simp [hb]))
    rw [List.zipIdx_cons, List.filter_cons, List.filter_cons, h a (by simp)]
    cases Q a <;> simp [this]

theorem deliverAll_delivered (env : Env) (delivery : List (String × Nat)) (es : List Event) : ∀ f ∈ (deliverAll env delivery es).1, ∃ n, f = .delivered n := by
  induction es with
  | nil => intro f hf; simp [deliverAll] at hf
  | cons e l ih =>
    intro f hf
    simp only [deliverAll] at hf
    split at hf
    · exact ih f hf
    · split at hf
      · exact ⟨_, List.mem_singleton.mp hf⟩
      · rcases List.mem_cons.mp hf with rfl | hf
        · exact ⟨_, rfl⟩
        · exact ih f hf

theorem round_heard {p : PollSetting} {lib : Lib} {h : VenHandlers} (ht : h.Total) {ven : String} {x : Sides} (hx : Ready lib ven x) (hp : p.Fine lib ven x)
    (hflag : x.vtn.1.flag ven = true) : ∃ es, Delivered p ven x (p.round h ven x) es ∧ Heard p h ven x (p.round h ven x) es := by
  obtain ⟨rfl, con, hval, hacc, hlow, hq, hclock, hagree, hlive⟩ := hp
  obtain ⟨s1, es, htake⟩ : ∃ s1 es, takeEvents p.vtnClock x.vtn.1 ven = (s1, some es) := by
    have := (takeEvents_spec p.vtnClock x.vtn.1 ven).2.1
    rw [if_neg (hx.news hflag)] at this
    exact ⟨_, _, Prod.ext rfl this⟩
  have hfrom : ∀ e ∈ es, (e.Sendable p.k.lib ∧ e.Whole) ∧ ∃ a ∈ x.vtn.1.queue ven, ∃ j, e = refresh (p.vtnClock j) (p.vtnClock (j + 1)) a := by
    intro e he
    obtain ⟨a, ha, j, rfl⟩ := handed_from htake he
    exact ⟨refresh_sendable (hclock _) (hx.good a ha), a, ha, j, rfl⟩
  have hasks : ∀ e ∈ es, ∀ i, asksFor p.venClock e i = true ↔ e.responseRequired = some "always" ∧ e.status ≠ .completed := by
    intro e he i
    obtain ⟨-, a, ha, j, rfl⟩ := hfrom e he
    have hdur := refresh_duration (p.vtnClock j) (p.vtnClock (j + 1)) a
    have hper := (refresh_members (p.vtnClock j) (p.vtnClock (j + 1)) a).2.1
    rw [asksFor, decide_eq_true_eq, hdur, hper, refresh_status]
    refine and_congr_right (fun _ => ?_)
    by_cases hc : a.status = .cancelled
    · rw [if_pos hc]
      simpa [Event.overThere] using hlive a ha i hc
    · rw [if_neg hc, not_over_iff, hagree a ha j i hc]
      simp [Event.overThere]
  obtain ⟨hd, hd1⟩ := handed_distinct htake hx.distinct
  have hdel : deliverAll p.env s1.delivery es = ((deliverAll p.env s1.delivery es).1, none) := Prod.ext rfl (deliverAll_quiet _ hq _ _)
  have f1 : s1.external = false := by
    have := (takeEvents_frame p.vtnClock x.vtn.1 ven).1
    rw [htake] at this
    exact this.trans hx.internal
  have hcb : s1.callbacks = x.vtn.1.callbacks := by
    have := (takeEvents_frame p.vtnClock x.vtn.1 ven).2.2.1
    rw [htake] at this
    exact this
  have hes := fun e he => (hfrom e he).1.1
  refine ⟨es, ?_⟩
  by_cases hne : es = []
  · subst hne
    have hpoll := poll_distributes (log := x.vtn.2) con.sound con.venId con.vtnId con.newId con.now con.zero con.letsIn (fun txt => hval _ _ txt)
      (fun txt => hacc _ _ txt) hx.internal hflag htake hdel hes
    have hround : p.round h ven x = ⟨x.cache, ({ s1 with updated := Dict.set s1.updated ven false }, x.vtn.2 ++ (deliverAll p.env s1.delivery []).1), x.ven, x.calls⟩ := by
      rw [PollSetting.round, pollRound, show x.vtn = (x.vtn.1, x.vtn.2) from rfl, hpoll]
      have : readEventMessage (receivedWith (([] : List Event).map (fun e => eventP p.k.lib (e.prepared p.k.serverNow))) p.c.vtnId p.c.newId none) = none := by
        simp [readEventMessage, receivedWith, Dict.get?, Dict.get?_entry?, dicts?]
      simp only [this]
    have hq0 : ∀ e, e ∉ s1.queue ven := fun e he => by simpa using (kept_handed htake he).1
    rw [hround]
    refine ⟨⟨⟨s1, htake⟩, rfl, f1, by simp [Server.flag, Dict.get?_set_self], fun e he => absurd he (hq0 e), by simp, fun r hr => .inl hr, hd1, hx.single, by simp, fun _ _ => rfl, by simp, by simp,
      by simp [dueCalls]⟩, ⟨⟨{ s1 with updated := Dict.set s1.updated ven false }, [], hcb, rfl, .nil, by simp, by simp, by simp⟩, fun _ =>
      ⟨[], x.ven, [], rfl, rfl, by simp, by simp [deliverAll]⟩⟩⟩
  · have hd' : Distinct (es.map (Event.arrived p.k.lib p.k.serverNow)) := List.pairwise_map.mpr hd
    have hrem : Remembered x.ven (es.map (Event.arrived p.k.lib p.k.serverNow)) := by
      intro e' he' r hr hm
      obtain ⟨e, he, rfl⟩ := List.mem_map.mp he'
      obtain ⟨-, a, ha, j, rfl⟩ := hfrom e he
      have hid : ((refresh (p.vtnClock j) (p.vtnClock (j + 1)) a).arrived p.k.lib p.k.serverNow).id = a.id := (refresh_members ..).2.2.1
      have hmod : ((refresh (p.vtnClock j) (p.vtnClock (j + 1)) a).arrived p.k.lib p.k.serverNow).modnum = a.modnum := refresh_modnum ..
      rw [hid] at hr ⊢
      rw [hmod] at hm
      exact hx.below a ha (by simp [VenState.about, hr, hm])
    obtain ⟨s', vs, hda, hlen, -⟩ := decideAll_justified h ht (es.map (Event.arrived p.k.lib p.k.serverNow)) x.calls x.ven hd' hrem
    have hres : resultsOf h x.calls x.ven ⟨.str p.c.vtnId, .str p.c.newId, es.map (Event.arrived p.k.lib p.k.serverNow)⟩ =
        (s', x.calls ++ dueCalls x.ven (es.map (Event.arrived p.k.lib p.k.serverNow)), false, fixResults (es.map (Event.arrived p.k.lib p.k.serverNow)) vs) := by
      unfold resultsOf; simp [hlow, hda]
    have hlen' : vs.length = es.length := by simpa using hlen
    have hround := round_done (h := h) (venClock := p.venClock) con (fun txt => hval _ _ txt) (fun txt => hacc _ _ txt) (fun _ txt _ => hval _ _ txt) hx.internal hflag htake hne
      hdel hes (fun e he => (hfrom e he).1.2)
    simp only at hround
    have hent := entries_onEventMessage h p.venClock x.calls x.ven ⟨.str p.c.vtnId, .str p.c.newId, es.map (Event.arrived p.k.lib p.k.serverNow)⟩
    rw [hres] at hent
    simp only [responsesFor_decided p.k.lib p.k.serverNow p.venClock _ es vs 0 hlen'] at hent
    obtain ⟨hst1, hst2⟩ := onEventMessage_state h p.venClock x.calls x.ven ⟨.str p.c.vtnId, .str p.c.newId, es.map (Event.arrived p.k.lib p.k.serverNow)⟩
    rw [hres] at hst1 hst2
    simp only at hst1 hst2
    rw [hst1, hst2, hent, createdEvent_state, if_neg (by rw [show ({ s1 with updated := Dict.set s1.updated ven false } : Server).external = s1.external from rfl, f1]; simp)] at hround
    generalize hrs : ((((es.zip vs).zipIdx).filter (fun p_1 => asksFor p.venClock p_1.1.1 p_1.2)).map (fun p_1 =>
          (⟨responseCode (p_1.1.1.arrived p.k.lib p.k.serverNow), .str (optText p_1.1.2), .str p.c.newId, p_1.1.1.modnum, p_1.1.1.id⟩ : VenResponse))).map VenResponse.handled = rs at hround
    have hpair : rs.Pairwise (fun a b => a.eventId ≠ b.eventId) := by
      rw [← hrs, List.pairwise_map, List.pairwise_map]; exact pairwise_asked hd
    have hk : ∀ r ∈ rs, ∃ e ∈ s1.queue ven, e.id = r.eventId ∧ e.modnum = r.modificationNumber := by
      intro r hr
      rw [← hrs] at hr
      simp only [List.mem_map] at hr
      obtain ⟨-, ⟨q, hq', rfl⟩, rfl⟩ := hr
      obtain ⟨hq1, hq2⟩ := List.mem_filter.mp hq'
      have hz := List.fst_mem_of_mem_zipIdx (zip_index_mem hq1)
      exact ⟨q.1.1, handed_kept htake hz ((hasks _ hz _).mp hq2).2, rfl, rfl⟩
    have hsaid : ∀ r ∈ rs, ∃ e ∈ es, e.responseRequired = some "always" ∧ e.id = r.eventId := by
      intro r hr
      rw [← hrs] at hr
      simp only [List.mem_map] at hr
      obtain ⟨-, ⟨q, hq', rfl⟩, rfl⟩ := hr
      obtain ⟨hq1, hq2⟩ := List.mem_filter.mp hq'
      have hz := List.fst_mem_of_mem_zipIdx (zip_index_mem hq1)
      exact ⟨q.1.1, hz, ((hasks _ hz _).mp hq2).1, rfl⟩
    have hall : ∀ e ∈ es, e.status ≠ .completed → e.responseRequired = some "always" → ∃ r ∈ rs, r.eventId = e.id := by
      intro e he hc ha
      obtain ⟨i, hi, hei⟩ := List.getElem_of_mem he
      have hi' : i < vs.length := by rw [hlen']; exact hi
      have hz : ((e, vs[i]), i) ∈ (es.zip vs).zipIdx := by
        rw [List.mem_zipIdx_iff_getElem?, List.getElem?_eq_getElem (by simp; omega)]
        simp [hei]
      have hm := List.mem_map_of_mem (f := VenResponse.handled) (List.mem_map_of_mem
        (f := fun p_1 : (Event × Value) × Nat => (⟨responseCode (p_1.1.1.arrived p.k.lib p.k.serverNow), .str (optText p_1.1.2), .str p.c.newId, p_1.1.1.modnum, p_1.1.1.id⟩ : VenResponse))
        (List.mem_filter.mpr ⟨hz, (hasks e he i).mpr ⟨ha, hc⟩⟩ : _ ∈ ((es.zip vs).zipIdx).filter (fun p_1 => asksFor p.venClock p_1.1.1 p_1.2)))
      rw [hrs] at hm
      exact ⟨_, hm, rfl⟩
    have hcanc := respondAll_cancelled p.env hq ven rs { s1 with updated := Dict.set s1.updated ven false } hd1 hpair hk
    obtain ⟨g1, -, -, g4, -⟩ := respondAll_frame p.env { s1 with updated := Dict.set s1.updated ven false } ven rs
    obtain ⟨b1, b2, b3, b4, -⟩ := decideAll_about hx.single hd' hda
    have htold : Unshared x.vtn.1 → _ := fun hun => (round_told (h := h) (venClock := p.venClock) con (fun txt => hval _ _ txt) (fun txt => hacc _ _ txt)
      (fun _ txt _ => hval _ _ txt) hx.internal hflag htake hne hdel hes (fun e he => (hfrom e he).1.2) hd hq hun
      (fun q hq' ha => ((hasks _ (List.fst_mem_of_mem_zipIdx hq') _).mp ha).2) hlen' hres).2.2
    rw [PollSetting.round]
    refine ⟨?_, ⟨?_, fun hun => ?_⟩⟩
    rotate_left
    · rw [hround]
      refine ⟨{ s1 with updated := Dict.set s1.updated ven false }, rs, hcb, rfl, hpair, hk, fun r hr => ?_, fun e he ha => hall e he ha.2 ha.1⟩
      rw [← hrs] at hr
      simp only [List.mem_map] at hr
      obtain ⟨-, ⟨q, hq', rfl⟩, rfl⟩ := hr
      obtain ⟨hq1, hq2⟩ := List.mem_filter.mp hq'
      have hz := List.fst_mem_of_mem_zipIdx (zip_index_mem hq1)
      exact ⟨q.1.1, hz, (hasks _ hz _).mp hq2, rfl⟩
    · refine ⟨vs, s', (deliverAll p.env s1.delivery es).1, hlen', ?_, deliverAll_delivered _ _ _, ?_⟩
      · rw [hround]; exact hda
      · rw [htold hun]
        congr 1
        refine zipIdx_filter_flatMap (f := fun q : Event × Value => told x.vtn.1 ven q.1.id (optText q.2)) (P := fun q n => asksFor p.venClock q.1 n)
          (Q := fun q => decide q.1.answered) (es.zip vs) 0 (fun q hq' n => ?_)
        rw [Bool.eq_iff_iff, decide_eq_true_eq]
        exact hasks q.1 (List.of_mem_zip (show (q.1, q.2) ∈ _ from hq')).1 n
    rw [hround]
    refine ⟨⟨s1, htake⟩, rfl, g4.trans f1, ?_, ?_, ?_, ?_, ?_, b1, ?_, ?_, ?_, ?_, rfl⟩
    · show Server.flag _ ven = false
      simp only [Server.flag, g1, Dict.get?_set_self, Option.getD_some]
    · intro e he
      have hs1 := respondAll_sub p.env { s1 with updated := Dict.set s1.updated ven false } ven ven rs e he
      obtain ⟨k1, k2⟩ := kept_handed htake hs1
      refine ⟨k1, k2, fun ha hc => ?_⟩
      obtain ⟨r, hr, hri⟩ := hall e k1 k2 ha
      exact hcanc e he hc r hr hri
    · intro e he hc hn
      refine respondAll_mem p.env { s1 with updated := Dict.set s1.updated ven false } ven rs e (handed_kept htake he hc) ?_
      rintro ⟨⟨r, hr, hri⟩, ⟨a', ha', h3, h4⟩⟩
      obtain ⟨a, ha, h1, h2⟩ := hsaid r hr
      rw [same_of_ids hd ha he (h2.trans hri)] at h1
      rw [same_of_ids hd (kept_handed htake ha').1 he h3] at h4
      exact hn.elim (fun g => g h1) (fun g => g h4)
    · have := decideAll_received h (es.map (Event.arrived p.k.lib p.k.serverNow)) x.calls x.ven
      rw [hda] at this
      exact this
    · exact hd1.sublist (respondAll_sublist p.env { s1 with updated := Dict.set s1.updated ven false } ven ven rs)
    · intro e he; exact b2 (e.arrived p.k.lib p.k.serverNow) (List.mem_map_of_mem he)
    · intro id hid
      refine b3 id (fun e' he' => ?_)
      obtain ⟨e, he, rfl⟩ := List.mem_map.mp he'
      exact hid e he
    · intro e he h1 h2
      exact b4 (e.arrived p.k.lib p.k.serverNow) (List.mem_map_of_mem he) h1 h2
    · intro e he hc hn hh
      exact decideAll_erases hd' hda (e := e.arrived p.k.lib p.k.serverNow) (List.mem_map_of_mem he) hc hn hh

theorem round_delivers {p : PollSetting} {lib : Lib} {h : VenHandlers} (ht : h.Total) {ven : String} {x : Sides} (hx : Ready lib ven x) (hp : p.Fine lib ven x)
    (hflag : x.vtn.1.flag ven = true) : ∃ es, Delivered p ven x (p.round h ven x) es :=
  (round_heard ht hx hp hflag).imp (fun _ d => d.1)

theorem versions_append (a b : List VenCall) : versions (a ++ b) = versions a ++ versions b := List.map_append

theorem mem_due {lib : Lib} {now : Int} {s : VenState} {es : List Event} {v : String × Int} :
    v ∈ versions (dueCalls s (es.map (Event.arrived lib now))) ↔ ∃ e ∈ es, s.about e.id ≠ some e.modnum ∧ (e.id, e.modnum) = v := by
  rw [dueCalls_versions]
  constructor
  · intro hv
    obtain ⟨e', he', rfl⟩ := List.mem_map.mp hv
    obtain ⟨h1, h2⟩ := List.mem_filter.mp he'
    obtain ⟨e, he, rfl⟩ := List.mem_map.mp h1
    exact ⟨e, he, of_decide_eq_true h2, rfl⟩
  · rintro ⟨e, he, h1, rfl⟩
    exact List.mem_map.mpr ⟨e.arrived lib now, List.mem_filter.mpr ⟨List.mem_map_of_mem he, decide_eq_true h1⟩, rfl⟩

theorem due_nodup {lib : Lib} {now : Int} {s : VenState} {es : List Event} (hd : Distinct es) : (versions (dueCalls s (es.map (Event.arrived lib now)))).Nodup := by
  rw [dueCalls_versions]
  refine List.pairwise_map.mpr (List.Pairwise.filter _ (List.pairwise_map.mpr (List.Pairwise.imp ?_ hd)))
  intro a b hab h
  exact hab (Prod.mk.inj h).1

theorem inStep_poll {p : PollSetting} {lib : Lib} {h : VenHandlers} (ht : h.Total) {ven : String} {x : Sides} (hx : InStep lib ven x) (hp : p.Fine lib ven x) :
    InStep lib ven (p.round h ven x) := by
  cases hflag : x.vtn.1.flag ven with
  | false =>
    have : p.round h ven x = x := c87_nothing_new hp.con (fun txt => hp.asked _ _ txt) (fun q txt => hp.taken _ q txt) hx.internal hflag
    rw [this]; exact hx
  | true =>
    obtain ⟨es, d⟩ := round_delivers ht hx.ready hp hflag
    obtain ⟨s1, htake⟩ := d.handed
    obtain ⟨hd, -⟩ := handed_distinct htake hx.distinct
    have hbelow : ∀ e ∈ es, ∀ n, x.ven.about e.id = some n → n ≤ e.modnum := by
      intro e he n hn
      obtain ⟨a, ha, j, rfl⟩ := handed_from htake he
      rw [(refresh_members ..).2.2.1] at hn
      rw [refresh_modnum]
      exact (hx.below a ha n hn).1
    have htold : ∀ v ∈ versions x.calls, ∀ e ∈ es, e.id = v.1 → ∃ n, x.ven.about v.1 = some n ∧ v.2 ≤ n := by
      intro v hv e he hid
      obtain ⟨a, ha, j, rfl⟩ := handed_from htake he
      rw [(refresh_members ..).2.2.1] at hid
      exact hx.told v hv a ha hid
    refine ⟨d.internal, ?_, d.distinct, ?_, ?_, d.single, ?_, ?_, ?_, ?_⟩
    · intro e he
      obtain ⟨a, ha, j, rfl⟩ := handed_from htake (d.left e he).1
      obtain ⟨g1, g2⟩ := hx.good a ha
      exact ⟨refresh_sendable (hp.clock _) g1, by rw [(refresh_members ..).2.2.2]; exact g2⟩
    · rw [d.silent]; simp
    · rw [d.calls, versions_append, List.nodup_append]
      refine ⟨hx.once, due_nodup hd, ?_⟩
      rintro v hv w hw rfl
      obtain ⟨e, he, h1, rfl⟩ := mem_due.mp hw
      obtain ⟨n, h2, h3⟩ := htold _ hv e he rfl
      have h4 := hbelow e he n h2
      simp only at h2 h3
      exact h1 (by rw [h2, Int.le_antisymm h4 h3])
    · intro id n hn
      rw [d.calls, versions_append, List.mem_append]
      by_cases hid : ∀ e ∈ es, e.id ≠ id
      · rw [d.others id hid] at hn
        exact .inl (hx.known id n hn)
      · have : ∃ e ∈ es, e.id = id := by simpa using hid
        obtain ⟨e, he, rfl⟩ := this
        rw [d.current e he, Option.some.injEq] at hn
        subst hn
        by_cases h1 : x.ven.about e.id = some e.modnum
        · exact .inl (hx.known _ _ h1)
        · exact .inr (mem_due.mpr ⟨e, he, h1, rfl⟩)
    · intro v hv e he hid
      have hes := (d.left e he).1
      rw [d.calls, versions_append, List.mem_append] at hv
      refine ⟨e.modnum, by rw [← hid]; exact d.current e hes, ?_⟩
      rcases hv with hv | hv
      · obtain ⟨n, h2, h3⟩ := htold v hv e hes hid
        exact Int.le_trans h3 (hbelow e hes n (by rw [hid]; exact h2))
      · obtain ⟨e', he', -, rfl⟩ := mem_due.mp hv
        rw [same_of_ids hd hes he' hid]
        exact Int.le_refl _
    · intro e he n hn
      obtain ⟨h1, h2, h3⟩ := d.left e he
      rw [d.current e h1, Option.some.injEq] at hn
      refine ⟨by omega, fun _ => d.remembered e h1 h2 (h3 ?_)⟩
      obtain ⟨a, ha, j, rfl⟩ := handed_from htake h1
      rw [(refresh_members ..).2.2.2]
      exact (hx.good a ha).2
    · intro _ e he
      exact d.current e (d.left e he).1

theorem inStep_log {lib : Lib} {ven : String} {x : Sides} (clock : Nat → Int) (ih : InStep lib ven x) :
    InStep lib ven { x with ven := { x.ven with received := statusLog clock 0 x.ven.received } } := by
  refine inStep_ven ih (fun id => ?_) (fun e _ => statusLog_about clock x.ven e.id) (fun id n h => by rwa [statusLog_about] at h) rfl
  have hl := congrArg List.length (ofId_statusLog id clock x.ven.received 0)
  simp only [List.length_map] at hl
  rw [hl]; exact ih.single id

theorem inStep_forget {lib : Lib} {ven : String} {x : Sides} (clock : Nat → Int) (ih : InStep lib ven x)
    (hf : ∀ e ∈ x.vtn.1.queue ven, ∀ r ∈ x.ven.received, r.id = e.id → r ∈ cleanup clock x.ven.received) :
    InStep lib ven { x with ven := { x.ven with received := cleanup clock x.ven.received } } := by
  have hsub := cleanup_sublist clock x.ven.received
  have hs : VenState.Single { x.ven with received := cleanup clock x.ven.received } := fun id =>
    Nat.le_trans (List.Sublist.length_le (hsub.filter _)) (ih.single id)
  have hless : ∀ id n, VenState.about { x.ven with received := cleanup clock x.ven.received } id = some n → x.ven.about id = some n := by
    intro id n hn
    obtain ⟨r, h1, h2⟩ := (about_mem hs).mp hn
    exact (about_mem ih.single).mpr ⟨r, hsub.subset h1, h2⟩
  refine inStep_ven ih hs (fun e he => ?_) hless rfl
  cases hv : x.ven.about e.id with
  | none =>
    cases hw : VenState.about { x.ven with received := cleanup clock x.ven.received } e.id with
    | none => rfl
    | some n => rw [hless _ _ hw] at hv; cases hv
  | some n =>
    obtain ⟨r, h1, h2, h3⟩ := (about_mem ih.single).mp hv
    exact (about_mem hs).mpr ⟨r, hf e he r h1 h2, h2, h3⟩

theorem lived_inStep {lib : Lib} {h : VenHandlers} {ven : String} {x : Sides} (ht : h.Total) (hx : Lived lib h ven x) : InStep lib ven x := by
  induction hx with
  | start cache log => exact inStep_start lib ven cache log
  | add _ h1 h2 h3 h4 h5 h6 ih => subst h2; exact inStep_add ih h1 h3 h4 h5 h6
  | cancel id _ ih => exact inStep_cancel id ih
  | other _ h1 h2 h3 ih => exact inStep_other ih h1 h2 h3
  | log clock _ ih => exact inStep_log clock ih
  | forget clock _ hf ih => exact inStep_forget clock ih hf
  | poll p _ hp ih => exact inStep_poll ht ih hp

/-! ### The theorems -/

/-- **C91** (partial: every event asks for an answer, no id is used twice, handlers and user code do not raise, both sides agree about which events are over, and the
    VEN cleans up no event that the VTN still has). However a history went, the handlers were called at most once for each version of each event. -/
theorem c91_once_partial {lib : Lib} {h : VenHandlers} (ht : h.Total) {ven : String} {x : Sides} (hx : Lived lib h ven x) (id : String) (n : Int) :
    timesCalled x.calls id n ≤ 1 := by
  rw [timesCalled_versions]
  exact List.nodup_iff_count.mp (lived_inStep ht hx).once _

/-- An event that is not over is handed out. -/
theorem running_handed {clock : Nat → Int} {s s1 : Server} {ven : String} {es : List Event} (htake : takeEvents clock s ven = (s1, some es)) {e : Event}
    (he : e ∈ s.queue ven) (hr : e.status = .cancelled ∨ ∀ i, ¬ e.overAt (clock i)) : ∃ j, refresh (clock j) (clock (j + 1)) e ∈ es := by
  obtain ⟨-, h2, -⟩ := takeEvents_spec clock s ven
  rw [htake] at h2
  simp only at h2
  split at h2
  · cases h2
  · simp only [Option.some.injEq] at h2
    subst h2
    obtain ⟨j, hj⟩ := refreshed_all (clock := clock) (i := 0) he
    refine ⟨j, ?_⟩
    unfold handedOut
    split
    · refine List.mem_filter.mpr ⟨hj, ?_⟩
      simp only [nc, refresh_status, decide_eq_true_eq, ne_eq]
      split
      · simp
      · rename_i hc
        rcases hr with hr | hr
        · exact absurd hr hc
        · exact (not_over_iff e _).mpr (hr j)
    · exact (arrange_perm _).mem_iff.mpr hj

theorem inStep_keeps_up {p : PollSetting} {lib : Lib} {h : VenHandlers} (ht : h.Total) {ven : String} {x : Sides} (hi : InStep lib ven x) (hp : p.Fine lib ven x)
    {e : Event} (he : e ∈ x.vtn.1.queue ven) (hr : e.status = .cancelled ∨ ∀ i, ¬ e.overAt (p.vtnClock i)) :
    timesCalled (p.round h ven x).calls e.id e.modnum = 1 := by
  have hi' := inStep_poll ht hi hp
  rw [timesCalled_versions]
  refine Nat.le_antisymm (List.nodup_iff_count.mp hi'.once _) (List.count_pos_iff.mpr ?_)
  cases hflag : x.vtn.1.flag ven with
  | false =>
    have : p.round h ven x = x := c87_nothing_new hp.con (fun txt => hp.asked _ _ txt) (fun q txt => hp.taken _ q txt) hi.internal hflag
    rw [this]
    exact hi.known _ _ (hi.current hflag e he)
  | true =>
    obtain ⟨es, d⟩ := round_delivers ht hi.ready hp hflag
    obtain ⟨s1, htake⟩ := d.handed
    obtain ⟨j, hj⟩ := running_handed htake he hr
    have := hi'.known _ _ (d.current _ hj)
    rwa [refresh_modnum, (refresh_members ..).2.2.1] at this

/-- **C91** (partial: as for `c91_once_partial`). After a poll, whatever happened before, the handlers were called exactly once for the current version of each event
    that the VTN had for this VEN, if it is cancelled or not over. -/
theorem c91_keeps_up_partial {p : PollSetting} {lib : Lib} {h : VenHandlers} (ht : h.Total) {ven : String} {x : Sides} (hx : Lived lib h ven x) (hp : p.Fine lib ven x)
    {e : Event} (he : e ∈ x.vtn.1.queue ven) (hr : e.status = .cancelled ∨ ∀ i, ¬ e.overAt (p.vtnClock i)) :
    timesCalled (p.round h ven x).calls e.id e.modnum = 1 := inStep_keeps_up ht (lived_inStep ht hx) hp he hr

/-- The calls are in order: `on_event` is called first and only once, `on_update_event` after it, and for rising versions. -/
def CallsInOrder (calls : List VenCall) : Prop := ∀ before c after, calls = before ++ c :: after →
  (∀ d ∈ before, d.event.id = c.event.id → d.event.modnum < c.event.modnum) ∧ ((∃ e, c = .onEvent e) ↔ ∀ d ∈ before, d.event.id ≠ c.event.id)

theorem callsInOrder_append {a b : List VenCall} (ha : CallsInOrder a)
    (hb : ∀ before c after, b = before ++ c :: after → (∀ d ∈ a ++ before, d.event.id = c.event.id → d.event.modnum < c.event.modnum) ∧
      ((∃ e, c = .onEvent e) ↔ ∀ d ∈ a ++ before, d.event.id ≠ c.event.id)) : CallsInOrder (a ++ b) := by
  intro before c after h
  rcases List.append_eq_append_iff.mp h with ⟨l, h1, h2⟩ | ⟨l, h1, h2⟩
  · subst h1
    exact hb l c after h2
  · cases l with
    | nil =>
      simp only [List.append_nil, List.nil_append] at h1 h2
      subst h1
      have := hb [] c after h2.symm
      rwa [List.append_nil] at this
    | cons c' l =>
      simp only [List.cons_append, List.cons.injEq] at h2
      obtain ⟨rfl, -⟩ := h2
      exact ha before c l h1

/-- The calls of a message, one after the other. -/
theorem due_split {s : VenState} {es : List Event} (hd : Distinct es) {before after : List VenCall} {c : VenCall} (h : dueCalls s es = before ++ c :: after) :
    (∀ d ∈ before, d.event.id ≠ c.event.id) ∧ c.event ∈ es ∧ s.about c.event.id ≠ some c.event.modnum ∧ ((∃ e, c = .onEvent e) ↔ s.about c.event.id = none) := by
  induction es generalizing before with
  | nil => simp [dueCalls] at h
  | cons e es ih =>
    rw [Distinct, List.pairwise_cons] at hd
    have hcons : dueCalls s (e :: es) = (match s.received.find? (fun r => decide (r.id = e.id)) with
      | some r => if r.modnum = e.modnum then [] else [.onUpdate e]
      | none => [.onEvent e]) ++ dueCalls s es := by
      unfold dueCalls
      rw [List.filterMap_cons]
      cases s.received.find? (fun r => decide (r.id = e.id)) with
      | none => rfl
      | some r => by_cases hm : r.modnum = e.modnum <;> simp [hm]
    have key : ∀ (c0 : VenCall), c0.event = e → c0 :: dueCalls s es = before ++ c :: after → (s.about e.id ≠ some e.modnum ∧ ((∃ a, c0 = .onEvent a) ↔ s.about e.id = none)) →
        (∀ d ∈ before, d.event.id ≠ c.event.id) ∧ c.event ∈ e :: es ∧ s.about c.event.id ≠ some c.event.modnum ∧ ((∃ a, c = .onEvent a) ↔ s.about c.event.id = none) := by
      intro c0 hc0 h hs
      cases before with
      | nil =>
        simp only [List.nil_append, List.cons.injEq] at h
        obtain ⟨rfl, -⟩ := h
        rw [hc0]
        exact ⟨by simp, by simp, hs⟩
      | cons d l =>
        simp only [List.cons_append, List.cons.injEq] at h
        obtain ⟨rfl, h'⟩ := h
        obtain ⟨h1, h2, h3⟩ := ih hd.2 h'
        refine ⟨?_, by simp [h2], h3⟩
        intro d hd'
        rcases List.mem_cons.mp hd' with rfl | hd'
        · rw [hc0]; exact hd.1 _ h2
        · exact h1 d hd'
    rw [hcons] at h
    cases hf : s.received.find? (fun r => decide (r.id = e.id)) with
    | none =>
      simp only [hf] at h
      exact key (.onEvent e) rfl h ⟨by simp [VenState.about, hf], by simp [VenState.about, hf]⟩
    | some r =>
      simp only [hf] at h
      split at h
      · obtain ⟨h1, h2, h3⟩ := ih hd.2 h
        exact ⟨h1, by simp [h2], h3⟩
      · rename_i hm
        exact key (.onUpdate e) rfl h ⟨by simp [VenState.about, hf, hm], by simp [VenState.about, hf]⟩

theorem inStep_ordered {p : PollSetting} {lib : Lib} {h : VenHandlers} (ht : h.Total) {ven : String} {x : Sides} (hi : InStep lib ven x) (hp : p.Fine lib ven x)
    (ih : CallsInOrder x.calls) : CallsInOrder (p.round h ven x).calls := by
  cases hflag : x.vtn.1.flag ven with
  | false =>
    have : p.round h ven x = x := c87_nothing_new hp.con (fun txt => hp.asked _ _ txt) (fun q txt => hp.taken _ q txt) hi.internal hflag
    rw [this]; exact ih
  | true =>
    obtain ⟨es, d⟩ := round_delivers ht hi.ready hp hflag
    obtain ⟨s1, htake⟩ := d.handed
    obtain ⟨hd, -⟩ := handed_distinct htake hi.distinct
    rw [d.calls]
    refine callsInOrder_append ih (fun before c after hs => ?_)
    have hd' : Distinct (es.map (Event.arrived p.k.lib p.k.serverNow)) := List.pairwise_map.mpr hd
    obtain ⟨h1, h2, h3, h4⟩ := due_split hd' hs
    obtain ⟨e, he, hce⟩ := List.mem_map.mp h2
    obtain ⟨a, ha, j, rfl⟩ := handed_from htake he
    have hid : c.event.id = a.id := by rw [← hce]; exact (refresh_members ..).2.2.1
    have hmod : c.event.modnum = a.modnum := by rw [← hce]; exact refresh_modnum ..
    have htold : ∀ d ∈ x.calls, d.event.id = c.event.id → ∃ n, x.ven.about c.event.id = some n ∧ d.event.modnum ≤ n := by
      intro d hd' hdi
      have := hi.told (d.event.id, d.event.modnum) (List.mem_map.mpr ⟨d, hd', rfl⟩) a ha (by rw [← hid, ← hdi])
      rwa [hdi] at this
    constructor
    · intro d hd' hdi
      rcases List.mem_append.mp hd' with hd' | hd'
      · obtain ⟨n, g1, g2⟩ := htold d hd' hdi
        have g3 := (hi.below a ha n (by rw [← hid]; exact g1)).1
        have g4 : n ≠ c.event.modnum := fun hn => h3 (by rw [g1, hn])
        rw [hmod] at g4 ⊢
        omega
      · exact absurd hdi (h1 d hd')
    · rw [h4]
      constructor
      · intro hn d hd' hdi
        rcases List.mem_append.mp hd' with hd' | hd'
        · obtain ⟨n, g1, -⟩ := htold d hd' hdi
          rw [hn] at g1; cases g1
        · exact h1 d hd' hdi
      · intro hno
        cases hab : x.ven.about c.event.id with
        | none => rfl
        | some n =>
          obtain ⟨d, hd', hdv⟩ := List.mem_map.mp (hi.known _ _ hab)
          exact absurd (Prod.mk.inj hdv).1 (hno d (by simp [hd']))

/-- **C91** (partial: as for `c91_once_partial`). `on_event` is called for the first version of an event that the VEN hears of and never again for this event, and
    `on_update_event` for later versions, each newer than all before. -/
theorem c91_in_order_partial {lib : Lib} {h : VenHandlers} (ht : h.Total) {ven : String} {x : Sides} (hx : Lived lib h ven x) : CallsInOrder x.calls := by
  induction hx with
  | start => intro before c after h; simp at h
  | add _ _ _ _ _ _ _ ih => exact ih
  | cancel _ _ ih => exact ih
  | other _ _ _ _ ih => exact ih
  | log _ _ ih => exact ih
  | forget _ _ _ ih => exact ih
  | poll p hx hp ih => exact inStep_ordered ht (lived_inStep ht hx) hp ih

/-! ### Events that the VEN forgets -/

/-- **C91, refuted** for a VEN that cleans up an event which the VTN still has (an event that is over stays with the VTN until something new is distributed): when it is
    distributed again, together with something new, `on_event` is called a second time for the same version. -/
theorem c91_forgotten_violated {p : PollSetting} {lib : Lib} {h : VenHandlers} (ht : h.Total) {ven : String} {x : Sides} (hx : Lived lib h ven x) (clock : Nat → Int)
    {e : Event} (he : e ∈ x.vtn.1.queue ven) (htwo : (x.vtn.1.queue ven).length ≠ 1) (hflag : x.vtn.1.flag ven = true)
    (hcalled : timesCalled x.calls e.id e.modnum = 1) (hgone : ∀ r ∈ cleanup clock x.ven.received, r.id ≠ e.id)
    (hp : p.Fine lib ven { x with ven := { x.ven with received := cleanup clock x.ven.received } }) :
    timesCalled (p.round h ven { x with ven := { x.ven with received := cleanup clock x.ven.received } }).calls e.id e.modnum = 2 ∧
      ∃ new e', (p.round h ven { x with ven := { x.ven with received := cleanup clock x.ven.received } }).calls = x.calls ++ new ∧
        .onEvent e' ∈ new ∧ e'.id = e.id ∧ e'.modnum = e.modnum := by
  have hi := lived_inStep ht hx
  have hsub := cleanup_sublist clock x.ven.received
  generalize hy : ({ x with ven := { x.ven with received := cleanup clock x.ven.received } } : Sides) = y at hp ⊢
  have yv : y.vtn = x.vtn := by rw [← hy]
  have yc : y.calls = x.calls := by rw [← hy]
  have yr : y.ven.received = cleanup clock x.ven.received := by rw [← hy]
  have yd : y.ven.responded = x.ven.responded := by rw [← hy]
  have hs : y.ven.Single := fun id => by
    rw [yr]; exact Nat.le_trans (List.Sublist.length_le (hsub.filter _)) (hi.single id)
  have hready : Ready lib ven y := by
    refine ⟨by rw [yv]; exact hi.internal, fun e he => (hi.good e (by rwa [yv] at he)).1, by rw [yv]; exact hi.distinct, by rw [yv]; exact hi.news, hs, ?_⟩
    intro e he hn
    rw [yv] at he
    rw [yd]
    obtain ⟨r, h1, h2⟩ := (about_mem hs).mp hn
    rw [yr] at h1
    exact (hi.below e he _ ((about_mem hi.single).mpr ⟨r, hsub.subset h1, h2⟩)).2 rfl
  obtain ⟨es, d⟩ := round_delivers ht hready hp (by rw [yv]; exact hflag)
  obtain ⟨s1, htake⟩ := d.handed
  rw [yv] at htake
  obtain ⟨hd, -⟩ := handed_distinct htake hi.distinct
  obtain ⟨j, hj⟩ : ∃ j, refresh (p.vtnClock j) (p.vtnClock (j + 1)) e ∈ es := by
    have h2 := (takeEvents_spec p.vtnClock x.vtn.1 ven).2.1
    rw [htake, if_neg (hi.news hflag)] at h2
    simp only [Option.some.injEq] at h2
    subst h2
    obtain ⟨j, hj⟩ := refreshed_all (clock := p.vtnClock) (i := 0) he
    refine ⟨j, ?_⟩
    have hlen : (refreshAll p.vtnClock 0 (x.vtn.1.queue ven)).length ≠ 1 := by
      have := congrArg List.length (refreshed_ids p.vtnClock 0 (x.vtn.1.queue ven))
      simp only [List.length_map] at this
      omega
    rw [handedOut, if_neg hlen]
    exact (arrange_perm _).mem_iff.mpr hj
  have hid : (refresh (p.vtnClock j) (p.vtnClock (j + 1)) e).id = e.id := (refresh_members ..).2.2.1
  have hnone : y.ven.received.find? (fun r => decide (r.id = e.id)) = none := by
    rw [List.find?_eq_none, yr]
    intro r hr
    simpa using hgone r hr
  have hab : y.ven.about e.id = none := by rw [VenState.about, hnone]; rfl
  have hdue : (e.id, e.modnum) ∈ versions (dueCalls y.ven (es.map (Event.arrived p.k.lib p.k.serverNow))) :=
    mem_due.mpr ⟨_, hj, by rw [hid, hab]; simp, by rw [hid, refresh_modnum]⟩
  refine ⟨?_, dueCalls y.ven (es.map (Event.arrived p.k.lib p.k.serverNow)), (refresh (p.vtnClock j) (p.vtnClock (j + 1)) e).arrived p.k.lib p.k.serverNow, ?_, ?_, hid,
    refresh_modnum ..⟩
  · rw [timesCalled_versions] at hcalled ⊢
    rw [d.calls, yc, versions_append, List.count_append, hcalled]
    have h1 := List.nodup_iff_count.mp (due_nodup (lib := p.k.lib) (now := p.k.serverNow) (s := y.ven) hd) (e.id, e.modnum)
    have h2 := List.count_pos_iff.mpr hdue
    omega
  · rw [d.calls, yc]
  · refine List.mem_filterMap.mpr ⟨_, List.mem_map_of_mem hj, ?_⟩
    have : ((refresh (p.vtnClock j) (p.vtnClock (j + 1)) e).arrived p.k.lib p.k.serverNow).id = e.id := hid
    simp only [this, hnone]

theorem decideAll_append {h : VenHandlers} {a b : List Event} {calls c1 : List VenCall} {s s1 : VenState} {vs : List Value}
    (ha : decideAll h calls s a = (s1, c1, .ok vs)) :
    (decideAll h calls s (a ++ b)).1 = (decideAll h c1 s1 b).1 ∧ (decideAll h calls s (a ++ b)).2.1 = (decideAll h c1 s1 b).2.1 ∧
      ∀ err, (decideAll h c1 s1 b).2.2 = .error err → (decideAll h calls s (a ++ b)).2.2 = .error err := by
  induction a generalizing calls s s1 c1 vs with
  | nil =>
    simp only [decideAll, Prod.mk.injEq] at ha
    obtain ⟨rfl, rfl, -⟩ := ha
    exact ⟨rfl, rfl, fun _ h => h⟩
  | cons e a ih =>
    simp only [List.cons_append, decideAll] at ha ⊢
    cases hde : decideEvent h calls s e with
    | mk s2 x =>
      obtain ⟨c2, r2⟩ := x
      rw [hde] at ha
      cases r2 with
      | error err => simp at ha
      | ok v =>
        simp only at ha ⊢
        cases hrest : decideAll h c2 { s2 with responded := remember s2.responded e v } a with
        | mk s3 y =>
          obtain ⟨c3, r3⟩ := y
          rw [hrest] at ha
          cases r3 with
          | error err => simp at ha
          | ok ws =>
            simp only [Prod.mk.injEq] at ha
            obtain ⟨rfl, rfl, -⟩ := ha
            obtain ⟨i1, i2, i3⟩ := ih hrest
            cases hall : decideAll h c2 { s2 with responded := remember s2.responded e v } (a ++ b) with
            | mk s4 z =>
              obtain ⟨c4, r4⟩ := z
              rw [hall] at i1 i2 i3
              cases r4 with
              | error err => exact ⟨i1, i2, fun err h => by simpa using i3 err h⟩
              | ok us => exact ⟨i1, i2, fun err h => by simpa using i3 err h⟩

/-- The events before the first one without a decision are handled as usual, those behind it are not looked at. -/
theorem decideAll_stops {h : VenHandlers} (ht : h.Total) {before after : List Event} {e : Event} {calls : List VenCall} {s : VenState} (hs : s.Single)
    (hd : Distinct (before ++ e :: after)) (hrem : Remembered s before) (hf : Forgotten s e) :
    (decideAll h calls s (before ++ e :: after)).2 = (calls ++ dueCalls s before, .error .keyError) := by
  obtain ⟨h1, -, h3⟩ := List.pairwise_append.mp hd
  obtain ⟨s', vs, hda, -⟩ := decideAll_justified h ht before calls s h1 hrem
  obtain ⟨-, -, b3, -, -⟩ := decideAll_about hs h1 hda
  obtain ⟨r, hr, hm, hn⟩ := hf
  have hne : ∀ a ∈ before, a.id ≠ e.id := fun a ha => h3 a ha e (by simp)
  have hab : s'.about e.id = some e.modnum := by rw [b3 _ hne, VenState.about, hr, ← hm]; rfl
  have hresp : Dict.get? s'.responded e.id = none := by rw [decideAll_untouched hda hne, hn]
  obtain ⟨r', hr', hm'⟩ : ∃ r', s'.received.find? (fun r => decide (r.id = e.id)) = some r' ∧ r'.modnum = e.modnum := by
    rw [VenState.about, Option.map_eq_some_iff] at hab
    exact hab
  have hstop : decideAll h (calls ++ dueCalls s before) s' (e :: after) = (s', calls ++ dueCalls s before, .error .keyError) := by
    simp only [decideAll, decideEvent, hr', hm', if_true, hresp]
  obtain ⟨-, a2, a3⟩ := decideAll_append (b := e :: after) hda
  rw [hstop] at a2 a3
  exact Prod.ext a2 (a3 _ rfl)

/-- How it comes to that: an event that asks for no answer is cancelled. The VEN is told and forgets its decision, and the VTN keeps the event, because nothing removes
    a cancelled event but an answer to it. -/
theorem c91_never_kept {p : PollSetting} {lib : Lib} {h : VenHandlers} (ht : h.Total) {ven : String} {x : Sides} (hx : Ready lib ven x) (hp : p.Fine lib ven x)
    (hflag : x.vtn.1.flag ven = true) {e : Event} (he : e ∈ x.vtn.1.queue ven) (hc : e.status = .cancelled) (hr : e.responseRequired ≠ some "always")
    (hn : (Dict.keys x.ven.responded).Nodup) (hh : Dict.has x.ven.responded e.id = true) :
    (∃ e' ∈ (p.round h ven x).vtn.1.queue ven, e'.id = e.id ∧ e'.modnum = e.modnum ∧ e'.status = .cancelled ∧ Forgotten (p.round h ven x).ven e') := by
  obtain ⟨es, d⟩ := round_delivers ht hx hp hflag
  obtain ⟨s1, htake⟩ := d.handed
  obtain ⟨j, hj⟩ := running_handed htake he (.inl hc)
  obtain ⟨-, -, h1, h2⟩ := refresh_members (p.vtnClock j) (p.vtnClock (j + 1)) e
  have h3 : (refresh (p.vtnClock j) (p.vtnClock (j + 1)) e).status = .cancelled := by rw [refresh_status, if_pos hc]
  refine ⟨_, d.stays _ hj (by rw [h3]; simp) (.inl (by rw [h2]; exact hr)), h1, refresh_modnum .., h3, ?_⟩
  have hab := d.current _ hj
  rw [VenState.about, Option.map_eq_some_iff] at hab
  obtain ⟨r, hr1, hr2⟩ := hab
  exact ⟨r, hr1, hr2, d.forgotten _ hj h3 hn (by rw [h1]; exact hh)⟩

/-- **C91, refuted** for events that ask for no answer (`response_required` is "never") and are cancelled: the next message that has such an event again, because of
    something new, reaches the handlers only as far as that event. No handler is called for the events behind it, new or not, and no later poll brings them unless
    something else changes. -/
theorem c91_never_violated {p : PollSetting} {lib : Lib} {h : VenHandlers} (ht : h.Total) {ven : String} {x : Sides} (hp : p.Fine lib ven x)
    (hint : x.vtn.1.external = false) (hgood : ∀ e ∈ x.vtn.1.queue ven, e.Sendable lib ∧ e.Whole) (hdist : Distinct (x.vtn.1.queue ven)) (hs : x.ven.Single)
    (hflag : x.vtn.1.flag ven = true) {s1 : Server} {before after : List Event} {e : Event}
    (htake : takeEvents p.vtnClock x.vtn.1 ven = (s1, some (before ++ e :: after))) (hrem : Remembered x.ven before) (hf : Forgotten x.ven e) :
    (p.round h ven x).calls = x.calls ++ dueCalls x.ven (before.map (Event.arrived p.k.lib p.k.serverNow)) ∧
      (∀ b ∈ after, timesCalled (p.round h ven x).calls b.id b.modnum = timesCalled x.calls b.id b.modnum) ∧
      ∀ p' : PollSetting, p'.Fine lib ven (p.round h ven x) → p'.round h ven (p.round h ven x) = p.round h ven x := by
  obtain ⟨rfl, con, hval, hacc, hlow, hq, hclock, -, -⟩ := hp
  have hes : ∀ a ∈ before ++ e :: after, a.Sendable p.k.lib ∧ a.Whole := by
    intro a ha
    obtain ⟨b, hb, j, rfl⟩ := handed_from htake ha
    exact refresh_sendable (hclock _) (hgood b hb)
  obtain ⟨hd, -⟩ := handed_distinct htake hdist
  have f1 : s1.external = false := by
    have := (takeEvents_frame p.vtnClock x.vtn.1 ven).1
    rw [htake] at this
    exact this.trans hint
  have hdel : deliverAll p.env s1.delivery (before ++ e :: after) = ((deliverAll p.env s1.delivery (before ++ e :: after)).1, none) := Prod.ext rfl (deliverAll_quiet _ hq _ _)
  have hd' : Distinct ((before.map (Event.arrived p.k.lib p.k.serverNow)) ++ e.arrived p.k.lib p.k.serverNow :: after.map (Event.arrived p.k.lib p.k.serverNow)) := by
    have : Distinct ((before ++ e :: after).map (Event.arrived p.k.lib p.k.serverNow)) := List.pairwise_map.mpr hd
    rw [List.map_append, List.map_cons] at this
    exact this
  have hrem' : Remembered x.ven (before.map (Event.arrived p.k.lib p.k.serverNow)) := by
    intro a' ha'
    obtain ⟨a, ha, rfl⟩ := List.mem_map.mp ha'
    exact hrem a ha
  have hstop := decideAll_stops (h := h) ht (calls := x.calls) hs hd' hrem' (hf : Forgotten x.ven (e.arrived p.k.lib p.k.serverNow))
  rw [← List.map_cons, ← List.map_append] at hstop
  have hround := round_done (h := h) (venClock := p.venClock) con (fun txt => hval _ _ txt) (fun txt => hacc _ _ txt) (fun _ txt _ => hval _ _ txt) hint hflag htake (by simp)
    hdel (fun a ha => (hes a ha).1) (fun a ha => (hes a ha).2)
  simp only at hround
  obtain ⟨-, hst2⟩ := onEventMessage_state h p.venClock x.calls x.ven ⟨.str p.c.vtnId, .str p.c.newId, (before ++ e :: after).map (Event.arrived p.k.lib p.k.serverNow)⟩
  have hres : (resultsOf h x.calls x.ven ⟨.str p.c.vtnId, .str p.c.newId, (before ++ e :: after).map (Event.arrived p.k.lib p.k.serverNow)⟩).2.1 =
      x.calls ++ dueCalls x.ven (before.map (Event.arrived p.k.lib p.k.serverNow)) := by
    unfold resultsOf
    simp only [hlow, Bool.false_eq_true, if_false]
    cases hda : decideAll h x.calls x.ven ((before ++ e :: after).map (Event.arrived p.k.lib p.k.serverNow)) with
    | mk s' y =>
      rw [hda] at hstop
      simp only at hstop
      subst hstop
      rfl
  rw [hres] at hst2
  have hcalls : (p.round h ven x).calls = x.calls ++ dueCalls x.ven (before.map (Event.arrived p.k.lib p.k.serverNow)) := by
    rw [PollSetting.round, hround]
    exact hst2
  refine ⟨hcalls, ?_, ?_⟩
  · intro b hb
    rw [timesCalled_versions, timesCalled_versions, hcalls, versions_append, List.count_append]
    have : (versions (dueCalls x.ven (before.map (Event.arrived p.k.lib p.k.serverNow)))).count (b.id, b.modnum) = 0 := by
      rw [List.count_eq_zero]
      intro hm
      obtain ⟨a, ha, -, hab⟩ := mem_due.mp hm
      exact (List.pairwise_append.mp hd).2.2 a ha b (by simp [hb]) (Prod.mk.inj hab).1
    omega
  · intro p' hp'
    have hstate : ∃ rs, (p.round h ven x).vtn.1 = (respondAll p.env { s1 with updated := Dict.set s1.updated ven false } ven rs).1 := by
      rw [PollSetting.round, hround]
      simp only
      rw [createdEvent_state, if_neg (by rw [show ({ s1 with updated := Dict.set s1.updated ven false } : Server).external = s1.external from rfl, f1]; simp)]
      exact ⟨_, rfl⟩
    obtain ⟨rs, hrs⟩ := hstate
    obtain ⟨g1, -, -, g4, -⟩ := respondAll_frame p.env { s1 with updated := Dict.set s1.updated ven false } ven rs
    refine c87_nothing_new hp'.con (fun txt => hp'.asked _ _ txt) (fun q txt => hp'.taken _ q txt) (by rw [hrs, g4]; exact f1) ?_
    rw [hrs]
    simp only [Server.flag, g1, Dict.get?_set_self, Option.getD_some]

end Openleadr
