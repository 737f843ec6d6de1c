import Verif.Props.SlowPoll
/-!
C110: the histories of C91, with events that are added and cancelled also while the VEN decides.
-/
namespace Openleadr

/-! ### Histories -/

/-- What the user of the VTN does to the events of one VEN, from the state `s` on: events that ask for an answer are added, with ids that were not used before, and
    events are cancelled. -/
inductive Changed (lib : Lib) (ven : String) (calls : List VenCall) (s : Server) : Server → Prop
  | same : Changed lib ven calls s s
  | add {s' s'' : Server} {a : AddArgs} {id : String} : Changed lib ven calls s s' → addEvent s' a = (s'', .ok (some id)) → a.ven = ven → a.Good lib →
      a.responseRequired = "always" → (∀ e ∈ s'.queue ven, e.id ≠ a.eventId) → (∀ c ∈ calls, c.event.id ≠ a.eventId) → Changed lib ven calls s s''
  | cancel {s' : Server} (id : String) : Changed lib ven calls s s' → Changed lib ven calls s (cancelEvent s' ven id)

/-- The first half of a poll. -/
def PollSetting.start (p : PollSetting) (h : VenHandlers) (ven : String) (x : Sides) : Sides :=
  (pollStart p.k p.c p.env h p.vtnClock p.venClock p.secure p.peer (.str ven) x).1

/-- The histories of a VEN and its VTN, as for C91, in which events may also be added and cancelled while the VEN decides, unless it is told of a cancellation at that
    time. -/
inductive Raced (lib : Lib) (h : VenHandlers) (ven : String) : Sides → Prop
  /-- Both sides are started. -/
  | start (cache : NonceCache) (log : List Effect) : Raced lib h ven ⟨cache, (Server.init, log), ⟨[], []⟩, []⟩
  /-- Events are added and cancelled. -/
  | change {x : Sides} {s' : Server} : Raced lib h ven x → Changed lib ven x.calls x.vtn.1 s' → Raced lib h ven { x with vtn := (s', x.vtn.2) }
  /-- Something that does not concern this VEN. -/
  | other {x : Sides} {cache : NonceCache} {s' : Server} {log : List Effect} : Raced lib h ven x → s'.queue ven = x.vtn.1.queue ven →
      s'.flag ven = x.vtn.1.flag ven → s'.external = x.vtn.1.external → Raced lib h ven ⟨cache, (s', log), x.ven, x.calls⟩
  /-- The VEN logs the statuses of its events (client.py:1237-1249). -/
  | log {x : Sides} (clock : Nat → Int) : Raced lib h ven x → Raced lib h ven { x with ven := { x.ven with received := statusLog clock 0 x.ven.received } }
  /-- The VEN cleans up (client.py:1251-1260), and forgets no event that the VTN still has. -/
  | forget {x : Sides} (clock : Nat → Int) : Raced lib h ven x →
      (∀ e ∈ x.vtn.1.queue ven, ∀ r ∈ x.ven.received, r.id = e.id → r ∈ cleanup clock x.ven.received) →
      Raced lib h ven { x with ven := { x.ven with received := cleanup clock x.ven.received } }
  /-- The VEN polls, and decides at once. -/
  | poll {x : Sides} (p : PollSetting) : Raced lib h ven x → p.Fine lib ven x → Raced lib h ven (p.round h ven x)
  /-- The VEN polls, and events are added and cancelled while it decides. -/
  | slow {x : Sides} (p : PollSetting) (f : Server → Server) : Raced lib h ven x → p.Fine lib ven x → (∀ e ∈ x.vtn.1.queue ven, e.status ≠ .cancelled) →
      Changed lib ven (p.start h ven x).calls (p.start h ven x).vtn.1 (f (p.start h ven x).vtn.1) → Raced lib h ven (p.slow h ven f x)

/-! ### The invariant -/

theorem inStep_changed {lib : Lib} {ven : String} {x : Sides} {s' : Server} (hx : InStep lib ven x) (hc : Changed lib ven x.calls x.vtn.1 s') :
    InStep lib ven { x with vtn := (s', x.vtn.2) } := by
  induction hc with
  | same => exact hx
  | @add s1 s2 a id _ h1 h2 h3 h4 h5 h6 ih =>
    subst h2
    exact inStep_add (x := ⟨x.cache, (s1, x.vtn.2), x.ven, x.calls⟩) ih h1 h3 h4 h5 h6
  | @cancel s1 id _ ih => exact inStep_cancel (x := ⟨x.cache, (s1, x.vtn.2), x.ven, x.calls⟩) id ih

/-- Answers that match no cancelled event leave the queue as it is. -/
theorem respondOne_keeps (env : Env) {s : Server} {ven : String} {r : EventResponse} (h : ∀ e ∈ s.queue ven, hasIdAndNumber r e = true → e.status ≠ .cancelled) :
    (respondOne env s ven r).1.queue ven = s.queue ven := by
  have fire : ∀ t : Server, (fireCallback env t ven r).1.events = t.events := by
    intro t
    unfold fireCallback
    split
    · rfl
    · simp only
      split <;> rfl
    · rfl
  unfold respondOne
  cases hq : Dict.get? s.events ven with
  | none => rfl
  | some q =>
    simp only
    cases hf : q.find? (hasIdAndNumber r) with
    | none =>
      simp only
      split <;> rfl
    | some e =>
      have hne : e.status ≠ .cancelled := h e (by rw [Server.queue, hq]; exact List.mem_of_find?_eq_some hf) (List.find?_some hf)
      simp only [hne, if_false]
      rw [Server.queue, fire, Server.queue]

theorem respondAll_keeps (env : Env) {ven : String} {rs : List EventResponse} {s : Server}
    (h : ∀ r ∈ rs, ∀ e ∈ s.queue ven, hasIdAndNumber r e = true → e.status ≠ .cancelled) : (respondAll env s ven rs).1.queue ven = s.queue ven := by
  induction rs generalizing s with
  | nil => rfl
  | cons r rs ih =>
    have h1 := respondOne_keeps env (h r (by simp))
    simp only [respondAll]
    generalize respondOne env s ven r = y at h1
    obtain ⟨s', eff, o⟩ := y
    cases o with
    | some err => exact h1
    | none => exact (ih (fun r' hr' e he => h r' (by simp [hr']) e (by rw [← h1]; exact he))).trans h1

theorem responsesFor_version {clock : Nat → Int} {q : Value} {es : List Event} {vs : List Value} {i : Nat} {r : VenResponse} (h : r ∈ responsesFor clock q i es vs) :
    ∃ e ∈ es, e.id = r.eventId ∧ e.modnum = r.modnum := by
  induction es generalizing vs i with
  | nil => simp [responsesFor] at h
  | cons e es ih =>
    cases vs with
    | nil => simp [responsesFor] at h
    | cons v vs =>
      simp only [responsesFor] at h
      split at h
      · rcases List.mem_cons.mp h with rfl | h
        · exact ⟨e, by simp, rfl, rfl⟩
        · obtain ⟨a, h1, h2⟩ := ih h
          exact ⟨a, by simp [h1], h2⟩
      · obtain ⟨a, h1, h2⟩ := ih h
        exact ⟨a, by simp [h1], h2⟩

/-- The VTN has no older versions than those handed out, and cancelled events only in newer ones. -/
def Ahead (ven : String) (es : List Event) (s : Server) : Prop :=
  ∀ e ∈ s.queue ven, ∀ o ∈ es, e.id = o.id → o.modnum ≤ e.modnum ∧ (e.status = .cancelled → o.modnum < e.modnum)

theorem ahead_changed {lib : Lib} {ven : String} {calls : List VenCall} {s s' : Server} {es : List Event} (hes : ∀ o ∈ es, ∃ c ∈ calls, c.event.id = o.id)
    (ha : Ahead ven es s) (hc : Changed lib ven calls s s') : Ahead ven es s' := by
  induction hc with
  | same => exact ha
  | @add s1 s2 a id _ h1 h2 _ _ _ h6 ih =>
    subst h2
    obtain ⟨-, -, -, p, -, -, hqueue, -⟩ := added_state h1
    intro e he o ho hi
    rw [hqueue, List.mem_append, List.mem_singleton] at he
    rcases he with he | rfl
    · exact ih e he o ho hi
    · obtain ⟨c, hc, hci⟩ := hes o ho
      exact absurd (hci.trans hi.symm) (h6 c hc)
  | @cancel s1 id _ ih =>
    intro e he o ho hi
    rcases cancelEvent_cases s1 ven id with ⟨h, -⟩ | ⟨-, h⟩
    · rw [h] at he
      exact ih e he o ho hi
    · have hqueue : (cancelEvent s1 ven id).queue ven = updateFirst (hasId id) cancelled (s1.queue ven) := by
        rw [h]; simp [Server.queue, Dict.get?_set_self]
      rw [hqueue] at he
      rcases updated_from he with he | ⟨b, hb, -, rfl⟩
      · exact ih e he o ho hi
      · have := (ih b hb o ho hi).1
        have hm : (cancelled b).modnum = b.modnum + 1 := rfl
        rw [hm]
        exact ⟨by omega, fun _ => by omega⟩

theorem slow_changed {p : PollSetting} {lib : Lib} {h : VenHandlers} (ht : h.Total) {ven : String} {x : Sides} {f : Server → Server} (hx : InStep lib ven x)
    (hp : p.Fine lib ven x) (hlive : ∀ e ∈ x.vtn.1.queue ven, e.status ≠ .cancelled)
    (hc : Changed lib ven (p.start h ven x).calls (p.start h ven x).vtn.1 (f (p.start h ven x).vtn.1)) :
    InStep lib ven (p.slow h ven f x) ∧ (p.slow h ven f x).vtn.1.queue ven = (f (p.start h ven x).vtn.1).queue ven ∧
      (p.slow h ven f x).vtn.1.flag ven = (f (p.start h ven x).vtn.1).flag ven ∧ (p.slow h ven f x).cache = (p.round h ven x).cache := by
  have hround := inStep_poll ht hx hp
  have hnone : (pollStart p.k p.c p.env h p.vtnClock p.venClock p.secure p.peer (.str ven) x).2 = none →
      InStep lib ven (p.slow h ven f x) ∧ (p.slow h ven f x).vtn.1.queue ven = (f (p.start h ven x).vtn.1).queue ven ∧
        (p.slow h ven f x).vtn.1.flag ven = (f (p.start h ven x).vtn.1).flag ven ∧ (p.slow h ven f x).cache = (p.round h ven x).cache := by
    intro hn
    have hsame : p.round h ven x = p.start h ven x := by
      rw [← c110_halves]
      simp only [PollSetting.slow, hn, pollFinish, PollSetting.start]
      rfl
    rw [slow_none hn]
    rw [← hsame] at hc ⊢
    exact ⟨inStep_changed hround hc, rfl, rfl, rfl⟩
  cases hflag : x.vtn.1.flag ven with
  | false => exact hnone (start_nothing hx.ready hp hflag)
  | true =>
    obtain ⟨es, d⟩ := round_delivers ht hx.ready hp hflag
    obtain ⟨s1, htake⟩ := d.handed
    obtain ⟨-, h1, h2⟩ := start_done (h := h) hx.ready hp hflag htake
    by_cases hne : es = []
    · exact hnone (h1 hne)
    · have hstart := h2 hne
      obtain ⟨-, hd1⟩ := handed_distinct htake hx.distinct
      have f1 : s1.external = false := by
        have := (takeEvents_frame p.vtnClock x.vtn.1 ven).1
        rw [htake] at this
        exact this.trans hx.internal
      obtain ⟨s2, hs2⟩ : ∃ s2 : Server, s2 = { s1 with updated := Dict.set s1.updated ven false } := ⟨_, rfl⟩
      have hvtn : (p.start h ven x).vtn.1 = s2 := by rw [PollSetting.start, hstart, hs2]
      have hq2 : s2.queue ven = s1.queue ven := by rw [hs2]; rfl
      have hx2 : s2.external = false := by rw [hs2]; exact f1
      have hstatus : ∀ o ∈ es, o.status ≠ .cancelled := by
        intro o ho
        obtain ⟨a, ha, j, rfl⟩ := handed_from htake ho
        rw [refresh_status, if_neg (hlive a ha)]
        exact determineStatus_cancelled _ _
      have hahead : Ahead ven es s2 := by
        intro e he o ho hi
        rw [hq2] at he
        obtain ⟨hee, -⟩ := kept_handed htake he
        have : e = o := same_of_ids (handed_distinct htake hx.distinct).1 hee ho hi
        subst this
        exact ⟨Int.le_refl _, fun hcc => absurd hcc (hstatus e ho)⟩
      obtain ⟨ask, hask⟩ : ∃ ask, ask = onEventMessage h p.venClock x.calls x.ven ⟨.str p.c.vtnId, .str p.c.newId, es.map (Event.arrived p.k.lib p.k.serverNow)⟩ := ⟨_, rfl⟩
      obtain ⟨rs, hrs⟩ : ∃ rs, rs = (entriesOf ask.2.2).map VenResponse.handled := ⟨_, rfl⟩
      have hver : ∀ r ∈ rs, ∃ o ∈ es, o.id = r.eventId ∧ o.modnum = r.modificationNumber := by
        intro r hr
        rw [hrs, hask, entries_onEventMessage] at hr
        obtain ⟨r', hr', rfl⟩ := List.mem_map.mp hr
        obtain ⟨e', he', hei⟩ := responsesFor_version hr'
        obtain ⟨e, he, rfl⟩ := List.mem_map.mp he'
        exact ⟨e, he, hei⟩
      have hmatch : ∀ s : Server, Ahead ven es s → ∀ r ∈ rs, ∀ e ∈ s.queue ven, hasIdAndNumber r e = true → e.status ≠ .cancelled := by
        intro s hs r hr e he hm hcc
        obtain ⟨o, ho, h3, h4⟩ := hver r hr
        simp only [hasIdAndNumber, Bool.and_eq_true, beq_iff_eq] at hm
        have := (hs e he o ho (hm.1.trans h3.symm)).2 hcc
        rw [h4, hm.2] at this
        omega
      -- the poll without anything in between, and the state in which the VTN handed out the events
      have hr0 := slow_done (h := h) (f := id) hx.ready hp hflag htake hne f1
      simp only [id_eq, ← hask, ← hrs, ← hs2] at hr0
      rw [c110_halves] at hr0
      have hst : ∀ s : Server, s.external = false → (createdEvent p.env s ven rs).1 = (respondAll p.env s ven rs).1 := by
        intro s hs
        rw [createdEvent_state, if_neg (by rw [hs]; simp)]
      have hmid : InStep lib ven ⟨x.cache, (s2, x.vtn.2 ++ (deliverAll p.env s1.delivery es).1), ask.1, ask.2.1⟩ := by
        have h5 : (p.round h ven x).vtn.1 = (respondAll p.env s2 ven rs).1 := by rw [hr0]; exact hst s2 hx2
        have h6 : (p.round h ven x).ven = ask.1 ∧ (p.round h ven x).calls = ask.2.1 := by rw [hr0]; exact ⟨rfl, rfl⟩
        obtain ⟨g1, -, -, g4, -⟩ := respondAll_frame p.env s2 ven rs
        have := inStep_other (cache := x.cache) (s' := s2) (log := x.vtn.2 ++ (deliverAll p.env s1.delivery es).1) hround
          (by rw [h5, respondAll_keeps p.env (hmatch s2 hahead)]) (by rw [h5, Server.flag, Server.flag, g1]) (by rw [h5, g4])
        rwa [h6.1, h6.2] at this
      have hcalls : (p.start h ven x).calls = ask.2.1 := by rw [PollSetting.start, hstart, hask]
      rw [hvtn, hcalls] at hc
      have hchanged := inStep_changed hmid hc
      have hknown : ∀ o ∈ es, ∃ c ∈ ask.2.1, c.event.id = o.id := by
        intro o ho
        have h7 := d.current o ho
        have h8 := hround.known _ _ h7
        rw [show (p.round h ven x).calls = ask.2.1 by rw [hr0]] at h8
        obtain ⟨c, hc1, hc2⟩ := List.mem_map.mp h8
        exact ⟨c, hc1, (Prod.mk.inj hc2).1⟩
      have hahead' := ahead_changed hknown hahead hc
      have hfx : (f s2).external = false := hchanged.internal
      have hr1 := slow_done (h := h) (f := f) hx.ready hp hflag htake hne (by rw [← hs2]; exact hfx)
      simp only [← hask, ← hrs, ← hs2] at hr1
      obtain ⟨g1, -, -, g4, -⟩ := respondAll_frame p.env (f s2) ven rs
      have hqueue := respondAll_keeps p.env (hmatch _ hahead')
      have hflag' : (respondAll p.env (f s2) ven rs).1.flag ven = (f s2).flag ven := by rw [Server.flag, Server.flag, g1]
      rw [← hst _ hfx] at hqueue hflag' g4
      rw [hvtn, hr1, hr0]
      exact ⟨inStep_other hchanged hqueue hflag' g4, hqueue, hflag', rfl⟩

theorem raced_inStep {lib : Lib} {h : VenHandlers} {ven : String} {x : Sides} (ht : h.Total) (hx : Raced lib h ven x) : InStep lib ven x := by
  induction hx with
  | start cache log => exact inStep_start lib ven cache log
  | change _ hc ih => exact inStep_changed ih hc
  | other _ h1 h2 h3 ih => exact inStep_other ih h1 h2 h3
  | log clock _ ih => exact inStep_log clock ih
  | forget clock _ hf ih => exact inStep_forget clock ih hf
  | poll p _ hp ih => exact inStep_poll ht ih hp
  | slow p f _ hp hl hc ih => exact (slow_changed ht ih hp hl hc).1

/-! ### The theorems -/

/-- **C110** (partial: as for C91, and no event is cancelled while the VEN is told of another cancellation). However events were added and cancelled while the VEN was
    deciding, its handlers were called at most once for each version of each event. -/
theorem c110_once_partial {lib : Lib} {h : VenHandlers} (ht : h.Total) {ven : String} {x : Sides} (hx : Raced lib h ven x) (id : String) (n : Int) :
    timesCalled x.calls id n ≤ 1 := by
  rw [timesCalled_versions]
  exact List.nodup_iff_count.mp (raced_inStep ht hx).once _

/-- **C110** (partial: as for `c110_once_partial`). After the next poll they were called exactly once for the current version of each event that the VTN had for this VEN,
    if it is cancelled or not over: also for those that were added or cancelled while the VEN was deciding. -/
theorem c110_keeps_up_partial {p : PollSetting} {lib : Lib} {h : VenHandlers} (ht : h.Total) {ven : String} {x : Sides} (hx : Raced lib h ven x) (hp : p.Fine lib ven x)
    {e : Event} (he : e ∈ x.vtn.1.queue ven) (hr : e.status = .cancelled ∨ ∀ i, ¬ e.overAt (p.vtnClock i)) :
    timesCalled (p.round h ven x).calls e.id e.modnum = 1 := inStep_keeps_up ht (raced_inStep ht hx) hp he hr

/-- **C110** (partial: as for `c110_once_partial`). `on_event` is called for the first version of an event that the VEN hears of and never again for this event, and
    `on_update_event` for later versions, each newer than all before. -/
theorem c110_in_order_partial {lib : Lib} {h : VenHandlers} (ht : h.Total) {ven : String} {x : Sides} (hx : Raced lib h ven x) : CallsInOrder x.calls := by
  induction hx with
  | start => intro before c after h; simp at h
  | change _ _ ih => exact ih
  | other _ _ _ _ ih => exact ih
  | log _ _ ih => exact ih
  | forget _ _ _ ih => exact ih
  | poll p hx hp ih => exact inStep_ordered ht (raced_inStep ht hx) hp ih
  | slow p f hx hp _ _ ih =>
    rw [(slow_ven p h ven f _).2]
    exact inStep_ordered ht (raced_inStep ht hx) hp ih

/-- **C110** (partial: as for `c110_once_partial`). The answers take back nothing of what was done while the VEN was deciding: afterwards the VTN has the events, and the
    note that there is something to tell, that its user left. -/
theorem c110_kept_partial {p : PollSetting} {lib : Lib} {h : VenHandlers} (ht : h.Total) {ven : String} {x : Sides} {f : Server → Server} (hx : Raced lib h ven x)
    (hp : p.Fine lib ven x) (hlive : ∀ e ∈ x.vtn.1.queue ven, e.status ≠ .cancelled)
    (hc : Changed lib ven (p.start h ven x).calls (p.start h ven x).vtn.1 (f (p.start h ven x).vtn.1)) :
    (p.slow h ven f x).vtn.1.queue ven = (f (p.start h ven x).vtn.1).queue ven ∧ (p.slow h ven f x).vtn.1.flag ven = (f (p.start h ven x).vtn.1).flag ven :=
  ⟨(slow_changed ht (raced_inStep ht hx) hp hlive hc).2.1, (slow_changed ht (raced_inStep ht hx) hp hlive hc).2.2.1⟩

/-! ### A concrete case -/

theorem lived_raced {lib : Lib} {h : VenHandlers} {ven : String} {x : Sides} (hx : Lived lib h ven x) : Raced lib h ven x := by
  induction hx with
  | start cache log => exact .start cache log
  | add _ h1 h2 h3 h4 h5 h6 ih => exact .change ih (.add .same h1 h2 h3 h4 h5 h6)
  | cancel id _ ih => exact .change ih (.cancel id .same)
  | other _ h1 h2 h3 ih => exact .other ih h1 h2 h3
  | log clock _ ih => exact .log clock ih
  | forget clock _ hf ih => exact .forget clock ih hf
  | poll p _ hp ih => exact .poll p ih hp

theorem live_added1 : ∀ e ∈ added1.vtn.1.queue "ven1", e.status ≠ .cancelled := by
  rw [queue_added1]
  intro e he
  rw [List.mem_singleton.mp he]
  decide +kernel

/-- The user of the VTN cancels the first event. -/
def cancelFirst (s : Server) : Server := cancelEvent s "ven1" "event1"

/-- The VEN decides about the first event, which is cancelled in the meantime. -/
def hurried1 : Sides := (pollAt 0).slow easyHandlers "ven1" cancelFirst added1

theorem cancelFirst_changed (calls : List VenCall) (s : Server) : Changed plainLib "ven1" calls s (cancelFirst s) := .cancel "event1" .same

theorem raced_hurried1 : Raced plainLib easyHandlers "ven1" hurried1 :=
  .slow (pollAt 0) cancelFirst (lived_raced lived_added1) fine_added1 live_added1 (cancelFirst_changed _ _)

theorem slow_alike {p : PollSetting} {lib : Lib} {h : VenHandlers} (ht : h.Total) {ven : String} {x : Sides} {f : Server → Server} (hx : InStep lib ven x)
    (hp : p.Fine lib ven x) (hlive : ∀ e ∈ x.vtn.1.queue ven, e.status ≠ .cancelled) (hc : ∀ calls s, Changed lib ven calls s (f s)) :
    ∃ s : Server, s.queue ven = (p.round h ven x).vtn.1.queue ven ∧ (p.slow h ven f x).vtn.1.queue ven = (f s).queue ven ∧
      (p.slow h ven f x).cache = (p.round h ven x).cache := by
  obtain ⟨-, h1, -, h3⟩ := slow_changed (h := h) (f := f) ht hx hp hlive (hc _ _)
  obtain ⟨-, h4, -, -⟩ := slow_changed (h := h) (f := id) ht hx hp hlive .same
  rw [c110_halves] at h4
  exact ⟨_, h4.symm, h1, h3⟩

theorem hurried1_state : ∃ s : Server, s.queue "ven1" = polled1.vtn.1.queue "ven1" ∧ hurried1.vtn.1.queue "ven1" = (cancelFirst s).queue "ven1" ∧ hurried1.cache = [] := by
  have h := slow_alike (h := easyHandlers) easy_total (lived_inStep easy_total lived_added1) fine_added1 live_added1 cancelFirst_changed
  have h5 := cache_polled1
  unfold polled1 at h5 ⊢
  unfold hurried1
  rw [h5] at h
  exact h

theorem hurried1_has : ∃ e ∈ hurried1.vtn.1.queue "ven1", e.id = "event1" ∧ e.modnum = 1 ∧ e.status = .cancelled := by
  obtain ⟨s, h1, h2, -⟩ := hurried1_state
  obtain ⟨e, he, hi⟩ := kept_polled1
  rw [h2, cancelFirst]
  rcases cancelEvent_cases s "ven1" "event1" with ⟨-, h⟩ | ⟨-, h⟩
  · exact absurd hi (h e (by rw [h1]; exact he))
  · obtain ⟨a, ha, hai, hac⟩ := updated_first (id := "event1") (by rw [← h1] at he; exact he) hi
    obtain ⟨-, -, hm, -⟩ := queue_polled1 a (by rw [← h1]; exact ha)
    rw [h]
    refine ⟨cancelled a, ?_, hai, ?_, rfl⟩
    · simp only [Server.queue, Dict.get?_set_self, Option.getD_some]
      exact hac
    · show a.modnum + 1 = 1
      rw [hm]; rfl

theorem fine_hurried1 : (pollAt 0).Fine plainLib "ven1" hurried1 := by
  obtain ⟨s, h1, h2, h3⟩ := hurried1_state
  have hq : ∀ e ∈ hurried1.vtn.1.queue "ven1", e.Even ∧ e.activePeriod = event1.activePeriod := by
    intro e he
    rw [h2, cancelFirst] at he
    rcases cancelEvent_cases s "ven1" "event1" with ⟨h, -⟩ | ⟨-, h⟩
    · rw [h, h1] at he
      obtain ⟨h4, -, -, h5⟩ := queue_polled1 e he
      exact ⟨h4, h5⟩
    · rw [h] at he
      simp only [Server.queue, Dict.get?_set_self, Option.getD_some] at he
      rcases updated_from he with he | ⟨a, ha, -, rfl⟩
      · obtain ⟨h4, -, -, h5⟩ := queue_polled1 e (by rw [← h1]; exact he)
        exact ⟨h4, h5⟩
      · obtain ⟨h4, -, -, h5⟩ := queue_polled1 a (by rw [← h1]; exact ha)
        exact ⟨h4, h5⟩
  refine pollAt_fine datable0 h3 (fun e he => (hq e he).1) (fun e he _ h => ?_)
  unfold Event.overAt at h
  rw [(hq e he).2] at h
  exact absurd h.2 (by decide +kernel)

theorem hurried_called {x : Sides} (hx : Raced plainLib easyHandlers "ven1" x) (hp : (pollAt 0).Fine plainLib "ven1" x)
    (he : ∃ e ∈ x.vtn.1.queue "ven1", e.id = "event1" ∧ e.modnum = 1 ∧ e.status = .cancelled) :
    timesCalled ((pollAt 0).round easyHandlers "ven1" x).calls "event1" 1 = 1 := by
  obtain ⟨e, h1, h2, h3, h4⟩ := he
  have := c110_keeps_up_partial easy_total hx hp h1 (.inl h4)
  rwa [h2, h3] at this

/-- An event is added, the VEN polls, and the event is cancelled while the VEN decides about it. The handlers were called once for the first version, and when the VEN polls
    again they are called once for the cancellation. -/
example : timesCalled hurried1.calls "event1" 0 = 1 ∧ timesCalled ((pollAt 0).round easyHandlers "ven1" hurried1).calls "event1" 1 = 1 := by
  refine ⟨?_, hurried_called raced_hurried1 fine_hurried1 hurried1_has⟩
  have h1 := called_polled1
  unfold polled1 at h1
  rw [← (slow_ven (pollAt 0) easyHandlers "ven1" cancelFirst added1).2] at h1
  unfold hurried1
  exact h1

end Openleadr
