import Verif.Props.KeepsUp
/-!
C91: concrete histories.
-/
namespace Openleadr

/-- An event of half an hour. -/
def eventArgs (id : String) (start : Int) (response : String) : AddArgs :=
  { ven := "ven1", signalName := "SIMPLE", signalType := "level", intervals := [{ dtstart := start, duration := 1800000000, payload := .int 1 }],
    eventId := id, signalId := "sig1", now := 0, responseRequired := response }

theorem eventArgs_good (id : String) (start : Int) (response : String) (hid : Ordinary plainLib id) (hs : Datable start) : (eventArgs id start response).Good plainLib where
  id := hid
  context := (ordinary_of (by decide +kernel) : Ordinary plainLib "oadr://unknown.context")
  signal := (⟨ordinary_of (by decide +kernel), ordinary_of (by decide +kernel), ordinary_of (by decide +kernel)⟩ :
    Ordinary plainLib "SIMPLE" ∧ Ordinary plainLib "level" ∧ Ordinary plainLib "sig1")
  now := (by constructor <;> decide +kernel : Datable 0)
  starts := by
    intro i hi
    rw [eventArgs, List.mem_singleton] at hi
    subst hi
    exact hs
  durations := by
    intro i hi
    rw [eventArgs, List.mem_singleton] at hi
    subst hi
    exact (spans_of (by decide +kernel) : Spans 1800000000)
  total := (spans_of (by decide +kernel) : Spans 1800000000)
  payloads := by
    intro i hi
    rw [eventArgs, List.mem_singleton] at hi
    subst hi
    exact ⟨(asFloat_plain 1 _ (by decide +kernel) : AsFloat plainLib (.int 1) (floatOf plainLib (.int 1))), rfl⟩
  numbers := by
    intro i hi
    rw [eventArgs, List.mem_singleton] at hi
    subst hi
    rfl
  levels := by
    intro _ i hi
    rw [eventArgs, List.mem_singleton] at hi
    subst hi
    rfl
  targets := by
    intro t ht
    rw [show pickTargets (eventArgs id start response) = [[("ven_id", .str "ven1")]] from rfl, List.mem_singleton] at ht
    subst ht
    refine ⟨?_, by decide +kernel⟩
    intro k hk
    by_cases h : k = "ven_id"
    · subst h
      exact .inr (.inr ⟨"ven1", by decide +kernel, ordinary_of (by decide +kernel)⟩)
    · exact .inl (by simp [Dict.get?, Ne.symm h])
  plain := by
    rw [show pickTargets (eventArgs id start response) = [[("ven_id", .str "ven1")]] from rfl]
    constructor <;> decide +kernel

/-- A poll at a time that both sides agree about. -/
def pollAt (t : Int) : PollSetting := ⟨sampleLink, loudVtn, quietEnv, fun _ => t, fun _ => t, false, none⟩

/-- The VTN and the VEN see the same duration. -/
def Event.Even (e : Event) : Prop := e.sentDuration = e.activePeriod.duration

theorem pollAt_fine {t : Int} (ht : Datable t) {x : Sides} (hc : x.cache = []) (he : ∀ e ∈ x.vtn.1.queue "ven1", e.Even)
    (hl : ∀ e ∈ x.vtn.1.queue "ven1", e.status = .cancelled → ¬ e.overAt t) : (pollAt t).Fine plainLib "ven1" x where
  same := rfl
  con := by rw [hc]; exact loudVtn_connected
  asked := fun _ _ _ _ => ⟨_, rfl⟩
  taken := fun _ _ _ _ => rfl
  loud := (by decide +kernel : isLowerText loudVtn.vtnId = false)
  quiet := fun _ => rfl
  clock := fun _ => ht
  agree := fun e h _ _ _ => by unfold Event.overAt Event.overThere; rw [he e h]; exact Iff.rfl
  live := fun e h _ hs => by unfold Event.overThere; rw [he e h]; exact hl e h hs

theorem easy_total : easyHandlers.Total := ⟨fun _ _ => ⟨_, rfl⟩, fun _ _ _ => ⟨_, rfl⟩⟩

/-- Both sides at the start. -/
def fresh : Sides := ⟨[], (Server.init, []), ⟨[], []⟩, []⟩

/-- An event is added. -/
def Sides.added (x : Sides) (a : AddArgs) : Sides := { x with vtn := ((addEvent x.vtn.1 a).1, x.vtn.2) }

/-- An event is cancelled. -/
def Sides.cancelled (x : Sides) (id : String) : Sides := { x with vtn := (cancelEvent x.vtn.1 "ven1" id, x.vtn.2) }

theorem cancelled_frame (x : Sides) (id : String) : (x.cancelled id).cache = x.cache ∧ (x.cancelled id).calls = x.calls ∧ (x.cancelled id).ven = x.ven ∧
    (x.cancelled id).vtn.1 = cancelEvent x.vtn.1 "ven1" id := ⟨rfl, rfl, rfl, rfl⟩

theorem added_frame (x : Sides) (a : AddArgs) : (x.added a).cache = x.cache ∧ (x.added a).calls = x.calls ∧ (x.added a).ven = x.ven ∧
    (x.added a).vtn.1 = (addEvent x.vtn.1 a).1 := ⟨rfl, rfl, rfl, rfl⟩

theorem lived_cancelled {lib : Lib} {h : VenHandlers} {x : Sides} (id : String) (hx : Lived lib h "ven1" x) : Lived lib h "ven1" (x.cancelled id) := .cancel id hx

def firstArgs : AddArgs := eventArgs "event1" 3600000000 "always"

def added1 : Sides := fresh.added firstArgs

def polled1 : Sides := (pollAt 0).round easyHandlers "ven1" added1

theorem datable0 : Datable 0 := by constructor <;> decide +kernel

theorem lived_added1 : Lived plainLib easyHandlers "ven1" added1 :=
  .add (.start _ _) (a := firstArgs) (id := "event1") (by rfl) rfl (eventArgs_good _ _ _ (ordinary_of (by decide +kernel)) (by constructor <;> decide +kernel)) rfl (by
    intro e he
    rw [show fresh.vtn.1.queue "ven1" = [] from rfl] at he
    simp at he) (by
    intro c hc
    rw [show fresh.calls = [] from rfl] at hc
    simp at hc)

/-- The only event of the queue. -/
def event1 : Event := addedEvent firstArgs { dtstart := 3600000000, duration := 1800000000 }

theorem queue_added1 : added1.vtn.1.queue "ven1" = [event1] := by rfl

theorem even_event1 : event1.Even := by rfl

theorem fine_added1 : (pollAt 0).Fine plainLib "ven1" added1 := by
  refine pollAt_fine datable0 rfl ?_ ?_ <;> rw [queue_added1] <;> intro e he <;> rw [List.mem_singleton.mp he]
  · rfl
  · intro h; cases h

theorem delivered1 : ∃ es, Delivered (pollAt 0) "ven1" added1 polled1 es :=
  round_delivers easy_total (lived_inStep easy_total lived_added1).ready fine_added1 (by rfl)

theorem lived_polled1 : Lived plainLib easyHandlers "ven1" polled1 := .poll _ lived_added1 fine_added1

theorem called_polled1 : timesCalled polled1.calls "event1" 0 = 1 :=
  c91_keeps_up_partial easy_total lived_added1 fine_added1 (e := event1) (by rw [queue_added1]; simp)
    (.inr (fun i h => absurd h.2 (by change ¬ ((3600000000 : Int) + 1800000000 ≤ 0); decide)))

attribute [local irreducible] polled1

/-- What is in the queue after a poll comes from the queue before. -/
theorem Delivered.origin {p : PollSetting} {ven : String} {x y : Sides} {es : List Event} (d : Delivered p ven x y es) {e : Event} (he : e ∈ y.vtn.1.queue ven) :
    ∃ a ∈ x.vtn.1.queue ven, ∃ j, e = refresh (p.vtnClock j) (p.vtnClock (j + 1)) a := by
  obtain ⟨s1, h⟩ := d.handed
  exact handed_from h (d.left e he).1

theorem refresh_even {t t' : Int} {e : Event} (h : e.Even) : (refresh t t' e).Even := by
  unfold Event.Even at h ⊢
  rw [refresh_duration, (refresh_members ..).2.1, h]

theorem queue_polled1 : ∀ e ∈ polled1.vtn.1.queue "ven1", e.Even ∧ e.id = "event1" ∧ e.modnum = 0 ∧ e.activePeriod = event1.activePeriod := by
  intro e he
  obtain ⟨es, d⟩ := delivered1
  obtain ⟨a, ha, j, rfl⟩ := d.origin he
  rw [queue_added1, List.mem_singleton] at ha
  subst ha
  refine ⟨refresh_even even_event1, ?_, ?_, ?_⟩
  · rw [(refresh_members ..).2.2.1]; rfl
  · rw [refresh_modnum]; rfl
  · exact (refresh_members ..).2.1

theorem cache_polled1 : polled1.cache = [] := by
  obtain ⟨es, d⟩ := delivered1
  exact d.place

theorem kept_polled1 : ∃ e ∈ polled1.vtn.1.queue "ven1", e.id = "event1" := by
  obtain ⟨es, d⟩ := delivered1
  obtain ⟨s1, htake⟩ := d.handed
  obtain ⟨j, hj⟩ := running_handed htake (e := event1) (by rw [queue_added1]; simp) (.inr (fun i h => absurd h.2 (by change ¬ ((3600000000 : Int) + 1800000000 ≤ 0); decide)))
  refine ⟨_, d.stays _ hj ?_ (.inr ?_), ?_⟩
  · rw [refresh_status]; exact (by decide +kernel : (if event1.status = .cancelled then Status.cancelled else determineStatus 0 event1.activePeriod) ≠ .completed)
  · rw [refresh_status]; exact (by decide +kernel : (if event1.status = .cancelled then Status.cancelled else determineStatus 0 event1.activePeriod) ≠ .cancelled)
  · rw [(refresh_members ..).2.2.1]; rfl

theorem updated_first {id : String} {l : List Event} {e : Event} (he : e ∈ l) (hi : e.id = id) :
    ∃ a ∈ l, a.id = id ∧ cancelled a ∈ updateFirst (hasId id) cancelled l := by
  induction l with
  | nil => simp at he
  | cons b l ih =>
    simp only [updateFirst]
    split
    · rename_i hb
      exact ⟨b, by simp, by simpa [hasId] using hb, by simp⟩
    · rename_i hb
      rcases List.mem_cons.mp he with rfl | he
      · exact absurd hi (by simpa [hasId] using hb)
      · obtain ⟨a, h1, h2, h3⟩ := ih he
        exact ⟨a, by simp [h1], h2, by simp [h3]⟩

/-- A state in which the VEN has the first event. -/
structure HasFirst (x : Sides) : Prop where
  lived : Lived plainLib easyHandlers "ven1" x
  cache : x.cache = []
  events : ∀ e ∈ x.vtn.1.queue "ven1", e.Even ∧ e.id = "event1" ∧ e.modnum = 0 ∧ e.activePeriod = event1.activePeriod
  some : ∃ e ∈ x.vtn.1.queue "ven1", e.id = "event1"
  called : timesCalled x.calls "event1" 0 = 1
  held : ∀ r ∈ x.ven.received, r.activePeriod = event1.activePeriod
  others : ∀ c ∈ x.calls, c.event.id = "event1"
  live : ∀ e ∈ x.vtn.1.queue "ven1", e.status ≠ .cancelled

theorem others_polled1 : ∀ c ∈ polled1.calls, c.event.id = "event1" := by
  intro c hc
  obtain ⟨es, d⟩ := delivered1
  rw [d.calls, show added1.calls = [] from rfl, List.nil_append] at hc
  have hm : (c.event.id, c.event.modnum) ∈ versions (dueCalls added1.ven (es.map (Event.arrived (pollAt 0).k.lib (pollAt 0).k.serverNow))) :=
    List.mem_map.mpr ⟨c, hc, rfl⟩
  obtain ⟨e, he, -, h⟩ := mem_due.mp hm
  obtain ⟨s1, htake⟩ := d.handed
  obtain ⟨a, ha, j, rfl⟩ := handed_from htake he
  rw [queue_added1, List.mem_singleton] at ha
  subst ha
  rw [← (Prod.mk.inj h).1, (refresh_members ..).2.2.1]
  rfl

theorem live_polled1 : ∀ e ∈ polled1.vtn.1.queue "ven1", e.status ≠ .cancelled := by
  intro e he
  obtain ⟨es, d⟩ := delivered1
  obtain ⟨a, ha, j, rfl⟩ := d.origin he
  rw [queue_added1, List.mem_singleton] at ha
  subst ha
  rw [refresh_status]
  exact (by decide +kernel : (if event1.status = .cancelled then Status.cancelled else determineStatus 0 event1.activePeriod) ≠ .cancelled)

theorem held_polled1 : ∀ r ∈ polled1.ven.received, r.activePeriod = event1.activePeriod := by
  intro r hr
  obtain ⟨es, d⟩ := delivered1
  rcases d.held r hr with h | h
  · rw [show added1.ven.received = [] from rfl] at h; simp at h
  · obtain ⟨e, he, rfl⟩ := List.mem_map.mp h
    obtain ⟨s1, htake⟩ := d.handed
    obtain ⟨a, ha, j, rfl⟩ := handed_from htake he
    rw [queue_added1, List.mem_singleton] at ha
    subst ha
    have h1 := (refresh_members ((pollAt 0).vtnClock j) ((pollAt 0).vtnClock (j + 1)) event1).2.1
    have h2 := refresh_duration ((pollAt 0).vtnClock j) ((pollAt 0).vtnClock (j + 1)) event1
    generalize refresh ((pollAt 0).vtnClock j) ((pollAt 0).vtnClock (j + 1)) event1 = e at h1 h2
    show ({ dtstart := e.activePeriod.dtstart, duration := e.sentDuration } : ActivePeriod) = _
    rw [h1, h2]
    rfl

theorem polled1_first : HasFirst polled1 := ⟨lived_polled1, cache_polled1, queue_polled1, kept_polled1, called_polled1, held_polled1,
  others_polled1, live_polled1⟩

theorem cancelled_fine {x : Sides} (hx : HasFirst x) : (pollAt 0).Fine plainLib "ven1" (x.cancelled "event1") := by
  have hq : ∀ e ∈ (x.cancelled "event1").vtn.1.queue "ven1", e.Even ∧ e.activePeriod = event1.activePeriod := by
    intro e he
    rcases cancelEvent_cases x.vtn.1 "ven1" "event1" with ⟨h, -⟩ | ⟨-, h⟩
    · rw [(cancelled_frame _ _).2.2.2, h] at he
      obtain ⟨h1, -, -, h2⟩ := hx.events e he
      exact ⟨h1, h2⟩
    · rw [(cancelled_frame _ _).2.2.2, h] at he
      simp only [Server.queue, Dict.get?_set_self, Option.getD_some] at he
      rcases updated_from he with he | ⟨a, ha, -, rfl⟩
      · obtain ⟨h1, -, -, h2⟩ := hx.events e he
        exact ⟨h1, h2⟩
      · obtain ⟨h1, -, -, h2⟩ := hx.events a ha
        exact ⟨h1, h2⟩
  refine pollAt_fine datable0 hx.cache (fun e he => (hq e he).1) (fun e he _ h => ?_)
  unfold Event.overAt at h
  rw [(hq e he).2] at h
  exact absurd h.2 (by decide +kernel)

theorem cancelled_case {x : Sides} (hx : HasFirst x) : let y := (pollAt 0).round easyHandlers "ven1" (x.cancelled "event1")
    timesCalled y.calls "event1" 0 = 1 ∧ timesCalled y.calls "event1" 1 = 1 ∧ CallsInOrder y.calls := by
  intro y
  have hl : Lived plainLib easyHandlers "ven1" (x.cancelled "event1") := .cancel "event1" hx.lived
  have hlx : Lived plainLib easyHandlers "ven1" y := .poll _ hl (cancelled_fine hx)
  obtain ⟨e, he, hi⟩ := hx.some
  have hq : (x.cancelled "event1").vtn.1.flag "ven1" = true ∧ ∃ c ∈ (x.cancelled "event1").vtn.1.queue "ven1", c.id = "event1" ∧ c.modnum = 1 ∧ c.status = .cancelled := by
    rcases cancelEvent_cases x.vtn.1 "ven1" "event1" with ⟨-, h⟩ | ⟨-, h⟩
    · exact absurd hi (h e he)
    · obtain ⟨a, ha, hai, hac⟩ := updated_first (id := "event1") he hi
      obtain ⟨-, -, hm', -⟩ := hx.events a ha
      rw [(cancelled_frame _ _).2.2.2, h]
      refine ⟨by simp [Server.flag, Dict.get?_set_self], cancelled a, ?_, hai, ?_, rfl⟩
      · simp only [Server.queue, Dict.get?_set_self, Option.getD_some]
        exact hac
      · show a.modnum + 1 = 1
        rw [hm']; rfl
  obtain ⟨hflag, c, hc, h1, h2, h3⟩ := hq
  have h1' := c91_keeps_up_partial easy_total hl (cancelled_fine hx) hc (.inl h3)
  rw [h1, h2] at h1'
  have hle := c91_once_partial easy_total hlx "event1" 0
  refine ⟨?_, h1', c91_in_order_partial easy_total hlx⟩
  have hmore : timesCalled (x.cancelled "event1").calls "event1" 0 ≤ timesCalled y.calls "event1" 0 := by
    obtain ⟨es, d⟩ := round_delivers easy_total (lived_inStep easy_total hl).ready (cancelled_fine hx) hflag
    rw [timesCalled_versions, timesCalled_versions, show y.calls = _ from d.calls, versions_append, List.count_append]
    omega
  have := hx.called
  rw [(cancelled_frame _ _).2.1] at hmore
  omega

/-- An event is added, the VEN polls, the event is cancelled, and the VEN polls: the handlers are called once for each of the two versions, in this order. -/
example : let y := (pollAt 0).round easyHandlers "ven1" (((pollAt 0).round easyHandlers "ven1" added1).cancelled "event1")
    timesCalled y.calls "event1" 0 = 1 ∧ timesCalled y.calls "event1" 1 = 1 ∧ CallsInOrder y.calls := by
  have h := polled1_first
  rw [polled1] at h
  exact cancelled_case h

/-! ### An event that is over, and another one -/

def laterArgs : AddArgs := eventArgs "event2" 9000000000 "always"

def event2 : Event := addedEvent laterArgs { dtstart := 9000000000, duration := 1800000000 }

/-- The first event is over. -/
def halfPastOne : Int := 5400000000

theorem later_added {x : Sides} (h : x.vtn.1.external = false) : ∃ s', addEvent x.vtn.1 laterArgs = (s', .ok (some "event2")) := by
  refine ⟨(addEvent x.vtn.1 laterArgs).1, Prod.ext rfl ?_⟩
  unfold addEvent
  rw [h]
  rfl

theorem cleanupFrom_empty (clock : Nat → Int) (l : List Event) (h : ∀ e ∈ l, ∀ i, determineStatus (clock i) e.activePeriod = .completed) (j : Nat) :
    cleanupFrom clock j l = [] := by
  induction l generalizing j with
  | nil => rfl
  | cons e l ih =>
    simp only [cleanupFrom]
    rw [if_pos (.inr (h e (by simp) j))]
    exact ih (fun a ha => h a (by simp [ha])) _

theorem forgotten_case {x : Sides} (hx : HasFirst x) :
    timesCalled ((pollAt halfPastOne).round easyHandlers "ven1"
      { x.added laterArgs with ven := { x.ven with received := cleanup (fun _ => halfPastOne) x.ven.received } }).calls "event1" 0 = 2 := by
  have hi := lived_inStep easy_total hx.lived
  obtain ⟨s', hadd⟩ := later_added hi.internal
  obtain ⟨-, hext, -, p, hp, hflag, hqueue, -⟩ := added_state hadd
  have hp' : p = { dtstart := 9000000000, duration := 1800000000 } := by
    have : activePeriodOf (laterArgs.intervals.map (fun i => (i.dtstart, i.duration))) = .ok { dtstart := 9000000000, duration := 1800000000 } := by rfl
    rw [this] at hp
    exact (Except.ok.inj hp).symm
  subst hp'
  have hs : (x.added laterArgs).vtn.1 = s' := by rw [(added_frame _ _).2.2.2, hadd]
  obtain ⟨e, he, hei⟩ := hx.some
  obtain ⟨-, -, hem, -⟩ := hx.events e he
  have hq : s'.queue "ven1" = x.vtn.1.queue "ven1" ++ [event2] := hqueue
  have hmem : ∀ a ∈ s'.queue "ven1", a ∈ x.vtn.1.queue "ven1" ∨ a = event2 := by
    intro a ha
    rw [hq] at ha
    simpa using ha
  have hlived : Lived plainLib easyHandlers "ven1" (x.added laterArgs) := by
    have hl : Lived plainLib easyHandlers "ven1" { x with vtn := (s', x.vtn.2) } := by
      refine .add hx.lived hadd rfl (eventArgs_good _ _ _ (ordinary_of (by decide +kernel)) (by constructor <;> decide +kernel)) rfl ?_ ?_
      · intro a ha
        rw [(hx.events a ha).2.1]
        decide +kernel
      · intro c hc h2
        rw [hx.others c hc] at h2
        exact absurd h2 (by decide +kernel)
    rwa [show x.added laterArgs = { x with vtn := (s', x.vtn.2) } by rw [Sides.added, hadd]]
  have hall : ∀ r ∈ x.ven.received, ∀ i : Nat, determineStatus ((fun _ => halfPastOne) i) r.activePeriod = .completed := by
    intro r hr i
    rw [hx.held r hr]
    exact (by decide +kernel : determineStatus halfPastOne event1.activePeriod = .completed)
  have hempty : cleanup (fun _ => halfPastOne) x.ven.received = [] := by
    rw [cleanup, cleanupFrom_empty _ _ (fun r hr => hall r (List.mem_reverse.mp hr))]
    rfl
  have h := c91_forgotten_violated (p := pollAt halfPastOne) easy_total hlived (fun _ => halfPastOne) (e := e) (by rw [hs, hq]; simp [he])
    (by rw [hs, hq]; have := List.length_pos_of_mem he; rw [List.length_append, List.length_singleton]; omega) (by rw [hs]; exact hflag) (by rw [hei, hem, (added_frame _ _).2.1]; exact hx.called)
    (by rw [(added_frame _ _).2.2.1, hempty]; simp) (pollAt_fine (by constructor <;> decide +kernel) hx.cache (by
      intro a ha
      rcases hmem a (by rwa [← hs]) with h | rfl
      · exact (hx.events a h).1
      · rfl) (by
      intro a ha hc
      rcases hmem a (by rwa [← hs]) with h | rfl
      · exact absurd hc (hx.live a h)
      · exact absurd hc (by decide +kernel)))
  rw [hei, hem] at h
  exact h.1

/-- An event is added, the VEN polls, the event ends, the VEN cleans up, another event is added, and the VEN polls: `on_event` is called again for the first event. -/
example : timesCalled ((pollAt halfPastOne).round easyHandlers "ven1"
    { ((pollAt 0).round easyHandlers "ven1" added1).added laterArgs with
      ven := { ((pollAt 0).round easyHandlers "ven1" added1).ven with
        received := cleanup (fun _ => halfPastOne) ((pollAt 0).round easyHandlers "ven1" added1).ven.received } }).calls "event1" 0 = 2 := by
  have h := polled1_first
  rw [polled1] at h
  exact forgotten_case h

/-! ### A cancelled event that asks for no answer, and another one -/

def neverArgs : AddArgs := eventArgs "event1" 3600000000 "never"

def neverEvent : Event := addedEvent neverArgs { dtstart := 3600000000, duration := 1800000000 }

/-- The VTN after the first event was added and cancelled, and another one was added. -/
def neverVtn : Server := (addEvent (cancelEvent (addEvent Server.init neverArgs).1 "ven1" "event1") laterArgs).1

theorem queue_never : neverVtn.queue "ven1" = [cancelled neverEvent, event2] := by rfl

theorem take_never : takeEvents (fun _ => 0) neverVtn "ven1" =
    ((takeEvents (fun _ => 0) neverVtn "ven1").1, some [refresh 0 0 (cancelled neverEvent), refresh 0 0 event2]) := by
  refine Prod.ext rfl ?_
  decide +kernel

/-- The VEN knows that the first event is cancelled (`c91_never_kept`); when it polls, the handlers do not hear of the other event, and never will. -/
example : let x : Sides := ⟨[], (neverVtn, []), ⟨[(cancelled neverEvent).arrived plainLib 0], []⟩, []⟩
    timesCalled ((pollAt 0).round easyHandlers "ven1" x).calls "event2" 0 = 0 ∧
      ∀ p : PollSetting, p.Fine plainLib "ven1" ((pollAt 0).round easyHandlers "ven1" x) →
        p.round easyHandlers "ven1" ((pollAt 0).round easyHandlers "ven1" x) = (pollAt 0).round easyHandlers "ven1" x := by
  intro x
  have hgood1 : neverArgs.Good plainLib := eventArgs_good _ _ _ (ordinary_of (by decide +kernel)) (by constructor <;> decide +kernel)
  have hgood2 : laterArgs.Good plainLib := eventArgs_good _ _ _ (ordinary_of (by decide +kernel)) (by constructor <;> decide +kernel)
  have hfine : (pollAt 0).Fine plainLib "ven1" x := by
    refine pollAt_fine datable0 rfl ?_ ?_ <;> rw [show x.vtn.1 = neverVtn from rfl, queue_never] <;> intro e he <;> rcases (by simpa using he : e = cancelled neverEvent ∨ e = event2) with rfl | rfl
    · rfl
    · rfl
    · intro _ h; exact absurd h.2 (by decide +kernel)
    · intro h; exact absurd h (by decide +kernel)
  have h := c91_never_violated (h := easyHandlers) easy_total hfine rfl (by
      rw [show x.vtn.1 = neverVtn from rfl, queue_never]
      intro e he
      rcases (by simpa using he : e = cancelled neverEvent ∨ e = event2) with rfl | rfl
      · exact cancelled_members (added_sendable hgood1 (.inr rfl) rfl)
      · exact added_sendable hgood2 (.inl rfl) rfl) (by
      rw [show x.vtn.1 = neverVtn from rfl, queue_never]
      exact List.pairwise_pair.mpr (by decide +kernel)) (by intro id; simp [x, ofId, List.filter_cons]; split <;> simp) rfl (before := []) (after := [refresh 0 0 event2]) (e := refresh 0 0 (cancelled neverEvent)) take_never
      (by intro e he; simp at he) ⟨(cancelled neverEvent).arrived plainLib 0, by decide +kernel, by decide +kernel, by decide +kernel⟩
  obtain ⟨-, h2, h3⟩ := h
  refine ⟨?_, h3⟩
  have := h2 _ (List.mem_singleton.mpr rfl)
  rw [(refresh_members ..).2.2.1, refresh_modnum] at this
  exact this

end Openleadr
