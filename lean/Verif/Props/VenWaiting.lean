import Verif.Lemmas.VenWaiting
import Verif.Props.VenEvents
/-!
C106: the VEN looks after its events while its user decides.
-/
namespace Openleadr

/-- The message as a step of a VEN whose handlers answer at once. -/
def Handled.op (x : Handled) : VenOp := .message x.clock x.message

/-- The messages that arrive. -/
def arriving : List VenAct → List EventMessage
  | [] => []
  | .begin _ m :: as => m :: arriving as
  | _ :: as => arriving as

/-- The ids of the events that are still to be looked at: the rest of the message that is worked on, and those of the messages to come. -/
def WaitingVen.coming (v : WaitingVen) (acts : List VenAct) : List String :=
  (match v.work with
   | some w => w.rest
   | none => []).map Event.id ++ ((arriving acts).map EventMessage.events).flatten.map Event.id

/-- The event is cancelled, or over at one of these times. -/
def Event.Finished (e : Event) (clock : Nat → Int) : Prop :=
  e.status = .cancelled ∨ ∃ i, 0 < e.activePeriod.duration ∧ e.activePeriod.dtstart + e.activePeriod.duration ≤ clock i

/-- No clean-up comes upon a finished event that is still to be looked at. -/
def Undisturbed (h : VenHandlers) (v : WaitingVen) (acts : List VenAct) : Prop :=
  ∀ before clock later, acts = before ++ .cleanup clock :: later → ∀ e ∈ (runVenActs h v before).1.state.received,
    e.id ∈ (runVenActs h v before).1.coming later → ¬ e.Finished clock

/-- The VEN and one whose handlers answer at once are in step, as far as these ids are concerned: the state `s` and the calls `c` are those at the
    end of the last message. -/
def InPace (h : VenHandlers) (ids : List String) (v : WaitingVen) (s : VenState) (c : List VenCall) : Prop :=
  match v.work with
  | none => SimilarAbout ids v.state s ∧ v.calls = c
  | some w => (∃ t, w.message.vtnId = .str t ∧ isLowerText t = false) ∧ c <+: v.calls ∧
      ∃ s', SimilarAbout ids v.state s' ∧ restOf h s' v.calls w = decideAll h c s w.message.events

theorem similar_sub {ids ids' : List String} {s s' : VenState} (h : SimilarAbout ids s s') (hs : ∀ i ∈ ids', i ∈ ids) : SimilarAbout ids' s s' :=
  ⟨h.1, fun i hi => h.2 i (hs i hi)⟩

theorem inPace_sub {h : VenHandlers} {ids ids' : List String} {v : WaitingVen} {s : VenState} {c : List VenCall} (hp : InPace h ids v s c)
    (hs : ∀ i ∈ ids', i ∈ ids) : InPace h ids' v s c := by
  unfold InPace at hp ⊢
  cases hw : v.work with
  | none => rw [hw] at hp; exact ⟨similar_sub hp.1 hs, hp.2⟩
  | some w =>
    rw [hw] at hp
    obtain ⟨a, b, s', c, d⟩ := hp
    exact ⟨a, b, s', similar_sub c hs, d⟩

/-- A part of the loop. -/
theorem inPace_carry {h : VenHandlers} {ids : List String} {m : EventMessage} {es : List Event} (hes : ∀ e ∈ es, e.id ∈ ids) {results : List Value}
    {s s' s1 : VenState} (hs : SimilarAbout ids s s') {calls c : List VenCall} (hc : c <+: calls) (clock : Nat → Int)
    (hm : ∃ t, m.vtnId = .str t ∧ isLowerText t = false) (hr : after results (decideAll h calls s' es) = decideAll h c s1 m.events) :
    ∃ v out, carryOn clock m (proceed h m results s calls es) = (v, out) ∧
      ((out = none ∧ InPace h ids v s1 c ∧ (∃ w, v.work = some w ∧ ∀ e ∈ w.rest, e ∈ es)) ∨
       ∃ s2 c2 sent, out = some ⟨clock, m, sent⟩ ∧ onEventMessage h clock c s1 m = (s2, c2, sent) ∧ v.work = none ∧ InPace h ids v s2 c2) := by
  have hp := similar_proceed h m es hes results hs calls
  have hq := proceed_rest h m es results s' calls
  have hx := proceed_prefix h m es results s' calls
  rw [hr] at hq
  obtain ⟨t, ht, hl⟩ := hm
  cases hA : proceed h m results s calls es with
  | mk sA x =>
    cases hB : proceed h m results s' calls es with
    | mk sB y =>
      rw [hA, hB] at hp
      rw [hB] at hq hx
      obtain ⟨hp1, hp2⟩ := hp
      simp only at hp1 hp2
      subst hp2
      obtain ⟨c', r⟩ := x
      cases r with
      | inl w =>
        have hmsg := proceed_message h m es results s' calls hB
        refine ⟨_, _, rfl, Or.inl ⟨rfl, ?_, w, rfl, hmsg.2.2⟩⟩
        simp only at hq hx
        refine ⟨⟨t, by rw [hmsg.1]; exact ht, hl⟩, hc.trans hx, sB, hp1, ?_⟩
        rw [hmsg.1]; exact hq
      | inr r =>
        simp only at hq
        have hmess : ∀ (vs : List Value), (∀ (sent : Option CreatedEvent), resultsOf h c s1 m = (sB, c', false, vs) →
            onEventMessage h clock c s1 m = (sB, c', replyFor clock m false vs)) := by
          intro vs _ hres
          rw [onEventMessage_reply, hres]
        cases r with
        | ok vs =>
          refine ⟨_, _, rfl, Or.inr ⟨sB, c', _, rfl, hmess _ none ?_, rfl, hp1, rfl⟩⟩
          simp only [resultsOf, ht, hl, Bool.false_eq_true, if_false, ← hq]
        | error err =>
          refine ⟨_, _, rfl, Or.inr ⟨sB, c', _, rfl, hmess _ none ?_, rfl, hp1, rfl⟩⟩
          simp only [resultsOf, ht, hl, Bool.false_eq_true, if_false, ← hq, declineAll]

theorem coming_step {h : VenHandlers} {v : WaitingVen} {a : VenAct} {acts : List VenAct} (ha : ∀ clock m, a ≠ .begin clock m) (hw : (actVen h v a).1.work = v.work) :
    (actVen h v a).1.coming acts = v.coming (a :: acts) := by
  unfold WaitingVen.coming
  rw [hw]
  cases a with
  | begin clock m => exact absurd rfl (ha clock m)
  | answer clock => rfl
  | cleanup clock => rfl
  | statusLog clock => rfl

/-- One step keeps in step: either nothing is worked through, or the other VEN works through the same message. -/
theorem inPace_act {h : VenHandlers} {v : WaitingVen} {a : VenAct} {acts : List VenAct} {s : VenState} {c : List VenCall}
    (hp : InPace h (v.coming (a :: acts)) v s c)
    (hk : ∀ clock, a = .cleanup clock → ∀ e ∈ v.state.received, e.id ∈ v.coming acts → ¬ e.Finished clock) :
    ((actVen h v a).2 = none ∧ InPace h ((actVen h v a).1.coming acts) (actVen h v a).1 s c) ∨
    ∃ x s2 c2, (actVen h v a).2 = some x ∧ onEventMessage h x.clock c s x.message = (s2, c2, x.sent) ∧
      InPace h ((actVen h v a).1.coming acts) (actVen h v a).1 s2 c2 := by
  cases a with
  | statusLog clock =>
    refine Or.inl ⟨rfl, ?_⟩
    rw [coming_step (by simp) rfl]
    unfold InPace at hp ⊢
    simp only [actVen]
    cases hw : v.work with
    | none =>
      rw [hw] at hp
      exact ⟨⟨hp.1.1, fun id hid => agree_statusLog (hp.1.2 id hid) clock⟩, hp.2⟩
    | some w =>
      rw [hw] at hp
      obtain ⟨p, q, s', r, t⟩ := hp
      exact ⟨p, q, s', ⟨r.1, fun id hid => agree_statusLog (r.2 id hid) clock⟩, t⟩
  | cleanup clock =>
    have hkeep : ∀ id ∈ v.coming (.cleanup clock :: acts), ∀ e ∈ v.state.received, e.id = id →
        e.status ≠ .cancelled ∧ ∀ i, determineStatus (clock i) e.activePeriod ≠ .completed := by
      intro id hid e he heid
      have hne := hk clock rfl e he (by rw [heid]; exact hid)
      refine ⟨fun hc => hne (Or.inl hc), fun i => (not_completed_iff _ _).mpr fun hover => hne (Or.inr ⟨i, hover.1, hover.2⟩)⟩
    refine Or.inl ⟨rfl, ?_⟩
    rw [coming_step (by simp) rfl]
    unfold InPace at hp ⊢
    simp only [actVen]
    cases hw : v.work with
    | none =>
      rw [hw] at hp
      exact ⟨⟨hp.1.1, fun id hid => agree_cleanup (hp.1.2 id hid) clock (hkeep id hid)⟩, hp.2⟩
    | some w =>
      rw [hw] at hp
      obtain ⟨p, q, s', r, t⟩ := hp
      exact ⟨p, q, s', ⟨r.1, fun id hid => agree_cleanup (r.2 id hid) clock (hkeep id hid)⟩, t⟩
  | begin clock m =>
    have hsub : ∀ i ∈ ((arriving acts).map EventMessage.events).flatten.map Event.id, i ∈ v.coming (.begin clock m :: acts) := by
      intro i hi
      simp only [WaitingVen.coming, arriving, List.map_cons, List.flatten_cons, List.map_append, List.mem_append]
      exact Or.inr (Or.inr hi)
    have hm : ∀ e ∈ m.events, e.id ∈ v.coming (.begin clock m :: acts) := by
      intro e he
      simp only [WaitingVen.coming, arriving, List.map_cons, List.flatten_cons, List.map_append, List.mem_append]
      exact Or.inr (Or.inl (List.mem_map_of_mem he))
    cases hw : v.work with
    | some w =>
      refine Or.inl ⟨by simp only [actVen, hw], ?_⟩
      have hv : (actVen h v (.begin clock m)).1 = v := by simp only [actVen, hw]
      rw [hv]
      refine inPace_sub hp (fun i hi => ?_)
      simp only [WaitingVen.coming, List.mem_append] at hi ⊢
      rcases hi with hi | hi
      · exact Or.inl hi
      · have := hsub i hi
        simp only [WaitingVen.coming, List.mem_append] at this
        exact this
    | none =>
      have hp' := hp
      unfold InPace at hp'
      rw [hw] at hp'
      obtain ⟨hs, rfl⟩ := hp'
      have hcom : v.coming acts = ((arriving acts).map EventMessage.events).flatten.map Event.id := by simp [WaitingVen.coming, hw]
      have hstay : InPace h (v.coming acts) v s v.calls := inPace_sub hp (by rw [hcom]; exact hsub)
      by_cases hstr : ∃ t, m.vtnId = .str t
      · obtain ⟨t, ht⟩ := hstr
        by_cases hl : isLowerText t = true
        · refine Or.inr ⟨⟨clock, m, replyFor clock m true (declineAll m)⟩, s, v.calls, by simp only [actVen, hw, ht, hl, if_true], ?_, ?_⟩
          · rw [onEventMessage_reply]
            simp only [resultsOf, ht, hl, if_true, declineAll]
          · have hv : (actVen h v (.begin clock m)).1 = v := by simp only [actVen, hw, ht, hl, if_true]
            rw [hv]; exact hstay
        · have hl' : isLowerText t = false := by simpa using hl
          obtain ⟨v', out, h1, h2⟩ := inPace_carry (h := h) (m := m) hm (results := []) hs (List.prefix_refl v.calls) clock ⟨t, ht, hl'⟩ (by rw [after_nil])
          have hact : actVen h v (.begin clock m) = (v', out) := by
            rw [← h1]
            simp only [actVen, hw, ht, hl', Bool.false_eq_true, if_false]
          rw [hact]
          rcases h2 with ⟨rfl, h2, w, hvw, hrest⟩ | ⟨s2, c2, sent, rfl, h2, hvw, h3⟩
          · refine Or.inl ⟨rfl, inPace_sub h2 (fun i hi => ?_)⟩
            simp only [WaitingVen.coming, hvw, List.mem_append] at hi
            rcases hi with hi | hi
            · obtain ⟨e, he, rfl⟩ := List.mem_map.mp hi
              exact hm e (hrest e he)
            · exact hsub i hi
          · refine Or.inr ⟨_, s2, c2, rfl, h2, inPace_sub h3 (fun i hi => ?_)⟩
            simp only [WaitingVen.coming, hvw, List.map_nil, List.nil_append] at hi
            exact hsub i hi
      · have hact : actVen h v (.begin clock m) = (v, some ⟨clock, m, replyFor clock m false (declineAll m)⟩) := by
          simp only [actVen, hw]
          split
          · simp_all
          · rename_i ht; exact absurd ⟨_, ht⟩ hstr
          · rfl
        rw [hact]
        refine Or.inr ⟨_, s, v.calls, rfl, ?_, hstay⟩
        rw [onEventMessage_reply]
        have : resultsOf h v.calls s m = (s, v.calls, false, declineAll m) := by
          unfold resultsOf
          split
          · rename_i ht; exact absurd ⟨_, ht⟩ hstr
          · rfl
        rw [this]
  | answer clock =>
    cases hw : v.work with
    | none =>
      have hv : actVen h v (.answer clock) = (v, none) := by simp only [actVen, hw]
      rw [hv]
      exact Or.inl ⟨rfl, hp⟩
    | some w =>
      have hsub : ∀ i ∈ ((arriving acts).map EventMessage.events).flatten.map Event.id, i ∈ v.coming (.answer clock :: acts) := by
        intro i hi
        simp only [WaitingVen.coming, arriving, List.mem_append]
        exact Or.inr hi
      have hm : ∀ e ∈ w.rest, e.id ∈ v.coming (.answer clock :: acts) := by
        intro e he
        simp only [WaitingVen.coming, hw, List.mem_append]
        exact Or.inl (List.mem_map_of_mem he)
      have hp' := hp
      unfold InPace at hp'
      rw [hw] at hp'
      obtain ⟨⟨t, ht, hl⟩, hc, s', hs, hr⟩ := hp'
      cases ho : w.outcome with
      | error err =>
        have hact : actVen h v (.answer clock) =
            ({ v with work := none }, some ⟨clock, w.message, replyFor clock w.message false (declineAll w.message)⟩) := by
          simp only [actVen, hw, ho]
        rw [hact]
        refine Or.inr ⟨_, s', v.calls, rfl, ?_, ?_⟩
        · rw [onEventMessage_reply]
          have : resultsOf h c s w.message = (s', v.calls, false, declineAll w.message) := by
            simp only [resultsOf, ht, hl, Bool.false_eq_true, if_false, ← hr, restOf, ho, declineAll]
          rw [this]
        · refine ⟨similar_sub hs (fun i hi => ?_), rfl⟩
          simp only [WaitingVen.coming, List.map_nil, List.nil_append] at hi
          exact hsub i hi
      | ok x =>
        have hr' : after (w.results ++ [x]) (decideAll h v.calls { s' with responded := remember s'.responded w.event x } w.rest) = decideAll h c s w.message.events := by
          rw [← hr]; simp only [restOf, ho]
        obtain ⟨v', out, h1, h2⟩ := inPace_carry (m := w.message) hm (similar_remember hs w.event x) hc clock ⟨t, ht, hl⟩ hr'
        have hact : actVen h v (.answer clock) = (v', out) := by
          rw [← h1]
          simp only [actVen, hw, ho]
        rw [hact]
        rcases h2 with ⟨rfl, h2, w', hvw, hrest⟩ | ⟨s2, c2, sent, rfl, h2, hvw, h3⟩
        · refine Or.inl ⟨rfl, inPace_sub h2 (fun i hi => ?_)⟩
          simp only [WaitingVen.coming, hvw, List.mem_append] at hi
          rcases hi with hi | hi
          · obtain ⟨e, he, rfl⟩ := List.mem_map.mp hi
            exact hm e (hrest e he)
          · exact hsub i hi
        · refine Or.inr ⟨_, s2, c2, rfl, h2, inPace_sub h3 (fun i hi => ?_)⟩
          simp only [WaitingVen.coming, hvw, List.map_nil, List.nil_append] at hi
          exact hsub i hi

theorem inPace_run {h : VenHandlers} (acts : List VenAct) {v : WaitingVen} {s : VenState} {c : List VenCall} (hp : InPace h (v.coming acts) v s c)
    (hk : Undisturbed h v acts) :
    (runVen h s c ((runVenActs h v acts).2.map Handled.op)).2.2 = (runVenActs h v acts).2.map Handled.sent ∧
    InPace h [] (runVenActs h v acts).1 (runVen h s c ((runVenActs h v acts).2.map Handled.op)).1 (runVen h s c ((runVenActs h v acts).2.map Handled.op)).2.1 := by
  induction acts generalizing v s c with
  | nil => exact ⟨rfl, inPace_sub hp (by simp)⟩
  | cons a acts ih =>
    have hk' : Undisturbed h (actVen h v a).1 acts := by
      intro before clock later heq e he hid
      refine hk (a :: before) clock later (by rw [heq]; rfl) e ?_ ?_ <;> simpa only [runVenActs]
    have h1 := inPace_act hp (fun clock ha e he hid => hk [] clock acts (by rw [ha]; rfl) e he hid)
    simp only [runVenActs]
    rcases h1 with ⟨h1, h2⟩ | ⟨x, s2, c2, h1, h2, h3⟩
    · rw [h1]
      exact ih h2 hk'
    · rw [h1]
      have := ih h3 hk'
      simp only [Option.toList_some, List.cons_append, List.nil_append, List.map_cons, runVen, Handled.op, venStep, h2]
      exact ⟨by rw [← this.1], this.2⟩

/-- **C106**: handlers may take any time to decide, and the jobs that log and clean up events may run at any moment in between. If no clean-up comes
    upon a finished event that is still to be looked at, the messages that are sent are those of a VEN whose handlers answer at once and which
    cleans nothing up; so are the calls of the handlers and the decisions remembered whenever no message is worked on. -/
theorem c106_as_if_at_once (h : VenHandlers) (s : VenState) (calls : List VenCall) (acts : List VenAct) (hk : Undisturbed h ⟨s, calls, none⟩ acts) :
    let out := runVenActs h ⟨s, calls, none⟩ acts
    let same := runVen h s calls (out.2.map Handled.op)
    same.2.2 = out.2.map Handled.sent ∧ same.2.1 <+: out.1.calls ∧
    (out.1.work = none → same.2.1 = out.1.calls ∧ same.1.responded = out.1.state.responded) := by
  have hp : InPace h ((⟨s, calls, none⟩ : WaitingVen).coming acts) ⟨s, calls, none⟩ s calls := ⟨⟨rfl, fun id _ => agree_refl id _⟩, rfl⟩
  obtain ⟨h1, h2⟩ := inPace_run acts hp hk
  refine ⟨h1, ?_, ?_⟩
  · unfold InPace at h2
    split at h2
    · rw [h2.2]; exact List.prefix_refl _
    · exact h2.2.1
  · intro hw
    unfold InPace at h2
    rw [hw] at h2
    exact ⟨h2.2.symm, h2.1.1.symm⟩

/-- non-vacuity: the user takes a long time to decide about two events; meanwhile another event ends and is cleaned up, and a poll is due. -/
example : let acts := [VenAct.begin (fun _ => 0) ⟨.str "VTN1", .str "p", [venEvent "old" 0]⟩, .answer (fun _ => 1),
      .begin (fun _ => 50) ⟨.str "VTN1", .str "q", [venEvent "a" 0, venEvent "b" 0]⟩, .statusLog (fun _ => 60), .answer (fun _ => 60),
      .begin (fun _ => 70) ⟨.str "VTN1", .str "r", [venEvent "c" 0]⟩, .cleanup (fun _ => 200), .answer (fun _ => 90)]
    Undisturbed easyHandlers ⟨noEvents, [], none⟩ acts ∧
    (runVenActs easyHandlers ⟨noEvents, [], none⟩ acts).1.state.received = [] ∧
    (runVenActs easyHandlers ⟨noEvents, [], none⟩ acts).2.map Handled.sent =
      [some ⟨200, .str "p", [⟨200, .str "optIn", .str "p", 0, "old"⟩]⟩,
       some ⟨200, .str "q", [⟨200, .str "optIn", .str "q", 0, "a"⟩, ⟨200, .str "optIn", .str "q", 0, "b"⟩]⟩] := by
  refine ⟨?_, by decide +kernel, by decide +kernel⟩
  intro before clock later heq e he hid
  rcases before with _ | ⟨a1, _ | ⟨a2, _ | ⟨a3, _ | ⟨a4, _ | ⟨a5, _ | ⟨a6, _ | ⟨a7, _ | ⟨a8, before⟩⟩⟩⟩⟩⟩⟩⟩ <;>
    simp only [List.nil_append, List.cons_append, List.cons.injEq, reduceCtorEq, false_and, and_false, List.nil_eq, List.append_eq_nil_iff] at heq
  obtain ⟨rfl, rfl, rfl, rfl, rfl, rfl, -, rfl⟩ := heq
  revert hid
  show e.id ∈ ([] : List String) → _
  simp

/-! ### one message at a time -/

/-- **C106**: while the user decides, no handler is called, no message is sent and no other message is begun, whatever else happens. -/
theorem c106_one_at_a_time (h : VenHandlers) (v : WaitingVen) (w : Work) (hw : v.work = some w) (acts : List VenAct) (hno : ∀ clock, .answer clock ∉ acts) :
    (runVenActs h v acts).1.work = some w ∧ (runVenActs h v acts).1.calls = v.calls ∧ (runVenActs h v acts).1.state.responded = v.state.responded ∧
    (runVenActs h v acts).2 = [] := by
  induction acts generalizing v with
  | nil => exact ⟨hw, rfl, rfl, rfl⟩
  | cons a acts ih =>
    have hstep : (actVen h v a).1.work = some w ∧ (actVen h v a).1.calls = v.calls ∧ (actVen h v a).1.state.responded = v.state.responded ∧
        (actVen h v a).2 = none := by
      cases a with
      | begin clock m => simp only [actVen, hw, and_self]
      | answer clock => exact absurd (List.mem_cons_self) (hno clock)
      | cleanup clock => exact ⟨hw, rfl, rfl, rfl⟩
      | statusLog clock => exact ⟨hw, rfl, rfl, rfl⟩
    obtain ⟨h1, h2, h3, h4⟩ := hstep
    obtain ⟨r1, r2, r3, r4⟩ := ih _ h1 (fun clock hm => hno clock (by simp [hm]))
    simp only [runVenActs]
    exact ⟨r1, r2.trans h2, r3.trans h3, by rw [h4, r4]; rfl⟩

theorem carryOn_cases (h : VenHandlers) (clock : Nat → Int) (m : EventMessage) (results : List Value) (s : VenState) (calls : List VenCall) (es : List Event) :
    (∃ w, (carryOn clock m (proceed h m results s calls es)).1.work = some w ∧ w.message = m ∧ w.rest.length < es.length ∧
      (carryOn clock m (proceed h m results s calls es)).2 = none) ∨
    ((carryOn clock m (proceed h m results s calls es)).1.work = none ∧
      ∃ sent, (carryOn clock m (proceed h m results s calls es)).2 = some ⟨clock, m, sent⟩) := by
  cases hp : proceed h m results s calls es with
  | mk s' x =>
    obtain ⟨c', r⟩ := x
    cases r with
    | inl w =>
      have := proceed_message h m es results s calls hp
      exact Or.inl ⟨w, rfl, this.1, this.2.1, rfl⟩
    | inr r => cases r <;> exact Or.inr ⟨rfl, _, rfl⟩

theorem answer_cases (h : VenHandlers) (v : WaitingVen) (w : Work) (hw : v.work = some w) (clock : Nat → Int) :
    (∃ w', (actVen h v (.answer clock)).1.work = some w' ∧ w'.message = w.message ∧ w'.rest.length < w.rest.length ∧
      (actVen h v (.answer clock)).2 = none) ∨
    ((actVen h v (.answer clock)).1.work = none ∧ ∃ sent, (actVen h v (.answer clock)).2 = some ⟨clock, w.message, sent⟩) := by
  simp only [actVen, hw]
  cases w.outcome with
  | error err => exact Or.inr ⟨rfl, _, rfl⟩
  | ok x => exact carryOn_cases h clock w.message _ _ _ _

/-- How often a handler answers. -/
def answers : List VenAct → Nat
  | [] => 0
  | .answer _ :: as => answers as + 1
  | _ :: as => answers as

/-- **C106**: a message that was begun is worked through and answered, before any other one, as soon as the handlers have answered for the event that
    is being decided and at most once more for each of the events behind it, whatever the other jobs do. -/
theorem c106_finishes (h : VenHandlers) (v : WaitingVen) (w : Work) (hw : v.work = some w) (acts : List VenAct) (hans : w.rest.length < answers acts) :
    ∃ x xs, (runVenActs h v acts).2 = x :: xs ∧ x.message = w.message := by
  induction acts generalizing v w with
  | nil => simp [answers] at hans
  | cons a acts ih =>
    have hother : ∀ v', actVen h v a = (v', none) → v'.work = some w → w.rest.length < answers acts →
        ∃ x xs, (runVenActs h v (a :: acts)).2 = x :: xs ∧ x.message = w.message := by
      intro v' hv hw' ha
      simp only [runVenActs, hv, Option.toList_none, List.nil_append]
      exact ih v' w hw' ha
    cases a with
    | begin clock m => exact hother v (by simp only [actVen, hw]) hw (by simpa [answers] using hans)
    | cleanup clock => exact hother _ rfl hw (by simpa [answers] using hans)
    | statusLog clock => exact hother _ rfl hw (by simpa [answers] using hans)
    | answer clock =>
      simp only [answers] at hans
      rcases answer_cases h v w hw clock with ⟨w', h1, h2, h3, h4⟩ | ⟨h1, sent, h2⟩
      · simp only [runVenActs, h4, Option.toList_none, List.nil_append]
        rw [← h2]
        exact ih _ w' h1 (by omega)
      · simp only [runVenActs, h2, Option.toList_some, List.cons_append, List.nil_append]
        exact ⟨_, _, rfl, rfl⟩

/-- **C106**: messages are worked through in the order in which they arrive, each at most once; the one that is worked on comes after them. -/
theorem c106_in_order (h : VenHandlers) (v : WaitingVen) (acts : List VenAct) :
    ((runVenActs h v acts).2.map Handled.message ++ (runVenActs h v acts).1.work.toList.map Work.message).Sublist
      (v.work.toList.map Work.message ++ arriving acts) := by
  induction acts generalizing v with
  | nil => simp [runVenActs, arriving]
  | cons a acts ih =>
    have := ih (actVen h v a).1
    simp only [runVenActs, List.map_append, List.append_assoc]
    refine (List.Sublist.append_left this _).trans ?_
    rw [← List.append_assoc]
    have hstep : ((actVen h v a).2.toList.map Handled.message ++ (actVen h v a).1.work.toList.map Work.message).Sublist
        (v.work.toList.map Work.message ++ arriving [a]) := by
      cases a with
      | cleanup clock => simp [actVen, arriving]
      | statusLog clock => simp [actVen, arriving]
      | answer clock =>
        cases hw : v.work with
        | none => simp [actVen, hw]
        | some w =>
          rcases answer_cases h v w hw clock with ⟨w', h1, h2, h3, h4⟩ | ⟨h1, sent, h2⟩
          · rw [h1, h4]; simp [h2, arriving]
          · rw [h1, h2]; simp [arriving]
      | begin clock m =>
        cases hw : v.work with
        | some w => simp [actVen, hw]
        | none =>
          simp only [actVen, hw]
          split
          · simp_all
          · split
            · simp [hw, arriving]
            · rcases carryOn_cases h clock m [] v.state v.calls m.events with ⟨w', h1, h2, h3, h4⟩ | ⟨h1, sent, h2⟩
              · rw [h1, h4]; simp [h2, arriving]
              · rw [h1, h2]; simp [arriving]
          · simp [hw, arriving]
    have harr : arriving (a :: acts) = arriving [a] ++ arriving acts := by cases a <;> rfl
    rw [harr, ← List.append_assoc]
    exact List.Sublist.append_right hstep _

/-! ### what follows for the user's handlers -/

theorem delivered_handled (l : List Handled) : delivered (l.map Handled.op) = (l.map (fun x => x.message.events)).flatten := by
  induction l with
  | nil => rfl
  | cons x l ih => simp only [List.map_cons, Handled.op, delivered, List.flatten_cons]; rw [← ih]

/-- **C106** (partial: the handlers do not raise, senders are not given in lower case, no event is delivered completed or cancelled, revisions arrive
    in order, and no clean-up comes upon a finished event that is still to be looked at): whatever the time the handlers take and whenever the
    other jobs run, each revision of an event in a message that is worked through reaches the handlers exactly once. -/
theorem c106_exactly_once_partial (h : VenHandlers) (ht : h.Total) (acts : List VenAct) (hk : Undisturbed h ⟨noEvents, [], none⟩ acts)
    (hidle : (runVenActs h ⟨noEvents, [], none⟩ acts).1.work = none)
    (hgood : ∀ x ∈ (runVenActs h ⟨noEvents, [], none⟩ acts).2, ∃ t, x.message.vtnId = .str t ∧ isLowerText t = false)
    (hrun : ∀ x ∈ (runVenActs h ⟨noEvents, [], none⟩ acts).2, ∀ e ∈ x.message.events, Running e) (id : String)
    (horder : InOrder ((runVenActs h ⟨noEvents, [], none⟩ acts).2.map Handled.op) id)
    (x : Handled) (hx : x ∈ (runVenActs h ⟨noEvents, [], none⟩ acts).2) (e : Event) (he : e ∈ x.message.events) (hid : e.id = id) :
    timesCalled (runVenActs h ⟨noEvents, [], none⟩ acts).1.calls id e.modnum = 1 := by
  have hsame := ((c106_as_if_at_once h noEvents [] acts hk).2.2 hidle).1
  rw [← hsame]
  have hmem : ∀ e, e ∈ delivered ((runVenActs h ⟨noEvents, [], none⟩ acts).2.map Handled.op) ↔
      ∃ x ∈ (runVenActs h ⟨noEvents, [], none⟩ acts).2, e ∈ x.message.events := by
    intro e
    rw [delivered_handled]
    simp only [List.mem_flatten, List.mem_map]
    exact ⟨fun ⟨l, ⟨x, hx, hl⟩, he⟩ => ⟨x, hx, by rw [hl]; exact he⟩, fun ⟨x, hx, he⟩ => ⟨_, ⟨x, hx, rfl⟩, he⟩⟩
  refine c44_exactly_once_partial h ht _ id horder ?_ ?_ ?_ e ((hmem e).mpr ⟨x, hx, he⟩) hid
  · intro op hop clock m hm
    obtain ⟨y, hy, rfl⟩ := List.mem_map.mp hop
    simp only [Handled.op, VenOp.message.injEq] at hm
    obtain ⟨-, rfl⟩ := hm
    exact hgood y hy
  · intro e he
    obtain ⟨y, hy, he⟩ := (hmem e).mp he
    exact hrun y hy e he
  · intro e he _
    obtain ⟨y, hy, he⟩ := (hmem e).mp he
    refine ⟨(hrun y hy e he).2, fun clock hc => ?_⟩
    obtain ⟨z, -, hz⟩ := List.mem_map.mp hc
    simp [Handled.op] at hz

/-- **C106, refuted** for a clean-up that comes upon finished events of which a new revision is about to be looked at: in one message, the revision of
    the event before the one that is being decided counts as an update and the revision of the event behind it as a new event. Had the clean-up
    run before the message, both would be new; had it run after it, both would be updates. -/
theorem c106_between_violated (now : Int) (hnow : 110 ≤ now) (q : Value) (h : VenHandlers) (ht : h.Total) :
    let s : VenState := ⟨[venEvent "a" 0, venEvent "b" 0], [("a", .str "optIn"), ("b", .str "optIn")]⟩
    let m : EventMessage := ⟨.str "VTN1", q, [venEvent "a" 1, venEvent "b" 1]⟩
    let clock : Nat → Int := fun _ => now
    (runVenActs h ⟨s, [], none⟩ [.begin clock m, .cleanup clock, .answer clock, .answer clock]).1.calls =
      [.onUpdate (venEvent "a" 1), .onEvent (venEvent "b" 1)] ∧
    (runVen h s [] [.cleanup clock, .message clock m]).2.1 = [.onEvent (venEvent "a" 1), .onEvent (venEvent "b" 1)] ∧
    (runVen h s [] [.message clock m, .cleanup clock]).2.1 = [.onUpdate (venEvent "a" 1), .onUpdate (venEvent "b" 1)] := by
  intro s m clock
  have hl : isLowerText "VTN1" = false := by decide +kernel
  have hover : determineStatus now { dtstart := 100, duration := 10 } = .completed := by
    refine Classical.byContradiction fun hne => (not_completed_iff _ _).mp hne ⟨by decide, ?_⟩
    show (100 : Int) + 10 ≤ now
    omega
  have ha : ∀ n, (venEvent "a" n).id = "a" ∧ (venEvent "a" n).modnum = n ∧ (venEvent "a" n).activePeriod = { dtstart := 100, duration := 10 } := fun n => ⟨rfl, rfl, rfl⟩
  have hb : ∀ n, (venEvent "b" n).id = "b" ∧ (venEvent "b" n).modnum = n ∧ (venEvent "b" n).activePeriod = { dtstart := 100, duration := 10 } := fun n => ⟨rfl, rfl, rfl⟩
  obtain ⟨u1, hu1⟩ := ht.2 [] s.responded (venEvent "a" 1)
  obtain ⟨u2, hu2⟩ := ht.1 [] (venEvent "a" 1)
  have hc1 : cleanup clock [venEvent "b" 0, venEvent "a" 1] = [] := by simp [cleanup, cleanupFrom, ha, hb, hover, clock]
  have hc2 : cleanup clock [venEvent "a" 0, venEvent "b" 0] = [] := by simp [cleanup, cleanupFrom, ha, hb, hover, clock]
  have hn1 : ∀ c r e, decideEvent h c ⟨[], r⟩ e = (⟨[e], r⟩, c ++ [.onEvent e], h.onEvent c e) := fun _ _ _ => rfl
  have hd1 : ∀ c r, decideEvent h c ⟨[venEvent "a" 0, venEvent "b" 0], r⟩ (venEvent "a" 1) =
      (⟨[venEvent "b" 0, venEvent "a" 1], r⟩, c ++ [.onUpdate (venEvent "a" 1)], h.onUpdate c r (venEvent "a" 1)) := by
    intro c r; simp [decideEvent, ha, dropFirst]
  have hd2 : ∀ c r, decideEvent h c ⟨[venEvent "b" 0, venEvent "a" 1], r⟩ (venEvent "b" 1) =
      (⟨[venEvent "a" 1, venEvent "b" 1], r⟩, c ++ [.onUpdate (venEvent "b" 1)], h.onUpdate c r (venEvent "b" 1)) := by
    intro c r; simp [decideEvent, hb, dropFirst]
  have hd3 : ∀ c r, decideEvent h c ⟨[venEvent "a" 1], r⟩ (venEvent "b" 1) =
      (⟨[venEvent "a" 1, venEvent "b" 1], r⟩, c ++ [.onEvent (venEvent "b" 1)], h.onEvent c (venEvent "b" 1)) := by
    intro c r; simp [decideEvent, ha, hb]
  have hk1 : ∀ r, isKnown ⟨[venEvent "a" 0, venEvent "b" 0], r⟩ (venEvent "a" 1) = false := by intro r; simp [isKnown, ha]
  have hk2 : ∀ r e, isKnown ⟨[], r⟩ e = false := fun _ _ => rfl
  have hsec : ∀ c, ∃ w, h.onEvent c (venEvent "b" 1) = .ok w := fun c => ht.1 c _
  have hsec' : ∀ c r, ∃ w, h.onUpdate c r (venEvent "b" 1) = .ok w := fun c r => ht.2 c r _
  obtain ⟨w1, hw1⟩ := hsec [.onUpdate (venEvent "a" 1)]
  obtain ⟨w2, hw2⟩ := hsec [.onEvent (venEvent "a" 1)]
  obtain ⟨w3, hw3⟩ := hsec' [.onUpdate (venEvent "a" 1)] (remember s.responded (venEvent "a" 1) u1)
  have hst : ∀ (clock : Nat → Int) (s : VenState) (c : List VenCall), (onEventMessage h clock c s m).2.1 = (decideAll h c s m.events).2.1 ∧
      (onEventMessage h clock c s m).1 = (decideAll h c s m.events).1 := by
    intro clock s c
    rw [onEventMessage_reply]
    simp only [resultsOf, m, hl, Bool.false_eq_true, if_false]
    cases decideAll h c s [venEvent "a" 1, venEvent "b" 1] with
    | mk s' x => obtain ⟨c', r⟩ := x; cases r <;> exact ⟨rfl, rfl⟩
  refine ⟨?_, ?_, ?_⟩
  · simp only [runVenActs, actVen, m, hl, Bool.false_eq_true, if_false, s, proceed, hk1, hd1, carryOn, hc1, hu1]
    simp only [hk2, hn1, List.nil_append, carryOn, hw1, proceed, List.cons_append]
  · simp only [runVen, venStep, hst]
    simp only [s, hc2, m, decideAll, hn1, hu2, hd3, List.nil_append, hw2, List.cons_append]
  · simp only [runVen, venStep, hst]
    simp only [s, m, decideAll, hd1, hu1, hd2, List.nil_append]
    simp only [s] at hw3
    simp only [hw3, List.cons_append, List.nil_append]

end Openleadr
