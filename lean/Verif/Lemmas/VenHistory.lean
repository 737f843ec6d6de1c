import Verif.Lemmas.VenEvents
/-!
Invariants of the VEN's events over histories.
-/
namespace Openleadr

/-- The event a handler was called with. -/
def VenCall.event : VenCall → Event
  | .onEvent e => e
  | .onUpdate e => e

/-- The calls made for an event id. -/
def callsOf (id : String) (calls : List VenCall) : List VenCall := calls.filter (fun c => decide (c.event.id = id))

theorem callsOf_append (id : String) (a b : List VenCall) : callsOf id (a ++ b) = callsOf id a ++ callsOf id b := by simp [callsOf]

/-- What holds of one event id: either it is unknown and no handler was called, or the latest revision is in the memory and the handlers were
    called for strictly increasing revisions, `on_event` first and `on_update_event` afterwards. -/
def Once (id : String) (P : Event → Prop) (received : List Event) (calls : List VenCall) : Prop :=
  (ofId id received = [] ∧ callsOf id calls = []) ∨
  ∃ (r first : Event) (rest : List Event), ofId id received = [r] ∧ P r ∧ callsOf id calls = .onEvent first :: rest.map .onUpdate ∧
    ((first :: rest).map Event.modnum).Pairwise (· < ·) ∧ ((first :: rest).map Event.modnum).getLast? = some r.modnum

theorem find_none_ofId (id : String) (l : List Event) : l.find? (fun r => decide (r.id = id)) = none ↔ ofId id l = [] := by
  rw [find_ofId, List.head?_eq_none_iff]

theorem last_append (l : List Int) (x y : Int) (h : l.Pairwise (· < ·)) (hl : l.getLast? = some x) (hxy : x < y) : (l ++ [y]).Pairwise (· < ·) := by
  rw [List.pairwise_append]
  refine ⟨h, List.pairwise_singleton _ _, ?_⟩
  intro a ha b hb
  rw [List.mem_singleton] at hb; subst hb
  obtain ⟨l', rfl⟩ := List.getLast?_eq_some_iff.mp hl
  rw [List.mem_append, List.mem_singleton] at ha
  rcases ha with ha | rfl
  · exact Int.lt_trans ((List.pairwise_append.mp h).2.2 a ha x (by simp)) hxy
  · exact hxy

/-- One event: the invariant stays, and if the event has the id in question its revision is now the latest known. -/
theorem once_decide (id : String) (P : Event → Prop) (h : VenHandlers) (calls : List VenCall) (s : VenState) (e : Event)
    (hi : Once id P s.received calls) (hP : e.id = id → P e) (hm : e.id = id → ∀ r, ofId id s.received = [r] → r.modnum ≤ e.modnum) :
    Once id P (decideEvent h calls s e).1.received (decideEvent h calls s e).2.1 ∧
      (e.id = id → ∃ r, ofId id (decideEvent h calls s e).1.received = [r] ∧ r.modnum = e.modnum) ∧
      (e.id ≠ id → ofId id (decideEvent h calls s e).1.received = ofId id s.received) := by
  by_cases he : e.id = id
  · refine ⟨?_, ?_, fun hn => absurd he hn⟩
    all_goals
      rcases hi with ⟨h1, h2⟩ | ⟨r, first, rest, h1, hPr, h2, h3, h4⟩
    · have hf : s.received.find? (fun r => decide (r.id = e.id)) = none := by rw [he]; exact (find_none_ofId _ _).mpr h1
      unfold decideEvent; simp only [hf]
      refine Or.inr ⟨e, e, [], ?_, hP he, ?_, by simp, by simp⟩
      · rw [ofId_append, h1]; simp [ofId, he]
      · rw [callsOf_append, h2]; simp [callsOf, VenCall.event, he]
    · have hf : s.received.find? (fun r => decide (r.id = e.id)) = some r := by rw [he, find_ofId, h1]; rfl
      unfold decideEvent; simp only [hf]
      by_cases hmn : r.modnum = e.modnum
      · rw [if_pos hmn]
        cases Dict.get? s.responded e.id <;> exact Or.inr ⟨r, first, rest, h1, hPr, h2, h3, h4⟩
      · rw [if_neg hmn]
        have hlt : r.modnum < e.modnum := Int.lt_iff_le_and_ne.mpr ⟨hm he r h1, hmn⟩
        refine Or.inr ⟨e, first, rest ++ [e], ?_, hP he, ?_, ?_, ?_⟩
        · show ofId id (dropFirst e.id s.received ++ [e]) = [e]
          rw [ofId_append, he, ofId_dropFirst_self, h1]; simp [ofId, he]
        · show callsOf id (calls ++ [VenCall.onUpdate e]) = _
          rw [callsOf_append, h2]; simp [callsOf, VenCall.event, he]
        · have := last_append _ _ e.modnum h3 h4 hlt
          simpa using this
        · rw [← List.cons_append, List.map_append, List.map_singleton, List.getLast?_append]; simp
    · have hf : s.received.find? (fun r => decide (r.id = e.id)) = none := by rw [he]; exact (find_none_ofId _ _).mpr h1
      intro _
      unfold decideEvent; simp only [hf]
      exact ⟨e, by rw [ofId_append, h1]; simp [ofId, he], rfl⟩
    · have hf : s.received.find? (fun r => decide (r.id = e.id)) = some r := by rw [he, find_ofId, h1]; rfl
      intro _
      unfold decideEvent; simp only [hf]
      by_cases hmn : r.modnum = e.modnum
      · rw [if_pos hmn]
        cases Dict.get? s.responded e.id <;> exact ⟨r, h1, hmn⟩
      · rw [if_neg hmn]
        refine ⟨e, ?_, rfl⟩
        show ofId id (dropFirst e.id s.received ++ [e]) = [e]
        rw [ofId_append, he, ofId_dropFirst_self, h1]; simp [ofId, he]
  · have hof : ofId id (decideEvent h calls s e).1.received = ofId id s.received := by
      unfold decideEvent
      cases hf : s.received.find? (fun r => decide (r.id = e.id)) with
      | none => simp only []; rw [ofId_append]; simp [ofId, he]
      | some r =>
        simp only []
        by_cases hmn : r.modnum = e.modnum
        · rw [if_pos hmn]; cases Dict.get? s.responded e.id <;> rfl
        · rw [if_neg hmn]
          show ofId id (dropFirst e.id s.received ++ [e]) = _
          rw [ofId_append, ofId_dropFirst_other _ _ _ (Ne.symm he)]; simp [ofId, he]
    have hc : callsOf id (decideEvent h calls s e).2.1 = callsOf id calls := by
      unfold decideEvent
      cases hf : s.received.find? (fun r => decide (r.id = e.id)) with
      | none => simp only []; rw [callsOf_append]; simp [callsOf, VenCall.event, he]
      | some r =>
        simp only []
        by_cases hmn : r.modnum = e.modnum
        · rw [if_pos hmn]; cases Dict.get? s.responded e.id <;> rfl
        · rw [if_neg hmn]
          show callsOf id (calls ++ [VenCall.onUpdate e]) = _
          rw [callsOf_append]; simp [callsOf, VenCall.event, he]
    refine ⟨?_, fun h' => absurd h' he, fun _ => hof⟩
    unfold Once
    rw [hof, hc]; exact hi

/-- The revisions of an id among events. -/
def revisions (id : String) (l : List Event) : List Int := (ofId id l).map Event.modnum

/-- All events of a message, whether or not one of them raises. -/
theorem once_decideAll (id : String) (P : Event → Prop) (h : VenHandlers) (calls : List VenCall) (s : VenState) (es later : List Event)
    (hi : Once id P s.received calls) (hP : ∀ e ∈ es, e.id = id → P e)
    (hm : (revisions id (es ++ later)).Pairwise (· ≤ ·))
    (hr : ∀ r, ofId id s.received = [r] → ∀ n ∈ revisions id (es ++ later), r.modnum ≤ n) :
    Once id P (decideAll h calls s es).1.received (decideAll h calls s es).2.1 ∧
      (∀ r, ofId id (decideAll h calls s es).1.received = [r] → ∀ n ∈ revisions id later, r.modnum ≤ n) := by
  induction es generalizing calls s with
  | nil => exact ⟨hi, hr⟩
  | cons e es ih =>
    have h1 := once_decide id P h calls s e hi (hP e (by simp)) (fun he r hr' => hr r hr' e.modnum (by simp [revisions, ofId, he]))
    have hm' : (revisions id (es ++ later)).Pairwise (· ≤ ·) := by
      by_cases he : e.id = id
      · simp only [revisions, ofId, List.cons_append, List.filter_cons, he, decide_true, if_true, List.map_cons, List.pairwise_cons] at hm
        exact hm.2
      · simpa only [revisions, ofId, List.cons_append, List.filter_cons, he, decide_false, Bool.false_eq_true, if_false] using hm
    have hr' : ∀ r, ofId id (decideEvent h calls s e).1.received = [r] → ∀ n ∈ revisions id (es ++ later), r.modnum ≤ n := by
      intro r hr1 n hn
      by_cases he : e.id = id
      · obtain ⟨r', h2, h3⟩ := h1.2.1 he
        rw [h2] at hr1
        obtain rfl : r' = r := by simpa using hr1
        simp only [revisions, ofId, List.cons_append, List.filter_cons, he, decide_true, if_true, List.map_cons, List.pairwise_cons] at hm
        rw [h3]; exact hm.1 n hn
      · rw [h1.2.2 he] at hr1
        refine hr r hr1 n ?_
        simpa only [revisions, ofId, List.cons_append, List.filter_cons, he, decide_false, Bool.false_eq_true, if_false] using hn
    simp only [decideAll]
    cases hd : decideEvent h calls s e with
    | mk s1 x =>
      obtain ⟨c1, r1⟩ := x
      rw [hd] at h1 hr'
      cases r1 with
      | error err =>
        refine ⟨h1.1, fun r hrr n hn => hr' r hrr n ?_⟩
        simp only [revisions, ofId, List.filter_append, List.map_append, List.mem_append] at hn ⊢
        exact Or.inr hn
      | ok v =>
        have := ih c1 { s1 with responded := remember s1.responded e v } h1.1 (fun x hx => hP x (by simp [hx])) hm' hr'
        simp only []
        cases hd2 : decideAll h c1 { s1 with responded := remember s1.responded e v } es with
        | mk s2 y =>
          obtain ⟨c2, r2⟩ := y
          rw [hd2] at this
          cases r2 <;> exact this

/-- The events a history delivers. -/
def delivered : List VenOp → List Event
  | [] => []
  | .message _ m :: ops => m.events ++ delivered ops
  | _ :: ops => delivered ops

theorem onEventMessage_state (h : VenHandlers) (clock : Nat → Int) (calls : List VenCall) (s : VenState) (m : EventMessage) :
    (onEventMessage h clock calls s m).1 = (resultsOf h calls s m).1 ∧
      (onEventMessage h clock calls s m).2.1 = (resultsOf h calls s m).2.1 := by
  unfold onEventMessage
  cases resultsOf h calls s m with
  | mk s' x =>
    obtain ⟨c, i, r⟩ := x
    simp only []
    split <;> exact ⟨rfl, rfl⟩

/-- Either the message is not looked at, or all its events are decided as by `decideAll`. -/
theorem resultsOf_state (h : VenHandlers) (calls : List VenCall) (s : VenState) (m : EventMessage) :
    ((resultsOf h calls s m).1 = s ∧ (resultsOf h calls s m).2.1 = calls) ∨
    ((resultsOf h calls s m).1 = (decideAll h calls s m.events).1 ∧ (resultsOf h calls s m).2.1 = (decideAll h calls s m.events).2.1) := by
  unfold resultsOf
  split
  · split
    · exact Or.inl ⟨rfl, rfl⟩
    · split
      · rename_i hd; rw [hd]; exact Or.inr ⟨rfl, rfl⟩
      · rename_i hd; rw [hd]; exact Or.inr ⟨rfl, rfl⟩
  · exact Or.inl ⟨rfl, rfl⟩

/-- The event is not cancelled and not over whenever a clean-up of the history looks at the clock. -/
def Stays (ops : List VenOp) (e : Event) : Prop :=
  e.status ≠ .cancelled ∧ ∀ clock, VenOp.cleanup clock ∈ ops → ∀ i, determineStatus (clock i) e.activePeriod ≠ .completed

theorem once_clean (id : String) (P : Event → Prop) (clock : Nat → Int) (l : List Event) (calls : List VenCall) (hi : Once id P l calls)
    (hP : ∀ e, P e → e.status ≠ .cancelled ∧ ∀ i, determineStatus (clock i) e.activePeriod ≠ .completed) :
    ofId id (cleanup clock l) = ofId id l := by
  refine cleanup_keeps clock _ l ?_
  intro e he hid
  rcases hi with ⟨h1, -⟩ | ⟨r, -, -, h1, hPr, -⟩
  · have : e ∈ ofId id l := List.mem_filter.mpr ⟨he, hid⟩
    rw [h1] at this; simp at this
  · have : e ∈ ofId id l := List.mem_filter.mpr ⟨he, hid⟩
    rw [h1] at this
    obtain rfl : e = r := by simpa using this
    exact hP e hPr

/-- A log entry keeps the latest revision known. -/
theorem once_log (id : String) (ops : List VenOp) (clock : Nat → Int) (l : List Event) (calls : List VenCall) (hi : Once id (Stays ops) l calls) :
    Once id (Stays ops) (statusLog clock 0 l) calls ∧
      ∀ r', ofId id (statusLog clock 0 l) = [r'] → ∃ r, ofId id l = [r] ∧ r'.modnum = r.modnum := by
  have hmap := ofId_statusLog id clock l 0
  rcases hi with ⟨h1, h2⟩ | ⟨r, first, rest, h1, hPr, h2, h3, h4⟩
  · have : ofId id (statusLog clock 0 l) = [] := by rw [h1] at hmap; simpa using hmap
    exact ⟨Or.inl ⟨this, h2⟩, fun r' hr' => by rw [this] at hr'; simp at hr'⟩
  · rw [h1] at hmap
    cases hx : ofId id (statusLog clock 0 l) with
    | nil => rw [hx] at hmap; simp at hmap
    | cons r' t =>
      rw [hx] at hmap
      simp only [List.map_cons, List.map_nil, List.cons.injEq, Prod.mk.injEq, List.map_eq_nil_iff] at hmap
      obtain ⟨⟨hid, hmod, hap⟩, rfl⟩ := hmap
      refine ⟨Or.inr ⟨r', first, rest, hx, ⟨?_, ?_⟩, h2, h3, by rw [hmod]; exact h4⟩, ?_⟩
      · intro hc
        have hmem : r' ∈ statusLog clock 0 l := by
          have : r' ∈ ofId id (statusLog clock 0 l) := by rw [hx]; simp
          exact (List.mem_filter.mp this).1
        obtain ⟨x, hxl, hxid, -, -, hxc⟩ := statusLog_mem clock l 0 r' hmem
        have hrid : r'.id = id := by
          have : r' ∈ ofId id (statusLog clock 0 l) := by rw [hx]; simp
          simpa using (List.mem_filter.mp this).2
        have : x ∈ ofId id l := List.mem_filter.mpr ⟨hxl, by simp [← hxid, hrid]⟩
        rw [h1] at this
        obtain rfl : x = r := by simpa using this
        exact hPr.1 (hxc hc)
      · rw [hap]; exact hPr.2
      · intro r'' h''
        obtain rfl : r' = r'' := by simpa using h''
        exact ⟨r, h1, hmod⟩

/-- The invariant over a whole history. -/
theorem once_run (id : String) (all : List VenOp) (h : VenHandlers) (ops : List VenOp) (s : VenState) (calls : List VenCall)
    (hsub : ∀ op ∈ ops, op ∈ all) (hi : Once id (Stays all) s.received calls) (hP : ∀ e ∈ delivered ops, e.id = id → Stays all e)
    (hm : (revisions id (delivered ops)).Pairwise (· ≤ ·))
    (hr : ∀ r, ofId id s.received = [r] → ∀ n ∈ revisions id (delivered ops), r.modnum ≤ n) :
    Once id (Stays all) (runVen h s calls ops).1.received (runVen h s calls ops).2.1 := by
  induction ops generalizing s calls with
  | nil => exact hi
  | cons op ops ih =>
    have hsub' : ∀ op ∈ ops, op ∈ all := fun o ho => hsub o (by simp [ho])
    suffices hstep : Once id (Stays all) (venStep h s calls op).1.received (venStep h s calls op).2.1 ∧
        (∀ e ∈ delivered ops, e.id = id → Stays all e) ∧ (revisions id (delivered ops)).Pairwise (· ≤ ·) ∧
        (∀ r, ofId id (venStep h s calls op).1.received = [r] → ∀ n ∈ revisions id (delivered ops), r.modnum ≤ n) by
      obtain ⟨a, b, c, d⟩ := hstep
      have := ih _ _ hsub' a b c d
      simp only [runVen]
      exact this
    cases op with
    | message clock m =>
      have hd : delivered (.message clock m :: ops) = m.events ++ delivered ops := rfl
      rw [hd] at hP hm hr
      refine ⟨?_, fun e he => hP e (by simp [he]), ?_, ?_⟩
      · simp only [venStep, onEventMessage_state]
        rcases resultsOf_state h calls s m with ⟨h1, h2⟩ | ⟨h1, h2⟩
        · rw [h1, h2]; exact hi
        · rw [h1, h2]
          exact (once_decideAll id _ h calls s m.events (delivered ops) hi (fun e he => hP e (by simp [he])) hm hr).1
      · simp only [revisions, ofId, List.filter_append, List.map_append] at hm
        exact (List.pairwise_append.mp hm).2.1
      · simp only [venStep, onEventMessage_state]
        rcases resultsOf_state h calls s m with ⟨h1, h2⟩ | ⟨h1, h2⟩
        · rw [h1]
          intro r hrr n hn
          refine hr r hrr n ?_
          simp only [revisions, ofId, List.filter_append, List.map_append, List.mem_append] at hn ⊢
          exact Or.inr hn
        · rw [h1]
          exact (once_decideAll id _ h calls s m.events (delivered ops) hi (fun e he => hP e (by simp [he])) hm hr).2
    | cleanup clock =>
      have hof : ofId id (cleanup clock s.received) = ofId id s.received :=
        once_clean id _ clock s.received calls hi (fun e he => ⟨he.1, he.2 clock (hsub _ (by simp))⟩)
      refine ⟨?_, hP, hm, ?_⟩
      · unfold Once at hi ⊢; simp only [venStep]; rw [hof]; exact hi
      · simp only [venStep]; rw [hof]; exact hr
    | statusLog clock =>
      have hl := once_log id all clock s.received calls hi
      refine ⟨hl.1, hP, hm, ?_⟩
      intro r' hr' n hn
      obtain ⟨r, h1, h2⟩ := hl.2 r' hr'
      rw [h2]; exact hr r h1 n hn

end Openleadr
