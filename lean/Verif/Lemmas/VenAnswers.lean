import Verif.Lemmas.VenHistory
/-!
When no handler raises and no ended event is delivered, every delivery is decided: the handler is called for every revision, and the same
revision always gets the same answer.
-/
namespace Openleadr

/-- The user's handlers always return something. -/
def VenHandlers.Total (h : VenHandlers) : Prop :=
  (∀ calls e, ∃ v, h.onEvent calls e = .ok v) ∧ ∀ calls responded e, ∃ v, h.onUpdate calls responded e = .ok v

/-- Every event in the memory has a remembered decision. -/
def AllAnswered (s : VenState) : Prop := ∀ r ∈ s.received, ∃ v, Dict.get? s.responded r.id = some v

/-- The event is neither completed nor cancelled according to its status. -/
def Running (e : Event) : Prop := e.status ≠ .completed ∧ e.status ≠ .cancelled

theorem remember_running (responded : List (String × Value)) (e : Event) (v : Value) (h : Running e) :
    remember responded e v = Dict.set responded e.id v := by
  unfold remember
  exact if_neg (fun h' => h'.1.elim h.1 h.2)

theorem mem_dropFirst (id : String) (l : List Event) (r : Event) (h : r ∈ dropFirst id l) : r ∈ l := by
  induction l with
  | nil => simp [dropFirst] at h
  | cons e l ih =>
    simp only [dropFirst] at h
    split at h
    · simp [h]
    · rcases List.mem_cons.mp h with rfl | h
      · simp
      · simp [ih h]

theorem decideEvent_total (h : VenHandlers) (ht : h.Total) (calls : List VenCall) (s : VenState) (e : Event) (ha : AllAnswered s) (he : Running e) :
    ∃ s' calls' v, decideEvent h calls s e = (s', calls', .ok v) ∧ s'.responded = s.responded ∧
      AllAnswered { s' with responded := remember s'.responded e v } := by
  have hset : ∀ (l : List Event) v, (∀ r ∈ l, r.id = e.id ∨ ∃ w, Dict.get? s.responded r.id = some w) →
      AllAnswered ⟨l, remember s.responded e v⟩ := by
    intro l v hl r hr
    simp only [remember_running _ _ _ he]
    rw [Dict.get?_set]
    split
    · exact ⟨_, rfl⟩
    · rename_i hne
      rcases hl r hr with h1 | h1
      · exact absurd h1 hne
      · exact h1
  unfold decideEvent
  cases hf : s.received.find? (fun r => decide (r.id = e.id)) with
  | none =>
    obtain ⟨v, hv⟩ := ht.1 calls e
    simp only [hv]
    refine ⟨_, _, v, rfl, rfl, hset _ v ?_⟩
    intro r hr
    rcases List.mem_append.mp hr with hr | hr
    · exact Or.inr (ha r hr)
    · exact Or.inl (by rw [List.mem_singleton.mp hr])
  | some r0 =>
    simp only []
    have hr0 := List.mem_of_find?_eq_some hf
    have hid : r0.id = e.id := by simpa using List.find?_some hf
    by_cases hmn : r0.modnum = e.modnum
    · rw [if_pos hmn]
      obtain ⟨v, hv⟩ := ha r0 hr0
      rw [hid] at hv
      simp only [hv]
      exact ⟨_, _, v, rfl, rfl, hset _ v (fun r hr => Or.inr (ha r hr))⟩
    · rw [if_neg hmn]
      obtain ⟨v, hv⟩ := ht.2 calls s.responded e
      simp only [hv]
      refine ⟨_, _, v, rfl, rfl, hset _ v ?_⟩
      intro r hr
      rcases List.mem_append.mp hr with hr | hr
      · exact Or.inr (ha r (mem_dropFirst _ _ _ hr))
      · exact Or.inl (by rw [List.mem_singleton.mp hr])

theorem decideEvent_calls (h : VenHandlers) (calls : List VenCall) (s : VenState) (e : Event) :
    ∃ new, (decideEvent h calls s e).2.1 = calls ++ new := by
  unfold decideEvent
  cases s.received.find? (fun r => decide (r.id = e.id)) with
  | none => exact ⟨_, rfl⟩
  | some r0 =>
    simp only []
    split
    · cases Dict.get? s.responded e.id <;> exact ⟨[], by simp⟩
    · exact ⟨_, rfl⟩

theorem decideAll_calls (h : VenHandlers) (es : List Event) (calls : List VenCall) (s : VenState) :
    ∃ new, (decideAll h calls s es).2.1 = calls ++ new := by
  induction es generalizing calls s with
  | nil => exact ⟨[], by simp [decideAll]⟩
  | cons e es ih =>
    obtain ⟨n1, h1⟩ := decideEvent_calls h calls s e
    simp only [decideAll]
    cases hd : decideEvent h calls s e with
    | mk s1 x =>
      obtain ⟨c1, r1⟩ := x
      rw [hd] at h1
      simp only [] at h1
      cases r1 with
      | error err => exact ⟨n1, h1⟩
      | ok v =>
        obtain ⟨n2, h2⟩ := ih c1 { s1 with responded := remember s1.responded e v }
        simp only []
        cases hd2 : decideAll h c1 { s1 with responded := remember s1.responded e v } es with
        | mk s2 y =>
          obtain ⟨c2, r2⟩ := y
          rw [hd2] at h2
          simp only [] at h2
          cases r2 <;> exact ⟨n1 ++ n2, by simp [h2, h1]⟩

/-- The revisions the handlers were called with. -/
def calledWith (id : String) (calls : List VenCall) : List Int := (callsOf id calls).map (fun c => c.event.modnum)

theorem calledWith_append (id : String) (a b : List VenCall) : calledWith id (a ++ b) = calledWith id a ++ calledWith id b := by
  simp [calledWith, callsOf_append]

theorem once_calledWith (id : String) (P : Event → Prop) (l : List Event) (calls : List VenCall) (hi : Once id P l calls) (r : Event)
    (hr : ofId id l = [r]) : r.modnum ∈ calledWith id calls := by
  rcases hi with ⟨h1, -⟩ | ⟨r', first, rest, h1, -, h2, -, h4⟩
  · rw [h1] at hr; simp at hr
  · rw [h1] at hr
    obtain rfl : r' = r := by simpa using hr
    have : calledWith id calls = (first :: rest).map Event.modnum := by
      unfold calledWith; rw [h2]; simp [VenCall.event]
    rw [this]
    exact List.mem_of_getLast? h4

theorem once_pairwise (id : String) (P : Event → Prop) (l : List Event) (calls : List VenCall) (hi : Once id P l calls) :
    (calledWith id calls).Pairwise (· < ·) := by
  rcases hi with ⟨-, h1⟩ | ⟨r', first, rest, -, -, h2, h3, -⟩
  · simp [calledWith, h1]
  · have : calledWith id calls = (first :: rest).map Event.modnum := by
      unfold calledWith; rw [h2]; simp [VenCall.event]
    rw [this]; exact h3

/-- The remembered decision for the latest revision is the one of the table. -/
def Answers (id : String) (D : Int → Value) (s : VenState) : Prop :=
  ∀ r, ofId id s.received = [r] → Dict.get? s.responded id = some (D r.modnum)

/-- One event, with the table of decisions. -/
theorem answers_decide (id : String) (P : Event → Prop) (D : Int → Value) (h : VenHandlers) (ht : h.Total) (calls : List VenCall) (s : VenState)
    (e : Event) (ha : AllAnswered s) (he : Running e) (hi : Once id P s.received calls) (hP : e.id = id → P e)
    (hm : e.id = id → ∀ r, ofId id s.received = [r] → r.modnum ≤ e.modnum) (hD : Answers id D s) :
    ∃ s' calls' v D', decideEvent h calls s e = (s', calls', .ok v) ∧ AllAnswered { s' with responded := remember s'.responded e v } ∧
      Once id P s'.received calls' ∧ Answers id D' { s' with responded := remember s'.responded e v } ∧
      (∀ r, ofId id s.received = [r] → ∀ n ≤ r.modnum, D' n = D n) ∧
      (e.id = id → v = D' e.modnum ∧ ∃ r, ofId id s'.received = [r] ∧ r.modnum = e.modnum) ∧
      (e.id ≠ id → ofId id s'.received = ofId id s.received) := by
  obtain ⟨s', calls', v, hd, hresp, hall⟩ := decideEvent_total h ht calls s e ha he
  have ho := once_decide id P h calls s e hi hP hm
  rw [hd] at ho
  simp only [] at ho
  by_cases hid : e.id = id
  · obtain ⟨r', hr', hmod⟩ := ho.2.1 hid
    have hget : Dict.get? (remember s'.responded e v) id = some v := by
      rw [remember_running _ _ _ he, ← hid, Dict.get?_set_self]
    by_cases hsame : ∃ r, ofId id s.received = [r] ∧ r.modnum = e.modnum
    · obtain ⟨r, hr, hre⟩ := hsame
      have hv : v = D e.modnum := by
        have hf : s.received.find? (fun r => decide (r.id = id)) = some r := by rw [find_ofId, hr]; rfl
        have hg := hD r hr
        unfold decideEvent at hd
        simp only [hf, if_pos hre, hid, hg, Prod.mk.injEq, Except.ok.injEq] at hd
        rw [← hd.2.2, hre]
      refine ⟨s', calls', v, D, hd, hall, ho.1, ?_, fun _ _ _ _ => rfl, fun _ => ⟨hv, r', hr', hmod⟩, fun hn => absurd hid hn⟩
      intro r'' hr''
      have : r' = r'' := by simpa using hr'.symm.trans hr''
      subst this
      show Dict.get? (remember s'.responded e v) id = _
      rw [hget, hmod, hv]
    · refine ⟨s', calls', v, fun n => if n = e.modnum then v else D n, hd, hall, ho.1, ?_, ?_, fun _ => ⟨by simp, r', hr', hmod⟩, fun hn => absurd hid hn⟩
      · intro r'' hr''
        have : r' = r'' := by simpa using hr'.symm.trans hr''
        subst this
        show Dict.get? (remember s'.responded e v) id = _
        rw [hget, hmod]; simp
      · intro r hr n hn
        have h1 := hm hid r hr
        have h2 : r.modnum ≠ e.modnum := fun h' => hsame ⟨r, hr, h'⟩
        simp only []
        rw [if_neg]; omega
  · refine ⟨s', calls', v, D, hd, hall, ho.1, ?_, fun _ _ _ _ => rfl, fun h' => absurd h' hid, ho.2.2⟩
    intro r hr
    have hr' : ofId id s.received = [r] := (ho.2.2 hid).symm.trans hr
    show Dict.get? (remember s'.responded e v) id = _
    rw [remember_running _ _ _ he, Dict.get?_set_other _ _ _ _ (Ne.symm hid), hresp]
    exact hD r hr'

/-- A whole message. -/
theorem answers_decideAll (id : String) (P : Event → Prop) (h : VenHandlers) (ht : h.Total) (es later : List Event) (D : Int → Value)
    (calls : List VenCall) (s : VenState) (ha : AllAnswered s) (he : ∀ e ∈ es, Running e) (hi : Once id P s.received calls)
    (hP : ∀ e ∈ es, e.id = id → P e) (hm : (revisions id (es ++ later)).Pairwise (· ≤ ·))
    (hr : ∀ r, ofId id s.received = [r] → ∀ n ∈ revisions id (es ++ later), r.modnum ≤ n) (hD : Answers id D s) :
    ∃ s' calls' vs D', decideAll h calls s es = (s', calls', .ok vs) ∧ AllAnswered s' ∧ Once id P s'.received calls' ∧ Answers id D' s' ∧
      (∀ r, ofId id s.received = [r] → (∀ n ≤ r.modnum, D' n = D n) ∧ ∃ r', ofId id s'.received = [r'] ∧ r.modnum ≤ r'.modnum) ∧
      (∀ e ∈ es, e.id = id → e.modnum ∈ calledWith id calls' ∧ ∃ r', ofId id s'.received = [r'] ∧ e.modnum ≤ r'.modnum) ∧
      (∀ p ∈ es.zip vs, p.1.id = id → p.2 = D' p.1.modnum) ∧
      (∀ r, ofId id s'.received = [r] → ∀ n ∈ revisions id later, r.modnum ≤ n) := by
  induction es generalizing calls s D with
  | nil =>
    exact ⟨s, calls, [], D, rfl, ha, hi, hD, fun r hr' => ⟨fun _ _ => rfl, r, hr', Int.le_refl _⟩, by simp, by simp, hr⟩
  | cons e es ih =>
    obtain ⟨s1, c1, v, D1, hd, hall, ho, hD1, hag, hself, hother⟩ := answers_decide id P D h ht calls s e ha (he e (by simp)) hi (hP e (by simp))
      (fun hid r hr' => hr r hr' e.modnum (by simp [revisions, ofId, hid])) hD
    have hm' : (revisions id (es ++ later)).Pairwise (· ≤ ·) := by
      by_cases hid : e.id = id
      · simp only [revisions, ofId, List.cons_append, List.filter_cons, hid, decide_true, if_true, List.map_cons, List.pairwise_cons] at hm
        exact hm.2
      · simpa only [revisions, ofId, List.cons_append, List.filter_cons, hid, decide_false, Bool.false_eq_true, if_false] using hm
    have hr' : ∀ r, ofId id s1.received = [r] → ∀ n ∈ revisions id (es ++ later), r.modnum ≤ n := by
      intro r hr1 n hn
      by_cases hid : e.id = id
      · obtain ⟨-, r', h2, h3⟩ := hself hid
        have : r' = r := by simpa using h2.symm.trans hr1
        subst this
        simp only [revisions, ofId, List.cons_append, List.filter_cons, hid, decide_true, if_true, List.map_cons, List.pairwise_cons] at hm
        rw [h3]; exact hm.1 n hn
      · rw [hother hid] at hr1
        refine hr r hr1 n ?_
        simpa only [revisions, ofId, List.cons_append, List.filter_cons, hid, decide_false, Bool.false_eq_true, if_false] using hn
    obtain ⟨s2, c2, vs, D2, hd2, hall2, ho2, hD2, hag2, hcalled, hvs, hfin⟩ := ih D1 c1 { s1 with responded := remember s1.responded e v } hall
      (fun x hx => he x (by simp [hx])) ho (fun x hx => hP x (by simp [hx])) hm' hr' hD1
    refine ⟨s2, c2, v :: vs, D2, ?_, hall2, ho2, hD2, ?_, ?_, ?_, hfin⟩
    · simp only [decideAll, hd, hd2]
    · intro r hrr
      by_cases hid : e.id = id
      · obtain ⟨-, r', h2, h3⟩ := hself hid
        have hle : r.modnum ≤ r'.modnum := by
          rw [h3]; exact hr r hrr e.modnum (by simp [revisions, ofId, hid])
        obtain ⟨a, r'', b, c⟩ := hag2 r' h2
        exact ⟨fun n hn => (a n (Int.le_trans hn hle)).trans (hag r hrr n hn), r'', b, Int.le_trans hle c⟩
      · obtain ⟨a, r'', b, c⟩ := hag2 r (by rw [← hrr]; exact hother hid)
        exact ⟨fun n hn => (a n hn).trans (hag r hrr n hn), r'', b, c⟩
    · intro x hx hxid
      rcases List.mem_cons.mp hx with rfl | hx
      · obtain ⟨-, r', h2, h3⟩ := hself hxid
        obtain ⟨-, r'', b, c⟩ := hag2 r' h2
        refine ⟨?_, r'', b, by rw [← h3]; exact c⟩
        obtain ⟨new, hnew⟩ := decideAll_calls h es c1 { s1 with responded := remember s1.responded x v }
        rw [hd2] at hnew
        simp only [] at hnew
        rw [hnew, calledWith_append, List.mem_append, ← h3]
        exact Or.inl (once_calledWith id P _ _ ho r' h2)
      · exact hcalled x hx hxid
    · intro p hp hpid
      rw [List.zip_cons_cons, List.mem_cons] at hp
      rcases hp with rfl | hp
      · simp only [] at hpid ⊢
        obtain ⟨h1, r', h2, h3⟩ := hself hpid
        rw [h1]
        exact ((hag2 r' h2).1 e.modnum (by omega)).symm
      · exact hvs p hp hpid

/-- The decision that is sent when the handler returned `v`. -/
def sent (v : Value) : Value := if v = .str "optIn" ∨ v = .str "optOut" then v else .str "optOut"

theorem fixResult_always (e : Event) (v : Value) (h : e.responseRequired = some "always") : fixResult e v = sent v := by
  unfold fixResult sent validOpt
  by_cases hv : v = .str "optIn" ∨ v = .str "optOut"
  · simp [hv]
  · simp [hv, h]

/-- Every entry of a response comes from an event that asked for it and its decision. -/
theorem responsesFor_mem (clock : Nat → Int) (q : Value) (es : List Event) (vs : List Value) (i : Nat) (x : VenResponse)
    (hx : x ∈ responsesFor clock q i es (fixResults es vs)) :
    ∃ p ∈ es.zip vs, p.1.id = x.eventId ∧ p.1.modnum = x.modnum ∧ x.optType = sent p.2 ∧ x.requestId = q := by
  induction es generalizing vs i with
  | nil => cases vs <;> simp [responsesFor] at hx
  | cons e es ih =>
    cases vs with
    | nil => simp [fixResults, responsesFor] at hx
    | cons v vs =>
      simp only [fixResults, responsesFor] at hx
      split at hx
      · rename_i hc
        rcases List.mem_cons.mp hx with rfl | hx
        · exact ⟨(e, v), by simp, rfl, rfl, fixResult_always e v hc.1, rfl⟩
        · obtain ⟨p, hp, h⟩ := ih vs _ hx
          exact ⟨p, by simp [hp], h⟩
      · obtain ⟨p, hp, h⟩ := ih vs _ hx
        exact ⟨p, by simp [hp], h⟩

/-- The entries of the messages of a history. -/
def answersOf : List (Option CreatedEvent) → List VenResponse
  | [] => []
  | some c :: outs => c.responses ++ answersOf outs
  | none :: outs => answersOf outs

/-- The sender is not given in lower case. -/
def GoodSender (op : VenOp) : Prop := ∀ clock m, op = .message clock m → ∃ t, m.vtnId = .str t ∧ isLowerText t = false

/-- The entries sent for one message. -/
def entriesOf (o : Option CreatedEvent) : List VenResponse :=
  match o with
  | some c => c.responses
  | none => []

theorem entries_onEventMessage (h : VenHandlers) (clock : Nat → Int) (calls : List VenCall) (s : VenState) (m : EventMessage) :
    entriesOf (onEventMessage h clock calls s m).2.2 = responsesFor clock m.requestId 0 m.events (resultsOf h calls s m).2.2.2 := by
  unfold onEventMessage
  cases resultsOf h calls s m with
  | mk s' x =>
    obtain ⟨c, i, r⟩ := x
    simp only []
    cases responsesFor clock m.requestId 0 m.events r <;> rfl

/-- A whole history. -/
theorem answers_run (id : String) (all : List VenOp) (h : VenHandlers) (ht : h.Total) (ops : List VenOp) (s : VenState) (calls : List VenCall)
    (past : List VenResponse) (D : Int → Value)
    (hsub : ∀ op ∈ ops, op ∈ all) (hgood : ∀ op ∈ ops, GoodSender op) (ha : AllAnswered s) (hrun : ∀ e ∈ delivered ops, Running e)
    (hi : Once id (Stays all) s.received calls) (hP : ∀ e ∈ delivered ops, e.id = id → Stays all e)
    (hm : (revisions id (delivered ops)).Pairwise (· ≤ ·))
    (hr : ∀ r, ofId id s.received = [r] → ∀ n ∈ revisions id (delivered ops), r.modnum ≤ n)
    (hD : Answers id D s)
    (hpast : ∀ x ∈ past, x.eventId = id → x.optType = sent (D x.modnum) ∧ ∃ r, ofId id s.received = [r] ∧ x.modnum ≤ r.modnum) :
    (∀ e ∈ delivered ops, e.id = id → e.modnum ∈ calledWith id (runVen h s calls ops).2.1) ∧
      (∃ new, (runVen h s calls ops).2.1 = calls ++ new) ∧
      ∃ D' : Int → Value, ∀ x ∈ past ++ answersOf (runVen h s calls ops).2.2, x.eventId = id → x.optType = sent (D' x.modnum) := by
  induction ops generalizing s calls past D with
  | nil => exact ⟨by simp [delivered], ⟨[], by simp [runVen]⟩, D, by simpa [runVen, answersOf] using fun x hx hid => (hpast x hx hid).1⟩
  | cons op ops ih =>
    have hsub' : ∀ op ∈ ops, op ∈ all := fun o ho => hsub o (by simp [ho])
    have hgood' : ∀ op ∈ ops, GoodSender op := fun o ho => hgood o (by simp [ho])
    cases op with
    | message clock m =>
      have hd : delivered (.message clock m :: ops) = m.events ++ delivered ops := rfl
      rw [hd] at hP hm hr hrun ⊢
      obtain ⟨t, hvt, hlow⟩ := hgood (.message clock m) (by simp) clock m rfl
      obtain ⟨s1, c1, vs, D1, hda, hall, ho, hD1, hag, hcalled, hvs, hfin⟩ := answers_decideAll id (Stays all) h ht m.events (delivered ops) D calls s ha
        (fun e he => hrun e (by simp [he])) hi (fun e he => hP e (by simp [he])) hm hr hD
      have hres : resultsOf h calls s m = (s1, c1, false, fixResults m.events vs) := by
        unfold resultsOf; simp [hvt, hlow, hda]
      have hst := onEventMessage_state h clock calls s m
      have hent := entries_onEventMessage h clock calls s m
      rw [hres] at hst hent
      simp only [] at hst hent
      have hm2 : (revisions id (delivered ops)).Pairwise (· ≤ ·) := by
        simp only [revisions, ofId, List.filter_append, List.map_append] at hm
        exact (List.pairwise_append.mp hm).2.1
      have hpast' : ∀ x ∈ past ++ entriesOf (onEventMessage h clock calls s m).2.2, x.eventId = id →
          x.optType = sent (D1 x.modnum) ∧ ∃ r, ofId id s1.received = [r] ∧ x.modnum ≤ r.modnum := by
        intro x hx hid
        rcases List.mem_append.mp hx with hx | hx
        · obtain ⟨h1, r, h2, h3⟩ := hpast x hx hid
          obtain ⟨a, r', b, c⟩ := hag r h2
          exact ⟨by rw [a _ h3]; exact h1, r', b, Int.le_trans h3 c⟩
        · rw [hent] at hx
          obtain ⟨p, hp, h1, h2, h3, -⟩ := responsesFor_mem clock m.requestId m.events vs 0 x hx
          have hv := hvs p hp (h1.trans hid)
          have hpe : p.1 ∈ m.events := (List.of_mem_zip (show (p.1, p.2) ∈ _ from hp)).1
          obtain ⟨-, r', b, c⟩ := hcalled p.1 hpe (h1.trans hid)
          exact ⟨by rw [h3, hv, h2], r', b, by rw [← h2]; exact c⟩
      obtain ⟨hc, ⟨new, hnew⟩, D2, hD2⟩ := ih s1 c1 (past ++ entriesOf (onEventMessage h clock calls s m).2.2) D1 hsub' hgood' hall
        (fun e he => hrun e (by simp [he])) ho (fun e he => hP e (by simp [he])) hm2 hfin hD1 hpast'
      have hrv : runVen h s calls (.message clock m :: ops) =
          ((runVen h s1 c1 ops).1, (runVen h s1 c1 ops).2.1, (onEventMessage h clock calls s m).2.2 :: (runVen h s1 c1 ops).2.2) := by
        simp only [runVen, venStep, hst]
      rw [hrv]
      simp only []
      obtain ⟨n0, hn0⟩ := decideAll_calls h m.events calls s
      rw [hda] at hn0
      simp only [] at hn0
      refine ⟨?_, ⟨n0 ++ new, by rw [hnew, hn0, List.append_assoc]⟩, D2, ?_⟩
      · intro e he hid
        rcases List.mem_append.mp he with he | he
        · rw [hnew, calledWith_append, List.mem_append]
          exact Or.inl (hcalled e he hid).1
        · exact hc e he hid
      · intro x hx hid
        refine hD2 x ?_ hid
        cases hout : (onEventMessage h clock calls s m).2.2 with
        | none => rw [hout] at hx; simpa [answersOf, entriesOf] using hx
        | some c => rw [hout] at hx; simpa [answersOf, entriesOf] using hx
    | cleanup clock =>
      have hof : ofId id (cleanup clock s.received) = ofId id s.received :=
        once_clean id _ clock s.received calls hi (fun e he => ⟨he.1, he.2 clock (hsub _ (by simp))⟩)
      have := ih { s with received := cleanup clock s.received } calls past D hsub' hgood'
        (fun r hr' => ha r ((cleanup_sublist clock s.received).subset hr')) hrun
        (by unfold Once at hi ⊢; simp only []; rw [hof]; exact hi) hP hm (by simp only []; rw [hof]; exact hr)
        (by unfold Answers at hD ⊢; simp only []; rw [hof]; exact hD) (by simp only []; rw [hof]; exact hpast)
      exact this
    | statusLog clock =>
      have hl := once_log id all clock s.received calls hi
      have hback : ∀ r, ofId id s.received = [r] → ∃ r', ofId id (statusLog clock 0 s.received) = [r'] ∧ r'.modnum = r.modnum := by
        intro r h1
        have hmap := ofId_statusLog id clock s.received 0
        rw [h1] at hmap
        cases hx : ofId id (statusLog clock 0 s.received) with
        | nil => rw [hx] at hmap; simp at hmap
        | cons r' t =>
          rw [hx] at hmap
          simp only [List.map_cons, List.map_nil, List.cons.injEq, Prod.mk.injEq, List.map_eq_nil_iff] at hmap
          obtain ⟨⟨-, hmod, -⟩, rfl⟩ := hmap
          exact ⟨r', rfl, hmod⟩
      have := ih { s with received := statusLog clock 0 s.received } calls past D hsub' hgood'
        (fun r hr' => by
          obtain ⟨x, hx, hid, -⟩ := statusLog_mem clock s.received 0 r hr'
          rw [hid]; exact ha x hx) hrun hl.1 hP hm
        (fun r' hr' n hn => by
          obtain ⟨r, h1, h2⟩ := hl.2 r' hr'
          rw [h2]; exact hr r h1 n hn)
        (fun r' hr' => by
          obtain ⟨r, h1, h2⟩ := hl.2 r' hr'
          rw [h2]; exact hD r h1)
        (fun x hx hid => by
          obtain ⟨h1, r, h2, h3⟩ := hpast x hx hid
          obtain ⟨r', h4, h5⟩ := hback r h2
          exact ⟨h1, r', h4, by rw [h5]; exact h3⟩)
      exact this

end Openleadr
