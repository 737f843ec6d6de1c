import Verif.Lemmas.ServerAgree
import Verif.Props.ServerAdd
/-!
Histories of the event side of the VTN. C27 modification numbers, C28 live events are never lost, C29 completed events, C30 isolation of the
VENs, C31 announcements at the next poll.
-/
namespace Openleadr
open Spec

/-- User code that never raises. -/
def quietEnv : Env := ⟨fun _ => none, fun _ => none, fun _ => .nothing⟩

/-! ### C27 -/

/-- **C27**: along every history in which no further event with the same id is added, the modification number of a queued event is its old
    number plus the number of cancellations of it, and only status, creation time and number ever change. -/
theorem c27_number_counts_cancellations (env : Env) (s : Server) (ven : String) (e : Event) (ops : List Op)
    (hone : withId s ven e.id = [e]) (hno : ∀ op ∈ ops, ¬ Adds op ven e.id) :
    ∀ e' ∈ (runOps env s ops).1.queue ven, e'.id = e.id →
      Evolves e e' ∧ e'.modnum = e.modnum + (ops.countP (cancels ven e.id) : Nat) := by
  have main : ∀ (ops : List Op) (s : Server) (m : Int),
      (s.queue ven).countP (fun x => decide (x.id = e.id)) ≤ 1 → (∀ x ∈ s.queue ven, x.id = e.id → Evolves e x ∧ x.modnum = m) →
      (∀ op ∈ ops, ¬ Adds op ven e.id) →
      ∀ e' ∈ (runOps env s ops).1.queue ven, e'.id = e.id →
        Evolves e e' ∧ e'.modnum = m + (ops.countP (cancels ven e.id) : Nat) := by
    intro ops
    induction ops with
    | nil => intro s m _ h _ e' he' hid; simpa [runOps] using h e' he' hid
    | cons op ops ih =>
      intro s m h1 h2 h3 e' he' hid
      have := ih (step env s op).1 (m + (if cancels ven e.id op then 1 else 0))
        (Nat.le_trans (step_countP env s op ven e.id (h3 op (by simp))) h1)
        (by
          intro x hx hxid
          obtain ⟨y, hy, hyid, hev, hnum, _⟩ := step_unique env s op ven e.id h1 (h3 op (by simp)) x hx hxid
          obtain ⟨g1, g2⟩ := h2 y hy hyid
          exact ⟨evolves_trans g1 hev, by rw [hnum, g2]⟩)
        (fun o ho => h3 o (by simp [ho])) e' he' hid
      refine ⟨this.1, ?_⟩
      rw [this.2, List.countP_cons]
      split <;> simp_all <;> omega
  refine main ops s e.modnum ?_ ?_ hno
  · have := congrArg List.length hone
    rw [List.countP_eq_length_filter]
    simp only [withId, List.length_singleton] at this
    omega
  · intro x hx hid
    have : x ∈ withId s ven e.id := List.mem_filter.mpr ⟨hx, by simpa using hid⟩
    rw [hone] at this
    simp only [List.mem_singleton] at this
    subst this
    exact ⟨evolves_refl _, rfl⟩

/-- **C27**, without any assumption on ids: in each single operation every queued event is a queued event from before, with the same number
    or (only in a cancellation of its id) a number that is larger by one, or it is the event that the operation adds. -/
theorem c27_number_never_decreases (env : Env) (s : Server) (op : Op) (ven : String) (e' : Event)
    (h : e' ∈ (step env s op).1.queue ven) :
    (∃ e ∈ s.queue ven, Evolves e e' ∧
      (e'.modnum = e.modnum ∨ (op = .cancel ven e.id ∧ e'.modnum = e.modnum + 1 ∧ e'.status = .cancelled))) ∨
    Adds op ven e'.id := by
  rcases step_queue env s op ven with hq | ⟨e, hq, ha, _⟩ | ⟨i, ho, _, hq⟩ | ⟨clock, ho, hq⟩ | ⟨rs, _, hq⟩
  · rw [hq] at h; exact .inl ⟨e', h, evolves_refl _, .inl rfl⟩
  · rw [hq] at h
    simp only [List.mem_append, List.mem_singleton] at h
    rcases h with h | rfl
    · exact .inl ⟨e', h, evolves_refl _, .inl rfl⟩
    · exact .inr ha
  · rw [hq] at h
    rcases updateFirst_mem_rev _ _ _ _ h with hm | ⟨a, ha, hp, hb⟩
    · exact .inl ⟨e', hm, evolves_refl _, .inl rfl⟩
    · have h1 : a.id = i := by simpa [hasId] using hp
      refine .inl ⟨a, ha, hb ▸ evolves_cancelled a, .inr ⟨by rw [h1]; exact ho, ?_, ?_⟩⟩ <;> rw [hb] <;> rfl
  · rw [hq] at h
    obtain ⟨x, hx, j, rfl⟩ := refreshAll_mem_clock _ _ _ _ (List.mem_filter.mp h).1
    exact .inl ⟨x, hx, evolves_refresh _ _ _, .inl (refresh_modnum _ _ _)⟩
  · exact .inl ⟨e', hq.subset h, evolves_refl _, .inl rfl⟩

/-- **C27**: when the clock never shows a time before the event's creation time, the creation time never goes back. -/
theorem c27_creation_time_never_back (env : Env) (s : Server) (ven : String) (e : Event) (ops : List Op) (t : Int)
    (hone : withId s ven e.id = [e]) (hno : ∀ op ∈ ops, ¬ Adds op ven e.id) (ht : e.descriptor.created = some t)
    (hclock : ∀ op ∈ ops, ∀ clock, Asks op ven clock → ∀ i, t ≤ clock i) :
    ∀ e' ∈ (runOps env s ops).1.queue ven, e'.id = e.id → ∃ t', e'.descriptor.created = some t' ∧ t ≤ t' := by
  have main : ∀ (ops : List Op) (s : Server),
      (s.queue ven).countP (fun x => decide (x.id = e.id)) ≤ 1 →
      (∀ x ∈ s.queue ven, x.id = e.id → ∃ t', x.descriptor.created = some t' ∧ t ≤ t') →
      (∀ op ∈ ops, ¬ Adds op ven e.id) → (∀ op ∈ ops, ∀ clock, Asks op ven clock → ∀ i, t ≤ clock i) →
      ∀ e' ∈ (runOps env s ops).1.queue ven, e'.id = e.id → ∃ t', e'.descriptor.created = some t' ∧ t ≤ t' := by
    intro ops
    induction ops with
    | nil => intro s _ h _ _; exact h
    | cons op ops ih =>
      intro s h1 h2 h3 h4
      refine ih (step env s op).1 (Nat.le_trans (step_countP env s op ven e.id (h3 op (by simp))) h1) ?_
        (fun o ho => h3 o (by simp [ho])) (fun o ho => h4 o (by simp [ho]))
      intro x hx hxid
      obtain ⟨y, hy, hyid, _, _, hc | ⟨clock, i, ha, hc⟩⟩ := step_unique env s op ven e.id h1 (h3 op (by simp)) x hx hxid
      · rw [hc]; exact h2 y hy hyid
      · exact ⟨clock i, hc, h4 op (by simp) clock ha i⟩
  refine main ops s ?_ ?_ hno hclock
  · have := congrArg List.length hone
    rw [List.countP_eq_length_filter]
    simp only [withId, List.length_singleton] at this
    omega
  · intro x hx hid
    have : x ∈ withId s ven e.id := List.mem_filter.mpr ⟨hx, by simpa using hid⟩
    rw [hone] at this
    simp only [List.mem_singleton] at this
    subst this
    exact ⟨t, ht, Int.le_refl _⟩

/-- non-vacuity: an event among others, cancelled twice and asked for in between. -/
example : withId sampleServer "ven2" "y" = [sampleEvent "y"] ∧
    (∀ op ∈ [Op.cancel "ven2" "y", .request "ven2" (fun _ => 0), .cancel "ven2" "y"], ¬ Adds op "ven2" "y") ∧
    ((runOps quietEnv sampleServer [Op.cancel "ven2" "y", .request "ven2" (fun _ => 0), .cancel "ven2" "y"]).1.queue "ven2").map
      (fun e => (e.id, e.modnum)) = [("y", 2), ("z", 0)] := by
  refine ⟨by decide +kernel, ?_, by decide +kernel⟩
  intro op hop
  simp only [List.mem_cons, List.not_mem_nil, or_false] at hop
  rcases hop with rfl | rfl | rfl <;> simp [Adds]

/-! ### C28 -/

/-- **C28**: along every history a queued event stays queued (it can only evolve), as long as no operation may end it: the VEN asking for
    events after the end of the event, or the VEN responding to the id of a cancelled event. -/
theorem c28_live_event_kept (env : Env) (s : Server) (ven : String) (e : Event) (ops : List Op) (he : e ∈ s.queue ven)
    (h : ∀ pre op post, ops = pre ++ op :: post → ¬ MayEnd (runOps env s pre).1 op ven e) :
    ∃ e' ∈ (runOps env s ops).1.queue ven, Evolves e e' := by
  have main : ∀ (ops : List Op) (s : Server) (x : Event), x ∈ s.queue ven → Evolves e x →
      (∀ pre op post, ops = pre ++ op :: post → ¬ MayEnd (runOps env s pre).1 op ven e) →
      ∃ e' ∈ (runOps env s ops).1.queue ven, Evolves e e' := by
    intro ops
    induction ops with
    | nil => intro s x hx hev _; exact ⟨x, hx, hev⟩
    | cons op ops ih =>
      intro s x hx hev h
      obtain ⟨y, hy, hyev⟩ := step_keeps env s op ven x hx (by
        have h0 := h [] op ops rfl
        rintro (⟨clock, ha, hs, i, hd⟩ | ⟨rs, ho, ⟨r, hr, hrid⟩, c, hc, hcid, hcs⟩)
        · refine h0 (.inl ⟨clock, ha, x, hx, hev, hs, i, ?_⟩)
          rw [evolves_period hev] at hd
          exact (determine_ended e _).mp hd
        · rw [evolves_id hev] at hrid hcid
          exact h0 (.inr ⟨rs, ho, ⟨r, hr, hrid⟩, c, hc, hcid, hcs⟩))
      refine ih (step env s op).1 y hy (evolves_trans hev hyev) ?_
      intro pre o post hp
      exact h (op :: pre) o post (by rw [hp]; rfl)
  exact main ops s e he (evolves_refl e) h

/-- **C28**: an event that an operation removes from a queue of two or more events has been reported as completed in the reply (or the
    reply failed because a delivery callback raised), or the VEN responded to its id when it was cancelled. -/
theorem c28_removed_only_when_over_partial (env : Env) (s : Server) (op : Op) (ven : String) (e : Event) (he : e ∈ s.queue ven)
    (htwo : 2 ≤ (s.queue ven).length) (hgone : ¬ ∃ e' ∈ (step env s op).1.queue ven, Evolves e e') :
    (∃ clock, Asks op ven clock ∧
      ((∃ l, (step env s op).2.2 = .reply (.ok (.distribute l)) ∧ ∃ e' ∈ l, Evolves e e' ∧ e'.status = .completed) ∨
       (∃ err, (step env s op).2.2 = .reply (.error err)))) ∨
    (∃ rs, op = .respond ven rs ∧ (∃ r ∈ rs, r.eventId = e.id) ∧ ∃ c ∈ s.queue ven, c.id = e.id ∧ c.status = .cancelled) := by
  by_cases hresp : ∃ rs, op = .respond ven rs ∧ (∃ r ∈ rs, r.eventId = e.id) ∧ ∃ c ∈ s.queue ven, c.id = e.id ∧ c.status = .cancelled
  · exact .inr hresp
  left
  have hlen : ∀ clock, (refreshAll clock 0 (s.queue ven)).length ≠ 1 := by intro clock; rw [refreshAll_length]; omega
  have hne : s.queue ven ≠ [] := by intro h; rw [h] at htwo; simp at htwo
  have hreply : ∀ clock, s.external = false →
      (∃ e' ∈ refreshAll clock 0 (s.queue ven), Evolves e e' ∧ e'.status = .completed) →
      (∃ l, (requestEvent env clock s ven).2.2 = .ok (.distribute l) ∧ ∃ e' ∈ l, Evolves e e' ∧ e'.status = .completed) ∨
      (∃ err, (requestEvent env clock s ven).2.2 = .error err) := by
    rintro clock hx ⟨e', he', hev, hst⟩
    have := (requestEvent_reply env clock s ven hx).2 hne
    cases hd : (deliverAll env s.delivery (handedOut (refreshAll clock 0 (s.queue ven)))).2 with
    | some err => rw [hd] at this; exact .inr ⟨err, this⟩
    | none =>
      rw [hd] at this
      exact .inl ⟨_, this, e', (handedOut_mem_of_two _ (hlen clock) _).mpr he', hev, hst⟩
  -- the event disappeared by being completed
  have hcomp : ∀ clock, (step env s op).1.queue ven = (refreshAll clock 0 (s.queue ven)).filter nc →
      ∃ e' ∈ refreshAll clock 0 (s.queue ven), Evolves e e' ∧ e'.status = .completed := by
    intro clock hq
    obtain ⟨j, hj⟩ := mem_refreshAll_of_mem clock 0 _ e he
    refine ⟨_, hj, evolves_refresh _ _ _, ?_⟩
    apply Classical.byContradiction
    intro hns
    exact hgone ⟨_, by rw [hq]; exact List.mem_filter.mpr ⟨hj, by simpa [nc] using hns⟩, evolves_refresh _ _ _⟩
  have hsame : (step env s op).1.queue ven ≠ s.queue ven := fun h => hgone ⟨e, by rw [h]; exact he, evolves_refl e⟩
  rcases step_queue env s op ven with hq | ⟨x, hq, _, _⟩ | ⟨i, ho, _, hq⟩ | ⟨clock, ho, hq⟩ | ⟨rs, ho, hq⟩
  · exact absurd hq hsame
  · exact absurd ⟨e, by rw [hq]; simp [he], evolves_refl e⟩ hgone
  · exfalso
    apply hgone
    rw [hq]
    rcases updateFirst_mem (hasId i) cancelled _ e he with hm | ⟨_, hm⟩
    · exact ⟨e, hm, evolves_refl e⟩
    · exact ⟨_, hm, evolves_cancelled e⟩
  · refine ⟨clock, ho, ?_⟩
    have hc := hcomp clock hq
    rcases ho with rfl | rfl
    · cases hx : s.external with
      | true => exact absurd (by simp only [step, requestEvent_state_external env clock s ven hx]) hsame
      | false =>
        rcases hreply clock hx hc with ⟨l, h1, h2⟩ | ⟨err, h1⟩
        · exact .inl ⟨l, by simp only [step, h1], h2⟩
        · exact .inr ⟨err, by simp only [step, h1]⟩
    · rcases poll_state env clock s ven with hs | ⟨hx, hf, _⟩ | ⟨hx, hf, _⟩
      · exact absurd (by simp only [step, hs]) hsame
      all_goals
        have hp : (poll env clock s ven).2.2 = (requestEvent env clock s ven).2.2 := by
          simp only [poll, hx, hf, Bool.false_eq_true, if_false, if_true]
          cases hy : requestEvent env clock s ven with
          | mk s' y => obtain ⟨effs, o⟩ := y; cases o <;> rfl
        rcases hreply clock hx hc with ⟨l, h1, h2⟩ | ⟨err, h1⟩
        · exact .inl ⟨l, by simp only [step, hp, h1], h2⟩
        · exact .inr ⟨err, by simp only [step, hp, h1]⟩
  · exfalso
    subst ho
    have := step_keeps env s (.respond ven rs) ven e he (by
      rintro (⟨clock, ha, _⟩ | hh)
      · rcases ha with ha | ha <;> cases ha
      · exact hresp hh)
    exact hgone this

/-- **C28** (partial: what is missing is the reply for a single queued event that has ended, see below): a queued event that has not ended
    or is not alone is in the event list that the VEN gets when it asks. -/
theorem c28_in_every_list_partial (env : Env) (clock : Nat → Int) (s : Server) (ven : String) (e : Event) (hx : s.external = false)
    (he : e ∈ s.queue ven) (h : 2 ≤ (s.queue ven).length ∨ e.status = .cancelled ∨ ∀ i, ¬ Ended e (clock i)) :
    (∃ l, (requestEvent env clock s ven).2.2 = .ok (.distribute l) ∧ ∃ e' ∈ l, Evolves e e') ∨
    (∃ err eff, (requestEvent env clock s ven).2.2 = .error err ∧ env.raises eff = some err) := by
  have hne : s.queue ven ≠ [] := by intro h; rw [h] at he; simp at he
  have hr := (requestEvent_reply env clock s ven hx).2 hne
  have herr : ∀ l err, (deliverAll env s.delivery l).2 = some err → ∃ eff, env.raises eff = some err := by
    intro l
    induction l with
    | nil => intro err h; simp [deliverAll] at h
    | cons x l ih =>
      intro err h
      simp only [deliverAll] at h
      split at h
      · exact ih err h
      · rename_i cb _
        cases hc : env.raises (.delivered cb) with
        | some er => rw [hc] at h; simp only [Option.some.injEq] at h; exact ⟨_, h ▸ hc⟩
        | none => rw [hc] at h; exact ih err h
  cases hd : (deliverAll env s.delivery (handedOut (refreshAll clock 0 (s.queue ven)))).2 with
  | some err =>
    rw [hd] at hr
    obtain ⟨eff, h1⟩ := herr _ err hd
    exact .inr ⟨err, eff, hr, h1⟩
  | none =>
    rw [hd] at hr
    refine .inl ⟨_, hr, ?_⟩
    obtain ⟨j, hj⟩ := mem_refreshAll_of_mem clock 0 _ e he
    refine ⟨_, ?_, evolves_refresh (clock j) (clock (j + 1)) e⟩
    rcases h with h | h
    · exact (handedOut_mem_of_two _ (by rw [refreshAll_length]; omega) _).mpr hj
    · refine handedOut_nc _ _ hj ?_
      simp only [nc, decide_eq_true_eq]
      intro hc
      obtain ⟨h1, h2⟩ := refresh_completed _ _ _ hc
      rcases h with h | h
      · exact h1 h
      · exact h j ((determine_ended e _).mp h2)

/-- non-vacuity: `sampleServer` has a VEN with two events; nothing may end the event "y" in this history. -/
example : sampleEvent "y" ∈ sampleServer.queue "ven2" ∧
    ∀ pre op post, [Op.request "ven2" (fun _ => 0), .cancel "ven2" "z", .poll "ven2" (fun _ => 12)] = pre ++ op :: post →
      ¬ MayEnd (runOps quietEnv sampleServer pre).1 op "ven2" (sampleEvent "y") := by
  refine ⟨by decide +kernel, ?_⟩
  intro pre op post h
  have hop : op ∈ [Op.request "ven2" (fun _ => 0), .cancel "ven2" "z", .poll "ven2" (fun _ => 12)] := by rw [h]; simp
  simp only [List.mem_cons, List.not_mem_nil, or_false] at hop
  rcases hop with rfl | rfl | rfl
  · rintro (⟨clock, ha, _, _, _, _, i, hend⟩ | ⟨rs, ha, _⟩)
    · rcases ha with ha | ha
      · simp only [Op.request.injEq, true_and] at ha; subst ha
        simp [Ended, StatusAt, sampleEvent] at hend
      · cases ha
    · cases ha
  · rintro (⟨clock, ha, _⟩ | ⟨rs, ha, _⟩)
    · rcases ha with ha | ha <;> cases ha
    · cases ha
  · rintro (⟨clock, ha, _, _, _, _, i, hend⟩ | ⟨rs, ha, _⟩)
    · rcases ha with ha | ha
      · cases ha
      · simp only [Op.poll.injEq, true_and] at ha; subst ha
        simp [Ended, StatusAt, sampleEvent] at hend
    · cases ha

/-- A VEN with one event that has ended at 20. -/
def loneServer : Server := { Server.init with events := [("ven1", [sampleEvent "x"])] }

/-- **C28, refuted** for a single queued event: at the first request after its end it is removed and the reply is an empty list. -/
theorem c28_lone_completed_violated : sampleEvent "x" ∈ loneServer.queue "ven1" ∧
    (requestEvent quietEnv (fun _ => 20) loneServer "ven1").2.2 = .ok (.distribute []) ∧
    (requestEvent quietEnv (fun _ => 20) loneServer "ven1").1.queue "ven1" = [] := by
  refine ⟨by decide +kernel, by decide +kernel, by decide +kernel⟩

/-- **C28, refuted** when a delivery callback raises: the completed event is removed although the VEN gets an error instead of the list. -/
theorem c28_raising_callback_violated : ∃ (env : Env) (s : Server), sampleEvent "y" ∈ s.queue "ven2" ∧ 2 ≤ (s.queue "ven2").length ∧
    (requestEvent env (fun _ => 20) s "ven2").2.2 = .error (.user 0) ∧ (requestEvent env (fun _ => 20) s "ven2").1.queue "ven2" = [] :=
  ⟨⟨fun _ => some (.user 0), fun _ => none, fun _ => .nothing⟩, { sampleServer with delivery := [("z", 1)] },
    by decide +kernel, by decide +kernel, by decide +kernel, by decide +kernel⟩

/-! ### C29 -/

/-- **C29** (partial: two or more queued events): when the VEN asks for events after the end of an event that is not cancelled, the reply
    includes it as completed, and it is no longer queued. -/
theorem c29_completed_reported_partial (env : Env) (clock : Nat → Int) (s : Server) (ven : String) (e : Event) (l : List Event)
    (hx : s.external = false) (he : e ∈ s.queue ven) (htwo : 2 ≤ (s.queue ven).length) (hc : e.status ≠ .cancelled)
    (hend : ∀ i, Ended e (clock i)) (hreply : (requestEvent env clock s ven).2.2 = .ok (.distribute l)) :
    ∃ e' ∈ l, Evolves e e' ∧ e'.status = .completed := by
  have hne : s.queue ven ≠ [] := by intro h; rw [h] at he; simp at he
  have hr := (requestEvent_reply env clock s ven hx).2 hne
  rw [hreply] at hr
  cases hd : (deliverAll env s.delivery (handedOut (refreshAll clock 0 (s.queue ven)))).2 with
  | some err => rw [hd] at hr; cases hr
  | none =>
    rw [hd] at hr
    simp only [Except.ok.injEq, Reply.distribute.injEq] at hr
    obtain ⟨j, hj⟩ := mem_refreshAll_of_mem clock 0 _ e he
    refine ⟨_, ?_, evolves_refresh (clock j) (clock (j + 1)) e, refresh_ended _ _ _ (hend j) hc⟩
    rw [hr]
    exact (handedOut_mem_of_two _ (by rw [refreshAll_length]; omega) _).mpr hj

/-- **C29**: no completed event stays queued after the VEN has asked. -/
theorem c29_no_completed_left (env : Env) (clock : Nat → Int) (s : Server) (ven : String) (hx : s.external = false) :
    ∀ e ∈ (requestEvent env clock s ven).1.queue ven, e.status ≠ .completed ∧ ∃ j, ∃ x ∈ s.queue ven, Evolves x e ∧
      (x.status ≠ .cancelled → ¬ Ended x (clock j)) := by
  intro e he
  rw [requestEvent_state env clock s ven hx, (takeEvents_spec clock s ven).1, List.mem_filter] at he
  have hn : e.status ≠ .completed := by simpa [nc] using he.2
  refine ⟨hn, ?_⟩
  obtain ⟨x, hx, j, rfl⟩ := refreshAll_mem_clock _ _ _ _ he.1
  exact ⟨j, x, hx, evolves_refresh _ _ _, fun hc hend => hn (refresh_ended _ _ _ hend hc)⟩

/-- **C29**: once no event with the id is queued, no later reply to the VEN includes one, unless it is added again. -/
theorem c29_not_sent_again (env : Env) (s : Server) (ven id : String) (ops : List Op) (hx : s.external = false)
    (hgone : ∀ e ∈ s.queue ven, e.id ≠ id) (hno : ∀ op ∈ ops, ¬ Adds op ven id) :
    ∀ pre op post clock, ops = pre ++ op :: post → Asks op ven clock →
      ∀ l, (step env (runOps env s pre).1 op).2.2 = .reply (.ok (.distribute l)) → ∀ e ∈ l, e.id ≠ id := by
  have stay : ∀ (pre : List Op) (s : Server), (∀ e ∈ s.queue ven, e.id ≠ id) → (∀ op ∈ pre, ¬ Adds op ven id) →
      ∀ e ∈ (runOps env s pre).1.queue ven, e.id ≠ id := by
    intro pre
    induction pre with
    | nil => intro s h _; exact h
    | cons op pre ih =>
      intro s h hno
      refine ih _ ?_ (fun o ho => hno o (by simp [ho]))
      intro e he hid
      have h0 : (s.queue ven).countP (fun e => decide (e.id = id)) = 0 := by
        rw [List.countP_eq_zero]; intro x hx; simpa using h x hx
      have := step_countP env s op ven id (hno op (by simp))
      rw [h0, Nat.le_zero, List.countP_eq_zero] at this
      exact this e he (by simpa using hid)
  intro pre op post clock hops hasks l hl
  have hs := stay pre s hgone (fun o ho => hno o (by rw [hops]; simp [ho]))
  have hx' : (runOps env s pre).1.external = false := by rw [runOps_external]; exact hx
  have req : ∀ l, (requestEvent env clock (runOps env s pre).1 ven).2.2 = .ok (.distribute l) → ∀ e ∈ l, e.id ≠ id := by
    intro l hl e he hid
    obtain ⟨r1, r2⟩ := requestEvent_reply env clock (runOps env s pre).1 ven hx'
    by_cases hq : (runOps env s pre).1.queue ven = []
    · rw [r1 hq] at hl; cases hl
    · rw [r2 hq] at hl
      split at hl
      · cases hl
      · simp only [Except.ok.injEq, Reply.distribute.injEq] at hl
        rw [← hl] at he
        obtain ⟨x, hx, hxid⟩ := (refreshAll_mem_id clock 0 _ id).mp ⟨e, handedOut_sub _ _ he, hid⟩
        exact hs x hx hxid
  rcases hasks with rfl | rfl
  · simp only [step, Out.reply.injEq] at hl; exact req l hl
  · simp only [step, Out.reply.injEq, poll, hx', Bool.false_eq_true, if_false] at hl
    split at hl
    · cases hy : requestEvent env clock (runOps env s pre).1 ven with
      | mk s' y =>
        obtain ⟨effs, o⟩ := y
        rw [hy] at hl
        cases o with
        | error err => cases hl
        | ok r => exact req l (by rw [hy]; exact hl)
    · cases hl

/-- **C29, refuted** for a single queued event: at the request after its end it is not in the reply, nor in any later one. -/
theorem c29_lone_never_reported_violated : sampleEvent "x" ∈ loneServer.queue "ven1" ∧ (∀ i : Nat, Ended (sampleEvent "x") ((fun _ => 20) i)) ∧
    (requestEvent quietEnv (fun _ => 20) loneServer "ven1").2.2 = .ok (.distribute []) ∧
    ∀ e ∈ (requestEvent quietEnv (fun _ => 20) loneServer "ven1").1.queue "ven1", e.id ≠ "x" := by
  refine ⟨by decide +kernel, ?_, by decide +kernel, by decide +kernel⟩
  intro i
  exact .inl ⟨rfl, by decide, by show (15 : Int) ≤ 20; decide⟩

/-- non-vacuity: two events, both over -/
example : sampleEvent "y" ∈ sampleServer.queue "ven2" ∧ 2 ≤ (sampleServer.queue "ven2").length ∧
    (∃ l, (requestEvent quietEnv (fun _ => 20) sampleServer "ven2").2.2 = .ok (.distribute l)) :=
  ⟨by decide +kernel, by decide +kernel, ⟨_, rfl⟩⟩

/-! ### C30 -/

/-- **C30**: no history of operations for other VENs changes the queue, the flag or the completed-event record of a VEN. -/
theorem c30_isolation (env : Env) (s : Server) (ven : String) (ops : List Op) (h : ∀ op ∈ ops, op.ven ≠ ven) :
    SameFor ven s (runOps env s ops).1 := by
  induction ops generalizing s with
  | nil => exact ⟨rfl, rfl, rfl⟩
  | cons op ops ih =>
    obtain ⟨a1, a2, a3⟩ := step_frame env s op ven (h op (by simp)).symm
    obtain ⟨b1, b2, b3⟩ := ih (step env s op).1 (fun o ho => h o (by simp [ho]))
    simp only [runOps]
    exact ⟨b1.trans a1, b2.trans a2, b3.trans a3⟩

/-- **C30**, as non-interference: what a VEN (and the user operating on it) gets in a history is what it would get if the operations for
    all other VENs were left out, provided that user code does not raise. -/
theorem c30_noninterference (env : Env) (hq : ∀ e, env.raises e = none) (s : Server) (ven : String) (ops : List Op) :
    SameFor ven (runOps env s ops).1 (runOps env s (ops.filter (fun op => op.ven == ven))).1 ∧
    ((ops.zip (runOps env s ops).2.2).filter (fun x => x.1.ven == ven)).map Prod.snd =
      (runOps env s (ops.filter (fun op => op.ven == ven))).2.2 := by
  have main : ∀ (ops : List Op) (s t : Server), Agree ven s t →
      SameFor ven (runOps env s ops).1 (runOps env t (ops.filter (fun op => op.ven == ven))).1 ∧
      ((ops.zip (runOps env s ops).2.2).filter (fun x => x.1.ven == ven)).map Prod.snd =
        (runOps env t (ops.filter (fun op => op.ven == ven))).2.2 := by
    intro ops
    induction ops with
    | nil => intro s t h; exact ⟨h.1, rfl⟩
    | cons op ops ih =>
      intro s t h
      by_cases hv : op.ven = ven
      · have hv' : (op.ven == ven) = true := by simpa using hv
        rw [List.filter_cons_of_pos (by simpa using hv)]
        simp only [runOps, List.zip_cons_cons]
        rw [List.filter_cons_of_pos (by simpa using hv)]
        subst hv
        obtain ⟨a1, a2⟩ := step_agree env hq s t op h
        obtain ⟨b1, b2⟩ := ih _ _ a1
        exact ⟨b1, by simp only [List.map_cons, a2, b2]⟩
      · rw [List.filter_cons_of_neg (by simpa using hv)]
        simp only [runOps, List.zip_cons_cons]
        rw [List.filter_cons_of_neg (by simpa using hv)]
        refine ih _ _ ⟨?_, ?_⟩
        · obtain ⟨a1, a2, a3⟩ := step_frame env s op ven (fun h => hv h.symm)
          exact ⟨h.1.1.trans a1.symm, h.1.2.1.trans a2.symm, h.1.2.2.trans a3.symm⟩
        · rw [step_external]; exact h.2
  exact main ops s s ⟨⟨rfl, rfl, rfl⟩, rfl⟩

/-- non-vacuity: a history with operations of two VENs -/
example : (runOps quietEnv sampleServer [Op.cancel "ven1" "x", .poll "ven2" (fun _ => 0), .poll "ven1" (fun _ => 0)]).2.2.length = 3 ∧
    [Op.cancel "ven1" "x", .poll "ven2" (fun _ => 0), .poll "ven1" (fun _ => 0)].map Op.ven = ["ven1", "ven2", "ven1"] :=
  ⟨by decide +kernel, by decide +kernel⟩

/-! ### C31 -/

/-- **C31**: after an event was added or cancelled for a VEN (its flag is set then, see C23 and C26), and after any further history in
    which this VEN does not poll, its next poll is answered like a request for events. -/
theorem c31_next_poll_answers (env : Env) (s : Server) (ven : String) (ops : List Op) (clock : Nat → Int) (hx : s.external = false)
    (hf : s.flag ven = true) (hp : ∀ op ∈ ops, polls ven op = false) :
    (poll env clock (runOps env s ops).1 ven).2.2 = (requestEvent env clock (runOps env s ops).1 ven).2.2 ∧
    (poll env clock (runOps env s ops).1 ven).2.1 = (requestEvent env clock (runOps env s ops).1 ven).2.1 := by
  have keep : ∀ (ops : List Op) (s : Server), s.flag ven = true → (∀ op ∈ ops, polls ven op = false) →
      (runOps env s ops).1.flag ven = true := by
    intro ops
    induction ops with
    | nil => intro s h _; exact h
    | cons op ops ih =>
      intro s h hp
      exact ih _ (step_flag_kept env s op ven (hp op (by simp)) h) (fun o ho => hp o (by simp [ho]))
  have hf' := keep ops s hf hp
  have hx' : (runOps env s ops).1.external = false := by rw [runOps_external]; exact hx
  simp only [poll, hx', hf', Bool.false_eq_true, if_false, if_true]
  cases hy : requestEvent env clock (runOps env s ops).1 ven with
  | mk s' y => obtain ⟨effs, o⟩ := y; cases o <;> exact ⟨rfl, rfl⟩

/-- **C31**: an event that is added and has not ended is in the reply to the next poll, whatever the operations in between (other than
    polls of this VEN), as long as none of them may end it. -/
theorem c31_added_event_announced (env : Env) (hq : ∀ e, env.raises e = none) (s s' : Server) (a : AddArgs) (id : String)
    (ops : List Op) (clock : Nat → Int) (hadd : addEvent s a = (s', .ok (some id))) (hp : ∀ op ∈ ops, polls a.ven op = false)
    (hend : ∀ e ∈ s'.queue a.ven, e.id = id → ∀ pre op post, ops = pre ++ op :: post → ¬ MayEnd (runOps env s' pre).1 op a.ven e)
    (hnow : ∀ e ∈ s'.queue a.ven, e.id = id → ∀ i, ¬ Ended e (clock i)) :
    ∃ l, (poll env clock (runOps env s' ops).1 a.ven).2.2 = .ok (.distribute l) ∧ ∃ e ∈ l, e.id = id ∧ e.signals.length = 1 := by
  obtain ⟨rfl, hflag, ⟨e, hqe, hmade⟩, _⟩ := c23_add_event s s' a id hadd
  have hx : s'.external = false := by
    have h1 : s.external = false := by
      cases h : s.external with
      | false => rfl
      | true => rw [c23_external_adds_nothing s a h] at hadd; simp at hadd
    have := step_external env s (.add a)
    simp only [step, hadd] at this
    rw [this]; exact h1
  have hmem : e ∈ s'.queue a.ven := by rw [hqe]; simp
  have hid : e.id = a.eventId := hmade.1
  obtain ⟨e', he', hev⟩ := c28_live_event_kept env s' a.ven e ops hmem (hend e hmem hid)
  have hx' : (runOps env s' ops).1.external = false := by rw [runOps_external]; exact hx
  rw [(c31_next_poll_answers env s' a.ven ops clock hx hflag hp).1]
  rcases c28_in_every_list_partial env clock (runOps env s' ops).1 a.ven e' hx' he'
    (.inr (.inr (by
      intro i h
      apply hnow e hmem hid i
      simp only [Ended, evolves_period hev] at h
      exact h))) with ⟨l, hl, x, hx, hxe⟩ | ⟨err, eff, _, he⟩
  · have hxe' := evolves_trans hev hxe
    refine ⟨l, hl, x, hx, (evolves_id hxe').trans hid, ?_⟩
    obtain ⟨sig, hsig, _⟩ := hmade.2.2.2.2.2.1
    have hs : x.signals = e.signals := by rw [hxe'.1]
    rw [hs, hsig]; rfl
  · rw [hq] at he; cases he

/-- **C31**: a poll with nothing new gives an empty response and changes nothing. -/
theorem c31_nothing_new (env : Env) (s : Server) (ven : String) (clock : Nat → Int) (hx : s.external = false) (hf : s.flag ven = false) :
    poll env clock s ven = (s, [], .ok .response) := by
  simp [poll, hx, hf]

/-- **C31**: after a poll that was answered there is nothing new, until the user changes something for this VEN. -/
theorem c31_once (env : Env) (s : Server) (ven : String) (clock clock' : Nat → Int) (r : Reply) (ops : List Op) (hx : s.external = false)
    (hok : (poll env clock s ven).2.2 = .ok r) (hc : ∀ op ∈ ops, changes ven op = false) :
    (poll env clock' (runOps env (poll env clock s ven).1 ops).1 ven).2.2 = .ok .response := by
  have keep : ∀ (ops : List Op) (s : Server), s.flag ven = false → (∀ op ∈ ops, changes ven op = false) →
      (runOps env s ops).1.flag ven = false := by
    intro ops
    induction ops with
    | nil => intro s h _; exact h
    | cons op ops ih =>
      intro s h hp
      exact ih _ (step_flag_unset env s op ven (hp op (by simp)) h) (fun o ho => hp o (by simp [ho]))
  have h0 : (poll env clock s ven).1.flag ven = false := by
    cases hf : s.flag ven with
    | false => rw [c31_nothing_new env s ven clock hx hf]; exact hf
    | true =>
      simp only [poll, hx, hf, Bool.false_eq_true, if_false, if_true] at hok ⊢
      cases hy : requestEvent env clock s ven with
      | mk s' y =>
        obtain ⟨effs, o⟩ := y
        rw [hy] at hok
        cases o with
        | error err => cases hok
        | ok r => simp [Server.flag, Dict.get?_set_self]
  have hx' : (runOps env (poll env clock s ven).1 ops).1.external = false := by
    rw [runOps_external]
    have := step_external env s (.poll ven clock)
    simp only [step] at this
    rw [this]; exact hx
  rw [c31_nothing_new env _ ven clock' hx' (keep ops _ h0 hc)]

/-- non-vacuity: add, then another VEN polls and responds, then the VEN polls. -/
example : ∃ s' l, addEvent sampleServer sampleArgs = (s', .ok (some "event1")) ∧
    (poll quietEnv (fun _ => 0) (runOps quietEnv s' [.poll "ven2" (fun _ => 0), .request "ven1" (fun _ => 0)]).1 "ven1").2.2 =
      .ok (.distribute l) ∧ l.map Event.id = ["x", "event1"] :=
  ⟨_, _, rfl, rfl, by decide +kernel⟩

end Openleadr
