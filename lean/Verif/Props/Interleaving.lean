import Verif.Model.Interleaving
import Verif.Props.ServerHistory
/-!
C32 No update is lost while a poll is being answered.
-/
namespace Openleadr
open Spec

/-! ### helpers -/

/-- What is remembered about the tracked event: it has evolved from `e`, and a cancellation stays. -/
def Follows (e x : Event) : Prop := Evolves e x ∧ (e.status = .cancelled → x.status = .cancelled)

theorem follows_refresh {e x : Event} (t t' : Int) (h : Follows e x) : Follows e (refresh t t' x) := by
  refine ⟨evolves_trans h.1 (evolves_refresh t t' x), fun hc => ?_⟩
  have := h.2 hc
  simp [refresh, this]

theorem refreshRefs_closed (P : Event → Prop) (clock : Nat → Int) (hP : ∀ i x, P x → P (refresh (clock i) (clock (i + 1)) x))
    (rs : List Nat) (i : Nat) (heap : Nat → Event) (n : Nat) (h : P (heap n)) : P (refreshRefs clock i heap rs n) := by
  induction rs generalizing i heap with
  | nil => exact h
  | cons r rs ih =>
    simp only [refreshRefs]
    apply ih
    simp only [setObj]
    split
    · rename_i hn; subst hn; exact hP i _ h
    · exact h

/-- After the refresh the tracked event is not completed, if it has not ended or is cancelled. -/
theorem refreshRefs_not_completed (e : Event) (clock : Nat → Int) (hend : e.status = .cancelled ∨ ∀ i, ¬ Ended e (clock i))
    (rs : List Nat) (i : Nat) (heap : Nat → Event) (n : Nat) (h : Follows e (heap n)) (hn : n ∈ rs) :
    (refreshRefs clock i heap rs n).status ≠ .completed := by
  have hstep : ∀ i x, Follows e x → (refresh (clock i) (clock (i + 1)) x).status ≠ .completed := by
    intro i x hx hc
    obtain ⟨h1, h2⟩ := refresh_completed _ _ _ hc
    rcases hend with hend | hend
    · exact h1 (hx.2 hend)
    · rw [evolves_period hx.1] at h2
      exact hend i ((determine_ended e _).mp h2)
  induction rs generalizing i heap with
  | nil => simp at hn
  | cons r rs ih =>
    simp only [refreshRefs]
    by_cases hr : n = r
    · subst hr
      refine (refreshRefs_closed (fun x => Follows e x ∧ x.status ≠ .completed) clock
        (fun i x hx => ⟨follows_refresh _ _ hx.1, hstep i x hx.1⟩) rs _ _ n ?_).2
      simp only [setObj, if_true]
      exact ⟨follows_refresh _ _ h, hstep i _ h⟩
    · have hn' : n ∈ rs := by simpa [hr] using hn
      refine ih _ _ ?_ hn'
      simp only [setObj, hr, if_false]; exact h

theorem arrangeRefs_perm (heap : Nat → Event) (l : List Nat) : (arrangeRefs heap l).Perm l := by
  simp only [arrangeRefs]
  refine ((stableSort_perm _ _).trans (stableSort_perm _ _)).append (stableSort_perm _ _) |>.trans ?_
  have := List.filter_append_perm (fun r => decide ((heap r).status = .active)) l
  refine List.Perm.trans ?_ this
  refine List.Perm.append_left _ (List.Perm.of_eq ?_)
  congr 1
  funext r
  by_cases h : (heap r).status = .active <;> simp [h]

/-- The tracked event is queued and is in every reply under construction. -/
structure Tracked (s : Live) (r : Nat) (e : Event) : Prop where
  queued : r ∈ s.queue
  fresh : r < s.next
  form : Follows e (s.heap r)
  handed : ∀ p ∈ s.pending, ∀ l, p.refs = some l → r ∈ l

/-- The schedule does not end the life of the event: it has not ended when the VEN asks (unless cancelled), and its cancellation is not
    confirmed. -/
def KeepsAlive (e : Event) (a : Act) : Prop :=
  (∀ p clock, a = .begin p clock → e.status = .cancelled ∨ ∀ i, ¬ Ended e (clock i)) ∧ (∀ id, a = .confirm id → id ≠ e.id)

/-- The reply contains the event, in a form that has evolved from `e`, and cancelled if `e` is. -/
def Announces (x : Sent) (r : Nat) (e : Event) : Prop := r ∈ x.refs ∧ ∃ e' ∈ x.events, Follows e e'

theorem act_tracked (s : Live) (a : Act) (r : Nat) (e : Event) (h : Tracked s r e) (hk : KeepsAlive e a) :
    Tracked (act s a).1 r e ∧ (s.flag = true → (act s a).1.flag = true ∨ ∃ x, (act s a).2 = some x ∧ Announces x r e) := by
  obtain ⟨h1, h2, h3, h4⟩ := h
  cases a with
  | add x =>
    refine ⟨⟨?_, ?_, ?_, h4⟩, fun _ => .inl rfl⟩
    · simp [act, h1]
    · simp only [act]; omega
    · simp only [act, setObj]
      have : r ≠ s.next := by omega
      simp only [this, if_false]; exact h3
  | cancel id =>
    simp only [act]
    split
    · exact ⟨⟨h1, h2, h3, h4⟩, fun h => .inl h⟩
    · rename_i q hq
      refine ⟨⟨h1, h2, ?_, h4⟩, fun _ => .inl rfl⟩
      simp only [setObj]
      split
      · rename_i hr; subst hr
        exact ⟨evolves_trans h3.1 (evolves_cancelled _), fun _ => rfl⟩
      · exact h3
  | begin p clock =>
    have hend := hk.1 p clock rfl
    simp only [act, beginReply]
    split
    · exact ⟨⟨h1, h2, h3, h4⟩, fun h => .inl h⟩
    · split
      · rename_i hq; rw [hq] at h1; simp at h1
      · refine ⟨⟨?_, h2, ?_, ?_⟩, fun h => .inl h⟩
        · refine List.mem_filter.mpr ⟨h1, ?_⟩
          simpa using refreshRefs_not_completed e clock hend s.queue 0 s.heap r h3 h1
        · exact refreshRefs_closed (Follows e) clock (fun i x => follows_refresh _ _) _ _ _ _ h3
        · intro q hq l hl
          simp only [List.mem_append, List.mem_singleton] at hq
          rcases hq with hq | rfl
          · exact h4 q hq l hl
          · simp only at hl
            split at hl
            · cases hl
            · simp only [Option.some.injEq] at hl
              subst hl
              exact (arrangeRefs_perm _ _).mem_iff.mpr h1
  | finish k =>
    simp only [act, finishReply]
    cases hp : s.pending[k]? with
    | none => exact ⟨⟨h1, h2, h3, h4⟩, fun h => .inl h⟩
    | some p =>
      have hpm : p ∈ s.pending := List.mem_of_getElem? hp
      refine ⟨⟨h1, h2, h3, fun q hq => h4 q (List.mem_of_mem_eraseIdx hq)⟩, fun _ => .inr ⟨_, rfl, ?_⟩⟩
      have hr : r ∈ p.refs.getD s.queue := by
        cases hpr : p.refs with
        | none => exact h1
        | some l => exact h4 p hpm l hpr
      exact ⟨hr, s.heap r, List.mem_map.mpr ⟨r, hr, rfl⟩, h3⟩
  | abort k => exact ⟨⟨h1, h2, h3, fun q hq => h4 q (List.mem_of_mem_eraseIdx hq)⟩, fun h => .inl h⟩
  | confirm id =>
    have hid := hk.2 id rfl
    simp only [act]
    split
    · exact ⟨⟨h1, h2, h3, h4⟩, fun h => .inl h⟩
    · rename_i q hq
      have hq' : (s.heap q).id = id := by simpa [hasId] using List.find?_some hq
      split
      · refine ⟨⟨?_, h2, h3, h4⟩, fun h => .inl h⟩
        refine (List.mem_erase_of_ne ?_).mpr h1
        rintro rfl
        rw [evolves_id h3.1] at hq'
        exact hid hq'.symm
      · exact ⟨⟨h1, h2, h3, h4⟩, fun h => .inl h⟩

/-- **C32**: whatever happens while replies are being produced, an event leaves the queue in two ways only: a request or poll finds that it has ended, or the VEN
    confirms an event of its id that is cancelled at that time. -/
theorem c32_leaves_only (s : Live) (a : Act) (r : Nat) (hq : r ∈ s.queue) (hgone : r ∉ (act s a).1.queue) :
    ((s.heap r).status = .cancelled ∧ a = .confirm (s.heap r).id) ∨
    ((s.heap r).status ≠ .cancelled ∧ ∃ p clock i, a = .begin p clock ∧ Ended (s.heap r) (clock i)) := by
  cases a with
  | add x => exact absurd (by simp [act, hq]) hgone
  | cancel id =>
    simp only [act] at hgone
    split at hgone <;> exact absurd hq hgone
  | begin p clock =>
    right
    simp only [act, beginReply] at hgone
    split at hgone
    · exact absurd hq hgone
    · split at hgone
      · rename_i h0; rw [h0] at hq; simp at hq
      · by_cases hend : (s.heap r).status = .cancelled ∨ ∀ i, ¬ Ended (s.heap r) (clock i)
        · refine absurd (List.mem_filter.mpr ⟨hq, ?_⟩) hgone
          simpa using refreshRefs_not_completed (s.heap r) clock hend s.queue 0 s.heap r ⟨evolves_refl _, id⟩ hq
        · simp only [not_or, Classical.not_forall, Classical.not_not] at hend
          obtain ⟨h1, i, hi⟩ := hend
          exact ⟨h1, p, clock, i, rfl, hi⟩
  | finish k =>
    simp only [act, finishReply] at hgone
    split at hgone <;> exact absurd hq hgone
  | abort k => exact absurd hq hgone
  | confirm id =>
    left
    simp only [act] at hgone
    split at hgone
    · exact absurd hq hgone
    · rename_i q hf
      split at hgone
      · rename_i hc
        by_cases hr : r = q
        · subst hr
          have hi : (s.heap r).id = id := by simpa [hasId] using List.find?_some hf
          exact ⟨hc, by rw [hi]⟩
        · exact absurd ((List.mem_erase_of_ne hr).mpr hq) hgone
      · exact absurd hq hgone

/-- **C32** (partial: what is missing is an event that is added while a reply with a list of its own is being produced, see below): after a
    change to an event that is in all replies under construction (or when there are none), under every schedule the change is still
    flagged for the next poll or has been sent to the VEN in a reply that was completed after the change. -/
theorem c32_change_announced_partial (s : Live) (r : Nat) (acts : List Act) (hq : r ∈ s.queue) (hr : r < s.next) (hf : s.flag = true)
    (hp : ∀ p ∈ s.pending, ∀ l, p.refs = some l → r ∈ l) (hk : ∀ a ∈ acts, KeepsAlive (s.heap r) a) :
    (runActs s acts).1.flag = true ∨ ∃ x ∈ (runActs s acts).2, Announces x r (s.heap r) := by
  have main : ∀ (acts : List Act) (t : Live), Tracked t r (s.heap r) → t.flag = true → (∀ a ∈ acts, KeepsAlive (s.heap r) a) →
      (runActs t acts).1.flag = true ∨ ∃ x ∈ (runActs t acts).2, Announces x r (s.heap r) := by
    intro acts
    induction acts with
    | nil => intro t _ h _; exact .inl h
    | cons a acts ih =>
      intro t ht hft hk
      obtain ⟨h1, h2⟩ := act_tracked t a r _ ht (hk a (by simp))
      simp only [runActs]
      rcases h2 hft with h2 | ⟨x, hx, hann⟩
      · rcases ih _ h1 h2 (fun b hb => hk b (by simp [hb])) with h | ⟨x, hx, hann⟩
        · exact .inl h
        · exact .inr ⟨x, by simp [hx], hann⟩
      · exact .inr ⟨x, by simp [hx], hann⟩
  exact main acts s ⟨hq, hr, ⟨evolves_refl _, id⟩, hp⟩ hf hk

/-- **C32** for an added event: when no reply with a list of its own is under construction. -/
theorem c32_added_event_partial (s : Live) (e : Event) (acts : List Act) (hp : ∀ p ∈ s.pending, p.refs = none)
    (hk : ∀ a ∈ acts, KeepsAlive e a) :
    (runActs (act s (.add e)).1 acts).1.flag = true ∨
    ∃ x ∈ (runActs (act s (.add e)).1 acts).2, ∃ e' ∈ x.events, Follows e e' := by
  have hobj : (act s (.add e)).1.heap s.next = e := by simp [act, setObj]
  rcases c32_change_announced_partial (act s (.add e)).1 s.next acts (by simp [act]) (by simp [act]) rfl
    (by intro p hp' l hl; have := hp p hp'; rw [this] at hl; cases hl) (by rw [hobj]; exact hk) with h | ⟨x, hx, _, e', he', hf⟩
  · exact .inl h
  · rw [hobj] at hf; exact .inr ⟨x, hx, e', he', hf⟩

/-- **C32** for a cancellation: also when it happens while replies that contain the event are being produced, since the reply shows the
    event as it is when the message is made: under every schedule it is flagged or has been sent as cancelled. -/
theorem c32_cancellation_partial (s : Live) (id : String) (r : Nat) (acts : List Act)
    (hr : s.queue.find? (fun q => hasId id (s.heap q)) = some r) (hlt : ∀ q ∈ s.queue, q < s.next)
    (hp : ∀ p ∈ s.pending, ∀ l, p.refs = some l → r ∈ l) (hconf : ∀ a ∈ acts, a ≠ .confirm id) :
    (runActs (act s (.cancel id)).1 acts).1.flag = true ∨
    ∃ x ∈ (runActs (act s (.cancel id)).1 acts).2, ∃ e' ∈ x.events, e'.id = id ∧ e'.status = .cancelled ∧ (s.heap r).modnum < e'.modnum := by
  have hm := List.mem_of_find?_eq_some hr
  have hid : (s.heap r).id = id := by simpa [hasId] using List.find?_some hr
  have hstate : (act s (.cancel id)).1 = { s with heap := setObj s.heap r (cancelled (s.heap r)), flag := true } := by
    simp only [act, hr]
  rw [hstate]
  have hobj : setObj s.heap r (cancelled (s.heap r)) r = cancelled (s.heap r) := by simp [setObj]
  rcases c32_change_announced_partial { s with heap := setObj s.heap r (cancelled (s.heap r)), flag := true } r acts hm (hlt r hm) rfl hp
    (by
      intro a ha
      simp only [hobj]
      refine ⟨fun p clock _ => .inl rfl, ?_⟩
      rintro i rfl hi
      apply hconf _ ha
      rw [hi]
      show Act.confirm (s.heap r).id = _
      rw [hid]) with h | ⟨x, hx, _, e', he', hf⟩
  · exact .inl h
  · simp only [hobj] at hf
    have hid' : (cancelled (s.heap r)).id = (s.heap r).id := rfl
    have h2 : (cancelled (s.heap r)).modnum = (s.heap r).modnum + 1 := rfl
    have h3 : (cancelled (s.heap r)).modnum ≤ e'.modnum := hf.1.2
    refine .inr ⟨x, hx, e', he', (evolves_id hf.1).trans (hid'.trans hid), hf.2 rfl, ?_⟩
    omega

/-- A VEN with two events and a change to announce. -/
def twoQueued : Live :=
  (runActs ⟨fun _ => sampleEvent "", 0, [], false, []⟩ [.add (sampleEvent "a"), .add (sampleEvent "b")]).1

/-- **C32, refuted**: an event that is added while a poll reply is being produced is neither in that reply nor announced later: the poll
    afterwards gives an empty response, although the event is queued. -/
theorem c32_update_lost_violated :
    let x := runActs twoQueued [.begin true (fun _ => 0), .add (sampleEvent "c"), .finish 0, .begin true (fun _ => 1)]
    x.2.map (fun r => r.events.map Event.id) = [["a", "b"]] ∧ x.1.flag = false ∧ x.1.queue.map (fun r => (x.1.heap r).id) = ["a", "b", "c"] ∧
      x.1.pending = [] := by
  decide +kernel

/-- non-vacuity: the event "b" is cancelled while a reply that contains it is being produced; the reply shows it cancelled. -/
example : (runActs twoQueued [.begin true (fun _ => 0), .cancel "b", .finish 0]).2.map (fun r => r.events.map (fun e => (e.id, e.status))) =
    [[("a", .far), ("b", .cancelled)]] := by decide +kernel
example : ∀ p ∈ (act twoQueued (.begin true (fun _ => 0))).1.pending, ∀ l, p.refs = some l → 1 ∈ l := by decide +kernel

/-! ### agreement with the sequential model -/

theorem insertSorted_map {α β : Type} (f : α → β) (le : β → β → Bool) (x : α) (l : List α) :
    (insertSorted (fun a b => le (f a) (f b)) x l).map f = insertSorted le (f x) (l.map f) := by
  induction l with
  | nil => rfl
  | cons y l ih =>
    simp only [insertSorted, List.map_cons]
    split
    · rfl
    · simp [ih]

theorem stableSort_map {α β : Type} (f : α → β) (le : β → β → Bool) (l : List α) :
    (stableSort (fun a b => le (f a) (f b)) l).map f = stableSort le (l.map f) := by
  induction l with
  | nil => rfl
  | cons x l ih => simp only [stableSort, List.map_cons, insertSorted_map, ih]

theorem arrangeRefs_map (heap : Nat → Event) (l : List Nat) : (arrangeRefs heap l).map heap = arrange (l.map heap) := by
  simp only [arrangeRefs, arrange, sortByStart, sortByPriority, List.map_append]
  rw [stableSort_map heap (fun a b : Event => decide (a.activePeriod.dtstart ≤ b.activePeriod.dtstart)),
    stableSort_map heap (fun a b : Event => priorityLe (eventPriority a) (eventPriority b)),
    stableSort_map heap (fun a b : Event => decide (a.activePeriod.dtstart ≤ b.activePeriod.dtstart))]
  simp only [List.filter_map]
  rfl

theorem refreshRefs_other (clock : Nat → Int) (i : Nat) (heap : Nat → Event) (l : List Nat) (n : Nat) (h : n ∉ l) :
    refreshRefs clock i heap l n = heap n := by
  induction l generalizing i heap with
  | nil => rfl
  | cons r l ih =>
    simp only [List.mem_cons, not_or] at h
    simp only [refreshRefs]
    rw [ih _ _ h.2]
    simp [setObj, h.1]

theorem refreshRefs_map (clock : Nat → Int) (i : Nat) (heap : Nat → Event) (l : List Nat) (hn : l.Nodup) :
    l.map (refreshRefs clock i heap l) = refreshAll clock i (l.map heap) := by
  induction l generalizing i heap with
  | nil => rfl
  | cons r l ih =>
    rw [List.nodup_cons] at hn
    simp only [refreshRefs, List.map_cons, refreshAll]
    rw [refreshRefs_other _ _ _ _ _ hn.1, ih _ _ hn.2]
    simp only [setObj, if_true]
    congr 2
    apply List.map_congr_left
    intro x hx
    have : x ≠ r := fun h => hn.1 (h ▸ hx)
    exact if_neg this

/-- **C32**, link to the sequential model: a poll that is not interrupted does the same in both models: same reply, same queue afterwards,
    flag reset. -/
theorem c32_uninterrupted_poll (s : Live) (clock : Nat → Int) (hn : s.queue.Nodup) (hne : s.queue ≠ []) (hf : s.flag = true)
    (hp : s.pending = []) (env : Env) (hq : ∀ e, env.raises e = none) (t : Server) (ven : String) (hx : t.external = false)
    (htf : t.flag ven = true) (htq : t.queue ven = s.queue.map s.heap) :
    ∃ x, (runActs s [.begin true clock, .finish 0]).2 = [x] ∧ (poll env clock t ven).2.2 = .ok (.distribute x.events) ∧
      (poll env clock t ven).1.queue ven =
        (runActs s [.begin true clock, .finish 0]).1.queue.map (runActs s [.begin true clock, .finish 0]).1.heap ∧
      (poll env clock t ven).1.flag ven = (runActs s [.begin true clock, .finish 0]).1.flag := by
  have hte : t.queue ven ≠ [] := by rw [htq]; simpa using hne
  have hreply := (requestEvent_reply env clock t ven hx).2 hte
  rw [deliverAll_quiet env hq] at hreply
  have hst := requestEvent_state env clock t ven hx
  have hpoll : (poll env clock t ven).2.2 = .ok (.distribute (handedOut (refreshAll clock 0 (t.queue ven)))) ∧
      (poll env clock t ven).1.queue ven = (refreshAll clock 0 (t.queue ven)).filter nc ∧ (poll env clock t ven).1.flag ven = false := by
    simp only [poll, hx, htf, Bool.false_eq_true, if_false, if_true]
    cases hy : requestEvent env clock t ven with
    | mk t' y =>
      obtain ⟨effs, o⟩ := y
      rw [hy] at hreply hst
      simp only at hreply hst
      subst hreply
      refine ⟨rfl, ?_, by simp [Server.flag, Dict.get?_set_self]⟩
      have := (takeEvents_spec clock t ven).1
      rw [← hst] at this
      exact this
  have hmap := refreshRefs_map clock 0 s.heap s.queue hn
  have hleft : (s.queue.filter (fun r => decide ((refreshRefs clock 0 s.heap s.queue r).status ≠ .completed))).map
      (refreshRefs clock 0 s.heap s.queue) = (refreshAll clock 0 (s.queue.map s.heap)).filter nc := by
    rw [← hmap, List.filter_map]; rfl
  have hbegin : act s (.begin true clock) =
      ({ s with heap := refreshRefs clock 0 s.heap s.queue,
                queue := s.queue.filter (fun r => decide ((refreshRefs clock 0 s.heap s.queue r).status ≠ .completed)),
                pending := [⟨true, if s.queue.length = 1 then none else some (arrangeRefs (refreshRefs clock 0 s.heap s.queue) s.queue)⟩] },
        none) := by
    simp [act, beginReply, hf, hne, hp]
  rw [hpoll.1, hpoll.2.1, hpoll.2.2, htq]
  by_cases h1 : s.queue.length = 1
  · refine ⟨⟨s.queue.filter (fun r => decide ((refreshRefs clock 0 s.heap s.queue r).status ≠ .completed)),
      (s.queue.filter (fun r => decide ((refreshRefs clock 0 s.heap s.queue r).status ≠ .completed))).map (refreshRefs clock 0 s.heap s.queue)⟩, ?_, ?_, ?_, ?_⟩
    · simp only [runActs, hbegin]; simp only [act, finishReply, h1, if_true, List.getElem?_cons_zero, Option.getD_none, Option.toList]
      rfl
    · simp only [handedOut, refreshAll_length, List.length_map, h1, if_true]
      rw [← hleft]
    · simp only [runActs, hbegin]; simp only [act, finishReply, h1, if_true, List.getElem?_cons_zero]
      rw [hleft]
    · simp only [runActs, hbegin]; simp only [act, finishReply, h1, if_true, List.getElem?_cons_zero]
  · refine ⟨⟨arrangeRefs (refreshRefs clock 0 s.heap s.queue) s.queue,
      (arrangeRefs (refreshRefs clock 0 s.heap s.queue) s.queue).map (refreshRefs clock 0 s.heap s.queue)⟩, ?_, ?_, ?_, ?_⟩
    · simp only [runActs, hbegin]; simp only [act, finishReply, h1, if_false, List.getElem?_cons_zero, Option.getD_some, Option.toList]
      rfl
    · simp only [handedOut, refreshAll_length, List.length_map, h1, if_false]
      rw [arrangeRefs_map, hmap]
    · simp only [runActs, hbegin]; simp only [act, finishReply, h1, if_false, List.getElem?_cons_zero]
      rw [hleft]
    · simp only [runActs, hbegin]; simp only [act, finishReply, h1, if_false, List.getElem?_cons_zero, if_true]

end Openleadr
