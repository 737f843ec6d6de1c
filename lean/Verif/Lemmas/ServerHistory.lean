import Verif.Lemmas.Server
/-!
Lemmas about histories of the event side of the VTN.
-/
namespace Openleadr
open Spec

theorem runOps_append (env : Env) (s : Server) (a b : List Op) :
    (runOps env s (a ++ b)).1 = (runOps env (runOps env s a).1 b).1 := by
  induction a generalizing s with
  | nil => rfl
  | cons op a ih => simp only [List.cons_append, runOps]; exact ih _

theorem step_external (env : Env) (s : Server) (op : Op) : (step env s op).1.external = s.external := by
  cases op with
  | add a =>
    simp only [step]
    rcases addEvent_cases s a with h | ⟨_, p, _, h⟩
    · rw [h]
    · rw [h]; exact (addRawEvent_frame s a.ven _ _ _).1
  | addRaw ven e c d => exact (addRawEvent_frame s ven e c d).1
  | cancel ven id =>
    simp only [step]
    rcases cancelEvent_cases s ven id with ⟨h, _⟩ | ⟨_, h⟩ <;> rw [h]
  | request ven clock =>
    simp only [step]
    cases he : s.external with
    | true => rw [requestEvent_state_external env clock s ven he, he]
    | false => rw [requestEvent_state env clock s ven he, (takeEvents_frame clock s ven).1, he]
  | poll ven clock =>
    simp only [step]
    rcases poll_state env clock s ven with h | ⟨_, _, h⟩ | ⟨_, _, h⟩ <;> rw [h]
    · exact (takeEvents_frame clock s ven).1
    · exact (takeEvents_frame clock s ven).1
  | respond ven rs =>
    simp only [step, createdEvent_state]
    split
    · rfl
    · exact (respondAll_frame env s ven rs).2.2.2.1

theorem runOps_external (env : Env) (s : Server) (ops : List Op) : (runOps env s ops).1.external = s.external := by
  induction ops generalizing s with
  | nil => rfl
  | cons op ops ih => simp only [runOps]; rw [ih, step_external]

theorem respondOne_sublist (env : Env) (s : Server) (ven v : String) (r : EventResponse) :
    ((respondOne env s ven r).1.queue v).Sublist (s.queue v) := by
  rcases respondOne_queue env s ven r with h | ⟨_, h⟩
  · simp only [Server.queue, h]; exact List.Sublist.refl _
  · simp only [Server.queue, h, Dict.get?_set]
    split
    · rename_i hv; subst hv; exact eraseFirst_sublist _ _
    · exact List.Sublist.refl _

theorem respondAll_sublist (env : Env) (s : Server) (ven v : String) (rs : List EventResponse) :
    ((respondAll env s ven rs).1.queue v).Sublist (s.queue v) := by
  induction rs generalizing s with
  | nil => exact List.Sublist.refl _
  | cons r rs ih =>
    simp only [respondAll]
    have h1 := respondOne_sublist env s ven v r
    cases hx : respondOne env s ven r with
    | mk s' y =>
      obtain ⟨effs, o⟩ := y
      rw [hx] at h1
      cases o with
      | some err => exact h1
      | none => exact (ih s').trans h1

/-- The five ways in which one operation can change the queue of a VEN. -/
inductive QueueStep (s : Server) (op : Op) (ven : String) (q' : List Event) : Prop
  | same (h : q' = s.queue ven)
  | added (e : Event) (h : q' = s.queue ven ++ [e]) (ha : Adds op ven e.id) (hi : (∃ a, op = .add a) → s.external = false)
  | cancelled (id : String) (ho : op = .cancel ven id) (hm : ∃ e ∈ s.queue ven, e.id = id)
      (h : q' = updateFirst (hasId id) Openleadr.cancelled (s.queue ven))
  | asked (clock : Nat → Int) (ho : Asks op ven clock) (h : q' = (refreshAll clock 0 (s.queue ven)).filter nc)
  | responded (rs : List EventResponse) (ho : op = .respond ven rs) (h : q'.Sublist (s.queue ven))

theorem step_queue (env : Env) (s : Server) (op : Op) (ven : String) : QueueStep s op ven ((step env s op).1.queue ven) := by
  by_cases hv : ven = op.ven
  · cases op with
    | add a =>
      simp only [Op.ven] at hv; subst hv
      simp only [step]
      rcases addEvent_cases s a with hs | ⟨hx, p, _, hs⟩
      · exact .same (by rw [hs])
      · rw [hs]
        rcases addRawEvent_queue s a.ven (makeEvent a p) a.callback a.delivery a.ven with hq | ⟨_, p', _, hq⟩
        · exact .same hq
        · exact .added _ hq (.inl ⟨a, rfl, rfl, rfl⟩) (fun _ => hx)
    | addRaw v ev c d =>
      simp only [Op.ven] at hv; subst hv
      rcases addRawEvent_queue s ven ev c d ven with hq | ⟨_, p', _, hq⟩
      · exact .same hq
      · exact .added _ hq (.inr ⟨ev, c, d, rfl, rfl⟩) (by rintro ⟨a, h⟩; cases h)
    | cancel v id =>
      simp only [Op.ven] at hv; subst hv
      simp only [step]
      rcases cancelEvent_cases s ven id with ⟨hs, _⟩ | ⟨hm, hs⟩
      · exact .same (by rw [hs])
      · exact .cancelled id rfl hm (by rw [hs]; simp [Server.queue, Dict.get?_set_self])
    | request v clock =>
      simp only [Op.ven] at hv; subst hv
      simp only [step]
      cases hx : s.external with
      | true => exact .same (by rw [requestEvent_state_external env clock s ven hx])
      | false =>
        exact .asked clock (.inl rfl) (by rw [requestEvent_state env clock s ven hx]; exact (takeEvents_spec clock s ven).1)
    | poll v clock =>
      simp only [Op.ven] at hv; subst hv
      simp only [step]
      rcases poll_state env clock s ven with hs | ⟨_, _, hs⟩ | ⟨_, _, hs⟩
      · exact .same (by rw [hs])
      · exact .asked clock (.inr rfl) (by rw [hs]; exact (takeEvents_spec clock s ven).1)
      · exact .asked clock (.inr rfl) (by rw [hs]; exact (takeEvents_spec clock s ven).1)
    | respond v rs =>
      simp only [Op.ven] at hv; subst hv
      simp only [step, createdEvent_state]
      split
      · exact .same rfl
      · exact .responded rs rfl (respondAll_sublist env s ven ven rs)
  · exact .same (sameFor_queue (step_frame env s op ven hv))

theorem refreshAll_mem_clock (clock : Nat → Int) (i : Nat) (l : List Event) (e' : Event) (h : e' ∈ refreshAll clock i l) :
    ∃ e ∈ l, ∃ j, e' = refresh (clock j) (clock (j + 1)) e := by
  induction l generalizing i with
  | nil => simp [refreshAll] at h
  | cons e l ih =>
    simp only [refreshAll, List.mem_cons] at h
    rcases h with rfl | h
    · exact ⟨e, by simp, i, rfl⟩
    · obtain ⟨x, hx, j, hj⟩ := ih _ h
      exact ⟨x, by simp [hx], j, hj⟩

theorem refresh_created (t t' : Int) (e : Event) :
    (refresh t t' e).descriptor.created = e.descriptor.created ∨ (refresh t t' e).descriptor.created = some t' := by
  simp only [refresh]; split <;> (try split) <;> simp

theorem refreshAll_countP_id (clock : Nat → Int) (i : Nat) (l : List Event) (id : String) :
    (refreshAll clock i l).countP (fun e => decide (e.id = id)) = l.countP (fun e => decide (e.id = id)) := by
  induction l generalizing i with
  | nil => rfl
  | cons e l ih => simp only [refreshAll, List.countP_cons, refresh_id, ih]

theorem refreshAll_mem_id (clock : Nat → Int) (i : Nat) (l : List Event) (id : String) :
    (∃ e ∈ refreshAll clock i l, e.id = id) ↔ ∃ e ∈ l, e.id = id := by
  constructor
  · rintro ⟨e, he, rfl⟩
    obtain ⟨x, hx, j, rfl⟩ := refreshAll_mem_clock _ _ _ _ he
    exact ⟨x, hx, (refresh_id _ _ _).symm⟩
  · rintro ⟨e, he, rfl⟩
    obtain ⟨j, hj⟩ := mem_refreshAll_of_mem clock i l e he
    exact ⟨_, hj, refresh_id _ _ _⟩

/-- With at most one event of this id, cancelling changes exactly that one. -/
theorem updateFirst_unique (id : String) (l : List Event) (h : l.countP (fun e => decide (e.id = id)) ≤ 1) (b : Event)
    (hb : b ∈ updateFirst (hasId id) cancelled l) (hid : b.id = id) : ∃ a ∈ l, a.id = id ∧ b = cancelled a := by
  induction l with
  | nil => simp [updateFirst] at hb
  | cons x l ih =>
    simp only [updateFirst] at hb
    simp only [List.countP_cons] at h
    by_cases hx : x.id = id
    · have hx' : hasId id x = true := by simp [hasId, hx]
      rw [hx', if_pos rfl] at hb
      simp only [List.mem_cons] at hb
      rcases hb with rfl | hb
      · exact ⟨x, by simp, hx, rfl⟩
      · simp only [hx, decide_true, if_true] at h
        have h0 : l.countP (fun e => decide (e.id = id)) = 0 := by omega
        rw [List.countP_eq_zero] at h0
        exact absurd hid (by simpa using h0 b hb)
    · have hx' : hasId id x = false := by simp [hasId, hx]
      rw [hx'] at hb
      simp only [Bool.false_eq_true, if_false, List.mem_cons] at hb
      rcases hb with rfl | hb
      · exact absurd hid hx
      · simp only [hx, decide_false, Bool.false_eq_true, if_false] at h
        obtain ⟨a, ha, h1, h2⟩ := ih h hb
        exact ⟨a, by simp [ha], h1, h2⟩

theorem updateFirst_countP (id id' : String) (l : List Event) :
    (updateFirst (hasId id') cancelled l).countP (fun e => decide (e.id = id)) = l.countP (fun e => decide (e.id = id)) := by
  induction l with
  | nil => rfl
  | cons x l ih =>
    simp only [updateFirst]
    have hc : (cancelled x).id = x.id := rfl
    split
    · simp only [List.countP_cons, hc]
    · simp only [List.countP_cons, ih]

theorem step_countP (env : Env) (s : Server) (op : Op) (ven id : String) (hno : ¬ Adds op ven id) :
    ((step env s op).1.queue ven).countP (fun e => decide (e.id = id)) ≤ (s.queue ven).countP (fun e => decide (e.id = id)) := by
  rcases step_queue env s op ven with h | ⟨e, h, ha, _⟩ | ⟨i, _, _, h⟩ | ⟨clock, _, h⟩ | ⟨rs, _, h⟩
  · rw [h]; exact Nat.le_refl _
  · rw [h, List.countP_append]
    have : e.id ≠ id := fun hid => hno (hid ▸ ha)
    simp [this]
  · rw [h, updateFirst_countP]; exact Nat.le_refl _
  · rw [h]
    calc _ ≤ (refreshAll clock 0 (s.queue ven)).countP (fun e => decide (e.id = id)) :=
          List.Sublist.countP_le List.filter_sublist
      _ = _ := refreshAll_countP_id _ _ _ _
      _ ≤ _ := Nat.le_refl _
  · exact h.countP_le

/-- One operation and the events of an id that occurs at most once. -/
theorem step_unique (env : Env) (s : Server) (op : Op) (ven id : String)
    (hone : (s.queue ven).countP (fun e => decide (e.id = id)) ≤ 1) (hno : ¬ Adds op ven id)
    (e' : Event) (he' : e' ∈ (step env s op).1.queue ven) (hid : e'.id = id) :
    ∃ e ∈ s.queue ven, e.id = id ∧ Evolves e e' ∧
      e'.modnum = e.modnum + (if cancels ven id op then 1 else 0) ∧
      (e'.descriptor.created = e.descriptor.created ∨ ∃ clock i, Asks op ven clock ∧ e'.descriptor.created = some (clock i)) := by
  have hc : ∀ {op : Op}, (∀ i, op ≠ .cancel ven i) → cancels ven id op = false := by
    intro op h
    cases op with
    | cancel v i =>
      simp only [cancels, Bool.and_eq_false_iff]
      left
      have := h i
      simp only [ne_eq, Op.cancel.injEq, and_true] at this
      simpa using this
    | _ => rfl
  by_cases hcan : ∃ i, op = .cancel ven i
  · obtain ⟨i, rfl⟩ := hcan
    rcases cancelEvent_cases s ven i with ⟨hs, hn⟩ | ⟨_, hs⟩
    · have hs' : (step env s (.cancel ven i)).1 = s := hs
      rw [hs'] at he'
      have : i ≠ id := fun h => hn e' he' (by rw [hid, h])
      exact ⟨e', he', hid, evolves_refl _, by simp [cancels, this], .inl rfl⟩
    · have hs' : (step env s (.cancel ven i)).1.queue ven = updateFirst (hasId i) cancelled (s.queue ven) := by
        show (cancelEvent s ven i).queue ven = _
        rw [hs]; simp [Server.queue, Dict.get?_set_self]
      rw [hs'] at he'
      by_cases hi : i = id
      · subst hi
        obtain ⟨a, ha, h1, h2⟩ := updateFirst_unique i _ hone e' he' hid
        exact ⟨a, ha, h1, h2 ▸ evolves_cancelled a, by rw [h2]; simp [cancels, cancelled], .inl (by rw [h2]; rfl)⟩
      · rcases updateFirst_mem_rev _ _ _ _ he' with hm | ⟨a, ha, hp, hb⟩
        · exact ⟨e', hm, hid, evolves_refl _, by simp [cancels, hi], .inl rfl⟩
        · have h1 : a.id = i := by simpa [hasId] using hp
          rw [hb] at hid
          exact absurd (h1.symm.trans hid) hi
  · have hc0 : cancels ven id op = false := hc (fun i h => hcan ⟨i, h⟩)
    rcases step_queue env s op ven with h | ⟨e, h, ha, _⟩ | ⟨i, ho, _, h⟩ | ⟨clock, ho, h⟩ | ⟨rs, _, h⟩
    · rw [h] at he'; exact ⟨e', he', hid, evolves_refl _, by simp [hc0], .inl rfl⟩
    · rw [h] at he'
      simp only [List.mem_append, List.mem_singleton] at he'
      rcases he' with he' | rfl
      · exact ⟨e', he', hid, evolves_refl _, by simp [hc0], .inl rfl⟩
      · exact absurd (hid ▸ ha) hno
    · exact absurd ⟨i, ho⟩ hcan
    · rw [h] at he'
      obtain ⟨x, hx, j, rfl⟩ := refreshAll_mem_clock _ _ _ _ (List.mem_filter.mp he').1
      refine ⟨x, hx, (refresh_id _ _ _).symm.trans hid, evolves_refresh _ _ _, by simp [hc0, refresh_modnum], ?_⟩
      rcases refresh_created (clock j) (clock (j + 1)) x with h | h
      · exact .inl h
      · exact .inr ⟨clock, j + 1, ho, h⟩
    · exact ⟨e', h.subset he', hid, evolves_refl _, by simp [hc0], .inl rfl⟩

theorem determine_ended (e : Event) (t : Int) : determineStatus t e.activePeriod = .completed ↔ Ended e t := by
  simp only [determineStatus, Ended, StatusAt]
  split
  · rename_i h; simp; omega
  · rename_i h
    have : ¬ (0 < e.activePeriod.duration ∧ e.activePeriod.dtstart + e.activePeriod.duration ≤ t) := by omega
    split
    · simp only [reduceCtorEq, false_and, or_false, false_iff, true_and]
      exact this
    · cases hr : e.activePeriod.rampUp with
      | none => simp only [reduceCtorEq, false_and, or_false, false_iff, true_and]; exact this
      | some r =>
        simp only
        split <;>
        · simp only [reduceCtorEq, false_and, or_false, false_iff, true_and]; exact this

theorem refresh_ended (t t' : Int) (e : Event) (h : Ended e t) (hc : e.status ≠ .cancelled) : (refresh t t' e).status = .completed := by
  have hd := (determine_ended e t).mpr h
  simp only [refresh]
  rw [if_pos hc]
  by_cases hs : e.status = determineStatus t e.activePeriod
  · simp only [hs, ne_eq, not_true, if_false]
    exact hd
  · rw [if_pos hs]; exact hd

theorem handedOut_mem_of_two (l : List Event) (h : l.length ≠ 1) (e : Event) : e ∈ handedOut l ↔ e ∈ l := by
  simp only [handedOut, h, if_false]
  exact (arrange_perm l).mem_iff

theorem handedOut_sub (l : List Event) (e : Event) (h : e ∈ handedOut l) : e ∈ l := by
  simp only [handedOut] at h
  split at h
  · exact (List.mem_filter.mp h).1
  · exact (arrange_perm l).mem_iff.mp h

theorem handedOut_nc (l : List Event) (e : Event) (h : e ∈ l) (hn : nc e = true) : e ∈ handedOut l := by
  simp only [handedOut]
  split
  · exact List.mem_filter.mpr ⟨h, hn⟩
  · exact (arrange_perm l).mem_iff.mpr h

theorem step_flag_kept (env : Env) (s : Server) (op : Op) (ven : String) (h : polls ven op = false) (hf : s.flag ven = true) :
    (step env s op).1.flag ven = true := by
  by_cases hv : ven = op.ven
  · cases op with
    | add a =>
      simp only [step]
      rcases addEvent_cases s a with hs | ⟨_, p, _, hs⟩
      · rw [hs]; exact hf
      · rw [hs]
        rcases addRawEvent_spec s a.ven (makeEvent a p) a.callback a.delivery with ⟨_, _, h | h, _⟩ | ⟨_, _, _, _, h⟩ <;> rw [h]
        · exact hf
        · exact hf
        · simp only [Op.ven] at hv; subst hv; simp [Server.flag, Dict.get?_set_self]
    | addRaw v e c d =>
      simp only [step]
      rcases addRawEvent_spec s v e c d with ⟨_, _, h | h, _⟩ | ⟨_, _, _, _, h⟩ <;> rw [h]
      · exact hf
      · exact hf
      · simp only [Op.ven] at hv; subst hv; simp [Server.flag, Dict.get?_set_self]
    | cancel v id =>
      simp only [step]
      rcases cancelEvent_cases s v id with ⟨h, _⟩ | ⟨_, h⟩ <;> rw [h]
      · exact hf
      · simp only [Op.ven] at hv; subst hv; simp [Server.flag, Dict.get?_set_self]
    | request v clock =>
      simp only [step]
      cases he : s.external with
      | true => rw [requestEvent_state_external env clock s v he]; exact hf
      | false => rw [requestEvent_state env clock s v he]; simp only [Server.flag, (takeEvents_frame clock s v).2.1]; exact hf
    | poll v clock => simp only [Op.ven] at hv; subst hv; simp [polls] at h
    | respond v rs =>
      simp only [step, createdEvent_state]
      split
      · exact hf
      · simp only [Server.flag, (respondAll_frame env s v rs).1]; exact hf
  · simp only [Server.flag, (step_frame env s op ven hv).2.1]; exact hf

theorem step_flag_unset (env : Env) (s : Server) (op : Op) (ven : String) (h : changes ven op = false) (hf : s.flag ven = false) :
    (step env s op).1.flag ven = false := by
  by_cases hv : ven = op.ven
  · cases op with
    | add a => simp only [Op.ven] at hv; subst hv; simp [changes] at h
    | addRaw v e c d => simp only [Op.ven] at hv; subst hv; simp [changes] at h
    | cancel v id => simp only [Op.ven] at hv; subst hv; simp [changes] at h
    | request v clock =>
      simp only [step]
      cases he : s.external with
      | true => rw [requestEvent_state_external env clock s v he]; exact hf
      | false => rw [requestEvent_state env clock s v he]; simp only [Server.flag, (takeEvents_frame clock s v).2.1]; exact hf
    | poll v clock =>
      simp only [Op.ven] at hv; subst hv
      simp only [step]
      rcases poll_state env clock s ven with hs | ⟨_, hx, _⟩ | ⟨_, hx, _⟩
      · rw [hs]; exact hf
      · rw [hf] at hx; cases hx
      · rw [hf] at hx; cases hx
    | respond v rs =>
      simp only [step, createdEvent_state]
      split
      · exact hf
      · simp only [Server.flag, (respondAll_frame env s v rs).1]; exact hf
  · simp only [Server.flag, (step_frame env s op ven hv).2.1]; exact hf

end Openleadr
