import Verif.Props.ServerHistory
/-!
C33 response callbacks, C34 responses to known events, C35 delivery callbacks, C70 external polling.
-/
namespace Openleadr
open Spec

/-! ### helpers -/

/-- How often a response callback (a function) was called. -/
def calls (c : Nat) : Effect → Bool
  | .responded c' _ _ _ => c' == c
  | _ => false
/-- How often a future was completed. -/
def completes (f : Nat) : Effect → Bool
  | .resolved f' _ => f' == f
  | _ => false
/-- The registered callbacks that are this function. -/
def isFunc (c : Nat) : String × Callback → Bool
  | (_, .func c' _) => c' == c
  | _ => false
/-- The operation registers this function as a response callback (if accepted). -/
def gives (c : Nat) : Op → Bool
  | .add a => match a.callback with | some (.func c' _) => c' == c | _ => false
  | .addRaw _ _ (some (.func c' _)) _ => c' == c
  | _ => false

theorem erase_countP (d : List (String × Callback)) (k : String) (v : Callback) (h : Dict.get? d k = some v) (p : String × Callback → Bool) :
    (Dict.erase d k).countP p + (if p (k, v) then 1 else 0) = d.countP p := by
  induction d with
  | nil => simp [Dict.get?] at h
  | cons x d ih =>
    obtain ⟨k', v'⟩ := x
    simp only [Dict.get?] at h
    by_cases hk : k' = k
    · subst hk
      simp only [if_true, Option.some.injEq] at h
      subst h
      simp [Dict.erase, List.countP_cons]
    · simp only [hk, if_false] at h
      simp only [Dict.erase, hk, if_false, List.countP_cons]
      have := ih h
      omega

theorem set_countP_le (d : List (String × Callback)) (k : String) (v : Callback) (p : String × Callback → Bool) :
    (Dict.set d k v).countP p ≤ d.countP p + (if p (k, v) then 1 else 0) := by
  induction d with
  | nil => simp only [Dict.set, List.countP_cons, List.countP_nil]; omega
  | cons x d ih =>
    obtain ⟨k', v'⟩ := x
    by_cases hk : k' = k
    · simp only [Dict.set, hk, if_true, List.countP_cons]
      split <;> split <;> omega
    · simp only [Dict.set, hk, if_false, List.countP_cons]; omega

/-- The invariant for one response: calls made plus callbacks registered. -/
theorem fireCallback_count (env : Env) (s : Server) (ven : String) (r : EventResponse) (c : Nat) :
    (fireCallback env s ven r).2.1.countP (calls c) + (fireCallback env s ven r).1.callbacks.countP (isFunc c) ≤
      s.callbacks.countP (isFunc c) := by
  simp only [fireCallback]
  split
  · simp
  · rename_i f hf
    have := erase_countP s.callbacks r.eventId _ hf (isFunc c)
    simp only [isFunc] at this
    split <;> simp [calls] <;> omega
  · rename_i c' b hf
    have := erase_countP s.callbacks r.eventId _ hf (isFunc c)
    have hcalls : calls c (.responded c' ven r.eventId r.optType) = isFunc c (r.eventId, .func c' b) := rfl
    simp only [List.countP_cons, List.countP_nil, hcalls]
    omega

theorem respondOne_count (env : Env) (s : Server) (ven : String) (r : EventResponse) (c : Nat) :
    (respondOne env s ven r).2.1.countP (calls c) + (respondOne env s ven r).1.callbacks.countP (isFunc c) ≤
      s.callbacks.countP (isFunc c) := by
  simp only [respondOne]
  split
  · simp
  · split
    · split <;> simp
    · split
      · exact fireCallback_count env _ ven r c
      · exact fireCallback_count env _ ven r c

theorem respondAll_count (env : Env) (s : Server) (ven : String) (rs : List EventResponse) (c : Nat) :
    (respondAll env s ven rs).2.1.countP (calls c) + (respondAll env s ven rs).1.callbacks.countP (isFunc c) ≤
      s.callbacks.countP (isFunc c) := by
  induction rs generalizing s with
  | nil => simp [respondAll]
  | cons r rs ih =>
    have h1 := respondOne_count env s ven r c
    simp only [respondAll]
    cases hx : respondOne env s ven r with
    | mk s' y =>
      obtain ⟨effs, o⟩ := y
      rw [hx] at h1
      cases o with
      | some err => exact h1
      | none =>
        have h2 := ih s'
        simp only at h1 ⊢
        rw [List.countP_append]
        omega

theorem deliverAll_calls (env : Env) (d : List (String × Nat)) (l : List Event) (e : Effect) (h : e ∈ (deliverAll env d l).1) :
    ∃ cb, e = .delivered cb := by
  induction l with
  | nil => simp [deliverAll] at h
  | cons x l ih =>
    simp only [deliverAll] at h
    split at h
    · exact ih h
    · rename_i cb _
      split at h
      · simp only [List.mem_singleton] at h; exact ⟨cb, h⟩
      · simp only [List.mem_cons] at h
        rcases h with h | h
        · exact ⟨cb, h⟩
        · exact ih h

theorem requestEvent_effects (env : Env) (clock : Nat → Int) (s : Server) (ven : String) :
    ∀ e ∈ (requestEvent env clock s ven).2.1, ∃ cb, e = .delivered cb := by
  intro e he
  simp only [requestEvent] at he
  split at he
  · simp at he
  · rename_i l _
    split at he
    · rename_i effs err h
      exact deliverAll_calls env _ l e (by rw [h]; exact he)
    · rename_i effs h
      exact deliverAll_calls env _ l e (by rw [h]; exact he)

theorem poll_effects (env : Env) (clock : Nat → Int) (s : Server) (ven : String) :
    ∀ e ∈ (poll env clock s ven).2.1, (∃ cb, e = .delivered cb) ∨ e = .onPoll ven := by
  intro e he
  simp only [poll] at he
  split at he
  · split at he <;> exact .inr (by simpa using he)
  · split at he
    · have := requestEvent_effects env clock s ven
      cases hx : requestEvent env clock s ven with
      | mk s' y =>
        obtain ⟨effs, o⟩ := y
        rw [hx] at this he
        cases o with
        | error err => exact .inl (this e he)
        | ok r => exact .inl (this e he)
    · simp at he

theorem respondExternal_effects (env : Env) (ven : String) (rs : List EventResponse) :
    ∀ e ∈ (respondExternal env ven rs).1, ∃ r ∈ rs, e = .onCreatedEvent ven r.eventId r.optType := by
  induction rs with
  | nil => simp [respondExternal]
  | cons r rs ih =>
    intro e he
    simp only [respondExternal] at he
    split at he
    · simp only [List.mem_singleton] at he; exact ⟨r, by simp, he⟩
    · simp only [List.mem_cons] at he
      rcases he with he | he
      · exact ⟨r, by simp, he⟩
      · obtain ⟨r', h1, h2⟩ := ih e he; exact ⟨r', by simp [h1], h2⟩

theorem createdEvent_effects (env : Env) (s : Server) (ven : String) (rs : List EventResponse) :
    (createdEvent env s ven rs).2.1 = if s.external then (respondExternal env ven rs).1 else (respondAll env s ven rs).2.1 := by
  simp only [createdEvent]
  cases s.external with
  | true => simp only [if_true]; split <;> simp_all
  | false =>
    simp only [Bool.false_eq_true, if_false]
    cases respondAll env s ven rs with
    | mk s' y => obtain ⟨effs, o⟩ := y; cases o <;> rfl

theorem countP_zero_of {p : Effect → Bool} {l : List Effect} (h : ∀ e ∈ l, p e = false) : l.countP p = 0 := by
  rw [List.countP_eq_zero]; intro e he; simp [h e he]

/-- Calls made plus callbacks registered grow only by what the operation registers. -/
theorem step_count (env : Env) (s : Server) (op : Op) (c : Nat) :
    (step env s op).2.1.countP (calls c) + (step env s op).1.callbacks.countP (isFunc c) ≤
      s.callbacks.countP (isFunc c) + (if gives c op then 1 else 0) := by
  have raw : ∀ v e cb d, (addRawEvent s v e cb d).1.callbacks.countP (isFunc c) ≤
      s.callbacks.countP (isFunc c) + (match cb with | some (.func c' _) => if c' == c then 1 else 0 | _ => 0) := by
    intro v e cb d
    rcases addRawEvent_spec s v e cb d with ⟨_, _, h | h, _⟩ | ⟨_, _, _, _, h⟩ <;> rw [h]
    · omega
    · simp
    · simp only [setOpt]
      cases cb with
      | none => simp
      | some cb =>
        have := set_countP_le s.callbacks e.id cb (isFunc c)
        cases cb with
        | future f => simpa [isFunc] using this
        | func c' b => simpa [isFunc] using this
  cases op with
  | add a =>
    simp only [step, List.countP_nil, Nat.zero_add]
    rcases addEvent_cases s a with hs | ⟨_, p, _, hs⟩
    · rw [hs]; omega
    · rw [hs]
      have := raw a.ven (makeEvent a p) a.callback a.delivery
      cases hcb : a.callback with
      | none => rw [hcb] at this; simp only [gives, hcb]; simp at this ⊢; exact this
      | some cb =>
        rw [hcb] at this
        cases cb with
        | future f => simp only [gives, hcb]; simp at this ⊢; exact this
        | func c' b => simp only [gives, hcb]; exact this
  | addRaw v e cb d =>
    simp only [step, List.countP_nil, Nat.zero_add]
    have := raw v e cb d
    cases cb with
    | none => simp only [gives]; simp at this ⊢; exact this
    | some cb =>
      cases cb with
      | future f => simp only [gives]; simp at this ⊢; exact this
      | func c' b => simp only [gives]; exact this
  | cancel v id =>
    simp only [step, List.countP_nil, Nat.zero_add]
    rcases cancelEvent_cases s v id with ⟨h, _⟩ | ⟨_, h⟩ <;> rw [h] <;> simp
  | request v clock =>
    simp only [step]
    have h0 : (requestEvent env clock s v).2.1.countP (calls c) = 0 :=
      countP_zero_of (by intro e he; obtain ⟨cb, rfl⟩ := requestEvent_effects env clock s v e he; rfl)
    have h1 : (requestEvent env clock s v).1.callbacks = s.callbacks := by
      cases hx : s.external with
      | true => rw [requestEvent_state_external env clock s v hx]
      | false => rw [requestEvent_state env clock s v hx, (takeEvents_frame clock s v).2.2.1]
    rw [h0, h1]; omega
  | poll v clock =>
    simp only [step]
    have h0 : (poll env clock s v).2.1.countP (calls c) = 0 :=
      countP_zero_of (by intro e he; rcases poll_effects env clock s v e he with ⟨cb, rfl⟩ | rfl <;> rfl)
    have h1 : (poll env clock s v).1.callbacks = s.callbacks := by
      rcases poll_state env clock s v with h | ⟨_, _, h⟩ | ⟨_, _, h⟩ <;> rw [h]
      · exact (takeEvents_frame clock s v).2.2.1
      · exact (takeEvents_frame clock s v).2.2.1
    rw [h0, h1]; omega
  | respond v rs =>
    simp only [step, createdEvent_effects, createdEvent_state]
    cases hx : s.external with
    | true =>
      simp only [if_true]
      rw [countP_zero_of (p := calls c)
        (by intro e he; obtain ⟨r, _, rfl⟩ := respondExternal_effects env v rs e he; rfl)]
      omega
    | false =>
      simp only [Bool.false_eq_true, if_false]
      have := respondAll_count env s v rs c
      omega

/-! ### C33 -/

/-- **C33**: in every history of a new server a callback function is called at most as often as it was registered; so a callback that was
    given with one event is called at most once. -/
theorem c33_called_at_most_once (env : Env) (ops : List Op) (c : Nat) :
    (runOps env Server.init ops).2.1.countP (calls c) ≤ ops.countP (gives c) := by
  have main : ∀ (ops : List Op) (s : Server),
      (runOps env s ops).2.1.countP (calls c) ≤ s.callbacks.countP (isFunc c) + ops.countP (gives c) := by
    intro ops
    induction ops with
    | nil => intro s; simp [runOps]
    | cons op ops ih =>
      intro s
      have h1 := step_count env s op c
      have h2 := ih (step env s op).1
      simp only [runOps, List.countP_append, List.countP_cons]
      omega
  have := main ops Server.init
  simpa [Server.init] using this

/-- 1 when the future is done. -/
def wasDone (s : Server) (f : Nat) : Nat := if f ∈ s.doneFutures then 1 else 0

theorem wasDone_eq {s s' : Server} (f : Nat) (h : s'.doneFutures = s.doneFutures) : wasDone s' f = wasDone s f := by
  simp only [wasDone, h]

theorem fireCallback_done (env : Env) (s : Server) (ven : String) (r : EventResponse) (f : Nat) :
    (fireCallback env s ven r).2.1.countP (completes f) + wasDone s f ≤
      wasDone ((fireCallback env s ven r).1) f := by
  simp only [fireCallback, wasDone]
  split
  · simp
  · rename_i g hf
    split
    · simp
    · rename_i hg
      simp only [List.contains_eq_mem, decide_eq_true_eq] at hg
      simp only [List.countP_cons, List.countP_nil, completes, beq_iff_eq, List.mem_append, List.mem_singleton]
      by_cases h : g = f
      · subst h; simp [hg]
      · have : f ≠ g := fun e => h e.symm
        simp [h, this]
  · simp [completes]

theorem respondAll_done (env : Env) (s : Server) (ven : String) (rs : List EventResponse) (f : Nat) :
    (respondAll env s ven rs).2.1.countP (completes f) + wasDone s f ≤
      wasDone ((respondAll env s ven rs).1) f := by
  have one : ∀ (s : Server) (r : EventResponse),
      (respondOne env s ven r).2.1.countP (completes f) + wasDone s f ≤
        wasDone ((respondOne env s ven r).1) f := by
    intro s r
    simp only [respondOne]
    split
    · simp
    · split
      · split <;> simp
      · split
        · exact fireCallback_done env _ ven r f
        · exact fireCallback_done env _ ven r f
  induction rs generalizing s with
  | nil => simp [respondAll]
  | cons r rs ih =>
    have h1 := one s r
    simp only [respondAll]
    cases hx : respondOne env s ven r with
    | mk s' y =>
      obtain ⟨effs, o⟩ := y
      rw [hx] at h1
      cases o with
      | some err => exact h1
      | none =>
        have h2 := ih s'
        simp only at h1 ⊢
        rw [List.countP_append]
        omega

/-- **C33**: a future given as callback is completed at most once, in every history from every state. -/
theorem c33_future_completed_at_most_once (env : Env) (s : Server) (ops : List Op) (f : Nat) :
    (runOps env s ops).2.1.countP (completes f) ≤ 1 := by
  have stp : ∀ (s : Server) (op : Op), (step env s op).2.1.countP (completes f) + wasDone s f ≤
      wasDone ((step env s op).1) f := by
    intro s op
    have raw : ∀ v e cb d, (addRawEvent s v e cb d).1.doneFutures = s.doneFutures := by
      intro v e cb d
      exact (addRawEvent_frame s v e cb d).2.2.1
    cases op with
    | add a =>
      simp only [step, List.countP_nil, Nat.zero_add]
      rcases addEvent_cases s a with hs | ⟨_, p, _, hs⟩
      · rw [hs]; exact Nat.le_refl _
      · rw [hs, wasDone_eq f (raw _ _ _ _)]; exact Nat.le_refl _
    | addRaw v e cb d => simp only [step, List.countP_nil, Nat.zero_add]; rw [wasDone_eq f (raw _ _ _ _)]; exact Nat.le_refl _
    | cancel v id =>
      simp only [step, List.countP_nil, Nat.zero_add]
      rcases cancelEvent_cases s v id with ⟨h, _⟩ | ⟨_, h⟩ <;> rw [h] <;> exact Nat.le_refl _
    | request v clock =>
      simp only [step]
      rw [countP_zero_of (p := completes f) (by intro e he; obtain ⟨cb, rfl⟩ := requestEvent_effects env clock s v e he; rfl)]
      have h1 : (requestEvent env clock s v).1.doneFutures = s.doneFutures := by
        cases hx : s.external with
        | true => rw [requestEvent_state_external env clock s v hx]
        | false => rw [requestEvent_state env clock s v hx, (takeEvents_frame clock s v).2.2.2.2.1]
      rw [wasDone_eq f h1]; omega
    | poll v clock =>
      simp only [step]
      rw [countP_zero_of (p := completes f)
        (by intro e he; rcases poll_effects env clock s v e he with ⟨cb, rfl⟩ | rfl <;> rfl)]
      have h1 : (poll env clock s v).1.doneFutures = s.doneFutures := by
        rcases poll_state env clock s v with h | ⟨_, _, h⟩ | ⟨_, _, h⟩ <;> rw [h]
        · exact (takeEvents_frame clock s v).2.2.2.2.1
        · exact (takeEvents_frame clock s v).2.2.2.2.1
      rw [wasDone_eq f h1]; omega
    | respond v rs =>
      simp only [step, createdEvent_effects, createdEvent_state]
      cases hx : s.external with
      | true =>
        simp only [if_true]
        rw [countP_zero_of (p := completes f)
          (by intro e he; obtain ⟨r, _, rfl⟩ := respondExternal_effects env v rs e he; rfl)]
        omega
      | false =>
        simp only [Bool.false_eq_true, if_false]
        exact respondAll_done env s v rs f
  have main : ∀ (ops : List Op) (s : Server), (runOps env s ops).2.1.countP (completes f) + wasDone s f ≤ 1 := by
    intro ops
    induction ops with
    | nil => intro s; simp only [runOps, List.countP_nil, Nat.zero_add, wasDone]; split <;> omega
    | cons op ops ih =>
      intro s
      have h1 := stp s op
      have h2 := ih (step env s op).1
      simp only [runOps, List.countP_append]
      omega
  have := main ops s
  omega

/-- The operation registers this callback for this VEN and event id (if accepted). -/
def Registers (op : Op) (ven id : String) (cb : Callback) : Prop :=
  (∃ a, op = .add a ∧ a.ven = ven ∧ a.eventId = id ∧ a.callback = some cb) ∨
  (∃ e d, op = .addRaw ven e (some cb) d ∧ e.id = id)

theorem step_callbacks (env : Env) (s : Server) (op : Op) (id : String) (cb : Callback)
    (h : (id, cb) ∈ (step env s op).1.callbacks) : (id, cb) ∈ s.callbacks ∨ ∃ v, Registers op v id cb := by
  have hset : ∀ (d : List (String × Callback)) k v, (id, cb) ∈ Dict.set d k v → (id, cb) ∈ d ∨ (id, cb) = (k, v) := by
    intro d k v
    induction d with
    | nil => simp [Dict.set]
    | cons x d ih =>
      obtain ⟨k', v'⟩ := x
      by_cases hk : k' = k
      · simp only [Dict.set, hk, if_true, List.mem_cons]
        rintro (h | h)
        · exact .inr h
        · exact .inl (.inr h)
      · simp only [Dict.set, hk, if_false, List.mem_cons]
        rintro (h | h)
        · exact .inl (.inl h)
        · rcases ih h with h | h
          · exact .inl (.inr h)
          · exact .inr h
  have raw : ∀ v e c d, (id, cb) ∈ (addRawEvent s v e c d).1.callbacks → (id, cb) ∈ s.callbacks ∨ (e.id = id ∧ c = some cb) := by
    intro v e c d h
    rcases addRawEvent_spec s v e c d with ⟨_, _, h' | h', _⟩ | ⟨_, _, _, _, h'⟩ <;> rw [h'] at h
    · exact .inl h
    · exact .inl h
    · simp only [setOpt] at h
      cases c with
      | none => exact .inl h
      | some c =>
        rcases hset _ _ _ h with h | h
        · exact .inl h
        · simp only [Prod.mk.injEq] at h
          exact .inr ⟨h.1.symm, by rw [h.2]⟩
  have herase : ∀ (d : List (String × Callback)) k x, x ∈ Dict.erase d k → x ∈ d := by
    intro d k x
    induction d with
    | nil => simp [Dict.erase]
    | cons y d ih =>
      obtain ⟨k', v'⟩ := y
      simp only [Dict.erase]
      split
      · intro h; exact List.mem_cons_of_mem _ h
      · simp only [List.mem_cons]; rintro (h | h)
        · exact .inl h
        · exact .inr (ih h)
  have fire : ∀ s v r x, x ∈ (fireCallback env s v r).1.callbacks → x ∈ s.callbacks := by
    intro s v r x
    simp only [fireCallback]
    split
    · exact fun h => h
    · split <;> exact herase _ _ _
    · exact herase _ _ _
  have one : ∀ s v r x, x ∈ (respondOne env s v r).1.callbacks → x ∈ s.callbacks := by
    intro s v r x
    simp only [respondOne]
    split
    · exact fun h => h
    · split
      · split <;> exact fun h => h
      · split
        · exact fire _ _ _ _
        · exact fire _ _ _ _
  have all : ∀ rs s v x, x ∈ (respondAll env s v rs).1.callbacks → x ∈ s.callbacks := by
    intro rs
    induction rs with
    | nil => intro s v x h; exact h
    | cons r rs ih =>
      intro s v x h
      simp only [respondAll] at h
      have h1 := one s v r x
      cases hx : respondOne env s v r with
      | mk s' y =>
        obtain ⟨effs, o⟩ := y
        rw [hx] at h1 h
        cases o with
        | some err => exact h1 h
        | none => exact h1 (ih s' v x h)
  cases op with
  | add a =>
    simp only [step] at h
    rcases addEvent_cases s a with hs | ⟨_, p, _, hs⟩
    · rw [hs] at h; exact .inl h
    · rw [hs] at h
      rcases raw _ _ _ _ h with h | ⟨h1, h2⟩
      · exact .inl h
      · exact .inr ⟨a.ven, .inl ⟨a, rfl, rfl, h1, h2⟩⟩
  | addRaw v e c d =>
    rcases raw v e c d h with h | ⟨h1, h2⟩
    · exact .inl h
    · subst h2; exact .inr ⟨v, .inr ⟨e, d, rfl, h1⟩⟩
  | cancel v i =>
    simp only [step] at h
    rcases cancelEvent_cases s v i with ⟨h', _⟩ | ⟨_, h'⟩ <;> rw [h'] at h <;> exact .inl h
  | request v clock =>
    simp only [step] at h
    cases hx : s.external with
    | true => rw [requestEvent_state_external env clock s v hx] at h; exact .inl h
    | false => rw [requestEvent_state env clock s v hx, (takeEvents_frame clock s v).2.2.1] at h; exact .inl h
  | poll v clock =>
    simp only [step] at h
    rcases poll_state env clock s v with h' | ⟨_, _, h'⟩ | ⟨_, _, h'⟩ <;> rw [h'] at h
    · exact .inl h
    · rw [(takeEvents_frame clock s v).2.2.1] at h; exact .inl h
    · simp only [(takeEvents_frame clock s v).2.2.1] at h; exact .inl h
  | respond v rs =>
    simp only [step, createdEvent_state] at h
    split at h
    · exact .inl h
    · exact .inl (all rs s v _ h)

/-- Where a call of a response callback comes from: a response in the message, an event of that id in the queue, and a registered callback. -/
theorem respondAll_calls (env : Env) (s : Server) (ven : String) (rs : List EventResponse) (c : Nat) (v i o : String)
    (h : Effect.responded c v i o ∈ (respondAll env s ven rs).2.1) :
    v = ven ∧ (∃ r ∈ rs, r.eventId = i ∧ r.optType = o) ∧ (∃ e ∈ s.queue ven, e.id = i) ∧ ∃ b, (i, Callback.func c b) ∈ s.callbacks := by
  have fire : ∀ (t : Server) r, Effect.responded c v i o ∈ (fireCallback env t ven r).2.1 →
      v = ven ∧ r.eventId = i ∧ r.optType = o ∧ ∃ b, (i, Callback.func c b) ∈ t.callbacks := by
    intro t r h
    simp only [fireCallback] at h
    split at h
    · simp at h
    · split at h <;> simp at h
    · rename_i c' b hg
      simp only [List.mem_singleton, Effect.responded.injEq] at h
      obtain ⟨rfl, rfl, rfl, rfl⟩ := h
      exact ⟨rfl, rfl, rfl, b, Dict.mem_of_get? _ _ _ hg⟩
  have one : ∀ (t : Server) r, Effect.responded c v i o ∈ (respondOne env t ven r).2.1 →
      v = ven ∧ r.eventId = i ∧ r.optType = o ∧ (∃ e ∈ t.queue ven, e.id = i) ∧ ∃ b, (i, Callback.func c b) ∈ t.callbacks := by
    intro t r h
    simp only [respondOne] at h
    cases hg : Dict.get? t.events ven with
    | none => rw [hg] at h; simp at h
    | some q =>
      rw [hg] at h
      simp only at h
      have hq : t.queue ven = q := by simp [Server.queue, hg]
      cases hf : q.find? (hasIdAndNumber r) with
      | none => rw [hf] at h; simp only at h; split at h <;> simp at h
      | some e =>
        rw [hf] at h
        have hm := List.mem_of_find?_eq_some hf
        have hid : e.id = r.eventId := by
          have := List.find?_some hf
          simp only [hasIdAndNumber, Bool.and_eq_true, beq_iff_eq] at this
          exact this.1
        simp only at h
        have h' : v = ven ∧ r.eventId = i ∧ r.optType = o ∧ ∃ b, (i, Callback.func c b) ∈ t.callbacks := by
          split at h
          · exact fire { t with events := Dict.set t.events ven (eraseFirst (hasId r.eventId) q) } r h
          · exact fire _ r h
        obtain ⟨h1, h2, h3, h4⟩ := h'
        exact ⟨h1, h2, h3, ⟨e, by rw [hq]; exact hm, by rw [hid, h2]⟩, h4⟩
  induction rs generalizing s with
  | nil => simp [respondAll] at h
  | cons r rs ih =>
    simp only [respondAll] at h
    have hone := one s r
    have hsub := fun e he => respondOne_sub env s ven ven r e he
    cases hx : respondOne env s ven r with
    | mk s' y =>
      obtain ⟨effs, oo⟩ := y
      rw [hx] at hone h hsub
      have hcb : ∀ x, x ∈ s'.callbacks → x ∈ s.callbacks := by
        intro x hxm
        have hsteps : x ∈ (respondOne env s ven r).1.callbacks := by rw [hx]; exact hxm
        clear ih h hone hsub
        simp only [respondOne] at hsteps
        have herase : ∀ (d : List (String × Callback)) k, x ∈ Dict.erase d k → x ∈ d := by
          intro d k
          induction d with
          | nil => simp [Dict.erase]
          | cons y d ih =>
            obtain ⟨k', v'⟩ := y
            simp only [Dict.erase]
            split
            · intro h; exact List.mem_cons_of_mem _ h
            · simp only [List.mem_cons]; rintro (h | h)
              · exact .inl h
              · exact .inr (ih h)
        have fire' : ∀ t : Server, x ∈ (fireCallback env t ven r).1.callbacks → x ∈ t.callbacks := by
          intro t
          simp only [fireCallback]
          split
          · exact id
          · split <;> exact herase _ _
          · exact herase _ _
        split at hsteps
        · exact hsteps
        · split at hsteps
          · split at hsteps <;> exact hsteps
          · split at hsteps
            · rename_i q _ _ _ _ _
              exact fire' { s with events := Dict.set s.events ven (eraseFirst (hasId r.eventId) q) } hsteps
            · exact fire' _ hsteps
      cases oo with
      | some err =>
        obtain ⟨h1, h2, h3, h4, h5⟩ := hone h
        exact ⟨h1, ⟨r, by simp, h2, h3⟩, h4, h5⟩
      | none =>
        simp only [List.mem_append] at h
        rcases h with h | h
        · obtain ⟨h1, h2, h3, h4, h5⟩ := hone h
          exact ⟨h1, ⟨r, by simp, h2, h3⟩, h4, h5⟩
        · obtain ⟨h1, ⟨r', hr', h2⟩, ⟨e, he, hid⟩, b, hb⟩ := ih s' h
          exact ⟨h1, ⟨r', by simp [hr'], h2⟩, ⟨e, hsub e he, hid⟩, b, hcb _ hb⟩

/-- **C33** (partial: with callbacks of different VENs under one event id the callback can be called for the wrong VEN, see below): when a
    callback is called, a response message of that VEN carries that event id and that opt type, an event with this id was added for that
    VEN before, and the callback was given with an event of this id; if the id is used for only one VEN, then for that VEN. -/
theorem c33_right_arguments_partial (env : Env) (pre : List Op) (op : Op) (c : Nat) (ven id opt : String)
    (h : Effect.responded c ven id opt ∈ (step env (runOps env Server.init pre).1 op).2.1) :
    (∃ rs, op = .respond ven rs ∧ ∃ r ∈ rs, r.eventId = id ∧ r.optType = opt) ∧
    (∃ o ∈ pre, Adds o ven id) ∧
    (∃ o ∈ pre, ∃ v b, Registers o v id (.func c b)) ∧
    ((∀ o ∈ pre, ∀ v, Adds o v id → v = ven) → ∃ o ∈ pre, ∃ b, Registers o ven id (.func c b)) := by
  -- what is known about the state after `pre`
  have hist : ∀ (pre : List Op) (s : Server) (P : String → String → Prop) (Q : String → Callback → Prop),
      (∀ v e, e ∈ s.queue v → P v e.id) → (∀ i cb, (i, cb) ∈ s.callbacks → Q i cb) →
      (∀ v e, e ∈ (runOps env s pre).1.queue v → P v e.id ∨ ∃ o ∈ pre, Adds o v e.id) ∧
      (∀ i cb, (i, cb) ∈ (runOps env s pre).1.callbacks → Q i cb ∨ ∃ o ∈ pre, ∃ v, Registers o v i cb) := by
    intro pre
    induction pre with
    | nil => intro s P Q h1 h2; exact ⟨fun v e he => .inl (h1 v e he), fun i cb h => .inl (h2 i cb h)⟩
    | cons o pre ih =>
      intro s P Q h1 h2
      obtain ⟨g1, g2⟩ := ih (step env s o).1 (fun v i => P v i ∨ Adds o v i) (fun i cb => Q i cb ∨ ∃ v, Registers o v i cb)
        (by
          intro v e he
          rcases c27_number_never_decreases env s o v e he with ⟨x, hx, hev, _⟩ | ha
          · rw [evolves_id hev]; exact .inl (h1 v x hx)
          · exact .inr ha)
        (by
          intro i cb hi
          rcases step_callbacks env s o i cb hi with h | h
          · exact .inl (h2 i cb h)
          · exact .inr h)
      refine ⟨?_, ?_⟩
      · intro v e he
        rcases g1 v e he with (h | h) | ⟨o', ho', h⟩
        · exact .inl h
        · exact .inr ⟨o, by simp, h⟩
        · exact .inr ⟨o', by simp [ho'], h⟩
      · intro i cb hi
        rcases g2 i cb hi with (h | ⟨v, h⟩) | ⟨o', ho', v, h⟩
        · exact .inl h
        · exact .inr ⟨o, by simp, v, h⟩
        · exact .inr ⟨o', by simp [ho'], v, h⟩
  obtain ⟨hq, hc⟩ := hist pre Server.init (fun _ _ => False) (fun _ _ => False)
    (by intro v e he; simp [Server.queue, Server.init, Dict.get?] at he) (by intro i cb h; simp [Server.init] at h)
  cases op with
  | add a => simp [step] at h
  | addRaw v e cb d => simp [step] at h
  | cancel v i => simp [step] at h
  | request v clock =>
    obtain ⟨cb, hcb⟩ := requestEvent_effects env clock _ v _ h
    cases hcb
  | poll v clock =>
    rcases poll_effects env clock _ v _ h with ⟨cb, hcb⟩ | hcb <;> cases hcb
  | respond v rs =>
    simp only [step, createdEvent_effects] at h
    split at h
    · obtain ⟨r, _, hr⟩ := respondExternal_effects env v rs _ h; cases hr
    · obtain ⟨rfl, hr, ⟨e, he, rfl⟩, b, hb⟩ := respondAll_calls env _ v rs c ven id opt h
      have hadd : ∃ o ∈ pre, Adds o ven e.id := by
        rcases hq ven e he with h | h
        · exact h.elim
        · exact h
      have hreg : ∃ o ∈ pre, ∃ v b, Registers o v e.id (.func c b) := by
        rcases hc _ _ hb with h | ⟨o, ho, v, h⟩
        · exact h.elim
        · exact ⟨o, ho, v, b, h⟩
      refine ⟨⟨rs, rfl, hr⟩, hadd, hreg, ?_⟩
      intro huniq
      obtain ⟨o, ho, v, b, hreg⟩ := hreg
      have : v = ven := by
        refine huniq o ho v ?_
        rcases hreg with ⟨a, h1, h2, h3, _⟩ | ⟨x, d, h1, h2⟩
        · exact .inl ⟨a, h1, h2, h3⟩
        · exact .inr ⟨x, _, d, h1, h2⟩
      subst this
      exact ⟨o, ho, b, hreg⟩

/-- Two VENs get an event under the same id, each with its own callback. -/
def sharedId : List Op :=
  [.add { sampleArgs with callback := some (.func 1 true) }, .add { sampleArgs with ven := "ven2", callback := some (.func 2 true) }]

/-- **C33, refuted** when two VENs have an event under one id: the response of the first VEN goes to the callback that was given for the
    second VEN, and the first VEN's own callback is never called. -/
theorem c33_other_vens_callback_violated :
    (runOps quietEnv Server.init (sharedId ++ [.respond "ven1" [⟨"event1", 0, "optIn"⟩]])).2.1 = [.responded 2 "ven1" "event1" "optIn"] ∧
    (runOps quietEnv Server.init (sharedId ++ [.respond "ven1" [⟨"event1", 0, "optIn"⟩], .respond "ven2" [⟨"event1", 0, "optIn"⟩]])).2.1 =
      [.responded 2 "ven1" "event1" "optIn"] := by
  decide +kernel

/-- non-vacuity: a callback that is called -/
example : (runOps quietEnv Server.init
      [.add { sampleArgs with callback := some (.func 1 true) }, .respond "ven1" [⟨"event1", 0, "optIn"⟩, ⟨"event1", 0, "optOut"⟩]]).2.1 =
    [.responded 1 "ven1" "event1" "optIn"] := by decide +kernel

/-! ### C34 -/

/-- **C34** (partial: events that are still queued, with their current number): a message whose responses name queued events with their
    current modification number, each event once, is accepted, if the callbacks do not raise. -/
theorem c34_accepted_partial (env : Env) (hq : ∀ e, env.raises e = none) (s : Server) (ven : String) (rs : List EventResponse)
    (hx : s.external = false) (hid : rs.Pairwise (fun a b => a.eventId ≠ b.eventId))
    (hknown : ∀ r ∈ rs, ∃ e ∈ s.queue ven, e.id = r.eventId ∧ e.modnum = r.modificationNumber) :
    (createdEvent env s ven rs).2.2 = .ok .response := by
  have fq : ∀ (t : Server) r, (fireCallback env t ven r).2.2 = none := by
    intro t r
    simp only [fireCallback]
    split
    · rfl
    · split <;> rfl
    · exact hq _
  have one : ∀ (t : Server) r, (∃ e ∈ t.queue ven, e.id = r.eventId ∧ e.modnum = r.modificationNumber) → (respondOne env t ven r).2.2 = none := by
    rintro t r ⟨e, he, h1, h2⟩
    simp only [respondOne]
    cases hg : Dict.get? t.events ven with
    | none => simp [Server.queue, hg] at he
    | some q =>
      have hqq : t.queue ven = q := by simp [Server.queue, hg]
      simp only
      cases hf : q.find? (hasIdAndNumber r) with
      | none =>
        have := List.find?_eq_none.mp hf e (by rw [← hqq]; exact he)
        simp [hasIdAndNumber, h1, h2] at this
      | some x => simp only; split <;> exact fq _ _
  have all : ∀ (rs : List EventResponse) (t : Server), rs.Pairwise (fun a b => a.eventId ≠ b.eventId) →
      (∀ r ∈ rs, ∃ e ∈ t.queue ven, e.id = r.eventId ∧ e.modnum = r.modificationNumber) → (respondAll env t ven rs).2.2 = none := by
    intro rs
    induction rs with
    | nil => intro t _ _; rfl
    | cons r rs ih =>
      intro t hp hk
      rw [List.pairwise_cons] at hp
      have h1 := one t r (hk r (by simp))
      simp only [respondAll]
      have hkeep : ∀ r' ∈ rs, ∃ e ∈ (respondOne env t ven r).1.queue ven, e.id = r'.eventId ∧ e.modnum = r'.modificationNumber := by
        intro r' hr'
        obtain ⟨e, he, g1, g2⟩ := hk r' (by simp [hr'])
        refine ⟨e, respondOne_mem env t ven r e he ?_, g1, g2⟩
        rintro ⟨h, _⟩
        exact hp.1 r' hr' (h.trans g1)
      cases hy : respondOne env t ven r with
      | mk t' y =>
        obtain ⟨effs, o⟩ := y
        rw [hy] at h1 hkeep
        simp only at h1 hkeep
        subst h1
        exact ih t' hp.2 hkeep
  simp only [createdEvent, hx, Bool.false_eq_true, if_false]
  have h := all rs s hid hknown
  cases hy : respondAll env s ven rs with
  | mk t y => obtain ⟨effs, o⟩ := y; rw [hy] at h; simp only at h; subst h; rfl

/-- **C34** (partial: messages with one response; in a message with several the earlier ones have taken effect, see below): a response to
    an event that is neither queued (with that number) nor remembered as completed is refused with the invalid-id error and changes nothing,
    if the VEN has a queue. -/
theorem c34_unknown_refused_partial (env : Env) (s : Server) (ven : String) (r : EventResponse) (hx : s.external = false)
    (hv : Dict.get? s.events ven ≠ none) (hno : ∀ e ∈ s.queue ven, ¬ (e.id = r.eventId ∧ e.modnum = r.modificationNumber))
    (hc : r.eventId ∉ s.completedOf ven) :
    createdEvent env s ven [r] = (s, [], .error (.oadr 452)) := by
  cases hg : Dict.get? s.events ven with
  | none => exact absurd hg hv
  | some q =>
    have hqq : s.queue ven = q := by simp [Server.queue, hg]
    have hf : q.find? (hasIdAndNumber r) = none := by
      rw [List.find?_eq_none]
      intro e he
      have := hno e (by rw [hqq]; exact he)
      simpa [hasIdAndNumber] using this
    simp [createdEvent, hx, respondAll, respondOne, hg, hf, hc]

/-- **C34**: a confirmed cancellation takes the event out of the queue, and nothing else. -/
theorem c34_confirmed_cancellation (env : Env) (s : Server) (ven : String) (r : EventResponse) (e : Event) (hx : s.external = false)
    (hone : withId s ven r.eventId = [e]) (hc : e.status = .cancelled) (hn : e.modnum = r.modificationNumber) :
    (createdEvent env s ven [r]).1.queue ven = (s.queue ven).filter (fun x => decide (x.id ≠ r.eventId)) := by
  have hm : e ∈ withId s ven r.eventId := by rw [hone]; simp
  simp only [withId, List.mem_filter, decide_eq_true_eq] at hm
  have huniq : ∀ x ∈ s.queue ven, x.id = r.eventId → x = e := by
    intro x hx hid
    have : x ∈ withId s ven r.eventId := List.mem_filter.mpr ⟨hx, by simpa using hid⟩
    rw [hone] at this; simpa using this
  have herase : ∀ l : List Event, l.countP (fun x => decide (x.id = r.eventId)) ≤ 1 →
      eraseFirst (hasId r.eventId) l = l.filter (fun x => decide (x.id ≠ r.eventId)) := by
    intro l
    induction l with
    | nil => intro _; rfl
    | cons x l ih =>
      intro h
      simp only [List.countP_cons] at h
      by_cases hxid : x.id = r.eventId
      · simp only [hxid, decide_true, if_true] at h
        have h0 : l.countP (fun x => decide (x.id = r.eventId)) = 0 := by omega
        rw [List.countP_eq_zero] at h0
        simp only [eraseFirst, hasId, hxid, beq_self_eq_true, if_true]
        rw [List.filter_cons_of_neg (by simpa using hxid), List.filter_eq_self.mpr]
        intro y hy
        simpa using h0 y hy
      · simp only [hxid, decide_false, Bool.false_eq_true, if_false] at h
        simp only [eraseFirst, hasId, beq_eq_false_iff_ne.mpr hxid, Bool.false_eq_true, if_false]
        rw [List.filter_cons_of_pos (by simpa using hxid)]
        congr 1
        exact ih h
  have hlen : (s.queue ven).countP (fun x => decide (x.id = r.eventId)) ≤ 1 := by
    rw [List.countP_eq_length_filter]
    have := congrArg List.length hone
    simp only [withId, List.length_singleton] at this
    omega
  rw [createdEvent_state, hx]
  simp only [Bool.false_eq_true, if_false]
  cases hg : Dict.get? s.events ven with
  | none =>
    have : s.queue ven = [] := by simp [Server.queue, hg]
    rw [this] at hm; simp at hm
  | some q =>
    have hqq : s.queue ven = q := by simp [Server.queue, hg]
    cases hf : q.find? (hasIdAndNumber r) with
    | none =>
      have := List.find?_eq_none.mp hf e (by rw [← hqq]; exact hm.1)
      simp [hasIdAndNumber, hm.2, hn] at this
    | some x =>
      have hxm := List.mem_of_find?_eq_some hf
      have hxp := List.find?_some hf
      simp only [hasIdAndNumber, Bool.and_eq_true, beq_iff_eq] at hxp
      have hxe : x = e := huniq x (by rw [hqq]; exact hxm) hxp.1
      subst hxe
      have key : (respondOne env s ven r).1.queue ven = eraseFirst (hasId r.eventId) q := by
        simp only [respondOne, hg, hf, hc, if_true, Server.queue, (fireCallback_frame env _ ven r).1, Dict.get?_set_self, Option.getD_some]
      have : (respondAll env s ven [r]).1.queue ven = eraseFirst (hasId r.eventId) q := by
        simp only [respondAll]
        cases hy : respondOne env s ven r with
        | mk t y =>
          obtain ⟨effs, o⟩ := y
          rw [hy] at key
          cases o <;> exact key
      rw [this, hqq]
      rw [hqq] at hlen
      exact herase q hlen

/-- The VEN "ven2" has been sent "y" as completed. -/
def afterCompletion : Server := (requestEvent quietEnv (fun _ => 20) sampleServer "ven2").1

/-- **C34, refuted**: a response to an event that has completed in the meantime is not accepted but fails with an internal error. -/
theorem c34_completed_violated :
    (requestEvent quietEnv (fun _ => 20) sampleServer "ven2").2.2 =
      .ok (.distribute ([sampleEvent "y", sampleEvent "z"].map (refresh 20 20))) ∧
    (createdEvent quietEnv afterCompletion "ven2" [⟨"y", 0, "optIn"⟩]).2.2 = .error .typeError := by
  decide +kernel

/-- **C34, refuted**: a response to an event whose cancellation the VEN has not seen yet is refused; a response of a VEN without queue
    fails with an internal error instead of the invalid-id error; a refused message has taken effect up to the refused response. -/
theorem c34_refusals_violated :
    (createdEvent quietEnv (cancelEvent sampleServer "ven2" "y") "ven2" [⟨"y", 0, "optIn"⟩]).2.2 = .error (.oadr 452) ∧
    (createdEvent quietEnv Server.init "ven1" [⟨"y", 0, "optIn"⟩]).2.2 = .error .keyError ∧
    (createdEvent quietEnv (cancelEvent sampleServer "ven2" "y") "ven2" [⟨"y", 1, "optIn"⟩, ⟨"nonsense", 0, "optIn"⟩]).2.2 = .error (.oadr 452) ∧
    (createdEvent quietEnv (cancelEvent sampleServer "ven2" "y") "ven2" [⟨"y", 1, "optIn"⟩, ⟨"nonsense", 0, "optIn"⟩]).1.queue "ven2" =
      [sampleEvent "z"] := by
  decide +kernel

/-- non-vacuity of the partial theorems -/
example : (∀ r ∈ [(⟨"y", 0, "optIn"⟩ : EventResponse), ⟨"z", 0, "optOut"⟩], ∃ e ∈ sampleServer.queue "ven2",
    e.id = r.eventId ∧ e.modnum = r.modificationNumber) ∧
    Dict.get? sampleServer.events "ven2" ≠ none ∧ withId (cancelEvent sampleServer "ven2" "y") "ven2" "y" = [cancelled (sampleEvent "y")] := by
  decide +kernel

/-! ### C35 -/

/-- **C35** (partial: it is called at every delivery, not only the first, see below): when a reply with a list of events is made, the
    delivery callbacks of exactly these events have been called, one for each event that has one, in the order of the list. -/
theorem c35_called_for_delivered_partial (env : Env) (clock : Nat → Int) (s : Server) (ven : String) (l : List Event)
    (h : (requestEvent env clock s ven).2.2 = .ok (.distribute l)) :
    (requestEvent env clock s ven).2.1 = l.filterMap (fun e => (Dict.get? s.delivery e.id).map Effect.delivered) := by
  have hd : ∀ (d : List (String × Nat)) (l : List Event), (deliverAll env d l).2 = none →
      (deliverAll env d l).1 = l.filterMap (fun e => (Dict.get? d e.id).map Effect.delivered) := by
    intro d l
    induction l with
    | nil => intro _; rfl
    | cons e l ih =>
      intro h
      simp only [deliverAll] at h ⊢
      cases hg : Dict.get? d e.id with
      | none =>
        rw [hg] at h
        rw [List.filterMap_cons, hg]
        simpa using ih h
      | some cb =>
        rw [hg] at h
        simp only at h
        rw [List.filterMap_cons, hg]
        simp only [Option.map_some]
        cases hr : env.raises (.delivered cb) with
        | some err => rw [hr] at h; simp at h
        | none => rw [hr] at h; simp only at h ⊢; rw [ih h]
  have hdel : (if s.external then (s, (env.onRequestEvent ven).map (fun l => (orderEvents clock l none none).result))
           else takeEvents clock s ven).1.delivery = s.delivery := by
    split
    · rfl
    · exact (takeEvents_frame clock s ven).2.2.2.1
  simp only [requestEvent] at h ⊢
  rw [hdel] at h ⊢
  cases hr : (if s.external then (s, (env.onRequestEvent ven).map (fun l => (orderEvents clock l none none).result))
           else takeEvents clock s ven).2 with
  | none => rw [hr] at h; cases h
  | some events =>
    rw [hr] at h
    simp only at h ⊢
    cases hx : deliverAll env s.delivery events with
    | mk effs o =>
      rw [hx] at h
      cases o with
      | some err => cases h
      | none =>
        simp only [Except.ok.injEq, Reply.distribute.injEq] at h
        subst h
        have := hd s.delivery events (by rw [hx])
        rw [hx] at this
        exact this

/-- **C35, refuted**: asking twice calls the delivery callback twice. -/
theorem c35_called_again_violated :
    (runOps quietEnv Server.init [.add { sampleArgs with delivery := some 5 }, .request "ven1" (fun _ => 0), .request "ven1" (fun _ => 0)]).2.1 =
      [.delivered 5, .delivered 5] := by
  decide +kernel

/-- non-vacuity -/
example : (requestEvent quietEnv (fun _ => 0) { sampleServer with delivery := [("z", 3)] } "ven2").2.1 = [.delivered 3] := by decide +kernel

/-! ### C70 -/

/-- **C70** (partial: results of the form list, see below): after the own poll handler was installed, along every history each poll calls
    the handler with the VEN id and returns what it returns: nothing is an empty response, a tuple is sent as it is, an event as an event
    list; and whatever is queued plays no role. -/
theorem c70_polls_partial (env : Env) (s : Server) (ops : List Op) (ven : String) (clock : Nat → Int)
    (hr : env.raises (.onPoll ven) = none) :
    (poll env clock (runOps env (addPollHandler s) ops).1 ven).1 = (runOps env (addPollHandler s) ops).1 ∧
    (poll env clock (runOps env (addPollHandler s) ops).1 ven).2.1 = [.onPoll ven] ∧
    (env.onPoll ven = .nothing → (poll env clock (runOps env (addPollHandler s) ops).1 ven).2.2 = .ok .response) ∧
    (∀ t p, env.onPoll ven = .message t p → (poll env clock (runOps env (addPollHandler s) ops).1 ven).2.2 = .ok (.user t p)) ∧
    (∀ e, env.onPoll ven = .event e → (poll env clock (runOps env (addPollHandler s) ops).1 ven).2.2 = .ok (.distribute [e])) := by
  have hx : (runOps env (addPollHandler s) ops).1.external = true := by rw [runOps_external]; rfl
  simp only [poll, hx, if_true, hr, true_and]
  refine ⟨?_, ?_, ?_⟩
  · intro h; rw [h]; rfl
  · intro t p h; rw [h]; rfl
  · intro e h; rw [h]; rfl

/-- **C70**: the responses of the VENs go to the user's own handler, one call for each response in order, and nothing else changes. -/
theorem c70_responses (env : Env) (hq : ∀ e, env.raises e = none) (s : Server) (ops : List Op) (ven : String) (rs : List EventResponse) :
    createdEvent env (runOps env (addPollHandler s) ops).1 ven rs =
      ((runOps env (addPollHandler s) ops).1, rs.map (fun r => .onCreatedEvent ven r.eventId r.optType), .ok .response) := by
  have hx : (runOps env (addPollHandler s) ops).1.external = true := by rw [runOps_external]; rfl
  have hr : ∀ rs : List EventResponse, respondExternal env ven rs = (rs.map (fun r => .onCreatedEvent ven r.eventId r.optType), none) := by
    intro rs
    induction rs with
    | nil => rfl
    | cons r rs ih => simp only [respondExternal, hq, ih, List.map_cons]
  simp only [createdEvent, hx, if_true, hr]

/-- **C70, refuted** for a list: when the handler returns a list of events, the reply is not the event list `{'events': …}` but has the bare
    list as its contents, which cannot be made into a message. -/
theorem c70_list_violated (clock : Nat → Int) : ∃ (env : Env) (l : List Event), env.onPoll "ven1" = .eventList l ∧ l ≠ [] ∧
    (poll env clock (addPollHandler Server.init) "ven1").2.2 = .ok (.bareList l) :=
  ⟨{ quietEnv with onPoll := fun _ => .eventList [sampleEvent "x"] }, [sampleEvent "x"], rfl, by simp, rfl⟩

/-- non-vacuity -/
example : (poll { quietEnv with onPoll := fun _ => .event (sampleEvent "q") } (fun _ => 0) (addPollHandler sampleServer) "ven1").2.2 =
    .ok (.distribute [sampleEvent "q"]) := by decide +kernel

end Openleadr
