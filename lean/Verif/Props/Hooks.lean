import Verif.Model.Hooks
import Verif.Lemmas.Dict
/-! Property C63: hooks. -/
namespace Openleadr

/-! ### specification -/

/-- The hooks that calls of `add_hook` ask for at a point, in the order of the calls. -/
def askedFor (name : String) : List (String × Nat) → List Nat
  | [] => []
  | (n, k) :: l => if n = name then k :: askedFor name l else askedFor name l

/-- Hooks that never end with a `BaseException` other than an `Exception`. -/
def NeverAborts (code : HookCode σ) : Prop := ∀ k s args, (code k s args).2.2 ≠ .aborts

/-- Hooks that leave their arguments as they are. -/
def LeavesArgs (code : HookCode σ) : Prop := ∀ k s args, (code k s args).2.1 = args

/-- Every hook of the points runs once, in order, with the arguments of its point. -/
def runsOf (h : Hooks) (points : List (String × List Value)) : List HookRun :=
  points.flatMap (fun p => ((Dict.get? h p.1).getD []).map (fun k => ⟨p.1, k, p.2⟩))

/-- The points that a request passes. The first says what is sent, the second what is received; the others are passed only for content that can be
    read, is accepted by the schema and the signature check, and is parsed. -/
def pointsPassed (w : Wire) (sent : Value) : List (String × List Value) :=
  let send := [("before_send_xml", [sent])]
  match w.transfer with
  | none => send
  | some (status, content) =>
    match String.fromUTF8? ⟨content.toArray⟩ with
    | none => send
    | some text =>
      let receive := send ++ [("after_receive_xml", [Value.str text])]
      if status ≠ 200 ∨ content = [] then receive
      else
        let schema := receive ++ [("before_schema_validation", [Value.str text])]
        if w.schemaOk content && w.signatureOk content then
          let parse := schema ++ [("before_parse_xml", [Value.str text])]
          match w.parse content with
          | none => parse
          | some (t, p) => parse ++ [("after_parse_xml", [.str t, p])]
        else schema

/-! ### registration of hooks -/

theorem get?_noHooks (points : List String) (name : String) :
    Dict.get? (noHooks points) name = if name ∈ points then some [] else none := by
  induction points with
  | nil => rfl
  | cons p l ih =>
    show Dict.get? ((p, []) :: noHooks l) name = _
    simp only [Dict.get?]
    split
    · rename_i h; simp [h]
    · rename_i h
      rw [ih]
      have : name ≠ p := fun hh => h hh.symm
      simp [this]

theorem addHook_get (h : Hooks) (n : String) (k : Nat) (name : String) :
    Dict.get? (addHook h n k).1 name = (Dict.get? h name).map (fun l => if n = name then l ++ [k] else l) := by
  unfold addHook
  split
  · rename_i hn
    by_cases he : n = name
    · subst he; simp [hn]
    · simp [he]
  · rename_i l hl
    by_cases he : n = name
    · subst he; simp [hl, Dict.get?_set_self]
    · rw [Dict.get?_set_other _ _ _ _ (fun hh => he hh.symm)]
      simp [he]

/-- **C63**: after any calls of `add_hook` (client or server) the hooks at each point are those asked for, in that order, and there are no other
    points. -/
theorem c63_registered (points : List String) (adds : List (String × Nat)) (name : String) :
    Dict.get? (adds.foldl (fun h a => (addHook h a.1 a.2).1) (noHooks points)) name = if name ∈ points then some (askedFor name adds) else none := by
  have : ∀ (h : Hooks), Dict.get? (adds.foldl (fun h a => (addHook h a.1 a.2).1) h) name = (Dict.get? h name).map (· ++ askedFor name adds) := by
    induction adds with
    | nil => intro h; cases hh : Dict.get? h name <;> simp [askedFor, hh]
    | cons a l ih =>
      intro h
      rw [List.foldl_cons, ih, addHook_get]
      obtain ⟨n, k⟩ := a
      cases Dict.get? h name with
      | none => rfl
      | some x =>
        by_cases he : n = name <;> simp [askedFor, he]
  rw [this, get?_noHooks]
  split <;> simp

/-- **C63**: an unknown point is refused, and nothing is registered. -/
theorem c63_unknown (points : List String) (adds : List (String × Nat)) (name : String) (k : Nat) (hn : name ∉ points) :
    addHook (adds.foldl (fun h a => (addHook h a.1 a.2).1) (noHooks points)) name k =
      (adds.foldl (fun h a => (addHook h a.1 a.2).1) (noHooks points), .error .valueError) := by
  have := c63_registered points adds name
  rw [if_neg hn] at this
  simp only [addHook.eq_def _ name k, this]

/-! ### the client -/

theorem hookLoop_runs (code : HookCode σ) (hc : NeverAborts code) (point : String) (ks : List Nat) (s : σ) (args : List Value) :
    (hookLoop code point ks s args).aborted = false ∧ (hookLoop code point ks s args).runs.map (fun r => (r.point, r.hook)) = ks.map (fun k => (point, k)) := by
  induction ks generalizing s args with
  | nil => exact ⟨rfl, rfl⟩
  | cons k ks ih =>
    have hk := hc k s args
    unfold hookLoop
    split
    · rename_i s' args' h
      obtain ⟨h1, h2⟩ := ih s' args'
      exact ⟨h1, by simp only [List.map_cons, h2]⟩
    · rename_i s' args' e h
      obtain ⟨h1, h2⟩ := ih s' args'
      exact ⟨h1, by simp only [List.map_cons, h2]⟩
    · rename_i s' args' h
      rw [h] at hk; exact absurd rfl hk

theorem hookLoop_args (code : HookCode σ) (hc : NeverAborts code) (hl : LeavesArgs code) (point : String) (ks : List Nat) (s : σ) (args : List Value) :
    (hookLoop code point ks s args).aborted = false ∧ (hookLoop code point ks s args).args = args ∧
      (hookLoop code point ks s args).runs = ks.map (fun k => ⟨point, k, args⟩) := by
  induction ks generalizing s with
  | nil => exact ⟨rfl, rfl, rfl⟩
  | cons k ks ih =>
    have hk := hc k s args
    have ha := hl k s args
    unfold hookLoop
    split
    · rename_i s' args' h
      rw [h] at ha; simp only at ha; subst ha
      obtain ⟨h1, h2, h3⟩ := ih s'
      exact ⟨h1, h2, by simp only [List.map_cons, h3]⟩
    · rename_i s' args' e h
      rw [h] at ha; simp only at ha; subst ha
      obtain ⟨h1, h2, h3⟩ := ih s'
      exact ⟨h1, h2, by simp only [List.map_cons, h3]⟩
    · rename_i s' args' h
      rw [h] at hk; exact absurd rfl hk

/-- **C63**: every hook of a point runs once, in order of registration, whatever the hooks do: return, raise an exception, change the state of the user
    or change their arguments. -/
theorem c63_point (code : HookCode σ) (hc : NeverAborts code) (adds : List (String × Nat)) (point : String) (hp : point ∈ clientHookPoints)
    (s : σ) (args : List Value) :
    (executeHooks code (adds.foldl (fun h a => (addHook h a.1 a.2).1) (noHooks clientHookPoints)) point s args).runs.map (fun r => (r.point, r.hook)) =
      (askedFor point adds).map (fun k => (point, k)) := by
  unfold executeHooks
  rw [c63_registered, if_pos hp]
  exact (hookLoop_runs code hc point _ s args).2

theorem executeHooks_spec (code : HookCode σ) (hc : NeverAborts code) (hl : LeavesArgs code) (h : Hooks) (point : String) (s : σ) (args : List Value) :
    (executeHooks code h point s args).aborted = false ∧ (executeHooks code h point s args).args = args ∧
      (executeHooks code h point s args).runs = runsOf h [(point, args)] := by
  have := hookLoop_args code hc hl point ((Dict.get? h point).getD []) s args
  exact ⟨this.1, this.2.1, by simpa [runsOf, executeHooks] using this.2.2⟩

/-- What the request gives without any hooks. -/
def plainReply (w : Wire) : WireReply :=
  match w.transfer with
  | none => .failed
  | some (status, content) =>
    match String.fromUTF8? ⟨content.toArray⟩ with
    | none => .failed
    | some _ =>
      if status ≠ 200 then .failed
      else if content = [] then .nothing
      else if w.schemaOk content && w.signatureOk content then
        match w.parse content with
        | none => .failed
        | some (t, p) => .pair (some t) p
      else .failed

/-- **C63**: in a request, every hook of every point that is passed runs once, in order, and sees what is sent and received; no hook changes what the
    client gets, whether it returns or raises an exception. -/
theorem c63_request (code : HookCode σ) (hc : NeverAborts code) (hl : LeavesArgs code) (h : Hooks) (w : Wire) (message sent : Value)
    (hm : ensureStr message = .ok sent) (s : σ) :
    (requestHooked code h w message s).2.1 = runsOf h (pointsPassed w sent) ∧ (requestHooked code h w message s).2.2 = plainReply w := by
  have hx1 := fun p s a => (executeHooks_spec code hc hl h p s a).1
  have hx2 := fun p s a => (executeHooks_spec code hc hl h p s a).2.1
  have hx3 := fun p s a => (executeHooks_spec code hc hl h p s a).2.2
  unfold requestHooked pointsPassed plainReply
  simp only [hm, hx1, hx3, Bool.false_eq_true, if_false]
  cases ht : w.transfer with
  | none => exact ⟨rfl, rfl⟩
  | some x =>
    obtain ⟨status, content⟩ := x
    simp only [ensureStr]
    cases hu : String.fromUTF8? ⟨content.toArray⟩ with
    | none => exact ⟨rfl, rfl⟩
    | some text =>
      simp only [hx1, hx3, Bool.false_eq_true, if_false]
      by_cases h200 : status = 200
      · by_cases he : content = []
        · simp [h200, he, runsOf]
        · simp only [h200, he, ne_eq, not_true_eq_false, if_false, or_self, receiveHooked, ensureStr, hu, hx1, hx3,
            Bool.false_eq_true]
          by_cases h1 : w.schemaOk content = true
          · by_cases h2 : w.signatureOk content = true
            · simp only [h1, h2, Bool.true_eq_false, if_false, Bool.and_self, if_true]
              cases w.parse content with
              | none => simp [runsOf]
              | some x =>
                obtain ⟨t, p⟩ := x
                simp only [hx1, hx2, hx3, Bool.false_eq_true, if_false]
                simp [runsOf]
            · simp [h1, h2, runsOf]
          · simp [h1, runsOf]
      · simp [h200, runsOf]

/-- Beside it: two hooks see the message sent, though the first fails; nothing else happens when the server is not reached. -/
example :
    requestHooked (σ := Nat) (fun k s args => (s + 1, args, if k = 0 then .raises .valueError else .done))
      [("before_send_xml", [0, 1]), ("after_receive_xml", [2])] ⟨none, fun _ => true, fun _ => true, fun _ => none⟩ (.str "<a/>") 0 =
      (2, [⟨"before_send_xml", 0, [.str "<a/>"]⟩, ⟨"before_send_xml", 1, [.str "<a/>"]⟩], .failed) := by
  decide +kernel

/-- **C63, refuted** for hooks that change the payload: the payload given to `after_parse_xml` is the one the client acts upon, so a hook can change
    it, and the next hooks get it changed. -/
theorem c63_payload_violated (w : Wire) (content : List UInt8) (text : String) (t : String) (p q : Value) (hpq : p ≠ q)
    (ht : w.transfer = some (200, content)) (hu : String.fromUTF8? ⟨content.toArray⟩ = some text) (hne : content ≠ []) (h1 : w.schemaOk content = true)
    (h2 : w.signatureOk content = true) (hp : w.parse content = some (t, p)) (m : String) :
    ∃ (code : HookCode Unit) (h : Hooks), NeverAborts code ∧
      (requestHooked code h w (.str m) ()).2.2 = .pair (some t) q ∧ (requestHooked code h w (.str m) ()).2.2 ≠ plainReply w := by
  refine ⟨fun _ s args => (s, args.take 1 ++ [q], .done), [("after_parse_xml", [0])], ?_, ?_⟩
  · intro k s args hh; cases hh
  · have : (requestHooked (fun _ s args => (s, args.take 1 ++ [q], .done)) [("after_parse_xml", [0])] w (.str m) ()).2.2 = .pair (some t) q := by
      simp [requestHooked, receiveHooked, executeHooks, hookLoop, ensureStr, ht, hu, hne, h1, h2, hp, Dict.get?]
    refine ⟨this, ?_⟩
    rw [this]
    simp only [plainReply, ht, hu, ne_eq, not_true_eq_false, if_false, hne, h1, h2, Bool.and_self, if_true, hp]
    intro hh
    injection hh with _ hh
    exact hpq hh.symm

/-! ### the server -/

/-- All hooks are coroutine functions. -/
def Coroutines (code : Nat → List Value → HookCall) : Prop := ∀ k args, code k args = .coroutine

theorem callHooks_coroutines (code : Nat → List Value → HookCall) (hc : Coroutines code) (point : String) (args : List Value) (ks : List Nat) :
    callHooks code point args ks = (ks.map (fun k => ⟨point, k, args⟩), .ok ()) := by
  induction ks with
  | nil => rfl
  | cons k ks ih => simp [callHooks, hc k args, ih]

theorem callPoint_coroutines (code : Nat → List Value → HookCall) (hc : Coroutines code) (h : Hooks) (point : String) (args : List Value) :
    callPoint code h point args = (runsOf h [(point, args)], .ok ()) := by
  simp [callPoint, callHooks_coroutines code hc, runsOf]

theorem handleMessageHooked_coroutines (code : Nat → List Value → HookCall) (hc : Coroutines code) (h : Hooks) (c : Config) (svc : Service S) (st : S)
    (type : String) (message : Dict) :
    (handleMessageHooked code h c svc st type message).2 = handleMessage c svc st type message ∧
      (handleMessageHooked code h c svc st type message).1 = runsOf h (("before_handle", [.str type, .dict message]) ::
        (match (handleMessage c svc st type message).2 with | .ok (rt, rp) => [("after_handle", [.str rt, .dict rp])] | .error _ => [])) := by
  simp only [handleMessageHooked, callPoint_coroutines code hc]
  rcases hm : handleMessage c svc st type message with ⟨st', e | ⟨rt, rp⟩⟩
  · exact ⟨rfl, rfl⟩
  · refine ⟨rfl, ?_⟩
    simp [runsOf]

/-- **C63**: hooks that are coroutine functions do not disturb the server: state and reply of every request are as without hooks. -/
theorem c63_server_undisturbed (code : Nat → List Value → HookCall) (hc : Coroutines code) (h : Hooks) (c : Config) (svc : Service S) (s : Surroundings)
    (i : Nat) (cache : NonceCache) (st : S) (r : Request) :
    (handleHooked code h c svc s i cache st r).2 = handle c svc s i cache st r := by
  have hproc : (processHooked code h c svc s i cache st r).2 = process c svc s i cache st r := by
    unfold processHooked process
    simp only [callPoint_coroutines code hc]
    split
    · rfl
    cases c.validate r.content with
    | error e => rfl
    | ok tree =>
      simp only []
      rcases c.parse r.content with e | ⟨type, message⟩
      · rfl
      simp only []
      split
      · rfl
      split
      · rfl
      cases checkKnown c type message with
      | error e => rfl
      | ok u =>
        simp only []
        rcases (if r.secure ∧ Dict.has message "ven_id" then authenticate c s i cache r tree message else (cache, .ok ())) with ⟨cache', e | u⟩
        · rfl
        simp only []
        generalize (if r.secure ∧ type = "oadrCreatePartyRegistration" then
                  Dict.set message "fingerprint" (match r.peer with | some p => .str p | none => .none) else message) = msg
        have := (handleMessageHooked_coroutines code hc h c svc st type msg).1
        rcases hh : handleMessageHooked code h c svc st type msg with ⟨t, st', e | ⟨rt, rp⟩⟩ <;> rw [hh] at this <;> rw [← this]
        simp only [completePayload]
  unfold handleHooked handle
  rcases hp : processHooked code h c svc s i cache st r with ⟨t, x, o⟩
  rw [hp] at hproc
  rw [← hproc]
  simp only [callPoint_coroutines code hc]
  cases reply c o <;> rfl

/-- **C63**: of the hooks of the server that are coroutine functions, those of each point are made into tasks once and in order of registration; the
    points are passed in their order, the first for every request with the right content type and the last for every reply. -/
theorem c63_server_runs (code : Nat → List Value → HookCall) (hc : Coroutines code) (h : Hooks) (c : Config) (svc : Service S) (s : Surroundings)
    (i : Nat) (cache : NonceCache) (st : S) (r : Request) :
    ∃ pts, (handleHooked code h c svc s i cache st r).1 = runsOf h pts ∧ (pts.map (·.1)).Sublist serverHookPoints ∧
      (isXml r.contentType = true → ("before_parse", [Value.str r.content]) ∈ pts) ∧
      (∀ a, (handle c svc s i cache st r).2 = .ok a → ("before_respond", [Value.str a.text]) ∈ pts) := by
  have hproc : ∃ pts, (processHooked code h c svc s i cache st r).1 = runsOf h pts ∧ (pts.map (·.1)).Sublist ["before_parse", "before_handle", "after_handle"] ∧
      (isXml r.contentType = true → ("before_parse", [Value.str r.content]) ∈ pts) := by
    unfold processHooked
    simp only [callPoint_coroutines code hc]
    split
    · rename_i hx
      exact ⟨[], rfl, by simp, by simp [hx]⟩
    have base : ∃ pts, runsOf h [("before_parse", [Value.str r.content])] = runsOf h pts ∧
        (pts.map (·.1)).Sublist ["before_parse", "before_handle", "after_handle"] ∧
        (isXml r.contentType = true → ("before_parse", [Value.str r.content]) ∈ pts) :=
      ⟨[("before_parse", [Value.str r.content])], rfl, by simp, by simp⟩
    cases c.validate r.content with
    | error e => exact base
    | ok tree =>
      simp only []
      rcases c.parse r.content with e | ⟨type, message⟩
      · exact base
      simp only []
      split
      · exact base
      split
      · exact base
      cases checkKnown c type message with
      | error e => exact base
      | ok u =>
        simp only []
        rcases (if r.secure ∧ Dict.has message "ven_id" then authenticate c s i cache r tree message else (cache, .ok ())) with ⟨cache', e | u⟩
        · exact base
        simp only []
        generalize (if r.secure ∧ type = "oadrCreatePartyRegistration" then
                  Dict.set message "fingerprint" (match r.peer with | some p => .str p | none => .none) else message) = msg
        have := (handleMessageHooked_coroutines code hc h c svc st type msg).2
        rcases hh : handleMessageHooked code h c svc st type msg with ⟨t, st', e | ⟨rt, rp⟩⟩ <;> rw [hh] at this <;> simp only [] at this ⊢ <;> rw [this]
        all_goals
          refine ⟨("before_parse", [Value.str r.content]) :: ("before_handle", [.str type, .dict msg]) :: _, by simp [runsOf]; rfl, ?_, by simp⟩
          split <;> simp
  obtain ⟨pts, h1, h2, h3⟩ := hproc
  have hu := c63_server_undisturbed code hc h c svc s i cache st r
  unfold handleHooked at hu ⊢
  rcases hp : processHooked code h c svc s i cache st r with ⟨t, x, o⟩
  rw [hp] at h1 hu
  simp only [] at h1 hu ⊢
  rw [← hu, h1]
  cases reply c o with
  | error e =>
    exact ⟨pts, rfl, h2.trans (by decide), h3, by intro a ha; cases ha⟩
  | ok answer =>
    simp only [callPoint_coroutines code hc]
    refine ⟨pts ++ [("before_respond", [Value.str answer.text])], by simp [runsOf], ?_, fun hx => by simp [h3 hx], ?_⟩
    · rw [List.map_append]
      exact List.Sublist.append h2 (List.Sublist.refl ["before_respond"])
    · intro a ha
      cases ha
      simp

/-- **C63, refuted** for hooks of the server that are plain functions: one such hook after the handling of a message, and the VEN gets an HTTP 500
    although the message was handled; the hooks after it do not run. -/
theorem c63_plain_function_violated (c : Config) (svc : Service S) (s : Surroundings) (i : Nat) (cache : NonceCache) (st st' : S) (r : Request)
    (cache' : NonceCache) (type : String) (ans : String × Dict) (text : String)
    (hp : process c svc s i cache st r = ((cache', st'), ⟨some type, .ok ans⟩)) (hr : c.render ans.1 ans.2 = .ok text) (hooksAfter : List Nat) :
    ∃ code : Nat → List Value → HookCall, code 0 = (fun _ => .value) ∧ (∀ k, k ≠ 0 → code k = fun _ => .coroutine) ∧
      (handle c svc s i cache st r).2 = .ok ⟨200, text, some ans⟩ ∧
      (handleHooked code [("after_handle", 0 :: hooksAfter)] c svc s i cache st r) = ([], (cache', st'), .ok ⟨500, "", none⟩) := by
  refine ⟨fun k _ => if k = 0 then .value else .coroutine, rfl, ?_, ?_, ?_⟩
  · intro k hk; funext a; simp [hk]
  · simp [handle, hp, reply, sendMessage, hr]
  · have hproc : ∃ t, processHooked (fun k _ => if k = 0 then .value else .coroutine) [("after_handle", 0 :: hooksAfter)] c svc s i cache st r =
        ([], (cache', st'), ⟨some t, .error (.other .typeError)⟩) := by
      unfold process at hp
      unfold processHooked
      have hnone : ∀ p args, p ≠ "after_handle" →
          callPoint (fun k _ => if k = 0 then .value else .coroutine) [("after_handle", 0 :: hooksAfter)] p args = ([], .ok ()) := by
        intro p args hne
        simp [callPoint, Dict.get?, Ne.symm hne, callHooks]
      rw [hnone _ _ (by decide)]
      split at hp
      · cases hp
      rename_i hx
      rw [if_neg hx]
      split at hp
      · cases hp
      rename_i tree ht
      split at hp
      · cases hp
      rename_i ty message hpa
      split at hp
      · cases hp
      rename_i hty
      split at hp
      · cases hp
      rename_i hv
      split at hp
      · cases hp
      rename_i hk
      split at hp
      · cases hp
      rename_i ca hau
      simp only [] at hp
      split at hp
      · cases hp
      rename_i st1 rt rp hm
      cases hp
      refine ⟨type, ?_⟩
      clear hr
      simp only [ht, hpa, if_neg hty, if_neg hv, hk, hau]
      generalize (if r.secure = true ∧ type = "oadrCreatePartyRegistration" then
                  Dict.set message "fingerprint" (match r.peer with | some p => Value.str p | none => Value.none) else message) = msg at hm ⊢
      have hafter : callPoint (fun k _ => if k = 0 then .value else .coroutine) [("after_handle", 0 :: hooksAfter)] "after_handle" [.str rt, .dict rp] =
          ([], .error (.other .typeError)) := by
        simp [callPoint, Dict.get?, callHooks]
      simp only [handleMessageHooked, hnone "before_handle" _ (by decide), hm, hafter]
      rfl
    obtain ⟨t, ht⟩ := hproc
    unfold handleHooked
    simp only [ht, reply, callPoint]
    simp [Dict.get?, callHooks]

/-- Without hooks at the points before, the message is processed as if there were none. -/
theorem processHooked_silent (code : Nat → List Value → HookCall) (h : Hooks) (c : Config) (svc : Service S) (s : Surroundings) (i : Nat)
    (cache : NonceCache) (st : S) (r : Request)
    (hn : ∀ p ∈ ["before_parse", "before_handle", "after_handle"], ∀ args, callPoint code h p args = ([], .ok ())) :
    processHooked code h c svc s i cache st r = ([], process c svc s i cache st r) := by
  have h1 := hn "before_parse" (by simp)
  have h2 := hn "before_handle" (by simp)
  have h3 := hn "after_handle" (by simp)
  unfold processHooked process
  rw [h1]
  split
  · rfl
  simp only []
  cases c.validate r.content with
  | error e => rfl
  | ok tree =>
    simp only []
    rcases c.parse r.content with e | ⟨type, message⟩
    · rfl
    simp only []
    split
    · rfl
    split
    · rfl
    cases checkKnown c type message with
    | error e => rfl
    | ok u =>
      simp only []
      rcases (if r.secure ∧ Dict.has message "ven_id" then authenticate c s i cache r tree message else (cache, .ok ())) with ⟨cache', e | u⟩
      · rfl
      simp only []
      generalize (if r.secure ∧ type = "oadrCreatePartyRegistration" then
                Dict.set message "fingerprint" (match r.peer with | some p => .str p | none => .none) else message) = msg
      unfold handleMessageHooked
      rw [h2]
      simp only []
      rcases handleMessage c svc st type msg with ⟨st', e | ⟨rt, rp⟩⟩
      · rfl
      · simp only [h3, List.append_nil]
        rfl

/-- **C63, refuted** for a hook of the server before the response that raises: the message was handled, and the answer is ready, but the handler raises
    and the VEN gets no answer of the service at all; the hooks after it do not run. The same for a hook there that is a plain function. -/
theorem c63_before_respond_violated (c : Config) (svc : Service S) (s : Surroundings) (i : Nat) (cache : NonceCache) (st st' : S) (r : Request)
    (cache' : NonceCache) (answer : HttpReply) (hooksAfter : List Nat)
    (hp : handle c svc s i cache st r = ((cache', st'), .ok answer)) :
    (∀ e, handleHooked (fun k _ => if k = 0 then .raises e else .coroutine) [("before_respond", 0 :: hooksAfter)] c svc s i cache st r =
      ([], (cache', st'), .error (.other e))) ∧
    handleHooked (fun k _ => if k = 0 then .value else .coroutine) [("before_respond", 0 :: hooksAfter)] c svc s i cache st r =
      ([], (cache', st'), .error (.other .typeError)) := by
  have key : ∀ (code : Nat → List Value → HookCall) (e : Err), (∀ args, callHooks code "before_respond" args (0 :: hooksAfter) = ([], .error (.other e))) →
      handleHooked code [("before_respond", 0 :: hooksAfter)] c svc s i cache st r = ([], (cache', st'), .error (.other e)) := by
    intro code e hcode
    have hs := processHooked_silent code [("before_respond", 0 :: hooksAfter)] c svc s i cache st r (by
      intro p hp args
      simp only [List.mem_cons, List.not_mem_nil, or_false] at hp
      rcases hp with rfl | rfl | rfl <;> rfl)
    unfold handleHooked
    rw [hs]
    unfold handle at hp
    rcases hpr : process c svc s i cache st r with ⟨x, o⟩
    rw [hpr] at hp
    simp only [Prod.mk.injEq] at hp
    simp only [hp.2]
    have : callPoint code [("before_respond", 0 :: hooksAfter)] "before_respond" [.str answer.text] = ([], .error (.other e)) := hcode _
    rw [this, hp.1]
    rfl
  refine ⟨fun e => key _ e (fun args => rfl), key _ _ (fun args => rfl)⟩

end Openleadr
