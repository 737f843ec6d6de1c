import Verif.Model.RegistrationService
import Verif.Props.ClientState
import Verif.Lemmas.Dict
/-! Property C52: the VTN registers a VEN only as its handler decides. -/
namespace Openleadr

/-- What a registration request must name for the service to answer it (required by the schema). -/
def Complete (message : Dict) : Prop := (Dict.get? message "transport_name").isSome ∧ (Dict.get? message "profile_name").isSome

theorem profilesOf_complete {message : Dict} (h : Complete message) : ∃ p, profilesOf message = .ok p := by
  obtain ⟨t, ht⟩ := Option.isSome_iff_exists.mp h.1
  obtain ⟨p, hp⟩ := Option.isSome_iff_exists.mp h.2
  exact ⟨.list [.dict [("profile_name", p), ("transports", .list [.dict [("transport_name", t)]])]], by simp only [profilesOf, ht, hp]⟩

/-- Fields of a finished reply that the handler does not fill in stay as the service made them. -/
theorem finish_get (c : Config) (message p : Dict) (k : String) (hk : k ∉ ["vtn_id", "ven_id", "response", "request_id"]) :
    Dict.get? (finishPayload c message p) k = Dict.get? p k := by
  simp only [List.mem_cons, List.not_mem_nil, or_false, not_or] at hk
  obtain ⟨h1, h2, h3, h4⟩ := hk
  unfold finishPayload
  simp only []
  rw [Dict.get?_set_other _ _ _ _ h4, Dict.get?_set_other _ _ _ _ h3]
  cases Dict.get? message "ven_id" with
  | none => simp only []; rw [Dict.get?_set_other _ _ _ _ h1]
  | some ven =>
    simp only []
    split
    · rw [Dict.get?_set_other _ _ _ _ h1]
    · rw [Dict.get?_set_other _ _ _ _ h2, Dict.get?_set_other _ _ _ _ h1]

theorem finish_ven (c : Config) (message p : Dict) :
    Dict.get? (finishPayload c message p) "ven_id" =
      if ((Dict.get? p "ven_id").getD .none).truthy then Dict.get? p "ven_id"
      else match Dict.get? message "ven_id" with | some v => some v | none => Dict.get? p "ven_id" := by
  have hp : Dict.get? (Dict.set p "vtn_id" (.str c.vtnId)) "ven_id" = Dict.get? p "ven_id" := Dict.get?_set_other _ _ _ _ (by decide)
  unfold finishPayload
  simp only []
  rw [Dict.get?_set_other _ _ _ _ (by decide), Dict.get?_set_other _ _ _ _ (by decide)]
  cases Dict.get? message "ven_id" with
  | none => simp only [hp, ite_self]
  | some ven =>
    simp only [hp]
    split
    · exact hp
    · rw [Dict.get?_set_self]

theorem finish_code (c : Config) (message p : Dict) : codeOf ⟨finishPayload c message p, none, none, none⟩ = some (.int 200) := by
  have : Dict.get? (finishPayload c message p) "response" = some (.dict [("request_id", (Dict.get? message "request_id").getD .none),
      ("response_code", .int 200), ("response_description", .str "OK")]) := by
    unfold finishPayload
    simp only []
    rw [Dict.get?_set_other _ _ _ _ (by decide), Dict.get?_set_self]
  simp only [codeOf, this]
  rfl

/-- The reply of the service to a registration. -/
def answerTo (c : Config) (u : RegistrationUser S) (freq : Value) (s : S) (message : Dict) : Except Exn (String × Dict) :=
  (handleMessage c (registrationService u freq) s "oadrCreatePartyRegistration" message).2

theorem answerTo_eq (c : Config) (u : RegistrationUser S) (freq : Value) (s s' : S) (message : Dict) (result : Value) (p : Dict)
    (hu : u.onCreate s message = (s', .ok result)) (hp : registrationPayload freq message result = .ok p) :
    handleMessage c (registrationService u freq) s "oadrCreatePartyRegistration" message =
      (s', .ok ("oadrCreatedPartyRegistration", finishPayload c message p)) := by
  have hh : Dict.get? (registrationService u freq).handlers "oadrCreatePartyRegistration" = some (handleRegistration u freq) := by
    simp [registrationService, Dict.get?]
  unfold handleMessage
  rw [hh]
  simp only [handleRegistration, hu, hp, payloadDict]

/-- **C52**: when the user's handler accepts with a pair of ids, the reply carries exactly this registration id, this VEN id (if it is not empty), and the poll
    interval of the server. -/
theorem c52_accepted (c : Config) (u : RegistrationUser S) (freq : Value) (s s' : S) (message : Dict) (v r : Value) (hm : Complete message)
    (hu : u.onCreate s message = (s', .ok (.tuple [v, r]))) :
    ∃ p, answerTo c u freq s message = .ok ("oadrCreatedPartyRegistration", p) ∧ Dict.get? p "registration_id" = some r ∧
      (v.truthy = true → Dict.get? p "ven_id" = some v) ∧ Dict.get? p "requested_oadr_poll_freq" = some freq ∧
      codeOf ⟨p, none, none, none⟩ = some (.int 200) := by
  obtain ⟨pr, hpr⟩ := profilesOf_complete hm
  have hp : registrationPayload freq message (.tuple [v, r]) = .ok [("ven_id", v), ("registration_id", r), ("profiles", pr), ("requested_oadr_poll_freq", freq)] := by
    simp [registrationPayload, pairOf, hpr]
  refine ⟨_, by rw [answerTo, answerTo_eq c u freq s s' message _ _ hu hp], ?_, ?_, ?_, finish_code c message _⟩
  · rw [finish_get _ _ _ _ (by decide)]; simp [Dict.get?]
  · intro hv
    rw [finish_ven]
    simp [Dict.get?, hv]
  · rw [finish_get _ _ _ _ (by decide)]; simp [Dict.get?]

/-- The length of a Python value, if it has one. -/
def lengthOf : Value → Option Nat
  | .str s => some s.toList.length
  | .bytes l => some l.length
  | .list l | .tuple l => some l.length
  | .dict d => some d.length
  | _ => none

/-- The results by which a handler refuses: `False`, `None`, and anything that has another length than two. -/
def Refuses (result : Value) : Prop := result = .bool false ∨ result = .none ∨ ∃ n, lengthOf result = some n ∧ n ≠ 2

theorem pairOf_refused {result : Value} {n : Nat} (h : lengthOf result = some n) (hn : n ≠ 2) : pairOf result = .ok none := by
  have two : ∀ {α : Type} (l : List α), l.length ≠ 2 → ¬ ∃ a b, l = [a, b] := by rintro α l hl ⟨a, b, rfl⟩; exact hl rfl
  cases result <;> simp only [lengthOf, reduceCtorEq, Option.some.injEq] at h <;> subst h <;> simp only [pairOf]
  case dict d => rw [if_neg hn]
  all_goals
    split
    · first | exact absurd ⟨_, _, by assumption⟩ (two _ hn) | exact absurd rfl hn
    · rfl

theorem refused_reply (c : Config) (u : RegistrationUser S) (freq : Value) (s s' : S) (message : Dict) (result : Value) (hm : Complete message)
    (hu : u.onCreate s message = (s', .ok result)) (hr : Refuses result) :
    ∃ p, answerTo c u freq s message = .ok ("oadrCreatedPartyRegistration", p) ∧ Dict.get? p "registration_id" = none ∧
      Dict.get? p "ven_id" = Dict.get? message "ven_id" ∧ codeOf ⟨p, none, none, none⟩ = some (.int 200) := by
  obtain ⟨pr, hpr⟩ := profilesOf_complete hm
  have hp : ∃ p, registrationPayload freq message result = .ok p ∧ Dict.get? p "registration_id" = none ∧ Dict.get? p "ven_id" = none := by
    by_cases h : result = .bool false ∨ result = .none
    · exact ⟨_, by rw [registrationPayload, if_pos h, hpr], by simp [Dict.get?], by simp [Dict.get?]⟩
    · rcases hr with h1 | h1 | h1
      · exact absurd (Or.inl h1) h
      · exact absurd (Or.inr h1) h
      · obtain ⟨n, h1, hn⟩ := h1
        exact ⟨[], by rw [registrationPayload, if_neg h, pairOf_refused h1 hn], by simp [Dict.get?], by simp [Dict.get?]⟩
  obtain ⟨p, hp, h1, h2⟩ := hp
  refine ⟨_, by rw [answerTo, answerTo_eq c u freq s s' message _ _ hu hp], ?_, ?_, finish_code c message _⟩
  · rw [finish_get _ _ _ _ (by decide), h1]
  · rw [finish_ven, h2]
    simp only [Option.getD, Value.truthy]
    cases Dict.get? message "ven_id" <;> rfl

/-- **C52**: when the handler refuses, the reply carries no registration id, and no other VEN id than the request. -/
theorem c52_refused (c : Config) (u : RegistrationUser S) (freq : Value) (s s' : S) (message : Dict) (result : Value) (hm : Complete message)
    (hu : u.onCreate s message = (s', .ok result)) (hr : Refuses result) :
    ∃ p, answerTo c u freq s message = .ok ("oadrCreatedPartyRegistration", p) ∧ Dict.get? p "registration_id" = none ∧
      Dict.get? p "ven_id" = Dict.get? message "ven_id" := by
  obtain ⟨p, h1, h2, h3, _⟩ := refused_reply c u freq s s' message result hm hu hr
  exact ⟨p, h1, h2, h3⟩

/-- **C52**: a result that is neither a refusal nor two ids one after the other (a dict of two entries, or something without a length, such as `True`) is not
    answered: the service raises, and registers nobody. -/
theorem c52_raised (c : Config) (u : RegistrationUser S) (freq : Value) (s s' : S) (message : Dict) (result : Value)
    (hu : u.onCreate s message = (s', .ok result)) (hr : ¬ Refuses result) (hp : lengthOf result = none ∨ ∃ d, result = .dict d) :
    answerTo c u freq s message = .error (.other (if lengthOf result = none then .typeError else .keyError)) := by
  have hh : Dict.get? (registrationService u freq).handlers "oadrCreatePartyRegistration" = some (handleRegistration u freq) := by
    simp [registrationService, Dict.get?]
  have h0 : ¬ (result = .bool false ∨ result = .none) := fun h => hr (h.elim .inl (fun h => .inr (.inl h)))
  have hq : registrationPayload freq message result = .error (if lengthOf result = none then .typeError else .keyError) := by
    rw [registrationPayload, if_neg h0]
    rcases hp with hp | ⟨d, rfl⟩
    · rw [if_pos hp]
      cases result <;> simp only [lengthOf, reduceCtorEq] at hp <;> rfl
    · have h2 : d.length = 2 := Classical.byContradiction (fun hn => hr (.inr (.inr ⟨_, rfl, hn⟩)))
      simp only [pairOf, h2, if_true, lengthOf, reduceCtorEq, if_false]
  unfold answerTo handleMessage
  rw [hh]
  simp only [handleRegistration, hu, hq]

/-- **C52**: a server without a handler of its own registers nobody. -/
theorem c52_default (c : Config) (freq : Value) (s : S) (message : Dict) (hm : Complete message) :
    ∃ p, answerTo c (placeholderUser S) freq s message = .ok ("oadrCreatedPartyRegistration", p) ∧ Dict.get? p "registration_id" = none := by
  obtain ⟨p, h1, h2, _⟩ := c52_refused c (placeholderUser S) freq s s message (.bool false) hm rfl (Or.inl rfl)
  exact ⟨p, h1, h2⟩

/-- **C52**: a query calls none of the registration handlers and changes nothing, and its answer carries no registration id. -/
theorem c52_query (c : Config) (u : RegistrationUser S) (freq : Value) (s : S) (message : Dict) (hu : u.onQuery = none) :
    (handleMessage c (registrationService u freq) s "oadrQueryRegistration" message).1 = s ∧
    ∀ t p, (handleMessage c (registrationService u freq) s "oadrQueryRegistration" message).2 = .ok (t, p) → Dict.get? p "registration_id" = none := by
  have hh : Dict.get? (registrationService u freq).handlers "oadrQueryRegistration" = some (handleQuery u freq) := by
    simp [registrationService, Dict.get?]
  unfold handleMessage
  rw [hh]
  cases hq : Dict.get? message "request_id" with
  | none => simp [handleQuery, hu, hq]
  | some q =>
    simp only [handleQuery, hu, hq, payloadDict]
    refine ⟨trivial, ?_⟩
    intro t p h
    simp only [Except.ok.injEq, Prod.mk.injEq] at h
    rw [← h.2, finish_get _ _ _ _ (by decide)]
    simp [Dict.get?]

/-- **C52**: and a query with a request id is answered with just the profile and the transport of this VTN and its poll interval. -/
theorem c52_query_answer (c : Config) (u : RegistrationUser S) (freq : Value) (s : S) (message : Dict) (q : Value) (hu : u.onQuery = none)
    (hq : Dict.get? message "request_id" = some q) :
    ∃ p, handleMessage c (registrationService u freq) s "oadrQueryRegistration" message = (s, .ok ("oadrCreatedPartyRegistration", p)) ∧
      Dict.get? p "profiles" =
        some (.list [.dict [("profile_name", .str "2.0b"), ("transports", .list [.dict [("transport_name", .str "simpleHttp")]])]]) ∧
      Dict.get? p "requested_oadr_poll_freq" = some freq ∧ Dict.get? p "vtn_id" = some (.str c.vtnId) ∧
      Dict.get? p "response" = some (.dict [("request_id", q), ("response_code", .int 200), ("response_description", .str "OK")]) := by
  have hh : Dict.get? (registrationService u freq).handlers "oadrQueryRegistration" = some (handleQuery u freq) := by
    simp [registrationService, Dict.get?]
  unfold handleMessage
  rw [hh]
  simp only [handleQuery, hu, hq, payloadDict]
  refine ⟨_, rfl, ?_, ?_, ?_, ?_⟩
  · rw [finish_get _ _ _ _ (by decide)]; simp [Dict.get?]
  · rw [finish_get _ _ _ _ (by decide)]; simp [Dict.get?]
  · unfold finishPayload
    simp only []
    rw [Dict.get?_set_other _ _ _ _ (by decide), Dict.get?_set_other _ _ _ _ (by decide)]
    split
    · split
      · rw [Dict.get?_set_self]
      · rw [Dict.get?_set_other _ _ _ _ (by decide), Dict.get?_set_self]
    · rw [Dict.get?_set_self]
  · unfold finishPayload
    simp only []
    rw [Dict.get?_set_other _ _ _ _ (by decide), Dict.get?_set_self, hq]
    rfl

/-- **C52**, both sides: when the VEN gets the reply of the service (the wire leaving it as it is), then it ends up with the ids that the handler decided on,
    and with the poll interval of the server. -/
theorem c52_both_sides (c : Config) (u : RegistrationUser S) (freq : Value) (s s' : S) (message : Dict) (v r : Value) (hm : Complete message)
    (hu : u.onCreate s message = (s', .ok (.tuple [v, r]))) (hv : v.truthy = true) (hr : r.truthy = true)
    (w : World) (ven : Client) (old : Value)
    (hw : ∀ t p, answerTo c u freq s message = .ok (t, p) → w.net ven.log.length = some (some t, ⟨p, none, none, none⟩)) :
    (createPartyRegistration w ven old).2 = .ok () ∧ (createPartyRegistration w ven old).1.venId = v ∧
    (createPartyRegistration w ven old).1.registrationId = r ∧ (createPartyRegistration w ven old).1.pollFrequency = freq := by
  obtain ⟨p, h1, h2, h3, h4, h5⟩ := c52_accepted c u freq s s' message v r hm hu
  obtain ⟨k1, k2, k3, k4, _⟩ := c50_registered w ven old _ _ (hw _ _ h1) h5
  refine ⟨k1, ?_, ?_, ?_⟩
  · rw [k2]; simp [fieldOf, h3 hv, Option.filter, hv]
  · rw [k3]; simp [fieldOf, h2, Option.filter, hr]
  · rw [k4 (by simp [fieldOf, h2, Option.filter, hr])]; simp [h4]

/-- **C52**, both sides: when the handler refuses, the VEN is not registered. -/
theorem c52_both_sides_refused (c : Config) (u : RegistrationUser S) (freq : Value) (s s' : S) (message : Dict) (result : Value) (hm : Complete message)
    (hu : u.onCreate s message = (s', .ok result)) (hr : Refuses result) (w : World) (ven : Client) (old : Value)
    (hw : ∀ t p, answerTo c u freq s message = .ok (t, p) → w.net ven.log.length = some (some t, ⟨p, none, none, none⟩)) :
    (createPartyRegistration w ven old).1.registrationId = .none := by
  obtain ⟨p, h1, h2, _, h5⟩ := refused_reply c u freq s s' message result hm hu hr
  obtain ⟨_, _, k3, _⟩ := c50_registered w ven old _ _ (hw _ _ h1) h5
  rw [k3]
  simp [fieldOf, h2]

/-- **C52, refuted** for "carries an error": a refusal is answered with the response code 200, OK. -/
theorem c52_no_error_violated (c : Config) (u : RegistrationUser S) (freq : Value) (s s' : S) (message : Dict) (result : Value) (hm : Complete message)
    (hu : u.onCreate s message = (s', .ok result)) (hr : Refuses result) :
    ∃ t p, answerTo c u freq s message = .ok (t, p) ∧ codeOf ⟨p, none, none, none⟩ = some (.int 200) := by
  obtain ⟨p, h1, _, _, h5⟩ := refused_reply c u freq s s' message result hm hu hr
  exact ⟨_, p, h1, h5⟩

/-- **C52, refuted** for a handler that returns a text of two characters (such as `'no'`): its characters are taken for the ids, and the VEN is registered. -/
theorem c52_text_violated (c : Config) (u : RegistrationUser S) (freq : Value) (s s' : S) (message : Dict) (a b : Char) (hm : Complete message)
    (hu : u.onCreate s message = (s', .ok (.str (String.ofList [a, b])))) :
    ∃ p, answerTo c u freq s message = .ok ("oadrCreatedPartyRegistration", p) ∧ Dict.get? p "ven_id" = some (.str (String.ofList [a])) ∧
      Dict.get? p "registration_id" = some (.str (String.ofList [b])) := by
  obtain ⟨pr, hpr⟩ := profilesOf_complete hm
  have hp : registrationPayload freq message (.str (String.ofList [a, b])) =
      .ok [("ven_id", .str (String.ofList [a])), ("registration_id", .str (String.ofList [b])), ("profiles", pr), ("requested_oadr_poll_freq", freq)] := by
    have : pairOf (.str (String.ofList [a, b])) = .ok (some (.str (String.ofList [a]), .str (String.ofList [b]))) := by simp [pairOf]
    simp only [registrationPayload, this, hpr, reduceCtorEq, or_self, if_false]
  refine ⟨_, by rw [answerTo, answerTo_eq c u freq s s' message _ _ hu hp], ?_, ?_⟩
  · have : (Value.str (String.ofList [a])).truthy = true := by simp [Value.truthy]
    revert this
    generalize Value.str (String.ofList [a]) = v
    intro this
    rw [finish_ven]
    simp [Dict.get?, this]
  · rw [finish_get _ _ _ _ (by decide)]; simp [Dict.get?]

/-- Beside it: a server that registers the VEN named `good` and refuses the others. -/
example :
    let c : Config := ⟨"VTN", false, none, none, fun _ => .error .invalidSignature, fun _ => .error .invalidSignature, fun _ _ => .ok "", "id"⟩
    let u : RegistrationUser Nat := ⟨fun n m => (n + 1, .ok (if Dict.get? m "ven_name" = some (.str "good") then .tuple [.str "v1", .str "r1"] else .bool false)),
      fun n _ => (n, .ok .nothing), none⟩
    let m (name : String) : Dict := [("ven_name", .str name), ("transport_name", .str "simpleHttp"), ("profile_name", .str "2.0b"), ("request_id", .str "q")]
    (∃ p, answerTo c u (.timedelta 10000000) 0 (m "good") = .ok ("oadrCreatedPartyRegistration", p) ∧ Dict.get? p "registration_id" = some (.str "r1")) ∧
    (∃ p, answerTo c u (.timedelta 10000000) 0 (m "bad") = .ok ("oadrCreatedPartyRegistration", p) ∧ Dict.get? p "registration_id" = none) := by
  exact ⟨⟨_, rfl, by decide +kernel⟩, ⟨_, rfl, by decide +kernel⟩⟩

/-- A handler that returns `True`, or a dict with the two ids. -/
example (c : Config) (u : RegistrationUser Nat) (m : Dict) (h : u.onCreate 0 m = (1, .ok (.dict [("ven_id", .str "v1"), ("registration_id", .str "r1")]))) :
    answerTo c u (.timedelta 10000000) 0 m = .error (.other .keyError) :=
  c52_raised c u _ 0 1 m _ h (by simp [Refuses, lengthOf]) (.inr ⟨_, rfl⟩)
example (c : Config) (u : RegistrationUser Nat) (m : Dict) (h : u.onCreate 0 m = (1, .ok (.bool true))) :
    answerTo c u (.timedelta 10000000) 0 m = .error (.other .typeError) :=
  c52_raised c u _ 0 1 m _ h (by simp [Refuses, lengthOf]) (.inl rfl)

end Openleadr
