import Verif.Model.Services
import Verif.Spec.Client
import Verif.Lemmas.Dict
/-!
C80: every message of the VEN finds its handler. C81: a registered handler is used.
-/
namespace Openleadr

/-! ### Slashes -/

theorem stripSlashes_slashes (t : List Char) (n : Nat) : stripSlashes (t ++ List.replicate n '/') = stripSlashes t := by
  unfold stripSlashes
  rw [List.reverse_append, List.reverse_replicate]
  congr 1
  induction n with
  | zero => rfl
  | succ n ih => rw [List.replicate_succ, List.cons_append, List.dropWhile_cons]; simpa using ih

/-- What ends in something else than a slash stays, and only the slashes behind it are removed. -/
theorem stripSlashes_append (a b : List Char) (h : a.getLast? ≠ some '/') : stripSlashes (a ++ b) = a ++ stripSlashes b := by
  unfold stripSlashes
  rw [List.reverse_append, List.dropWhile_append]
  split
  · rename_i he
    have he' : b.reverse.dropWhile (· == '/') = [] := by simpa using he
    rw [he', List.reverse_nil, List.append_nil]
    cases hr : a.reverse with
    | nil => simp at hr; simp [hr]
    | cons c l =>
      have hl : a.getLast? = some c := by rw [← List.head?_reverse, hr]; rfl
      have hc : (c == '/') = false := by
        rw [hl] at h
        simpa using h
      rw [List.dropWhile_cons, hc]
      simp [← hr]
  · simp

/-- The path of a request is the prefix of the server, without slashes at its end, and the name of the service. -/
theorem path_of_request (origin p : List Char) (service : String) (h : origin.getLast? ≠ some '/') :
    pathOf origin (clientUrl (origin ++ p) service) = stripSlashes p ++ '/' :: service.toList := by
  simp [pathOf, clientUrl, stripSlashes_append origin p h]

/-! ### Handlers of a class -/

/-- The method that a class has for a type: the last one, in the order of `dir`, with that mark. -/
def lastMarked (ms : List Method) (type : String) : Option String :=
  ((ms.filter (fun m => decide (m.marked = some type))).getLast?).map Method.name

theorem collect_from (ms : List Method) (d : List (String × String)) (type : String) :
    Dict.get? (ms.foldl collectHandler d) type = (lastMarked ms type).or (Dict.get? d type) := by
  induction ms generalizing d with
  | nil => simp [lastMarked]
  | cons m ms ih =>
    rw [List.foldl_cons, ih]
    unfold collectHandler
    cases hm : m.marked with
    | none => simp [lastMarked, hm]
    | some t =>
      by_cases ht : t = type
      · subst ht
        simp only [lastMarked, List.filter_cons, hm, decide_true, if_true, Dict.get?_set_self, List.getLast?_cons, Option.map_some]
        cases (List.filter (fun m => decide (m.marked = some t)) ms).getLast? <;> simp
      · simp [lastMarked, hm, ht, Dict.get?_set_other _ _ _ _ (Ne.symm ht)]

/-- **C80**: a service has a handler for a type exactly if one of its methods is marked with it; if several are, it is the last one by name. -/
theorem c80_marked (ms : List Method) (type : String) : Dict.get? (collectHandlers ms) type = lastMarked ms type := by
  rw [collectHandlers, collect_from]; cases lastMarked ms type <;> rfl

example : lastMarked [⟨"a", some "oadrPoll"⟩, ⟨"b", none⟩, ⟨"c", some "oadrPoll"⟩] "oadrPoll" = some "c" := by decide +kernel

/-! ### Routes -/

/-- The paths of different services are different. -/
theorem serverClasses_names : (serverClasses.map (fun s => s.name.toList)).Nodup := by decide +kernel

theorem find_route (p : List Char) (l : List ServiceClass) (name : String) :
    (l.map (fun s => (p ++ '/' :: s.name.toList, s))).find? (fun r => r.1 == p ++ '/' :: name.toList) =
      (l.find? (fun s => decide (s.name = name))).map (fun s => (p ++ '/' :: s.name.toList, s)) := by
  induction l with
  | nil => rfl
  | cons s l ih =>
    simp only [List.map_cons, List.find?_cons]
    by_cases h : s.name = name
    · simp [h]
    · have hne : (p ++ '/' :: s.name.toList == p ++ '/' :: name.toList) = false := by
        simpa [String.toList_inj] using h
      rw [hne, ih]
      simp [h]

/-- Both sides are configured with the same place: after scheme, host and port, the same path up to slashes at the end. -/
structure SamePlace (origin urlPath pathPrefix : List Char) : Prop where
  origin : origin.getLast? ≠ some '/'
  path : stripSlashes urlPath = stripSlashes pathPrefix

/-- What is to be found among the services: the one of that name, and its last method with that mark. -/
def foundAmong (services : List ServiceClass) (service type : String) : Found :=
  match services.find? (fun s => decide (s.name = service)) with
  | none => .nowhere
  | some s =>
    match lastMarked s.methods type with
    | none => .unhandled s.name
    | some m => .method s.name m

/-- What is found at the place where the client sends something. -/
theorem found_at {origin urlPath pathPrefix : List Char} {services : List ServiceClass} {routes : List (List Char × ServiceClass)}
    (same : SamePlace origin urlPath pathPrefix) (h : makeRoutes pathPrefix services = .ok routes) (service type : String) :
    findHandler routes (pathOf origin (clientUrl (origin ++ urlPath) service)) type = foundAmong services service type := by
  have hr : routes = services.map (fun s => (stripSlashes pathPrefix ++ '/' :: s.name.toList, s)) := by
    unfold makeRoutes at h
    dsimp only at h
    split at h
    · exact (Except.ok.inj h).symm
    · cases h
  unfold findHandler foundAmong
  rw [path_of_request _ _ _ same.origin, same.path, hr, find_route]
  cases services.find? (fun s => decide (s.name = service)) with
  | none => rfl
  | some s =>
    simp only [Option.map_some, c80_marked]
    cases lastMarked s.methods type <;> rfl

/-- The method that is meant to handle each type of message, by the names of the methods. -/
def meantFor : List (String × String) :=
  [("oadrPoll", "poll"), ("oadrQueryRegistration", "query_registration"), ("oadrCreatePartyRegistration", "create_party_registration"),
   ("oadrCancelPartyRegistration", "cancel_party_registration"), ("oadrRequestEvent", "request_event"), ("oadrCreatedEvent", "created_event"),
   ("oadrRegisterReport", "register_report"), ("oadrCreatedReport", "created_report"), ("oadrRegisteredReport", "registered_report"),
   ("oadrUpdateReport", "update_report")]

theorem found_table : ∀ x ∈ [("OadrPoll", "oadrPoll"), ("EiRegisterParty", "oadrQueryRegistration"), ("EiRegisterParty", "oadrCreatePartyRegistration"),
    ("EiRegisterParty", "oadrCancelPartyRegistration"), ("EiEvent", "oadrRequestEvent"), ("EiEvent", "oadrCreatedEvent"),
    ("EiReport", "oadrRegisterReport"), ("EiReport", "oadrCreatedReport"), ("EiReport", "oadrRegisteredReport"), ("EiReport", "oadrUpdateReport")],
    ∀ name, Dict.get? meantFor x.2 = some name → foundAmong serverClasses x.1 x.2 = .method x.1 name := by
  have h : ∀ x ∈ [("OadrPoll", "oadrPoll"), ("EiRegisterParty", "oadrQueryRegistration"), ("EiRegisterParty", "oadrCreatePartyRegistration"),
    ("EiRegisterParty", "oadrCancelPartyRegistration"), ("EiEvent", "oadrRequestEvent"), ("EiEvent", "oadrCreatedEvent"),
    ("EiReport", "oadrRegisterReport"), ("EiReport", "oadrCreatedReport"), ("EiReport", "oadrRegisteredReport"), ("EiReport", "oadrUpdateReport")],
    ∃ name, Dict.get? meantFor x.2 = some name ∧ foundAmong serverClasses x.1 x.2 = .method x.1 name := by
    intro x hx
    have : ((Dict.get? meantFor x.2).map (fun name => decide (foundAmong serverClasses x.1 x.2 = .method x.1 name))).getD false = true := by
      revert x; decide +kernel
    cases hn : Dict.get? meantFor x.2 with
    | none => rw [hn] at this; cases this
    | some name => rw [hn] at this; exact ⟨name, rfl, by simpa using this⟩
  intro x hx name hn
  obtain ⟨name', h1, h2⟩ := h x hx
  rw [hn] at h1
  rw [h2, Option.some.inj h1]

/-- **C80** (partial: for the types that the VTN handles; the others are refuted below). Wherever the server is mounted, a message that the client sends
    reaches the method that is meant for it. An oadrResponse is not looked up (C40). -/
theorem c80_reaches_partial {origin urlPath pathPrefix : List Char} {routes : List (List Char × ServiceClass)}
    (same : SamePlace origin urlPath pathPrefix) (h : makeRoutes pathPrefix serverClasses = .ok routes) (m : Outgoing) {name : String}
    (hm : Dict.get? meantFor m.kind = some name) :
    findHandler routes (pathOf origin (clientUrl (origin ++ urlPath) m.service)) m.kind = .method m.service name := by
  rw [found_at same h]
  by_cases hx : (m.service, m.kind) ∈ [("OadrPoll", "oadrPoll"), ("EiRegisterParty", "oadrQueryRegistration"),
    ("EiRegisterParty", "oadrCreatePartyRegistration"), ("EiRegisterParty", "oadrCancelPartyRegistration"), ("EiEvent", "oadrRequestEvent"),
    ("EiEvent", "oadrCreatedEvent"), ("EiReport", "oadrRegisterReport"), ("EiReport", "oadrCreatedReport"), ("EiReport", "oadrRegisteredReport"),
    ("EiReport", "oadrUpdateReport")]
  · exact found_table _ hx name hm
  · exfalso
    cases m <;> simp [Outgoing.kind, Outgoing.service] at hx <;> simp [Outgoing.kind, meantFor, Dict.get?] at hm

/-- **C80**: and so do the reports (client.py:982-989). -/
theorem c80_reports_reach {origin urlPath pathPrefix : List Char} {routes : List (List Char × ServiceClass)}
    (same : SamePlace origin urlPath pathPrefix) (h : makeRoutes pathPrefix serverClasses = .ok routes) :
    findHandler routes (pathOf origin (clientUrl (origin ++ urlPath) "EiReport")) "oadrUpdateReport" = .method "EiReport" "update_report" := by
  rw [found_at same h]
  exact found_table ("EiReport", "oadrUpdateReport") (by simp) _ (by decide +kernel)

/-- **C80** for acknowledgements: the client sends them to the service of registrations, where they arrive; no method handles them (the handler of requests
    ends at once, openleadr/service/vtn_service.py:65-66). -/
theorem c80_acknowledgements {origin urlPath pathPrefix : List Char} {routes : List (List Char × ServiceClass)}
    (same : SamePlace origin urlPath pathPrefix) (h : makeRoutes pathPrefix serverClasses = .ok routes) (m : Outgoing)
    (hm : m.kind = "oadrResponse") :
    findHandler routes (pathOf origin (clientUrl (origin ++ urlPath) m.service)) m.kind = .unhandled "EiRegisterParty" := by
  rw [found_at same h]
  have hs : m.service = "EiRegisterParty" := by cases m <;> simp [Outgoing.kind, Outgoing.service] at hm ⊢
  rw [hs, hm]
  decide +kernel

/-- **C80, refuted** for opts: wherever the server is mounted, there is nothing at the address where the client sends the creation and the cancellation of
    an opt (HTTP 404). -/
theorem c80_opts_violated {origin urlPath pathPrefix : List Char} {routes : List (List Char × ServiceClass)}
    (same : SamePlace origin urlPath pathPrefix) (h : makeRoutes pathPrefix serverClasses = .ok routes) (m : Outgoing)
    (hm : m.kind = "oadrCreateOpt" ∨ m.kind = "oadrCancelOpt") :
    findHandler routes (pathOf origin (clientUrl (origin ++ urlPath) m.service)) m.kind = .nowhere := by
  rw [found_at same h]
  have hs : m.service = "EiOpt" := by cases m <;> simp [Outgoing.kind, Outgoing.service] at hm ⊢
  unfold foundAmong
  rw [hs, show serverClasses.find? (fun s => decide (s.name = "EiOpt")) = none by decide +kernel]

/-- **C80, refuted** for confirmations of cancellations: the VTN answers the client's oadrCanceledPartyRegistration and oadrCanceledReport with an error, since
    no service has a method for them. -/
theorem c80_confirmations_violated {origin urlPath pathPrefix : List Char} {routes : List (List Char × ServiceClass)}
    (same : SamePlace origin urlPath pathPrefix) (h : makeRoutes pathPrefix serverClasses = .ok routes) (m : Outgoing)
    (hm : m.kind = "oadrCanceledPartyRegistration" ∨ m.kind = "oadrCanceledReport") :
    findHandler routes (pathOf origin (clientUrl (origin ++ urlPath) m.service)) m.kind = .unhandled m.service := by
  rw [found_at same h]
  have ht : foundAmong serverClasses "EiRegisterParty" "oadrCanceledPartyRegistration" = .unhandled "EiRegisterParty" ∧
    foundAmong serverClasses "EiReport" "oadrCanceledReport" = .unhandled "EiReport" := by decide +kernel
  cases m <;> simp [Outgoing.kind] at hm
  · exact ht.1
  · exact ht.2

/-- **C80, refuted**: an opt that is created with this library's own VTN is never acknowledged, though the client remembers it. -/
theorem c80_opt_unacknowledged_violated (w : World) (fresh : Value) (c : Client) (a : OptArgs) (opt : Dict) (ho : makeOpt fresh a = .ok opt)
    (hn : w.net c.log.length = some (none, noPayload)) :
    (createOpt w fresh c a).2 = .ok (.bool false) ∧ (createOpt w fresh c a).1.opts = c.opts ++ [opt] := by
  simp [createOpt, ho, perform, hn, checkAnswer, unpack, noPayload, Dict.get?]

/-- The server can be mounted at every path that begins with a slash, and at the root. -/
theorem c80_mounted (p : List Char) (services : List ServiceClass) :
    (∃ routes, makeRoutes p services = .ok routes) ↔ (p.head? = some '/' ∨ p = []) := by
  have hh : ((stripSlashes p).head? = none ∨ (stripSlashes p).head? = some '/') ↔ (p.head? = some '/' ∨ p = []) := by
    cases p with
    | nil => simp [stripSlashes]
    | cons c l =>
      by_cases hc : c = '/'
      · subst hc
        have : (stripSlashes ('/' :: l)).head? = none ∨ (stripSlashes ('/' :: l)).head? = some '/' := by
          unfold stripSlashes
          rw [List.reverse_cons, List.dropWhile_append]
          split
          · simp
          · simp
        exact ⟨fun _ => Or.inl rfl, fun _ => this⟩
      · have : stripSlashes (c :: l) = c :: stripSlashes l := by
          have := stripSlashes_append [c] l (by simp [hc])
          simpa using this
        simp [this, hc]
  rw [← hh]
  unfold makeRoutes
  dsimp only
  split
  · rename_i h; exact ⟨fun _ => h, fun _ => ⟨_, rfl⟩⟩
  · rename_i h; exact ⟨fun ⟨_, hr⟩ => (by cases hr), fun h' => absurd h' h⟩

/-- Not empty: a server at the usual prefix and a client whose address ends in two slashes. -/
example : ∃ routes, makeRoutes "/OpenADR2/Simple/2.0b/".toList serverClasses = .ok routes ∧
    SamePlace "http://localhost:8080".toList "/OpenADR2/Simple/2.0b//".toList "/OpenADR2/Simple/2.0b/".toList ∧
    findHandler routes (pathOf "http://localhost:8080".toList
      (clientUrl "http://localhost:8080/OpenADR2/Simple/2.0b//".toList "OadrPoll")) "oadrPoll" = .method "OadrPoll" "poll" ∧
    findHandler routes "/OpenADR2/Simple/2.0b/EiOpt".toList "oadrCreateOpt" = .nowhere :=
  ⟨_, rfl, ⟨by decide +kernel, by decide +kernel⟩, by decide +kernel, by decide +kernel⟩

/-! ### Handlers of the user -/

/-- The handler that was registered last under a name. -/
def lastRegistered (l : List (String × Nat)) (name : String) : Option Nat := ((l.filter (fun x => decide (x.1 = name))).getLast?).map Prod.snd

/-- What is set after some calls. -/
theorem attr_addHandler (h : Handlers) (name : String) (f : Nat) (service other : String) :
    (addHandler h name f).1.attr service other =
      if other = name ∧ Dict.get? handlerMap name = some service then some f else h.attr service other := by
  unfold addHandler
  cases hm : Dict.get? handlerMap name with
  | none => simp
  | some s =>
    have key : (Dict.get? (Dict.set h.attrs s (Dict.set ((Dict.get? h.attrs s).getD []) name f)) service).bind (Dict.get? · other) =
        if other = name ∧ some s = some service then some f else (Dict.get? h.attrs service).bind (Dict.get? · other) := by
      by_cases hs : service = s
      · subst hs
        rw [Dict.get?_set_self]
        simp only [Option.bind_some, and_true]
        by_cases ho : other = name
        · subst ho; simp [Dict.get?_set_self]
        · rw [Dict.get?_set_other _ _ _ _ ho, if_neg ho]
          cases Dict.get? h.attrs service <;> simp [Dict.get?]
      · rw [Dict.get?_set_other _ _ _ _ hs, if_neg (by simp [Ne.symm hs])]
    dsimp only
    split <;> exact key

theorem attr_addHandlers (h : Handlers) (l : List (String × Nat)) (service name : String) (hs : Dict.get? handlerMap name = some service) :
    (addHandlers h l).attr service name = (lastRegistered l name).or (h.attr service name) := by
  induction l generalizing h with
  | nil => simp [addHandlers, lastRegistered]
  | cons x l ih =>
    obtain ⟨n, f⟩ := x
    rw [addHandlers, ih, attr_addHandler]
    by_cases hn : name = n
    · subst hn
      simp only [hs, and_self, if_true, lastRegistered, List.filter_cons, decide_true, List.getLast?_cons, Option.map_some]
      cases (List.filter (fun x => decide (x.1 = name)) l).getLast? <;> simp
    · simp [hn, lastRegistered, Ne.symm hn]

theorem external_addHandlers (h : Handlers) (l : List (String × Nat)) :
    (addHandlers h l).pollExternal = (h.pollExternal || (l.any (fun x => decide (x.1 = "on_poll")))) ∧
    (addHandlers h l).eventExternal = (h.eventExternal || (l.any (fun x => decide (x.1 = "on_poll")))) := by
  induction l generalizing h with
  | nil => simp [addHandlers]
  | cons x l ih =>
    obtain ⟨n, f⟩ := x
    rw [addHandlers, (ih _).1, (ih _).2]
    by_cases hn : n = "on_poll"
    · subst hn
      have : (addHandler h "on_poll" f).1.pollExternal = true ∧ (addHandler h "on_poll" f).1.eventExternal = true := by
        have hk : Dict.get? handlerMap "on_poll" = some "poll_service" := by decide +kernel
        simp [addHandler, hk]
      simp [this]
    · have : (addHandler h n f).1.pollExternal = h.pollExternal ∧ (addHandler h n f).1.eventExternal = h.eventExternal := by
        unfold addHandler
        cases Dict.get? handlerMap n <;> simp [hn]
      simp [this, hn]

/-- The types of messages and the handler that is documented for each (openleadr/server.py:344-348). -/
def handlerFor : List (String × String) :=
  [("oadrRegisterReport", "on_register_report"), ("oadrUpdateReport", "on_update_report"), ("oadrCreatedReport", "on_created_report"),
   ("oadrQueryRegistration", "on_query_registration"), ("oadrCreatePartyRegistration", "on_create_party_registration"),
   ("oadrCancelPartyRegistration", "on_cancel_party_registration"), ("oadrRequestEvent", "on_request_event"), ("oadrCreatedEvent", "on_created_event"),
   ("oadrPoll", "on_poll")]

theorem attr_new (service name : String) : newHandlers.attr service name = none := by
  unfold Handlers.attr
  cases h : Dict.get? newHandlers.attrs service with
  | none => rfl
  | some d =>
    have hm := Dict.mem_of_get? _ _ _ h
    have hd : ∀ x ∈ newHandlers.attrs, x.2 = [] := by decide +kernel
    have he : d = [] := hd _ hm
    rw [he]; rfl

theorem runAttr_after (l : List (String × Nat)) (service name : String) (hs : Dict.get? handlerMap name = some service) :
    runAttr (addHandlers newHandlers l) service name = match lastRegistered l name with | some f => .own f | none => .default name := by
  rw [runAttr, attr_addHandlers _ _ _ _ hs, attr_new, Option.or_none]
  cases lastRegistered l name <;> rfl

/-- **C81**: for messages about reports and registrations, whatever was registered before, the handler that runs is the one registered last under its name;
    without one it is the library's own, if there is one. Values of reports: as long as no callback is registered. -/
theorem c81_last_one_runs_partial (l : List (String × Nat)) {type name : String} (callbacks : Bool) (ht : (type, name) ∈ handlerFor)
    (he : type ≠ "oadrRequestEvent" ∧ type ≠ "oadrCreatedEvent" ∧ type ≠ "oadrPoll") (hc : type = "oadrUpdateReport" → callbacks = false) (f : Nat) :
    runsFor (addHandlers newHandlers l) callbacks type = .own f ↔ lastRegistered l name = some f := by
  have hk : ∀ x ∈ handlerFor, (Dict.get? handlerMap x.2).isSome := by decide +kernel
  have k1 : Dict.get? handlerMap "on_register_report" = some "report_service" := by decide +kernel
  have k2 : Dict.get? handlerMap "on_update_report" = some "report_service" := by decide +kernel
  have k3 : Dict.get? handlerMap "on_created_report" = some "report_service" := by decide +kernel
  have k4 : Dict.get? handlerMap "on_query_registration" = some "registration_service" := by decide +kernel
  have k5 : Dict.get? handlerMap "on_create_party_registration" = some "registration_service" := by decide +kernel
  have k6 : Dict.get? handlerMap "on_cancel_party_registration" = some "registration_service" := by decide +kernel
  simp only [handlerFor, List.mem_cons, Prod.mk.injEq, List.not_mem_nil, or_false] at ht
  rcases ht with h | h | h | h | h | h | h | h | h <;> obtain ⟨rfl, rfl⟩ := h
  · simp only [runsFor, String.reduceEq, if_false, if_true, runAttr_after l _ _ k1]; cases lastRegistered l "on_register_report" <;> simp
  · simp only [runsFor, String.reduceEq, if_false, if_true, hc, Bool.false_eq_true, runAttr_after l _ _ k2]
    cases lastRegistered l "on_update_report" <;> simp
  · simp only [runsFor, String.reduceEq, if_false, if_true, runAttr_after l _ _ k3]; cases lastRegistered l "on_created_report" <;> simp
  · simp only [runsFor, String.reduceEq, if_false, if_true, attr_addHandlers _ l _ _ k4, attr_new, Option.or_none]
    cases lastRegistered l "on_query_registration" <;> simp
  · simp only [runsFor, String.reduceEq, if_false, if_true, runAttr_after l _ _ k5]; cases lastRegistered l "on_create_party_registration" <;> simp
  · simp only [runsFor, String.reduceEq, if_false, if_true, runAttr_after l _ _ k6]; cases lastRegistered l "on_cancel_party_registration" <;> simp
  · exact absurd rfl he.1
  · exact absurd rfl he.2.1
  · exact absurd rfl he.2.2

theorem any_lastRegistered (l : List (String × Nat)) (name : String) :
    l.any (fun x => decide (x.1 = name)) = (lastRegistered l name).isSome := by
  unfold lastRegistered
  rw [Option.isSome_map]
  induction l with
  | nil => rfl
  | cons x l ih => by_cases h : x.1 = name <;> simp [h, ih, List.getLast?_cons]

/-- **C81**: for events and polls, the handler registered last runs if and only if an `on_poll` handler was registered, too. -/
theorem c81_events_exactly_partial (l : List (String × Nat)) {type name : String} (callbacks : Bool) (ht : (type, name) ∈ handlerFor)
    (he : type = "oadrRequestEvent" ∨ type = "oadrCreatedEvent" ∨ type = "oadrPoll") (f : Nat) :
    runsFor (addHandlers newHandlers l) callbacks type = .own f ↔
      lastRegistered l name = some f ∧ (lastRegistered l "on_poll").isSome := by
  have hx := external_addHandlers newHandlers l
  rw [any_lastRegistered] at hx
  have hn : newHandlers.pollExternal = false ∧ newHandlers.eventExternal = false := ⟨rfl, rfl⟩
  simp only [hn, Bool.false_or] at hx
  have k1 : Dict.get? handlerMap "on_request_event" = some "event_service" := by decide +kernel
  have k2 : Dict.get? handlerMap "on_created_event" = some "event_service" := by decide +kernel
  have k3 : Dict.get? handlerMap "on_poll" = some "poll_service" := by decide +kernel
  rcases he with h | h | h <;> subst h <;> simp [handlerFor] at ht <;> subst ht
  · simp only [runsFor, if_true, hx.2, runAttr_after l _ _ k1]
    cases (lastRegistered l "on_poll").isSome <;> cases lastRegistered l "on_request_event" <;> simp
  · simp only [runsFor, String.reduceEq, if_false, if_true, hx.2, runAttr_after l _ _ k2]
    cases (lastRegistered l "on_poll").isSome <;> cases lastRegistered l "on_created_event" <;> simp
  · simp only [runsFor, String.reduceEq, if_false, if_true, hx.1, runAttr_after l _ _ k3]
    cases lastRegistered l "on_poll" <;> simp

/-- **C81**: without a handler of the user the library's own runs where there is one; polls, and events as long as polls are the library's, are
    handled by the server itself, and so are queries. -/
theorem c81_otherwise (l : List (String × Nat)) {type name : String} (callbacks : Bool) (ht : (type, name) ∈ handlerFor)
    (hn : lastRegistered l name = none) :
    runsFor (addHandlers newHandlers l) callbacks type =
      if type = "oadrPoll" ∨ type = "oadrQueryRegistration" ∨ (type = "oadrUpdateReport" ∧ callbacks = true) ∨
        ((type = "oadrRequestEvent" ∨ type = "oadrCreatedEvent") ∧ lastRegistered l "on_poll" = none) then .nobody else .default name := by
  have hx := external_addHandlers newHandlers l
  rw [any_lastRegistered] at hx
  have hn' : newHandlers.pollExternal = false ∧ newHandlers.eventExternal = false := ⟨rfl, rfl⟩
  simp only [hn', Bool.false_or] at hx
  have k1 : Dict.get? handlerMap "on_register_report" = some "report_service" := by decide +kernel
  have k2 : Dict.get? handlerMap "on_update_report" = some "report_service" := by decide +kernel
  have k3 : Dict.get? handlerMap "on_created_report" = some "report_service" := by decide +kernel
  have k4 : Dict.get? handlerMap "on_query_registration" = some "registration_service" := by decide +kernel
  have k5 : Dict.get? handlerMap "on_create_party_registration" = some "registration_service" := by decide +kernel
  have k6 : Dict.get? handlerMap "on_cancel_party_registration" = some "registration_service" := by decide +kernel
  have k7 : Dict.get? handlerMap "on_request_event" = some "event_service" := by decide +kernel
  have k8 : Dict.get? handlerMap "on_created_event" = some "event_service" := by decide +kernel
  simp only [handlerFor, List.mem_cons, Prod.mk.injEq, List.not_mem_nil, or_false] at ht
  rcases ht with h | h | h | h | h | h | h | h | h <;> obtain ⟨rfl, rfl⟩ := h
  · simp [runsFor, runAttr_after l _ _ k1, hn]
  · simp [runsFor, runAttr_after l _ _ k2, hn]
  · simp [runsFor, runAttr_after l _ _ k3, hn]
  · simp [runsFor, attr_addHandlers _ l _ _ k4, attr_new, hn]
  · simp [runsFor, runAttr_after l _ _ k5, hn]
  · simp [runsFor, runAttr_after l _ _ k6, hn]
  · simp only [runsFor, if_true, hx.2, runAttr_after l _ _ k7, hn]
    cases lastRegistered l "on_poll" <;> simp
  · simp only [runsFor, String.reduceEq, if_false, if_true, hx.2, runAttr_after l _ _ k8, hn]
    cases lastRegistered l "on_poll" <;> simp
  · simp [runsFor, hx.1, hn]

/-- **C81, refuted** for `on_request_event` and `on_created_event` alone: without an `on_poll` handler they are registered but never run. -/
theorem c81_events_alone_violated (l : List (String × Nat)) (hp : lastRegistered l "on_poll" = none) (callbacks : Bool) :
    runsFor (addHandlers newHandlers l) callbacks "oadrRequestEvent" = .nobody ∧
    runsFor (addHandlers newHandlers l) callbacks "oadrCreatedEvent" = .nobody := by
  have hx := external_addHandlers newHandlers l
  rw [any_lastRegistered, hp] at hx
  have : (addHandlers newHandlers l).eventExternal = false := hx.2
  simp [runsFor, this]

/-- **C81, refuted** for `on_update_report`: once any VEN's report has a callback, it does not run any more, for no VEN. -/
theorem c81_reports_violated (l : List (String × Nat)) : runsFor (addHandlers newHandlers l) true "oadrUpdateReport" = .nobody := by
  simp [runsFor]

/-- **C81, refuted** for `on_create_report` and `on_request_report`: they can be registered, but no message makes them run. -/
theorem c81_never_run_violated (h : Handlers) (name : String) (f : Nat) (hn : name = "on_create_report" ∨ name = "on_request_report")
    (callbacks : Bool) (type : String) :
    (addHandler h name f).2 = .ok () ∧ runsFor (addHandler h name f).1 callbacks type = runsFor h callbacks type := by
  have hattr : ∀ s other, other ≠ "on_create_report" → other ≠ "on_request_report" → (addHandler h name f).1.attr s other = h.attr s other := by
    intro s other h1 h2
    rw [attr_addHandler, if_neg]
    rcases hn with rfl | rfl <;> simp [h1, h2]
  have hflags : (addHandler h name f).1.pollExternal = h.pollExternal ∧ (addHandler h name f).1.eventExternal = h.eventExternal ∧
      (addHandler h name f).2 = .ok () := by
    rcases hn with rfl | rfl <;> simp [addHandler, handlerMap, Dict.get?]
  refine ⟨hflags.2.2, ?_⟩
  simp [runsFor, runAttr, hattr, hflags]

/-- **C81**: an unknown name is refused and changes nothing; a known one is accepted, and changes no other handler. -/
theorem c81_unknown_refused (h : Handlers) (name : String) (f : Nat) :
    ((addHandler h name f).2 = .ok () ↔ name ∈ handlerMap.map Prod.fst) ∧
    ((addHandler h name f).2 ≠ .ok () → (addHandler h name f).1 = h) ∧
    ∀ service other, other ≠ name → (addHandler h name f).1.attr service other = h.attr service other := by
  refine ⟨?_, ?_, ?_⟩
  · rw [show handlerMap.map Prod.fst = Dict.keys handlerMap from rfl, ← Dict.get?_isSome]
    unfold addHandler
    cases Dict.get? handlerMap name with
    | none => simp
    | some s => by_cases hp : name = "on_poll" <;> simp [hp]
  · unfold addHandler
    cases Dict.get? handlerMap name with
    | none => simp
    | some s => by_cases hp : name = "on_poll" <;> simp [hp]
  · intro service other ho
    rw [attr_addHandler, if_neg (by simp [ho])]

/-- Not empty: a handler that is registered twice, and one for requests of events that waits for `on_poll`. -/
example : runsFor (addHandlers newHandlers [("on_register_report", 1), ("on_request_event", 2), ("on_register_report", 3)]) false "oadrRegisterReport" =
      .own 3 ∧
    runsFor (addHandlers newHandlers [("on_request_event", 2)]) false "oadrRequestEvent" = .nobody ∧
    runsFor (addHandlers newHandlers [("on_request_event", 2), ("on_poll", 5)]) false "oadrRequestEvent" = .own 2 := by decide +kernel

end Openleadr
