import Verif.Lemmas.ReportWire
import Verif.Props.VenSampling
import Verif.Props.VenCancel
/-!
C88: reports with values from the queue of the VEN to the callbacks of the VTN.
-/
namespace Openleadr
open Spec

/-- The server handles a message that passes its checks, and its handler raises. -/
theorem handle_raised {lib : Lib} {now : Int} {c : Config} {svc : Service S} {s : Surroundings} {i : Nat} {cache cache' : NonceCache} {st st' : S}
    {secure : Bool} {peer : Option String} {type : String} {m : Dict} {txt : Text} {tree : Tree} {e : Err}
    (hv : c.validate (String.ofList txt) = .ok tree) (hp : parseMessage lib txt = .ok (type, .dict m)) (ht : type ≠ "oadrResponse")
    (hn : ∀ v, Dict.get? m "vtn_id" = some v → v = .none ∨ v = .str c.vtnId) (hk : checkKnown c type m = .ok ())
    (ha : (if secure ∧ Dict.has m "ven_id" then authenticate c s i cache (requestOf secure peer txt) tree m else (cache, .ok ())) = (cache', .ok ()))
    (hh : handleMessage c svc st type (withPeer secure peer type m) = (st', .error (.other e))) :
    handle (wired c lib now) svc s i cache st (requestOf secure peer txt) = ((cache', st'), .ok ⟨500, "", none⟩) := by
  have hx : isXml (some "application/xml") = true := by decide +kernel
  have hn' : ¬ ∃ v, Dict.get? m "vtn_id" = some v ∧ v ≠ .none ∧ v ≠ .str (wired c lib now).vtnId := by
    rintro ⟨v, h1, h2, h3⟩
    rcases hn v h1 with h | h
    · exact h2 h
    · exact h3 h
  have hk' : checkKnown (wired c lib now) type m = .ok () := hk
  have ha' : (if secure ∧ Dict.has m "ven_id" then authenticate (wired c lib now) s i cache (requestOf secure peer txt) tree m else (cache, .ok ())) =
    (cache', .ok ()) := ha
  have hh' : handleMessage (wired c lib now) svc st type (withPeer secure peer type m) = (st', .error (.other e)) := hh
  have hv' : (wired c lib now).validate (String.ofList txt) = .ok tree := hv
  have hp' : (wired c lib now).parse (String.ofList txt) = .ok (type, m) := parseText_received hp
  have hq : process (wired c lib now) svc s i cache st (requestOf secure peer txt) = ((cache', st'), ⟨some type, .error (.other e)⟩) := by
    unfold process
    rw [if_neg (by rw [requestOf, hx]; simp), show (requestOf secure peer txt).content = String.ofList txt from rfl, hv', hp']
    simp only []
    rw [if_neg ht, if_neg hn', hk']
    simp only []
    rw [show (if (requestOf secure peer txt).secure = true ∧ Dict.has m "ven_id" = true then
      authenticate (wired c lib now) s i cache (requestOf secure peer txt) tree m else (cache, .ok ())) = (cache', .ok ()) from ha']
    simp only []
    erw [hh']
  simp only [handle, hq, reply]

theorem deliverReports_one (callbacks : List ((Value × Value) × Value)) (user : ReportCall → Res Unit) (rep : Dict) :
    deliverReports callbacks user [rep] = deliverReport callbacks user rep := by
  simp only [deliverReports]
  cases h : deliverReport callbacks user rep with
  | mk log res => cases res <;> simp

/-- A report that is well formed is only refused by the user's functions: the last of the calls raised. -/
theorem deliverGroups_refused (callbacks : List ((Value × Value) × Value)) (user : ReportCall → Res Unit) (q : Value) (gs : List (Value × List Value))
    (hw : ∀ k items, (k, items) ∈ gs → ∀ i ∈ items, WellFormedInterval i) {e : Err} (h : (deliverGroups callbacks user q gs).2 = .error e) :
    ∃ l c, (deliverGroups callbacks user q gs).1 = l ++ [c] ∧ user c = .error e ∧ ∀ d ∈ l, user d = .ok () := by
  induction gs with
  | nil => simp [deliverGroups] at h
  | cons g gs ih =>
    obtain ⟨k, items⟩ := g
    have ih := ih (fun k' it hm => hw k' it (by simp [hm]))
    simp only [deliverGroups] at h ⊢
    cases hc : getCallback callbacks (q, k) with
    | none => rw [hc] at h; exact ih h
    | some cb =>
      rw [hc] at h
      simp only [samplesOf_ok items (hw k items (by simp))] at h ⊢
      generalize ReportCall.deliver q k cb _ = call at h ⊢
      cases hu : user call with
      | error e' =>
        rw [hu] at h
        simp only [Except.error.injEq] at h
        subst h
        exact ⟨[], call, by simp, hu, by simp⟩
      | ok u =>
        rw [hu] at h
        simp only [] at h ⊢
        cases hd : deliverGroups callbacks user q gs with
        | mk log res =>
          rw [hd] at h ih
          simp only [] at h ih ⊢
          obtain ⟨l, c, rfl, hce, hl⟩ := ih h
          exact ⟨call :: l, c, by simp, hce, by simpa using ⟨hu, hl⟩⟩

theorem deliverReport_refused {callbacks : List ((Value × Value) × Value)} {user : ReportCall → Res Unit} {rep : Dict} {q : Value} {intervals : List Value}
    (hw : WellFormedReport rep q intervals) {e : Err} (h : (deliverReport callbacks user rep).2 = .error e) :
    ∃ l c, (deliverReport callbacks user rep).1 = l ++ [c] ∧ user c = .error e ∧ ∀ d ∈ l, user d = .ok () := by
  obtain ⟨h1, h2, h3⟩ := hw
  unfold deliverReport at h ⊢
  simp only [h1] at h ⊢
  by_cases hc : callbacks = []
  · rw [if_pos hc] at h ⊢
    exact ⟨[], _, by simp, h, by simp⟩
  · rw [if_neg hc] at h ⊢
    simp only [h2] at h ⊢
    have hchain : ∀ i ∈ intervals, ∃ k, chainValue i ["report_payload", "r_id"] = some k ∧ ¬ Unhashable k := by
      intro i hi
      obtain ⟨d, r, v, rest, rest', rfl, -, hp, hr, -, hh⟩ := h3 i hi
      exact ⟨r, by simp [chainValue, find_get, hp, hr], hh⟩
    obtain ⟨gs, hgs⟩ := (c11_group_by_succeeds intervals ["report_payload", "r_id"] plain_rid).mpr hchain
    obtain ⟨-, hgr, -⟩ := c11_group_by intervals ["report_payload", "r_id"] plain_rid gs hgs
    rw [dotted_rid] at hgs
    simp only [hgs] at h ⊢
    refine deliverGroups_refused callbacks user q gs (fun k items hm i hi => ?_) h
    rw [(hgr k items hm).2, List.mem_filter] at hi
    exact h3 i hi.1

theorem deliverGroups_calls_ok {callbacks : List ((Value × Value) × Value)} {user : ReportCall → Res Unit} {q : Value} {gs : List (Value × List Value)}
    (h : (deliverGroups callbacks user q gs).2 = .ok ()) : ∀ c ∈ (deliverGroups callbacks user q gs).1, user c = .ok () := by
  induction gs with
  | nil => simp [deliverGroups]
  | cons g gs ih =>
    obtain ⟨k, items⟩ := g
    simp only [deliverGroups] at h ⊢
    cases hc : getCallback callbacks (q, k) with
    | none => rw [hc] at h; exact ih h
    | some cb =>
      rw [hc] at h
      simp only [] at h ⊢
      cases hs : samplesOf items with
      | error e => rw [hs] at h; cases h
      | ok vs =>
        rw [hs] at h
        simp only [] at h ⊢
        cases hu : user (ReportCall.deliver q k cb vs) with
        | error e => rw [hu] at h; cases h
        | ok u =>
          rw [hu] at h
          simp only [] at h ⊢
          intro c hc
          rcases List.mem_cons.mp hc with rfl | hc
          · exact hu
          · exact ih h c hc

theorem deliverReport_calls_ok {callbacks : List ((Value × Value) × Value)} {user : ReportCall → Res Unit} {rep : Dict}
    (h : (deliverReport callbacks user rep).2 = .ok ()) : ∀ c ∈ (deliverReport callbacks user rep).1, user c = .ok () := by
  unfold deliverReport at h ⊢
  cases hq : Dict.get? rep "report_request_id" with
  | none => rw [hq] at h; cases h
  | some q =>
    rw [hq] at h
    simp only [] at h ⊢
    by_cases hc : callbacks = []
    · rw [if_pos hc] at h ⊢
      simpa using h
    · rw [if_neg hc] at h ⊢
      cases hi : Dict.get? rep "intervals" with
      | none => rw [hi] at h; cases h
      | some v =>
        rw [hi] at h
        cases v with
        | list ris =>
          simp only [] at h ⊢
          cases hg : groupBy ris "report_payload.r_id" with
          | error e => rw [hg] at h; cases h
          | ok gs =>
            rw [hg] at h
            exact deliverGroups_calls_ok h
        | _ => cases h

/-- One turn that can be taken: the ids and the time of the message can be sent, the sides are connected, and the schema of the VTN accepts the message. -/
structure Turn.Ready (t : Turn) (c : Config) (secure : Bool) (peer : Option String) (cache : NonceCache) (ven : String) (o : OutReport) : Prop where
  connected : Connected t.link (t.config c) secure peer cache ven
  requestId : Ordinary t.link.lib t.requestId
  created : Datable t.created
  valid : ∀ txt, createMessage t.link.lib t.link.clientNow "oadrUpdateReport" (updatePayload (.str ven) t.requestId t.created o) = .ok txt →
    ∃ tree, c.validate (String.ofList txt) = .ok tree

/-- The user's functions raise no errors of OpenADR. -/
def Ordinarily (user : ReportCall → Res Unit) : Prop := ∀ call e, user call = .error e → ∀ code, e ≠ .oadr code

/-- The reply to a report as the VEN receives it. -/
def acknowledged (ven requestId : String) : Dict := UpdatedReportP.received ⟨⟨200, "OK", some requestId⟩, none, some ven⟩

theorem acknowledged_received {lib : Lib} {now : Int} (sound : lib.Sound) {c : Config} {m : Dict} {ven rid : String}
    (hv : Dict.get? m "ven_id" = some (.str ven)) (hr : Dict.get? m "request_id" = some (.str rid)) (ho : Ordinary lib ven) (hor : Ordinary lib rid) :
    Received lib now "oadrUpdatedReport" (completed c m (finishPayload c m [])) (acknowledged ven rid) := by
  have h1 := c67_updated_report_arrives (now := now) sound (r := ⟨⟨200, "OK", some rid⟩, none, some ven⟩)
    ⟨⟨ordinary_OK sound, by simpa using hor⟩, by simp, by simpa using ho⟩
    [("response", .dict [("request_id", .str rid), ("response_code", .int 200), ("response_description", .str "OK")]), ("ven_id", .str ven)] (by
      have hresp : Conforms (.dict [("request_id", .str rid), ("response_code", .int 200), ("response_description", .str "OK")])
          (.dict (LooseResponseP.dict ⟨200, "OK", some rid⟩)) := by
        refine conforms_entries (ks := ["request_id", "response_code", "response_description"]) rfl (by decide)
          (within_append (within_cons (within_cons (within_nil _))) within_entry) ?_
        refine all_cons (accounted_as (v := some _) ?_) (all_cons (accounted_as (v := some _) ?_) (all_cons (accounted_as (v := some _) ?_) all_nil)) <;>
          simp [LooseResponseP.dict, Dict.get?, Dict.get?_entry?, text?]
      refine conforms_entries (ks := ["response", "ven_id"]) rfl (by decide)
        (within_append (within_append (within_cons (within_nil _)) (within_nil _)) within_entry) ?_
      refine all_cons (.inl ⟨_, ?_, hresp⟩) (all_cons (.inl ⟨_, ?_, .same _⟩) all_nil) <;>
        simp [UpdatedReportP.dict, Dict.get?, Dict.get?_append, Dict.get?_entry?, text?])
  refine received_agree (t := tUpdatedReport) (by rfl) (fun j hj => ?_) h1
  have hr' : tUpdatedReport.reads.all (fun j => j != "vtn_id" && j != "request_id") = true := by decide +kernel
  have hne : j ≠ "vtn_id" ∧ j ≠ "request_id" := by
    have := List.all_eq_true.mp hr' j hj
    simpa using this
  rw [completed_get]
  by_cases e1 : j = "ven_id"
  · subst e1; simp [Dict.get?, hv, Value.truthy]
  · by_cases e2 : j = "response"
    · subst e2; simp [Dict.get?, hr]
    · simp [Dict.get?, hne.1, hne.2, e1, e2, Ne.symm e1, Ne.symm e2]

/-- A service that handles updates as openleadr/service/report_service.py does. -/
def Service.Updates (svc : Service ReportVtn) (user : ReportCall → Res Unit) : Prop := Dict.get? svc.handlers "oadrUpdateReport" = some (updateHandler user)

theorem updateService_updates (user : ReportCall → Res Unit) : (updateService user).Updates user := rfl

/-- What the handler of the VTN makes of the message of a report. -/
theorem update_handled {lib : Lib} {c : Config} {user : ReportCall → Res Unit} {svc : Service ReportVtn} (hsvc : svc.Updates user) {s : ReportServer} {log : List ReportCall} {secure : Bool} {peer : Option String}
    {m : Dict} {rep : Dict} (hm : Dict.get? m "reports" = some (.list [.dict rep])) (hu : Ordinarily user) {q : Value} {intervals : List Value}
    (hw : WellFormedReport rep q intervals) :
    (∃ e, (deliverReport s.callbacks user rep).2 = .error e ∧
      handleMessage c svc (s, log) "oadrUpdateReport" (withPeer secure peer "oadrUpdateReport" m) =
        ((s, log ++ (deliverReport s.callbacks user rep).1), .error (.other e))) ∨
    ((deliverReport s.callbacks user rep).2 = .ok () ∧
      handleMessage c svc (s, log) "oadrUpdateReport" (withPeer secure peer "oadrUpdateReport" m) =
        ((s, log ++ (deliverReport s.callbacks user rep).1), .ok ("oadrUpdatedReport", finishPayload c m []))) := by
  have hp : withPeer secure peer "oadrUpdateReport" m = m := by simp [withPeer]
  rw [hp]
  have hh : updateHandler user (s, log) m = (match deliverReport s.callbacks user rep with
      | (l, .error e) => ((s, log ++ l), .error (serviceExn e))
      | (l, .ok ()) => ((s, log ++ l), .ok (.pair "oadrUpdatedReport" (.dict [])))) := by
    simp only [updateHandler, hm, Value.list?, Option.bind_some, List.mapM_cons, List.mapM_nil, Value.dict?, Option.pure_def, Option.bind_eq_bind,
      deliverReports_one]
    rfl
  have hr := @deliverReport_refused s.callbacks user rep q intervals hw
  cases hd : deliverReport s.callbacks user rep with
  | mk l res =>
    rw [hd] at hh hr
    cases res with
    | error e =>
      refine .inl ⟨e, rfl, ?_⟩
      obtain ⟨-, call, -, hce, -⟩ := hr rfl
      have he : serviceExn e = .other e := by
        cases e <;> first | rfl | exact absurd rfl (hu call _ hce _)
      simp only [he] at hh
      simp only [handleMessage, show Dict.get? svc.handlers _ = _ from hsvc, hh]
    | ok u =>
      refine .inr ⟨rfl, ?_⟩
      simp only [handleMessage, show Dict.get? svc.handlers _ = _ from hsvc, hh, payloadDict]

/-- One exchange: the calls that are made, and what the VEN finds. -/
theorem update_exchanged {t : Turn} {c : Config} {user : ReportCall → Res Unit} {svc : Service ReportVtn} (hsvc : svc.Updates user) {cache : NonceCache} {s : ReportServer} {log : List ReportCall}
    {secure : Bool} {peer : Option String} {ven : String} {o : OutReport} (ready : t.Ready c secure peer cache ven o) (h : o.Sendable t.link.lib)
    (hu : Ordinarily user) :
    ∃ r, exchange t.link (t.config c) svc cache (s, log) secure peer "oadrUpdateReport" (updatePayload (.str ven) t.requestId t.created o) =
        ((cache, (s, log ++ (deliverReport s.callbacks user (o.arrived t.link.lib t.created)).1)), r) ∧
      (sendOutcome r = .failed ∨ sendOutcome r = .reply "oadrUpdatedReport" (acknowledged ven t.requestId)) ∧
      ((deliverReport s.callbacks user (o.arrived t.link.lib t.created)).2 = .ok () → (∀ txt, t.link.accepts txt = true) →
        sendOutcome r = .reply "oadrUpdatedReport" (acknowledged ven t.requestId)) := by
  have con := ready.connected
  obtain ⟨txt, h1, h2⟩ := update_received (now := t.link.clientNow) con.sound con.venId ready.requestId ready.created h
  obtain ⟨gv, gr, gn, gs⟩ := update_entries (lib := t.link.lib) ven t.requestId t.created o
  obtain ⟨tree, hv⟩ := ready.valid txt h1
  have hv' : (t.config c).validate (String.ofList txt) = .ok tree := hv
  have hk := con.letsIn.known "oadrUpdateReport" _ gv
  have ha := con.letsIn.authentic txt tree _ hv' gv
  rcases update_handled (lib := t.link.lib) (c := t.config c) (s := s) (log := log) (secure := secure) (peer := peer) hsvc gs hu (arrived_wellFormed t.created h) with
    ⟨e, he, hh⟩ | ⟨he, hh⟩
  · have hx := handle_raised (now := t.link.serverNow) hv' h2 (by decide) (by simp [gn]) hk ha hh
    refine ⟨.ok (some (none, [])), ?_, .inl rfl, fun hok => by rw [he] at hok; cases hok⟩
    simp only [exchange, h1]
    rw [show (⟨some "application/xml", secure, peer, String.ofList txt⟩ : Request) = requestOf secure peer txt from rfl, hx]
    simp [clientReads]
  · have hx := handle_passed (now := t.link.serverNow) hv' h2 (by decide) (by simp [gn]) hk ha hh
    have hp : ∀ m, withPeer secure peer "oadrUpdateReport" m = m := fun m => by simp [withPeer]
    rw [hp] at hx
    obtain ⟨txt', h3, h4⟩ := acknowledged_received (now := t.link.serverNow) con.sound (c := t.config c) gv gr con.venId ready.requestId
    obtain ⟨rp, hr⟩ : ∃ rp, sendMessage (wired (t.config c) t.link.lib t.link.serverNow) "oadrUpdatedReport"
        (completed (t.config c) (updateP t.link.lib ven t.requestId t.created o).received (finishPayload (t.config c)
          (updateP t.link.lib ven t.requestId t.created o).received [])) = .ok ⟨200, String.ofList txt', rp⟩ := by
      simp only [sendMessage, wired, renderText, h3]
      exact ⟨_, rfl⟩
    rw [hr] at hx
    refine ⟨.ok (clientReads t.link.lib t.link.accepts (.ok ⟨200, String.ofList txt', rp⟩)), ?_, ?_, ?_⟩
    · simp only [exchange, h1]
      rw [show (⟨some "application/xml", secure, peer, String.ofList txt⟩ : Request) = requestOf secure peer txt from rfl, hx]
    · by_cases hacc : t.link.accepts (String.ofList txt') = true
      · refine .inr ?_
        simp only [clientReads, ne_eq, not_true_eq_false, if_false, parse_nonempty h4, hacc, Bool.true_eq_false, parseText_received h4, sendOutcome]
      · refine .inl ?_
        simp only [clientReads, ne_eq, not_true_eq_false, if_false, parse_nonempty h4, hacc, if_true, sendOutcome]
    · intro _ hacc
      simp only [clientReads, ne_eq, not_true_eq_false, if_false, parse_nonempty h4, hacc, Bool.true_eq_false, parseText_received h4, sendOutcome]

/-! ### All reports of the queue -/

/-- The worker goes on after a reply of the VTN, or without one. -/
theorem turn_goes_on (w : Sender) (o : OutReport) (q : List OutReport) (hw : w.running = true) (hq : w.queue = o :: q) {r : SendOutcome}
    (h : r = .failed ∨ ∃ d, r = .reply "oadrUpdatedReport" d) : w.turn r = { w with queue := q, sent := w.sent ++ [o] } := by
  have hp : pyIn "cancel_report" r.result = .ok false := by
    rcases h with rfl | ⟨d, rfl⟩ <;> simp [SendOutcome.result, pyIn]
  rcases h with rfl | ⟨d, rfl⟩ <;> simp only [Sender.turn, hw, if_true, hq, hp]

/-- One turn. -/
theorem delivery_turn {x : Delivery} {t : Turn} {c : Config} {user : ReportCall → Res Unit} {svc : Service ReportVtn} (hsvc : svc.Updates user) {secure : Bool} {peer : Option String} {ven : String}
    {o : OutReport} {rest : List OutReport} (ready : t.Ready c secure peer x.cache ven o) (h : o.Sendable t.link.lib) (hu : Ordinarily user)
    (hw : x.worker.running = true) (hq : x.worker.queue = o :: rest) :
    x.turn c svc secure peer (.str ven) t = ⟨{ x.worker with queue := rest, sent := x.worker.sent ++ [o] }, x.cache,
      (x.vtn.1, x.vtn.2 ++ (deliverReport x.vtn.1.callbacks user (o.arrived t.link.lib t.created)).1)⟩ := by
  obtain ⟨r, hx, hr, -⟩ := update_exchanged (s := x.vtn.1) (log := x.vtn.2) hsvc ready h hu
  rw [Delivery.turn, if_pos hw, hq]
  simp only []
  have hv : x.vtn = (x.vtn.1, x.vtn.2) := rfl
  rw [hv, hx]
  simp only []
  rw [turn_goes_on x.worker o rest hw hq (by
    rcases hr with hr | hr
    · exact .inl hr
    · exact .inr ⟨_, hr⟩)]

/-- **C88, refuted** for a server that answers with status 200 and nothing: the report was sent, but the worker of the VEN has ended, and none of the reports that
    are queued then or later is sent any more. -/
theorem c88_empty_answer_violated (lib : Lib) (accepts : String → Bool) (w : Sender) (r : OutReport) (q : List OutReport) (hw : w.running = true)
    (hq : w.queue = r :: q) (answer : HttpReply) (hs : answer.status = 200) (ht : answer.text = "") (later : List SendStep) :
    let w' := w.turn (sendOutcome (.ok (clientReads lib accepts (.ok answer))))
    (w'.run later).running = false ∧ (w'.run later).sent = w.sent ++ [r] := by
  have he : sendOutcome (.ok (clientReads lib accepts (.ok answer))) = .emptyReply := by simp [clientReads, hs, ht, sendOutcome]
  intro w'
  simp only [w', he]
  exact c61_empty_reply_violated w r q hw hq later

/-- A report and the turn in which it is sent. -/
def SendsIn (lib : Lib) (c : Config) (secure : Bool) (peer : Option String) (cache : NonceCache) (ven : String) (o : OutReport) (t : Turn) : Prop :=
  t.link.lib = lib ∧ t.Ready c secure peer cache ven o ∧ o.Sendable lib

/-- The calls that a report leads to if no function raises: one for each of its data points that has a callback, with all its values, in order, as floats. -/
structure CallsFor (callbacks : List ((Value × Value) × Value)) (lib : Lib) (o : OutReport) (calls : List ReportCall) : Prop where
  values : ∀ q r, deliveredTo calls q r = if q = o.requestId ∧ getCallback callbacks (o.requestId, r) ≠ none then o.samples lib r else []
  each : ∀ call ∈ calls, ∃ r cb, call = .deliver o.requestId r cb (o.samples lib r) ∧ o.samples lib r ≠ [] ∧ getCallback callbacks (o.requestId, r) = some cb
  once : calls.Pairwise (fun a b => ∀ r cb vs r' cb' vs', a = .deliver o.requestId r cb vs → b = .deliver o.requestId r' cb' vs' → r ≠ r')

theorem callsFor_arrived {lib : Lib} {callbacks : List ((Value × Value) × Value)} (hcb : callbacks ≠ []) {o : OutReport} (created : Int) (h : o.Sendable lib) :
    CallsFor callbacks lib o (deliverReport callbacks (fun _ => .ok ()) (o.arrived lib created)).1 := by
  obtain ⟨-, h2, h3, h4⟩ := deliverReport_ok callbacks hcb (fun _ => .ok ()) (fun _ => rfl) _ _ _ (arrived_wellFormed created h)
  simp only [samples_arrived h] at h2 h3
  exact ⟨h2, h3, h4⟩

/-- What is made of a report: the calls it leads to, up to the first one that raises. -/
structure Handed (callbacks : List ((Value × Value) × Value)) (user : ReportCall → Res Unit) (lib : Lib) (o : OutReport) (calls : List ReportCall) : Prop where
  part : ∃ rest, CallsFor callbacks lib o (calls ++ rest) ∧ (rest ≠ [] → ∃ call e, calls.getLast? = some call ∧ user call = .error e)
  before : ∀ l call, calls = l ++ [call] → ∀ d ∈ l, user d = .ok ()

theorem handed_arrived {lib : Lib} {callbacks : List ((Value × Value) × Value)} (hcb : callbacks ≠ []) (user : ReportCall → Res Unit) {o : OutReport}
    (created : Int) (h : o.Sendable lib) : Handed callbacks user lib o (deliverReport callbacks user (o.arrived lib created)).1 := by
  obtain ⟨⟨rest, hp⟩, hfull⟩ := deliverReport_prefix callbacks user (o.arrived lib created)
  have hf := callsFor_arrived hcb created h
  cases hd : (deliverReport callbacks user (o.arrived lib created)).2 with
  | error e =>
    obtain ⟨l, call, h1, h2, h3⟩ := deliverReport_refused (arrived_wellFormed created h) hd
    refine ⟨⟨rest, by rw [hp]; exact hf, fun _ => ⟨call, e, by rw [h1]; simp, h2⟩⟩, fun l' call' he d hd' => ?_⟩
    rw [h1] at he
    obtain ⟨rfl, -⟩ := List.append_inj' he rfl
    exact h3 d hd'
  | ok u =>
    have he := hfull hd
    have hall := deliverReport_calls_ok hd
    refine ⟨⟨[], by rw [List.append_nil, he]; exact hf, fun hx => absurd rfl hx⟩, fun l call hl d hd' => hall d (by rw [hl]; simp [hd'])⟩

/-- **C88**: the worker of the queue sends every report once and goes on, whatever the functions of the user do (as long as they raise no errors of
    OpenADR): for each report, the callbacks that the VTN registered for its request and its data points are called once each with all values of the data
    point, in order, until the first one that raises. -/
theorem c88_handed {lib : Lib} {c : Config} {user : ReportCall → Res Unit} {svc : Service ReportVtn} (hsvc : svc.Updates user) {secure : Bool} {peer : Option String} {ven : String} (hu : Ordinarily user)
    (ts : List Turn) (x : Delivery) (hcb : x.vtn.1.callbacks ≠ []) (hw : x.worker.running = true)
    (h : Pointwise (SendsIn lib c secure peer x.cache ven) x.worker.queue ts) :
    (x.run c svc secure peer (.str ven) ts).worker = ⟨true, [], x.worker.sent ++ x.worker.queue, x.worker.cancelled⟩ ∧
    (x.run c svc secure peer (.str ven) ts).cache = x.cache ∧ (x.run c svc secure peer (.str ven) ts).vtn.1 = x.vtn.1 ∧
    ∃ parts, (x.run c svc secure peer (.str ven) ts).vtn.2 = x.vtn.2 ++ parts.flatten ∧
      Pointwise (Handed x.vtn.1.callbacks user lib) x.worker.queue parts := by
  induction ts generalizing x with
  | nil =>
    cases hq : x.worker.queue with
    | cons o rest => rw [hq] at h; cases h
    | nil =>
      refine ⟨?_, rfl, rfl, [], by simp [Delivery.run], .nil⟩
      rw [Delivery.run, List.append_nil, ← hw, ← hq]
  | cons t ts ih =>
    cases hq : x.worker.queue with
    | nil => rw [hq] at h; cases h
    | cons o rest =>
      rw [hq] at h
      cases h with
      | cons h1 h2 =>
        obtain ⟨rfl, hr, hs⟩ := h1
        have ht := delivery_turn hsvc hr hs hu hw hq
        rw [Delivery.run, ht]
        obtain ⟨i1, i2, i3, parts, i4, i5⟩ := ih ⟨{ x.worker with queue := rest, sent := x.worker.sent ++ [o] }, x.cache,
          (x.vtn.1, x.vtn.2 ++ (deliverReport x.vtn.1.callbacks user (o.arrived t.link.lib t.created)).1)⟩ hcb hw h2
        refine ⟨by rw [i1]; simp, i2, i3, (deliverReport x.vtn.1.callbacks user (o.arrived t.link.lib t.created)).1 :: parts, by rw [i4]; simp,
          .cons (handed_arrived hcb user t.created hs) i5⟩

theorem deliveredTo_flatten (parts : List (List ReportCall)) (q r : Value) : deliveredTo parts.flatten q r = parts.flatMap (fun l => deliveredTo l q r) := by
  induction parts with
  | nil => rfl
  | cons l parts ih => rw [List.flatten_cons, deliveredTo_append, ih]; rfl

/-- **C88**: when no function raises, the callback of a data point of a request is handed all the values of that data point in the reports of that request
    in the queue, in order, once, as floats with their times; nothing else is called. -/
theorem c88_delivered {lib : Lib} {c : Config} {user : ReportCall → Res Unit} {svc : Service ReportVtn} (hsvc : svc.Updates user) {secure : Bool} {peer : Option String} {ven : String} (hu : ∀ call, user call = .ok ())
    (ts : List Turn) (x : Delivery) (hcb : x.vtn.1.callbacks ≠ []) (hw : x.worker.running = true)
    (h : Pointwise (SendsIn lib c secure peer x.cache ven) x.worker.queue ts) :
    (x.run c svc secure peer (.str ven) ts).worker = ⟨true, [], x.worker.sent ++ x.worker.queue, x.worker.cancelled⟩ ∧
    ∃ calls, (x.run c svc secure peer (.str ven) ts).vtn = (x.vtn.1, x.vtn.2 ++ calls) ∧
      (∀ q r, deliveredTo calls q r = if getCallback x.vtn.1.callbacks (q, r) = none then [] else
        (x.worker.queue.filter (fun o => decide (o.requestId = q))).flatMap (fun o => o.samples lib r)) ∧
      ∀ call ∈ calls, ∃ q r cb vs, call = .deliver q r cb vs ∧ vs ≠ [] ∧ getCallback x.vtn.1.callbacks (q, r) = some cb := by
  obtain ⟨h1, -, h3, parts, h4, h5⟩ := c88_handed hsvc (fun call e he => by rw [hu] at he; cases he) ts x hcb hw h
  have key : ∀ (l : List OutReport) (parts : List (List ReportCall)), Pointwise (Handed x.vtn.1.callbacks user lib) l parts →
      Pointwise (CallsFor x.vtn.1.callbacks lib) l parts := by
    intro l parts hp
    induction hp with
    | nil => exact .nil
    | cons ha _ ih =>
      obtain ⟨⟨rest, hc, hr⟩, -⟩ := ha
      have : rest = [] := by
        apply Classical.byContradiction
        intro hne
        obtain ⟨call, e, -, he⟩ := hr hne
        rw [hu] at he; cases he
      subst this
      exact .cons (by simpa using hc) ih
  have h6 := key _ _ h5
  refine ⟨h1, parts.flatten, Prod.ext h3 h4, fun q r => ?_, fun call hm => ?_⟩
  · rw [deliveredTo_flatten]
    clear h5 h4 h1 h3 h hw
    generalize x.worker.queue = queue at h6
    induction h6 with
    | nil => simp
    | @cons o l queue parts ha _ ih =>
      rw [List.flatMap_cons, ih, ha.values, List.filter_cons]
      by_cases hq : o.requestId = q
      · subst hq
        by_cases hg : getCallback x.vtn.1.callbacks (o.requestId, r) = none <;> simp [hg]
      · simp [hq, Ne.symm hq]
  · clear h5 h4 h1 h3 h hw
    generalize x.worker.queue = queue at h6
    induction h6 with
    | nil => simp at hm
    | @cons o l queue parts ha _ ih =>
      rw [List.flatten_cons, List.mem_append] at hm
      rcases hm with hm | hm
      · obtain ⟨r, cb, e1, e2, e3⟩ := ha.each call hm
        exact ⟨_, r, cb, _, e1, e2, e3⟩
      · exact ih hm

/-- **C88**: a VTN without callbacks of its own hands every report to `on_update_report`, as it was received. -/
theorem c88_unregistered {lib : Lib} {c : Config} {user : ReportCall → Res Unit} {svc : Service ReportVtn} (hsvc : svc.Updates user) {secure : Bool} {peer : Option String} {ven : String} (hu : Ordinarily user)
    (ts : List Turn) (x : Delivery) (hcb : x.vtn.1.callbacks = []) (hw : x.worker.running = true)
    (h : Pointwise (SendsIn lib c secure peer x.cache ven) x.worker.queue ts) :
    (x.run c svc secure peer (.str ven) ts).worker = ⟨true, [], x.worker.sent ++ x.worker.queue, x.worker.cancelled⟩ ∧
    ∃ calls, (x.run c svc secure peer (.str ven) ts).vtn = (x.vtn.1, x.vtn.2 ++ calls) ∧
      Pointwise (fun o call => ∃ rep, call = .onUpdate rep ∧ WellFormedReport rep o.requestId (o.readings lib)) x.worker.queue calls := by
  induction ts generalizing x with
  | nil =>
    cases hq : x.worker.queue with
    | cons o rest => rw [hq] at h; cases h
    | nil =>
      refine ⟨?_, [], by simp [Delivery.run], .nil⟩
      rw [Delivery.run, List.append_nil, ← hw, ← hq]
  | cons t ts ih =>
    cases hq : x.worker.queue with
    | nil => rw [hq] at h; cases h
    | cons o rest =>
      rw [hq] at h
      cases h with
      | cons h1 h2 =>
        obtain ⟨rfl, hr, hs⟩ := h1
        have ht := delivery_turn hsvc hr hs hu hw hq
        have hwf := arrived_wellFormed t.created hs
        have hone : (deliverReport x.vtn.1.callbacks user (o.arrived t.link.lib t.created)).1 = [.onUpdate (o.arrived t.link.lib t.created)] := by
          simp [deliverReport, hwf.1, hcb]
        rw [Delivery.run, ht, hone]
        obtain ⟨i1, calls, i2, i3⟩ := ih ⟨{ x.worker with queue := rest, sent := x.worker.sent ++ [o] }, x.cache,
          (x.vtn.1, x.vtn.2 ++ [.onUpdate (o.arrived t.link.lib t.created)])⟩ hcb hw h2
        exact ⟨by rw [i1]; simp, .onUpdate (o.arrived t.link.lib t.created) :: calls, by rw [i2]; simp, .cons ⟨_, rfl, hwf⟩ i3⟩

/-! ### A callback that raises -/

theorem addToGroup_head (k : Value) (items : List Value) (g : List (Value × List Value)) (k' item : Value) :
    ∃ items' g', addToGroup ((k, items) :: g) k' item = (k, items') :: g' := by
  rw [addToGroup]
  split <;> exact ⟨_, _, rfl⟩

theorem groupByLoop_head (path : List String) (l : List Value) (k : Value) (items : List Value) (g gs : List (Value × List Value))
    (h : groupByLoop ((k, items) :: g) l path = .ok gs) : ∃ items' g', gs = (k, items') :: g' := by
  induction l generalizing items g with
  | nil =>
    rw [groupByLoop] at h
    cases h
    exact ⟨_, _, rfl⟩
  | cons i is ih =>
    rw [groupByLoop] at h
    split at h
    · cases h
    · split at h
      · rename_i k' _ _
        obtain ⟨items', g', he⟩ := addToGroup_head k items g k' i
        rw [he] at h
        exact ih _ _ h
      · cases h

/-- The first group is the one of the first member. -/
theorem groupBy_head {i r : Value} {is : List Value} {gs : List (Value × List Value)} (hr : chainValue i ["report_payload", "r_id"] = some r)
    (h : groupBy (i :: is) (dotted ["report_payload", "r_id"]) = .ok gs) : ∃ items g', gs = (r, items) :: g' := by
  simp only [groupBy, splitKey_dotted _ plain_rid] at h
  rw [groupByLoop] at h
  split at h
  · cases h
  · rename_i k hk
    split at h
    · have : k = r := by
        have := (getChain_ok_iff i ["report_payload", "r_id"] k).mp hk
        rw [hr] at this
        exact (Option.some.inj this).symm
      subst this
      exact groupByLoop_head _ _ _ _ _ _ h
    · cases h

/-- The call for the first data point comes first; when it raises, it is the last one. -/
theorem deliverReport_first {callbacks : List ((Value × Value) × Value)} {user : ReportCall → Res Unit} {rep : Dict} {q i r cb : Value} {is : List Value}
    (hw : WellFormedReport rep q (i :: is)) (hr : chainValue i ["report_payload", "r_id"] = some r) (hcb : getCallback callbacks (q, r) = some cb) {e : Err}
    (hu : user (.deliver q r cb (samplesFor r (i :: is))) = .error e) :
    deliverReport callbacks user rep = ([.deliver q r cb (samplesFor r (i :: is))], .error e) := by
  obtain ⟨h1, h2, h3⟩ := hw
  have hne : callbacks ≠ [] := by
    rintro rfl
    simp [getCallback] at hcb
  unfold deliverReport
  rw [h1]
  simp only [hne, if_false, h2]
  have hchain : ∀ i' ∈ i :: is, ∃ k, chainValue i' ["report_payload", "r_id"] = some k ∧ ¬ Unhashable k := by
    intro i hi
    obtain ⟨d, r, v, rest, rest', rfl, -, hp, hr, -, hh⟩ := h3 i hi
    exact ⟨r, by simp [chainValue, find_get, hp, hr], hh⟩
  obtain ⟨gs, hgs⟩ := (c11_group_by_succeeds (i :: is) ["report_payload", "r_id"] plain_rid).mpr hchain
  obtain ⟨-, hgr, -⟩ := c11_group_by (i :: is) ["report_payload", "r_id"] plain_rid gs hgs
  obtain ⟨items, g', rfl⟩ := groupBy_head hr hgs
  rw [dotted_rid] at hgs
  rw [hgs]
  obtain ⟨-, hitems⟩ := hgr r items (by simp)
  have hs : samplesOf items = .ok (samplesFor r (i :: is)) := by
    rw [samplesOf_ok items (by rw [hitems]; exact fun i hi => h3 i (List.mem_filter.mp hi).1), samplesFor_eq, hitems]
  simp only [deliverGroups, hcb, hs, hu]

/-- **C55, refuted** for the status of a resource: the schema allows a payload with a status instead of a number, and the VTN requests such reports, but when the
    first payload of a report is one and has a callback, the update fails and no callback gets anything. -/
theorem c55_status_violated {callbacks : List ((Value × Value) × Value)} (user : ReportCall → Res Unit) {rep : Dict} {q r cb : Value} {d payload : Dict}
    {is : List Value} (h1 : Dict.get? rep "report_request_id" = some q) (h2 : Dict.get? rep "intervals" = some (.list (.dict d :: is)))
    (hd : Dict.has d "dtstart" = true) (hp : Dict.get? d "report_payload" = some (.dict payload)) (hr : Dict.get? payload "r_id" = some r)
    (hv : Dict.get? payload "value" = none) (hk : ∀ i ∈ .dict d :: is, ∃ k, chainValue i ["report_payload", "r_id"] = some k ∧ ¬ Unhashable k)
    (hcb : getCallback callbacks (q, r) = some cb) : deliverReport callbacks user rep = ([], .error .keyError) := by
  have hne : callbacks ≠ [] := by
    rintro rfl
    simp [getCallback] at hcb
  have hc : chainValue (.dict d) ["report_payload", "r_id"] = some r := by simp [chainValue, find_get, hp, hr]
  unfold deliverReport
  rw [h1]
  simp only [hne, if_false, h2]
  obtain ⟨gs, hgs⟩ := (c11_group_by_succeeds (.dict d :: is) ["report_payload", "r_id"] plain_rid).mpr hk
  obtain ⟨-, hgr, -⟩ := c11_group_by (.dict d :: is) ["report_payload", "r_id"] plain_rid gs hgs
  obtain ⟨items, g', rfl⟩ := groupBy_head hc hgs
  rw [dotted_rid] at hgs
  rw [hgs]
  obtain ⟨-, hitems⟩ := hgr r items (by simp)
  obtain ⟨start, hs⟩ := Option.isSome_iff_exists.mp (show (Dict.get? d "dtstart").isSome = true from hd)
  have hs : samplesOf items = .error .keyError := by
    rw [hitems, List.filter_cons, if_pos (by simp [hc])]
    simp [samplesOf, sampleOf, getmemberInner, hs, hp, hv]
  simp only [deliverGroups, hcb, hs]

/-- A status of a resource as it is received. -/
example : deliverReport [((.str "q1x", .str "p1x"), .func 1)] (fun _ => .ok ()) [("report_request_id", .str "q1x"), ("intervals", .list [.dict [("dtstart", .datetime 0),
    ("report_payload", .dict [("r_id", .str "p1x"), ("payload_resource_status", .dict [("online", .bool true), ("manual_override", .bool false)])])]])] =
    ([], .error .keyError) := by decide +kernel

/-- **C88, refuted** for a callback that raises, such as one whose storage is not available for a moment: when the callback of the first data point of a report
    raises, no other callback of that report is called. The VEN takes the report for sent; the values of the other data points are lost. -/
theorem c88_raised_violated {x : Delivery} {t : Turn} {c : Config} {user : ReportCall → Res Unit} {svc : Service ReportVtn} (hsvc : svc.Updates user) {secure : Bool} {peer : Option String} {ven : String}
    {o : OutReport} {rest : List OutReport} (ready : t.Ready c secure peer x.cache ven o) (h : o.Sendable t.link.lib) (hu : Ordinarily user)
    (hw : x.worker.running = true) (hq : x.worker.queue = o :: rest) {i : OutInterval} {is : List OutInterval} (hi : o.intervals = i :: is) {cb : Value}
    (hcb : getCallback x.vtn.1.callbacks (o.requestId, i.rId) = some cb) {e : Err}
    (he : user (.deliver o.requestId i.rId cb (o.samples t.link.lib i.rId)) = .error e) :
    let y := x.turn c svc secure peer (.str ven) t
    y.worker.queue = rest ∧ y.worker.sent = x.worker.sent ++ [o] ∧
      y.vtn.2 = x.vtn.2 ++ [.deliver o.requestId i.rId cb (o.samples t.link.lib i.rId)] := by
  have ht := delivery_turn hsvc ready h hu hw hq
  have hwf := arrived_wellFormed t.created h
  have hsam := samples_arrived h i.rId
  have hri : o.readings t.link.lib = .dict (readingP t.link.lib i).received :: OutReport.readings t.link.lib { o with intervals := is } := by
    simp [OutReport.readings, hi]
  rw [hri] at hwf hsam
  obtain ⟨r, hr, -⟩ := (h.each i (by rw [hi]; simp)).rId
  have hchain : chainValue (.dict (readingP t.link.lib i).received) ["report_payload", "r_id"] = some i.rId := by
    have g2 : Dict.get? (readingP t.link.lib i).received "report_payload" = some (.dict [("r_id", .str r), ("value", .float (floatOf t.link.lib i.value))]) := by
      simp [readingP, ReadingP.received, ReadingP.dict, Dict.get?, Dict.get?_append, Dict.get?_entry?, hr, Value.text?, entry_missing, int?, text?]
    simp [chainValue, find_get, g2, hr]
  have := deliverReport_first hwf hchain hcb (user := user) (e := e) (by rw [hsam]; exact he)
  simp only [ht, this, hsam]
  exact ⟨trivial, trivial, trivial⟩

/-! ### From the functions of the VEN to those of the VTN -/

/-- The samples of a data point in a list of ticks. -/
theorem samples_point {lib : Lib} (rids : List Value) (hn : rids.Nodup) (r : Value) (hr : r ∈ rids) (callback : Value → Value) (d : Option Int) (ts : List Tick) :
    (((ts.map (samplesAt callback d rids)).flatten.filter (fun i => decide (i.rId = r))).map
        (fun i => ((.datetime i.dtstart, .float (floatOf lib i.value)) : Value × Value))) =
      ts.map (fun t => (.datetime (timeOf t.now (t.user ⟨callback r, r, .now⟩)), .float (floatOf lib (numberOf (t.user ⟨callback r, r, .now⟩))))) := by
  have one : ∀ t : Tick, (samplesAt callback d rids t).filter (fun i => decide (i.rId = r)) = [⟨timeOf t.now (t.user ⟨callback r, r, .now⟩), r, numberOf (t.user ⟨callback r, r, .now⟩), d⟩] := by
    intro t
    rw [samplesAt]
    induction rids with
    | nil => simp at hr
    | cons a rids ih =>
      rw [List.nodup_cons] at hn
      by_cases e : a = r
      · subst e
        rw [List.map_cons, List.filter_cons_of_pos (by simp), List.filter_eq_nil_iff.mpr]
        intro i hi
        simp only [List.mem_map] at hi
        obtain ⟨b, hb, rfl⟩ := hi
        simp only [decide_eq_true_eq]
        rintro rfl
        exact hn.1 hb
      · rw [List.map_cons, List.filter_cons_of_neg (by simp [e])]
        exact ih hn.2 (by simpa [Ne.symm e] using hr)
  induction ts with
  | nil => rfl
  | cons t ts ih => rw [List.map_cons, List.flatten_cons, List.filter_append, List.map_append, ih, one]; rfl

/-- Groups of equal size are an initial part. -/
theorem groups_take {α : Type} (n : Nat) (hn : 0 < n) (l : List α) (groups : List (List α)) (rest : List α) (h : l = groups.flatten ++ rest)
    (hg : ∀ x ∈ groups, x.length = n) (hr : rest.length < n) : groups.flatten = l.take (l.length / n * n) := by
  have hlen : groups.flatten.length = groups.length * n := by
    clear h
    induction groups with
    | nil => simp
    | cons x gs ih => rw [List.flatten_cons, List.length_append, ih (fun y hy => hg y (by simp [hy])), hg x (by simp), List.length_cons, Nat.succ_mul, Nat.add_comm]
  have hl : l.length / n * n = groups.flatten.length := by
    rw [hlen, h, List.length_append, hlen]
    congr 1
    rw [Nat.mul_comm, Nat.mul_add_div hn, Nat.div_eq_of_lt hr, Nat.add_zero]
  rw [hl, h, List.take_append_of_le_length (Nat.le_refl _), List.take_length]

/-- The reports of one request that the updates put into the queue: they can be sent, and they hold the samples of the updates in order, as many as there are in
    complete reports. -/
theorem own_reports {lib : Lib} (s : VenReports) (q : String) (rids : List Value) (hrids : rids ≠ []) (hnodup : rids.Nodup) (callback : Value → Value) (b g : Int)
    (n : Nat) (rq : VenRequest) (report : VenReport) (hi : Incremental s (.str q) rids callback b g rq report) (hg : 0 < g) (hn : 2 ≤ n) (h1 : n * g ≤ b)
    (h2 : b < (n + 1) * g) (hk : Keyed s) (hstart : getIncomplete s.incomplete (.str q) = none) (hpend : s.pending = []) (ticks : List Tick)
    (hnum : ∀ t ∈ ticks, t.request = .str q → ∀ r ∈ rids, OneSample (t.user ⟨callback r, r, .now⟩) ∧
      AsFloat lib (numberOf (t.user ⟨callback r, r, .now⟩)) (floatOf lib (numberOf (t.user ⟨callback r, r, .now⟩))))
    (hnow : ∀ t ∈ ticks, t.request = .str q → ∀ r ∈ rids, Datable (timeOf t.now (t.user ⟨callback r, r, .now⟩))) (hq : Ordinary lib q) (hspec : Ordinary lib report.specifierId)
    (hname : Ordinary lib (outName report.name)) (hord : ∀ r ∈ rids, ∃ x, r = .str x ∧ Ordinary lib x) :
    (∀ o ∈ (runTicks (.str q) s ticks).1.pending, o.requestId = .str q → o.Sendable lib ∧ ∀ r ∈ rids, (o.samples lib r).length = n) ∧
    ∀ r ∈ rids, let mine := ticks.filter (fun t => decide (t.request = .str q))
      ((runTicks (.str q) s ticks).1.pending.filter (fun o => decide (o.requestId = .str q))).flatMap (fun o => o.samples lib r) =
        (mine.take (mine.length / n * n)).map (fun t => (.datetime (timeOf t.now (t.user ⟨callback r, r, .now⟩)), .float (floatOf lib (numberOf (t.user ⟨callback r, r, .now⟩))))) := by
  obtain ⟨-, groups, rest, sent, e1, e2, e3, e4, e5, -⟩ := c59_groups_partial s (.str q) rids hrids callback b g n rq report hi hg hn h1 h2 hk hstart ticks
    (fun t ht hq r hr => (hnum t ht hq r hr).1)
  rw [hpend, List.filter_nil, List.nil_append] at e4
  have hgroups := groups_take n (by omega) _ _ _ e1 e2 e3
  have hmem : ∀ x ∈ groups, ∀ y ∈ x, ∃ t ∈ ticks, t.request = .str q ∧ y = samplesAt callback none rids t := by
    intro x hx y hy
    have : y ∈ (ticks.filter (fun t => decide (t.request = .str q))).map (samplesAt callback none rids) := by
      rw [e1]; exact List.mem_append_left _ (List.mem_flatten.mpr ⟨x, hx, hy⟩)
    simp only [List.mem_map, List.mem_filter, decide_eq_true_eq] at this
    obtain ⟨t, ⟨ht, htq⟩, rfl⟩ := this
    exact ⟨t, ht, htq, rfl⟩
  have hint : ∀ x ∈ groups, ∀ i ∈ x.flatten, i.Sendable lib := by
    intro x hx i hi
    obtain ⟨y, hy, hiy⟩ := List.mem_flatten.mp hi
    obtain ⟨t, ht, htq, rfl⟩ := hmem x hx y hy
    simp only [samplesAt, List.mem_map] at hiy
    obtain ⟨r', hr', rfl⟩ := hiy
    exact ⟨hnow t ht htq r' hr', hord r' hr', (hnum t ht htq r' hr').2, by simp⟩
  have hsent : ∀ o ∈ sent, o.Sendable lib := by
    have : ∀ (sent : List OutReport) (groups : List (List (List OutInterval))), Pointwise (fun o x => CompleteReport (.str q) report x.flatten o) sent groups →
        (∀ x ∈ groups, x.length = n) → (∀ x ∈ groups, ∀ i ∈ x.flatten, i.Sendable lib) → ∀ o ∈ sent, o.Sendable lib := by
      intro sent groups hp
      induction hp with
      | nil => simp
      | @cons o x sent groups ha _ ih =>
        intro hl hm o' ho'
        rcases List.mem_cons.mp ho' with rfl | ho'
        · obtain ⟨d, hd, hdm, -⟩ := ha.start
          obtain ⟨i, hix, hid⟩ := List.mem_map.mp hdm
          refine ⟨⟨q, ha.requestId, hq⟩, by rw [ha.specifierId]; exact hspec, by rw [ha.name]; exact hname, fun d' hd' => ?_, ?_, ?_⟩
          · rw [hd] at hd'
            cases hd'
            rw [← hid]
            exact (hm x (by simp) i hix).start
          · rw [ha.intervals]
            exact List.ne_nil_of_mem hix
          · rw [ha.intervals]
            exact hm x (by simp)
        · exact ih (fun y hy => hl y (by simp [hy])) (fun y hy => hm y (by simp [hy])) o' ho'
    exact this sent groups e5 e2 hint
  have hsize : ∀ r ∈ rids, ∀ o ∈ sent, (o.samples lib r).length = n := by
    intro r hr
    have one : ∀ x : List (List OutInterval), (∀ y ∈ x, ∃ t ∈ ticks, t.request = .str q ∧ y = samplesAt callback none rids t) →
        ∃ ts : List Tick, x = ts.map (samplesAt callback none rids) := by
      intro x
      induction x with
      | nil => intro _; exact ⟨[], rfl⟩
      | cons y x ih =>
        intro h
        obtain ⟨t, -, -, rfl⟩ := h y (by simp)
        obtain ⟨ts, rfl⟩ := ih (fun z hz => h z (by simp [hz]))
        exact ⟨t :: ts, rfl⟩
    have : ∀ (sent : List OutReport) (groups : List (List (List OutInterval))), Pointwise (fun o x => CompleteReport (.str q) report x.flatten o) sent groups →
        (∀ x ∈ groups, x.length = n) → (∀ x ∈ groups, ∀ y ∈ x, ∃ t ∈ ticks, t.request = .str q ∧ y = samplesAt callback none rids t) →
        ∀ o ∈ sent, (o.samples lib r).length = n := by
      intro sent groups hp
      induction hp with
      | nil => simp
      | @cons o x sent groups ha _ ih =>
        intro hl hm o' ho'
        rcases List.mem_cons.mp ho' with rfl | ho'
        · obtain ⟨ts, hts⟩ := one x (hm x (by simp))
          have hx := hl x (by simp)
          rw [hts, List.length_map] at hx
          rw [OutReport.samples, ha.intervals, hts, samples_point rids hnodup r hr, List.length_map, hx]
        · exact ih (fun y hy => hl y (by simp [hy])) (fun y hy => hm y (by simp [hy])) o' ho'
    exact this sent groups e5 e2 hmem
  have hown : ∀ o ∈ (runTicks (.str q) s ticks).1.pending, o.requestId = .str q → o ∈ sent := fun o ho hoq => by rw [← e4]; simp [ho, hoq]
  refine ⟨fun o ho hoq => ⟨hsent o (hown o ho hoq), fun r hr => hsize r hr o (hown o ho hoq)⟩, fun r hr => ?_⟩
  simp only
  rw [e4]
  have hflat : ∀ (sent : List OutReport) (groups : List (List (List OutInterval))), Pointwise (fun o x => CompleteReport (.str q) report x.flatten o) sent groups →
      sent.flatMap (fun o => o.samples lib r) =
        (groups.flatten.flatten.filter (fun i => decide (i.rId = r))).map (fun i => (.datetime i.dtstart, .float (floatOf lib i.value))) := by
    intro sent groups hp
    induction hp with
    | nil => rfl
    | @cons o x sent groups ha _ ih =>
      rw [List.flatMap_cons, ih, List.flatten_cons, List.flatten_append, List.filter_append, List.map_append, OutReport.samples, ha.intervals]
  rw [hflat sent groups e5, hgroups, List.length_map, ← List.map_take, samples_point rids hnodup r hr]

/-- **C88** (from end to end). A request for incremental data points, a VTN that registered a callback for one of them. The VEN takes samples at any times, for
    this request and for others; then the worker sends what is in the queue. The callback of the VTN is handed exactly what the callback of the VEN answered, in
    order, each value once, as floats with the times of the samples: of as many samples as there are in complete reports, of which each has `n`. -/
theorem c88_from_end_to_end {lib : Lib} (s : VenReports) (q : String) (rids : List Value) (hrids : rids ≠ []) (hnodup : rids.Nodup) (callback : Value → Value) (b g : Int)
    (n : Nat) (rq : VenRequest) (report : VenReport) (hi : Incremental s (.str q) rids callback b g rq report) (hg : 0 < g) (hn : 2 ≤ n) (h1 : n * g ≤ b)
    (h2 : b < (n + 1) * g) (hk : Keyed s) (hstart : getIncomplete s.incomplete (.str q) = none) (hpend : s.pending = []) (ticks : List Tick)
    (hnum : ∀ t ∈ ticks, t.request = .str q → ∀ r ∈ rids, OneSample (t.user ⟨callback r, r, .now⟩) ∧
      AsFloat lib (numberOf (t.user ⟨callback r, r, .now⟩)) (floatOf lib (numberOf (t.user ⟨callback r, r, .now⟩))))
    (hnow : ∀ t ∈ ticks, t.request = .str q → ∀ r ∈ rids, Datable (timeOf t.now (t.user ⟨callback r, r, .now⟩))) (hq : Ordinary lib q) (hspec : Ordinary lib report.specifierId)
    (hname : Ordinary lib (outName report.name)) (hord : ∀ r ∈ rids, ∃ x, r = .str x ∧ Ordinary lib x)
    (hother : ∀ o ∈ (runTicks (.str q) s ticks).1.pending, o.requestId ≠ .str q → o.Sendable lib)
    {c : Config} {user : ReportCall → Res Unit} {svc : Service ReportVtn} (hsvc : svc.Updates user) {secure : Bool} {peer : Option String} {ven : String} (hu : ∀ call, user call = .ok ())
    (ts : List Turn) (x : Delivery) (hw : x.worker.running = true) (hqueue : x.worker.queue = (runTicks (.str q) s ticks).1.pending)
    (hts : Pointwise (fun o t => t.link.lib = lib ∧ t.Ready c secure peer x.cache ven o) x.worker.queue ts)
    (r cb : Value) (hr : r ∈ rids) (hcb : getCallback x.vtn.1.callbacks (.str q, r) = some cb) :
    ∃ calls, (x.run c svc secure peer (.str ven) ts).vtn = (x.vtn.1, x.vtn.2 ++ calls) ∧
      let mine := ticks.filter (fun t => decide (t.request = .str q))
      deliveredTo calls (.str q) r = (mine.take (mine.length / n * n)).map
        (fun t => (.datetime (timeOf t.now (t.user ⟨callback r, r, .now⟩)), .float (floatOf lib (numberOf (t.user ⟨callback r, r, .now⟩))))) ∧
      ∀ call ∈ calls, ∃ q r cb vs, call = .deliver q r cb vs ∧ vs ≠ [] ∧ getCallback x.vtn.1.callbacks (q, r) = some cb := by
  obtain ⟨hsent, hvalues⟩ := own_reports s q rids hrids hnodup callback b g n rq report hi hg hn h1 h2 hk hstart hpend ticks hnum hnow hq hspec hname hord
  have hall : ∀ o ∈ x.worker.queue, o.Sendable lib := by
    rw [hqueue]
    intro o ho
    by_cases hoq : o.requestId = .str q
    · exact (hsent o ho hoq).1
    · exact hother o ho hoq
  have hpoint : Pointwise (SendsIn lib c secure peer x.cache ven) x.worker.queue ts := by
    generalize x.worker.queue = l at hts hall
    induction hts with
    | nil => exact .nil
    | cons ha _ ih => exact .cons ⟨ha.1, ha.2, hall _ (by simp)⟩ (ih (fun o ho => hall o (by simp [ho])))
  have hne : x.vtn.1.callbacks ≠ [] := by
    intro he
    rw [he] at hcb
    simp [getCallback] at hcb
  obtain ⟨-, calls, h3, h4, h5⟩ := c88_delivered hsvc hu ts x hne hw hpoint
  refine ⟨calls, h3, ?_, h5⟩
  rw [h4, if_neg (by rw [hcb]; simp), hqueue]
  exact hvalues r hr

/-! ### A concrete case -/

theorem datable_of {us : Int} (h : (decide (1000 ≤ (DateTime.ofMicros us).year) && decide ((DateTime.ofMicros us).year ≤ 9999)) = true) : Datable us := by
  simpa [Datable] using h

/-- The two sides of the samples are connected. -/
theorem sampleConnected (id : String) (h : Ordinary plainLib id) : Connected sampleLink { sampleVtn with newId := id } false none [] "ven1" where
  sound := plainLib_sound
  venId := ordinary_of (by decide +kernel)
  vtnId := show Ordinary plainLib "vtn1" from ordinary_of (by decide +kernel)
  newId := h
  now := datable_of (by decide +kernel)
  zero := asFloat_plain 0 _ (by decide +kernel)
  letsIn := ⟨fun _ _ h => by simp [checkKnown, h, sampleVtn], fun _ _ _ _ _ => by simp⟩

/-- Two values of one data point and one of another. -/
def sampleOut : OutReport :=
  ⟨.str "q1x", "spec1", "TELEMETRY_USAGE", some 3600000000, [⟨3600000000, .str "p1x", .int 2, none⟩, ⟨3600000000, .str "p2x", .int 7, none⟩,
    ⟨7200000000, .str "p1x", .int 3, none⟩]⟩

theorem sampleOut_sendable : sampleOut.Sendable plainLib := by
  refine ⟨⟨_, rfl, ordinary_of (by decide +kernel)⟩, ordinary_of (by decide +kernel), ordinary_of (by decide +kernel), ?_, by simp [sampleOut], ?_⟩
  · intro d hd
    cases hd
    exact datable_of (by decide +kernel)
  · intro i hi
    simp only [sampleOut, List.mem_cons, List.not_mem_nil, or_false] at hi
    rcases hi with rfl | rfl | rfl
    · exact ⟨datable_of (by decide +kernel), ⟨_, rfl, ordinary_of (by decide +kernel)⟩, asFloat_plain 2 _ (by decide +kernel), by simp⟩
    · exact ⟨datable_of (by decide +kernel), ⟨_, rfl, ordinary_of (by decide +kernel)⟩, asFloat_plain 7 _ (by decide +kernel), by simp⟩
    · exact ⟨datable_of (by decide +kernel), ⟨_, rfl, ordinary_of (by decide +kernel)⟩, asFloat_plain 3 _ (by decide +kernel), by simp⟩

def sampleTurn : Turn := ⟨sampleLink, "m1x", "id2x", 3600000000⟩

theorem sampleTurn_ready (o : OutReport) : sampleTurn.Ready sampleVtn false none [] "ven1" o :=
  ⟨sampleConnected "id2x" (ordinary_of (by decide +kernel)), ordinary_of (by decide +kernel), datable_of (by decide +kernel), fun _ _ => ⟨_, rfl⟩⟩

/-- The worker of a VEN and a VTN that has callbacks for both data points. -/
def sampleDelivery : Delivery :=
  ⟨⟨true, [sampleOut, sampleOut], [], []⟩, [],
    ({ callbacks := [((.str "q1x", .str "p1x"), .func 1), ((.str "q1x", .str "p2x"), .func 2)], requested := [], created := [], registered := [], ids := 0 }, [])⟩

/-- Two reports with three values each: the callback of the first data point gets four values. -/
example : ∃ calls, (sampleDelivery.run sampleVtn (updateService (fun _ => .ok ())) false none (.str "ven1") [sampleTurn, sampleTurn]).vtn.2 = calls ∧
    deliveredTo calls (.str "q1x") (.str "p1x") = [(.datetime 3600000000, .float "2.0"), (.datetime 7200000000, .float "3.0"),
      (.datetime 3600000000, .float "2.0"), (.datetime 7200000000, .float "3.0")] := by
  obtain ⟨-, calls, h1, h2, -⟩ := c88_delivered (lib := plainLib) (c := sampleVtn) (user := fun _ => .ok ()) (secure := false) (peer := none) (ven := "ven1") (updateService_updates _) (fun _ => rfl)
    [sampleTurn, sampleTurn] sampleDelivery (by simp [sampleDelivery]) rfl
    (.cons ⟨rfl, sampleTurn_ready _, sampleOut_sendable⟩ (.cons ⟨rfl, sampleTurn_ready _, sampleOut_sendable⟩ .nil))
  refine ⟨calls, by rw [h1]; rfl, ?_⟩
  rw [h2]
  decide +kernel

/-- The first callback raises: the value of the second data point is lost. -/
example : (sampleDelivery.turn sampleVtn (updateService (fun | .deliver _ (.str "p1x") _ _ => .error .valueError | _ => .ok ())) false none (.str "ven1") sampleTurn).vtn.2 =
    [.deliver (.str "q1x") (.str "p1x") (.func 1) [(.datetime 3600000000, .float "2.0"), (.datetime 7200000000, .float "3.0")]] := by
  have := (c88_raised_violated (x := sampleDelivery) (t := sampleTurn) (c := sampleVtn) (secure := false) (peer := none)
    (user := fun | .deliver _ (.str "p1x") _ _ => .error .valueError | _ => .ok ()) (updateService_updates _) (sampleTurn_ready sampleOut) sampleOut_sendable
    (fun call e he => by
      simp only [] at he
      split at he
      · cases he; simp
      · cases he) rfl rfl (i := ⟨3600000000, .str "p1x", .int 2, none⟩) rfl (cb := .func 1) (by decide +kernel) (e := .valueError) rfl).2.2
  rw [this]
  decide +kernel

/-- From end to end: seven samples of the data points "a" and "b", of which each report has three; the callback of the VTN for "b" gets six values. -/
example (vtn : ReportServer) (cb : Value) (hcb : getCallback vtn.callbacks (.str "q", .str "b") = some cb) :
    let queue := (runTicks (.str "q") (asked 30 10 ["a", "b"]) (clock 7)).1.pending
    ∃ calls, ((⟨⟨true, queue, [], []⟩, [], (vtn, [])⟩ : Delivery).run sampleVtn (updateService (fun _ => .ok ())) false none (.str "ven1") [sampleTurn, sampleTurn]).vtn = (vtn, calls) ∧
      deliveredTo calls (.str "q") (.str "b") = [(.datetime 0, .float "0.0"), (.datetime 1, .float "1.0"), (.datetime 2, .float "2.0"), (.datetime 3, .float "3.0"),
        (.datetime 4, .float "4.0"), (.datetime 5, .float "5.0")] := by
  have hticks : ∀ t ∈ clock 7, ∃ i : Nat, i < 7 ∧ t = ⟨.str "q", fun _ => .number (.int i), i⟩ := by
    intro t ht
    simp only [clock, List.mem_map, List.mem_range] at ht
    obtain ⟨i, hi, rfl⟩ := ht
    exact ⟨i, hi, rfl⟩
  have hlen : (runTicks (.str "q") (asked 30 10 ["a", "b"]) (clock 7)).1.pending.length = 2 := by decide +kernel
  have hown : (runTicks (.str "q") (asked 30 10 ["a", "b"]) (clock 7)).1.pending.all (fun o => decide (o.requestId = .str "q")) = true := by decide +kernel
  have hlater : ∀ i : Nat, i < 7 → Datable (i : Int) := by
    intro i hi
    exact datable_of (by revert i; decide +kernel)
  have hvals : ∀ i : Nat, i < 7 → AsFloat plainLib (.int i) (floatOf plainLib (.int i)) := by
    intro i hi
    have : ∀ i : Nat, i < 7 → (plainLib.readFloat (String.ofList (intText (i : Int)))).isSome = true := by decide +kernel
    obtain ⟨r, hr⟩ := Option.isSome_iff_exists.mp (this i hi)
    refine asFloat_plain _ _ ?_
    rw [floatOf, hr]; rfl
  obtain ⟨calls, h1, h2, -⟩ := c88_from_end_to_end (lib := plainLib) (asked 30 10 ["a", "b"]) "q" [.str "a", .str "b"] (by simp) (by decide) (fun _ => .func 1) (seconds 30)
    (seconds 10) 3 ⟨.str "q", .str "s", some (seconds 30), 0, some (seconds 10), some 0⟩ offerS
    (by refine ⟨?_, ?_, ?_, ?_, ?_, ?_, ?_⟩ <;> decide +kernel) (by decide +kernel) (by decide) (by decide +kernel) (by decide +kernel)
    (by have : (asked 30 10 ["a", "b"]).incomplete = [] := by decide +kernel
        intro k o h
        rw [this] at h
        cases h)
    (by decide +kernel) (by decide +kernel) (clock 7)
    (fun t ht _ r _ => by obtain ⟨i, hi, rfl⟩ := hticks t ht; exact ⟨.inl ⟨_, rfl⟩, hvals i hi⟩)
    (fun t ht _ r _ => by obtain ⟨i, hi, rfl⟩ := hticks t ht; exact hlater i hi)
    (ordinary_of (by decide +kernel)) (ordinary_of (by decide +kernel)) (ordinary_of (by decide +kernel))
    (fun r hr => by
      simp only [List.mem_cons, List.not_mem_nil, or_false] at hr
      rcases hr with rfl | rfl
      · exact ⟨_, rfl, ordinary_of (by decide +kernel)⟩
      · exact ⟨_, rfl, ordinary_of (by decide +kernel)⟩)
    (fun o ho hne => absurd (by simpa using List.all_eq_true.mp hown o ho) hne)
    (c := sampleVtn) (user := fun _ => .ok ()) (secure := false) (peer := none) (ven := "ven1") (updateService_updates _) (fun _ => rfl) [sampleTurn, sampleTurn]
    ⟨⟨true, (runTicks (.str "q") (asked 30 10 ["a", "b"]) (clock 7)).1.pending, [], []⟩, [], (vtn, [])⟩ rfl rfl
    (by
      obtain ⟨a, b, hab⟩ : ∃ a b, (runTicks (.str "q") (asked 30 10 ["a", "b"]) (clock 7)).1.pending = [a, b] := by
        match h : (runTicks (.str "q") (asked 30 10 ["a", "b"]) (clock 7)).1.pending, hlen with
        | [a, b], _ => exact ⟨a, b, rfl⟩
      simp only [hab]
      exact .cons ⟨rfl, sampleTurn_ready a⟩ (.cons ⟨rfl, sampleTurn_ready b⟩ .nil))
    (.str "b") cb (by simp) hcb
  refine ⟨calls, by rw [h1]; rfl, ?_⟩
  rw [h2]
  decide +kernel

end Openleadr
