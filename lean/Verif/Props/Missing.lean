import Verif.Lemmas.Reads
import Verif.Lemmas.PlainTexts
import Verif.Props.Messages
/-!
C67: payloads in which entries are missing or `None`.
-/
namespace Openleadr

variable {lib : Lib} {now : Int}

/-- A part that cannot be rendered cannot be rendered among others. -/
theorem renderAll_fails {env : Dict} {t : Tmpl} {ts : List Tmpl} (h : t ∈ ts) (hf : ∀ x, render lib env t ≠ .ok x) : ∀ x, renderAll lib env ts ≠ .ok x := by
  induction ts with
  | nil => simp at h
  | cons u ts ih =>
    intro x
    simp only [renderAll]
    rcases List.mem_cons.mp h with rfl | h
    · cases hr : render lib env t with
      | ok y => exact absurd hr (hf y)
      | error e => simp
    · cases render lib env u with
      | error e => simp
      | ok a =>
        simp only
        cases hr : renderAll lib env ts with
        | ok y => exact absurd hr (ih h y)
        | error e => simp

theorem signed_fails {env : Dict} {name : String} {t : Tmpl} {ts : List Tmpl} {attrs outer : List (String × String)} (h : t ∈ ts)
    (hf : ∀ x, render lib env t ≠ .ok x) : ∀ x, render lib env (signed name ts attrs outer) ≠ .ok x := by
  intro x
  simp only [signed, el, render, renderAll, tagText]
  cases hr : renderAll lib env ts with
  | ok y => exact absurd hr (renderAll_fails h hf y)
  | error e => simp

theorem renderAll_same {a b : Dict} {ts : List Tmpl} (h : ∀ t ∈ ts, render lib a t = render lib b t) : renderAll lib a ts = renderAll lib b ts := by
  induction ts with
  | nil => simp [renderAll]
  | cons t ts ih =>
    simp only [renderAll]
    rw [h t (by simp), ih (fun t ht => h t (by simp [ht]))]

theorem signed_same {a b : Dict} {name : String} {ts : List Tmpl} {attrs outer : List (String × String)} (h : ∀ t ∈ ts, render lib a t = render lib b t) :
    render lib a (signed name ts attrs outer) = render lib b (signed name ts attrs outer) := by
  simp only [signed, el, render, renderAll, tagText, renderAll_same h]

theorem create_fails {p : Dict} {type : String} {t : Tmpl} (ht : Dict.get? templates type = some t) (h1 : type ≠ "oadrDistributeEvent")
    (h2 : type ≠ "oadrRegisterReport") (hf : ∀ x, render lib p t ≠ .ok x) : ∀ x, createMessage lib now type p ≠ .ok x := by
  intro x
  simp only [createMessage, preflightMessage, h1, h2, if_false, renderMessage, ht]
  cases hr : render lib p t with
  | ok y => exact absurd hr (hf y)
  | error e => simp [Except.map]

/-- **C67**: there is no message of a type without a template. -/
theorem c67_unknown_type {p : Dict} {type : String} (ht : type ∉ Dict.keys templates) : ∀ x, createMessage lib now type p ≠ .ok x := by
  have hn : Dict.get? templates type = none := by
    cases h : Dict.get? templates type with
    | none => rfl
    | some t => exact absurd ((Dict.get?_isSome _ _).mp (by rw [h]; rfl)) ht
  intro x
  simp only [createMessage, renderMessage, hn]
  split <;> simp [Except.map]

/-- non-vacuity: there are templates for 23 message types, none of them for a misspelt one -/
example : "oadrPol" ∉ Dict.keys templates ∧ "oadrPoll" ∈ Dict.keys templates := by decide +kernel

/-- **C67, refuted** for registrations in which one of the three booleans is missing or `None`: there is no message for them, whatever else they hold. -/
theorem c67_missing_bool_violated {p : Dict} {k : String} (hk : k = "report_only" ∨ k = "xml_signature" ∨ k = "http_pull_model")
    (hp : Dict.get? p k = none ∨ Dict.get? p k = some .none) : ∀ x, createMessage lib now "oadrCreatePartyRegistration" p ≠ .ok x := by
  refine create_fails (t := tCreatePartyRegistration) (by rfl) (by decide) (by decide) ?_
  have hleaf : ∀ name x, render lib p (leaf name [k] .booleanformat) ≠ .ok x := by
    intro name x
    rcases hp with hp | hp <;> simp [leaf, render, renderAll, tagText, lookup, walk, hp, applyFilter, booleanformat, Except.map]
  rcases hk with rfl | rfl | rfl
  · exact signed_fails (t := leaf "oadr:oadrReportOnly" ["report_only"] .booleanformat) (by simp) (hleaf _)
  · exact signed_fails (t := leaf "oadr:oadrXmlSignature" ["xml_signature"] .booleanformat) (by simp) (hleaf _)
  · exact signed_fails (t := leaf "oadr:oadrHttpPullModel" ["http_pull_model"] .booleanformat) (by simp) (hleaf _)

/-- **C67, refuted** for `None` in the place of a list of report requests: there is no message with them, whatever else it holds. -/
theorem c67_none_list_violated {p : Dict} (hp : Dict.get? p "report_requests" = some .none) :
    (∀ x, createMessage lib now "oadrRegisteredReport" p ≠ .ok x) ∧ ∀ x, createMessage lib now "oadrCreateReport" p ≠ .ok x := by
  have hloop : ∀ x, render lib p (.loop "report_request" ["report_requests"] [tReportRequest]) ≠ .ok x := by
    intro x; simp [render, lookup, walk, hp, loopValues]
  exact ⟨create_fails (t := tRegisteredReport) (by rfl) (by decide) (by decide) (signed_fails (by simp) hloop),
    create_fails (t := tCreateReport) (by rfl) (by decide) (by decide) (signed_fails (by simp) hloop)⟩

/-- **C67**: a payload without a list of report requests makes the message of one with an empty list. -/
theorem c67_no_list {p : Dict} (hp : Dict.get? p "report_requests" = none) {type : String} (ht : type = "oadrRegisteredReport" ∨ type = "oadrCreateReport") :
    createMessage lib now type p = createMessage lib now type (("report_requests", .list []) :: p) := by
  have agree : ∀ t : Tmpl, "report_requests" ∉ t.reads → render lib p t = render lib (("report_requests", .list []) :: p) t := by
    intro t hn
    refine render_agree lib t _ _ (fun k hk => ?_)
    have : "report_requests" ≠ k := by rintro rfl; exact hn hk
    simp [Dict.get?, this]
  have hl1 : render lib p (.loop "report_request" ["report_requests"] [tReportRequest]) = .ok [] := by simp [render, lookup, walk, hp, loopValues, eachText]
  have hl2 : render lib (("report_requests", .list []) :: p) (.loop "report_request" ["report_requests"] [tReportRequest]) = .ok [] := by
    simp [render, lookup, walk, Dict.get?, loopValues, eachText]
  have h1 : type ≠ "oadrDistributeEvent" ∧ type ≠ "oadrRegisterReport" := by rcases ht with rfl | rfl <;> decide
  have key : ∀ t, Dict.get? templates type = some t → render lib p t = render lib (("report_requests", .list []) :: p) t →
      createMessage lib now type p = createMessage lib now type (("report_requests", .list []) :: p) := by
    intro t e1 e2
    simp only [createMessage, preflightMessage, h1.1, h1.2, if_false, renderMessage, e1, e2]
  rcases ht with rfl | rfl
  · refine key tRegisteredReport (by rfl) ?_
    refine signed_same (fun t ht => ?_)
    simp only [List.mem_cons, List.not_mem_nil, or_false] at ht
    rcases ht with rfl | rfl | rfl
    · exact agree _ (by decide +kernel)
    · rw [hl1, hl2]
    · exact agree _ (by decide +kernel)
  · refine key tCreateReport (by rfl) ?_
    refine signed_same (fun t ht => ?_)
    simp only [List.mem_cons, List.not_mem_nil, or_false] at ht
    rcases ht with rfl | rfl | rfl
    · exact agree _ (by decide +kernel)
    · rw [hl1, hl2]
    · exact agree _ (by decide +kernel)

/-- **C67**: an event without a priority is sent with an empty one, which is received as `None`; one with the priority `None` is sent without. -/
theorem c67_no_priority {env : Dict} {path : List String} (f : Dict → Res Dict) (acc : Dict) :
    (lookup env path = .ok none → render lib env (.cond (.notNone path) [leaf "ei:priority" path] []) = .ok "<ei:priority></ei:priority>".toList) ∧
    (lookup env path = .ok (some .none) → render lib env (.cond (.notNone path) [leaf "ei:priority" path] []) = .ok []) ∧
    stepEntry lib f acc ("priority", closeValue none "".toList) = .ok (Dict.set acc "priority" .none) := by
  refine ⟨fun h => ?_, fun h => ?_, ?_⟩
  · have e : "<ei:priority></ei:priority>".toList = '<' :: ("ei:priority".toList ++ attrText []) ++ '>' :: [] ++ '<' :: '/' :: "ei:priority".toList ++ ['>'] := by
      decide +kernel
    rw [e]
    simp [render, holds, h, Except.map, leaf, renderAll, tagText, applyFilter, pyText]
  · simp [render, holds, h, Except.map, renderAll]
  · have h1 : isAttribute "priority" = false := by decide +kernel
    have h2 : normalizeKey "priority" = "priority" := by decide +kernel
    have hx : "x_ei_".toList.isPrefixOf "priority".toList = false := by decide +kernel
    have hc : closeValue none "".toList = .none := by decide +kernel
    have hcur : currentOf (Dict.set acc "priority" .none) "priority" = .none := by simp [currentOf, Dict.get?_set_self]
    have hd : leafValue lib "priority" .none = .ok .none := by
      have : durationKeys.contains "priority" = false := by decide +kernel
      simp only [leafValue, this, Bool.false_eq_true, if_false]
    simp only [stepEntry, h1, h2, hc, entryValue, hd, Bool.false_eq_true, if_false, settle, renameEntry, hx, groupTargetEntry,
      show ("priority" = "target") = False by simp]
    simp [arrangeEntry, hcur, unnest, onlyEntry]

/-- Concretely: a registration without a word on its model, and an answer without report requests. -/
example : (∀ x, createMessage plainLib now "oadrCreatePartyRegistration" [("request_id", .str "q1"), ("profile_name", .str "2.0b"), ("transport_name", .str "simpleHttp"),
      ("transport_address", .str "here"), ("report_only", .bool false), ("xml_signature", .bool false), ("ven_name", .str "ven")] ≠ .ok x) ∧
    createMessage plainLib now "oadrCreateReport" [("request_id", .str "q1"), ("ven_id", .str "ven1")] =
      createMessage plainLib now "oadrCreateReport" [("report_requests", .list []), ("request_id", .str "q1"), ("ven_id", .str "ven1")] :=
  ⟨c67_missing_bool_violated (k := "http_pull_model") (by simp) (Or.inl (by decide +kernel)), c67_no_list (by decide +kernel) (Or.inr rfl)⟩

end Openleadr
