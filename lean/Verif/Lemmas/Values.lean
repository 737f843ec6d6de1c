import Verif.Lemmas.Parts
/-!
Numbers, and the elements around them.
-/
namespace Openleadr

variable {lib : Lib} {n : Nat} {env : Dict}

theorem plainText_float {r : String} (h : FloatText lib r) : ∃ x, plainText lib r = .ok x ∧ toFloat lib x = .ok (.float r) ∧ isLeaf x = true ∧ x ≠ .none := by
  obtain ⟨x, h1, rfl | rfl⟩ := plainText_kept h
  · exact ⟨_, h1, rfl, rfl, by simp⟩
  · exact ⟨_, h1, by simp [toFloat, h.reads], rfl, by simp⟩

/-- A number under the key `value`. -/
theorem wired_value (sound : lib.Sound) {v : Value} {r k : String} (h : AsFloat lib v r) (hk : textKey k = true) :
    ∃ x, Wired lib k .plain v x ∧ toFloat lib x = .ok (.float r) ∧ x ≠ .none := by
  cases h with
  | float r h =>
    obtain ⟨x, h1, h2, h3, h4⟩ := plainText_float h
    refine ⟨x, .of (some (.float r)) r rfl (by simp) rfl rfl h.toOnWire ?_ h3, h2, h4⟩
    rw [leafValue_text lib k _ hk, if_neg (by simp [h.notTrue, h.notFalse]), h1]
  | int i r h => exact ⟨.int i, wired_int sound i hk, by simp [toFloat, h], by simp⟩

/-- `<payloadFloat><value>…</value></payloadFloat>` -/
theorem carries_payloadFloat (sound : lib.Sound) {path : List String} {v : Value} {r : String} (hl : lookup env path = .ok (some v)) (h : AsFloat lib v r) :
    ∃ x, toFloat lib x = .ok (.float r) ∧ x ≠ .none ∧
      Carries lib (n + 1) env (el "ei:payloadFloat" [leaf "ei:value" path]) "payloadFloat" ["payload_float"] [("payload_float", .dict [("value", x)])] := by
  obtain ⟨x, hw, hx, hn⟩ := wired_value (k := "value") sound h (by decide +kernel)
  exact ⟨x, hx, hn, carries_single "payload_float" (inside_elem (.cons (carries_leaf "value" "value" hl hw) .nil) (by simp) (by simp))⟩

/-! ### Payloads of signals -/

/-- What has to be checked of the name of an element with the payload of a signal. -/
def signalFacts (key key' : String) : Bool :=
  decide (normalizeKey key = key') && !(isAttribute key) && decide (key' = "signal_payload" ∨ key' = "current_value")

theorem settle_signal (d : Dict) (k : String) (x y : Value) (hk : k = "signal_payload" ∨ k = "current_value")
    (hd : Dict.get? d k = some (.dict [("payload_float", .dict [("value", x)])])) (hx : toFloat lib x = .ok y) (hn : x ≠ .none) :
    settle lib d k = .ok (Dict.set d k y) := by
  have hcur : currentOf d k = .dict [("payload_float", .dict [("value", x)])] := by simp [currentOf, hd]
  have hp : plainKey k = true := by rcases hk with rfl | rfl <;> decide +kernel
  have hs : singular k ≠ "payload_float" := by rcases hk with rfl | rfl <;> decide +kernel
  have h1 : k ≠ "pending_reports" ∧ k ≠ "event" ∧ k ≠ "request_event" ∧ k ≠ "created_event" ∧ k ≠ "qualified_event_id" ∧ k ≠ "report_request" ∧
    k ≠ "report" ∧ k ≠ "specifier_payload" ∧ k ≠ "report_description" ∧ k ≠ "event_signal" ∧ "payload_float" ≠ k := by
    rcases hk with rfl | rfl <;> decide +kernel
  obtain ⟨h1, h2, h3, h4, h5, h6, h7, h8, h9, h10, h11⟩ := h1
  have hk' : (k = "signal_payload" || k = "current_value") = true := by rcases hk with rfl | rfl <;> decide
  rw [settle_plain lib d k hp]
  unfold arrangeEntry
  simp only [hcur, h1, h2, h3, h4, h5, h6, h7, h8, h9, h10, decide_false, Bool.false_and, Bool.or_self, Bool.false_eq_true, if_false]
  have hpf : payloadValue lib [("payload_float", .dict [("value", x)])] = .ok (some y) := by
    have : keyIn "value" (.dict [("value", x)]) = .ok true := by simp [keyIn, Dict.has, Dict.get?]
    have he : entryAt (.dict [("value", x)]) "value" = .ok x := by simp [entryAt, Dict.get?]
    simp only [payloadValue, Dict.get?, if_true, this, he]
    cases x <;> simp_all [Except.map]
  have o1 : onlyEntry (.dict [("payload_float", .dict [("value", x)])]) k = none := by simp [onlyEntry, h11]
  have o2 : onlyEntry (.dict [("payload_float", .dict [("value", x)])]) (singular k) = none := by simp [onlyEntry, Ne.symm hs]
  unfold unnest
  simp only [o1, o2, hk', if_true, hpf]
  simp [onlyEntry]

/-- `<signalPayload><payloadFloat><value>…` -/
theorem carries_signal (sound : lib.Sound) {name : String} (key key' : String) {path : List String} {v : Value} {r : String}
    (hl : lookup env path = .ok (some v)) (h : AsFloat lib v r) (h0 : localName name = key := by decide +kernel)
    (hf : signalFacts key key' = true := by decide +kernel) :
    Carries lib (n + 2) env (el name [el "ei:payloadFloat" [leaf "ei:value" path]]) key [key'] [(key', .float r)] := by
  simp only [signalFacts, Bool.and_eq_true, decide_eq_true_eq, Bool.not_eq_true'] at hf
  obtain ⟨⟨f1, f2⟩, f3⟩ := hf
  obtain ⟨x, hx, hn, hc⟩ := carries_payloadFloat (n := n) sound hl h
  refine carries_inside (inside_elem (.cons hc .nil) rfl (by simp) h0) (fun raw hr => ?_) (by simp [Dict.keys])
  refine appends_inPlace lib _ key key' _ (.dict [("payload_float", .dict [("value", x)])]) _ f1 f2 ?_ ?_
  · simp [entryValue, hr, Except.map]
  · intro d hd
    exact settle_signal d key' x _ f3 hd hx hn

/-! ### Numbers of intervals -/

/-- `<uid><text>…</text></uid>` -/
theorem carries_uid (sound : lib.Sound) {path : List String} {attrs : List (String × String)} {i : Int} (hl : lookup env path = .ok (some (.int i)))
    (h2 : elemFacts attrs [("text", ["text"])] = true := by decide +kernel) :
    Carries lib (n + 1) env (el "uid" [leaf "text" path] attrs) "uid" ["uid"] [("uid", .int i)] := by
  refine carries_unnest "uid" (d := [("text", .int i)]) (inside_elem (.cons (carries_int sound "text" "text" hl) .nil) rfl (by simp) (by decide +kernel) h2) (fun acc _ => ?_) (by decide +kernel)
  rw [unnest_other lib acc "uid" "text" _ (by decide +kernel) (by decide) (by decide) (by decide +kernel)]
  simp [onlyEntry, toInt, Except.map]

/-! ### Test events -/

theorem settle_test (d : Dict) (b : Bool) (hd : Dict.get? d "test_event" = some (.bool b)) : settle lib d "test_event" = .ok (Dict.set d "test_event" (.bool b)) := by
  have hx : "x_ei_".toList.isPrefixOf "test_event".toList = false := by decide +kernel
  have hcur : currentOf d "test_event" = .bool b := by simp [currentOf, hd]
  rw [Dict.set_get?_self _ _ _ hd]
  simp only [settle, renameEntry, hx, Bool.false_eq_true, if_false, groupTargetEntry, show ("test_event" = "target") = False by simp]
  simp [arrangeEntry, hcur, unnest, onlyEntry]

theorem carries_test {path : List String} (b : Bool) (hl : lookup env path = .ok (some (.bool b))) :
    Carries lib n env (leaf "ei:testEvent" path .booleanformat) "testEvent" ["test_event"] [("test_event", .bool b)] := by
  have hw := wired_bool (lib := lib) (k := "test_event") b (by decide +kernel)
  obtain ⟨w, s, h1, h2, h3, h4⟩ := hw.text
  refine carries_one (.str s) ?_ (by simp) ?_ (by simp [Dict.keys])
  · have hla : leafAt env path = .ok (.bool b) := by simp [leafAt, hl, isLeaf]
    have hn : localName "ei:testEvent" = "testEvent" := by decide +kernel
    have hv : elementValue [] [.chars s.toList] = .str s := by
      simp only [elementValue, show attrItem [] = [] from rfl, if_true, charsOf, List.flatMap_cons, List.flatMap_nil, List.append_nil]
      exact h3.close
    simp only [leaf, sure, sureKey, hn, sureAll, hla, h1, h2, h3.clean, if_true, List.append_nil, hv]
  · refine appends_inPlace lib _ "testEvent" "test_event" _ (.bool b) _ (by decide +kernel) (by decide +kernel) ?_ (fun d hd => settle_test d b hd)
    simp only [entryValue, h4]

theorem settled_test {b : Bool} (m : Nat) : SettledEntry lib m "test_event" (.bool b) := by
  refine ⟨by decide +kernel, fun n _ => appends_inPlace lib _ _ _ _ (.bool b) _ (by decide +kernel) (by decide +kernel) ?_ (fun d hd => settle_test d b hd)⟩
  have : durationKeys.contains "test_event" = false := by decide +kernel
  simp only [entryValue, leafValue, this, Bool.false_eq_true, if_false]

/-! ### Payloads of reports -/

theorem settle_report (d p : Dict) (hd : Dict.get? d "report_payload" = some (.dict p)) (h2 : 2 ≤ p.length) :
    settle lib d "report_payload" = (reportPayload lib (.dict p)).map (Dict.set d "report_payload") := by
  have hx : "x_ei_".toList.isPrefixOf "report_payload".toList = false := by decide +kernel
  have hcur : currentOf d "report_payload" = .dict p := by simp [currentOf, hd]
  simp only [settle, renameEntry, hx, Bool.false_eq_true, if_false, groupTargetEntry, show ("report_payload" = "target") = False by simp]
  simp [arrangeEntry, hcur, unnest, onlyEntry_many p _ h2]

theorem reportPayload_float (p : Dict) (x : Value) (r : String) (hp : Dict.get? p "payload_float" = some (.dict [("value", x)]))
    (hx : toFloat lib x = .ok (.float r)) :
    reportPayload lib (.dict p) = .ok (.dict (Dict.set (Dict.erase p "payload_float") "value" (.float r))) := by
  simp [reportPayload, keyIn, Dict.has, hp, entryAt, Dict.get?, hx, Except.map]

theorem reportPayload_done (p : Dict) (h1 : Dict.get? p "payload_float" = none) (h2 : Dict.get? p "payload_int" = none) :
    reportPayload lib (.dict p) = .ok (.dict p) := by
  simp [reportPayload, keyIn, Dict.has, h1, h2]

theorem settled_report {m : Nat} {p : Dict} (h : Settled lib m p) (h2 : 2 ≤ p.length) (h3 : Dict.get? p "payload_float" = none)
    (h4 : Dict.get? p "payload_int" = none) : SettledEntry lib m "report_payload" (.dict p) := by
  refine ⟨by decide +kernel, fun n hn => appends_inPlace lib _ _ _ _ (.dict p) _ (by decide +kernel) (by decide +kernel) ?_ (fun d hd => ?_)⟩
  · simp [entryValue, h n hn, Except.map]
  · rw [settle_report d p hd h2, reportPayload_done p h3 h4]
    rfl

end Openleadr
