import Verif.Lemmas.Arrive
import Verif.Lemmas.Loops
import Verif.Spec.Payloads
/-!
Rules for the usual kinds of entries.
-/
namespace Openleadr

/-- Finds the value of a path. -/
macro "lk" : tactic => `(tactic| simp [lookup, walk, attrOf, loopEnv, Dict.get?, Dict.get?_append, Dict.get?_entry?])

/-- Finds the value of a path, with further definitions. -/
macro "lkd" "[" ts:Lean.Parser.Tactic.simpLemma,* "]" : tactic =>
  `(tactic| simp [lookup, walk, attrOf, loopEnv, Dict.get?, Dict.get?_append, Dict.get?_entry?, $ts,*])

theorem carries_text {lib : Lib} {n : Nat} {env : Dict} {name : String} (key key' : String) {path : List String} {attrs : List (String × String)}
    {s : String} (hl : lookup env path = .ok (some (.str s))) (hs : Ordinary lib s) (hk : textKey key' = true := by decide +kernel)
    (hf : leafFacts name attrs key key' = true := by decide +kernel) :
    Carries lib n env (leaf name path .plain attrs) key [key'] [(key', .str s)] :=
  carries_leaf key key' hl (wired_text hs hk) hf

theorem carries_int {lib : Lib} (sound : lib.Sound) {n : Nat} {env : Dict} {name : String} (key key' : String) {path : List String}
    {attrs : List (String × String)} {i : Int} (hl : lookup env path = .ok (some (.int i))) (hk : textKey key' = true := by decide +kernel)
    (hf : leafFacts name attrs key key' = true := by decide +kernel) :
    Carries lib n env (leaf name path .plain attrs) key [key'] [(key', .int i)] :=
  carries_leaf key key' hl (wired_int sound i hk) hf

theorem carries_bool {lib : Lib} {n : Nat} {env : Dict} {name : String} (key key' : String) {path : List String} {attrs : List (String × String)}
    (b : Bool) (hl : lookup env path = .ok (some (.bool b))) (hk : textKey key' = true := by decide +kernel)
    (hf : leafFacts name attrs key key' = true := by decide +kernel) :
    Carries lib n env (leaf name path .booleanformat attrs) key [key'] [(key', .bool b)] :=
  carries_leaf key key' hl (wired_bool b hk) hf

theorem wired_text? {lib : Lib} {k : String} {s : Option String} (h : ∀ x, s = some x → Ordinary lib x) (hk : textKey k = true := by decide +kernel) :
    ∀ y, text? s = some y → Wired lib k .plain y y := by
  intro y hy
  cases s with
  | none => simp [text?] at hy
  | some x =>
    simp only [text?, Option.map_some, Option.some.injEq] at hy
    subst hy
    exact wired_text (h x rfl) hk

theorem carries_text? {lib : Lib} {n : Nat} {env : Dict} {name : String} (key key' : String) {path : List String} {attrs : List (String × String)}
    {s : Option String} (hl : lookup env path = .ok (text? s)) (hs : ∀ x, s = some x → Ordinary lib x) (hk : textKey key' = true := by decide +kernel)
    (hf : leafFacts name attrs key key' = true := by decide +kernel) :
    Carries lib n env (ifGiven path [leaf name path .plain attrs]) key [key'] (entry? key' (text? s)) :=
  carries_given key key' hl (wired_text? hs hk) hf

theorem carries_date {lib : Lib} {n : Nat} {env : Dict} {name : String} (key key' : String) {path : List String} {attrs : List (String × String)}
    {us : Int} (hl : lookup env path = .ok (some (.datetime us))) (hd : Datable us)
    (hk : (!(durationKeys.contains key') && isDateKey key') = true := by decide +kernel)
    (hf : leafFacts name attrs key key' = true := by decide +kernel) :
    Carries lib n env (leaf name path .datetimeformat attrs) key [key'] [(key', .datetime us)] :=
  carries_leaf key key' hl (wired_datetime hd hk) hf

theorem carries_span {lib : Lib} {n : Nat} {env : Dict} {name : String} (key key' : String) {path : List String} {attrs : List (String × String)}
    {us : Int} (hl : lookup env path = .ok (some (.timedelta us))) (hd : Spans us)
    (hk : durationKeys.contains key' = true := by decide +kernel)
    (hf : leafFacts name attrs key key' = true := by decide +kernel) :
    Carries lib n env (leaf name path .timedeltaformat attrs) key [key'] [(key', .timedelta us)] :=
  carries_leaf key key' hl (wired_duration hd hk) hf

/-- `<name><duration>…</duration></name>` -/
theorem carries_spanIn {lib : Lib} {n : Nat} {env : Dict} {outer inner : String} (key key' : String) {path : List String}
    {attrs attrs' : List (String × String)} {us : Int} (hl : lookup env path = .ok (some (.timedelta us))) (hd : Spans us)
    (h0 : localName outer = key := by decide +kernel) (h1 : leafFacts inner attrs' "duration" "duration" = true := by decide +kernel)
    (h2 : elemFacts attrs [("duration", ["duration"])] = true := by decide +kernel) (hf : nestFacts key key' = true := by decide +kernel) :
    Carries lib (n + 1) env (el outer [leaf inner path .timedeltaformat attrs'] attrs) key [key'] [(key', .timedelta us)] :=
  carries_duration key' (inside_elem (.cons (carries_span "duration" "duration" hl hd (by decide +kernel) h1) .nil) rfl (by simp) h0 h2) hf

/-- `<name><date-time>…</date-time></name>` -/
theorem carries_dateIn {lib : Lib} {n : Nat} {env : Dict} {outer inner : String} (key key' : String) {path : List String}
    {attrs attrs' : List (String × String)} {us : Int} (hl : lookup env path = .ok (some (.datetime us))) (hd : Datable us)
    (h0 : localName outer = key := by decide +kernel) (h1 : leafFacts inner attrs' "date-time" "date_time" = true := by decide +kernel)
    (h2 : elemFacts attrs [("date-time", ["date_time"])] = true := by decide +kernel) (hf : nestFacts key key' = true := by decide +kernel)
    (hg : (decide ("date_time" ≠ key') && decide ("date_time" ≠ singular key')) = true := by decide +kernel) :
    Carries lib (n + 1) env (el outer [leaf inner path .datetimeformat attrs'] attrs) key [key'] [(key', .datetime us)] :=
  carries_datetime key' (inside_elem (.cons (carries_date "date-time" "date_time" hl hd (by decide +kernel) h1) .nil) rfl (by simp) h0 h2) hf hg

/-- A part that may be left out, with a value. -/
theorem carries_opt {lib : Lib} {n : Nat} {env : Dict} {t : Tmpl} {key key' : String} {path : List String} {v : Option Value}
    (hl : lookup env path = .ok v) (hv : ∀ y, v = some y → y ≠ .none ∧ Carries lib n env t key [key'] [(key', y)]) :
    Carries lib n env (ifGiven path [t]) key [key'] (entry? key' v) := by
  cases v with
  | none => exact carries_skip _ _ (surely_given hl (by simp))
  | some v =>
    obtain ⟨h1, h2⟩ := hv v rfl
    exact carries_yes (surely_given hl (by simp [h1])) h2

theorem carries_response {lib : Lib} (sound : lib.Sound) {n : Nat} {env : Dict} {r : ResponseP} (hr : r.Good lib)
    (hl : Dict.get? env "response" = some (.dict r.dict)) :
    Carries lib (n + 1) env eiResponse "eiResponse" ["response"] [("response", .dict r.dict)] := by
  refine carries_dict "response" (inside_elem (.cons (carries_int sound "responseCode" "response_code" (i := r.code) ?_)
    (.cons (carries_text "responseDescription" "response_description" ?_ hr.description)
    (.cons (carries_text "requestID" "request_id" ?_ hr.requestId) .nil))) (by simp [ResponseP.dict]) (by simp [ResponseP.dict]))
    (by simp [ResponseP.dict]) (by simp [ResponseP.dict, Dict.has, Dict.get?])
  all_goals simp [lookup, walk, hl, attrOf, ResponseP.dict, Dict.get?]

end Openleadr
