import Verif.Lemmas.Leaves
/-!
Rules for the parts of templates: the children they give, and the entries these are normalized to.
-/
namespace Openleadr

/-! ### Looking up -/

theorem Dict.get?_append {α : Type} (a b : List (String × α)) (k : String) :
    Dict.get? (a ++ b) k = (Dict.get? a k).or (Dict.get? b k) := by
  induction a with
  | nil => simp [Dict.get?]
  | cons e a ih =>
    obtain ⟨k', v⟩ := e
    simp only [List.cons_append, Dict.get?]
    split
    · simp
    · exact ih

theorem Dict.get?_entry? (k : String) (v : Option Value) (k' : String) :
    Dict.get? (entry? k v) k' = if k = k' then v else none := by
  cases v <;> simp [entry?, Dict.get?]

/-! ### The parts of a template -/

/-- A part of a template gives children named `key`, and these are normalized to `out`; `keys` are the keys they may get. -/
def Carries (lib : Lib) (n : Nat) (env : Dict) (t : Tmpl) (key : String) (keys : List String) (out : Dict) : Prop :=
  ∃ vals, Conveys lib n env t ⟨key, keys, vals, out⟩

/-- The parts of a template one after the other. -/
inductive CarriesAll (lib : Lib) (n : Nat) (env : Dict) : List Tmpl → List (String × List String) → List Dict → Prop
  | nil : CarriesAll lib n env [] [] []
  | cons {t ts key keys out names outs} : Carries lib n env t key keys out → CarriesAll lib n env ts names outs →
      CarriesAll lib n env (t :: ts) ((key, keys) :: names) (out :: outs)

theorem carriesAll_conveys (lib : Lib) (n : Nat) (env : Dict) (ts : List Tmpl) (names : List (String × List String)) (outs : List Dict)
    (h : CarriesAll lib n env ts names outs) : ∃ flow, ConveysAll lib n env ts flow ∧ namesOf flow = names ∧ flow.flatMap (·.out) = outs.flatten := by
  induction h with
  | nil => exact ⟨[], .nil, rfl, rfl⟩
  | cons h hs ih =>
    obtain ⟨vals, hv⟩ := h
    obtain ⟨flow, h1, h2, h3⟩ := ih
    refine ⟨_ :: flow, .cons hv h1, ?_, ?_⟩
    · simp only [namesOf, List.map_cons] at h2 ⊢; rw [h2]
    · simp [h3]

/-- An element gives one child, a dict that is normalized to `d`. -/
def Inside (lib : Lib) (n : Nat) (env : Dict) (t : Tmpl) (key : String) (d : Dict) : Prop :=
  ∃ raw, sure lib env t = .ok [.entry key (.dict raw)] ∧ normalize lib n raw = .ok d

/-- What has to be checked of an element. -/
def elemFacts (attrs : List (String × String)) (names : List (String × List String)) : Bool :=
  freshNames [] names && decide ((Dict.keys (attrItem attrs) ++ names.map (·.1)).Nodup)

theorem inside_of {lib : Lib} {n : Nat} {env : Dict} {tag : Tag} {key : String} {attrs : List (String × String)} {body : List Tmpl}
    {names : List (String × List String)} {outs : List Dict} {d : Dict} (h : CarriesAll lib n env body names outs) (hd : outs.flatten = d)
    (hne : d ≠ []) (hkey : sureKey env tag = some key) (hf : elemFacts attrs names = true) :
    Inside lib (n + 1) env (.elem tag attrs body) key d := by
  obtain ⟨flow, h1, h2, h3⟩ := carriesAll_conveys lib n env body names outs h
  simp only [elemFacts, Bool.and_eq_true, decide_eq_true_eq] at hf
  have hraw : rawOf flow ≠ [] := by
    intro e
    apply hne
    rw [← hd, ← h3]
    obtain ⟨-, hg⟩ := sureAll_conveys lib n env body flow h1
    rw [List.flatMap_eq_nil_iff]
    intro g hm
    obtain ⟨-, -, g3⟩ := hg g hm
    simp only [rawOf, List.filterMap_eq_nil_iff] at e
    have := e g hm
    cases hw : wrapVals g.vals with
    | none => rw [hw] at g3; exact g3
    | some v => rw [hw] at this; simp at this
  obtain ⟨e1, e2⟩ := element_conveys lib n env tag key attrs body flow names h1 hkey h2 hf.1 hf.2 (by simp [hraw])
  exact ⟨_, e1, by rw [e2, h3, hd]⟩

/-- The contents of an element. -/
theorem inside_elem {lib : Lib} {n : Nat} {env : Dict} {name key : String} {attrs : List (String × String)} {body : List Tmpl}
    {names : List (String × List String)} {outs : List Dict} {d : Dict} (h : CarriesAll lib n env body names outs) (hd : outs.flatten = d)
    (hne : d ≠ []) (hkey : localName name = key := by decide +kernel) (hf : elemFacts attrs names = true := by decide +kernel) :
    Inside lib (n + 1) env (el name body attrs) key d :=
  inside_of h hd hne (by rw [sureKey, hkey]) hf

theorem carries_one {lib : Lib} {n : Nat} {env : Dict} {t : Tmpl} {key : String} {keys : List String} {out : Dict} (v : Value)
    (hs : sure lib env t = .ok [.entry key v]) (hv : ∀ l, v ≠ .list l) (ha : Appends lib (normalize lib n) (key, v) out)
    (hk : ∀ k ∈ Dict.keys out, k ∈ keys) : Carries lib n env t key keys out :=
  ⟨[v], by simp [Group.pieces, hs], by simpa using hv, hk, ha⟩

/-! ### Leaves -/

/-- What has to be checked of an element that holds one value. -/
def leafFacts (name : String) (attrs : List (String × String)) (key key' : String) : Bool :=
  decide (localName name = key) && decide (normalizeKey key = key') && !(isAttribute key) && plainKey key' && decide (attrItem attrs = [])

/-- The raw contents of a leaf. -/
theorem sure_leaf {lib : Lib} {env : Dict} {name key key' : String} {path : List String} {filter : Filter} {attrs : List (String × String)}
    {v x : Value} (hl : lookup env path = .ok (some v)) (hw : Wired lib key' filter v x) (hkey : localName name = key)
    (ha : attrItem attrs = []) :
    ∃ s, sure lib env (leaf name path filter attrs) = .ok [.entry key (.str s)] ∧ leafValue lib key' (.str s) = .ok x := by
  obtain ⟨w, s, h1, h2, h3, h4⟩ := hw.text
  refine ⟨s, ?_, h4⟩
  have hla : leafAt env path = .ok v := by simp [leafAt, hl, hw.leaf]
  simp only [leaf, sure, sureKey, hkey, sureAll, hla, h1, h2, h3.clean, if_true, List.append_nil]
  have hv : elementValue attrs [.chars s.toList] = .str s := by
    simp only [elementValue, ha, if_true, charsOf, List.flatMap_cons, List.flatMap_nil, List.append_nil]
    exact h3.close
  rw [hv]

theorem isLeaf_spec {v : Value} (h : isLeaf v = true) : (∀ p, v ≠ .dict p) ∧ ∀ l, v ≠ .list l := by
  cases v <;> simp [isLeaf] at h ⊢

/-- An element that holds one value. -/
theorem carries_leaf {lib : Lib} {n : Nat} {env : Dict} {name : String} (key key' : String) {path : List String} {filter : Filter}
    {attrs : List (String × String)} {v x : Value} (hl : lookup env path = .ok (some v)) (hw : Wired lib key' filter v x)
    (hf : leafFacts name attrs key key' = true := by decide +kernel) : Carries lib n env (leaf name path filter attrs) key [key'] [(key', x)] := by
  simp only [leafFacts, Bool.and_eq_true, decide_eq_true_eq, Bool.not_eq_true'] at hf
  obtain ⟨⟨⟨⟨f1, f2⟩, f3⟩, f4⟩, f5⟩ := hf
  obtain ⟨s, h1, h2⟩ := sure_leaf (lib := lib) (env := env) hl hw f1 f5
  obtain ⟨x1, x2⟩ := isLeaf_spec hw.read
  exact carries_one _ h1 (by simp) (appends_leaf lib _ key key' _ x f2 f3 f4 h2 (by simp) (by simp) x1 x2) (by simp [Dict.keys])

/-! ### Conditions -/

theorem carries_yes {lib : Lib} {n : Nat} {env : Dict} {c : Cond} {t : Tmpl} {no : List Tmpl} {key : String} {keys : List String} {out : Dict}
    (hc : surely env c = .ok true) (h : Carries lib n env t key keys out) : Carries lib n env (.cond c [t] no) key keys out := by
  obtain ⟨vals, h1, h2⟩ := h
  exact ⟨vals, by simp [sure, hc, sureAll, h1], h2⟩

theorem carries_no {lib : Lib} {n : Nat} {env : Dict} {c : Cond} {t : Tmpl} {yes : List Tmpl} {key : String} {keys : List String} {out : Dict}
    (hc : surely env c = .ok false) (h : Carries lib n env t key keys out) : Carries lib n env (.cond c yes [t]) key keys out := by
  obtain ⟨vals, h1, h2⟩ := h
  exact ⟨vals, by simp [sure, hc, sureAll, h1], h2⟩

/-- A part that is left out. -/
theorem carries_skip {lib : Lib} {n : Nat} {env : Dict} {c : Cond} {yes : List Tmpl} (key : String) (keys : List String)
    (hc : surely env c = .ok false) : Carries lib n env (.cond c yes []) key keys [] :=
  ⟨[], by simp [sure, hc, sureAll, Group.pieces], by simp, by simp [Dict.keys], by simp [wrapVals]⟩

theorem surely_given {env : Dict} {path : List String} {v : Option Value} (hl : lookup env path = .ok v) (hv : v ≠ some .none) :
    surely env (.given path) = .ok v.isSome := by
  simp only [surely, holds, hl, Except.map]
  cases v with
  | none => rfl
  | some v => cases v <;> simp at hv ⊢

theorem surely_truthy {env : Dict} {path : List String} {v : Option Value} (hl : lookup env path = .ok v)
    (hv : ∀ x, v = some x → x.truthy = true) : surely env (.truthy path) = .ok v.isSome := by
  simp only [surely, hl]
  cases v with
  | none => rfl
  | some v =>
    have := hv v rfl
    cases v <;> simp_all [Value.truthy]

/-- A value that may be left out: `{% if x is defined and x is not none %}`. -/
theorem carries_given {lib : Lib} {n : Nat} {env : Dict} {name : String} (key key' : String) {path : List String} {filter : Filter}
    {attrs : List (String × String)} {v : Option Value} (hl : lookup env path = .ok v) (hw : ∀ y, v = some y → Wired lib key' filter y y)
    (hf : leafFacts name attrs key key' = true := by decide +kernel) :
    Carries lib n env (ifGiven path [leaf name path filter attrs]) key [key'] (entry? key' v) := by
  cases v with
  | none => exact carries_skip _ _ (surely_given hl (by simp))
  | some v =>
    have hw := hw v rfl
    exact carries_yes (surely_given hl (by simp [hw.given])) (carries_leaf key key' hl hw hf)

/-- A value that may be left out: `{% if x %}`. -/
theorem carries_true {lib : Lib} {n : Nat} {env : Dict} {name : String} (key key' : String) {path : List String} {filter : Filter}
    {attrs : List (String × String)} {v : Option Value} (hl : lookup env path = .ok v)
    (hw : ∀ y, v = some y → Wired lib key' filter y y ∧ y.truthy = true)
    (hf : leafFacts name attrs key key' = true := by decide +kernel) :
    Carries lib n env (ifTrue path [leaf name path filter attrs]) key [key'] (entry? key' v) := by
  cases v with
  | none => exact carries_skip _ _ (surely_truthy hl (by simp))
  | some v =>
    have hw := hw v rfl
    exact carries_yes (surely_truthy hl (by simp [hw.2])) (carries_leaf key key' hl hw.1 hf)

/-! ### Elements with contents -/

theorem carries_inside {lib : Lib} {n : Nat} {env : Dict} {t : Tmpl} {key : String} {keys : List String} {d out : Dict}
    (h : Inside lib n env t key d) (ha : ∀ raw, normalize lib n raw = .ok d → Appends lib (normalize lib n) (key, .dict raw) out)
    (hk : ∀ k ∈ Dict.keys out, k ∈ keys) : Carries lib n env t key keys out := by
  obtain ⟨raw, h1, h2⟩ := h
  exact carries_one _ h1 (by simp) (ha raw h2) hk

/-- What has to be checked of the name of an element that is a dict. -/
def nestFacts (key key' : String) : Bool := decide (normalizeKey key = key') && !(isAttribute key) && nestKey key'

/-- An element with several entries. -/
theorem carries_dict {lib : Lib} {n : Nat} {env : Dict} {t : Tmpl} {key : String} (key' : String) {d : Dict} (h : Inside lib n env t key d)
    (h2 : 2 ≤ d.length) (hp : Dict.has d "properties" = false) (hf : nestFacts key key' = true := by decide +kernel) :
    Carries lib n env t key [key'] [(key', .dict d)] := by
  simp only [nestFacts, Bool.and_eq_true, decide_eq_true_eq, Bool.not_eq_true'] at hf
  obtain ⟨⟨f1, f2⟩, f3⟩ := hf
  exact carries_inside h (fun raw hr => appends_dict lib _ key key' raw d f1 f2 f3 hr h2 hp) (by simp [Dict.keys])

/-- What remains of an element with one entry. -/
theorem carries_unnest {lib : Lib} {n : Nat} {env : Dict} {t : Tmpl} {key : String} (key' : String) {d : Dict} {x : Value}
    (h : Inside lib n env t key d) (hu : ∀ acc, Dict.get? acc key' = some (.dict d) → unnest lib acc key' (.dict d) = .ok (Dict.set acc key' x))
    (hf : nestFacts key key' = true) : Carries lib n env t key [key'] [(key', x)] := by
  simp only [nestFacts, Bool.and_eq_true, decide_eq_true_eq, Bool.not_eq_true'] at hf
  obtain ⟨⟨f1, f2⟩, f3⟩ := hf
  refine carries_inside h (fun raw hr => appends_inPlace lib _ key key' _ (.dict d) x f1 f2 ?_ ?_) (by simp [Dict.keys])
  · simp [entryValue, hr, Except.map]
  · intro acc hg
    rw [settle_nest lib acc key' d f3 hg, hu acc hg]

/-- `<x><duration>…</duration></x>` -/
theorem carries_duration {lib : Lib} {n : Nat} {env : Dict} {t : Tmpl} {key : String} (key' : String) {x : Value}
    (h : Inside lib n env t key [("duration", x)]) (hf : nestFacts key key' = true := by decide +kernel) :
    Carries lib n env t key [key'] [(key', x)] :=
  carries_unnest key' h (fun acc _ => by simp [unnest, onlyEntry]) hf

/-- `<x><x>…</x></x>` -/
theorem carries_nested {lib : Lib} {n : Nat} {env : Dict} {t : Tmpl} {key : String} (key' : String) {x : Value}
    (h : Inside lib n env t key [(key', x)]) (hf : nestFacts key key' = true := by decide +kernel) :
    Carries lib n env t key [key'] [(key', x)] := by
  refine carries_unnest key' h (fun acc _ => ?_) hf
  by_cases e : key' = "duration" <;> simp [unnest, onlyEntry, e]

/-- `<xs><x>…</x></xs>` -/
theorem carries_plural {lib : Lib} {n : Nat} {env : Dict} {t : Tmpl} {key : String} (key' key'' : String) {x : Value}
    (h : Inside lib n env t key [(key'', x)]) (hf : nestFacts key key' = true := by decide +kernel)
    (hg : (decide (singular key' = key'') && decide (key'' ≠ "duration") && decide (key'' ≠ key')) = true := by decide +kernel) :
    Carries lib n env t key [key'] [(key', .list (asListV x))] := by
  simp only [Bool.and_eq_true, decide_eq_true_eq] at hg
  refine carries_unnest key' h (fun acc _ => ?_) hf
  simp [unnest, onlyEntry, hg.1.1, hg.1.2, hg.2]

/-- Keys for which a dict with one entry counts as needless nesting. -/
def hollow (key' k : String) : Bool := ["duration", key', singular key', "text", "date_time", "properties"].contains k

theorem unnest_other (lib : Lib) (acc : Dict) (key' k : String) (x : Value) (hk : nestKey key' = true)
    (h1 : k ≠ "duration") (h2 : k ≠ key') (h3 : k ≠ singular key') :
    unnest lib acc key' (.dict [(k, x)]) = match onlyEntry (.dict [(k, x)]) "text" with
          | some x => if key' = "uid" then (toInt lib x).map (Dict.set acc key') else .ok (Dict.set acc key' x)
          | none => match onlyEntry (.dict [(k, x)]) "date_time" with
            | some x => .ok (Dict.set acc key' x)
            | none => if k = "properties" then .ok (Dict.set acc key' x) else .ok acc := by
  simp only [nestKey, plainKey, Bool.and_eq_true, Bool.not_eq_true', List.contains_eq_mem, List.mem_cons, List.not_mem_nil, or_false,
    decide_eq_false_iff_not, not_or] at hk
  obtain ⟨⟨-, -, -, -, -, -, -, -, h9, h10⟩, -, -, -, -, g5, g6⟩ := hk
  simp only [unnest, onlyEntry, h1, h2, h3, g5, g6, h9, h10, if_false, Bool.or_self, decide_false, Bool.false_eq_true, Bool.false_and]
  by_cases e1 : k = "text"
  · simp [e1]
  · by_cases e2 : k = "date_time"
    · simp [e2]
    · by_cases e3 : k = "properties"
      · simp [e3, Dict.has, Dict.get?, currentOf]
      · simp [e1, e2, e3, Dict.has, Dict.get?]

/-- `<x><date-time>…</date-time></x>` -/
theorem carries_datetime {lib : Lib} {n : Nat} {env : Dict} {t : Tmpl} {key : String} (key' : String) {x : Value}
    (h : Inside lib n env t key [("date_time", x)]) (hf : nestFacts key key' = true := by decide +kernel)
    (hg : (decide ("date_time" ≠ key') && decide ("date_time" ≠ singular key')) = true := by decide +kernel) :
    Carries lib n env t key [key'] [(key', x)] := by
  simp only [Bool.and_eq_true, decide_eq_true_eq] at hg
  refine carries_unnest key' h (fun acc _ => ?_) hf
  simp only [nestFacts, Bool.and_eq_true] at hf
  rw [unnest_other lib acc key' "date_time" x hf.2 (by decide) hg.1 hg.2]
  simp [onlyEntry]

/-- An element with one entry that is no needless nesting. -/
theorem carries_single {lib : Lib} {n : Nat} {env : Dict} {t : Tmpl} {key : String} (key' : String) {k : String} {x : Value}
    (h : Inside lib n env t key [(k, x)]) (hf : nestFacts key key' = true := by decide +kernel)
    (hg : hollow key' k = false := by decide +kernel) :
    Carries lib n env t key [key'] [(key', .dict [(k, x)])] := by
  simp only [hollow, List.contains_eq_mem, List.mem_cons, List.not_mem_nil, or_false, decide_eq_false_iff_not, not_or] at hg
  obtain ⟨g1, g2, g3, g4, g5, g6⟩ := hg
  refine carries_unnest key' h (fun acc ha => ?_) hf
  simp only [nestFacts, Bool.and_eq_true] at hf
  rw [unnest_other lib acc key' k x hf.2 g1 g2 g3]
  simp [onlyEntry, g4, g5, g6, Dict.set_get?_self _ _ _ ha]

/-- What has to be checked of an empty element. -/
def emptyFacts (name : String) (attrs : List (String × String)) (key key' : String) : Bool :=
  decide (localName name = key) && decide (normalizeKey key = key') && !(isAttribute key) && plainKey key' && decide (attrItem attrs = []) &&
    !(durationKeys.contains key')

theorem appends_none (lib : Lib) (f : Dict → Res Dict) (key key' : String) (hkey : normalizeKey key = key')
    (hat : isAttribute key = false) (hk : plainKey key' = true) (hd : durationKeys.contains key' = false) :
    Appends lib f (key, .none) [(key', .none)] := by
  refine appends_leaf lib f key key' .none .none hkey hat hk ?_ (by simp) (by simp) (by simp) (by simp)
  simp only [leafValue, hd, Bool.false_eq_true, if_false]

/-- `<x/>` -/
theorem carries_empty {lib : Lib} {n : Nat} {env : Dict} {name : String} (key key' : String) {attrs : List (String × String)}
    (hf : emptyFacts name attrs key key' = true := by decide +kernel) :
    Carries lib n env (.empty (.fixed name) attrs) key [key'] [(key', .none)] := by
  simp only [emptyFacts, Bool.and_eq_true, decide_eq_true_eq, Bool.not_eq_true'] at hf
  obtain ⟨⟨⟨⟨⟨f1, f2⟩, f3⟩, f4⟩, f5⟩, f6⟩ := hf
  refine carries_one .none ?_ (by simp) (appends_none lib _ key key' f2 f3 f4 f6) (by simp [Dict.keys])
  simp [sure, sureKey, f1, elementValue, f5, charsOf, childDict, closeValue, strip]

/-- `<x></x>` -/
theorem carries_blank {lib : Lib} {n : Nat} {env : Dict} {name : String} (key key' : String) {attrs : List (String × String)}
    (hf : emptyFacts name attrs key key' = true := by decide +kernel) :
    Carries lib n env (el name [] attrs) key [key'] [(key', .none)] := by
  simp only [emptyFacts, Bool.and_eq_true, decide_eq_true_eq, Bool.not_eq_true'] at hf
  obtain ⟨⟨⟨⟨⟨f1, f2⟩, f3⟩, f4⟩, f5⟩, f6⟩ := hf
  refine carries_one .none ?_ (by simp) (appends_none lib _ key key' f2 f3 f4 f6) (by simp [Dict.keys])
  simp [el, sure, sureAll, sureKey, f1, elementValue, f5, charsOf, childDict, closeValue, strip]

end Openleadr
