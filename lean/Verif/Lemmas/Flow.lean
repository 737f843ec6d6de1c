import Verif.Lemmas.Sent
import Verif.Lemmas.Dict
import Verif.Spec.Wire
import Verif.Props.Durations
import Verif.Lemmas.Calendar
/-!
From templates to normalized payloads, element by element.
-/
namespace Openleadr

/-! ### Texts -/

theorem sectionEnd_spec {t : Text} (h : sectionEnd t = true) : ∃ a b, t = a ++ [']', ']', '>'] ++ b := by
  induction t with
  | nil => simp [sectionEnd] at h
  | cons c t ih =>
    simp only [sectionEnd, Bool.or_eq_true, Bool.and_eq_true, decide_eq_true_eq] at h
    rcases h with ⟨rfl, h⟩ | h
    · exact ⟨[], t.drop 2, by rw [← List.take_append_drop 2 t, h]; simp⟩
    · obtain ⟨a, b, rfl⟩ := ih h
      exact ⟨c :: a, b, rfl⟩

/-- The reader takes just the characters that XML allows. -/
theorem isXmlChar_iff (c : Char) : isXmlChar c = true ↔ XmlAllowed c := by
  have hv := c.valid
  have e9 : c = '\t' ↔ c.toNat = 9 := ⟨by rintro rfl; rfl, fun h => by rw [← Char.ofNat_toNat c, h]⟩
  have e10 : c = '\n' ↔ c.toNat = 10 := ⟨by rintro rfl; rfl, fun h => by rw [← Char.ofNat_toNat c, h]⟩
  have e13 : c = '\r' ↔ c.toNat = 13 := ⟨by rintro rfl; rfl, fun h => by rw [← Char.ofNat_toNat c, h]⟩
  have hn : c.toNat < 0xd800 ∨ (0xdfff < c.toNat ∧ c.toNat < 0x110000) := hv
  simp only [isXmlChar, XmlAllowed, Bool.or_eq_true, Bool.and_eq_true, decide_eq_true_eq, e9, e10, e13]
  omega

theorem OnWire.clean {s : String} (h : OnWire s) : clean s.toList = true := by
  simp only [Openleadr.clean, Bool.and_eq_true]
  constructor
  · simp only [cleanChars, List.all_eq_true, wireChar, Bool.and_eq_true, decide_eq_true_eq]
    intro c hc
    obtain ⟨h1, h2, h3, h4, h5⟩ := h.chars c hc
    exact ⟨⟨⟨⟨(isXmlChar_iff c).2 h1, h2⟩, h3⟩, h4⟩, h5⟩
  · simp only [tame, Bool.and_eq_true, Bool.not_eq_true', decide_eq_true_eq]
    refine ⟨⟨?_, fun e => (h.start _ e).1 rfl⟩, fun e => (h.start _ e).2 rfl⟩
    cases e : sectionEnd s.toList with
    | false => rfl
    | true =>
      obtain ⟨a, b, e⟩ := sectionEnd_spec e
      exact absurd e (h.brackets a b)

theorem OnWire.strip {s : String} (h : OnWire s) : strip s.toList = s.toList := by
  apply strip_trimmed
  constructor
  · intro c r e; exact h.first c (by rw [e]; rfl)
  · intro c r e; exact h.last c (by rw [e]; simp)

theorem OnWire.ne {s : String} (h : OnWire s) : s.toList ≠ [] := by
  intro e
  exact h.notEmpty (by rw [← String.ofList_toList (s := s), e])

theorem OnWire.close {s : String} (h : OnWire s) : closeValue none s.toList = .str s := by
  simp only [closeValue, h.strip, h.ne, if_false, String.ofList_toList]

theorem looksInt_spec (lib : Lib) (s : String) (h : looksInt lib s.toList = true) : NumberLike lib s := by
  unfold looksInt at h
  split at h
  · rename_i r e
    simp only [Bool.and_eq_true, decide_eq_true_eq, List.all_eq_true] at h
    exact ⟨['-'], r, by rw [e]; rfl, Or.inr rfl, h.1, fun c hc => Or.inl (h.2 c hc)⟩
  · simp only [Bool.and_eq_true, decide_eq_true_eq, List.all_eq_true] at h
    exact ⟨[], _, rfl, Or.inl rfl, h.1, fun c hc => Or.inl (h.2 c hc)⟩

theorem looksFloat_spec (lib : Lib) (s : String) (h : looksFloat lib s.toList = true) : NumberLike lib s := by
  unfold looksFloat at h
  split at h
  · rename_i r e
    simp only [Bool.and_eq_true, decide_eq_true_eq, List.all_eq_true, Bool.or_eq_true] at h
    exact ⟨['-'], r, by rw [e]; rfl, Or.inr rfl, h.1, h.2⟩
  · simp only [Bool.and_eq_true, decide_eq_true_eq, List.all_eq_true, Bool.or_eq_true] at h
    exact ⟨[], _, rfl, Or.inl rfl, h.1, h.2⟩

theorem Ordinary.plain {lib : Lib} {s : String} (h : Ordinary lib s) : plainText lib s = .ok (.str s) := by
  have h1 : looksInt lib s.toList = false := by
    cases e : looksInt lib s.toList with
    | false => rfl
    | true => exact absurd (looksInt_spec lib s e) h.notNumber
  have h2 : looksFloat lib s.toList = false := by
    cases e : looksFloat lib s.toList with
    | false => rfl
    | true => exact absurd (looksFloat_spec lib s e) h.notNumber
  simp [plainText, h1, h2]

/-! ### One entry of a dict -/

/-- Keys for which nothing but the value counts. -/
def plainKey (k : String) : Bool :=
  !("x_ei_".toList.isPrefixOf k.toList) &&
    !["target", "pending_reports", "report_request", "report", "specifier_payload", "report_description", "event_signal", "report_payload",
      "test_event"].contains k

/-- Keys for which a dict is only relieved of needless nesting. -/
def nestKey (k : String) : Bool :=
  plainKey k && !["event", "request_event", "created_event", "qualified_event_id", "signal_payload", "current_value"].contains k

theorem settle_plain (lib : Lib) (d : Dict) (k : String) (hk : plainKey k = true) : settle lib d k = arrangeEntry lib d k := by
  simp only [plainKey, Bool.and_eq_true, Bool.not_eq_true', List.contains_eq_mem, List.mem_cons, List.not_mem_nil, or_false,
    decide_eq_false_iff_not, not_or] at hk
  obtain ⟨h1, h2, -⟩ := hk
  simp only [settle, renameEntry, h1, Bool.false_eq_true, if_false, groupTargetEntry, h2]

theorem onlyEntry_leaf (v : Value) (k : String) (hv : ∀ p, v ≠ .dict p) : onlyEntry v k = none := by
  unfold onlyEntry
  split
  · rename_i k' x; exact absurd rfl (hv _)
  · rfl

theorem settle_leaf (lib : Lib) (d : Dict) (k : String) (v : Value) (hk : plainKey k = true) (hd : Dict.get? d k = some v)
    (hv : ∀ p, v ≠ .dict p) (hl : k = "event" → ∀ l, v ≠ .list l) : settle lib d k = .ok d := by
  rw [settle_plain lib d k hk]
  simp only [plainKey, Bool.and_eq_true, Bool.not_eq_true', List.contains_eq_mem, List.mem_cons, List.not_mem_nil, or_false,
    decide_eq_false_iff_not, not_or] at hk
  obtain ⟨h1, h2, h3, h4, h5, h6, h7, h8, h9, h10⟩ := hk
  have hcur : currentOf d k = v := by simp [currentOf, hd]
  have e1 := onlyEntry_leaf v "duration" hv
  have e2 := onlyEntry_leaf v k hv
  have e3 := onlyEntry_leaf v (singular k) hv
  have e4 := onlyEntry_leaf v "text" hv
  have e5 := onlyEntry_leaf v "date_time" hv
  have hun : unnest lib d k v = .ok d := by
    unfold unnest
    simp only [e1, e2, e3, e4, e5, h9, h10]
    cases v <;> simp at hv ⊢
  unfold arrangeEntry
  simp only [hcur, h3, if_false, h4, h5, h6, h7, h8, hun]
  cases v <;> simp at hv hl ⊢
  simp [hl]

theorem settle_nest (lib : Lib) (d : Dict) (k : String) (p : Dict) (hk : nestKey k = true) (hd : Dict.get? d k = some (.dict p)) :
    settle lib d k = unnest lib d k (.dict p) := by
  simp only [nestKey, Bool.and_eq_true, Bool.not_eq_true', List.contains_eq_mem, List.mem_cons, List.not_mem_nil, or_false,
    decide_eq_false_iff_not, not_or] at hk
  obtain ⟨hk, g1, g2, g3, g4, -⟩ := hk
  rw [settle_plain lib d k hk]
  simp only [plainKey, Bool.and_eq_true, Bool.not_eq_true', List.contains_eq_mem, List.mem_cons, List.not_mem_nil, or_false,
    decide_eq_false_iff_not, not_or] at hk
  obtain ⟨h1, h2, h3, h4, h5, h6, h7, h8, h9, h10⟩ := hk
  have hcur : currentOf d k = .dict p := by simp [currentOf, hd]
  unfold arrangeEntry
  simp [hcur, h3, g1, g2, g3, g4, h4, h5, h6, h7, h8]

theorem onlyEntry_many (p : Dict) (k : String) (h : 2 ≤ p.length) : onlyEntry (.dict p) k = none := by
  unfold onlyEntry
  split
  · rename_i e; cases e; simp at h
  · rfl

/-- A dict with several entries stays. -/
theorem unnest_many (lib : Lib) (d : Dict) (k : String) (p : Dict) (hk : nestKey k = true) (h2 : 2 ≤ p.length)
    (hp : Dict.has p "properties" = false) : unnest lib d k (.dict p) = .ok d := by
  simp only [nestKey, plainKey, Bool.and_eq_true, Bool.not_eq_true', List.contains_eq_mem, List.mem_cons, List.not_mem_nil, or_false,
    decide_eq_false_iff_not, not_or] at hk
  obtain ⟨⟨-, -, -, -, -, -, -, -, h9, h10⟩, -, -, -, -, g5, g6⟩ := hk
  have hne : p ≠ [] := by rintro rfl; simp at h2
  unfold unnest
  simp [onlyEntry_many p _ h2, g5, g6, h9, h10, hp, hne]

theorem normalizeEntries_cons (lib : Lib) (f : Dict → Res Dict) (acc : Dict) (e : String × Value) (rest : Dict) :
    normalizeEntries lib f acc (e :: rest) = match stepEntry lib f acc e with
      | .ok acc' => normalizeEntries lib f acc' rest
      | .error x => .error x := rfl

theorem normalizeEntries_append (lib : Lib) (f : Dict → Res Dict) (acc : Dict) (a b : Dict) :
    normalizeEntries lib f acc (a ++ b) = match normalizeEntries lib f acc a with
      | .ok acc' => normalizeEntries lib f acc' b
      | .error x => .error x := by
  induction a generalizing acc with
  | nil => rfl
  | cons e a ih =>
    rw [List.cons_append, normalizeEntries_cons, normalizeEntries_cons]
    cases stepEntry lib f acc e with
    | ok acc' => simp only; exact ih acc'
    | error x => rfl

/-- None of these keys is in the dict. -/
def Fresh (acc : Dict) (ks : List String) : Prop := ∀ k ∈ ks, k ∉ Dict.keys acc

/-- An entry adds these entries, whatever there is so far. -/
def Appends (lib : Lib) (f : Dict → Res Dict) (e : String × Value) (out : Dict) : Prop :=
  ∀ acc, Fresh acc (normalizeKey e.1 :: Dict.keys out) → stepEntry lib f acc e = .ok (acc ++ out)

/-- An entry whose value is changed in place. -/
theorem appends_inPlace (lib : Lib) (f : Dict → Res Dict) (key key' : String) (v w x : Value) (hkey : normalizeKey key = key')
    (hat : isAttribute key = false) (hv : entryValue lib f key' v = .ok w)
    (hs : ∀ d, Dict.get? d key' = some w → settle lib d key' = .ok (Dict.set d key' x)) : Appends lib f (key, v) [(key', x)] := by
  intro acc hf
  have h1 : key' ∉ Dict.keys acc := by rw [← hkey]; exact hf _ (by simp)
  simp only [stepEntry, hat, hkey, hv]
  rw [hs _ (Dict.get?_set_self _ _ _), Dict.set_new _ _ _ h1]
  have : Dict.set (acc ++ [(key', w)]) key' x = acc ++ [(key', x)] := by
    clear hf hv hs
    induction acc with
    | nil => simp [Dict.set]
    | cons e acc ih =>
      simp only [Dict.keys, List.map_cons, List.mem_cons, not_or] at h1
      obtain ⟨k, y⟩ := e
      simp only [List.cons_append, Dict.set]
      rw [if_neg (fun e => h1.1 e.symm), ih h1.2]
  simp [this]

theorem appends_leaf (lib : Lib) (f : Dict → Res Dict) (key key' : String) (v w : Value) (hkey : normalizeKey key = key')
    (hat : isAttribute key = false) (hk : plainKey key' = true) (hv : leafValue lib key' v = .ok w)
    (hd : ∀ p, v ≠ .dict p) (hl : ∀ l, v ≠ .list l) (hd' : ∀ p, w ≠ .dict p) (hl' : ∀ l, w ≠ .list l) :
    Appends lib f (key, v) [(key', w)] := by
  apply appends_inPlace lib f key key' v w w hkey hat
  · cases v <;> simp [entryValue, hv] at hd hl ⊢
  · intro d hg
    rw [settle_leaf lib d key' w hk hg hd' (fun _ => hl'), Dict.set_get?_self _ _ _ hg]

/-- An entry that stays a dict. -/
theorem appends_dict (lib : Lib) (f : Dict → Res Dict) (key key' : String) (d inner : Dict) (hkey : normalizeKey key = key')
    (hat : isAttribute key = false) (hk : nestKey key' = true) (hf : f d = .ok inner)
    (h2 : 2 ≤ inner.length) (hp : Dict.has inner "properties" = false) :
    Appends lib f (key, .dict d) [(key', .dict inner)] := by
  apply appends_inPlace lib f key key' _ (.dict inner) _ hkey hat
  · simp [entryValue, hf, Except.map]
  · intro acc hg
    rw [settle_nest lib acc key' inner hk hg, unnest_many lib acc key' inner hk h2 hp, Dict.set_get?_self _ _ _ hg]

/-! ### The contents of an element -/

/-- Some children of an element that have the same name, and what becomes of them; `keys` are the keys they may get. -/
structure Group where
  key : String
  keys : List String
  vals : List Value
  out : Dict

/-- The children as parts of the contents. -/
def Group.pieces (g : Group) : List Piece := g.vals.map (Piece.entry g.key)

/-- The value under which xmltodict files them. -/
def wrapVals (vs : List Value) : Option Value :=
  match vs with
  | [] => none
  | [v] => some v
  | vs => some (.list vs)

/-- The dict of xmltodict. -/
def rawOf (flow : List Group) : Dict := flow.filterMap (fun g => (wrapVals g.vals).map (fun v => (g.key, v)))

/-- The keys are all different. -/
def freshNames (seen : List String) (names : List (String × List String)) : Bool :=
  match names with
  | [] => true
  | (k, ks) :: names => !(seen.contains (normalizeKey k)) && ks.all (fun k' => !(seen.contains k')) && freshNames (seen ++ ks) names

/-- The names in a flow. -/
def namesOf (flow : List Group) : List (String × List String) := flow.map (fun g => (g.key, g.keys))

/-- What becomes of the children. -/
def Group.Good (lib : Lib) (f : Dict → Res Dict) (g : Group) : Prop :=
  (∀ v ∈ g.vals, ∀ l, v ≠ .list l) ∧ (∀ k ∈ Dict.keys g.out, k ∈ g.keys) ∧
  match wrapVals g.vals with
  | none => g.out = []
  | some v => Appends lib f (g.key, v) g.out

theorem pushData_new (d : Dict) (k : String) (v : Value) (h : k ∉ Dict.keys d) : pushData (some d) k v = some (d ++ [(k, v)]) := by
  have : Dict.get? d k = none := (Dict.get?_none d k).2 h
  simp [pushData, this, Dict.set_new _ _ _ h]

theorem get?_append_single {α : Type} (d : List (String × α)) (k : String) (v : α) (h : k ∉ Dict.keys d) :
    Dict.get? (d ++ [(k, v)]) k = some v := by
  rw [← Dict.set_new _ _ _ h, Dict.get?_set_self]

theorem set_append_single {α : Type} (d : List (String × α)) (k : String) (v w : α) (h : k ∉ Dict.keys d) :
    Dict.set (d ++ [(k, v)]) k w = d ++ [(k, w)] := by
  induction d with
  | nil => simp [Dict.set]
  | cons e d ih =>
    obtain ⟨k', x⟩ := e
    simp only [Dict.keys, List.map_cons, List.mem_cons, not_or] at h
    simp only [List.cons_append, Dict.set]
    rw [if_neg (fun e => h.1 e.symm), ih h.2]

theorem childDict_list (d : Dict) (k : String) (l vs : List Value) (h : k ∉ Dict.keys d) :
    childDict (some (d ++ [(k, .list l)])) (vs.map (Piece.entry k)) = some (d ++ [(k, .list (l ++ vs))]) := by
  induction vs generalizing l with
  | nil => simp [childDict]
  | cons v vs ih =>
    have := ih (l ++ [v])
    simp only [childDict] at this
    simp only [childDict, List.map_cons, List.foldl_cons]
    rw [show pushData (some (d ++ [(k, .list l)])) k v = some (d ++ [(k, .list (l ++ [v]))]) by
      simp only [pushData, get?_append_single _ _ _ h, set_append_single _ _ _ _ h]]
    rw [this]; simp

/-- Children of the same name. -/
theorem childDict_group (d : Dict) (k : String) (vs : List Value) (h : k ∉ Dict.keys d) (hv : ∀ v ∈ vs, ∀ l, v ≠ .list l) :
    childDict (some d) (vs.map (Piece.entry k)) = some (d ++ match wrapVals vs with
      | none => []
      | some v => [(k, v)]) := by
  match vs, hv with
  | [], _ => simp [childDict, wrapVals]
  | [v], _ => simp [childDict, wrapVals, pushData_new _ _ _ h]
  | v :: w :: vs, hv =>
    have h1 := childDict_list d k [v, w] vs h
    simp only [childDict] at h1
    simp only [childDict, List.map_cons, List.foldl_cons, pushData_new _ _ _ h, wrapVals]
    rw [show pushData (some (d ++ [(k, v)])) k w = some (d ++ [(k, .list [v, w])]) by
      simp only [pushData, get?_append_single _ _ _ h, set_append_single _ _ _ _ h]
      have := hv v (by simp)
      cases v <;> simp at this ⊢]
    rw [h1]; simp

theorem childDict_append (item : Option Dict) (a b : List Piece) : childDict item (a ++ b) = childDict (childDict item a) b := by
  simp [childDict, List.foldl_append]

theorem childDict_none (ps : List Piece) (h : ∀ p ∈ ps, ∃ k v, p = .entry k v) :
    childDict none ps = match childDict (some []) ps with
      | some [] => none
      | r => r := by
  cases ps with
  | nil => rfl
  | cons p ps =>
    obtain ⟨k, v, rfl⟩ := h p (by simp)
    have : childDict none (.entry k v :: ps) = childDict (some []) (.entry k v :: ps) := by
      simp only [childDict, List.foldl_cons]
      rfl
    rw [this]
    have hne : ∀ (ps : List Piece) (d : Dict), d ≠ [] → ∃ e r, childDict (some d) ps = some (e :: r) := by
      intro ps
      induction ps with
      | nil =>
        intro d hd
        cases d with
        | nil => exact absurd rfl hd
        | cons e r => exact ⟨e, r, rfl⟩
      | cons p ps ih =>
        intro d hd
        cases p with
        | chars t => exact ih d hd
        | entry k v =>
          have hs : ∃ d', pushData (some d) k v = some d' ∧ d' ≠ [] := by
            have hset : ∀ x, Dict.set d k x ≠ [] := by
              intro x
              cases d with
              | nil => exact absurd rfl hd
              | cons e r => obtain ⟨k', y⟩ := e; simp only [Dict.set]; split <;> simp
            unfold pushData
            simp only
            split
            · exact ⟨_, rfl, hset _⟩
            · exact ⟨_, rfl, hset _⟩
            · exact ⟨_, rfl, hset _⟩
          obtain ⟨d', e, hd'⟩ := hs
          simp only [childDict, List.foldl_cons, e]
          exact ih d' hd'
    obtain ⟨e, r, he⟩ := hne ps [(k, v)] (by simp)
    have : childDict (some []) (.entry k v :: ps) = childDict (some [(k, v)]) ps := rfl
    rw [this, he]

theorem childDict_flow (flow : List Group) (d : Dict) (hnd : (Dict.keys d ++ flow.map (·.key)).Nodup)
    (hv : ∀ g ∈ flow, ∀ v ∈ g.vals, ∀ l, v ≠ .list l) :
    childDict (some d) (flow.flatMap Group.pieces) = some (d ++ rawOf flow) := by
  induction flow generalizing d with
  | nil => simp [childDict, rawOf]
  | cons g flow ih =>
    have hk : g.key ∉ Dict.keys d := by
      rw [List.nodup_append] at hnd
      intro hm
      exact hnd.2.2 _ hm g.key (by simp) rfl
    rw [List.flatMap_cons, childDict_append]
    rw [show Group.pieces g = g.vals.map (Piece.entry g.key) from rfl, childDict_group d g.key g.vals hk (hv g (by simp))]
    have hrest : ∀ d' : Dict, Dict.keys d' = Dict.keys d ∨ Dict.keys d' = Dict.keys d ++ [g.key] →
        (Dict.keys d' ++ flow.map (·.key)).Nodup := by
      intro d' h
      rcases h with h | h
      · rw [h]
        rw [List.map_cons, List.nodup_append] at hnd
        rw [List.nodup_append]
        refine ⟨hnd.1, (List.nodup_cons.1 hnd.2.1).2, fun a ha b hb => hnd.2.2 a ha b (by simp [hb])⟩
      · rw [h, List.append_assoc]; simpa using hnd
    cases hw : wrapVals g.vals with
    | none =>
      simp only [List.append_nil]
      rw [ih d (hrest d (Or.inl rfl)) (fun g' hg' => hv g' (by simp [hg']))]
      simp [rawOf, hw]
    | some v =>
      simp only
      rw [ih (d ++ [(g.key, v)]) (hrest _ (Or.inr (by simp [Dict.keys]))) (fun g' hg' => hv g' (by simp [hg']))]
      simp [rawOf, hw]

theorem charsOf_flow (flow : List Group) : charsOf (flow.flatMap Group.pieces) = [] := by
  induction flow with
  | nil => rfl
  | cons g flow ih =>
    rw [List.flatMap_cons]
    simp only [charsOf, List.flatMap_append] at ih ⊢
    rw [ih, List.append_nil]
    simp only [Group.pieces]
    induction g.vals with
    | nil => rfl
    | cons v vs ihv => simp [ihv]

theorem attrItem_keys (attrs : List (String × String)) : ∀ e ∈ attrItem attrs, isAttribute e.1 = true := by
  intro e he
  simp only [attrItem, List.mem_filterMap] at he
  obtain ⟨a, -, h⟩ := he
  split at h
  · simp at h
  · simp only [Option.some.injEq] at h
    rw [← h]; simp [isAttribute]

/-- The value of an element with these contents. -/
theorem elementValue_flow (attrs : List (String × String)) (flow : List Group)
    (hnd : (Dict.keys (attrItem attrs) ++ flow.map (·.key)).Nodup) (hv : ∀ g ∈ flow, ∀ v ∈ g.vals, ∀ l, v ≠ .list l) :
    elementValue attrs (flow.flatMap Group.pieces) =
      if attrItem attrs ++ rawOf flow = [] then .none else .dict (attrItem attrs ++ rawOf flow) := by
  have hs : strip [] = [] := rfl
  simp only [elementValue, charsOf_flow, closeValue, hs]
  by_cases ha : attrItem attrs = []
  · simp only [ha, if_true, List.nil_append]
    rw [childDict_none]
    · rw [childDict_flow flow [] (by rw [ha] at hnd; simpa using hnd) hv]
      simp only [List.nil_append]
      cases rawOf flow <;> simp
    · intro p hp
      simp only [List.mem_flatMap, Group.pieces, List.mem_map] at hp
      obtain ⟨g, -, v, -, rfl⟩ := hp
      exact ⟨_, _, rfl⟩
  · simp only [ha, if_false]
    rw [childDict_flow flow _ hnd hv]
    simp [ha]

theorem normalizeEntries_attrs (lib : Lib) (f : Dict → Res Dict) (acc : Dict) (a b : Dict)
    (h : ∀ e ∈ a, isAttribute e.1 = true) : normalizeEntries lib f acc (a ++ b) = normalizeEntries lib f acc b := by
  induction a generalizing acc with
  | nil => rfl
  | cons e a ih =>
    rw [List.cons_append, normalizeEntries_cons]
    simp only [stepEntry, h e (by simp), if_true]
    exact ih acc (fun e he => h e (by simp [he]))

theorem normalizeEntries_flow (lib : Lib) (f : Dict → Res Dict) (flow : List Group) (acc : Dict) (seen : List String)
    (hacc : ∀ k ∈ Dict.keys acc, k ∈ seen) (hf : freshNames seen (namesOf flow) = true) (hg : ∀ g ∈ flow, g.Good lib f) :
    normalizeEntries lib f acc (rawOf flow) = .ok (acc ++ flow.flatMap (·.out)) := by
  induction flow generalizing acc seen with
  | nil => simp [rawOf, normalizeEntries]
  | cons g flow ih =>
    simp only [namesOf, List.map_cons, freshNames, Bool.and_eq_true, Bool.not_eq_true', List.contains_eq_mem, decide_eq_false_iff_not,
      List.all_eq_true] at hf
    obtain ⟨⟨f1, f2⟩, f3⟩ := hf
    obtain ⟨g1, g2, g3⟩ := hg g (by simp)
    cases hw : wrapVals g.vals with
    | none =>
      rw [hw] at g3
      simp only at g3
      have : rawOf (g :: flow) = rawOf flow := by simp [rawOf, hw]
      rw [this, ih acc (seen ++ g.keys) (fun k hk => List.mem_append_left _ (hacc k hk)) f3 (fun g' h => hg g' (by simp [h]))]
      simp [g3]
    | some v =>
      rw [hw] at g3
      simp only at g3
      have : rawOf (g :: flow) = (g.key, v) :: rawOf flow := by simp [rawOf, hw]
      rw [this, normalizeEntries_cons, g3 acc]
      · simp only
        rw [ih (acc ++ g.out) (seen ++ g.keys) ?_ f3 (fun g' h => hg g' (by simp [h]))]
        · simp
        · intro k hk
          simp only [Dict.keys, List.map_append, List.mem_append] at hk
          rcases hk with hk | hk
          · exact List.mem_append_left _ (hacc k hk)
          · exact List.mem_append_right _ (g2 k hk)
      · intro k hk
        simp only [List.mem_cons] at hk
        intro hm
        have := hacc k hm
        rcases hk with rfl | hk
        · exact f1 this
        · have := f2 k (g2 k hk); simp_all

/-! ### Templates -/

/-- A part of a template gives this group of children. -/
def Conveys (lib : Lib) (n : Nat) (env : Dict) (t : Tmpl) (g : Group) : Prop :=
  sure lib env t = .ok g.pieces ∧ g.Good lib (normalize lib n)

/-- The parts of a template give these groups. -/
inductive ConveysAll (lib : Lib) (n : Nat) (env : Dict) : List Tmpl → List Group → Prop
  | nil : ConveysAll lib n env [] []
  | cons {t ts g gs} : Conveys lib n env t g → ConveysAll lib n env ts gs → ConveysAll lib n env (t :: ts) (g :: gs)

theorem sureAll_conveys (lib : Lib) (n : Nat) (env : Dict) (ts : List Tmpl) (flow : List Group) (h : ConveysAll lib n env ts flow) :
    sureAll lib env ts = .ok (flow.flatMap Group.pieces) ∧ ∀ g ∈ flow, g.Good lib (normalize lib n) := by
  induction h with
  | nil => exact ⟨rfl, by simp⟩
  | cons h hs ih =>
    refine ⟨?_, ?_⟩
    · simp [sureAll, h.1, ih.1]
    · intro g hg
      simp only [List.mem_cons] at hg
      rcases hg with rfl | hg
      · exact h.2
      · exact ih.2 g hg

/-- The contents of an element: the value that is sent for it, and what it is normalized to. -/
theorem element_conveys (lib : Lib) (n : Nat) (env : Dict) (tag : Tag) (key : String) (attrs : List (String × String)) (body : List Tmpl)
    (flow : List Group) (names : List (String × List String)) (h : ConveysAll lib n env body flow) (hkey : sureKey env tag = some key)
    (hn : namesOf flow = names) (hf : freshNames [] names = true)
    (hd : (Dict.keys (attrItem attrs) ++ names.map (·.1)).Nodup) (hne : attrItem attrs ++ rawOf flow ≠ []) :
    sure lib env (.elem tag attrs body) = .ok [.entry key (.dict (attrItem attrs ++ rawOf flow))] ∧
      normalize lib (n + 1) (attrItem attrs ++ rawOf flow) = .ok (flow.flatMap (·.out)) := by
  obtain ⟨h1, h2⟩ := sureAll_conveys lib n env body flow h
  subst hn
  have hk : flow.map (·.key) = (namesOf flow).map (·.1) := by simp [namesOf]
  constructor
  · simp only [sure, hkey, h1]
    rw [elementValue_flow attrs flow (by rw [hk]; exact hd) (fun g hg => (h2 g hg).1), if_neg hne]
  · simp only [normalize]
    rw [normalizeEntries_attrs _ _ _ _ _ (attrItem_keys attrs)]
    rw [normalizeEntries_flow lib _ flow [] [] (by simp [Dict.keys]) hf h2]
    simp

end Openleadr
