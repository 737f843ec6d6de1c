import Verif.Lemmas.Fields
/-!
Rules for the entries that are rearranged by their key.
-/
namespace Openleadr

/-! ### `properties` -/

/-- `<x><properties>…</properties>…</x>` -/
theorem carries_properties {lib : Lib} {n : Nat} {env : Dict} {t : Tmpl} {key : String} (key' : String) {x : Value} {rest : Dict}
    (h : Inside lib n env t key (("properties", x) :: rest)) (hr : rest.length ≤ 1) (hf : nestFacts key key' = true := by decide +kernel)
    (hg : (decide ("properties" ≠ key') && decide ("properties" ≠ singular key')) = true := by decide +kernel) :
    Carries lib n env t key [key'] [(key', x)] := by
  simp only [Bool.and_eq_true, decide_eq_true_eq] at hg
  refine carries_unnest key' h (fun acc _ => ?_) hf
  simp only [nestFacts, Bool.and_eq_true] at hf
  cases rest with
  | nil =>
    rw [unnest_other lib acc key' "properties" x hf.2 (by decide) hg.1 hg.2]
    simp [onlyEntry]
  | cons e rest =>
    have hk := hf.2
    simp only [nestKey, plainKey, Bool.and_eq_true, Bool.not_eq_true', List.contains_eq_mem, List.mem_cons, List.not_mem_nil, or_false,
      decide_eq_false_iff_not, not_or] at hk
    obtain ⟨⟨-, -, -, -, -, -, -, -, h9, h10⟩, -, -, -, -, g5, g6⟩ := hk
    unfold unnest
    have hm : ∀ k, onlyEntry (.dict (("properties", x) :: e :: rest)) k = none := fun k => onlyEntry_many _ k (by simp)
    have hlen : rest = [] := by cases rest <;> simp at hr ⊢
    subst hlen
    simp [hm, g5, g6, h9, h10, Dict.has, Dict.get?, currentOf]

/-! ### Repeated texts -/

/-- The texts as xmltodict files them. -/
def wrapTexts (ss : List String) : Value :=
  match ss with
  | [s] => .str s
  | ss => .list (ss.map .str)

theorem loop_texts (key : String) (f : Nat → Value → Res (List Piece)) (l : List Value) :
    ∀ (i : Nat) (ss : List String), l.length = ss.length →
      (∀ (j : Nat) x s, l[j]? = some x → ss[j]? = some s → f (i + j) x = .ok [.entry key (.str s)]) →
      eachPiece f i l = .ok (ss.map (fun s => .entry key (.str s))) := by
  induction l with
  | nil =>
    intro i ss len _
    cases ss with
    | nil => rfl
    | cons d ds => simp at len
  | cons x l ih =>
    intro i ss len h
    cases ss with
    | nil => simp at len
    | cons s ss =>
      have h1 := h 0 x s rfl rfl
      have h3 := ih (i + 1) ss (by simpa using len) (fun j x' d' hx hd => by
        have := h (j + 1) x' d' (by simpa using hx) (by simpa using hd)
        rwa [show i + (j + 1) = i + 1 + j by omega] at this)
      simp only [eachPiece]
      rw [show f i x = .ok [.entry key (.str s)] from h1, h3]
      simp

theorem sure_text {lib : Lib} {env : Dict} {name key : String} {path : List String} {attrs : List (String × String)}
    {s : String} (hl : lookup env path = .ok (some (.str s))) (hs : OnWire s) (hkey : localName name = key)
    (ha : attrItem attrs = []) : sure lib env (leaf name path .plain attrs) = .ok [.entry key (.str s)] := by
  have hla : leafAt env path = .ok (.str s) := by simp [leafAt, hl, isLeaf]
  simp only [leaf, sure, sureKey, hkey, sureAll, hla, applyFilter, pyText, hs.clean, if_true, List.append_nil]
  have hv : elementValue attrs [.chars s.toList] = .str s := by
    simp only [elementValue, ha, if_true, charsOf, List.flatMap_cons, List.flatMap_nil, List.append_nil]
    exact hs.close
  rw [hv]

/-- Texts as they are filed, and read if there is one. -/
def wrapRead (w : String → Value) (ss : List String) : Value :=
  match ss with
  | [s] => w s
  | ss => .list (ss.map .str)

/-- A loop over values, each of which gives one text. The texts of a list are not looked at, a single one is. -/
theorem carries_read {lib : Lib} {n : Nat} {env : Dict} {var : String} {over : List String} {t : Tmpl} {key : String} (key' : String)
    {l : List Value} {ss : List String} (w : String → Value) (hl : lookup env over = .ok (some (.list l))) (len : l.length = ss.length)
    (each : ∀ (i : Nat) x s, l[i]? = some x → ss[i]? = some s → sure lib (loopEnv env var i x) t = .ok [.entry key (.str s)])
    (one : ∀ s, ss = [s] → leafValue lib key' (.str s) = .ok (w s) ∧ (∀ p, w s ≠ .dict p) ∧ ∀ l, w s ≠ .list l)
    (hk : (decide (normalizeKey key = key') && !(isAttribute key) && plainKey key' && decide (key' ≠ "event")) = true
      := by decide +kernel) :
    Carries lib n env (.loop var over [t]) key [key'] (if ss = [] then [] else [(key', wrapRead w ss)]) := by
  simp only [Bool.and_eq_true, decide_eq_true_eq, Bool.not_eq_true'] at hk
  obtain ⟨⟨⟨f1, f2⟩, f3⟩, f5⟩ := hk
  have h1 := loop_texts key (fun i x => sureAll lib (loopEnv env var i x) [t]) l 0 ss len
    (fun j x s hx hs => by simp [sureAll, each j x s hx hs])
  refine ⟨ss.map .str, ?_, by simp, ?_, ?_⟩
  · simp only [sure, hl, h1, Group.pieces, List.map_map]
    rfl
  · split <;> simp [Dict.keys]
  · match ss, one with
    | [], _ => simp [wrapVals]
    | [s], one =>
      obtain ⟨o1, o2, o3⟩ := one s rfl
      simp only [List.map_cons, List.map_nil, wrapVals, wrapRead]
      exact appends_leaf lib _ key key' _ _ f1 f2 f3 o1 (by simp) (by simp) o2 o3
    | s :: s' :: ss, _ =>
      simp only [List.map_cons, wrapVals]
      refine appends_inPlace lib _ key key' _ (.list ((s :: s' :: ss).map .str)) _ f1 f2 ?_ ?_
      · have := twice_leaves (f := normalize lib n) ((s :: s' :: ss).map .str) (by simp)
        simp only [List.map_cons] at this
        simp [entryValue, this, Except.map]
      · intro acc hg
        simp only [wrapRead]
        rw [Dict.set_get?_self _ _ _ hg]
        exact settle_leaf lib acc key' _ f3 hg (by simp) (fun e => absurd e f5)

/-- The same for ordinary texts. -/
theorem carries_texts {lib : Lib} {n : Nat} {env : Dict} {var : String} {over : List String} {t : Tmpl} {key : String} (key' : String)
    {l : List Value} {ss : List String} (hl : lookup env over = .ok (some (.list l))) (len : l.length = ss.length)
    (each : ∀ (i : Nat) x s, l[i]? = some x → ss[i]? = some s → sure lib (loopEnv env var i x) t = .ok [.entry key (.str s)])
    (one : ∀ s, ss = [s] → Ordinary lib s)
    (hk : (decide (normalizeKey key = key') && !(isAttribute key) && plainKey key' && decide (key' ≠ "event")) = true
      := by decide +kernel) (hk' : textKey key' = true := by decide +kernel) :
    Carries lib n env (.loop var over [t]) key [key'] (if ss = [] then [] else [(key', wrapTexts ss)]) := by
  refine carries_read key' .str hl len each (fun s e => ⟨?_, by simp, by simp⟩) hk
  have ho := one s e
  rw [leafValue_text lib key' s hk', if_neg (by simp [ho.notTrue, ho.notFalse]), ho.plain]

/-! ### Pending reports -/

theorem settle_pending (lib : Lib) (d : Dict) : settle lib d "pending_reports" = match currentOf d "pending_reports" with
    | .dict p => match Dict.get? p "report_request_id" with
      | some x => .ok (Dict.set d "pending_reports" (pendingOf lib x))
      | none => .ok d
    | .none => .ok (Dict.set d "pending_reports" (.list []))
    | _ => .ok d := by
  have hx : "x_ei_".toList.isPrefixOf "pending_reports".toList = false := by decide +kernel
  simp only [settle, renameEntry, hx, Bool.false_eq_true, if_false, groupTargetEntry, show ("pending_reports" = "target") = False by simp,
    arrangeEntry, if_true]
  rfl

/-- The ids of pending reports after a single one was read as a value. -/
def idsRead (lib : Lib) (w : String → Value) (ids : List String) : List String :=
  match ids with
  | [id] => [pyText lib (some (w id))]
  | ids => ids

theorem pendingOf_read (lib : Lib) (w : String → Value) (ids : List String) (h : ∀ id, ids = [id] → ∀ l, w id ≠ .list l) :
    pendingOf lib (wrapRead w ids) = pendingP (idsRead lib w ids) := by
  match ids, h with
  | [], _ => rfl
  | [id], h =>
    have := h id rfl
    simp only [wrapRead, idsRead, pendingOf]
    rfl
  | id :: id' :: ids, _ => simp [wrapRead, idsRead, pendingOf, pendingP, pyText]

/-- Pending reports, of which a single one is read as a value, and its text made from that. -/
theorem carries_pendingRead {lib : Lib} {n : Nat} {env : Dict} {ids : List String} (w : String → Value)
    (hl : Dict.get? env "pending_reports" = some (pendingP ids)) (hs : ∀ id ∈ ids, OnWire id)
    (one : ∀ id, ids = [id] → leafValue lib "report_request_id" (.str id) = .ok (w id) ∧ (∀ p, w id ≠ .dict p) ∧ ∀ l, w id ≠ .list l) :
    Carries lib (n + 1) env pendingReports "oadrPendingReports" ["pending_reports"] [("pending_reports", pendingP (idsRead lib w ids))] := by
  have hkey : normalizeKey "oadrPendingReports" = "pending_reports" := by decide +kernel
  have hat : isAttribute "oadrPendingReports" = false := by decide +kernel
  have hloop := carries_read (lib := lib) (n := n) (env := env) (var := "pending_report") (over := ["pending_reports"])
    (t := leaf "ei:reportRequestID" ["pending_report", "report_request_id"]) (key := "reportRequestID") "report_request_id"
    (l := ids.map (fun id => .dict [("report_request_id", .str id)])) (ss := ids) w (by simp [lookup, walk, hl, pendingP]) (by simp)
    (fun i x s hx hss => by
      have hmem : s ∈ ids := List.mem_of_getElem? hss
      simp only [List.getElem?_map, hss, Option.map_some, Option.some.injEq] at hx
      subst hx
      exact sure_text (by lk) (hs s hmem) (by decide +kernel) (by decide +kernel))
    one
  by_cases hne : ids = []
  · subst hne
    obtain ⟨vals, h1, -, -, h4⟩ := hloop
    refine carries_one .none ?_ (by simp) ?_ (by simp [Dict.keys])
    · have : lookup env ["pending_reports"] = .ok (some (.list [])) := by simp [lookup, walk, hl, pendingP]
      have hln : localName "oadr:oadrPendingReports" = "oadrPendingReports" := by decide +kernel
      simp only [pendingReports, el, sure, sureAll, this, eachPiece, sureKey, hln]
      rfl
    · refine appends_inPlace lib _ _ "pending_reports" _ .none _ hkey hat ?_ ?_
      · have : durationKeys.contains "pending_reports" = false := by decide +kernel
        simp only [entryValue, leafValue, this, Bool.false_eq_true, if_false]
      · intro d hd
        rw [settle_pending]
        simp [currentOf, hd, pendingP, idsRead]
  · rw [if_neg hne] at hloop
    have hin : Inside lib (n + 1) env pendingReports "oadrPendingReports" [("report_request_id", wrapRead w ids)] :=
      inside_elem (.cons hloop .nil) (by simp) (by simp)
    refine carries_inside hin (fun raw hr => ?_) (by simp [Dict.keys])
    refine appends_inPlace lib _ _ "pending_reports" _ (.dict [("report_request_id", wrapRead w ids)]) _ hkey hat ?_ ?_
    · simp [entryValue, hr, Except.map]
    · intro d hd
      rw [settle_pending]
      simp only [currentOf, hd, Dict.get?, if_true, Option.getD_some]
      rw [pendingOf_read lib w ids (fun id e => (one id e).2.2)]

/-- The text of a float is read as this float or as this text. -/
theorem plainText_kept {lib : Lib} {r : String} (h : FloatText lib r) : ∃ x, plainText lib r = .ok x ∧ (x = .float r ∨ x = .str r) := by
  have h1 : looksInt lib r.toList = false := by
    cases e : looksInt lib r.toList with
    | false => rfl
    | true =>
      exfalso
      unfold looksInt at e
      split at e
      · rename_i t ht
        obtain ⟨c, hc, hd⟩ := h.notInt ['-'] t (by simp [ht]) (by simp)
        simp only [Bool.and_eq_true, List.all_eq_true] at e
        have := e.2 c hc
        simp [hd] at this
      · obtain ⟨c, hc, hd⟩ := h.notInt [] r.toList (by simp) (by simp)
        simp only [Bool.and_eq_true, List.all_eq_true] at e
        have := e.2 c hc
        simp [hd] at this
  simp only [plainText, h1, Bool.false_eq_true, if_false, h.reads]
  cases looksFloat lib r.toList with
  | true => exact ⟨.float r, rfl, .inl rfl⟩
  | false => exact ⟨.str r, rfl, .inr rfl⟩

/-- Texts that are the same after they were read as a value: also those of integers and floats as Python writes them. -/
theorem read_same {lib : Lib} (sound : lib.Sound) {k s : String} (hk : textKey k = true)
    (h : Ordinary lib s ∨ (∃ i, s = String.ofList (intText i)) ∨ FloatText lib s) :
    ∃ w, leafValue lib k (.str s) = .ok w ∧ pyText lib (some w) = s ∧ (∀ p, w ≠ .dict p) ∧ ∀ l, w ≠ .list l := by
  rw [leafValue_text lib k s hk]
  rcases h with h | ⟨i, rfl⟩ | h
  · rw [if_neg (by simp [h.notTrue, h.notFalse]), h.plain]
    exact ⟨_, rfl, rfl, by simp, by simp⟩
  · rw [if_neg (by simp [intText_words i]), plainText_int sound]
    exact ⟨_, rfl, rfl, by simp, by simp⟩
  · obtain ⟨x, h1, h2⟩ := plainText_kept h
    rw [if_neg (by simp [h.notTrue, h.notFalse]), h1]
    rcases h2 with rfl | rfl
    · exact ⟨_, rfl, rfl, by simp, by simp⟩
    · exact ⟨_, rfl, rfl, by simp, by simp⟩

/-- What is asked of the ids of pending reports: a single one must be an ordinary text, or a number as Python writes it. -/
structure PendingIds (lib : Lib) (ids : List String) : Prop where
  onWire : ∀ id ∈ ids, OnWire id
  single : ∀ id, ids = [id] → Ordinary lib id ∨ (∃ i, id = String.ofList (intText i)) ∨ FloatText lib id

theorem carries_pending {lib : Lib} (sound : lib.Sound) {n : Nat} {env : Dict} {ids : List String}
    (hl : Dict.get? env "pending_reports" = some (pendingP ids)) (hs : PendingIds lib ids) :
    Carries lib (n + 1) env pendingReports "oadrPendingReports" ["pending_reports"] [("pending_reports", pendingP ids)] := by
  have hw : ∀ id, ids = [id] → ∃ w, leafValue lib "report_request_id" (.str id) = .ok w ∧ pyText lib (some w) = id ∧ (∀ p, w ≠ .dict p) ∧ ∀ l, w ≠ .list l :=
    fun id e => read_same sound (by decide +kernel) (hs.single id e)
  match ids, hl, hs, hw with
  | [], hl, hs, _ => exact carries_pendingRead .str hl hs.onWire (by simp)
  | [id], hl, hs, hw =>
    obtain ⟨w, w1, w2, w3, w4⟩ := hw id rfl
    have := carries_pendingRead (lib := lib) (n := n) (fun _ => w) hl hs.onWire (fun id e => by cases e; exact ⟨w1, w3, w4⟩)
    simp only [idsRead, w2] at this
    exact this
  | id :: id' :: ids, hl, hs, _ => exact carries_pendingRead .str hl hs.onWire (by simp)

/-! ### Messages with one part -/

/-- What is done with `eiRequestEvent` and `eiCreatedEvent`: their contents are the message. -/
theorem inside_replace {lib : Lib} {n : Nat} {env : Dict} {name key key' ikey : String} {attrs : List (String × String)} {t : Tmpl} {p : Dict}
    (h : Inside lib n env t ikey p) (hname : localName name = key) (hk : normalizeKey ikey = key') (hat : isAttribute ikey = false)
    (hr : key' = "request_event" ∨ key' = "created_event") (hnew : ikey ∉ Dict.keys (attrItem attrs)) :
    Inside lib (n + 1) env (el name [t] attrs) key p := by
  obtain ⟨raw, h1, h2⟩ := h
  refine ⟨attrItem attrs ++ [(ikey, .dict raw)], ?_, ?_⟩
  · simp only [el, sure, sureKey, hname, sureAll, h1, List.append_nil]
    rw [elementValue_signed _ _ _ hnew]
  · simp only [normalize]
    rw [normalizeEntries_attrs _ _ _ _ _ (attrItem_keys attrs)]
    have hx : "x_ei_".toList.isPrefixOf key'.toList = false := by rcases hr with rfl | rfl <;> decide +kernel
    have hn : key' ≠ "target" ∧ key' ≠ "pending_reports" ∧ key' ≠ "event" := by rcases hr with rfl | rfl <;> decide +kernel
    obtain ⟨g1, g2, g3⟩ := hn
    have hb : (key' = "request_event" || key' = "created_event") = true := by rcases hr with h | h <;> simp [h]
    simp only [normalizeEntries, stepEntry, hat, Bool.false_eq_true, if_false, hk, entryValue, h2, Except.map, Dict.set, settle, renameEntry, hx,
      groupTargetEntry, g1, arrangeEntry, g2, g3, decide_false, Bool.false_and, currentOf, Dict.get?, if_true, Option.getD_some, hb,
      Bool.true_and]

/-! ### `qualifiedEventID` -/

theorem settle_qualified (lib : Lib) (d : Dict) (a b : Value) (hg : Dict.get? d "qualified_event_id" = some (.dict [("event_id", a), ("modification_number", b)])) :
    settle lib d "qualified_event_id" =
      .ok (Dict.set (Dict.set (Dict.erase d "qualified_event_id") "event_id" a) "modification_number" b) := by
  have hx : "x_ei_".toList.isPrefixOf "qualified_event_id".toList = false := by decide +kernel
  have hcur : currentOf d "qualified_event_id" = .dict [("event_id", a), ("modification_number", b)] := by simp [currentOf, hg]
  simp only [settle, renameEntry, hx, Bool.false_eq_true, if_false, groupTargetEntry, arrangeEntry, hcur]
  simp [entryAt, hcur, Dict.get?]

theorem carries_qualified {lib : Lib} (sound : lib.Sound) {n : Nat} {env : Dict} {p1 p2 : List String} {e : String} {m : Int}
    (h1 : lookup env p1 = .ok (some (.str e))) (he : Ordinary lib e) (h2 : lookup env p2 = .ok (some (.int m))) :
    Carries lib (n + 1) env (el "ei:qualifiedEventID" [leaf "ei:eventID" p1, leaf "ei:modificationNumber" p2]) "qualifiedEventID"
      ["event_id", "modification_number"] [("event_id", .str e), ("modification_number", .int m)] := by
  have hin : Inside lib (n + 1) env (el "ei:qualifiedEventID" [leaf "ei:eventID" p1, leaf "ei:modificationNumber" p2]) "qualifiedEventID"
      [("event_id", .str e), ("modification_number", .int m)] :=
    inside_elem (.cons (carries_text "eventID" "event_id" h1 he) (.cons (carries_int sound "modificationNumber" "modification_number" h2) .nil))
      (by simp) (by simp)
  refine carries_inside hin (fun raw hr => ?_) (by simp [Dict.keys])
  intro acc hf
  have hkey : normalizeKey "qualifiedEventID" = "qualified_event_id" := by decide +kernel
  have hat : isAttribute "qualifiedEventID" = false := by decide +kernel
  simp only [hkey] at hf
  have f1 : "qualified_event_id" ∉ Dict.keys acc := hf _ (by simp)
  have f2 : "event_id" ∉ Dict.keys acc := hf _ (by simp [Dict.keys])
  have f3 : "modification_number" ∉ Dict.keys acc := hf _ (by simp [Dict.keys])
  simp only [stepEntry, hat, Bool.false_eq_true, if_false, hkey, entryValue, hr, Except.map]
  rw [settle_qualified lib _ _ _ (Dict.get?_set_self _ _ _), Dict.set_new _ _ _ f1, erase_append_single _ _ _ f1, Dict.set_new _ _ _ f2,
    Dict.set_new]
  · simp
  · simp only [Dict.keys, List.map_append, List.mem_append] at f3 ⊢
    simp [f3]

end Openleadr
