import Verif.Lemmas.Convey
/-!
Repeated elements: a list of them is normalized twice, so what is normalized must be settled.
-/
namespace Openleadr

theorem erase_append_single {α : Type} (d : List (String × α)) (k : String) (v : α) (h : k ∉ Dict.keys d) :
    Dict.erase (d ++ [(k, v)]) k = d := by
  induction d with
  | nil => simp [Dict.erase]
  | cons e d ih =>
    obtain ⟨k', x⟩ := e
    simp only [Dict.keys, List.map_cons, List.mem_cons, not_or] at h
    simp only [List.cons_append, Dict.erase]
    rw [if_neg (fun e => h.1 e.symm), ih h.2]

/-! ### Dicts that are not changed any more -/

/-- Normalization does not change this entry. -/
def SettledEntry (lib : Lib) (m : Nat) (k : String) (v : Value) : Prop :=
  normalizeKey k = k ∧ ∀ n, m ≤ n → Appends lib (normalize lib n) (k, v) [(k, v)]

/-- Normalization does not change this dict. -/
def Settled (lib : Lib) (m : Nat) (d : Dict) : Prop := ∀ n, m ≤ n → normalize lib n d = .ok d

/-- Entries that normalization does not change, with their possible keys. -/
inductive Settles (lib : Lib) (m : Nat) : List String → Dict → Prop
  | nil : Settles lib m [] []
  | cons {k v ks d} : SettledEntry lib m k v → Settles lib m ks d → Settles lib m (k :: ks) ((k, v) :: d)
  | opt {k v ks d} : (∀ x, v = some x → SettledEntry lib m k x) → Settles lib m ks d → Settles lib m (k :: ks) (entry? k v ++ d)

theorem Settles.last {lib : Lib} {m : Nat} {k : String} {v : Option Value} (h : ∀ x, v = some x → SettledEntry lib m k x) :
    Settles lib m [k] (entry? k v) := by
  have := Settles.opt h .nil
  rwa [List.append_nil] at this

theorem settles_spec {lib : Lib} {m : Nat} {ks : List String} {d : Dict} (h : Settles lib m ks d) :
    (∀ e ∈ d, SettledEntry lib m e.1 e.2) ∧ (Dict.keys d).Sublist ks := by
  induction h with
  | nil => simp [Dict.keys]
  | cons h _ ih =>
    refine ⟨?_, by simpa [Dict.keys] using ih.2⟩
    intro e he
    simp only [List.mem_cons] at he
    rcases he with rfl | he
    · exact h
    · exact ih.1 e he
  | @opt k v ks d h _ ih =>
    cases v with
    | none => exact ⟨ih.1, ih.2.cons _⟩
    | some v =>
      refine ⟨?_, by simpa [Dict.keys, entry?] using ih.2⟩
      intro e he
      simp only [entry?, List.cons_append, List.nil_append, List.mem_cons] at he
      rcases he with rfl | he
      · exact h v rfl
      · exact ih.1 e he

theorem settled_entries (lib : Lib) (f : Dict → Res Dict) (d acc : Dict) (hn : (Dict.keys acc ++ Dict.keys d).Nodup)
    (h : ∀ e ∈ d, normalizeKey e.1 = e.1 ∧ Appends lib f e [e]) : normalizeEntries lib f acc d = .ok (acc ++ d) := by
  induction d generalizing acc with
  | nil => simp [normalizeEntries]
  | cons e d ih =>
    obtain ⟨h1, h2⟩ := h e (by simp)
    have hf : e.1 ∉ Dict.keys acc := by
      intro hm
      rw [List.nodup_append] at hn
      exact hn.2.2 _ hm e.1 (by simp [Dict.keys]) rfl
    rw [normalizeEntries_cons, h2 acc (by intro k hk; simp [Dict.keys, h1] at hk; rwa [hk])]
    simp only
    rw [ih (acc ++ [e]) (by simpa [Dict.keys] using hn) (fun e' he' => h e' (by simp [he']))]
    simp

theorem settled_of {lib : Lib} {m : Nat} {ks : List String} {d : Dict} (h : Settles lib m ks d) (hk : ks.Nodup := by decide +kernel) :
    Settled lib (m + 1) d := by
  obtain ⟨h1, h2⟩ := settles_spec h
  intro n hn
  obtain ⟨n, rfl⟩ : ∃ k, n = k + 1 := ⟨n - 1, by omega⟩
  simp only [normalize]
  rw [settled_entries lib _ d [] (by simpa [Dict.keys] using h2.nodup hk) (fun e he => ⟨(h1 e he).1, (h1 e he).2 n (by omega)⟩)]
  rfl

/-- What has to be checked of the key of an entry. -/
def steadyKey (k : String) : Bool := decide (normalizeKey k = k) && !(isAttribute k) && plainKey k

theorem settled_leaf {lib : Lib} {k : String} {v : Value} (m : Nat) (hv : leafValue lib k v = .ok v) (hl : isLeaf v = true)
    (hf : steadyKey k = true := by decide +kernel) : SettledEntry lib m k v := by
  simp only [steadyKey, Bool.and_eq_true, decide_eq_true_eq, Bool.not_eq_true'] at hf
  obtain ⟨⟨f1, f2⟩, f3⟩ := hf
  obtain ⟨x1, x2⟩ := isLeaf_spec hl
  exact ⟨f1, fun n _ => appends_leaf lib _ k k v v f1 f2 f3 hv x1 x2 x1 x2⟩

theorem settled_text {lib : Lib} {k s : String} (m : Nat) (hs : Ordinary lib s) (ht : textKey k = true := by decide +kernel)
    (hf : steadyKey k = true := by decide +kernel) : SettledEntry lib m k (.str s) := by
  refine settled_leaf m ?_ rfl hf
  rw [leafValue_text lib k s ht, if_neg (by simp [hs.notTrue, hs.notFalse]), hs.plain]

/-- Values that are no texts. -/
theorem settled_other {lib : Lib} {k : String} {v : Value} (m : Nat) (hl : (isLeaf v && !(v matches .str _)) = true)
    (ht : durationKeys.contains k = false := by decide +kernel) (hf : steadyKey k = true := by decide +kernel) : SettledEntry lib m k v := by
  simp only [Bool.and_eq_true] at hl
  refine settled_leaf m ?_ hl.1 hf
  simp only [leafValue, ht, Bool.false_eq_true, if_false]
  cases v <;> simp at hl ⊢

theorem settled_duration {lib : Lib} {k : String} {us : Int} (m : Nat) (ht : durationKeys.contains k = true := by decide +kernel)
    (hf : steadyKey k = true := by decide +kernel) : SettledEntry lib m k (.timedelta us) := by
  refine settled_leaf m ?_ rfl hf
  simp only [leafValue, ht, if_true, parseDurationV]

/-- A dict that is no needless nesting. -/
def Keeps (key : String) (d : Dict) : Prop :=
  (2 ≤ d.length ∧ Dict.has d "properties" = false) ∨ ∃ k x, d = [(k, x)] ∧ hollow key k = false

theorem unnest_keeps {lib : Lib} {key : String} {d : Dict} (hk : nestKey key = true) (h : Keeps key d) (acc : Dict) :
    unnest lib acc key (.dict d) = .ok acc := by
  rcases h with ⟨h1, h2⟩ | ⟨k, x, rfl, hg⟩
  · exact unnest_many lib acc key d hk h1 h2
  · simp only [hollow, List.contains_eq_mem, List.mem_cons, List.not_mem_nil, or_false, decide_eq_false_iff_not, not_or] at hg
    obtain ⟨g1, g2, g3, g4, g5, g6⟩ := hg
    rw [unnest_other lib acc key k x hk g1 g2 g3]
    simp [onlyEntry, g4, g5, g6]

/-- What has to be checked of the key of a dict. -/
def steadyNest (k : String) : Bool := decide (normalizeKey k = k) && !(isAttribute k) && nestKey k

theorem settled_dict {lib : Lib} {m : Nat} {k : String} {d : Dict} (h : Settled lib m d) (hk : Keeps k d)
    (hf : steadyNest k = true := by decide +kernel) : SettledEntry lib m k (.dict d) := by
  simp only [steadyNest, Bool.and_eq_true, decide_eq_true_eq, Bool.not_eq_true'] at hf
  obtain ⟨⟨f1, f2⟩, f3⟩ := hf
  refine ⟨f1, fun n hn => appends_inPlace lib _ k k _ (.dict d) _ f1 f2 ?_ ?_⟩
  · simp [entryValue, h n hn, Except.map]
  · intro acc hg
    rw [settle_nest lib acc k d f3 hg, unnest_keeps f3 hk, Dict.set_get?_self _ _ _ hg]

/-- What has to be checked of the key of a list. -/
def steadyList (k : String) : Bool := steadyKey k && decide (k ≠ "event")

theorem settled_list {lib : Lib} {m : Nat} {k : String} {l : List Value} (h : ∀ n, m ≤ n → twice (normalize lib n) l = .ok l)
    (hf : steadyList k = true := by decide +kernel) : SettledEntry lib m k (.list l) := by
  simp only [steadyList, steadyKey, Bool.and_eq_true, decide_eq_true_eq, Bool.not_eq_true'] at hf
  obtain ⟨⟨⟨f1, f2⟩, f3⟩, f4⟩ := hf
  refine ⟨f1, fun n hn => appends_inPlace lib _ k k _ (.list l) _ f1 f2 ?_ ?_⟩
  · simp [entryValue, h n hn, Except.map]
  · intro acc hg
    rw [settle_leaf lib acc k _ f3 hg (by simp) (fun e => absurd e f4), Dict.set_get?_self _ _ _ hg]

theorem twice_settled {f : Dict → Res Dict} (ds : List Dict) (h : ∀ d ∈ ds, f d = .ok d) : twice f (ds.map .dict) = .ok (ds.map .dict) := by
  induction ds with
  | nil => rfl
  | cons d ds ih =>
    have h1 := h d (by simp)
    simp only [List.map_cons, twice, h1, Except.map, ih (fun d' hd' => h d' (by simp [hd']))]

theorem twice_leaves {f : Dict → Res Dict} (l : List Value) (h : ∀ v ∈ l, ∀ d, v ≠ .dict d) : twice f l = .ok l := by
  induction l with
  | nil => rfl
  | cons v l ih =>
    have h1 := h v (by simp)
    simp only [twice, ih (fun v' hv' => h v' (by simp [hv']))]

theorem settled_dicts {lib : Lib} {m : Nat} {k : String} {ds : List Dict} (h : ∀ d ∈ ds, Settled lib m d)
    (hf : steadyList k = true := by decide +kernel) : SettledEntry lib m k (.list (ds.map .dict)) :=
  settled_list (fun n hn => twice_settled ds (fun d hd => h d hd n hn)) hf

theorem settled_leaves {lib : Lib} {k : String} {l : List Value} (m : Nat) (h : ∀ v ∈ l, ∀ d, v ≠ .dict d)
    (hf : steadyList k = true := by decide +kernel) : SettledEntry lib m k (.list l) :=
  settled_list (fun _ _ => twice_leaves l h) hf

/-! ### Loops -/

/-- The members as xmltodict files them, after normalization. -/
def wrapDicts (ds : List Dict) : Value :=
  match ds with
  | [d] => .dict d
  | ds => .list (ds.map .dict)

theorem loop_raws (key : String) (f : Nat → Value → Res (List Piece)) (N : Dict → Res Dict) (l : List Value) :
    ∀ (i : Nat) (ds : List Dict), l.length = ds.length →
      (∀ (j : Nat) x d, l[j]? = some x → ds[j]? = some d → ∃ raw, f (i + j) x = .ok [.entry key (.dict raw)] ∧ N raw = .ok d) →
      ∃ raws : List Dict, eachPiece f i l = .ok (raws.map (fun r => .entry key (.dict r))) ∧ raws.map N = ds.map .ok := by
  induction l with
  | nil =>
    intro i ds len _
    cases ds with
    | nil => exact ⟨[], rfl, rfl⟩
    | cons d ds => simp at len
  | cons x l ih =>
    intro i ds len h
    cases ds with
    | nil => simp at len
    | cons d ds =>
      obtain ⟨raw, h1, h2⟩ := h 0 x d rfl rfl
      obtain ⟨raws, h3, h4⟩ := ih (i + 1) ds (by simpa using len) (fun j x' d' hx hd => by
        have := h (j + 1) x' d' (by simpa using hx) (by simpa using hd)
        rwa [show i + (j + 1) = i + 1 + j by omega] at this)
      refine ⟨raw :: raws, ?_, ?_⟩
      · simp only [eachPiece]
        rw [show f i x = .ok [.entry key (.dict raw)] from h1, h3]
        simp
      · simp [h2, h4]

theorem twice_raws {f : Dict → Res Dict} (raws ds : List Dict) (h : raws.map f = ds.map .ok) (hs : ∀ d ∈ ds, f d = .ok d) :
    twice f (raws.map .dict) = .ok (ds.map .dict) := by
  induction raws generalizing ds with
  | nil => cases ds with
    | nil => rfl
    | cons d ds => simp at h
  | cons r raws ih =>
    cases ds with
    | nil => simp at h
    | cons d ds =>
      simp only [List.map_cons, List.cons.injEq] at h
      simp only [List.map_cons, twice, h.1, hs d (by simp), Except.map, ih ds h.2 (fun d' hd' => hs d' (by simp [hd']))]

/-- A loop over the members of a list, each of which gives one element. -/
theorem carries_loop {lib : Lib} {n : Nat} {env : Dict} {var : String} {over : List String} {t : Tmpl} {key : String} (key' : String)
    {keys : List String} {out : Dict} {l : List Value} {ds : List Dict} (hl : lookup env over = .ok (some (.list l))) (len : l.length = ds.length)
    (each : ∀ (i : Nat) x d, l[i]? = some x → ds[i]? = some d → Inside lib n (loopEnv env var i x) t key d)
    (stable : ∀ d ∈ ds, 2 ≤ ds.length → normalize lib n d = .ok d) (h0 : ds = [] → out = []) (hk : ∀ k ∈ Dict.keys out, k ∈ keys)
    (ha : ds ≠ [] → ∀ v, entryValue lib (normalize lib n) key' v = .ok (wrapDicts ds) → Appends lib (normalize lib n) (key, v) out) :
    Carries lib n env (.loop var over [t]) key keys out := by
  obtain ⟨raws, h1, h2⟩ := loop_raws key (fun i x => sureAll lib (loopEnv env var i x) [t]) (normalize lib n) l 0 ds len
    (fun j x d hx hd => by
      obtain ⟨raw, e1, e2⟩ := each j x d hx hd
      exact ⟨raw, by simp [sureAll, e1], e2⟩)
  refine ⟨raws.map .dict, ?_, by simp, hk, ?_⟩
  · simp only [sure, hl, h1, Group.pieces, List.map_map]
    rfl
  · match raws, ds, h2, h0, ha, stable with
    | [], [], _, h0, _, _ => simp only [List.map_nil, wrapVals]; exact h0 rfl
    | [r], [d], h2, _, ha, _ =>
      simp only [List.map_cons, List.map_nil, wrapVals]
      apply ha (by simp)
      simp only [List.map_cons, List.map_nil, List.cons.injEq, and_true] at h2
      simp [entryValue, h2, wrapDicts, Except.map]
    | r :: r' :: raws, d :: d' :: ds, h2, _, ha, stable =>
      simp only [List.map_cons, wrapVals]
      apply ha (by simp)
      have := twice_raws (r :: r' :: raws) (d :: d' :: ds) h2 (fun x hx => stable x hx (by simp))
      simp only [List.map_cons] at this
      simp [entryValue, this, wrapDicts, Except.map]
    | [], _ :: _, h2, _, _, _ => simp at h2
    | _ :: _, [], h2, _, _, _ => simp at h2
    | [_], _ :: _ :: _, h2, _, _, _ => simp at h2
    | _ :: _ :: _, [_], h2, _, _, _ => simp at h2

/-- A loop whose members stay where they are. -/
theorem carries_wrap {lib : Lib} {n : Nat} {env : Dict} {var : String} {over : List String} {t : Tmpl} {key : String} (key' : String)
    {l : List Value} {ds : List Dict} (hl : lookup env over = .ok (some (.list l))) (len : l.length = ds.length)
    (each : ∀ (i : Nat) x d, l[i]? = some x → ds[i]? = some d → Inside lib n (loopEnv env var i x) t key d)
    (stable : ∀ d ∈ ds, normalize lib n d = .ok d) (hne : ds ≠ []) (keeps : ∀ d ∈ ds, Keeps key' d)
    (hf : nestFacts key key' = true := by decide +kernel) :
    Carries lib n env (.loop var over [t]) key [key'] [(key', wrapDicts ds)] := by
  simp only [nestFacts, Bool.and_eq_true, decide_eq_true_eq, Bool.not_eq_true'] at hf
  obtain ⟨⟨f1, f2⟩, f3⟩ := hf
  refine carries_loop key' hl len each (fun d hd _ => stable d hd) (fun e => absurd e hne) (by simp [Dict.keys]) (fun _ v hv => ?_)
  refine appends_inPlace lib _ key key' v (wrapDicts ds) _ f1 f2 hv ?_
  intro acc hg
  have hp : plainKey key' = true ∧ key' ≠ "event" := by
    simp only [nestKey, Bool.and_eq_true, Bool.not_eq_true', List.contains_eq_mem, List.mem_cons, List.not_mem_nil, or_false,
      decide_eq_false_iff_not, not_or] at f3
    exact ⟨f3.1, f3.2.1⟩
  rw [Dict.set_get?_self _ _ _ hg]
  match ds, keeps, hg with
  | [d], keeps, hg => rw [settle_nest lib acc key' d f3 hg, unnest_keeps f3 (keeps d (by simp))]
  | [], _, _ => exact absurd rfl hne
  | d :: d' :: ds, _, hg =>
    exact settle_leaf lib acc key' (.list ((d :: d' :: ds).map .dict)) hp.1 hg (by simp) (fun e => absurd e hp.2)

theorem asListV_wrap (ds : List Dict) : asListV (wrapDicts ds) = ds.map .dict := by
  unfold wrapDicts
  split <;> simp [asListV]

/-- An entry that is put under another key. -/
theorem appends_rename (lib : Lib) (f : Dict → Res Dict) (key key' key'' : String) (v w x : Value) (hkey : normalizeKey key = key')
    (hat : isAttribute key = false) (hv : entryValue lib f key' v = .ok w)
    (hs : ∀ d, Dict.get? d key' = some w → settle lib d key' = .ok (Dict.set (Dict.erase d key') key'' x)) :
    Appends lib f (key, v) [(key'', x)] := by
  intro acc hf
  have h1 : key' ∉ Dict.keys acc := by rw [← hkey]; exact hf _ (by simp)
  have h2 : key'' ∉ Dict.keys acc := hf _ (by simp [Dict.keys])
  simp only [stepEntry, hat, hkey, hv]
  simp only [Bool.false_eq_true, if_false]
  rw [hs _ (Dict.get?_set_self _ _ _), Dict.set_new _ _ _ h1, erase_append_single _ _ _ h1, Dict.set_new _ _ _ h2]

theorem settle_plural (lib : Lib) (d : Dict) (k : String) (v : Value) (hk : k = "report_request" ∨ k = "report" ∨ k = "specifier_payload")
    (hd : Dict.get? d k = some v) : settle lib d k = .ok (Dict.set (Dict.erase d k) (k ++ "s") (.list (asListV v))) := by
  have hcur : currentOf d k = v := by simp [currentOf, hd]
  have hx : "x_ei_".toList.isPrefixOf k.toList = false := by rcases hk with rfl | rfl | rfl <;> decide +kernel
  have h1 : k ≠ "target" ∧ k ≠ "pending_reports" ∧ k ≠ "event" ∧ k ≠ "request_event" ∧ k ≠ "created_event" := by
    rcases hk with rfl | rfl | rfl <;> decide +kernel
  obtain ⟨h1, h2, h3, h4, h5⟩ := h1
  have h6 : (k = "report_request" || k = "report" || k = "specifier_payload") = true := by
    rcases hk with h | h | h <;> simp [h]
  simp only [settle, renameEntry, hx, Bool.false_eq_true, if_false, groupTargetEntry, h1, arrangeEntry, hcur, h2, h3, h4, h5, h6, if_true,
    decide_false, Bool.false_and, Bool.or_self]

/-- What has to be checked of the name of an element that is collected in a list. -/
def pluralFacts (key key' : String) : Bool :=
  decide (normalizeKey key = key') && !(isAttribute key) && decide (key' = "report_request" ∨ key' = "report" ∨ key' = "specifier_payload")

/-- A loop whose members are collected in a list. -/
theorem carries_collect {lib : Lib} {n : Nat} {env : Dict} {var : String} {over : List String} {t : Tmpl} {key : String} (key' key'' : String)
    {l : List Value} {ds : List Dict} (hl : lookup env over = .ok (some (.list l))) (len : l.length = ds.length)
    (each : ∀ (i : Nat) x d, l[i]? = some x → ds[i]? = some d → Inside lib n (loopEnv env var i x) t key d)
    (stable : ∀ d ∈ ds, normalize lib n d = .ok d) (hne : ds ≠ [])
    (hf : pluralFacts key key' = true := by decide +kernel) (hs : key' ++ "s" = key'' := by decide +kernel) :
    Carries lib n env (.loop var over [t]) key [key''] [(key'', .list (ds.map .dict))] := by
  simp only [pluralFacts, Bool.and_eq_true, decide_eq_true_eq, Bool.not_eq_true'] at hf
  obtain ⟨⟨f1, f2⟩, f3⟩ := hf
  refine carries_loop key' hl len each (fun d hd _ => stable d hd) (fun e => absurd e hne) (by simp [Dict.keys]) (fun _ v hv => ?_)
  refine appends_rename lib _ key key' key'' v (wrapDicts ds) _ f1 f2 hv ?_
  intro acc hg
  rw [settle_plural lib acc key' _ f3 hg, hs, asListV_wrap]

/-- A loop over no members gives nothing. -/
theorem carries_nothing {lib : Lib} {n : Nat} {env : Dict} {var : String} {over : List String} {body : List Tmpl} (key : String) (keys : List String)
    (hl : lookup env over = .ok (some (.list []))) : Carries lib n env (.loop var over body) key keys [] :=
  ⟨[], by simp [sure, hl, eachPiece, Group.pieces], by simp, by simp [Dict.keys], by simp [wrapVals]⟩

end Openleadr
