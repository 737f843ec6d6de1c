import Verif.Model.Members
import Verif.Spec.Members
import Verif.Lemmas.Dict
/-! Helper lemmas for member access, searching and grouping. -/
namespace Openleadr
open Spec

theorem splitOnChar_append (c : Char) (a r : Text) (h : c ∉ a) : splitOnChar c (a ++ c :: r) = a :: splitOnChar c r := by
  induction a with
  | nil => simp [splitOnChar]
  | cons x a ih =>
    simp only [List.mem_cons, not_or] at h
    have : x ≠ c := fun e => h.1 e.symm
    simp [splitOnChar, this, ih h.2]

theorem splitOnChar_single (c : Char) (a : Text) (h : c ∉ a) : splitOnChar c a = [a] := by
  induction a with
  | nil => rfl
  | cons x a ih =>
    simp only [List.mem_cons, not_or] at h
    have : x ≠ c := fun e => h.1 e.symm
    simp [splitOnChar, this, ih h.2]

theorem splitKey_dotted (p : List String) (h : PlainPath p) : splitKey (dotted p) = p := by
  obtain ⟨hne, hp⟩ := h
  induction p with
  | nil => exact absurd rfl hne
  | cons k r ih =>
    cases r with
    | nil =>
      have := hp k (by simp)
      simp [splitKey, dotted, splitOnChar_single _ _ this]
    | cons l r =>
      have hk := hp k (by simp)
      have := ih (by simp) (fun k hk => hp k (by simp [hk]))
      simp only [splitKey] at this ⊢
      rw [show (dotted (k :: l :: r)).toList = k.toList ++ '.' :: (dotted (l :: r)).toList by simp [dotted]]
      rw [splitOnChar_append _ _ _ hk]
      simp [this]

theorem entries_get (v : Value) (d : List (String × Value)) (h : entries v = some d) (k : String) :
    hasmember v k = .ok (Dict.has d k) ∧
    (∀ w, Dict.get? d k = some w → ∀ m, getmemberInner v k m = .ok w) := by
  cases v <;> simp [entries] at h <;> subst h <;> refine ⟨rfl, fun w hw m => ?_⟩ <;> simp [getmemberInner, hw]

theorem lookup_single (v : Value) (k : String) : lookup v [k] = (entries v).bind (fun d => Dict.get? d k) := by
  simp only [lookup]
  cases entries v with
  | none => rfl
  | some d =>
    simp only [Option.bind_some, Dict.get?_eq_find?]
    cases d.find? (fun e => e.1 = k) <;> rfl

theorem lookup_cons (v : Value) (k : String) (ks : List String) : lookup v (k :: ks) = (lookup v [k]).bind (fun w => lookup w ks) := by
  simp only [lookup]
  cases entries v with
  | none => rfl
  | some d =>
    simp only
    cases d.find? (fun e => e.1 = k) <;> rfl

/-- `getmember` succeeds exactly with the value that `lookup` finds. -/
theorem getPath_ok_iff (v : Value) (p : List String) (w : Value) : getPath v p none = .ok w ↔ lookup v p = some w := by
  induction p generalizing v with
  | nil => simp [getPath, lookup]
  | cons k ks ih =>
    rw [lookup_cons, lookup_single]
    simp only [getPath]
    cases v <;> simp [getmemberInner, entries]
    all_goals
      rename_i d
      cases hd : Dict.get? d k <;> simp [ih]

theorem getPath_default (v : Value) (p : List String) (d w : Value) (h : lookup v p = some w) : getPath v p (some d) = .ok w := by
  induction p generalizing v with
  | nil => simpa [getPath, lookup] using h
  | cons k ks ih =>
    rw [lookup_cons, lookup_single] at h
    simp only [getPath]
    cases v <;> simp [entries] at h
    all_goals
      rename_i e
      cases hd : Dict.get? e k with
      | none => simp [hd] at h
      | some x => simp [getmemberInner, hd, ih x (by simpa [hd] using h)]

theorem getPath_missing (v : Value) (p : List String) (d : Value) (hne : p ≠ []) (hr : reaches v p) (h : lookup v p = none) :
    getPath v p (some d) = .ok d := by
  induction p generalizing v with
  | nil => exact absurd rfl hne
  | cons k ks ih =>
    cases ks with
    | nil =>
      rw [lookup_single] at h
      cases v <;> simp [reaches, entries] at hr h
      all_goals simp [getPath, getmemberInner, h]
    | cons l r =>
      obtain ⟨x, hx, hr⟩ := hr
      have h' : lookup x (l :: r) = none := by
        rw [lookup_cons, hx] at h
        simpa using h
      have := ih x (by simp) hr h'
      rw [lookup_single] at hx
      rw [getPath]
      cases v <;> simp [entries] at hx
      all_goals simp [getmemberInner, hx, this]

theorem walkDown_reaches (item : Value) (p : List String) (h : reaches item p) (hne : p ≠ []) :
    ∃ it, walkDown item p.dropLast = .ok it ∧ (entries it).isSome ∧ lookup item p = lookup it [p.getLastD ""] := by
  induction p generalizing item with
  | nil => exact absurd rfl hne
  | cons k r ih =>
    cases r with
    | nil => exact ⟨item, rfl, h, rfl⟩
    | cons l r =>
      obtain ⟨v, hv, hr⟩ := h
      obtain ⟨it, h1, h2, h3⟩ := ih v hr (by simp)
      refine ⟨it, ?_, h2, ?_⟩
      · simp only [List.dropLast_cons_cons, walkDown]
        rw [lookup_single] at hv
        cases he : entries item with
        | none => rw [he] at hv; simp at hv
        | some d =>
          rw [he] at hv
          simp only [Option.bind_some] at hv
          obtain ⟨g1, g2⟩ := entries_get item d he k
          simp only [g1, Dict.has, hv, Option.isSome_some, g2 v hv]
          exact h1
      · rw [lookup_cons, hv]
        simpa [List.getLastD_cons] using h3

theorem condHolds_eq_meets (item : Value) (p : List String) (value : Value) (hp : PlainPath p) (h : reaches item p) :
    condHolds item (dotted p) value = .ok (meets item (p, value)) := by
  obtain ⟨it, h1, h2, h3⟩ := walkDown_reaches item p h hp.1
  simp only [condHolds, splitKey_dotted p hp, h1]
  obtain ⟨d, hd⟩ := Option.isSome_iff_exists.mp h2
  obtain ⟨g1, g2⟩ := entries_get it d hd (p.getLastD "")
  rw [lookup_single, hd] at h3
  simp only [Option.bind_some] at h3
  simp only [g1, Dict.has, meets, h3]
  cases hg : Dict.get? d (p.getLastD "") with
  | none => simp
  | some v =>
    simp only [Option.isSome_some, g2 v hg]
    cases value <;> simp <;> rfl

theorem condsHold_eq (item : Value) (conds : List (List String × Value))
    (h : ∀ c ∈ conds, PlainPath c.1 ∧ reaches item c.1) :
    condsHold item (conds.map (fun c => (dotted c.1, c.2))) = .ok (conds.all (meets item)) := by
  induction conds with
  | nil => rfl
  | cons c cs ih =>
    have hc := h c (by simp)
    simp only [List.map_cons, condsHold, condHolds_eq_meets item c.1 c.2 hc.1 hc.2, List.all_cons]
    have := ih (fun c hc => h c (by simp [hc]))
    cases hm : meets item (c.1, c.2) <;> simp [this]

theorem findByList_eq (items : List Value) (conds : List (List String × Value))
    (h : ∀ i ∈ items, ∀ c ∈ conds, PlainPath c.1 ∧ reaches i c.1) :
    findByList items (conds.map (fun c => (dotted c.1, c.2))) = .ok (items.find? (fun i => conds.all (meets i))) := by
  induction items with
  | nil => rfl
  | cons i is ih =>
    simp only [findByList, condsHold_eq i conds (h i (by simp)), List.find?_cons]
    cases hc : conds.all (meets i) with
    | true => rfl
    | false => exact ih (fun i hi => h i (by simp [hi]))

theorem removeFirst_eq (pre post : List Value) (x : Value) (h : x ∉ pre) : removeFirst (pre ++ x :: post) x = pre ++ post := by
  induction pre with
  | nil => simp [removeFirst]
  | cons a pre ih =>
    simp only [List.mem_cons, not_or] at h
    have : a ≠ x := fun e => h.1 e.symm
    simp [removeFirst, this, ih h.2]

/-- The first item that a search returns: the ones before it do not hold. -/
theorem findByList_some (l : List Value) (conds : List (String × Value)) (item : Value)
    (h : findByList l conds = .ok (some item)) :
    ∃ pre post, l = pre ++ item :: post ∧ condsHold item conds = .ok true ∧ ∀ x ∈ pre, condsHold x conds = .ok false := by
  induction l with
  | nil => simp [findByList] at h
  | cons i is ih =>
    simp only [findByList] at h
    split at h
    · simp at h
    · rename_i hc; simp at h; subst h; exact ⟨[], is, rfl, hc, by simp⟩
    · rename_i hc
      obtain ⟨pre, post, e, h1, h2⟩ := ih h
      refine ⟨i :: pre, post, by simp [e], h1, ?_⟩
      intro x hx
      simp only [List.mem_cons] at hx
      rcases hx with rfl | hx
      · exact hc
      · exact h2 x hx

/-! ### setting members -/

theorem setInner_get_self (obj : Value) (k : String) (v obj' : Value) (h : setInner obj k v = .ok obj') :
    lookup obj' [k] = some v := by
  rw [lookup_single]
  cases obj <;> simp [setInner] at h <;> subst h <;> simp [entries, Dict.get?_set_self]

theorem setInner_get_other (obj : Value) (k k' : String) (v obj' : Value) (hne : k' ≠ k) (h : setInner obj k v = .ok obj') :
    lookup obj' [k'] = lookup obj [k'] := by
  rw [lookup_single, lookup_single]
  cases obj <;> simp [setInner] at h <;> subst h <;> simp [entries, Dict.get?_set_other _ _ _ _ hne]

theorem setPath_get_self (obj : Value) (p : List String) (v obj' : Value) (h : setPath obj p v = .ok obj') :
    lookup obj' p = some v := by
  induction p generalizing obj obj' with
  | nil => simp [setPath] at h
  | cons k ks ih =>
    cases ks with
    | nil => exact setInner_get_self obj k v obj' h
    | cons l r =>
      simp only [setPath] at h
      cases hi : getmemberInner obj k none with
      | error e => rw [hi] at h; simp at h
      | ok inner =>
        cases hs : setPath inner (l :: r) v with
        | error e => rw [hi] at h; simp [hs] at h
        | ok inner' =>
          rw [hi] at h
          simp only [hs] at h
          rw [lookup_cons, setInner_get_self obj k inner' obj' h]
          exact ih inner inner' hs

theorem lookup_of_getmemberInner (obj : Value) (k : String) (v : Value) (h : getmemberInner obj k none = .ok v) :
    lookup obj [k] = some v := by
  have := (getPath_ok_iff obj [k] v).mp (by simp [getPath, h])
  exact this

theorem setPath_get_diverge (obj : Value) (p q : List String) (v obj' : Value) (hd : Diverge p q)
    (h : setPath obj p v = .ok obj') : lookup obj' q = lookup obj q := by
  obtain ⟨c, a, b, p', q', hab, rfl, rfl⟩ := hd
  induction c generalizing obj obj' with
  | nil =>
    simp only [List.nil_append] at h ⊢
    have hset : ∃ w, setInner obj a w = .ok obj' := by
      cases p' with
      | nil => exact ⟨v, h⟩
      | cons l r =>
        simp only [setPath] at h
        split at h
        · simp at h
        · split at h
          · simp at h
          · rename_i inner' _; exact ⟨inner', h⟩
    obtain ⟨w, hw⟩ := hset
    rw [lookup_cons, lookup_cons obj, setInner_get_other obj a b w obj' hab.symm hw]
  | cons x c ih =>
    simp only [List.cons_append] at h ⊢
    cases hc : c ++ a :: p' with
    | nil => simp at hc
    | cons l r =>
      rw [hc] at h
      simp only [setPath] at h
      cases hi : getmemberInner obj x none with
      | error e => rw [hi] at h; simp at h
      | ok inner =>
        cases hs : setPath inner (l :: r) v with
        | error e => rw [hi] at h; simp [hs] at h
        | ok inner' =>
          rw [hi] at h
          simp only [hs] at h
          rw [lookup_cons, lookup_cons obj, setInner_get_self obj x inner' obj' h, lookup_of_getmemberInner obj x inner hi]
          simp only [Option.bind_some]
          exact ih inner inner' (by rw [hc]; exact hs)

theorem setInner_same (obj : Value) (k : String) (v : Value) (h : lookup obj [k] = some v) : setInner obj k v = .ok obj := by
  rw [lookup_single] at h
  cases obj <;> simp [entries] at h <;> simp [setInner, Dict.set_get?_self _ _ _ h]

theorem getmemberInner_of_lookup (obj : Value) (k : String) (v : Value) (h : lookup obj [k] = some v) :
    getmemberInner obj k none = .ok v := by
  have := (getPath_ok_iff obj [k] v).mpr h
  simp only [getPath] at this
  split at this
  · simp at this
  · rename_i w hw; simp at this; rw [← this]; exact hw

theorem setPath_same (obj : Value) (p : List String) (v : Value) (hne : p ≠ []) (h : lookup obj p = some v) :
    setPath obj p v = .ok obj := by
  induction p generalizing obj with
  | nil => exact absurd rfl hne
  | cons k ks ih =>
    cases ks with
    | nil => exact setInner_same obj k v h
    | cons l r =>
      rw [lookup_cons] at h
      cases hk : lookup obj [k] with
      | none => rw [hk] at h; simp at h
      | some w =>
        rw [hk] at h
        simp only [Option.bind_some] at h
        simp only [setPath, getmemberInner_of_lookup obj k w hk, ih w (by simp) h]
        exact setInner_same obj k w hk

/-- Setting succeeds when the parent exists and is a dict or dataclass. -/
theorem setPath_ok (obj : Value) (p : List String) (v : Value) (hne : p ≠ []) (h : reaches obj p) :
    ∃ obj', setPath obj p v = .ok obj' := by
  induction p generalizing obj with
  | nil => exact absurd rfl hne
  | cons k ks ih =>
    have si : ∀ o : Value, (entries o).isSome → ∀ w, ∃ o', setInner o k w = .ok o' := by
      intro o ho w
      cases o <;> simp [entries] at ho <;> exact ⟨_, rfl⟩
    cases ks with
    | nil => exact si obj h v
    | cons l r =>
      obtain ⟨w, hw, hr⟩ := h
      obtain ⟨w', hw'⟩ := ih w (by simp) hr
      simp only [setPath, getmemberInner_of_lookup obj k w hw, hw']
      refine si obj ?_ w'
      rw [lookup_single] at hw
      cases he : entries obj with
      | none => rw [he] at hw; simp at hw
      | some d => simp

/-! ### grouping -/

theorem addToGroup_keys (g : List (Value × List Value)) (k item : Value) :
    (addToGroup g k item).map Prod.fst = if k ∈ g.map Prod.fst then g.map Prod.fst else g.map Prod.fst ++ [k] := by
  induction g with
  | nil => simp [addToGroup]
  | cons e g ih =>
    obtain ⟨k', items⟩ := e
    simp only [addToGroup]
    split
    · rename_i h; simp [h]
    · rename_i h
      have h' : ¬ k = k' := fun e => h e.symm
      simp only [List.map_cons, ih, List.mem_cons, h', false_or]
      split <;> simp

theorem addToGroup_nodup (g : List (Value × List Value)) (k item : Value) (h : (g.map Prod.fst).Nodup) :
    ((addToGroup g k item).map Prod.fst).Nodup := by
  rw [addToGroup_keys]
  split
  · exact h
  · rename_i hk
    rw [List.nodup_append]
    refine ⟨h, by simp, ?_⟩
    intro a ha b hb
    simp only [List.mem_singleton] at hb
    subst hb
    rintro rfl; exact hk ha

/-- The items of the group with key `k`. -/
def groupItems (g : List (Value × List Value)) (k : Value) : List Value :=
  match g with
  | [] => []
  | (k', items) :: r => if k' = k then items else groupItems r k

theorem groupItems_add (g : List (Value × List Value)) (k item k' : Value) :
    groupItems (addToGroup g k item) k' = groupItems g k' ++ (if k' = k then [item] else []) := by
  induction g with
  | nil =>
    by_cases h : k = k'
    · subst h; simp [addToGroup, groupItems]
    · have h' : ¬ k' = k := fun e => h e.symm
      simp [addToGroup, groupItems, h, h']
  | cons e g ih =>
    obtain ⟨k'', items⟩ := e
    simp only [addToGroup]
    by_cases h1 : k'' = k
    · subst h1
      by_cases h2 : k'' = k'
      · subst h2; simp [groupItems]
      · have h' : ¬ k' = k'' := fun e => h2 e.symm
        simp [groupItems, h2, h']
    · by_cases h2 : k'' = k'
      · subst h2; simp [groupItems, h1]
      · simp [groupItems, h1, h2, ih]

theorem groupItems_of_mem (g : List (Value × List Value)) (hn : (g.map Prod.fst).Nodup) (k : Value) (items : List Value)
    (h : (k, items) ∈ g) : groupItems g k = items := by
  induction g with
  | nil => simp at h
  | cons e g ih =>
    obtain ⟨k', items'⟩ := e
    simp only [List.map_cons, List.nodup_cons] at hn
    simp only [List.mem_cons, Prod.mk.injEq] at h
    rcases h with ⟨rfl, rfl⟩ | h
    · simp [groupItems]
    · have : k' ≠ k := by
        rintro rfl; exact hn.1 (List.mem_map.mpr ⟨(k', items), h, rfl⟩)
      simp [groupItems, this, ih hn.2 h]

end Openleadr
