import Verif.Spec.Changes
import Verif.Lemmas.Parts
/-!
Consequences of `Alike`.
-/
namespace Openleadr

variable {lib : Lib} {now : Int}

theorem Alike.entries {a b : Dict} (h : Alike lib (.dict a) (.dict b)) (k : String) : Alike lib (entryOf a k) (entryOf b k) := by
  generalize ha : Value.dict a = x at h
  generalize hb : Value.dict b = y at h
  cases h with
  | same => subst ha; cases hb; exact .same _
  | nothing v w h1 h2 =>
    subst ha hb
    simp only [Nothing, Value.dict.injEq, reduceCtorEq, false_or] at h1 h2
    subst h1 h2; exact .same _
  | number v r h => cases ha
  | list => cases ha
  | dict d d' each => cases ha; cases hb; exact each k

theorem Alike.items {a b : List Value} (h : Alike lib (.list a) (.list b)) :
    a.length = b.length ∧ ∀ (i : Nat) x y, a[i]? = some x → b[i]? = some y → Alike lib x y := by
  generalize ha : Value.list a = x at h
  generalize hb : Value.list b = y at h
  cases h with
  | same =>
    subst ha; cases hb
    refine ⟨rfl, fun i x y h1 h2 => ?_⟩
    rw [h1] at h2; cases h2; exact .same _
  | nothing v w h1 h2 =>
    subst ha hb
    simp only [Nothing, Value.list.injEq, reduceCtorEq, false_or, or_false] at h1 h2
    subst h1 h2; exact ⟨rfl, by simp⟩
  | number v r h => cases ha
  | list l l' len each => cases ha; cases hb; exact ⟨len, each⟩
  | dict => cases ha

/-- A text is seen only where it was sent. -/
theorem Alike.text {s : String} {v : Value} (h : Alike lib (.str s) v) : v = .str s := by
  generalize hx : Value.str s = x at h
  cases h with
  | same => rfl
  | nothing v w h1 h2 => subst hx; simp [Nothing] at h1
  | number v r h => cases hx
  | list => cases hx
  | dict => cases hx

/-- A text that was sent is seen. -/
theorem Alike.ofText {s : String} {v : Value} (h : Alike lib v (.str s)) : v = .str s := by
  generalize hx : Value.str s = x at h
  cases h with
  | same => rfl
  | nothing v w h1 h2 => subst hx; simp [Nothing] at h2
  | number v r h => subst hx; cases h
  | list => cases hx
  | dict => cases hx

/-- Nothing is seen only where nothing was sent. -/
theorem Alike.ofNone {v : Value} (h : Alike lib v .none) : Nothing v := by
  generalize hx : Value.none = x at h
  cases h with
  | same => exact .inl hx.symm
  | nothing v w h1 h2 => exact h1
  | number v r h => subst hx; cases h
  | list => cases hx
  | dict => cases hx

theorem Alike.toNone {v : Value} (h : Alike lib .none v) : Nothing v := by
  generalize hx : Value.none = x at h
  cases h with
  | same => exact .inl hx.symm
  | nothing v w h1 h2 => exact h2
  | number v r h => cases hx
  | list => cases hx
  | dict => cases hx

/-- A list is not seen as a dict with something in it. -/
theorem Alike.dictList {a : Dict} {l : List Value} (h : Alike lib (.dict a) (.list l)) : a = [] ∧ l = [] := by
  generalize ha : Value.dict a = x at h
  generalize hb : Value.list l = y at h
  cases h with
  | same => subst ha; cases hb
  | nothing v w h1 h2 => subst ha hb; simpa [Nothing] using And.intro h1 h2
  | number v r h => cases ha
  | list => cases ha
  | dict => cases hb

theorem Alike.textList {s : String} {l : List Value} (h : Alike lib (.str s) (.list l)) : False := by
  have := h.text; cases this

/-- The only message that is received decides. -/
theorem kept_iff {type : String} {p got : Dict} (h : Received lib now type p got) : Kept lib now type p ↔ Alike lib (.dict got) (.dict p) := by
  constructor
  · rintro ⟨got', h', ha⟩
    rwa [received_unique h h']
  · exact fun ha => ⟨got, h, ha⟩

theorem kept_of_survives {type : String} {p : Dict} (h : Survives lib now type p) : Kept lib now type p := ⟨p, h p (.same _), .same _⟩

theorem entryOf_append (a b : Dict) (k : String) : entryOf (a ++ b) k = ((Dict.get? a k).or (Dict.get? b k)).getD .none := by
  simp [entryOf, Dict.get?_append]

theorem entryOf_cons_self (k : String) (v : Value) (d : Dict) : entryOf ((k, v) :: d) k = v := by simp [entryOf, Dict.get?]

/-- Dicts are alike if they are built of parts that are. -/
theorem alike_cons {k : String} {v w : Value} {a b : Dict} (h : Alike lib v w) (h' : Alike lib (.dict a) (.dict b)) :
    Alike lib (.dict ((k, v) :: a)) (.dict ((k, w) :: b)) := by
  refine .dict _ _ (fun x => ?_)
  by_cases e : k = x
  · subst e; simpa [entryOf, Dict.get?] using h
  · simpa [entryOf, Dict.get?, e] using h'.entries x

/-- The same for entries that may be left out. -/
theorem alike_opt {k : String} {v w : Option Value} {a b : Dict} (h : Alike lib (v.getD .none) (w.getD .none)) (h' : Alike lib (.dict a) (.dict b))
    (ha : Dict.get? a k = none := by simp [Dict.get?, Dict.get?_append, Dict.get?_entry?])
    (hb : Dict.get? b k = none := by simp [Dict.get?, Dict.get?_append, Dict.get?_entry?]) :
    Alike lib (.dict (entry? k v ++ a)) (.dict (entry? k w ++ b)) := by
  refine .dict _ _ (fun x => ?_)
  by_cases e : k = x
  · subst e; simpa [entryOf, Dict.get?_append, Dict.get?_entry?, ha, hb] using h
  · simpa [entryOf, Dict.get?_append, Dict.get?_entry?, e] using h'.entries x

/-- The same for an entry that is always received. -/
theorem alike_there {k : String} {v : Value} {w : Option Value} {a b : Dict} (h : Alike lib v (w.getD .none)) (h' : Alike lib (.dict a) (.dict b))
    (ha : Dict.get? a k = none := by simp [Dict.get?, Dict.get?_append, Dict.get?_entry?])
    (hb : Dict.get? b k = none := by simp [Dict.get?, Dict.get?_append, Dict.get?_entry?]) :
    Alike lib (.dict ((k, v) :: a)) (.dict (entry? k w ++ b)) := alike_opt (v := some v) h h' ha hb

/-- The same for an entry that is always sent. -/
theorem alike_sent {k : String} {v : Option Value} {w : Value} {a b : Dict} (h : Alike lib (v.getD .none) w) (h' : Alike lib (.dict a) (.dict b))
    (ha : Dict.get? a k = none := by simp [Dict.get?, Dict.get?_append, Dict.get?_entry?])
    (hb : Dict.get? b k = none := by simp [Dict.get?, Dict.get?_append, Dict.get?_entry?]) :
    Alike lib (.dict (entry? k v ++ a)) (.dict ((k, w) :: b)) := alike_opt (w := some w) h h' ha hb

/-- Lists of dicts that are alike one by one. -/
theorem alike_maps {α : Type} {f g : α → Dict} {l : List α} (h : ∀ x ∈ l, Alike lib (.dict (f x)) (.dict (g x))) :
    Alike lib (.list ((l.map f).map .dict)) (.list ((l.map g).map .dict)) := by
  refine .list _ _ (by simp) (fun i x y hx hy => ?_)
  simp only [List.map_map, List.getElem?_map, Option.map_eq_some_iff, Function.comp_apply] at hx hy
  obtain ⟨u, hu, rfl⟩ := hx
  obtain ⟨u', hu', rfl⟩ := hy
  rw [hu] at hu'; cases hu'
  exact h u (List.mem_of_getElem? hu)

theorem alike_dicts {a b : List Dict} (h : Alike lib (.list (a.map .dict)) (.list (b.map .dict))) :
    Alike lib ((dicts? a).getD .none) (.list (b.map .dict)) := by
  have hl := h.items.1
  by_cases e : a = []
  · subst e
    have : b = [] := List.eq_nil_of_length_eq_zero (by simpa using hl.symm)
    subst this
    exact .nothing _ _ (.inl rfl) (.inr (.inl rfl))
  · simpa [dicts?, e] using h

end Openleadr
