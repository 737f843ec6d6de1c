import Verif.Py.Basic
/-!
A universal type of Python values, for the helpers that work on arbitrary dicts and dataclasses.
-/
namespace Openleadr

/-- Python values as far as the library handles them.
    * `float` carries Python's shortest `repr` of the number (floats are not computed with);
    * `datetime` and `timedelta` are microseconds (UTC instants / durations);
    * `dict` is the insertion-ordered list of its entries, `obj` a dataclass instance with its attributes;
    * `func` is an opaque callable. -/
inductive Value
  | none
  | bool (b : Bool)
  | int (i : Int)
  | float (repr : String)
  | str (s : String)
  | bytes (b : List UInt8)
  | datetime (us : Int)
  | timedelta (us : Int)
  | func (tag : Nat)
  | list (l : List Value)
  | tuple (l : List Value)
  | dict (d : List (String × Value))
  | obj (cls : String) (d : List (String × Value))
  deriving Repr, Inhabited

namespace Value

mutual
/-- Equality of values is decidable. -/
def decEq : (a b : Value) → Decidable (a = b)
  | .none, b => match b with
    | .none => isTrue rfl
    | .bool _ | .int _ | .float _ | .str _ | .bytes _ | .datetime _ | .timedelta _ | .func _
    | .list _ | .tuple _ | .dict _ | .obj _ _ => isFalse (fun h => Value.noConfusion h)
  | .bool a, b => match b with
    | .bool b => if h : a = b then isTrue (by rw [h]) else isFalse (fun e => Value.noConfusion e h)
    | .none | .int _ | .float _ | .str _ | .bytes _ | .datetime _ | .timedelta _ | .func _
    | .list _ | .tuple _ | .dict _ | .obj _ _ => isFalse (fun h => Value.noConfusion h)
  | .int a, b => match b with
    | .int b => if h : a = b then isTrue (by rw [h]) else isFalse (fun e => Value.noConfusion e h)
    | .none | .bool _ | .float _ | .str _ | .bytes _ | .datetime _ | .timedelta _ | .func _
    | .list _ | .tuple _ | .dict _ | .obj _ _ => isFalse (fun h => Value.noConfusion h)
  | .float a, b => match b with
    | .float b => if h : a = b then isTrue (by rw [h]) else isFalse (fun e => Value.noConfusion e h)
    | .none | .bool _ | .int _ | .str _ | .bytes _ | .datetime _ | .timedelta _ | .func _
    | .list _ | .tuple _ | .dict _ | .obj _ _ => isFalse (fun h => Value.noConfusion h)
  | .str a, b => match b with
    | .str b => if h : a = b then isTrue (by rw [h]) else isFalse (fun e => Value.noConfusion e h)
    | .none | .bool _ | .int _ | .float _ | .bytes _ | .datetime _ | .timedelta _ | .func _
    | .list _ | .tuple _ | .dict _ | .obj _ _ => isFalse (fun h => Value.noConfusion h)
  | .bytes a, b => match b with
    | .bytes b => if h : a = b then isTrue (by rw [h]) else isFalse (fun e => Value.noConfusion e h)
    | .none | .bool _ | .int _ | .float _ | .str _ | .datetime _ | .timedelta _ | .func _
    | .list _ | .tuple _ | .dict _ | .obj _ _ => isFalse (fun h => Value.noConfusion h)
  | .datetime a, b => match b with
    | .datetime b => if h : a = b then isTrue (by rw [h]) else isFalse (fun e => Value.noConfusion e h)
    | .none | .bool _ | .int _ | .float _ | .str _ | .bytes _ | .timedelta _ | .func _
    | .list _ | .tuple _ | .dict _ | .obj _ _ => isFalse (fun h => Value.noConfusion h)
  | .timedelta a, b => match b with
    | .timedelta b => if h : a = b then isTrue (by rw [h]) else isFalse (fun e => Value.noConfusion e h)
    | .none | .bool _ | .int _ | .float _ | .str _ | .bytes _ | .datetime _ | .func _
    | .list _ | .tuple _ | .dict _ | .obj _ _ => isFalse (fun h => Value.noConfusion h)
  | .func a, b => match b with
    | .func b => if h : a = b then isTrue (by rw [h]) else isFalse (fun e => Value.noConfusion e h)
    | .none | .bool _ | .int _ | .float _ | .str _ | .bytes _ | .datetime _ | .timedelta _
    | .list _ | .tuple _ | .dict _ | .obj _ _ => isFalse (fun h => Value.noConfusion h)
  | .list a, b => match b with
    | .list b => match decEqList a b with
      | isTrue h => isTrue (by rw [h])
      | isFalse h => isFalse (fun e => Value.noConfusion e h)
    | .none | .bool _ | .int _ | .float _ | .str _ | .bytes _ | .datetime _ | .timedelta _ | .func _
    | .tuple _ | .dict _ | .obj _ _ => isFalse (fun h => Value.noConfusion h)
  | .tuple a, b => match b with
    | .tuple b => match decEqList a b with
      | isTrue h => isTrue (by rw [h])
      | isFalse h => isFalse (fun e => Value.noConfusion e h)
    | .none | .bool _ | .int _ | .float _ | .str _ | .bytes _ | .datetime _ | .timedelta _ | .func _
    | .list _ | .dict _ | .obj _ _ => isFalse (fun h => Value.noConfusion h)
  | .dict a, b => match b with
    | .dict b => match decEqDict a b with
      | isTrue h => isTrue (by rw [h])
      | isFalse h => isFalse (fun e => Value.noConfusion e h)
    | .none | .bool _ | .int _ | .float _ | .str _ | .bytes _ | .datetime _ | .timedelta _ | .func _
    | .list _ | .tuple _ | .obj _ _ => isFalse (fun h => Value.noConfusion h)
  | .obj c a, b => match b with
    | .obj c' b => match decEqDict a b with
      | isTrue h => if hc : c = c' then isTrue (by rw [h, hc])
                    else isFalse (fun e => Value.noConfusion e (fun e _ => hc e))
      | isFalse h => isFalse (fun e => Value.noConfusion e (fun _ e => h e))
    | .none | .bool _ | .int _ | .float _ | .str _ | .bytes _ | .datetime _ | .timedelta _ | .func _
    | .list _ | .tuple _ | .dict _ => isFalse (fun h => Value.noConfusion h)
/-- Equality of lists of values is decidable. -/
def decEqList : (a b : List Value) → Decidable (a = b)
  | [], [] => isTrue rfl
  | [], _ :: _ => isFalse (fun h => List.noConfusion rfl (heq_of_eq h))
  | _ :: _, [] => isFalse (fun h => List.noConfusion rfl (heq_of_eq h))
  | x :: xs, y :: ys => match decEq x y, decEqList xs ys with
    | isTrue h, isTrue h' => isTrue (by rw [h, h'])
    | isFalse h, _ => isFalse (fun e => h (List.cons.inj e).1)
    | _, isFalse h => isFalse (fun e => h (List.cons.inj e).2)
/-- Equality of lists of entries is decidable. -/
def decEqDict : (a b : List (String × Value)) → Decidable (a = b)
  | [], [] => isTrue rfl
  | [], _ :: _ => isFalse (fun h => List.noConfusion rfl (heq_of_eq h))
  | _ :: _, [] => isFalse (fun h => List.noConfusion rfl (heq_of_eq h))
  | (k, x) :: xs, (k', y) :: ys => match decEq x y, decEqDict xs ys with
    | isTrue h, isTrue h' => if hk : k = k' then isTrue (by rw [h, h', hk])
        else isFalse (fun e => hk (Prod.mk.inj (List.cons.inj e).1).1)
    | isFalse h, _ => isFalse (fun e => h (Prod.mk.inj (List.cons.inj e).1).2)
    | _, isFalse h => isFalse (fun e => h (List.cons.inj e).2)
end

instance : DecidableEq Value := decEq

end Value

/-! ### Ordered dicts as lists of entries -/

/-- A Python dict with text keys, in insertion order. -/
abbrev Dict := List (String × Value)

namespace Dict

/-- `d.get(k)`: the value of the first entry with key `k`. -/
def get? (d : List (String × α)) (k : String) : Option α :=
  match d with
  | [] => Option.none
  | (k', v) :: r => if k' = k then some v else get? r k

/-- `k in d` -/
def has (d : List (String × α)) (k : String) : Bool := (get? d k).isSome

/-- `d[k] = v`: replaces the value in place or appends a new entry, as Python's ordered dicts do. -/
def set (d : List (String × α)) (k : String) (v : α) : List (String × α) :=
  match d with
  | [] => [(k, v)]
  | (k', v') :: r => if k' = k then (k', v) :: r else (k', v') :: set r k v

/-- `d.pop(k)` without the result: removes the (first) entry with key `k`. -/
def erase (d : List (String × α)) (k : String) : List (String × α) :=
  match d with
  | [] => []
  | (k', v') :: r => if k' = k then r else (k', v') :: erase r k

/-- The keys in insertion order. -/
def keys (d : List (String × α)) : List String := d.map Prod.fst

end Dict

end Openleadr
