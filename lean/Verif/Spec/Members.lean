import Verif.Py.Value
/-! Specifications for member access, searching and grouping. -/
namespace Openleadr.Spec
open Openleadr

/-- A key path without dots in its levels. -/
def PlainPath (p : List String) : Prop := p ≠ [] ∧ ∀ k ∈ p, '.' ∉ k.toList

/-- `a.b.c` -/
def dotted : List String → String
  | [] => ""
  | [k] => k
  | k :: l :: r => k ++ "." ++ dotted (l :: r)

/-- The entries of a dict or the attributes of a dataclass. -/
def entries : Value → Option (List (String × Value))
  | .dict d => some d
  | .obj _ d => some d
  | _ => none

/-- The value at the end of a path, if every level exists. -/
def lookup (v : Value) : List String → Option Value
  | [] => some v
  | k :: ks =>
    match entries v with
    | none => none
    | some d => match d.find? (fun e => e.1 = k) with
      | none => none
      | some e => lookup e.2 ks

/-- The item meets the condition that the value at the path is `value` (or one of them, for a tuple). -/
def meets (item : Value) (c : List String × Value) : Bool :=
  match lookup item c.1 with
  | none => false
  | some v => match c.2 with
    | .tuple vs => decide (v ∈ vs)
    | w => decide (v = w)

/-- All levels of the path but the last exist and are dicts or dataclasses. -/
def reaches (item : Value) : List String → Prop
  | [] => True
  | [_] => (entries item).isSome
  | k :: l :: r => ∃ v, lookup item [k] = some v ∧ reaches v (l :: r)

/-- Two paths that part at some level. -/
def Diverge (p q : List String) : Prop :=
  ∃ (c : List String) (a b : String) (p' q' : List String), a ≠ b ∧ p = c ++ a :: p' ∧ q = c ++ b :: q'

end Openleadr.Spec

namespace Openleadr.Spec
open Openleadr

/-- The values of one target type in a list of targets, in order, without the `None`s. -/
def valuesOfType (targets : List (List (String × Value))) (type : String) : List Value :=
  targets.flatMap (fun t => (t.filter (fun e => decide (e.1 = type) && decide (e.2 ≠ .none))).map Prod.snd)

/-- The value that `item.get(k₁).get(k₂)…` gives: `None` for a missing last level. -/
def chainValue (item : Value) : List String → Option Value
  | [] => some item
  | k :: ks =>
    match item with
    | .dict d => chainValue (((d.find? (fun e => e.1 = k)).map Prod.snd).getD .none) ks
    | _ => none

/-- Python cannot hash it: it is, or contains, a list, a dict or a dataclass. -/
inductive Unhashable : Value → Prop
  | list (l : List Value) : Unhashable (.list l)
  | dict (d : List (String × Value)) : Unhashable (.dict d)
  | obj (c : String) (d : List (String × Value)) : Unhashable (.obj c d)
  | tuple (l : List Value) (v : Value) : v ∈ l → Unhashable v → Unhashable (.tuple l)

end Openleadr.Spec
