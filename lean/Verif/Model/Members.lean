import Verif.Py.Value
/-!
Member access and searching in dicts and dataclasses (openleadr/utils.py).
Values are trees: sharing of mutable objects is not modelled here. Equality of values is structural (Python's `1 == 1.0 == True`
and the order-insensitive equality of dicts are not modelled).
-/
namespace Openleadr

/-- `text.split(".")` -/
def splitOnChar (c : Char) (s : Text) : List Text :=
  match s with
  | [] => [[]]
  | a :: r =>
    if a = c then [] :: splitOnChar c r
    else match splitOnChar c r with
      | [] => [[a]]
      | l :: ls => (a :: l) :: ls

/-- The levels of a dotted key. -/
def splitKey (key : String) : List String := (splitOnChar '.' key.toList).map String.ofList

/-- Substring test `a in b` on texts. -/
def isInfix (a b : Text) : Bool :=
  match b with
  | [] => a.isEmpty
  | c :: r => a.isPrefixOf (c :: r) || isInfix a r

/-- openleadr/utils.py:640-650 `hasmember`. `member in obj` on a value that is not a container raises `TypeError`. -/
def hasmember (obj : Value) (member : String) : Res Bool :=
  match obj with
  | .obj _ fields => .ok (Dict.has fields member)          -- 644-646
  | .dict d => .ok (Dict.has d member)                     -- 648
  | .list l => .ok (l.contains (.str member))
  | .tuple l => .ok (l.contains (.str member))
  | .str s => .ok (isInfix member.toList s.toList)
  | _ => .error .typeError

/-- openleadr/utils.py:657-667 `getmember_inner`; `missing = none` stands for the default `'_RAISE_'`. -/
def getmemberInner (obj : Value) (member : String) (missing : Option Value) : Res Value :=
  match obj with
  | .obj _ fields =>
    match Dict.get? fields member, missing with
    | some v, _ => .ok v                                   -- 662
    | none, some m => .ok m                                -- 659-660
    | none, none => .error .attributeError                 -- 662
  | .dict d =>
    match Dict.get? d member, missing with
    | some v, _ => .ok v                                   -- 665, 667
    | none, some m => .ok m                                -- 667
    | none, none => .error .keyError                       -- 665
  | _ =>
    match missing with
    | none => .error .typeError                            -- obj[member] on a list, text, number, None, …
    | some _ => .error .attributeError                     -- no method `get`

/-- The loop of openleadr/utils.py:669-671 over the levels of the key. -/
def getPath (obj : Value) (path : List String) (missing : Option Value) : Res Value :=
  match path with
  | [] => .ok obj
  | m :: ms =>
    match getmemberInner obj m missing with
    | .error e => .error e
    | .ok v => getPath v ms missing

/-- openleadr/utils.py:653-671 `getmember`. -/
def getmember (obj : Value) (member : String) (missing : Option Value := none) : Res Value :=
  getPath obj (splitKey member) missing

/-- openleadr/utils.py:683-686: set one member; a value that is neither a dataclass nor a dict refuses text keys with `TypeError`. -/
def setInner (obj : Value) (member : String) (value : Value) : Res Value :=
  match obj with
  | .obj c fields => .ok (.obj c (Dict.set fields member value))
  | .dict d => .ok (.dict (Dict.set d member value))
  | _ => .error .typeError

/-- Python changes the innermost object in place (openleadr/utils.py:678-681); on trees this replaces the path from the root. -/
def setPath (obj : Value) (path : List String) (value : Value) : Res Value :=
  match path with
  | [] => .error .typeError
  | [m] => setInner obj m value
  | m :: ms =>
    match getmemberInner obj m none with
    | .error e => .error e
    | .ok inner =>
      match setPath inner ms value with
      | .error e => .error e
      | .ok inner' => setInner obj m inner'

/-- openleadr/utils.py:674-686 `setmember`; returns the object after the change. -/
def setmember (obj : Value) (member : String) (value : Value) : Res Value :=
  setPath obj (splitKey member) value

/-- openleadr/utils.py:455-458: walk down the intermediate levels, stopping silently at the first missing one. -/
def walkDown (item : Value) (levels : List String) : Res Value :=
  match levels with
  | [] => .ok item
  | k :: ks =>
    match hasmember item k with
    | .error e => .error e
    | .ok false => .ok item                                -- break of the inner loop only
    | .ok true =>
      match getmemberInner item k none with
      | .error e => .error e
      | .ok v => walkDown v ks

/-- openleadr/utils.py:459-465: does the item meet one condition? -/
def condHolds (item : Value) (key : String) (value : Value) : Res Bool :=
  match walkDown item ((splitKey key).dropLast) with
  | .error e => .error e
  | .ok it =>
    let k := (splitKey key).getLastD ""
    match hasmember it k with
    | .error e => .error e
    | .ok false => .ok false
    | .ok true =>
      match getmemberInner it k none with
      | .error e => .error e
      | .ok v =>
        match value with
        | .tuple vs => .ok (vs.contains v)                 -- 460-462
        | value => .ok (v == value)                        -- 463-465

/-- openleadr/utils.py:452-467: all conditions, in order, stopping at the first that fails. -/
def condsHold (item : Value) (conds : List (String × Value)) : Res Bool :=
  match conds with
  | [] => .ok true
  | (k, v) :: cs =>
    match condHolds item k v with
    | .error e => .error e
    | .ok false => .ok false
    | .ok true => condsHold item cs

/-- openleadr/utils.py:451-469: the loop of `find_by` over the items. -/
def findByList (items : List Value) (conds : List (String × Value)) : Res (Option Value) :=
  match items with
  | [] => .ok none
  | i :: is =>
    match condsHold i conds with
    | .error e => .error e
    | .ok true => .ok (some i)
    | .ok false => findByList is conds

/-- openleadr/utils.py:441-469 `find_by`; the extra arguments are given as further pairs. -/
def findBy (coll : Value) (conds : List (String × Value)) : Res (Option Value) :=
  match coll with
  | .dict d => findByList (d.map Prod.snd) conds           -- 449-450
  | .list l => findByList l conds
  | .tuple l => findByList l conds
  | _ => .error .typeError

/-- `list_.pop(list_.index(item))` -/
def removeFirst (l : List Value) (item : Value) : List Value :=
  match l with
  | [] => []
  | x :: xs => if x = item then xs else x :: removeFirst xs item

/-- openleadr/utils.py:488-496 `pop_by`: the item and the list afterwards.
    (`if item:` is true for every dict or dataclass that was found, since it has at least one member.) -/
def popBy (l : List Value) (conds : List (String × Value)) : Res (Option Value × List Value) :=
  match findByList l conds with
  | .error e => .error e
  | .ok none => .ok (none, l)
  | .ok (some item) => .ok (some item, removeFirst l item)

mutual
/-- Values that Python can hash (dict keys). Lists, dicts and (non-frozen) dataclass instances cannot. -/
def hashable : Value → Bool
  | .list _ => false
  | .dict _ => false
  | .obj _ _ => false
  | .tuple l => hashableAll l
  | _ => true
def hashableAll : List Value → Bool
  | [] => true
  | v :: vs => hashable v && hashableAll vs
end

/-- openleadr/utils.py:480-481: `value = value.get(key)` along the key path; only dicts have `get`. -/
def getChain (v : Value) (path : List String) : Res Value :=
  match path with
  | [] => .ok v
  | k :: ks =>
    match v with
    | .dict d => getChain ((Dict.get? d k).getD .none) ks
    | _ => .error .attributeError

/-- openleadr/utils.py:482-484: add the item to the group of its key. -/
def addToGroup (g : List (Value × List Value)) (k : Value) (item : Value) : List (Value × List Value) :=
  match g with
  | [] => [(k, [item])]
  | (k', items) :: r => if k' = k then (k', items ++ [item]) :: r else (k', items) :: addToGroup r k item

/-- openleadr/utils.py:478-485: the loop of `group_by`. -/
def groupByLoop (g : List (Value × List Value)) (l : List Value) (path : List String) : Res (List (Value × List Value)) :=
  match l with
  | [] => .ok g
  | item :: is =>
    match getChain item path with
    | .error e => .error e
    | .ok k => if hashable k then groupByLoop (addToGroup g k item) is path else .error .typeError

/-- openleadr/utils.py:472-485 `group_by`. -/
def groupBy (l : List Value) (key : String) : Res (List (Value × List Value)) := groupByLoop [] l (splitKey key)

/-! ### Targets -/

/-- A target as a dict from target type to value; targets by type as a dict from target type to the list of values. -/
abbrev Targets := List Dict
abbrev TargetsByType := List (String × List Value)

/-- openleadr/utils.py:540-542 -/
def addTarget (g : TargetsByType) (key : String) (value : Value) : TargetsByType :=
  match Dict.get? g key with
  | none => Dict.set g key [value]
  | some l => Dict.set g key (l ++ [value])

/-- openleadr/utils.py:537-542: the entries of one target; `None` values are skipped. -/
def groupTarget (g : TargetsByType) (target : Dict) : TargetsByType :=
  match target with
  | [] => g
  | (k, v) :: r => if v = .none then groupTarget g r else groupTarget (addTarget g k v) r

/-- openleadr/utils.py:534-543 `group_targets_by_type`. -/
def groupTargetsByType (l : Targets) : TargetsByType := l.foldl groupTarget []

/-- openleadr/utils.py:546-554 `ungroup_targets_by_type`; a text instead of a list is one target, other values are ignored. -/
def ungroupTargetsByType (g : Dict) : Targets :=
  match g with
  | [] => []
  | (t, v) :: r =>
    (match v with
      | .list l => l.map (fun x => [(t, x)])
      | .str s => [[(t, .str s)]]
      | _ => []) ++ ungroupTargetsByType r

/-- A grouping as a dict value. -/
def TargetsByType.toDict (g : TargetsByType) : Dict := g.map (fun (k, l) => (k, .list l))

end Openleadr
