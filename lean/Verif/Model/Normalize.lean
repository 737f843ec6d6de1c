import Verif.Model.Template
import Verif.Model.Measurements
import Verif.Model.Members
/-!
openleadr/utils.py:53-266 `normalize_dict`: from the nested dicts of xmltodict to the payloads of the library.

Texts that reach it have no white space at their ends (xmltodict strips them), so `$` in its expressions is the end of the text. Names of
elements are lower-cased as ASCII.
-/
namespace Openleadr

/-- `re.sub(r'([a-z])([A-Z])', r'\1_\2', key)` -/
def camelToSnake (t : Text) : Text :=
  match t with
  | a :: b :: r => if a.isLower && b.isUpper then a :: '_' :: camelToSnake (b :: r) else a :: camelToSnake (b :: r)
  | t => t

/-- The prefix `oadr` or `ei` of a name is left out (openleadr/utils.py:64-67). -/
def dropPrefix (t : Text) : Text :=
  if "oadr".toList.isPrefixOf t then t.drop 4
  else if "ei".toList.isPrefixOf t then t.drop 2
  else t

/-- openleadr/utils.py:63-74 `normalize_key` -/
def normalizeKey (key : String) : String :=
  let t := dropPrefix key.toList
  if Dict.has measurementNamespaces (String.ofList t) then String.ofList t
  else String.ofList (((camelToSnake t).map (fun c => if c = '-' then '_' else c)).map Char.toLower)

/-- `re.match(r'^-?\d+$', value)` -/
def looksInt (lib : Lib) (t : Text) : Bool :=
  match t with
  | '-' :: r => r ≠ [] && r.all lib.isDigit
  | r => r ≠ [] && r.all lib.isDigit

/-- `re.match(r'^-?[\d.]+$', value)` -/
def looksFloat (lib : Lib) (t : Text) : Bool :=
  match t with
  | '-' :: r => r ≠ [] && r.all (fun c => lib.isDigit c || c = '.')
  | r => r ≠ [] && r.all (fun c => lib.isDigit c || c = '.')


/-- openleadr/utils.py:99-106: a text that is no date, duration or boolean. -/
def plainText (lib : Lib) (s : String) : Res Value :=
  if looksInt lib s.toList then
    match lib.readInt s with
    | some i => .ok (.int i)
    | none => .error .valueError
  else if looksFloat lib s.toList then
    match lib.readFloat s with
    | some r => .ok (.float r)
    | none => .error .valueError
  else .ok (.str s)

/-- `parse_datetime` on a text, as a value. -/
def parseDatetimeV (s : String) : Res Value :=
  match parseDatetime s.toList with
  | .ok (.dt d) => .ok (.datetime d.toMicros)
  | .ok (.unchanged _) => .ok (.str s)
  | .error e => .error e

/-- The keys whose values are durations (openleadr/utils.py:93). -/
def durationKeys : List String := ["duration", "startafter", "max_period", "min_period"]

/-- The keys whose values are dates (openleadr/utils.py:95). -/
def isDateKey (key : String) : Bool := isInfix "date_time".toList key.toList || key = "dtstart"

/-- openleadr/utils.py:93-108: values that are neither dict nor list. -/
def leafValue (lib : Lib) (key : String) (v : Value) : Res Value :=
  if durationKeys.contains key then parseDurationV v
  else match v with
    | .str s =>
      if isDateKey key then parseDatetimeV s
      else if s = "true" || s = "false" then .ok (.bool (s = "true"))
      else plainText lib s
    | v => .ok v

/-- `float(x)` -/
def toFloat (lib : Lib) (v : Value) : Res Value :=
  match v with
  | .float r => .ok (.float r)
  | .int i => match lib.readFloat (String.ofList (intText i)) with
    | some r => .ok (.float r)
    | none => .error .overflowError
  | .bool b => .ok (.float (if b then "1.0" else "0.0"))
  | .str s => match lib.readFloat s with
    | some r => .ok (.float r)
    | none => .error .valueError
  | _ => .error .typeError

/-- `int(x)` -/
def toInt (lib : Lib) (v : Value) : Res Value :=
  match v with
  | .int i => .ok (.int i)
  | .bool b => .ok (.int (if b then 1 else 0))
  | .float r => match lib.truncFloat r with
    | some i => .ok (.int i)
    | none => .error .valueError
  | .str s => match lib.readInt s with
    | some i => .ok (.int i)
    | none => .error .valueError
  | _ => .error .typeError

/-- `key in x` -/
def keyIn (key : String) (v : Value) : Res Bool :=
  match v with
  | .dict d => .ok (Dict.has d key)
  | .str s => .ok (isInfix key.toList s.toList)
  | .list l => .ok (l.contains (.str key))
  | .tuple l => .ok (l.contains (.str key))
  | _ => .error .typeError

/-- `x[key]` -/
def entryAt (v : Value) (key : String) : Res Value :=
  match v with
  | .dict d => match Dict.get? d key with
    | some x => .ok x
    | none => .error .keyError
  | _ => .error .typeError

/-- `x[key] = y` on a value. -/
def withEntry (v : Value) (key : String) (y : Value) : Res Value :=
  match v with
  | .dict d => .ok (.dict (Dict.set d key y))
  | _ => .error .typeError

/-- The value under `key`, which is there. -/
def currentOf (d : Dict) (key : String) : Value := (Dict.get? d key).getD .none

/-- The targets of one key: a list of values gives one target each (openleadr/utils.py:119-123). -/
def targetsOf (d : Dict) : List Dict :=
  d.flatMap (fun e => match e.2 with
    | .list l => l.map (fun v => [(e.1, v)])
    | v => [[(e.1, v)]])

/-- openleadr/utils.py:116-129: the new list of targets; only a dict can be run over by keys. -/
def newTargets (v : Value) : Res (List Dict) :=
  match v with
  | .dict t => .ok (targetsOf t)
  | v => if v.truthy then .error .typeError else .ok []

/-- openleadr/utils.py:111-130: names starting with `x_ei_`, and the grouping of targets. Gives the dict and the key to go on with. -/
def renameEntry (d : Dict) (key : String) : Dict × String :=
  if "x_ei_".toList.isPrefixOf key.toList then
    let short := String.ofList (key.toList.drop 5)
    (Dict.set (Dict.erase d key) short (currentOf d key), short)
  else (d, key)

/-- openleadr/utils.py:116-130 -/
def groupTargetEntry (d : Dict) (key : String) : Res (Dict × String) :=
  if key = "target" then
    match newTargets (currentOf d key) with
    | .ok l =>
      .ok (Dict.set (Dict.set (Dict.erase d key) "targets" (.list (l.map .dict))) "targets_by_type" (.dict (groupTargetsByType l).toDict), "targets")
    | .error e => .error e
  else .ok (d, key)

/-- `new_event = event['event']; new_event['response_required'] = event['response_required']` (openleadr/utils.py:160-162, 168-169). -/
def flatEvent (event : Value) : Res Value :=
  match entryAt event "event" with
  | .ok inner => match entryAt event "response_required" with
    | .ok r => withEntry inner "response_required" r
    | .error e => .error e
  | .error e => .error e

/-- `flatEvent` for all. -/
def flatEvents (l : List Value) : Res (List Value) :=
  match l with
  | [] => .ok []
  | v :: l => match flatEvent v with
    | .ok w => match flatEvents l with
      | .ok ws => .ok (w :: ws)
      | .error e => .error e
    | .error e => .error e

/-- openleadr/utils.py:150-152: the dicts of the pending reports. -/
def pendingOf (lib : Lib) (v : Value) : Value :=
  let ids := match v with
    | .list l => l
    | v => [v]
  .list (ids.map (fun r => .dict [("report_request_id", .str (pyText lib (some r)))]))

/-- `{'name': name, **item}` -/
def mergeName (name : String) (item : Dict) : Dict := item.foldl (fun d e => Dict.set d e.1 e.2) [("name", .str name)]

/-- `if old in item: item[new] = item.pop(old)` -/
def moveEntry (item : Dict) (old new : String) : Dict :=
  match Dict.get? item old with
  | some v => Dict.set (Dict.erase item old) new v
  | none => item

/-- `item[new] = item.pop(old, None)` -/
def takeEntry (item : Dict) (old new : String) : Dict := Dict.set (Dict.erase item old) new ((Dict.get? item old).getD .none)

/-- openleadr/utils.py:194-201: the measurement of a description under one name for all kinds. -/
def measurementItem (name : String) (item : Dict) : Dict :=
  mergeName name (moveEntry (moveEntry (takeEntry (takeEntry item "item_description" "description") "item_units" "unit")
    "si_scale_code" "scale") "pulse_factor" "pulse_factor")

/-- openleadr/utils.py:188-193: the first kind of measurement that is in the description. -/
def findMeasurement (names : List String) (d : Value) : Res (Option String) :=
  match names with
  | [] => .ok none
  | n :: names => match keyIn n d with
    | .ok true => .ok (some n)
    | .ok false => findMeasurement names d
    | .error e => .error e

/-- openleadr/utils.py:186-201 for one description; `none` if it has no measurement, which ends the loop. -/
def describe (d : Value) : Res (Option Value) :=
  match findMeasurement (measurementNamespaces.map (·.1)) d with
  | .ok none => .ok none
  | .ok (some name) =>
    match d with
    | .dict d => match Dict.get? d name with
      | some (.dict item) => .ok (some (.dict (Dict.set (Dict.erase d name) "measurement" (.dict (measurementItem name item)))))
      | some (.list _) => .error .typeError
      | _ => .error .attributeError
    | _ => .error .attributeError
  | .error e => .error e

/-- openleadr/utils.py:186-201: the descriptions up to the first one without a measurement. -/
def describeAll (l : List Value) : Res (List Value) :=
  match l with
  | [] => .ok []
  | d :: l => match describe d with
    | .ok (some d') => match describeAll l with
      | .ok l' => .ok (d' :: l')
      | .error e => .error e
    | .ok none => .ok (d :: l)
    | .error e => .error e

/-- `x if isinstance(x, list) else [x]` -/
def asListV (v : Value) : List Value :=
  match v with
  | .list l => l
  | v => [v]

/-- A value is a dict with exactly one entry, which has this key; that entry. -/
def onlyEntry (v : Value) (key : String) : Option Value :=
  match v with
  | .dict [(k, x)] => if k = key then some x else none
  | _ => none

/-- `key[:-1]` -/
def singular (key : String) : String := String.ofList key.toList.dropLast

/-- openleadr/utils.py:225-233: the value inside its type. -/
def payloadValue (lib : Lib) (p : Dict) : Res (Option Value) :=
  let float? : Res (Option Value) := match Dict.get? p "payload_float" with
    | some f => match keyIn "value" f with
      | .ok true => match entryAt f "value" with
        | .ok .none => .ok none
        | .ok v => (toFloat lib v).map some
        | .error e => .error e
      | .ok false => .ok none
      | .error e => .error e
    | none => .ok none
  match float? with
  | .error e => .error e
  | .ok (some v) => .ok (some v)
  | .ok none => match Dict.get? p "payload_int" with
    | some f => match keyIn "value" f with
      | .ok true => match entryAt f "value" with
        | .ok v => (toInt lib v).map some
        | .error e => .error e
      | .ok false => .ok none
      | .error e => .error e
    | none => .ok none

/-- openleadr/utils.py:236-242: in the case of `payload_int`, the entry `payload_float` is popped, which is not there. -/
def reportPayload (lib : Lib) (v : Value) : Res Value :=
  match keyIn "payload_float" v with
  | .error e => .error e
  | .ok hasFloat =>
    let float? : Res (Option Value) := if hasFloat then
        match entryAt v "payload_float" with
        | .ok f => match keyIn "value" f with
          | .ok true => match entryAt f "value" with
            | .ok x => (toFloat lib x).map some
            | .error e => .error e
          | .ok false => .ok none
          | .error e => .error e
        | .error e => .error e
      else .ok none
    match float?, v with
    | .error e, _ => .error e
    | .ok (some x), .dict p => .ok (.dict (Dict.set (Dict.erase p "payload_float") "value" x))
    | .ok (some _), _ => .error .attributeError
    | .ok none, v => match keyIn "payload_int" v with
      | .error e => .error e
      | .ok false => .ok v
      | .ok true => match entryAt v "payload_int" with
        | .error e => .error e
        | .ok f => match keyIn "value" f with
          | .error e => .error e
          | .ok false => .ok v
          | .ok true =>
            if hasFloat then
              match entryAt v "payload_float" with
              | .error e => .error e
              | .ok g => match entryAt g "value" with
                | .error e => .error e
                | .ok x => (toInt lib x).bind (fun y => match v with
                  | .dict p => .ok (.dict (Dict.set (Dict.erase p "payload_float") "value" y))
                  | _ => .error .attributeError)
            else .error .keyError

/-- openleadr/utils.py:205-265, the general rules: remove needless nesting. -/
def unnest (lib : Lib) (d : Dict) (key : String) (v : Value) : Res Dict :=
  match onlyEntry v "duration" with
  | some x => .ok (Dict.set d key x)                                     -- 210-212
  | none => match onlyEntry v key with
    | some x => .ok (Dict.set d key x)                                   -- 214-216
    | none => match onlyEntry v (singular key) with
      | some x => .ok (Dict.set d key (.list (asListV x)))               -- 218-223
      | none =>
        if key = "signal_payload" || key = "current_value" then           -- 225-233
          match v with
          | .dict p => match payloadValue lib p with
            | .ok (some x) => .ok (Dict.set d key x)
            | .ok none => .ok d
            | .error e => .error e
          | _ => .ok d
        else if key = "report_payload" then                               -- 235-242
          (reportPayload lib v).map (Dict.set d key)
        else if key = "test_event" && !(v matches .bool _) then .ok (Dict.set d key (.bool true))       -- 244-246
        else match onlyEntry v "text" with
          | some x => if key = "uid" then (toInt lib x).map (Dict.set d key) else .ok (Dict.set d key x)   -- 248-253
          | none => match onlyEntry v "date_time" with
            | some x => .ok (Dict.set d key x)                           -- 255-257
            | none => match v with
              | .dict p =>
                if Dict.has p "properties" && p.length ≤ 2 then .ok (Dict.set d key (currentOf p "properties"))   -- 259-261
                else if p = [] then .ok (Dict.erase d key)                -- 263-265
                else .ok d
              | _ => .ok d

/-- openleadr/utils.py:132-265: what is done for an entry by its key. -/
def arrangeEntry (lib : Lib) (d : Dict) (key : String) : Res Dict :=
  let v := currentOf d key
  if key = "pending_reports" then                                         -- 133-154
    match v with
    | .dict p => match Dict.get? p "report_request_id" with
      | some x => .ok (Dict.set d key (pendingOf lib x))
      | none => .ok d
    | .none => .ok (Dict.set d key (.list []))
    | _ => .ok d
  else if key = "event" && (v matches .list _) then                       -- 156-163
    match flatEvents (asListV v) with
    | .ok l => .ok (Dict.set (Dict.erase d key) "events" (.list l))
    | .error e => .error e
  else if key = "event" && (match v with | .dict p => Dict.has p "event" | _ => false) then   -- 165-170
    match flatEvent v with
    | .ok e => .ok (Dict.set (Dict.erase d key) "events" (.list [e]))
    | .error e => .error e
  else if (key = "request_event" || key = "created_event") && (v matches .dict _) then   -- 172-173
    match v with
    | .dict p => .ok p
    | _ => .ok d
  else if key = "report_request" || key = "report" || key = "specifier_payload" then     -- 175-180
    .ok (Dict.set (Dict.erase d key) (key ++ "s") (.list (asListV v)))
  else if key = "report_description" || key = "event_signal" then          -- 182-202
    match describeAll (asListV v) with
    | .ok l => .ok (Dict.set (Dict.erase d key) (key ++ "s") (.list l))
    | .error e => .error e
  else if key = "qualified_event_id" && (v matches .dict _) then           -- 204-208
    match entryAt v "event_id", entryAt v "modification_number" with
    | .ok a, .ok b => .ok (Dict.set (Dict.set (Dict.erase d key) "event_id" a) "modification_number" b)
    | .error e, _ => .error e
    | .ok _, .error e => .error e
  else unnest lib d key v

/-- openleadr/utils.py:110-265: an entry that has been put into the dict. -/
def settle (lib : Lib) (d : Dict) (key : String) : Res Dict :=
  let r := renameEntry d key
  match groupTargetEntry r.1 r.2 with
  | .ok q => arrangeEntry lib q.1 q.2
  | .error e => .error e

/-- Members of a list that are dicts are normalized, and the result is normalized again (openleadr/utils.py:84-92). -/
def twice (f : Dict → Res Dict) (l : List Value) : Res (List Value) :=
  match l with
  | [] => .ok []
  | v :: l =>
    let w : Res Value := match v with
      | .dict d => match f d with
        | .ok d' => (f d').map .dict
        | .error e => .error e
      | v => .ok v
    match w with
    | .ok w => match twice f l with
      | .ok l' => .ok (w :: l')
      | .error e => .error e
    | .error e => .error e

/-- openleadr/utils.py:82-108: the value of an entry; `f` normalizes the dicts inside. -/
def entryValue (lib : Lib) (f : Dict → Res Dict) (key : String) (v : Value) : Res Value :=
  match v with
  | .dict d => (f d).map .dict
  | .list l => (twice f l).map .list
  | v => leafValue lib key v

/-- Entries for attributes are left out (openleadr/utils.py:79-80). -/
def isAttribute (key : String) : Bool := "@".toList.isPrefixOf key.toList

/-- An entry is normalized and put into the dict (openleadr/utils.py:81-265). -/
def stepEntry (lib : Lib) (f : Dict → Res Dict) (acc : Dict) (e : String × Value) : Res Dict :=
  if isAttribute e.1 then .ok acc
  else match entryValue lib f (normalizeKey e.1) e.2 with
    | .ok w => settle lib (Dict.set acc (normalizeKey e.1) w) (normalizeKey e.1)
    | .error e => .error e

/-- openleadr/utils.py:76-265: the entries one after the other, into `acc`. -/
def normalizeEntries (lib : Lib) (f : Dict → Res Dict) (acc : Dict) (entries : Dict) : Res Dict :=
  match entries with
  | [] => .ok acc
  | e :: rest => match stepEntry lib f acc e with
    | .ok acc' => normalizeEntries lib f acc' rest
    | .error x => .error x

/-- openleadr/utils.py:53-266 `normalize_dict`, with a bound on the nesting. -/
def normalize (lib : Lib) (fuel : Nat) (d : Dict) : Res Dict :=
  match fuel with
  | 0 => .error .overflowError
  | fuel + 1 => normalizeEntries lib (normalize lib fuel) [] d

end Openleadr
