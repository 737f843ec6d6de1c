import Verif.Model.Text
import Verif.Model.Calendar
import Verif.Model.Handler
/-!
The part of the Jinja template language that the message templates use (openleadr/templates, environment in openleadr/messaging.py:219-224).

The environment has no autoescaping (`Environment(loader=…)`), so values are put into the text as they are.
-/
namespace Openleadr

/-- What the library leaves to Python: which characters `\d` matches, `int(text)`, `float(text)` (as `repr(float(text))`; both `none` for
    `ValueError`), `int(x)` of a float, and the texts of values for which the templates are not meant (lists, dicts, …). -/
structure Lib where
  isDigit : Char → Bool
  readInt : String → Option Int
  readFloat : String → Option String
  truncFloat : String → Option Int
  textOf : Value → String

/-- The filters of openleadr/messaging.py:220-222. -/
inductive Filter
  | plain
  | datetimeformat
  | timedeltaformat
  | booleanformat
  deriving DecidableEq, Repr

/-- The conditions of `{% if %}`: `x`, `x is defined and x is not none`, `x is not none`, and combinations. -/
inductive Cond
  | truthy (path : List String)
  | given (path : List String)
  | notNone (path : List String)
  | nonEmpty (path : List String)          -- `x|length > 0`
  | startsWith (path : List String) (start : String)   -- `x.startswith('…')`
  | neg (c : Cond)
  | both (c d : Cond)
  deriving Repr

/-- The name of an element: written in the template, or `{{ path.ns }}:{{ path.name }}`. -/
inductive Tag
  | fixed (name : String)
  | dynamic (ns name : List String)
  | qualified (ns : List String) (name : String)   -- `{{ path.ns }}:name`
  deriving DecidableEq, Repr

/-- A template. Elements have attributes and contents; blank space between the tags of a template is left out (it is stripped line by line after
    rendering by `flatten_xml`: in the files every line begins with a tag or block and ends with one). -/
inductive Tmpl
  | elem (tag : Tag) (attrs : List (String × String)) (body : List Tmpl)
  | empty (tag : Tag) (attrs : List (String × String))              -- `<tag … />`
  | text (s : String)
  | out (path : List String) (filter : Filter)                      -- `{{ path|filter }}`
  | cond (c : Cond) (yes no : List Tmpl)                            -- `{% if c %}…{% else %}…{% endif %}`
  | loop (var : String) (over : List String) (body : List Tmpl)     -- `{% for var in over %}…{% endfor %}`
  | missing                                                         -- an `include` of a file that does not exist

/-- One step `x.name` of a path (`Environment.getattr`): attribute of an object or entry of a dict; anything else is undefined. -/
def attrOf (v : Value) (name : String) : Option Value :=
  match v with
  | .dict d => Dict.get? d name
  | .obj _ d => Dict.get? d name
  | _ => none

/-- The value of a path `a.b.c`; `none` for undefined. Going on from an undefined value raises `UndefinedError`. -/
def walk (v : Option Value) (path : List String) : Res (Option Value) :=
  match path with
  | [] => .ok v
  | name :: rest =>
    match v with
    | some v => walk (attrOf v name) rest
    | none => .error .templateError

/-- The value of a path in the context of a template. -/
def lookup (env : Dict) (path : List String) : Res (Option Value) :=
  match path with
  | [] => .error .templateError
  | name :: rest => walk (Dict.get? env name) rest

/-- `str(x)` as `{{ x }}` puts it into the text; undefined is the empty text. -/
def pyText (lib : Lib) (v : Option Value) : String :=
  match v with
  | none => ""
  | some .none => "None"
  | some (.bool b) => if b then "True" else "False"
  | some (.int i) => String.ofList (intText i)
  | some (.float r) => r
  | some (.str s) => s
  | some v => lib.textOf v

/-- openleadr/utils.py:319-325 `datetimeformat` on an arbitrary value. -/
def datetimeformatV (v : Value) : Value :=
  match v with
  | .datetime us => .str (String.ofList (datetimeformat (DateTime.ofMicros us)))
  | v => v

/-- A filter on a value that may be undefined: `booleanformat` refuses undefined, the others return it. -/
def applyFilter (f : Filter) (v : Option Value) : Res (Option Value) :=
  match f, v with
  | .plain, v => .ok v
  | .datetimeformat, v => .ok (v.map datetimeformatV)
  | .timedeltaformat, v => .ok (v.map timedeltaformatV)
  | .booleanformat, some v => (booleanformat v).map some
  | .booleanformat, none => .error .valueError

/-- The value of a condition. -/
def holds (env : Dict) (c : Cond) : Res Bool :=
  match c with
  | .truthy p => (lookup env p).map (fun v => match v with
    | some v => v.truthy
    | none => false)
  | .given p => (lookup env p).map (fun v => match v with
    | some .none => false
    | some _ => true
    | none => false)
  | .notNone p => (lookup env p).map (fun v => v ≠ some .none)
  | .nonEmpty p =>
    match lookup env p with
    | .ok (some (.list l)) => .ok (l ≠ [])
    | .ok (some (.tuple l)) => .ok (l ≠ [])
    | .ok (some (.dict l)) => .ok (!l.isEmpty)
    | .ok (some (.str s)) => .ok (s ≠ "")
    | .ok none => .ok false
    | .ok _ => .error .typeError
    | .error e => .error e
  | .startsWith p s =>
    match lookup env p with
    | .ok (some (.str t)) => .ok (s.toList.isPrefixOf t.toList)
    | .ok _ => .error .templateError
    | .error e => .error e
  | .neg c => (holds env c).map (!·)
  | .both c d =>
    match holds env c with
    | .ok true => holds env d
    | .ok false => .ok false
    | .error e => .error e

/-- What `{% for %}` runs over: the members of a list, the keys of a dict, the characters of a text; nothing if undefined; `None` and numbers raise
    `TypeError`. -/
def loopValues (v : Option Value) : Res (List Value) :=
  match v with
  | none => .ok []
  | some (.list l) => .ok l
  | some (.tuple l) => .ok l
  | some (.dict d) => .ok (d.map (fun e => .str e.1))
  | some (.str s) => .ok (s.toList.map (fun c => .str (String.ofList [c])))
  | some _ => .error .typeError

/-- The name of an element as text. -/
def tagText (lib : Lib) (env : Dict) (tag : Tag) : Res String :=
  match tag with
  | .fixed name => .ok name
  | .dynamic ns name =>
    match lookup env ns, lookup env name with
    | .ok a, .ok b => .ok (pyText lib a ++ ":" ++ pyText lib b)
    | .error e, _ => .error e
    | .ok _, .error e => .error e
  | .qualified ns name =>
    match lookup env ns with
    | .ok a => .ok (pyText lib a ++ ":" ++ name)
    | .error e => .error e

/-- The attributes of an opening tag. -/
def attrText (attrs : List (String × String)) : Text :=
  attrs.flatMap (fun a => ' ' :: a.1.toList ++ '=' :: '"' :: a.2.toList ++ ['"'])

/-- One after the other over the numbered members of a list. -/
def eachText (f : Nat → Value → Res Text) (i : Nat) (l : List Value) : Res Text :=
  match l with
  | [] => .ok []
  | v :: l => match f i v with
    | .ok t => match eachText f (i + 1) l with
      | .ok t' => .ok (t ++ t')
      | .error e => .error e
    | .error e => .error e

/-- The context inside a loop. -/
def loopEnv (env : Dict) (var : String) (i : Nat) (v : Value) : Dict :=
  (var, v) :: ("loop", .dict [("index0", .int i)]) :: env

mutual
/-- `Template.render`. -/
def render (lib : Lib) (env : Dict) (t : Tmpl) : Res Text :=
  match t with
  | .elem tag attrs body =>
    match tagText lib env tag with
    | .ok name => match renderAll lib env body with
      | .ok inner => .ok ('<' :: (name.toList ++ attrText attrs) ++ '>' :: inner ++ '<' :: '/' :: name.toList ++ ['>'])
      | .error e => .error e
    | .error e => .error e
  | .empty tag attrs =>
    match tagText lib env tag with
    | .ok name => .ok ('<' :: (name.toList ++ attrText attrs ++ ['/']) ++ ['>'])
    | .error e => .error e
  | .text s => .ok s.toList
  | .out path filter =>
    match lookup env path with
    | .ok v => match applyFilter filter v with
      | .ok w => .ok (pyText lib w).toList
      | .error e => .error e
    | .error e => .error e
  | .cond c yes no =>
    match holds env c with
    | .ok true => renderAll lib env yes
    | .ok false => renderAll lib env no
    | .error e => .error e
  | .loop var over body =>
    match lookup env over with
    | .ok v => match loopValues v with
      | .ok l => eachText (fun i x => renderAll lib (loopEnv env var i x) body) 0 l
      | .error e => .error e
    | .error e => .error e
  | .missing => .error .templateError
/-- The parts of a template one after the other. -/
def renderAll (lib : Lib) (env : Dict) (ts : List Tmpl) : Res Text :=
  match ts with
  | [] => .ok []
  | t :: ts =>
    match render lib env t with
    | .ok a => match renderAll lib env ts with
      | .ok b => .ok (a ++ b)
      | .error e => .error e
    | .error e => .error e
end

end Openleadr
