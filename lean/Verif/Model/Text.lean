import Verif.Py.Value
/-!
Booleans, text/bytes conversion, XML flattening and certificate fingerprints (openleadr/utils.py).
-/
namespace Openleadr

/-- openleadr/utils.py:312-316 `parse_boolean`. -/
def parseBoolean (value : Value) : Bool :=
  if value = .str "true" then true else false

/-- openleadr/utils.py:351-363 `booleanformat`. -/
def booleanformat (value : Value) : Res Value :=
  match value with
  | .bool b => if b = true then .ok (.str "true") else .ok (.str "false")   -- 355-359
  | v => if v = .str "true" ∨ v = .str "false" then .ok v                   -- 360-361
         else .error .valueError                                            -- 363

/-- openleadr/utils.py:366-377 `ensure_bytes`. (Python texts with lone surrogates, which UTF-8 cannot encode, are not `String`s.) -/
def ensureBytes (obj : Value) : Res Value :=
  match obj with
  | .none => .ok .none
  | .bytes b => .ok (.bytes b)
  | .str s => .ok (.bytes s.toUTF8.data.toList)
  | _ => .error .typeError

/-- openleadr/utils.py:380-391 `ensure_str`; bytes that are not valid UTF-8 raise `UnicodeDecodeError`. -/
def ensureStr (obj : Value) : Res Value :=
  match obj with
  | .none => .ok .none
  | .str s => .ok (.str s)
  | .bytes b =>
    match String.fromUTF8? ⟨b.toArray⟩ with
    | some s => .ok (.str s)
    | Option.none => .error .unicodeError
  | _ => .error .typeError

/-- The white space characters of Python's `str.strip()` (`str.isspace`). -/
def isPySpace (c : Char) : Bool :=
  let n := c.toNat
  (9 ≤ n && n ≤ 13) || (28 ≤ n && n ≤ 32) || n == 0x85 || n == 0xa0 || n == 0x1680 || (0x2000 ≤ n && n ≤ 0x200a)
    || n == 0x2028 || n == 0x2029 || n == 0x202f || n == 0x205f || n == 0x3000

/-- `str.strip()` -/
def strip (s : Text) : Text := ((s.dropWhile isPySpace).reverse.dropWhile isPySpace).reverse

/-- `message.split("\n")` -/
def splitLines (s : Text) : List Text :=
  match s with
  | [] => [[]]
  | c :: r =>
    if c = '\n' then [] :: splitLines r
    else match splitLines r with
      | [] => [[c]]
      | l :: ls => (c :: l) :: ls

/-- openleadr/utils.py:42-50 `flatten_xml`. The loop of lines 47-49 only rebinds a local variable and has no effect. -/
def flattenXml (message : Text) : Text :=
  (((splitLines message).filter (fun l => strip l ≠ [])).map strip).flatten

/-- A hexadecimal digit of `bytes.hex()` (lower case). -/
def hexDigit (n : Nat) : Char := (Nat.toDigits 16 n).headD '0'

/-- `bytes.hex()` -/
def hexText (b : List UInt8) : Text := b.flatMap (fun x => [hexDigit (x.toNat / 16), hexDigit (x.toNat % 16)])

/-- `str.upper()` on hexadecimal digits. -/
def upperText (s : Text) : Text := s.map Char.toUpper

/-- `sep.join(parts)` -/
def joinText (sep : Text) : List Text → Text
  | [] => []
  | [p] => p
  | p :: q :: r => p ++ sep ++ joinText sep (q :: r)

/-- openleadr/utils.py:394-396 `certificate_fingerprint_from_der`, for an arbitrary hash function in place of SHA-256. -/
def fingerprintFromDer (sha256 : List UInt8 → List UInt8) (der : List UInt8) : Text :=
  let hash := hexText (sha256 der)
  joinText [':'] ((List.range 10).map (fun k => upperText ((hash.drop (44 + 2 * k)).take 2)))   -- i in range(44, 64, 2)

end Openleadr
