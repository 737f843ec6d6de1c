import Verif.Model.Text
/-!
Certificates as files, in messages and on connections: `certificate_fingerprint`, `certificate_domain`, `extract_pem_cert` and what is made with them
(openleadr/utils.py:394-438, 526-531, openleadr/fingerprint.py), with the parts of Python they stand on: `ssl.PEM_cert_to_DER_cert` and
`binascii.a2b_base64` (in its lenient mode).
-/
namespace Openleadr

/-- `table_a2b_base64` of CPython (Modules/binascii.c): the value of a character of the alphabet. -/
def base64Value (c : Char) : Option Nat :=
  let n := c.toNat
  if 65 ≤ n ∧ n ≤ 90 then some (n - 65)             -- A-Z
  else if 97 ≤ n ∧ n ≤ 122 then some (n - 71)       -- a-z
  else if 48 ≤ n ∧ n ≤ 57 then some (n + 4)         -- 0-9
  else if n = 43 then some 62                       -- +
  else if n = 47 then some 63                       -- /
  else none

/-- A byte in front of what the rest gives. -/
def andThen (n : Nat) (rest : Res (List UInt8)) : Res (List UInt8) :=
  match rest with
  | .ok l => .ok (n.toUInt8 :: l)
  | .error e => .error e

/-- `binascii.a2b_base64` (Modules/binascii.c, `strict_mode` off), which `base64.decodebytes` calls: `quad` is the number of characters of the
    current group that were read, `left` the bits that are left over, `pads` the number of pad characters. Characters outside of the alphabet are
    skipped, a complete padding ends the text, an incomplete group raises `binascii.Error`, a `ValueError`. -/
def a2bBase64 (quad left pads : Nat) : Text → Res (List UInt8)
  | [] => if quad = 0 then .ok [] else .error .valueError
  | c :: cs =>
    if c = '=' then
      if 2 ≤ quad then
        if 4 ≤ quad + (pads + 1) then .ok [] else a2bBase64 quad left (pads + 1) cs
      else a2bBase64 quad left pads cs
    else
      match base64Value c with
      | none => a2bBase64 quad left pads cs
      | some v =>
        match quad with
        | 0 => a2bBase64 1 v 0 cs
        | 1 => andThen (left * 4 + v / 16) (a2bBase64 2 (v % 16) 0 cs)
        | 2 => andThen (left * 16 + v / 4) (a2bBase64 3 (v % 4) 0 cs)
        | _ => andThen (left * 64 + v) (a2bBase64 0 0 0 cs)

/-- `ssl.PEM_HEADER` and `ssl.PEM_FOOTER` -/
def pemHeader : Text := "-----BEGIN CERTIFICATE-----".toList
def pemFooter : Text := "-----END CERTIFICATE-----".toList

/-- `ssl.PEM_cert_to_DER_cert` (Lib/ssl.py). A character that is not ASCII raises `UnicodeEncodeError`. -/
def pemToDer (pem : Text) : Res (List UInt8) :=
  if pemHeader.isPrefixOf pem = false then .error .valueError
  else if pemFooter.isSuffixOf (strip pem) = false then .error .valueError
  else
    let d := ((strip pem).take ((strip pem).length - pemFooter.length)).drop pemHeader.length
    if d.all (fun c => c.toNat < 128) = false then .error .unicodeError
    else a2bBase64 0 0 0 d

/-- openleadr/utils.py:399-404 `certificate_fingerprint`; `None` has no `startswith`. -/
def certificateFingerprint (sha256 : List UInt8 → List UInt8) (cert : Value) : Res Text :=
  match ensureStr cert with
  | .error e => .error e
  | .ok (.str pem) =>
    match pemToDer pem.toList with
    | .error e => .error e
    | .ok der => .ok (fingerprintFromDer sha256 der)
  | .ok _ => .error .attributeError

/-- openleadr/utils.py:426-438 `extract_pem_cert`: `text` is that of the first element `X509Certificate` of the message, if there is one and it has a
    text; `None` has no `text`, and the text `None` no `endswith`. -/
def extractPemCert (text : Option Text) : Res Text :=
  match text with
  | none => .error .attributeError
  | some cert =>
    let cert := if ['\n'].isSuffixOf cert then cert else cert ++ ['\n']                -- 436-437
    .ok ("-----BEGIN CERTIFICATE-----\n".toList ++ cert ++ "-----END CERTIFICATE-----\n".toList)

/-- openleadr/messaging.py:105-106, 158-159: the fingerprint of the certificate in the message. -/
def messageFingerprint (sha256 : List UInt8 → List UInt8) (text : Option Text) : Res Text :=
  match extractPemCert text with
  | .error e => .error e
  | .ok pem => certificateFingerprint sha256 (.str (String.ofList pem))

/-- openleadr/utils.py:526-531 `get_cert_fingerprint_from_request`: `peer` is what `getpeercert` gives on a connection with TLS. -/
def connectionFingerprint (sha256 : List UInt8 → List UInt8) (peer : Option (List UInt8)) : Option Text :=
  match peer with
  | some der => if der = [] then none else some (fingerprintFromDer sha256 der)
  | none => none

/-- Reading a file as text: each of `\r\n`, `\r` and `\n` ends a line (`open(…)` with universal newlines). -/
def universalNewlines : Text → Text
  | '\r' :: '\n' :: t => '\n' :: universalNewlines t
  | '\r' :: t => '\n' :: universalNewlines t
  | c :: t => c :: universalNewlines t
  | [] => []

/-- openleadr/fingerprint.py:5-13 `show_fingerprint`: what is printed for a file with this content (a file in UTF-8, which is what Python takes it for). -/
def showFingerprint (sha256 : List UInt8 → List UInt8) (content : Text) : Res Text :=
  certificateFingerprint sha256 (.str (String.ofList (universalNewlines content)))

/-- What is printed when a client or a server is made with a certificate, whose file is read as bytes (openleadr/client.py:106-117, openleadr/server.py:124-133). -/
def ownFingerprint (sha256 : List UInt8 → List UInt8) (content : List UInt8) : Res Text := certificateFingerprint sha256 (.bytes content)

/-- openleadr/utils.py:407-423 `certificate_domain`: `isFile` says whether there is a file of that name, `names` gives the common names of a certificate in
    PEM form. What is read from the file is a text, and `load_pem_x509_certificate` wants bytes. -/
def certificateDomain (isFile : Value → Bool) (names : List UInt8 → Res (List String)) (cert : Value) : Res String :=
  if isFile cert then .error .typeError                                                -- 412-414, 421
  else
    match cert with
    | .bytes b =>
      if (pemHeader.map (fun c => c.toNat.toUInt8)).isPrefixOf b then
        match names b with
        | .error e => .error e
        | .ok l => .ok (String.intercalate ", " l)                                     -- 423
      else .error .valueError                                                          -- 418-420
    | _ => .error .typeError                                                           -- 415: `str.startswith` of bytes

end Openleadr
