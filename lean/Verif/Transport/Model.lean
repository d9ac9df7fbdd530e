import Verif.Message.Reader

/-
Model of transport/transport.go, of transport/middleware/encoding.go (Base64) and
logging.go as far as it touches the data, of transport/https, and of the reading half
of dialog.request.
-/

namespace Verif.Transport

open GoLib Message Segment

/-! ## Base64 -/

/-- `base64.StdEncoding`: the character for a six bit number. -/
def letter (n : Nat) : Byte :=
  if n < 26 then UInt8.ofNat (65 + n)
  else if n < 52 then UInt8.ofNat (97 + (n - 26))
  else if n < 62 then UInt8.ofNat (48 + (n - 52))
  else if n = 62 then 43 else 47

/-- `decodeMap` of `base64.StdEncoding`. -/
def digit (b : Byte) : Option Nat :=
  if 65 ≤ b ∧ b ≤ 90 then some (b.toNat - 65)
  else if 97 ≤ b ∧ b ≤ 122 then some (b.toNat - 97 + 26)
  else if 48 ≤ b ∧ b ≤ 57 then some (b.toNat - 48 + 52)
  else if b = 43 then some 62 else if b = 47 then some 63 else none

/-- What `base64.NewEncoder` has written after `Close`: groups of three bytes as four
characters, the last group padded with `=`. -/
def encode : Bytes → Bytes
  | [] => []
  | [a] => [letter (a.toNat / 4), letter (a.toNat % 4 * 16), 61, 61]
  | [a, b] => [letter (a.toNat / 4), letter (a.toNat % 4 * 16 + b.toNat / 16), letter (b.toNat % 16 * 4), 61]
  | a :: b :: c :: r =>
    letter (a.toNat / 4) :: letter (a.toNat % 4 * 16 + b.toNat / 16) :: letter (b.toNat % 16 * 4 + c.toNat / 64) ::
      letter (c.toNat % 64) :: encode r

/-- `base64.Encoding.Decode` on a text without line breaks: what it has decoded, and
whether there was no error.  Simplification: the reader decodes in chunks, so what
follows a padding at the end of a chunk would be decoded too; here padding always ends
the text. -/
def decodeGroups : Bytes → Bytes × Bool
  | [] => ([], true)
  | a :: b :: c :: d :: r =>
    match digit a, digit b, digit c, digit d with
    | some w, some x, some y, some z =>
      let q := decodeGroups r
      (UInt8.ofNat (w * 4 + x / 16) :: UInt8.ofNat (x % 16 * 16 + y / 4) :: UInt8.ofNat (y % 4 * 64 + z) :: q.1, q.2)
    | some w, some x, some y, none =>
      if d = 61 then ([UInt8.ofNat (w * 4 + x / 16), UInt8.ofNat (x % 16 * 16 + y / 4)], r.isEmpty) else ([], false)
    | some w, some x, none, _ =>
      if c = 61 ∧ d = 61 then ([UInt8.ofNat (w * 4 + x / 16)], r.isEmpty) else ([], false)
    | _, _, _, _ => ([], false)
  | _ => ([], false)

/-- `newlineFilteringReader` of encoding/base64. -/
def withoutNewlines (b : Bytes) : Bytes := b.filter fun c => !(c == 10 || c == 13)

/-- Everything `io.ReadAll` gets from `base64.NewDecoder`, and whether it got no error. -/
def decode (b : Bytes) : Bytes × Bool := decodeGroups (withoutNewlines b)

/-! ## Middleware -/

/-- The result of reading a body to its end: the bytes, and whether there was no error. -/
abbrev Body := Bytes × Bool

/-- /repo/transport/transport.go:15-17 `Transport`: the request's body to a response
body or an error.  Simplification: a transport is a function of the body; the URL is
passed on unchanged and the transport may be another one at each call. -/
abbrev Transport := Bytes → Outcome Body

/-- Reading a body through `base64.NewDecoder`: an error of the body below ends the
text with an error. -/
def decodeBody (b : Body) : Body :=
  let d := decode b.1
  (d.1, d.2 && b.2)

/-- /repo/transport/middleware/encoding.go:46-71 `Base64Encoding`. -/
def base64Middleware (t : Transport) : Transport := fun body => (t (encode body)).map' decodeBody

/-- /repo/transport/middleware/logging.go:19-54 `Logging`: the response is read to its
end; an error is logged, and what was read so far is passed on.  Simplification: what
is written to the log is left out here; `logging` in Verif/Transport/Logging.lean has it,
and C97 says when the two differ. -/
def loggingMiddleware (t : Transport) : Transport := fun body => (t body).map' fun b => (b.1, true)

/-- /repo/dialog/pin_tan_dialog.go:44-52: the transport of a PIN/TAN dialog. -/
def pinTanTransport (t : Transport) : Transport := loggingMiddleware (base64Middleware t)

/-- The HTTP client below: status code and body, or an error. -/
abbrev Http := Bytes → Outcome (Nat × Body)

/-- /repo/transport/https/https.go:85-91 `HTTPSTransport.Do`: the status code is not looked at. -/
def httpsTransport (http : Http) : Transport := fun body => (http body).map' fun r => r.2

/-- What `HTTPSBase64Transport` makes of status and body. -/
def statusBody (r : Nat × Body) : Body := if r.1 = 200 then decodeBody r.2 else r.2

/-- /repo/transport/https/https.go:37-59 `HTTPSBase64Transport.Do`. -/
def httpsBase64Transport (http : Http) : Transport := fun body => (http (encode body)).map' statusBody

/-! ## Responses -/

/-- /repo/transport/transport.go:67-84 `Response` as `ReadResponse` leaves it. -/
structure Response where
  raw : Bytes
  extractor : Extractor

/-- /repo/transport/transport.go:46-64 `ReadResponse`. -/
def readResponse (b : Body) : Outcome Response :=
  if b.2 then
    let r := (newExtractor b.1).extract
    r.2.map' fun _ => ⟨b.1, r.1⟩
  else .err

/-- /repo/transport/transport.go:88-90 `IsEncrypted`. -/
def Response.isEncrypted (r : Response) : Bool := (r.extractor.findSegment b!"HNVSK").isSome

/-- The header of a response, as both extracting functions begin:
/repo/dialog/dialog.go:634-642 and :663-671. -/
def Response.readHeader (r : Response) : Outcome ReadHeader :=
  match r.extractor.findSegment b!"HNHBK" with
  | none => .err
  | some s => unmarshalMsgHeader s

/-- `e.EncryptedData.Data.Val()` of /repo/message/encryption.go:53: a nil element
panics. -/
def dataOf (d : Header × Option Bytes) : Outcome Bytes :=
  match d.2 with
  | none => .panic
  | some b => .ok b

/-- /repo/dialog/dialog.go:648-659: the encrypted data. -/
def Response.readData (r : Response) : Outcome Bytes :=
  match r.extractor.findSegment b!"HNVSD" with
  | none => .err
  | some s => (unmarshalEncryptedData s).bind dataOf

/-- /repo/dialog/dialog.go:611-628 with :633-660, :662-678 and
/repo/message/encryption.go:52-62: the bank message of a response.  Decrypting with PIN
and TAN returns the data as they are (/repo/domain/key.go:135-140). -/
def Response.message {σ : Type} (other : Decoders σ) (r : Response) : Outcome (Decrypted σ) :=
  r.readHeader.bind fun h =>
    if r.isEncrypted then r.readData.bind fun b => newDecrypted other h b
    else newDecrypted other h r.raw

/-- /repo/dialog/dialog.go:598-631: from the transport's answer to the bank message. -/
def receive {σ : Type} (other : Decoders σ) (answer : Outcome Body) : Outcome (Decrypted σ) :=
  answer.bind fun b => (readResponse b).bind fun r => r.message other

end Verif.Transport
