import Verif.Transport.Model
import Verif.Swift.Model
import Verif.Message.Reference

/-
Model of `UTF8Encoding` of transport/middleware/encoding.go, for encodings with one byte
per character (the type `charmap.Charmap` of golang.org/x/text).
-/

namespace Verif.Transport

open GoLib

/-- A `charmap.Charmap`: the byte of a character, if it has one, and the character of a
byte.  Both tables are parameters of the model. -/
structure Charmap where
  enc : Char → Option Byte
  dec : Byte → Char

/-- `charmap.ISO8859_1`. -/
def latin1 : Charmap :=
  ⟨fun c => if c.toNat < 256 then some (UInt8.ofNat c.toNat) else none, fun b => Char.ofNat b.toNat⟩

/-- `utf8.FullRune` on a text whose first character is no valid one: `false` says that more
bytes could make it valid. -/
def fullRune : Bytes → Bool
  | [] => false
  | a :: r =>
    let c := a.toNat
    if 0xC2 ≤ c ∧ c ≤ 0xDF then !r.isEmpty
    else if 0xE0 ≤ c ∧ c ≤ 0xEF then
      match r with
      | [] => false
      | [b] => !Swift.cont (if c = 0xE0 then 0xA0 else 0x80) (if c = 0xED then 0x9F else 0xBF) b
      | _ :: _ :: _ => true
    else if 0xF0 ≤ c ∧ c ≤ 0xF4 then
      match r with
      | [] => false
      | [b] => !Swift.cont (if c = 0xF0 then 0x90 else 0x80) (if c = 0xF4 then 0x8F else 0xBF) b
      | [b, d] => !(Swift.cont (if c = 0xF0 then 0x90 else 0x80) (if c = 0xF4 then 0x8F else 0xBF) b && Swift.cont 0x80 0xBF d)
      | _ :: _ :: _ :: _ => true
    else true

/-- /repo/transport/middleware/encoding.go:21-26: what `io.Copy` has written through the
encoder's writer, or its error.  The encoder stops at a character that is not valid or
has no byte.  It keeps the beginning of a character back until more comes; the writer is
not closed, so at the end of the text nobody learns of what is kept.  The first argument
bounds the number of rounds; there are at most as many as bytes.  Simplification: `io.Copy`
passes the text on in pieces; what is kept of one piece is put before the next, so the
pieces make no difference. -/
def writeEncoded (m : Charmap) : Nat → Bytes → Outcome Bytes
  | 0, _ => .ok []
  | _ + 1, [] => .ok []
  | n + 1, a :: r =>
    let d := Swift.decodeRune (a :: r)
    if 0x80 ≤ a.toNat ∧ d.2 = 1 then
      if fullRune (a :: r) then .err else .ok []
    else match m.enc (Char.ofNat d.1) with
      | none => .err
      | some x => (writeEncoded m n ((a :: r).drop d.2)).map' fun w => x :: w

/-- /repo/transport/middleware/encoding.go:33-35: reading a body through the decoder: each
byte becomes its character.  An error of the body below is passed on. -/
def decodedBody (m : Charmap) (b : Body) : Body := (Message.utf8 (b.1.map m.dec), b.2)

/-- /repo/transport/middleware/encoding.go:18-39 `UTF8Encoding`. -/
def utf8Middleware (m : Charmap) (t : Transport) : Transport := fun body =>
  (writeEncoded m body.length body).bind fun b => (t b).map' (decodedBody m)

end Verif.Transport
