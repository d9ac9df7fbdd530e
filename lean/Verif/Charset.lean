import Verif.Go

/-
Model of charset/convert.go.
-/

namespace Verif.Charset

/-- /repo/charset/convert.go:19-23 `ToUTF8`: each byte is the character with that
number.  The decoder of `charmap.ISO8859_1` has no failing byte. -/
def toUTF8 (b : Bytes) : Str := b.map fun c => Char.ofNat c.toNat

/-- /repo/charset/convert.go:32-36 `ToISO8859_1` with `mustConvert` (:5-10): the
encoder fails on characters above U+00FF, and the error becomes a panic. -/
def toISO (s : Str) : Outcome Bytes :=
  if s.all fun c => c.toNat ≤ 255 then .ok (s.map fun c => UInt8.ofNat c.toNat) else .panic

end Verif.Charset
