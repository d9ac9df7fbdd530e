import Verif.Go
import Mathlib.Data.Nat.Size
import Mathlib.Data.Nat.Digits.Defs

/-
The package `crypto`: RSA on byte blocks and the ISO 9796-1 block coding on top of it.

Simplified throughout: slices have no capacity beyond their length, and moduli, exponents and CRT
parameters are natural numbers.  `big.Int` is exact arithmetic; a method called on a nil receiver
panics, because it writes its result there.
-/

namespace Verif.Crypto

open Verif

/-! ## Bytes and numbers -/

/-- `big.Int.SetBytes`: the bytes as a big-endian number. -/
def setBytes (b : Bytes) : Nat := b.foldl (fun a x => a * 256 + x.toNat) 0

/-- `big.Int.Bytes`: the shortest big-endian representation, empty for 0. -/
def numBytes (n : Nat) : Bytes := (Nat.digits 256 n).reverse.map UInt8.ofNat

/-- `big.Int.BitLen`. -/
def bitLen (n : Nat) : Nat := Nat.size n

/-- `b[i]`, a panic out of range. -/
def byteAt (b : Bytes) (i : Int) : Outcome UInt8 :=
  if 0 ≤ i ∧ i < b.length then .ok (b.getD i.toNat 0) else .panic

/-- `b[i] = v`, a panic out of range. -/
def putByte (b : Bytes) (i : Int) (v : UInt8) : Outcome Bytes :=
  if 0 ≤ i ∧ i < b.length then .ok (b.set i.toNat v) else .panic

/-- `arrayCopy`, /repo/crypto/iso9796_encoding.go:224-226: `copy(dst[dstOff:], src[srcOff:srcOff+length])`.
Both slice expressions panic out of range; `copy` stops at the end of `dst`. -/
def arrayCopy (src : Bytes) (srcOff : Int) (dst : Bytes) (dstOff length : Int) : Outcome Bytes :=
  if 0 ≤ dstOff ∧ dstOff ≤ dst.length ∧ 0 ≤ srcOff ∧ 0 ≤ length ∧ srcOff + length ≤ src.length then
    let s := ((src.drop srcOff.toNat).take length.toNat).take (dst.length - dstOff.toNat)
    .ok (dst.take dstOff.toNat ++ s ++ dst.drop (dstOff.toNat + s.length))
  else .panic

/-! ## RSA -/

/-- `RSAPrivateCrtKeyParameters`, /repo/crypto/rsa.go:52-60: the factors beside modulus and exponent (the
public exponent `e` is left out, nothing reads it). -/
structure Crt where
  p : Nat
  q : Nat
  dP : Nat
  dQ : Nat
  qInv : Nat
  deriving DecidableEq, Repr

/-- `RSAKeyParameters`, /repo/crypto/rsa.go:8-30, or with `crt` an `RSAPrivateCrtKeyParameters`.  The flag
`privateKey` is left out, nothing reads it. -/
structure Key where
  modulus : Nat
  exponent : Nat
  crt : Option Crt := none
  deriving DecidableEq, Repr

/-- `z.Exp(x, y, m)` for a receiver that may be nil. -/
def bigExp (z : Option Int) (x y m : Nat) : Outcome Int :=
  match z with
  | none => .panic
  | some _ => .ok ((x ^ y % m : Nat) : Int)

/-- `z.Sub(x, y)` for a receiver that may be nil. -/
def bigSub (z : Option Int) (x y : Int) : Outcome Int :=
  match z with
  | none => .panic
  | some _ => .ok (x - y)

/-- `new(big.Int).Rem(x, m)`: division by zero panics. -/
def bigRem (x m : Nat) : Outcome Nat := if m = 0 then .panic else .ok (x % m)

/-- `z.Mod(x, m)` on an allocated receiver: division by zero panics. -/
def bigMod (x : Int) (m : Nat) : Outcome Int := if m = 0 then .panic else .ok (x % m)

/-- `RSACoreEngine.ProcessBlock`, /repo/crypto/rsa.go:179-208, the first branch, with the receivers `mP`,
`mQ` and `h` given: in the code all three are nil. -/
def crtProcess (mP mQ h : Option Int) (k : Crt) (input : Nat) : Outcome Int :=
  (bigRem input k.p).bind fun a =>
  (bigExp mP a k.dP k.p).bind fun mP =>
  (bigRem input k.q).bind fun b =>
  (bigExp mQ b k.dQ k.q).bind fun mQ =>
  (bigSub h mP mQ).bind fun h =>
  (bigMod (h * k.qInv) k.p).bind fun h =>
  .ok (h * k.q + mQ)

/-- `RSACoreEngine.ProcessBlock`, /repo/crypto/rsa.go:179-213. -/
def processNumber (k : Key) (input : Nat) : Outcome Nat :=
  match k.crt with
  | some c => (crtProcess none none none c input).map' Int.toNat
  | none => .ok (input ^ k.exponent % k.modulus)

/-- `RSACoreEngine.InputBlockSize`, /repo/crypto/rsa.go:101-108. -/
def rsaInputBlockSize (enc : Bool) (k : Key) : Int :=
  if enc then ((bitLen k.modulus + 7) / 8 : Nat) - 1 else ((bitLen k.modulus + 7) / 8 : Nat)

/-- `RSACoreEngine.OutputBlockSize`, /repo/crypto/rsa.go:110-117. -/
def rsaOutputBlockSize (enc : Bool) (k : Key) : Int :=
  if enc then ((bitLen k.modulus + 7) / 8 : Nat) else ((bitLen k.modulus + 7) / 8 : Nat) - 1

/-- `make([]byte, n)`: a negative length panics. -/
def makeBytes (n : Int) : Outcome Bytes := if 0 ≤ n then .ok (List.replicate n.toNat 0) else .panic

/-- `RSACoreEngine.ConvertInput`, /repo/crypto/rsa.go:119-141. -/
def convertInput (enc : Bool) (k : Key) (inp : Bytes) (off len : Int) : Outcome Nat :=
  if len > rsaInputBlockSize enc k + 1 then .panic
  else if len = rsaInputBlockSize enc k + 1 ∧ ¬ enc then .panic
  else
    (if off ≠ 0 ∨ len ≠ inp.length then (makeBytes len).bind fun b => arrayCopy inp off b 0 len else .ok inp).bind fun block =>
    if setBytes block ≥ k.modulus then .panic else .ok (setBytes block)

/-- `RSACoreEngine.ConvertOutput`, /repo/crypto/rsa.go:143-177. -/
def convertOutput (enc : Bool) (k : Key) (result : Nat) : Outcome Bytes :=
  let output := numBytes result
  (byteAt output 0).bind fun first =>
  if enc then
    if first = 0 ∧ output.length > rsaOutputBlockSize enc k then
      (makeBytes (output.length - 1)).bind fun tmp => arrayCopy output 1 tmp 0 tmp.length
    else if output.length < rsaOutputBlockSize enc k then
      (makeBytes (rsaOutputBlockSize enc k)).bind fun tmp => arrayCopy output 0 tmp (tmp.length - output.length) output.length
    else .ok output
  else
    if first = 0 then (makeBytes (output.length - 1)).bind fun tmp => arrayCopy output 1 tmp 0 tmp.length
    else .ok output

/-- `RSAEngine.ProcessBlock` after `Init`, /repo/crypto/rsa.go:73-85.  (Without `Init` it panics.) -/
def rsaBlock (enc : Bool) (k : Key) (inp : Bytes) (off len : Int) : Outcome Bytes :=
  (convertInput enc k inp off len).bind fun x => (processNumber k x).bind fun y => convertOutput enc k y

/-! ## ISO 9796-1 -/

/-- `shadows`, /repo/crypto/iso9796_encoding.go:18-19. -/
def shadows : List UInt8 := [0xe, 0x3, 0x5, 0x8, 0x9, 0x4, 0x2, 0xf, 0x0, 0xd, 0xb, 0x6, 0x7, 0xa, 0xc, 0x1]

/-- `inverse`, /repo/crypto/iso9796_encoding.go:20-21. -/
def inverse : List UInt8 := [0x8, 0xf, 0x6, 0x1, 0x5, 0x2, 0xb, 0xc, 0x3, 0x4, 0xd, 0xa, 0xe, 0x9, 0x0, 0x7]

/-- `shadows[x]`, `inverse[x]` for the index of a nibble, which is always in range. -/
def nibble (table : List UInt8) (x : UInt8) : UInt8 := table.getD x.toNat 0

/-- `(shadows[(val&0xff)>>4] << 4) | shadows[val&0x0f]`, /repo/crypto/iso9796_encoding.go:131. -/
def shadowByte (val : UInt8) : UInt8 := (nibble shadows (val >>> 4) <<< 4) ||| nibble shadows (val &&& 0x0f)

/-- The first loop of `encodeBlock`, /repo/crypto/iso9796_encoding.go:119-127.  `none` if it has not come to
its end after so many rounds. -/
def fillLoop (inp : Bytes) (off z t : Int) : Nat → Int → Bytes → Option (Outcome Bytes)
  | 0, _, _ => none
  | n + 1, i, block =>
    if i < t then
      match (if i > t - z then arrayCopy inp (off + z - (t - i)) block (block.length - t) (t - i)
        else arrayCopy inp off block (block.length - (i + z)) z) with
      | .ok b => fillLoop inp off z t n (i + z) b
      | .err => some .err
      | .panic => some .panic
    else some (.ok block)

/-- The second loop of `encodeBlock`, /repo/crypto/iso9796_encoding.go:129-133, for the given number of
rounds: it runs from `len(block)-2*t` to `len(block)` in steps of 2. -/
def shadowLoop (t : Int) : Nat → Int → Bytes → Outcome Bytes
  | 0, _, b => .ok b
  | n + 1, i, b =>
    (byteAt b (b.length - t + i.tdiv 2)).bind fun val =>
    (putByte b i (shadowByte val)).bind fun b =>
    (putByte b (i + 1) val).bind fun b => shadowLoop t n (i + 2) b

/-- `b[i] = f(b[i])`. -/
def updateByte (b : Bytes) (i : Int) (f : UInt8 → UInt8) : Outcome Bytes :=
  (byteAt b i).bind fun v => putByte b i (f v)

/-- `byte(r)`. -/
def toByte (r : Int) : UInt8 := UInt8.ofNat (r % 256).toNat

/-- The rest of `encodeBlock`, /repo/crypto/iso9796_encoding.go:135-148: the block and the offset that are
handed to the engine. -/
def finishBlock (bitSize : Nat) (padBits z : Int) (block : Bytes) : Outcome (Bytes × Int) :=
  (updateByte block (block.length - 2 * z) (· ^^^ toByte (padBits + 1))).bind fun block =>
  (updateByte block (block.length - 1) fun v => (v <<< 4) ||| 0x06).bind fun block =>
  let maxBit : Int := 8 - ((bitSize : Int) - 1).tmod 8
  if maxBit ≠ 8 then
    (updateByte block 0 (· &&& (0xff >>> UInt8.ofNat maxBit.toNat))).bind fun block =>
    (updateByte block 0 (· ||| (0x80 >>> UInt8.ofNat maxBit.toNat))).map' fun block => (block, 0)
  else
    (putByte block 0 0).bind fun block => (updateByte block 1 (· ||| 0x80)).map' fun block => (block, 1)

/-- What `encodeBlock` hands to its engine, /repo/crypto/iso9796_encoding.go:113-148. -/
def encoding (rounds bitSize : Nat) (padBits : Int) (inp : Bytes) (off len : Int) : Option (Outcome (Bytes × Int)) :=
  let block : Bytes := List.replicate ((bitSize + 7) / 8) 0
  let t : Nat := (bitSize + 13) / 16
  (fillLoop inp off len t rounds 0 block).map fun r =>
    r.bind fun block => (shadowLoop t t (block.length - 2 * t) block).bind fun block => finishBlock bitSize padBits len block

/-- An engine: `ProcessBlock` of the interface `cipherEngine`, /repo/crypto/iso9796_encoding.go:8-13. -/
abbrev Engine := Bytes → Int → Int → Outcome Bytes

/-- `ISO9796d1Encoding.encodeBlock`, /repo/crypto/iso9796_encoding.go:113-151. -/
def encodeBlock (rounds : Nat) (engine : Engine) (bitSize : Nat) (padBits : Int) (inp : Bytes) (off len : Int) :
    Option (Outcome Bytes) :=
  (encoding rounds bitSize padBits inp off len).map fun r => r.bind fun x => engine x.1 x.2 (x.1.length - x.2)

/-- `convertOutputDecryptOnly`, /repo/crypto/iso9796_encoding.go:213-222. -/
def convertOutputDecryptOnly (result : Nat) : Outcome Bytes :=
  let output := numBytes result
  (byteAt output 0).bind fun first =>
  if first = 0 then (makeBytes (output.length - 1)).bind fun tmp => arrayCopy output 1 tmp 0 tmp.length
  else .ok output

/-- The loop of `decodeBlock`, /repo/crypto/iso9796_encoding.go:183-198, from index `i` on; the state is
(found, r, boundary).  The rounds are as many as the block has bytes and one more: after so many the
index is out of range, so the case 0 is never reached. -/
def boundaryLoop (t : Int) (block : Bytes) : Nat → Int → Bool × UInt8 × Int → Outcome (Bool × UInt8 × Int)
  | 0, _, _ => .panic
  | n + 1, i, s =>
    if i < block.length - 2 * t then
      (byteAt block i).bind fun v =>
      (byteAt block (i - 1)).bind fun u =>
      if u ^^^ shadowByte v ≠ 0 then
        if ¬ s.1 then boundaryLoop t block n (i - 2) (true, u ^^^ shadowByte v, i - 1)
        else .err
      else boundaryLoop t block n (i - 2) s
    else .ok s

/-- The last loop of `decodeBlock`, /repo/crypto/iso9796_encoding.go:202-206: every second byte. -/
def everySecond (block : Bytes) (boundary : Int) : Nat → Nat → Outcome Bytes
  | 0, _ => .ok []
  | n + 1, i => (byteAt block (2 * i + boundary + 1)).bind fun v => (everySecond block boundary n (i + 1)).map' (v :: ·)

/-- `ISO9796d1Encoding.decodeBlock`, /repo/crypto/iso9796_encoding.go:156-211: the message and the new value
of `padBits`.  `iR` is nil when `iR.Sub` is called. -/
def decodeBlock (engine : Engine) (modulus bitSize : Nat) (inp : Bytes) (off len : Int) : Outcome (Bytes × Int) :=
  (engine inp off len).bind fun block =>
  let t : Nat := (bitSize + 13) / 16
  let iS := setBytes block
  (if iS % 16 = 6 then .ok (iS : Int)
    else if ((modulus : Int) - iS) % 16 = 6 then bigSub none modulus iS
    else .err).bind fun iR =>
  (convertOutputDecryptOnly iR.natAbs).bind fun block =>
  (byteAt block (block.length - 1)).bind fun last =>
  if last &&& 0x0f ≠ 0x6 then .err else
  (byteAt block (block.length - 2)).bind fun u =>
  (putByte block (block.length - 1) ((last >>> 4) ||| (nibble inverse (u >>> 4) <<< 4))).bind fun block =>
  (byteAt block 1).bind fun v =>
  (putByte block 0 (shadowByte v)).bind fun block =>
  (boundaryLoop t block (block.length + 1) (block.length - 1) (false, 1, 0)).bind fun s =>
  (putByte block s.2.2 0).bind fun block =>
  (everySecond block s.2.2 ((block.length - s.2.2) / 2).toNat 0).map' fun m => (m, (s.2.1.toNat : Int) - 1)

/-! ## The coder -/

/-- `ISO9796d1Encoding` after `Init`, /repo/crypto/iso9796_encoding.go:31-52, on an `RSAEngine`: the key, the
direction and the pad bits. -/
structure Coder where
  key : Key
  enc : Bool
  padBits : Int := 0
  deriving DecidableEq, Repr

/-- `Init`, /repo/crypto/iso9796_encoding.go:47-52: key and direction change, the pad bits remain. -/
def Coder.init (c : Coder) (enc : Bool) (key : Key) : Coder := { c with key := key, enc := enc }

/-- `SetPadBits`, /repo/crypto/iso9796_encoding.go:90-96. -/
def Coder.setPadBits (c : Coder) (n : Int) : Outcome Coder := if n > 7 then .panic else .ok { c with padBits := n }

/-- `InputBlockSize`, /repo/crypto/iso9796_encoding.go:63-71. -/
def Coder.inputBlockSize (c : Coder) : Int :=
  if c.enc then (rsaInputBlockSize c.enc c.key + 1).tdiv 2 else rsaInputBlockSize c.enc c.key

/-- `OutputBlockSize`, /repo/crypto/iso9796_encoding.go:76-84. -/
def Coder.outputBlockSize (c : Coder) : Int :=
  if c.enc then rsaOutputBlockSize c.enc c.key else (rsaOutputBlockSize c.enc c.key + 1).tdiv 2

/-- `ProcessBlock`, /repo/crypto/iso9796_encoding.go:105-111: the result and the coder afterwards.  `none` if
it has not returned after so many rounds of the first loop of `encodeBlock`. -/
def Coder.processBlock (rounds : Nat) (c : Coder) (inp : Bytes) (off len : Int) : Option (Outcome Bytes × Coder) :=
  if c.enc then
    (encodeBlock rounds (rsaBlock true c.key) (bitLen c.key.modulus) c.padBits inp off len).map fun r => (r, c)
  else
    match decodeBlock (rsaBlock false c.key) c.key.modulus (bitLen c.key.modulus) inp off len with
    | .ok (m, p) => some (.ok m, { c with padBits := p })
    | .err => some (.err, c)
    | .panic => some (.panic, c)

end Verif.Crypto
