import Verif.Message.Model

/-
Model of the control reference, message/signature.go:37-47.
-/

namespace Verif.Message

open GoLib

/-- One bit of the polynomial division of `crc32.IEEE` (reversed polynomial 0xedb88320). -/
def crcBit (x : BitVec 32) : BitVec 32 := (x >>> 1) ^^^ (if x.getLsbD 0 then 0xedb88320#32 else 0#32)

/-- One entry of the table of `hash/crc32`: eight bits. -/
def crcByte (x : BitVec 32) : BitVec 32 := crcBit (crcBit (crcBit (crcBit (crcBit (crcBit (crcBit (crcBit x)))))))

/-- The bytes written to the hash so far. -/
def crcStep (x : BitVec 32) (b : Byte) : BitVec 32 := crcByte (x ^^^ b.toBitVec.setWidth 32)

/-- `crc32.NewIEEE()` after writing `b`.  Simplification: the library computes the same with tables or
instructions of the processor. -/
def crc32 (b : Bytes) : BitVec 32 := ~~~ b.foldl crcStep (~~~ 0#32)

/-- A digit of `%x`. -/
def hexDigit (n : Nat) : Char := if n < 10 then Char.ofNat (48 + n) else Char.ofNat (87 + n)

/-- `fmt.Sprintf("%x", h.Sum(nil))`: four bytes, the highest first. -/
def hex32 (n : Nat) : Str :=
  [n / 268435456, n / 16777216, n / 1048576, n / 65536, n / 4096, n / 256, n / 16, n].map fun k => hexDigit (k % 16)

/-- The bytes of a Go string. -/
def utf8 (s : Str) : Bytes := s.flatMap String.utf8EncodeChar

/-- What /repo/message/signature.go:40-45 writes to the hash. -/
def referenceBytes (k : KeyName) : Bytes :=
  itoa k.country ++ utf8 k.bankId ++ utf8 k.userId ++ utf8 k.keyType ++ itoa k.number ++ itoa k.version

/-- /repo/message/signature.go:37-47 `generateControlReference`. -/
def controlReference (k : KeyName) : Str := hex32 (crc32 (referenceBytes k)).toNat

end Verif.Message
