import Verif.Generator.Flags

/-
Model of the command unmarshaler: what it does to the files.
-/

namespace Verif.Generator.Command

open GoLib

/-- The files, by name. -/
abbrev Files := Bytes → Option Bytes

/-- The flags of /repo/cmd/unmarshaler/unmarshaler_generator.go:18-26 as `flag.Parse` leaves them. -/
structure Flags where
  segment : Bytes
  interface : Bytes
  versions : List SegmentId

/-- What the command calls.  Parsing Go, the two generators (C120 models what they generate), printing Go and the
rights to create files are parameters. -/
structure Tools (φ ψ : Type) where
  /-- `parser.ParseFile` of a file, nil or in parts if there is an error, which is only printed -/
  parse : Option Bytes → φ
  /-- `NewSegmentUnmarshaler(segment, packageName, fileSet, f).Generate()` -/
  single : Flags → Bytes → φ → Outcome Bytes
  /-- `NewVersionedSegmentUnmarshaler(segment, packageName, fileSet, f).Generate()` -/
  versioned : Flags → Bytes → φ → Outcome Bytes
  /-- `parser.ParseFile` of the generated text; an error is only printed -/
  reparse : Bytes → ψ
  /-- `printer.Fprint`: what it writes, and how it ends -/
  print : ψ → Bytes × Outcome Unit
  /-- whether `os.Create` succeeds -/
  canCreate : Bytes → Bool

/-- How the command ends. -/
inductive Exit where
  | code (n : Nat)
  | panic
  deriving DecidableEq, Repr

/-- `strings.TrimSuffix`. -/
def trimSuffix (s suffix : Bytes) : Bytes := if suffix.isSuffixOf s then s.take (s.length - suffix.length) else s

/-- /repo/cmd/unmarshaler/unmarshaler_generator.go:57: the file to be written. -/
def newFileName (filename : Bytes) : Bytes := trimSuffix filename b!".go" ++ b!"_unmarshaler.go"

/-- One file of the file system with new contents. -/
def Files.write (fs : Files) (name contents : Bytes) : Files := fun n => if n = name then some contents else fs n

/-- /repo/cmd/unmarshaler/unmarshaler_generator.go:28-74 `main`; `none` for flags that `flag.Parse` refuses, which ends
the command with 2.  `os.Create` empties the file, `printer.Fprint` then writes into it; its error is only
printed.  Simplification: writing to the file that was opened does not fail. -/
def main {φ ψ : Type} (t : Tools φ ψ) (flags : Option Flags) (filename packageName : Bytes) (fs : Files) : Exit × Files :=
  match flags with
  | none => (.code 2, fs)
  | some fl =>
    if fl.segment = [] then (.code 1, fs)
    else
      let f := t.parse (fs filename)
      let generated := if fl.versions.length ≠ 0 then t.versioned fl packageName f else t.single fl packageName f
      match generated with
      | .panic => (.panic, fs)
      | .err => (.code 1, fs)
      | .ok g =>
        if t.canCreate (newFileName filename) then
          let p := t.print (t.reparse g)
          (match p.2 with
            | .panic => .panic
            | _ => .code 0, fs.write (newFileName filename) p.1)
        else (.code 1, fs)

/-- A line `//go:generate` of a source file. -/
structure Directive where
  flags : Option Flags
  filename : Bytes
  packageName : Bytes

/-- `go generate`: the commands one after the other, until one fails. -/
def goGenerate {φ ψ : Type} (t : Tools φ ψ) : List Directive → Files → Exit × Files
  | [], fs => (.code 0, fs)
  | d :: ds, fs =>
    let r := main t d.flags d.filename d.packageName fs
    if r.1 = .code 0 then goGenerate t ds r.2 else r

end Verif.Generator.Command
