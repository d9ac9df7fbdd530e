import Verif.Transport.Model

/-
Model of transport/middleware/logging.go with what it writes, and of the lines dialog.request writes.
-/

namespace Verif.Transport

open GoLib Message Segment

/-- One line written about a message.  Simplification: what `%v` makes of the header is not modelled. -/
inductive Entry where
  /-- /repo/transport/middleware/logging.go:66 `"\t%v\n"` -/
  | header (h : ReadHeader)
  /-- :70 `"\t%s\n"` -/
  | segment (s : Bytes)
  /-- :89 `">>%s\n"` -/
  | raw (s : Bytes)
  /-- :33 and :49 `"%s\n"` -/
  | text (b : Bytes)

variable {σ : Type}

/-- /repo/transport/middleware/logging.go:100-126 `readMessageData` with :128-173: the same steps as
in /repo/dialog/dialog.go:598-631, taken on any bytes.  The crypto provider is the one of a PIN/TAN dialog,
which returns the data as they are. -/
def readMessageData (other : Decoders σ) (raw : Bytes) : Outcome (Decrypted σ) :=
  (readResponse (raw, true)).bind fun r => r.message other

/-- /repo/transport/middleware/logging.go:81-98 `writeRawSegments`.  Simplification: writing to the log does not fail. -/
def writeRawSegments (raw : Bytes) : Outcome (List Entry) := (newExtractor raw).extract.2.map' fun ss => ss.map .raw

/-- /repo/transport/middleware/logging.go:56-79 `writeMessage`.  Every bank message that is read has
`MarshaledSegments` (/repo/message/decryption.go:76-78).  Simplification: writing to the log does not fail. -/
def writeMessage (other : Decoders σ) (raw : Bytes) : Outcome (List Entry) :=
  match readMessageData other raw with
  | .ok m => .ok (.header m.header :: m.extractor.segments.map .segment)
  | .err => writeRawSegments raw
  | .panic => .panic

/-- /repo/transport/middleware/logging.go:32-34 and :48-50: if nothing could be written segment by segment,
the whole text is. -/
def logMessage (other : Decoders σ) (raw : Bytes) : Outcome (List Entry) :=
  match writeMessage other raw with
  | .ok es => .ok es
  | .err => .ok [.text raw]
  | .panic => .panic

/-- /repo/transport/middleware/logging.go:19-54 `Logging`: the request is read and written to the log, then
sent; the response is read to its end and written to the log.  The lines written do not depend on the debug
mode: /repo/internal/logger.go drops them later. -/
def logging (other : Decoders σ) (t : Transport) : Transport := fun body =>
  (logMessage other body).bind fun _ => (t body).bind fun b => (logMessage other b.1).map' fun _ => (b.1, true)

/-- /repo/dialog/dialog.go:587-590: the request as `request` writes it to the log, cut at every `'`; with
/repo/internal/logger.go:65-70 `conditionalWriter.Write`, which writes only in debug mode.  Simplification: the
quoting of `%q` is left out. -/
def requestLines (debug : Bool) (b : Bytes) : List Bytes := if debug then split 39 b else []

end Verif.Transport
