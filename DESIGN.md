# Formal model of go-hbci

The Go sources in `/repo` are modelled in Lean 4 under `lean/Verif`.  Nothing
was executed: the model was transcribed from the text of the sources, and each
definition cites the file and lines it stands for.

## Conventions

* `Byte = UInt8`; Go `[]byte` is `List Byte`; a Go `string` holding text is
  `List Char` (Unicode scalar values); invalid UTF-8 in Go strings is not
  modelled.
* Outcomes are explicit: `Outcome.ok v`, `Outcome.err` (a non-nil error),
  `Outcome.panic` (a run-time panic).  Theorems that claim the absence of a
  panic therefore say something.
* Pointers that the code tests for nil are `Option`.
* Go `int` is `Int`; where overflow can be observed (`strconv.Atoi`, lexer
  offsets) the bound 2^63 is explicit.
* Loops driven by the lexer run with fuel.  A theorem shows the fuel given is
  always sufficient, so fuel never decides an outcome.
* Each package has a model file, lemma files, and a `Props` file with only the
  property theorems and one non-trivial example for each.  Specification
  predicates used in theorem statements live in `Spec` files and do not mention
  the model.
* Where the code does not satisfy a claim a caller would expect, the negation is
  proved with a concrete witness, and the part that does hold is proved in
  general.

## Trusted base

* Lean 4.33.0 kernel; the axioms `propext`, `Classical.choice`, `Quot.sound`
  only. AXIOMS.md lists them for each property theorem and shows the check.
* The transcription of the Go text into Lean definitions (reviewed by hand,
  tested by seeded edits, see `seeded/LOG.jsonl`).
* The behaviour of the Go standard library functions that are modelled:
  `strconv.Atoi/Itoa`, `bytes.Split/Join/TrimRight/HasPrefix`,
  `strings.NewReplacer`, `sort.*`, `time.Parse/Format` for fixed layouts,
  `encoding/base64`, `math/big` arithmetic, `charmap.ISO8859_1`.

## Plan per property

| id | modelled | proof |
|----|----------|-------|
| C01 | lexer machine byte for byte | invariant: emitted values = input up to `start`; induction on steps |
| C02 | same machine with panics | a decreasing measure bounds the steps; panicking steps characterised |
| C03 | same machine | one lemma per state function against lexical classes in the spec |
| C04 | `escape`, `unescape` | induction on the string |
| C05 | escape + Latin-1 + lexer | forward simulation of the lexer over an escaped value; witnesses for the exceptions |
| C06 | text elements | induction on the string |
| C07 | binary element + `lexBinaryData` | decimal lemmas, simulation |
| C08 | binary decoder | case analysis over all byte strings |
| C09 | numbers, digits | decimal print/parse lemmas |
| C10 | date and time elements on a calendar model | decimal lemmas, case analysis of the calendar |
| C11 | boolean, code | sorted search lemma; witnesses |
| C12 | group marshalling, element extractor | simulation of the lexer over joined parts; witness for the trim |
| C13 | segment marshalling, element extractor | as C12 |
| C14 | segment extractor | simulation over concatenated segments; general part from C01 |
| C15 | all of the above | composition |
| C16 | segment lookup | list induction |
| C17 | extractor state | induction on the number of calls |
| C18 | message size | the size field has constant width |
| C19 | segment positions | fold against a range |
| C20 | PIN/TAN encryption wrapper | C07 + C14 |
| C21 | segment header | C09 + C12 |
| C22 | acknowledgement classes | arithmetic |
| C23 | decrypted message acknowledgements | list equality |
| C24, C25 | the dialog as a program on its state, bank, transport, clock and map order as arbitrary functions | the log of every call has one of a few shapes; induction over call histories |
| C26, C27 | as C24 | exact characterisation of when the end message is sent and when a call succeeds; witnesses for a lost end message and for a panic at the end |
| C28, C30 | as C24 | invariants over all call histories; witnesses for the copies that disagree |
| C29 | as C24 | the accounts as a function of the log; induction over histories |
| C31 | as C24 | exact state in which a synchronisation starts; witnesses for stale IDs |
| C32–C34 | request builders | induction on the sorted version list |
| C35 | client on top of the dialog; recursion over pages with fuel | induction on the pages, over the log of messages sent |
| C36 | merging of pages | sorting lemma; exact for every list of pages |
| C37 | SWIFT lexer | runs of the state machine, as C01, C02 |
| C38 | message and tag extractors | soundness by induction on runs; completeness for written messages |
| C39 | MT940 unmarshaller on tags | invariant over the tags read so far |
| C40–C43 | transaction tag parser | exact date parsing; forward parsing lemmas; first occurrences of the separators |
| C44 | custom field parser | positions of the keys; induction on the sub-fields; crash for other orders |
| C45–C49 | IBAN | arithmetic modulo 97 |
| C50 | Latin-1 | pointwise |
| C51 | Base64 and logging middleware (UTF-8 middleware is unused) | induction in groups of three bytes |
| C52 | response classification | list lemma |
| C53 | ISO 9796 tables, both loops of the encoder, the decoder; the number of rounds of the first loop is a parameter, so that not returning can be stated | all 256 bytes by `decide`, closed forms of the loops by induction, then C54 |
| C54 | RSA on numbers and on byte blocks, nil receivers of `big.Int` | Fermat's theorem from Mathlib for every prime factor; digits in base 256 |
| C55 | timeframe | C10 |
| C56, C57 | lookups | list induction |
| C58 | the bank's balance segment, its elements and `AccountBalance` | C13, C62, C71 for the bytes; arithmetic on instants for the date |
| C59–C61 | element decoders | C12 |
| C62 | float and value elements | decimal lemmas |
| C63 | `IsValid` after `UnmarshalHBCI` | C09–C11 |
| C64 | encryption algorithm element and its decoder | C12 |
| C65 | message unmarshaller, segment decoders as a parameter | induction on the segments |
| C66 | signing | C19 |
| C67, C68 | decrypted message | C65, C16 |
| C69 | request builders on a decrypted message; dialog; client | C67; invariant over all histories of calls |
| C70, C71 | international account connection, balance | C12, C62 |
| C72 | continuation marks of requests | C04, C61 |
| C73 | range of transaction requests, the clock as an argument | case analysis of the calendar |
| C74 | logging over Base64 middleware, damaged texts | refuted: what precedes the damage is accepted |
| C75 | HTTPS transports, the HTTP client as a function | case analysis |
| C76 | as C24 | the program commutes with an exchange of the keys |
| C77 | statement loop | exact condition of acceptance and of crashes |
| C78 | account and balances of messages | invariant over the tags read so far |
| C79 | creation of a client from configuration and table | case analysis with C56 |
| C80 | client, pages of balances | induction on the pages, over the log of messages sent |
| C81 | client, single requests | case analysis over the log |
| C82 | client, accounts | C29 |
| C83 | status protocol segment | C61 for the acknowledgement; saturation of `Sub`; arithmetic on instants |
| C84 | statement segment | C07, C13 |
| C85 | all messages of a dialog, with what each call knows | what is known is a fold over the log |
| C86 | bank data of the dialog | the same fold, for the last answer that describes the bank |
| C87 | `init` of the client | induction over client histories, with C85 and C86 |
| C88 | synchronisation segment | wire format of a segment (C06, C14), C13 for the text |
| C89 | bank parameter segment | as C88; groups by splitting at `:` |
| C90 | PIN/TAN parameter segment | as C89, induction on the list of transactions |
| C91 | user and account segments | as C89, with trailing fields left out in every way |
| C92 | TAN parameter segment | induction on the list of procedures, 21 values each |
| C93 | decoders that meet a nil element, reading of a message | case analysis of the fields, induction over the segments before |
| C94 | the registry of segments, reading of a message | case analysis of the registry, with C65 |
| C95 | transport, reader, decoders and dialog together | induction on the segments of the answer with C88 to C92; C14 for the bytes; the folds of C85, C86 and C29 |
| C96 | sign, encrypt, marshal and transport together | invariant over all call histories (providers hold bank, user and last PIN); a relation between the log and the transport closed under sequencing |
| C97 | logging middleware, debug lines of `request` | reading one's own message: escaping leaves no bare terminator (induction over bytes), so the segments come apart again and none is one that crashes; a relation between two runs closed under sequencing; the PIN in the log refutes the second half |
| C98 | the table of banks (generated from `bankinfo/bank_data.go` by `tools/banktable.py`), creation of a client | facts about all entries by kernel evaluation of the whole table, which is finite and is the program's own data; the rest from C79 for all configurations |
| C99 | control reference: CRC-32, hexadecimal digits | the step of the checksum is injective and linear, four bytes act as one word; from there any length by induction; collisions as witnesses; C96 for the messages |
| C100 | all of the statement reader, against a writer of statements | induction over entries and statements; C38 for the messages, C40 for lines, the scanners for tags and sub-fields |
| C101 | whole answers (C95) as replies to the client's requests | C35 and C81 give the replies of a call, C95 their contents, C100 the statements in them; induction over pages |
| C102 | the same with a transport that gives these answers | every step of a dialog succeeds (C95, C96); induction over pages; then C101 |
| C103 | the same for a client that `New` has made | the synchronisation succeeds and leaves a client as in C102; `Accounts` by the two answers it reads |
| C104 | the segments of key management and the RDH dialog | exact conditions of the constructors; the bytes of the segments; invariant (no crypto provider, no transport) over all sequences of calls |
| C105 | `AccountInformation`, `CommunicationAccess` | the log of one request (as C81); C14 and C16 for the printed bytes; the decoders of HIKIF and HIKOM |
| C106 | the texts of acknowledgements and the errors made of them | the text comes apart again at its separators (induction over lines), decimal numbers are injective; witnesses for texts that cannot be told apart |
| C107 | `bankinfo/parser.go`, the loop of `cmd/bankdata_parser` | trimming against its own specification; the table as any sorted permutation; C56 for the lookup; an explicit table for each line |
| C108 | `UTF8Encoding` for encodings with one byte per character | UTF-8 decoding and `FullRune` proved against Lean's `utf8EncodeChar`; every text divided into characters, a torn end, or something that stops the writer; the exact condition for being sent |
| C109 | `String` of the printable lists in `domain`, `text/tabwriter` | the text cut into cells; column blocks by induction over the lines; the whole text in closed form |
| C110 | the commands of `cmd/banking`, from the values of the flags to the printed text | C103 and C109 put together; the requests by induction over the pages (C35, C80, C81) |
| C111 | clients made by `New` after any history of calls, then a willing bank | an invariant over histories: PIN and texts that can be written stay, since everything kept of an answer was read from Latin-1; then C102 and C103 |
| C112 | `IsValid` and `Length` of all elements and groups (Element/Validity) | induction over nested elements against a specification of what fits; the segments the library writes by cases (Client/ValidityProps) |
| C113 | `String` of elements and segments, searching own messages (Message/Texts) | induction over nested elements: what is sent is what is printed, or shorter |
| C114 | RSA keys: signing, encrypting, RDH signatures of messages (Message/RdhSign) | Fermat via C54 for the numbers, injectivity of the padded block; lengths of printed and sent text via C113 |
| C115 | an `Unmarshaler` under any sequence of calls (Message/Unmarshaler) | induction over the calls, with the number of times the message was looked at as invariant |
| C116 | the generated `UnmarshalHBCI` of segments with several versions (Bank/Wrappers) | one lemma over any list of cases, filtering the table of known segments by the ID |
| C117 | the log switches and programs using them (Logger/Model) | induction over programs; lines inside and outside as lists read off the program |
| C118 | the leaf elements, read before written (Element/Model) | what is read lies in the domain of the round trips C06 to C11 and C62; digit strings of equal length and value are equal |
| C119 | the signature end with PIN (Message/Model) | what is left of an escaped text after both cuts; an escaped text is never another one followed by an escape sign |
| C120 | source files as the generator sees them, the fields it finds, the code of both templates as a function of the bytes (Generator/Model) | fields found by induction on the list; a list with increasing lines is its own only sorting; reading by induction over the fields with the lemmas of C58 on dropped trailing elements; the checked-in reader of HISYN equals the generated one |
| C121 | the constructors as arrays of elements (Bank/Lists), the readers (Bank/Elements, Element/Groups) | the groups of an array flattened into parts separated by colons, extracted with the lemma of C12; induction over the lists; permitted transactions with C59 |
| C122 | references, number and account in the model of MT940 messages (Swift/Model) | values of single tags by cases on the slash; last tag of a kind by induction over the tags as in C78; whole statements with the writer of C100 |
| C123 | the dialog with any bank (Dialog/Model) and with the bank's segments (Bank/Views) | a program logic for calls that do not panic (`Calm`), induction over the history; types of decoded segments from C94, Latin-1 texts from the decoders |
| C124 | segments, groups and elements as they are written; the request constructors of segment/account_information.go and `NewTanRequestProcess2` are new in `Segment/MoreRequests` | a separate reader of the syntax is run over what is written: induction over the texts for quoting, over the elements for the separators, structural induction over nested groups for what trimming removes |
| C125 | the messages of the dialog model, down to the bytes | the pieces of a signed and wrapped message (C96) are read by `C124_message`; every element of the four security segments is compared with an explicit list; numbering by C19, the size by C18 |
| C126 | dialog and client model, down to the bytes | an invariant of the dialog (`CleanDialog`: everything it writes into later messages is clean) is kept by each step, by `Telling`; C125 then reads each message; for the client induction on the pages and on the history of calls |
| C127 | client, dialog and decoder model | `Steady`: each step keeps the texts of the dialog Latin-1 and does not panic; C123 for the dialog, induction on the pages and on the history; the readers of the segments by cases |
| C128 | the flag (Generator/Flags) | exact characterisation of splitting at commas and colons by induction; round trip and the failure of `String` follow from it |
| C129 | the source files with their structs, methods and `elements()` (Generator/Sources), the element types (Generator/Readers), the readers of Bank/Segments | the generated code as a chain of fields by induction over the field list; each reader is the same chain, and the values are looked up by name |
| C130 | the index as a map that is being filled (Bank/Index) | induction over the registrations: with distinct keys the index holds exactly them |
| C131 | instants, locations, calendar, and the three functions (Domain/Today) | the calendar and its inverse by arithmetic, the frame from them; cases around midnight for the violation |
| C132 | template and `strconv.Quote` (Bankinfo/Written); a reader of Go files as specification (Bankinfo/GoText) | round trip by induction over entries and texts; for the converse a literal that is read is never longer than what was written, and shorter if it has an escape |
| C133 | the thirteen flags (Generator/Directives) | flag evaluated, fields found, then each version by C129; the header the switch reads is the one the version reads |
| C134 | the dialog model of C70-C76 and the bytes of C96; `Twins`: two byte strings around the same parts, `Alike`: two states | a relation between two runs, preserved by every piece of program; the bytes by the decomposition of C96 |
| C135 | `main` over a map from names to contents (Generator/Command) | cases for one run; induction over the lines for `go generate`, permutations by comparing the final files |
| C136 | two runs of the dialog's methods in worlds that differ in `mapOrder` only (Dialog/OrderProps) | equality of programs after every possible answer, induction over the calls; a witness with two functions |
| C137 | two runs of the dialog's methods in worlds that differ in the clocks only (Dialog/ClockProps) | the bytes of a secured message around its two times, relational reasoning about the methods, induction over the calls |
| C138 | two runs of the dialog's methods from states that differ in what one dialog with the bank leaves behind (Dialog/LeftoverProps) | every program commutes with putting more in front of log and accounts; opening a dialog overwrites number and dialog ID; a witness after a failed synchronisation |

## Simplifications

* Floats are canonical decimals (sign, integer part, fraction digits without
  trailing zeros).  Binary rounding, exponents, infinities and NaN are not
  modelled; `strconv.ParseFloat`/`FormatFloat` are assumed exact on them.
* Segment decoders (`segment.KnownSegments` and the generated
  `UnmarshalHBCI` methods) are parameters of the message reader, the dialog and
  the client.  Theorems there hold for every choice of them.  `Bank` models the
  decoders themselves and the methods the dialog and client call on what they
  return (`Bank.decoders`, `Bank.views`, `Bank.clientViews`).
* `Bank`: of each segment only what the API can show is kept.  Strings made by
  `string(bytes)` are byte strings (`Raw`).
* `TimeArith`: a `time.Time` is a calendar date with a time of day, without
  location and monotonic clock; `Sub` saturates as in Go, `Add` is exact.
* `strings.ToUpper` in the IBAN code is the ASCII upper-casing; `strconv.Unquote`
  is a parameter where it is used.
* Sorting in place is modelled by sorted copies.
* Logging has no effect in the model, except that the logging middleware reads
  the answer (C74).  `Transport/Logging.lean` models it in full, C97 shows that the
  dialogs do the same with it.
* `parseBankParameterData` checks the type of the HIBPA segment before it stores
  the supported segments; the model checks and reads it afterwards.  With the
  decoders of the program the check cannot fail.
* The order of Go's map iteration is an arbitrary function of the step.

* SWIFT: floating point numbers, `strconv.ParseFloat`, `unicode.IsDigit` above
  Latin-1 and the current year are a parameter (`Lib`) over which the theorems
  quantify.  What a failing tag parser stored before it failed is left out.
* Client: `sort.Sort` is a parameter with three facts (ordered, a permutation,
  insertion sort up to twelve elements).  The readings of the clock are a
  function of their number.  `SetTransactionRange` reads the clock once.
  Paging takes a bound on the number of pages; theorems hold for every bound.

* `Crypto`: slices have no capacity beyond their length; moduli, exponents and factors
  are natural numbers; `big.Int` is exact.  `BlockSize`, which calls itself for ever, is
  left out.

* Bank table: an entry keeps bank ID, URL and the two version fields.  BIC, institute,
  city and date are left out.
* `controlRef` is a parameter of the dialog; C99 instantiates it with the code.

## Not modelled

* TLS and HTTP themselves, `transport/https/dial`.
* How RSA keys are generated (the primes are a parameter); C104 leaves signing to a parameter,
  C114 models it.
* `fmt.Sprintf("%+#v")`, which `CommunicationAccess` applies to its answer.
* `cmd` except for the loop of `bankdata_parser` (C107) and the file it writes (C132, without
  `format.Source`), the command `unmarshaler` (C128, C135) and the
  commands of `banking` (C110; how flags and PIN are read is left out), test helpers, the format of
  log lines.
* Of the generator: parsing Go, executing `text/template`, writing the files (C120 models which
  fields are found and what the generated code does). The source files in Generator/Sources were
  transcribed by a script that reads struct fields, method names and `elements()` from /repo/segment.

## Where the code and the expected property disagree

* C05, C12: values starting with certain characters and trailing empty group
  parts do not survive (witnesses beside the theorems).
* C24: when a message cannot be marshalled, its number is used up, so the next
  message skips one.
* C27: an error answer to the dialog end is only logged, but an answer that
  makes the reader panic, panics in the caller although the job succeeded.
* C28: a failed synchronisation resets the client system ID of the crypto
  provider only.
* C29: accounts are appended on every answer, never replaced, so they appear
  once per answer.
* C30: `SetPin` resets the providers' security function to 999 and the dialog
  does not notice.
* C31: a synchronisation continues number and dialog ID of whatever ran before.
* C35: pages are put in order by the time at which they were merged.  With a
  clock that does not advance between pages they come out reversed.  A
  continuation without a reference is a panic.  `SepaAccountTransactions` never
  sends its request.
* C72: a continuation mark with escape signs changes on its way back.
* C97: the logging middleware parses every request and every answer even when
  nothing is logged.  In debug mode the PIN is written to the log.
* C74: a damaged Base64 answer is taken for a complete, shorter one.
* C38: a first tag value of several lines whose first line has only capital
  letters and digits makes the whole statement unreadable; see
  `C38_multiline_lost`.  A NUL byte ends the statement.
* C40: without a booking date the first letter of the indicator is skipped, so
  debits become credits.  A reversed credit (`RC`) is reported as positive.
* C41: booking dates are up to two years late around the end of a year.
* C42: 29 and 30 February of a year without them are taken for days of the
  current year, not of the year given.
* C43: a line break followed by two slashes crashes the parser; reversals
  without a kind of currency are taken apart.
* C44: sub-fields in another order and very short descriptions crash.
* C77: the transactions of a message are built even if reading it failed, which
  crashes if the account or a balance is missing.
* C78: overdrawn accounts are reported with positive balances.
* C58: a booking date with a time is reported 366 days early: the time element
  is a time in year 0, and `Sub` subtracts it from year 1.
* C83: the time of a protocol entry is the transmitted date plus the largest
  `time.Duration`; an entry about a message without a segment crashes.
* C84: a statement segment without booked transactions crashes.
* C69: `Client.Status` never sends anything: it looks for the ID HIPRO, and IDs of five
  bytes are never recorded as supported.
* C88, C89: a synchronisation without an ID, or a bank without a name, crashes the client.
* C89, C90, C91, C92: texts in groups (bank ID, transactions, account number, names of
  procedures) keep the escape signs of the transmission.
* C90, C92: segments that leave out an optional number are refused, and with them the
  whole answer.
* C91: versions 6 and 7 of HIUPD keep only the first permitted transaction; an account
  limit crashes the client, a transaction limit makes it refuse the answer; the name of
  the user is lost before version 4 of HIUPA.
* C93: segments HIKPV, HIKOM version 3, HISHV version 2 and HNSHA with a PIN/TAN group, all
  allowed by the standard, call a method of a nil element: the client crashes.
* C94: parameter segments other than HIPINS, DIPINS and HITANS are unknown to the client; they
  count as supported segments (C67) but their parameters are never stored.
* C87: a bank that sends no parameters, or such with version 0, is asked for a new
  client system ID with every call.
* C96: a PIN that ends in `:` or `+` loses this character but keeps the escape sign before
  it, which then stands before the end of the segment.
* C53: decoding never searches for the beginning of the message (the loop condition is
  reversed), so that shorter messages come back repeated and the redundancy is never
  checked; some sizes of moduli crash or give the redundancy instead of the message; an
  empty message is never finished.
* C53, C54: the negative form of a signature, the number zero and every private key with
  its factors crash: the results are written to nil.
* C79: a bank with an unknown version in the table crashes `client.New`.
* C98: three banks of the table cannot be used by their ID: 23051030 (an empty entry
  after a good one), 30020500 and 60050000 (versions that are not supported).  169 banks
  get a client with an empty URL, 30010444 one with a space in its host.
* C99: users of a bank can have the same control reference (99504575 and 20959281 at
  10010010), and the parts of the name run together.
* C100: the sign of the balances before and after a statement is not reported; a reversed
  credit or debit (`RC`, `RD`) with a booking date is reported as positive; without a
  booking date the sign is taken from the letter after the mark, and the date is year 1.
* C82: `Client.Accounts` adds all accounts to those it returned before; a new client
  reports each account twice.
* `domain/language.go`: all three language constants are 1, so English and
  French cannot be asked for.
* C104: a public key is only accepted if its exponent is the text "65537".  No
  key made by the library has such an exponent, so none can be renewed or
  transmitted.  Every revocation reason is accepted.  An RDH dialog has neither
  crypto provider nor transport and can do nothing.
* C105: a HIKIF segment that names persons entitled to use the account crashes the
  client, so does a HIKOM segment with a way of access, which is all that
  `CommunicationAccess` asks for.  `AccountInformation` asks with version 1 always and
  takes a parameter segment HIKIFS for the information.
* C106: texts of the bank are put between quotation marks as they are, so one error
  can be worded to read like two.
* C107: with several lines for one bank number it is left to the sorting which one is
  found.  A number of blanks is not taken for a missing one.
* C108: the writer of `UTF8Encoding` is not closed, so a torn character at the end of a
  request is lost without an error.  Messages of the library are not UTF-8 and are
  refused or changed as soon as they have an umlaut.
* C109: the columns are as wide as their widest text with nothing in between, so long
  product names run into bank codes.  A single transaction runs bank code and account
  number together.  An empty product name is printed as twenty or more tabs.
* C110: `banking balances` asks for all accounts although one was named.
  `banking transactions` only works with `--disableSepa`.  `banking accounts` shows an
  account once per answer and never a limit.  A bank that is not in the table cannot be
  used even with `--hbci.url`.  The IBAN of an account of less than nine digits is too
  short (C49).
* C118: a time with a fraction of a second is not written as it was read.
* C119: PINs that differ only in a final `:` or `+` are sent as the same bytes.
* C120: an `elements()` method that is not a single `return` of a list makes the generator produce, without an error, a reader that reads no field; fields listed on one line are read in an order `sort.Sort` does not promise.
* C121: `NewAllowedBusinessTransactions` separates its transactions with `:`, its reader expects `+`; two or more are never read back (`C121_allowed`). An empty list of jobs is rejected by the reader of the type that wrote it (`C121_pin_jobs`).
* C122: An account tag `:25:` without a slash, which is how banks write an IBAN, makes the whole download fail (`C122_one_slash`). `FloatTag` refuses every decimal number of a statement (`C122_float`); the library itself does not use it.
* C125: a key name without the number of the bank is written with one part less, because the inner group is trimmed on its own: the user ID then stands where the bank is expected (`C125_no_bank`).
* C127: C127: a segment HIKAZ, HISAL or HIPRO that lacks a mandatory field is decoded without an error and then crashes the client.
* C128: C128: a piece of `-segment_versions` with four or more parts silently gets the interface `Segment`, and an error leaves the flag changed; `String` does not separate the segments.
* C131: `TimeframeFromDate`: the comment says that the end uses the location of the start; it is always UTC. In Berlin between midnight and one o'clock (two in summer) `TimeframeFromDate(NewShortDate(time.Now()))` ends the day before it starts, because `Date` drops the location.
* C132: the template of bankdata_parser escapes the institute only. A quote or line end in another column of the list breaks the file, and `Berlin"}, {BankID: "…", URL: "…` adds a bank with an address of its own to the table.
* C135: `main` of the command unmarshaler creates the file, and thereby empties it, before it parses what was generated; an error of parsing or printing is only printed. The old reader is lost and the exit code is 0 (`C135_destroyed`).
* C136: `updateSecurityFunctionIfNeeded` takes the first function Go's map iteration happens to give. If a bank announces two functions it describes, the same program with the same bank sends different bytes from run to run (`C136_any`, `C136_torn`).
* C138: A job without a client system ID, after a synchronisation that failed, asks for one with the old message number and the dialog ID of the failed dialog (`C138_leftover`).
* C117: `WithDebugLogging` switches debugging off at its end instead of restoring it, and leaves it
  on after a panic; `New` sets it for all clients.
* C116: these functions do not look at the ID of the segment, and panic (`elements[0]`) on bytes
  without elements (`C116_any_id`, `C116_nothing`).
* C115: a second `Unmarshal` adds the segments found by all calls so far again, so after n calls
  everything is there n(n+1)/2 times; `UnmarshalSegment` finds segments by the beginning of their bytes,
  so HISALS for HISAL.
* C114: `Sign` signs the text `String` prints for the signature header and the segments, but
  `MarshalHBCI` sends another, always shorter one.  An RDH signature could be verified only if the
  hash function did not tell them apart.  `NewEncryptionKey` takes the last eight bytes of an exponent.
* C113: `FindMarshaledSegment` of a message of one's own returns what `String` prints, never what is
  sent; `FindSegment` panics at a missing segment; `SegmentPosition` is always -1.
* C112: `IsValid` refuses blanks and ampersands in texts (the set of forbidden characters is
  written `"\n & \r"`), counts UTF-8 bytes instead of characters, and measures booleans and
  binary data by what Go prints for them. An acknowledgement is valid only with exactly ten
  parameters. So hardly any acknowledgement of a bank is valid, and the library's own balance
  and transaction requests and encrypted data are not. Nothing calls `IsValid`, so nothing
  is rejected. Groups do not know which of their elements are mandatory.
* C111: bank parameters that name no known version of a request are kept; the client does not
  ask the bank again.

## How to read the seeded edits

Each line of `seeded/LOG.jsonl` is one edit of the model in a scratch copy and the build that followed.

* A proof that fails is replaced by a hole and the build goes on, so that more than the first failure is seen.
  `declarations_failed` are the declarations whose own proof failed, `theorems_failed` the claims among them and, where
  the build was followed to its end, the claims that rest on a failed one.
* Most edits were run only until the first claim failed.  `theorems_failed` is then not the list of all claims that
  break.
* A failed proof shows that the theorem is not proved any more, not that it is false.  For claims that rest on a
  failed lemma only, whether the claim itself became false was not checked one by one.
* Failures are assigned to declarations by line.  In all but the last runs (the edits for C131, C132, C135 and C138), an
  error that Lean reports at the comment in front of a declaration was assigned to the declaration before it, so a neighbouring
  theorem may be named.
* Edits not reached in the time available are not in the log.  The edits prepared for C133 and C134 and two of the
  three for C137 were not run.
