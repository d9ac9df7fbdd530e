{"id": "C01", "title": "Tokenising loses no byte", "statement": "If tokenising a byte slice ends without an ERROR token, the token values concatenated in order are the input itself, each token's Pos is the offset of its value, and only the last token is EOF; the single exception is a NUL byte at a token start, where the tokens are exactly the input up to and including that NUL and the rest is silently dropped.", "quantifier": "every byte slice of every length, including binary payloads containing any byte", "why_tests_cant": "the inputs are unbounded byte strings; escapes, numbers, floats and length-prefixed binaries interact, and one bad rewind anywhere in the scanner would lose or repeat a byte only for particular neighbours", "anchors": ["token/lexer.go: NewLexer, Next, HasNext, emit, lexStart, lexAlphaNumeric, lexBinaryData, lexDigit, lexNumber"]}
{"id": "C02", "title": "Tokenising always finishes, and panics only in known cases", "statement": "Draining a lexer (HasNext/Next loop) over n bytes terminates after at most n+1 tokens, never blocks on the token channel, and does not panic unless the input ends in a '@' that starts a token, or a binary length plus its offset exceeds the largest int.", "quantifier": "every byte slice; every drain of the lexer", "why_tests_cant": "termination and absence of panics over all inputs is not a finite check; the panicking inputs are rare (a trailing '@', an overflowing length)", "anchors": ["token/lexer.go: Next, HasNext, acceptRun, lexBinaryData, lexStart"]}
{"id": "C03", "title": "Token kinds are truthful", "statement": "Every token of kind NUMERIC, DIGIT, FLOAT, BINARY_DATA, ALPHA_NUMERIC, TEXT or a separator has a value of the corresponding shape: digits without leading zero (or 0), digits with a leading zero, digits with one comma, '@n@' followed by exactly n bytes, escaped text without any unescaped delimiter, one delimiter byte; TEXT iff an alphanumeric value contains CR or LF after the scanned numeric prefix.", "quantifier": "every byte slice and every token it produces", "why_tests_cant": "the shapes are infinite languages; a test checks members, not that no token lies outside its language", "anchors": ["token/lexer.go: lexStart, lexAlphaNumeric, lexBinaryData, lexDigit, lexNumber, isDelimiter, isSyntaxSymbol"]}
{"id": "C04", "title": "Escaping round trip", "statement": "Marshalling a text value escapes it and unmarshalling unescapes it: unescape(escape(s)) = s, and distinct strings have distinct escaped forms.", "quantifier": "every string", "why_tests_cant": "covers every string, in particular every run of the escape character itself", "anchors": ["element/data_element.go: escape, unescape"]}
{"id": "C05", "title": "An escaped text value is one token", "statement": "A text value, once marshalled and followed by any delimiter, is read back by the lexer as exactly one token whose value is the marshalled text, followed by the delimiter. The only values for which this fails (with a lexer error) are those containing a NUL character and those starting with '0', at least one more digit and then a comma.", "quantifier": "every non-empty Latin-1 text value, every following delimiter, every remainder of the message", "why_tests_cant": "needs every interleaving of digits, commas, escapes and delimiters at any length; the failing values (such as '00,5') are far from the ones tests use", "anchors": ["element/data_element.go: AlphaNumericDataElement.MarshalHBCI, escape", "token/lexer.go: lexStart, lexAlphaNumeric, lexDigit, lexNumber"]}
{"id": "C06", "title": "Text element wire round trip", "statement": "For every string of Latin-1 characters, unmarshalling the marshalled bytes of a text element returns the same string and one byte per character was used for unescaped characters; for every string with a character above U+00FF marshalling panics.", "quantifier": "every string of Unicode characters", "why_tests_cant": "all strings; the panic depends on a single character anywhere", "anchors": ["element/data_element.go: AlphaNumericDataElement, TextDataElement", "charset/convert.go: ToUTF8, ToISO8859_1"]}
{"id": "C07", "title": "Binary element round trip and opacity", "statement": "For every byte string, unmarshalling the marshalled binary element returns it unchanged, and on the wire the lexer reads it as one BINARY_DATA token whatever bytes (delimiters, escapes, NUL) it contains.", "quantifier": "every byte string, every following delimiter and remainder", "why_tests_cant": "binary payloads are arbitrary bytes; delimiter-like content at every position must be skipped", "anchors": ["element/data_element.go: BinaryDataElement.MarshalHBCI, BinaryDataElement.UnmarshalHBCI", "token/lexer.go: lexBinaryData"]}
{"id": "C08", "title": "Binary decoding honours the declared length", "statement": "Whenever unmarshalling a binary element succeeds, the value has exactly the declared length and is the available payload, padded with zero bytes if the payload is shorter and cut if longer; a negative declared length panics. (A caller relying on truncated data being rejected is not protected.)", "quantifier": "every byte string handed to the decoder", "why_tests_cant": "the inputs come from the bank and range over all byte strings", "anchors": ["element/data_element.go: BinaryDataElement.UnmarshalHBCI"]}
{"id": "C09", "title": "Number and digit round trip", "statement": "For every int, unmarshalling a marshalled number returns it; a digit element of width w marshals a non-negative value to max(w, digits) characters, zero padded, and unmarshals to the same value.", "quantifier": "every int value and every width", "why_tests_cant": "unbounded integers and widths; padding boundaries move with the width", "anchors": ["element/data_element.go: NumberDataElement, DigitDataElement, CountryCodeDataElement"]}
{"id": "C10", "title": "Date and time element round trip", "statement": "For every calendar date with a year 0..9999 and every time of day, unmarshalling the marshalled date (time) returns the same date (time); unmarshalling accepts exactly the eight (six) digit strings that denote an existing date (time), and times also with a decimal fraction of a second behind the six digits.", "quantifier": "every date and time; every byte string offered for decoding", "why_tests_cant": "acceptance must be right for every byte string, including leap days and out-of-range fields", "anchors": ["element/data_element.go: DateDataElement, TimeDataElement"]}
{"id": "C11", "title": "Boolean and code validity", "statement": "Booleans round trip through J and N and nothing else is accepted. IsValid of a code element is true exactly for members of its valid set (and admissible lengths) - in fact it is true for every value not greater than the largest member, and IsValid of a boolean element is never true.", "quantifier": "every boolean, every code value and every valid set", "why_tests_cant": "the defect is invisible for members of the set; only quantification over all values shows which are accepted", "anchors": ["element/data_element.go: BooleanDataElement, CodeDataElement.IsValid, NewCode, basicDataElement.IsValid"]}
{"id": "C12", "title": "Group marshalling and extraction", "statement": "Extracting the elements of a marshalled data element group returns the marshalled bytes of its elements in order, with absent trailing elements dropped, whenever the last present element's bytes do not end in ':'; when they do (escaped text or binary ending in ':'), those bytes are cut off and the group is corrupted. Extraction also fails whenever an element contains '+' or an apostrophe, escaped or inside binary data.", "quantifier": "every group of any number of text, number, binary or absent elements with arbitrary contents", "why_tests_cant": "arbitrary nesting of arbitrary contents; the corruption needs a value with a particular last character", "anchors": ["element/data_element.go: elementGroup.MarshalHBCI", "element/element_extractor.go: ExtractElements, groupExtractor.Extract"]}
{"id": "C13", "title": "Segment marshalling and extraction", "statement": "Extracting the elements of a marshalled segment returns the header bytes and the marshalled bytes of its elements in order, with absent trailing elements dropped, whenever the last present element's bytes do not end in '+'; otherwise the bytes are cut and, for escaped text, the segment terminator becomes escaped.", "quantifier": "every segment of any number of elements with arbitrary contents", "why_tests_cant": "as for groups; a PIN ending in '+' is enough to corrupt a message and no example-based test has one", "anchors": ["segment/segment.go: segment.MarshalHBCI", "segment/element_extractor.go: ExtractElements, elementExtractor.Extract"]}
{"id": "C14", "title": "Message segmentation", "statement": "Extracting the segments of a message made of the marshalled segments s1..sn returns exactly [s1..sn]; in general the extracted segments concatenated are the input up to the last segment terminator.", "quantifier": "every list of well-formed segments; every byte slice for the general part", "why_tests_cant": "any number of segments with any content, including binary payloads that contain terminators", "anchors": ["message/segment_extractor.go: SegmentExtractor.Extract"]}
{"id": "C15", "title": "Field contents cannot change the message structure", "statement": "Whatever the contents of the text and binary fields of the segments of a message, extraction of the marshalled message returns the same number of segments, each with the same elements, i.e. no field value can inject or swallow an element or a segment. This fails exactly for values hitting the trailing-delimiter cut, NUL, or the leading-zero comma form.", "quantifier": "every message: every number of segments, elements and every field content supplied by a caller", "why_tests_cant": "an injection property: it ranges over adversarial contents of every field at once", "anchors": ["segment/segment.go: segment.MarshalHBCI", "element/data_element.go: escape, elementGroup.MarshalHBCI", "message/segment_extractor.go: SegmentExtractor.Extract", "segment/element_extractor.go: elementExtractor.Extract"]}
{"id": "C16", "title": "Segment lookup by ID", "statement": "FindSegments(id) returns, in order, exactly the segments whose bytes before the first ':' equal id; FindSegment(id) returns the first segment whose bytes begin with id, which can be a segment with a longer ID.", "quantifier": "every list of extracted segments and every id", "why_tests_cant": "order and exactness over all messages; the prefix case needs an id that is a prefix of another (HIKAZ / HIKAZS)", "anchors": ["message/segment_extractor.go: FindSegment, FindSegments"]}
{"id": "C17", "title": "Repeated extraction", "statement": "After k successful Extract calls on one extractor, Segments() holds the message's segments k times, and lookups by ID return each match k times; after a failing call the segments found before the error stay.", "quantifier": "every message and every number k of calls", "why_tests_cant": "a history property over any number of calls", "anchors": ["message/segment_extractor.go: Extract, Segments", "message/unmarshaler.go: UnmarshalSegment, extractSegment"]}
{"id": "C18", "title": "Declared message size is the transmitted size", "statement": "After SetSize and MarshalHBCI, the size field in the message header of the marshalled bytes denotes exactly the number of bytes of the whole marshalled message, for every message shorter than 10^12 bytes.", "quantifier": "every header, signature and list of segments", "why_tests_cant": "self-referential: writing the size must not change the size, for every content", "anchors": ["message/message.go: BasicMessage.SetSize, BasicMessage.MarshalHBCI", "segment/message_header.go: MessageHeaderSegment.SetSize"]}
{"id": "C19", "title": "Segments are numbered consecutively from one", "statement": "After SetSegmentPositions the header, signature header, every non-nil segment, the signature end and the message end carry positions 1,2,...,n in transmission order without gap or repetition, whatever positions they had before and however often it is called.", "quantifier": "every message with any number of segments, any of them nil, signed or not", "why_tests_cant": "any number of segments and any pattern of nil entries", "anchors": ["message/message.go: BasicMessage.SetSegmentPositions, BasicSignedMessage.SetSegmentPositions"]}
{"id": "C20", "title": "PIN/TAN encryption wrapper preserves the message", "statement": "Encrypting a message with the PIN/TAN provider and decrypting the result yields the same inner bytes, the outer message keeps the dialog ID and message number, and encryption fails exactly for an empty PIN.", "quantifier": "every message, dialog ID, message number and PIN", "why_tests_cant": "every message content, in particular contents with binary data and delimiters, has to survive being wrapped as binary data", "anchors": ["message/message.go: BasicMessage.Encrypt", "message/encryption.go: EncryptedMessage.Decrypt", "message/crypto.go: pinTanCryptoProvider.Encrypt, Decrypt", "domain/key.go: PinKey.Encrypt, PinKey.Decrypt"]}
{"id": "C21", "title": "Segment header round trip", "statement": "For every segment ID, position, version and optional reference, unmarshalling the marshalled header returns the same four values, and a header with fewer than three fields is rejected.", "quantifier": "every header value", "why_tests_cant": "all strings and ints in four fields; absent reference must not be confused with reference 0", "anchors": ["element/segment_header.go: SegmentHeader, NewSegmentHeader, NewReferencingSegmentHeader, UnmarshalHBCI"]}
{"id": "C22", "title": "Acknowledgement classification", "statement": "No acknowledgement is in two of the classes error, warning, success; errors are exactly codes >= 9000; codes 1000-2999 and 4000-8999 are in no class.", "quantifier": "every int code", "why_tests_cant": "all ints, boundaries included", "anchors": ["domain/acknowledgement.go: IsError, IsWarning, IsSuccess"]}
{"id": "C23", "title": "Acknowledgements of a response are complete and ordered", "statement": "A decrypted bank message reports the acknowledgements of its message acknowledgement segment first and then those of every segment acknowledgement in order, each carrying its type, the referenced message and the referenced segment number.", "quantifier": "every bank message with any number of acknowledgement segments and entries", "why_tests_cant": "any number of acknowledgements; a dropped or misattributed one may be the only error report", "anchors": ["message/decryption.go: NewDecryptedMessage, Acknowledgements", "segment/acknowledgement.go: MessageAcknowledgement, SegmentAcknowledgement"]}
{"id": "C24", "title": "Message numbers within a dialog", "statement": "In every dialog opened by sending a message, the messages sent carry numbers 1, 2, 3 in the order of sending, starting with the initialisation, in header and trailer alike, for any sequence of calls and any bank answers. The only exception: a job that cannot be marshalled (a text outside Latin-1) uses up number 2 without being sent, so the dialog end is number 3 after number 1.", "quantifier": "every history of API calls and every sequence of bank responses and transport failures", "why_tests_cant": "a history property: numbering depends on state left by earlier, possibly failed, dialogs", "anchors": ["dialog/dialog.go: SendMessage, init, end, nextMessageNumber, newBasicMessage"]}
{"id": "C25", "title": "The dialog ID sent is the one the bank assigned", "statement": "Every initialisation sent by SendMessage carries dialog ID \"0\"; every later message of that dialog carries the ID from the bank's answer to that initialisation, never one of an earlier dialog.", "quantifier": "every history of API calls and bank responses", "why_tests_cant": "stale IDs only show after particular histories (failed or repeated dialogs)", "anchors": ["dialog/dialog.go: init, SendMessage, SyncClientSystemID, end"]}
{"id": "C26", "title": "Every opened dialog is closed", "statement": "If initialisation succeeds, SendMessage sends exactly one dialog end after the job, whether the job succeeds, is rejected or fails in transport; if initialisation is rejected by an error acknowledgement, no dialog end is sent although the bank assigned a dialog.", "quantifier": "every bank behaviour and failure point", "why_tests_cant": "the failure points are the quantifier: any of the exchanges can fail or be rejected", "anchors": ["dialog/dialog.go: SendMessage, init, end, SyncClientSystemID"]}
{"id": "C27", "title": "Errors are reported exactly when the bank reports one", "statement": "If all exchanges deliver a readable response, SendMessage returns an error iff some acknowledgement of the initialisation or job response is an error acknowledgement (or security function handling fails); warnings never cause an error.", "quantifier": "every pair of responses with any acknowledgements", "why_tests_cant": "any number and order of acknowledgements", "anchors": ["dialog/dialog.go: SendMessage, init", "domain/acknowledgement.go: IsError"]}
{"id": "C28", "title": "Client system ID is acquired once and used consistently", "statement": "A client system ID is requested exactly when none has been assigned yet; after a successful synchronisation the dialog, signature provider and crypto provider all use the assigned ID; during and after a failed synchronisation the signature provider may disagree with the crypto provider.", "quantifier": "every history of synchronisations, failures and sends", "why_tests_cant": "agreement of three copies of a value over all histories", "anchors": ["dialog/dialog.go: SyncClientSystemID, SetClientSystemID, init", "message/crypto.go: SetClientSystemID", "message/signature.go: SetClientSystemID"]}
{"id": "C29", "title": "Accounts reported to the caller", "statement": "The list of accounts the dialog holds is the concatenation of the account lists of every response parsed so far, so it contains each account once per parsed response - a caller is returned duplicates after the second response carrying user parameter data.", "quantifier": "every history of parsed responses", "why_tests_cant": "depends on how many dialogs were run before; a single-call test sees no duplicates", "anchors": ["dialog/dialog.go: parseUserParameterData, init, SyncClientSystemID", "client/client.go: Accounts"]}
{"id": "C30", "title": "Security function follows the bank until the PIN is replaced", "statement": "After a successful initialisation that announces supported security functions, dialog and both providers use the same, supported, function; after SetPin the providers fall back to the one-step function 999 while the dialog still believes in the negotiated one, so a later announcement of it is not re-applied.", "quantifier": "every history of initialisations and SetPin calls", "why_tests_cant": "history dependent; needs a SetPin between two dialogs", "anchors": ["dialog/dialog.go: updateSecurityFunctionIfNeeded, SetSecurityFunction", "dialog/pin_tan_dialog.go: SetPin", "message/signature.go: NewPinTanSignatureProvider"]}
{"id": "C31", "title": "State in which a synchronisation starts", "statement": "A synchronisation always continues the message number of the previous exchange and carries the dialog ID left behind by it: it starts with number 1 and ID \"0\" exactly if no message has been begun before. After a failed synchronisation, and just as after any properly ended dialog, the next one starts with the stale dialog ID and the continued message number.", "quantifier": "every history of failures", "why_tests_cant": "only visible after specific failure histories", "anchors": ["dialog/dialog.go: SyncClientSystemID, end"]}
{"id": "C32", "title": "Request version selection", "statement": "For every set of versions the bank offers, the request builders for balances, SEPA balances, transactions and TAN pick the highest offered version they implement, fail exactly when none is implemented, and the request carries the chosen version.", "quantifier": "every list of offered versions in every order with repetitions", "why_tests_cant": "all lists of ints", "anchors": ["segment/account_balance.go: AccountBalanceRequestBuilder, SepaAccountBalanceRequestBuilder", "segment/account_transaction.go: AccountTransactionRequestBuilder", "segment/tan.go: TanProcess4RequestBuilder", "segment/hbci_version.go: NewBuilder, builder"]}
{"id": "C33", "title": "SEPA transaction requests can be built when offered", "statement": "SepaAccountTransactionRequestBuilder returns a version 7 request whenever the bank offers version 7. (In fact it returns an error for every list of versions.)", "quantifier": "every list of offered versions", "why_tests_cant": "the negative result is a statement about all lists", "anchors": ["segment/account_transaction.go: SepaAccountTransactionRequestBuilder", "client/client.go: SepaAccountTransactions"]}
{"id": "C34", "title": "Status protocol requests carry an offered version", "statement": "StatusProtocolRequestBuilder returns a request of the highest offered version among 3 and 4. (In fact the versions are swapped: offering only 4 yields a version 3 request and vice versa.)", "quantifier": "every list of offered versions", "why_tests_cant": "needs the version of the produced request to be compared with the offered list for all lists", "anchors": ["segment/status_protocol.go: StatusProtocolRequestBuilder"]}
{"id": "C35", "title": "Continuation paging is complete", "statement": "AccountTransactions follows continuation references until a response without one and returns the transactions of all pages, none lost and none duplicated; it fails if any page fails, and panics if a continuation acknowledgement has no parameter.", "quantifier": "every number of pages, every content, every failure point", "why_tests_cant": "any number of pages", "anchors": ["client/client.go: accountTransactions, AccountTransactions"]}
{"id": "C36", "title": "Merged statement pages keep their order", "statement": "MergeMT940Messages returns the concatenation of the pages' data sorted by reception time; pages received at strictly increasing times are concatenated in reception order, whatever order they are passed in.", "quantifier": "every list of pages and time stamps", "why_tests_cant": "all permutations and lengths", "anchors": ["swift/unmarshal.go: MergeMT940Messages, sortedByTimestamp"]}
{"id": "C37", "title": "SWIFT tokenising loses no byte and terminates", "statement": "If tokenising a SWIFT message ends without an ERROR token, the token values concatenated are the input (up to a NUL at a token start); draining terminates for every input.", "quantifier": "every byte slice", "why_tests_cant": "unbounded inputs; tag boundaries, CR LF handling and look-ahead interact", "anchors": ["token/swift_lexer.go: NewSwiftLexer, lexSwiftEntryPoint, lexTagID, lexSwiftStart, isTagBoundary"]}
{"id": "C38", "title": "SWIFT messages and tags partition the statement", "statement": "The messages extracted from a statement, concatenated, are the statement up to the last message separator; the tags extracted from a message are in order and contain every byte between tag separators.", "quantifier": "every statement", "why_tests_cant": "any number of messages and tags with any content", "anchors": ["swift/message_extractor.go: MessageExtractor.Extract", "swift/tag_extractor.go: tagExtractor.Extract"]}
{"id": "C39", "title": "Statement lines become transactions in order with their own description", "statement": "Parsing an MT940 message yields one transaction per :61: tag, in order, and a :86: tag following a :61: is attached to that transaction and to no other; a second description for the same transaction or an unknown tag is an error.", "quantifier": "every sequence of tags", "why_tests_cant": "any number and interleaving of tags", "anchors": ["swift/mt940_unmarshaler.go: MT940.Unmarshal", "swift/mt940.go: AccountTransactions"]}
{"id": "C40", "title": "Debit and credit sign of a transaction", "statement": "A transaction is reported with negative amount iff its statement line is a debit. This holds for lines with a booking date; for a line without booking date the indicator's first letter is swallowed, so every plain debit 'D' is reported as positive.", "quantifier": "every statement line", "why_tests_cant": "the two date forms times all following characters; existing tests all have booking dates", "anchors": ["swift/mt940.go: TransactionTag.Unmarshal, MT940.AccountTransactions"]}
{"id": "C41", "title": "Booking date year", "statement": "The booking date of a statement line is the occurrence of its month and day closest to the value date. The code uses the value date's year, plus one year whenever the months differ by more than one, so a December booking with a January value date is dated almost a year late.", "quantifier": "every value date and booking month/day", "why_tests_cant": "all date pairs; only year-end pairs expose it", "anchors": ["swift/mt940.go: TransactionTag.Unmarshal, parseDate"]}
{"id": "C42", "title": "Two-digit years in statements", "statement": "parseDate interprets YYMMDD in the century of the reference year and rejects impossible days, except that it turns 29/30 February failures into days of March of the reference year.", "quantifier": "every six or four digit date and every reference year", "why_tests_cant": "all dates and years", "anchors": ["swift/mt940.go: parseDate"]}
{"id": "C43", "title": "Statement fields are cut at the right places", "statement": "For every transaction line built from value date, optional booking date, indicator, kind, amount, booking key and references, parsing returns these fields (customer and bank reference split at '//').", "quantifier": "every combination of field contents", "why_tests_cant": "unbounded field contents", "anchors": ["swift/mt940.go: TransactionTag.Unmarshal"]}
{"id": "C44", "title": "Purpose fields are cut at the right places", "statement": "Parsing a :86: description whose sub-fields are in ascending order returns each sub-field's text under its own key; the purpose is the concatenation of the purpose sub-fields; with fewer than three bytes of text or out-of-order sub-fields it is never accepted: it crashes, unless spare bytes of the array behind a short text are read as a number, or a malformed ?34 is met first, which are errors.", "quantifier": "every description text", "why_tests_cant": "unbounded contents and any subset of sub-fields", "anchors": ["swift/element.go: CustomFieldTag.Unmarshal"]}
{"id": "C45", "title": "Constructed IBANs are valid", "statement": "For every two letter country code and every BBAN of letters and digits within the length limit, New returns country code, two check digits and BBAN, and the result passes Valid; it fails exactly for a wrong country code length, an empty or an over-long BBAN.", "quantifier": "every country code and BBAN", "why_tests_cant": "a number-theoretic fact over all BBANs of up to 30 characters", "anchors": ["iban/iban.go: New, Valid, transformLettersToDigits"]}
{"id": "C46", "title": "IBAN parse round trip", "statement": "From accepts exactly the strings New can produce (after upper-casing) and returns them unchanged; it panics for inputs shorter than four bytes.", "quantifier": "every input string", "why_tests_cant": "all strings; short inputs panic", "anchors": ["iban/iban.go: From, IsValid, New, String"]}
{"id": "C47", "title": "IBAN check digits detect typing errors", "statement": "Changing a single digit of the BBAN of a valid IBAN, or swapping two different adjacent digits, makes it invalid.", "quantifier": "every valid IBAN, every position, every replacement", "why_tests_cant": "all IBANs, positions and replacements; needs arithmetic modulo 97", "anchors": ["iban/iban.go: Valid"]}
{"id": "C48", "title": "IBAN printing and accessors", "statement": "CountryCode, ProofNumber and BBAN concatenated are the IBAN; Print inserts a blank after every fourth character and removing the blanks gives the IBAN back.", "quantifier": "every IBAN of at least four characters without blanks", "why_tests_cant": "all lengths modulo four", "anchors": ["iban/iban.go: Print, BBAN, CountryCode, ProofNumber, BankID, AccountID"]}
{"id": "C49", "title": "German IBAN construction", "statement": "NewGerman(bank, account) yields a valid German IBAN of 22 characters whose BankID and AccountID are the inputs. It does so only for account numbers of 9 or 10 digits (and 8 digit bank IDs); shorter account numbers give a shorter IBAN.", "quantifier": "every bank ID and account number", "why_tests_cant": "all lengths of account numbers", "anchors": ["iban/iban.go: NewGerman, BankID, AccountID"]}
{"id": "C50", "title": "Latin-1 conversion is a bijection on its domain", "statement": "Decoding ISO 8859-1 bytes never fails and re-encoding returns the same bytes; encoding succeeds exactly for strings whose characters are all at most U+00FF.", "quantifier": "every byte string and every string", "why_tests_cant": "all byte strings and all strings", "anchors": ["charset/convert.go: ToUTF8, ToISO8859_1"]}
{"id": "C51", "title": "Base64 transport is transparent", "statement": "Sending a request through the Base64 middleware hands the encoded body to the transport, and the caller receives exactly the bytes the bank encoded, in one line or several; transport errors reach the caller, and a character outside the alphabet is a decoding error.", "quantifier": "every request body, every response body and every transport behaviour", "why_tests_cant": "all byte strings including all length remainders modulo three", "anchors": ["transport/middleware/encoding.go: Base64Encoding"]}
{"id": "C52", "title": "Encrypted responses are recognised", "statement": "A response is treated as encrypted iff one of its segments begins with the encryption header ID.", "quantifier": "every response", "why_tests_cant": "over all responses", "anchors": ["transport/transport.go: Response.IsEncrypted, ReadResponse"]}
{"id": "C53", "title": "ISO 9796 block coding", "statement": "The nibble permutation used for redundancy is a bijection with the stated inverse, the encoded block has the size the modulus dictates, and decoding the encoding of a block returns the block. In fact this holds only for messages of exactly half the length of the modulus: a shorter one is returned repeated, a longer one crashes the encoder and an empty one makes it loop for ever. For moduli of some sizes every message crashes or is read as its redundancy. The redundancy of a signature is never checked, and the negative form of a signature crashes the decoder.", "quantifier": "every message block and every modulus size", "why_tests_cant": "all blocks and sizes", "anchors": ["crypto/iso9796_encoding.go: encodeBlock, decodeBlock, ProcessBlock, InputBlockSize, OutputBlockSize"]}
{"id": "C54", "title": "RSA core decrypts what it encrypts", "statement": "For every RSA key pair and every input smaller than the modulus, processing with the public exponent and then with the private exponent returns the input. In fact byte blocks lose their leading zeros, zero crashes the engine, and so does every use of a private key with its factors.", "quantifier": "every key pair and input", "why_tests_cant": "number theory over all keys", "anchors": ["crypto/rsa.go: RSACoreEngine.ProcessBlock, ConvertInput, ConvertOutput; RSAEngine.ProcessBlock"]}
{"id": "C55", "title": "Timeframe serialisation", "statement": "A timeframe survives ToQuery/TimeframeFromQuery and MarshalJSON/UnmarshalJSON with its dates; malformed JSON text yields an error - in fact a malformed one yields a zero timeframe without error.", "quantifier": "every pair of dates; every text", "why_tests_cant": "all dates and texts", "anchors": ["domain/time.go: Timeframe.ToQuery, TimeframeFromQuery, Timeframe.MarshalJSON, Timeframe.UnmarshalJSON"]}
{"id": "C56", "title": "Bank lookup", "statement": "FindByBankID returns the last entry with the given ID, or the zero entry if there is none; the HBCI version of an entry is the larger of the two version columns and panics for an unknown column value.", "quantifier": "every data set and ID", "why_tests_cant": "all data sets, duplicates included", "anchors": ["bankinfo/bank_info.go: FindByBankID, HbciVersion, hbciVersion"]}
{"id": "C57", "title": "TAN requirement lookup", "statement": "NeedsTan(segment) answers from the first entry for the segment and reports whether there was one.", "quantifier": "every list of entries and every segment ID", "why_tests_cant": "all lists, duplicates included", "anchors": ["domain/bank_parameter_data.go: PinTanBusinessTransactions.NeedsTan"]}
{"id": "C58", "title": "Balance booking time", "statement": "The booking date of a reported balance is the transmitted date at the transmitted time of day. In fact whenever a booking time is transmitted the reported instant lies 366 days too early, and a time without date panics.", "quantifier": "every date and time", "why_tests_cant": "all dates; the shift is constant but only visible when a time is present", "anchors": ["segment/account_balance.go: AccountBalanceResponseSegmentV5.AccountBalance, AccountBalanceResponseSegmentV7.SepaAccountBalance"]}
{"id": "C59", "title": "Allowed business transactions with a limit", "statement": "An allowed business transaction transmitted with a limit (kind, amount, currency, days) is understood. In fact whenever an amount is transmitted the whole entry is rejected.", "quantifier": "every entry", "why_tests_cant": "all contents; only entries carrying a limit amount expose it", "anchors": ["element/user_parameter_data.go: AllowedBusinessTransactionDataElement.UnmarshalHBCI", "element/group_data_element_group.go: AmountDataElement.UnmarshalHBCI"]}
{"id": "C60", "title": "Account connection round trip", "statement": "For every account connection with Latin-1 fields, unmarshalling the marshalled element returns the same connection, provided no field needs escaping and the bank ID is not empty; fields with escaped characters come back still escaped.", "quantifier": "every account connection", "why_tests_cant": "all field contents", "anchors": ["element/group_data_element_group.go: AccountConnectionDataElement, NewAccountConnection, UnmarshalHBCI"]}
{"id": "C61", "title": "Acknowledgement element decoding", "statement": "Unmarshalling an acknowledgement returns code, reference, text and all parameters in order; fewer than three fields or a non-numeric code is an error.", "quantifier": "every byte string", "why_tests_cant": "any number of parameters with any content", "anchors": ["element/acknowledgement.go: AcknowledgementDataElement.UnmarshalHBCI, Val"]}
{"id": "C62", "title": "Amount round trip", "statement": "A decimal amount is written as sign, digits, comma and digits, is one token on the wire, and unmarshalling returns the same amount.", "quantifier": "every decimal fraction in canonical notation", "why_tests_cant": "unboundedly many amounts; leading zeros and missing fractions are the risky cases", "anchors": ["element/data_element.go: FloatDataElement, ValueDataElement"]}
{"id": "C63", "title": "Validity of decoded elements", "statement": "A decoded number or time is valid; a decoded date is valid unless it is 1 January of year 1; a decoded alphanumeric is valid iff it has no blank, line break or ampersand; a decoded binary or code element is never valid.", "quantifier": "every byte string the decoders accept", "why_tests_cant": "IsValid and UnmarshalHBCI are tested on hand-picked values only", "anchors": ["element/data_element.go: IsValid and UnmarshalHBCI of the element types"]}
{"id": "C64", "title": "Encryption header cannot be read back", "statement": "The encryption algorithm element the library writes into HNVSK is read back by its own decoder. In fact the writer leaves out the trailing empty initialisation value, so six fields are on the wire, and the decoder demands seven: it always fails; and where it succeeds the values are stored in a new element and the receiver keeps none of them.", "quantifier": "every encryption algorithm element the library constructs, every byte string", "why_tests_cant": "all clocks, keys and system IDs; the test suite decodes hand-written seven-field elements only", "anchors": ["element/encryption.go: EncryptionAlgorithmDataElement.UnmarshalHBCI, NewPinTanEncryptionAlgorithm, NewRDHEncryptionAlgorithm", "element/signature_fints3.go: SecurityProfileDataElement.UnmarshalHBCI"]}
{"id": "C65", "title": "Reading a response message", "statement": "Unmarshalling a message yields, for each known segment ID, the decoded segments in order of arrival; unknown segments are skipped. It panics exactly when some segment has no first element (a lone segment end), or the lexer panics.", "quantifier": "every byte string", "why_tests_cant": "arbitrary responses from the network", "anchors": ["message/unmarshaler.go: Unmarshaler.Unmarshal, extractSegmentHeader, SegmentsByID, SegmentByID"]}
{"id": "C66", "title": "Signed PIN/TAN messages", "statement": "Signing puts a signature header in front of the contents and a signature end behind them; both carry the same control reference, the header carries the selected security function, the profile that belongs to it (1 for function 999, else 2) and the key name, the end carries the PIN; all segments are renumbered and nothing else changes.", "quantifier": "every message, key, security function and clock", "why_tests_cant": "all key names, PINs and contents, including nil segments", "anchors": ["message/message.go: BasicMessage.Sign", "message/signature.go: pinTanSignatureProvider", "segment/signature_header.go", "segment/signature_end.go"]}
{"id": "C67", "title": "Supported segments of a response", "statement": "SupportedSegments of a response lists ID and version of exactly the segments whose ID is longer than five bytes, in order of arrival, and never panics.", "quantifier": "every response that could be read", "why_tests_cant": "arbitrary responses from the network; the list decides which request versions the client sends", "anchors": ["message/decryption.go: decryptedMessage.SupportedSegments", "message/unmarshaler.go: extractSegmentHeader"]}
{"id": "C68", "title": "Position of a segment in a response", "statement": "SegmentPosition(id) is the position written in the header of the first segment whose text begins with the ID (a longer ID included), -1 if there is none; it never panics.", "quantifier": "every response that could be read and every ID", "why_tests_cant": "arbitrary responses and IDs", "anchors": ["message/decryption.go: decryptedMessage.SegmentPosition", "message/segment_extractor.go: FindSegment"]}
{"id": "C69", "title": "Status protocol requests can be built from a response", "statement": "If the bank's response offers the status protocol, the builder fed with its SupportedSegments can build a status request. In fact it never can: the report leaves out IDs of five bytes, and the builder looks for one (HIPRO).", "quantifier": "every response that could be read, every range and mark", "why_tests_cant": "a statement about all responses; the tests feed the builder with hand-made lists", "anchors": ["segment/hbci_version.go: builder.StatusProtocolRequest", "message/decryption.go: decryptedMessage.SupportedSegments"]}
{"id": "C70", "title": "International account connection round trip", "statement": "Reading back a written international account connection returns IBAN, BIC, account and sub account unchanged, and country and bank ID with the bank ID still escaped; exactly the connections with an empty bank ID, with a + or ' in a field, or with a bank ID ending in a colon cannot be read back.", "quantifier": "every international account connection with Latin-1 fields", "why_tests_cant": "all field contents", "anchors": ["element/group_data_element_group.go: InternationalAccountConnectionDataElement, NewInternationalAccountConnection, UnmarshalHBCI"]}
{"id": "C71", "title": "Balance round trip", "statement": "A balance element transmitted as debit/credit sign, unsigned amount, currency, date and optional time is read as the signed amount (negative exactly for D), the currency and the transmitted date and time.", "quantifier": "every amount in canonical notation, currency, date and time of day", "why_tests_cant": "all amounts and dates; sign handling is only visible for debits", "anchors": ["element/group_data_element_group.go: BalanceDataElement, NewBalance, UnmarshalHBCI, Balance"]}
{"id": "C72", "title": "Continuation mark is echoed", "statement": "The continuation mark the bank sends is sent back unchanged. In fact this holds exactly for marks without ?, @, ', : and +: it is read without removing escape signs and escaped again when written.", "quantifier": "every mark", "why_tests_cant": "all byte strings; test marks contain no special characters", "anchors": ["segment/account_balance.go: SetContinuationMark", "segment/account_transaction.go: SetContinuationReference", "element/acknowledgement.go: AcknowledgementDataElement.UnmarshalHBCI"]}
{"id": "C73", "title": "Range of a transaction request", "statement": "SetTransactionRange asks for the given start and end; a missing end means today, a missing start means the same day of the month before today (carried into this month if that day does not exist). The default range is never empty; with only an end given the range may begin after its end.", "quantifier": "every timeframe and every date of the clock", "why_tests_cant": "all dates; month ends and leap years are the risky cases", "anchors": ["segment/account_transaction.go: SetTransactionRange of AccountTransactionRequestV5, V6, V7"]}
{"id": "C74", "title": "A damaged response is reported", "statement": "A response whose Base64 text is damaged or cut off is an error. In fact a PIN/TAN dialog takes the bytes before the damage for the complete response, because the logging middleware passes on what it could read; acknowledgements after the damage are lost without an error.", "quantifier": "every answer and every damage at a group of four characters", "why_tests_cant": "all answers and damages; no test sends a damaged answer", "anchors": ["transport/middleware/logging.go: Logging", "transport/middleware/encoding.go: Base64Encoding", "dialog/pin_tan_dialog.go: NewPinTanDialog"]}
{"id": "C75", "title": "HTTP status codes", "statement": "Over HTTPS a PIN/TAN dialog takes the body of any answer for the bank's message, whatever the status code; the Base64 transport decodes the body exactly if the status is 200.", "quantifier": "every status code, request and answer", "why_tests_cant": "all status codes and bodies", "anchors": ["transport/https/https.go: HTTPSTransport.Do, HTTPSBase64Transport.Do"]}
{"id": "C76", "title": "Anonymous dialogs reveal no secret", "statement": "Messages of an anonymous dialog are numbered from 1, start with dialog ID 0, are neither signed nor encrypted, and neither they nor the result depend on the PIN that was set.", "quantifier": "every job, state and PIN, and all answers of the bank", "why_tests_cant": "independence of a value is a statement about all pairs of runs", "anchors": ["dialog/dialog.go: SendAnonymousMessage, anonymousInit, anonymousEnd", "dialog/pin_tan_dialog.go: SetPin"]}
{"id": "C77", "title": "A broken message is an error", "statement": "A statement is accepted exactly if all its messages are, and its transactions are theirs in order. A broken message should be an error; in fact the transactions of a message are built even after an error, so any message that leaves no account, or transactions without starting or closing balance, crashes the program.", "quantifier": "every statement", "why_tests_cant": "all statements; tests contain only complete messages", "anchors": ["swift/unmarshal.go: UnmarshalMT940", "swift/mt940.go: AccountTransactions", "swift/mt940_unmarshaler.go: MT940.Unmarshal"]}
{"id": "C78", "title": "Balances around a transaction", "statement": "The transactions of a statement carry the account, starting balance and closing balance of their message. In fact the debit indicator of the balances is dropped: an overdrawn account is reported with a positive balance.", "quantifier": "every accepted message", "why_tests_cant": "all messages; the existing tests have credit balances", "anchors": ["swift/mt940.go: AccountTransactions, BalanceTag.Unmarshal"]}
{"id": "C79", "title": "A new client", "statement": "New takes URL and HBCI version from the configuration, or else from the last entry of the table for the bank; it fails if the version is not supported. The dialog of the new client is fresh, for that bank and user, with the configured PIN in both providers. A bank whose listed version is unknown crashes the program.", "quantifier": "every configuration and table", "why_tests_cant": "all configurations and tables", "anchors": ["client/client.go: New", "bankinfo/bank_info.go: FindByBankID", "dialog/pin_tan_dialog.go: NewPinTanDialog, SetPin"]}
{"id": "C80", "title": "All pages of balances are fetched", "statement": "SepaAccountBalances follows the references of the bank until there is none, asks for the same account each time, and returns the balances of all pages in order. It returns balances exactly if every page was answered without error, with at least one readable balance.", "quantifier": "every bank, account, starting reference and number of pages", "why_tests_cant": "the number of pages is not bounded; tests have one page", "anchors": ["client/client.go: SepaAccountBalances", "segment/account_balance.go: SetContinuationMark"]}
{"id": "C81", "title": "Balances and status in one request", "statement": "AccountBalances and Status send at most one request for the given account or dates. They return what the segments of the answer say, in order, exactly if the answer has no error and is readable; for balances there must be at least one.", "quantifier": "every bank, account, range and state", "why_tests_cant": "all answers of the bank", "anchors": ["client/client.go: AccountBalances, Status"]}
{"id": "C82", "title": "Accounts are reported once", "statement": "Accounts returns the accounts the bank describes. In fact they come after all accounts the client held before and those of the synchronisations made for the call, so that every call adds all accounts again, and a new client reports each of them twice.", "quantifier": "every bank and state", "why_tests_cant": "depends on the history of calls", "anchors": ["client/client.go: Accounts, init", "dialog/dialog.go: SyncUserParameterData, parseUserParameterData"]}
{"id": "C83", "title": "When a job was received, in the status protocol", "statement": "Status reports code, reference and texts of each entry of the protocol, and when the bank received it. In fact the time reported is always the transmitted date plus 106751 days at 23:47:16.854775807, whatever time was transmitted; an entry about a message that names no segment crashes the client.", "quantifier": "every entry of the protocol and every time of the call", "why_tests_cant": "all entries, dates and readings of the clock", "anchors": ["segment/status_protocol.go: Status", "segment/status_protocol_unmarshaler.go"]}
{"id": "C84", "title": "Booked transactions arrive byte for byte", "statement": "The statement the client takes from a segment HIKAZ is exactly the data the bank sent as booked transactions, whatever bytes it consists of and whatever follows as unbooked. A segment with only unbooked transactions crashes the client.", "quantifier": "all data and positions, versions 5 to 7", "why_tests_cant": "all byte strings, including those with separators", "anchors": ["segment/account_transaction.go: BookedSwiftTransactions", "element/swift.go: SwiftMT940DataElement", "segment/account_transaction_unmarshaler.go"]}
{"id": "C85", "title": "What the messages of a dialog say", "statement": "Every message of a dialog says exactly what its kind demands: the bank and language given, the client ID, client system ID and parameter versions that the answers so far have taught, the product, the security method, and the request of the caller. A synchronisation asks for a new client system ID with system ID 0 and parameter versions 0; an anonymous dialog identifies itself with 9999999999.", "quantifier": "every history of calls, every bank and every message of it", "why_tests_cant": "what is known depends on all answers of all earlier calls", "anchors": ["dialog/dialog.go: init, anonymousInit, SyncClientSystemID, dialogEnd, parseBankParameterData, parseUserParameterData", "message/dialog.go", "segment/identification.go", "segment/initialization.go", "segment/sync.go"]}
{"id": "C86", "title": "What is known about the bank", "statement": "After any history of calls the dialog holds the parameters, supported segments, PIN/TAN requirements and segment parameters of the last answer that described the bank. If a transaction is listed more than once, its last entry counts. Without such an answer nothing changes.", "quantifier": "every history of calls and every bank", "why_tests_cant": "depends on all answers of all calls", "anchors": ["dialog/dialog.go: parseBankParameterData, init, anonymousInit, SyncClientSystemID", "message/bank_message.go: SupportedSegments"]}
{"id": "C87", "title": "When a client synchronises", "statement": "A client synchronises only if it has no client system ID or knows no bank parameters; a call made while it knows none begins with a synchronisation. So a bank that sends no parameters, or such with version 0, hands out a new client system ID with every call.", "quantifier": "every history of calls and every bank", "why_tests_cant": "depends on all answers of all calls", "anchors": ["client/client.go: init, Accounts, AccountTransactions, SepaAccountTransactions, AccountBalances, SepaAccountBalances, Status", "dialog/dialog.go: init"]}
{"id": "C88", "title": "The client system ID is taken as sent", "statement": "The client system ID the client keeps after a synchronisation is exactly the text the bank sent, whatever characters it has. A synchronisation segment without one crashes the client.", "quantifier": "all IDs, positions and message numbers, versions 3 and 4", "why_tests_cant": "all texts, including those with separators", "anchors": ["segment/sync.go: SynchronisationResponseSegmentV3, SynchronisationResponseSegmentV4", "segment/sync_unmarshaler.go", "dialog/dialog.go: SyncClientSystemID"]}
{"id": "C89", "title": "What the bank says about itself", "statement": "Version, bank, name, number of transactions per message and the size and time limits of a segment HIBPA are read as sent, a missing limit as 0. In fact the bank's ID keeps the escape signs of the transmission, and a segment with an empty bank name crashes the client.", "quantifier": "all contents of a segment HIBPA, versions 2 and 3", "why_tests_cant": "all texts and numbers", "anchors": ["segment/common_bank_parameter_data.go: BankParameterData", "segment/common_bank_parameter_data_unmarshaler.go", "element/bank_parameter_data.go"]}
{"id": "C90", "title": "Which transactions need a TAN", "statement": "From a segment HIPINS the client learns every listed transaction with its flag, in the order sent. In fact names keep escape signs, and a segment that leaves out one of the optional lengths, or lists no transaction, is refused.", "quantifier": "all lists of transactions and all lengths", "why_tests_cant": "all lists", "anchors": ["segment/pin_bpd.go: PinTanBusinessTransactions", "segment/pin_bpd_unmarshaler.go", "element/pin.go: PinTanSpecificParamDataElement.UnmarshalHBCI"]}
{"id": "C91", "title": "What the bank says about a user and their accounts", "statement": "User ID and version of a segment HIUPA, and number, owner, currency and permitted transactions of a segment HIUPD, are read as sent. In fact only version 4 of HIUPA brings the user's name, HIUPD in versions 6 and 7 keeps only the first transaction, the number keeps escape signs, an account limit or a missing owner crashes the client, and a transaction limit makes it refuse the segment.", "quantifier": "all contents of segments HIUPA and HIUPD of all known versions", "why_tests_cant": "all texts, lists and limits", "anchors": ["segment/user_parameter_data.go", "segment/user_parameter_data_unmarshaler.go", "element/user_parameter_data.go", "element/account.go"]}
{"id": "C92", "title": "Which TAN procedures a bank offers", "statement": "From a segment HITANS in version 6 the client learns every procedure in order, with its security function and name. In fact the names keep escape signs, and the segment is refused if a single number of a procedure is missing.", "quantifier": "all lists of procedures", "why_tests_cant": "all lists of records with 21 fields", "anchors": ["segment/tan_bpd.go", "segment/tan_bpd_unmarshaler.go", "element/tan.go: Tan2StepSubmissionProcessParameterV6.UnmarshalHBCI", "dialog/dialog.go: parseBankParameterData"]}
{"id": "C93", "title": "Answers that crash the client", "statement": "A readable answer of the bank is decoded or refused, it does not crash the client. In fact several segments of the standard do crash it, exactly in these cases: HIKPV whenever it names a compression, HIKOM version 3 whenever it gives a parameter, HISHV version 2 when a security method has more than its first value, HNSHA with a PIN/TAN group of two or more parts. One such segment anywhere after readable ones makes the whole message crash.", "quantifier": "all contents of the segments and all segments before them", "why_tests_cant": "all contents and positions", "anchors": ["segment/communication_access_unmarshaler.go", "segment/supported_security_method_unmarshaler.go", "segment/supported_compression_method_unmarshaler.go", "segment/signature_end_unmarshaler.go", "message/unmarshaler.go: Unmarshal"]}
{"id": "C94", "title": "Type assertions on decoded segments hold", "statement": "In every answer that can be read, whatever its bytes, all segments found under an ID have the type that the dialog and the client assert for it, so no type assertion panics. Segments with unknown ID are skipped.", "quantifier": "all byte strings", "why_tests_cant": "all answers", "anchors": ["message/unmarshaler.go: Unmarshal, SegmentsByID, SegmentByID", "dialog/dialog.go", "client/client.go", "segment/segment_index.go: KnownSegments"]}
{"id": "C95", "title": "A whole answer is taken over as sent", "statement": "When the bank answers a synchronisation with a complete encrypted message, the client knows afterwards what the segments in it say: the client system ID, the bank's parameters, the transactions needing a TAN, the user's parameters and all accounts, whatever other segments stand between them, in which order and how many. An initialisation takes over the same except the client system ID.", "quantifier": "all answers made of any number of well-formed segments in any order with unknown ones between them, all previous states of the dialog", "why_tests_cant": "all answers from their bytes on", "anchors": ["dialog/dialog.go: SyncClientSystemID, init, request, parseBankParameterData, parseUserParameterData", "message/decryption.go: NewDecryptedMessage", "message/unmarshaler.go: Unmarshal", "message/segment_extractor.go: SegmentExtractor.Extract", "transport/transport.go: ReadResponse"]}
{"id": "C96", "title": "Secured messages reach the transport whole", "statement": "Whatever calls were made before, every message of a call that is not anonymous is handed to the transport exactly once, and the answer read is what the transport returns for exactly these bytes. They consist of message header, encryption header, one data segment with signature header, contents and signature end, and the message end. The signature header names bank and user, the signature end carries the PIN set last, escaped, and no older one. In fact a PIN that ends in a separator is sent without it, with an escape sign before the end of the segment.", "quantifier": "all transports, all histories of calls, all PINs and jobs", "why_tests_cant": "all histories, including failures in between", "anchors": ["dialog/dialog.go: request, SetPin, SendMessage, SyncClientSystemID", "message/message.go: Sign, Encrypt", "message/signature.go", "message/encryption.go", "segment/signature_end.go"]}
{"id": "C97", "title": "The log changes nothing and hides the PIN", "statement": "A PIN/TAN dialog parses every request and answer once more for its debug log, even if nothing is logged. This has no effect: whatever calls are made and whatever the bank answers, results, state and messages are the same as without it, because no message the dialog sends can crash the log's parser; an answer that crashes it crashes the dialog as well. The PIN does not appear in the log. In fact, in debug mode the log has, for every secured message, a line that ends in the PIN.", "quantifier": "all histories of calls, all PINs, texts and answers", "why_tests_cant": "all contents of messages and all histories", "anchors": ["transport/middleware/logging.go: Logging, writeMessage, readMessageData", "dialog/dialog.go: request", "dialog/pin_tan_dialog.go: NewPinTanDialog", "internal/logger.go"]}
{"id": "C98", "title": "A bank ID is enough", "statement": "For every bank in the table of the program, a bank ID is all that is needed to make a client: the version is supported and there is a URL. In fact this fails for three listed banks, and 169 others give a client with an empty URL; all other URLs begin with https://, one of them contains a space. No configuration makes New panic, and which of several entries of a bank is found does not matter except for one bank.", "quantifier": "all configurations, all entries of the table", "why_tests_cant": "the whole table together with all configurations", "anchors": ["bankinfo/bank_data.go", "bankinfo/bank_info.go: FindByBankID, HbciVersion", "client/client.go: New, Config.hbciVersion"]}
{"id": "C99", "title": "The control reference", "statement": "The reference in signature header and end of every secured message is made from bank and user alone: it is the same in all messages of a user, whatever PIN is set, consists of eight hexadecimal digits, and differs for two users of a bank whose names have the same length and differ only within four adjacent characters. It does not identify the user: users with the same reference exist, and the boundary between bank ID and user name is lost.", "quantifier": "all names of keys, all histories of calls", "why_tests_cant": "all names, of any length", "anchors": ["message/signature.go: generateControlReference, NewPinTanSignatureProvider", "segment/signature_end.go", "dialog/pin_tan_dialog.go"]}
{"id": "C100", "title": "Statements are read as the bank wrote them", "statement": "Any number of MT940 statements, sent one after the other, are read without an error, and the caller gets one transaction per entry, in the order of the statements, with bank, account, currency, value date, booking date, amount, the balances before and after, and the texts of the description exactly as the bank wrote them, wherever the lines are broken. In fact the sign of the balances is lost, a reversed entry has the sign of an ordinary one, and an entry without a booking date takes its sign from the wrong letter.", "quantifier": "all statements with any number of entries, sub-fields, balances and line breaks", "why_tests_cant": "all statements, from their bytes to the transactions", "anchors": ["swift/unmarshal.go: UnmarshalMT940", "swift/message_extractor.go: Extract", "swift/tag_extractor.go: Extract", "swift/mt940_unmarshaler.go: MT940.Unmarshal", "swift/mt940.go: AccountTransactions, AccountTag.Unmarshal, BalanceTag.Unmarshal, TransactionTag.Unmarshal", "swift/element.go: CustomFieldTag.Unmarshal"]}
{"id": "C101", "title": "The caller gets what the answers contain", "statement": "When AccountTransactions, AccountBalances or SepaAccountBalances returns, and the messages with requests were answered with well-formed messages, the result is exactly the content of these messages: the transactions of all statements, at whatever places they are cut into segments and pages, or all balances, in the order of the bank, whatever other segments the answers contain. If an answer reports an error, a page is missing, or there is no balance, the caller gets an error and never a part of the content.", "quantifier": "all answers with any segments, any number of pages, all histories of the client", "why_tests_cant": "all divisions of the content into segments and pages, from the bytes of the answers to the result", "anchors": ["client/client.go: AccountTransactions, accountTransactions, AccountBalances, SepaAccountBalances", "dialog/dialog.go: SendMessage", "swift/unmarshal.go: UnmarshalMT940", "message/decryption.go: NewDecryptedMessage", "segment/account_balance_unmarshaler.go", "segment/account_transaction_unmarshaler.go"]}
{"id": "C102", "title": "A willing bank is enough", "statement": "For a client that was synchronised, if the bank supports the request and answers initialisation, request and end of every dialog with well-formed messages that report no error, then AccountTransactions, AccountBalances and SepaAccountBalances succeed and return all that the bank has sent, after as many dialogs as there are pages. Nothing else is needed: no field of the answers has to have a certain value, and the answer to the dialog end may even report an error.", "quantifier": "all such banks, all numbers of pages, all accounts and timeframes", "why_tests_cant": "liveness for all banks and any number of pages", "anchors": ["client/client.go: AccountTransactions, accountTransactions, AccountBalances, SepaAccountBalances, init", "dialog/dialog.go: SendMessage, init, dial, end", "segment/hbci_version.go: Builder", "segment/account_transaction.go", "segment/account_balance.go"]}
{"id": "C103", "title": "The first call works", "statement": "A client made by New with a PIN and texts of Latin-1 needs no other preparation: if the bank answers the synchronisation with a client system ID and its parameters, and accepts the end of that dialog, then the first call of AccountTransactions, AccountBalances or SepaAccountBalances synchronises, and returns all that the bank has sent, provided the answer to the synchronisation names the parameter segment of a supported version. The first call of Accounts returns the accounts of the synchronisation followed by those of the initialisation; an account told in both is returned twice.", "quantifier": "all configurations, all such banks, any number of pages", "why_tests_cant": "liveness for all banks, all contents of the answers, any number of pages", "anchors": ["client/client.go: New, init, Accounts, AccountTransactions, AccountBalances, SepaAccountBalances", "dialog/dialog.go: SyncClientSystemID, SyncUserParameterData, SendMessage, parseBankParameterData, parseUserParameterData", "dialog/pin_tan_dialog.go: NewPinTanDialog, SetPin"]}
{"id": "C104", "title": "Keys and the RDH dialog", "statement": "A key renewal, a request for the key of the bank, and a revocation put the name of the key, its numbers and the reason into the message as given. In fact no key of the library can be renewed or transmitted: the constructor wants the exponent as the decimal text 65537 and panics for every key generated or received; every text is taken for a reason of a revocation; and a dialog with RDH, as its constructor makes it, never sends anything and never completes a call.", "quantifier": "all keys, all names, all reasons, all sequences of calls", "why_tests_cant": "all keys and all histories of a dialog", "anchors": ["segment/key_management.go: NewPublicKeyRenewalSegment, NewPublicKeyRequestSegment, NewPublicKeyTransmissionSegment, NewPublicKeyRevocationSegment, NewPublicKeyRevocationConfirmationSegment", "element/key_management.go: NewPublicKey", "domain/key.go: GenerateSigningKey, NewEncryptionKey", "dialog/rdh_dialog.go: NewRDHDialog"]}
{"id": "C105", "title": "Information about accounts", "statement": "AccountInformation sends one request, of version 1 whatever the bank supports, with the account and the flag given, and prints the first segment of the answer that begins with HIKIF, byte by byte as the bank wrote it; it fails exactly if the answer reports an error or has no such segment. CommunicationAccess sends its request with the two banks unsigned and unencrypted, without PIN or synchronisation, and returns the answer exactly if it reports no error. In fact an answer that names persons entitled to use an account, or a way of access, crashes the client, and a parameter segment HIKIFS is taken for the information.", "quantifier": "all accounts, all banks, all answers, all histories of the client", "why_tests_cant": "all answers of a bank", "anchors": ["client/client.go: AccountInformation, AnonymousClient.CommunicationAccess", "segment/account_information.go: NewAccountInformationRequestSegmentV1", "segment/communication_access.go: NewCommunicationAccessRequestSegment", "message/decryption.go: FindMarshaledSegment", "segment/account_information_unmarshaler.go", "segment/communication_access_unmarshaler.go"]}
{"id": "C106", "title": "What the caller is told about errors of the bank", "statement": "A call is refused with a text exactly if an acknowledgement has a code from 9000 on. The text contains code and text of every such acknowledgement, and none of the others; and it determines the errors: answers refused with the same text report the same errors, in the same order, with the same kind, code, message, segment, position, text and parameters, as long as the texts of the bank contain no line break and no quotation mark that could be taken for the text around them. In fact the library does not quote these texts, so a bank can word one error so that it reads like two; how parameters are divided is not told.", "quantifier": "all lists of acknowledgements, all titles, all ways to quote", "why_tests_cant": "injectivity for all texts and all numbers of acknowledgements", "anchors": ["domain/acknowledgement.go: Acknowledgement.String, StatusAcknowledgement.String, IsError", "dialog/dialog.go: SendMessage, init, end, SyncClientSystemID, SendAnonymousMessage"]}
{"id": "C107", "title": "From the files of the banks to the table", "statement": "ParseBankInfos and ParseBicData give one entry for every line with a bank number, in the order of the file, each field being the text of its column without the white space around it. In a table made of any number of files every bank with a number is found by FindByBankID: the result is what one of its lines tells, and what the line tells if there is only one; a number in no line gives an empty entry. In fact, if several lines have the same number, any of them may be found, since the sorting does not keep their order.", "quantifier": "all files with any lines, all results of the sorting, all numbers", "why_tests_cant": "all inputs and all results an unstable sort may have", "anchors": ["bankinfo/parser.go: ParseBankInfos, ParseBicData", "bankinfo/bank_info.go: FindByBankID, SortableBankInfos", "cmd/bankdata_parser/bankdata_parser.go: main"]}
{"id": "C108", "title": "Requests in UTF-8", "statement": "With UTF8Encoding a request in UTF-8 reaches the transport below as the bytes of its characters, exactly if every character has a byte in the encoding; otherwise the caller gets an error and nothing is sent. The answer reaches the caller as UTF-8, one character per byte; errors of the transport are passed on. In fact the writer is never closed: a request that ends within a character loses the beginning of it and nobody is told. Since the library writes its messages in ISO 8859-1, a message reaches the bank as it was written exactly if it is ASCII.", "quantifier": "all encodings with one byte per character, all requests, all transports", "why_tests_cant": "all byte sequences, valid UTF-8 or not, and all tables of characters", "anchors": ["transport/middleware/encoding.go: UTF8Encoding"]}
{"id": "C109", "title": "Printed lists of balances, transactions and accounts", "statement": "The lists the command line prints show one line per entry in the order of the list, under the right headings, each column as wide as its widest text; the remark on earmarked transactions stands below exactly if an amount other than zero is earmarked; above transactions stands the balance before the first, below them the balance after the last. This holds as long as the texts of the bank contain no tab and no line break. In fact nothing separates the columns: the longest product name, from twenty characters on, is printed with the bank code right behind it, and a single transaction shows every German bank code (eight digits) and account number as one number; an account without product name begins with twenty or more tabs.", "quantifier": "all lists of any length, all texts, all ways to print numbers and dates", "why_tests_cant": "all lists with any widths of texts", "anchors": ["domain/account_balance.go: AccountBalances.String, AccountBalance.String, SepaAccountBalances.String, SepaAccountBalance.String", "domain/account_transaction.go: AccountTransactions.String, AccountTransaction.String", "domain/account_information.go: AccountInfos.String, AccountInformation.String"]}
{"id": "C110", "title": "What the command line asks for and prints", "statement": "Without --userID or --blz, banking names the missing flags and sends nothing. Otherwise, given a bank that answers, `banking balances`, with or without --disableSepa, prints the table of all balances the bank sent on all pages, `banking transactions --disableSepa` that of all transactions, and `banking accounts` that of all accounts. Every request of `transactions --disableSepa` asks for one account, the one named by --accountID or else that of the user, from --daysToFetch days before today up to today. In fact `balances` always asks for all accounts, `transactions` without --disableSepa never prints anything and never sends a request for transactions, `accounts` prints accounts once per answer and never a limit, and a bank that is not in the table cannot be used even if its address is given.", "quantifier": "all flags, all tables of banks, all answers of any number of pages, all dates", "why_tests_cant": "all answers of a bank and all dates", "anchors": ["cmd/banking/root.go: initClient", "cmd/banking/accounts.go: accountsCmd", "cmd/banking/balances.go: balancesCmd", "cmd/banking/transactions.go: transactionsCmd, fetchTransactions, fetchSepaTransactions"]}
{"id": "C111", "title": "A client recovers from failures", "statement": "Let a client made by New have gone through any calls of its API, with any answers of the bank, unreadable ones included, and any failures of the transport. As soon as the bank is willing, the next caller of AccountTransactions, AccountBalances, SepaAccountBalances or Accounts gets what the bank reports. The client needs a synchronisation first exactly if it was told no bank parameters or has no client system ID; nothing in an earlier answer can stop it from writing its next messages. In fact it does not recover from parameters that name no request it can write: then AccountBalances and AccountTransactions fail for ever without sending anything, even if the bank would name the request now.", "quantifier": "all histories of calls, all answers and failures before, all willing banks afterwards, any number of pages", "why_tests_cant": "all histories with all answers a bank or a network may have given", "anchors": ["client/client.go: New, init, Accounts, AccountTransactions, AccountBalances, SepaAccountBalances", "dialog/dialog.go: SendMessage, SyncUserParameterData, SyncClientSystemID, init, end, parseBankParameterData, parseUserParameterData, updateSecurityFunctionIfNeeded", "segment/sync_unmarshaler.go", "segment/user_parameter_data_unmarshaler.go", "segment/account_balance.go: AccountBalanceRequestBuilder", "segment/account_transaction.go: AccountTransactionRequestBuilder"]}
{"id": "C112", "title": "What counts as valid", "statement": "A data element is valid (IsValid) exactly if everything inside it fits: texts have at most the allowed number of UTF-8 bytes and no line break, blank or ampersand, numbers at most the allowed number of characters, groups the number of elements they were made with, arrays a number between their bounds. Missing elements are not objected to, except ID, position and version of a segment header, both parts of a reference to a message, code and text of an acknowledgement. Whatever values it is given, the library makes every group it sends with the right number of elements, and the length of a group is the sum of the lengths of its single elements. In fact an acknowledgement is valid only with exactly ten parameters and a text without blanks, a header read from a message is never too long, and the library's own balance and transaction requests and its encrypted data contain an element that is never valid.", "quantifier": "all elements, nested to any depth, all values, all ways Go prints floats and times", "why_tests_cant": "elements nested to any depth with any values", "anchors": ["element/data_element.go: IsValid, Length, elementGroup, arrayElementGroup", "element/segment_header.go: SegmentHeader.IsValid, NewSegmentHeader", "element/message.go: ReferencingMessageDataElement.IsValid", "element/acknowledgement.go: AcknowledgementDataElement.IsValid, NewAcknowledgement, NewParams"]}
{"id": "C113", "title": "What String prints and what is sent", "statement": "What String prints for an element is what MarshalHBCI returns exactly if all texts in it are ASCII and no group in it prints with a separator at its end; in all other cases what is sent is shorter. The same holds for segments that do not end with a missing element. FindSegment and FindSegments of a message of one's own return the first, or all, segments with that ID, in order. In fact no segment without a reference to another, so none the library makes, prints as it is sent; FindMarshaledSegment and FindMarshaledSegments return what is printed, not what is sent; and the search panics at the first missing segment, which messages of dialogs contain.", "quantifier": "all elements nested to any depth, all segments, all messages with any number of segments", "why_tests_cant": "elements nested to any depth with any characters", "anchors": ["element/data_element.go: String, MarshalHBCI", "segment/segment.go: String, MarshalHBCI", "message/message.go: FindSegment, FindSegments, FindMarshaledSegment, FindMarshaledSegments, SegmentPosition"]}
{"id": "C114", "title": "Signing and encrypting with RSA keys", "statement": "With a generated key every text that leaves room for eleven bytes of padding is signed, and the signature verifies with the modulus and exponent the key shows, for that text and no other. What is encrypted with the key of a bank is found by whoever has the private exponent, and nothing else is, whatever the random padding. Longer texts are errors. A key asked for what it cannot do (CanSign, CanEncrypt) panics. Of an exponent longer than eight bytes only the last eight count. In fact an RDH signature of a message is never one of what is sent: Sign signs what String prints, which is always longer than what is transmitted, so a bank can verify it only if the hash function gives the same for two texts of different length.", "quantifier": "all RSA moduli without square factors and matching exponents, all texts, all hash functions, all messages, all random paddings", "why_tests_cant": "all keys and texts; and all hash functions", "anchors": ["domain/key.go: GenerateSigningKey, NewEncryptionKey, PublicKey.Sign, PublicKey.Encrypt, RSAKey.CanSign, RSAKey.CanEncrypt", "message/signature.go: NewRDHSignatureProvider, rdhSignatureProvider, HashSum, SignMessageHash", "message/message.go: BasicMessage.Sign", "segment/signature_header.go", "segment/signature_end.go"]}
{"id": "C115", "title": "Reading a message more than once", "statement": "An Unmarshaler may be asked anything in any order. UnmarshalSegment always gives the first segment of the message whose bytes begin with the ID, decoded as the version asked for, or an error if there is none or CanUnmarshal is false; it gives the same after any earlier calls, failed ones included. After one call of Unmarshal, SegmentsByID gives every known segment once and MarshaledSegments the segments of the message. In fact every further call adds them again: after n calls of Unmarshal SegmentsByID gives everything n(n+1)/2 times, and UnmarshalSegment for HISAL may decode a segment HISALS.", "quantifier": "all messages, all tables of decoders, all sequences of calls", "why_tests_cant": "all sequences of calls of any length", "anchors": ["message/unmarshaler.go: Unmarshaler.Unmarshal, UnmarshalSegment, CanUnmarshal, SegmentsByID, SegmentByID, MarshaledSegments", "message/segment_extractor.go: Extract, FindSegment, Segments"]}
{"id": "C116", "title": "Reading a segment without knowing its version", "statement": "UnmarshalHBCI of the thirteen segments that exist in several versions reads a segment as the version its header names: it gives exactly what Message.Unmarshal gives for that ID and version, and an error for exactly the versions Unmarshal does not know. It does not look at the ID, so a segment of another kind with a known version number is read as well; and bytes without any element make it panic, although the versions themselves report an error.", "quantifier": "all bytes, all thirteen segments, all versions", "why_tests_cant": "all bytes and all version numbers", "anchors": ["segment/account_balance_unmarshaler.go", "segment/account_transaction_unmarshaler.go", "segment/basic_account_information_unmarshaler.go", "segment/common_bank_parameter_data_unmarshaler.go", "segment/encryption_header_unmarshaler.go", "segment/pin_bpd_unmarshaler.go", "segment/signature_end_unmarshaler.go", "segment/signature_header_unmarshaler.go", "segment/status_protocol_unmarshaler.go", "segment/sync_unmarshaler.go", "segment/tan_bpd_unmarshaler.go", "segment/tan_unmarshaler.go", "segment/user_parameter_data_unmarshaler.go", "segment/segment_index.go: KnownSegments"]}
{"id": "C117", "title": "When log lines are written", "statement": "As long as debugging is turned on by WithDebugLogging only, no line for the debug log standing outside of it is ever written, and inside of it all are. When WithDebugLogging returns, debugging is off even if it was on before, so later lines are lost; when its function panics, debugging stays on. Making a client sets debugging for all clients of the process. The information log is complete until SetInfoLog(false) and empty afterwards, and debugging has no influence on it.", "quantifier": "all programs of any length that use the loggers, make clients and nest WithDebugLogging to any depth", "why_tests_cant": "all programs, nested to any depth", "anchors": ["internal/logger.go: SetDebugMode, SetInfoLog, WithDebugLogging, conditionalWriter.Write", "hbci.go: SetDebugMode, SetInfoLog", "client/client.go: New"]}
{"id": "C118", "title": "What was read can be written again", "statement": "Whatever bytes UnmarshalHBCI of a text, number, date, boolean, binary or amount element accepts, the value can be marshalled, and unmarshalling the result gives the same value. Dates and booleans give the same bytes; numbers at most as many; texts the same bytes exactly if the signs with a meaning in HBCI, and only these, were escaped. Times lose fractions of a second, so they are the same exactly if there were none.", "quantifier": "all bytes", "why_tests_cant": "all byte sequences", "anchors": ["element/data_element.go: MarshalHBCI, UnmarshalHBCI, escape, unescape, FloatDataElement.String", "charset/convert.go: ToUTF8, ToISO8859_1"]}
{"id": "C119", "title": "Which PINs look the same to the bank", "statement": "The bank can tell PINs apart by the signature end it is sent: two PINs give the same bytes exactly if they are equal. In fact they also do if they differ only in that one ends in a colon where the other ends in a plus sign, and in no other case.", "quantifier": "all pairs of PINs of Latin-1 characters, all control references, both versions, all positions", "why_tests_cant": "all pairs of PINs", "anchors": ["segment/signature_end.go: SetSignature", "element/pin.go: NewPinTan, NewCustomSignature", "element/data_element.go: elementGroup.MarshalHBCI, escape", "segment/segment.go: MarshalHBCI", "message/signature.go: pinTanSignatureProvider"]}
{"id": "C120", "title": "The code generator makes readers that match the writers", "statement": "For every segment type whose `elements()` lists its fields one per line, the generator either reports an error or produces an `UnmarshalHBCI` that reads back what the segment writes: each field gets the element that `elements()` puts at its place, fields that were nil stay nil, the last field takes what remains. It reports an error exactly if a listed field is not declared as pointer at the beginning of a line of the struct. The wrapper for several versions leaves the work to the version named in the header. Segments whose `elements()` is written in another way should be refused; in fact the generator produces a reader that reads nothing. Fields listed on one line should be read in their order; in fact their order is left to `sort.Sort`, which promises nothing for equal lines.", "quantifier": "all source files, all numbers, names and types of fields, all element types that read what they write, all segments and values, all implementations of sort.Sort", "why_tests_cant": "tests run the generator on a few sample files and compare texts; they do not run what it generates", "anchors": ["generator/segment_unmarshaler.go: extractFields, segmentUnmarshalingTemplate, versionedSegmentUnmarshalingTemplate", "generator/segment_field_visitor.go: elementVisitor.Visit, structFieldVisitor.Visit, isElementsMethod", "segment/sync_unmarshaler.go: SynchronisationResponseSegmentV3.UnmarshalHBCI"]}
{"id": "C121", "title": "Lists of versions, languages and jobs read back", "statement": "What NewSupportedHBCIVersions, NewSupportedLanguages, NewPinTanBusinessTransactionParameters and NewAllowedBusinessTransactions write, the types themselves read back. In fact there must be one to nine versions or languages and no language above 3; the IDs of the jobs come back with their escape signs, and an empty list of jobs is rejected; and of the permitted transactions only a list of exactly one without a limit is understood, because the writer separates them with ':' and the reader with '+'.", "quantifier": "every list of numbers, of jobs and of permitted transactions whose texts can be transmitted", "why_tests_cant": "The lists have no bound; tests write and read one list each, and none reads what another one wrote.", "anchors": ["element/bank_parameter_data.go: NewSupportedHBCIVersions, SupportedHBCIVersionsDataElement.UnmarshalHBCI, NewSupportedLanguages, SupportedLanguagesDataElement.UnmarshalHBCI, NewPinTanBusinessTransactionParameters, PinTanBusinessTransactionParameters.UnmarshalHBCI", "element/user_parameter_data.go: NewAllowedBusinessTransactions, AllowedBusinessTransactionsDataElement.UnmarshalHBCI"]}
{"id": "C122", "title": "The head of a statement", "statement": "MT940.Unmarshal of a statement as banks write it sets JobReference, Reference, Account and StatementNumber to what tags 20, 21, 25 and 28C say; of several tags of a kind the last one counts, and without one the field is nil. The number may have a sheet number behind a slash, else the sheet is 0, and nothing but integers is accepted. In fact the account tag must have exactly one slash: an account named by its IBAN alone makes UnmarshalMT940 refuse the whole download, with all other messages in it. FloatTag does not accept the decimal comma of SWIFT.", "quantifier": "every statement of the format, every message with any tags in any order, every tag value", "why_tests_cant": "Tests read one statement with each tag once; values, repetitions and the effect of one odd message on the others are unbounded.", "anchors": ["swift/mt940_unmarshaler.go: MT940.Unmarshal", "swift/mt940.go: AccountTag.Unmarshal, StatementNumberTag.Unmarshal", "swift/element.go: AlphaNumericTag, NumberTag, FloatTag", "swift/unmarshal.go: UnmarshalMT940"]}
{"id": "C123", "title": "Only an answer can crash a call", "statement": "A dialog made from Latin-1 texts never panics, whatever calls are made on it and in whatever order: SendMessage, SendAnonymousMessage, SyncClientSystemID, SyncUserParameterData, SetPin. The exception are answers of the bank that reading crashes on, and answers opening a dialog that lack something the dialog takes for granted: the dialog ID in the message header, or a mandatory field of the segments HIBPA, HIPINS, HIUPA, HIUPD, HITANS, HIKIM and HISYN. With the program's own decoders this list is exact: every readable answer that is complete in this sense does no harm, and every other one does.", "quantifier": "every dialog, every history of calls, every bank, every readable answer", "why_tests_cant": "Tests use well-formed answers; that nothing else panics is a claim over all histories and all answers.", "anchors": ["dialog/dialog.go: dialog.SendMessage, dialog.SendAnonymousMessage, dialog.SyncClientSystemID, dialog.SyncUserParameterData, dialog.Init, parseBankParameterData, parseUserParameterData", "dialog/pin_tan_dialog.go: NewPinTanDialog, SetPin", "message/decryption.go: NewDecryptedMessage"]}
{"id": "C124", "title": "A bank reads the request the caller made", "statement": "Take a reader that knows the HBCI syntax only: `'` ends a segment, `+` separates elements, `:` their parts, `?` quotes, `@n@` announces n bytes of data. In the bytes of every segment without decimal fractions it finds the head followed by exactly the texts and data of the elements, without the empty ones at the end, provided no text and no data ends in `:` or `+`; and in several segments, one after the other, exactly these segments. So a request for balances, transactions, account information or the status protocol is read as the account, flags, dates and continuation mark the caller gave, each at its place, whatever characters they contain. Two balance requests with the same bytes ask for the same. A mark that ends in `+` leaves a segment without an end.", "quantifier": "all segments, accounts, flags, dates, numbers, versions and texts", "why_tests_cant": "Tests compare single requests with literal bytes. Whether every text, with every mixture of separators and quotes, comes out unchanged at its place for a reader that is not this library, is a statement about all texts.", "anchors": ["segment/segment.go: MarshalHBCI", "element/data_element_group.go: MarshalHBCI", "element/data_element.go: MarshalHBCI", "segment/account_balance.go: NewAccountBalanceRequestV5..V8", "segment/account_transaction.go: NewAccountTransactionRequestV5..V7", "segment/account_information.go: NewAccountInformationRequestSegmentV1..V6", "segment/status_protocol.go: NewStatusProtocolRequestV3, V4", "segment/tan.go: NewTanRequestProcess2, NewTanProcess4RequestSegmentV6"]}
{"id": "C125", "title": "A bank reads the message the dialog made", "statement": "The same reader, on what a dialog hands over when it signs and wraps a message with the PIN, finds four segments: the message header with the exact size of the message, the HBCI version, the dialog ID and the next message number; the encryption header; one element of binary data; the message end. Reading the data in the same way gives the signature header with security function, control reference, client system, time and key name, then the segments of the job in their order, numbered from 3, and the signature end with the same reference and the PIN. Messages that are not secured are read as header, segments numbered from 2, and end. Two such messages with the same bytes agree in all of this. Without a number of the bank the key name is read wrongly: everything after it moves up by one place.", "quantifier": "all jobs without decimal fractions, PINs, names, dialog states, clocks, both HBCI versions; no text may end in `:` or `+`", "why_tests_cant": "Tests compare two or three whole messages with literal bytes. That the numbers, sizes, lengths of data and nesting are right for every job and every text is a statement about all messages.", "anchors": ["message/message.go: MarshalHBCI, SetSegmentPositions, Sign, Encrypt", "message/signature.go: pinTanSignatureProvider", "message/crypto.go: pinTanCryptoProvider", "segment/signature_header.go", "segment/signature_end.go", "segment/encryption_header.go", "segment/encrypted_data.go", "element/signature.go: NewKeyName", "dialog/dialog.go: SendMessage"]}
{"id": "C126", "title": "A bank reads every message of every call", "statement": "Take a new dialog, or a new client, and any sequence of calls. If no text of the caller or of the bank's answers ends in `:` or `+`, then every message handed to the transport is read by the standard reader of C124 and C125 as a message secured with the key names and the control reference of the configured user and with the PIN set last. The message that carries the job contains exactly the segments of the job. For the calls of the client that job is HKTAN announcing HKIDN, and then the request: HKSAL with this account and this flag for balances, HKKAZ with this account and these days for transactions, HKPRO with these days and this number of entries for the status; the mark of a following page is the only text that comes from the bank.", "quantifier": "all banks, answers, clocks, histories of calls, accounts, dates, marks and numbers of pages; texts must not end in `:` or `+`, messages must be shorter than 10^12 bytes", "why_tests_cant": "A test sees the bytes of one call in one state. That the state left by any history of answers cannot damage a later message is a statement about all executions.", "anchors": ["dialog/dialog.go: SendMessage, SendAnonymousMessage, SyncClientSystemID, SyncUserParameterData, SetPin", "client/client.go: New, Accounts, AccountTransactions, AccountBalances, SepaAccountBalances, Status", "message/message.go: Sign, Encrypt, MarshalHBCI", "segment/builder.go"]}
{"id": "C127", "title": "Only an answer can crash a call of the client", "statement": "Take a client made with Latin-1 texts, any history of its calls and a further call with Latin-1 arguments. If no answer crashes the dialog (C123), the call panics only for a reason found in the answer to its request. Accounts, AccountInformation and CommunicationAccess of the anonymous client then never panic. AccountBalances and SepaAccountBalances panic only if a segment HISAL has no account, product name, currency or booked balance, has a booking time but no booking date, or (in the international form) names a bank without a country; SepaAccountBalances and AccountTransactions also if an acknowledgement 3040 names no page. AccountTransactions panics only if a segment HIKAZ has no booked transactions or the statement put together from the pages crashes its reader (C77). Status panics only if a segment HIPRO lacks acknowledgement, date or time, or refers to a message without a segment.", "quantifier": "all banks, answers, clocks, histories of calls, accounts, dates, marks and numbers of pages; the account of AccountTransactions is a national one, texts are Latin-1", "why_tests_cant": "That nothing but these fields can bring the program down is a statement about all answers and all states; a test can only show one crash or one success.", "anchors": ["client/client.go: Accounts, AccountInformation, AccountTransactions, AccountBalances, SepaAccountBalances, Status, CommunicationAccess", "segment/account_balance.go: AccountBalance, SepaAccountBalance", "segment/account_transaction.go: BookedSwiftTransactions", "segment/status_protocol.go: Status", "dialog/dialog.go"]}
{"id": "C128", "title": "The flag segment_versions names exactly the segments written into it", "statement": "The generator's flag `-segment_versions` takes a quoted text exactly if each non-empty piece between its commas is `name:version`, optionally followed by `:interface`, with a decimal version that fits an int; the segments are added in order to those already there. Every list of segments can be written so and is read back. An error leaves the segments named before the bad piece in the flag. A piece with four or more parts is taken without an error, but with the interface `Segment`. What the flag prints about itself (`String`) is not such a text: of two or more segments only the first would be read back, without its interface.", "quantifier": "all lists of segments, all texts without quotes, backslashes and line ends, all contents of the flag before; any behaviour of strconv.Unquote on other inputs", "why_tests_cant": "Tests would check a few flag values; the set of accepted texts is infinite.", "anchors": ["cmd/unmarshaler/unmarshaler_generator.go: segmentVersionsFlag.Set, segmentVersionsFlag.String"]}
{"id": "C129", "title": "The checked-in segment readers are what the generator makes of the source files", "statement": "Each of the 37 generated segment readers in the index of known segments does, on all bytes, exactly what the code would do that the generator makes of the segment's source file as it stands: it returns the same header and the same values under the same field names, and fails or panics on the same inputs. Readers and source types correspond one to one by segment ID and version. So no generated file is stale with respect to the struct and the list `elements()` it was made from.", "quantifier": "all registered segments with a generated reader, all bytes, all ways in which sort.Sort may order entries", "why_tests_cant": "The tests of the generator compare its output with texts for made-up segments, and the tests of the readers use a few messages; neither compares the readers with the sources they were generated from.", "anchors": ["generator/segment_unmarshaler.go: extractFields, segmentUnmarshalingTemplate", "generator/segment_field_visitor.go: elementVisitor.Visit", "segment/*_unmarshaler.go: UnmarshalHBCI, init", "segment/*.go: elements", "segment/segment_index.go: KnownSegments"]}
{"id": "C130", "title": "The index of known segments does not depend on the order of registration", "statement": "Whatever the order in which the `init` functions of the package segment run, none of the 40 registrations panics, and the finished index has a reader for exactly the IDs and versions that messages are read with, namely that reader. In general registering panics exactly if an ID and version occurs twice, adding a second time fails and changes nothing, and adding an entry leaves all others as they were.", "quantifier": "all orders of the registrations, all lists of registrations, all IDs and versions", "why_tests_cant": "Go runs the `init` functions in the order in which the files are given to the compiler; tests see one order, and 40 registrations have 40! orders.", "anchors": ["segment/segment_index.go: SegmentIndex.addToIndex, SegmentIndex.mustAddToIndex, SegmentIndex.UnmarshalerForSegment, SegmentIndex.IsIndexed, SegmentIndex.IsUnmarshaler, KnownSegments", "segment/*_unmarshaler.go: init"]}
{"id": "C131", "title": "A time frame from a date ends on the day it is in UTC", "statement": "`TimeframeFromDate` keeps the start, and its end is midnight UTC of the date the clock shows at the location of the start. Contrary to the comment the end has the location of the start only if that is UTC. As `Date` and `NewShortDate` ignore the location they get, for dates made with them the end is the date in UTC: the frame from today, as the caller's clock shows it, ends the day before it starts exactly if the caller's date is ahead of UTC, and runs into tomorrow exactly if it is behind.", "quantifier": "all instants, all locations (functions from instants to offsets), all dates of the Gregorian calendar", "why_tests_cant": "What happens depends on the time zone and the time of day of the machine that runs the tests; the tests use UTC.", "anchors": ["domain/time.go: Date, NewShortDate, TimeframeFromDate, Timeframe"]}
{"id": "C132", "title": "The written table of banks is the table", "statement": "The Go file that bankdata_parser writes compiles to exactly the entries it was made from if and only if no entry has a quote, a backslash, a line end or a character Go forbids (NUL, byte order mark) in a field other than the institute. The name of the institute is kept whatever it is. So the program has the table made of the lists of banks exactly if every line with a bank number tells such texts. In fact a quote in a city is enough for the file to compile to a table with further banks.", "quantifier": "all tables of any length, all texts in all fields, all functions for printable characters that exclude control characters and the byte order mark", "why_tests_cant": "The template is only seen to work for the banks of the current list; which texts break the file, or silently change it, cannot be enumerated.", "anchors": ["cmd/bankdata_parser/bankdata_parser.go: writeDataToGoFile, dataTemplate", "bankinfo/data.go: data"]}
{"id": "C133", "title": "go generate gives the readers of segments with several versions", "statement": "For each of the thirteen segments that exist in several versions, the flag -segment_versions in its line go:generate is accepted by the generator and names exactly the types that are registered for its ID, version by version. The generator finds the fields of all of them, and the reader it makes does on all bytes exactly what the checked-in reader does: the same segment, the same errors, the same panics.", "quantifier": "all thirteen lines, all bytes, all ways to sort fields by line, all behaviours of strconv.Unquote on texts that need it", "why_tests_cant": "Nothing in the repository runs the generator in a test; that the generated files are current and their lines complete is only seen by regenerating, and equal behaviour on all bytes not even then.", "anchors": ["segment/*.go: go:generate lines with -segment_versions", "segment/*_unmarshaler.go: UnmarshalHBCI", "cmd/unmarshaler/unmarshaler_generator.go: segmentVersions.Set", "generator/segment_unmarshaler.go: versionedSegmentUnmarshalingTemplate"]}
{"id": "C134", "title": "The PIN goes into the signature end and nowhere else", "statement": "Two PIN/TAN dialogs that are used the same way but for the PIN, towards a bank that answers messages differing only in the PIN alike, stay the same but for the PIN: all calls return the same, the dialogs hold the same data, and message by message the same bytes are sent, except for the PIN in the signature end, the length of the data segment around it, and the size in the message header.", "quantifier": "for all pairs of non-empty Latin-1 PINs, banks that do not tell them apart, users, versions, products and sequences of calls", "why_tests_cant": "Tests use one PIN. That nothing else depends on it - no header, reference, security function, stored value or result - is a statement about pairs of runs of every length.", "anchors": ["dialog/pin_tan_dialog.go SetPin", "message/signature.go pinTanSignatureProvider", "message/crypto.go pinTanCryptoProvider", "dialog/dialog.go SendMessage, SyncClientSystemID, SyncUserParameterData, SendAnonymousMessage"]}
{"id": "C135", "title": "What the command unmarshaler does to the files, and that the order of go generate does not matter", "statement": "The command unmarshaler writes at most one file, x_unmarshaler.go for the source x.go, never the source itself; if it ends with an error code, no file has changed; it ends with 0 exactly if a segment is named, the generator belonging to the flags gave a text and the file could be created, and the file then holds what was printed of that text. If all lines go:generate of a package stand in different Go files and each succeeds alone, go generate succeeds, leaves what each line alone would make of the sources, and does so in any order. But success is no guarantee: a generated text that does not parse empties the existing reader with exit code 0.", "quantifier": "for all parsers, generators, printers, flags, files, packages, lists of lines and orders", "why_tests_cant": "No test runs the command. Independence of the order of files and absence of changes on failure are statements about all file systems and permutations.", "anchors": ["cmd/unmarshaler/unmarshaler_generator.go main"]}
{"id": "C136", "title": "When the order in which Go walks a map can be observed", "statement": "If no answer of the bank both announces and describes two different security functions, the random order in which Go walks the map of common functions has no effect: the same calls leave the same dialog, have sent the same bytes and give the same results. Where an initialisation leaves a choice, every one of these functions is taken in some order, so the same program may send other messages when it is run again.", "quantifier": "for all worlds, orders at every step, states, call sequences and jobs", "why_tests_cant": "Go randomises the order in each run, so a test that passes once may fail the next time; that nothing else depends on the order is a statement about pairs of runs of every length.", "anchors": ["dialog/dialog.go updateSecurityFunctionIfNeeded", "dialog/dialog.go supportedSecurityFunctionsFromBankMessage", "dialog/dialog.go init", "dialog/dialog.go SyncClientSystemID"]}
{"id": "C137", "title": "Nothing but two times in each secured message depends on the clock", "statement": "If the bank answers two messages alike that differ only in the time of signature and the time of encryption, then what the clocks show makes no other difference: the same calls leave the same dialog, give the same results, and have sent messages of the same kinds and lengths that are the same bytes except for these two times. This holds while the clocks show years of at most four digits.", "quantifier": "for all worlds, banks that do not look at the times, clocks at every step, states, call sequences and jobs", "why_tests_cant": "Tests fix the clock or ignore the times. That no number, size, reference, stored value or result depends on it is a statement about pairs of runs of every length.", "anchors": ["dialog/dialog.go SendMessage", "dialog/dialog.go SyncClientSystemID", "element/signature.go NewSecurityDate", "message/message.go Sign", "message/message.go Encrypt"]}
{"id": "C138", "title": "What a call inherits from the calls before it", "statement": "Once the dialog has a client system ID, a job and the fetching of user parameters do not depend on the message number, the dialog ID, the accounts and the log that earlier calls left behind, whether these succeeded or not: two dialogs that agree otherwise send the same messages, return the same and learn the same. Anonymous jobs do not depend on them at all. Without a client system ID a job does: after a failed synchronisation it goes on with the old number and dialog ID.", "quantifier": "for all worlds, jobs and pairs of states that agree but for message number, dialog ID, accounts and log", "why_tests_cant": "A test starts from a new dialog or from one particular history; that nothing is left over from any history is a statement about all pairs of states.", "anchors": ["dialog/dialog.go SendMessage", "dialog/dialog.go SendAnonymousMessage", "dialog/dialog.go SyncUserParameterData", "dialog/dialog.go init", "dialog/dialog.go anonymousInit", "dialog/dialog.go SyncClientSystemID"]}
