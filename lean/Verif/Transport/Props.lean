import Verif.Transport.Model
import Verif.Message.ExtractorProps
import Mathlib.Tactic.IntervalCases

/-
Properties of the transports (C51, C52, C74).
-/

namespace Verif.Transport

open GoLib Message Message.Spec

/-! ## C51: Base64 -/

theorem digit_letter {n : Nat} (h : n < 64) : digit (letter n) = some n := by
  have : ∀ k : Fin 64, digit (letter k) = some k.val := by decide +kernel
  exact this ⟨n, h⟩

theorem letter_not_newline {n : Nat} (h : n < 64) : letter n ≠ 10 ∧ letter n ≠ 13 := by
  have : ∀ k : Fin 64, letter k ≠ 10 ∧ letter k ≠ 13 := by decide +kernel
  exact this ⟨n, h⟩

theorem digit_pad : digit 61 = none := by decide

theorem ofNat_toNat (a : Byte) {n : Nat} (h : n = a.toNat) : UInt8.ofNat n = a := by
  subst h
  simp

theorem decodeGroups_encode (b : Bytes) : decodeGroups (encode b) = (b, true) := by
  induction b using encode.induct with
  | case1 => rfl
  | case2 a =>
    have ha := a.toNat_lt
    rw [encode, decodeGroups, digit_letter (by omega), digit_letter (by omega), digit_pad]
    simp only [and_self, if_true, List.isEmpty_nil]
    rw [ofNat_toNat a (by omega)]
  | case3 a b =>
    have ha := a.toNat_lt
    have hb := b.toNat_lt
    rw [encode, decodeGroups, digit_letter (by omega), digit_letter (by omega), digit_letter (by omega), digit_pad]
    simp only [if_true, List.isEmpty_nil]
    rw [ofNat_toNat a (by omega), ofNat_toNat b (by omega)]
  | case4 a b c r ih =>
    have ha := a.toNat_lt
    have hb := b.toNat_lt
    have hc := c.toNat_lt
    rw [encode, decodeGroups, digit_letter (by omega), digit_letter (by omega), digit_letter (by omega),
      digit_letter (by omega)]
    simp only [ih]
    rw [ofNat_toNat a (by omega), ofNat_toNat b (by omega), ofNat_toNat c (by omega)]

theorem encode_no_newline (b : Bytes) : ∀ c ∈ encode b, c ≠ 10 ∧ c ≠ 13 := by
  induction b using encode.induct with
  | case1 => simp [encode]
  | case2 a =>
    have ha := a.toNat_lt
    intro c hc
    simp only [encode, List.mem_cons, List.not_mem_nil, or_false] at hc
    rcases hc with rfl | rfl | rfl | rfl
    · exact letter_not_newline (by omega)
    · exact letter_not_newline (by omega)
    · decide
    · decide
  | case3 a b =>
    have ha := a.toNat_lt
    have hb := b.toNat_lt
    intro c hc
    simp only [encode, List.mem_cons, List.not_mem_nil, or_false] at hc
    rcases hc with rfl | rfl | rfl | rfl
    · exact letter_not_newline (by omega)
    · exact letter_not_newline (by omega)
    · exact letter_not_newline (by omega)
    · decide
  | case4 a b c r ih =>
    have ha := a.toNat_lt
    have hb := b.toNat_lt
    have hc := c.toNat_lt
    intro x hx
    simp only [encode, List.mem_cons] at hx
    rcases hx with rfl | rfl | rfl | rfl | hx
    · exact letter_not_newline (by omega)
    · exact letter_not_newline (by omega)
    · exact letter_not_newline (by omega)
    · exact letter_not_newline (by omega)
    · exact ih x hx

/-- C51: decoding what was encoded gives the same bytes and no error, also if the
encoded text is broken into lines: `wrapped` is the encoded text with any line breaks
put in. -/
theorem C51_roundtrip (b wrapped : Bytes) (hw : wrapped.filter (fun c => !(c == 10 || c == 13)) = encode b) :
    decode wrapped = (b, true) := by
  unfold decode withoutNewlines
  rw [hw, decodeGroups_encode]

/-- C51: encoded text has no line breaks, and four characters for every three bytes
begun. -/
theorem C51_shape (b : Bytes) :
    (∀ c ∈ encode b, c ≠ 10 ∧ c ≠ 13) ∧ (encode b).length = (b.length + 2) / 3 * 4 := by
  refine ⟨encode_no_newline b, ?_⟩
  induction b using encode.induct with
  | case1 => rfl
  | case2 a => simp [encode]
  | case3 a b => simp [encode]
  | case4 a b c r ih =>
    simp only [encode, List.length_cons, ih]
    omega

/-- C51: if the bank answers the encoded request with the encoding of `answer`, in one
line or several, the caller gets `answer`; if the transport fails, so does the call. -/
theorem C51_transparent (t : Transport) (body : Bytes) :
    (∀ answer wrapped, t (encode body) = .ok (wrapped, true) →
      wrapped.filter (fun c => !(c == 10 || c == 13)) = encode answer →
      base64Middleware t body = .ok (answer, true) ∧ pinTanTransport t body = .ok (answer, true)) ∧
    (t (encode body) = .err → base64Middleware t body = .err ∧ pinTanTransport t body = .err) := by
  constructor
  · intro answer wrapped ht hw
    have hd := C51_roundtrip answer wrapped hw
    have : base64Middleware t body = .ok (answer, true) := by
      simp [base64Middleware, ht, Outcome.map', decodeBody, hd]
    exact ⟨this, by simp [pinTanTransport, loggingMiddleware, this, Outcome.map']⟩
  · intro ht
    have : base64Middleware t body = .err := by simp [base64Middleware, ht, Outcome.map']
    exact ⟨this, by simp [pinTanTransport, loggingMiddleware, this, Outcome.map']⟩

/-- C51: a text with a character outside the alphabet (line breaks and padding aside) is
a decoding error of the Base64 middleware. -/
theorem C51_error (b : Bytes) (c : Byte) (hc : c ∈ b) (h1 : c ≠ 10) (h2 : c ≠ 13) (h3 : c ≠ 61)
    (h4 : digit c = none) : (decode b).2 = false := by
  have key : ∀ n : Nat, ∀ l : Bytes, l.length ≤ n → c ∈ l → (decodeGroups l).2 = false := by
    intro n
    induction n with
    | zero =>
      intro l hl hm
      cases l with
      | nil => simp at hm
      | cons => simp at hl
    | succ n ih =>
      intro l hl hm
      match l, hl, hm with
      | [], _, hm => simp at hm
      | [_], _, _ => rfl
      | [_, _], _, _ => rfl
      | [_, _, _], _, _ => rfl
      | p :: q :: r :: s :: t, hl, hm =>
        simp only [List.length_cons] at hl
        have ih' := ih t (by omega)
        rw [decodeGroups]
        simp only [List.mem_cons] at hm
        rcases hm with rfl | rfl | rfl | rfl | hm
        · simp [h4]
        · simp only [h4]
          cases digit p <;> rfl
        · simp only [h4, h3, false_and, if_false]
          cases digit p <;> cases digit q <;> rfl
        · simp only [h4, h3, and_false, if_false]
          cases digit p <;> cases digit q <;> cases digit r <;> rfl
        · have he : t.isEmpty = false := by
            cases t with
            | nil => simp at hm
            | cons => rfl
          rw [he]
          cases digit p <;> cases digit q <;> cases digit r <;> cases digit s <;>
            simp only [ih' hm] <;> split <;> rfl
  apply key _ _ (Nat.le_refl _)
  unfold withoutNewlines
  rw [List.mem_filter]
  exact ⟨hc, by simp [h1, h2]⟩

/-- Non-vacuity: a response of two lines, and one with a character outside the alphabet. -/
example : decode (b!"SE5IQks6" ++ [13, 10] ++ b!"MTozJw==") = (b!"HNHBK:1:3'", true) ∧
    encode b!"HNHBK:1:3'" = b!"SE5IQks6MTozJw==" ∧ decode b!"SE5IQks6MT!zJw==" = (b!"HNHBK:", false) := by
  decide +kernel

/-! ## C52: encrypted responses -/

theorem extract_segments {b : Bytes} {ss : List Bytes} (h : (newExtractor b).extract.2 = .ok ss) :
    (newExtractor b).extract.1 = ⟨b, ss⟩ := by
  obtain ⟨ss', u, r, _, _, _, h4 | h4 | h4⟩ := extract_cases b []
  all_goals
    unfold newExtractor at h ⊢
    rw [h4.2] at h ⊢
    simp at h ⊢
  exact h

theorem isEncrypted_iff (r : Response) :
    r.isEncrypted = true ↔ ∃ s ∈ r.extractor.segments, b!"HNVSK" <+: s := by
  unfold Response.isEncrypted
  have := C16_findSegment_none r.extractor b!"HNVSK"
  rw [Option.isSome_iff_ne_none, Ne, this]
  simp

/-- C52: a response that could be read to its end is accepted exactly if it is made of
segments `ss`, possibly followed by the beginning of one; it is taken to be encrypted
exactly if one of these segments begins with `HNVSK`.  What the data inside a segment
look like does not matter. -/
theorem C52_encrypted {b : Bytes} (hl : b.length < 2 ^ 63) (encrypted : Bool) :
    (∃ r, readResponse (b, true) = .ok r ∧ r.isEncrypted = encrypted) ↔
      ∃ (ss : List Bytes) (u rest : Bytes), b = ss.flatten ++ u ++ rest ∧ (∀ s ∈ ss, SegmentText s) ∧ Unfinished u ∧
        (rest = [] ∨ rest.head? = some 0) ∧ (encrypted = true ↔ ∃ s ∈ ss, b!"HNVSK" <+: s) := by
  constructor
  · rintro ⟨r, hr, rfl⟩
    simp only [readResponse, if_true] at hr
    cases h : (newExtractor b).extract.2 with
    | err => simp [h, Outcome.map'] at hr
    | panic => simp [h, Outcome.map'] at hr
    | ok ss =>
      have he := extract_segments h
      simp only [h, Outcome.map', Outcome.ok.injEq] at hr
      subst hr
      obtain ⟨u, rest, h1, h2, h3, h4⟩ := (C14_extract_iff hl ss).1 h
      refine ⟨ss, u, rest, h1, h2, h3, h4, ?_⟩
      rw [isEncrypted_iff, he]
  · rintro ⟨ss, u, rest, h1, h2, h3, h4, h5⟩
    have h := (C14_extract_iff hl ss).2 ⟨u, rest, h1, h2, h3, h4⟩
    have he := extract_segments h
    refine ⟨⟨b, ⟨b, ss⟩⟩, ?_, ?_⟩
    · simp only [readResponse, if_true, h, Outcome.map', he]
    · rw [Bool.eq_iff_iff, isEncrypted_iff, h5]

/-- Non-vacuity: an encrypted response, and one whose binary data look like an
encryption header. -/
example : (∃ r, readResponse (b!"HNHBK:1:3+1'HNVSK:998:2+998'HNVSD:999:1+@1@x'HNHBS:2:1+1'", true) = .ok r ∧
      r.isEncrypted = true) ∧
    (∃ r, readResponse (b!"HNHBK:1:3+1'HIKAZ:2:5+@12@'HNVSK:998:2'HNHBS:3:1+1'", true) = .ok r ∧
      r.isEncrypted = false) :=
  ⟨⟨_, rfl, by decide⟩, ⟨_, rfl, by decide⟩⟩

/-! ## C74: damaged responses -/

theorem decodeGroups_encode_append (b junk : Bytes) (h3 : b.length % 3 = 0) :
    decodeGroups (encode b ++ junk) = (b ++ (decodeGroups junk).1, (decodeGroups junk).2) := by
  induction b using encode.induct with
  | case1 => simp [encode]
  | case2 a => simp at h3
  | case3 a b => simp at h3
  | case4 a b c r ih =>
    have ha := a.toNat_lt
    have hb := b.toNat_lt
    have hc := c.toNat_lt
    rw [encode]
    simp only [List.cons_append]
    rw [decodeGroups, digit_letter (by omega), digit_letter (by omega), digit_letter (by omega),
      digit_letter (by omega)]
    rw [ih (by simp only [List.length_cons] at h3; omega)]
    simp only
    rw [ofNat_toNat a (by omega), ofNat_toNat b (by omega), ofNat_toNat c (by omega)]

/-- C74: a response whose encoding is damaged or ends early, at any four characters, is
an error for a reader of the Base64 middleware, but reaches a PIN/TAN dialog as a
complete response with the bytes up to the damage. -/
theorem C74_damaged (t : Transport) (body answer : Bytes) (junk : Bytes) (c : Byte) (rest : Bytes)
    (h3 : answer.length % 3 = 0) (hj : junk = c :: rest) (hc : digit c = none) (h1 : c ≠ 10) (h2 : c ≠ 13)
    (ht : t (encode body) = .ok (encode answer ++ junk, true)) :
    base64Middleware t body = .ok (answer, false) ∧ pinTanTransport t body = .ok (answer, true) := by
  have hd : decode (encode answer ++ junk) = (answer, false) := by
    unfold decode withoutNewlines
    rw [List.filter_append]
    have he : (encode answer).filter (fun c => !(c == 10 || c == 13)) = encode answer := by
      rw [List.filter_eq_self]
      intro x hx
      have := encode_no_newline answer x hx
      simp [this.1, this.2]
    have hf : (c :: rest).filter (fun c => !(c == 10 || c == 13)) =
        c :: rest.filter (fun c => !(c == 10 || c == 13)) := by
      rw [List.filter_cons_of_pos]
      simp [h1, h2]
    rw [he, hj, hf, decodeGroups_encode_append _ _ h3]
    have : ∀ l : Bytes, decodeGroups (c :: l) = ([], false) := by
      intro l
      match l with
      | [] => rfl
      | [_] => rfl
      | [_, _] => rfl
      | p :: q :: r :: l => rw [decodeGroups]; simp [hc]
    rw [this]
    simp
  have hb : base64Middleware t body = .ok (answer, false) := by
    simp [base64Middleware, ht, Outcome.map', decodeBody, hd]
  exact ⟨hb, by simp [pinTanTransport, loggingMiddleware, hb, Outcome.map']⟩

/-- C74: the same if the connection breaks while the response is read: the Base64 middleware
passes the read error on, and the PIN/TAN transport loses it and takes what came before the break
for the whole response. -/
theorem C74_broken (t : Transport) (body answer wrapped : Bytes) (ht : t (encode body) = .ok (wrapped, false))
    (hw : wrapped.filter (fun c => !(c == 10 || c == 13)) = encode answer) :
    base64Middleware t body = .ok (answer, false) ∧ pinTanTransport t body = .ok (answer, true) ∧
    readResponse (answer, false) = .err := by
  have hd := C51_roundtrip answer wrapped hw
  have hb : base64Middleware t body = .ok (answer, false) := by simp [base64Middleware, ht, Outcome.map', decodeBody, hd]
  exact ⟨hb, by simp [pinTanTransport, loggingMiddleware, hb, Outcome.map'], rfl⟩

/-- Non-vacuity of `C74_broken`. -/
example : ∃ (t : Transport) (wrapped : Bytes), t (encode b!"HNHBK:1:3'") = .ok (wrapped, false) ∧ wrapped ≠ encode b!"HNHBK:1:3'" ∧
    wrapped.filter (fun c => !(c == 10 || c == 13)) = encode b!"HNHBK:1:3'" :=
  ⟨fun _ => .ok (b!"SE5IQks6" ++ [13, 10] ++ b!"MTozJw==", false), b!"SE5IQks6" ++ [13, 10] ++ b!"MTozJw==", rfl, by decide, by decide⟩

/-- C74: so a response cut off before its error acknowledgement is a response without
errors. -/
theorem C74_lost_error :
    ∃ t : Transport, pinTanTransport t b!"" = .ok (b!"HNHBK:1:3+12+300+0+1'", true) ∧
      t b!"" = .ok (encode b!"HNHBK:1:3+12+300+0+1'" ++ b!"!" ++ encode b!"HIRMG:2:2+9050::Fehler'", true) := by
  refine ⟨fun _ => .ok (encode b!"HNHBK:1:3+12+300+0+1'" ++ b!"!" ++ encode b!"HIRMG:2:2+9050::Fehler'", true), ?_, rfl⟩
  decide +kernel

/-! ## C75: HTTP status codes -/

/-- C75: over HTTPS, a PIN/TAN dialog takes the body of an answer for the bank's message
whatever the status code is; the transport with its own Base64 encoding decodes it
exactly if the status is 200. -/
theorem C75_status (http : Http) (body answer : Bytes) (status : Nat)
    (h : http (encode body) = .ok (status, (encode answer, true))) :
    pinTanTransport (httpsTransport http) body = .ok (answer, true) ∧
    httpsBase64Transport http body = .ok (if status = 200 then answer else encode answer, true) := by
  have hd : decode (encode answer) = (answer, true) := C51_roundtrip answer _ (by
    rw [List.filter_eq_self]
    intro x hx
    have := encode_no_newline answer x hx
    simp [this.1, this.2])
  constructor
  · simp [pinTanTransport, loggingMiddleware, base64Middleware, httpsTransport, h, Outcome.map', decodeBody, hd]
  · simp only [httpsBase64Transport, h, Outcome.map', statusBody, decodeBody, hd]
    split <;> rfl

/-- Non-vacuity of `C75_status`. -/
example : ∃ (http : Http) (status : Nat), status ≠ 200 ∧ http (encode b!"x") = .ok (status, (encode b!"HNHBK:1:3'", true)) :=
  ⟨fun _ => .ok (500, (encode b!"HNHBK:1:3'", true)), 500, by decide, rfl⟩

end Verif.Transport
