import Verif.Bank.GroupWire
import Verif.Bank.BalanceProps

/-
C91: what a client learns about its user (HIUPA) and about each of the user's accounts (HIUPD).
-/

namespace Verif.Bank

open GoLib Charset Element Element.Spec Segment Segment.Spec Message Dialog Verif.Token.Spec

/-! ## Fields that may be missing at the end -/

theorem drop_cons {hb : Bytes} {fs out : List Bytes} (hne : hb ≠ []) (h : DropTrailing fs out) :
    DropTrailing (hb :: fs) (hb :: out) := by
  obtain ⟨k, rfl, h⟩ := h
  refine ⟨k, rfl, ?_⟩
  rcases List.eq_nil_or_concat out with rfl | ⟨i, x, rfl⟩
  · simpa using hne
  · rw [List.concat_eq_append] at h ⊢
    rw [← List.cons_append, List.getLast?_concat]
    simpa using h

theorem drop_mem {fs out : List Bytes} (h : DropTrailing fs out) : ∀ f ∈ out, f ∈ fs := by
  obtain ⟨k, rfl, _⟩ := h
  intro f hf
  simp [hf]

theorem drop_length {fs out : List Bytes} (h : DropTrailing fs out) : out.length ≤ fs.length := by
  obtain ⟨k, rfl, _⟩ := h
  simp

/-- Nothing is missing if the last field is not empty. -/
theorem drop_eq {fs out : List Bytes} (h : DropTrailing fs out) (hl : fs.getLast? ≠ some []) : out = fs := by
  obtain ⟨k, rfl, _⟩ := h
  cases k with
  | zero => simp
  | succ k =>
    rw [List.replicate_succ', ← List.append_assoc, List.getLast?_concat] at hl
    exact absurd rfl hl

/-- The value of a text field: an empty text is not there. -/
def given (s : Str) : Option Str := if s = [] then none else some s

theorem given_getD (s : Str) : (given s).getD [] = s := by
  unfold given
  split
  · rename_i h; simp [h]
  · rfl

theorem text_at {l : List Bytes} {i : Nat} {s : Str} (h : Sendable s) (hi : l[i]? = some (enc (escape s))) :
    field l i text = .ok (given s) := by
  unfold given
  split
  · rename_i hs
    exact (field_nil _ (.inr (by rw [hi, enc_escape_nil.2 hs]))).1
  · rename_i hs
    exact field_at hi (fun h => hs (enc_escape_nil.1 h)) (by unfold text; rw [unmarshalText_enc h.1])

theorem generated_drop {id : Str} {p v r : Int} (hid : Letters id) (hp : IsInt p) (hv : IsInt v) (hr : IsInt r)
    (hl : id.length < 2 ^ 60) {fs out : List Bytes} (hd : DropTrailing fs out) (hf : ∀ f ∈ fs, Field f)
    (hs : (out.flatMap (fun f => 43 :: f)).length ≤ 2 ^ 61) :
    ∃ hb, (∀ f ∈ fs, f.length < 2 ^ 62) ∧ DropTrailing (hb :: fs) (hb :: out) ∧
      ∀ (α : Type) (k : Header → List Bytes → Outcome α),
        generated (segmentBytes id p v r out) k = k ⟨id, p, v, some r⟩ (hb :: out) := by
  have hw : Wire ⟨id, p, v, some r⟩ out (segmentBytes id p v r out) :=
    wire_of_fields hid hp hv hr hl (fun f h => hf f (drop_mem hd f h)) hd.choose_spec.2 hs
  obtain ⟨hb, h1, h2, h3⟩ := generated_wire hw
  refine ⟨hb, ?_, ?_, fun α k => ?_⟩
  · intro f hf
    obtain ⟨k, rfl, _⟩ := hd
    rcases List.mem_append.1 hf with h | h
    · exact h1 f h
    · rw [List.eq_of_mem_replicate h]; simp
  · apply drop_cons _ hd
    rintro rfl
    rw [show unmarshalHeader [] = .err by decide +kernel] at h3
    simp at h3
  · unfold generated
    rw [h2]
    show (unmarshalHeader hb).bind _ = _
    rw [h3]
    rfl

/-! ## The user -/

/-- What a bank says about a user. -/
structure AboutUser where
  userId : Str
  version : Int
  usage : Int
  name : Str
  extensions : Str

/-- The fields of the segment; version 2 has no name and no extensions. -/
def AboutUser.fields (d : AboutUser) (v : Int) : List Bytes :=
  [enc (escape d.userId), itoa d.version, itoa d.usage] ++
    if v = 2 then [] else [enc (escape d.name), enc (escape d.extensions)]

theorem seen_user {v : Int} (hv : v = 2 ∨ v = 3 ∨ v = 4) (m : Bytes) :
    seen views.userParameters c!"HIUPA" v m =
      ((if v = 2 then unmarshalUserParamsV2 m else unmarshalUserParams v.toNat m).map' BankSeg.userParams).bind
        views.userParameters := by
  rcases hv with rfl | rfl | rfl <;> rfl

theorem userFields {d : AboutUser} {v : Int} (ht : ∀ s ∈ [d.userId, d.name, d.extensions], Sendable s) :
    ∀ f ∈ d.fields v, Field f := by
  intro f hf
  unfold AboutUser.fields at hf
  rw [List.mem_append] at hf
  rcases hf with hf | hf
  · simp only [List.mem_cons, List.not_mem_nil, or_false] at hf
    rcases hf with rfl | rfl | rfl
    · exact field_of_part (part_of_sendable (ht _ (by simp)))
    · exact .one (itoa_value _)
    · exact .one (itoa_value _)
  · split at hf
    · simp at hf
    · simp only [List.mem_cons, List.not_mem_nil, or_false] at hf
      rcases hf with rfl | rfl
      · exact field_of_part (part_of_sendable (ht _ (by simp)))
      · exact field_of_part (part_of_sendable (ht _ (by simp)))

/-- C91: the dialog gets the ID of the user, the version and the usage of the user parameters as
the bank has sent them, but the name and the extensions only in version 4: version 3 transmits them
and they are lost.  Without a user ID the dialog panics. -/
theorem C91_user {d : AboutUser} {out : List Bytes} {p v r : Int} (hp : IsInt p) (hr : IsInt r)
    (hv : v = 2 ∨ v = 3 ∨ v = 4) (hn : IsInt d.version ∧ IsInt d.usage)
    (ht : ∀ s ∈ [d.userId, d.name, d.extensions], Sendable s) (hd : DropTrailing (d.fields v) out)
    (hs : (out.flatMap (fun f => 43 :: f)).length ≤ 2 ^ 61) :
    seen views.userParameters c!"HIUPA" v (segmentBytes c!"HIUPA" p v r out) =
      if d.userId = [] then .panic
      else if v = 4 then .ok ⟨d.userId, d.version, d.usage, d.name, d.extensions⟩
      else .ok ⟨d.userId, d.version, d.usage, [], []⟩ := by
  have hvi : IsInt v := by unfold IsInt; omega
  obtain ⟨hb, h1, hdr, h2⟩ := generated_drop (id := c!"HIUPA") (by decide) hp hvi hr (by decide) hd (userFields ht) hs
  have f1 : field (hb :: out) 1 text = .ok (given d.userId) := by
    rw [field_drop hdr]; exact text_at (ht _ (by simp)) rfl
  have f2 : field (hb :: out) 2 unmarshalNumber = .ok (some d.version) := by
    rw [field_drop hdr]; exact field_at rfl (itoa_ne_nil _) (C09_number _ hn.1)
  have g3 : field (hb :: d.fields v) 3 unmarshalNumber = .ok (some d.usage) :=
    field_at rfl (itoa_ne_nil _) (C09_number _ hn.2)
  rw [seen_user hv]
  have hu : ∀ {α : Type} (x y : α), (if d.userId = [] then x else y) = (match given d.userId with | none => x | some _ => y) := by
    intro α x y
    unfold given
    split
    · rfl
    · rfl
  by_cases h2v : v = 2
  · subst h2v
    have f3 : lastField (hb :: out) 3 unmarshalNumber = .ok (some d.usage) := by
      rw [lastField_drop hdr (by simp [AboutUser.fields])]; exact g3
    rw [if_pos rfl]
    unfold unmarshalUserParamsV2
    rw [h2, f1, f2]
    simp only [Outcome.bind]
    rw [f3]
    by_cases he : d.userId = []
    · rw [if_pos he, given, if_pos he]; rfl
    · rw [if_neg he, given, if_neg he, if_neg (by decide)]; rfl
  · have e4 : (hb :: d.fields v)[4]? = some (enc (escape d.name)) := by simp [AboutUser.fields, h2v]
    have e5 : (hb :: d.fields v)[5]? = some (enc (escape d.extensions)) := by simp [AboutUser.fields, h2v]
    have f3 : field (hb :: out) 3 unmarshalNumber = .ok (some d.usage) := by rw [field_drop hdr]; exact g3
    have f4 : field (hb :: out) 4 text = .ok (given d.name) := by
      rw [field_drop hdr]; exact text_at (ht _ (by simp)) e4
    have f5 : lastField (hb :: out) 5 text = .ok (given d.extensions) := by
      rw [lastField_drop hdr (by simp [AboutUser.fields, h2v])]; exact text_at (ht _ (by simp)) e5
    rw [if_neg h2v]
    unfold unmarshalUserParams
    rw [h2, f1, f2, f3, f4]
    simp only [Outcome.bind]
    rw [f5]
    by_cases he : d.userId = []
    · rw [if_pos he, given, if_pos he]; rfl
    · rw [if_neg he, given, if_neg he]
      rcases hv with rfl | rfl | rfl
      · exact absurd rfl h2v
      · rfl
      · rw [if_pos rfl]
        show Outcome.ok (UserParameters.mk d.userId d.version d.usage ((given d.name).getD []) ((given d.extensions).getD [])) = _
        rw [given_getD, given_getD]

/-- The same user in versions 3 and 4. -/
example :
    DropTrailing ((AboutUser.mk c!"user" 7 0 c!"Ada L." []).fields 4) [b!"user", b!"7", b!"0", b!"Ada L."] ∧
    segmentBytes c!"HIUPA" 5 4 4 [b!"user", b!"7", b!"0", b!"Ada L."] = b!"HIUPA:5:4:4+user+7+0+Ada L.'" ∧
    seen views.userParameters c!"HIUPA" 4 b!"HIUPA:5:4:4+user+7+0+Ada L.'" = .ok ⟨c!"user", 7, 0, c!"Ada L.", []⟩ ∧
    seen views.userParameters c!"HIUPA" 3 b!"HIUPA:5:3:4+user+7+0+Ada L.'" = .ok ⟨c!"user", 7, 0, [], []⟩ ∧
    seen views.userParameters c!"HIUPA" 4 b!"HIUPA:5:4:4++7+0+Ada L.'" = .panic :=
  ⟨⟨1, by decide +kernel, by decide⟩, by decide +kernel, by decide +kernel, by decide +kernel, by decide +kernel⟩

/-! ## The accounts -/

/-- A limit: its kind, the amount and the number of days. -/
structure AboutLimit where
  kind : Str
  amount : Dec
  currency : Str
  days : Int

def AboutLimit.parts (l : AboutLimit) : List Bytes :=
  [enc (escape l.kind), floatString l.amount, enc (escape l.currency), itoa l.days]

/-- Texts and numbers that survive the wire. -/
def AboutLimit.Good (l : AboutLimit) : Prop :=
  (Sendable l.kind ∧ NoSep l.kind) ∧ l.amount.Canonical ∧ (Sendable l.currency ∧ NoSep l.currency) ∧ IsInt l.days

/-- A transaction the user may order for the account: the segment ID, the number of signatures it
needs and perhaps a limit. -/
structure Allowed where
  id : Str
  signatures : Int
  limit : Option AboutLimit

def Allowed.parts (t : Allowed) : List Bytes :=
  [enc (escape t.id), itoa t.signatures] ++ (t.limit.map (·.parts)).getD []

def Allowed.Good (t : Allowed) : Prop :=
  (Sendable t.id ∧ NoSep t.id) ∧ IsInt t.signatures ∧ ∀ l, t.limit = some l → l.Good

/-- What a bank says about an account.  Version 4 has no account type, only versions 6 and 7 have an
IBAN. -/
structure AboutAccount where
  connection : Option AccountConnection
  iban : Str
  userId : Str
  type : Option Int
  currency : Str
  name1 : Str
  name2 : Str
  product : Str
  limit : Option AboutLimit
  transactions : List Allowed

/-- The bytes of an account connection. -/
def connectionParts (c : AccountConnection) : List Bytes :=
  [enc (escape c.accountID), enc (escape c.sub), zeroPad 3 c.country, enc (escape c.bankID)]

/-- The fields before the currency. -/
def AboutAccount.front (d : AboutAccount) (v : Int) : List Bytes :=
  let conn := (d.connection.map fun c => join 58 (connectionParts c)).getD []
  let type := (d.type.map itoa).getD []
  if v = 4 then [conn, enc (escape d.userId)]
  else if v = 5 then [conn, enc (escape d.userId), type]
  else [conn, enc (escape d.iban), enc (escape d.userId), type]

/-- The fields of the segment. -/
def AboutAccount.fields (d : AboutAccount) (v : Int) : List Bytes :=
  d.front v ++
    [enc (escape d.currency), enc (escape d.name1), enc (escape d.name2), enc (escape d.product),
     (d.limit.map fun l => join 58 l.parts).getD []] ++
    d.transactions.map fun t => join 58 t.parts

/-- Texts and numbers that survive the wire. -/
structure AboutAccount.Good (d : AboutAccount) : Prop where
  connection : ∀ c, d.connection = some c →
    IsInt c.country ∧ ∀ s ∈ [c.accountID, c.sub, c.bankID], Sendable s ∧ NoSep s
  type : ∀ n, d.type = some n → IsInt n
  texts : ∀ s ∈ [d.iban, d.userId, d.currency, d.name1, d.name2, d.product], Sendable s
  limit : ∀ l, d.limit = some l → l.Good
  transactions : ∀ t ∈ d.transactions, t.Good

/-- The connection as it is read: with the escape signs (C60). -/
def readConnection (c : AccountConnection) : AccountConnection :=
  ⟨escape c.accountID, escape c.sub, c.country, escape c.bankID⟩

theorem connection_read {c : AccountConnection}
    (h : IsInt c.country ∧ ∀ s ∈ [c.accountID, c.sub, c.bankID], Sendable s ∧ NoSep s)
    (hl : (join 58 (connectionParts c)).length < 2 ^ 62) :
    unmarshalAccountConnection (join 58 (connectionParts c)) = .ok (readConnection c) := by
  obtain ⟨hn, h⟩ := h
  have h1 := h c.accountID (by simp)
  have h2 := h c.sub (by simp)
  have h3 := h c.bankID (by simp)
  unfold unmarshalAccountConnection
  rw [extract_join (by simp [connectionParts])
    (by simp [connectionParts, clean_zeroPad, clean_text h1.1 h1.2, clean_text h2.1 h2.2, clean_text h3.1 h3.2]) hl]
  simp [Outcome.bind, connectionParts, accountParts, atoi_zeroPad 3 c.country hn, Outcome.ofOption, Outcome.map',
    toUTF8_enc (escape_latin1.2 h1.1.1), toUTF8_enc (escape_latin1.2 h2.1.1), toUTF8_enc (escape_latin1.2 h3.1.1),
    readConnection]

theorem clean_float {x : Dec} (h : x.Canonical) : CleanPart (floatString x) :=
  ⟨.inr (floatString_value h), floatString_clean h⟩

theorem AboutLimit.Good.clean {l : AboutLimit} (h : l.Good) : ∀ q ∈ l.parts, CleanPart q := by
  obtain ⟨h1, h2, h3, _⟩ := h
  simp [AboutLimit.parts, clean_text h1.1 h1.2, clean_float h2, clean_text h3.1 h3.2, clean_number]

theorem Allowed.Good.clean {t : Allowed} (h : t.Good) : ∀ q ∈ t.parts, CleanPart q := by
  obtain ⟨h1, _, h2⟩ := h
  intro q hq
  unfold Allowed.parts at hq
  rw [List.mem_append] at hq
  rcases hq with hq | hq
  · simp only [List.mem_cons, List.not_mem_nil, or_false] at hq
    rcases hq with rfl | rfl
    · exact clean_text h1.1 h1.2
    · exact clean_number _
  · cases hl : t.limit with
    | none => rw [hl] at hq; simp at hq
    | some l => rw [hl] at hq; exact (h2 l hl).clean q (by simpa using hq)

theorem allowed_ne (t : Allowed) : join 58 t.parts ≠ [] := by
  unfold Allowed.parts
  rw [List.cons_append, join_cons _ _ (by simp)]
  simp

/-- One transaction: rejected if it has a limit (C59). -/
theorem allowed_read {t : Allowed} (h : t.Good) (hl : (join 58 t.parts).length < 2 ^ 62) :
    unmarshalBusinessTransaction (join 58 t.parts) =
      if t.limit = none then .ok ⟨t.id, t.signatures, none⟩ else .err := by
  have he := extract_join (ps := t.parts) (by simp [Allowed.parts]) h.clean hl
  obtain ⟨h1, h2, h3⟩ := h
  cases ht : t.limit with
  | none =>
    rw [if_pos rfl]
    have hp : t.parts = [enc (escape t.id), itoa t.signatures] := by simp [Allowed.parts, ht]
    unfold unmarshalBusinessTransaction
    rw [he, hp]
    show businessParts _ = _
    unfold businessParts
    have := C09_number t.signatures h2
    unfold marshalNumber at this
    simp [this, Outcome.bind, optField, Outcome.map', unmarshalText_enc h1.1.1]
  | some l =>
    rw [if_neg (by simp)]
    refine C59_amount he ?_ (by omega)
    have hp : t.parts.getD 3 [] = floatString l.amount := by simp [Allowed.parts, ht, AboutLimit.parts]
    rw [hp]
    exact Token.value_ne_nil (floatString_value (h3 l ht).2.1)

theorem split_join {ps : List Bytes} (hne : ps ≠ []) (h : ∀ q ∈ ps, (43 : Byte) ∉ q) : split 43 (join 43 ps) = ps := by
  induction ps with
  | nil => exact absurd rfl hne
  | cons p ps ih =>
    have one : ∀ (p : Bytes) (rest : Bytes), (43 : Byte) ∉ p → split 43 (p ++ 43 :: rest) = p :: split 43 rest := by
      intro p rest hp
      induction p with
      | nil => simp [split]
      | cons b p ih =>
        simp only [List.mem_cons, not_or] at hp
        have he : (b == 43) = false := by simpa using Ne.symm hp.1
        rw [List.cons_append, split, he, ih hp.2]
        rfl
    have last : ∀ p : Bytes, (43 : Byte) ∉ p → split 43 p = [p] := by
      intro p hp
      induction p with
      | nil => rfl
      | cons b p ih =>
        simp only [List.mem_cons, not_or] at hp
        unfold split
        rw [if_neg (by simpa using Ne.symm hp.1), ih hp.2]
    cases ps with
    | nil => exact last p (h p (by simp))
    | cons q ps =>
      rw [join_cons _ _ (by simp), one p _ (h p (by simp)), ih (by simp) fun q hq => h q (by simp [hq])]

theorem group_no_plus {ps : List Bytes} (h : ∀ q ∈ ps, CleanPart q) : (43 : Byte) ∉ join 58 ps := by
  intro hm
  rcases mem_join hm with h' | ⟨q, hq, hm⟩
  · exact absurd h' (by decide)
  · exact (h q hq).2.1 hm

/-- A list of transactions, of which none may have a limit. -/
def withoutLimits (ts : List Allowed) : Outcome (List BusinessTransaction) :=
  if ∀ t ∈ ts, t.limit = none then .ok (ts.map fun t => ⟨t.id, t.signatures, none⟩) else .err

theorem alloweds_read {ts : List Allowed} (hg : ∀ t ∈ ts, t.Good) (hl : ∀ t ∈ ts, (join 58 t.parts).length < 2 ^ 62) :
    unmarshalBusinessTransactionList (ts.map fun t => join 58 t.parts) = withoutLimits ts := by
  induction ts with
  | nil => rfl
  | cons t ts ih =>
    have hi := ih (fun t ht => hg t (by simp [ht])) (fun t ht => hl t (by simp [ht]))
    rw [List.map_cons]
    unfold unmarshalBusinessTransactionList
    rw [allowed_read (hg t (by simp)) (hl t (by simp)), hi]
    unfold withoutLimits
    by_cases h1 : t.limit = none
    · by_cases h2 : ∀ t ∈ ts, t.limit = none
      · rw [if_pos h1, if_pos h2, if_pos (by simpa [h1] using h2)]; rfl
      · rw [if_pos h1, if_neg h2, if_neg (by simpa [h1] using h2)]; rfl
    · rw [if_neg h1]
      exact (if_neg fun h => h1 (h t (by simp))).symm

theorem withoutLimits_nil : withoutLimits [] = .ok [] := rfl

/-- The transactions of versions 4 and 5. -/
theorem last_transactions {hb : Bytes} {front out : List Bytes} {ts : List Allowed} {i : Nat}
    (hd : DropTrailing (hb :: (front ++ ts.map fun t => join 58 t.parts)) (hb :: out)) (hi : i = front.length + 1)
    (hg : ∀ t ∈ ts, t.Good) (hl : ∀ t ∈ ts, (join 58 t.parts).length < 2 ^ 62) :
    (lastField (hb :: out) i unmarshalBusinessTransactions).map' (·.getD []) = withoutLimits ts := by
  by_cases hn : ts = []
  · subst hn
    have := drop_length hd
    rw [(field_nil _ (.inl (List.getElem?_eq_none (by simp at this ⊢; omega)))).2]
    rfl
  · have hlast : (hb :: (front ++ ts.map fun t => join 58 t.parts)).getLast? ≠ some [] := by
      obtain ⟨a, x, rfl⟩ : ∃ a x, ts = a ++ [x] := by
        rcases List.eq_nil_or_concat ts with rfl | ⟨a, x, rfl⟩
        · exact absurd rfl hn
        · exact ⟨a, x, by simp⟩
      rw [List.map_append, List.map_singleton, ← List.append_assoc, ← List.cons_append, List.getLast?_concat]
      simpa using allowed_ne x
    rw [drop_eq hd hlast]
    have hdrop : (hb :: (front ++ ts.map fun t => join 58 t.parts)).drop i = ts.map fun t => join 58 t.parts := by
      rw [hi, List.drop_succ_cons, List.drop_left]
    obtain ⟨t, ts', rfl⟩ : ∃ t ts', ts = t :: ts' := List.exists_cons_of_ne_nil hn
    have hget : (hb :: (front ++ (t :: ts').map fun t => join 58 t.parts))[i]? = some (join 58 t.parts) := by
      rw [hi]; simp
    unfold lastField
    rw [hget]
    simp only [allowed_ne, if_false]
    rw [hdrop]
    unfold unmarshalBusinessTransactions
    rw [split_join (by simp), alloweds_read hg hl]
    · unfold withoutLimits
      split <;> rfl
    · intro q hq
      obtain ⟨t, ht, rfl⟩ := List.mem_map.1 hq
      exact group_no_plus (hg t ht).clean

/-- The transactions of versions 6 and 7. -/
theorem first_transaction {l : List Bytes} {ts : List Allowed} {i : Nat}
    (hi : l[i]? = (ts[0]?).map fun t => join 58 t.parts)
    (hg : ∀ t ∈ ts, t.Good) (hl : ∀ t ∈ ts, (join 58 t.parts).length < 2 ^ 62) :
    (field l i unmarshalBusinessTransactions).map' (·.getD []) = withoutLimits (ts.take 1) := by
  cases ts with
  | nil =>
    rw [(field_nil _ (.inl (by simpa using hi))).1]
    rfl
  | cons t ts =>
    have h1 : unmarshalBusinessTransactions (join 58 t.parts) = withoutLimits [t] := by
      have e := split_join (ps := [join 58 t.parts]) (by simp) (by simpa using group_no_plus (hg t (by simp)).clean)
      unfold unmarshalBusinessTransactions
      rw [show join 43 [join 58 t.parts] = join 58 t.parts from rfl] at e
      rw [e]
      exact alloweds_read (ts := [t]) (by simpa using hg t (by simp)) (by simpa using hl t (by simp))
    unfold field
    rw [show l[i]? = some (join 58 t.parts) by simpa using hi]
    simp only [allowed_ne, if_false]
    rw [h1, show (t :: ts).take 1 = [t] from rfl]
    unfold withoutLimits
    split <;> rfl

theorem seen_account {v : Int} (hv : v = 4 ∨ v = 5 ∨ v = 6 ∨ v = 7) (m : Bytes) :
    seen views.account c!"HIUPD" v m =
      ((if v = 4 then unmarshalAccountV4 m else if v = 5 then unmarshalAccountV5 m else unmarshalAccount v.toNat m).map'
        BankSeg.account).bind views.account := by
  rcases hv with rfl | rfl | rfl | rfl <;> rfl

/-- The fields from the currency on. -/
theorem tail_read {h : Header} {n i : Nat} {es : List Bytes} {conn : Option AccountConnection} {id : Option Str}
    {ts : Outcome (Option (List BusinessTransaction))} {cur n1 n2 pr : Str} {lim : Option AboutLimit}
    (e0 : field es i text = .ok (given cur)) (e1 : field es (i + 1) text = .ok (given n1))
    (e2 : field es (i + 2) text = .ok (given n2)) (e3 : field es (i + 3) text = .ok (given pr))
    (e4 : field es (i + 4) (unmarshalNil (α := Unit)) = if lim = none then .ok none else .panic) :
    (accountTail h n es i conn id ts).bind AccountSeg.account =
      if lim ≠ none then .panic
      else (ts.map' (·.getD [])).bind fun ts =>
        if id = none ∨ n1 = [] ∨ n = 4 ∧ (conn = none ∨ cur = []) then .panic
        else .ok ⟨conn.getD ⟨[], [], 0, []⟩, id.getD [], cur, n1, n2, pr, ts⟩ := by
  unfold accountTail
  rw [e0, e1, e2, e3, e4]
  by_cases hl : lim = none
  · rw [if_pos hl, if_neg (by simpa using hl)]
    cases ts with
    | err => rfl
    | panic => rfl
    | ok ts =>
      have key : AccountSeg.account ⟨h, n, conn, id, given cur, given n1, given n2, given pr, ts⟩ =
          if id = none ∨ n1 = [] ∨ n = 4 ∧ (conn = none ∨ cur = []) then .panic
          else .ok ⟨conn.getD ⟨[], [], 0, []⟩, id.getD [], cur, n1, n2, pr, ts.getD []⟩ := by
        unfold AccountSeg.account
        have hc : given cur = none ↔ cur = [] := by unfold given; split <;> simp_all
        simp only [hc, given_getD]
        by_cases h1 : n = 4 ∧ (conn = none ∨ cur = [])
        · rw [if_pos h1, if_pos (.inr (.inr h1))]
        · rw [if_neg h1]
          cases id with
          | none => rw [if_pos (.inl rfl)]; rfl
          | some id =>
            by_cases h2 : n1 = []
            · rw [if_pos (.inr (.inl h2)), given, if_pos h2]; rfl
            · rw [if_neg (by simp [h2]; simpa using h1), given, if_neg h2]; rfl
      exact key
  · rw [if_neg hl, if_pos hl]
    rfl

theorem accountFields {d : AboutAccount} {v : Int} (hg : d.Good) : ∀ f ∈ d.fields v, Field f := by
  have hfr : ∀ f ∈ d.front v, Field f := by
    have hconn : Field ((d.connection.map fun c => join 58 (connectionParts c)).getD []) := by
      cases hc : d.connection with
      | none => exact .nil
      | some c =>
        obtain ⟨_, h⟩ := hg.connection c hc
        have h1 := h c.accountID (by simp)
        have h2 := h c.sub (by simp)
        have h3 := h c.bankID (by simp)
        exact field_group (by
          simp [connectionParts, clean_zeroPad, clean_text h1.1 h1.2, clean_text h2.1 h2.2, clean_text h3.1 h3.2])
    have htype : Field ((d.type.map itoa).getD []) := by
      cases d.type with
      | none => exact .nil
      | some n => exact .one (itoa_value n)
    have hu : Field (enc (escape d.userId)) := field_of_part (part_of_sendable (hg.texts _ (by simp)))
    have hi : Field (enc (escape d.iban)) := field_of_part (part_of_sendable (hg.texts _ (by simp)))
    intro f hf
    unfold AboutAccount.front at hf
    dsimp only at hf
    split at hf
    · simp only [List.mem_cons, List.not_mem_nil, or_false] at hf
      rcases hf with rfl | rfl <;> assumption
    · split at hf
      · simp only [List.mem_cons, List.not_mem_nil, or_false] at hf
        rcases hf with rfl | rfl | rfl <;> assumption
      · simp only [List.mem_cons, List.not_mem_nil, or_false] at hf
        rcases hf with rfl | rfl | rfl | rfl <;> assumption
  intro f hf
  unfold AboutAccount.fields at hf
  simp only [List.mem_append, List.mem_cons, List.not_mem_nil, or_false, List.mem_map] at hf
  rcases hf with (hf | rfl | rfl | rfl | rfl | rfl) | ⟨t, ht, rfl⟩
  · exact hfr f hf
  · exact field_of_part (part_of_sendable (hg.texts _ (by simp)))
  · exact field_of_part (part_of_sendable (hg.texts _ (by simp)))
  · exact field_of_part (part_of_sendable (hg.texts _ (by simp)))
  · exact field_of_part (part_of_sendable (hg.texts _ (by simp)))
  · cases hl : d.limit with
    | none => exact .nil
    | some l => exact field_group (hg.limit l hl).clean
  · exact field_group (hg.transactions t ht).clean

/-- C91: what the dialog gets of an account.  It panics if the account has a limit, or no user ID or
name, or, in version 4, no connection or currency.  It gets an error if a transaction that it reads
has a limit.  Otherwise it gets the account as the bank has sent it, but with the escape signs left
in the connection, without type and IBAN, and in versions 6 and 7 with the first transaction only. -/
theorem C91_account {d : AboutAccount} {out : List Bytes} {p v r : Int} (hp : IsInt p) (hr : IsInt r)
    (hv : v = 4 ∨ v = 5 ∨ v = 6 ∨ v = 7) (hg : d.Good) (hd : DropTrailing (d.fields v) out)
    (hs : (out.flatMap (fun f => 43 :: f)).length ≤ 2 ^ 61) :
    seen views.account c!"HIUPD" v (segmentBytes c!"HIUPD" p v r out) =
      if d.limit ≠ none then .panic
      else (withoutLimits (if v = 4 ∨ v = 5 then d.transactions else d.transactions.take 1)).bind fun ts =>
        if d.userId = [] ∨ d.name1 = [] ∨ v = 4 ∧ (d.connection = none ∨ d.currency = []) then .panic
        else .ok ⟨(d.connection.map readConnection).getD ⟨[], [], 0, []⟩, d.userId, d.currency, d.name1, d.name2, d.product,
          ts⟩ := by
  have hvi : IsInt v := by unfold IsInt; omega
  obtain ⟨hb, h1, hdr, h2⟩ := generated_drop (id := c!"HIUPD") (by decide) hp hvi hr (by decide) hd (accountFields hg) hs
  have htl : ∀ t ∈ d.transactions, (join 58 t.parts).length < 2 ^ 62 := fun t ht =>
    h1 _ (by simp only [AboutAccount.fields, List.mem_append, List.mem_map]; exact .inr ⟨t, ht, rfl⟩)
  have hfield : ∀ {α : Type} (i : Nat) (f : Bytes → Outcome α), field (hb :: out) i f = field (hb :: d.fields v) i f :=
    fun i f => field_drop hdr i f
  -- the fields from the currency on
  have hat : ∀ k, (hb :: d.fields v)[(d.front v).length + 1 + k]? =
      ([enc (escape d.currency), enc (escape d.name1), enc (escape d.name2), enc (escape d.product),
        (d.limit.map fun l => join 58 l.parts).getD []] ++ d.transactions.map fun t => join 58 t.parts)[k]? := by
    intro k
    rw [show (d.front v).length + 1 + k = ((d.front v).length + k) + 1 by omega, List.getElem?_cons_succ]
    unfold AboutAccount.fields
    rw [List.append_assoc, List.getElem?_append_right (by omega)]
    congr 1
    omega
  have e0 : field (hb :: out) ((d.front v).length + 1) text = .ok (given d.currency) := by
    rw [hfield]; exact text_at (hg.texts _ (by simp)) (hat 0)
  have e1 : field (hb :: out) ((d.front v).length + 1 + 1) text = .ok (given d.name1) := by
    rw [hfield]; exact text_at (hg.texts _ (by simp)) (hat 1)
  have e2 : field (hb :: out) ((d.front v).length + 1 + 2) text = .ok (given d.name2) := by
    rw [hfield]; exact text_at (hg.texts _ (by simp)) (hat 2)
  have e3 : field (hb :: out) ((d.front v).length + 1 + 3) text = .ok (given d.product) := by
    rw [hfield]; exact text_at (hg.texts _ (by simp)) (hat 3)
  have e4 : field (hb :: out) ((d.front v).length + 1 + 4) (unmarshalNil (α := Unit)) =
      if d.limit = none then .ok none else .panic := by
    rw [hfield]
    have ha := hat 4
    cases hl : d.limit with
    | none =>
      rw [hl] at ha
      rw [if_pos rfl]
      exact (field_nil _ (.inr ha)).1
    | some l =>
      rw [hl] at ha
      rw [if_neg (by simp)]
      unfold field
      rw [ha]
      have hne : join 58 l.parts ≠ [] := by
        unfold AboutLimit.parts
        rw [join_cons _ _ (by simp)]
        simp
      show (if join 58 l.parts = [] then _ else _) = _
      rw [if_neg hne]
      rfl
  have hconn : field (hb :: out) 1 unmarshalAccountConnection = .ok (d.connection.map readConnection) := by
    rw [hfield]
    have ha : (hb :: d.fields v)[1]? = some ((d.connection.map fun c => join 58 (connectionParts c)).getD []) := by
      simp only [AboutAccount.fields, AboutAccount.front]
      split
      · rfl
      · split <;> rfl
    have hmem : (d.connection.map fun c => join 58 (connectionParts c)).getD [] ∈ d.fields v := by
      have := List.mem_of_getElem? (show (d.fields v)[0]? = _ from ha)
      exact this
    have hlen := h1 _ hmem
    cases hc : d.connection with
    | none =>
      rw [hc] at ha
      exact (field_nil _ (.inr ha)).1
    | some c =>
      rw [hc] at ha hlen
      exact field_at ha (by
        show join 58 (connectionParts c) ≠ []
        unfold connectionParts
        rw [join_cons _ _ (by simp)]
        simp) (connection_read (hg.connection c hc) hlen)
  have htype : ∀ i, (hb :: d.fields v)[i]? = some ((d.type.map itoa).getD []) →
      field (hb :: out) i unmarshalNumber = .ok d.type := by
    intro i ha
    rw [hfield]
    cases hc : d.type with
    | none => rw [hc] at ha; exact (field_nil _ (.inr ha)).1
    | some n => rw [hc] at ha; exact field_at ha (itoa_ne_nil n) (C09_number n (hg.type n hc))
  have hid : given d.userId = none ↔ d.userId = [] := by unfold given; split <;> simp_all
  have hcn : d.connection.map readConnection = none ↔ d.connection = none := by simp
  have hseen : ∀ {x : Outcome AccountSeg}, (x.map' BankSeg.account).bind views.account = x.bind AccountSeg.account := by
    intro x; cases x <;> rfl
  have h10 : (d.front v).length = 4 →
      (hb :: d.fields v)[10]? = (d.transactions[0]?).map fun t => join 58 t.parts := by
    intro h
    have := hat 5
    rw [h] at this
    rw [this]
    simp
  rw [seen_account hv, hseen]
  rcases hv with rfl | rfl | rfl | rfl
  · rw [if_pos rfl, if_pos (show (4 : Int) = 4 ∨ (4 : Int) = 5 from .inl rfl)]
    have fid : field (hb :: out) 2 text = .ok (given d.userId) := by
      rw [hfield]; exact text_at (hg.texts _ (by simp)) rfl
    unfold unmarshalAccountV4
    rw [h2, hconn, fid]
    have := tail_read (h := ⟨c!"HIUPD", p, 4, some r⟩) (n := 4) (i := 3) (es := hb :: out)
      (conn := d.connection.map readConnection) (id := given d.userId)
      (ts := lastField (hb :: out) 8 unmarshalBusinessTransactions) e0 e1 e2 e3 e4
    have hl : (lastField (hb :: out) 8 unmarshalBusinessTransactions).map' (·.getD []) = withoutLimits d.transactions :=
      last_transactions hdr rfl hg.transactions htl
    rw [hl] at this
    simp only [hid, hcn, given_getD] at this
    simpa using this
  · rw [if_neg (by decide), if_pos rfl, if_pos (show (5 : Int) = 4 ∨ (5 : Int) = 5 from .inr rfl)]
    have fid : field (hb :: out) 2 text = .ok (given d.userId) := by
      rw [hfield]; exact text_at (hg.texts _ (by simp)) rfl
    unfold unmarshalAccountV5
    rw [h2, hconn, fid, htype 3 rfl]
    have := tail_read (h := ⟨c!"HIUPD", p, 5, some r⟩) (n := 5) (i := 4) (es := hb :: out)
      (conn := d.connection.map readConnection) (id := given d.userId)
      (ts := lastField (hb :: out) 9 unmarshalBusinessTransactions) e0 e1 e2 e3 e4
    have hl : (lastField (hb :: out) 9 unmarshalBusinessTransactions).map' (·.getD []) = withoutLimits d.transactions :=
      last_transactions hdr rfl hg.transactions htl
    rw [hl] at this
    simp only [hid, hcn, given_getD] at this
    simpa using this
  all_goals
    have fib : field (hb :: out) 2 text = .ok (given d.iban) := by
      rw [hfield]; exact text_at (hg.texts _ (by simp)) rfl
    have fid : field (hb :: out) 3 text = .ok (given d.userId) := by
      rw [hfield]; exact text_at (hg.texts _ (by simp)) rfl
    rw [if_neg (by decide), if_neg (by decide), if_neg (show ¬ (_ = (4 : Int) ∨ _ = (5 : Int)) by decide)]
    unfold unmarshalAccount
    rw [h2, hconn, fib, fid, htype 4 rfl]
    have hft := first_transaction (h10 rfl) hg.transactions htl
    have hts : (((field (hb :: out) 10 unmarshalBusinessTransactions).bind fun ts =>
        (lastField (hb :: out) 11 text).map' fun _ => ts).map' (·.getD [])) = withoutLimits (d.transactions.take 1) := by
      have hx : ∃ o, lastField (hb :: out) 11 text = .ok o := by
        unfold lastField
        split
        · exact ⟨_, rfl⟩
        · split
          · exact ⟨_, rfl⟩
          · exact ⟨_, rfl⟩
      obtain ⟨o, hx⟩ := hx
      rw [← hft, hfield, hx]
      exact match field _ 10 unmarshalBusinessTransactions with
        | .ok _ => rfl
        | .err => rfl
        | .panic => rfl
  · have := tail_read (h := ⟨c!"HIUPD", p, 6, some r⟩) (n := 6) (i := 5) (es := hb :: out)
      (conn := d.connection.map readConnection) (id := given d.userId)
      (ts := (field (hb :: out) 10 unmarshalBusinessTransactions).bind fun ts =>
        (lastField (hb :: out) 11 text).map' fun _ => ts) e0 e1 e2 e3 e4
    rw [hts] at this
    simp only [hid, hcn, given_getD] at this
    simpa using this
  · have := tail_read (h := ⟨c!"HIUPD", p, 7, some r⟩) (n := 7) (i := 5) (es := hb :: out)
      (conn := d.connection.map readConnection) (id := given d.userId)
      (ts := (field (hb :: out) 10 unmarshalBusinessTransactions).bind fun ts =>
        (lastField (hb :: out) 11 text).map' fun _ => ts) e0 e1 e2 e3 e4
    rw [hts] at this
    simp only [hid, hcn, given_getD] at this
    simpa using this

/-- An account with two transactions, in version 5 and in version 6; one with a limit for a
transaction, one with a limit of its own. -/
def sampleAccount : AboutAccount :=
  ⟨some ⟨c!"123", [], 280, c!"10000000"⟩, [], c!"user", some 1, c!"EUR", c!"Ada L.", [], [], none,
   [⟨c!"HKSAL", 1, none⟩, ⟨c!"HKKAZ", 1, none⟩]⟩

example :
    sampleAccount.Good ∧
    DropTrailing (sampleAccount.fields 5) (sampleAccount.fields 5) ∧
    segmentBytes c!"HIUPD" 6 5 4 (sampleAccount.fields 5) =
      b!"HIUPD:6:5:4+123::280:10000000+user+1+EUR+Ada L.++++HKSAL:1+HKKAZ:1'" ∧
    seen views.account c!"HIUPD" 5 b!"HIUPD:6:5:4+123::280:10000000+user+1+EUR+Ada L.++++HKSAL:1+HKKAZ:1'" =
      .ok ⟨⟨c!"123", [], 280, c!"10000000"⟩, c!"user", c!"EUR", c!"Ada L.", [], [], [⟨c!"HKSAL", 1, none⟩, ⟨c!"HKKAZ", 1, none⟩]⟩ ∧
    seen views.account c!"HIUPD" 6 b!"HIUPD:6:6:4+123::280:10000000++user+1+EUR+Ada L.++++HKSAL:1+HKKAZ:1'" =
      .ok ⟨⟨c!"123", [], 280, c!"10000000"⟩, c!"user", c!"EUR", c!"Ada L.", [], [], [⟨c!"HKSAL", 1, none⟩]⟩ ∧
    seen views.account c!"HIUPD" 5 b!"HIUPD:6:5:4+123::280:10000000+user+1+EUR+Ada L.++++HKSAL:1+HKUEB:1:E:100,:EUR:7'" = .err ∧
    seen views.account c!"HIUPD" 5 b!"HIUPD:6:5:4+123::280:10000000+user+1+EUR+Ada L.+++E:100,:EUR:7+HKSAL:1'" = .panic := by
  refine ⟨⟨?_, ?_, ?_, ?_, ?_⟩, ⟨0, by decide +kernel, by decide +kernel⟩, by decide +kernel, by decide +kernel, by decide +kernel,
    by decide +kernel, by decide +kernel⟩
  · rintro c hc
    cases hc
    refine ⟨by unfold IsInt; decide, fun s hs => ?_⟩
    simp only [List.mem_cons, List.not_mem_nil, or_false] at hs
    rcases hs with rfl | rfl | rfl
    all_goals exact ⟨sendable_of (by decide) (by decide), by unfold NoSep; decide⟩
  · rintro n hn; cases hn; unfold IsInt; decide
  · intro s hs
    simp only [sampleAccount, List.mem_cons, List.not_mem_nil, or_false] at hs
    rcases hs with rfl | rfl | rfl | rfl | rfl | rfl
    all_goals exact sendable_of (by decide) (by decide)
  · rintro l hl; cases hl
  · intro t ht
    simp only [sampleAccount, List.mem_cons, List.not_mem_nil, or_false] at ht
    rcases ht with rfl | rfl
    all_goals
      refine ⟨⟨sendable_of (by decide) (by decide), by unfold NoSep; decide⟩, by unfold IsInt; decide, ?_⟩
      rintro l hl; cases hl

end Verif.Bank
