import Verif.Message.Unmarshaler
import Verif.Message.ReaderProps
import Verif.Message.ExtractorProps
import Verif.Dialog.Shape
import Mathlib.Data.List.Induction
import Mathlib.Tactic.Ring

/-
C115: what an `Unmarshaler` returns after any calls.
-/

namespace Verif.Message

open GoLib Element Segment

/-! ## Specification -/

/-- How many of the calls look at the message: all but those for segments without decoder. -/
def looks {σ : Type} (other : Decoders σ) (calls : List ReadCall) : Nat :=
  (calls.filter fun
    | .unmarshal => true
    | .segment id version => canUnmarshal other id version).length

/-- What the calls of `Unmarshal` add up to: each counts as often as the message was looked at by
then. -/
def added {σ : Type} (other : Decoders σ) (calls : List ReadCall) : Nat :=
  ((List.range calls.length).map fun i => if calls[i]? = some .unmarshal then looks other (calls.take (i + 1)) else 0).sum

/-! ## Lemmas -/

theorem extract_again {m : Bytes} {ss : List Bytes} (h : (newExtractor m).extract.2 = .ok ss) (k : Nat) :
    Extractor.extract ⟨m, (List.replicate k ss).flatten⟩ =
      (⟨m, (List.replicate (k + 1) ss).flatten⟩, .ok (List.replicate (k + 1) ss).flatten) := by
  have raw : ∀ k, (extractTimes k (newExtractor m)).raw = m := by
    intro k
    induction k with
    | zero => rfl
    | succ k ih =>
      obtain ⟨_, _, h1, _⟩ := C17_failing (extractTimes k (newExtractor m))
      rw [extractTimes, h1, ih]
  have e : ∀ k, extractTimes k (newExtractor m) = ⟨m, (List.replicate k ss).flatten⟩ := by
    intro k
    have h1 := raw k
    have h2 := (C17_repeat h k).1
    cases hk : extractTimes k (newExtractor m)
    simp_all
  have h2 := (C17_repeat h k).2
  have h1 := e (k + 1)
  rw [extractTimes, e k] at h1
  rw [e k] at h2
  exact Prod.ext h1 h2

theorem readSegment_onto {σ : Type} (other : Decoders σ) (a m : SegmentMap σ) (b : Bytes) :
    readSegment other (fun id => a id ++ m id) b = (readSegment other m b).map' fun m' id => a id ++ m' id := by
  unfold readSegment
  cases extractSegmentHeader b with
  | err => rfl
  | panic => rfl
  | ok h =>
    simp only [Outcome.bind]
    cases decoderFor other h.id h.version with
    | none => rfl
    | some f =>
      cases hf : f b with
      | err => simp [hf]
      | panic => simp [hf]
      | ok d =>
        simp only [hf, Outcome.map', Outcome.ok.injEq]
        funext k
        split <;> simp

theorem readLoop_onto {σ : Type} (other : Decoders σ) (a : SegmentMap σ) (bs : List Bytes) (m : SegmentMap σ) :
    readLoop other bs (fun id => a id ++ m id) = ((fun id => a id ++ (readLoop other bs m).1 id), (readLoop other bs m).2) := by
  induction bs generalizing m with
  | nil => rfl
  | cons b bs ih =>
    unfold readLoop
    rw [readSegment_onto]
    cases readSegment other m b with
    | ok m' => simp only [Outcome.map', ih]
    | err => rfl
    | panic => rfl

theorem readLoop_ok {σ : Type} (other : Decoders σ) (bs : List Bytes) (m m' : SegmentMap σ)
    (h : readSegments other bs m = .ok m') : readLoop other bs m = (m', .ok ()) := by
  induction bs generalizing m with
  | nil => cases h; rfl
  | cons b bs ih =>
    rw [readSegments] at h
    obtain ⟨m1, h1, h2⟩ := Dialog.bind_ok h
    unfold readLoop
    rw [h1]
    exact ih m1 h2

theorem readLoop_append {σ : Type} (other : Decoders σ) (as bs : List Bytes) (m m' : SegmentMap σ)
    (h : readLoop other as m = (m', .ok ())) : readLoop other (as ++ bs) m = readLoop other bs m' := by
  induction as generalizing m with
  | nil => cases h; rfl
  | cons a as ih =>
    unfold readLoop at h
    rw [List.cons_append, readLoop]
    cases hr : readSegment other m a with
    | ok m1 => rw [hr] at h; exact ih m1 h
    | err => rw [hr] at h; cases h
    | panic => rw [hr] at h; cases h

theorem readLoop_times {σ : Type} (other : Decoders σ) (ss : List Bytes) (m : SegmentMap σ)
    (h : readSegments other ss (fun _ => []) = .ok m) (k : Nat) (a : SegmentMap σ) :
    readLoop other (List.replicate k ss).flatten a = ((fun id => a id ++ (List.replicate k (m id)).flatten), .ok ()) := by
  induction k generalizing a with
  | zero =>
    simp only [List.replicate_zero, List.flatten_nil, List.append_nil]
    rfl
  | succ k ih =>
    rw [List.replicate_succ, List.flatten_cons]
    have h1 : readLoop other ss a = ((fun id => a id ++ m id), .ok ()) := by
      have := readLoop_onto other a ss fun _ => []
      simp only [List.append_nil] at this
      rw [this, readLoop_ok other ss _ m h]
    rw [readLoop_append other ss _ a _ h1, ih]
    congr 1
    funext id
    rw [List.replicate_succ, List.flatten_cons, List.append_assoc]

theorem run_append {σ : Type} (other : Decoders σ) (u : Unmarshaler σ) (as bs : List ReadCall) :
    u.run other (as ++ bs) = (u.run other as).run other bs := by
  induction as generalizing u with
  | nil => rfl
  | cons a as ih => exact ih _

theorem looks_concat {σ : Type} (other : Decoders σ) (cs : List ReadCall) (c : ReadCall) :
    looks other (cs ++ [c]) = looks other cs + looks other [c] := by
  unfold looks
  rw [List.filter_append, List.length_append]

theorem added_concat {σ : Type} (other : Decoders σ) (cs : List ReadCall) (c : ReadCall) :
    added other (cs ++ [c]) = added other cs + if c = .unmarshal then looks other (cs ++ [c]) else 0 := by
  unfold added
  rw [List.length_append, List.length_singleton, List.range_succ, List.map_append, List.sum_append]
  congr 1
  · congr 1
    apply List.map_congr_left
    intro i hi
    have hi : i < cs.length := List.mem_range.1 hi
    rw [List.getElem?_append_left hi, List.take_append_of_le_length (by omega)]
  · simp [List.take_of_length_le]

theorem extractor_run {σ : Type} (other : Decoders σ) {raw : Bytes} {ss : List Bytes} (h : (newExtractor raw).extract.2 = .ok ss)
    (calls : List ReadCall) :
    ((newUnmarshaler raw : Unmarshaler σ).run other calls).extractor = ⟨raw, (List.replicate (looks other calls) ss).flatten⟩ := by
  induction calls using List.reverseRecOn with
  | nil => rfl
  | append_singleton cs c ih =>
    rw [run_append, looks_concat]
    change (Unmarshaler.step other _ c).extractor = _
    cases c with
    | unmarshal =>
      simp only [Unmarshaler.step, Unmarshaler.unmarshal, ih, extract_again h]
      rfl
    | segment id v =>
      simp only [Unmarshaler.step, Unmarshaler.unmarshalSegment]
      cases hd : decoderFor other id v with
      | none => simp [looks, canUnmarshal, hd, ih]
      | some f =>
        simp only [ih, extract_again h]
        simp [looks, canUnmarshal, hd]

/-! ## Theorems -/

/-- C115: let a message be readable, with the decoded segments `m`.  After any calls, `MarshaledSegments`
returns its segments as often as it was looked at, and `SegmentsByID` returns those of every ID as often
as the calls of `Unmarshal` add up to.  A further `Unmarshal` succeeds. -/
theorem C115_repeated {σ : Type} {other : Decoders σ} {raw : Bytes} {m : SegmentMap σ} {e : Extractor}
    (h : unmarshalMessage other raw = .ok (m, e)) (calls : List ReadCall) :
    ((newUnmarshaler raw).run other calls).marshaledSegments = (List.replicate (looks other calls) e.segments).flatten ∧
    (∀ id, ((newUnmarshaler raw).run other calls).segmentsByID id = (List.replicate (added other calls) (m id)).flatten) ∧
    (((newUnmarshaler raw).run other calls).unmarshal other).2 = .ok () := by
  have hx := C65_extractor h
  have hr : readSegments other e.segments (fun _ => []) = .ok m := by
    unfold unmarshalMessage at h
    simp only [hx, Outcome.bind] at h
    obtain ⟨m', h1, h2⟩ := Dialog.map_ok h
    cases h2
    exact h1
  have hex := extractor_run other hx
  refine ⟨by rw [Unmarshaler.marshaledSegments, hex], ?_, ?_⟩
  · induction calls using List.reverseRecOn with
    | nil => intro id; rfl
    | append_singleton cs c ih =>
      intro id
      rw [run_append, added_concat]
      change (Unmarshaler.step other _ c).segments id = _
      have ih : ∀ id, ((newUnmarshaler raw).run other cs).segments id = (List.replicate (added other cs) (m id)).flatten := ih
      cases c with
      | unmarshal =>
        simp only [Unmarshaler.step, Unmarshaler.unmarshal, hex cs, extract_again hx]
        rw [readLoop_times other _ m hr]
        simp only [ih, if_true]
        rw [← List.flatten_append, List.replicate_append_replicate, looks_concat]
        rfl
      | segment i v =>
        simp only [reduceCtorEq, if_false, Nat.add_zero, ← ih id]
        simp only [Unmarshaler.step, Unmarshaler.unmarshalSegment]
        cases decoderFor other i v with
        | none => rfl
        | some f => simp only [hex cs, extract_again hx]
  · simp only [Unmarshaler.unmarshal, hex calls, extract_again hx]
    rw [readLoop_times other _ m hr]

/-- C115: so `SegmentsByID` returns every segment once if `Unmarshal` is the only call; after `n` calls
of `Unmarshal` it returns everything `n * (n + 1) / 2` times. -/
theorem C115_times {σ : Type} (other : Decoders σ) (n : Nat) : added other (List.replicate n .unmarshal) = n * (n + 1) / 2 := by
  have hl : ∀ n, looks other (List.replicate n .unmarshal) = n := by
    intro n
    unfold looks
    rw [List.filter_eq_self.2, List.length_replicate]
    intro c hc
    rw [List.eq_of_mem_replicate hc]
  have : added other (List.replicate n .unmarshal) * 2 = n * (n + 1) := by
    induction n with
    | zero => rfl
    | succ n ih =>
      rw [List.replicate_succ', added_concat, if_pos rfl, ← List.replicate_succ', hl, Nat.add_mul, ih]
      ring
  omega

/-- C115: the first segment of an ID stays the same: from the first `Unmarshal` on, `SegmentByID` returns the
first one in the message, or nil if there is none. -/
theorem C115_first {σ : Type} {other : Decoders σ} {raw : Bytes} {m : SegmentMap σ} {e : Extractor}
    (h : unmarshalMessage other raw = .ok (m, e)) (calls : List ReadCall) (id : Str) :
    ((newUnmarshaler raw).run other calls).segmentByID id = if ReadCall.unmarshal ∈ calls then (m id).head? else none := by
  have h1 : ((newUnmarshaler raw).run other calls).segmentByID id =
      ((List.replicate (added other calls) (m id)).flatten).head? := congrArg List.head? ((C115_repeated h calls).2.1 id)
  rw [h1]
  have pos : ReadCall.unmarshal ∈ calls ↔ added other calls ≠ 0 := by
    induction calls using List.reverseRecOn with
    | nil => simp [added]
    | append_singleton cs c ih =>
      have ih := ih ((congrArg List.head? ((C115_repeated h cs).2.1 id)))
      rw [added_concat, looks_concat, List.mem_append, ih]
      cases c with
      | unmarshal => simp [looks]
      | segment => simp
  simp only [pos]
  cases added other calls with
  | zero => rfl
  | succ k =>
    rw [if_pos (by omega)]
    cases hm : m id with
    | nil => simp
    | cons d ds => simp [List.replicate_succ]

/-- C115: after any calls, successful or not, `UnmarshalSegment` takes the decoder of the version that
is asked for and applies it to the first segment of the message whose bytes begin with the ID, whatever
version that segment has.  It is an error if the decoder fails, or there is no such segment or no
decoder (`CanUnmarshal`). -/
theorem C115_segment {σ : Type} (other : Decoders σ) {raw : Bytes} {ss : List Bytes} (h : (newExtractor raw).extract.2 = .ok ss)
    (calls : List ReadCall) (id : Str) (version : Int) :
    (∀ f before b after, decoderFor other id version = some f → ss = before ++ b :: after → utf8 id <+: b →
      (∀ x ∈ before, ¬ utf8 id <+: x) → (((newUnmarshaler raw).run other calls).unmarshalSegment other id version).2 = f b) ∧
    ((∀ x ∈ ss, ¬ utf8 id <+: x) ∨ canUnmarshal other id version = false →
      (((newUnmarshaler raw).run other calls).unmarshalSegment other id version).2 = .err) := by
  have hex := extractor_run other h calls
  unfold Unmarshaler.unmarshalSegment
  constructor
  · rintro f before b after hd rfl hp hb
    simp only [hd, hex, extract_again h]
    have : Extractor.findSegment ⟨raw, (List.replicate (looks other calls + 1) (before ++ b :: after)).flatten⟩ (utf8 id) = some b := by
      rw [C16_findSegment]
      refine ⟨before, after ++ (List.replicate (looks other calls) (before ++ b :: after)).flatten, ?_, hp, hb⟩
      simp [List.replicate_succ]
    rw [this]
  · intro hn
    cases hd : decoderFor other id version with
    | none => rfl
    | some f =>
      have hn : ∀ x ∈ ss, ¬ utf8 id <+: x := hn.resolve_right (by simp [canUnmarshal, hd])
      simp only [hex, extract_again h]
      have : Extractor.findSegment ⟨raw, (List.replicate (looks other calls + 1) ss).flatten⟩ (utf8 id) = none := by
        rw [C16_findSegment_none]
        intro x hx
        obtain ⟨l, hl, hxl⟩ := List.mem_flatten.1 hx
        rw [List.eq_of_mem_replicate hl] at hxl
        exact hn x hxl
      rw [this]

deriving instance DecidableEq for Decoded

/-- A message with the parameters of balances before the balance itself. -/
def balanceText : Bytes := b!"HIRMG:2:2+0010::ok'HISALS:3:5+3'HISAL:4:5:3+1'"

/-- Decoders for two kinds of segments, in version 5. -/
def twoDecoders : Decoders Bytes := fun id version =>
  if (id = c!"HISAL" ∨ id = c!"HISALS") ∧ version = 5 then some fun b => .ok b else none

/-- C115: for a balance, `UnmarshalSegment` may so decode the parameters of balances: their ID begins
with the same letters. -/
theorem C115_longer_id :
    ((newUnmarshaler balanceText).unmarshalSegment twoDecoders c!"HISAL" 5).2 = .ok (.other b!"HISALS:3:5+3'") ∧
    ((newUnmarshaler balanceText).run twoDecoders [.unmarshal]).segmentsByID c!"HISAL" = [.other b!"HISAL:4:5:3+1'"] := by
  decide +kernel

/-- The hypotheses of the theorems above. -/
example : (newExtractor balanceText).extract.2 = .ok [b!"HIRMG:2:2+0010::ok'", b!"HISALS:3:5+3'", b!"HISAL:4:5:3+1'"] ∧
    added twoDecoders [.segment c!"HISAL" 5, .unmarshal, .segment c!"HIKAZ" 5, .unmarshal] = 5 := by
  decide +kernel

end Verif.Message
