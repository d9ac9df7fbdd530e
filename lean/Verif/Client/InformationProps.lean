import Verif.Client.Information
import Verif.Client.BalanceProps
import Verif.Client.Sample
import Verif.Message.ExtractorProps
import Verif.Message.ReaderProps

/-
C105: information about accounts, and ways of access to an institute.
-/

namespace Verif.Client

open GoLib Element Element.Spec Segment Message Domain Transport Dialog Message.Spec

variable {σ α β γ δ : Type}

/-! ## Specification -/

/-- A request for information about an account: always version 1, without limit and reference. -/
def AsksInformation (account : AccountConnection) (all : Bool) (e : Sent σ) : Prop :=
  Requests c!"HKKIF" 1 [some (accountConnectionDE account), some (.boolean all), none, none] e

/-- The first segment of a list that begins with an ID. -/
def FirstWith (id : Bytes) (ss : List Bytes) (b : Bytes) : Prop :=
  ∃ before after, ss = before ++ b :: after ∧ id <+: b ∧ ∀ x ∈ before, ¬ id <+: x

/-- The text of a message: what was encrypted, or all if nothing was. -/
def Text (r : Response) (data : Bytes) : Prop := if r.isEncrypted then r.readData = .ok data else data = r.raw

/-- A request for the ways of access to institutes. -/
def AsksAccess (start stop : BankId) (maxEntries : Int) (e : Sent σ) : Prop :=
  e.kind = .job ∧ bodies (e.plain.content.getD []) =
    [(c!"HKKOM", 3, [some (.group 2 [some (.countryCode start.country 3), some (.alnum start.id 30)]),
      some (.group 2 [some (.countryCode stop.country 3), some (.alnum stop.id 30)]), some (.number maxEntries 4), none])]

/-! ## Accounts -/

/-- AccountInformation sends at most one request, the same whatever the bank supports.  It prints
the first segment of the answer that begins with HIKIF, and succeeds exactly if the request was
answered without error and there is such a segment.  (The exception is an answer to the dialog end
that crashes the dialog.) -/
theorem C105_information (u : Setup σ α β γ δ) (c : Client) (account : AccountConnection) (all : Bool) (s : CSt σ α) :
    OneRequest s (accountInformation u c account all s).2 (AsksInformation account all)
      (fun m b => FirstWith b!"HIKIF" m.extractor.segments b) (accountInformation u c account all s).1 := by
  unfold accountInformation
  obtain ⟨S, hS, hk⟩ := init_log u s
  generalize init u s = X at hS
  obtain ⟨q, t⟩ := X
  simp only at hS
  cases q with
  | err => exact ⟨S, hS, .inr (.inl ⟨jobs_nil hk, by simp⟩)⟩
  | panic => exact ⟨S, hS, .inr (.inl ⟨jobs_nil hk, by simp⟩)⟩
  | ok x =>
    simp only
    obtain ⟨log, h1, h2⟩ := ask_cases u (jobOf c (informationSeg account all)) t
    have hj : ∀ l, jobs log = l → (S ++ log).filter (fun e => e.kind = .job) = l := by
      intro l hl
      have := jobs_append S log
      rw [jobs_nil hk, hl] at this
      exact this
    refine ⟨S ++ log, by rw [h1, hS, List.append_assoc], ?_⟩
    rcases h2 with ⟨h2, h3⟩ | ⟨e, v, n, id, h2, h3, ⟨m, h4, h5, h6⟩ | ⟨h4, h5⟩⟩
    · refine .inr (.inl ⟨hj _ h2, ?_⟩)
      intro xs hx
      obtain ⟨m, hm, _⟩ := Dialog.bind_ok hx
      exact h3 m hm
    · have ha : AsksInformation account all e := logged_requests h3
      rw [h4]
      simp only [Outcome.bind]
      cases hr : m.extractor.findSegment b!"HIKIF" with
      | some b => exact .inl ⟨e, m, b, hj _ h2, ha, h5, h6, (C16_findSegment _ _ _).1 hr, rfl⟩
      | none =>
        refine .inr (.inr ⟨e, hj _ h2, ha, by simp, fun m' hm' _ => .inr fun xs hx => ?_⟩)
        rw [h5] at hm'
        cases hm'
        rw [FirstWith, ← C16_findSegment, hr] at hx
        simp at hx
    · refine .inr (.inr ⟨e, hj _ h2, logged_requests h3, ?_, fun m hm ha => .inl ?_⟩)
      · intro xs hx
        obtain ⟨m, hm, _⟩ := Dialog.bind_ok hx
        exact h4 m hm
      · obtain ⟨f, f1, f2⟩ := h5 m hm ha
        exact ⟨f, by rw [List.getLast?_append, f1]; rfl, f2⟩

/-- A bank that answers the second message with the given segments. -/
def Sample.told (segs : Bytes) : Nat → Outcome Body := fun n =>
  if n = 2 then Dialog.Sample.reply b!"dia" b!"0020::ok" segs else Dialog.Sample.reply b!"dia" b!"0010::ok" []

/-- What is printed, and the kinds of the messages sent. -/
def Sample.printed (segs : Bytes) : Outcome Bytes × List Kind :=
  let r := accountInformation (Sample.setup (Sample.told segs) fun n => n) .fints300 Sample.account true (Sample.known (Sample.told segs))
  (r.1, r.2.st.sent.map Sent.kind)

/-- Two segments about accounts: the first is printed, as the bank wrote it. -/
example : Sample.printed b!"HIKIF:3:1+100::280:10000000+1+A?+B'HIKIF:4:1+101::280:10000000+1+C'" =
    (.ok b!"HIKIF:3:1+100::280:10000000+1+A?+B'", [.init, .job, .end_]) := by
  decide +kernel

/-- Without such a segment there is an error. -/
example : Sample.printed b!"HISAL:3:5+100'" = (.err, [.init, .job, .end_]) := by
  decide +kernel

/-- A segment with parameters for the request is taken for the information. -/
example : (Sample.printed b!"HIKIFS:3:1+1+1'HIKIF:4:1+100::280:10000000+1+A'").1 = .ok b!"HIKIFS:3:1+1+1'" := by
  decide +kernel

/-- The segments that are searched are those of the text of the answer, byte by byte. -/
theorem C105_bytes {other : Decoders σ} {r : Response} {m : Decrypted σ} (h : r.message other = .ok m) :
    ∃ data, Text r data ∧ (data.length < 2 ^ 63 → ∃ rest unread, data = m.extractor.segments.flatten ++ rest ++ unread ∧
      (∀ s ∈ m.extractor.segments, SegmentText s) ∧ Unfinished rest ∧ (unread = [] ∨ unread.head? = some 0)) := by
  unfold Response.message at h
  obtain ⟨hd, h0, h⟩ := Dialog.bind_ok h
  unfold Text
  by_cases he : r.isEncrypted
  · rw [if_pos he] at h
    obtain ⟨data, h1, h⟩ := Dialog.bind_ok h
    refine ⟨data, by rw [if_pos he]; exact h1, fun hl => ?_⟩
    exact (C14_extract_iff hl _).1 (newDecrypted_segments h).1
  · rw [if_neg he] at h
    refine ⟨r.raw, by rw [if_neg he], fun hl => ?_⟩
    exact (C14_extract_iff hl _).1 (newDecrypted_segments h).1

/-! ## Ways of access -/

/-- Sending an anonymous job: it is not sent, or sent once and its answer is handed on. -/
theorem anonymous_cases (w : World σ α) (j : Job) (s : Dialog.St σ α) :
    ∃ D, (sendAnonymousMessage w j s).2.sent = s.sent ++ D ∧ SendResult w j D (sendAnonymousMessage w j s).1 ∧
      ∀ e ∈ D, e.kind ≠ .sync ∧ e.wire = e.plain ∧ e.wire.sigBegin = none ∧ e.wire.sigEnd = none := by
  obtain ⟨D, hD, hlog, hplain⟩ := anonymous_log w j s
  refine ⟨D, hD, ?_, ?_⟩
  · rcases anonymousInit_spec w s with ⟨_, h1, h2⟩ | ⟨e, he, hu, h1, h2⟩
    · obtain ⟨k1, k2, _⟩ := M.bind_notOk (f := fun _ => M.deferred (anonymousJob w j) (anonymousEnd w)) h1
      have : D = [] := by
        have : (sendAnonymousMessage w j s).2.sent = s.sent := by
          unfold sendAnonymousMessage
          rw [k1, h2]
        rw [this] at hD
        simpa using hD
      subst this
      exact .inl ⟨by simp, k2⟩
    · by_cases hok : (anonymousInit w s).1 = .ok ()
      · by_cases hm : ∃ m, e.reply = .ok m
        swap
        · push Not at hm
          exact absurd hok ((h2 hm).1 ())
        obtain ⟨m, hm⟩ := hm
        have ho := h1 m hm
        have hr := anonymousOpened_result w m (afterInit s e)
        have hl := logs_of_outer (anonymousOpened_outer w m (afterInit s e))
        have hd := anonymousOpened_dialogId w m (afterInit s e)
        unfold logs at hl
        simp only [Prod.mk.injEq] at hl
        have hread : Readable m := by
          obtain ⟨env, hx⟩ := he.answered
          exact receive_readable (hx.symm.trans hm)
        have hacc : anonymousAcceptable w m = .ok () := by rw [← hr, ← ho]; exact hok
        have hres : sendAnonymousMessage w j s =
            M.deferred (anonymousJob w j) (anonymousEnd w) (anonymousOpened w m (afterInit s e)).2 := by
          unfold sendAnonymousMessage
          rw [M.bind_of_ok hok, ho]
        generalize (anonymousOpened w m (afterInit s e)).2 = t at *
        have hdi : m.header.dialogId = some t.d.dialogId := by
          rw [hd]
          refine dialogIdOf_ok ?_ _
          unfold anonymousAcceptable at hacc
          obtain ⟨_, hacc, _⟩ := Dialog.bind_ok hacc
          exact hacc
        have hlat := hread.dialogId _ hdi
        obtain ⟨j1, j2⟩ := anonymousJob_spec w j t
        obtain ⟨x1, x2, x3⟩ := exchangePlain_spec w .job j.segments j.version t
        rw [← j1] at x1 x2 x3
        obtain ⟨_, _, y1, _⟩ := anonymousEnd_spec w (anonymousJob w j t).2
        rw [x1] at y1
        obtain ⟨f, y2, y3, y4, y5⟩ := y1 hlat
        have hsent : t.sent = s.sent ++ [e] := hl.1
        rw [hres] at hD ⊢
        unfold M.deferred at hD ⊢
        simp only at hD ⊢
        rw [y2] at hD
        rcases x3 with ⟨n, x4, x5⟩ | ⟨y, g, x4, x5, x6, x7⟩
        · refine .inl ⟨?_, ?_⟩
          · rw [x4, hsent, List.append_assoc] at hD
            have := List.append_cancel_left hD
            rw [← this]
            simp [he.kind, y5.kind]
          · rw [j2]
            intro r hr'
            split at hr'
            · simp at hr'
            · obtain ⟨b, hb, _⟩ := Dialog.bind_ok hr'
              exact x5 b hb
        · refine .inr ⟨[e], g, f, _, _, _, ?_, by simp [he.kind], x7, y5.kind, ?_⟩
          · rw [x4, hsent] at hD
            have := List.append_cancel_left (by simpa using hD : s.sent ++ [e, g, f] = s.sent ++ D)
            rw [← this]; rfl
          · intro r
            rw [y3, j2, x5]
            by_cases hf : f.reply = .panic
            · have : acked f.reply = .panic := by rw [hf]; rfl
              rw [this]
              simp [hf]
            · have := (acked_panic _).2 hf
              have fin : (g.reply.bind fun m => (checkAcks m).map' fun _ => m) = .ok r ↔
                  f.reply ≠ .panic ∧ g.reply = .ok r ∧ Accepted r := by
                rw [Dialog.bind_eq_ok]
                simp only [map_eq_ok, Accepted, ← checkAcks_iff]
                constructor
                · rintro ⟨b, h8, _, h9, rfl⟩
                  exact ⟨hf, h8, h9⟩
                · rintro ⟨_, h8, h9⟩
                  exact ⟨r, h8, (), h9, rfl⟩
              revert this
              generalize acked f.reply = q
              intro hq
              cases q with
              | panic => exact absurd rfl hq
              | ok _ => exact fin
              | err => exact fin
      · obtain ⟨k1, k2, _⟩ := M.bind_notOk (f := fun _ => M.deferred (anonymousJob w j) (anonymousEnd w)) (fun b hb => hok hb)
        have hs : (anonymousInit w s).2.sent = s.sent ++ [e] := by
          by_cases hm : ∃ m, e.reply = .ok m
          · obtain ⟨m, hm⟩ := hm
            have hl := logs_of_outer (anonymousOpened_outer w m (afterInit s e))
            unfold logs at hl
            simp only [Prod.mk.injEq] at hl
            rw [h1 m hm, hl.1]
            rfl
          · push Not at hm
            rw [(h2 hm).2]
            rfl
        have : (sendAnonymousMessage w j s).2.sent = s.sent ++ [e] := by
          unfold sendAnonymousMessage
          rw [k1, hs]
        rw [this] at hD
        have := List.append_cancel_left hD
        subst this
        exact .inl ⟨by simp [he.kind], k2⟩
  · intro e he
    refine ⟨?_, hplain e he⟩
    cases hlog with
    | unsent => simp at he
    | refused a _ ha _ => simp at he; subst he; simp [ha.kind]
    | bare _ _ _ _ _ hx => cases hx
    | unsendable a f _ _ _ _ _ _ ha _ _ _ hf => simp at he; rcases he with rfl | rfl <;> simp [ha.kind, hf.kind]
    | full a g f _ _ _ _ _ _ ha _ _ _ hg hf => simp at he; rcases he with rfl | rfl | rfl <;> simp [ha.kind, hf.kind, hg.kind]

/-- CommunicationAccess needs neither PIN nor synchronisation and sends at most one request.  It
returns the answer exactly if this is without error and the answer to the dialog end does not crash
the dialog. -/
theorem C105_access (u : Setup σ α β γ δ) (c : Client) (start stop : BankId) (maxEntries : Int) (s : CSt σ α) :
    OneRequest s (communicationAccess u c start stop maxEntries s).2 (AsksAccess start stop maxEntries)
      (fun m m' => m' = m) (communicationAccess u c start stop maxEntries s).1 ∧
    ∀ e ∈ (communicationAccess u c start stop maxEntries s).2.st.sent, e ∈ s.st.sent ∨
      e.kind ≠ .sync ∧ e.wire = e.plain ∧ e.wire.sigBegin = none ∧ e.wire.sigEnd = none := by
  unfold communicationAccess
  obtain ⟨D, h1, h2, h3⟩ := anonymous_cases u.world ⟨[some (communicationSeg start stop maxEntries [])], c⟩ s.st
  simp only
  constructor
  · refine ⟨D, h1, ?_⟩
    rcases h2 with ⟨h2, h4⟩ | ⟨pre, g, f, v, n, id, rfl, h4, h5, h6, h7⟩
    · exact .inr (.inl ⟨jobs_nil h2, h4⟩)
    · have hj : (pre ++ [g, f]).filter (fun e => e.kind = .job) = [g] := by
        have := jobs_append pre [g, f]
        rw [jobs_nil h4] at this
        refine this.trans ?_
        simp [jobs, h5.kind, h6]
      have ha : AsksAccess start stop maxEntries g := ⟨h5.kind, h5.body⟩
      by_cases hx : ∃ m, (sendAnonymousMessage u.world ⟨[some (communicationSeg start stop maxEntries [])], c⟩ s.st).1 = .ok m
      · obtain ⟨m, hm⟩ := hx
        obtain ⟨_, k2, k3⟩ := (h7 m).1 hm
        exact .inl ⟨g, m, m, hj, ha, k2, k3, rfl, hm⟩
      · push Not at hx
        refine .inr (.inr ⟨g, hj, ha, hx, fun m hm hacc => .inl ⟨f, by simp, h6, ?_⟩⟩)
        by_contra hf
        exact hx m ((h7 m).2 ⟨hf, hm, hacc⟩)
  · intro e he
    rw [h1] at he
    rcases List.mem_append.1 he with he | he
    · exact .inl he
    · exact .inr (h3 e he)

/-- Whether a call on a new dialog succeeds, the messages sent, and the request. -/
def Sample.access (segs : Bytes) : Bool × List Kind :=
  let a := Sample.told segs
  let r := communicationAccess (Sample.setup a fun n => n) .fints300 ⟨280, c!"10000000"⟩ ⟨280, c!"10020030"⟩ 5
    ⟨Dialog.Sample.fresh a, 0⟩
  (match r.1 with | .ok _ => true | _ => false, r.2.st.sent.map Sent.kind)

example : Sample.access b!"HIKOM:3:3+280:10020030+1'" = (true, [.init, .job, .end_]) := by
  decide +kernel

end Verif.Client
