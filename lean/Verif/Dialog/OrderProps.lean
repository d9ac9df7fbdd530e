import Verif.Dialog.StateProps

/-
C136: what depends on the order in which Go walks a map.
-/

namespace Verif.Dialog

open GoLib Element Segment Message Domain Transport

variable {σ α : Type}

/-! ## Specification -/

/-- The same world, where Go happens to walk its maps in other orders. -/
def reorder (o : Nat → Nat) (w : World σ α) : World σ α :=
  { w with env := fun n => { w.env n with mapOrder := o n } }

/-- No answer announces two security functions the bank also describes. -/
def Decided (w : World σ α) : Prop :=
  ∀ n b m f g, receive w.decoders ((w.env n).transport b) = .ok m → Announces w m f → Announces w m g → f = g

/-! ## One answer -/

/-- With one function announced at most, the order does not matter. -/
theorem updateSecurityFunction_reorder (o : Nat → Nat) (w : World σ α) (m : Decrypted σ)
    (h : ∀ f g, Announces w m f → Announces w m g → f = g) :
    updateSecurityFunction (reorder o w) m = updateSecurityFunction w m := by
  funext s
  unfold updateSecurityFunction
  split
  · rfl
  · rw [show supportedFunctions (reorder o w) m = supportedFunctions w m from rfl]
    cases hfs : supportedFunctions w m with
    | err => rfl
    | panic => rfl
    | ok fs =>
      simp only
      have key : fs[((reorder o w).env s.step).mapOrder % fs.length]? = fs[(w.env s.step).mapOrder % fs.length]? := by
        rcases Nat.eq_zero_or_pos fs.length with h0 | h0
        · rw [List.length_eq_zero_iff.1 h0]; rfl
        · rw [List.getElem?_eq_getElem (Nat.mod_lt _ h0), List.getElem?_eq_getElem (Nat.mod_lt _ h0)]
          exact congrArg some (h _ _ (supportedFunctions_mem w m fs hfs _ (List.getElem_mem _))
            (supportedFunctions_mem w m fs hfs _ (List.getElem_mem _)))
      rw [key]

/-- Two programs that start alike and go on alike after what the first part can give. -/
theorem M.bind_congr {β γ : Type} {m : M σ α β} {g g' : β → M σ α γ}
    (h : ∀ s b, (m s).1 = .ok b → g b = g' b) : m.bind g = m.bind g' := by
  funext s
  unfold M.bind
  rcases hm : m s with ⟨r, s'⟩
  cases r with
  | ok b => exact congrFun (h s b (by rw [hm])) s'
  | err => rfl
  | panic => rfl

/-- What a request returns was received. -/
theorem request_received {w : World σ α} {k : Kind} {p q : BasicMessage} {s : St σ α} {m : Decrypted σ}
    (h : (request w k p q s).1 = .ok m) : ∃ n b, receive w.decoders ((w.env n).transport b) = .ok m := by
  unfold request at h
  split at h
  · exact ⟨_, _, h⟩
  · cases h
  · cases h

theorem requestEncrypted_received {w : World σ α} {k : Kind} {p : BasicMessage} {s : St σ α} {m : Decrypted σ}
    (h : (requestEncrypted w k p s).1 = .ok m) : ∃ n b, receive w.decoders ((w.env n).transport b) = .ok m := by
  unfold requestEncrypted at h
  split at h
  · exact request_received h
  · cases h
  · cases h

theorem exchange_received {w : World σ α} {k : Kind} {segs : List (Option Seg)} {v : Version} {s : St σ α}
    {m : Decrypted σ} (h : (exchange w k segs v s).1 = .ok m) :
    ∃ n b, receive w.decoders ((w.env n).transport b) = .ok m := by
  unfold exchange at h
  obtain ⟨b, _, e⟩ := M.bind_ok h
  rw [e] at h
  obtain ⟨c, _, e⟩ := M.bind_ok h
  rw [e] at h
  exact requestEncrypted_received h

theorem syncRequest_received {w : World σ α} {s : St σ α}
    {m : Decrypted σ} (h : (syncRequest w s).1 = .ok m) :
    ∃ n b, receive w.decoders ((w.env n).transport b) = .ok m := by
  unfold syncRequest at h
  obtain ⟨b, _, e⟩ := M.bind_ok h
  rw [e] at h
  obtain ⟨c, _, e⟩ := M.bind_ok h
  rw [e] at h
  obtain ⟨c, _, e⟩ := M.bind_ok h
  rw [e] at h
  exact requestEncrypted_received h

/-! ## The dialog's methods -/

theorem parseAccounts_reorder (o : Nat → Nat) (w : World σ α) (xs : List (Decoded σ)) :
    parseAccounts (reorder o w) xs = parseAccounts w xs := by
  induction xs with
  | nil => rfl
  | cons x xs ih =>
    unfold parseAccounts
    rw [ih]
    rfl

theorem parseUPD_reorder (o : Nat → Nat) (w : World σ α) (m : Decrypted σ) :
    parseUserParameterData (reorder o w) m = parseUserParameterData w m := by
  unfold parseUserParameterData
  rw [parseAccounts_reorder]
  rfl

/-- Everything `init` makes of the answer before it looks at the security functions. -/
def beforeUpdate (w : World σ α) (m : Decrypted σ) : M σ α Unit :=
  (takeDialogId m).bind fun _ =>
    (parseBankParameterData w m).bind fun _ =>
      (parseUserParameterData w m).bind fun _ => (M.lift (announcement w m)).bind fun _ => M.lift (checkAcks m)

theorem opened_before (w : World σ α) (m : Decrypted σ) :
    opened w m = (beforeUpdate w m).bind fun _ => updateSecurityFunction w m := by
  unfold opened beforeUpdate
  simp only [M.bind_assoc]

theorem beforeUpdate_reorder (o : Nat → Nat) (w : World σ α) (m : Decrypted σ) :
    beforeUpdate (reorder o w) m = beforeUpdate w m := by
  unfold beforeUpdate
  rw [parseUPD_reorder]
  rfl

/-- An anonymous dialog has no security function. -/
theorem anonymous_reorder (o : Nat → Nat) (w : World σ α) (j : Job) :
    sendAnonymousMessage (reorder o w) j = sendAnonymousMessage w j := by
  have h : anonymousOpened (reorder o w) = anonymousOpened w := by
    funext m
    unfold anonymousOpened
    rw [parseUPD_reorder]
    rfl
  unfold sendAnonymousMessage anonymousInit
  rw [h]
  rfl

section

variable {w : World σ α} (o : Nat → Nat) (hd : Decided w)
include hd

theorem sync_reorder : syncClientSystemId (reorder o w) = syncClientSystemId w := by
  change (syncRequest w).bind _ = (syncRequest w).bind _
  refine M.bind_congr fun s m hm => ?_
  obtain ⟨n, b, hr⟩ := syncRequest_received hm
  rw [updateSecurityFunction_reorder o w m fun f g => hd n b m f g hr, parseUPD_reorder]
  rfl

theorem open_reorder : open_ (reorder o w) = open_ w := by
  refine M.bind_congr fun _ _ _ => ?_
  funext s
  refine congrFun (f := (exchange w .init _ _).bind _) (g := (exchange w .init _ _).bind _) (M.bind_congr fun t m hm => ?_) s
  obtain ⟨n, b, hr⟩ := exchange_received hm
  rw [opened_before, opened_before, beforeUpdate_reorder, updateSecurityFunction_reorder o w m fun f g => hd n b m f g hr]

theorem init_reorder : init (reorder o w) = init w := by
  unfold init ensureClientSystemId
  rw [sync_reorder o hd, open_reorder o hd]

theorem run_reorder (c : Call) : run (reorder o w) c = run w c := by
  funext s
  cases c with
  | send j =>
    simp only [run, sendMessage, init_reorder o hd]
    rfl
  | sendAnonymous j => simp only [run, anonymous_reorder]
  | sync => simp only [run, sync_reorder o hd]
  | syncUser =>
    simp only [run, syncUserParameterData, init_reorder o hd]
    rfl
  | setPin p => rfl

end

/-! ## C136 -/

/-- C136: if no answer leaves a choice between security functions, then it makes no difference in which orders Go
walks its maps: the same calls leave the same dialog and have sent the same messages, byte by byte. -/
theorem C136_history {w : World σ α} (hd : Decided w) (o : Nat → Nat) (cs : List Call) (s : St σ α) :
    runAll (reorder o w) cs s = runAll w cs s := by
  induction cs generalizing s with
  | nil => rfl
  | cons c cs ih =>
    unfold runAll
    rw [run_reorder o hd, ih]

/-- C136: and every further call gives the same. -/
theorem C136_results {w : World σ α} (hd : Decided w) (o : Nat → Nat) (cs : List Call) (s : St σ α) (j : Job) :
    (sendMessage (reorder o w) j (runAll (reorder o w) cs s)).1 = (sendMessage w j (runAll w cs s)).1 ∧
    (syncClientSystemId (reorder o w) (runAll (reorder o w) cs s)).1 = (syncClientSystemId w (runAll w cs s)).1 ∧
    (syncUserParameterData (reorder o w) (runAll (reorder o w) cs s)).1 = (syncUserParameterData w (runAll w cs s)).1 ∧
    (sendAnonymousMessage (reorder o w) j (runAll (reorder o w) cs s)).1 =
      (sendAnonymousMessage w j (runAll w cs s)).1 := by
  rw [C136_history hd o cs s]
  refine ⟨?_, by rw [sync_reorder o hd], ?_, by rw [anonymous_reorder]⟩
  · simp only [sendMessage, init_reorder o hd]; rfl
  · simp only [syncUserParameterData, init_reorder o hd]; rfl

/-- Nothing that is announced and described is missing. -/
theorem commonFunctions_complete (av : List (Str × Option Str)) : ∀ (ps fs : List Str), commonFunctions av ps = .ok fs →
    ∀ f ∈ ps, (∃ n, (f, n) ∈ av) → f ∈ fs := by
  intro ps
  induction ps with
  | nil => simp
  | cons p ps ih =>
    intro fs h f hf hn
    unfold commonFunctions at h
    rcases List.mem_cons.1 hf with rfl | hf'
    · split at h
      · rename_i hnone
        obtain ⟨n, hn⟩ := hn
        simp only [processName, Option.map_eq_none_iff, List.find?_eq_none, List.mem_reverse, beq_iff_eq] at hnone
        exact absurd rfl (hnone _ hn)
      · cases h
      · obtain ⟨gs, _, rfl⟩ := map_ok h
        simp
    · split at h
      · exact ih fs h f hf' hn
      · cases h
      · obtain ⟨gs, hg, rfl⟩ := map_ok h
        exact List.mem_cons_of_mem _ (ih gs hg f hf' hn)

/-- Every announced function is taken in some order. -/
theorem updateSecurityFunction_any {w : World σ α} {m : Decrypted σ} {s : St σ α} {f : Str} (hf : Announces w m f)
    (hok : (updateSecurityFunction w m s).1 = .ok ()) : ∃ k,
    (updateSecurityFunction (reorder (fun _ => k) w) m s).1 = .ok () ∧
    (updateSecurityFunction (reorder (fun _ => k) w) m s).2.d.securityFn = f := by
  obtain ⟨⟨a, ha, hp⟩, x, av, n, hx, hv, hn⟩ := hf
  have hsup : supportedFunctions w m = commonFunctions av a.params := by
    unfold supportedFunctions
    simp only [ha, hx, hv, List.ne_nil_of_mem hp, if_false]
    rfl
  unfold updateSecurityFunction at hok ⊢
  simp only [hx, ha, Option.isNone_some, Bool.or_self, Bool.false_eq_true, if_false] at hok ⊢
  simp only [show ∀ k, supportedFunctions (reorder k w) m = supportedFunctions w m from fun _ => rfl]
  simp only [hsup] at hok ⊢
  cases hc : commonFunctions av a.params with
  | err => rw [hc] at hok; cases hok
  | panic => rw [hc] at hok; cases hok
  | ok fs =>
    obtain ⟨i, hi, e⟩ := List.getElem_of_mem (commonFunctions_complete av _ _ hc f hp ⟨_, hn⟩)
    refine ⟨i, ?_⟩
    simp only [reorder, Nat.mod_eq_of_lt hi, List.getElem?_eq_getElem hi, e, true_and]
    split
    · assumption
    · rfl

/-- C136: where there is a choice, the order decides and nothing else does.  If a dialog is opened and the answer
announces and describes a security function, then in some order of the map exactly this one is used from then on,
whichever was used before and whichever the other orders give. -/
theorem C136_any {w : World σ α} {s : St σ α} (hs : s.d.clientSystemId ≠ c!"0") (hok : (init w s).1 = .ok ())
    {e : Sent σ} (he : (init w s).2.sent = s.sent ++ [e]) {m : Decrypted σ} (hm : e.reply = .ok m) {f : Str}
    (hf : Announces w m f) : ∃ k, (init (reorder (fun _ => k) w) s).1 = .ok () ∧
      (init (reorder (fun _ => k) w) s).2.d.securityFn = f := by
  have hi : ∀ v : World σ α, init v s = open_ v s := by
    intro v
    unfold init ensureClientSystemId M.bind
    simp only [hs, if_false]
  simp only [hi] at hok he ⊢
  have ho : ∀ v : World σ α, open_ v s = ((exchange v .init (initSegments s.d) s.d.version).bind fun m => opened v m)
      { s with d := { s.d with dialogId := c!"0", messageCount := 0 } } := fun _ => rfl
  simp only [ho] at hok he ⊢
  generalize hs' : ({ s with d := { s.d with dialogId := c!"0", messageCount := 0 } } : St σ α) = s' at hok he ⊢
  have hsent : s.sent = s'.sent := by rw [← hs']
  obtain ⟨m', h1, e1⟩ := M.bind_ok hok
  rw [e1] at hok he
  have hmm : m' = m := by
    have hout := congrArg Prod.fst (opened_outer w m' (exchange w .init (initSegments s.d) s.d.version s').2)
    simp only [outer] at hout
    rcases (exchange_spec w .init (initSegments s.d) s.d.version s').2.2 with ⟨_, _, h⟩ | ⟨_, e', h2, h3, _⟩
    · exact absurd h1 (h m')
    · rw [hout, h2, hsent] at he
      have := List.append_cancel_left he
      simp only [List.cons.injEq, and_true] at this
      rw [h3, this, hm] at h1
      exact (Outcome.ok.inj h1).symm
  subst hmm
  rw [opened_before] at hok
  obtain ⟨_, h2, e2⟩ := M.bind_ok hok
  rw [e2] at hok
  obtain ⟨k, hk⟩ := updateSecurityFunction_any hf hok
  refine ⟨k, ?_⟩
  have e3 : ((exchange (reorder (fun _ => k) w) .init (initSegments s.d) s.d.version).bind fun m =>
      opened (reorder (fun _ => k) w) m) s' = updateSecurityFunction (reorder (fun _ => k) w) m'
        (beforeUpdate w m' (exchange w .init (initSegments s.d) s.d.version s').2).2 := by
    change ((exchange w .init (initSegments s.d) s.d.version).bind _) s' = _
    rw [M.bind_of_ok h1, opened_before, beforeUpdate_reorder, M.bind_of_ok h2]
  rw [e3]
  exact hk

namespace Sample

/-- A bank that announces two functions it describes. -/
def torn : Nat → Outcome Body := fun n =>
  reply (b!"dia" ++ [48 + UInt8.ofNat n]) b!"0010::ok+3920::Verfahren:910:999" b!"HITANS:3:6+1'"

/-- What was sent, byte by byte, for one job, if Go walks its maps in the order `k`. -/
def jobWith (k : Nat) : List Bytes :=
  (runAll (reorder (fun _ => k) (world torn)) [.send work] (known torn)).sent.map (·.bytes)

/-- A bank that announces one function, in every answer. -/
def single : World Bytes Bytes := world fun _ => functions 1

set_option maxRecDepth 20000 in
theorem single_params : (receive decoders (functions 1)).map' (fun m => (securityAck m).map (·.params)) = .ok (some [c!"910"]) := by
  decide +kernel

theorem single_decided : Decided single := by
  intro n b m f g h hf hg
  have e := single_params
  rw [show receive decoders (functions 1) = .ok m from h] at e
  simp only [Outcome.map', Outcome.ok.injEq] at e
  have key : ∀ f, Announces single m f → f = c!"910" := by
    rintro f ⟨⟨a, ha, hp⟩, _⟩
    rw [ha] at e
    simp only [Option.map_some, Option.some.injEq] at e
    rw [e] at hp
    simpa using hp
  rw [key f hf, key g hg]

set_option maxRecDepth 20000 in
set_option synthInstance.maxHeartbeats 200000 in
set_option synthInstance.maxSize 1000 in
theorem torn_opens : verdict (init (world torn) (known torn)) = .ok () ∧ (known torn).d.clientSystemId ≠ c!"0" ∧
    (init (world torn) (known torn)).2.sent.map (fun e => e.reply.map' fun m =>
      ((securityAck m).map (·.params), (find m c!"HITANS").map (viewOf views.tanFunctions))) =
      [.ok (some [c!"910", c!"999"], some (.ok [(c!"999", some c!"einstufig"), (c!"910", some c!"chipTAN")]))] := by
  decide +kernel

end Sample

/-- C136: so one and the same program, doing the same with the same bank, may send other messages when it is run
again.  The bank announces two functions that it describes; the first message is the same, and the job and the end of
the dialog are signed with one function or the other. -/
theorem C136_torn : (Sample.jobWith 0)[0]? = (Sample.jobWith 1)[0]? ∧ (Sample.jobWith 0)[1]? ≠ (Sample.jobWith 1)[1]? ∧
    (Sample.jobWith 0)[2]? ≠ (Sample.jobWith 1)[2]? ∧ (Sample.jobWith 0).length = 3 ∧ (Sample.jobWith 1).length = 3 := by
  decide +kernel

example : Decided Sample.single := Sample.single_decided

example : ¬ (∀ cs, runAll (reorder (fun _ => 0) (Sample.world Sample.torn)) cs (Sample.known Sample.torn) =
    runAll (reorder (fun _ => 1) (Sample.world Sample.torn)) cs (Sample.known Sample.torn)) := by
  intro h
  refine C136_torn.2.1 ?_
  unfold Sample.jobWith
  rw [h [.send Sample.work]]

/-- The hypotheses of `C136_any` hold for the bank that leaves a choice, with either function. -/
example : ∃ e m, (init (Sample.world Sample.torn) (Sample.known Sample.torn)).2.sent = (Sample.known Sample.torn).sent ++ [e] ∧
    (init (Sample.world Sample.torn) (Sample.known Sample.torn)).1 = .ok () ∧
    (Sample.known Sample.torn).d.clientSystemId ≠ c!"0" ∧ e.reply = .ok m ∧
    Announces (Sample.world Sample.torn) m c!"910" ∧ Announces (Sample.world Sample.torn) m c!"999" := by
  obtain ⟨h1, h2, h3⟩ := Sample.torn_opens
  obtain ⟨e, he, h3⟩ := List.map_eq_singleton_iff.1 h3
  obtain ⟨m, hm, h3⟩ := map_ok h3
  simp only [Prod.mk.injEq, Option.map_eq_some_iff] at h3
  obtain ⟨⟨a, ha, hp⟩, x, hx, hv⟩ := h3
  refine ⟨e, m, he, ?_, h2, hm, ⟨⟨a, ha, by rw [hp]; simp⟩, x, _, _, hx, hv, .tail _ (.head _)⟩,
    ⟨⟨a, ha, by rw [hp]; simp⟩, x, _, _, hx, hv, .head _⟩⟩
  obtain ⟨⟨⟩, h, _⟩ := map_ok h1
  exact h

end Verif.Dialog
