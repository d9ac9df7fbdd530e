import Verif.Logger.Model

/-
C117: when log lines are written.
-/

namespace Verif.Logger

variable {Line : Type}

/-! ## Specification -/

/-- The program turns debugging on, if at all, only by `WithDebugLogging`. -/
def OnlyWithin : Prog Line → Prop
  | .done => True
  | .crash => True
  | .debug _ k => OnlyWithin k
  | .info _ k => OnlyWithin k
  | .setDebug on k => on = false ∧ OnlyWithin k
  | .setInfo _ k => OnlyWithin k
  | .newClient on k => on = false ∧ OnlyWithin k
  | .withDebug body k => OnlyWithin body ∧ OnlyWithin k

/-- The program leaves the debug mode alone. -/
def Leaves : Prog Line → Prop
  | .done => True
  | .crash => True
  | .debug _ k => Leaves k
  | .info _ k => Leaves k
  | .setDebug _ _ => False
  | .setInfo _ k => Leaves k
  | .newClient _ _ => False
  | .withDebug _ _ => False

/-- The lines for `Debug` in the text of the program, in order. -/
def debugLines : Prog Line → List Line
  | .done => []
  | .crash => []
  | .debug l k => l :: debugLines k
  | .info _ k => debugLines k
  | .setDebug _ k => debugLines k
  | .setInfo _ k => debugLines k
  | .newClient _ k => debugLines k
  | .withDebug body k => debugLines body ++ debugLines k

/-- Those of them that stand inside a `WithDebugLogging`. -/
def linesWithin : Prog Line → List Line
  | .done => []
  | .crash => []
  | .debug _ k => linesWithin k
  | .info _ k => linesWithin k
  | .setDebug _ k => linesWithin k
  | .setInfo _ k => linesWithin k
  | .newClient _ k => linesWithin k
  | .withDebug body k => debugLines body ++ linesWithin k

/-- The lines for `Info` in the text of the program, in order. -/
def infoLines : Prog Line → List Line
  | .done => []
  | .crash => []
  | .debug _ k => infoLines k
  | .info l k => l :: infoLines k
  | .setDebug _ k => infoLines k
  | .setInfo _ k => infoLines k
  | .newClient _ k => infoLines k
  | .withDebug body k => infoLines body ++ infoLines k

/-- The program does not call `SetInfoLog`. -/
def LeavesInfo : Prog Line → Prop
  | .done => True
  | .crash => True
  | .debug _ k => LeavesInfo k
  | .info _ k => LeavesInfo k
  | .setDebug _ k => LeavesInfo k
  | .setInfo _ _ => False
  | .newClient _ k => LeavesInfo k
  | .withDebug body k => LeavesInfo body ∧ LeavesInfo k

/-- The lines on the standard error output that came from `Debug`, and those that came from `Info`. -/
def ofDebug (w : List (Bool × Line)) : List Line := (w.filter fun e => e.1).map Prod.snd
def ofInfo (w : List (Bool × Line)) : List Line := (w.filter fun e => !e.1).map Prod.snd

/-! ## Theorems -/

theorem ofDebug_write (c d : Bool) (l : Line) (s : St Line) :
    ofDebug (write c d l s).written = ofDebug s.written ++ (if c && d then [l] else []) := by
  cases c <;> cases d <;> simp [write, ofDebug]

theorem ofInfo_write (c d : Bool) (l : Line) (s : St Line) :
    ofInfo (write c d l s).written = ofInfo s.written ++ (if c && !d then [l] else []) := by
  cases c <;> cases d <;> simp [write, ofInfo]

theorem write_modes (c d : Bool) (l : Line) (s : St Line) :
    (write c d l s).debugMode = s.debugMode ∧ (write c d l s).infoMode = s.infoMode := by
  cases c <;> simp [write]

/-- Whatever a program does, it writes some of its lines for `Debug`, in their order. -/
theorem written_some (p : Prog Line) (s : St Line) :
    ∃ ls, ofDebug (run p s).1.written = ofDebug s.written ++ ls ∧ ls.Sublist (debugLines p) := by
  induction p generalizing s with
  | done => exact ⟨[], by simp [run], by simp⟩
  | crash => exact ⟨[], by simp [run], by simp⟩
  | debug l k ih =>
    obtain ⟨ls, h1, h2⟩ := ih (write s.debugMode true l s)
    rw [ofDebug_write] at h1
    cases hd : s.debugMode with
    | false => exact ⟨ls, by simpa [run, hd] using h1, h2.cons _⟩
    | true => exact ⟨l :: ls, by simpa [run, hd] using h1, h2.cons_cons _⟩
  | info l k ih =>
    obtain ⟨ls, h1, h2⟩ := ih (write s.infoMode false l s)
    rw [ofDebug_write] at h1
    exact ⟨ls, by simpa [run] using h1, h2⟩
  | setDebug on k ih => exact ih _
  | setInfo on k ih => exact ih _
  | newClient on k ih => exact ih _
  | withDebug body k ih1 ih2 =>
    obtain ⟨ls, h1, h2⟩ := ih1 { s with debugMode := true }
    simp only [run]
    cases hr : run body { s with debugMode := true } with
    | mk s' c =>
      rw [hr] at h1
      cases c with
      | true => exact ⟨ls, h1, h2.trans (List.sublist_append_left _ _)⟩
      | false =>
        obtain ⟨ms, h3, h4⟩ := ih2 { s' with debugMode := false }
        refine ⟨ls ++ ms, ?_, h2.append h4⟩
        simp only at h1 h3 ⊢
        rw [h3, h1, List.append_assoc]

theorem outside (p : Prog Line) (s : St Line) (hp : OnlyWithin p) (hs : s.debugMode = false) :
    ∃ ls, ofDebug (run p s).1.written = ofDebug s.written ++ ls ∧ ls.Sublist (linesWithin p) := by
  induction p generalizing s with
  | done => exact ⟨[], by simp [run], by simp⟩
  | crash => exact ⟨[], by simp [run], by simp⟩
  | debug l k ih =>
    obtain ⟨ls, h1, h2⟩ := ih (write s.debugMode true l s) hp (by rw [(write_modes _ _ _ _).1, hs])
    rw [ofDebug_write] at h1
    exact ⟨ls, by simpa [run, hs] using h1, h2⟩
  | info l k ih =>
    obtain ⟨ls, h1, h2⟩ := ih (write s.infoMode false l s) hp (by rw [(write_modes _ _ _ _).1, hs])
    rw [ofDebug_write] at h1
    exact ⟨ls, by simpa [run] using h1, h2⟩
  | setDebug on k ih => exact ih { s with debugMode := on } hp.2 hp.1
  | setInfo on k ih => exact ih { s with infoMode := on } hp hs
  | newClient on k ih => exact ih { s with debugMode := on } hp.2 hp.1
  | withDebug body k ih1 ih2 =>
    obtain ⟨ls, h1, h2⟩ := written_some body { s with debugMode := true }
    simp only [run]
    cases hr : run body { s with debugMode := true } with
    | mk s' c =>
      rw [hr] at h1
      cases c with
      | true => exact ⟨ls, h1, h2.trans (List.sublist_append_left _ _)⟩
      | false =>
        obtain ⟨ms, h3, h4⟩ := ih2 { s' with debugMode := false } hp.2 rfl
        refine ⟨ls ++ ms, ?_, h2.append h4⟩
        simp only at h1 h3 ⊢
        rw [h3, h1, List.append_assoc]

/-- C117: as long as debugging is turned on by `WithDebugLogging` only, nothing meant for the debug log and
standing outside of it is ever written. -/
theorem C117_outside (p : Prog Line) (h : OnlyWithin p) :
    (ofDebug (run p start).1.written).Sublist (linesWithin p) := by
  obtain ⟨ls, h1, h2⟩ := outside p start h rfl
  have : ofDebug (run p start).1.written = ls := by simpa [ofDebug, start] using h1
  rwa [this]

/-- A concrete case: of three lines only the one inside is written. -/
example : OnlyWithin (.debug 1 (.withDebug (.debug 2 .done) (.debug 3 .done)) : Prog Nat) ∧
    (run (.debug 1 (.withDebug (.debug 2 .done) (.debug 3 .done)) : Prog Nat) start).1.written = [(true, 2)] :=
  ⟨⟨trivial, trivial⟩, rfl⟩

theorem leaves (p : Prog Line) (s : St Line) (h : Leaves p) :
    (run p s).1.debugMode = s.debugMode ∧
    ((run p s).2 = false → ofDebug (run p s).1.written =
      ofDebug s.written ++ (if s.debugMode then debugLines p else [])) := by
  induction p generalizing s with
  | done => exact ⟨rfl, fun _ => by simp [run, debugLines]⟩
  | crash => exact ⟨rfl, fun h => by simp [run] at h⟩
  | debug l k ih =>
    obtain ⟨h1, h2⟩ := ih (write s.debugMode true l s) h
    rw [(write_modes _ _ _ _).1] at h1 h2
    refine ⟨h1, fun hc => ?_⟩
    rw [show (run (.debug l k) s) = run k (write s.debugMode true l s) from rfl, h2 hc, ofDebug_write]
    cases s.debugMode <;> simp [debugLines]
  | info l k ih =>
    obtain ⟨h1, h2⟩ := ih (write s.infoMode false l s) h
    rw [(write_modes _ _ _ _).1] at h1 h2
    refine ⟨h1, fun hc => ?_⟩
    rw [show (run (.info l k) s) = run k (write s.infoMode false l s) from rfl, h2 hc, ofDebug_write]
    simp [debugLines]
  | setDebug on k ih => exact h.elim
  | setInfo on k ih => exact ih { s with infoMode := on } h
  | newClient on k ih => exact h.elim
  | withDebug body k ih1 ih2 => exact h.elim

/-- C117: inside `WithDebugLogging` everything is written, if the function does not touch the switch. -/
theorem C117_inside (body : Prog Line) (s : St Line) (h : Leaves body) (hc : (run body { s with debugMode := true }).2 = false) :
    ofDebug (run (.withDebug body .done) s).1.written = ofDebug s.written ++ debugLines body := by
  have := (leaves body { s with debugMode := true } h).2 hc
  simp only [run]
  cases hr : run body { s with debugMode := true } with
  | mk s' c =>
    rw [hr] at this hc
    simp only at hc
    subst hc
    simpa [run] using this

/-- A concrete case: two lines around an information. -/
example : Leaves (.debug 1 (.info 2 (.debug 3 .done)) : Prog Nat) ∧
    (run (.debug 1 (.info 2 (.debug 3 .done)) : Prog Nat) { start with debugMode := true }).2 = false := ⟨trivial, rfl⟩

/-- C117: when `WithDebugLogging` returns, debugging is off, even if it was on before: a program that had
turned it on loses all following lines until the next switch. -/
theorem C117_lost (body rest : Prog Line) (s : St Line) (hr : Leaves rest)
    (hc : (run (.withDebug body rest) s).2 = false) :
    (run (.withDebug body rest) s).1.debugMode = false ∧
    ofDebug (run (.withDebug body rest) s).1.written = ofDebug (run (.withDebug body .done) s).1.written := by
  simp only [run] at hc ⊢
  cases hb : run body { s with debugMode := true } with
  | mk s' c =>
    rw [hb] at hc
    cases c with
    | true => simp at hc
    | false =>
      obtain ⟨h1, h2⟩ := leaves rest { s' with debugMode := false } hr
      exact ⟨h1, by simpa using h2 hc⟩

/-- A concrete case: debugging is on for the whole program, but only the lines 1 and 2 are written. -/
example : (run (.setDebug true (.debug 1 (.withDebug (.debug 2 .done) (.debug 3 .done))) : Prog Nat) start).1.written
    = [(true, 1), (true, 2)] := rfl

/-- C117: if the function given to `WithDebugLogging` panics, debugging stays on. -/
theorem C117_panic (body rest : Prog Line) (s : St Line) (h : Leaves body)
    (hc : (run body { s with debugMode := true }).2 = true) :
    (run (.withDebug body rest) s).2 = true ∧ (run (.withDebug body rest) s).1.debugMode = true := by
  have := (leaves body { s with debugMode := true } h).1
  simp only [run]
  cases hr : run body { s with debugMode := true } with
  | mk s' c =>
    rw [hr] at this hc
    simp only at hc
    subst hc
    exact ⟨rfl, this⟩

/-- A concrete case: a function that writes a line and panics. -/
example : Leaves (.debug 1 .crash : Prog Nat) ∧ (run (.debug 1 .crash : Prog Nat) { start with debugMode := true }).2 = true :=
  ⟨trivial, rfl⟩

/-- C117: whoever makes a client decides about debugging for all clients: from then on everything or nothing is
written, whatever was set before. -/
theorem C117_clients (on : Bool) (rest : Prog Line) (s : St Line) (h : Leaves rest)
    (hc : (run (.newClient on rest) s).2 = false) :
    ofDebug (run (.newClient on rest) s).1.written = ofDebug s.written ++ (if on then debugLines rest else []) :=
  (leaves rest { s with debugMode := on } h).2 hc

/-- A concrete case: a second client without debugging silences the first. -/
example : (run (.newClient true (.debug 1 (.newClient false (.debug 2 .done))) : Prog Nat) start).1.written = [(true, 1)] :=
  rfl

/-- C117: debugging has no influence on the information log nor on what the program does. -/
theorem C117_info (p : Prog Line) (s t : St Line) (hm : s.infoMode = t.infoMode) (hw : ofInfo s.written = ofInfo t.written) :
    ofInfo (run p s).1.written = ofInfo (run p t).1.written ∧ (run p s).1.infoMode = (run p t).1.infoMode ∧
    (run p s).2 = (run p t).2 := by
  induction p generalizing s t with
  | done => exact ⟨hw, hm, rfl⟩
  | crash => exact ⟨hw, hm, rfl⟩
  | debug l k ih =>
    exact ih _ _ (by rw [(write_modes _ _ _ _).2, (write_modes _ _ _ _).2, hm]) (by simp [ofInfo_write, hw])
  | info l k ih =>
    exact ih _ _ (by rw [(write_modes _ _ _ _).2, (write_modes _ _ _ _).2, hm]) (by simp [ofInfo_write, hw, hm])
  | setDebug on k ih => exact ih _ _ hm hw
  | setInfo on k ih => exact ih _ _ rfl hw
  | newClient on k ih => exact ih _ _ hm hw
  | withDebug body k ih1 ih2 =>
    have := ih1 { s with debugMode := true } { t with debugMode := true } hm hw
    simp only [run]
    cases hr : run body { s with debugMode := true } with
    | mk s' c =>
      cases hr' : run body { t with debugMode := true } with
      | mk t' c' =>
        rw [hr, hr'] at this
        obtain ⟨h1, h2, h3⟩ := this
        simp only at h1 h2 h3
        subst h3
        cases c with
        | true => exact ⟨h1, h2, rfl⟩
        | false => exact ih2 _ _ h2 h1

/-- A concrete case: two states that differ in the debug mode and in what was written to the debug log. -/
example : (⟨true, true, [(true, 1), (false, 2)]⟩ : St Nat).infoMode = (⟨false, true, [(false, 2)]⟩ : St Nat).infoMode ∧
    ofInfo [(true, 1), (false, 2)] = ofInfo [(false, 2)] := ⟨rfl, rfl⟩

theorem infoWritten (p : Prog Line) (s : St Line) (h : LeavesInfo p) :
    (run p s).1.infoMode = s.infoMode ∧
    ((run p s).2 = false → ofInfo (run p s).1.written = ofInfo s.written ++ (if s.infoMode then infoLines p else [])) := by
  induction p generalizing s with
  | done => exact ⟨rfl, fun _ => by simp [run, infoLines]⟩
  | crash => exact ⟨rfl, fun h => by simp [run] at h⟩
  | debug l k ih =>
    obtain ⟨h1, h2⟩ := ih (write s.debugMode true l s) h
    rw [(write_modes _ _ _ _).2] at h1 h2
    refine ⟨h1, fun hc => ?_⟩
    rw [show (run (.debug l k) s) = run k (write s.debugMode true l s) from rfl, h2 hc, ofInfo_write]
    simp [infoLines]
  | info l k ih =>
    obtain ⟨h1, h2⟩ := ih (write s.infoMode false l s) h
    rw [(write_modes _ _ _ _).2] at h1 h2
    refine ⟨h1, fun hc => ?_⟩
    rw [show (run (.info l k) s) = run k (write s.infoMode false l s) from rfl, h2 hc, ofInfo_write]
    cases s.infoMode <;> simp [infoLines]
  | setDebug on k ih => exact ih { s with debugMode := on } h
  | setInfo on k ih => exact h.elim
  | newClient on k ih => exact ih { s with debugMode := on } h
  | withDebug body k ih1 ih2 =>
    obtain ⟨h1, h2⟩ := ih1 { s with debugMode := true } h.1
    simp only [run]
    cases hr : run body { s with debugMode := true } with
    | mk s' c =>
      rw [hr] at h1 h2
      cases c with
      | true => exact ⟨h1, fun hc => by simp at hc⟩
      | false =>
        obtain ⟨h3, h4⟩ := ih2 { s' with debugMode := false } h.2
        simp only at h1 h2 h3 h4
        refine ⟨h3.trans h1, fun hc => ?_⟩
        simp only at hc ⊢
        rw [h4 hc, h2 trivial, h1]
        cases s.infoMode <;> simp [infoLines]

/-- C117: until `SetInfoLog` is called, all information is written from the start, inside `WithDebugLogging`
and outside. -/
theorem C117_information (p : Prog Line) (h : LeavesInfo p) (hc : (run p start).2 = false) :
    ofInfo (run p start).1.written = infoLines p ∧
    ∀ s : St Line, (run (.setInfo false p) s).2 = false →
      ofInfo (run (.setInfo false p) s).1.written = ofInfo s.written :=
  ⟨by simpa [start, ofInfo] using (infoWritten p start h).2 hc,
   fun s hs => ((infoWritten p { s with infoMode := false } h).2 hs).trans (by simp)⟩

/-- A concrete case: one line before, one inside. -/
example : LeavesInfo (.info 1 (.withDebug (.info 2 (.debug 3 .done)) .done) : Prog Nat) ∧
    (run (.info 1 (.withDebug (.info 2 (.debug 3 .done)) .done) : Prog Nat) start).2 = false := ⟨⟨trivial, trivial⟩, rfl⟩

end Verif.Logger
