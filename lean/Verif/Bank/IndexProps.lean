import Verif.Bank.Index

/-
C130: filling the index of known segments.
-/

namespace Verif.Bank

open GoLib Element Segment Message

variable {α : Type}

/-! ## Adding -/

/-- C130: adding fails exactly if something is registered for the ID and the version, whether it can be read or
not. -/
theorem C130_add_fails (s : SegIndex α) (k : Str × Int) (u : Option α) :
    s.add k u = .err ↔ s.isIndexed k = true := by
  unfold SegIndex.add
  by_cases h : s.isIndexed k = true <;> simp [h]

/-- C130: after an addition the new entry is found, and all others are as before. -/
theorem C130_add {s s' : SegIndex α} {k : Str × Int} {u : Option α} (h : s.add k u = .ok s') :
    s'.isIndexed k = true ∧ s'.isUnmarshaler k = u.isSome ∧ s'.unmarshalerFor k = Outcome.ofOption u ∧
    ∀ x, x ≠ k → s'.isIndexed x = s.isIndexed x ∧ s'.isUnmarshaler x = s.isUnmarshaler x ∧
      s'.unmarshalerFor x = s.unmarshalerFor x := by
  unfold SegIndex.add at h
  split at h
  · cases h
  · simp only [Outcome.ok.injEq] at h
    subst h
    refine ⟨by simp [SegIndex.isIndexed], by simp [SegIndex.isUnmarshaler], ?_, ?_⟩
    · cases u <;> simp [SegIndex.unmarshalerFor, Outcome.ofOption]
    · intro x hx
      simp [SegIndex.isIndexed, SegIndex.isUnmarshaler, SegIndex.unmarshalerFor, hx]

theorem mustAdd_ok (s : SegIndex α) (k : Str × Int) (u : Option α) (h : s k = none) :
    s.mustAdd k u = .ok fun x => if x = k then some u else s x := by
  simp [SegIndex.mustAdd, SegIndex.add, SegIndex.isIndexed, h]

theorem mustAdd_panic (s : SegIndex α) (k : Str × Int) (u : Option α) (h : s k ≠ none) : s.mustAdd k u = .panic := by
  have : s.isIndexed k = true := by simpa [SegIndex.isIndexed, Option.isSome_iff_ne_none] using h
  simp [SegIndex.mustAdd, SegIndex.add, this]

/-! ## Registering -/

theorem register_ok (l : List ((Str × Int) × Option α)) (s : SegIndex α) (hd : (l.map Prod.fst).Nodup)
    (hs : ∀ e ∈ l, s e.1 = none) :
    ∃ s', SegIndex.register l s = .ok s' ∧ (∀ e ∈ l, s' e.1 = some e.2) ∧ ∀ k, k ∉ l.map Prod.fst → s' k = s k := by
  induction l generalizing s with
  | nil => exact ⟨s, rfl, by simp, by simp⟩
  | cons e l ih =>
    obtain ⟨k, u⟩ := e
    simp only [List.map_cons, List.nodup_cons] at hd
    obtain ⟨s', h1, h2, h3⟩ := ih (fun x => if x = k then some u else s x) hd.2 (by
      intro e he
      have hne : e.1 ≠ k := by rintro rfl; exact hd.1 (List.mem_map_of_mem he)
      simp only [hne, if_false]
      exact hs e (List.mem_cons_of_mem _ he))
    refine ⟨s', ?_, ?_, ?_⟩
    · rw [SegIndex.register, mustAdd_ok s k u (hs _ List.mem_cons_self)]
      exact h1
    · intro e he
      rcases List.mem_cons.1 he with rfl | he
      · rw [h3 k hd.1]; simp
      · exact h2 e he
    · intro x hx
      simp only [List.map_cons, List.mem_cons, not_or] at hx
      rw [h3 x hx.2]
      simp [hx.1]

theorem register_panic (l : List ((Str × Int) × Option α)) (s : SegIndex α)
    (h : ¬ ((l.map Prod.fst).Nodup ∧ ∀ e ∈ l, s e.1 = none)) : SegIndex.register l s = .panic := by
  induction l generalizing s with
  | nil => simp at h
  | cons e l ih =>
    obtain ⟨k, u⟩ := e
    rw [SegIndex.register]
    by_cases hk : s k = none
    · rw [mustAdd_ok s k u hk]
      refine ih _ fun h' => h ⟨?_, ?_⟩
      · simp only [List.map_cons, List.nodup_cons]
        refine ⟨?_, h'.1⟩
        intro hm
        obtain ⟨e, he, rfl⟩ := List.mem_map.1 hm
        have := h'.2 e he
        simp at this
      · intro e he
        rcases List.mem_cons.1 he with rfl | he
        · exact hk
        · have := h'.2 e he
          by_cases hx : e.1 = k
          · simp [hx] at this
          · simpa [hx] using this
    · rw [mustAdd_panic s k u hk]
      rfl

/-- C130: filling an empty index panics exactly if an ID and version is registered twice. -/
theorem C130_twice (l : List ((Str × Int) × Option α)) :
    SegIndex.register l .empty = .panic ↔ ¬ (l.map Prod.fst).Nodup := by
  constructor
  · intro h hd
    obtain ⟨s, h1, _⟩ := register_ok l .empty hd fun _ _ => rfl
    rw [h1] at h
    cases h
  · intro h
    exact register_panic l .empty fun h' => h h'.1

/-- C130: otherwise the index holds what was registered and nothing else, and the order does not matter: two
orders of the same registrations give the same index. -/
theorem C130_order {l l' : List ((Str × Int) × Option α)} (hd : (l.map Prod.fst).Nodup) (hp : l'.Perm l) :
    ∃ s, SegIndex.register l .empty = .ok s ∧ SegIndex.register l' .empty = .ok s ∧
      (∀ k u, (k, u) ∈ l ↔ s k = some u) := by
  obtain ⟨s, h1, h2, h3⟩ := register_ok l .empty hd fun _ _ => rfl
  have hd' : (l'.map Prod.fst).Nodup := (hp.map Prod.fst).nodup_iff.2 hd
  obtain ⟨s', h1', h2', h3'⟩ := register_ok l' .empty hd' fun _ _ => rfl
  have he : s' = s := by
    funext k
    by_cases hk : k ∈ l.map Prod.fst
    · obtain ⟨e, he, rfl⟩ := List.mem_map.1 hk
      rw [h2 e he, h2' e (hp.mem_iff.2 he)]
    · rw [h3 k hk, h3' k (fun h => hk ((hp.map Prod.fst).mem_iff.1 h))]
  subst he
  refine ⟨s', h1, h1', fun k u => ⟨fun h => h2 _ h, fun h => ?_⟩⟩
  by_cases hk : k ∈ l.map Prod.fst
  · obtain ⟨e, he, rfl⟩ := List.mem_map.1 hk
    have := h2 e he
    rw [h, Option.some.injEq] at this
    rw [this]
    exact he
  · rw [h3 k hk] at h
    cases h

/-! ## The package -/

theorem registrations_nodup : (registrations.map Prod.fst).Nodup := by
  have : registrations.map Prod.fst = (c!"HIRMG", 2) :: (c!"HIRMS", 2) :: known.map fun e => (e.1, e.2.1) := by
    simp [registrations]
  rw [this]
  decide +kernel

theorem find_key {β : Type} {l : List (Str × Int × β)} (hd : (l.map fun e => (e.1, e.2.1)).Nodup) {e : Str × Int × β}
    (he : e ∈ l) : (l.find? fun x => x.1 == e.1 && x.2.1 == e.2.1) = some e := by
  induction l with
  | nil => cases he
  | cons a l ih =>
    simp only [List.map_cons, List.nodup_cons] at hd
    rcases List.mem_cons.1 he with rfl | he
    · simp
    · have : ¬ ((a.1 == e.1 && a.2.1 == e.2.1) = true) := by
        simp only [Bool.and_eq_true, beq_iff_eq, not_and]
        intro h1 h2
        exact hd.1 (List.mem_map.2 ⟨e, he, by rw [h1, h2]⟩)
      rw [List.find?_cons_of_neg (p := fun x : Str × Int × β => x.1 == e.1 && x.2.1 == e.2.1) this]
      exact ih hd.2 he

theorem registrations_lookup (id : Str) (v : Int) (u : Option (Bytes → Outcome (Decoded BankSeg))) :
    ((id, v), u) ∈ registrations ↔ ∃ f, decoderFor decoders id v = some f ∧ u = some f := by
  have hk : (known.map fun e => (e.1, e.2.1)).Nodup := by decide +kernel
  have hn : ∀ x ∈ known.map Prod.fst, x ≠ c!"HIRMG" ∧ x ≠ c!"HIRMS" := by decide +kernel
  have hfind : ∀ e ∈ known, decoders e.1 e.2.1 = some e.2.2 := by
    intro e he
    unfold decoders
    rw [find_key hk he]
    rfl
  have hks : ∀ e ∈ known, decoderFor decoders e.1 e.2.1 = some fun b => (e.2.2 b).map' .other := by
    intro e he
    obtain ⟨h1, h2⟩ := hn e.1 (List.mem_map_of_mem he)
    unfold decoderFor
    rw [if_neg h1, if_neg h2, hfind e he]
    rfl
  unfold registrations
  simp only [List.mem_cons, List.mem_map]
  constructor
  · rintro (h | h | ⟨e, he, h⟩)
    · cases h
      exact ⟨_, rfl, rfl⟩
    · cases h
      exact ⟨_, rfl, rfl⟩
    · cases h
      exact ⟨_, hks e he, rfl⟩
  · rintro ⟨f, hf, rfl⟩
    unfold decoderFor at hf
    split at hf
    · next h1 =>
      split at hf
      · next h2 => cases hf; subst h1 h2; exact .inl rfl
      · cases hf
    · split at hf
      · next h1 =>
        split at hf
        · next h2 => cases hf; subst h1 h2; exact .inr (.inl rfl)
        · cases hf
      · obtain ⟨g, hg, rfl⟩ := Option.map_eq_some_iff.1 hf
        unfold decoders at hg
        obtain ⟨e, he, rfl⟩ := Option.map_eq_some_iff.1 hg
        have hm := List.mem_of_find?_eq_some he
        have hp := List.find?_some he
        simp only [Bool.and_eq_true, beq_iff_eq] at hp
        obtain ⟨rfl, rfl⟩ := hp
        exact .inr (.inr ⟨e, hm, rfl⟩)

/-- C130: whatever the order in which the `init` functions of the package run, none of them panics, and the index
has a reader exactly for the IDs and versions the model of messages uses, and that reader. -/
theorem C130_package {l : List ((Str × Int) × Option (Bytes → Outcome (Decoded BankSeg)))} (hp : l.Perm registrations) :
    ∃ s, SegIndex.register l .empty = .ok s ∧ ∀ id v,
      s.unmarshalerFor (id, v) = Outcome.ofOption (decoderFor decoders id v) ∧
      s.isUnmarshaler (id, v) = (decoderFor decoders id v).isSome ∧
      s.isIndexed (id, v) = (decoderFor decoders id v).isSome := by
  obtain ⟨s, _, h2, h3⟩ := C130_order registrations_nodup hp
  refine ⟨s, h2, fun id v => ?_⟩
  cases hf : decoderFor decoders id v with
  | some f =>
    have := (h3 (id, v) (some f)).1 ((registrations_lookup id v _).2 ⟨f, hf, rfl⟩)
    simp [SegIndex.unmarshalerFor, SegIndex.isUnmarshaler, SegIndex.isIndexed, this, Outcome.ofOption]
  | none =>
    have : s (id, v) = none := by
      cases hs : s (id, v) with
      | none => rfl
      | some u =>
        obtain ⟨f, h, _⟩ := (registrations_lookup id v u).1 ((h3 _ _).2 hs)
        rw [hf] at h
        cases h
    simp [SegIndex.unmarshalerFor, SegIndex.isUnmarshaler, SegIndex.isIndexed, this, Outcome.ofOption]

/-! ## Concrete cases -/

/-- Registering in the opposite order is one of the orders. -/
example : registrations.reverse.Perm registrations ∧ registrations.length = 40 := ⟨List.reverse_perm _, rfl⟩

/-- Two versions of one segment, one of them without a reader, and the first one again. -/
example : ∃ s, SegIndex.register [((c!"HISYN", 3), some 1), ((c!"HISYN", 4), none)] .empty = .ok s ∧
    s.unmarshalerFor (c!"HISYN", 3) = .ok 1 ∧ s.unmarshalerFor (c!"HISYN", 4) = .err ∧
    s.isIndexed (c!"HISYN", 4) = true ∧ s.isUnmarshaler (c!"HISYN", 4) = false ∧
    s.add (c!"HISYN", 4) (some 2) = .err ∧
    SegIndex.register [((c!"HISYN", 3), some 1), ((c!"HISYN", 4), none), ((c!"HISYN", 3), some 2)] .empty = .panic :=
  ⟨_, rfl, rfl, rfl, rfl, rfl, rfl, rfl⟩

end Verif.Bank
