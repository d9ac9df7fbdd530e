import Verif.Dialog.Delivery

/-
C119: which PINs look the same to the bank.
-/

namespace Verif.Dialog

open GoLib Charset Element Element.Spec Segment Message

/-- An escaped text is never followed by a lonely escape sign. -/
theorem escape_lonely (x y : Str) : escape x ≠ escape y ++ ['?'] := by
  intro h
  have h1 : unescape (escape y ++ ['?']) = y ++ ['?'] := by
    clear h
    induction y with
    | nil => rfl
    | cons c y ih =>
      rw [escape_cons]
      by_cases hc : special c = true
      · rw [if_pos hc]
        show unescape ('?' :: c :: (escape y ++ ['?'])) = _
        rw [unescape, if_pos hc, ih]
        rfl
      · rw [if_neg hc]
        show unescape (c :: (escape y ++ ['?'])) = _
        have hq : c ≠ '?' := by rintro rfl; exact hc (by decide)
        conv => lhs; unfold unescape
        split
        · rename_i heq
          exact absurd (List.cons.inj heq).1 hq
        · rename_i heq
          obtain ⟨rfl, rfl⟩ := List.cons.inj heq
          rw [ih]
          rfl
        · rename_i heq
          simp at heq
  have h2 : x = y ++ ['?'] := by rw [← unescape_escape x, h, h1]
  rw [h2, escape_append] at h
  have := List.append_cancel_left h
  exact absurd this (by decide)

theorem enc_inj {a b : Str} (ha : Latin1 a) (hb : Latin1 b) (h : enc a = enc b) : a = b := by
  rw [← toUTF8_enc ha, h, toUTF8_enc hb]

/-- What is transmitted of a PIN. -/
theorem pinBytes_cases {p : Str} (hne : p ≠ []) :
    (∃ x, (p = x ++ [':'] ∨ p = x ++ ['+']) ∧ pinBytes p = enc (escape x ++ ['?'])) ∨
    ((∀ x, p ≠ x ++ [':'] ∧ p ≠ x ++ ['+']) ∧ pinBytes p = enc (escape p)) := by
  obtain ⟨x, c, rfl⟩ : ∃ r c, p = r ++ [c] := ⟨_, _, (List.dropLast_append_getLast hne).symm⟩
  unfold pinBytes
  by_cases hc : c = ':' ∨ c = '+'
  · left
    refine ⟨x, by rcases hc with rfl | rfl <;> simp, ?_⟩
    rw [if_pos (by simpa using hc), escape_append]
    have : ∃ d, escape [c] = ['?', d] := by rcases hc with rfl | rfl <;> exact ⟨_, rfl⟩
    obtain ⟨d, hd⟩ := this
    rw [hd, show escape x ++ ['?', d] = (escape x ++ ['?']) ++ [d] by simp, List.dropLast_concat]
  · right
    rw [if_neg (by simpa using hc)]
    refine ⟨fun y => ⟨fun h => hc (.inl ?_), fun h => hc (.inr ?_)⟩, rfl⟩
    · have := congrArg List.getLast? h; simpa using this
    · have := congrArg List.getLast? h; simpa using this

/-- C119: two PINs are transmitted as the same bytes exactly if they are the same or differ only in that one ends in `:`
where the other ends in `+`. -/
theorem C119_same (v : Version) (ref : Str) (k : Int) {p q : Str} (hr : Latin1 ref) (hp : Latin1 p) (hq : Latin1 q)
    (hp0 : p ≠ []) (hq0 : q ≠ []) :
    ((signatureEnd v ref p).setPosition k).marshal = ((signatureEnd v ref q).setPosition k).marshal ↔
      p = q ∨ ∃ x, (p = x ++ [':'] ∧ q = x ++ ['+']) ∨ (p = x ++ ['+'] ∧ q = x ++ [':']) := by
  have key : ∀ {s : Str}, Latin1 s → ∃ b, ((signatureEnd v ref s).setPosition k).marshal = .ok b := fun hs =>
    (seg_ok_iff _).2 (by rw [writable_setPosition, signatureEnd_writable]; exact ⟨hr, hs⟩)
  obtain ⟨b, hb⟩ := key hp
  obtain ⟨c, hc⟩ := key hq
  have e1 := signatureEnd_bytes hp0 hb
  have e2 := signatureEnd_bytes hq0 hc
  have hbc : b = c ↔ pinBytes p = pinBytes q := by
    rw [e1, e2]
    constructor
    · intro h
      exact List.append_cancel_left (List.append_cancel_right h)
    · intro h
      rw [h]
  rw [hb, hc, Outcome.ok.injEq, hbc]
  have lat : ∀ {x : Str} {d : Char}, Latin1 (x ++ [d]) → Latin1 (escape x ++ ['?']) := by
    intro x d h y hy
    rcases List.mem_append.1 hy with hy | hy
    · exact escape_latin1.2 (fun z hz => h z (by simp [hz])) y hy
    · simp at hy
      subst hy
      decide
  rcases pinBytes_cases hp0 with ⟨x, hx, hpx⟩ | ⟨hx, hpx⟩ <;> rcases pinBytes_cases hq0 with ⟨y, hy, hqy⟩ | ⟨hy, hqy⟩
  · have lx : Latin1 (escape x ++ ['?']) := by rcases hx with rfl | rfl <;> exact lat hp
    have ly : Latin1 (escape y ++ ['?']) := by rcases hy with rfl | rfl <;> exact lat hq
    rw [hpx, hqy]
    constructor
    · intro h
      have h1 := List.append_cancel_right (enc_inj lx ly h)
      have h2 : x = y := by rw [← unescape_escape x, h1, unescape_escape]
      subst h2
      rcases hx with rfl | rfl <;> rcases hy with rfl | rfl
      · exact .inl rfl
      · exact .inr ⟨x, .inl ⟨rfl, rfl⟩⟩
      · exact .inr ⟨x, .inr ⟨rfl, rfl⟩⟩
      · exact .inl rfl
    · intro h
      have hd : ∀ {z : Str} {d : Char}, (z ++ [d]).dropLast = z := fun {z d} => List.dropLast_concat
      have e : p.dropLast = q.dropLast := by
        rcases h with rfl | ⟨z, ⟨rfl, rfl⟩ | ⟨rfl, rfl⟩⟩
        · rfl
        · rw [hd, hd]
        · rw [hd, hd]
      have : x = y := by rcases hx with rfl | rfl <;> rcases hy with rfl | rfl <;> simpa using e
      rw [this]
  · have lx : Latin1 (escape x ++ ['?']) := by rcases hx with rfl | rfl <;> exact lat hp
    rw [hpx, hqy]
    constructor
    · intro h
      exact absurd (enc_inj lx (escape_latin1.2 hq) h).symm (escape_lonely q x)
    · rintro (rfl | ⟨z, ⟨rfl, rfl⟩ | ⟨rfl, rfl⟩⟩)
      · rcases hx with h | h
        · exact absurd h (hy x).1
        · exact absurd h (hy x).2
      · exact absurd rfl (hy z).2
      · exact absurd rfl (hy z).1
  · have ly : Latin1 (escape y ++ ['?']) := by rcases hy with rfl | rfl <;> exact lat hq
    rw [hpx, hqy]
    constructor
    · intro h
      exact absurd (enc_inj (escape_latin1.2 hp) ly h) (escape_lonely p y)
    · rintro (rfl | ⟨z, ⟨rfl, rfl⟩ | ⟨rfl, rfl⟩⟩)
      · rcases hy with h | h
        · exact absurd h (hx y).1
        · exact absurd h (hx y).2
      · exact absurd rfl (hx z).1
      · exact absurd rfl (hx z).2
  · rw [hpx, hqy]
    constructor
    · intro h
      left
      rw [← unescape_escape p, enc_inj (escape_latin1.2 hp) (escape_latin1.2 hq) h, unescape_escape]
    · rintro (rfl | ⟨z, ⟨rfl, rfl⟩ | ⟨rfl, rfl⟩⟩)
      · rfl
      · exact absurd rfl (hx z).1
      · exact absurd rfl (hx z).2

/-- Concrete cases: PINs that look the same, and PINs that do not although they end in escape signs. -/
example :
    ((signatureEnd .fints300 c!"1234" c!"12:").setPosition 7).marshal = .ok b!"HNSHA:7:2+1234++12?'" ∧
    ((signatureEnd .fints300 c!"1234" c!"12+").setPosition 7).marshal = .ok b!"HNSHA:7:2+1234++12?'" ∧
    ((signatureEnd .fints300 c!"1234" c!"12?").setPosition 7).marshal = .ok b!"HNSHA:7:2+1234++12??'" := by decide

end Verif.Dialog
