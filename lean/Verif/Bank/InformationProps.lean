import Verif.Client.InformationProps
import Verif.Bank.CrashProps

/-
C105: which answers about accounts and ways of access can be read at all.
-/

namespace Verif.Bank

open GoLib Charset Element Element.Spec Segment Segment.Spec Message Message.Spec Verif.Token.Spec Dialog Transport

theorem opaque_nil {h : Header} {fs : List Bytes} {b : Bytes} (hw : Wire h fs b) {cs : List (Nat × (Bytes → Outcome Unit))} {n : Nat} {x : Header}
    (hx : opaqueSegment b cs (n + 1) unmarshalNil = .ok x) : fs.getD n [] = [] := by
  obtain ⟨hb, _, h2⟩ := generated_of_wire hw
  unfold opaqueSegment at hx
  rw [h2] at hx
  obtain ⟨_, _, hx⟩ := Dialog.bind_ok hx
  rw [nil_field] at hx
  by_contra hn
  rw [if_neg (by simpa using hn)] at hx
  simp at hx

theorem zip_of_mem {P : Bytes → Header → Prop} {ss : List Bytes} {hs : List Header} (h : List.Forall₂ P ss hs) {s : Bytes} (hm : s ∈ ss) :
    ∃ x, (s, x) ∈ ss.zip hs ∧ P s x := by
  induction h with
  | nil => simp at hm
  | cons hp _ ih =>
    rcases List.mem_cons.1 hm with rfl | hm
    · exact ⟨_, by simp, hp⟩
    · obtain ⟨x, h1, h2⟩ := ih hm
      exact ⟨x, by simp [h1], h2⟩

/-- In a message that was read, every known segment was decoded. -/
theorem decoded_of_read {σ : Type} {other : Decoders σ} {raw : Bytes} {m : SegmentMap σ} {e : Extractor}
    (h : unmarshalMessage other raw = .ok (m, e)) {s : Bytes} (hm : s ∈ e.segments) {hd : Header} (hr : Reads s hd)
    {f : Bytes → Outcome (Decoded σ)} (hf : decoderFor other hd.id hd.version = some f) : ∃ x, f s = .ok x := by
  obtain ⟨ss, hs, h1, h2, h3⟩ := (C65_reads other raw m).1 ⟨e, h⟩
  rw [C65_extractor h] at h1
  cases h1
  obtain ⟨hd', h4, h5⟩ := zip_of_mem h2 hm
  have : hd' = hd := by
    have a := reads_iff.2 h5
    rw [reads_iff.2 hr] at a
    simpa using a.symm
  subst this
  have : f s ∈ (m hd'.id).map Outcome.ok := by
    rw [h3 hd'.id]
    unfold decodings
    exact List.mem_filterMap.2 ⟨_, h4, by simp [hf]⟩
  obtain ⟨x, _, hx⟩ := List.mem_map.1 this
  exact ⟨x, hx.symm⟩

/-- An answer in which a bank names the persons entitled to use an account, or a way of access to
an institute, is never read: the caller gets nothing of it. -/
theorem C105_unread {r : Response} {m : Decrypted BankSeg} (h : r.message decoders = .ok m) {id : Str} {v : Int} {n : Nat}
    (hk : (id = c!"HIKIF" ∧ v = 1 ∧ n = 15) ∨ (id = c!"HIKOM" ∧ v = 3 ∧ n = 2)) {p ref : Int} (hp : IsInt p) (hr : IsInt ref)
    {fs : List Bytes} (hf : ∀ f ∈ fs, Field f) (hlast : fs.getLast? ≠ some []) (hs : (fs.flatMap (fun f => 43 :: f)).length ≤ 2 ^ 61)
    (hm : segmentBytes id p v ref fs ∈ m.extractor.segments) : fs.getD n [] = [] := by
  have hw : Wire ⟨id, p, v, some ref⟩ fs (segmentBytes id p v ref fs) := by
    rcases hk with ⟨rfl, rfl, -⟩ | ⟨rfl, rfl, -⟩
    · exact wire_of_fields (by decide) hp (by unfold IsInt; omega) hr (by decide) hf hlast hs
    · exact wire_of_fields (by decide) hp (by unfold IsInt; omega) hr (by decide) hf hlast hs
  obtain ⟨data, u, hu⟩ : ∃ data u, unmarshalMessage decoders data = .ok (u, m.extractor) := by
    unfold Response.message at h
    obtain ⟨hd, h0, h⟩ := Dialog.bind_ok h
    by_cases he : r.isEncrypted
    · rw [if_pos he] at h
      obtain ⟨b, _, h⟩ := Dialog.bind_ok h
      exact ⟨b, newDecrypted_read h⟩
    · rw [if_neg he] at h
      exact ⟨_, newDecrypted_read h⟩
  obtain ⟨hb, _, g2, g3⟩ := generated_wire hw
  have hreads : Reads (segmentBytes id p v ref fs) ⟨id, p, v, some ref⟩ := ⟨hb, fs, g2, g3⟩
  rcases hk with ⟨rfl, rfl, rfl⟩ | ⟨rfl, rfl, rfl⟩
  · obtain ⟨x, hx⟩ := decoded_of_read hu hm hreads (f := fun b => ((unmarshalAccountInformation b).map' BankSeg.unread).map' .other) rfl
    obtain ⟨y, hy, _⟩ := Dialog.map_ok hx
    obtain ⟨z, hz, _⟩ := Dialog.map_ok hy
    exact opaque_nil hw hz
  · obtain ⟨x, hx⟩ := decoded_of_read hu hm hreads (f := fun b => ((unmarshalCommunication b).map' BankSeg.unread).map' .other) rfl
    obtain ⟨y, hy, _⟩ := Dialog.map_ok hx
    obtain ⟨z, hz, _⟩ := Dialog.map_ok hy
    exact opaque_nil hw hz

/-- Without these fields the answers are read; with them the client crashes. -/
example :
    segmentBytes c!"HIKIF" 4 1 3 [b!"100::280:10000000", b!"1", b!"A"] = b!"HIKIF:4:1:3+100::280:10000000+1+A'" ∧
    (receive decoders (Dialog.Sample.reply b!"dia" b!"0020::ok" b!"HIKIF:4:1:3+100::280:10000000+1+A'")).map' (fun m => m.extractor.segments.length) = .ok 4 ∧
    (receive decoders (Dialog.Sample.reply b!"dia" b!"0020::ok" b!"HIKIF:4:1:3+100::280:10000000+1+A+++++++++++++1:B'")).map'
      (fun m => m.extractor.segments.length) = .panic := by
  decide +kernel

end Verif.Bank
