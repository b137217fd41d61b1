import Verif.Spec.ReadExact
import Verif.Props.Wire
import Verif.Lemmas.Reasons

/-! # C134: every outcome of reading one value -/

namespace Ssh

open Spec Reader

theorem Parses.exactly {α : Type} {p : Rd α} {G : α → Bytes → Prop} {D : Fault} (h : Parses p G) (hd : Faults p D)
    (hp : ∀ r, (p r).1 ≠ .panic) : ReadsExactly p G D where
  value buf pos v r' := by
    rw [h]
    constructor
    · rintro ⟨w, h1, ⟨tail, h2⟩, h3⟩
      exact ⟨w, tail, h2, h1, h3⟩
    · rintro ⟨w, tail, h2, h1, h3⟩
      exact ⟨w, h1, ⟨tail, h2⟩, h3⟩
  error buf pos e := hd ⟨buf, pos⟩ e
  defined := hp

/-- C134: strings, texts, integers and zero-ended texts. -/
theorem C134_values :
    ReadsExactly readBytes Frame StringFault ∧ ReadsExactly readString Text TextFault ∧
    ReadsExactly readPositiveMpint Mpint MpintFault ∧
    ReadsExactly readU32 (fun v w => w = u32 v.toNat) (WordFault 4) ∧
    ReadsExactly readU64 (fun v w => w = u64 v.toNat) (WordFault 8) ∧
    ReadsExactly readCstring ZeroEnded (fun rest e => 0 ∉ rest ∧ e = .unexpectedEof) := by
  refine ⟨readBytes_parses.exactly readBytes_faults readBytes_noPanic, readString_parses.exactly readString_faults readString_noPanic,
    readPositiveMpint_parses.exactly readPositiveMpint_faults readPositiveMpint_noPanic,
    readU32_parses.exactly readU32_faults readU32_noPanic, readU64_parses.exactly readU64_faults readU64_noPanic,
    (readCstring_parses.congr fun v w => ?_).exactly readCstring_faults readCstring_noPanic⟩
  constructor
  · rintro ⟨b, hb, rfl, rfl⟩
    exact ⟨b, rfl, fun h => hb 0 h rfl, by simp⟩
  · rintro ⟨b, rfl, hb, hs⟩
    exact ⟨b, fun x hx h => hb (h ▸ hx), rfl, by rw [← hs]; simp⟩

example : readString ⟨[9, 0, 0, 0, 1, 0xff], 1⟩ = (.err .utf8Error, ⟨[9, 0, 0, 0, 1, 0xff], 6⟩) ∧
    readU64 ⟨[1, 2], 5⟩ = (.err .unexpectedEof, ⟨[1, 2], 5⟩) ∧ readU64 ⟨[1, 2], 1⟩ = (.err .invalidFormat, ⟨[1, 2], 1⟩) ∧
    readCstring ⟨[65, 0xe9, 0], 0⟩ = (.ok "Aé", ⟨[65, 0xe9, 0], 3⟩) := by
  decide +kernel

/-- C134: bytes without a length.  (At the end of the buffer even no bytes cannot be read.) -/
theorem C134_raw (n : Nat) (buf : Bytes) (pos : Nat) :
    (∀ v r', readRawBytes n ⟨buf, pos⟩ = (.ok v, r') ↔
      pos < buf.length ∧ v.length = n ∧ (∃ tail, buf.drop pos = v ++ tail) ∧ r' = ⟨buf, pos + n⟩) ∧
    (∀ e r', readRawBytes n ⟨buf, pos⟩ = (.err e, r') ↔
      (buf.length ≤ pos ∨ buf.length < pos + n) ∧ e = .unexpectedEof ∧ r' = ⟨buf, pos⟩) ∧
    (readRawBytes n ⟨buf, pos⟩).1 ≠ .panic := by
  rw [readRawBytes_eq]
  by_cases h : pos ≥ buf.length ∨ n > buf.length - pos
  · rw [if_pos h]
    refine ⟨fun v r' => ⟨fun h => (by cases h), ?_⟩, fun e r' => ?_, by simp⟩
    · rintro ⟨h1, h2, ⟨tail, h3⟩, -⟩
      have := congrArg List.length h3
      simp only [List.length_drop, List.length_append] at this
      omega
    · simp only [Prod.mk.injEq, Res.err.injEq]
      constructor
      · rintro ⟨rfl, rfl⟩
        exact ⟨by omega, rfl, rfl⟩
      · rintro ⟨_, rfl, rfl⟩
        exact ⟨rfl, rfl⟩
  · rw [if_neg h]
    refine ⟨fun v r' => ?_, fun e r' => ⟨fun h => (by cases h), fun ⟨h', _⟩ => absurd h' (by omega)⟩, by simp⟩
    simp only [Prod.mk.injEq, Res.ok.injEq]
    constructor
    · rintro ⟨rfl, rfl⟩
      refine ⟨by omega, by simp; omega, ⟨_, (List.take_append_drop n _).symm⟩, rfl⟩
    · rintro ⟨_, h2, ⟨tail, h3⟩, rfl⟩
      refine ⟨?_, rfl⟩
      rw [h3, ← h2, List.take_left]

example : readRawBytes 0 ⟨[1, 2], 1⟩ = (.ok [], ⟨[1, 2], 1⟩) ∧ readRawBytes 0 ⟨[1, 2], 2⟩ = (.err .unexpectedEof, ⟨[1, 2], 2⟩) := by
  decide

/-- C134: where the cursor stands after a failure. -/
theorem C134_cursor (r r' : Reader) (e : Err) :
    (readBytes r = (.err e, r') ↔ StringFault (r.inner.drop r.offset) e ∧ r' = r) ∧
    (readU32 r = (.err e, r') ↔ WordFault 4 (r.inner.drop r.offset) e ∧ r' = r) ∧
    (readU64 r = (.err e, r') ↔ WordFault 8 (r.inner.drop r.offset) e ∧ r' = r) ∧
    (readCstring r = (.err e, r') ↔ 0 ∉ r.inner.drop r.offset ∧ e = .unexpectedEof ∧ r' = r) ∧
    (readString r = (.err e, r') ↔ (StringFault (r.inner.drop r.offset) e ∧ r' = r) ∨
      ∃ b w tail, r.inner.drop r.offset = w ++ tail ∧ Frame b w ∧ (∀ s : String, s.toByteArray.data.toList ≠ b) ∧
        e = .utf8Error ∧ r' = ⟨r.inner, r.offset + w.length⟩) ∧
    (readPositiveMpint r = (.err e, r') ↔ (StringFault (r.inner.drop r.offset) e ∧ r' = r) ∨
      ∃ b w tail, r.inner.drop r.offset = w ++ tail ∧ Frame b w ∧ ¬ MpintPayload b ∧
        e = .invalidFormat ∧ r' = ⟨r.inner, r.offset + w.length⟩) := by
  obtain ⟨c1, -, c3, c4, c5⟩ := C03_cursor r r' e
  have plain : ∀ {α : Type} {p : Rd α} {D : Fault}, Faults p D → (p r = (.err e, r') → r' = r) →
      (∀ r'', p r = (.err e, r'') → r'' = r) → (p r = (.err e, r') ↔ D (r.inner.drop r.offset) e ∧ r' = r) := by
    intro α p D hf h h'
    rw [← hf r e]
    constructor
    · intro he
      exact ⟨by rw [he], h he⟩
    · rintro ⟨h1, rfl⟩
      have he : p r' = (.err e, (p r').2) := by rw [← h1]
      rw [h' _ he] at he
      exact he
  have framed : ∀ {α : Type} (f : Bytes → Res α), ((readBytes >>= fun b => Rd.lift (f b)) r = (.err e, r') ↔
      (StringFault (r.inner.drop r.offset) e ∧ r' = r) ∨ ∃ b w tail, r.inner.drop r.offset = w ++ tail ∧ Frame b w ∧
        f b = .err e ∧ r' = ⟨r.inner, r.offset + w.length⟩) := by
    intro α f
    rw [Rd.bind_eq, ← plain readBytes_faults c1 fun r'' => (C03_cursor r r'' e).1]
    constructor
    · intro h
      rcases hb : readBytes r with ⟨b | e' | _, r1⟩
      · rw [hb] at h
        obtain ⟨w, hf, ⟨tail, ht⟩, rfl⟩ := (readBytes_parses _ _ _).mp hb
        simp only [Rd.lift_eq, Prod.mk.injEq] at h
        exact .inr ⟨b, w, tail, ht, hf, h.1, h.2.symm⟩
      · rw [hb] at h
        simp only [Prod.mk.injEq, Res.err.injEq] at h
        exact .inl (by rw [h.1, h.2])
      · exact absurd (by rw [hb]) (readBytes_noPanic r)
    · rintro (h | ⟨b, w, tail, ht, hf, he, rfl⟩)
      · rw [h]
      · rw [(readBytes_parses r b (adv r w)).mpr ⟨w, hf, ⟨tail, ht⟩, rfl⟩]
        simp only [Rd.lift_eq, he]
        rfl
  refine ⟨plain readBytes_faults c1 fun r'' => (C03_cursor r r'' e).1, plain readU32_faults c3 fun r'' => (C03_cursor r r'' e).2.2.1,
    plain readU64_faults c4 fun r'' => (C03_cursor r r'' e).2.2.2.1,
    (plain readCstring_faults c5 fun r'' => (C03_cursor r r'' e).2.2.2.2).trans and_assoc, ?_, ?_⟩
  · have : readString = readBytes >>= fun b => Rd.lift (match fromUtf8 b with | some s => .ok s | none => .err .utf8Error) := by
      unfold readString
      congr 1
      funext b
      cases fromUtf8 b <;> rfl
    rw [this, framed]
    refine or_congr_right ?_
    have key : ∀ b, (match fromUtf8 b with | some s => Res.ok s | none => .err .utf8Error) = .err e ↔
        (∀ s : String, s.toByteArray.data.toList ≠ b) ∧ e = .utf8Error := by
      intro b
      rw [← fromUtf8_none]
      cases fromUtf8 b <;> simp [eq_comm]
    simp only [key, and_assoc]
  · rw [readPositiveMpint_eq, framed]
    simp only [mpintValue_err, and_assoc]

example : readPositiveMpint ⟨[0, 0, 0, 1, 0], 0⟩ = (.err .invalidFormat, ⟨[0, 0, 0, 1, 0], 5⟩) ∧
    readPositiveMpint ⟨[0, 0, 0, 2, 0], 0⟩ = (.err .invalidFormat, ⟨[0, 0, 0, 2, 0], 0⟩) := by decide

/-- C134: a new reader, and moving the cursor by hand. -/
theorem C134_offset (buf : Bytes) (r : Reader) (n : Nat) :
    Reader.new buf = ⟨buf, 0⟩ ∧ setOffset n r = (.ok (), ⟨r.inner, n⟩) ∧ getOffset r = (.ok r.offset, r) := ⟨rfl, rfl, rfl⟩

example : setOffset 9 ⟨[1, 2], 1⟩ = (.ok (), ⟨[1, 2], 9⟩) := by decide

end Ssh
