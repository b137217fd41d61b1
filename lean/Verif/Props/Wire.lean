import Verif.Lemmas.Lists

/-!
# C01–C12: the reader, the writer, principal lists and option maps

`⟨buf, pos⟩` is a `Reader` over the buffer `buf` whose cursor is at `pos`; a call returns the
outcome and the reader afterwards.
-/

namespace Ssh

open Spec Reader

/-! ## C01 -/

/-- C01: `read_bytes` at any place of any buffer. -/
theorem C01_read_bytes (buf : Bytes) (pos : Nat) (b : Bytes) (r' : Reader) :
    readBytes ⟨buf, pos⟩ = (.ok b, r') ↔
      ∃ w, Frame b w ∧ StartsAt buf pos w ∧ r' = ⟨buf, pos + 4 + b.length⟩ := by
  rw [readBytes_parses]
  constructor
  · rintro ⟨w, hf, ha, rfl⟩
    refine ⟨w, hf, (at_iff_startsAt (frame_ne_nil hf)).mp ha, ?_⟩
    simp [adv, frame_length hf, Nat.add_assoc]
  · rintro ⟨w, hf, ha, rfl⟩
    refine ⟨w, hf, (at_iff_startsAt (r := ⟨buf, pos⟩) (frame_ne_nil hf)).mpr ha, ?_⟩
    simp [adv, frame_length hf, Nat.add_assoc]

/-- C01: reading back what `write_bytes` appended, whatever precedes and follows. -/
theorem C01_roundtrip (pre suf b : Bytes) (h : b.length < 4294967296) :
    readBytes ⟨((Writer.mk pre).writeBytes b).inner ++ suf, pre.length⟩ =
      (.ok b, ⟨((Writer.mk pre).writeBytes b).inner ++ suf, ((Writer.mk pre).writeBytes b).inner.length⟩) := by
  rw [C01_read_bytes]
  refine ⟨frame b, Frame.of h, ⟨pre, suf, by simp, rfl⟩, ?_⟩
  simp [Nat.add_assoc]

example : readBytes ⟨[9, 0, 0, 0, 2, 7, 8, 5], 1⟩ = (.ok [7, 8], ⟨[9, 0, 0, 0, 2, 7, 8, 5], 7⟩) := by
  rw [C01_read_bytes]
  exact ⟨[0, 0, 0, 2, 7, 8], ⟨by decide, by decide⟩, ⟨[9], [5], rfl, rfl⟩, rfl⟩

example : ([1, 2, 3] : Bytes).length < 4294967296 := by decide

/-! ## C02 -/

/-- A call on a reader. -/
inductive ReaderOp where
  | bytes | raw (n : Nat) | mpint | string | cstring | u32 | u64 | setOffset (n : Nat)

/-- Outcome of a call (only whether it returned, failed or panicked) and the reader afterwards. -/
def ReaderOp.run : ReaderOp → Reader → Res Unit × Reader
  | .bytes => readBytes >>= fun _ => pure ()
  | .raw n => readRawBytes n >>= fun _ => pure ()
  | .mpint => readPositiveMpint >>= fun _ => pure ()
  | .string => readString >>= fun _ => pure ()
  | .cstring => readCstring >>= fun _ => pure ()
  | .u32 => readU32 >>= fun _ => pure ()
  | .u64 => readU64 >>= fun _ => pure ()
  | .setOffset n => Reader.setOffset n

/-- Execute calls one after the other, going on after errors: the outcomes in order and the final
reader. -/
def runOps : List ReaderOp → Reader → List (Res Unit) × Reader
  | [], r => ([], r)
  | op :: ops, r =>
    let (o, r') := op.run r
    let (os, r'') := runOps ops r'
    (o :: os, r'')

theorem run_noPanic (op : ReaderOp) (r : Reader) : (op.run r).1 ≠ .panic := by
  intro h
  cases op <;> unfold ReaderOp.run at h <;> simp only [Rd.bind_panic, Rd.pure_eq, reduceCtorEq,
    and_false, exists_false, or_false] at h
  · exact readBytes_noPanic r h
  · exact readRawBytes_noPanic _ r h
  · exact readPositiveMpint_noPanic r h
  · exact readString_noPanic r h
  · exact readCstring_noPanic r h
  · exact readU32_noPanic r h
  · exact readU64_noPanic r h
  · simp [Reader.setOffset] at h

theorem commit_inner {α : Type} (r : Reader) (x : Res (α × Nat)) : (commit r x).2.inner = r.inner := by
  cases x <;> rfl

theorem bind_inner {α β : Type} {m : Rd α} {f : α → Rd β} (hm : ∀ r, (m r).2.inner = r.inner)
    (hf : ∀ a r, (f a r).2.inner = r.inner) (r : Reader) : ((m >>= f) r).2.inner = r.inner := by
  rw [Rd.bind_eq]
  have := hm r
  rcases h : m r with ⟨x, r'⟩
  rw [h] at this
  cases x
  · simp only at this ⊢; rw [hf, this]
  · exact this
  · exact this

theorem run_inner (op : ReaderOp) (r : Reader) : (op.run r).2.inner = r.inner := by
  have hb : ∀ r, (readBytes r).2.inner = r.inner := fun r => commit_inner _ _
  cases op <;> unfold ReaderOp.run
  · exact bind_inner hb (fun _ _ => rfl) r
  · exact bind_inner (fun r => commit_inner _ _) (fun _ _ => rfl) r
  · refine bind_inner ?_ (fun _ _ => rfl) r
    rw [readPositiveMpint_eq]
    exact bind_inner hb (fun _ _ => rfl)
  · refine bind_inner ?_ (fun _ _ => rfl) r
    unfold readString
    refine bind_inner hb ?_
    intro a r; cases fromUtf8 a <;> rfl
  · exact bind_inner (fun r => commit_inner _ _) (fun _ _ => rfl) r
  · exact bind_inner (fun r => commit_inner _ _) (fun _ _ => rfl) r
  · exact bind_inner (fun r => commit_inner _ _) (fun _ _ => rfl) r
  · rfl

/-- C02: no sequence of calls panics, and the reader still reads the same buffer. -/
theorem C02_total (buf : Bytes) (ops : List ReaderOp) :
    (∀ o ∈ (runOps ops (Reader.new buf)).1, o ≠ .panic) ∧
      (runOps ops (Reader.new buf)).2.inner = buf := by
  have key : ∀ r : Reader, (∀ o ∈ (runOps ops r).1, o ≠ .panic) ∧ (runOps ops r).2.inner = r.inner := by
    induction ops with
    | nil => intro r; simp [runOps]
    | cons op ops ih =>
      intro r
      simp only [runOps]
      obtain ⟨h1, h2⟩ := ih (op.run r).2
      refine ⟨?_, by rw [h2, run_inner]⟩
      intro o ho
      rcases List.mem_cons.mp ho with rfl | ho
      · exact run_noPanic op r
      · exact h1 o ho
  exact key (Reader.new buf)

/-- `v` is a part of `buf` starting no earlier than `pos` and ending at `pos'`, inside `buf`. -/
def PartOf (buf : Bytes) (pos pos' : Nat) (v : Bytes) : Prop :=
  ∃ pre suf, buf = pre ++ v ++ suf ∧ pos ≤ pre.length ∧ pre.length + v.length = pos'

/-- C02: whatever sequence of calls led to the reader, a successful sized read returns bytes of the
buffer between the old and the new cursor, and leaves the cursor inside the buffer. -/
theorem C02_slices (buf : Bytes) (ops : List ReaderOp) (r r' : Reader)
    (hr : r = (runOps ops (Reader.new buf)).2) :
    (∀ v, readBytes r = (.ok v, r') → PartOf buf r.offset r'.offset v) ∧
    (∀ n v, readRawBytes n r = (.ok v, r') →
      StartsAt buf r.offset v ∧ v.length = n ∧ r'.offset = r.offset + n) ∧
    (∀ v, readPositiveMpint r = (.ok v, r') → PartOf buf r.offset r'.offset v) ∧
    (∀ v, readString r = (.ok v, r') → PartOf buf r.offset r'.offset v.toByteArray.data.toList) ∧
    (∀ v, readU32 r = (.ok v, r') → PartOf buf r.offset r'.offset (u32 v.toNat)) ∧
    (∀ v, readU64 r = (.ok v, r') → PartOf buf r.offset r'.offset (u64 v.toNat)) := by
  have hi : r.inner = buf := by rw [hr]; exact (C02_total buf ops).2
  have base : ∀ {w a v : Bytes}, At r w → w ≠ [] → w = a ++ v →
      PartOf buf r.offset (adv r w).offset v := by
    intro w a v hat hne he
    obtain ⟨pre, suf, hb, hp⟩ := (at_iff_startsAt hne).mp hat
    refine ⟨pre ++ a, suf, by rw [← hi, hb, he]; simp, by simp; omega, ?_⟩
    simp [adv, he, hp]; omega
  refine ⟨?_, ?_, ?_, ?_, ?_, ?_⟩
  · intro v h
    obtain ⟨w, hf, ha, rfl⟩ := (readBytes_parses _ _ _).mp h
    exact base ha (frame_ne_nil hf) hf.2
  · intro n v h
    rw [readRawBytes_eq] at h
    split at h
    · simp at h
    rename_i hc
    simp only [Prod.mk.injEq, Res.ok.injEq] at h
    obtain ⟨rfl, rfl⟩ := h
    refine ⟨startsAt_iff.mpr ⟨by rw [← hi]; omega, (r.inner.drop r.offset).drop n, ?_⟩, ?_, rfl⟩
    · rw [hi, List.take_append_drop]
    · simp; omega
  · intro v h
    obtain ⟨w, hm, ha, rfl⟩ := (readPositiveMpint_parses _ _ _).mp h
    obtain ⟨rfl, hs, hl⟩ := mpint_eq hm
    have : ∃ a, frameMpint v = a ++ v := by
      unfold frameMpint frame mpintPayload
      rw [stripZeros_of_shortest hs]
      cases v with
      | nil => exact ⟨_, (List.append_nil _).symm⟩
      | cons b bs =>
        simp only
        split
        · exact ⟨u32 (0 :: b :: bs).length ++ [0], by simp⟩
        · exact ⟨_, rfl⟩
    obtain ⟨a, ha'⟩ := this
    exact base ha (by simp [frameMpint, frame, u32]) ha'
  · intro v h
    obtain ⟨w, hf, ha, rfl⟩ := (readString_parses _ _ _).mp h
    exact base ha (text_ne_nil hf) hf.2
  · intro v h
    obtain ⟨w, rfl, ha, rfl⟩ := (readU32_parses _ _ _).mp h
    exact base (a := []) ha (by simp [u32]) rfl
  · intro v h
    obtain ⟨w, rfl, ha, rfl⟩ := (readU64_parses _ _ _).mp h
    exact base (a := []) ha (by simp [u64, u32]) rfl

/-- C02: whatever came before, after `set_offset` the cursor is there, and the bytes read are those there. -/
theorem C02_offset (buf : Bytes) (ops : List ReaderOp) (o : Nat) (r : Reader) (hr : r = (runOps (ops ++ [.setOffset o]) (Reader.new buf)).2) :
    getOffset r = (.ok o, r) ∧ ∀ n v r', readRawBytes n r = (.ok v, r') → StartsAt buf o v ∧ v.length = n ∧ r'.offset = o + n := by
  have key : ∀ r0 : Reader, (runOps (ops ++ [.setOffset o]) r0).2.offset = o := by
    clear hr
    induction ops with
    | nil => intro r0; rfl
    | cons op ops ih => intro r0; exact ih _
  have ho : r.offset = o := by rw [hr]; exact key _
  refine ⟨by unfold getOffset; rw [ho], fun n v r' h => ?_⟩
  rw [← ho]
  exact (C02_slices buf _ r r' hr).2.1 n v h

example : (runOps [.setOffset 7, .bytes, .setOffset 1, .raw 2] (Reader.new [1, 2, 3, 4])).2.offset = 3 := by
  decide

/-! ## C03 -/

/-- C03: a failed read leaves the cursor where it was. -/
theorem C03_cursor (r r' : Reader) (e : Err) :
    (readBytes r = (.err e, r') → r' = r) ∧
    (∀ n, readRawBytes n r = (.err e, r') → r' = r) ∧
    (readU32 r = (.err e, r') → r' = r) ∧
    (readU64 r = (.err e, r') → r' = r) ∧
    (readCstring r = (.err e, r') → r' = r) := by
  have key : ∀ {α : Type} {x : Res (α × Nat)}, commit r x = (.err e, r') → r' = r := by
    intro α x h
    cases x <;> simp [commit] at h
    exact h.2.symm
  exact ⟨fun h => key h, fun n h => key h, fun h => key h, fun h => key h, fun h => key h⟩

/-- C03: `read_string` and `read_positive_mpint` either leave the cursor, or have consumed a
well-framed value that is not UTF-8, respectively not a canonical non-negative integer. -/
theorem C03_semantic (r r' : Reader) (e : Err) :
    (readString r = (.err e, r') → r' = r ∨
      ∃ b w, Frame b w ∧ StartsAt r.inner r.offset w ∧ r' = ⟨r.inner, r.offset + w.length⟩ ∧
        (∀ s : String, s.toByteArray.data.toList ≠ b)) ∧
    (readPositiveMpint r = (.err e, r') → r' = r ∨
      ∃ b w, Frame b w ∧ StartsAt r.inner r.offset w ∧ r' = ⟨r.inner, r.offset + w.length⟩ ∧
        ¬ MpintPayload b) := by
  constructor
  · intro h
    unfold readString at h
    rw [Rd.bind_eq] at h
    rcases hb : readBytes r with ⟨b | e' | _, r1⟩
    · rw [hb] at h
      obtain ⟨w, hf, ha, rfl⟩ := (readBytes_parses _ _ _).mp hb
      cases hu : fromUtf8 b with
      | some s => simp [hu, Rd.pure_eq] at h
      | none =>
        simp only [hu, Rd.lift_eq, Prod.mk.injEq] at h
        refine .inr ⟨b, w, hf, (at_iff_startsAt (frame_ne_nil hf)).mp ha, h.2.symm, ?_⟩
        intro s hs
        rw [fromUtf8_eq_some.mpr hs] at hu
        cases hu
    · rw [hb] at h
      simp only [Prod.mk.injEq] at h
      exact .inl (h.2 ▸ readBytes_err hb)
    · exact absurd (by rw [hb]) (readBytes_noPanic r)
  · intro h
    rw [readPositiveMpint_eq, Rd.bind_eq] at h
    rcases hb : readBytes r with ⟨b | e' | _, r1⟩
    · rw [hb] at h
      obtain ⟨w, hf, ha, rfl⟩ := (readBytes_parses _ _ _).mp hb
      simp only [Rd.lift_eq, Prod.mk.injEq] at h
      refine .inr ⟨b, w, hf, (at_iff_startsAt (frame_ne_nil hf)).mp ha, h.2.symm, ?_⟩
      intro hp
      have := mpintValue_ok.mpr ⟨stripZeros_shortest b, hp, (natOf_stripZeros b).symm⟩
      rw [this] at h
      simp at h
    · rw [hb] at h
      simp only [Prod.mk.injEq] at h
      exact .inl (h.2 ▸ readBytes_err hb)
    · exact absurd (by rw [hb]) (readBytes_noPanic r)

example : readBytes ⟨[0, 0, 0, 2, 7], 0⟩ = (.err .invalidFormat, ⟨[0, 0, 0, 2, 7], 0⟩) := by decide
example : readPositiveMpint ⟨[0, 0, 0, 1, 0x80], 0⟩ = (.err .invalidFormat, ⟨[0, 0, 0, 1, 0x80], 5⟩) := by
  decide

/-! ## C04 -/

/-- C04: `read_u32`. -/
theorem C04_read_u32 (buf : Bytes) (pos : Nat) (v : UInt32) (r' : Reader) :
    readU32 ⟨buf, pos⟩ = (.ok v, r') ↔ StartsAt buf pos (u32 v.toNat) ∧ r' = ⟨buf, pos + 4⟩ := by
  rw [readU32_parses]
  constructor
  · rintro ⟨w, rfl, ha, rfl⟩
    exact ⟨(at_iff_startsAt (by simp [u32])).mp ha, rfl⟩
  · rintro ⟨ha, rfl⟩
    exact ⟨_, rfl, (at_iff_startsAt (r := ⟨buf, pos⟩) (by simp [u32])).mpr ha, rfl⟩

/-- C04: `read_u64`. -/
theorem C04_read_u64 (buf : Bytes) (pos : Nat) (v : UInt64) (r' : Reader) :
    readU64 ⟨buf, pos⟩ = (.ok v, r') ↔ StartsAt buf pos (u64 v.toNat) ∧ r' = ⟨buf, pos + 8⟩ := by
  rw [readU64_parses]
  constructor
  · rintro ⟨w, rfl, ha, rfl⟩
    exact ⟨(at_iff_startsAt (by simp [u64, u32])).mp ha, rfl⟩
  · rintro ⟨ha, rfl⟩
    exact ⟨_, rfl, (at_iff_startsAt (r := ⟨buf, pos⟩) (by simp [u64, u32])).mpr ha, rfl⟩

/-- C04: they fail exactly when fewer than 4 (8) bytes remain. -/
theorem C04_fails (buf : Bytes) (pos : Nat) :
    ((∃ e, (readU32 ⟨buf, pos⟩).1 = .err e) ↔ buf.length < pos + 4) ∧
    ((∃ e, (readU64 ⟨buf, pos⟩).1 = .err e) ↔ buf.length < pos + 8) := by
  rw [readU32_eq, readU64_eq]
  constructor
  · simp only [List.length_drop]
    split
    · simp; omega
    split
    · simp; omega
    · simp; omega
  · simp only [List.length_drop]
    split
    · simp; omega
    split
    · simp; omega
    · simp; omega

/-- C04: round trip of `write_u32` and `write_u64`. -/
theorem C04_roundtrip (pre suf : Bytes) (a : UInt32) (b : UInt64) :
    readU32 ⟨((Writer.mk pre).writeU32 a).inner ++ suf, pre.length⟩ =
      (.ok a, ⟨((Writer.mk pre).writeU32 a).inner ++ suf, pre.length + 4⟩) ∧
    readU64 ⟨((Writer.mk pre).writeU64 b).inner ++ suf, pre.length⟩ =
      (.ok b, ⟨((Writer.mk pre).writeU64 b).inner ++ suf, pre.length + 8⟩) := by
  constructor
  · rw [C04_read_u32]
    exact ⟨⟨pre, suf, by simp, rfl⟩, rfl⟩
  · rw [C04_read_u64]
    exact ⟨⟨pre, suf, by simp, rfl⟩, rfl⟩

example : readU32 ⟨[1, 0, 0, 1, 2, 9], 1⟩ = (.ok 258, ⟨[1, 0, 0, 1, 2, 9], 5⟩) := by decide
example : readU64 ⟨[0, 0, 0, 0, 0, 0, 1, 0], 0⟩ = (.ok 256, ⟨[0, 0, 0, 0, 0, 0, 1, 0], 8⟩) := by decide

/-! ## C05 and C06 -/

/-- C05: reading what `write_mpint(v)` appended yields `v` without its leading zero bytes. -/
theorem C05_mpint_roundtrip (pre suf v : Bytes) (h : v.length < 4294967295) :
    ∃ v' k, v = List.replicate k 0 ++ v' ∧ Shortest v' ∧
      readPositiveMpint ⟨((Writer.mk pre).writeMpint v).inner ++ suf, pre.length⟩ =
        (.ok v', ⟨((Writer.mk pre).writeMpint v).inner ++ suf,
          ((Writer.mk pre).writeMpint v).inner.length⟩) := by
  refine ⟨stripZeros v, (v.takeWhile (· = 0)).length, ?_, stripZeros_shortest v, ?_⟩
  · have h1 : v.takeWhile (· = 0) = List.replicate (v.takeWhile (· = 0)).length 0 := by
      rw [List.eq_replicate_iff]
      refine ⟨rfl, ?_⟩
      intro b hb
      have := List.all_eq_true.mp (List.all_takeWhile (l := v) (p := fun x => decide (x = 0))) b hb
      simpa using this
    rw [← h1]
    exact List.takeWhile_append_dropWhile.symm
  · have hl := mpintPayload_length_le v
    have hl2 := stripZeros_length_le v
    refine (readPositiveMpint_parses _ _ _).mpr ⟨frameMpint v, mpint_of (by omega), ⟨suf, by simp⟩, ?_⟩
    simp [adv]

/-- C05: the number is preserved. -/
theorem C05_mpint_value (pre suf v v' : Bytes) (r' : Reader) (h : v.length < 4294967295)
    (hr : readPositiveMpint ⟨((Writer.mk pre).writeMpint v).inner ++ suf, pre.length⟩ = (.ok v', r')) :
    natOf v' = natOf v := by
  obtain ⟨v'', k, hv, _, h2⟩ := C05_mpint_roundtrip pre suf v h
  rw [hr] at h2
  simp only [Prod.mk.injEq, Res.ok.injEq] at h2
  rw [h2.1, hv]
  clear hv h2
  induction k with
  | zero => rfl
  | succ k ih => rw [List.replicate_succ, List.cons_append, natOf, ← ih]; simp

example : (readPositiveMpint ⟨((Writer.mk [9]).writeMpint [0, 0, 0x80, 1]).inner ++ [7], 1⟩).1 =
    .ok [0x80, 1] := by decide

/-- C06: exactly the RFC 4251 encodings of non-negative integers are accepted. -/
theorem C06_mpint_canonical (buf : Bytes) (pos : Nat) (v : Bytes) (r' : Reader) :
    readPositiveMpint ⟨buf, pos⟩ = (.ok v, r') ↔
      ∃ w, Mpint v w ∧ StartsAt buf pos w ∧ r' = ⟨buf, pos + w.length⟩ := by
  rw [readPositiveMpint_parses]
  have hne : ∀ {w}, Mpint v w → w ≠ [] := by
    intro w h
    rw [(mpint_eq h).1]; simp [frameMpint, frame, u32]
  constructor
  · rintro ⟨w, hf, ha, rfl⟩
    exact ⟨w, hf, (at_iff_startsAt (hne hf)).mp ha, rfl⟩
  · rintro ⟨w, hf, ha, rfl⟩
    exact ⟨w, hf, (at_iff_startsAt (r := ⟨buf, pos⟩) (hne hf)).mpr ha, rfl⟩

/-- C06: what is accepted is what `write_mpint` writes for the returned value. -/
theorem C06_mpint_reencode (buf : Bytes) (pos : Nat) (v : Bytes) (r' : Reader)
    (h : readPositiveMpint ⟨buf, pos⟩ = (.ok v, r')) :
    StartsAt buf pos (Writer.new.writeMpint v).inner ∧
      r'.offset = pos + (Writer.new.writeMpint v).inner.length := by
  obtain ⟨w, hm, ha, rfl⟩ := (C06_mpint_canonical buf pos v r').mp h
  obtain ⟨rfl, _, _⟩ := mpint_eq hm
  simpa using ha

/-- C06: negative numbers, superfluous zeros and a lone zero byte are rejected. -/
theorem C06_mpint_rejects (pre suf p : Bytes) (hl : p.length < 4294967296)
    (h : (∃ b bs, p = b :: bs ∧ 0x80 ≤ b) ∨ (∃ b bs, p = 0 :: b :: bs ∧ b < 0x80) ∨ p = [0]) :
    (readPositiveMpint ⟨pre ++ u32 p.length ++ p ++ suf, pre.length⟩).1 = .err .invalidFormat := by
  rw [readPositiveMpint_eq]
  have hb : readBytes ⟨pre ++ u32 p.length ++ p ++ suf, pre.length⟩ = (.ok p, _) :=
    (readBytes_parses _ _ _).mpr ⟨_, Frame.of hl, ⟨suf, by simp [frame]⟩, rfl⟩
  rw [Rd.bind_of_ok hb]
  rcases h with ⟨b, bs, rfl, h⟩ | ⟨b, bs, rfl, h⟩ | rfl
  · have h0 : b ≠ 0 := by rintro rfl; simp at h
    have h7 : ¬ b ≤ 0x7f := by
      rw [UInt8.le_iff_toNat_le] at *; simp at *; omega
    cases bs <;> simp [mpintValue, h0, h7]
  · simp [mpintValue, h]
  · simp [mpintValue]

example : readPositiveMpint ⟨[0, 0, 0, 2, 0, 0x90], 0⟩ = (.ok [0x90], ⟨[0, 0, 0, 2, 0, 0x90], 6⟩) := by
  decide

/-! ## C07 -/

/-- C07: `read_string` succeeds exactly on framed UTF-8. -/
theorem C07_read_string (buf : Bytes) (pos : Nat) (s : String) (r' : Reader) :
    readString ⟨buf, pos⟩ = (.ok s, r') ↔
      ∃ w, Text s w ∧ StartsAt buf pos w ∧ r' = ⟨buf, pos + w.length⟩ := by
  rw [readString_parses]
  constructor
  · rintro ⟨w, hf, ha, rfl⟩
    exact ⟨w, hf, (at_iff_startsAt (text_ne_nil hf)).mp ha, rfl⟩
  · rintro ⟨w, hf, ha, rfl⟩
    exact ⟨w, hf, (at_iff_startsAt (r := ⟨buf, pos⟩) (text_ne_nil hf)).mpr ha, rfl⟩

/-- C07: a well-framed payload that is not UTF-8 is reported as such. -/
theorem C07_invalid_utf8 (buf : Bytes) (pos : Nat) (b w : Bytes) (hf : Frame b w)
    (ha : StartsAt buf pos w) (hb : ¬ (ByteArray.mk b.toArray).IsValidUTF8) :
    (readString ⟨buf, pos⟩).1 = .err .utf8Error := by
  unfold readString
  have h1 : readBytes ⟨buf, pos⟩ = (.ok b, _) := (readBytes_parses ⟨buf, pos⟩ _ _).mpr
    ⟨w, hf, (at_iff_startsAt (r := ⟨buf, pos⟩) (frame_ne_nil hf)).mpr ha, rfl⟩
  rw [Rd.bind_of_ok h1]
  simp [fromUtf8, hb]

/-- C07: round trip of `write_string`. -/
theorem C07_roundtrip (pre suf : Bytes) (s : String) (h : s.utf8ByteSize < 4294967296) :
    readString ⟨((Writer.mk pre).writeString s).inner ++ suf, pre.length⟩ =
      (.ok s, ⟨((Writer.mk pre).writeString s).inner ++ suf,
        ((Writer.mk pre).writeString s).inner.length⟩) := by
  rw [C07_read_string]
  refine ⟨frameStr s, Text.of (by simpa [strBytes] using h), ⟨pre, suf, by simp, rfl⟩, ?_⟩
  simp

example : "grüße".utf8ByteSize < 4294967296 := by decide

/-! ## C08 -/

/-- C08: `read_cstring` returns the bytes before the first NUL. -/
theorem C08_read_cstring (buf : Bytes) (pos : Nat) (s : String) (r' : Reader) :
    readCstring ⟨buf, pos⟩ = (.ok s, r') ↔
      ∃ b : Bytes, (∀ x ∈ b, x ≠ 0) ∧ StartsAt buf pos (b ++ [0]) ∧
        s.toList = b.map (fun x => Char.ofNat x.toNat) ∧ r' = ⟨buf, pos + b.length + 1⟩ := by
  rw [readCstring_parses]
  constructor
  · rintro ⟨w, ⟨b, hb, rfl, rfl⟩, ha, rfl⟩
    exact ⟨b, hb, (at_iff_startsAt (by simp)).mp ha, by simp, by simp [adv, Nat.add_assoc]⟩
  · rintro ⟨b, hb, ha, hs, rfl⟩
    refine ⟨_, ⟨b, hb, rfl, by rw [← hs]; simp⟩,
      (at_iff_startsAt (r := ⟨buf, pos⟩) (by simp)).mpr ha, by simp [adv, Nat.add_assoc]⟩

/-- C08: it fails, with `UnexpectedEof`, exactly when no NUL follows. -/
theorem C08_fails (buf : Bytes) (pos : Nat) :
    (readCstring ⟨buf, pos⟩).1 = .err .unexpectedEof ↔ (0 : UInt8) ∉ buf.drop pos := by
  constructor
  · intro h hm
    obtain ⟨b, rest, he, hb⟩ := List.eq_append_cons_of_mem hm
    have := (cstringLoop_ok (inner := buf) (o := pos) (s := [])).mpr
      ⟨b, fun x hx h0 => hb (h0 ▸ hx), ⟨rest, he⟩, rfl, rfl⟩
    simp [readCstring, this, commit] at h
  · intro h
    rcases cstringLoop_cases buf pos [] with ⟨⟨v, o⟩, hx⟩ | hx
    · obtain ⟨w, _, ⟨rest, hr⟩, _⟩ := cstringLoop_ok.mp hx
      exact absurd (by rw [hr]; simp) h
    · simp [readCstring, hx, commit]

/-- C08: round trip of `write_cstring` for ASCII strings without NUL. -/
theorem C08_roundtrip (pre suf : Bytes) (s : String)
    (h : ∀ c ∈ s.toList, 0 < c.toNat ∧ c.toNat < 128) :
    readCstring ⟨((Writer.mk pre).writeCstring s).inner ++ suf, pre.length⟩ =
      (.ok s, ⟨((Writer.mk pre).writeCstring s).inner ++ suf,
        ((Writer.mk pre).writeCstring s).inner.length⟩) := by
  rw [C08_read_cstring]
  have hb := strBytes_ascii fun c hc => (h c hc).2
  refine ⟨strBytes s, ?_, ⟨pre, suf, by simp [Writer.writeCstring], rfl⟩, ?_, ?_⟩
  · intro x hx
    rw [hb] at hx
    obtain ⟨c, hc, rfl⟩ := List.mem_map.mp hx
    have := h c hc
    intro h0
    have h1 := congrArg UInt8.toNat h0
    rw [u8_ofNat_toNat] at h1
    simp at h1; omega
  · rw [hb, List.map_map]
    conv => lhs; rw [← List.map_id s.toList]
    apply List.map_congr_left
    intro c hc
    have := h c hc
    simp only [id, Function.comp, u8_ofNat_toNat]
    rw [Nat.mod_eq_of_lt (by omega), Char.ofNat_toNat]
  · simp [Writer.writeCstring, Nat.add_assoc]

example : ∀ c ∈ "openssh-key-v1".toList, 0 < c.toNat ∧ c.toNat < 128 := by decide

/-! ## C09 -/

/-- C09: the principals field written for a list is a frame whose contents parse to that list. -/
theorem C09_principals_roundtrip (pre suf : Bytes) (ps : List String)
    (h : (ps.map fun p => 4 + p.utf8ByteSize).sum < 4294967296) :
    ∃ body, readBytes ⟨((Writer.mk pre).writeStringVec ps).inner ++ suf, pre.length⟩ =
        (.ok body, ⟨((Writer.mk pre).writeStringVec ps).inner ++ suf,
          ((Writer.mk pre).writeStringVec ps).inner.length⟩) ∧
      readPrincipals body = .ok ps := by
  have hl : (ps.flatMap frameStr).length = (ps.map fun p => 4 + p.utf8ByteSize).sum := by
    rw [List.length_flatMap]
    congr 1
    apply List.map_congr_left
    intro p _
    simp [strBytes]
  refine ⟨ps.flatMap frameStr, ?_, ?_⟩
  · rw [C01_read_bytes]
    refine ⟨frame (ps.flatMap frameStr), Frame.of (by omega), ⟨pre, suf, by simp, rfl⟩, ?_⟩
    simp [Nat.add_assoc]
  · rw [readPrincipals_ok]
    apply texts_of
    intro s hs
    have : (frameStr s).length ≤ (ps.flatMap frameStr).length := by
      rw [List.length_flatMap]
      exact le_sum_of_mem (List.mem_map_of_mem hs)
    simp at this
    simp at hl
    omega

/-- C09: reading a principals field accepts exactly concatenations of framed UTF-8 strings, and
returns those strings in order. -/
theorem C09_principals_grammar (buf : Bytes) (ps : List String) :
    readPrincipals buf = .ok ps ↔ Texts ps buf := readPrincipals_ok

/-- C09: reading a principals field never panics (nor loops). -/
theorem C09_principals_total (buf : Bytes) : readPrincipals buf ≠ .panic := readPrincipals_fuel buf

example : (["root", "obelisk", "root", ""].map fun p => 4 + p.utf8ByteSize).sum < 4294967296 := by decide

/-! ## C10 and C11 -/

/-- C11: an option field is accepted exactly when it is a sequence of (name, data) pairs; the map
binds each name to the value of its last occurrence (and to nothing else), each name once. -/
theorem C11_options_grammar (buf : Bytes) :
    (∀ m, readOptions buf = .ok m → ∃ l, OptionPairs l buf ∧ (∀ k, mapGet m k = lastValue l k) ∧
      (m.map (·.1)).Nodup) ∧
    (∀ l, OptionPairs l buf → ∃ m, readOptions buf = .ok m ∧ ∀ k, mapGet m k = lastValue l k) ∧
    ((∀ l, ¬ OptionPairs l buf) → ∃ e, readOptions buf = .err e) := by
  refine ⟨?_, ?_, ?_⟩
  · intro m h
    obtain ⟨l, rfl, hl⟩ := readOptions_ok.mp h
    exact ⟨l, hl, mapGet_insertAll_nil l, nodupKeys_insertAll (by simp [NodupKeys]) l⟩
  · intro l hl
    exact ⟨_, readOptions_ok.mpr ⟨l, rfl, hl⟩, mapGet_insertAll_nil l⟩
  · intro h
    rcases hr : readOptions buf with m | e | _
    · obtain ⟨l, _, hl⟩ := readOptions_ok.mp hr
      exact absurd hl (h l)
    · exact ⟨e, rfl⟩
    · exact absurd hr (readOptions_fuel buf)

/-- C11: the pairs are determined by the field. -/
theorem C11_options_unambiguous (buf : Bytes) (l l' : List (String × String))
    (h : OptionPairs l buf) (h' : OptionPairs l' buf) : l = l' := by
  induction h generalizing l' with
  | nil => exact (optionPairs_nil_iff.mp h').symm
  | @cons n v l w1 w2 w3 hn hv t ih =>
    have hne : w1 ++ w2 ++ w3 ≠ [] := by
      have := text_ne_nil hn
      simp [this]
    obtain ⟨n', v', ss, x1, x2, rest, rfl, he, hn', hv', ht'⟩ := (optionPairs_cons_iff hne).mp h'
    rw [List.append_assoc] at he
    obtain ⟨rfl, rfl, he'⟩ := readString_parses.unique hn hn' he
    obtain ⟨rfl, rfl, rfl⟩ := readOptionValue_parses.unique hv hv' he'
    rw [ih ss ht']

example : ∃ l, OptionPairs l ([0, 0, 0, 1, 97] ++ [0, 0, 0, 5, 0, 0, 0, 1, 98] ++ []) :=
  ⟨[("a", "b")], .cons ⟨by decide, by decide⟩
    ⟨[0, 0, 0, 1, 98], ⟨by decide, by decide⟩, .inr ⟨[0, 0, 0, 1, 98], [], rfl, ⟨by decide, by decide⟩⟩⟩ .nil⟩

/-- Size of the encoding of one option: two length prefixes and the contents, and one more prefix
inside a non-empty value. -/
def optionSize (kv : String × String) : Nat :=
  8 + kv.1.utf8ByteSize + (if kv.2 = "" then 0 else 4 + kv.2.utf8ByteSize)

theorem optionBytes_length (kv : String × String) : (optionBytes kv).length = optionSize kv := by
  unfold optionBytes optionSize optionDataBytes
  by_cases h : kv.2 = ""
  · simp [h, strBytes]; omega
  · have : ¬ (strBytes kv.2).isEmpty := by
      rw [List.isEmpty_iff]; exact fun e => h (strBytes_eq_nil.mp e)
    rw [if_neg this, if_neg h]; simp [strBytes_length]; omega

/-- C10: `m` is the map, `order` lists its entries in the order in which it is iterated while
serialising.  Parsing what was written gives back a map with the same bindings, and the declared
size is the size of the contents. -/
theorem C10_options_roundtrip (pre suf : Bytes) (m order : StrMap) (hm : (m.map (·.1)).Nodup)
    (ho : order.Perm m) (h : (order.map optionSize).sum < 4294967296) :
    ∃ body m', readBytes ⟨((Writer.mk pre).writeStringMap order).inner ++ suf, pre.length⟩ =
        (.ok body, ⟨((Writer.mk pre).writeStringMap order).inner ++ suf,
          ((Writer.mk pre).writeStringMap order).inner.length⟩) ∧
      readOptions body = .ok m' ∧ m'.Perm m ∧ ∀ k, mapGet m' k = mapGet m k := by
  have hl : (order.flatMap optionBytes).length = (order.map optionSize).sum := by
    rw [List.length_flatMap]
    congr 1
    apply List.map_congr_left
    intro p _
    exact optionBytes_length p
  have hno : NodupKeys order := (List.Perm.nodup_iff (ho.map Prod.fst)).mpr hm
  refine ⟨order.flatMap optionBytes, order, ?_, ?_, ho, ?_⟩
  · rw [C01_read_bytes]
    refine ⟨frame (order.flatMap optionBytes), Frame.of (by omega), ⟨pre, suf, by simp, rfl⟩, ?_⟩
    simp [Nat.add_assoc]
  · rw [readOptions_ok]
    refine ⟨order, (insertAll_nil_of_nodup hno).symm, ?_⟩
    apply optionPairs_of
    intro kv hkv
    have h1 : optionSize kv ≤ (order.map optionSize).sum := le_sum_of_mem (List.mem_map_of_mem hkv)
    have h2 := optionBytes_length kv
    unfold optionBytes optionDataBytes at h2
    by_cases hv : (strBytes kv.2).isEmpty
    · have : (strBytes kv.2).length = 0 := by simpa [List.isEmpty_iff] using hv
      simp [hv] at h2
      omega
    · simp [hv] at h2
      omega
  · intro k
    have key : ∀ {l : StrMap}, NodupKeys l → ∀ v, mapGet l k = some v ↔ (k, v) ∈ l := by
      intro l hl v
      induction l with
      | nil => simp [mapGet]
      | cons kv l ih =>
        obtain ⟨a, b⟩ := kv
        unfold NodupKeys at hl
        simp only [List.map_cons, List.nodup_cons] at hl
        simp only [mapGet]
        by_cases hk : a = k
        · subst hk
          simp only [if_true, Option.some.injEq, List.mem_cons, Prod.mk.injEq, true_and]
          constructor
          · intro e; exact .inl e.symm
          · rintro (e | e)
            · exact e.symm
            · exact absurd (List.mem_map.mpr ⟨(a, v), e, rfl⟩) hl.1
        · have hk' : ¬ k = a := fun e => hk e.symm
          simp only [hk, if_false, List.mem_cons, Prod.mk.injEq, hk', false_and, false_or]
          exact ih hl.2
    apply Option.ext
    intro v
    rw [key hno, key hm]
    exact ho.mem_iff

example : let m : StrMap := [("permit-pty", ""), ("force-command", "/bin/true")]
    (m.map (·.1)).Nodup ∧ m.reverse.Perm m ∧ (m.reverse.map optionSize).sum < 4294967296 := by
  refine ⟨by decide, List.reverse_perm _, by decide⟩

/-! ## C12 -/

/-- C12: from `2^32` bytes on, the length prefix is too small and a strict prefix is read back. -/
theorem C12_truncation (pre suf b : Bytes) (h : 4294967296 ≤ b.length) :
    ∃ b' rest, b = b' ++ rest ∧ rest ≠ [] ∧ b'.length = b.length % 4294967296 ∧
      (readBytes ⟨((Writer.mk pre).writeBytes b).inner ++ suf, pre.length⟩).1 = .ok b' := by
  refine ⟨b.take (b.length % 4294967296), b.drop (b.length % 4294967296),
    (List.take_append_drop _ _).symm, ?_, ?_, ?_⟩
  · intro h0
    have := congrArg List.length h0
    simp at this
    omega
  · simp; omega
  · have hlen : (b.take (b.length % 4294967296)).length = b.length % 4294967296 := by simp; omega
    have : readBytes ⟨((Writer.mk pre).writeBytes b).inner ++ suf, pre.length⟩ =
        (.ok (b.take (b.length % 4294967296)), _) := (readBytes_parses _ _ _).mpr
      ⟨frame (b.take (b.length % 4294967296)), Frame.of (by omega),
        ⟨b.drop (b.length % 4294967296) ++ suf, ?_⟩, rfl⟩
    · rw [this]
    · simp only [Writer.writeBytes_inner, List.append_assoc, List.drop_left, frame, hlen, u32_mod]
      rw [← List.append_assoc (b.take _), List.take_append_drop]

example : 4294967296 ≤ (List.replicate 4294967300 (7 : UInt8)).length := by
  rw [List.length_replicate]; omega

end Ssh
