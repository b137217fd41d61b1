import Verif.Props.Wire

/-! # C84: what is written field by field is read field by field -/

namespace Ssh

open Spec Reader

/-- One field handed to the writer. -/
inductive Field where
  | bytes (b : Bytes)
  | raw (b : Bytes)
  | string (s : String)
  | u32 (v : UInt32)
  | u64 (v : UInt64)
  | mpint (v : Bytes)
  | cstring (s : String)
deriving DecidableEq

namespace Field

/-- The call of `Writer` for the field. -/
def write (w : Writer) : Field → Writer
  | .bytes b => w.writeBytes b
  | .raw b => w.writeRawBytes b
  | .string s => w.writeString s
  | .u32 v => w.writeU32 v
  | .u64 v => w.writeU64 v
  | .mpint v => w.writeMpint v
  | .cstring s => w.writeCstring s

/-- The kind of a field: all the reader is told.  Unframed bytes are read with their number. -/
inductive Shape where
  | bytes | raw (n : Nat) | string | u32 | u64 | mpint | cstring
deriving DecidableEq

def shape : Field → Shape
  | .bytes _ => .bytes
  | .raw b => .raw b.length
  | .string _ => .string
  | .u32 _ => .u32
  | .u64 _ => .u64
  | .mpint _ => .mpint
  | .cstring _ => .cstring

/-- The call of `Reader` for a kind of field. -/
def read : Shape → Rd Field
  | .bytes => do return .bytes (← readBytes)
  | .raw n => do return .raw (← readRawBytes n)
  | .string => do return .string (← readString)
  | .u32 => do return .u32 (← readU32)
  | .u64 => do return .u64 (← readU64)
  | .mpint => do return .mpint (← readPositiveMpint)
  | .cstring => do return .cstring (← readCstring)

/-- Values the format can carry: lengths below 2^32, unframed bytes not empty (the reader refuses every read at the
end, even of nothing), numbers without leading zeros, C strings of ASCII
characters other than NUL. -/
def Fits : Field → Prop
  | .bytes b => b.length < 4294967296
  | .raw b => b ≠ []
  | .string s => s.utf8ByteSize < 4294967296
  | .u32 _ => True
  | .u64 _ => True
  | .mpint v => Shortest v ∧ v.length < 4294967295
  | .cstring s => ∀ c ∈ s.toList, 0 < c.toNat ∧ c.toNat < 128

end Field

/-- A sequence of writes. -/
def writeFields (w : Writer) (fs : List Field) : Writer := fs.foldl Field.write w

/-- A sequence of reads. -/
def readFields : List Field.Shape → Rd (List Field)
  | [] => pure []
  | s :: ss => do
    let f ← Field.read s
    let fs ← readFields ss
    return f :: fs

theorem Field.write_append (w : Writer) (f : Field) : ∃ b, (f.write w).inner = w.inner ++ b := by
  cases f <;> simp only [Field.write]
  · exact ⟨_, Writer.writeBytes_inner _ _⟩
  · exact ⟨_, rfl⟩
  · exact ⟨_, Writer.writeString_inner _ _⟩
  · exact ⟨_, Writer.writeU32_inner _ _⟩
  · exact ⟨_, Writer.writeU64_inner _ _⟩
  · exact ⟨_, Writer.writeMpint_inner _ _⟩
  · exact ⟨_, List.append_assoc _ _ _⟩

theorem writeFields_append (w : Writer) (fs : List Field) : ∃ b, (writeFields w fs).inner = w.inner ++ b := by
  induction fs generalizing w with
  | nil => exact ⟨[], by simp [writeFields]⟩
  | cons f fs ih =>
    obtain ⟨b, hb⟩ := f.write_append w
    obtain ⟨c, hc⟩ := ih (f.write w)
    exact ⟨b ++ c, by rw [show writeFields w (f :: fs) = writeFields (f.write w) fs from rfl, hc, hb, List.append_assoc]⟩

theorem Field.roundtrip (pre suf : Bytes) (f : Field) (h : f.Fits) :
    Field.read f.shape ⟨(f.write ⟨pre⟩).inner ++ suf, pre.length⟩ =
      (.ok f, ⟨(f.write ⟨pre⟩).inner ++ suf, (f.write ⟨pre⟩).inner.length⟩) := by
  cases f with
  | bytes b => exact Rd.bind_of_ok (C01_roundtrip pre suf b h)
  | raw b =>
    have hb : 0 < b.length := List.length_pos_iff.mpr h
    have h1 : readRawBytes b.length ⟨pre ++ b ++ suf, pre.length⟩ = (.ok b, ⟨pre ++ b ++ suf, (pre ++ b).length⟩) := by
      refine (readRawBytes_parses hb _ _ _).mpr ⟨b, ⟨rfl, rfl⟩, ⟨suf, by simp⟩, by simp [adv]⟩
    exact (Rd.bind_of_ok h1).trans rfl
  | string s => exact Rd.bind_of_ok (C07_roundtrip pre suf s h)
  | u32 v =>
    refine (Rd.bind_of_ok (C04_roundtrip pre suf v 0).1).trans ?_
    simp [Field.write]; rfl
  | u64 v =>
    refine (Rd.bind_of_ok (C04_roundtrip pre suf 0 v).2).trans ?_
    simp [Field.write]; rfl
  | mpint v =>
    obtain ⟨v', n, hv, hs, h1⟩ := C05_mpint_roundtrip pre suf v h.2
    have e : v' = v := by
      cases n with
      | zero => exact hv.symm
      | succ n => rw [hv, List.replicate_succ] at h; exact absurd (by simp) h.1
    rw [e] at h1
    exact Rd.bind_of_ok h1
  | cstring s => exact Rd.bind_of_ok (C08_roundtrip pre suf s h)

/-- C84: reading the kinds of fields that were written gives them back, in order, and leaves the cursor behind
the last one; whatever was in front or follows. -/
theorem C84_roundtrip (pre suf : Bytes) (fs : List Field) (h : ∀ f ∈ fs, f.Fits) :
    readFields (fs.map Field.shape) ⟨(writeFields ⟨pre⟩ fs).inner ++ suf, pre.length⟩ =
      (.ok fs, ⟨(writeFields ⟨pre⟩ fs).inner ++ suf, (writeFields ⟨pre⟩ fs).inner.length⟩) := by
  induction fs generalizing pre with
  | nil => rfl
  | cons f fs ih =>
    obtain ⟨b, hb⟩ := writeFields_append (f.write ⟨pre⟩) fs
    have h1 := f.roundtrip pre (b ++ suf) (h f (by simp))
    have h2 := ih (f.write ⟨pre⟩).inner (fun g hg => h g (by simp [hg]))
    have e : (writeFields ⟨pre⟩ (f :: fs)).inner = (f.write ⟨pre⟩).inner ++ b := hb
    rw [show (⟨(f.write ⟨pre⟩).inner⟩ : Writer) = f.write ⟨pre⟩ from rfl, hb] at h2
    rw [e]
    rw [← List.append_assoc] at h1
    exact (Rd.bind_of_ok h1).trans ((Rd.bind_of_ok h2).trans rfl)

/-- C84: hence the bytes determine the fields: two sequences of the same kinds of fields with the same bytes are
the same, even if different bytes follow. -/
theorem C84_unambiguous (pre suf suf' : Bytes) (fs gs : List Field) (h : ∀ f ∈ fs, f.Fits) (h' : ∀ f ∈ gs, f.Fits)
    (hs : fs.map Field.shape = gs.map Field.shape)
    (e : (writeFields ⟨pre⟩ fs).inner ++ suf = (writeFields ⟨pre⟩ gs).inner ++ suf') : fs = gs ∧ suf = suf' := by
  have h1 := C84_roundtrip pre suf fs h
  have h2 := C84_roundtrip pre suf' gs h'
  rw [e, hs, h2] at h1
  simp only [Prod.mk.injEq, Res.ok.injEq] at h1
  obtain ⟨rfl, _⟩ := h1
  exact ⟨rfl, List.append_cancel_left e⟩

example : ∃ fs : List Field, fs.length = 7 ∧ (∀ f ∈ fs, f.Fits) ∧
    readFields (fs.map Field.shape) ⟨(writeFields ⟨[1, 2]⟩ fs).inner ++ [9], 2⟩ =
      (.ok fs, ⟨(writeFields ⟨[1, 2]⟩ fs).inner ++ [9], (writeFields ⟨[1, 2]⟩ fs).inner.length⟩) := by
  have h : ∀ f ∈ [Field.string "grüße", .u32 7, .bytes [], .raw [1, 2], .cstring "abc", .mpint [200, 1], .u64 5], f.Fits := by
    simp only [List.forall_mem_cons, Field.Fits, Shortest]
    exact ⟨by decide +kernel, trivial, by decide, by decide, by decide +kernel, by decide, trivial, by simp⟩
  exact ⟨_, rfl, h, C84_roundtrip [1, 2] [9] _ h⟩

end Ssh
