import Verif.Model.Machine
import Verif.Lemmas.Reader
import Verif.Props.Fido

/-! # C140: the integers of the machine -/

namespace Ssh

namespace Machine

theorem fit_ok {M : Machine} {n x : Nat} (h : x < 2 ^ n) : M.fit n x = .ok x := if_pos h

theorem readBytes_eq {M : Machine} (hM : 32 ≤ M.bits) {r : Reader} (hr : r.inner.length < 2 ^ M.bits) :
    M.readBytes r = Reader.readBytes r := by
  unfold readBytes Reader.readBytes
  congr 1
  split
  · rfl
  rw [sliceFrom_ok (by omega)]
  simp only [Res.ok_bind]
  split
  · rfl
  rename_i h1 h2
  simp only [List.length_drop] at h2
  rw [slice_ok (by omega) (by simp; omega), subNat_ok (by simp; omega)]
  simp only [Res.ok_bind, List.length_drop]
  have h3 : beNat (((r.inner.drop r.offset).drop 0).take (4 - 0)) < 2 ^ M.bits := by
    refine Nat.lt_of_lt_of_le ?_ (Nat.pow_le_pow_right (n := 2) (by omega) hM)
    rw [beNat_eq_natOf]
    refine Nat.lt_of_lt_of_le (natOf_lt _) ?_
    have h4 : (((r.inner.drop r.offset).drop 0).take (4 - 0)).length ≤ 4 := by rw [List.length_take]; omega
    exact Nat.pow_le_pow_right (n := 256) (by omega) h4
  rw [Nat.mod_eq_of_lt h3]
  generalize beNat (((r.inner.drop r.offset).drop 0).take (4 - 0)) = size
  split
  · rfl
  rw [show M.add size 4 = .ok (size + 4) from fit_ok (by omega)]
  simp only [Res.ok_bind]
  rw [show M.add r.offset (size + 4) = .ok (r.offset + (size + 4)) from fit_ok (by omega)]
  rfl

theorem readRawBytes_eq {M : Machine} (len : Nat) {r : Reader} (hr : r.inner.length < 2 ^ M.bits) :
    M.readRawBytes len r = Reader.readRawBytes len r := by
  unfold readRawBytes Reader.readRawBytes
  congr 1
  split
  · rfl
  rw [subNat_ok (by omega)]
  simp only [Res.ok_bind]
  split
  · rfl
  rw [sliceFrom_ok (by omega)]
  simp only [Res.ok_bind]
  rw [show M.add r.offset len = .ok (r.offset + len) from fit_ok (by omega)]
  rfl

theorem readU32_eq {M : Machine} {r : Reader} (hr : r.inner.length < 2 ^ M.bits) :
    M.readU32 r = Reader.readU32 r := by
  unfold readU32 Reader.readU32
  congr 1
  split
  · rfl
  rw [sliceFrom_ok (by omega)]
  simp only [Res.ok_bind, List.length_drop]
  split
  · rfl
  rw [show M.add r.offset 4 = .ok (r.offset + 4) from fit_ok (by omega)]
  rfl

theorem readU64_eq {M : Machine} {r : Reader} (hr : r.inner.length < 2 ^ M.bits) :
    M.readU64 r = Reader.readU64 r := by
  unfold readU64 Reader.readU64
  congr 1
  split
  · rfl
  rw [sliceFrom_ok (by omega)]
  simp only [Res.ok_bind, List.length_drop]
  split
  · rfl
  rw [show M.add r.offset 8 = .ok (r.offset + 8) from fit_ok (by omega)]
  rfl

theorem cstringLoop_eq {M : Machine} {inner : Bytes} (hr : inner.length < 2 ^ M.bits) (n offset : Nat) (s : List Char)
    (hn : inner.length < offset + n) (h0 : 0 < n) :
    M.cstringLoop inner n offset s = some (Reader.cstringLoop inner offset s) := by
  induction n generalizing offset s with
  | zero => omega
  | succ n ih =>
    unfold cstringLoop Reader.cstringLoop
    split
    · rw [show M.add offset 1 = .ok (offset + 1) from fit_ok (by omega)]
      simp only [Res.ok_bind]
      split
      · rfl
      · exact ih _ _ (by omega) (by omega)
    · rfl

theorem leadingZeros_eq {M : Machine} (val : Bytes) (n : Nat) (h : n + val.length < 2 ^ M.bits) :
    M.leadingZeros val n = .ok (n + Writer.leadingZeros val) := by
  induction val generalizing n with
  | nil => rfl
  | cons b l ih =>
    unfold leadingZeros Writer.leadingZeros
    rw [List.length_cons] at h
    split
    · rw [show M.add n 1 = .ok (n + 1) from fit_ok (by omega), Res.ok_bind, ih _ (by omega)]
      congr 1
      omega
    · rfl

theorem leadingZeros_le (val : Bytes) : Writer.leadingZeros val ≤ val.length := by
  induction val with
  | nil => exact Nat.le_refl 0
  | cons b l ih =>
    unfold Writer.leadingZeros
    rw [List.length_cons]
    split <;> omega

theorem writeMpint_eq {M : Machine} (w : Writer) (val : Bytes) (h : val.length < 2 ^ M.bits) :
    M.writeMpint w val = .ok (w.writeMpint val) := by
  unfold writeMpint
  rw [leadingZeros_eq _ _ (by omega)]
  simp only [Res.ok_bind]
  rw [Nat.zero_add, sliceFrom_ok (leadingZeros_le val)]
  rfl

theorem foldl_add (l : List Nat) (x : Nat) : l.foldl (· + ·) x = x + l.sum := by
  induction l generalizing x with
  | nil => rfl
  | cons y l ih => simp only [List.foldl_cons, List.sum_cons, ih]; omega

theorem sum_eq {M : Machine} (l : List Nat) (x : Nat) (h : x + l.sum < 2 ^ M.bits) :
    M.sum x l = .ok (l.foldl (· + ·) x) := by
  induction l generalizing x with
  | nil => rfl
  | cons y l ih =>
    rw [List.sum_cons] at h
    unfold sum
    rw [show M.add x y = .ok (x + y) from fit_ok (by omega), Res.ok_bind, ih _ (by omega)]
    rfl

theorem writeStringVec_eq {M : Machine} (w : Writer) (vec : List String)
    (h : vec.length * 4 + (vec.map fun x => (strBytes x).length).sum < 2 ^ M.bits) :
    M.writeStringVec w vec = .ok (w.writeStringVec vec) := by
  unfold writeStringVec
  rw [show M.mul vec.length 4 = .ok (vec.length * 4) from fit_ok (by omega), Res.ok_bind, sum_eq _ _ h]
  rfl

/-- The bytes taken by an entry of an option map, apart from two length fields. -/
def entryLen (x : String × String) : Nat :=
  (strBytes x.1).length + (strBytes x.2).length + (if !(strBytes x.2).isEmpty then 4 else 0)

theorem mapSize_eq {M : Machine} (l : StrMap) (x : Nat) (h : x + (l.map entryLen).sum < 2 ^ M.bits) :
    M.mapSize x l = .ok ((l.map entryLen).foldl (· + ·) x) := by
  induction l generalizing x with
  | nil => rfl
  | cons y l ih =>
    rw [List.map_cons, List.sum_cons] at h
    have h1 : (strBytes y.1).length + (strBytes y.2).length ≤ entryLen y := Nat.le_add_right _ _
    have h2 : M.entrySize y = .ok (entryLen y) := by
      unfold entrySize
      rw [show M.add (strBytes y.1).length (strBytes y.2).length = .ok _ from fit_ok (by omega), Res.ok_bind]
      exact fit_ok (by show entryLen y < _; omega)
    unfold mapSize
    rw [h2, Res.ok_bind, show M.add x (entryLen y) = .ok _ from fit_ok (by omega), Res.ok_bind, ih _ (by omega)]
    rfl

/-- The length of a value that, with four added, does not fit 32 bits. -/
def Long (v : String) : Prop := 2 ^ 32 - 4 ≤ (strBytes v).length % 2 ^ 32

instance (v : String) : Decidable (Long v) := inferInstanceAs (Decidable (_ ≤ _))

theorem writeEntries_eq {M : Machine} (l : StrMap) (w : Writer) :
    M.writeEntries w l = if M.checked = true ∧ ∃ kv ∈ l, Long kv.2 then .panic
      else .ok (l.foldl (fun w kv =>
        let w := w.writeString kv.1
        if (strBytes kv.2).isEmpty then w.writeU32 0
        else (w.writeU32 (UInt32.ofNat (strBytes kv.2).length + 4)).writeString kv.2) w) := by
  induction l generalizing w with
  | nil => simp [writeEntries]
  | cons kv l ih =>
    have e1 : UInt32.ofNat ((strBytes kv.2).length % 2 ^ 32 + 4) = UInt32.ofNat (strBytes kv.2).length + 4 := by
      apply UInt32.toNat_inj.mp
      simp
    have e2 : UInt32.ofNat (((strBytes kv.2).length % 2 ^ 32 + 4) % 2 ^ 32) = UInt32.ofNat (strBytes kv.2).length + 4 := by
      rw [← e1]
      apply UInt32.toNat_inj.mp
      simp
    unfold writeEntries
    simp only [List.foldl_cons, List.mem_cons, exists_eq_or_imp]
    split
    · rename_i h
      have : ¬ Long kv.2 := by
        have : (strBytes kv.2).length = 0 := by simpa using h
        unfold Long
        rw [this]
        omega
      rw [ih]
      simp only [this, false_or]
    · by_cases hl : Long kv.2
      · have hf : ¬ (strBytes kv.2).length % 2 ^ 32 + 4 < 2 ^ 32 := by unfold Long at hl; omega
        unfold fit
        rw [if_neg hf]
        by_cases hc : M.checked = true
        · rw [if_pos hc, if_pos ⟨hc, .inl hl⟩]
          rfl
        · rw [if_neg hc, if_neg (fun h => hc h.1), Res.ok_bind, ih, if_neg (fun h => hc h.1)]
          simp only [e2]
      · have hf : (strBytes kv.2).length % 2 ^ 32 + 4 < 2 ^ 32 := by unfold Long at hl; omega
        rw [fit_ok hf, Res.ok_bind, ih]
        simp only [hl, false_or, e1]

theorem writeStringMap_eq {M : Machine} (w : Writer) (map : StrMap) 
    (h : map.length * 8 + (map.map entryLen).sum < 2 ^ M.bits) :
    M.writeStringMap w map = if M.checked = true ∧ ∃ kv ∈ map, Long kv.2 then .panic else .ok (w.writeStringMap map) := by
  unfold writeStringMap
  rw [show M.mul map.length 8 = .ok (map.length * 8) from fit_ok (by omega), Res.ok_bind, mapSize_eq _ _ h, Res.ok_bind,
    writeEntries_eq]
  rfl

theorem asnDerToRS_eq {M : Machine} (hM : 9 ≤ M.bits) (buf : Bytes) : M.asnDerToRS buf = Ssh.asnDerToRS buf := by
  have key : ∀ b : UInt8, M.add b.toNat 2 = .ok (b.toNat + 2) := by
    intro b
    refine fit_ok (Nat.lt_of_lt_of_le ?_ (Nat.pow_le_pow_right (n := 2) (by omega) hM))
    have := b.toNat_lt
    omega
  unfold asnDerToRS Ssh.asnDerToRS
  simp only [key, Res.ok_bind]

theorem coseLoop_eq {M : Machine} (len : Nat) (hl : len ≤ 256) (n k : Nat) (hk : k ≤ len) (hn : k < n) (b : Bytes) (c : CoseKey) :
    M.coseLoop len n ((len - k) * 2) b c = some (Ssh.coseLoop k b c) := by
  induction n generalizing k b c with
  | zero => omega
  | succ n ih =>
    unfold coseLoop
    rw [fit_ok (show len * 2 < 2 ^ 64 by omega)]
    simp only
    cases k with
    | zero => rw [if_neg (by omega)]; rfl
    | succ k =>
      rw [if_pos (by omega)]
      unfold Ssh.coseLoop
      cases coseEntry b c with
      | ok p =>
        simp only [Res.ok_bind]
        rw [fit_ok (show (len - (k + 1)) * 2 + 2 < 2 ^ 64 by omega)]
        simp only
        rw [show (len - (k + 1)) * 2 + 2 = (len - k) * 2 by omega]
        exact ih k (by omega) (by omega) _ _
      | err e => rfl
      | panic => rfl

end Machine

open Machine

/-- C140: on every target with pointers of at least 32 bits, with or without overflow checks, reading from a buffer that
the target can hold gives what the natural numbers give: no sum overflows. -/
theorem C140_reader (M : Machine) (hM : 32 ≤ M.bits) (r : Reader) (hr : r.inner.length < 2 ^ M.bits) :
    M.readBytes r = Reader.readBytes r ∧ (∀ len, M.readRawBytes len r = Reader.readRawBytes len r) ∧
    M.readU32 r = Reader.readU32 r ∧ M.readU64 r = Reader.readU64 r ∧
    ∀ n, r.inner.length < n → M.readCstring n r = some (Reader.readCstring r) := by
  refine ⟨readBytes_eq hM hr, fun len => readRawBytes_eq len hr, readU32_eq hr, readU64_eq hr, fun n hn => ?_⟩
  unfold Machine.readCstring
  rw [cstringLoop_eq hr n r.offset [] (by omega) (by omega)]
  rfl

/-- A length field beyond the end of a buffer of 2^32 - 1 bytes is refused on a 32-bit target, and one within it is read. -/
example : (⟨32, true⟩ : Machine).readBytes (Reader.new [0xff, 0xff, 0xff, 0xff]) = (.err .invalidFormat, Reader.new [0xff, 0xff, 0xff, 0xff]) ∧
    (⟨32, true⟩ : Machine).readBytes (Reader.new [0, 0, 0, 2, 5, 6, 7]) = (.ok [5, 6], ⟨[0, 0, 0, 2, 5, 6, 7], 6⟩) ∧
    (⟨8, true⟩ : Machine).readBytes (Reader.new ([0, 0, 0, 252] ++ List.replicate 252 7)) =
      (.panic, Reader.new ([0, 0, 0, 252] ++ List.replicate 252 7)) := by decide +kernel

/-- C140: writing an integer. -/
theorem C140_mpint (M : Machine) (w : Writer) (val : Bytes) (h : val.length < 2 ^ M.bits) :
    M.writeMpint w val = .ok (w.writeMpint val) := writeMpint_eq w val h

example : (⟨32, true⟩ : Machine).writeMpint Writer.new [0, 0, 0x80] = .ok ⟨[0, 0, 0, 2, 0, 0x80]⟩ := by decide +kernel

/-- C140: writing a list of strings that, with four bytes for each, the target can hold (a `String` takes at least
twelve bytes besides its text). -/
theorem C140_vec (M : Machine) (w : Writer) (vec : List String)
    (h : vec.length * 4 + (vec.map String.utf8ByteSize).sum < 2 ^ M.bits) :
    M.writeStringVec w vec = .ok (w.writeStringVec vec) := by
  refine writeStringVec_eq w vec ?_
  rwa [show (fun x => (strBytes x).length) = String.utf8ByteSize from funext strBytes_length]

example : (⟨32, true⟩ : Machine).writeStringVec Writer.new ["ab", "c"] =
    .ok ⟨[0, 0, 0, 11, 0, 0, 0, 2, 0x61, 0x62, 0, 0, 0, 1, 0x63]⟩ := by decide +kernel

/-- C140: writing a map that, with twelve bytes for each entry, the target can hold (two `String`s take at least twice
that besides their texts).  The one sum that can overflow is `v.len() as u32 + 4`: with overflow checks this is a panic
exactly if the length of a value is within four of the next multiple of 2^32. -/
theorem C140_map (M : Machine) (w : Writer) (map : StrMap)
    (h : map.length * 8 + (map.map fun x => x.1.utf8ByteSize + x.2.utf8ByteSize + 4).sum < 2 ^ M.bits) :
    (M.checked = true ∧ (∃ kv ∈ map, 2 ^ 32 - 4 ≤ kv.2.utf8ByteSize % 2 ^ 32) → M.writeStringMap w map = .panic) ∧
    (¬ (M.checked = true ∧ ∃ kv ∈ map, 2 ^ 32 - 4 ≤ kv.2.utf8ByteSize % 2 ^ 32) →
      M.writeStringMap w map = .ok (w.writeStringMap map)) := by
  have hs : ∀ l : StrMap, (l.map entryLen).sum ≤ (l.map fun x => x.1.utf8ByteSize + x.2.utf8ByteSize + 4).sum := by
    intro l
    induction l with
    | nil => exact Nat.le_refl 0
    | cons x l ih =>
      have : entryLen x ≤ x.1.utf8ByteSize + x.2.utf8ByteSize + 4 := by
        unfold entryLen
        rw [strBytes_length, strBytes_length]
        split <;> omega
      simp only [List.map_cons, List.sum_cons]
      omega
  rw [writeStringMap_eq w map (by have := hs map; omega)]
  simp only [Long, strBytes_length]
  exact ⟨fun h => if_pos h, fun h => if_neg h⟩

example : (⟨32, true⟩ : Machine).writeStringMap Writer.new [("ab", ""), ("c", "d")] =
    .ok ⟨[0, 0, 0, 24, 0, 0, 0, 2, 0x61, 0x62, 0, 0, 0, 0, 0, 0, 0, 1, 0x63, 0, 0, 0, 5, 0, 0, 0, 1, 0x64]⟩ := by decide +kernel

/-- C140: the size of a key.  On a 32-bit target the number of bits of an RSA key with a modulus of 2^29 bytes or more
is not reported: the product overflows. -/
theorem C140_bits (M : Machine) (k : PublicKey) :
    (∀ e n, k.kind = .rsa e n → n.length * 8 < 2 ^ M.bits → M.keyBits k = .ok k.bits ∧ k.bits = n.length * 8) ∧
    (∀ e n, k.kind = .rsa e n → ¬ n.length * 8 < 2 ^ M.bits →
      M.keyBits k = if M.checked then .panic else .ok (n.length * 8 % 2 ^ M.bits)) ∧
    ((∀ e n, k.kind ≠ .rsa e n) → M.keyBits k = .ok k.bits) := by
  refine ⟨fun e n hk h => ?_, fun e n hk h => ?_, fun h => ?_⟩
  · unfold keyBits PublicKey.bits
    rw [hk]
    exact ⟨fit_ok h, rfl⟩
  · unfold keyBits
    rw [hk]
    exact if_neg h
  · unfold keyBits
    split
    · rename_i hk
      exact absurd hk (h _ _)
    · rfl

example : (⟨32, true⟩ : Machine).keyBits ⟨⟨"ssh-rsa", "ssh-rsa", "RSA", false, false, .rsa⟩, .rsa [3] [0x90, 7], none⟩ = .ok 16 ∧
    (⟨4, true⟩ : Machine).keyBits ⟨⟨"ssh-rsa", "ssh-rsa", "RSA", false, false, .rsa⟩, .rsa [3] [0x90, 7], none⟩ = .panic := by
  decide +kernel

/-- C140: splitting a DER signature. -/
theorem C140_der (M : Machine) (hM : 32 ≤ M.bits) (buf : Bytes) : M.asnDerToRS buf = asnDerToRS buf :=
  asnDerToRS_eq (by omega) buf

example : (⟨32, true⟩ : Machine).asnDerToRS [0x30, 6, 2, 1, 5, 2, 1, 6] = .ok (some ([5], [6])) := by decide +kernel

/-- C140: the loop over the entries of a COSE key ends after at most 257 tests, and its counter does not overflow. -/
theorem C140_cose (M : Machine) (n : Nat) (hn : 256 < n) (b : Bytes) : M.parseCose n b = some (parseCose b) := by
  unfold Machine.parseCose parseCose
  rcases cborMap b with _ | ⟨_ | len, rest⟩
  · rfl
  · rfl
  simp only
  split
  · rfl
  · have := coseLoop_eq (M := M) len (by omega) n len (by omega) (by omega) rest CoseKey.default
    rwa [Nat.sub_self, Nat.zero_mul] at this

example : ∃ k, (⟨32, true⟩ : Machine).parseCose 300 [0xa2, 1, 2, 3, 0x26] = some (.ok k) ∧ k.keyType = 2 ∧ k.algorithm = -7 :=
  ⟨_, rfl, by decide +kernel, by decide +kernel⟩

end Ssh
