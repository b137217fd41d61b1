import Verif.Spec.Written
import Verif.Lemmas.PrivEncode
import Verif.Lemmas.AllowedDisplay
import Verif.Lemmas.Display

/-! # The written forms and the model's writers -/

namespace Ssh

open Spec

theorem str_eq (b : Bytes) : str b = frame b := rfl
theorem text_eq (s : String) : text s = frameStr s := rfl

theorem mpintPayload_self {p : Bytes} (h : MpintPayload p) : mpintPayload p = p := by
  cases h with
  | zero => rfl
  | plain b bs h0 h1 =>
    have : stripZeros (b :: bs) = b :: bs := by simp [stripZeros, h0]
    unfold mpintPayload
    rw [this]
    simp [UInt8.not_le.mpr h1]
  | padded b bs h =>
    have h0 : b ≠ 0 := by rintro rfl; exact absurd h (by decide)
    have : stripZeros (0 :: b :: bs) = b :: bs := by simp [stripZeros, h0]
    unfold mpintPayload
    rw [this]
    simp [h]

theorem integer_iff {v w : Bytes} : Integer v w ↔ w = frameMpint v := by
  constructor
  · rintro ⟨p, hp, hn, rfl⟩
    have hs : stripZeros p = stripZeros v := shortest_unique (stripZeros_shortest p) (stripZeros_shortest v)
      (by rw [natOf_stripZeros, natOf_stripZeros, hn])
    have : mpintPayload p = mpintPayload v := by unfold mpintPayload; rw [hs]
    rw [str_eq, frameMpint, ← this, mpintPayload_self hp]
  · rintro rfl
    exact ⟨_, (mpintPayload_spec v).1, (mpintPayload_spec v).2, rfl⟩

theorem fields_iff {sk : Bool} {kind : PublicKeyKind} {f : Bytes} : Fields sk kind f ↔ keyMaterial sk kind = some f := by
  constructor
  · intro h
    cases h with
    | rsa h1 h2 => rw [integer_iff.mp h1, integer_iff.mp h2]; rfl
    | ecdsa h => subst h; rfl
    | ecdsaSk h => subst h; rfl
    | ed25519 h => subst h; rfl
    | ed25519Sk h => subst h; rfl
  · intro h
    cases kind with
    | rsa e n => cases h; exact .rsa (integer_iff.mpr rfl) (integer_iff.mpr rfl)
    | ecdsa c key app =>
      cases sk with
      | false => cases h; exact .ecdsa rfl
      | true =>
        cases app with
        | none => cases h
        | some a => cases h; exact .ecdsaSk rfl
    | ed25519 key app =>
      cases sk with
      | false => cases h; exact .ed25519 rfl
      | true =>
        cases app with
        | none => cases h
        | some a => cases h; exact .ed25519Sk rfl

theorem lacks_iff {k : PublicKey} : LacksApplication k ↔ keyMaterial k.keyType.isSk k.kind = none := by
  unfold LacksApplication keyMaterial
  cases k.kind with
  | rsa e n => simp
  | ecdsa c key app => cases k.keyType.isSk <;> cases app <;> simp
  | ed25519 key app => cases k.keyType.isSk <;> cases app <;> simp

theorem unwrap_ok {α β : Type} {m : Option α} {g : α → Res β} {y : β} :
    (Res.unwrap m >>= g) = .ok y ↔ ∃ b, m = some b ∧ g b = .ok y := by
  cases m <;> simp [Res.unwrap]

theorem unwrap_panic {α β : Type} {m : Option α} {g : α → Res β} :
    (Res.unwrap m >>= g) = .panic ↔ m = none ∨ ∃ b, m = some b ∧ g b = .panic := by
  cases m <;> simp [Res.unwrap]

theorem unwrap_err {α β : Type} {m : Option α} {g : α → Res β} {e : Err} :
    (Res.unwrap m >>= g) = .err e ↔ ∃ b, m = some b ∧ g b = .err e := by
  cases m <;> simp [Res.unwrap]

theorem optionField_eq : optionField = optionBytes := by
  funext kv
  unfold optionField optionBytes optionDataBytes
  by_cases h : kv.2 = ""
  · rw [if_pos h, if_pos (by rw [h]; rfl)]; rfl
  · rw [if_neg h, if_neg (by rw [List.isEmpty_iff]; exact fun e => h (strBytes_eq_nil.mp e))]; rfl

theorem encode_ok {k : PublicKey} {b : Bytes} : k.encode = .ok b ↔ KeyAs k.keyType.plain k b := by
  rw [encode_eq, unwrap_ok]
  simp only [Res.ok.injEq, KeyAs, fields_iff, text_eq, eq_comm (b := b)]

theorem encode_panic {k : PublicKey} : k.encode = .panic ↔ LacksApplication k := by
  rw [encode_eq, unwrap_panic, lacks_iff]
  simp

theorem encode_noErr (k : PublicKey) (e : Err) : k.encode ≠ .err e := by
  rw [encode_eq, Ne, unwrap_err]
  simp

/-- A computation on an encoding. -/
theorem encode_bind_ok {β : Type} {k : PublicKey} {g : Bytes → Res β} {y : β} :
    (k.encode >>= g) = .ok y ↔ ∃ b, KeyAs k.keyType.plain k b ∧ g b = .ok y := by
  simp only [← encode_ok]
  cases k.encode <;> simp

theorem encode_bind_panic {β : Type} {k : PublicKey} {g : Bytes → Res β} (h : ∀ b, g b ≠ .panic) :
    (k.encode >>= g) = .panic ↔ LacksApplication k := by
  rw [← encode_panic]
  cases k.encode <;> simp [h]

theorem wrapped_chunks (n : Nat) (s : List Char) : Wrapped (n + 1) s (joinNl (chunks n s)) := by
  fun_induction chunks n s with
  | case1 => exact .last (Nat.zero_le _)
  | case2 x xs ih =>
    rw [joinNl_cons]
    by_cases hd : xs.drop n = []
    · rw [hd, if_pos (by simp [chunks])]
      have hl : xs.length ≤ n := by simpa using hd
      rw [List.take_of_length_le hl, List.append_nil]
      exact .last (by simpa using hl)
    · rw [if_neg (chunks_ne_nil n hd)]
      have hl : n < xs.length := by
        rw [List.drop_eq_nil_iff] at hd; omega
      have : x :: xs = (x :: xs.take n) ++ xs.drop n := by simp
      rw [this]
      exact .more (by simp; omega) hd ih

theorem wrapped_unique {n : Nat} {s t t' : List Char} (h : Wrapped n s t) (h' : Wrapped n s t') : t = t' := by
  induction h generalizing t' with
  | last hl =>
    cases h' with
    | last _ => rfl
    | more h1 h2 h3 =>
      simp only [List.length_append] at hl
      exact absurd (List.length_eq_zero_iff.mp (by omega)) h2
  | @more l s t h1 h2 h3 ih =>
    generalize e : l ++ s = u at h'
    cases h' with
    | last hl =>
      rw [← e, List.length_append] at hl
      exact absurd (List.length_eq_zero_iff.mp (by omega)) h2
    | more g1 g2 g3 =>
      obtain ⟨rfl, rfl⟩ := List.append_inj e (by omega)
      rw [ih g3]

theorem wrapped_iff {n : Nat} {s t : List Char} : Wrapped (n + 1) s t ↔ t = joinNl (chunks n s) :=
  ⟨fun h => wrapped_unique h (wrapped_chunks n s), fun h => h ▸ wrapped_chunks n s⟩

theorem privFields_iff {k : PrivateKey} {f : Bytes} : PrivFields k f ↔ privFields k = some f := by
  unfold PrivFields privFields
  cases k.kind with
  | rsa r =>
    simp only [integer_iff, Option.some.injEq]
    constructor
    · rintro ⟨_, _, _, _, _, _, rfl, rfl, rfl, rfl, rfl, rfl, rfl⟩; rfl
    · rintro rfl; exact ⟨_, _, _, _, _, _, rfl, rfl, rfl, rfl, rfl, rfl, rfl⟩
  | ecdsa c key => simp [fields_iff, str_eq, eq_comm (b := f)]
  | ed25519 key => simp [fields_iff, str_eq, eq_comm (b := f)]
  | ecdsaSk s => simp [fields_iff, str_eq, eq_comm (b := f)]
  | ed25519Sk s => simp [fields_iff, str_eq, eq_comm (b := f)]

theorem privFields_none {k : PrivateKey} (h : privFields k = none) : LacksApplication k.pubkey := by
  rw [lacks_iff]
  unfold privFields at h
  cases hk : k.kind <;> rw [hk] at h <;> simp_all

theorem b64_padded (d : Bytes) : ∃ n, b64Encode d = (b64Encode d).takeWhile (· ≠ '=') ++ List.replicate n '=' := by
  refine ⟨((b64Encode d).dropWhile (· ≠ '=')).length, ?_⟩
  have : (b64Encode d).dropWhile (· ≠ '=') = List.replicate ((b64Encode d).dropWhile (· ≠ '=')).length '=' := by
    fun_induction b64Encode d with
    | case1 => rfl
    | case2 a n =>
      have ha := a.toNat_lt
      have h1 : n / 64 < 64 := by simp only [n]; omega
      have h2 : n % 64 < 64 := by omega
      simp [b64Char_ne_eq h1, b64Char_ne_eq h2]
    | case3 a b n =>
      have ha := a.toNat_lt
      have hb := b.toNat_lt
      have h1 : n / 4096 < 64 := by simp only [n]; omega
      have h2 : n / 64 % 64 < 64 := by omega
      have h3 : n % 64 < 64 := by omega
      simp [b64Char_ne_eq h1, b64Char_ne_eq h2, b64Char_ne_eq h3]
    | case4 a b c rest n ih =>
      have ha := a.toNat_lt
      have hb := b.toNat_lt
      have hc := c.toNat_lt
      have h1 : n / 262144 < 64 := by simp only [n]; omega
      have h2 : n / 4096 % 64 < 64 := by omega
      have h3 : n / 64 % 64 < 64 := by omega
      have h4 : n % 64 < 64 := by omega
      simpa [List.dropWhile_cons, b64Char_ne_eq h1, b64Char_ne_eq h2, b64Char_ne_eq h3,
        b64Char_ne_eq h4] using ih
  rw [← this]
  exact List.takeWhile_append_dropWhile.symm

theorem unpadded_iff {d : Bytes} {hash : List Char} :
    (∃ n, Base64 d (hash ++ List.replicate n '=') ∧ '=' ∉ hash) ↔ hash = (b64Encode d).takeWhile (· ≠ '=') := by
  constructor
  · rintro ⟨n, h, hn⟩
    rw [← base64_iff.mp h, List.takeWhile_append_of_pos (by
      intro c hc; simp only [ne_eq, decide_not, Bool.not_eq_eq_eq_not, Bool.not_true, decide_eq_false_iff_not]
      rintro rfl; exact hn hc)]
    cases n <;> simp [List.replicate_succ]
  · rintro rfl
    obtain ⟨n, hn⟩ := b64_padded d
    refine ⟨n, by rw [← hn]; exact base64_iff.mpr rfl, fun hm => ?_⟩
    have := List.all_eq_true.mp (List.all_takeWhile (l := b64Encode d) (p := fun x => decide (x ≠ '='))) '=' hm
    simp at this

theorem sha256Text_iff {C : Crypto} {k : PublicKey} {t : List Char} :
    Sha256Text C k t ↔ ∃ f, k.fingerprintWith C .sha256 = .ok f ∧ t = f.kind.display.toList ++ ':' :: f.hash := by
  have hs : "SHA256:".toList = FingerprintKind.sha256.display.toList ++ [':'] := by decide +kernel
  unfold Sha256Text PublicKey.fingerprintWith
  constructor
  · rintro ⟨b, hash, n, hb, h64, hn, rfl⟩
    rw [encode_ok.mpr hb]
    refine ⟨_, rfl, ?_⟩
    rw [unpadded_iff.mp ⟨n, h64, hn⟩, hs]
    simp [Fingerprint.compute, Crypto.digest]
  · rintro ⟨f, hf, rfl⟩
    obtain ⟨b, hb, hf⟩ := encode_bind_ok.mp hf
    cases hf
    obtain ⟨n, h64, hn⟩ := (unpadded_iff (d := C.sha256 b)).mpr rfl
    exact ⟨b, _, n, hb, h64, hn, by rw [hs]; simp [Fingerprint.compute, Crypto.digest]⟩

end Ssh
