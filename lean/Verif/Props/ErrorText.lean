import Verif.Model.ErrorText
import Verif.Props.AllowedSigner

/-! # C100: the texts of errors -/

namespace Ssh

/-- Errors that carry no text of another crate or of the FIDO module. -/
def Spec.OwnError (e : Err) : Prop := e ≠ .io ∧ e ≠ .decode ∧ e ≠ .utf8Error ∧ ∀ f, e ≠ .fidoError f

open Spec

theorem nat_text_inj {a b : Nat} (h : (toString a).toList = (toString b).toList) : a = b := by
  rw [Nat.toString_eq_repr, Nat.toString_eq_repr, Nat.toList_repr, Nat.toList_repr] at h
  have := congrArg (fun l => Nat.ofDigitChars 10 l 0) h
  simpa [Nat.ofDigitChars_ten_toDigits] using this

theorem nat_text_digit (n : Nat) : ∀ c ∈ (toString n).toList, c.isDigit = true := by
  intro c hc
  rw [Nat.toString_eq_repr, Nat.toList_repr] at hc
  exact Nat.isDigit_of_mem_toDigits (by decide) (by decide) hc

theorem int_text_inj {a b : Int} (h : (toString a).toList = (toString b).toList) : a = b := by
  have f : ∀ n : Nat, ∀ c ∈ n.repr.toList, c ≠ '-' := by
    rintro n c hc rfl
    rw [← Nat.toString_eq_repr] at hc
    exact absurd (nat_text_digit n _ hc) (by decide)
  have key : ∀ n m : Nat, n.repr.toList = m.repr.toList → n = m := fun n m h =>
    nat_text_inj (by rw [Nat.toString_eq_repr, Nat.toString_eq_repr]; exact h)
  cases a with
  | ofNat n =>
    cases b with
    | ofNat m => exact congrArg Int.ofNat (key n m h)
    | negSucc m =>
      have h : n.repr.toList = ("-" ++ (m + 1).repr).toList := h
      rw [String.toList_append] at h
      exact absurd rfl (f n '-' (by rw [h]; exact List.mem_cons_self))
  | negSucc n =>
    cases b with
    | ofNat m =>
      have h : ("-" ++ (n + 1).repr).toList = m.repr.toList := h
      rw [String.toList_append] at h
      exact absurd rfl (f m '-' (by rw [← h]; exact List.mem_cons_self))
    | negSucc m =>
      have h : ("-" ++ (n + 1).repr).toList = ("-" ++ (m + 1).repr).toList := h
      rw [String.toList_append, String.toList_append] at h
      have := key _ _ (List.append_cancel_left h)
      exact congrArg Int.negSucc (by omega)

/-- A decimal number followed by something else can be read off. -/
theorem nat_text_prefix {a b : Nat} {c d : Char} {s t : List Char} (hc : c.isDigit = false) (hd : d.isDigit = false)
    (h : (toString a).toList ++ c :: s = (toString b).toList ++ d :: t) : a = b ∧ c = d ∧ s = t := by
  rcases List.append_eq_append_iff.mp h with ⟨x, e1, e2⟩ | ⟨x, e1, e2⟩
  · cases x with
    | nil => rw [List.append_nil] at e1; simp only [List.nil_append, List.cons.injEq] at e2; exact ⟨(nat_text_inj e1).symm, e2⟩
    | cons y x =>
      simp only [List.cons_append, List.cons.injEq] at e2
      have := nat_text_digit b y (by rw [e1]; simp)
      rw [← e2.1, hc] at this
      cases this
  · cases x with
    | nil =>
      rw [List.append_nil] at e1; simp only [List.nil_append, List.cons.injEq] at e2
      exact ⟨nat_text_inj e1, e2.1.symm, e2.2.symm⟩
    | cons y x =>
      simp only [List.cons_append, List.cons.injEq] at e2
      have := nat_text_digit a y (by rw [e1]; simp)
      rw [← e2.1, hd] at this
      cases this

/-- The code of the character at a position, 0 behind the end. -/
def codeAt (s : List Char) (n : Nat) : Nat := (s[n]?.map Char.toNat).getD 0

/-- Tells the errors of a line apart by the first, ninth and tenth character. -/
def asTag (s : List Char) : Nat × Nat × Nat := if codeAt s 0 = 111 then (111, 0, 0) else (codeAt s 0, codeAt s 8, codeAt s 9)

theorem asTag_text (e : ASErr) : asTag e.text = match e with
    | .invalidQuotes => (101, 114, 115)
    | .missingPrincipals => (109, 112, 114)
    | .invalidPrincipals => (105, 112, 114)
    | .missingKey => (109, 112, 117)
    | .duplicateOptions _ => (111, 0, 0)
    | .invalidOption _ => (105, 111, 112)
    | .invalidKey => (105, 112, 117)
    | .invalidTimestamp => (105, 116, 105)
    | .invalidTimestamps => (99, 105, 110)
    | .unexpectedEnd => (117, 101, 100) := by
  cases e <;> rfl

theorem asErr_text_inj {e e' : ASErr} (h : e.text = e'.text) : e = e' := by
  have ht : asTag e.text = asTag e'.text := by rw [h]
  rw [asTag_text, asTag_text] at ht
  cases e <;> cases e' <;> first
    | rfl
    | (exfalso; simp at ht; done)
    | skip
  · rename_i v v'
    have h : "option ".toList ++ v.toList ++ " specified more than once".toList =
      "option ".toList ++ v'.toList ++ " specified more than once".toList := h
    rw [String.toList_inj.mp (List.append_cancel_left (List.append_cancel_right h))]
  · rename_i v v'
    have h : "invalid option ".toList ++ v.toList = "invalid option ".toList ++ v'.toList := h
    rw [String.toList_inj.mp (List.append_cancel_left h)]

/-- Tells the errors apart by characters at fixed positions. -/
def errTag (s : List Char) : Nat × Nat × Nat := (codeAt s 0, codeAt s 8, if codeAt s 8 = 97 then codeAt s 29 else codeAt s 10)

set_option maxRecDepth 4000 in
theorem errTag_text (F : ForeignTexts) (e : Err) (h : OwnError e) : errTag (e.text F) = match e with
    | .invalidFormat => (73, 102, 114)
    | .invalidCertType _ => (73, 99, 114)
    | .unexpectedEof => (85, 101, 32)
    | .notCertificate => (78, 114, 105)
    | .keyTypeMismatch => (75, 32, 105)
    | .invalidSignature => (68, 105, 112)
    | .invalidAllowedSigner _ => (73, 97, 58)
    | .invalidAllowedSigners _ _ => (73, 97, 32)
    | .signingError => (67, 116, 115)
    | .encryptedPrivateKey => (69, 114, 100)
    | .encryptedPrivateKeyNotSupported => (84, 104, 100)
    | .unknownKeyType _ => (85, 107, 121)
    | .unknownCurve _ => (85, 99, 114)
    | .parsingError => (67, 116, 112)
    | .unsupported => (70, 97, 101)
    | _ => (0, 0, 0) := by
  obtain ⟨h1, h2, h3, h4⟩ := h
  cases e
  case io => exact absurd rfl h1
  case decode => exact absurd rfl h2
  case utf8Error => exact absurd rfl h3
  case fidoError f => exact absurd rfl (h4 f)
  all_goals rfl

/-- C100: the text of an error that carries no foreign text identifies it, with its number, name or line. -/
theorem C100_injective (F : ForeignTexts) (e e' : Err) (h : OwnError e) (h' : OwnError e') (ht : e.text F = e'.text F) : e = e' := by
  have hx : errTag (e.text F) = errTag (e'.text F) := by rw [ht]
  rw [errTag_text F e h, errTag_text F e' h'] at hx
  obtain ⟨h1, h2, h3, h4⟩ := h
  obtain ⟨h1', h2', h3', h4'⟩ := h'
  cases e
  case io => exact absurd rfl h1
  case decode => exact absurd rfl h2
  case utf8Error => exact absurd rfl h3
  case fidoError f => exact absurd rfl (h4 f)
  case invalidCertType n =>
    cases e' <;> first | exact absurd rfl ‹_› | (exfalso; simp at hx; done) | skip
    rename_i m
    have ht : "Invalid certificate type with value ".toList ++ (toString n.toNat).toList =
      "Invalid certificate type with value ".toList ++ (toString m.toNat).toList := ht
    rw [UInt32.toNat_inj.mp (nat_text_inj (List.append_cancel_left ht))]
  case invalidAllowedSigner a =>
    cases e' <;> first | exact absurd rfl ‹_› | (exfalso; simp at hx; done) | skip
    rename_i b
    have ht : "Invalid allowed signer format: ".toList ++ a.text = "Invalid allowed signer format: ".toList ++ b.text := ht
    rw [asErr_text_inj (List.append_cancel_left ht)]
  case invalidAllowedSigners a n =>
    cases e' <;> first | exact absurd rfl ‹_› | (exfalso; simp at hx; done) | skip
    rename_i b m
    have ht : "Invalid allowed signer format on line ".toList ++ (toString n).toList ++ ": ".toList ++ a.text =
      "Invalid allowed signer format on line ".toList ++ (toString m).toList ++ ": ".toList ++ b.text := ht
    rw [List.append_assoc, List.append_assoc, List.append_assoc, List.append_assoc] at ht
    have ht := List.append_cancel_left ht
    obtain ⟨rfl, _, h⟩ := nat_text_prefix (by decide) (by decide) ht
    rw [asErr_text_inj (List.cons.inj h).2]
  case unknownKeyType n =>
    cases e' <;> first | exact absurd rfl ‹_› | (exfalso; simp at hx; done) | skip
    rename_i m
    have ht : "Unknown key type ".toList ++ n.toList = "Unknown key type ".toList ++ m.toList := ht
    rw [String.toList_inj.mp (List.append_cancel_left ht)]
  case unknownCurve n =>
    cases e' <;> first | exact absurd rfl ‹_› | (exfalso; simp at hx; done) | skip
    rename_i m
    have ht : "Unknown curve ".toList ++ n.toList = "Unknown curve ".toList ++ m.toList := ht
    rw [String.toList_inj.mp (List.append_cancel_left ht)]
  all_goals (cases e' <;> first | rfl | exact absurd rfl ‹_› | (exfalso; simp at hx; done))

example : OwnError (.invalidCertType 3) ∧ OwnError (.invalidAllowedSigners (.invalidOption "valid-after") 7) := by
  refine ⟨⟨?_, ?_, ?_, ?_⟩, ⟨?_, ?_, ?_, ?_⟩⟩ <;> nofun

/-- C100: the number in the text of an error of an allowed signers file is the number of lines before the bad one; the
first line of the file is called line 0. -/
theorem C100_line (T : Chrono) (F : ForeignTexts) (s : List Char) (e : Err) (h : allowedSignersFromString T s = .err e) :
    ∃ before x after a, FileLines s (before ++ x :: after) ∧ (∃ t, Trimmed x t ∧ AllowedSigner.fromString T t = .err (.invalidAllowedSigner a)) ∧
      e.text F = "Invalid allowed signer format on line ".toList ++ (toString before.length).toList ++ ": ".toList ++ a.text := by
  obtain ⟨b, x, af, l, t, a, hl, _, _, ht, hf, rfl⟩ := (C58_err T s e).mp h
  exact ⟨b, x, af, a, hl, ⟨t, ht, hf⟩, rfl⟩

/-- C100: a file whose only line is bad is reported as bad on line 0. -/
example (F : ForeignTexts) : ∃ e, allowedSignersFromString sampleChrono "foo".toList = .err e ∧
    e.text F = "Invalid allowed signer format on line 0: missing public key data".toList :=
  ⟨.invalidAllowedSigners .missingKey 0, by decide +kernel, by
    show "Invalid allowed signer format on line ".toList ++ (toString 0).toList ++ ": ".toList ++ ASErr.missingKey.text = _
    decide +kernel⟩

namespace Spec

/-- What an error of the FIDO module says. -/
inductive FidoSays (cbor : List Char) : FidoErr → List Char → Prop where
  | wrongPin (n : UInt8) :
      FidoSays cbor (.invalidPin (some n)) ("Invalid pin: ".toList ++ (toString n.toNat).toList ++ " attempts remaining".toList)
  | wrongPin' : FidoSays cbor (.invalidPin none) "Invalid pin".toList
  | pinRequired : FidoSays cbor .pinRequired "Pin required for operation".toList
  | locked : FidoSays cbor .keyLocked "Key locked".toList
  | blocked : FidoSays cbor .keyBlocked "Key blocked".toList
  | format (s : String) : FidoSays cbor (.cborFormat s) s.toList
  | formatElse (x : Int) :
      FidoSays cbor (.cborElse x) ("We got something else ".toList ++ (toString x).toList ++ " and threw error ".toList ++ cbor)
  | other (s : String) : FidoSays cbor (.unknown s) s.toList

end Spec

/-- C100: (Finding.) every text of an error of the FIDO module begins with a stray `s`; so it is the text of no other error of this
library. -/
theorem C100_fido (F : ForeignTexts) (f : FidoErr) : (∃ msg, FidoSays F.cbor f msg ∧ (Err.fidoError f).text F = 's' :: msg) ∧
    ∀ e, OwnError e → e.text F ≠ (Err.fidoError f).text F := by
  constructor
  · cases f with
    | invalidPin n =>
      cases n with
      | none => exact ⟨_, .wrongPin', rfl⟩
      | some n => exact ⟨_, .wrongPin n, rfl⟩
    | pinRequired => exact ⟨_, .pinRequired, rfl⟩
    | keyLocked => exact ⟨_, .locked, rfl⟩
    | keyBlocked => exact ⟨_, .blocked, rfl⟩
    | cborFormat s => exact ⟨_, .format s, rfl⟩
    | cborElse x => exact ⟨_, .formatElse x, rfl⟩
    | unknown s => exact ⟨_, .other s, rfl⟩
  · intro e h he
    have hx : (errTag (e.text F)).1 = 115 := by rw [he]; rfl
    rw [errTag_text F e h] at hx
    obtain ⟨h1, h2, h3, h4⟩ := h
    cases e <;> first | exact absurd rfl ‹_› | exact absurd rfl (h4 _) | (simp at hx; done)

/-- C100: two errors about the PIN with the same text are the same. -/
theorem C100_fido_pin (F : ForeignTexts) (f f' : FidoErr) (hf : ∀ s, f ≠ .cborFormat s ∧ f ≠ .unknown s)
    (hf' : ∀ s, f' ≠ .cborFormat s ∧ f' ≠ .unknown s) (h : (Err.fidoError f).text F = (Err.fidoError f').text F) : f = f' := by
  have ht : ∀ f : FidoErr, (∀ s, f ≠ .cborFormat s ∧ f ≠ .unknown s) →
      ((codeAt ((Err.fidoError f).text F) 1, codeAt ((Err.fidoError f).text F) 5, codeAt ((Err.fidoError f).text F) 12) = match f with
      | .invalidPin none => (73, 108, 0)
      | .invalidPin (some _) => (73, 108, 58)
      | .pinRequired => (80, 114, 100)
      | .keyLocked => (75, 108, 0)
      | .keyBlocked => (75, 98, 0)
      | .cborElse _ => (87, 111, 116)
      | _ => (0, 0, 0)) := by
    intro f hf
    cases f with
    | invalidPin n => cases n <;> rfl
    | cborFormat s => exact absurd rfl (hf s).1
    | unknown s => exact absurd rfl (hf s).2
    | _ => rfl
  have h1 := ht f hf
  rw [h, ht f' hf'] at h1
  cases f with
  | cborFormat s => exact absurd rfl (hf s).1
  | unknown s => exact absurd rfl (hf s).2
  | invalidPin n =>
    cases f' with
    | invalidPin m =>
      cases n <;> cases m <;> first | rfl | (simp at h1; done) | skip
      rename_i a b
      have h : "sInvalid pin: ".toList ++ (toString a.toNat).toList ++ " attempts remaining".toList =
        "sInvalid pin: ".toList ++ (toString b.toNat).toList ++ " attempts remaining".toList := h
      have h := nat_text_inj (List.append_cancel_left (List.append_cancel_right h))
      rw [UInt8.toNat_inj.mp h]
    | cborFormat s => exact absurd rfl (hf' s).1
    | unknown s => exact absurd rfl (hf' s).2
    | _ => cases n <;> simp at h1
  | cborElse x =>
    cases f' with
    | cborElse y =>
      have h : "sWe got something else ".toList ++ (toString x).toList ++ " and threw error ".toList ++ F.cbor =
        "sWe got something else ".toList ++ (toString y).toList ++ " and threw error ".toList ++ F.cbor := h
      have h := List.append_cancel_left (List.append_cancel_right (List.append_cancel_right h))
      rw [int_text_inj h]
    | invalidPin m => cases m <;> simp at h1
    | cborFormat s => exact absurd rfl (hf' s).1
    | unknown s => exact absurd rfl (hf' s).2
    | _ => simp at h1
  | _ =>
    cases f' with
    | invalidPin m => cases m <;> simp at h1
    | cborFormat s => exact absurd rfl (hf' s).1
    | unknown s => exact absurd rfl (hf' s).2
    | _ => first | rfl | (simp at h1; done)

example : (Err.fidoError (.invalidPin (some 3))).text ⟨[], [], [], []⟩ = "sInvalid pin: 3 attempts remaining".toList ∧
    (Err.fidoError (.cborElse (-4))).text ⟨[], [], [], "end of input bytes".toList⟩ =
      "sWe got something else -4 and threw error end of input bytes".toList := by decide +kernel

/-- Tells the errors of the YubiKey module apart. -/
def ykTag (s : List Char) : Nat × Nat := (codeAt s 0, codeAt s 10)

theorem ykTag_text (t : List Char) (e : YkErr) : ykTag (e.text t) = match e with
    | .unprovisioned => (83, 112)
    | .wrongKeyType => (87, 116)
    | .unsupported => (84, 115)
    | .invalidManagementKey => (67, 117)
    | .parsingError => (67, 112)
    | .noSuchYubikey => (67, 102)
    | .internal => (89, 114) := by
  cases e <;> rfl

/-- C100: the texts of the errors of the YubiKey module identify them, whatever the device library says. -/
theorem C100_piv (t t' : List Char) (e e' : YkErr) (h : e.text t = e'.text t') : e = e' ∧ (e = .internal → t = t') := by
  have hx : ykTag (e.text t) = ykTag (e'.text t') := by rw [h]
  rw [ykTag_text, ykTag_text] at hx
  have he : e = e' := by cases e <;> cases e' <;> first | rfl | (simp at hx; done)
  subst he
  refine ⟨rfl, ?_⟩
  rintro rfl
  have h : "Yubikey error: ".toList ++ t = "Yubikey error: ".toList ++ t' := h
  exact List.append_cancel_left h

example : YkErr.text [] .noSuchYubikey ≠ YkErr.text [] .parsingError := by decide +kernel

/-- C100: an error has a source exactly if it passes on an error of another library that has one, and then it is that source; so
the error passed on is itself not in the chain of sources, nor is one of the FIDO or YubiKey modules. -/
theorem C100_source {σ : Type} (inner : Err → Option σ) (e : Err) (s : σ) :
    e.source inner = some s ↔ (e = .io ∨ e = .decode ∨ e = .utf8Error) ∧ inner e = some s := by
  cases e <;> simp [Err.source]

example : Err.source (fun _ => some 1) .io = some 1 ∧ Err.source (fun _ => some 1) (.fidoError .keyLocked) = none := ⟨rfl, rfl⟩

end Ssh
