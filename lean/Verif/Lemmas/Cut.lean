import Verif.Spec.Cut
import Verif.Lemmas.Cert
import Verif.Lemmas.SshSig
import Verif.Lemmas.PrivKey

/-! # Parsers on a buffer that ends too early -/

namespace Ssh

open Spec Reader

theorem partBytes_append (ps qs : List Part) : partBytes (ps ++ qs) = partBytes ps ++ partBytes qs := by
  induction ps with
  | nil => rfl
  | cons p ps ih => simp [partBytes, ih]

theorem cutError_append_lt {ps qs : List Part} {n : Nat} (h : n < (partBytes ps).length) :
    cutError (ps ++ qs) n = cutError ps n := by
  induction ps generalizing n with
  | nil => simp [partBytes] at h
  | cons p ps ih =>
    simp only [List.cons_append, cutError]
    split
    · rfl
    split
    · rfl
    · refine ih ?_
      simp only [partBytes, List.length_append] at h
      omega

theorem cutError_append_ge {ps qs : List Part} {n : Nat} (h : (partBytes ps).length ≤ n) :
    cutError (ps ++ qs) n = cutError qs (n - (partBytes ps).length) := by
  induction ps generalizing n with
  | nil => simp [partBytes]
  | cons p ps ih =>
    simp only [partBytes, List.length_append] at h
    simp only [List.cons_append, cutError, partBytes, List.length_append]
    by_cases h0 : n = 0
    · subst h0
      have e1 : p.bytes.length = 0 := by omega
      have e2 : (partBytes ps).length = 0 := by omega
      simp only [if_true, e1, e2]
      cases qs <;> simp [cutError]
    · rw [if_neg h0, if_neg (by omega), ih (by omega), Nat.sub_sub]

/-- The reader whose buffer ends `n` bytes behind the cursor. -/
def cutTo (r : Reader) (n : Nat) : Reader := ⟨r.inner.take (r.offset + n), r.offset⟩

/-- A successful run consumes parts of the shapes `S`; on a buffer that ends within them it fails as `cutError` says,
on a buffer that ends behind them it does the same. -/
def Cuts {α : Type} (p : Rd α) (S : α → List PartKind → Prop) : Prop :=
  ∀ r v r', p r = (.ok v, r') → ∃ ps : List Part, S v (ps.map Part.kind) ∧ (∀ q ∈ ps, q.Fits) ∧ At r (partBytes ps) ∧
    r' = adv r (partBytes ps) ∧
    ∀ n, (n < (partBytes ps).length → (p (cutTo r n)).1 = .err (cutError ps n)) ∧
      ((partBytes ps).length ≤ n → p (cutTo r n) = (.ok v, adv (cutTo r n) (partBytes ps)))

theorem at_cutTo {r : Reader} {w : Bytes} {n : Nat} (h : At r w) (hn : w.length ≤ n) : At (cutTo r n) w := by
  obtain ⟨rest, h⟩ := h
  refine ⟨rest.take (n - w.length), ?_⟩
  simp only [cutTo, List.drop_take, h, List.take_append]
  rw [Nat.add_sub_cancel_left, List.take_of_length_le hn]

theorem at_of_cutTo {r : Reader} {w : Bytes} {n : Nat} (h : At (cutTo r n) w) : At r w := by
  obtain ⟨rest, h⟩ := h
  simp only [cutTo, List.drop_take, Nat.add_sub_cancel_left] at h
  exact ⟨rest ++ (r.inner.drop r.offset).drop n, by rw [← List.append_assoc, ← h, List.take_append_drop]⟩

theorem cutTo_adv {r : Reader} {w : Bytes} {n : Nat} (hn : w.length ≤ n) :
    adv (cutTo r n) w = cutTo (adv r w) (n - w.length) := by
  simp only [adv, cutTo, Reader.mk.injEq, and_true]
  congr 1
  omega

theorem cutTo_length {r : Reader} {w : Bytes} {n : Nat} (h : At r w) (hn : n < w.length) :
    (cutTo r n).inner.length = r.offset + n ∧ ((cutTo r n).inner.drop r.offset) = w.take n := by
  obtain ⟨rest, h⟩ := h
  have hl := congrArg List.length h
  simp only [List.length_drop, List.length_append] at hl
  simp only [cutTo, List.length_take, List.drop_take, Nat.add_sub_cancel_left, h]
  refine ⟨by omega, ?_⟩
  rw [List.take_append_of_le_length (by omega)]

theorem Cuts.mono {α : Type} {p : Rd α} {S T : α → List PartKind → Prop} (h : Cuts p S) (hST : ∀ v l, S v l → T v l) :
    Cuts p T := by
  intro r v r' hp
  obtain ⟨ps, h1, h2⟩ := h r v r' hp
  exact ⟨ps, hST _ _ h1, h2⟩

theorem Cuts.lift {α : Type} (x : Res α) : Cuts (Rd.lift x) (fun v l => x = .ok v ∧ l = []) := by
  intro r v r' h
  simp only [Rd.lift_eq, Prod.mk.injEq] at h
  obtain ⟨rfl, rfl⟩ := h
  exact ⟨[], ⟨rfl, rfl⟩, by simp, by simp [partBytes], by simp [partBytes], fun n => ⟨by simp [partBytes], by simp [partBytes]⟩⟩

theorem Cuts.pure {α : Type} (a : α) : Cuts (Pure.pure a) (fun v l => v = a ∧ l = []) :=
  (Cuts.lift (.ok a)).mono fun v l h => ⟨by cases h.1; rfl, h.2⟩

theorem Cuts.err {α : Type} (e : Err) : Cuts (Rd.lift (.err e) : Rd α) (fun _ _ => False) :=
  (Cuts.lift _).mono (by simp)

theorem Cuts.bind {α β : Type} {m : Rd α} {f : α → Rd β} {S : α → List PartKind → Prop}
    {T : α → β → List PartKind → Prop} (hm : Cuts m S) (hf : ∀ a, Cuts (f a) (T a)) :
    Cuts (m >>= f) (fun v l => ∃ a l1 l2, l = l1 ++ l2 ∧ S a l1 ∧ T a v l2) := by
  intro r v r' h
  obtain ⟨a, r1, h1, h2⟩ := Rd.bind_ok.mp h
  obtain ⟨ps, s1, f1, a1, rfl, c1⟩ := hm _ _ _ h1
  obtain ⟨qs, s2, f2, a2, rfl, c2⟩ := hf a _ _ _ h2
  refine ⟨ps ++ qs, ⟨a, _, _, by simp, s1, s2⟩, fun q hq => (List.mem_append.mp hq).elim (f1 q) (f2 q), ?_, ?_, ?_⟩
  · rw [partBytes_append]; exact at_append.mpr ⟨a1, a2⟩
  · rw [partBytes_append, adv_append]
  · intro n
    by_cases hn : n < (partBytes ps).length
    · refine ⟨fun _ => ?_, fun h => ?_⟩
      · have := (c1 n).1 hn
        rcases hx : m (cutTo r n) with ⟨x, r2⟩
        rw [hx] at this
        simp only at this
        subst this
        rw [Rd.bind_of_err hx, cutError_append_lt hn]
      · rw [partBytes_append, List.length_append] at h; omega
    · have hok := (c1 n).2 (by omega)
      rw [Rd.bind_of_ok hok, cutTo_adv (by omega)]
      refine ⟨fun h => ?_, fun h => ?_⟩
      · rw [partBytes_append, List.length_append] at h
        rw [(c2 _).1 (by omega), cutError_append_ge (by omega)]
      · rw [partBytes_append, List.length_append] at h
        rw [(c2 _).2 (by omega), partBytes_append, adv_append, ← cutTo_adv (by omega)]

theorem Cuts.ite {α : Type} {c : Prop} [Decidable c] {p q : Rd α} {S T : α → List PartKind → Prop}
    (hp : c → Cuts p S) (hq : ¬ c → Cuts q T) :
    Cuts (if c then p else q) (fun v l => (c ∧ S v l) ∨ (¬ c ∧ T v l)) := by
  by_cases h : c
  · simp only [h, if_true]
    exact (hp h).mono (by simp)
  · simp only [h, if_false]
    exact (hq h).mono (by simp)

/-- One part: what is accepted is known, and so is the error on the beginning of it. -/
theorem Cuts.one {α : Type} {p : Rd α} {G : α → Bytes → Prop} (hp : Parses p G) {kd : PartKind}
    (part : ∀ v w, G v w → ∃ q : Part, q.kind = kd ∧ q.Fits ∧ q.bytes = w)
    (hcut : ∀ r v w n, G v w → At r w → n < w.length →
      (p (cutTo r n)).1 = .err (if n = 0 ∨ kd = .bare then .unexpectedEof else .invalidFormat)) :
    Cuts p (fun _ l => l = [kd]) := by
  intro r v r' h
  obtain ⟨w, g, hat, rfl⟩ := (hp _ _ _).mp h
  obtain ⟨q, hk, hfit, rfl⟩ := part v w g
  have hb : partBytes [q] = q.bytes := by simp [partBytes]
  refine ⟨[q], by simp [hk], by simp [hfit], by rwa [hb], by rw [hb], fun n => ⟨fun hn => ?_, fun hn => ?_⟩⟩
  · rw [hb] at hn
    rw [hcut r v _ n g hat hn]
    simp only [cutError, hk, if_pos hn]
    by_cases h0 : n = 0
    · simp [h0]
    · by_cases h1 : kd = .bare <;> simp [h0, h1]
  · rw [hb] at hn ⊢
    exact (hp _ _ _).mpr ⟨_, g, at_cutTo hat hn, rfl⟩

theorem readBytes_cuts : Cuts readBytes (fun _ l => l = [.string]) := by
  refine Cuts.one readBytes_parses (fun v w g => ⟨.string v, rfl, g.1, g.2.symm⟩) ?_
  rintro r v w n ⟨hl, rfl⟩ hat hn
  obtain ⟨h1, h2⟩ := cutTo_length hat hn
  rw [readBytes_eq, h1]
  have e : (cutTo r n).offset = r.offset := rfl
  rw [e, h2]
  by_cases h0 : n = 0
  · simp [h0]
  simp only [List.length_append, u32_length] at hn
  rw [if_neg (by omega)]
  simp only [List.length_take, List.length_append, u32_length, h0, false_or]
  by_cases h4 : n < 4
  · rw [if_pos (by omega)]; simp
  · have e4 : ((u32 v.length ++ v).take n).take 4 = u32 v.length := by
      rw [List.take_take, Nat.min_eq_left (by omega), List.take_left' (by simp)]
    rw [if_neg (by omega), e4, u32_eq, natOf_beBytes, if_pos (by omega)]; simp

theorem readU32_cuts : Cuts readU32 (fun _ l => l = [.uint32]) := by
  refine Cuts.one readU32_parses (fun v w g => ⟨.uint32 v.toNat, rfl, v.toNat_lt, g.symm⟩) ?_
  rintro r v w n rfl hat hn
  obtain ⟨h1, h2⟩ := cutTo_length hat hn
  rw [readU32_eq, h1]
  have e : (cutTo r n).offset = r.offset := rfl
  rw [e, h2]
  simp only [u32_length] at hn
  by_cases h0 : n = 0
  · simp [h0]
  rw [if_neg (by omega), if_pos (by simp; omega)]
  simp [h0]

theorem readU64_cuts : Cuts readU64 (fun _ l => l = [.uint64]) := by
  refine Cuts.one readU64_parses (fun v w g => ⟨.uint64 v.toNat, rfl, v.toNat_lt, g.symm⟩) ?_
  rintro r v w n rfl hat hn
  obtain ⟨h1, h2⟩ := cutTo_length hat hn
  rw [readU64_eq, h1]
  have e : (cutTo r n).offset = r.offset := rfl
  rw [e, h2]
  simp only [u64_length] at hn
  by_cases h0 : n = 0
  · simp [h0]
  rw [if_neg (by omega), if_pos (by simp; omega)]
  simp [h0]

theorem readRawBytes_cuts {k : Nat} (hk : 0 < k) : Cuts (readRawBytes k) (fun v l => v.length = k ∧ l = [.bare]) := by
  have := Cuts.one (kd := .bare) (readRawBytes_parses hk) (fun v w g => ⟨.bare v, rfl, trivial, g.1⟩) (by
    rintro r v w n ⟨rfl, rfl⟩ hat hn
    obtain ⟨h1, h2⟩ := cutTo_length hat hn
    rw [readRawBytes_eq, h1]
    have e : (cutTo r n).offset = r.offset := rfl
    rw [e, if_pos (by omega)]
    simp)
  intro r v r' h
  obtain ⟨ps, h1, h2⟩ := this r v r' h
  obtain ⟨w, ⟨rfl, hl⟩, _⟩ := (readRawBytes_parses hk _ _ _).mp h
  exact ⟨ps, ⟨hl, h1⟩, h2⟩

theorem readCstring_cuts : Cuts readCstring (fun _ l => l = [.bare]) := by
  refine Cuts.one readCstring_parses (fun v w g => ⟨.bare w, rfl, trivial, rfl⟩) ?_
  intro r v w n g hat hn
  simp only [or_true, if_true]
  rcases cstringLoop_cases (cutTo r n).inner (cutTo r n).offset [] with ⟨⟨x, o⟩, hx⟩ | hx
  · exfalso
    have h1 : readCstring (cutTo r n) = (.ok x, { cutTo r n with offset := o }) := by
      unfold readCstring; rw [hx]; rfl
    obtain ⟨w', g', hat', _⟩ := (readCstring_parses _ _ _).mp h1
    have h2 := (readCstring_parses r x _).mpr ⟨w', g', at_of_cutTo hat', rfl⟩
    have h3 := (readCstring_parses r v _).mpr ⟨w, g, hat, rfl⟩
    rw [h3] at h2
    simp only [Prod.mk.injEq, Res.ok.injEq, adv, Reader.mk.injEq, true_and] at h2
    obtain ⟨rest, hr⟩ := hat'
    have := congrArg List.length hr
    have hl := (cutTo_length hat hn).1
    have e : (cutTo r n).offset = r.offset := rfl
    simp only [List.length_drop, List.length_append, hl, e] at this
    omega
  · unfold readCstring; rw [hx]; rfl

theorem readString_cuts : Cuts readString (fun _ l => l = [.string]) := by
  unfold readString
  refine (Cuts.bind (T := fun _ _ l => l = []) readBytes_cuts ?_).mono ?_
  · intro b
    cases fromUtf8 b with
    | none => exact (Cuts.err _).mono (by simp)
    | some s => exact (Cuts.pure s).mono fun _ _ h => h.2
  · rintro v l ⟨_, l1, l2, rfl, rfl, rfl⟩; rfl

theorem readPositiveMpint_cuts : Cuts readPositiveMpint (fun _ l => l = [.string]) := by
  rw [readPositiveMpint_eq]
  refine (Cuts.bind readBytes_cuts fun b => Cuts.lift _).mono ?_
  rintro v l ⟨_, l1, l2, rfl, rfl, _, rfl⟩; rfl

theorem readApplication_cuts (sk : Bool) :
    Cuts (PublicKey.readApplication sk) (fun v l => l = if v.isSome then [.string] else []) := by
  unfold PublicKey.readApplication
  cases sk with
  | false =>
    refine (Cuts.pure _).mono ?_
    rintro v l ⟨rfl, rfl⟩; rfl
  | true =>
    refine (Cuts.bind readString_cuts fun s => Cuts.pure _).mono ?_
    rintro v l ⟨_, l1, l2, rfl, rfl, rfl, rfl⟩; rfl

theorem readKind_cuts (kt : KeyType) : Cuts (PublicKey.readKind kt) (fun v l => l = keyParts v) := by
  unfold PublicKey.readKind
  cases hk : kt.kind with
  | rsa | rsaCert =>
    refine (Cuts.bind readPositiveMpint_cuts fun e => Cuts.bind readPositiveMpint_cuts fun n => Cuts.pure _).mono ?_
    rintro v l ⟨_, l1, l2, rfl, rfl, _, l3, l4, rfl, rfl, rfl, rfl⟩; rfl
  | ecdsa | ecdsaCert =>
    refine (Cuts.bind readString_cuts fun s => Cuts.bind (Cuts.lift _) fun c => Cuts.bind readBytes_cuts fun k =>
      Cuts.bind (readApplication_cuts kt.isSk) fun n => Cuts.pure _).mono ?_
    rintro v l ⟨_, l1, l2, rfl, rfl, _, _, _, rfl, ⟨_, rfl⟩, _, _, _, rfl, rfl, app, _, _, rfl, rfl, rfl, rfl⟩
    cases app <;> rfl
  | ed25519 | ed25519Cert =>
    refine (Cuts.bind readBytes_cuts fun k =>
      Cuts.bind (readApplication_cuts kt.isSk) fun n => Cuts.pure _).mono ?_
    rintro v l ⟨_, _, _, rfl, rfl, app, _, _, rfl, rfl, rfl, rfl⟩
    cases app <;> rfl

theorem pubFromReader_cuts (n : String) : Cuts (PublicKey.fromReader n) (fun k l => l = keyParts k.kind) := by
  unfold PublicKey.fromReader
  refine (Cuts.bind (Cuts.lift _) fun kt => Cuts.bind (readKind_cuts kt) fun k => Cuts.pure _).mono ?_
  rintro v l ⟨kt, l1, l2, rfl, ⟨_, rfl⟩, k, l3, l4, rfl, rfl, rfl, rfl⟩
  simp

theorem keyBlob_cuts : Cuts (readString >>= fun n => PublicKey.fromReader n)
    (fun k l => l = .string :: keyParts k.kind) := by
  refine (Cuts.bind readString_cuts fun n => pubFromReader_cuts n).mono ?_
  rintro v l ⟨_, l1, l2, rfl, rfl, rfl⟩; rfl

theorem readCertType_cuts : Cuts Certificate.readCertType (fun _ l => l = [.uint32]) := by
  unfold Certificate.readCertType
  refine (Cuts.bind readU32_cuts fun n => Cuts.ite (fun _ => Cuts.pure CertType.user) (fun _ =>
    Cuts.ite (fun _ => Cuts.pure CertType.host) (fun _ => Cuts.err _))).mono ?_
  rintro v l ⟨_, _, _, rfl, rfl, h⟩
  rcases h with ⟨_, _, rfl⟩ | ⟨_, h⟩
  · rfl
  rcases h with ⟨_, _, rfl⟩ | ⟨_, h⟩
  · rfl
  · exact h.elim

/-- The parts of a certificate before the signature. -/
def bodyParts (k : PublicKeyKind) : List PartKind :=
  [.string, .string] ++ (keyParts k ++ [.uint64, .uint32, .string, .string, .uint64, .uint64, .string, .string,
    .string, .string])

theorem certBody_cuts : Cuts certBody (fun c l => l = bodyParts c.key.kind) := by
  unfold certBody
  refine (Cuts.bind readString_cuts fun n => Cuts.bind (Cuts.lift _) fun kt =>
    Cuts.ite (fun _ => Cuts.err _) (fun _ =>
    Cuts.bind readBytes_cuts fun nonce => Cuts.bind (pubFromReader_cuts _) fun key =>
    Cuts.bind readU64_cuts fun serial => Cuts.bind readCertType_cuts fun ct =>
    Cuts.bind readString_cuts fun id => Cuts.bind readBytes_cuts fun pbuf => Cuts.bind (Cuts.lift _) fun ps =>
    Cuts.bind readU64_cuts fun va => Cuts.bind readU64_cuts fun vb =>
    Cuts.bind readBytes_cuts fun cbuf => Cuts.bind (Cuts.lift _) fun co =>
    Cuts.bind readBytes_cuts fun ebuf => Cuts.bind (Cuts.lift _) fun ex =>
    Cuts.bind readBytes_cuts fun res => Cuts.bind readBytes_cuts fun sbuf =>
    Cuts.bind (Cuts.lift _) fun sk => Cuts.pure _)).mono ?_
  rintro v l ⟨_, _, _, rfl, rfl, _, _, _, rfl, ⟨_, rfl⟩, h⟩
  rcases h with ⟨_, h⟩ | ⟨_, h⟩
  · exact h.elim
  obtain ⟨_, _, _, rfl, rfl, k, _, _, rfl, rfl, h⟩ := h
  obtain ⟨_, _, _, rfl, rfl, _, _, _, rfl, rfl, h⟩ := h
  obtain ⟨_, _, _, rfl, rfl, _, _, _, rfl, rfl, h⟩ := h
  obtain ⟨_, _, _, rfl, ⟨_, rfl⟩, _, _, _, rfl, rfl, h⟩ := h
  obtain ⟨_, _, _, rfl, rfl, _, _, _, rfl, rfl, h⟩ := h
  obtain ⟨_, _, _, rfl, ⟨_, rfl⟩, _, _, _, rfl, rfl, h⟩ := h
  obtain ⟨_, _, _, rfl, ⟨_, rfl⟩, _, _, _, rfl, rfl, h⟩ := h
  obtain ⟨_, _, _, rfl, rfl, _, _, _, rfl, ⟨_, rfl⟩, rfl, rfl⟩ := h
  simp [bodyParts]

theorem sigFromReader_cuts : Cuts SshSignature.fromReader
    (fun _ l => l = [.bare, .uint32, .string, .string, .string, .string, .string]) := by
  unfold SshSignature.fromReader
  refine (Cuts.bind (readRawBytes_cuts (by decide)) fun pre => Cuts.ite (fun _ => Cuts.err _) fun _ =>
    Cuts.bind readU32_cuts fun ver => Cuts.ite (fun _ => Cuts.err _) fun _ =>
    Cuts.bind readBytes_cuts fun pbuf => Cuts.bind (Cuts.lift _) fun pubkey =>
    Cuts.bind readString_cuts fun ns => Cuts.ite (fun _ => Cuts.err _) fun _ =>
    Cuts.bind readString_cuts fun res => Cuts.bind readString_cuts fun h =>
    Cuts.bind (Cuts.lift _) fun ha => Cuts.bind readBytes_cuts fun sig => Cuts.pure _).mono ?_
  rintro v l ⟨_, _, _, rfl, ⟨_, rfl⟩, h⟩
  rcases h with ⟨_, h⟩ | ⟨_, _, _, _, rfl, rfl, h⟩
  · exact h.elim
  rcases h with ⟨_, h⟩ | ⟨_, _, _, _, rfl, rfl, _, _, _, rfl, ⟨_, rfl⟩, _, _, _, rfl, rfl, h⟩
  · exact h.elim
  rcases h with ⟨_, h⟩ | ⟨_, _, _, _, rfl, rfl, _, _, _, rfl, rfl, _, _, _, rfl, ⟨_, rfl⟩, _, _, _, rfl, rfl, _, rfl⟩
  · exact h.elim
  rfl

theorem framed_cuts {α : Type} (g : Bytes → Res α) (h0 : ∀ v, g [] ≠ .ok v) :
    Cuts (do let len ← Reader.readU32
             let rem ← Reader.readRawBytes len.toNat
             Rd.lift (g rem)) (fun _ l => l = [.uint32, .bare]) := by
  refine (Cuts.bind (T := fun _ _ l => l = [.bare]) readU32_cuts ?_).mono ?_
  · intro len
    by_cases hl : 0 < len.toNat
    · refine (Cuts.bind (readRawBytes_cuts hl) fun rem => Cuts.lift _).mono ?_
      rintro v l ⟨_, _, _, rfl, ⟨_, rfl⟩, _, rfl⟩; rfl
    · intro r v r' h
      obtain ⟨rem, r2, h3, h4⟩ := Rd.bind_ok.mp h
      simp only [Rd.lift_eq, Prod.mk.injEq] at h4
      have hz : len.toNat = 0 := by omega
      rw [hz, readRawBytes_eq] at h3
      split at h3
      · simp at h3
      · simp only [List.take_zero, Prod.mk.injEq, Res.ok.injEq] at h3
        rw [← h3.1] at h4
        exact absurd h4.1 (h0 v)
  · rintro v l ⟨_, _, _, rfl, rfl, rfl⟩; rfl

theorem keyFile_cuts (F : Features) (C : Crypto) (pass : Option String) : Cuts (PrivateKey.fromReader F C pass)
    (fun _ l => l = [.bare, .string, .string, .string, .uint32, .string, .uint32, .bare]) := by
  rw [fromReader_eq]
  refine (Cuts.bind readCstring_cuts fun pre => Cuts.ite (fun _ => Cuts.err _) fun _ =>
    Cuts.bind readString_cuts fun cipher => Cuts.bind readString_cuts fun kdf =>
    Cuts.bind readBytes_cuts fun encData => Cuts.bind readU32_cuts fun count =>
    Cuts.ite (fun _ => Cuts.err _) fun _ => Cuts.bind readBytes_cuts fun pbuf =>
    Cuts.bind (Cuts.lift _) fun pubkey => framed_cuts _ fun v => openEncrypted_nil_ok).mono ?_
  rintro v l ⟨_, _, _, rfl, rfl, h⟩
  rcases h with ⟨_, h⟩ | ⟨_, _, _, _, rfl, rfl, _, _, _, rfl, rfl, _, _, _, rfl, rfl, _, _, _, rfl, rfl, h⟩
  · exact h.elim
  rcases h with ⟨_, h⟩ | ⟨_, _, _, _, rfl, rfl, _, _, _, rfl, ⟨_, rfl⟩, rfl⟩
  · exact h.elim
  rfl

theorem readSk_cuts : Cuts PrivateKey.readSk (fun _ l => l = [.bare, .string, .string]) := by
  unfold PrivateKey.readSk
  refine (Cuts.bind (readRawBytes_cuts (by decide)) fun fl => Cuts.bind (Cuts.lift _) fun flags =>
    Cuts.bind readBytes_cuts fun handle => Cuts.bind readBytes_cuts fun res => Cuts.pure _).mono ?_
  rintro v l ⟨_, _, _, rfl, ⟨_, rfl⟩, _, _, _, rfl, ⟨_, rfl⟩, _, _, _, rfl, rfl, _, _, _, rfl, rfl, _, rfl⟩
  rfl

theorem privKind_cuts (F : Features) (kt : KeyType) :
    Cuts (PrivateKey.readKind F kt) (fun v l => l = privParts v.1) := by
  unfold PrivateKey.readKind
  cases hk : kt.kind with
  | rsa =>
    refine (Cuts.bind readPositiveMpint_cuts fun n => Cuts.bind readPositiveMpint_cuts fun e =>
      Cuts.bind readPositiveMpint_cuts fun d => Cuts.bind readPositiveMpint_cuts fun c =>
      Cuts.bind readPositiveMpint_cuts fun p => Cuts.bind readPositiveMpint_cuts fun q =>
      Cuts.bind (Cuts.lift _) fun exp => Cuts.bind (Cuts.lift _) fun exq => Cuts.pure _).mono ?_
    rintro v l ⟨_, _, _, rfl, rfl, _, _, _, rfl, rfl, _, _, _, rfl, rfl, _, _, _, rfl, rfl, _, _, _, rfl, rfl,
      _, _, _, rfl, rfl, _, _, _, rfl, ⟨_, rfl⟩, _, _, _, rfl, ⟨_, rfl⟩, rfl, rfl⟩
    rfl
  | ecdsa =>
    refine (Cuts.bind readString_cuts fun id => Cuts.bind (Cuts.lift _) fun c => Cuts.bind readBytes_cuts fun pk =>
      Cuts.ite (fun _ => Cuts.bind readString_cuts fun app => Cuts.bind readSk_cuts fun k => Cuts.pure _)
        (fun _ => Cuts.bind readBytes_cuts fun k => Cuts.pure _)).mono ?_
    rintro v l ⟨_, _, _, rfl, rfl, _, _, _, rfl, ⟨_, rfl⟩, _, _, _, rfl, rfl, h⟩
    rcases h with ⟨_, _, _, _, rfl, rfl, _, _, _, rfl, rfl, rfl, rfl⟩ | ⟨_, _, _, _, rfl, rfl, rfl, rfl⟩ <;> rfl
  | ed25519 =>
    refine (Cuts.bind readBytes_cuts fun pk =>
      Cuts.ite (fun _ => Cuts.bind readString_cuts fun app => Cuts.bind readSk_cuts fun k => Cuts.pure _)
        (fun _ => Cuts.bind readBytes_cuts fun k => Cuts.pure _)).mono ?_
    rintro v l ⟨_, _, _, rfl, rfl, h⟩
    rcases h with ⟨_, _, _, _, rfl, rfl, _, _, _, rfl, rfl, rfl, rfl⟩ | ⟨_, _, _, _, rfl, rfl, rfl, rfl⟩ <;> rfl
  | _ => exact (Cuts.err _).mono (by simp)

theorem readPrivateKey_cuts (F : Features) : Cuts (PrivateKey.readPrivateKey F)
    (fun k l => l = .string :: (privParts k.kind ++ [.string])) := by
  unfold PrivateKey.readPrivateKey
  refine (Cuts.bind readString_cuts fun name => Cuts.bind (Cuts.lift _) fun kt =>
    Cuts.bind (privKind_cuts F kt) fun kp => Cuts.bind readString_cuts fun comment => Cuts.pure _).mono ?_
  rintro v l ⟨_, _, _, rfl, rfl, _, _, _, rfl, ⟨_, rfl⟩, _, _, _, rfl, rfl, _, _, _, rfl, rfl, rfl, rfl⟩
  rfl

theorem cutTo_new (data : Bytes) (n : Nat) : cutTo (Reader.new data) n = Reader.new (data.take n) := by
  simp [cutTo, Reader.new]

/-- From readers to whole buffers. -/
theorem Cuts.run {α : Type} {p : Rd α} {S : α → List PartKind → Prop} (hp : Cuts p S) {data : Bytes} {v : α}
    (h : (p (Reader.new data)).1 = .ok v) :
    ∃ l, S v l ∧ CutBehaviour (fun b => (p (Reader.new b)).1) data (fun _ => v) l := by
  obtain ⟨ps, h1, h2, h3, _, h4⟩ := hp (Reader.new data) v (p (Reader.new data)).2 (by rw [← h])
  obtain ⟨rest, h3⟩ := at_new.mp h3
  refine ⟨_, h1, ps, rest, rfl, h2, h3, fun n => ?_⟩
  have := h4 n
  rw [cutTo_new] at this
  exact ⟨this.1, fun hn => congrArg Prod.fst (this.2 hn)⟩

end Ssh
