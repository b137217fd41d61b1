import Verif.Spec.Utils
import Verif.Model.Utils
import Verif.Lemmas.Verify

/-! # src/utils.rs -/

namespace Ssh

open Spec Reader

theorem frame_eq_str (b : Bytes) : frame b = str b := rfl
theorem frameStr_eq_text (s : String) : frameStr s = text s := rfl

/-- The part after `r`. -/
def derTail (r : Bytes) : Bytes → Option (Bytes × Bytes)
  | c0 :: sl :: s0 :: s => if c0 = 0x02 ∧ s.length + 1 = sl.toNat then some (r, s0 :: s) else none
  | _ => none

theorem asnDerToRS_cons (b0 b1 b2 rl : UInt8) (t : Bytes) : asnDerToRS (b0 :: b1 :: b2 :: rl :: t) =
    .ok (if b0 = 0x30 ∧ b2 = 0x02 ∧ rl.toNat + 1 ≤ t.length then derTail (t.take rl.toNat) (t.drop rl.toNat)
      else none) := by
  unfold asnDerToRS
  simp only [List.length_cons, index, List.getElem?_cons_zero, List.getElem?_cons_succ, Res.unwrap,
    Res.ok_bind, Res.pure_eq, sliceFrom, List.drop_succ_cons, List.drop_zero]
  rw [if_neg (by omega)]
  by_cases h0 : b0 = 0x30
  rotate_left
  · simp [h0]
  by_cases h2 : b2 = 0x02
  rotate_left
  · simp [h0, h2]
  subst h0 h2
  simp only [ne_eq, not_true_eq_false, if_false, true_and]
  rw [if_pos (by omega)]
  simp only [Res.ok_bind, List.length_cons, List.getElem?_cons_zero, List.drop_succ_cons, List.drop_zero]
  by_cases hl : t.length + 1 < rl.toNat + 2
  · rw [if_pos hl, if_neg (by omega)]
  rw [if_neg hl, if_pos (by omega : rl.toNat + 1 ≤ t.length), if_pos (by omega)]
  simp only [Res.ok_bind]
  rw [slice_ok (by omega) (by omega)]
  simp only [Res.ok_bind]
  rw [if_pos (by omega)]
  simp only [Res.ok_bind, List.drop_zero, Nat.sub_zero]
  match hd : t.drop rl.toNat with
  | [] | [_] | [_, _] => all_goals simp [derTail]
  | c0 :: sl :: s0 :: s =>
    rw [if_neg (by simp)]
    simp only [List.getElem?_cons_zero, List.getElem?_cons_succ, Res.ok_bind, List.length_cons,
      List.drop_succ_cons, List.drop_zero, derTail]
    by_cases hc : c0 = 0x02
    rotate_left
    · simp [hc]
    subst hc
    simp only [not_true_eq_false, if_false, true_and]
    rw [if_pos (by omega)]
    simp only [Res.ok_bind, List.length_cons]
    by_cases hs : s.length + 1 = sl.toNat
    · rw [if_neg (by simpa using hs), if_pos hs]
    · rw [if_pos (by simpa using hs), if_neg hs]

theorem asnDerToRS_short {buf : Bytes} (h : buf.length < 4) : asnDerToRS buf = .ok none := by
  unfold asnDerToRS
  rw [if_pos h]
  rfl

theorem asnDerToRS_noPanic (buf : Bytes) : asnDerToRS buf ≠ .panic := by
  match buf with
  | [] | [_] | [_, _] | [_, _, _] => all_goals rw [asnDerToRS_short (by simp)]; simp
  | _ :: _ :: _ :: _ :: _ => rw [asnDerToRS_cons]; simp

/-- What `asn_der_to_r_s` accepts. -/
theorem asnDerToRS_ok {buf r s : Bytes} : asnDerToRS buf = .ok (some (r, s)) ↔
    ∃ l : UInt8, r.length < 256 ∧ s.length < 256 ∧ s ≠ [] ∧
      buf = [0x30, l, 0x02, UInt8.ofNat r.length] ++ (r ++ ([0x02, UInt8.ofNat s.length] ++ s)) := by
  constructor
  · intro h
    match buf with
    | [] | [_] | [_, _] | [_, _, _] => all_goals rw [asnDerToRS_short (by simp)] at h; simp at h
    | b0 :: b1 :: b2 :: rl :: t =>
      rw [asnDerToRS_cons] at h
      simp only [Res.ok.injEq] at h
      split at h
      · rename_i hc
        obtain ⟨rfl, rfl, hl⟩ := hc
        have ht := List.take_append_drop rl.toNat t
        have hlen : (t.take rl.toNat).length = rl.toNat := by rw [List.length_take]; omega
        generalize t.take rl.toNat = r' at *
        have hrl := rl.toNat_lt
        match hd : t.drop rl.toNat with
        | [] | [_] | [_, _] => all_goals rw [hd] at h; simp [derTail] at h
        | c0 :: sl :: s0 :: s' =>
          rw [hd] at h ht
          simp only [derTail] at h
          split at h
          · rename_i hc
            obtain ⟨rfl, hs⟩ := hc
            have hsl := sl.toNat_lt
            simp only [Option.some.injEq, Prod.mk.injEq] at h
            obtain ⟨rfl, rfl⟩ := h
            refine ⟨b1, by omega, by simp; omega, by simp, ?_⟩
            rw [hlen, List.length_cons, hs, UInt8.ofNat_toNat, UInt8.ofNat_toNat, ← ht]
            simp
          · cases h
      · cases h
  · rintro ⟨l, h1, h2, h3, rfl⟩
    match s, h3 with
    | s0 :: s', _ =>
      simp only [List.cons_append, List.nil_append]
      rw [asnDerToRS_cons]
      have e1 : (UInt8.ofNat r.length).toNat = r.length := by rw [u8_ofNat_toNat]; omega
      have e2 : (UInt8.ofNat (s0 :: s').length).toNat = (s0 :: s').length := by rw [u8_ofNat_toNat]; omega
      rw [e1, if_pos ⟨rfl, rfl, by simp⟩, List.take_left, List.drop_left]
      simp only [derTail, e2]
      simp

theorem signatureConvert_eq (sig : Bytes) : ∃ o, asnDerToRS sig = .ok o ∧
    signatureConvertAsn1EcdsaToSsh sig = .ok (o.map fun rs => str rs.1 ++ str rs.2) := by
  cases h : asnDerToRS sig with
  | panic => exact absurd h (asnDerToRS_noPanic _)
  | err e =>
    match sig with
    | [] | [_] | [_, _] | [_, _, _] => all_goals rw [asnDerToRS_short (by simp)] at h; simp at h
    | _ :: _ :: _ :: _ :: _ => rw [asnDerToRS_cons] at h; simp at h
  | ok o =>
    refine ⟨o, rfl, ?_⟩
    unfold signatureConvertAsn1EcdsaToSsh
    rw [h]
    cases o with
    | none => rfl
    | some rs => simp [str, u32_eq]

theorem formatSignature_noPanic (k : PublicKey) (sig : Bytes) : formatSignatureForSsh k sig ≠ .panic := by
  unfold formatSignatureForSsh
  cases k.kind with
  | rsa e n => simp
  | ed25519 key app => simp
  | ecdsa c key app =>
    obtain ⟨o, _, h⟩ := signatureConvert_eq sig
    simp only [h, Res.ok_bind]
    cases o <;> simp

theorem formatSignature_ecdsa {k : PublicKey} {c : Curve} {key : Bytes} {app : Option String}
    (hk : k.kind = .ecdsa c key app) {r s der : Bytes} (h : DerPair r s der) (hs : s ≠ []) :
    formatSignatureForSsh k der = .ok (some (text k.keyType.name ++ str (str r ++ str s))) := by
  obtain ⟨h1, h2⟩ := h
  have hok : asnDerToRS der = .ok (some (r, s)) := 
    asnDerToRS_ok.mpr ⟨UInt8.ofNat (r.length + s.length + 4), by omega, by omega, hs, by rw [h2]; simp⟩
  obtain ⟨o, h3, h4⟩ := signatureConvert_eq der
  rw [hok] at h3
  cases h3
  unfold formatSignatureForSsh
  rw [hk]
  simp only [h4, Res.ok_bind, Option.map_some, Res.pure_eq, Writer.writeBytes_inner, Writer.writeString_inner,
    Writer.new_inner, List.nil_append]
  rfl

theorem formatSignature_ed25519 {k : PublicKey} {key : Bytes} {app : Option String}
    (hk : k.kind = .ed25519 key app) (sig : Bytes) :
    formatSignatureForSsh k sig = .ok (some (text k.keyType.name ++ str sig)) := by
  unfold formatSignatureForSsh
  rw [hk]
  simp only [Writer.writeBytes_inner, Writer.writeString_inner, Writer.new_inner, List.nil_append]
  rfl

theorem formatSignature_rsa {k : PublicKey} {e n : Bytes} (hk : k.kind = .rsa e n) (sig : Bytes) :
    formatSignatureForSsh k sig = .ok (some (text "rsa-sha2-512" ++ str sig)) := by
  unfold formatSignatureForSsh
  rw [hk]
  simp only [Writer.writeBytes_inner, Writer.writeString_inner, Writer.new_inner, List.nil_append]
  rfl

theorem ecdsaLabels_unique : ∀ a ∈ ecdsaLabels, ∀ b ∈ ecdsaLabels, a.1 = b.1 → a = b := by decide +kernel

theorem ecdsaLabels_small : ∀ a ∈ ecdsaLabels, a.1.utf8ByteSize < 100 := by decide +kernel

theorem mpint_of_payload {p : Bytes} (h : MpintPayload p) (hl : p.length < 4294967296) :
    ∃ v, Mpint v (str p) ∧ natOf v = natOf p := by
  refine ⟨stripZeros p, ⟨stripZeros_shortest p, p, ⟨hl, rfl⟩, h, ?_⟩, natOf_stripZeros p⟩
  rw [natOf_stripZeros]

/-- An ECDSA blob made of canonical integers: verification hands exactly their fixed-width forms to the
primitive. -/
theorem accepts_ecdsa {C : Crypto} {k : PublicKey} {c : Curve} {key : Bytes} {app : Option String}
    (hk : k.kind = .ecdsa c key app) (hkt : k.keyType.kind = .ecdsa) {label : String} {alg : EcAlg} {len : Nat}
    (hl : (label, alg, len) ∈ ecdsaLabels) {pr ps : Bytes} (hpr : MpintPayload pr) (hps : MpintPayload ps)
    (hlr : pr.length < 1000) (hls : ps.length < 1000) {fr fs : Bytes} (hfr : NatWidth len (natOf pr) fr)
    (hfs : NatWidth len (natOf ps) fs) (msg tail : Bytes) :
    Accepts C k msg (text label ++ (str (str pr ++ str ps) ++ tail)) ↔
      ∃ m w rest, tail = w ++ rest ∧ PrimitiveMessage C app msg m w ∧ C.ecdsaVerify alg key m (fr ++ fs) = true := by
  have ht : Text label (text label) := Text.of (by rw [strBytes_length]; have := ecdsaLabels_small _ hl; simp at this; omega)
  obtain ⟨r, hr, nr⟩ := mpint_of_payload hpr (by omega)
  obtain ⟨s, hs, ns⟩ := mpint_of_payload hps (by omega)
  have hf : Frame (str pr ++ str ps) (str (str pr ++ str ps)) := ⟨by simp [str]; omega, rfl⟩
  constructor
  · rintro ⟨label', w1, w2, w3, rest, e, ht', hv⟩
    obtain ⟨rfl, rfl, e1⟩ := readString_parses.unique ht ht' e
    rw [hk] at hv
    obtain ⟨_, alg', len', x1, x2, junk, r', s', fr', fs', m, hl', hf', hr', hs', hfr', hfs', hm, hv⟩ := hv
    obtain ⟨e2, rfl, e3⟩ := readBytes_parses.unique hf hf' e1
    cases ecdsaLabels_unique _ hl _ hl' rfl
    obtain ⟨rfl, rfl, e4⟩ := readPositiveMpint_parses.unique hr hr' e2
    rw [← List.append_nil (str ps)] at e4
    obtain ⟨rfl, rfl, _⟩ := readPositiveMpint_parses.unique hs hs' e4
    have e5 : fr = fr' := natOf_inj (hfr.1.trans hfr'.1.symm) (by rw [hfr.2, hfr'.2, nr])
    have e6 : fs = fs' := natOf_inj (hfs.1.trans hfs'.1.symm) (by rw [hfs.2, hfs'.2, ns])
    subst e5 e6
    exact ⟨m, w3, rest, e3, hm, hv⟩
  · rintro ⟨m, w, rest, rfl, hm, hv⟩
    refine ⟨label, text label, str (str pr ++ str ps), w, rest, rfl, ht, ?_⟩
    rw [hk]
    exact ⟨hkt, alg, len, str pr, str ps, [], r, s, fr, fs, m, hl, by rw [List.append_nil]; exact hf, hr, hs,
      ⟨hfr.1, by rw [hfr.2, nr]⟩, ⟨hfs.1, by rw [hfs.2, ns]⟩, hm, hv⟩

end Ssh
