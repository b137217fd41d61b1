import Verif.Concrete.X509
import Verif.Concrete.Rsa
import Verif.Spec.KeyInfo
import Verif.Lemmas.Asn1

/-! # The DER parser of X509.lean reads keys, certificates and requests -/

namespace Ssh.Concrete

open Ssh.Spec

/-- An object with the given tag and contents. -/
def tlv (tag : UInt8) (content : Bytes) : Bytes := tag :: (derLength content.length ++ content)

theorem tlv_spec (tag : UInt8) (content : Bytes) : Tlv tag content (tlv tag content) := ⟨_, derLen_spec _, rfl⟩

theorem keyInfo_tlv (curve point : Bytes) :
    KeyInfo curve point (tlv 0x30 (tlv 0x30 (tlv 6 [0x2a, 0x86, 0x48, 0xce, 0x3d, 2, 1] ++ tlv 6 curve) ++ tlv 3 (0 :: point))) :=
  ⟨_, _, _, _, tlv_spec _ _, tlv_spec _ _, tlv_spec _ _, tlv_spec _ _, tlv_spec _ _⟩

theorem tlv_length {t : UInt8} {c b : Bytes} (h : Tlv t c b) : c.length + 2 ≤ b.length := by
  obtain ⟨l, h1, rfl⟩ := h
  have : l ≠ [] := by
    rcases h1 with ⟨_, rfl⟩ | ⟨_, l', rfl, _⟩ <;> simp
  have := List.length_pos_iff.mpr this
  simp only [List.length_append, List.length_cons]
  omega

theorem derNext_tlv {t : UInt8} {c b : Bytes} (h : Tlv t c b) (hb : b.length < 256 ^ 8) (rest : Bytes) :
    derNext (b ++ rest) = some (t, c, rest) := by
  have hl := tlv_length h
  obtain ⟨l, h1, rfl⟩ := h
  have := derNext_eq (tag := t) (rest := rest) h1 (by omega)
  simpa only [List.cons_append, List.append_assoc] using this

theorem derNext_tlv' {t : UInt8} {c b : Bytes} (h : Tlv t c b) (hb : b.length < 256 ^ 8) : derNext b = some (t, c, []) := by
  have := derNext_tlv h hb []
  rwa [List.append_nil] at this

theorem tlv_ne {t : UInt8} {c b : Bytes} (h : Tlv t c b) (rest : Bytes) : b ++ rest ≠ [] := by
  have := tlv_length h
  intro h
  have := (List.append_eq_nil_iff.mp h).1
  subst this
  simp at *

theorem derAll_tlv {f : Nat} {t : UInt8} {c b rest : Bytes} {tl : List (UInt8 × Bytes)} (h : Tlv t c b) (hb : b.length < 256 ^ 8)
    (h' : derAll f rest = some tl) : derAll (f + 1) (b ++ rest) = some ((t, c) :: tl) :=
  derAll_cons (tlv_ne h rest) (derNext_tlv h hb rest) h'

theorem derAll_nil (f : Nat) : derAll (f + 1) [] = some [] := by simp [derAll]

/-- Two objects. -/
theorem derAll_two {f : Nat} {t t' : UInt8} {c c' b b' : Bytes} (h : Tlv t c b) (h' : Tlv t' c' b') (hb : (b ++ b').length < 256 ^ 8)
    (hf : 3 ≤ f) : derAll f (b ++ b') = some [(t, c), (t', c')] := by
  obtain ⟨g, rfl⟩ : ∃ g, f = g + 3 := ⟨f - 3, by omega⟩
  rw [List.length_append] at hb
  have h2 := derAll_tlv (f := g + 1) h' (by omega) (derAll_nil g)
  rw [List.append_nil] at h2
  exact derAll_tlv h (by omega) h2

/-- Three objects. -/
theorem derAll_three {f : Nat} {t t' t'' : UInt8} {c c' c'' b b' b'' : Bytes} (h : Tlv t c b) (h' : Tlv t' c' b') (h'' : Tlv t'' c'' b'')
    (hb : (b ++ (b' ++ b'')).length < 256 ^ 8) (hf : 4 ≤ f) : derAll f (b ++ (b' ++ b'')) = some [(t, c), (t', c'), (t'', c'')] := by
  obtain ⟨g, rfl⟩ : ∃ g, f = g + 1 := ⟨f - 1, by omega⟩
  simp only [List.length_append] at hb
  exact derAll_tlv h (by omega) (derAll_two h' h'' (by rw [List.length_append]; omega) (by omega))

theorem derSeq_tlv {c b : Bytes} (h : Tlv 0x30 c b) (hb : b.length < 256 ^ 8) : derSeq b = derAll (c.length + 1) c := by
  unfold derSeq
  rw [derNext_tlv' h hb]
  rfl

theorem derWhole_tlv {t : UInt8} {c b : Bytes} (h : Tlv t c b) (hb : b.length < 256 ^ 8) (rest : Bytes) : derWhole (b ++ rest) = some (b, rest) := by
  unfold derWhole
  rw [derNext_tlv h hb rest]
  show some ((b ++ rest).take ((b ++ rest).length - rest.length), rest) = _
  rw [List.length_append, Nat.add_sub_cancel, List.take_left]

theorem derWholes_any : ∀ (l : List Bytes) (f : Nat), (∀ x ∈ l, AnyTlv x) → l.flatten.length < 256 ^ 8 → l.length < f →
    derWholes f l.flatten = some l
  | [], f + 1, _, _, _ => by simp [derWholes]
  | x :: l, f + 1, hx, hb, hf => by
    obtain ⟨t, c, h⟩ := hx x List.mem_cons_self
    rw [List.flatten_cons] at hb ⊢
    rw [List.length_append] at hb
    have ih := derWholes_any l f (fun y hy => hx y (List.mem_cons_of_mem _ hy)) (by omega) (by simp only [List.length_cons] at hf; omega)
    have hne := tlv_ne h l.flatten
    cases hb' : x ++ l.flatten with
    | nil => exact absurd hb' hne
    | cons y z =>
      unfold derWholes
      rw [← hb', derWhole_tlv h (by omega)]
      simp [ih]

theorem any_length {l : List Bytes} (h : ∀ x ∈ l, AnyTlv x) : 2 * l.length ≤ l.flatten.length := by
  induction l with
  | nil => simp
  | cons x l ih =>
    obtain ⟨t, c, hx⟩ := h x List.mem_cons_self
    have := tlv_length hx
    have := ih fun y hy => h y (List.mem_cons_of_mem _ hy)
    rw [List.flatten_cons, List.length_append, List.length_cons]
    omega

/-- The objects in an object. -/
theorem children_tlv {t : UInt8} {l : List Bytes} {b : Bytes} (h : Tlv t l.flatten b) (hl : ∀ x ∈ l, AnyTlv x) (hb : b.length < 256 ^ 8)
    (rest : Bytes) : children (b ++ rest) = some l := by
  have := tlv_length h
  have := any_length hl
  unfold children
  rw [derNext_tlv h hb rest]
  exact derWholes_any l _ hl (by omega) (by omega)

theorem children_tlv' {t : UInt8} {l : List Bytes} {b : Bytes} (h : Tlv t l.flatten b) (hl : ∀ x ∈ l, AnyTlv x) (hb : b.length < 256 ^ 8) :
    children b = some l := by
  have := children_tlv h hl hb []
  rwa [List.append_nil] at this

theorem oid_ec : oidText [0x2a, 0x86, 0x48, 0xce, 0x3d, 2, 1] = "1.2.840.10045.2.1" := by decide +kernel

theorem oid_curve : ∀ x ∈ curveContents, oidText x.2 = x.1 := by decide +kernel

/-- Key infos are read. -/
theorem spkiOf_keyInfo {oid : String} {curve point b : Bytes} (hc : (oid, curve) ∈ curveContents) (h : KeyInfo curve point b)
    (hb : b.length < 256 ^ 8) : spkiOf b = some ⟨"1.2.840.10045.2.1", some (some oid), point, b⟩ := by
  obtain ⟨o1, o2, alg, bits, h1, h2, h3, h4, h5⟩ := h
  have l1 := tlv_length h1
  have l2 := tlv_length h2
  have l3 := tlv_length h3
  have l4 := tlv_length h4
  have l5 := tlv_length h5
  rw [List.length_append] at l3 l5
  unfold spkiOf
  rw [derSeq_tlv h5 hb, derAll_two h3 h4 (by rw [List.length_append]; omega) (by rw [List.length_append]; omega)]
  have e := derAll_two h1 h2 (f := (o1 ++ o2).length + 1) (by rw [List.length_append]; omega) (by rw [List.length_append]; omega)
  simp only [Option.bind_eq_bind, Option.bind_some, e, oid_ec, oid_curve _ hc]
  rfl

theorem derObjs_nil (f : Nat) : derObjs (f + 1) [] = some [] := by simp [derObjs]

/-- One object and more. -/
theorem derObjs_tlv {f : Nat} {t : UInt8} {c b rest : Bytes} {o : DerObj} {tl : List DerObj} (h : Tlv t c b) (hb : b.length < 256 ^ 8)
    (ho : derObjOf t c (derObjs f c) = some o) (h' : derObjs f rest = some tl) : derObjs (f + 1) (b ++ rest) = some (o :: tl) := by
  have hne := tlv_ne h rest
  cases hb' : b ++ rest with
  | nil => exact absurd hb' hne
  | cons y z =>
    unfold derObjs
    rw [← hb', derNext_tlv h hb]
    simp only [Option.bind_eq_bind, Option.bind_some]
    rw [ho]
    simp [h']

/-- Key infos are read, whatever follows them. -/
theorem parseSequence_keyInfo {oid : String} {curve point b : Bytes} (hc : (oid, curve) ∈ curveContents)
    (h : KeyInfo curve point b) (hb : b.length < 256 ^ 8) (rest : Bytes) :
    ∃ o, parseSequence (b ++ rest) = some o ∧ EcDer oid point o := by
  obtain ⟨o1, o2, alg, bits, h1, h2, h3, h4, h5⟩ := h
  have l1 := tlv_length h1
  have l2 := tlv_length h2
  have l3 := tlv_length h3
  have l4 := tlv_length h4
  have l5 := tlv_length h5
  rw [List.length_append] at l3 l5
  refine ⟨_, ?_, rfl⟩
  unfold parseSequence
  rw [derNext_tlv h5 hb]
  simp only [Option.bind_eq_bind, Option.bind_some, if_true]
  obtain ⟨g, hg⟩ : ∃ g, (alg ++ bits).length + 1 = g + 4 := ⟨(alg ++ bits).length - 3, by rw [List.length_append]; omega⟩
  rw [hg]
  have e2 := derObjs_tlv (f := g + 1) (o := .oid oid) (rest := []) h2 (by omega) (by
    rw [← show oidText curve = oid from oid_curve _ hc]
    rfl) (derObjs_nil g)
  rw [List.append_nil] at e2
  have e1 := derObjs_tlv (f := g + 2) (o := .oid "1.2.840.10045.2.1") h1 (by omega) (by rw [← oid_ec]; rfl) e2
  have e4 := derObjs_tlv (f := g + 2) (o := .bitString point) (rest := []) h4 (by omega) (by
    show (if (0 : UInt8) < 8 then some (DerObj.bitString point) else none) = _
    rw [if_pos (by decide)]) (derObjs_nil (g + 1))
  rw [List.append_nil] at e4
  have e3 := derObjs_tlv (f := g + 3) (o := .seq [.oid "1.2.840.10045.2.1", .oid oid]) h3 (by omega) (by
    rw [e1]
    rfl) e4
  rw [e3]
  rfl

theorem extensionOf_der {oid value b : Bytes} (h : ExtensionDer oid value b) (hb : b.length < 256 ^ 8) :
    extensionOf b = some (oidText oid, value) := by
  obtain ⟨o, v, h1, h2, h3⟩ := h
  have l1 := tlv_length h1
  have l2 := tlv_length h2
  unfold extensionOf
  rcases h3 with h3 | ⟨critical, ⟨t, c, h4⟩, h3⟩
  · have l3 := tlv_length h3
    rw [derSeq_tlv h3 hb, derAll_two h1 h2 (by omega) (by rw [List.length_append]; omega)]
    rfl
  · have l3 := tlv_length h3
    have l4 := tlv_length h4
    rw [derSeq_tlv h3 hb, derAll_three h1 h4 h2 (by omega) (by simp only [List.length_append]; omega)]
    simp only [Option.bind_eq_bind, Option.bind_some]
    rfl

theorem keyInfo_any {curve point b : Bytes} (h : KeyInfo curve point b) : AnyTlv b := by
  obtain ⟨_, _, _, _, _, _, _, _, h⟩ := h
  exact ⟨_, _, h⟩

theorem extension_any {oid value b : Bytes} (h : ExtensionDer oid value b) : AnyTlv b := by
  obtain ⟨_, _, _, _, h | ⟨_, _, h⟩⟩ := h
  · exact ⟨_, _, h⟩
  · exact ⟨_, _, h⟩

theorem mapM_some {α β : Type} {f : α → Option β} : ∀ {l : List α}, (∀ x ∈ l, ∃ y, f x = some y) → ∃ ys, l.mapM f = some ys
  | [], _ => ⟨[], rfl⟩
  | x :: l, h => by
    obtain ⟨y, hy⟩ := h x List.mem_cons_self
    obtain ⟨ys, hys⟩ := mapM_some fun z hz => h z (List.mem_cons_of_mem _ hz)
    exact ⟨y :: ys, by rw [List.mapM_cons, hy, hys]; rfl⟩

theorem mem_flatten_length {l : List Bytes} {x : Bytes} (h : x ∈ l) : x.length ≤ l.flatten.length := by
  obtain ⟨a, b, rfl⟩ := List.append_of_mem h
  rw [List.flatten_append, List.flatten_cons]
  simp only [List.length_append]
  omega

theorem extensions_any {parts : List Bytes} (h : ExtensionsDer parts) : ∀ x ∈ parts, AnyTlv x := by
  rcases h with rfl | ⟨_, _, outer, rfl, _, _, h⟩
  · exact nofun
  · intro x hx
    rw [List.mem_singleton.mp hx]
    exact ⟨_, _, h⟩

theorem certExtensions_der {parts : List Bytes} (h : ExtensionsDer parts) (hb : parts.flatten.length < 256 ^ 8) :
    ∃ es, certExtensions parts = some es := by
  rcases h with rfl | ⟨exts, inner, outer, rfl, he, h1, h2⟩
  · exact ⟨[], rfl⟩
  · have l1 := tlv_length h1
    have l2 := tlv_length h2
    rw [List.flatten_singleton] at hb
    have c3 := children_tlv' h1 (fun x hx => by obtain ⟨_, _, hx⟩ := he x hx; exact extension_any hx) (by omega)
    obtain ⟨es, hes⟩ : ∃ es, exts.mapM extensionOf = some es := by
      refine mapM_some fun x hx => ?_
      obtain ⟨o, v, hx'⟩ := he x hx
      have := mem_flatten_length hx
      exact ⟨_, extensionOf_der hx' (by omega)⟩
    refine ⟨es, ?_⟩
    unfold certExtensions
    dsimp only
    rw [derNext_tlv' h2 hb]
    simp only [Option.bind_eq_bind, Option.bind_some, c3, hes]

/-- Certificates are read, whatever follows them. -/
theorem parseCert_certificate {oid : String} {curve point info b : Bytes} (hc : (oid, curve) ∈ curveContents)
    (hi : KeyInfo curve point info) (h : CertificateDer info b) (hb : b.length < 256 ^ 8) (rest : Bytes) :
    ∃ c, parseCert (b ++ rest) = some c ∧ c.spki = ⟨"1.2.840.10045.2.1", some (some oid), point, info⟩ ∧ c.raw = b := by
  obtain ⟨before, after, tbs, alg, sig, hl, ha, he, h3, h4, h5, h6⟩ := h
  have l3 := tlv_length h3
  have l6 := tlv_length h6
  simp only [List.length_append] at l3 l6
  rw [show before.flatten ++ (info ++ after.flatten) = (before ++ info :: after).flatten by simp] at h3
  rw [show tbs ++ (alg ++ sig) = [tbs, alg, sig].flatten by simp] at h6
  have c1 := children_tlv' h6 (by
    intro x hx
    simp only [List.mem_cons, List.not_mem_nil, or_false] at hx
    rcases hx with rfl | rfl | rfl
    · exact ⟨_, _, h3⟩
    · exact h4
    · exact h5) hb
  have c2 := children_tlv' h3 (by
    intro x hx
    simp only [List.mem_append, List.mem_cons] at hx
    rcases hx with hx | rfl | hx
    · exact ha x hx
    · exact keyInfo_any hi
    · exact extensions_any he x hx) (by omega)
  obtain ⟨es, hes⟩ := certExtensions_der he (by omega)
  have g6 : (before ++ info :: after).getD 6 [] = info := by
    rw [List.getD_eq_getElem?_getD, List.getElem?_append_right (by omega), hl]
    rfl
  have g7 : (before ++ info :: after).drop 7 = after := by
    rw [List.drop_append, hl, List.drop_eq_nil_of_le (by omega)]
    rfl
  refine ⟨⟨⟨"1.2.840.10045.2.1", some (some oid), point, info⟩, es, b⟩, ?_, rfl, rfl⟩
  unfold parseCert
  rw [derWhole_tlv h6 hb]
  simp only [Option.bind_eq_bind, Option.bind_some, c1]
  rw [show [tbs, alg, sig].getD 0 [] = tbs from rfl, c2]
  simp only [Option.bind_some]
  rw [g6, g7, spkiOf_keyInfo (b := info) hc hi (by omega)]
  simp only [Option.bind_some, hes]
  rfl

/-- Requests are read, whatever follows them. -/
theorem parseRequest_request {oid : String} {curve point info b : Bytes} (hc : (oid, curve) ∈ curveContents)
    (hi : KeyInfo curve point info) (h : RequestDer info b) (hb : b.length < 256 ^ 8) (rest : Bytes) :
    parseRequest (b ++ rest) = some ⟨"1.2.840.10045.2.1", some (some oid), point, info⟩ := by
  obtain ⟨version, subject, attributes, part, alg, sig, a1, a2, a3, h1, a4, a5, h2⟩ := h
  have l1 := tlv_length h1
  have l2 := tlv_length h2
  simp only [List.length_append] at l1 l2
  rw [show version ++ (subject ++ (info ++ attributes)) = [version, subject, info, attributes].flatten by simp] at h1
  rw [show part ++ (alg ++ sig) = [part, alg, sig].flatten by simp] at h2
  have c2 := children_tlv h2 (by
    intro x hx
    simp only [List.mem_cons, List.not_mem_nil, or_false] at hx
    rcases hx with rfl | rfl | rfl
    · exact ⟨_, _, h1⟩
    · exact a4
    · exact a5) hb rest
  have c1 := children_tlv' h1 (by
    intro x hx
    simp only [List.mem_cons, List.not_mem_nil, or_false] at hx
    rcases hx with rfl | rfl | rfl | rfl
    · exact a1
    · exact a2
    · exact keyInfo_any hi
    · exact a3) (by omega)
  unfold parseRequest
  rw [c2]
  simp only [Option.bind_eq_bind, Option.bind_some]
  rw [show [part, alg, sig].getD 0 [] = part from rfl, c1]
  exact spkiOf_keyInfo (b := info) hc hi (by omega)

/-! ### Bytes after a certificate -/

theorem parseCert_append {t : UInt8} {c b : Bytes} (h : Tlv t c b) (hb : b.length < 256 ^ 8) (rest : Bytes) : parseCert (b ++ rest) = parseCert b := by
  have h' := derWhole_tlv h hb []
  rw [List.append_nil] at h'
  unfold parseCert
  rw [derWhole_tlv h hb rest, h']
  rfl

end Ssh.Concrete
