import Verif.Spec.ProgramDialogs
import Verif.Lemmas.TokenDialog
import Verif.Lemmas.Written
import Verif.Props.TokenPrograms

/-! # The dialogs of the programs for tokens: C138 -/

namespace Ssh
open Spec Examples

variable {σ α : Type}

theorem slotLine_talk {X : X509Env} {C : Crypto} {slotText : Nat → List Char} {conn slot : Nat} {ev : List YkEvent} {l : List Char} :
    SlotLine X C slotText conn slot ev l ↔ SlotTalk X C slotText conn slot ev l := by
  have hs : ∀ h : List Char, "SHA256:".toList ++ h = FingerprintKind.sha256.display.toList ++ ':' :: h := fun h => by
    rw [show "SHA256:".toList = FingerprintKind.sha256.display.toList ++ [':'] by decide +kernel, List.append_assoc]
    rfl
  constructor
  · intro h
    cases h with
    | none o o' h =>
      cases o with
      | none => exact .empty o'
      | some c =>
        cases o' with
        | none => exact .emptied c
        | some c' => exact .noKey c c' fun k hk => h c c' k rfl rfl hk
    | key c c' k b a hk hb =>
      refine .key c c' k _ a hk (sha256Text_iff.mpr ⟨Fingerprint.compute C .sha256 b, ?_, hs _⟩)
      unfold PublicKey.fingerprintWith
      rw [hb]
      rfl
  · intro h
    cases h with
    | empty o => exact .none none o (fun _ _ _ h => by cases h)
    | emptied c => exact .none (some c) none (fun _ _ _ _ h => by cases h)
    | noKey c c' h => exact .none (some c) (some c') (fun _ _ k _ e hk => by cases e; exact h k hk)
    | key c c' k f a hk hf =>
      obtain ⟨g, hg, e⟩ := sha256Text_iff.mp hf
      unfold PublicKey.fingerprintWith at hg
      cases hb : k.encode with
      | err e => rw [hb] at hg; cases hg
      | panic => rw [hb] at hg; cases hg
      | ok b =>
        rw [hb] at hg
        cases hg
        have e' : f = (Fingerprint.compute C .sha256 b).hash := List.append_cancel_left (as := "SHA256:".toList) (e.trans (hs _).symm)
        rw [e']
        exact .key c c' k b a hk hb

theorem slotLine_dialog (X : X509Env) (C : Crypto) (D : YkDev σ) (slotText : Nat → List Char) (conn slot : Nat) :
    HasDialog D (slotLine X C D slotText conn slot) (fun ev r => ∃ l, SlotTalk X C slotText conn slot ev l ∧ r = .ok l) := by
  refine hasDialog_mk (fun s => ?_) ?_
  · obtain ⟨ev, l, s', h, hl⟩ := slotLine_does X C D slotText conn slot s
    exact ⟨ev, _, s', h, l, slotLine_talk.mp hl, rfl⟩
  · rintro s s' ev _ hr ⟨l, hl, rfl⟩
    obtain ⟨ev', l', s1, h, hl'⟩ := slotLine_does X C D slotText conn slot s
    have key : ev' = ev ∧ l' = l := by
      have hl := slotLine_talk.mpr hl
      have two : ∀ {o o' p p' : Option SlotCert} {a b : List YkEvent} {s1 s2 : σ},
          Run D s (.read conn slot o :: .read conn slot o' :: a) s1 → Run D s (.read conn slot p :: .read conn slot p' :: b) s2 →
          o = p ∧ o' = p' ∧ ∃ s3, Run D s3 a s1 ∧ Run D s3 b s2 := by
        intro o o' p p' a b s1 s2 h1 h2
        cases h1 with
        | cons x1 h1 =>
          cases h1 with
          | cons x2 h1 =>
            cases h2 with
            | cons y1 h2 =>
              cases h2 with
              | cons y2 h2 =>
                obtain ⟨e1, e2⟩ := Prod.mk.inj (Eq.trans (Eq.symm x1) y1)
                subst e1 e2
                obtain ⟨e1, e2⟩ := Prod.mk.inj (Eq.trans (Eq.symm x2) y2)
                subst e1 e2
                exact ⟨rfl, rfl, _, h1, h2⟩
      have h1 := h.1
      cases hl with
      | none o o' hn =>
        cases hl' with
        | none p p' hn' =>
          obtain ⟨rfl, rfl, _⟩ := two h1 hr
          exact ⟨rfl, rfl⟩
        | key c c' k b a hk hb =>
          obtain ⟨e, e', _⟩ := two h1 hr
          exact absurd hk (hn c c' k e.symm e'.symm)
      | key c c' k b a hk hb =>
        cases hl' with
        | none p p' hn' =>
          obtain ⟨e, e', _⟩ := two h1 hr
          exact absurd hk (hn' c c' k e e')
        | key d d' k' b' a' hk' hb' =>
          obtain ⟨e, e', s3, x, y⟩ := two h1 hr
          cases e
          cases e'
          have x := run_one_iff.mp x
          have y := run_one_iff.mp y
          obtain ⟨e1, _⟩ := Prod.mk.inj (Eq.trans (Eq.symm x) y)
          subst e1
          rw [slotKey_iff] at hk hk'
          rw [hk] at hk'
          cases hk'
          rw [hb] at hb'
          cases hb'
          exact ⟨rfl, rfl⟩
    obtain ⟨rfl, rfl⟩ := key
    cases h.1.det hr
    exact h

theorem slotLines_dialog (X : X509Env) (C : Crypto) (D : YkDev σ) (slotText : Nat → List Char) (conn : Nat) (slots : List Nat) :
    HasDialog D (slotLines X C D slotText conn slots) (fun ev r => ∃ l, SlotsTalk X C slotText conn slots ev l ∧ r = .ok l) := by
  induction slots with
  | nil =>
    refine (dialog_pure []).congr fun ev r => ⟨?_, ?_⟩
    · rintro ⟨rfl, rfl⟩
      exact ⟨[], .nil, rfl⟩
    · rintro ⟨l, h, rfl⟩
      cases h
      exact ⟨rfl, rfl⟩
  | cons slot rest ih =>
    refine (dialog_bind (slotLine_dialog X C D slotText conn slot) fun l => dialog_bind ih fun more =>
      dialog_pure (l ++ more)).congr fun ev r => ⟨?_, ?_⟩
    · rintro (⟨_, _, x, _, ⟨l, h, e⟩, hb⟩ | ⟨_, e, ⟨l, h, e'⟩⟩ | ⟨_, ⟨l, h, e'⟩⟩)
      · cases e
        rcases hb with ⟨_, _, y, _, ⟨m, g, e⟩, rfl, rfl⟩ | ⟨_, e, ⟨l, h, e'⟩⟩ | ⟨_, ⟨l, h, e'⟩⟩
        · cases e
          exact ⟨_, by simpa using SlotsTalk.cons slot rest _ _ _ _ h g, rfl⟩
        · cases e'
        · cases e'
      · cases e'
      · cases e'
    · rintro ⟨l, h, rfl⟩
      cases h with
      | cons _ _ ev ev' t t' h1 h2 =>
        refine .ok ev ev' t _ ⟨t, h1, rfl⟩ ?_
        have := BindDialog.ok (R := fun ev r => ∃ l, SlotsTalk X C slotText conn rest ev l ∧ r = .ok l)
          (S := fun more ev r => ev = [] ∧ r = (.ok (t ++ more) : YkRes (List Char))) ev' [] t' _ ⟨t', h2, rfl⟩ ⟨rfl, rfl⟩
        rwa [List.append_nil] at this

/-- C138: yk-provision does exactly what its dialog says, and panics exactly if a step fails. -/
theorem C138_provision (X : X509Env) (D : YkDev σ) (slot : Nat) (subject : String) (pin mgm : Bytes) (alg : String) (secure : Bool) :
    HasDialog D (provisionNewKey X D slot subject pin mgm alg secure) (ProvisionProgram X slot subject pin mgm (D.mgmKey mgm)
      (if alg = "p256" then .eccP256 else .eccP384) (if secure then .always else .never)) := by
  refine (dialog_bind (dialog_unwrap (new_dialog D)) fun conn => dialog_bind (dialog_unwrap (unlock_dialog D conn pin mgm)) fun _ =>
    dialog_unwrap (provision_dialog X D conn slot subject _ _ .never)).congr fun ev r => ⟨?_, ?_⟩
  · rintro (⟨_, _, conn, _, ⟨_, h, e⟩, hb⟩ | ⟨_, e, ⟨_, h, e'⟩⟩ | ⟨_, ⟨_, h, e'⟩⟩)
    · cases h with
      | none => cases e
      | ok i =>
        cases e
        rcases hb with ⟨a, _, _, _, ⟨r1, h1, e1⟩, r2, h2, rfl⟩ | ⟨_, e, ⟨r1, h1, e1⟩⟩ | ⟨_, ⟨r1, h1, e1⟩⟩
        · cases r1 with
          | err e => cases e1
          | panic => cases e1
          | ok u =>
            cases r2 with
            | err e => exact .failed conn a _ e h1 h2
            | ok k => exact .ok conn a _ k h1 h2
            | panic =>
              exfalso
              cases h2 with
              | read _ _ _ h => exact pubkeyDialog_noPanic h
        · cases r1 <;> cases e1
        · cases r1 with
          | err e => exact .locked conn _ e h1
          | ok u => cases e1
          | panic => cases h1
    · cases h <;> cases e'
    · cases h with
      | none => exact .noToken
      | ok => cases e'
  · intro h
    cases h with
    | noToken => exact .panic _ ⟨_, .none, rfl⟩
    | locked conn ev e h => exact .ok [_] ev conn _ ⟨_, .ok conn, rfl⟩ (.panic _ ⟨_, h, rfl⟩)
    | failed conn ev ev' e h h' => exact .ok [_] (ev ++ ev') conn _ ⟨_, .ok conn, rfl⟩ (.ok _ _ () _ ⟨_, h, rfl⟩ ⟨_, h', rfl⟩)
    | ok conn ev ev' k h h' => exact .ok [_] (ev ++ ev') conn _ ⟨_, .ok conn, rfl⟩ (.ok _ _ () _ ⟨_, h, rfl⟩ ⟨_, h', rfl⟩)

/-- C138: yk-fingerprint asks and prints exactly what its dialog says. -/
theorem C138_fingerprint (X : X509Env) (C : Crypto) (D : YkDev σ) (slotText : Nat → List Char) :
    HasDialog D (ykFingerprint X C D slotText) (FingerprintProgram X C slotText) := by
  refine (dialog_bind (dialog_unwrap (new_dialog D)) fun conn => dialog_bind (slotLines_dialog X C D slotText conn normalSlots) fun n =>
    dialog_bind (slotLines_dialog X C D slotText conn retiredSlots) fun r => dialog_pure
      (println "Normal Slots:".toList ++ n ++ println "Retired Slots:".toList ++ r)).congr fun ev r => ⟨?_, ?_⟩
  · rintro (⟨_, _, conn, _, ⟨_, h, e⟩, hb⟩ | ⟨_, e, ⟨_, h, e'⟩⟩ | ⟨_, ⟨_, h, e'⟩⟩)
    · cases h with
      | none => cases e
      | ok i =>
        cases e
        rcases hb with ⟨a, _, n, _, ⟨_, h1, e1⟩, hb⟩ | ⟨_, e, ⟨_, _, e1⟩⟩ | ⟨_, ⟨_, _, e1⟩⟩
        · cases e1
          rcases hb with ⟨_, _, n', _, ⟨_, h2, e2⟩, rfl, rfl⟩ | ⟨_, e, ⟨_, _, e2⟩⟩ | ⟨_, ⟨_, _, e2⟩⟩
          · cases e2
            rw [List.append_nil]
            exact .ok conn a _ _ _ h1 h2
          · cases e2
          · cases e2
        · cases e1
        · cases e1
    · cases h <;> cases e'
    · cases h with
      | none => exact .noToken
      | ok => cases e'
  · intro h
    cases h with
    | noToken => exact .panic _ ⟨_, .none, rfl⟩
    | ok conn ev ev' t t' h h' =>
      refine .ok [_] (ev ++ ev') conn _ ⟨_, .ok conn, rfl⟩ (.ok ev ev' t _ ⟨t, h, rfl⟩ ?_)
      rw [← List.append_nil ev']
      exact .ok ev' [] t' _ ⟨t', h', rfl⟩ ⟨rfl, rfl⟩

/-- A key on a token, then a wrong PIN. -/
example : Does sampleToken (provisionNewKey samplePivX sampleToken 9 "me" [1, 2] (List.replicate 24 7) "p384" true) none
      [.openFirst (some 1), .verifyPin 1 [1, 2] true, .authenticate 1 (List.replicate 24 7) true,
        .generate 1 9 .eccP384 .never .always (some (.ecP384 [4, 7])), .selfSign 1 9 "me" (.ecP384 [4, 7]) true,
        .read 1 9 (some sampleSlot)] (.ok sampleP384) ∧
    ProvisionProgram samplePivX 9 "me" [1, 3] (List.replicate 24 7) true .eccP384 .always
      [.openFirst (some 1), .verifyPin 1 [1, 3] false] .panic := by
  refine ⟨((C138_provision ..).exact _ _ _).mpr ⟨⟨some sampleSlot, ?_⟩, ?_⟩, .locked 1 _ _ .pin⟩
  · exact .cons rfl (.cons rfl (.cons rfl (.cons rfl (.cons rfl (.cons rfl (.nil _))))))
  · exact .ok 1 [_, _] _ _ (.ok rfl) (.read _ _ _ (.ok _ _ sampleSlot_key))

/-- Two slots, the first without a certificate at the second look. -/
example (C : Crypto) (slotText : Nat → List Char) (f : List Char) (h : Sha256Text C sampleP384 ("SHA256:".toList ++ f)) :
    SlotsTalk samplePivX C slotText 1 [0x9a, 0x9c]
      [.read 1 0x9a (some sampleSlot), .read 1 0x9a none, .read 1 0x9c (some sampleSlot), .read 1 0x9c (some sampleSlot),
        .attest 1 0x9c (some [1])]
      ('\t' :: slotText 0x9a ++ ":\tNo cert found\n".toList ++ ('\t' :: slotText 0x9c ++ ":\t[Fingerprint: ".toList ++ f ++
        "] [Attest: Yes] Subject: [me]\n".toList)) := by
  have h2 := SlotTalk.key (slotText := slotText) (conn := 1) (slot := 0x9c) sampleSlot sampleSlot sampleP384 f (some [1]) sampleSlot_key h
  have := SlotsTalk.cons (X := samplePivX) (C := C) (slotText := slotText) (conn := 1) 0x9a [0x9c] _ _ _ _ (.emptied sampleSlot)
    (.cons 0x9c [] _ _ _ _ h2 .nil)
  simpa [sampleSlot] using this

example : ∃ f, Sha256Text signingCrypto sampleP384 ("SHA256:".toList ++ f) := by
  refine ⟨(Fingerprint.compute signingCrypto .sha256 (okOf [] sampleP384.encode)).hash, sha256Text_iff.mpr ⟨_, rfl, ?_⟩⟩
  decide +kernel

end Ssh
