import Verif.Spec.Fido
import Verif.Lemmas.Bytes
import Verif.Lemmas.PrivKey

/-! # The CBOR reader and authenticator data -/

namespace Ssh
open Spec

theorem cborTake_iff {n : Nat} {b x r : Bytes} : cborTake n b = some (x, r) ↔ x.length = n ∧ b = x ++ r := by
  unfold cborTake
  constructor
  · intro h
    split at h
    · cases h
      exact ⟨by rw [List.length_take]; omega, (List.take_append_drop _ _).symm⟩
    · cases h
  · rintro ⟨rfl, rfl⟩
    rw [if_pos (by simp)]
    simp

theorem argMap {k n : Nat} {b r : Bytes} : (cborTake k b).map (fun p => (beNat p.1, p.2)) = some (n, r) ↔
    ∃ arg, arg.length = k ∧ natOf arg = n ∧ b = arg ++ r := by
  rw [Option.map_eq_some_iff]
  constructor
  · rintro ⟨⟨x, y⟩, h, e⟩
    obtain ⟨h1, h2⟩ := cborTake_iff.mp h
    cases e
    exact ⟨x, h1, (beNat_eq_natOf x).symm, h2⟩
  · rintro ⟨arg, h1, h2, h3⟩
    exact ⟨(arg, r), cborTake_iff.mpr ⟨h1, h3⟩, by rw [beNat_eq_natOf, h2]⟩

theorem cborArg_iff {info n : Nat} {b r : Bytes} : cborArg info b = some (n, r) ↔
    (info ≤ 23 ∧ n = info ∧ b = r) ∨ ∃ (k : Nat) (arg : Bytes), (info, k) ∈ [(24, 1), (25, 2), (26, 4), (27, 8)] ∧ arg.length = k ∧
      natOf arg = n ∧ b = arg ++ r := by
  unfold cborArg
  split
  · rename_i h
    constructor
    · intro e; cases e; exact .inl ⟨h, rfl, rfl⟩
    · rintro (⟨_, rfl, rfl⟩ | ⟨k, arg, hm, _⟩)
      · rfl
      · simp at hm; omega
  · rename_i h
    have key : ∀ i k, info = i → (i, k) ∈ [(24, 1), (25, 2), (26, 4), (27, 8)] →
        ((∃ arg, arg.length = k ∧ natOf arg = n ∧ b = arg ++ r) ↔
          (info ≤ 23 ∧ n = info ∧ b = r) ∨ ∃ (k : Nat) (arg : Bytes), (info, k) ∈ [(24, 1), (25, 2), (26, 4), (27, 8)] ∧ arg.length = k ∧
            natOf arg = n ∧ b = arg ++ r) := by
      rintro i k rfl hm
      constructor
      · rintro ⟨arg, h1, h2, h3⟩; exact .inr ⟨k, arg, hm, h1, h2, h3⟩
      · rintro (⟨h1, _⟩ | ⟨k', arg, hm', h1, h2, h3⟩)
        · omega
        · refine ⟨arg, ?_, h2, h3⟩
          simp at hm hm'
          omega
    split
    · rename_i e; rw [argMap]; exact key _ _ e (by decide)
    split
    · rename_i e; rw [argMap]; exact key _ _ e (by decide)
    split
    · rename_i e; rw [argMap]; exact key _ _ e (by decide)
    split
    · rename_i e; rw [argMap]; exact key _ _ e (by decide)
    · refine ⟨nofun, ?_⟩
      rintro (⟨h1, _⟩ | ⟨k', arg, hm', _⟩)
      · omega
      · simp at hm'; omega

theorem u8_head {h : UInt8} {m i : Nat} (hm : m < 8) (hi : i < 32) : h = UInt8.ofNat (m * 32 + i) ↔ h.toNat / 32 = m ∧ h.toNat % 32 = i := by
  constructor
  · rintro rfl
    rw [u8_ofNat_toNat]
    omega
  · rintro ⟨rfl, rfl⟩
    rw [show h.toNat / 32 * 32 + h.toNat % 32 = h.toNat by omega]
    simp

/-- Reading a head. -/
theorem cborHead_iff {m n : Nat} (hm : m < 8) {h : UInt8} {b r : Bytes} :
    (h.toNat / 32 = m ∧ cborArg (h.toNat % 32) b = some (n, r)) ↔ ∃ w, CborHead m n w ∧ h :: b = w ++ r := by
  rw [cborArg_iff]
  constructor
  · rintro ⟨h1, ⟨h2, rfl, rfl⟩ | ⟨k, arg, hk, h2, h3, rfl⟩⟩
    · exact ⟨[h], .inl ⟨h2, by rw [← (u8_head hm (by omega)).mpr ⟨h1, rfl⟩]⟩, rfl⟩
    · exact ⟨h :: arg, .inr ⟨_, k, arg, hk, h2, h3, by rw [← (u8_head hm (Nat.mod_lt _ (by decide))).mpr ⟨h1, rfl⟩]⟩, rfl⟩
  · rintro ⟨w, ⟨h1, rfl⟩ | ⟨i, k, arg, hk, h1, h2, rfl⟩, e⟩
    · rw [List.singleton_append, List.cons.injEq, u8_head hm (by omega)] at e
      exact ⟨e.1.1, .inl ⟨by omega, e.1.2.symm, e.2⟩⟩
    · have hi : i < 32 := by simp at hk; omega
      rw [List.cons_append, List.cons.injEq, u8_head hm hi] at e
      exact ⟨e.1.1, .inr ⟨k, arg, by rw [e.1.2]; exact hk, h1, h2, e.2⟩⟩

theorem cborHead_ne_nil {m n : Nat} {w : Bytes} (h : CborHead m n w) : w ≠ [] := by
  rcases h with ⟨_, rfl⟩ | ⟨_, _, _, _, _, _, rfl⟩ <;> simp

theorem cborHead_major {m n : Nat} (hm : m < 8) {h : UInt8} {b r w : Bytes} (hw : CborHead m n w) (e : h :: b = w ++ r) : h.toNat / 32 = m :=
  ((cborHead_iff hm).mpr ⟨w, hw, e⟩).1

theorem cborHead_arg {m n : Nat} (hm : m < 8) {h : UInt8} {b r w : Bytes} (hw : CborHead m n w) (e : h :: b = w ++ r) :
    cborArg (h.toNat % 32) b = some (n, r) := ((cborHead_iff hm).mpr ⟨w, hw, e⟩).2

theorem readInteger_iff {b r : Bytes} {v : Int} : readInteger b = some (v, r) ↔ ∃ w, CborInt v w ∧ b = w ++ r := by
  cases b with
  | nil =>
    refine ⟨nofun, ?_⟩
    rintro ⟨w, ⟨n, _, hw⟩ | ⟨n, _, _, hw⟩, e⟩ <;> exact absurd (List.append_eq_nil_iff.mp e.symm).1 (cborHead_ne_nil hw)
  | cons h b =>
    dsimp only [readInteger]
    constructor
    · intro e
      split at e
      · rename_i h0
        obtain ⟨⟨n, r'⟩, e1, e2⟩ := Option.map_eq_some_iff.mp e
        cases e2
        obtain ⟨w, hw, e3⟩ := (cborHead_iff (by decide)).mp ⟨h0, e1⟩
        exact ⟨w, .inl ⟨n, rfl, hw⟩, e3⟩
      split at e
      · rename_i h1
        obtain ⟨⟨n, r'⟩, e1, e2⟩ := Option.bind_eq_some_iff.mp e
        split at e2
        · rename_i hn
          cases e2
          obtain ⟨w, hw, e3⟩ := (cborHead_iff (by decide)).mp ⟨h1, e1⟩
          exact ⟨w, .inr ⟨n, rfl, hn, hw⟩, e3⟩
        · cases e2
      · cases e
    · rintro ⟨w, ⟨n, rfl, hw⟩ | ⟨n, rfl, hn, hw⟩, e⟩
      · rw [if_pos (cborHead_major (by decide) hw e), cborHead_arg (by decide) hw e]
        rfl
      · have hm := cborHead_major (by decide) hw e
        rw [if_neg (by omega), if_pos hm, cborHead_arg (by decide) hw e]
        exact if_pos hn

theorem cborBytes_iff {b r v : Bytes} : cborBytes b = some (v, r) ↔ ∃ w, CborBytes v w ∧ b = w ++ r := by
  cases b with
  | nil =>
    refine ⟨nofun, ?_⟩
    rintro ⟨w, ⟨h, hw, rfl⟩, e⟩
    exact absurd (List.append_eq_nil_iff.mp (List.append_eq_nil_iff.mp e.symm).1).1 (cborHead_ne_nil hw)
  | cons h b =>
    dsimp only [cborBytes]
    constructor
    · intro e
      split at e
      · rename_i h0
        obtain ⟨⟨n, r'⟩, e1, e2⟩ := Option.bind_eq_some_iff.mp e
        obtain ⟨rfl, rfl⟩ := cborTake_iff.mp e2
        obtain ⟨w, hw, e3⟩ := (cborHead_iff (by decide)).mp ⟨h0, e1⟩
        exact ⟨w ++ v, ⟨w, hw, rfl⟩, by rw [e3]; simp⟩
      · cases e
    · rintro ⟨w, ⟨hd, hw, rfl⟩, e⟩
      rw [List.append_assoc] at e
      rw [if_pos (cborHead_major (by decide) hw e), cborHead_arg (by decide) hw e]
      exact cborTake_iff.mpr ⟨rfl, rfl⟩

theorem cborMap_iff {b r : Bytes} {n : Nat} : cborMap b = some (some n, r) ↔ ∃ w, CborHead 5 n w ∧ b = w ++ r := by
  cases b with
  | nil =>
    refine ⟨nofun, ?_⟩
    rintro ⟨w, hw, e⟩
    exact absurd (List.append_eq_nil_iff.mp e.symm).1 (cborHead_ne_nil hw)
  | cons h b =>
    dsimp only [cborMap]
    constructor
    · intro e
      split at e
      · cases e
      split at e
      · rename_i h0
        obtain ⟨⟨n, r'⟩, e1, e2⟩ := Option.map_eq_some_iff.mp e
        cases e2
        exact (cborHead_iff (by decide)).mp ⟨h0, e1⟩
      · cases e
    · rintro ⟨w, hw, e⟩
      have hm := cborHead_major (by decide) hw e
      have ha := cborHead_arg (by decide) hw e
      rw [if_neg, if_pos hm, ha]
      · rfl
      · rintro rfl
        rw [cborArg_iff] at ha
        revert ha
        rintro (⟨h1, _⟩ | ⟨k', arg, hm', _⟩)
        · exact absurd h1 (by decide)
        · simp at hm'

theorem cborUndefined_iff {b r : Bytes} : cborUndefined b = some ((), r) ↔ b = 0xf7 :: r := by
  cases b with
  | nil => exact ⟨nofun, nofun⟩
  | cons h b =>
    dsimp only [cborUndefined]
    constructor
    · intro e
      split at e
      · rename_i hh; cases e; rw [hh]
      · cases e
    · intro e
      cases e
      rfl

/-! ## Entries -/

/-- The effect of an entry on the key. -/
def coseApply (k : CoseKey) : CoseField → CoseKey
  | .keyType v => { k with keyType := v }
  | .algorithm v => { k with algorithm := v }
  | .curve v => { k with parameter := some v }
  | .x v => { k with key := v }
  | .y v => { k with key := v }
  | .unknown _ => k

theorem ofOption_ok {α : Type} {e : Err} {o : Option α} {a : α} : Res.ofOption e o = .ok a ↔ o = some a := by
  cases o <;> simp [Res.ofOption]

theorem ofExcept_ok {α : Type} {f : String → Err} {o : Except String α} {a : α} : Res.ofExcept f o = .ok a ↔ o = .ok a := by
  cases o <;> simp [Res.ofExcept]

theorem coseEntry_ok {b r : Bytes} {k k' : CoseKey} : coseEntry b k = .ok (k', r) ↔
    ∃ f w, CoseFieldIs f w ∧ b = w ++ r ∧ k' = coseApply k f := by
  unfold coseEntry
  cases hi : readInteger b with
  | none =>
    refine ⟨nofun, ?_⟩
    have no : ∀ l a c, CborInt l a → b ≠ a ++ c := by
      rintro l a c ha rfl
      rw [readInteger_iff.mpr ⟨a, ha, rfl⟩] at hi
      cases hi
    rintro ⟨f, w, hf, rfl, _⟩
    cases f with
    | keyType v => obtain ⟨x, y, h1, h2, rfl⟩ := hf; exact absurd (List.append_assoc _ _ _) (no _ _ _ h1)
    | algorithm v => obtain ⟨x, y, h1, h2, rfl⟩ := hf; exact absurd (List.append_assoc _ _ _) (no _ _ _ h1)
    | curve v => obtain ⟨x, y, h1, h2, rfl⟩ := hf; exact absurd (List.append_assoc _ _ _) (no _ _ _ h1)
    | x v => obtain ⟨x, y, h1, h2, rfl⟩ := hf; exact absurd (List.append_assoc _ _ _) (no _ _ _ h1)
    | y v => obtain ⟨x, y, h1, h2, rfl⟩ := hf; exact absurd (List.append_assoc _ _ _) (no _ _ _ h1)
    | unknown v => obtain ⟨_, x, h1, rfl⟩ := hf; exact absurd (List.append_assoc _ _ _) (no _ _ _ h1)
  | some p =>
    obtain ⟨l, b1⟩ := p
    obtain ⟨a, ha, rfl⟩ := readInteger_iff.mp hi
    have same : ∀ {l' a' c}, CborInt l' a' → a ++ b1 = a' ++ c → l' = l ∧ c = b1 := by
      intro l' a' c h e
      have := readInteger_iff.mpr ⟨a', h, e⟩
      rw [hi] at this
      cases this
      exact ⟨rfl, rfl⟩
    dsimp only
    constructor
    · intro h
      split at h
      · rename_i hl; subst hl
        obtain ⟨⟨v, b2⟩, h1, h2⟩ := bind_ok_iff.mp h
        obtain ⟨c, hc, rfl⟩ := readInteger_iff.mp (ofOption_ok.mp h1)
        cases h2
        exact ⟨.curve v, a ++ c, ⟨a, c, ha, hc, rfl⟩, by simp, rfl⟩
      split at h
      · rename_i hl; subst hl
        obtain ⟨⟨v, b2⟩, h1, h2⟩ := bind_ok_iff.mp h
        obtain ⟨c, hc, rfl⟩ := readInteger_iff.mp (ofOption_ok.mp h1)
        cases h2
        exact ⟨.keyType v, a ++ c, ⟨a, c, ha, hc, rfl⟩, by simp, rfl⟩
      split at h
      · rename_i hl; subst hl
        obtain ⟨⟨v, b2⟩, h1, h2⟩ := bind_ok_iff.mp h
        obtain ⟨c, hc, rfl⟩ := readInteger_iff.mp (ofOption_ok.mp h1)
        cases h2
        exact ⟨.algorithm v, a ++ c, ⟨a, c, ha, hc, rfl⟩, by simp, rfl⟩
      split at h
      · rename_i hl
        obtain ⟨⟨v, b2⟩, h1, h2⟩ := bind_ok_iff.mp h
        obtain ⟨c, hc, rfl⟩ := cborBytes_iff.mp (ofOption_ok.mp h1)
        cases h2
        rcases hl with rfl | rfl
        · exact ⟨.x v, a ++ c, ⟨a, c, ha, hc, rfl⟩, by simp, rfl⟩
        · exact ⟨.y v, a ++ c, ⟨a, c, ha, hc, rfl⟩, by simp, rfl⟩
      · rename_i n1 n2 n3 n4
        obtain ⟨⟨v, b2⟩, h1, h2⟩ := bind_ok_iff.mp h
        obtain rfl := cborUndefined_iff.mp (ofOption_ok.mp h1)
        cases h2
        refine ⟨.unknown l, a ++ [0xf7], ⟨?_, a, ha, rfl⟩, by simp, rfl⟩
        simp only [List.mem_cons, List.not_mem_nil, or_false]
        rintro (h | h | h | h | h)
        · exact n2 h
        · exact n3 h
        · exact n1 h
        · exact n4 (.inl h)
        · exact n4 (.inr h)
    · rintro ⟨f, w, hf, e, rfl⟩
      cases f with
      | keyType v =>
        obtain ⟨x, y, h1, h2, rfl⟩ := hf
        rw [List.append_assoc] at e
        obtain ⟨rfl, rfl⟩ := same h1 e
        rw [if_neg (by decide), if_pos rfl, readInteger_iff.mpr ⟨y, h2, rfl⟩]
        rfl
      | algorithm v =>
        obtain ⟨x, y, h1, h2, rfl⟩ := hf
        rw [List.append_assoc] at e
        obtain ⟨rfl, rfl⟩ := same h1 e
        rw [if_neg (by decide), if_neg (by decide), if_pos rfl, readInteger_iff.mpr ⟨y, h2, rfl⟩]
        rfl
      | curve v =>
        obtain ⟨x, y, h1, h2, rfl⟩ := hf
        rw [List.append_assoc] at e
        obtain ⟨rfl, rfl⟩ := same h1 e
        rw [if_pos rfl, readInteger_iff.mpr ⟨y, h2, rfl⟩]
        rfl
      | x v =>
        obtain ⟨x, y, h1, h2, rfl⟩ := hf
        rw [List.append_assoc] at e
        obtain ⟨rfl, rfl⟩ := same h1 e
        rw [if_neg (by decide), if_neg (by decide), if_neg (by decide), if_pos (by decide), cborBytes_iff.mpr ⟨y, h2, rfl⟩]
        rfl
      | y v =>
        obtain ⟨x, y, h1, h2, rfl⟩ := hf
        rw [List.append_assoc] at e
        obtain ⟨rfl, rfl⟩ := same h1 e
        rw [if_neg (by decide), if_neg (by decide), if_neg (by decide), if_pos (by decide), cborBytes_iff.mpr ⟨y, h2, rfl⟩]
        rfl
      | unknown l' =>
        obtain ⟨hl, x, h1, rfl⟩ := hf
        rw [List.append_assoc] at e
        obtain ⟨rfl, rfl⟩ := same h1 e
        simp only [List.mem_cons, List.not_mem_nil, or_false, not_or] at hl
        obtain ⟨n1, n2, n3, n4, n5⟩ := hl
        rw [if_neg n3, if_neg n1, if_neg n2, if_neg (by rintro (h | h) <;> contradiction),
          cborUndefined_iff.mpr (by rfl : [0xf7] ++ r = 0xf7 :: r)]
        rfl

theorem coseEntry_noPanic (b : Bytes) (k : CoseKey) : coseEntry b k ≠ .panic := by
  unfold coseEntry
  have f : ∀ {α β : Type} {e : Err} (o : Option α) (g : α → Res β), (∀ a, g a ≠ .panic) → (Res.ofOption e o >>= g) ≠ .panic := by
    intro α β e o g hg
    cases o with
    | none => simp [Res.ofOption]
    | some a => exact hg a
  split
  · simp
  · split
    · exact f _ _ (by simp)
    split
    · exact f _ _ (by simp)
    split
    · exact f _ _ (by simp)
    split
    · exact f _ _ (by simp)
    · exact f _ _ (by simp)

theorem coseLoop_ok {n : Nat} : ∀ {b : Bytes} {k k' : CoseKey}, coseLoop n b k = .ok k' ↔
    ∃ fs w r, fs.length = n ∧ CoseFields fs w ∧ b = w ++ r ∧ k' = fs.foldl coseApply k := by
  induction n with
  | zero =>
    intro b k k'
    rw [coseLoop]
    constructor
    · intro h; cases h; exact ⟨[], [], b, rfl, .nil, rfl, rfl⟩
    · rintro ⟨fs, w, r, h1, h2, rfl, rfl⟩
      obtain rfl := List.length_eq_zero_iff.mp h1
      rfl
  | succ n ih =>
    intro b k k'
    rw [coseLoop, bind_ok_iff]
    constructor
    · rintro ⟨⟨k1, b1⟩, h1, h2⟩
      obtain ⟨f, w, hf, rfl, rfl⟩ := coseEntry_ok.mp h1
      obtain ⟨fs, w', r, h3, h4, rfl, rfl⟩ := ih.mp h2
      exact ⟨f :: fs, w ++ w', r, by simp [h3], .cons hf h4, by simp, rfl⟩
    · rintro ⟨fs, w, r, h1, h2, rfl, rfl⟩
      cases h2 with
      | nil => simp at h1
      | @cons f fs a b hf hfs =>
        refine ⟨(coseApply k f, b ++ r), coseEntry_ok.mpr ⟨f, a, hf, by simp, rfl⟩, ?_⟩
        exact ih.mpr ⟨fs, b, r, by simpa using h1, hfs, rfl, rfl⟩

theorem coseLoop_noPanic (n : Nat) : ∀ (b : Bytes) (k : CoseKey), coseLoop n b k ≠ .panic := by
  induction n with
  | zero => intro b k; simp [coseLoop]
  | succ n ih =>
    intro b k h
    rw [coseLoop, bind_panic_iff] at h
    rcases h with h | ⟨p, _, h⟩
    · exact coseEntry_noPanic _ _ h
    · exact ih _ _ h

theorem foldl_apply (fs : List CoseField) : ∀ (k k' : CoseKey), k' = fs.foldl coseApply k ↔
    k'.keyType = ((fs.filterMap CoseField.keyType?).getLast?).getD k.keyType ∧
    k'.algorithm = ((fs.filterMap CoseField.algorithm?).getLast?).getD k.algorithm ∧
    k'.key = ((fs.filterMap CoseField.coordinate?).getLast?).getD k.key ∧
    k'.parameter = ((fs.filterMap CoseField.curve?).getLast?).or k.parameter := by
  have ext : ∀ k k' : CoseKey, k' = k ↔ k'.keyType = k.keyType ∧ k'.algorithm = k.algorithm ∧ k'.key = k.key ∧ k'.parameter = k.parameter := by
    intro k k'
    cases k; cases k'; simp
  have hl : ∀ {α : Type} (a : α) (l : List α) (d : α), ((a :: l).getLast?).getD d = (l.getLast?).getD a := by
    intro α a l d
    rw [List.getLast?_cons, Option.getD_some]
  have ho : ∀ {α : Type} (a : α) (l : List α) (d : Option α), ((a :: l).getLast?).or d = (l.getLast?).or (some a) := by
    intro α a l d
    rw [List.getLast?_cons]
    cases l.getLast? <;> rfl
  induction fs with
  | nil => intro k k'; rw [List.foldl_nil, ext]; simp
  | cons f fs ih =>
    intro k k'
    rw [List.foldl_cons, ih]
    cases f <;>
      simp [List.filterMap_cons, CoseField.keyType?, CoseField.algorithm?, CoseField.coordinate?, CoseField.curve?, coseApply, hl, ho]

theorem parseCose_ok {b : Bytes} {k : CoseKey} : parseCose b = .ok k ↔ ∃ fs w r, CoseMap fs w ∧ b = w ++ r ∧ CoseKeyIs fs k := by
  unfold parseCose
  have hk : ∀ (fs : List CoseField), k = fs.foldl coseApply CoseKey.default ↔ CoseKeyIs fs k := by
    intro fs
    rw [foldl_apply]
    unfold CoseKeyIs CoseKey.default
    simp
  constructor
  · intro h
    split at h
    · rename_i n rest hm
      obtain ⟨w, hw, rfl⟩ := cborMap_iff.mp hm
      split at h
      · cases h
      · rename_i hn
        obtain ⟨fs, w', r, rfl, h2, rfl, h3⟩ := coseLoop_ok.mp h
        exact ⟨fs, w ++ w', r, ⟨by omega, w, w', hw, h2, rfl⟩, by simp, (hk fs).mp h3⟩
    · cases h
  · rintro ⟨fs, w, r, ⟨hn, h, c, h1, h2, rfl⟩, rfl, h3⟩
    rw [List.append_assoc, cborMap_iff.mpr ⟨h, h1, rfl⟩]
    dsimp only
    rw [if_neg (by omega)]
    exact coseLoop_ok.mpr ⟨fs, c, r, rfl, h2, rfl, (hk fs).mpr h3⟩

theorem parseCose_noPanic (b : Bytes) : parseCose b ≠ .panic := by
  unfold parseCose
  split
  · split
    · simp
    · exact coseLoop_noPanic _ _ _
  · simp

/-! ## Authenticator data -/

theorem readExact_ok {n : Nat} {b x r : Bytes} {msg : String} : AuthData.readExact n b msg = .ok (x, r) ↔ x.length = n ∧ b = x ++ r := by
  unfold AuthData.readExact
  rw [ofOption_ok, cborTake_iff]

theorem readExact_noPanic (n : Nat) (b : Bytes) (msg : String) : AuthData.readExact n b msg ≠ .panic := by
  unfold AuthData.readExact Res.ofOption
  split <;> simp

theorem bit6 (f : UInt8) : f &&& 0x40 = 0x40 ↔ f.toNat.testBit 6 = true := by
  revert f
  have : ∀ n : Fin 256, (UInt8.ofNat n &&& 0x40 = 0x40 ↔ n.val.testBit 6 = true) := by decide +kernel
  intro f
  have h := this ⟨f.toNat, f.toNat_lt⟩
  simpa using h

theorem parse_ok {raw : Bytes} {a : AuthData} : AuthData.parse raw = .ok a ↔ ∃ fs junk, AuthDataIs raw a fs junk := by
  unfold AuthData.parse
  constructor
  · intro h
    obtain ⟨⟨rp, b1⟩, h1, h⟩ := bind_ok_iff.mp h
    obtain ⟨⟨fl, b2⟩, h2, h⟩ := bind_ok_iff.mp h
    obtain ⟨flags, h3, h⟩ := bind_ok_iff.mp h
    obtain ⟨⟨sc, b3⟩, h4, h⟩ := bind_ok_iff.mp h
    obtain ⟨⟨aa, b4⟩, h5, h⟩ := bind_ok_iff.mp h
    obtain ⟨⟨cl, b5⟩, h6, h⟩ := bind_ok_iff.mp h
    obtain ⟨⟨ci, b6⟩, h7, h⟩ := bind_ok_iff.mp h
    obtain ⟨l1, e1⟩ := readExact_ok.mp h1
    obtain ⟨l2, e2⟩ := readExact_ok.mp h2
    obtain ⟨l4, e4⟩ := readExact_ok.mp h4
    obtain ⟨l5, e5⟩ := readExact_ok.mp h5
    obtain ⟨l6, e6⟩ := readExact_ok.mp h6
    obtain ⟨l7, e7⟩ := readExact_ok.mp h7
    obtain ⟨x, rfl⟩ := List.length_eq_one_iff.mp l2
    have hx : x = flags := by simpa [index, Res.unwrap] using h3
    subst hx
    dsimp only at h
    split at h
    · rename_i hb
      obtain ⟨k, h8, h⟩ := bind_ok_iff.mp h
      cases h
      obtain ⟨fs, w, r, hm, rfl, hk⟩ := parseCose_ok.mp h8
      refine ⟨fs, r, sc, cl, w, ?_, l1, l4, ?_, l5, l6, ?_, (bit6 _).mp hb, hm, hk⟩
      · rw [e1, e2, e4, e5, e6, e7]; simp
      · dsimp only
        rw [beNat_eq_natOf, UInt32.toNat_ofNat']
        have := natOf_lt sc
        rw [l4] at this
        exact Nat.mod_eq_of_lt this
      · dsimp only
        rw [l7, beNat_eq_natOf]
    · cases h
  · rintro ⟨fs, junk, sc, cl, w, rfl, l1, l4, hs, l5, l6, l7, hb, hm, hk⟩
    simp only [List.append_assoc]
    rw [readExact_ok.mpr ⟨l1, rfl⟩, Res.ok_bind]
    dsimp only
    rw [(readExact_ok (n := 1) (x := [a.flags])).mpr ⟨rfl, rfl⟩, Res.ok_bind]
    dsimp only
    rw [show index [a.flags] 0 = .ok a.flags from rfl, Res.ok_bind]
    rw [readExact_ok.mpr ⟨l4, rfl⟩, Res.ok_bind]
    dsimp only
    rw [readExact_ok.mpr ⟨l5, rfl⟩, Res.ok_bind]
    dsimp only
    rw [readExact_ok.mpr ⟨l6, rfl⟩, Res.ok_bind]
    dsimp only
    rw [readExact_ok.mpr ⟨by rw [beNat_eq_natOf, l7], rfl⟩, Res.ok_bind]
    dsimp only
    rw [if_pos ((bit6 _).mpr hb), parseCose_ok.mpr ⟨fs, w, junk, hm, rfl, hk⟩]
    simp only [Res.ok_bind, Res.pure_eq, Res.ok.injEq]
    cases a
    dsimp only at hs
    simp only [beNat_eq_natOf, ← hs, UInt32.ofNat_toNat]

theorem parse_noPanic (raw : Bytes) : AuthData.parse raw ≠ .panic := by
  unfold AuthData.parse
  intro h
  rcases bind_panic_iff.mp h with h | ⟨⟨rp, b1⟩, _, h⟩
  · exact readExact_noPanic _ _ _ h
  rcases bind_panic_iff.mp h with h | ⟨⟨fl, b2⟩, h2, h⟩
  · exact readExact_noPanic _ _ _ h
  rcases bind_panic_iff.mp h with h | ⟨flags, _, h⟩
  · obtain ⟨l2, _⟩ := readExact_ok.mp h2
    obtain ⟨x, rfl⟩ := List.length_eq_one_iff.mp l2
    cases h
  rcases bind_panic_iff.mp h with h | ⟨⟨sc, b3⟩, _, h⟩
  · exact readExact_noPanic _ _ _ h
  rcases bind_panic_iff.mp h with h | ⟨⟨aa, b4⟩, _, h⟩
  · exact readExact_noPanic _ _ _ h
  rcases bind_panic_iff.mp h with h | ⟨⟨cl, b5⟩, _, h⟩
  · exact readExact_noPanic _ _ _ h
  rcases bind_panic_iff.mp h with h | ⟨⟨ci, b6⟩, _, h⟩
  · exact readExact_noPanic _ _ _ h
  dsimp only at h
  split at h
  · rcases bind_panic_iff.mp h with h | ⟨k, _, h⟩
    · exact parseCose_noPanic _ h
    · cases h
  · cases h

/-! ## Attestation -/

theorem transports_iff {bits : Bytes} {l : List Transport} : TransportList bits l ↔ l = transportsOf bits := by
  unfold TransportList transportsOf
  have h : ∀ n, n < 8 → bitIsSet bits n = firstByteBit bits n := by
    intro n hn
    unfold bitIsSet firstByteBit
    rw [Nat.div_eq_of_lt hn, Nat.mod_eq_of_lt hn]
    cases bits with
    | nil => simp
    | cons b bits => simp
  rw [← h 0 (by decide), ← h 1 (by decide), ← h 2 (by decide), ← h 3 (by decide)]
  simp only [List.filterMap_cons, List.filterMap_nil]
  cases bitIsSet bits 0 <;> cases bitIsSet bits 1 <;> cases bitIsSet bits 2 <;> cases bitIsSet bits 3 <;> exact Iff.rfl

/-- The effect of an extension. -/
def extApply (X : X509Env) (v : ValidAttestation) (e : String × Bytes) : ValidAttestation :=
  { v with
    firmware := (firmwareOf X e).or v.firmware
    aaguid := (aaguidOf X e).or v.aaguid
    transports := ((transportBitsOf X e).map transportsOf).or v.transports }

theorem fidoExtension_eq (X : X509Env) (v : ValidAttestation) (e : String × Bytes) : fidoExtension X v e =
    if ((e.1 = "1.3.6.1.4.1.41482.13.1" ∨ e.1 = "1.3.6.1.4.1.45724.1.1.4" → X.octetString e.2 ≠ none) ∧
      (e.1 = "1.3.6.1.4.1.45724.2.1.1" → X.bitString e.2 ≠ none)) then .ok (extApply X v e) else .err .parsingError := by
  obtain ⟨oid, val⟩ := e
  unfold fidoExtension extApply firmwareOf aaguidOf transportBitsOf
  dsimp only
  have n12 : "1.3.6.1.4.1.41482.13.1" ≠ "1.3.6.1.4.1.45724.1.1.4" := by decide
  have n13 : "1.3.6.1.4.1.41482.13.1" ≠ "1.3.6.1.4.1.45724.2.1.1" := by decide
  have n23 : "1.3.6.1.4.1.45724.1.1.4" ≠ "1.3.6.1.4.1.45724.2.1.1" := by decide
  by_cases h1 : oid = "1.3.6.1.4.1.41482.13.1"
  · subst h1
    rw [if_pos rfl, beq_self_eq_true, (beq_eq_false_iff_ne).mpr n12, if_neg n13]
    cases hs : X.octetString val with
    | none => rw [if_neg (by simp)]; rfl
    | some s =>
      rw [if_pos (by simp)]
      show (if s.length ≠ 3 then _ else _) = _
      match s with
      | [] => rfl
      | [a] => rfl
      | [a, b] => rfl
      | [a, b, c] =>
        rw [if_neg (by simp)]
        simp [versionText, index, Res.unwrap, String.toList_append]
        rfl
      | a :: b :: c :: d :: s => rw [if_pos (by simp)]; rfl
  rw [if_neg h1]
  by_cases h2 : oid = "1.3.6.1.4.1.45724.1.1.4"
  · subst h2
    rw [if_pos rfl, beq_self_eq_true, (beq_eq_false_iff_ne).mpr n12.symm, if_neg n23]
    cases hs : X.octetString val with
    | none => rw [if_neg (by simp)]; rfl
    | some s =>
      rw [if_pos (by simp)]
      show (if s.length ≠ 16 then _ else _) = _
      by_cases h16 : s.length = 16
      · rw [if_neg (by simp [h16])]; simp [h16]
      · rw [if_pos h16]; simp [h16]
  rw [if_neg h2]
  by_cases h3 : oid = "1.3.6.1.4.1.45724.2.1.1"
  · subst h3
    rw [if_pos rfl, (beq_eq_false_iff_ne).mpr n13.symm, (beq_eq_false_iff_ne).mpr n23.symm, if_pos rfl]
    cases hs : X.bitString val with
    | none => rw [if_neg (by simp)]; rfl
    | some s => rw [if_pos (by simp [n13.symm, n23.symm])]; rfl
  rw [if_neg h3, (beq_eq_false_iff_ne).mpr h1, (beq_eq_false_iff_ne).mpr h2, if_neg h3, if_pos (by simp [h1, h2, h3])]
  rfl

theorem foldExt (X : X509Env) (es : List (String × Bytes)) : ∀ v v', es.foldlM (fidoExtension X) v = .ok v' ↔
    ExtensionsDecode X es ∧ v' = es.foldl (extApply X) v := by
  induction es with
  | nil => intro v v'; simp [ExtensionsDecode, eq_comm]
  | cons e es ih =>
    intro v v'
    rw [List.foldlM_cons, fidoExtension_eq]
    unfold ExtensionsDecode
    rw [List.forall_mem_cons, List.foldl_cons]
    split
    · rename_i h
      rw [Res.ok_bind, ih]
      exact ⟨fun x => ⟨⟨h, x.1⟩, x.2⟩, fun x => ⟨x.1.2, x.2⟩⟩
    · rename_i h
      exact ⟨nofun, fun x => absurd x.1.1 h⟩

theorem foldExt_noPanic (X : X509Env) (es : List (String × Bytes)) : ∀ v, es.foldlM (fidoExtension X) v ≠ .panic := by
  induction es with
  | nil => intro v; simp
  | cons e es ih =>
    intro v
    rw [List.foldlM_cons, fidoExtension_eq]
    split
    · exact ih _
    · simp

theorem foldApply (X : X509Env) (es : List (String × Bytes)) : ∀ v, es.foldl (extApply X) v =
    { authData := v.authData, firmware := ((es.filterMap (firmwareOf X)).getLast?).or v.firmware,
      aaguid := ((es.filterMap (aaguidOf X)).getLast?).or v.aaguid,
      transports := (((es.filterMap (transportBitsOf X)).getLast?).map transportsOf).or v.transports } := by
  have ho : ∀ {α β : Type} (f : α → Option β) (a : α) (l : List α) (d : Option β), ((List.filterMap f (a :: l)).getLast?).or d =
      ((List.filterMap f l).getLast?).or ((f a).or d) := by
    intro α β f a l d
    rw [List.filterMap_cons]
    cases f a with
    | none => simp
    | some b =>
      rw [List.getLast?_cons]
      cases (List.filterMap f l).getLast? <;> rfl
  have hm : ∀ {α β γ : Type} (f : α → Option β) (g : β → γ) (a : α) (l : List α) (d : Option γ),
      (((List.filterMap f (a :: l)).getLast?).map g).or d = (((List.filterMap f l).getLast?).map g).or (((f a).map g).or d) := by
    intro α β γ f g a l d
    rw [List.filterMap_cons]
    cases f a with
    | none => simp
    | some b =>
      rw [List.getLast?_cons]
      cases (List.filterMap f l).getLast? <;> rfl
  induction es with
  | nil => intro v; simp
  | cons e es ih =>
    intro v
    rw [List.foldl_cons, ih, ho, ho, hm]
    rfl

theorem fidoExtensions_ok {X : X509Env} {a : AuthData} {i : X509Cert} {v : ValidAttestation} :
    fidoExtensions X a i = .ok v ↔ v.authData = a ∧ ExtensionsDecode X i.extensions ∧ AttestationInfo X i.extensions v := by
  unfold fidoExtensions AttestationInfo
  rw [foldExt, foldApply]
  obtain ⟨ad, fw, aa, tr⟩ := v
  dsimp only
  cases ht : (i.extensions.filterMap (transportBitsOf X)).getLast? with
  | none =>
    simp only [ValidAttestation.mk.injEq, Option.or_none, Option.map_none]
    exact ⟨fun ⟨h, h1, h2, h3, h4⟩ => ⟨h1, h, h2, h3, h4⟩, fun ⟨h1, h, h2, h3, h4⟩ => ⟨h, h1, h2, h3, h4⟩⟩
  | some bits =>
    simp only [ValidAttestation.mk.injEq, Option.or_none, Option.map_some, transports_iff]
    constructor
    · rintro ⟨h, h1, h2, h3, h4⟩; exact ⟨h1, h, h2, h3, _, h4, rfl⟩
    · rintro ⟨h1, h, h2, h3, _, h4, rfl⟩; exact ⟨h, h1, h2, h3, h4⟩

theorem verifyAuthData_ok {X : X509Env} {C : Crypto} {yubicoRoot : String} {ad sig ch inter : Bytes} {alg : Int}
    {pem : Option String} {v : ValidAttestation} : verifyAuthData X C yubicoRoot ad sig ch alg inter pem = .ok v ↔
    alg = -7 ∧ ∃ i, Attested X C (pem.getD yubicoRoot) inter ad ch sig i ∧ AuthData.parse ad = .ok v.authData ∧
      ExtensionsDecode X i.extensions ∧ AttestationInfo X i.extensions v := by
  unfold verifyAuthData Attested
  split
  · rename_i ha
    constructor
    · intro h
      obtain ⟨r, h1, h⟩ := bind_ok_iff.mp h
      obtain ⟨i, h2, h⟩ := bind_ok_iff.mp h
      split at h
      · cases h
      rename_i h3
      split at h
      · cases h
      rename_i h4
      obtain ⟨a, h5, h⟩ := bind_ok_iff.mp h
      obtain ⟨rfl, h6, h7⟩ := fidoExtensions_ok.mp h
      exact ⟨ha, i, ⟨r, ofOption_ok.mp h1, ofOption_ok.mp h2, by simpa using h3, by simpa using h4⟩, h5, h6, h7⟩
    · rintro ⟨_, i, ⟨r, h1, h2, h3, h4⟩, h5, h6, h7⟩
      rw [h1, h2]
      simp only [Res.ofOption, Res.ok_bind]
      rw [if_neg (by simp [h3]), if_neg (by simp [h4]), h5, Res.ok_bind]
      exact fidoExtensions_ok.mpr ⟨rfl, h6, h7⟩
  · rename_i ha
    refine ⟨?_, fun h => absurd h.1 ha⟩
    intro h
    split at h <;> cases h

theorem verifyAuthData_noPanic (X : X509Env) (C : Crypto) (yubicoRoot : String) (ad sig ch inter : Bytes) (alg : Int)
    (pem : Option String) : verifyAuthData X C yubicoRoot ad sig ch alg inter pem ≠ .panic := by
  unfold verifyAuthData
  split
  · intro h
    have f : ∀ {α : Type} {e : Err} (o : Option α), Res.ofOption e o ≠ .panic := by
      intro α e o; cases o <;> simp [Res.ofOption]
    rcases bind_panic_iff.mp h with h | ⟨r, _, h⟩
    · exact f _ h
    rcases bind_panic_iff.mp h with h | ⟨i, _, h⟩
    · exact f _ h
    split at h
    · cases h
    split at h
    · cases h
    rcases bind_panic_iff.mp h with h | ⟨a, _, h⟩
    · exact parse_noPanic _ h
    · exact foldExt_noPanic _ _ _ h
  · split <;> simp

end Ssh
