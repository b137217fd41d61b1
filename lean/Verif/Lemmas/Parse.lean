import Verif.Model.Reader
import Verif.Lemmas.Bytes

/-! # A parser is characterised by the grammar it accepts -/

namespace Ssh

/-- The unread part of the buffer starts with `w`. -/
def At (r : Reader) (w : Bytes) : Prop := ∃ rest, r.inner.drop r.offset = w ++ rest

/-- The reader advanced over `w`. -/
def adv (r : Reader) (w : Bytes) : Reader := { r with offset := r.offset + w.length }

/-- `p` succeeds with `v` exactly when the unread part starts with some `w` related to `v` by `G`,
and then moves just behind `w`. -/
def Parses {α : Type} (p : Rd α) (G : α → Bytes → Prop) : Prop :=
  ∀ r v r', p r = (.ok v, r') ↔ ∃ w, G v w ∧ At r w ∧ r' = adv r w

@[simp] theorem at_nil (r : Reader) : At r [] := ⟨_, rfl⟩
@[simp] theorem adv_nil (r : Reader) : adv r [] = r := by simp [adv]

theorem adv_append (r : Reader) (a b : Bytes) : adv r (a ++ b) = adv (adv r a) b := by
  simp [adv, Nat.add_assoc]

theorem at_append {r : Reader} {a b : Bytes} : At r (a ++ b) ↔ At r a ∧ At (adv r a) b := by
  unfold At adv
  constructor
  · rintro ⟨rest, h⟩
    refine ⟨⟨b ++ rest, by simpa using h⟩, ⟨rest, ?_⟩⟩
    rw [← List.drop_drop, h, List.append_assoc, List.drop_left]
  · rintro ⟨⟨r1, h1⟩, ⟨r2, h2⟩⟩
    refine ⟨r2, ?_⟩
    rw [← List.drop_drop, h1, List.drop_left] at h2
    rw [h1, h2, List.append_assoc]

theorem at_new {buf w : Bytes} : At (Reader.new buf) w ↔ ∃ rest, buf = w ++ rest := by
  simp [At, Reader.new]

theorem Rd.bind_eq {α β : Type} (m : Rd α) (f : α → Rd β) (r : Reader) :
    (m >>= f) r = match m r with
      | (.ok a, r') => f a r'
      | (.err e, r') => (.err e, r')
      | (.panic, r') => (.panic, r') := rfl

theorem Rd.pure_eq {α : Type} (a : α) (r : Reader) : (Pure.pure a : Rd α) r = (.ok a, r) := rfl

@[simp] theorem Rd.lift_eq {α : Type} (x : Res α) (r : Reader) : Rd.lift x r = (x, r) := rfl

/-- Success of a sequence. -/
theorem Rd.bind_ok {α β : Type} {m : Rd α} {f : α → Rd β} {r r'' : Reader} {b : β} :
    (m >>= f) r = (.ok b, r'') ↔ ∃ a r', m r = (.ok a, r') ∧ f a r' = (.ok b, r'') := by
  rw [Rd.bind_eq]
  rcases m r with ⟨x, r'⟩
  cases x <;> simp [and_assoc]

theorem Rd.bind_panic {α β : Type} {m : Rd α} {f : α → Rd β} {r : Reader} :
    ((m >>= f) r).1 = .panic ↔
      (m r).1 = .panic ∨ ∃ a r', m r = (.ok a, r') ∧ (f a r').1 = .panic := by
  rw [Rd.bind_eq]
  rcases m r with ⟨x, r'⟩
  cases x <;> simp [and_assoc]

theorem Rd.bind_of_ok {α β : Type} {m : Rd α} {f : α → Rd β} {r r' : Reader} {a : α}
    (h : m r = (.ok a, r')) : (m >>= f) r = f a r' := by rw [Rd.bind_eq, h]

theorem Rd.bind_of_err {α β : Type} {m : Rd α} {f : α → Rd β} {r r' : Reader} {e : Err}
    (h : m r = (.err e, r')) : (m >>= f) r = (.err e, r') := by rw [Rd.bind_eq, h]

theorem Rd.bind_assoc {α β γ : Type} (m : Rd α) (f : α → Rd β) (g : β → Rd γ) :
    (m >>= f) >>= g = m >>= fun a => f a >>= g := by
  funext r
  simp only [Rd.bind_eq]
  rcases m r with ⟨x, r'⟩
  cases x <;> rfl

theorem Rd.pure_bind {α β : Type} (a : α) (f : α → Rd β) : (Pure.pure a : Rd α) >>= f = f a := rfl

theorem Parses.congr {α : Type} {p : Rd α} {G H : α → Bytes → Prop} (h : Parses p G)
    (hGH : ∀ v w, G v w ↔ H v w) : Parses p H := by
  intro r v r'
  rw [h]
  simp only [hGH]

theorem Parses.pure {α : Type} (a : α) : Parses (Pure.pure a) (fun v w => v = a ∧ w = []) := by
  intro r v r'
  rw [Rd.pure_eq]
  constructor
  · intro h
    simp only [Prod.mk.injEq, Res.ok.injEq] at h
    exact ⟨[], ⟨h.1.symm, rfl⟩, by simp, by simp [h.2]⟩
  · rintro ⟨w, ⟨rfl, rfl⟩, _, rfl⟩
    simp

theorem Parses.lift {α : Type} (x : Res α) : Parses (Rd.lift x) (fun v w => x = .ok v ∧ w = []) := by
  intro r v r'
  rw [Rd.lift_eq]
  constructor
  · intro h
    simp only [Prod.mk.injEq] at h
    exact ⟨[], ⟨h.1, rfl⟩, by simp, by simp [h.2]⟩
  · rintro ⟨w, ⟨h, rfl⟩, _, rfl⟩
    simp [h]

theorem Parses.bind {α β : Type} {m : Rd α} {f : α → Rd β} {G : α → Bytes → Prop}
    {H : α → β → Bytes → Prop} (hm : Parses m G) (hf : ∀ a, Parses (f a) (H a)) :
    Parses (m >>= f) (fun v w => ∃ a w1 w2, w = w1 ++ w2 ∧ G a w1 ∧ H a v w2) := by
  intro r v r'
  rw [Rd.bind_ok]
  constructor
  · rintro ⟨a, r1, h1, h2⟩
    obtain ⟨w1, g1, a1, rfl⟩ := (hm _ _ _).mp h1
    obtain ⟨w2, g2, a2, rfl⟩ := (hf a _ _ _).mp h2
    exact ⟨w1 ++ w2, ⟨a, w1, w2, rfl, g1, g2⟩, at_append.mpr ⟨a1, a2⟩, (adv_append _ _ _).symm⟩
  · rintro ⟨w, ⟨a, w1, w2, rfl, g1, g2⟩, hat, rfl⟩
    obtain ⟨a1, a2⟩ := at_append.mp hat
    exact ⟨a, adv r w1, (hm _ _ _).mpr ⟨w1, g1, a1, rfl⟩,
      (hf a _ _ _).mpr ⟨w2, g2, a2, adv_append _ _ _⟩⟩

/-- A guarded parser. -/
theorem Parses.ite {α : Type} {c : Prop} [Decidable c] {p q : Rd α} {G H : α → Bytes → Prop}
    (hp : c → Parses p G) (hq : ¬ c → Parses q H) :
    Parses (if c then p else q) (fun v w => (c ∧ G v w) ∨ (¬ c ∧ H v w)) := by
  by_cases h : c
  · simp only [h, if_true]
    exact (hp h).congr (by simp)
  · simp only [h, if_false]
    exact (hq h).congr (by simp)

theorem Parses.err {α : Type} (e : Err) : Parses (Rd.lift (.err e) : Rd α) (fun _ _ => False) :=
  (Parses.lift _).congr (by simp)

/-- What a parser returns is determined by the buffer: no two words of the grammar of different
values are prefixes of the same buffer. -/
theorem Parses.unique {α : Type} {p : Rd α} {G : α → Bytes → Prop} (h : Parses p G) {v v' : α}
    {w w' rest rest' : Bytes} (g : G v w) (g' : G v' w') (e : w ++ rest = w' ++ rest') :
    v = v' ∧ w = w' ∧ rest = rest' := by
  have h1 : p (Reader.new (w ++ rest)) = (.ok v, adv (Reader.new (w ++ rest)) w) :=
    (h _ _ _).mpr ⟨w, g, at_new.mpr ⟨rest, rfl⟩, rfl⟩
  have h2 : p (Reader.new (w ++ rest)) = (.ok v', adv (Reader.new (w ++ rest)) w') :=
    (h _ _ _).mpr ⟨w', g', at_new.mpr ⟨rest', e⟩, rfl⟩
  rw [h1] at h2
  simp only [Prod.mk.injEq, Res.ok.injEq, adv, Reader.new, Nat.zero_add, Reader.mk.injEq,
    true_and] at h2
  obtain ⟨rfl, hl⟩ := h2
  obtain ⟨h3, h4⟩ := List.append_inj e hl
  exact ⟨rfl, h3, h4⟩

/-- Running on a whole buffer. -/
theorem Parses.new {α : Type} {p : Rd α} {G : α → Bytes → Prop} (h : Parses p G) {buf : Bytes}
    {v : α} : (p (Reader.new buf)).1 = .ok v ↔ ∃ w rest, buf = w ++ rest ∧ G v w := by
  constructor
  · intro e
    obtain ⟨w, g, a, _⟩ := (h (Reader.new buf) v (p (Reader.new buf)).2).mp (by
      rw [← e])
    obtain ⟨rest, hr⟩ := at_new.mp a
    exact ⟨w, rest, hr, g⟩
  · rintro ⟨w, rest, hb, g⟩
    rw [(h (Reader.new buf) v _).mpr ⟨w, g, at_new.mpr ⟨rest, hb⟩, rfl⟩]

theorem startsAt_iff {buf w : Bytes} {pos : Nat} :
    Spec.StartsAt buf pos w ↔ pos ≤ buf.length ∧ ∃ rest, buf.drop pos = w ++ rest := by
  constructor
  · rintro ⟨pre, suf, rfl, rfl⟩
    exact ⟨by simp, suf, by simp⟩
  · rintro ⟨hl, rest, h⟩
    refine ⟨buf.take pos, rest, ?_, by simp [hl]⟩
    rw [List.append_assoc, ← h, List.take_append_drop]

theorem at_iff_startsAt {r : Reader} {w : Bytes} (hw : w ≠ []) :
    At r w ↔ Spec.StartsAt r.inner r.offset w := by
  rw [startsAt_iff]
  constructor
  · rintro ⟨rest, h⟩
    refine ⟨?_, rest, h⟩
    apply Nat.le_of_not_lt
    intro hlt
    rw [List.drop_eq_nil_of_le (by omega)] at h
    simp at h
    exact hw h.1
  · rintro ⟨_, rest, h⟩
    exact ⟨rest, h⟩

end Ssh
