import Verif.Lemmas.Prefix
import Verif.Props.AllowedSigner

/-! # Lines of an allowed signers file cut short -/

namespace Ssh

open Spec

theorem timestamp_unique {T : Chrono} {v : List Char} {t t' : Int} (hv : '"' ∉ v) (h : Timestamp T v t) (h' : Timestamp T v t') : t = t' := by
  have := (timestamp_stripped hv).mpr h
  rw [(timestamp_stripped hv).mpr h'] at this
  cases this; rfl

theorem optionWord_unique {T : Chrono} {w : List Char} {st st' : Setting} (h : OptionWord T w st) (h' : OptionWord T w st') : st = st' := by
  obtain ⟨n1, n2, n3, n4, n5, n6⟩ := names_ne
  obtain ⟨key, value, hk, hh⟩ := h
  have h2 := (optionWord_iff hk st').mp h'
  have hq := hk.2.2
  cases st <;> cases st' <;> simp only [OptionIs] at hh h2
  · rfl
  · exact absurd (hh.symm.trans h2.1) n1
  · exact absurd (hh.symm.trans h2.1) n2
  · exact absurd (hh.symm.trans h2.1) n3
  · exact absurd (h2.symm.trans hh.1) n1
  · obtain ⟨_, p, hp, rfl⟩ := hh
    obtain ⟨_, p', hp', rfl⟩ := h2
    rw [← commaList_iff.mp hp, ← commaList_iff.mp hp']
  · exact absurd (hh.1.symm.trans h2.1) n4
  · exact absurd (hh.1.symm.trans h2.1) n5
  · exact absurd (h2.symm.trans hh.1) n2
  · exact absurd (h2.1.symm.trans hh.1) n4
  · rw [timestamp_unique hq hh.2 h2.2]
  · exact absurd (hh.1.symm.trans h2.1) n6
  · exact absurd (h2.symm.trans hh.1) n3
  · exact absurd (h2.1.symm.trans hh.1) n5
  · exact absurd (h2.1.symm.trans hh.1) n6
  · rw [timestamp_unique hq hh.2 h2.2]

theorem option_not_key {T : Chrono} {w : List Char} {st : Setting} (h : OptionWord T w st) (h' : KeyWord w) : False := by
  obtain ⟨key, value, hk, hh⟩ := h
  have h2 := (keyWord_iff hk).mp h'
  cases st <;> simp only at hh <;> refine h2 ?_ <;> first | rw [hh] | rw [hh.1]
  all_goals simp

/-- The words up to the key type determine options and key type. -/
theorem options_prefix {T : Chrono} {os : List (List Char × Setting)} {kt : List Char} : ∀ {os' : List (List Char × Setting)} {kt' kd' : List Char},
    (∀ o ∈ os, OptionWord T o.1 o.2) → (∀ o ∈ os', OptionWord T o.1 o.2) → KeyWord kt → KeyWord kt' →
    os.map (·.1) ++ [kt] <+: os'.map (·.1) ++ [kt', kd'] → os = os' ∧ kt = kt' := by
  induction os with
  | nil =>
    intro os' kt' kd' _ ho' hk _ hp
    cases os' with
    | nil =>
      simp only [List.map_nil, List.nil_append] at hp
      exact ⟨rfl, (List.cons_prefix_cons.mp hp).1⟩
    | cons o' os' =>
      simp only [List.map_nil, List.nil_append, List.map_cons, List.cons_append] at hp
      have := (List.cons_prefix_cons.mp hp).1
      subst this
      exact (option_not_key (ho' o' List.mem_cons_self) hk).elim
  | cons o os ih =>
    intro os' kt' kd' ho ho' hk hk' hp
    cases os' with
    | nil =>
      simp only [List.map_nil, List.nil_append, List.map_cons, List.cons_append] at hp
      have := (List.cons_prefix_cons.mp hp).1
      subst this
      exact (option_not_key (ho o List.mem_cons_self) hk').elim
    | cons o' os' =>
      simp only [List.map_cons, List.cons_append] at hp
      obtain ⟨h1, h2⟩ := List.cons_prefix_cons.mp hp
      obtain ⟨rfl, rfl⟩ := ih (fun x hx => ho x (List.mem_cons_of_mem _ hx)) (fun x hx => ho' x (List.mem_cons_of_mem _ hx)) hk hk' h2
      have h3 := ho o List.mem_cons_self
      rw [h1] at h3
      have h4 := optionWord_unique h3 (ho' o' List.mem_cons_self)
      obtain ⟨a, b⟩ := o
      obtain ⟨a', b'⟩ := o'
      simp only at h1 h4
      subst h1 h4
      exact ⟨rfl, rfl⟩

theorem nextWord_more {t w r : List Char} (h : NextWord t w r) (hr : r ≠ []) (x : List Char) : NextWord (t ++ x) w (r ++ x) := by
  obtain ⟨n, rfl, hw, h⟩ := h
  refine ⟨n, by simp, hw, .inr ?_⟩
  rcases h with h | ⟨c, r', rfl, hc⟩
  · exact absurd h hr
  · exact ⟨c, r' ++ x, rfl, hc⟩

theorem nextWord_ne {t w r : List Char} (h : NextWord t w r) : t ≠ [] := by
  obtain ⟨n, rfl, hw, _⟩ := h
  have := hw.1
  simp [this]

theorem chain_ne {ws : List (List Char)} : ∀ {t m : List Char}, Chain t ws m → m ≠ [] → t ≠ [] := by
  induction ws with
  | nil => rintro t m rfl h; exact h
  | cons w ws ih => rintro t m ⟨r, h, _⟩ _; exact nextWord_ne h

theorem chain_more {ws : List (List Char)} (x : List Char) : ∀ {t m : List Char}, Chain t ws m → m ≠ [] → Chain (t ++ x) ws (m ++ x) := by
  induction ws with
  | nil => rintro t m rfl _; rfl
  | cons w ws ih => rintro t m ⟨r, h, h2⟩ hm; exact ⟨_, nextWord_more h (chain_ne h2 hm) x, ih h2 hm⟩

/-- The word at the end of a text cut short is the beginning of a word. -/
theorem nextWord_last_prefix {m x kd r w r' : List Char} (hq : m.getLast? ≠ some '"') (h : NextWord m kd r) (h' : NextWord (m ++ x) w r')
    (hq' : (m ++ x).getLast? ≠ some '"') : kd <+: w := by
  by_cases hr : r = []
  rotate_left
  · rw [(nextWord_unique hq' (nextWord_more h hr x) h').1]
    exact List.prefix_rfl
  subst hr
  obtain ⟨n, rfl, hw, _⟩ := h
  obtain ⟨n', e, hw', hr'⟩ := h'
  have hkd : ∀ c ∈ kd, c ≠ ' ' ∧ c ≠ '"' ∧ c ≠ '#' := by
    obtain ⟨hne, a, ha, rfl | ⟨body, _, rfl⟩⟩ := hw
    · exact ha
    · exact absurd (by
        rw [show List.replicate n ' ' ++ (a ++ '"' :: (body ++ ['"']) ++ []) = (List.replicate n ' ' ++ (a ++ '"' :: body)) ++ ['"'] by simp]
        exact List.getLast?_concat) hq
  have hn : n = n' ∧ kd ++ x = w ++ r' := by
    have hh := (word_head hw).1
    have hh' := (word_head hw').1
    have h1 := hw.1
    have h2 := hw'.1
    simp only [List.append_nil, List.append_assoc] at e
    clear hr' hq hq' hw hw'
    cases kd with
    | nil => exact absurd rfl h1
    | cons c kd =>
    cases w with
    | nil => exact absurd rfl h2
    | cons d w =>
    have hc : c ≠ ' ' := by simpa using hh
    have hd : d ≠ ' ' := by simpa using hh'
    clear hh hh' h1 h2 hkd
    induction n generalizing n' with
    | zero =>
      cases n' with
      | zero => simpa using e
      | succ n' => simp [List.replicate_succ] at e; exact absurd e.1 hc
    | succ n ih =>
      cases n' with
      | zero => simp [List.replicate_succ] at e; exact absurd e.1.symm hd
      | succ n' =>
        simp only [List.replicate_succ, List.cons_append, List.cons.injEq, true_and] at e
        have := ih n' (by simpa using e)
        exact ⟨by rw [this.1], this.2⟩
  obtain ⟨_, e⟩ := hn
  rcases List.append_eq_append_iff.mp e with ⟨g, rfl, _⟩ | ⟨g, rfl, rfl⟩
  · exact List.prefix_append _ _
  · cases g with
    | nil => simp
    | cons c g =>
      rcases hr' with hr' | ⟨c', r, hr', hc'⟩
      · simp at hr'
      · simp only [List.cons_append, List.cons.injEq] at hr'
        have := hkd c (by simp)
        rw [hr'.1] at this
        rcases hc' with rfl | rfl
        · exact absurd rfl this.1
        · exact absurd rfl this.2.2

end Ssh
