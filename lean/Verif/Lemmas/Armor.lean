import Verif.Spec.SshSig
import Verif.Lemmas.TextSpec

/-! # Lines and armor -/

namespace Ssh

open Spec

/-- Armor in terms of `lines` and `b64Decode`. -/
theorem armor_lines {header footer : String} {contents : List Char} {blob : Bytes} : Armor header footer contents blob ↔
    ∃ body rest, lines contents = header.toList :: (body ++ footer.toList :: rest) ∧ footer.toList ∉ body ∧
      b64Decode body.flatten = some blob := by
  simp only [Armor, lines_iff, base64Lax_iff]

theorem lines_joinNl {ls : List (List Char)} (hne : ls ≠ []) (hl : ∀ l ∈ ls, '\n' ∉ l ∧ l.getLast? ≠ some '\r')
    (s : List Char) : lines (joinNl ls ++ '\n' :: s) = ls ++ lines s := by
  induction ls with
  | nil => exact absurd rfl hne
  | cons l ls ih =>
    obtain ⟨h1, h2⟩ := hl l (by simp)
    cases ls with
    | nil => exact lines_cons h1 h2 s
    | cons l' ls =>
      have := ih (by simp) fun x hx => hl x (by simp [hx])
      show lines ((l ++ '\n' :: joinNl (l' :: ls)) ++ '\n' :: s) = _
      rw [List.append_assoc, List.cons_append, lines_cons h1 h2, this]
      rfl

theorem chunks_flatten {α : Type} (k : Nat) (l : List α) : (chunks k l).flatten = l := by
  fun_induction chunks k l with
  | case1 => rfl
  | case2 x xs ih => simp [ih]

theorem chunks_mem {α : Type} (k : Nat) (l : List α) : ∀ c ∈ chunks k l, c ≠ [] ∧ c.length ≤ k + 1 ∧ ∀ x ∈ c, x ∈ l := by
  fun_induction chunks k l with
  | case1 => simp
  | case2 x xs ih =>
    intro c hc
    rcases List.mem_cons.mp hc with rfl | hc
    · refine ⟨by simp, by simp; omega, ?_⟩
      intro y hy
      rcases List.mem_cons.mp hy with rfl | hy
      · simp
      · exact List.mem_cons_of_mem _ (List.mem_of_mem_take hy)
    · obtain ⟨h1, h2, h3⟩ := ih c hc
      exact ⟨h1, h2, fun y hy => List.mem_cons_of_mem _ (List.mem_of_mem_drop (h3 y hy))⟩

theorem chunks_ne_nil {α : Type} (k : Nat) {l : List α} (h : l ≠ []) : chunks k l ≠ [] := by
  intro e
  have := chunks_flatten k l
  rw [e] at this
  exact h this.symm

theorem armorBody_ok {footer : List Char} {ls : List (List Char)} {acc enc : List Char} :
    armorBody footer ls acc = .ok enc ↔ ∃ body rest, ls = body ++ footer :: rest ∧ footer ∉ body ∧
      enc = acc ++ body.flatten := by
  induction ls generalizing acc with
  | nil => simp [armorBody]
  | cons l ls ih =>
    simp only [armorBody]
    split
    · rename_i h
      subst h
      constructor
      · intro h
        cases h
        exact ⟨[], ls, by simp, by simp, by simp⟩
      · rintro ⟨body, rest, h1, h2, h3⟩
        cases body with
        | nil => simp [h3]
        | cons b body =>
          simp only [List.cons_append, List.cons.injEq] at h1
          exact absurd (by simp [h1.1]) h2
    · rename_i h
      rw [ih]
      constructor
      · rintro ⟨body, rest, rfl, h2, rfl⟩
        exact ⟨l :: body, rest, by simp, by simp [h2, Ne.symm h], by simp⟩
      · rintro ⟨body, rest, h1, h2, h3⟩
        cases body with
        | nil => simp at h1; exact absurd h1.1 h
        | cons b body =>
          simp only [List.cons_append, List.cons.injEq] at h1
          obtain ⟨rfl, rfl⟩ := h1
          exact ⟨body, rest, rfl, fun hm => h2 (by simp [hm]), by simp [h3]⟩

theorem armorBody_cases (footer : List Char) (ls : List (List Char)) (acc : List Char) :
    (∃ enc, armorBody footer ls acc = .ok enc) ∨ armorBody footer ls acc = .err .invalidFormat := by
  induction ls generalizing acc with
  | nil => exact .inr rfl
  | cons l ls ih =>
    simp only [armorBody]
    split
    · exact .inl ⟨_, rfl⟩
    · exact ih _

/-- `dearmor` succeeds exactly on armored text. -/
theorem dearmor_ok {header footer : String} {contents : List Char} {blob : Bytes} (hh : header.toList ≠ []) :
    dearmor header footer contents = .ok blob ↔ Armor header footer contents blob := by
  rw [armor_lines]
  unfold dearmor
  dsimp only
  by_cases h : (lines contents).head?.getD [] = header.toList
  rotate_left
  · rw [if_pos h]
    simp only [reduceCtorEq, false_iff]
    rintro ⟨body, rest, h1, _⟩
    rw [h1] at h
    exact h rfl
  · rw [if_neg (by simpa using h)]
    cases hls : lines contents with
    | nil => rw [hls] at h; exact absurd h.symm hh
    | cons l ls =>
      rw [hls] at h
      have h : l = header.toList := h
      subst h
      rw [List.tail_cons]
      constructor
      · intro h
        rcases armorBody_cases footer.toList ls [] with ⟨enc, he⟩ | he
        · rw [he] at h
          obtain ⟨body, rest, h1, h2, h3⟩ := armorBody_ok.mp he
          simp only [Res.ok_bind] at h
          cases hd : b64Decode enc with
          | none => rw [hd] at h; cases h
          | some b =>
            rw [hd] at h
            cases h
            exact ⟨body, rest, by rw [h1], h2, by rw [← hd, h3]; simp⟩
        · rw [he] at h; cases h
      · rintro ⟨body, rest, h1, h2, h3⟩
        have : armorBody footer.toList ls [] = .ok body.flatten :=
          armorBody_ok.mpr ⟨body, rest, (List.cons.inj h1).2, h2, by simp⟩
        rw [this]
        simp only [Res.ok_bind, h3]
        rfl

theorem dearmor_noPanic (header footer : String) (contents : List Char) : dearmor header footer contents ≠ .panic := by
  unfold dearmor
  dsimp only
  split
  · simp
  · rcases armorBody_cases footer.toList (lines contents).tail [] with ⟨enc, he⟩ | he
    · rw [he]
      simp only [Res.ok_bind]
      cases b64Decode enc <;> simp [Res.ofOption]
    · rw [he]; simp

/-- Base64 in chunks between header and footer lines is armor. -/
theorem armor_of {header footer : String} {k : Nat} {b : Bytes} {tail : List Char} (hb : b ≠ [])
    (hh : '\n' ∉ header.toList ∧ header.toList.getLast? ≠ some '\r') (hf : '-' ∈ footer.toList)
    (ht : ∃ rest, lines tail = footer.toList :: rest) :
    Armor header footer (header.toList ++ '\n' :: (joinNl (chunks k (b64Encode b)) ++ '\n' :: tail)) b := by
  obtain ⟨rest, ht⟩ := ht
  have hc : ∀ l ∈ chunks k (b64Encode b), '\n' ∉ l ∧ l.getLast? ≠ some '\r' := by
    intro l hl
    obtain ⟨_, _, h3⟩ := chunks_mem k _ l hl
    constructor
    · intro h
      exact (b64Encode_props b _ (h3 _ h)).2.2.2.1 rfl
    · intro h
      have := (b64Encode_props b _ (h3 _ (List.mem_of_getLast? h))).1
      exact absurd this (by decide)
  rw [armor_lines]
  refine ⟨chunks k (b64Encode b), rest, ?_, ?_, ?_⟩
  · rw [lines_cons hh.1 hh.2, lines_joinNl (chunks_ne_nil k (b64Encode_ne_nil hb)) hc, ht]
  · intro h
    obtain ⟨_, _, h3⟩ := chunks_mem k _ _ h
    exact (b64Encode_props b _ (h3 _ hf)).2.2.1 rfl
  · rw [chunks_flatten, b64Decode_encode]

end Ssh
