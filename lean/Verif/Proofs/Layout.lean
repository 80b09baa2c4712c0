/-
White space is irrelevant: helper lemmas.
-/
import Verif.Proofs.Execute

namespace Knuckle

open Spec

theorem sameButSpaces_iff (a b : Str) : SameButSpaces a b ↔ removeSpaces a = removeSpaces b := by
  have : (fun c : Byte => decide (¬ (c = 32 ∨ (9 ≤ c ∧ c ≤ 13)))) = fun c => !isSpace c := by
    funext c; rw [Bool.eq_iff_iff]; simp [isSpace]
  unfold SameButSpaces
  rw [this, removeSpaces_eq, removeSpaces_eq]

theorem removeSpaces_word (a : Str) (h : ∀ c ∈ a, WordChar c) : removeSpaces a = a := by
  rw [removeSpaces_eq, List.filter_eq_self]
  intro c hc
  rw [(isSpace_false_iff c).2 (wordChar_not_ws c (h c hc))]; rfl

theorem container_lt (a : Str) (h : ContainerType a) : c!"<" ∈ removeSpaces a := by
  rw [removeSpaces_eq, List.mem_filter]
  refine ⟨?_, by decide⟩
  rcases h with h | h | h
  · obtain ⟨w, t, w', rfl, _⟩ := h; simp
  · obtain ⟨w, t, w', rfl, _⟩ := h; simp
  · obtain ⟨w, t, w', v, t', v', rfl, _⟩ := h; simp

/-- Actors that agree except for white space are equal or both container types. -/
theorem actor_sameButSpaces (a b : Str) (ha : Actor a) (hb : Actor b) (h : removeSpaces a = removeSpaces b) :
    a = b ∨ (ContainerType a ∧ ContainerType b) := by
  have key : ∀ x y : Str, (∀ c ∈ x, WordChar c) → ContainerType y → removeSpaces x = removeSpaces y → False := by
    intro x y hx hy e
    have := container_lt y hy
    rw [← e, removeSpaces_word x hx] at this
    have := hx _ this
    revert this; unfold WordChar Letter Digit; decide
  rcases actor_cases a ha with ⟨h1, _⟩ | h1 <;> rcases actor_cases b hb with ⟨h2, _⟩ | h2
  · rw [removeSpaces_word a h1, removeSpaces_word b h2] at h; exact .inl h
  · exact (key a b h1 h2 h).elim
  · exact (key b a h2 h1 h.symm).elim
  · exact .inr ⟨h1, h2⟩

theorem executeParsed_sameButSpaces [StdSort] (pwd : Str) (c : Ctx) (s : Option Session) (a b name : Str)
    (args : List Str) (ha : Actor a) (hb : Actor b) (h : removeSpaces a = removeSpaces b) :
    executeParsed pwd c s ⟨a, name, args⟩ = executeParsed pwd c s ⟨b, name, args⟩ := by
  rcases actor_sameButSpaces a b ha hb h with rfl | ⟨h1, h2⟩
  · rfl
  · have t1 : isType a = true := (isType_iff a).2 (.inr h1)
    have t2 : isType b = true := (isType_iff b).2 (.inr h2)
    unfold executeParsed executeInType makeInstance
    simp only [t1, t2, h, if_true]

theorem finish_sameEffect (t t' : Str) (r : Run (Ctx × Option Session)) : SameEffect (finish t r) (finish t' r) := by
  rcases r with ⟨⟨c, s⟩, r⟩ | ⟨⟨c, s⟩, e⟩ | _
  · simp [finish, SameEffect, SameData, record_vars, record_cfg]
  · simp [finish, SameEffect, SameData, record_vars, record_cfg]
  · simp [finish, SameEffect]

theorem layout_keyword (ps : List (Str × Str)) (ws : List (Str × Str)) (hlen : ws.length = ps.length) (hne : ps ≠ [])
    (hp : ∀ p ∈ ps, Token p.1 ∧ Argument p.2) (hw : GoodSpacing ws) :
    KeywordMessage (layoutMessage ps ws) (ps.map (·.1)).flatten (ps.map (·.2)) := by
  induction ps generalizing ws with
  | nil => exact absurd rfl hne
  | cons p ps ih =>
    obtain ⟨tok, arg⟩ := p
    match ws, hlen with
    | (w, v) :: ws, hlen =>
      have hw1 := hw (w, v) (by simp)
      have hp1 := hp (tok, arg) (by simp)
      cases ps with
      | nil =>
        simp only [layoutMessage, List.headD_cons, List.map_cons, List.map_nil, List.flatten_cons, List.flatten_nil,
          List.append_nil]
        exact .one hp1.1 hw1.1 hp1.2
      | cons q qs =>
        have ih := ih ws (by simpa using hlen) (by simp) (fun p h => hp p (by simp [List.mem_cons.1 h]))
          (fun p h => hw p (by simp [h]))
        obtain ⟨x, xs, hx⟩ : ∃ x xs, v = x :: xs := by
          cases v with
          | nil => exact absurd rfl hw1.2.2
          | cons x xs => exact ⟨x, xs, rfl⟩
        subst hx
        simp only [layoutMessage, List.headD_cons, List.tail_cons]
        rw [List.map_cons, List.map_cons, List.flatten_cons, List.cons_append]
        exact .more hp1.1 hw1.1 hp1.2 (hw1.2.1 x (by simp)) (fun y hy => hw1.2.1 y (by simp [hy])) ih

theorem layout_statement (w₁ actor w₂ msg w₃ w₄ name : Str) (args : List Str) (hw : GoodOuter w₁ w₂ w₃ w₄)
    (ha : Actor actor) (hm : Message msg name args) :
    Statement (layoutStatement w₁ actor w₂ msg w₃ w₄) actor name args := by
  obtain ⟨h1, h2, h2', h3, h4⟩ := hw
  cases w₂ with
  | nil => exact absurd rfl h2'
  | cons c w₂ => exact ⟨w₁, c, w₂, msg, w₃, w₄, rfl, h1, ha, h2 c (by simp), fun y hy => h2 y (by simp [hy]), hm, h3, h4⟩

end Knuckle
