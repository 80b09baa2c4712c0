/-
C59: how much the server stores.
-/
import Verif.Proofs.Storage
import Verif.Proofs.Plain
import Verif.Props.Requests

namespace Knuckle.Props

open Spec

variable {pwd : Str} {c c' : Ctx} {s s' : Option Session} {text r : Str} {h : List (Str × Str)}

/-- C59: a request adds at most one object (a variable, an element, or an association). -/
theorem C59_one_object_per_request [StdSort] (hc : Reachable c) (he : execute pwd c s text = .done (c', s', r)) :
    cells c' ≤ cells c + 1 := execute_cells (reachable_inv hc) he

/-- C59: so after `k` requests there are at most `k` objects more. -/
theorem C59_objects [StdSort] (hc : Reachable c) (hh : History c h c') : cells c' ≤ cells c + h.length := history_cells hc hh

/-- C59: every name, string and string element of a server that started empty is at most as long as all requests together. -/
theorem C59_texts [StdSort] (hc : Reachable c) (h0 : c.vars = []) (hh : History c h c') :
    ∀ x ∈ texts c', x.length ≤ sentBytes h := by
  have hs : ShortCtx (sentBytes h) c' := by
    have := history_short (B := 0) hc hh (by intro v hv; rw [h0] at hv; cases hv)
    rwa [Nat.zero_add] at this
  intro x hx
  obtain ⟨v, hv, hx⟩ := List.mem_flatMap.1 hx
  rcases List.mem_cons.1 hx with rfl | hx
  · exact (hs v hv).1
  · exact (hs v hv).2 x hx

/-- C59: a server that started empty stores, after any history, at most 2 · (number of requests) · (bytes received) bytes of text. -/
theorem C59_stored_bytes [StdSort] (hc : Reachable c) (h0 : c.vars = []) (hh : History c h c') :
    storedBytes c' ≤ 2 * h.length * sentBytes h := by
  have hs : ShortCtx (sentBytes h) c' := by
    have := history_short (B := 0) hc hh (by intro v hv; rw [h0] at hv; cases hv)
    rwa [Nat.zero_add] at this
  have h1 := storedBytes_le hs
  have h2 := history_cells hc hh
  have h3 : cells c = 0 := by unfold cells; rw [h0]; rfl
  rw [h3, Nat.zero_add] at h2
  exact Nat.le_trans h1 (Nat.mul_le_mul_right _ (Nat.mul_le_mul_left 2 h2))

/-! The bound has the right order: `replaceAll:with:` multiplies a long string. -/

theorem vars_of_only {n : Str} {i j : Inst} (hv : c.vars = [(n, j)]) (h : OnlyChanged c c' n i) : c'.vars = [(n, i)] := by
  obtain ⟨_, h1, h2⟩ := h
  rw [hv] at h1
  cases hx : c'.vars with
  | nil => rw [hx] at h1; cases h1
  | cons x l =>
    cases l with
    | nil =>
      obtain ⟨m, k⟩ := x
      rw [hx] at h1
      have e : m = n := by simpa using h1
      subst e
      have := h2 m
      rw [hx, if_pos rfl] at this
      simp at this
      rw [this]
    | cons y l => rw [hx] at h1; simp at h1

/-- The push of an empty string. -/
abbrev pushText : Str := b!"v pushBack: \"\";"

theorem empty_literal : Denotes b!"String" b!"\"\"" (.string []) := .string ⟨[], rfl, .nil, .nil⟩

theorem pushes [StdSort] (m k : Nat) (hc : Reachable c)
    (hv : c.vars = [(b!"v", .vector b!"String" (List.replicate k (.string [])))]) :
    ∃ c', Accepted pwd s c (List.replicate m pushText) c' ∧ c'.vars = [(b!"v", .vector b!"String" (List.replicate (k + m) (.string [])))] := by
  induction m generalizing c k with
  | zero => exact ⟨c, .nil _, hv⟩
  | succ m ih =>
    have hn : Holds c b!"v" (.vector b!"String" (List.replicate k (.string []))) := by unfold Holds; rw [hv]; rfl
    obtain ⟨c1, h1, h2⟩ := answers_vec (pwd := pwd) (s := s) (text := pushText) hc hn (reads (by decide +kernel)) (.pushBack empty_literal)
    have hv1 := vars_of_only hv h2
    rw [← List.replicate_succ'] at hv1
    obtain ⟨c2, h3, h4⟩ := ih (k + 1) (.step hc h1) hv1
    exact ⟨c2, .cons h1 h3, by rw [h4, Nat.add_right_comm, Nat.add_assoc]⟩

/-- The string literal of `m` letters. -/
def letters (m : Nat) : Str := List.replicate m c!"a"

theorem letters_literal (m : Nat) : StringLiteral (c!"\"" :: (letters m ++ [c!"\""])) (letters m) := by
  refine ⟨letters m, rfl, ?_, ?_⟩
  · unfold letters
    induction m with
    | zero => exact .nil
    | succ m ih => rw [List.replicate_succ]; exact .plain (by decide) (by decide) ih
  · unfold letters
    induction m with
    | zero => exact .nil
    | succ m ih => rw [List.replicate_succ]; exact .other (by decide) (fun h => by cases h) ih

theorem tokenText (t : Str) (h : isKeywordMessageToken t = true) : Token t := (isKeywordMessageToken_iff t).1 h

/-- The replacement of the empty strings by long ones. -/
def growText (m : Nat) : Str := request b!"v" [(b!"replaceAll:", b!"\"\""), (b!"with:", c!"\"" :: (letters m ++ [c!"\""]))]

theorem growText_statement (m : Nat) : Statement (growText m) b!"v" b!"replaceAll:with:" [b!"\"\"", c!"\"" :: (letters m ++ [c!"\""])] := by
  refine request_statement (.inr (.inr (.inr ((isVariable_iff _).1 (by decide +kernel))))) (by simp) ?_
  intro p hp
  simp only [List.mem_cons, List.not_mem_nil, or_false] at hp
  rcases hp with rfl | rfl
  · exact ⟨tokenText _ (by decide +kernel), .inl (.inr (.inr (.inr (.inr ((isStringValue_iff _).1 (by decide +kernel))))))⟩
  · obtain ⟨b, h1, h2, _⟩ := letters_literal m
    exact ⟨tokenText b!"with:" (by decide +kernel), .inl (.inr (.inr (.inr (.inr ⟨b, h1, h2⟩))))⟩

/-- C59: the product is reached up to a constant: there are `m + 2` accepted requests of together `16 m + 51` bytes after which
the server stores more than `m²` bytes. -/
theorem C59_quadratic_is_reached [StdSort] (m : Nat) : ∃ ts c', Accepted [] none fresh ts c' ∧ ts.length = m + 2 ∧
    (ts.map List.length).sum = 16 * m + 51 ∧ m * m ≤ storedBytes c' := by
  obtain ⟨c0, h0, hv0⟩ : ∃ c0, Replies [] fresh none b!"Vector<String> create: v;" b!"null" c0 ∧
      c0.vars = [(b!"v", .vector b!"String" [])] := ⟨{ fresh with vars := [(b!"v", .vector b!"String" [])] }, by unfold Replies; kernel_rfl, rfl⟩
  have r0 : Reachable c0 := .step fresh_reachable h0
  obtain ⟨c1, h1, hv1⟩ := pushes (pwd := []) (s := none) m 0 r0 hv0
  have r1 := h1.reachable r0
  rw [Nat.zero_add] at hv1
  have hn : Holds c1 b!"v" (.vector b!"String" (List.replicate m (.string []))) := by unfold Holds; rw [hv1]; rfl
  obtain ⟨c2, h2, h3⟩ := answers_vec (pwd := []) (s := none) r1 hn (growText_statement m)
    (.replaceAll empty_literal (.string (letters_literal m)))
  have hv2 := vars_of_only hv1 h3
  have e : (List.replicate m (Obj.string [])).map (fun x => if same c1.cfg.eps x (.string []) then Obj.string (letters m) else x) =
      List.replicate m (.string (letters m)) := by
    rw [List.map_replicate]; congr 1
  rw [e] at hv2
  refine ⟨b!"Vector<String> create: v;" :: (List.replicate m pushText ++ [growText m]), c2, .cons h0 (h1.append (.one h2)), by simp, ?_, ?_⟩
  · have : (growText m).length = m + 26 := by
      simp only [growText, request, layoutStatement, layoutMessage, List.map_cons, List.map_nil, List.headD_cons, List.tail_cons,
        List.length_append, List.length_cons, List.length_nil, letters, List.length_replicate]
      omega
    simp only [List.map_cons, List.sum_cons, List.map_append, List.sum_append, List.map_replicate, List.map_nil, List.sum_nil, this,
      List.sum_replicate_nat]
    have e1 : b!"Vector<String> create: v;".length = 25 := by decide
    have e2 : pushText.length = 15 := by decide
    rw [e1, e2]; omega
  · unfold storedBytes texts
    rw [hv2]
    simp only [List.flatMap_cons, List.flatMap_nil, List.append_nil, textsOf, List.map_replicate, textOf, List.map_cons, List.sum_cons,
      List.sum_replicate_nat, letters, List.length_replicate]
    omega

/-- C59: the length of a reply is not bounded by what was sent and stored: for every precision `p` that fits 32 bits, three requests of
together at most 75 bytes make the server reply more than `p` bytes (up to two gigabytes). -/
theorem C59_replies_are_not_bounded [StdSort] (p : Int) (hp : 0 < p) (hp' : IsInt32 p) : ∃ t₁ t₂ t₃ c₁ c₂ r,
    Replies [] fresh none t₁ b!"null" c₁ ∧ Replies [] c₁ none t₂ b!"null" c₂ ∧ JustReplies [] c₂ none t₃ r ∧
    t₁.length + t₂.length + t₃.length ≤ 75 ∧ p < r.length := by
  obtain ⟨c₁, h1, hv1⟩ : ∃ c₁, Replies [] fresh none b!"Float create: f withValue: 1;" b!"null" c₁ ∧
      c₁.vars = [(b!"f", .float (.fin false (2 ^ 1074)))] :=
    ⟨{ fresh with vars := [(b!"f", .float (.fin false (2 ^ 1074)))] }, by unfold Replies; kernel_rfl, rfl⟩
  have r1 : Reachable c₁ := .step fresh_reachable h1
  have hlit := intStr_literal p
  have hst : Statement (request b!"Context" [(b!"setFloatPrecision:", intStr p)]) b!"Context" b!"setFloatPrecision:" [intStr p] := by
    refine request_statement (.inr (.inl rfl)) (by simp) ?_
    intro q hq
    rw [List.mem_singleton.1 hq]
    exact ⟨tokenText b!"setFloatPrecision:" (by decide +kernel), .inl (.inr (.inr (.inl ((intLiteral_exists _).2 ⟨_, hlit⟩))))⟩
  obtain ⟨c₂, h2, hv2, hc2⟩ := (C37_setFloatPrecision (pwd := []) (c := c₁) (s := none) hst (.integer hlit hp')).1 hp
  have r2 : Reachable c₂ := .step r1 h2
  have hn : Holds c₂ b!"f" (.float (.fin false (2 ^ 1074))) := by unfold Holds; rw [hv2, hv1]; rfl
  obtain ⟨ip, fp, h3, _, _, _, h4⟩ := C37_number_of_decimals (pwd := []) (s := none) (text := b!"f get;") r2 hn
    (reads (by decide +kernel)) (by rw [hc2]; exact hp)
  refine ⟨_, _, _, c₁, c₂, _, h1, h2, h3, ?_, ?_⟩
  · have e1 : b!"Float create: f withValue: 1;".length = 29 := by decide
    have e2 : b!"f get;".length = 6 := by decide
    have e3 : (request b!"Context" [(b!"setFloatPrecision:", intStr p)]).length = 28 + (intStr p).length := by
      simp only [request, layoutStatement, layoutMessage, List.map_cons, List.map_nil, List.headD_cons,
        List.length_append, List.length_cons, List.length_nil]
      omega
    have e4 : (intStr p).length ≤ 10 := by
      obtain ⟨n, rfl⟩ : ∃ n : Nat, p = n := ⟨p.toNat, by omega⟩
      have hn : n < 10 ^ 10 := by have := hp'.2; omega
      unfold intStr
      rw [if_neg (by omega)]
      exact natStr_length n 10 hn (by omega)
    rw [e1, e2, e3]; omega
  · rw [hc2] at h4
    simp only [Bool.false_eq_true, if_false, List.nil_append, List.length_append, List.length_cons] at h4 ⊢
    omega

/-- A history that meets the hypotheses: the demonstration, from the empty context. -/
example [StdSort] : ∃ h, History fresh h demo ∧ fresh.vars = [] ∧ h.length = 14 ∧ cells demo = 14 ∧ storedBytes demo = 24 := by
  obtain ⟨h, h1, h2⟩ := after_history (pwd := []) (s := none) (ts := demoTexts) (c := fresh) (c' := demo) (by kernel_rfl)
  exact ⟨h, h1, rfl, by rw [← List.length_map (f := (·.1)), h2]; rfl, by decide +kernel, by decide +kernel⟩

end Knuckle.Props
