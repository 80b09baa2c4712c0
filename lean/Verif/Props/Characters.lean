/-
C57: the classification of characters.
-/
import Verif.Props.Demo

namespace Knuckle.Props

open Spec

variable {pwd : Str} {c : Ctx} {s : Option Session}

/-- The characters of ASCII the classes consist of. -/
def alphabet : Str := b!"abcdefghijklmnopqrstuvwxyzABCDEFGHIJKLMNOPQRSTUVWXYZ"

def numerals : Str := b!"0123456789"

/-- Space, tab, line feed, vertical tab, form feed, carriage return. -/
def blanks : Str := [32, 9, 10, 11, 12, 13]

/-- The questions about the class of a character. -/
def classes : List (Str × Str) :=
  [(b!"isAlphabetic?", alphabet), (b!"isNumeric?", numerals), (b!"isAlphanumeric?", alphabet ++ numerals), (b!"isSpace?", blanks)]

theorem forall_byte {P : Byte → Prop} (h : ∀ n : Fin 256, P (UInt8.ofNat n.1)) (b : Byte) : P b := by
  have := h ⟨b.toNat, b.toNat_lt⟩
  simpa using this

theorem letter_mem (b : Byte) : Letter b ↔ b ∈ alphabet := by
  revert b; apply forall_byte; decide +kernel

theorem digit_mem (b : Byte) : Digit b ↔ b ∈ numerals := by
  revert b; apply forall_byte; decide +kernel

theorem ws_mem (b : Byte) : Ws b ↔ b ∈ blanks := by
  revert b; apply forall_byte; decide +kernel

theorem truth_congr {p q : Prop} [Decidable p] [Decidable q] (h : p ↔ q) : truth p = truth q := by
  unfold truth; by_cases hp : p
  · rw [if_pos hp, if_pos (h.1 hp)]
  · rw [if_neg hp, if_neg (fun hq => hp (h.2 hq))]

/-- C57: each question replies true exactly for the characters of its class (whatever the locale; never for bytes that are
not ASCII), and changes nothing. -/
theorem C57_classes [StdSort] {n t name cls : Str} {v : Byte} (hc : Reachable c) (hn : Holds c n (.character v))
    (hq : (name, cls) ∈ classes) (h : Statement t n name []) :
    JustReplies pwd c s t (if v ∈ cls then b!"true" else b!"false") := by
  simp only [classes, List.mem_cons, Prod.mk.injEq, List.not_mem_nil, or_false] at hq
  rcases hq with ⟨rfl, rfl⟩ | ⟨rfl, rfl⟩ | ⟨rfl, rfl⟩ | ⟨rfl, rfl⟩
  · have := justReplies_of hc hn (answers_char (pwd := pwd) (s := s) hc hn h .isAlphabetic)
    rw [truth_congr (letter_mem v)] at this; exact this
  · have := justReplies_of hc hn (answers_char (pwd := pwd) (s := s) hc hn h .isNumeric)
    rw [truth_congr (digit_mem v)] at this; exact this
  · have := justReplies_of hc hn (answers_char (pwd := pwd) (s := s) hc hn h .isAlphanumeric)
    rw [truth_congr (q := v ∈ alphabet ++ numerals) (by rw [letter_mem, digit_mem, List.mem_append])] at this; exact this
  · have := justReplies_of hc hn (answers_char (pwd := pwd) (s := s) hc hn h .isSpace)
    rw [truth_congr (ws_mem v)] at this; exact this

/-- C57: so a character is alphanumeric exactly if it is alphabetic or numeric, and never two of alphabetic, numeric and
space; a byte from 128 on is none of them. -/
theorem C57_classes_are_disjoint (b : Byte) :
    (b ∈ alphabet ++ numerals ↔ b ∈ alphabet ∨ b ∈ numerals) ∧ ¬ (b ∈ alphabet ∧ b ∈ numerals) ∧
    ¬ (b ∈ alphabet ++ numerals ∧ b ∈ blanks) ∧ (128 ≤ b → b ∉ alphabet ++ numerals ∧ b ∉ blanks) := by
  refine ⟨List.mem_append, ?_⟩
  revert b; apply forall_byte; decide +kernel

example [StdSort] : JustReplies [] demo none b!"a::c isAlphabetic?;" b!"true" ∧ JustReplies [] demo none b!"a::c isSpace?;" b!"false" :=
  ⟨C57_classes (n := b!"a::c") (name := b!"isAlphabetic?") (cls := alphabet) (v := c!"x") demo_reachable (by decide +kernel)
      (List.mem_of_getElem? (i := 0) rfl) (reads (by decide +kernel)),
   C57_classes (n := b!"a::c") (name := b!"isSpace?") (cls := blanks) (v := c!"x") demo_reachable (by decide +kernel)
      (List.mem_of_getElem? (i := 3) rfl) (reads (by decide +kernel))⟩

example [StdSort] := C57_classes (pwd := []) (s := none) (c := demo) (n := b!"a::c") (v := c!"x") (t := b!"a::c isAlphabetic?;") (by meets)
  (by meets) (.head _) (by meets)

end Knuckle.Props
