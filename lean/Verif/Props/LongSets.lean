/-
C107: Sets and Dictionaries of any size.
-/
import Verif.Props.Whole
import Verif.Spec.LongSets
import Verif.Proofs.SetDict
import Verif.Proofs.NonFloat
import Verif.Proofs.Decimal

namespace Knuckle.Props

open Knuckle.Spec Knuckle.Idx

/-- C107: `low32` is what it should be: a 32-bit number that differs by a multiple of 2^32; the number itself if it is below 2^31. -/
theorem C107_low32 (n : Nat) : IsInt32 (low32 n) ∧ (4294967296 : Int) ∣ n - low32 n ∧ (n < 2147483648 → low32 n = n) := by
  unfold low32 IsInt32
  split <;> refine ⟨by omega, by omega, by omega⟩

theorem low32_toInt (n : Nat) : toInt n = low32 n := by
  unfold toInt low32
  split <;> rfl

/-- C107: a Set with any number of elements (of its type, strings shorter than 2^31 bytes): every well-formed message, with the indices of the C++, does
what is documented; only the reply to `size` wraps around. -/
theorem C107_sets (cfg : Cfg) {t : Str} {l : List Obj} (typed : ∀ o ∈ l, HasType t o)
    (elements : ∀ v, Obj.string v ∈ l → v.length < 2147483648) {name : Str} {args : List Str} {m : SetMsg}
    (understood : SetSays t name args m) (request : ∀ a ∈ args, a.length < 2147483648) :
    Idx.find (Idx.setTable cfg t l) name args = anySetMeaning cfg l m := by
  by_cases hn : name = b!"size"
  · subst hn
    cases understood
    show Ix.ok (l, intStr (toInt l.length)) = _
    rw [low32_toInt]
    rfl
  · rw [setReceive_eq cfg t (fitsAll_of elements) name args (fun e => absurd e hn) request, set_says cfg t l typed name args m understood, fromRun_result]
    cases understood <;> first | rfl | exact absurd rfl hn

/-- C107: the same for a Dictionary. -/
theorem C107_dictionaries (cfg : Cfg) {t u : Str} {l : List (Obj × Obj)} (typed : ∀ p ∈ l, HasType t p.1)
    (keys : ∀ v, Obj.string v ∈ l.map (·.1) → v.length < 2147483648) (values : ∀ v, Obj.string v ∈ l.map (·.2) → v.length < 2147483648)
    {name : Str} {args : List Str} {m : DictMsg}
    (understood : DictSays t u name args m) (request : ∀ a ∈ args, a.length < 2147483648) :
    Idx.find (Idx.dictTable cfg t u l) name args = anyDictMeaning cfg l m := by
  have hf : FitsPairs l := fun p hp => ⟨fitsAll_of keys p.1 (List.mem_map_of_mem hp), fitsAll_of values p.2 (List.mem_map_of_mem hp)⟩
  by_cases hn : name = b!"size"
  · subst hn
    cases understood
    show Ix.ok (l, intStr (toInt l.length)) = _
    rw [low32_toInt]
    rfl
  · rw [dictReceive_eq cfg t u hf name args (fun e => absurd e hn) request, dict_says cfg t u l typed name args m understood, fromRun_result]
    cases understood <;> first | rfl | exact absurd rfl hn

/-- C107: all other messages, whatever is wrong with them, to sets and dictionaries of any size: as in the model without indices. -/
theorem C107_all_messages [StdSort] (cfg : Cfg) (i : Inst) (kind : (∃ t l, i = .set t l) ∨ ∃ t u l, i = .dictionary t u l)
    (texts : ∀ t ∈ textsOf i, t.length < 2147483648) {name : Str} (other : name ≠ b!"size") (args : List Str) (request : ∀ a ∈ args, a.length < 2147483648) :
    Idx.instReceive cfg i name args = fromRun (Knuckle.receive cfg i name args) := by
  rcases kind with ⟨t, l, rfl⟩ | ⟨t, u, l, rfl⟩
  · have hf : FitsAll l := fun o ho => textOf_fits (texts _ (List.mem_map_of_mem ho))
    exact (congrArg _ (setReceive_eq cfg t hf name args (fun e => absurd e other) request)).trans (wrap_eq _ _)
  · have hf : FitsPairs l := fun p hp => ⟨textOf_fits (texts _ (List.mem_append_left _ (List.mem_map.2 ⟨p, hp, rfl⟩))),
      textOf_fits (texts _ (List.mem_append_right _ (List.mem_map.2 ⟨p, hp, rfl⟩)))⟩
    exact (congrArg _ (dictReceive_eq cfg t u hf name args (fun e => absurd e other) request)).trans (wrap_eq _ _)

/-- The integers from -2^31 on. -/
def ints (n : Nat) : List Obj := (List.range n).map fun (k : Nat) => Obj.integer ((k : Int) - 2147483648)

theorem ints_length (n : Nat) : (ints n).length = n := by simp [ints]

theorem ints_mem {n : Nat} {o : Obj} (h : o ∈ ints n) : ∃ k : Nat, k < n ∧ o = .integer ((k : Int) - 2147483648) := by
  simp only [ints, List.mem_map, List.mem_range] at h
  obtain ⟨k, hk, rfl⟩ := h
  exact ⟨k, hk, rfl⟩

theorem ints_typed {n : Nat} (h : n ≤ 4294967296) : ∀ o ∈ ints n, HasType b!"Integer" o := by
  intro o ho
  obtain ⟨k, hk, rfl⟩ := ints_mem ho
  exact ⟨rfl, by unfold ValueOk IsInt32; omega⟩

theorem ints_strings (n : Nat) : ∀ v, Obj.string v ∈ ints n → v.length < 2147483648 := by
  intro v hv
  obtain ⟨k, _, h⟩ := ints_mem hv
  cases h

theorem intStr_short {z : Int} (h : IsInt32 z) : (intStr z).length < 2147483648 := by
  unfold IsInt32 at h
  have := natStr_length z.natAbs 10 (by omega) (by omega)
  unfold intStr
  split
  · simp only [List.length_cons]; omega
  · omega

theorem ints_searchable (eps : Fl) (n m : Nat) : Searchable (less eps) (ints n) (.integer ((m : Int) - 2147483648)) := by
  have mem : ∀ o ∈ Obj.integer ((m : Int) - 2147483648) :: ints n, ∃ z, o = .integer z := by
    intro o ho
    rcases List.mem_cons.1 ho with rfl | ho
    · exact ⟨_, rfl⟩
    · obtain ⟨k, _, rfl⟩ := ints_mem ho; exact ⟨_, rfl⟩
  have lt : ∀ x y : Int, (less eps (.integer x) (.integer y) = true) = (x < y) := by intro x y; simp [less, natLt]
  refine ⟨⟨?_, ?_, ?_⟩, ?_⟩
  · intro a ha
    obtain ⟨x, rfl⟩ := mem a ha
    rw [lt]; omega
  · intro a ha b hb c hc
    obtain ⟨x, rfl⟩ := mem a ha
    obtain ⟨y, rfl⟩ := mem b hb
    obtain ⟨z, rfl⟩ := mem c hc
    simp only [lt]; omega
  · intro a ha b hb c hc
    obtain ⟨x, rfl⟩ := mem a ha
    obtain ⟨y, rfl⟩ := mem b hb
    obtain ⟨z, rfl⟩ := mem c hc
    simp only [lt]; omega
  · unfold ints
    rw [List.pairwise_map]
    refine List.pairwise_lt_range.imp fun h => ?_
    rw [lt]; omega

theorem ints_add (cfg : Cfg) {n : Nat} (h : n < 4294967296) :
    Idx.find (Idx.setTable cfg b!"Integer" (ints n)) b!"add:" [intStr ((n : Int) - 2147483648)] = .ok (ints (n + 1), b!"null") := by
  have hz : IsInt32 ((n : Int) - 2147483648) := by unfold IsInt32; omega
  rw [C107_sets cfg (ints_typed (by omega)) (ints_strings n) (m := .add (.integer ((n : Int) - 2147483648))) (.add (.integer (intStr_literal _) hz))
    (by intro a ha; rw [List.mem_singleton.1 ha]; exact intStr_short hz)]
  have lt : ∀ x y : Int, less cfg.eps (.integer x) (.integer y) = decide (x < y) := by intro x y; simp [less, natLt]
  have h1 : ¬ ∃ x ∈ ints n, tied (less cfg.eps) (.integer ((n : Int) - 2147483648)) x = true := by
    rintro ⟨x, hx, ht⟩
    obtain ⟨k, hk, rfl⟩ := ints_mem hx
    simp [tied, lt] at ht
    omega
  have h2 : (ints n).filter (fun x => less cfg.eps x (.integer ((n : Int) - 2147483648))) = ints n := by
    rw [List.filter_eq_self]
    intro x hx
    obtain ⟨k, hk, rfl⟩ := ints_mem hx
    simp [lt]; omega
  have h3 : (ints n).filter (fun x => less cfg.eps (.integer ((n : Int) - 2147483648)) x) = [] := by
    rw [List.filter_eq_nil_iff]
    intro x hx
    obtain ⟨k, hk, rfl⟩ := ints_mem hx
    simp [lt]; omega
  show told (setMeaning cfg (ints n) (.add _)) = _
  simp only [setMeaning]
  rw [if_pos (ints_searchable cfg.eps n n), if_neg h1, h2, h3]
  show Ix.ok (ints n ++ [.integer ((n : Int) - 2147483648)], b!"null") = _
  unfold ints
  rw [List.range_succ, List.map_append]
  rfl

/-- C107: such sets come about by `add:`; a Set of Integer can have up to 2^32 elements. -/
theorem C107_long_sets_exist (cfg : Cfg) {size : Nat} (h : size ≤ 4294967296) :
    ∃ (l : List Obj) (requests : List Str), l.length = size ∧ (∀ o ∈ l, HasType b!"Integer" o) ∧
      requests.foldlM (fun (l : List Obj) a => (Idx.find (Idx.setTable cfg b!"Integer" l) b!"add:" [a]).bind fun r => Ix.ok r.1) [] = .ok l := by
  refine ⟨ints size, (List.range size).map fun (k : Nat) => intStr ((k : Int) - 2147483648), ints_length size, ints_typed h, ?_⟩
  have gen : ∀ k a : Nat, a + k ≤ 4294967296 → ((List.range' a k).map fun (k : Nat) => intStr ((k : Int) - 2147483648)).foldlM
      (fun (l : List Obj) a => (Idx.find (Idx.setTable cfg b!"Integer" l) b!"add:" [a]).bind fun r => Ix.ok r.1) (ints a) = .ok (ints (a + k)) := by
    intro k
    induction k with
    | zero => intro a _; rfl
    | succ k ih =>
      intro a ha
      rw [List.range'_succ, List.map_cons, List.foldlM_cons, ints_add cfg (by omega), bind_def, bind_ok, bind_ok, ih (a + 1) (by omega),
        show a + 1 + k = a + (k + 1) by omega]
  have := gen size 0 (by omega)
  rw [← List.range_eq_range', Nat.zero_add] at this
  exact this

/-! All 2^32 integers: the set is not empty, but its size is 0; three billion of them; a dictionary. -/

example (cfg : Cfg) : Idx.find (Idx.setTable cfg b!"Integer" (ints 4294967296)) b!"size" [] = .ok (ints 4294967296, b!"0") := by
  rw [C107_sets cfg (ints_typed (le_refl _)) (ints_strings _) .size (by simp)]
  show Ix.ok (ints 4294967296, intStr (low32 (ints 4294967296).length)) = _
  rw [ints_length]
  rfl

example (cfg : Cfg) : Idx.find (Idx.setTable cfg b!"Integer" (ints 4294967296)) b!"isEmpty?" [] = .ok (ints 4294967296, b!"false") := by
  rw [C107_sets cfg (ints_typed (le_refl _)) (ints_strings _) .isEmpty (by simp)]
  show Ix.ok (ints 4294967296, truth (ints 4294967296 = [])) = _
  have : ints 4294967296 ≠ [] := by
    intro h
    have := congrArg List.length h
    rw [ints_length] at this
    simp at this
  unfold truth
  rw [if_neg this]

example (cfg : Cfg) : Idx.find (Idx.dictTable cfg b!"Integer" b!"String" ((ints 3000000000).map fun k => (k, .string b!"x"))) b!"size" [] =
    .ok ((ints 3000000000).map fun k => (k, .string b!"x"), b!"-1294967296") := by
  rw [C107_dictionaries (t := b!"Integer") (u := b!"String") cfg (by
      intro p hp
      obtain ⟨k, hk, rfl⟩ := List.mem_map.1 hp
      exact ints_typed (by omega) k hk) (by
      intro v hv
      rw [List.map_map] at hv
      obtain ⟨k, hk, h⟩ := List.mem_map.1 hv
      exact ints_strings _ v (by rw [← h]; exact hk)) (by
      intro v hv
      rw [List.map_map] at hv
      obtain ⟨k, hk, h⟩ := List.mem_map.1 hv
      cases h
      decide) .size (by simp)]
  show Ix.ok (_, intStr (low32 (List.length ((ints 3000000000).map _)))) = _
  rw [List.length_map, ints_length]
  rfl

end Knuckle.Props
