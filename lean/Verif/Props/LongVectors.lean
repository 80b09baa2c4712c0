/-
C105: Vectors with 2^31 elements or more.
-/
import Verif.Proofs.LongVector
import Verif.Props.LongStrings

namespace Knuckle.Props

open Knuckle.Spec Knuckle.Idx

theorem fitsAll_of {l : List Obj} (h : ∀ v, Obj.string v ∈ l → v.length < 2147483648) : FitsAll l := by
  intro o ho
  cases o with
  | string v => exact h v ho
  | _ => trivial

/-- A Vector with fewer than 2^31 elements (of its type, strings shorter than 2^31 bytes): every well-formed message, with the indices of the C++,
does what the documentation says; no access is outside of the vector, nothing overflows, and every loop ends. -/
theorem C105_short_vectors [StdSort] (cfg : Cfg) {t : Str} {l : List Obj} (typed : ∀ o ∈ l, HasType t o) (short : l.length < 2147483648)
    (elements : ∀ v, Obj.string v ∈ l → v.length < 2147483648) {name : Str} {args : List Str} {m : VecMsg}
    (understood : VecSays t name args m) (request : ∀ a ∈ args, a.length < 2147483648) :
    Idx.vecReceive cfg t l name args = told (vecMeaning cfg l m) := by
  rw [vecReceive_eq short (fitsAll_of elements) cfg t name args request, vec_says cfg t l typed name args m understood, fromRun_result]

/-- The same for all messages, also `sort` and those that are not understood: the outcome is the one of the model without indices. -/
theorem C105_short_vectors_all [StdSort] (cfg : Cfg) (t : Str) {l : List Obj} (short : l.length < 2147483648)
    (elements : ∀ v, Obj.string v ∈ l → v.length < 2147483648) (name : Str) (args : List Str) (request : ∀ a ∈ args, a.length < 2147483648) :
    (∃ l' reply, Knuckle.receive cfg (.vector t l) name args = .ret (.vector t l') reply ∧ Idx.vecReceive cfg t l name args = .ok (l', reply)) ∨
    (∃ l' e, Knuckle.receive cfg (.vector t l) name args = .thr (.vector t l') e ∧ Idx.vecReceive cfg t l name args = .throws e) ∨
    (Knuckle.receive cfg (.vector t l) name args = .ub ∧ Idx.vecReceive cfg t l name args = .ub) := by
  rw [vecReceive_eq short (fitsAll_of elements) cfg t name args request]
  rw [show Knuckle.receive cfg (.vector t l) name args = wrap (.vector t) (dispatch l (Knuckle.vectorTable cfg t l) name args) from rfl]
  cases dispatch l (Knuckle.vectorTable cfg t l) name args with
  | ret w r => exact Or.inl ⟨w, r, rfl, rfl⟩
  | thr w e => exact Or.inr (Or.inl ⟨w, e, rfl, rfl⟩)
  | ub => exact Or.inr (Or.inr ⟨rfl, rfl⟩)

/-- A Vector with at least 2^31 and fewer than 2^32 elements: see `longVecMeaning`. -/
theorem C105_long_vectors [StdSort] (cfg : Cfg) {t : Str} {l : List Obj} (typed : ∀ o ∈ l, HasType t o) (long : 2147483648 ≤ l.length)
    (below : l.length < 4294967296) (elements : ∀ v, Obj.string v ∈ l → v.length < 2147483648) {name : Str} {args : List Str} {m : VecMsg}
    (understood : VecSays t name args m) (request : ∀ a ∈ args, a.length < 2147483648) :
    Idx.vecReceive cfg t l name args = longVecMeaning cfg l m :=
  vecReceive_long long below (fitsAll_of elements) cfg typed request understood

/-- `sort` does not depend on the size: with any number of elements it does what it does in the model without indices. -/
theorem C105_long_sort [StdSort] (cfg : Cfg) (t : Str) (l : List Obj) :
    (∃ l', Knuckle.receive cfg (.vector t l) b!"sort" [] = .ret (.vector t l') b!"null" ∧ Idx.vecReceive cfg t l b!"sort" [] = .ok (l', b!"null")) ∨
    (Knuckle.receive cfg (.vector t l) b!"sort" [] = .ub ∧ Idx.vecReceive cfg t l b!"sort" [] = .ub) := by
  rw [show Knuckle.receive cfg (.vector t l) b!"sort" [] = wrap (.vector t) (Knuckle.vecSort cfg l []) from rfl,
    show Idx.vecReceive cfg t l b!"sort" [] = Idx.vecSort cfg l [] from rfl]
  unfold Knuckle.vecSort Idx.vecSort
  rw [Knuckle.op0, Idx.op0]
  by_cases h1 : (!comparable cfg.eps l) = true
  · rw [if_pos h1, if_pos h1]; exact Or.inr ⟨rfl, rfl⟩
  · rw [if_neg h1, if_neg h1]
    by_cases h2 : swoOn (ltB cfg.eps) l = true
    · rw [if_pos h2, if_pos h2]; exact Or.inl ⟨_, rfl, rfl⟩
    · rw [if_neg h2, if_neg h2]; exact Or.inr ⟨rfl, rfl⟩

/-- Vectors of every size, also such, come about by `pushBack:`. -/
theorem C105_long_vectors_exist [StdSort] (cfg : Cfg) (size : Nat) :
    ∃ l : List Obj, l.length = size ∧ (∀ o ∈ l, HasType b!"Integer" o) ∧
      (List.replicate size b!"7").foldlM (fun (l : List Obj) a => (Idx.vecReceive cfg b!"Integer" l b!"pushBack:" [a]).bind fun r => Ix.ok r.1) [] = .ok l := by
  have step : ∀ l : List Obj, (Idx.vecReceive cfg b!"Integer" l b!"pushBack:" [b!"7"]).bind (fun r => Ix.ok r.1) = .ok (l ++ [.integer 7]) := by
    intro l
    have : Idx.vecReceive cfg b!"Integer" l b!"pushBack:" [b!"7"] = Idx.vecPushBack b!"Integer" l [b!"7"] := rfl
    rw [this, Idx.vecPushBack, Idx.op1, Idx.getSharedInstance_eq _ (by unfold Idx.Fits; decide),
      (gsi_denotes b!"Integer" b!"7" (.integer 7) (lit_int (by decide +kernel) (by decide +kernel) (by unfold IsInt32; decide))).1]
    rfl
  refine ⟨List.replicate size (.integer 7), by simp, ?_, ?_⟩
  · intro o ho
    rw [List.eq_of_mem_replicate ho]
    exact (gsi_denotes b!"Integer" b!"7" (.integer 7) (lit_int (by decide +kernel) (by decide +kernel) (by unfold IsInt32; decide))).2
  · have gen : ∀ (n : Nat) (l : List Obj), (List.replicate n b!"7").foldlM (fun (l : List Obj) a =>
        (Idx.vecReceive cfg b!"Integer" l b!"pushBack:" [a]).bind fun r => Ix.ok r.1) l = .ok (l ++ List.replicate n (.integer 7)) := by
      intro n
      induction n with
      | zero => intro l; simp
      | succ n ih =>
        intro l
        rw [List.replicate_succ, List.foldlM_cons, step, bind_def, bind_ok, ih, List.replicate_succ, List.append_assoc]
        rfl
    simpa using gen size []

/-! A vector with 3·10^9 elements: its size is negative, `removeAll:` says that it is done but removes nothing, `popBack` is undefined; and a short
vector. -/

theorem seven : Denotes b!"Integer" b!"7" (.integer 7) := lit_int (by decide +kernel) (by decide +kernel) (by unfold IsInt32; decide)

theorem long_vector : (∀ o ∈ List.replicate 3000000000 (Obj.integer 7), HasType b!"Integer" o) ∧
    2147483648 ≤ (List.replicate 3000000000 (Obj.integer 7)).length ∧ (List.replicate 3000000000 (Obj.integer 7)).length < 4294967296 ∧
    ∀ v, Obj.string v ∈ List.replicate 3000000000 (Obj.integer 7) → v.length < 2147483648 := by
  refine ⟨?_, ?_, ?_, ?_⟩
  · intro o ho
    rw [List.eq_of_mem_replicate ho]; exact (gsi_denotes _ _ _ seven).2
  · rw [List.length_replicate]; decide
  · rw [List.length_replicate]; decide
  · intro v hv
    cases List.eq_of_mem_replicate hv

example [StdSort] (cfg : Cfg) : Idx.vecReceive cfg b!"Integer" (List.replicate 3000000000 (.integer 7)) b!"removeAll:" [b!"7"] =
    .ok (List.replicate 3000000000 (.integer 7), b!"null") :=
  C105_long_vectors _ long_vector.1 long_vector.2.1 long_vector.2.2.1 long_vector.2.2.2 (.removeAll seven) (by decide)

example [StdSort] (cfg : Cfg) : Idx.vecReceive cfg b!"Integer" (List.replicate 3000000000 (.integer 7)) b!"popBack" [] = .ub :=
  C105_long_vectors _ long_vector.1 long_vector.2.1 long_vector.2.2.1 long_vector.2.2.2 .popBack (by simp)

example [StdSort] (cfg : Cfg) : Idx.vecReceive cfg b!"Integer" (List.replicate 3000000000 (.integer 7)) b!"size" [] =
    .ok (List.replicate 3000000000 (.integer 7), b!"-1294967296") := by
  refine (C105_long_vectors _ long_vector.1 long_vector.2.1 long_vector.2.2.1 long_vector.2.2.2 .size (by simp)).trans ?_
  unfold longVecMeaning
  rw [List.length_replicate]
  congr 2

example [StdSort] (cfg : Cfg) : Idx.vecReceive cfg b!"Integer" [.integer 7, .integer 7, .integer 8, .integer 7] b!"removeAll:" [b!"7"] = .ok ([.integer 8], b!"null") :=
  (C105_short_vectors cfg (t := b!"Integer") (l := [.integer 7, .integer 7, .integer 8, .integer 7])
    (by intro o ho; simp at ho; rcases ho with rfl | rfl | rfl <;> exact ⟨rfl, by unfold ValueOk IsInt32; decide⟩) (by decide) (by simp) (.removeAll seven) (by decide)).trans rfl

end Knuckle.Props
