/-
Messages keep values well typed.
-/
import Verif.Proofs.Receive

namespace Knuckle

open Spec

theorem denotes_type {t a : Str} {o : Obj} (h : Denotes t a o) : HasType t o := (gsi_denotes t a o h).2

theorem mem_set_sub {l : List Obj} {k : Nat} {r x : Obj} (h : x ∈ l.set k r) : x ∈ l ∨ x = r := List.mem_or_eq_of_mem_set h

/-- The elements of a vector after a message were there before or are arguments. -/
theorem vec_elems {P : Obj → Prop} (cfg : Cfg) (t : Str) (l : List Obj) (hl : ∀ x ∈ l, P x) (name : Str) (args : List Str) (m : VecMsg)
    (h : VecSays t name args m) (l' : List Obj) (r : Str) (e : vecMeaning cfg l m = .gives l' r)
    (hP : ∀ a ∈ args, ∀ o, Denotes t a o → P o) : ∀ x ∈ l', P x := by
  have sub : ∀ l'' : List Obj, l''.Sublist l → ∀ x ∈ l'', P x := fun l'' hs x hx => hl x (hs.subset hx)
  cases h with
  | @containsFrom a o b i h1 h2 => simp only [vecMeaning] at e; split at e <;> cases e; exact hl
  | @atIndex a i h1 => simp only [vecMeaning] at e; split at e <;> cases e; exact hl
  | @firstIndexOfFrom a o b i h1 h2 => simp only [vecMeaning] at e; split at e <;> cases e; exact hl
  | @first a n h1 => simp only [vecMeaning] at e; split at e <;> cases e; exact hl
  | @last a n h1 => simp only [vecMeaning] at e; split at e <;> cases e; exact hl
  | @slice a i h1 => simp only [vecMeaning] at e; split at e <;> cases e; exact hl
  | @sliceTo a i b j h1 h2 => simp only [vecMeaning] at e; split at e <;> cases e; exact hl
  | @pushBack a o h1 =>
    cases e; intro x hx
    rcases List.mem_append.1 hx with hx | hx
    · exact hl x hx
    · rw [List.mem_singleton.1 hx]; exact hP _ (by simp) _ h1
  | @pushFront a o h1 =>
    cases e; intro x hx
    rcases List.mem_cons.1 hx with rfl | hx
    · exact hP _ (by simp) _ h1
    · exact hl x hx
  | popBack =>
    simp only [vecMeaning] at e; split at e <;> cases e
    · exact hl
    · exact sub _ (List.dropLast_sublist l)
  | popFront =>
    simp only [vecMeaning] at e; split at e <;> cases e
    · simp
    · exact sub _ (List.sublist_cons_self _ _)
  | @popAtIndex a i h1 => simp only [vecMeaning] at e; split at e <;> cases e; exact sub _ (List.eraseIdx_sublist _ _)
  | @insert a o b i h1 h2 =>
    simp only [vecMeaning] at e; split at e <;> cases e
    intro x hx
    rcases (List.mem_insertIdx (by omega)).1 hx with rfl | hx
    · exact hP _ (by simp) _ h1
    · exact hl x hx
  | @erase a i h1 => simp only [vecMeaning] at e; split at e <;> cases e; exact sub _ (List.take_sublist _ _)
  | @eraseTo a i b j h1 h2 =>
    simp only [vecMeaning] at e; split at e <;> cases e
    intro x hx
    rcases List.mem_append.1 hx with hx | hx
    · exact hl x (List.mem_of_mem_take hx)
    · exact hl x (List.mem_of_mem_drop hx)
  | @removeFirst a o h1 => cases e; exact sub _ List.eraseP_sublist
  | @removeFirstFrom a o b i h1 h2 =>
    simp only [vecMeaning] at e; split at e <;> cases e
    intro x hx
    rcases List.mem_append.1 hx with hx | hx
    · exact hl x (List.mem_of_mem_take hx)
    · exact hl x (List.mem_of_mem_drop (List.eraseP_sublist.subset hx))
  | @removeAll a o h1 => cases e; exact sub _ List.filter_sublist
  | @replaceFirst a o b r h1 h2 =>
    simp only [vecMeaning] at e; split at e <;> cases e
    · exact hl
    · intro x hx
      rcases mem_set_sub hx with hx | rfl
      · exact hl x hx
      · exact hP _ (by simp) _ h2
  | @replaceFirstFrom a o b i c r h1 h2 h3 =>
    simp only [vecMeaning] at e; split at e <;> (try cases e)
    split at e <;> cases e
    · exact hl
    · intro x hx
      rcases mem_set_sub hx with hx | rfl
      · exact hl x hx
      · exact hP _ (by simp) _ h3
  | @replaceAll a o b r h1 h2 =>
    cases e
    intro x hx
    obtain ⟨y, hy, rfl⟩ := List.mem_map.1 hx
    split
    · exact hP _ (by simp) _ h2
    · exact hl y hy
  | reverse => cases e; intro x hx; exact hl x (by simpa using hx)
  | clear => cases e; simp
  | _ => cases e; exact hl

theorem vec_type (cfg : Cfg) (t : Str) (l : List Obj) (hl : ∀ x ∈ l, HasType t x) (name : Str) (args : List Str) (m : VecMsg)
    (h : VecSays t name args m) (l' : List Obj) (r : Str) (e : vecMeaning cfg l m = .gives l' r) : ∀ x ∈ l', HasType t x :=
  vec_elems cfg t l hl name args m h l' r e fun _ _ _ hd => denotes_type hd

theorem less_natLt (eps : Fl) (t : Str) (a b : Obj) (ha : HasType t a) (hb : HasType t b) (ht : t ≠ b!"Float") :
    less eps a b = natLt a b := by
  rw [← ltB_less eps t a b ha hb, ltB_natLt eps t a b ha hb ht]

theorem int_type (eps : Fl) (v : Int) (hv : IsInt32 v) (name : Str) (args : List Str) (m : IntMsg) (h : IntSays name args m)
    (v' : Int) (r : Str) (e : intMeaning eps v m = .gives v' r) : IsInt32 v' := by
  have ex : ∀ n, exactly n = .gives v' r → IsInt32 v' := by
    intro n h; unfold exactly at h; split at h <;> cases h; assumption
  have tr : ∀ x, truncated x = .gives v' r → IsInt32 v' := by
    intro x h
    unfold truncated at h
    split at h <;> cases h
    rename_i h1
    unfold Fl.toInt at h1
    split at h1
    · simp only [] at h1; split at h1 <;> cases h1; exact (int32_iff _).2 (by assumption)
    · cases h1
  cases h with
  | @set a n h1 => cases e; exact (denotes_type h1).2
  | @add a x hx =>
    cases x <;> simp only [intMeaning] at e
    · exact ex _ e
    · exact tr _ e
  | @subtract a x hx =>
    cases x <;> simp only [intMeaning] at e
    · exact ex _ e
    · exact tr _ e
  | @multiplyBy a x hx =>
    cases x <;> simp only [intMeaning] at e
    · exact ex _ e
    · exact tr _ e
  | @divideBy a x hx =>
    cases x <;> simp only [intMeaning] at e
    · split at e
      · cases e
      · exact ex _ e
    · exact tr _ e
  | get => cases e; exact hv
  | @eq a x hx => cases x <;> cases e <;> exact hv
  | @lt a x hx => cases x <;> cases e <;> exact hv
  | @le a x hx => cases x <;> cases e <;> exact hv
  | @gt a x hx => cases x <;> cases e <;> exact hv
  | @ge a x hx => cases x <;> cases e <;> exact hv

theorem flt_type (cfg : Cfg) (v : Fl) (hv : v.toF32 = v) (name : Str) (args : List Str) (m : FltMsg) (h : FltSays name args m)
    (v' : Fl) (r : Str) (e : fltMeaning cfg v m = .gives v' r) : v'.toF32 = v' := by
  cases h <;> simp only [fltMeaning, Result.gives.injEq] at e <;> obtain ⟨rfl, _⟩ := e <;>
    first | exact hv | exact isF32_toF32' _

open Classical in
theorem set_type (cfg : Cfg) (t : Str) (l : List Obj) (hw : WellTyped (.set t l)) (name : Str) (args : List Str) (m : SetMsg)
    (h : SetSays t name args m) (l' : List Obj) (r : Str) (e : setMeaning cfg l m = .gives l' r) : WellTyped (.set t l') := by
  obtain ⟨ht, hl, ha⟩ := hw
  cases h with
  | @contains a o h1 => simp only [setMeaning] at e; split at e <;> cases e; exact ⟨ht, hl, ha⟩
  | @add a o h1 =>
    have ho := denotes_type h1
    simp only [setMeaning] at e
    split at e <;> (try cases e)
    split at e <;> cases e
    · exact ⟨ht, hl, ha⟩
    · refine ⟨ht, ?_, ?_⟩
      · intro x hx
        rcases List.mem_append.1 hx with hx | hx
        · exact hl x (List.mem_of_mem_filter hx)
        · rcases List.mem_cons.1 hx with rfl | hx
          · exact ho
          · exact hl x (List.mem_of_mem_filter hx)
      · intro hf
        refine List.pairwise_append.2 ⟨(ha hf).filter _, List.pairwise_cons.2 ⟨?_, (ha hf).filter _⟩, ?_⟩
        · intro x hx
          obtain ⟨hx1, hx2⟩ := List.mem_filter.1 hx
          rw [← less_natLt cfg.eps t o x ho (hl x hx1) hf]; exact hx2
        · intro x hx y hy
          obtain ⟨hx1, hx2⟩ := List.mem_filter.1 hx
          rw [less_natLt cfg.eps t x o (hl x hx1) ho hf] at hx2
          rcases List.mem_cons.1 hy with rfl | hy
          · exact hx2
          · obtain ⟨hy1, hy2⟩ := List.mem_filter.1 hy
            rw [less_natLt cfg.eps t o y ho (hl y hy1) hf] at hy2
            exact natLt_trans t x o y (hl x hx1) ho (hl y hy1) hx2 hy2
  | @remove a o h1 =>
    simp only [setMeaning] at e; split at e <;> cases e
    exact ⟨ht, fun x hx => hl x (List.mem_of_mem_filter hx), fun hf => (ha hf).filter _⟩
  | clear => cases e; exact ⟨ht, by simp, by simp⟩
  | _ => cases e; exact ⟨ht, hl, ha⟩

open Classical in
theorem dict_type (cfg : Cfg) (t u : Str) (l : List (Obj × Obj)) (hw : WellTyped (.dictionary t u l)) (name : Str)
    (args : List Str) (m : DictMsg) (h : DictSays t u name args m) (l' : List (Obj × Obj)) (r : Str)
    (e : dictMeaning cfg l m = .gives l' r) : WellTyped (.dictionary t u l') := by
  obtain ⟨ht, hu, hl, ha⟩ := hw
  cases h with
  | @containsKey a o h1 => simp only [dictMeaning] at e; split at e <;> cases e; exact ⟨ht, hu, hl, ha⟩
  | @getValueForKey a o h1 =>
    simp only [dictMeaning] at e; split at e <;> (try cases e)
    split at e <;> cases e <;> exact ⟨ht, hu, hl, ha⟩
  | @associate a v b k h1 h2 =>
    have hv := denotes_type h1
    have hk := denotes_type h2
    simp only [dictMeaning] at e
    split at e <;> (try cases e)
    split at e <;> cases e
    · refine ⟨ht, hu, ?_, ?_⟩
      · intro x hx
        obtain ⟨y, hy, rfl⟩ := List.mem_map.1 hx
        split
        · exact ⟨(hl y hy).1, hv⟩
        · exact hl y hy
      · intro hf
        rw [List.pairwise_map]
        refine (ha hf).imp ?_
        intro a b hab
        split <;> split <;> exact hab
    · refine ⟨ht, hu, ?_, ?_⟩
      · intro x hx
        rcases List.mem_append.1 hx with hx | hx
        · exact hl x (List.mem_of_mem_filter hx)
        · rcases List.mem_cons.1 hx with rfl | hx
          · exact ⟨hk, hv⟩
          · exact hl x (List.mem_of_mem_filter hx)
      · intro hf
        refine List.pairwise_append.2 ⟨(ha hf).filter _, List.pairwise_cons.2 ⟨?_, (ha hf).filter _⟩, ?_⟩
        · intro x hx
          obtain ⟨hx1, hx2⟩ := List.mem_filter.1 hx
          rw [← less_natLt cfg.eps t k x.1 hk (hl x hx1).1 hf]; exact hx2
        · intro x hx y hy
          obtain ⟨hx1, hx2⟩ := List.mem_filter.1 hx
          rw [less_natLt cfg.eps t x.1 k (hl x hx1).1 hk hf] at hx2
          rcases List.mem_cons.1 hy with rfl | hy
          · exact hx2
          · obtain ⟨hy1, hy2⟩ := List.mem_filter.1 hy
            rw [less_natLt cfg.eps t k y.1 hk (hl y hy1).1 hf] at hy2
            exact natLt_trans t x.1 k y.1 (hl x hx1).1 hk (hl y hy1).1 hx2 hy2
  | @removeKey a o h1 =>
    simp only [dictMeaning] at e; split at e <;> cases e
    exact ⟨ht, hu, fun x hx => hl x (List.mem_of_mem_filter hx), fun hf => (ha hf).filter _⟩
  | clear => cases e; exact ⟨ht, hu, by simp, by simp⟩
  | _ => cases e; exact ⟨ht, hu, hl, ha⟩

theorem map_gives {σ τ : Type} {f : σ → τ} {x : Result σ} {v : τ} {r : Str} (h : x.map f = .gives v r) :
    ∃ w, x = .gives w r ∧ v = f w := by
  cases x <;> cases h; exact ⟨_, rfl, rfl⟩

/-- A message leaves a value of the same type. -/
theorem behaves_wellTyped (cfg : Cfg) (i i' : Inst) (hw : WellTyped i) (name r : Str) (args : List Str)
    (h : Behaves cfg i name args (.gives i' r)) : WellTyped i' := by
  generalize hx : Result.gives i' r = x at h
  cases h with
  | boolean h => obtain ⟨w, _, rfl⟩ := map_gives hx.symm; trivial
  | character h => obtain ⟨w, _, rfl⟩ := map_gives hx.symm; trivial
  | integer h => obtain ⟨w, e, rfl⟩ := map_gives hx.symm; exact int_type _ _ hw _ _ _ h _ _ e
  | float h => obtain ⟨w, e, rfl⟩ := map_gives hx.symm; exact flt_type _ _ hw _ _ _ h _ _ e
  | string h => obtain ⟨w, _, rfl⟩ := map_gives hx.symm; trivial
  | vector h => obtain ⟨w, e, rfl⟩ := map_gives hx.symm; exact ⟨hw.1, vec_type _ _ _ hw.2 _ _ _ h _ _ e⟩
  | sort h1 h2 h3 => cases hx; exact ⟨hw.1, fun x hx => hw.2 x (h2.mem_iff.1 hx)⟩
  | sortUndefined h => cases hx
  | set h => obtain ⟨w, e, rfl⟩ := map_gives hx.symm; exact set_type _ _ _ hw _ _ _ h _ _ e
  | dictionary h => obtain ⟨w, e, rfl⟩ := map_gives hx.symm; exact dict_type _ _ _ _ hw _ _ _ h _ _ e

end Knuckle
