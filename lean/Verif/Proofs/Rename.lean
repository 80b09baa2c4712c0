/-
Execution commutes with renaming.
-/
import Verif.Proofs.Settings
import Verif.Spec.Rename

namespace Knuckle

open Spec

/-- The same instance under another name. -/
def renameTo (m : Str) : Res (Option (Str × Inst)) → Res (Option (Str × Inst))
  | .ok (some (_, i)) => .ok (some (m, i))
  | x => x

/-- The same for one instance. -/
def renameOne (m : Str) : Res (Str × Inst) → Res (Str × Inst)
  | .ok (_, i) => .ok (m, i)
  | x => x

section
variable {n m : Str}

theorem constructWithValue_rename (hn : isVariable n = true) (hm : isVariable m = true) (g : Str → Res Inst) (v : Str → Bool) (args : List Str) :
    constructWithValue g v (m :: args) = renameOne m (constructWithValue g v (n :: args)) := by
  match args with
  | [] => rfl
  | [b] =>
    simp only [constructWithValue, hn, hm, Bool.not_true, Bool.false_or]
    cases v b with
    | false => rfl
    | true => cases g b <;> rfl
  | _ :: _ :: _ => rfl

theorem constructEmpty_rename (hn : isVariable n = true) (hm : isVariable m = true) (i : Inst) (args : List Str) :
    constructEmpty i (m :: args) = renameOne m (constructEmpty i (n :: args)) := by
  match args with
  | [] => simp only [constructEmpty, hn, hm, Bool.not_true]; rfl
  | _ :: _ => rfl

theorem newContainer_rename (hn : isVariable n = true) (hm : isVariable m = true) (i : Inst) (name : Str) (args : List Str) :
    newContainer i name (m :: args) = renameOne m (newContainer i name (n :: args)) := by
  unfold newContainer
  split
  · exact constructEmpty_rename hn hm i args
  · rfl

theorem some_rename (m : Str) (x : Res (Str × Inst)) :
    (do .ok (some (← renameOne m x)) : Res (Option (Str × Inst))) = renameTo m (do .ok (some (← x))) := by
  rcases x with ⟨_, _⟩ | _ | _ <;> rfl

/-- An earlier instance under its new name. -/
def renameAcc (m : Str) : Option (Str × Inst) → Option (Str × Inst)
  | some (_, i) => some (m, i)
  | none => none

theorem dictInstances_rename (hn : isVariable n = true) (hm : isVariable m = true) (name : Str) (args : List Str) (cs : Str) :
    ∀ (pre : Str) (acc : Option (Str × Inst)),
      dictInstances name (m :: args) pre cs (renameAcc m acc) = renameTo m (dictInstances name (n :: args) pre cs acc) := by
  induction cs with
  | nil => intro pre acc; rcases acc with _ | ⟨_, _⟩ <;> rfl
  | cons b cs ih =>
    intro pre acc
    simp only [dictInstances]
    split
    · rw [newContainer_rename hn hm]
      rcases hx : newContainer (.dictionary pre cs []) name (n :: args) with ⟨k, i⟩ | _ | _
      · exact ih (pre ++ [b]) (some (k, i))
      · rfl
      · rfl
    · exact ih _ _

theorem makeInstance_rename (hn : isVariable n = true) (hm : isVariable m = true) (actor name : Str) (args : List Str) :
    makeInstance actor name (m :: args) = renameTo m (makeInstance actor name (n :: args)) := by
  unfold makeInstance
  extract_lets type
  split
  · rw [← some_rename]; unfold newBoolean; split
    · rw [constructWithValue_rename hn hm]
    · rfl
  split
  · rw [← some_rename]; unfold newCharacter; split
    · rw [constructWithValue_rename hn hm]
    · rfl
  split
  · rw [← some_rename]; unfold newInteger; split
    · rw [constructWithValue_rename hn hm]
    · rfl
  split
  · rw [← some_rename]; unfold newFloat; split
    · rw [constructWithValue_rename hn hm]
    · rfl
  split
  · rw [← some_rename]; unfold newString; split
    · rw [constructEmpty_rename hn hm]
    split
    · rw [constructWithValue_rename hn hm]
    · rfl
  split
  · cases substrR type 7 (type.length - 8) with
    | ok et => simp only [Res.bind_ok]; rw [← some_rename, newContainer_rename hn hm]
    | err e => rfl
    | ub => rfl
  split
  · cases substrR type 4 (type.length - 5) with
    | ok et => simp only [Res.bind_ok]; rw [← some_rename, newContainer_rename hn hm]
    | err e => rfl
    | ub => rfl
  split
  · cases substrR type 11 (type.length - 12) with
    | ok ts => simp only [Res.bind_ok]; exact dictInstances_rename hn hm name args ts [] none
    | err e => rfl
    | ub => rfl
  · rfl

end

end Knuckle
