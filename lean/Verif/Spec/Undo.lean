/-
Which messages undo which.
-/
import Verif.Spec.Behaviour

namespace Knuckle.Spec

/-- `Undoes i m a m' a'`: if a variable has the value `i`, then the message `m` with arguments `a` is undone by `m'` with `a'`. -/
inductive Undoes : Inst → Str → List Str → Str → List Str → Prop
  /-- setting the old value again -/
  | boolean {v w a b} : Denotes b!"Boolean" a (.boolean w) → Denotes b!"Boolean" b (.boolean v) →
      Undoes (.boolean v) b!"set:" [a] b!"set:" [b]
  | character {v w a b} : Denotes b!"Character" a (.character w) → Denotes b!"Character" b (.character v) →
      Undoes (.character v) b!"set:" [a] b!"set:" [b]
  | integer {v w a b} : Denotes b!"Integer" a (.integer w) → Denotes b!"Integer" b (.integer v) →
      Undoes (.integer v) b!"set:" [a] b!"set:" [b]
  | string {v w a b} : Denotes b!"String" a (.string w) → Denotes b!"String" b (.string v) →
      Undoes (.string v) b!"set:" [a] b!"set:" [b]
  /-- integers, as long as the result has 32 bits -/
  | add {v k a} : IntLiteral a k → IsInt32 k → IsInt32 (v + k) → Undoes (.integer v) b!"add:" [a] b!"subtract:" [a]
  | subtract {v k a} : IntLiteral a k → IsInt32 k → IsInt32 (v - k) → Undoes (.integer v) b!"subtract:" [a] b!"add:" [a]
  /-- strings -/
  | strPushBack {v x} : Undoes (.string v) b!"pushBack:" [[c!"'", x, c!"'"]] b!"popBack" []
  | strPushFront {v x} : Undoes (.string v) b!"pushFront:" [[c!"'", x, c!"'"]] b!"popFront" []
  | strPopBack {v x} : Undoes (.string (v ++ [x])) b!"popBack" [] b!"pushBack:" [[c!"'", x, c!"'"]]
  | strPopFront {v x} : Undoes (.string (x :: v)) b!"popFront" [] b!"pushFront:" [[c!"'", x, c!"'"]]
  | concatenate {v w a b} : Denotes b!"String" a (.string w) → Denotes b!"Integer" b (.integer v.length) →
      Undoes (.string v) b!"concatenate:" [a] b!"eraseFromIndex:" [b]
  | strErase {v w a b} : Denotes b!"Integer" a (.integer v.length) → Denotes b!"String" b (.string w) →
      Undoes (.string (v ++ w)) b!"eraseFromIndex:" [a] b!"concatenate:" [b]
  | strInsert {v v' w a b e} : Denotes b!"String" a (.string w) → Denotes b!"Integer" b (.integer v.length) →
      Denotes b!"Integer" e (.integer (v ++ w).length) →
      Undoes (.string (v ++ v')) b!"insert:beforeIndex:" [a, b] b!"eraseFromIndex:toIndex:" [b, e]
  | strEraseTo {v v' w a b e} : Denotes b!"String" a (.string w) → Denotes b!"Integer" b (.integer v.length) →
      Denotes b!"Integer" e (.integer (v ++ w).length) →
      Undoes (.string (v ++ w ++ v')) b!"eraseFromIndex:toIndex:" [b, e] b!"insert:beforeIndex:" [a, b]
  /-- vectors -/
  | pushBack {t l a o} : Denotes t a o → Undoes (.vector t l) b!"pushBack:" [a] b!"popBack" []
  | pushFront {t l a o} : Denotes t a o → Undoes (.vector t l) b!"pushFront:" [a] b!"popFront" []
  | popBack {t l a o} : Denotes t a o → Undoes (.vector t (l ++ [o])) b!"popBack" [] b!"pushBack:" [a]
  | popFront {t l a o} : Denotes t a o → Undoes (.vector t (o :: l)) b!"popFront" [] b!"pushFront:" [a]
  | insert {t l l' a o b} : Denotes t a o → Denotes b!"Integer" b (.integer (l : List Obj).length) →
      Undoes (.vector t (l ++ l')) b!"insert:beforeIndex:" [a, b] b!"popAtIndex:" [b]
  | popAtIndex {t l l' a o b} : Denotes t a o → Denotes b!"Integer" b (.integer (l : List Obj).length) →
      Undoes (.vector t (l ++ o :: l')) b!"popAtIndex:" [b] b!"insert:beforeIndex:" [a, b]
  | reverse {t l} : Undoes (.vector t l) b!"reverse" [] b!"reverse" []
  /-- sets, not of floats -/
  | addToSet {t l a o} : t ≠ b!"Float" → Denotes t a o → o ∉ l → Undoes (.set t l) b!"add:" [a] b!"remove:" [a]
  | remove {t l a o} : t ≠ b!"Float" → Denotes t a o → o ∈ l → Undoes (.set t l) b!"remove:" [a] b!"add:" [a]
  /-- dictionaries whose keys are not floats -/
  | associate {t u l a b k v} : t ≠ b!"Float" → Denotes t a k → Denotes u b v → (∀ w, (k, w) ∉ l) →
      Undoes (.dictionary t u l) b!"associateValue:withKey:" [b, a] b!"removeKey:" [a]
  | reassociate {t u l a b b' k v v'} : t ≠ b!"Float" → Denotes t a k → Denotes u b v → Denotes u b' v' → (k, v') ∈ l →
      Undoes (.dictionary t u l) b!"associateValue:withKey:" [b, a] b!"associateValue:withKey:" [b', a]
  | removeKey {t u l a b k v} : t ≠ b!"Float" → Denotes t a k → Denotes u b v → (k, v) ∈ l →
      Undoes (.dictionary t u l) b!"removeKey:" [a] b!"associateValue:withKey:" [b, a]

end Knuckle.Spec
