/-
What the messages mean, written down independently of the operators of `src/instance.cpp`: for each type, the messages
it understands (with the values of their arguments), how they are spelled, and what they do to the value of the receiver
and reply, in terms of ordinary list operations.

`README.md` documents the names; `tests/instance_tests.cpp` and `tests/context_tests.cpp` illustrate the meanings.
-/
import Verif.Spec.Values

namespace Knuckle.Spec

/-- The effect of a message on the value of its receiver. -/
inductive Result (σ : Type) where
  /-- the value becomes `v` and the reply is `reply` -/
  | gives (v : σ) (reply : Str)
  /-- nothing changes and the reply is the "invalid argument" error -/
  | refuses
  /-- the behaviour is undefined -/
  | undefined

/-! ### Texts of replies -/

/-- The text of a truth value. -/
def truth (p : Prop) [Decidable p] : Str := if p then b!"true" else b!"false"

/-- Texts separated by commas, in brackets. -/
def listText (l r : Byte) (xs : List Str) : Str := [l] ++ (List.intercalate b!"," xs ++ [r])

/-- A vector, also the reply of `first:`, `sliceFromIndex:`, `keys`, … -/
def vectorText (prec : Int) (l : List Obj) : Str := listText c!"[" c!"]" (l.map (Obj.repr prec))

/-- A set. -/
def setText (prec : Int) (l : List Obj) : Str := listText c!"{" c!"}" (l.map (Obj.repr prec))

/-- A dictionary. -/
def dictText (prec : Int) (l : List (Obj × Obj)) : Str :=
  listText c!"(" c!")" (l.map fun kv => listText c!"(" c!")" [kv.1.repr prec, kv.2.repr prec])

/-! ### Vectors -/

inductive VecMsg
  | get | isEmpty | contains (o : Obj) | containsFrom (o : Obj) (i : Int) | count (o : Obj) | atIndex (i : Int)
  | firstIndexOf (o : Obj) | firstIndexOfFrom (o : Obj) (i : Int) | allIndexesOf (o : Obj) | size
  | first (n : Int) | last (n : Int) | slice (i : Int) | sliceTo (i j : Int)
  | pushBack (o : Obj) | pushFront (o : Obj) | popBack | popFront | popAtIndex (i : Int) | insert (o : Obj) (i : Int)
  | erase (i : Int) | eraseTo (i j : Int) | removeFirst (o : Obj) | removeFirstFrom (o : Obj) (i : Int)
  | removeAll (o : Obj) | replaceFirst (o r : Obj) | replaceFirstFrom (o : Obj) (i : Int) (r : Obj)
  | replaceAll (o r : Obj) | reverse | clear

/-- How the messages to a vector with elements of type `t` are spelled (`sort` is treated separately). -/
inductive VecSays (t : Str) : Str → List Str → VecMsg → Prop
  | get : VecSays t b!"get" [] .get
  | isEmpty : VecSays t b!"isEmpty?" [] .isEmpty
  | contains {a o} : Denotes t a o → VecSays t b!"contains?" [a] (.contains o)
  | containsFrom {a o b i} : Denotes t a o → Denotes b!"Integer" b (.integer i) →
      VecSays t b!"contains?fromIndex:" [a, b] (.containsFrom o i)
  | count {a o} : Denotes t a o → VecSays t b!"count:" [a] (.count o)
  | atIndex {a i} : Denotes b!"Integer" a (.integer i) → VecSays t b!"atIndex:" [a] (.atIndex i)
  | firstIndexOf {a o} : Denotes t a o → VecSays t b!"firstIndexOf:" [a] (.firstIndexOf o)
  | firstIndexOfFrom {a o b i} : Denotes t a o → Denotes b!"Integer" b (.integer i) →
      VecSays t b!"firstIndexOf:fromIndex:" [a, b] (.firstIndexOfFrom o i)
  | allIndexesOf {a o} : Denotes t a o → VecSays t b!"allIndexesOf:" [a] (.allIndexesOf o)
  | size : VecSays t b!"size" [] .size
  | first {a n} : Denotes b!"Integer" a (.integer n) → VecSays t b!"first:" [a] (.first n)
  | last {a n} : Denotes b!"Integer" a (.integer n) → VecSays t b!"last:" [a] (.last n)
  | slice {a i} : Denotes b!"Integer" a (.integer i) → VecSays t b!"sliceFromIndex:" [a] (.slice i)
  | sliceTo {a i b j} : Denotes b!"Integer" a (.integer i) → Denotes b!"Integer" b (.integer j) →
      VecSays t b!"sliceFromIndex:toIndex:" [a, b] (.sliceTo i j)
  | pushBack {a o} : Denotes t a o → VecSays t b!"pushBack:" [a] (.pushBack o)
  | pushFront {a o} : Denotes t a o → VecSays t b!"pushFront:" [a] (.pushFront o)
  | popBack : VecSays t b!"popBack" [] .popBack
  | popFront : VecSays t b!"popFront" [] .popFront
  | popAtIndex {a i} : Denotes b!"Integer" a (.integer i) → VecSays t b!"popAtIndex:" [a] (.popAtIndex i)
  | insert {a o b i} : Denotes t a o → Denotes b!"Integer" b (.integer i) →
      VecSays t b!"insert:beforeIndex:" [a, b] (.insert o i)
  | erase {a i} : Denotes b!"Integer" a (.integer i) → VecSays t b!"eraseFromIndex:" [a] (.erase i)
  | eraseTo {a i b j} : Denotes b!"Integer" a (.integer i) → Denotes b!"Integer" b (.integer j) →
      VecSays t b!"eraseFromIndex:toIndex:" [a, b] (.eraseTo i j)
  | removeFirst {a o} : Denotes t a o → VecSays t b!"removeFirst:" [a] (.removeFirst o)
  | removeFirstFrom {a o b i} : Denotes t a o → Denotes b!"Integer" b (.integer i) →
      VecSays t b!"removeFirst:fromIndex:" [a, b] (.removeFirstFrom o i)
  | removeAll {a o} : Denotes t a o → VecSays t b!"removeAll:" [a] (.removeAll o)
  | replaceFirst {a o b r} : Denotes t a o → Denotes t b r → VecSays t b!"replaceFirst:with:" [a, b] (.replaceFirst o r)
  | replaceFirstFrom {a o b i c r} : Denotes t a o → Denotes b!"Integer" b (.integer i) → Denotes t c r →
      VecSays t b!"replaceFirst:fromIndex:with:" [a, b, c] (.replaceFirstFrom o i r)
  | replaceAll {a o b r} : Denotes t a o → Denotes t b r → VecSays t b!"replaceAll:with:" [a, b] (.replaceAll o r)
  | reverse : VecSays t b!"reverse" [] .reverse
  | clear : VecSays t b!"clear" [] .clear

/-- The index of a search result, or -1. -/
def indexText : Option Nat → Str
  | some k => intStr k
  | none => b!"-1"

/-- What the messages to a vector mean; `same` decides which elements count as equal. -/
def vecMeaning (cfg : Cfg) (l : List Obj) : VecMsg → Result (List Obj)
  | .get => .gives l (vectorText cfg.prec l)
  | .isEmpty => .gives l (truth (l = []))
  | .contains o => .gives l (truth (∃ x ∈ l, same cfg.eps x o))
  | .containsFrom o i =>
    if 0 ≤ i ∧ i ≤ l.length then .gives l (truth (∃ x ∈ l.drop i.toNat, same cfg.eps x o)) else .refuses
  | .count o => .gives l (intStr (l.countP (same cfg.eps · o)))
  | .atIndex i =>
    if h : 0 ≤ i ∧ i < l.length then .gives l (l[i.toNat].repr cfg.prec) else .refuses
  | .firstIndexOf o => .gives l (indexText (l.findIdx? (same cfg.eps · o)))
  | .firstIndexOfFrom o i =>
    if 0 ≤ i ∧ i ≤ l.length then
      .gives l (indexText (((l.drop i.toNat).findIdx? (same cfg.eps · o)).map (· + i.toNat)))
    else .refuses
  | .allIndexesOf o =>
    .gives l (listText c!"[" c!"]" ((l.zipIdx.filter fun x => same cfg.eps x.1 o).map fun x => intStr x.2))
  | .size => .gives l (intStr l.length)
  | .first n => if 0 ≤ n then .gives l (vectorText cfg.prec (l.take n.toNat)) else .refuses
  | .last n => if 0 ≤ n then .gives l (vectorText cfg.prec (l.drop (l.length - n.toNat))) else .refuses
  | .slice i => if 0 ≤ i ∧ i ≤ l.length then .gives l (vectorText cfg.prec (l.drop i.toNat)) else .refuses
  | .sliceTo i j =>
    if 0 ≤ i ∧ i ≤ j ∧ j ≤ l.length then .gives l (vectorText cfg.prec ((l.take j.toNat).drop i.toNat)) else .refuses
  | .pushBack o => .gives (l ++ [o]) b!"null"
  | .pushFront o => .gives (o :: l) b!"null"
  | .popBack => match l.getLast? with
    | none => .gives l b!"null"
    | some o => .gives l.dropLast (o.repr cfg.prec)
  | .popFront => match l with
    | [] => .gives [] b!"null"
    | o :: r => .gives r (o.repr cfg.prec)
  | .popAtIndex i =>
    if h : 0 ≤ i ∧ i < l.length then .gives (l.eraseIdx i.toNat) (l[i.toNat].repr cfg.prec) else .refuses
  | .insert o i => if 0 ≤ i ∧ i ≤ l.length then .gives (l.insertIdx i.toNat o) b!"null" else .refuses
  | .erase i => if 0 ≤ i ∧ i ≤ l.length then .gives (l.take i.toNat) b!"null" else .refuses
  | .eraseTo i j =>
    if 0 ≤ i ∧ i ≤ j ∧ j ≤ l.length then .gives (l.take i.toNat ++ l.drop j.toNat) b!"null" else .refuses
  | .removeFirst o => .gives (l.eraseP (same cfg.eps · o)) b!"null"
  | .removeFirstFrom o i =>
    if 0 ≤ i ∧ i ≤ l.length then .gives (l.take i.toNat ++ (l.drop i.toNat).eraseP (same cfg.eps · o)) b!"null"
    else .refuses
  | .removeAll o => .gives (l.filter fun x => !same cfg.eps x o) b!"null"
  | .replaceFirst o r => match l.findIdx? (same cfg.eps · o) with
    | none => .gives l b!"null"
    | some k => .gives (l.set k r) b!"null"
  | .replaceFirstFrom o i r =>
    if 0 ≤ i ∧ i ≤ l.length then
      match (l.drop i.toNat).findIdx? (same cfg.eps · o) with
      | none => .gives l b!"null"
      | some k => .gives (l.set (i.toNat + k) r) b!"null"
    else .refuses
  | .replaceAll o r => .gives (l.map fun x => if same cfg.eps x o then r else x) b!"null"
  | .reverse => .gives l.reverse b!"null"
  | .clear => .gives [] b!"null"

/-! ### Strings -/

inductive StrMsg
  | get | set (v : Str) | isEmpty | startsWith (v : Str) | endsWith (v : Str) | eq (v : Str) | lt (v : Str) | le (v : Str)
  | gt (v : Str) | ge (v : Str) | length | atIndex (i : Int) | first (n : Int) | last (n : Int) | substring (i : Int)
  | substringTo (i j : Int) | pushBack (c : Byte) | pushFront (c : Byte) | popBack | popFront | popAtIndex (i : Int)
  | concatenate (v : Str) | insert (v : Str) (i : Int) | erase (i : Int) | eraseTo (i j : Int) | clear

/-- How the messages to a string are spelled. -/
inductive StrSays : Str → List Str → StrMsg → Prop
  | get : StrSays b!"get" [] .get
  | set {a v} : StringLiteral a v → StrSays b!"set:" [a] (.set v)
  | isEmpty : StrSays b!"isEmpty?" [] .isEmpty
  | startsWith {a v} : StringLiteral a v → StrSays b!"startsWith?" [a] (.startsWith v)
  | endsWith {a v} : StringLiteral a v → StrSays b!"endsWith?" [a] (.endsWith v)
  | eq {a v} : StringLiteral a v → StrSays b!"isLexicographicallyEqualTo?" [a] (.eq v)
  | lt {a v} : StringLiteral a v → StrSays b!"isLexicographicallyLessThan?" [a] (.lt v)
  | le {a v} : StringLiteral a v → StrSays b!"isLexicographicallyLessThanOrEqualTo?" [a] (.le v)
  | gt {a v} : StringLiteral a v → StrSays b!"isLexicographicallyGreaterThan?" [a] (.gt v)
  | ge {a v} : StringLiteral a v → StrSays b!"isLexicographicallyGreaterThanOrEqualTo?" [a] (.ge v)
  | length : StrSays b!"length" [] .length
  | atIndex {a i} : Denotes b!"Integer" a (.integer i) → StrSays b!"atIndex:" [a] (.atIndex i)
  | first {a n} : Denotes b!"Integer" a (.integer n) → StrSays b!"first:" [a] (.first n)
  | last {a n} : Denotes b!"Integer" a (.integer n) → StrSays b!"last:" [a] (.last n)
  | substring {a i} : Denotes b!"Integer" a (.integer i) → StrSays b!"substringFromIndex:" [a] (.substring i)
  | substringTo {a i b j} : Denotes b!"Integer" a (.integer i) → Denotes b!"Integer" b (.integer j) →
      StrSays b!"substringFromIndex:toIndex:" [a, b] (.substringTo i j)
  | pushBack {c} : StrSays b!"pushBack:" [[c!"'", c, c!"'"]] (.pushBack c)
  | pushFront {c} : StrSays b!"pushFront:" [[c!"'", c, c!"'"]] (.pushFront c)
  | popBack : StrSays b!"popBack" [] .popBack
  | popFront : StrSays b!"popFront" [] .popFront
  | popAtIndex {a i} : Denotes b!"Integer" a (.integer i) → StrSays b!"popAtIndex:" [a] (.popAtIndex i)
  | concatenate {a v} : StringLiteral a v → StrSays b!"concatenate:" [a] (.concatenate v)
  | insert {a v b i} : StringLiteral a v → Denotes b!"Integer" b (.integer i) →
      StrSays b!"insert:beforeIndex:" [a, b] (.insert v i)
  | erase {a i} : Denotes b!"Integer" a (.integer i) → StrSays b!"eraseFromIndex:" [a] (.erase i)
  | eraseTo {a i b j} : Denotes b!"Integer" a (.integer i) → Denotes b!"Integer" b (.integer j) →
      StrSays b!"eraseFromIndex:toIndex:" [a, b] (.eraseTo i j)
  | clear : StrSays b!"clear" [] .clear

/-- What the messages to a string mean, on its bytes. -/
def strMeaning (v : Str) : StrMsg → Result Str
  | .get => .gives v (quoted v)
  | .set w => .gives w b!"null"
  | .isEmpty => .gives v (truth (v = []))
  | .startsWith w => .gives v (truth (w <+: v))
  | .endsWith w => .gives v (truth (w <:+ v))
  | .eq w => .gives v (truth (v = w))
  | .lt w => .gives v (truth (v < w))
  | .le w => .gives v (truth (v < w ∨ v = w))
  | .gt w => .gives v (truth (w < v))
  | .ge w => .gives v (truth (w < v ∨ v = w))
  | .length => .gives v (intStr v.length)
  | .atIndex i => if h : 0 ≤ i ∧ i < v.length then .gives v (charStr v[i.toNat]) else .refuses
  | .first n => if 0 ≤ n then .gives v (quoted (v.take n.toNat)) else .refuses
  | .last n => if 0 ≤ n then .gives v (quoted (v.drop (v.length - n.toNat))) else .refuses
  | .substring i => if 0 ≤ i ∧ i ≤ v.length then .gives v (quoted (v.drop i.toNat)) else .refuses
  | .substringTo i j =>
    if 0 ≤ i ∧ i ≤ j ∧ j ≤ v.length then .gives v (quoted ((v.take j.toNat).drop i.toNat)) else .refuses
  | .pushBack c => .gives (v ++ [c]) b!"null"
  | .pushFront c => .gives (c :: v) b!"null"
  | .popBack => match v.getLast? with
    | none => .gives v b!"null"
    | some c => .gives v.dropLast (charStr c)
  | .popFront => match v with
    | [] => .gives [] b!"null"
    | c :: r => .gives r (charStr c)
  | .popAtIndex i => if h : 0 ≤ i ∧ i < v.length then .gives (v.eraseIdx i.toNat) (charStr v[i.toNat]) else .refuses
  | .concatenate w => .gives (v ++ w) b!"null"
  | .insert w i => if 0 ≤ i ∧ i ≤ v.length then .gives (v.take i.toNat ++ w ++ v.drop i.toNat) b!"null" else .refuses
  | .erase i => if 0 ≤ i ∧ i ≤ v.length then .gives (v.take i.toNat) b!"null" else .refuses
  | .eraseTo i j =>
    if 0 ≤ i ∧ i ≤ j ∧ j ≤ v.length then .gives (v.take i.toNat ++ v.drop j.toNat) b!"null" else .refuses
  | .clear => .gives [] b!"null"

/-! ### Booleans and characters -/

inductive BoolMsg
  | get | set (v : Bool) | isTrue | isFalse

/-- How the messages to a Boolean are spelled. -/
inductive BoolSays : Str → List Str → BoolMsg → Prop
  | get : BoolSays b!"get" [] .get
  | set {a v} : Denotes b!"Boolean" a (.boolean v) → BoolSays b!"set:" [a] (.set v)
  | isTrue : BoolSays b!"isTrue?" [] .isTrue
  | isFalse : BoolSays b!"isFalse?" [] .isFalse

/-- What the messages to a Boolean mean. -/
def boolMeaning (v : Bool) : BoolMsg → Result Bool
  | .get => .gives v (truth (v = true))
  | .set w => .gives w b!"null"
  | .isTrue => .gives v (truth (v = true))
  | .isFalse => .gives v (truth (v = false))

inductive CharMsg
  | get | set (v : Byte) | isAlphabetic | isNumeric | isAlphanumeric | isSpace
  | eq (v : Byte) | lt (v : Byte) | le (v : Byte) | gt (v : Byte) | ge (v : Byte)

/-- How the messages to a character are spelled. -/
inductive CharSays : Str → List Str → CharMsg → Prop
  | get : CharSays b!"get" [] .get
  | set {v} : CharSays b!"set:" [[c!"'", v, c!"'"]] (.set v)
  | isAlphabetic : CharSays b!"isAlphabetic?" [] .isAlphabetic
  | isNumeric : CharSays b!"isNumeric?" [] .isNumeric
  | isAlphanumeric : CharSays b!"isAlphanumeric?" [] .isAlphanumeric
  | isSpace : CharSays b!"isSpace?" [] .isSpace
  | eq {v} : CharSays b!"isEqualTo?" [[c!"'", v, c!"'"]] (.eq v)
  | lt {v} : CharSays b!"isLessThan?" [[c!"'", v, c!"'"]] (.lt v)
  | le {v} : CharSays b!"isLessThanOrEqualTo?" [[c!"'", v, c!"'"]] (.le v)
  | gt {v} : CharSays b!"isGreaterThan?" [[c!"'", v, c!"'"]] (.gt v)
  | ge {v} : CharSays b!"isGreaterThanOrEqualTo?" [[c!"'", v, c!"'"]] (.ge v)

/-- A byte as a signed number. -/
def signed (c : Byte) : Int := if c.toNat < 128 then c.toNat else c.toNat - 256

instance (c : Byte) : Decidable (Letter c) := by unfold Letter; infer_instance
instance (c : Byte) : Decidable (Digit c) := by unfold Digit; infer_instance
instance (c : Byte) : Decidable (Ws c) := by unfold Ws; infer_instance

/-- What the messages to a character mean; characters are compared as signed bytes. -/
def charMeaning (v : Byte) : CharMsg → Result Byte
  | .get => .gives v [c!"'", v, c!"'"]
  | .set w => .gives w b!"null"
  | .isAlphabetic => .gives v (truth (Letter v))
  | .isNumeric => .gives v (truth (Digit v))
  | .isAlphanumeric => .gives v (truth (Letter v ∨ Digit v))
  | .isSpace => .gives v (truth (Ws v))
  | .eq w => .gives v (truth (v = w))
  | .lt w => .gives v (truth (signed v < signed w))
  | .le w => .gives v (truth (signed v ≤ signed w))
  | .gt w => .gives v (truth (signed v > signed w))
  | .ge w => .gives v (truth (signed v ≥ signed w))

/-! ### Integers -/

/-- A numeric argument: an integer literal in the 32-bit range, or a float literal. -/
inductive Num
  | int (n : Int)
  | flt (x : Fl)

/-- What a numeric argument denotes; a float literal is the nearest `double`. -/
inductive NumDenotes : Str → Num → Prop
  | int {s n} : IntLiteral s n → IsInt32 n → NumDenotes s (.int n)
  | flt {s} : FloatValue s → ¬ IntegerValue s → NumDenotes s (.flt (atof s))

inductive IntMsg
  | get | set (n : Int) | eq (x : Num) | lt (x : Num) | le (x : Num) | gt (x : Num) | ge (x : Num)
  | add (x : Num) | subtract (x : Num) | multiplyBy (x : Num) | divideBy (x : Num)

/-- How the messages to an integer are spelled. -/
inductive IntSays : Str → List Str → IntMsg → Prop
  | get : IntSays b!"get" [] .get
  | set {a n} : Denotes b!"Integer" a (.integer n) → IntSays b!"set:" [a] (.set n)
  | eq {a x} : NumDenotes a x → IntSays b!"isEqualTo?" [a] (.eq x)
  | lt {a x} : NumDenotes a x → IntSays b!"isLessThan?" [a] (.lt x)
  | le {a x} : NumDenotes a x → IntSays b!"isLessThanOrEqualTo?" [a] (.le x)
  | gt {a x} : NumDenotes a x → IntSays b!"isGreaterThan?" [a] (.gt x)
  | ge {a x} : NumDenotes a x → IntSays b!"isGreaterThanOrEqualTo?" [a] (.ge x)
  | add {a x} : NumDenotes a x → IntSays b!"add:" [a] (.add x)
  | subtract {a x} : NumDenotes a x → IntSays b!"subtract:" [a] (.subtract x)
  | multiplyBy {a x} : NumDenotes a x → IntSays b!"multiplyBy:" [a] (.multiplyBy x)
  | divideBy {a x} : NumDenotes a x → IntSays b!"divideBy:" [a] (.divideBy x)

/-- A float is below another by more than the tolerance: their difference, as a `float`, is below minus the tolerance. -/
abbrev below (eps x y : Fl) : Prop := (x.sub f32 y).lt eps.neg = true

/-- A float is above another by more than the tolerance. -/
abbrev above (eps x y : Fl) : Prop := eps.lt (x.sub f32 y) = true

instance (n : Int) : Decidable (IsInt32 n) := by unfold IsInt32; infer_instance

/-- The exact result, if it is a 32-bit integer. -/
def exactly (n : Int) : Result Int := if IsInt32 n then .gives n b!"null" else .undefined

/-- A `double` truncated toward zero, if that is a 32-bit integer. -/
def truncated (x : Fl) : Result Int := match x.toInt with
  | .ok n => .gives n b!"null"
  | _ => .undefined

/-- What the messages to an integer mean.  With an integer argument everything is exact; with a float argument comparisons
are done in `float` with the tolerance, arithmetic in `double`, truncated. -/
def intMeaning (eps : Fl) (v : Int) : IntMsg → Result Int
  | .get => .gives v (intStr v)
  | .set n => .gives n b!"null"
  | .eq (.int n) => .gives v (truth (v = n))
  | .lt (.int n) => .gives v (truth (v < n))
  | .le (.int n) => .gives v (truth (v ≤ n))
  | .gt (.int n) => .gives v (truth (v > n))
  | .ge (.int n) => .gives v (truth (v ≥ n))
  | .eq (.flt x) => .gives v (truth (¬ below eps (ofInt32 v) x.toF32 ∧ ¬ above eps (ofInt32 v) x.toF32))
  | .lt (.flt x) => .gives v (truth (below eps (ofInt32 v) x.toF32))
  | .le (.flt x) => .gives v (truth (below eps (ofInt32 v) x.toF32 ∨ ¬ above eps (ofInt32 v) x.toF32))
  | .gt (.flt x) => .gives v (truth (above eps (ofInt32 v) x.toF32))
  | .ge (.flt x) => .gives v (truth (above eps (ofInt32 v) x.toF32 ∨ ¬ below eps (ofInt32 v) x.toF32))
  | .add (.int n) => exactly (v + n)
  | .subtract (.int n) => exactly (v - n)
  | .multiplyBy (.int n) => exactly (v * n)
  | .divideBy (.int n) => if n = 0 then .undefined else exactly (v.tdiv n)
  | .add (.flt x) => truncated (Fl.add f64 (ofInt64 v) x)
  | .subtract (.flt x) => truncated (Fl.sub f64 (ofInt64 v) x)
  | .multiplyBy (.flt x) => truncated (Fl.mul f64 (ofInt64 v) x)
  | .divideBy (.flt x) => truncated (Fl.div f64 (ofInt64 v) x)

/-! ### Floats -/

inductive FltMsg
  | get | set (x : Fl) | eq (x : Fl) | lt (x : Fl) | le (x : Fl) | gt (x : Fl) | ge (x : Fl)
  | add (x : Fl) | subtract (x : Fl) | multiplyBy (x : Fl) | divideBy (x : Fl)

/-- How the messages to a float are spelled: the argument is the `double` nearest to the written number. -/
inductive FltSays : Str → List Str → FltMsg → Prop
  | get : FltSays b!"get" [] .get
  | set {a} : FloatValue a → FltSays b!"set:" [a] (.set (atof a))
  | eq {a} : FloatValue a → FltSays b!"isEqualTo?" [a] (.eq (atof a))
  | lt {a} : FloatValue a → FltSays b!"isLessThan?" [a] (.lt (atof a))
  | le {a} : FloatValue a → FltSays b!"isLessThanOrEqualTo?" [a] (.le (atof a))
  | gt {a} : FloatValue a → FltSays b!"isGreaterThan?" [a] (.gt (atof a))
  | ge {a} : FloatValue a → FltSays b!"isGreaterThanOrEqualTo?" [a] (.ge (atof a))
  | add {a} : FloatValue a → FltSays b!"add:" [a] (.add (atof a))
  | subtract {a} : FloatValue a → FltSays b!"subtract:" [a] (.subtract (atof a))
  | multiplyBy {a} : FloatValue a → FltSays b!"multiplyBy:" [a] (.multiplyBy (atof a))
  | divideBy {a} : FloatValue a → FltSays b!"divideBy:" [a] (.divideBy (atof a))

/-- What the messages to a float mean: values are `float`s, arithmetic is done in `double` and then rounded to `float`,
comparisons are done in `float` with the tolerance. -/
def fltMeaning (cfg : Cfg) (v : Fl) : FltMsg → Result Fl
  | .get => .gives v (fmtFixed cfg.prec v)
  | .set x => .gives x.toF32 b!"null"
  | .eq x => .gives v (truth (¬ below cfg.eps v x.toF32 ∧ ¬ above cfg.eps v x.toF32))
  | .lt x => .gives v (truth (below cfg.eps v x.toF32))
  | .le x => .gives v (truth (below cfg.eps v x.toF32 ∨ ¬ above cfg.eps v x.toF32))
  | .gt x => .gives v (truth (above cfg.eps v x.toF32))
  | .ge x => .gives v (truth (above cfg.eps v x.toF32 ∨ ¬ below cfg.eps v x.toF32))
  | .add x => .gives (Fl.add f64 v x).toF32 b!"null"
  | .subtract x => .gives (Fl.sub f64 v x).toF32 b!"null"
  | .multiplyBy x => .gives (Fl.mul f64 v x).toF32 b!"null"
  | .divideBy x => .gives (Fl.div f64 v x).toF32 b!"null"

/-! ### Sets and dictionaries -/

/-- The order in which sets and dictionaries keep their keys: floats differ if they do so by more than the tolerance; the
other types have their natural order. -/
def less (eps : Fl) : Obj → Obj → Bool
  | .float x, .float y => decide (below eps x y)
  | a, b => natLt a b

/-- `lt` is a strict weak order on the elements of `l`. -/
def StrictWeakOrder (lt : Obj → Obj → Bool) (l : List Obj) : Prop :=
  (∀ a ∈ l, ¬ lt a a) ∧ (∀ a ∈ l, ∀ b ∈ l, ∀ c ∈ l, lt a b → lt b c → lt a c) ∧
  (∀ a ∈ l, ∀ b ∈ l, ∀ c ∈ l, ¬ lt a b → ¬ lt b a → ¬ lt b c → ¬ lt c b → ¬ lt a c ∧ ¬ lt c a)

/-- What the C++ standard demands of a search for `k` among the keys `l`: the order is a strict weak order on them, and
they are in ascending order. -/
def Searchable (lt : Obj → Obj → Bool) (l : List Obj) (k : Obj) : Prop :=
  StrictWeakOrder lt (k :: l) ∧ l.Pairwise fun a b => lt a b

/-- Neither is less than the other. -/
def tied (lt : Obj → Obj → Bool) (a b : Obj) : Bool := !lt a b && !lt b a

inductive SetMsg
  | get | isEmpty | contains (o : Obj) | size | add (o : Obj) | remove (o : Obj) | clear

/-- How the messages to a set with elements of type `t` are spelled. -/
inductive SetSays (t : Str) : Str → List Str → SetMsg → Prop
  | get : SetSays t b!"get" [] .get
  | isEmpty : SetSays t b!"isEmpty?" [] .isEmpty
  | contains {a o} : Denotes t a o → SetSays t b!"contains?" [a] (.contains o)
  | size : SetSays t b!"size" [] .size
  | add {a o} : Denotes t a o → SetSays t b!"add:" [a] (.add o)
  | remove {a o} : Denotes t a o → SetSays t b!"remove:" [a] (.remove o)
  | clear : SetSays t b!"clear" [] .clear

open Classical in
/-- What the messages to a set mean. -/
noncomputable def setMeaning (cfg : Cfg) (l : List Obj) : SetMsg → Result (List Obj)
  | .get => .gives l (setText cfg.prec l)
  | .isEmpty => .gives l (truth (l = []))
  | .contains o =>
    if Searchable (less cfg.eps) l o then .gives l (truth (∃ x ∈ l, tied (less cfg.eps) o x)) else .undefined
  | .size => .gives l (intStr l.length)
  | .add o =>
    if Searchable (less cfg.eps) l o then
      if ∃ x ∈ l, tied (less cfg.eps) o x then .gives l b!"null"
      else .gives (l.filter (less cfg.eps · o) ++ o :: l.filter (less cfg.eps o ·)) b!"null"
    else .undefined
  | .remove o =>
    if Searchable (less cfg.eps) l o then .gives (l.filter fun x => !tied (less cfg.eps) o x) b!"null" else .undefined
  | .clear => .gives [] b!"null"

inductive DictMsg
  | get | isEmpty | containsKey (k : Obj) | size | keys | values | getValueForKey (k : Obj)
  | associate (v k : Obj) | removeKey (k : Obj) | clear

/-- How the messages to a dictionary with keys of type `t` and values of type `u` are spelled. -/
inductive DictSays (t u : Str) : Str → List Str → DictMsg → Prop
  | get : DictSays t u b!"get" [] .get
  | isEmpty : DictSays t u b!"isEmpty?" [] .isEmpty
  | containsKey {a k} : Denotes t a k → DictSays t u b!"containsKey?" [a] (.containsKey k)
  | size : DictSays t u b!"size" [] .size
  | keys : DictSays t u b!"keys" [] .keys
  | values : DictSays t u b!"values" [] .values
  | getValueForKey {a k} : Denotes t a k → DictSays t u b!"getValueForKey:" [a] (.getValueForKey k)
  | associate {a v b k} : Denotes u a v → Denotes t b k → DictSays t u b!"associateValue:withKey:" [a, b] (.associate v k)
  | removeKey {a k} : Denotes t a k → DictSays t u b!"removeKey:" [a] (.removeKey k)
  | clear : DictSays t u b!"clear" [] .clear

open Classical in
/-- What the messages to a dictionary mean. -/
noncomputable def dictMeaning (cfg : Cfg) (l : List (Obj × Obj)) : DictMsg → Result (List (Obj × Obj))
  | .get => .gives l (dictText cfg.prec l)
  | .isEmpty => .gives l (truth (l = []))
  | .containsKey k =>
    if Searchable (less cfg.eps) (l.map (·.1)) k then .gives l (truth (∃ x ∈ l, tied (less cfg.eps) k x.1)) else .undefined
  | .size => .gives l (intStr l.length)
  | .keys => .gives l (vectorText cfg.prec (l.map (·.1)))
  | .values => .gives l (vectorText cfg.prec (l.map (·.2)))
  | .getValueForKey k =>
    if Searchable (less cfg.eps) (l.map (·.1)) k then
      match l.find? fun x => tied (less cfg.eps) k x.1 with
      | some x => .gives l (x.2.repr cfg.prec)
      | none => .gives l b!"null"
    else .undefined
  | .associate v k =>
    if Searchable (less cfg.eps) (l.map (·.1)) k then
      if ∃ x ∈ l, tied (less cfg.eps) k x.1 then
        .gives (l.map fun x => if tied (less cfg.eps) k x.1 then (x.1, v) else x) b!"null"
      else .gives (l.filter (fun x => less cfg.eps x.1 k) ++ (k, v) :: l.filter (fun x => less cfg.eps k x.1)) b!"null"
    else .undefined
  | .removeKey k =>
    if Searchable (less cfg.eps) (l.map (·.1)) k then .gives (l.filter fun x => !tied (less cfg.eps) k x.1) b!"null"
    else .undefined
  | .clear => .gives [] b!"null"

end Knuckle.Spec
