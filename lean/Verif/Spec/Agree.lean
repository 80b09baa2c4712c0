/-
How the answers to the different questions about one variable fit together, in terms of the answers alone: the texts of the
elements, as `atIndex:` returns them, and the positions at which a search succeeds, as `allIndexesOf:` returns them.
-/
import Verif.Spec.Answers

namespace Knuckle.Spec

/-- Whoever asks the variable `n` this gets this answer, and nothing changes. -/
def Asked [StdSort] (c : Ctx) (n name : Str) (args : List Str) (reply : Str) : Prop :=
  ∀ (pwd : Str) (s : Option Session) (text : Str), Statement text n name args → JustReplies pwd c s text reply

/-- Whoever asks the variable `n` this gets the "invalid argument" error, and nothing changes. -/
abbrev AskedInVain [StdSort] (c : Ctx) (n name : Str) (args : List Str) : Prop :=
  Asked c n name args b!"RuntimeError: invalid argument."

/-- The texts between brackets, separated by commas. -/
abbrev bracketed (xs : List Str) : Str := listText c!"[" c!"]" xs

/-- All questions about the elements of the vector `n` and their positions are answered from one list of texts. -/
structure VectorReads [StdSort] (c : Ctx) (n : Str) (xs : List Str) : Prop where
  get : Asked c n b!"get" [] (bracketed xs)
  size : Asked c n b!"size" [] (intStr xs.length)
  isEmpty : Asked c n b!"isEmpty?" [] (truth (xs.length = 0))
  atIndex {a : Str} {i : Nat} (ha : Denotes b!"Integer" a (.integer i)) (h : i < xs.length) : Asked c n b!"atIndex:" [a] xs[i]
  outside {a : Str} {i : Int} (ha : Denotes b!"Integer" a (.integer i)) (h : i < 0 ∨ xs.length ≤ i) : AskedInVain c n b!"atIndex:" [a]
  first {a : Str} {k : Nat} (ha : Denotes b!"Integer" a (.integer k)) : Asked c n b!"first:" [a] (bracketed (xs.take k))
  last {a : Str} {k : Nat} (ha : Denotes b!"Integer" a (.integer k)) :
    Asked c n b!"last:" [a] (bracketed (xs.drop (xs.length - k)))
  slice {a : Str} {i : Nat} (ha : Denotes b!"Integer" a (.integer i)) (h : i ≤ xs.length) :
    Asked c n b!"sliceFromIndex:" [a] (bracketed (xs.drop i))
  sliceTo {a b : Str} {i j : Nat} (ha : Denotes b!"Integer" a (.integer i)) (hb : Denotes b!"Integer" b (.integer j)) (h : i ≤ j)
    (h' : j ≤ xs.length) : Asked c n b!"sliceFromIndex:toIndex:" [a, b] (bracketed ((xs.take j).drop i))

/-- The first of the positions, or -1. -/
def firstOf : List Nat → Str
  | [] => b!"-1"
  | i :: _ => intStr i

/-- All searches for the literal `a` in the vector `n`, of the given size, are answered from one list of positions. -/
structure VectorFinds [StdSort] (c : Ctx) (n a : Str) (size : Nat) (ids : List Nat) : Prop where
  ascending : ids.Pairwise (· < ·)
  inside : ∀ i ∈ ids, i < size
  allIndexesOf : Asked c n b!"allIndexesOf:" [a] (bracketed (ids.map fun i : Nat => intStr i))
  contains : Asked c n b!"contains?" [a] (truth (ids ≠ []))
  count : Asked c n b!"count:" [a] (intStr ids.length)
  firstIndexOf : Asked c n b!"firstIndexOf:" [a] (firstOf ids)
  containsFrom {b : Str} {i : Nat} (hb : Denotes b!"Integer" b (.integer i)) (h : i ≤ size) :
    Asked c n b!"contains?fromIndex:" [a, b] (truth (ids.filter (i ≤ ·) ≠ []))
  firstIndexOfFrom {b : Str} {i : Nat} (hb : Denotes b!"Integer" b (.integer i)) (h : i ≤ size) :
    Asked c n b!"firstIndexOf:fromIndex:" [a, b] (firstOf (ids.filter (i ≤ ·)))

/-- All questions about the set `n` are answered from one list of texts. -/
structure SetReads [StdSort] (c : Ctx) (n : Str) (xs : List Str) : Prop where
  get : Asked c n b!"get" [] (listText c!"{" c!"}" xs)
  size : Asked c n b!"size" [] (intStr xs.length)
  isEmpty : Asked c n b!"isEmpty?" [] (truth (xs.length = 0))

/-- All questions about the dictionary `n` as a whole are answered from one list of pairs of texts. -/
structure DictionaryReads [StdSort] (c : Ctx) (n : Str) (xs : List (Str × Str)) : Prop where
  get : Asked c n b!"get" [] (listText c!"(" c!")" (xs.map fun x => listText c!"(" c!")" [x.1, x.2]))
  keys : Asked c n b!"keys" [] (bracketed (xs.map (·.1)))
  values : Asked c n b!"values" [] (bracketed (xs.map (·.2)))
  size : Asked c n b!"size" [] (intStr xs.length)
  isEmpty : Asked c n b!"isEmpty?" [] (truth (xs.length = 0))

/-- All questions about the string `n` are answered from one list of bytes. -/
structure StringReads [StdSort] (c : Ctx) (n : Str) (v : Str) : Prop where
  get : Asked c n b!"get" [] (quoted v)
  length : Asked c n b!"length" [] (intStr v.length)
  isEmpty : Asked c n b!"isEmpty?" [] (truth (v.length = 0))
  atIndex {a : Str} {i : Nat} (ha : Denotes b!"Integer" a (.integer i)) (h : i < v.length) : Asked c n b!"atIndex:" [a] (charStr v[i])
  outside {a : Str} {i : Int} (ha : Denotes b!"Integer" a (.integer i)) (h : i < 0 ∨ v.length ≤ i) : AskedInVain c n b!"atIndex:" [a]
  first {a : Str} {k : Nat} (ha : Denotes b!"Integer" a (.integer k)) : Asked c n b!"first:" [a] (quoted (v.take k))
  last {a : Str} {k : Nat} (ha : Denotes b!"Integer" a (.integer k)) : Asked c n b!"last:" [a] (quoted (v.drop (v.length - k)))
  substring {a : Str} {i : Nat} (ha : Denotes b!"Integer" a (.integer i)) (h : i ≤ v.length) :
    Asked c n b!"substringFromIndex:" [a] (quoted (v.drop i))
  substringTo {a b : Str} {i j : Nat} (ha : Denotes b!"Integer" a (.integer i)) (hb : Denotes b!"Integer" b (.integer j)) (h : i ≤ j)
    (h' : j ≤ v.length) : Asked c n b!"substringFromIndex:toIndex:" [a, b] (quoted ((v.take j).drop i))

end Knuckle.Spec
