/-
A client: a program that uses one dictionary of the server as a map from byte sequences to byte sequences, whatever the bytes are (also
quotes, backslashes, newlines and zeros), by writing keys and values in hexadecimal.
-/
import Verif.Spec.Answers
import Verif.Spec.Concurrency

namespace Knuckle.Spec

/-- A hexadecimal digit. -/
def hexDigit (n : Nat) : Byte := if n < 10 then (48 + n).toUInt8 else (87 + n).toUInt8

/-- The value of a hexadecimal digit. -/
def digitValue (c : Byte) : Nat := if c.toNat < 58 then c.toNat - 48 else c.toNat - 87

/-- Bytes in hexadecimal, two digits each. -/
def hexText : Str → Str
  | [] => []
  | c :: s => hexDigit (c.toNat / 16) :: hexDigit (c.toNat % 16) :: hexText s

/-- Back from hexadecimal. -/
def unhexText : Str → Str
  | a :: b :: s => (16 * digitValue a + digitValue b).toUInt8 :: unhexText s
  | _ => []

/-- What the user of the client wants. -/
inductive Command
  | put (key value : Str) | get (key : Str) | has (key : Str) | remove (key : Str)

/-- The request line the client sends, for the dictionary `d`. -/
def Command.line (d : Str) : Command → Str
  | .put k v => d ++ (b!" associateValue: \"" ++ (hexText v ++ (b!"\" withKey: \"" ++ (hexText k ++ b!"\";"))))
  | .get k => d ++ (b!" getValueForKey: \"" ++ (hexText k ++ b!"\";"))
  | .has k => d ++ (b!" containsKey? \"" ++ (hexText k ++ b!"\";"))
  | .remove k => d ++ (b!" removeKey: \"" ++ (hexText k ++ b!"\";"))

/-- What the client makes of a reply to `get`: nothing of `null`, otherwise the bytes between the quotes. -/
def decodeReply (r : Str) : Option Str := if r = b!"null" then none else some (unhexText (r.drop 1).dropLast)

/-- A map from byte sequences to byte sequences. -/
abbrev Store := Str → Option Str

/-- What a command does to the map. -/
def Command.next (σ : Store) : Command → Store
  | .put k v => fun x => if x = k then some v else σ x
  | .remove k => fun x => if x = k then none else σ x
  | .get _ | .has _ => σ

/-- What the user gets to know, given the map before and the reply. -/
def Command.Answered (σ : Store) (r : Str) : Command → Prop
  | .put _ _ | .remove _ => r = b!"null"
  | .get k => decodeReply r = σ k ∧ ∀ v, σ k = some v → r.length = 2 * v.length + 2
  | .has k => r = truth ((σ k).isSome = true)

/-- `CommandsOf d log cs`: everything in the log that concerns the dictionary `d` are accepted commands of such clients, namely `cs`, in this
order. -/
inductive CommandsOf (d : Str) : List Request → List Command → Prop
  | nil : CommandsOf d [] []
  | command {q log cs} (k : Command) : q.line = k.line d → q.accepted → CommandsOf d log cs → CommandsOf d (q :: log) (k :: cs)
  | other {q log cs} : (¬ q.accepted ∨ ¬ Concerns q.line d) → CommandsOf d log cs → CommandsOf d (q :: log) cs

/-- The pairs of the dictionary are those of the map, in hexadecimal. -/
def Represents (l : List (Obj × Obj)) (σ : Store) : Prop :=
  ∀ x y, (x, y) ∈ l ↔ ∃ k v, x = .string (hexText k) ∧ y = .string (hexText v) ∧ σ k = some v

end Knuckle.Spec
