/-
Requests on a machine whose memory can run out.
-/
import Verif.Model.Scarce
import Verif.Spec.Answers
import Verif.Spec.Heap

namespace Knuckle.Spec

open Heap (HCtx PosSort)
open Scarce (Fate Supply)

/-- Some allocation is refused. -/
def Refused (f : Supply) : Prop := ∃ k, Fate.refused k ∈ f

/-- An allocation is refused, and another one later. -/
def RefusedTwice (f : Supply) : Prop := ∃ k f', Fate.refused k :: f' <:+ f ∧ Refused f'

/-- The text `s` is `t` with some of the floats in it cut short. -/
inductive CutShort (prec : Int) : Str → Str → Prop
  | nil : CutShort prec [] []
  | char (b : Byte) {s t : Str} : CutShort prec s t → CutShort prec (b :: s) (b :: t)
  | float (x : Fl) (k : Nat) {s t : Str} : CutShort prec s t →
      CutShort prec ((fmtFixed prec x).take k ++ s) (fmtFixed prec x ++ t)

/-- The reply of this object to the message `name` may contain floats. -/
def ShowsFloat (name : Str) : Inst → Prop
  | .float _ => name = b!"get"
  | .vector _ l => ∃ x, .float x ∈ l
  | .set _ l => ∃ x, .float x ∈ l
  | .dictionary _ _ l => ∃ p ∈ l, ∃ x, p.1 = .float x ∨ p.2 = .float x
  | _ => False

/-- The reply to the request may contain floats. -/
def RepliesFloat (c : Ctx) (text : Str) : Prop :=
  (∃ n name args i, Statement text n name args ∧ Holds c n i ∧ ShowsFloat name i) ∨
    ∃ args, Statement text b!"Context" b!"getFloatComparisonTolerance" args

/-- `LeftOver cfg i name args i'`: an object with value `i` may have the value `i'` after memory ran out during the message.  Either
nothing has happened; or an element has been taken out, but its text could not be made (those of booleans, characters and integers can
always be made); or the strings up to some place have been removed; or the elements up to some place have been replaced. -/
inductive LeftOver (cfg : Cfg) : Inst → Str → List Str → Inst → Prop
  | unchanged {i name args} : LeftOver cfg i name args i
  | popBack {t l} : t = b!"String" ∨ t = b!"Float" → LeftOver cfg (.vector t l) b!"popBack" [] (.vector t l.dropLast)
  | popFront {t l} : t = b!"String" ∨ t = b!"Float" → LeftOver cfg (.vector t l) b!"popFront" [] (.vector t l.tail)
  | popAtIndex {t l a} {i : Int} : t = b!"String" ∨ t = b!"Float" → Denotes b!"Integer" a (.integer i) → 0 ≤ i ∧ i < l.length →
      LeftOver cfg (.vector t l) b!"popAtIndex:" [a] (.vector t (l.eraseIdx i.toNat))
  | removeAll {l a o} (k : Nat) : Denotes b!"String" a o →
      LeftOver cfg (.vector b!"String" l) b!"removeAll:" [a] (.vector b!"String" ((l.take k).filter (fun x => !same cfg.eps x o) ++ l.drop k))
  | replaceAll {t l a b o r} (k : Nat) : Denotes t a o → Denotes t b r →
      LeftOver cfg (.vector t l) b!"replaceAll:with:" [a, b]
        (.vector t ((l.take k).map (fun x => if same cfg.eps x o then r else x) ++ l.drop k))

/-- The logs of `c'` are those of `c` and a record of the request and the reply. -/
def Recorded (c c' : Ctx) (text r : Str) : Prop :=
  c'.fileOpen = c.fileOpen ∧ c'.quiet = c.quiet ∧ c'.fileLog = (c.record text r).fileLog ∧ c'.stdoutLog = (c.record text r).stdoutLog

/-- `Scarcely pwd c s text f c' s' r`: with the supply `f` of memory, executing the request may lead to the context `c'`, the
session `s'` and the reply `r`. -/
inductive Scarcely [StdSort] (pwd : Str) (c : Ctx) (s : Option Session) (text : Str) (f : Supply) : Ctx → Option Session → Str → Prop
  /-- As if there were enough memory. -/
  | ordinary {c' s' r} : execute pwd c s text = .done (c', s', r) → Scarcely pwd c s text f c' s' r
  /-- Floats in the reply are cut short. -/
  | cut {c' c'' s' r r'} : Refused f → execute pwd c s text = .done (c', s', r) → RepliesFloat c text → CutShort c.cfg.prec r' r →
      SameData c' c'' → Recorded c c'' text r' → Scarcely pwd c s text f c'' s' r'
  /-- Memory ran out before anything was changed. -/
  | nothing {c'} : Refused f → SameData c c' → Recorded c c' text b!"RuntimeError: unknown error." →
      Scarcely pwd c s text f c' s b!"RuntimeError: unknown error."
  /-- Memory ran out in the middle of a message to a variable. -/
  | interrupted {c' n name args i i'} : Refused f → Statement text n name args → Holds c n i → LeftOver c.cfg i name args i' →
      OnlyChanged c c' n i' → Recorded c c' text b!"RuntimeError: unknown error." →
      Scarcely pwd c s text f c' s b!"RuntimeError: unknown error."

/-- What can end the process during a request: memory runs out twice, the second time while the first failure is handled; or it runs out
while the text of an error is made; or while the log record is made. -/
def Fatal [StdSort] (pwd : Str) (c : Ctx) (s : Option Session) (text : Str) (f : Supply) : Prop :=
  RefusedTwice f ∨
  Refused f ∧ (∃ c' s' e, execute pwd c s text = .done (c', s', Exc.text e)) ∨
  Refused f ∧ (c.fileOpen = true ∨ c.quiet = false)

/-- The requests of `q`, each with a supply of memory and a reply, lead from `c` to `c'`, from any sessions. -/
inductive ScarceHistory [StdSort] : Ctx → List (Str × Supply × Str) → Ctx → Prop
  | nil {c : Ctx} : ScarceHistory c [] c
  | cons {pwd : Str} {c c' c'' : Ctx} {s s' : Option Session} {text r : Str} {f : Supply} {q : List (Str × Supply × Str)} :
      Scarcely pwd c s text f c' s' r → ScarceHistory c' q c'' → ScarceHistory c ((text, f, r) :: q) c''

/-- The same for the program. -/
inductive ScarceRun [PosSort] : HCtx → List (Str × Supply × Str) → HCtx → Prop
  | nil {h : HCtx} : ScarceRun h [] h
  | cons {pwd : Str} {h h' h'' : HCtx} {s s' : Option Session} {text r : Str} {f : Supply} {q : List (Str × Supply × Str)} :
      Scarce.execute pwd h s text f = .done h' s' r → ScarceRun h' q h'' → ScarceRun h ((text, f, r) :: q) h''

end Knuckle.Spec
