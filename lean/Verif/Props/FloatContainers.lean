import Verif.Props.Observe
import Verif.Props.Numbers
import Verif.Props.Containers
namespace Knuckle.Props
open Spec
variable [StdSort] {pwd : Str} {s : Session} {c d : Ctx}

/-! ### C26 with floats -/

/-- C26: with 46 or more decimals the text of a vector determines its elements also if they are floats. -/
theorem C26_float_vectors {s s' : Option Session} {n m t text text' pwd' r : Str} {l l' : List Obj} (hc : Reachable c) (hd : Reachable d)
    (hp : 46 ≤ c.cfg.prec) (hpp : d.cfg.prec = c.cfg.prec) (hn : Holds c n (.vector t l)) (hm : Holds d m (.vector t l'))
    (h : Statement text n b!"get" []) (h' : Statement text' m b!"get" [])
    (e : JustReplies pwd c s text r) (e' : JustReplies pwd' d s' text' r) : l = l' := by
  have h1 := reply_unique e (justReplies_of hc hn (answers_vec hc hn h .get))
  have h2 := reply_unique e' (justReplies_of hd hm (answers_vec hd hm h' .get))
  rw [h1, hpp] at h2
  exact listText_inj (separable46 hp t) (by decide) l l' (holds_wellTyped hc hn).2 (holds_wellTyped hd hm).2 h2

/-- C26: the same for sets. -/
theorem C26_float_sets {s s' : Option Session} {n m t text text' pwd' r : Str} {l l' : List Obj} (hc : Reachable c) (hd : Reachable d)
    (hp : 46 ≤ c.cfg.prec) (hpp : d.cfg.prec = c.cfg.prec) (hn : Holds c n (.set t l)) (hm : Holds d m (.set t l'))
    (h : Statement text n b!"get" []) (h' : Statement text' m b!"get" [])
    (e : JustReplies pwd c s text r) (e' : JustReplies pwd' d s' text' r) : l = l' := by
  have h1 := reply_unique e (justReplies_of hc hn (answers_set hc hn h .get))
  have h2 := reply_unique e' (justReplies_of hd hm (answers_set hd hm h' .get))
  rw [h1, hpp] at h2
  exact listText_inj (separable46 hp t) (by decide) l l' (holds_wellTyped hc hn).2.1 (holds_wellTyped hd hm).2.1 h2

/-- C26: the same for dictionaries with float keys or values. -/
theorem C26_float_dictionaries {s s' : Option Session} {n m t u text text' pwd' r : Str} {l l' : List (Obj × Obj)} (hc : Reachable c)
    (hd : Reachable d) (hp : 46 ≤ c.cfg.prec) (hpp : d.cfg.prec = c.cfg.prec) (hn : Holds c n (.dictionary t u l))
    (hm : Holds d m (.dictionary t u l')) (h : Statement text n b!"get" []) (h' : Statement text' m b!"get" [])
    (e : JustReplies pwd c s text r) (e' : JustReplies pwd' d s' text' r) : l = l' := by
  have h1 := reply_unique e (justReplies_of hc hn (answers_dict hc hn h .get))
  have h2 := reply_unique e' (justReplies_of hd hm (answers_dict hd hm h' .get))
  rw [h1, hpp] at h2
  exact listText_inj (separable46_pair hp t u) (by decide) l l' (holds_wellTyped hc hn).2.2.1 (holds_wellTyped hd hm).2.2.1 h2

/-- Two Float vectors with 50 decimals; with the default of three decimals `[0.0001]` and `[0.0002]` print alike. -/
def preciseVector : List Obj := [.float (.fin false (2 ^ 1073)), .float (.inf true)]

example : ∃ c, Reachable c ∧ 46 ≤ c.cfg.prec ∧ Holds c b!"g" (.vector b!"Float" preciseVector) ∧
    Statement b!"g get;" b!"g" b!"get" [] := by
  let ts : List Str := [b!"Context setFloatPrecision: 50;", b!"Vector<Float> create: g;", b!"g pushBack: 0.5;", b!"g pushBack: -1e99;"]
  refine ⟨{ demo with cfg := { demo.cfg with prec := 50 }, vars := mapInsert strLt b!"g" (.vector b!"Float" preciseVector) demo.vars },
    after_reachable (pwd := []) (s := none) (ts := ts) demo_reachable (by kernel_rfl), by decide, ?_, reads (by kernel_rfl)⟩
  unfold Holds
  kernel_rfl

example [StdSort] : vectorText 3 [.float (atof b!"0.0001").toF32] = vectorText 3 [.float (atof b!"0.0002").toF32] := by kernel_rfl

end Knuckle.Props
