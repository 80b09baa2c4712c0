/-
What an instance does with any message.
-/
import Verif.Proofs.Signatures
import Verif.Spec.Behaviour
import Mathlib.Data.List.Forall2

namespace Knuckle

open Spec

theorem good_lit {t a : Str} (ht : ObjectType t) (h : Good (.lit t) a) : ∃ o, Denotes t a o := by
  rcases gsi_cases t a ht with ⟨o, _, hd, _⟩ | ⟨_, hn⟩ | ⟨_, h1, h2⟩
  · exact ⟨o, hd⟩
  · exact absurd h.1 hn
  · exact absurd ⟨h1, h2⟩ h.2

abbrev Goods (ks : List ArgKind) (args : List Str) : Prop := List.Forall₂ Good ks args

theorem goods_of (ks : List ArgKind) (args : List Str) (h : args.length = ks.length) (h' : ∀ p ∈ ks.zip args, Good p.1 p.2) :
    Goods ks args := by
  refine List.forall₂_iff_zip.2 ⟨h.symm, fun {a b} hab => h' (a, b) hab⟩

theorem peel0 {args : List Str} (h : Goods [] args) : args = [] := by cases h; rfl

theorem peelT {t : Str} (ht : ObjectType t) {ks : List ArgKind} {args : List Str} (h : Goods (.lit t :: ks) args) :
    ∃ a o as, args = a :: as ∧ Denotes t a o ∧ Goods ks as := by
  cases h with
  | cons h1 h2 => obtain ⟨o, ho⟩ := good_lit ht h1; exact ⟨_, o, _, rfl, ho, h2⟩

theorem peelI {ks : List ArgKind} {args : List Str} (h : Goods (.lit b!"Integer" :: ks) args) :
    ∃ a n as, args = a :: as ∧ Denotes b!"Integer" a (.integer n) ∧ Goods ks as := by
  obtain ⟨a, o, as, e, ho, hs⟩ := peelT ot_integer h
  cases ho with
  | integer h1 h2 => exact ⟨a, _, as, e, .integer h1 h2, hs⟩
  | truncated h1 h2 h3 => exact ⟨a, _, as, e, .truncated h1 h2 h3, hs⟩

theorem peelS {ks : List ArgKind} {args : List Str} (h : Goods (.lit b!"String" :: ks) args) :
    ∃ a v as, args = a :: as ∧ StringLiteral a v ∧ Goods ks as := by
  obtain ⟨a, o, as, e, ho, hs⟩ := peelT ot_string h
  cases ho with
  | string h => exact ⟨a, _, as, e, h, hs⟩

theorem peelF {ks : List ArgKind} {args : List Str} (h : Goods (.lit b!"Float" :: ks) args) :
    ∃ a as, args = a :: as ∧ FloatValue a ∧ Goods ks as := by
  obtain ⟨a, o, as, e, ho, hs⟩ := peelT ot_float h
  cases ho with
  | float h => exact ⟨a, as, e, h, hs⟩

theorem peelC {ks : List ArgKind} {args : List Str} (h : Goods (.lit b!"Character" :: ks) args) :
    ∃ c as, args = [c!"'", c, c!"'"] :: as ∧ Goods ks as := by
  obtain ⟨a, o, as, e, ho, hs⟩ := peelT ot_character h
  cases ho with
  | character c => exact ⟨c, as, e, hs⟩

theorem peelB {ks : List ArgKind} {args : List Str} (h : Goods (.lit b!"Boolean" :: ks) args) :
    ∃ a v as, args = a :: as ∧ Denotes b!"Boolean" a (.boolean v) ∧ Goods ks as := by
  obtain ⟨a, o, as, e, ho, hs⟩ := peelT ot_boolean h
  cases ho with
  | true => exact ⟨_, _, as, e, .true, hs⟩
  | false => exact ⟨_, _, as, e, .false, hs⟩

theorem peelN {ks : List ArgKind} {args : List Str} (h : Goods (.number :: ks) args) :
    ∃ a x as, args = a :: as ∧ NumDenotes a x ∧ Goods ks as := by
  cases h with
  | @cons _ a _ as h1 h2 =>
    rcases read_num a with ⟨_, x, hx⟩ | ⟨h, _⟩ | ⟨h, _⟩
    · exact ⟨a, x, as, rfl, hx, h2⟩
    · exact absurd h1.1 h
    · exact absurd h h1.2

theorem bool_good {v : Bool} {name : Str} {ks : List ArgKind} {args : List Str} 
    (h : (name, ks) ∈ signature (.boolean v)) (hg : Goods ks args) : ∃ m, BoolSays name args m := by
  simp only [signature, List.mem_cons, Prod.mk.injEq, List.not_mem_nil, or_false] at h
  rcases h with ⟨rfl, rfl⟩ | ⟨rfl, rfl⟩ | ⟨rfl, rfl⟩ | ⟨rfl, rfl⟩
  · cases peel0 hg; exact ⟨_, .get⟩
  · obtain ⟨a1, o1, _, rfl, h1, g1⟩ := peelB hg; cases peel0 g1; exact ⟨_, .set h1⟩
  · cases peel0 hg; exact ⟨_, .isTrue⟩
  · cases peel0 hg; exact ⟨_, .isFalse⟩

theorem char_good {v : Byte} {name : Str} {ks : List ArgKind} {args : List Str} 
    (h : (name, ks) ∈ signature (.character v)) (hg : Goods ks args) : ∃ m, CharSays name args m := by
  simp only [signature, List.mem_cons, Prod.mk.injEq, List.not_mem_nil, or_false] at h
  rcases h with ⟨rfl, rfl⟩ | ⟨rfl, rfl⟩ | ⟨rfl, rfl⟩ | ⟨rfl, rfl⟩ | ⟨rfl, rfl⟩ | ⟨rfl, rfl⟩ | ⟨rfl, rfl⟩ | ⟨rfl, rfl⟩ | ⟨rfl, rfl⟩ | ⟨rfl, rfl⟩ | ⟨rfl, rfl⟩
  · cases peel0 hg; exact ⟨_, .get⟩
  · obtain ⟨a1, _, rfl, g1⟩ := peelC hg; cases peel0 g1; exact ⟨_, .set⟩
  · cases peel0 hg; exact ⟨_, .isAlphabetic⟩
  · cases peel0 hg; exact ⟨_, .isNumeric⟩
  · cases peel0 hg; exact ⟨_, .isAlphanumeric⟩
  · cases peel0 hg; exact ⟨_, .isSpace⟩
  · obtain ⟨a1, _, rfl, g1⟩ := peelC hg; cases peel0 g1; exact ⟨_, .eq⟩
  · obtain ⟨a1, _, rfl, g1⟩ := peelC hg; cases peel0 g1; exact ⟨_, .lt⟩
  · obtain ⟨a1, _, rfl, g1⟩ := peelC hg; cases peel0 g1; exact ⟨_, .le⟩
  · obtain ⟨a1, _, rfl, g1⟩ := peelC hg; cases peel0 g1; exact ⟨_, .gt⟩
  · obtain ⟨a1, _, rfl, g1⟩ := peelC hg; cases peel0 g1; exact ⟨_, .ge⟩

theorem int_good {v : Int} {name : Str} {ks : List ArgKind} {args : List Str} 
    (h : (name, ks) ∈ signature (.integer v)) (hg : Goods ks args) : ∃ m, IntSays name args m := by
  simp only [signature, List.mem_cons, Prod.mk.injEq, List.not_mem_nil, or_false] at h
  rcases h with ⟨rfl, rfl⟩ | ⟨rfl, rfl⟩ | ⟨rfl, rfl⟩ | ⟨rfl, rfl⟩ | ⟨rfl, rfl⟩ | ⟨rfl, rfl⟩ | ⟨rfl, rfl⟩ | ⟨rfl, rfl⟩ | ⟨rfl, rfl⟩ | ⟨rfl, rfl⟩ | ⟨rfl, rfl⟩
  · cases peel0 hg; exact ⟨_, .get⟩
  · obtain ⟨a1, o1, _, rfl, h1, g1⟩ := peelI hg; cases peel0 g1; exact ⟨_, .set h1⟩
  · obtain ⟨a1, o1, _, rfl, h1, g1⟩ := peelN hg; cases peel0 g1; exact ⟨_, .eq h1⟩
  · obtain ⟨a1, o1, _, rfl, h1, g1⟩ := peelN hg; cases peel0 g1; exact ⟨_, .lt h1⟩
  · obtain ⟨a1, o1, _, rfl, h1, g1⟩ := peelN hg; cases peel0 g1; exact ⟨_, .le h1⟩
  · obtain ⟨a1, o1, _, rfl, h1, g1⟩ := peelN hg; cases peel0 g1; exact ⟨_, .gt h1⟩
  · obtain ⟨a1, o1, _, rfl, h1, g1⟩ := peelN hg; cases peel0 g1; exact ⟨_, .ge h1⟩
  · obtain ⟨a1, o1, _, rfl, h1, g1⟩ := peelN hg; cases peel0 g1; exact ⟨_, .add h1⟩
  · obtain ⟨a1, o1, _, rfl, h1, g1⟩ := peelN hg; cases peel0 g1; exact ⟨_, .subtract h1⟩
  · obtain ⟨a1, o1, _, rfl, h1, g1⟩ := peelN hg; cases peel0 g1; exact ⟨_, .multiplyBy h1⟩
  · obtain ⟨a1, o1, _, rfl, h1, g1⟩ := peelN hg; cases peel0 g1; exact ⟨_, .divideBy h1⟩

theorem flt_good {v : Fl} {name : Str} {ks : List ArgKind} {args : List Str} 
    (h : (name, ks) ∈ signature (.float v)) (hg : Goods ks args) : ∃ m, FltSays name args m := by
  simp only [signature, List.mem_cons, Prod.mk.injEq, List.not_mem_nil, or_false] at h
  rcases h with ⟨rfl, rfl⟩ | ⟨rfl, rfl⟩ | ⟨rfl, rfl⟩ | ⟨rfl, rfl⟩ | ⟨rfl, rfl⟩ | ⟨rfl, rfl⟩ | ⟨rfl, rfl⟩ | ⟨rfl, rfl⟩ | ⟨rfl, rfl⟩ | ⟨rfl, rfl⟩ | ⟨rfl, rfl⟩
  · cases peel0 hg; exact ⟨_, .get⟩
  · obtain ⟨a1, _, rfl, h1, g1⟩ := peelF hg; cases peel0 g1; exact ⟨_, .set h1⟩
  · obtain ⟨a1, _, rfl, h1, g1⟩ := peelF hg; cases peel0 g1; exact ⟨_, .eq h1⟩
  · obtain ⟨a1, _, rfl, h1, g1⟩ := peelF hg; cases peel0 g1; exact ⟨_, .lt h1⟩
  · obtain ⟨a1, _, rfl, h1, g1⟩ := peelF hg; cases peel0 g1; exact ⟨_, .le h1⟩
  · obtain ⟨a1, _, rfl, h1, g1⟩ := peelF hg; cases peel0 g1; exact ⟨_, .gt h1⟩
  · obtain ⟨a1, _, rfl, h1, g1⟩ := peelF hg; cases peel0 g1; exact ⟨_, .ge h1⟩
  · obtain ⟨a1, _, rfl, h1, g1⟩ := peelF hg; cases peel0 g1; exact ⟨_, .add h1⟩
  · obtain ⟨a1, _, rfl, h1, g1⟩ := peelF hg; cases peel0 g1; exact ⟨_, .subtract h1⟩
  · obtain ⟨a1, _, rfl, h1, g1⟩ := peelF hg; cases peel0 g1; exact ⟨_, .multiplyBy h1⟩
  · obtain ⟨a1, _, rfl, h1, g1⟩ := peelF hg; cases peel0 g1; exact ⟨_, .divideBy h1⟩

theorem str_good {v : Str} {name : Str} {ks : List ArgKind} {args : List Str} 
    (h : (name, ks) ∈ signature (.string v)) (hg : Goods ks args) : ∃ m, StrSays name args m := by
  simp only [signature, List.mem_cons, Prod.mk.injEq, List.not_mem_nil, or_false] at h
  rcases h with ⟨rfl, rfl⟩ | ⟨rfl, rfl⟩ | ⟨rfl, rfl⟩ | ⟨rfl, rfl⟩ | ⟨rfl, rfl⟩ | ⟨rfl, rfl⟩ | ⟨rfl, rfl⟩ | ⟨rfl, rfl⟩ | ⟨rfl, rfl⟩ | ⟨rfl, rfl⟩ | ⟨rfl, rfl⟩ | ⟨rfl, rfl⟩ | ⟨rfl, rfl⟩ | ⟨rfl, rfl⟩ | ⟨rfl, rfl⟩ | ⟨rfl, rfl⟩ | ⟨rfl, rfl⟩ | ⟨rfl, rfl⟩ | ⟨rfl, rfl⟩ | ⟨rfl, rfl⟩ | ⟨rfl, rfl⟩ | ⟨rfl, rfl⟩ | ⟨rfl, rfl⟩ | ⟨rfl, rfl⟩ | ⟨rfl, rfl⟩ | ⟨rfl, rfl⟩
  · cases peel0 hg; exact ⟨_, .get⟩
  · obtain ⟨a1, o1, _, rfl, h1, g1⟩ := peelS hg; cases peel0 g1; exact ⟨_, .set h1⟩
  · cases peel0 hg; exact ⟨_, .isEmpty⟩
  · obtain ⟨a1, o1, _, rfl, h1, g1⟩ := peelS hg; cases peel0 g1; exact ⟨_, .startsWith h1⟩
  · obtain ⟨a1, o1, _, rfl, h1, g1⟩ := peelS hg; cases peel0 g1; exact ⟨_, .endsWith h1⟩
  · obtain ⟨a1, o1, _, rfl, h1, g1⟩ := peelS hg; cases peel0 g1; exact ⟨_, .eq h1⟩
  · obtain ⟨a1, o1, _, rfl, h1, g1⟩ := peelS hg; cases peel0 g1; exact ⟨_, .lt h1⟩
  · obtain ⟨a1, o1, _, rfl, h1, g1⟩ := peelS hg; cases peel0 g1; exact ⟨_, .le h1⟩
  · obtain ⟨a1, o1, _, rfl, h1, g1⟩ := peelS hg; cases peel0 g1; exact ⟨_, .gt h1⟩
  · obtain ⟨a1, o1, _, rfl, h1, g1⟩ := peelS hg; cases peel0 g1; exact ⟨_, .ge h1⟩
  · cases peel0 hg; exact ⟨_, .length⟩
  · obtain ⟨a1, o1, _, rfl, h1, g1⟩ := peelI hg; cases peel0 g1; exact ⟨_, .atIndex h1⟩
  · obtain ⟨a1, o1, _, rfl, h1, g1⟩ := peelI hg; cases peel0 g1; exact ⟨_, .first h1⟩
  · obtain ⟨a1, o1, _, rfl, h1, g1⟩ := peelI hg; cases peel0 g1; exact ⟨_, .last h1⟩
  · obtain ⟨a1, o1, _, rfl, h1, g1⟩ := peelI hg; cases peel0 g1; exact ⟨_, .substring h1⟩
  · obtain ⟨a1, o1, _, rfl, h1, g1⟩ := peelI hg; obtain ⟨a2, o2, _, rfl, h2, g2⟩ := peelI g1; cases peel0 g2; exact ⟨_, .substringTo h1 h2⟩
  · obtain ⟨a1, _, rfl, g1⟩ := peelC hg; cases peel0 g1; exact ⟨_, .pushBack⟩
  · obtain ⟨a1, _, rfl, g1⟩ := peelC hg; cases peel0 g1; exact ⟨_, .pushFront⟩
  · cases peel0 hg; exact ⟨_, .popBack⟩
  · cases peel0 hg; exact ⟨_, .popFront⟩
  · obtain ⟨a1, o1, _, rfl, h1, g1⟩ := peelI hg; cases peel0 g1; exact ⟨_, .popAtIndex h1⟩
  · obtain ⟨a1, o1, _, rfl, h1, g1⟩ := peelS hg; cases peel0 g1; exact ⟨_, .concatenate h1⟩
  · obtain ⟨a1, o1, _, rfl, h1, g1⟩ := peelS hg; obtain ⟨a2, o2, _, rfl, h2, g2⟩ := peelI g1; cases peel0 g2; exact ⟨_, .insert h1 h2⟩
  · obtain ⟨a1, o1, _, rfl, h1, g1⟩ := peelI hg; cases peel0 g1; exact ⟨_, .erase h1⟩
  · obtain ⟨a1, o1, _, rfl, h1, g1⟩ := peelI hg; obtain ⟨a2, o2, _, rfl, h2, g2⟩ := peelI g1; cases peel0 g2; exact ⟨_, .eraseTo h1 h2⟩
  · cases peel0 hg; exact ⟨_, .clear⟩

theorem vec_good {t : Str} {l : List Obj} {name : Str} {ks : List ArgKind} {args : List Str} (ht : ObjectType t)
    (h : (name, ks) ∈ signature (.vector t l)) (hg : Goods ks args) (hn : name ≠ b!"sort") : ∃ m, VecSays t name args m := by
  simp only [signature, List.mem_cons, Prod.mk.injEq, List.not_mem_nil, or_false] at h
  rcases h with ⟨rfl, rfl⟩ | ⟨rfl, rfl⟩ | ⟨rfl, rfl⟩ | ⟨rfl, rfl⟩ | ⟨rfl, rfl⟩ | ⟨rfl, rfl⟩ | ⟨rfl, rfl⟩ | ⟨rfl, rfl⟩ | ⟨rfl, rfl⟩ | ⟨rfl, rfl⟩ | ⟨rfl, rfl⟩ | ⟨rfl, rfl⟩ | ⟨rfl, rfl⟩ | ⟨rfl, rfl⟩ | ⟨rfl, rfl⟩ | ⟨rfl, rfl⟩ | ⟨rfl, rfl⟩ | ⟨rfl, rfl⟩ | ⟨rfl, rfl⟩ | ⟨rfl, rfl⟩ | ⟨rfl, rfl⟩ | ⟨rfl, rfl⟩ | ⟨rfl, rfl⟩ | ⟨rfl, rfl⟩ | ⟨rfl, rfl⟩ | ⟨rfl, rfl⟩ | ⟨rfl, rfl⟩ | ⟨rfl, rfl⟩ | ⟨rfl, rfl⟩ | ⟨rfl, rfl⟩ | ⟨rfl, rfl⟩
  · cases peel0 hg; exact ⟨_, .get⟩
  · cases peel0 hg; exact ⟨_, .isEmpty⟩
  · obtain ⟨a1, o1, _, rfl, h1, g1⟩ := peelT ht hg; cases peel0 g1; exact ⟨_, .contains h1⟩
  · obtain ⟨a1, o1, _, rfl, h1, g1⟩ := peelT ht hg; obtain ⟨a2, o2, _, rfl, h2, g2⟩ := peelI g1; cases peel0 g2; exact ⟨_, .containsFrom h1 h2⟩
  · obtain ⟨a1, o1, _, rfl, h1, g1⟩ := peelT ht hg; cases peel0 g1; exact ⟨_, .count h1⟩
  · obtain ⟨a1, o1, _, rfl, h1, g1⟩ := peelI hg; cases peel0 g1; exact ⟨_, .atIndex h1⟩
  · obtain ⟨a1, o1, _, rfl, h1, g1⟩ := peelT ht hg; cases peel0 g1; exact ⟨_, .firstIndexOf h1⟩
  · obtain ⟨a1, o1, _, rfl, h1, g1⟩ := peelT ht hg; obtain ⟨a2, o2, _, rfl, h2, g2⟩ := peelI g1; cases peel0 g2; exact ⟨_, .firstIndexOfFrom h1 h2⟩
  · obtain ⟨a1, o1, _, rfl, h1, g1⟩ := peelT ht hg; cases peel0 g1; exact ⟨_, .allIndexesOf h1⟩
  · cases peel0 hg; exact ⟨_, .size⟩
  · obtain ⟨a1, o1, _, rfl, h1, g1⟩ := peelI hg; cases peel0 g1; exact ⟨_, .first h1⟩
  · obtain ⟨a1, o1, _, rfl, h1, g1⟩ := peelI hg; cases peel0 g1; exact ⟨_, .last h1⟩
  · obtain ⟨a1, o1, _, rfl, h1, g1⟩ := peelI hg; cases peel0 g1; exact ⟨_, .slice h1⟩
  · obtain ⟨a1, o1, _, rfl, h1, g1⟩ := peelI hg; obtain ⟨a2, o2, _, rfl, h2, g2⟩ := peelI g1; cases peel0 g2; exact ⟨_, .sliceTo h1 h2⟩
  · obtain ⟨a1, o1, _, rfl, h1, g1⟩ := peelT ht hg; cases peel0 g1; exact ⟨_, .pushBack h1⟩
  · obtain ⟨a1, o1, _, rfl, h1, g1⟩ := peelT ht hg; cases peel0 g1; exact ⟨_, .pushFront h1⟩
  · cases peel0 hg; exact ⟨_, .popBack⟩
  · cases peel0 hg; exact ⟨_, .popFront⟩
  · obtain ⟨a1, o1, _, rfl, h1, g1⟩ := peelI hg; cases peel0 g1; exact ⟨_, .popAtIndex h1⟩
  · obtain ⟨a1, o1, _, rfl, h1, g1⟩ := peelT ht hg; obtain ⟨a2, o2, _, rfl, h2, g2⟩ := peelI g1; cases peel0 g2; exact ⟨_, .insert h1 h2⟩
  · obtain ⟨a1, o1, _, rfl, h1, g1⟩ := peelI hg; cases peel0 g1; exact ⟨_, .erase h1⟩
  · obtain ⟨a1, o1, _, rfl, h1, g1⟩ := peelI hg; obtain ⟨a2, o2, _, rfl, h2, g2⟩ := peelI g1; cases peel0 g2; exact ⟨_, .eraseTo h1 h2⟩
  · obtain ⟨a1, o1, _, rfl, h1, g1⟩ := peelT ht hg; cases peel0 g1; exact ⟨_, .removeFirst h1⟩
  · obtain ⟨a1, o1, _, rfl, h1, g1⟩ := peelT ht hg; obtain ⟨a2, o2, _, rfl, h2, g2⟩ := peelI g1; cases peel0 g2; exact ⟨_, .removeFirstFrom h1 h2⟩
  · obtain ⟨a1, o1, _, rfl, h1, g1⟩ := peelT ht hg; cases peel0 g1; exact ⟨_, .removeAll h1⟩
  · obtain ⟨a1, o1, _, rfl, h1, g1⟩ := peelT ht hg; obtain ⟨a2, o2, _, rfl, h2, g2⟩ := peelT ht g1; cases peel0 g2; exact ⟨_, .replaceFirst h1 h2⟩
  · obtain ⟨a1, o1, _, rfl, h1, g1⟩ := peelT ht hg; obtain ⟨a2, o2, _, rfl, h2, g2⟩ := peelI g1; obtain ⟨a3, o3, _, rfl, h3, g3⟩ := peelT ht g2; cases peel0 g3; exact ⟨_, .replaceFirstFrom h1 h2 h3⟩
  · obtain ⟨a1, o1, _, rfl, h1, g1⟩ := peelT ht hg; obtain ⟨a2, o2, _, rfl, h2, g2⟩ := peelT ht g1; cases peel0 g2; exact ⟨_, .replaceAll h1 h2⟩
  · cases peel0 hg; exact absurd rfl hn
  · cases peel0 hg; exact ⟨_, .reverse⟩
  · cases peel0 hg; exact ⟨_, .clear⟩

theorem set_good {t : Str} {l : List Obj} {name : Str} {ks : List ArgKind} {args : List Str} (ht : ObjectType t)
    (h : (name, ks) ∈ signature (.set t l)) (hg : Goods ks args) : ∃ m, SetSays t name args m := by
  simp only [signature, List.mem_cons, Prod.mk.injEq, List.not_mem_nil, or_false] at h
  rcases h with ⟨rfl, rfl⟩ | ⟨rfl, rfl⟩ | ⟨rfl, rfl⟩ | ⟨rfl, rfl⟩ | ⟨rfl, rfl⟩ | ⟨rfl, rfl⟩ | ⟨rfl, rfl⟩
  · cases peel0 hg; exact ⟨_, .get⟩
  · cases peel0 hg; exact ⟨_, .isEmpty⟩
  · obtain ⟨a1, o1, _, rfl, h1, g1⟩ := peelT ht hg; cases peel0 g1; exact ⟨_, .contains h1⟩
  · cases peel0 hg; exact ⟨_, .size⟩
  · obtain ⟨a1, o1, _, rfl, h1, g1⟩ := peelT ht hg; cases peel0 g1; exact ⟨_, .add h1⟩
  · obtain ⟨a1, o1, _, rfl, h1, g1⟩ := peelT ht hg; cases peel0 g1; exact ⟨_, .remove h1⟩
  · cases peel0 hg; exact ⟨_, .clear⟩

theorem dict_good {t u : Str} {l : List (Obj × Obj)} {name : Str} {ks : List ArgKind} {args : List Str} (ht : ObjectType t) (hu : ObjectType u)
    (h : (name, ks) ∈ signature (.dictionary t u l)) (hg : Goods ks args) : ∃ m, DictSays t u name args m := by
  simp only [signature, List.mem_cons, Prod.mk.injEq, List.not_mem_nil, or_false] at h
  rcases h with ⟨rfl, rfl⟩ | ⟨rfl, rfl⟩ | ⟨rfl, rfl⟩ | ⟨rfl, rfl⟩ | ⟨rfl, rfl⟩ | ⟨rfl, rfl⟩ | ⟨rfl, rfl⟩ | ⟨rfl, rfl⟩ | ⟨rfl, rfl⟩ | ⟨rfl, rfl⟩
  · cases peel0 hg; exact ⟨_, .get⟩
  · cases peel0 hg; exact ⟨_, .isEmpty⟩
  · obtain ⟨a1, o1, _, rfl, h1, g1⟩ := peelT ht hg; cases peel0 g1; exact ⟨_, .containsKey h1⟩
  · cases peel0 hg; exact ⟨_, .size⟩
  · cases peel0 hg; exact ⟨_, .keys⟩
  · cases peel0 hg; exact ⟨_, .values⟩
  · obtain ⟨a1, o1, _, rfl, h1, g1⟩ := peelT ht hg; cases peel0 g1; exact ⟨_, .getValueForKey h1⟩
  · obtain ⟨a1, o1, _, rfl, h1, g1⟩ := peelT hu hg; obtain ⟨a2, o2, _, rfl, h2, g2⟩ := peelT ht g1; cases peel0 g2; exact ⟨_, .associate h1 h2⟩
  · obtain ⟨a1, o1, _, rfl, h1, g1⟩ := peelT ht hg; cases peel0 g1; exact ⟨_, .removeKey h1⟩
  · cases peel0 hg; exact ⟨_, .clear⟩


/-! ### All messages -/

theorem wrap_run {σ : Type} (f : σ → Inst) (old : σ) (r : Result σ) : wrap f (r.run old) = (r.map f).run (f old) := by
  cases r <;> rfl

theorem vec_sort [StdSort] (cfg : Cfg) (t : Str) (l : List Obj) (hl : ∀ x ∈ l, HasType t x) :
    ∃ r, Behaves cfg (.vector t l) b!"sort" [] r ∧ receive cfg (.vector t l) b!"sort" [] = r.run (.vector t l) := by
  have e : swoOn (ltB cfg.eps) l = true ↔ StrictWeakOrder (less cfg.eps) l :=
    swoOn_iff _ _ _ fun a ha b hb => ltB_less cfg.eps t a b (hl a ha) (hl b hb)
  have hr : receive cfg (.vector t l) b!"sort" [] = wrap (.vector t) (vecSort cfg l []) := rfl
  rw [hr]
  unfold vecSort op0
  rw [comparable_of cfg.eps t l hl]
  by_cases h : StrictWeakOrder (less cfg.eps) l
  · have h0 := e.2 h
    rw [h0]
    have h1 : ∀ a ∈ l, ltB cfg.eps a a = false := fun a ha => by
      rw [ltB_less cfg.eps t a a (hl a ha) (hl a ha)]; simpa using h.1 a ha
    have h2 : ∀ a ∈ l, ∀ b ∈ l, ∀ c ∈ l, ltB cfg.eps a b = true → ltB cfg.eps b c = true → ltB cfg.eps a c = true :=
      fun a ha b hb c hc => by
        rw [ltB_less cfg.eps t a b (hl a ha) (hl b hb), ltB_less cfg.eps t b c (hl b hb) (hl c hc),
          ltB_less cfg.eps t a c (hl a ha) (hl c hc)]
        exact h.2.1 a ha b hb c hc
    have h3 : ∀ a ∈ l, ∀ b ∈ l, ∀ c ∈ l, ltB cfg.eps a b = false → ltB cfg.eps b a = false → ltB cfg.eps b c = false →
        ltB cfg.eps c b = false → ltB cfg.eps a c = false ∧ ltB cfg.eps c a = false :=
      fun a ha b hb c hc => by
        rw [ltB_less cfg.eps t a b (hl a ha) (hl b hb), ltB_less cfg.eps t b c (hl b hb) (hl c hc),
          ltB_less cfg.eps t a c (hl a ha) (hl c hc), ltB_less cfg.eps t b a (hl b hb) (hl a ha),
          ltB_less cfg.eps t c b (hl c hc) (hl b hb), ltB_less cfg.eps t c a (hl c hc) (hl a ha)]
        intro x y z w
        have := h.2.2 a ha b hb c hc (by simp [x]) (by simp [y]) (by simp [z]) (by simp [w])
        simpa using this
    have hp := StdSort.perm (ltB cfg.eps) l h1 h2 h3
    have hs := StdSort.sorted (ltB cfg.eps) l h1 h2 h3
    refine ⟨_, .sort h hp (hs.imp_of_mem ?_), rfl⟩
    intro a b ha hb hab
    rw [← ltB_less cfg.eps t b a (hl b (hp.mem_iff.1 hb)) (hl a (hp.mem_iff.1 ha)), hab]
    simp
  · have h0 : swoOn (ltB cfg.eps) l = false := by rw [Bool.eq_false_iff]; exact fun x => h (e.1 x)
    rw [h0]
    exact ⟨_, .sortUndefined h, rfl⟩

/-- The instance is sent a message it understands with proper arguments. -/
theorem receive_behaves [StdSort] (cfg : Cfg) (i : Inst) (hw : WellTyped i) (name : Str) (ks : List ArgKind) (args : List Str)
    (h : (name, ks) ∈ signature i) (hg : Goods ks args) :
    ∃ r, Behaves cfg i name args r ∧ receive cfg i name args = r.run i := by
  cases i with
  | boolean v =>
    obtain ⟨m, hm⟩ := bool_good h hg
    exact ⟨_, .boolean hm, by rw [← wrap_run, ← bool_says v name args m hm]; rfl⟩
  | character v =>
    obtain ⟨m, hm⟩ := char_good h hg
    exact ⟨_, .character hm, by rw [← wrap_run, ← char_says cfg.eps v name args m hm]; rfl⟩
  | integer v =>
    obtain ⟨m, hm⟩ := int_good h hg
    exact ⟨_, .integer hm, by rw [← wrap_run, ← int_says cfg.eps v hw name args m hm]; rfl⟩
  | float v =>
    obtain ⟨m, hm⟩ := flt_good h hg
    exact ⟨_, .float hm, by rw [← wrap_run, ← flt_says cfg v name args m hm]; rfl⟩
  | string v =>
    obtain ⟨m, hm⟩ := str_good h hg
    exact ⟨_, .string hm, by rw [← wrap_run, ← str_says cfg.eps v name args m hm]; rfl⟩
  | vector t l =>
    by_cases hn : name = b!"sort"
    · subst hn
      have : ks = [] := by
        simp only [signature, List.mem_cons, Prod.mk.injEq, List.not_mem_nil, or_false] at h
        simpa using h
      subst this
      cases peel0 hg
      exact vec_sort cfg t l hw.2
    · obtain ⟨m, hm⟩ := vec_good hw.1 h hg hn
      exact ⟨_, .vector hm, by rw [← wrap_run, ← vec_says cfg t l hw.2 name args m hm]; rfl⟩
  | set t l =>
    obtain ⟨m, hm⟩ := set_good hw.1 h hg
    exact ⟨_, .set hm, by rw [← wrap_run, ← set_says cfg t l hw.2.1 name args m hm]; rfl⟩
  | dictionary t u l =>
    obtain ⟨m, hm⟩ := dict_good hw.1 hw.2.1 h hg
    exact ⟨_, .dictionary hm, by
      rw [← wrap_run, ← dict_says cfg t u l (fun x hx => (hw.2.2.1 x hx).1) name args m hm]; rfl⟩

/-- What happens to any message at all. -/
theorem receive_cases [StdSort] (cfg : Cfg) (i : Inst) (hw : WellTyped i) (name : Str) (args : List Str) :
    ((∀ p ∈ signature i, p.1 ≠ name) ∧ receive cfg i name args = .thr i .invalidMessage) ∨
    (∃ ks, (name, ks) ∈ signature i ∧ (
      (args.length ≠ ks.length ∧ receive cfg i name args = .thr i .wrongNumberOfArguments) ∨
      (args.length = ks.length ∧ (∃ p ∈ ks.zip args, ¬ Fits p.1 p.2) ∧ receive cfg i name args = .thr i .invalidArgument) ∨
      (args.length = ks.length ∧ (∃ p ∈ ks.zip args, Overflows p.1 p.2) ∧ receive cfg i name args = .ub) ∨
      (args.length = ks.length ∧ (∀ p ∈ ks.zip args, Good p.1 p.2) ∧
        ∃ r, Behaves cfg i name args r ∧ receive cfg i name args = r.run i))) := by
  have key : ∀ {σ : Type} (f : σ → Inst) (old : σ) (tb : Table σ), i = f old →
      receive cfg i name args = wrap f (dispatch old tb name args) → TableCases old (signature i) tb →
    ((∀ p ∈ signature i, p.1 ≠ name) ∧ receive cfg i name args = .thr i .invalidMessage) ∨
    (∃ ks, (name, ks) ∈ signature i ∧ (
      (args.length ≠ ks.length ∧ receive cfg i name args = .thr i .wrongNumberOfArguments) ∨
      (args.length = ks.length ∧ (∃ p ∈ ks.zip args, ¬ Fits p.1 p.2) ∧ receive cfg i name args = .thr i .invalidArgument) ∨
      (args.length = ks.length ∧ (∃ p ∈ ks.zip args, Overflows p.1 p.2) ∧ receive cfg i name args = .ub) ∨
      (args.length = ks.length ∧ (∀ p ∈ ks.zip args, Good p.1 p.2) ∧
        ∃ r, Behaves cfg i name args r ∧ receive cfg i name args = r.run i))) := by
    intro σ f old tb hi hr ht
    rcases table_cases old _ tb ht name args with ⟨h1, h2⟩ | ⟨ks, hk, ⟨h1, h2⟩ | ⟨h1, h3, h2⟩ | ⟨h1, h3, h2⟩ | ⟨h1, h2⟩⟩
    · exact .inl ⟨h1, by rw [hr, h2, hi]; rfl⟩
    · exact .inr ⟨ks, hk, .inl ⟨h1, by rw [hr, h2, hi]; rfl⟩⟩
    · exact .inr ⟨ks, hk, .inr (.inl ⟨h1, h3, by rw [hr, h2, hi]; rfl⟩)⟩
    · exact .inr ⟨ks, hk, .inr (.inr (.inl ⟨h1, h3, by rw [hr, h2]; rfl⟩))⟩
    · exact .inr ⟨ks, hk, .inr (.inr (.inr ⟨h1, h2, receive_behaves cfg i hw name ks args hk (goods_of ks args h1 h2)⟩))⟩
  cases i with
  | boolean v => exact key .boolean v _ rfl rfl (bool_table v)
  | character v => exact key .character v _ rfl rfl (char_table cfg.eps v)
  | integer v => exact key .integer v _ rfl rfl (int_table cfg.eps v)
  | float v => exact key .float v _ rfl rfl (float_table cfg v)
  | string v => exact key .string v _ rfl rfl (string_table cfg.eps v)
  | vector t l => exact key (.vector t) l _ rfl rfl (vector_table cfg t hw.1 l)
  | set t l => exact key (.set t) l _ rfl rfl (set_table cfg t hw.1 l)
  | dictionary t u l => exact key (.dictionary t u) l _ rfl rfl (dict_table cfg t u hw.1 hw.2.1 l)

end Knuckle
