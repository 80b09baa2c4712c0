/-
Bytes of replies come from fixed texts or from requests.
-/
import Verif.Proofs.Updates
import Verif.Proofs.Decimal
import Verif.Proofs.Escape
import Verif.Proofs.Context
import Verif.Proofs.Errors

namespace Knuckle

open Spec

/-- Printable ASCII. -/
def Printable (b : Byte) : Prop := 32 ≤ b ∧ b ≤ 126

instance (b : Byte) : Decidable (Printable b) := by unfold Printable; infer_instance

/-- All bytes satisfy `Q`. -/
def AllB (Q : Byte → Prop) (s : Str) : Prop := ∀ b ∈ s, Q b

section
variable {Q : Byte → Prop}

theorem allB_nil : AllB Q [] := fun _ h => by cases h
theorem allB_cons {c : Byte} {s : Str} : AllB Q (c :: s) ↔ Q c ∧ AllB Q s := by simp [AllB]
theorem allB_append {a b : Str} : AllB Q (a ++ b) ↔ AllB Q a ∧ AllB Q b := by
  simp only [AllB, List.mem_append]
  exact ⟨fun h => ⟨fun x hx => h x (.inl hx), fun x hx => h x (.inr hx)⟩, fun h x hx => hx.elim (h.1 x) (h.2 x)⟩
theorem allB_sub {a b : Str} (h : AllB Q b) (hs : ∀ x ∈ a, x ∈ b) : AllB Q a := fun x hx => h x (hs x hx)

theorem allB_intercalate {sep : Str} (hs : AllB Q sep) {xs : List Str} (hx : ∀ x ∈ xs, AllB Q x) : AllB Q (List.intercalate sep xs) := by
  induction xs with
  | nil => exact allB_nil
  | cons x xs ih =>
    cases xs with
    | nil => simp only [List.intercalate, List.intersperse, List.flatten_cons, List.flatten_nil, List.append_nil]; exact hx x (by simp)
    | cons y ys =>
      have := ih fun z hz => hx z (List.mem_cons_of_mem _ hz)
      simp only [List.intercalate, List.intersperse, List.flatten_cons] at this ⊢
      exact allB_append.2 ⟨hx x (by simp), allB_append.2 ⟨hs, this⟩⟩

/-- What a value contributes to replies. -/
def QObj (Q : Byte → Prop) : Obj → Prop
  | .character c => Q c
  | .string v => AllB Q v
  | _ => True

def QInst (Q : Byte → Prop) : Inst → Prop
  | .character c => Q c
  | .string v => AllB Q v
  | .vector _ l => ∀ o ∈ l, QObj Q o
  | .set _ l => ∀ o ∈ l, QObj Q o
  | .dictionary _ _ l => ∀ p ∈ l, QObj Q p.1 ∧ QObj Q p.2
  | _ => True

variable (hQ : ∀ b, Printable b → Q b)
include hQ

theorem allB_lit {s : Str} (h : ∀ b ∈ s, Printable b) : AllB Q s := fun b hb => hQ b (h b hb)

theorem allB_digits {s : Str} (h : Digits s) : AllB Q s := allB_lit hQ fun b hb => by
  obtain ⟨h1, h2⟩ := h b hb
  rw [UInt8.le_iff_toNat_le] at h1 h2
  have h1 : 48 ≤ b.toNat := h1
  have h2 : b.toNat ≤ 57 := h2
  refine ⟨?_, ?_⟩ <;> rw [UInt8.le_iff_toNat_le]
  · show 32 ≤ b.toNat; omega
  · show b.toNat ≤ 126; omega

theorem allB_natStr (n : Nat) : AllB Q (natStr n) := allB_digits hQ (natStr_spec n).1

theorem allB_intStr (n : Int) : AllB Q (intStr n) := by
  unfold intStr; split
  · exact allB_cons.2 ⟨hQ _ (by decide), allB_natStr hQ _⟩
  · exact allB_natStr hQ _

theorem allB_fixed (p : Int) (x : Fl) : AllB Q (fmtFixed p x) := by
  cases x with
  | nan => simp only [fmtFixed]; exact allB_lit hQ (by decide)
  | inf s => cases s <;> (simp only [fmtFixed]; exact allB_lit hQ (by decide))
  | fin s k =>
    simp only [fmtFixed]
    have body : ∀ a b c d : Nat, AllB Q (natStr a ++ (if b = 0 then [] else c!"." :: padZeros c (natStr d))) := by
      intro a b c d
      refine allB_append.2 ⟨allB_natStr hQ _, ?_⟩
      split
      · exact allB_nil
      · refine allB_cons.2 ⟨hQ _ (by decide), ?_⟩
        unfold padZeros
        refine allB_append.2 ⟨?_, allB_natStr hQ _⟩
        intro b hb; rw [(List.mem_replicate.1 hb).2]; exact hQ _ (by decide)
    split
    · exact allB_cons.2 ⟨hQ _ (by decide), body _ _ _ _⟩
    · exact body _ _ _ _

theorem allB_escape {v : Str} (h : AllB Q v) : AllB Q (escape c!"\"" v) := by
  induction v with
  | nil => exact allB_nil
  | cons c v ih =>
    obtain ⟨h1, h2⟩ := allB_cons.1 h
    rw [escape_cons]
    split
    · exact allB_cons.2 ⟨hQ _ (by decide), allB_cons.2 ⟨h1, ih h2⟩⟩
    · exact allB_cons.2 ⟨h1, ih h2⟩

theorem allB_quoted {v : Str} (h : AllB Q v) : AllB Q (quoted v) :=
  allB_cons.2 ⟨hQ _ (by decide), allB_append.2 ⟨allB_escape hQ h, allB_lit hQ (by decide)⟩⟩

theorem allB_char {c : Byte} (h : Q c) : AllB Q (charStr c) :=
  allB_cons.2 ⟨hQ _ (by decide), allB_cons.2 ⟨h, allB_lit hQ (by decide)⟩⟩

theorem allB_repr (p : Int) {o : Obj} (h : QObj Q o) : AllB Q (o.repr p) := by
  cases o with
  | boolean b => cases b <;> (simp only [Obj.repr]; exact allB_lit hQ (by decide))
  | character c => exact allB_char hQ h
  | integer n => exact allB_intStr hQ n
  | float x => exact allB_fixed hQ p x
  | string v => exact allB_quoted hQ h

theorem allB_truth (p : Prop) [Decidable p] : AllB Q (truth p) := by
  unfold truth; split <;> exact allB_lit hQ (by decide)

theorem allB_index (o : Option Nat) : AllB Q (indexText o) := by
  cases o with
  | none => exact allB_lit hQ (by decide)
  | some k => exact allB_intStr hQ k

theorem allB_listText {a z : Byte} (ha : Printable a) (hz : Printable z) {l : List Str} (h : ∀ s ∈ l, AllB Q s) : AllB Q (listText a z l) := by
  unfold listText
  simp only [allB_append, allB_cons]
  exact ⟨⟨hQ _ ha, allB_nil⟩, allB_intercalate (sep := b!",") (allB_lit hQ (by decide)) h, hQ _ hz, allB_nil⟩

theorem allB_vector (p : Int) {l : List Obj} (h : ∀ o ∈ l, QObj Q o) : AllB Q (vectorText p l) :=
  allB_listText hQ (by decide) (by decide) fun s hs => by
    obtain ⟨o, ho, rfl⟩ := List.mem_map.1 hs; exact allB_repr hQ p (h o ho)

theorem allB_set (p : Int) {l : List Obj} (h : ∀ o ∈ l, QObj Q o) : AllB Q (setText p l) :=
  allB_listText hQ (by decide) (by decide) fun s hs => by
    obtain ⟨o, ho, rfl⟩ := List.mem_map.1 hs; exact allB_repr hQ p (h o ho)

theorem allB_dict (p : Int) {l : List (Obj × Obj)} (h : ∀ o ∈ l, QObj Q o.1 ∧ QObj Q o.2) : AllB Q (dictText p l) :=
  allB_listText hQ (by decide) (by decide) fun s hs => by
    obtain ⟨o, ho, rfl⟩ := List.mem_map.1 hs
    refine allB_listText hQ (by decide) (by decide) fun s hs => ?_
    simp only [List.mem_cons, List.not_mem_nil, or_false] at hs
    rcases hs with rfl | rfl
    · exact allB_repr hQ p (h o ho).1
    · exact allB_repr hQ p (h o ho).2

omit hQ in
/-- The bytes of a value come from its literal. -/
theorem denotes_Q {t a : Str} {o : Obj} (h : Denotes t a o) (ha : AllB Q a) : QObj Q o := by
  cases h with
  | character c => exact ha c (by simp)
  | string h =>
    obtain ⟨b, rfl, hsb, hu⟩ := h
    clear hsb
    have hb : AllB Q b := allB_sub ha fun x hx => by simp [hx]
    clear ha
    show AllB Q _
    induction hu with
    | nil => exact allB_nil
    | quote _ ih =>
      obtain ⟨_, h2⟩ := allB_cons.1 hb
      obtain ⟨h2, h3⟩ := allB_cons.1 h2
      exact allB_cons.2 ⟨h2, ih h3⟩
    | other _ _ _ ih =>
      obtain ⟨h2, h3⟩ := allB_cons.1 hb
      exact allB_cons.2 ⟨h2, ih h3⟩
  | _ => trivial

omit hQ in
theorem stringLit_Q {a v : Str} (h : StringLiteral a v) (ha : AllB Q a) : AllB Q v := denotes_Q (.string h) ha

/-! ### Messages -/

theorem allB_null : AllB Q b!"null" := allB_lit hQ (by decide)

theorem vec_Q (cfg : Cfg) {t : Str} {l : List Obj} (hl : ∀ o ∈ l, QObj Q o) {name : Str} {args : List Str} {m : VecMsg}
    (h : VecSays t name args m) {l' : List Obj} {r : Str} (e : vecMeaning cfg l m = .gives l' r) : AllB Q r := by
  have nl : AllB Q b!"null" := allB_null hQ
  cases h with
  | get => cases e; exact allB_vector hQ _ hl
  | isEmpty => cases e; exact allB_truth hQ _
  | contains => cases e; exact allB_truth hQ _
  | containsFrom => simp only [vecMeaning] at e; split at e <;> cases e; exact allB_truth hQ _
  | count => cases e; exact allB_intStr hQ _
  | atIndex => simp only [vecMeaning] at e; split at e <;> cases e; exact allB_repr hQ _ (hl _ (List.getElem_mem _))
  | firstIndexOf => cases e; exact allB_index hQ _
  | firstIndexOfFrom => simp only [vecMeaning] at e; split at e <;> cases e; exact allB_index hQ _
  | allIndexesOf =>
    cases e
    refine allB_listText hQ (by decide) (by decide) fun s hs => ?_
    obtain ⟨x, _, rfl⟩ := List.mem_map.1 hs; exact allB_intStr hQ _
  | size => cases e; exact allB_intStr hQ _
  | first => simp only [vecMeaning] at e; split at e <;> cases e; exact allB_vector hQ _ fun o ho => hl o (List.mem_of_mem_take ho)
  | last => simp only [vecMeaning] at e; split at e <;> cases e; exact allB_vector hQ _ fun o ho => hl o (List.mem_of_mem_drop ho)
  | slice => simp only [vecMeaning] at e; split at e <;> cases e; exact allB_vector hQ _ fun o ho => hl o (List.mem_of_mem_drop ho)
  | sliceTo =>
    simp only [vecMeaning] at e; split at e <;> cases e
    exact allB_vector hQ _ fun o ho => hl o (List.mem_of_mem_take (List.mem_of_mem_drop ho))
  | popBack =>
    simp only [vecMeaning] at e; split at e <;> cases e
    · exact nl
    · rename_i o ho; exact allB_repr hQ _ (hl o (List.mem_of_getLast? ho))
  | popFront =>
    simp only [vecMeaning] at e; split at e <;> cases e
    · exact nl
    · exact allB_repr hQ _ (hl _ (by simp))
  | popAtIndex => simp only [vecMeaning] at e; split at e <;> cases e; exact allB_repr hQ _ (hl _ (List.getElem_mem _))
  | insert => simp only [vecMeaning] at e; split at e <;> cases e; exact nl
  | erase => simp only [vecMeaning] at e; split at e <;> cases e; exact nl
  | eraseTo => simp only [vecMeaning] at e; split at e <;> cases e; exact nl
  | removeFirstFrom => simp only [vecMeaning] at e; split at e <;> cases e; exact nl
  | replaceFirst => simp only [vecMeaning] at e; split at e <;> cases e <;> exact nl
  | replaceFirstFrom =>
    simp only [vecMeaning] at e; split at e <;> (try cases e)
    split at e <;> cases e <;> exact nl
  | _ => cases e; exact nl

theorem str_Q {v : Str} (hv : AllB Q v) {name : Str} {args : List Str} (ha : ∀ a ∈ args, AllB Q a) {m : StrMsg}
    (h : StrSays name args m) {v' r : Str} (e : strMeaning v m = .gives v' r) : AllB Q v' ∧ AllB Q r := by
  have nl : AllB Q b!"null" := allB_null hQ
  have sub : ∀ {w : Str}, (∀ x ∈ w, x ∈ v) → AllB Q w := fun hw => allB_sub hv hw
  have tk : ∀ n, AllB Q (v.take n) := fun n => sub fun x => List.mem_of_mem_take
  have dr : ∀ n, AllB Q (v.drop n) := fun n => sub fun x => List.mem_of_mem_drop
  cases h with
  | get => cases e; exact ⟨hv, allB_quoted hQ hv⟩
  | set h1 => cases e; exact ⟨stringLit_Q h1 (ha _ (by simp)), nl⟩
  | length => cases e; exact ⟨hv, allB_intStr hQ _⟩
  | atIndex => simp only [strMeaning] at e; split at e <;> cases e; exact ⟨hv, allB_char hQ (hv _ (List.getElem_mem _))⟩
  | first => simp only [strMeaning] at e; split at e <;> cases e; exact ⟨hv, allB_quoted hQ (tk _)⟩
  | last => simp only [strMeaning] at e; split at e <;> cases e; exact ⟨hv, allB_quoted hQ (dr _)⟩
  | substring => simp only [strMeaning] at e; split at e <;> cases e; exact ⟨hv, allB_quoted hQ (dr _)⟩
  | substringTo =>
    simp only [strMeaning] at e; split at e <;> cases e
    exact ⟨hv, allB_quoted hQ (sub fun x hx => List.mem_of_mem_take (List.mem_of_mem_drop hx))⟩
  | @pushBack c => cases e; exact ⟨allB_append.2 ⟨hv, allB_cons.2 ⟨ha _ (List.mem_singleton.2 rfl) c (by simp), allB_nil⟩⟩, nl⟩
  | @pushFront c => cases e; exact ⟨allB_cons.2 ⟨ha _ (List.mem_singleton.2 rfl) c (by simp), hv⟩, nl⟩
  | popBack =>
    simp only [strMeaning] at e; split at e <;> cases e
    · exact ⟨hv, nl⟩
    · rename_i o ho; exact ⟨sub fun x hx => (List.dropLast_sublist _).subset hx, allB_char hQ (hv o (List.mem_of_getLast? ho))⟩
  | popFront =>
    simp only [strMeaning] at e; split at e <;> cases e
    · exact ⟨allB_nil, nl⟩
    · exact ⟨(allB_cons.1 hv).2, allB_char hQ (allB_cons.1 hv).1⟩
  | popAtIndex =>
    simp only [strMeaning] at e; split at e <;> cases e
    exact ⟨sub fun x hx => (List.eraseIdx_sublist _ _).subset hx, allB_char hQ (hv _ (List.getElem_mem _))⟩
  | concatenate h1 => cases e; exact ⟨allB_append.2 ⟨hv, stringLit_Q h1 (ha _ (by simp))⟩, nl⟩
  | insert h1 =>
    simp only [strMeaning] at e; split at e <;> cases e
    exact ⟨allB_append.2 ⟨allB_append.2 ⟨tk _, stringLit_Q h1 (ha _ (by simp))⟩, dr _⟩, nl⟩
  | erase => simp only [strMeaning] at e; split at e <;> cases e; exact ⟨tk _, nl⟩
  | eraseTo => simp only [strMeaning] at e; split at e <;> cases e; exact ⟨allB_append.2 ⟨tk _, dr _⟩, nl⟩
  | clear => cases e; exact ⟨allB_nil, nl⟩
  | _ => cases e; exact ⟨hv, allB_truth hQ _⟩

theorem bool_Q {v v' : Bool} {m : BoolMsg} {r : Str} (e : boolMeaning v m = .gives v' r) : AllB Q r := by
  cases m <;> cases e <;> first | exact allB_null hQ | exact allB_truth hQ _

theorem char_Q {v v' : Byte} (hv : Q v) {name : Str} {args : List Str} (ha : ∀ a ∈ args, AllB Q a) {m : CharMsg}
    (h : CharSays name args m) {r : Str} (e : charMeaning v m = .gives v' r) : Q v' ∧ AllB Q r := by
  cases h with
  | get => cases e; exact ⟨hv, allB_char hQ hv⟩
  | @set c => cases e; exact ⟨ha _ (List.mem_singleton.2 rfl) _ (by simp), allB_null hQ⟩
  | _ => cases e; exact ⟨hv, allB_truth hQ _⟩

theorem int_Q {eps : Fl} {v v' : Int} {m : IntMsg} {r : Str} (e : intMeaning eps v m = .gives v' r) : AllB Q r := by
  have nl : AllB Q b!"null" := allB_null hQ
  have ex : ∀ n, exactly n = .gives v' r → AllB Q r := by
    intro n h; unfold exactly at h; split at h <;> cases h; exact nl
  have tr : ∀ x, truncated x = .gives v' r → AllB Q r := by
    intro x h; unfold truncated at h; split at h <;> cases h; exact nl
  cases m with
  | get => cases e; exact allB_intStr hQ _
  | set n => cases e; exact nl
  | add x => cases x <;> simp only [intMeaning] at e; exact ex _ e; exact tr _ e
  | subtract x => cases x <;> simp only [intMeaning] at e; exact ex _ e; exact tr _ e
  | multiplyBy x => cases x <;> simp only [intMeaning] at e; exact ex _ e; exact tr _ e
  | divideBy x =>
    cases x <;> simp only [intMeaning] at e
    · split at e
      · cases e
      · exact ex _ e
    · exact tr _ e
  | eq x => cases x <;> cases e <;> exact allB_truth hQ _
  | lt x => cases x <;> cases e <;> exact allB_truth hQ _
  | le x => cases x <;> cases e <;> exact allB_truth hQ _
  | gt x => cases x <;> cases e <;> exact allB_truth hQ _
  | ge x => cases x <;> cases e <;> exact allB_truth hQ _

theorem flt_Q {cfg : Cfg} {v v' : Fl} {m : FltMsg} {r : Str} (e : fltMeaning cfg v m = .gives v' r) : AllB Q r := by
  have nl : AllB Q b!"null" := allB_null hQ
  cases m <;> simp only [fltMeaning, Result.gives.injEq] at e <;> obtain ⟨_, rfl⟩ := e <;>
    first | exact allB_fixed hQ _ _ | exact allB_truth hQ _ | exact nl

open Classical in
theorem set_Q {cfg : Cfg} {t : Str} {l : List Obj} (hl : ∀ o ∈ l, QObj Q o) {name : Str} {args : List Str}
    (ha : ∀ a ∈ args, AllB Q a) {m : SetMsg} (h : SetSays t name args m) {l' : List Obj} {r : Str}
    (e : setMeaning cfg l m = .gives l' r) : (∀ o ∈ l', QObj Q o) ∧ AllB Q r := by
  have nl : AllB Q b!"null" := allB_null hQ
  cases h with
  | get => cases e; exact ⟨hl, allB_set hQ _ hl⟩
  | isEmpty => cases e; exact ⟨hl, allB_truth hQ _⟩
  | size => cases e; exact ⟨hl, allB_intStr hQ _⟩
  | contains h1 => simp only [setMeaning] at e; split at e <;> cases e; exact ⟨hl, allB_truth hQ _⟩
  | add h1 =>
    simp only [setMeaning] at e
    split at e <;> (try cases e)
    split at e <;> cases e
    · exact ⟨hl, nl⟩
    · refine ⟨fun x hx => ?_, nl⟩
      rcases List.mem_append.1 hx with hx | hx
      · exact hl x (List.mem_of_mem_filter hx)
      · rcases List.mem_cons.1 hx with rfl | hx
        · exact denotes_Q h1 (ha _ (by simp))
        · exact hl x (List.mem_of_mem_filter hx)
  | remove h1 => simp only [setMeaning] at e; split at e <;> cases e; exact ⟨fun x hx => hl x (List.mem_of_mem_filter hx), nl⟩
  | clear => cases e; exact ⟨by simp, nl⟩

open Classical in
theorem dict_Q {cfg : Cfg} {t u : Str} {l : List (Obj × Obj)} (hl : ∀ o ∈ l, QObj Q o.1 ∧ QObj Q o.2) {name : Str} {args : List Str}
    (ha : ∀ a ∈ args, AllB Q a) {m : DictMsg} (h : DictSays t u name args m) {l' : List (Obj × Obj)} {r : Str}
    (e : dictMeaning cfg l m = .gives l' r) : (∀ o ∈ l', QObj Q o.1 ∧ QObj Q o.2) ∧ AllB Q r := by
  have nl : AllB Q b!"null" := allB_null hQ
  cases h with
  | get => cases e; exact ⟨hl, allB_dict hQ _ hl⟩
  | isEmpty => cases e; exact ⟨hl, allB_truth hQ _⟩
  | size => cases e; exact ⟨hl, allB_intStr hQ _⟩
  | keys =>
    cases e
    refine ⟨hl, allB_vector hQ _ fun o ho => ?_⟩
    obtain ⟨x, hx, rfl⟩ := List.mem_map.1 ho; exact (hl x hx).1
  | values =>
    cases e
    refine ⟨hl, allB_vector hQ _ fun o ho => ?_⟩
    obtain ⟨x, hx, rfl⟩ := List.mem_map.1 ho; exact (hl x hx).2
  | containsKey h1 => simp only [dictMeaning] at e; split at e <;> cases e; exact ⟨hl, allB_truth hQ _⟩
  | getValueForKey h1 =>
    simp only [dictMeaning] at e; split at e <;> (try cases e)
    split at e <;> cases e
    · rename_i x hx; exact ⟨hl, allB_repr hQ _ (hl x (List.mem_of_find?_eq_some hx)).2⟩
    · exact ⟨hl, nl⟩
  | associate h1 h2 =>
    have hv := denotes_Q h1 (ha _ (by simp))
    have hk := denotes_Q h2 (ha _ (by simp))
    simp only [dictMeaning] at e
    split at e <;> (try cases e)
    split at e <;> cases e
    · refine ⟨fun x hx => ?_, nl⟩
      obtain ⟨y, hy, rfl⟩ := List.mem_map.1 hx
      split
      · exact ⟨(hl y hy).1, hv⟩
      · exact hl y hy
    · refine ⟨fun x hx => ?_, nl⟩
      rcases List.mem_append.1 hx with hx | hx
      · exact hl x (List.mem_of_mem_filter hx)
      · rcases List.mem_cons.1 hx with rfl | hx
        · exact ⟨hk, hv⟩
        · exact hl x (List.mem_of_mem_filter hx)
  | removeKey h1 => simp only [dictMeaning] at e; split at e <;> cases e; exact ⟨fun x hx => hl x (List.mem_of_mem_filter hx), nl⟩
  | clear => cases e; exact ⟨by simp, nl⟩

theorem behaves_Q {cfg : Cfg} {i i' : Inst} (hi : QInst Q i) {name r : Str} {args : List Str} (ha : ∀ a ∈ args, AllB Q a)
    (h : Behaves cfg i name args (.gives i' r)) : QInst Q i' ∧ AllB Q r := by
  generalize hx : Result.gives i' r = x at h
  cases h with
  | boolean h => obtain ⟨w, e, rfl⟩ := map_gives hx.symm; exact ⟨trivial, bool_Q hQ e⟩
  | character h => obtain ⟨w, e, rfl⟩ := map_gives hx.symm; exact char_Q hQ hi ha h e
  | integer h => obtain ⟨w, e, rfl⟩ := map_gives hx.symm; exact ⟨trivial, int_Q hQ e⟩
  | float h => obtain ⟨w, e, rfl⟩ := map_gives hx.symm; exact ⟨trivial, flt_Q hQ e⟩
  | string h => obtain ⟨w, e, rfl⟩ := map_gives hx.symm; exact str_Q hQ hi ha h e
  | vector h =>
    obtain ⟨w, e, rfl⟩ := map_gives hx.symm
    exact ⟨vec_elems _ _ _ hi _ _ _ h _ _ e fun a h1 o hd => denotes_Q hd (ha a h1), vec_Q hQ _ hi h e⟩
  | sort h1 h2 h3 => cases hx; exact ⟨fun x hx => hi x (h2.mem_iff.1 hx), allB_null hQ⟩
  | sortUndefined h => cases hx
  | set h => obtain ⟨w, e, rfl⟩ := map_gives hx.symm; exact set_Q hQ hi ha h e
  | dictionary h => obtain ⟨w, e, rfl⟩ := map_gives hx.symm; exact dict_Q hQ hi ha h e

/-! ### Names -/

theorem allB_identifier {x : Str} (h : Identifier x) : AllB Q x := by
  have lt : ∀ b, Letter b → Printable b := by
    intro b h
    unfold Letter at h
    unfold Printable
    simp only [UInt8.le_iff_toNat_le] at h ⊢
    have e1 : (c!"a" : Byte).toNat = 97 := rfl
    have e2 : (c!"z" : Byte).toNat = 122 := rfl
    have e3 : (c!"A" : Byte).toNat = 65 := rfl
    have e4 : (c!"Z" : Byte).toNat = 90 := rfl
    have e5 : (32 : Byte).toNat = 32 := rfl
    have e6 : (126 : Byte).toNat = 126 := rfl
    omega
  have dg : ∀ b, Digit b → Printable b := by
    intro b h
    unfold Digit at h
    unfold Printable
    simp only [UInt8.le_iff_toNat_le] at h ⊢
    have e1 : (c!"0" : Byte).toNat = 48 := rfl
    have e2 : (c!"9" : Byte).toNat = 57 := rfl
    have e5 : (32 : Byte).toNat = 32 := rfl
    have e6 : (126 : Byte).toNat = 126 := rfl
    omega
  obtain ⟨⟨c, r, rfl, hc, hr⟩, _⟩ := h
  refine allB_lit hQ fun b hb => ?_
  rcases List.mem_cons.1 hb with rfl | hb
  · exact lt _ hc
  · rcases hr b hb with h | h | rfl
    · exact lt _ h
    · exact dg _ h
    · decide

theorem allB_variable {x : Str} (h : Variable x) : AllB Q x := by
  rcases h with h | ⟨n, i, rfl, h1, h2⟩
  · exact allB_identifier hQ h
  · exact allB_append.2 ⟨allB_identifier hQ h1, allB_append.2 ⟨allB_lit hQ (by decide), allB_identifier hQ h2⟩⟩

omit hQ in
theorem keyword_args {text name : Str} {args : List Str} (h : KeywordMessage text name args) (ht : AllB Q text) :
    ∀ a ∈ args, AllB Q a := by
  induction h with
  | one h1 h2 h3 =>
    intro a ha
    rw [List.mem_singleton.1 ha]
    exact (allB_append.1 (allB_append.1 ht).2).2
  | more h1 h2 h3 h4 h5 h6 ih =>
    intro a ha
    obtain ⟨_, ht⟩ := allB_append.1 ht
    obtain ⟨_, ht⟩ := allB_append.1 ht
    obtain ⟨h7, ht⟩ := allB_append.1 ht
    obtain ⟨_, ht⟩ := allB_cons.1 ht
    obtain ⟨_, ht⟩ := allB_append.1 ht
    rcases List.mem_cons.1 ha with rfl | ha
    · exact h7
    · exact ih ht a ha

omit hQ in
/-- The bytes of the arguments are bytes of the request. -/
theorem statement_args {text a n : Str} {l : List Str} (h : Statement text a n l) (ht : AllB Q text) : ∀ x ∈ l, AllB Q x := by
  obtain ⟨w₁, c, w₂, msg, w₃, w₄, rfl, _, _, _, _, hm, _, _⟩ := h
  obtain ⟨_, ht⟩ := allB_append.1 ht
  obtain ⟨_, ht⟩ := allB_append.1 ht
  obtain ⟨_, ht⟩ := allB_cons.1 ht
  obtain ⟨_, ht⟩ := allB_append.1 ht
  obtain ⟨ht, _⟩ := allB_append.1 ht
  rcases hm with ⟨_, _, rfl⟩ | hm
  · simp
  · exact keyword_args hm ht

/-- Every value in the context consists of such bytes. -/
def QCtx (Q : Byte → Prop) (c : Ctx) : Prop := ∀ n i, c.vars.lookup n = some i → QInst Q i

theorem does_Q {pwd : Str} {c c' : Ctx} (hc : Inv c) {s s' : Option Session} {text r : Str} (hq : QCtx Q c) (ht : AllB Q text)
    (h : Does pwd c s text (.ret (c', s') r)) : QCtx Q c' ∧ AllB Q r := by
  have nl : AllB Q b!"null" := allB_null hQ
  have names : ∀ v ∈ c.vars, AllB Q v.1 := fun v hv => allB_variable hQ (hc.vars v hv).1
  have filt : ∀ p : Str → Bool, QCtx Q { c with vars := c.vars.filter fun v => p v.1 } := by
    intro p n i h
    rw [filter_lookup] at h
    split at h
    · exact hq n i h
    · cases h
  generalize hy : Run.ret (c', s') r = y at h
  cases h with
  | @created a n l v i hs _ hcr hl =>
    cases hy
    refine ⟨fun m j hj => ?_, nl⟩
    simp only [mapInsert_lookup _ _ _ hc.asc] at hj
    split at hj
    · cases hj
      cases hcr with
      | value _ _ _ hd =>
        have := denotes_Q hd (statement_args hs ht _ (by simp))
        cases hd <;> exact this
      | string => exact allB_nil
      | vector => intro o ho; cases ho
      | set => intro o ho; cases ho
      | dictionary => intro o ho; cases ho
    · exact hq m j hj
  | kept => cases hy; exact ⟨hq, nl⟩
  | context hs h =>
    cases h <;> cases hy
    · refine ⟨hq, allB_listText hQ (by decide) (by decide) fun x hx => ?_⟩
      obtain ⟨v, hv, hx⟩ := ((allNamespaces_spec _).2 x).1 hx
      exact allB_identifier hQ ((namespacesOf_variable (hc.vars v hv).1 x).1 hx).1
    · refine ⟨hq, allB_listText hQ (by decide) (by decide) fun x hx => ?_⟩
      obtain ⟨v, hv, rfl⟩ := List.mem_map.1 hx; exact names v hv
    · refine ⟨hq, allB_listText hQ (by decide) (by decide) fun x hx => ?_⟩
      obtain ⟨v, hv, rfl⟩ := List.mem_map.1 hx; exact names v (List.mem_of_mem_filter hv)
    · rename_i n _ _; exact ⟨filt (fun v => !(v == n)), nl⟩
    · rename_i n _; exact ⟨filt (fun v => !startsWith v (n ++ b!"::")), nl⟩
    · exact ⟨hq, allB_intStr hQ _⟩
    · exact ⟨hq, nl⟩
    · exact ⟨hq, allB_fixed hQ _ _⟩
    · exact ⟨hq, nl⟩
  | @varGives a n l i ks i' r hs hv hl _ _ _ hb =>
    cases hy
    obtain ⟨h1, h2⟩ := behaves_Q hQ (hq a i hl) (statement_args hs ht) hb
    refine ⟨fun m j hj => ?_, h2⟩
    simp only [updateVar_lookup a i' c.vars (lookup_isSome_iff.1 ⟨i, hl⟩)] at hj
    split at hj
    · cases hj; exact h1
    · exact hq m j hj
  | connection hs _ h => cases h <;> cases hy <;> exact ⟨hq, nl⟩
  | _ => cases hy

theorem execute_Q [StdSort] {pwd : Str} {c c' : Ctx} (hc : Inv c) {s s' : Option Session} {text r : Str} (hq : QCtx Q c)
    (ht : AllB Q text) (h : execute pwd c s text = .done (c', s', r)) : QCtx Q c' ∧ AllB Q r := by
  obtain ⟨x, rfl, hd | ⟨e, hd, rfl⟩⟩ := execute_done hc h
  · obtain ⟨h1, h2⟩ := does_Q hQ hc hq ht hd
    exact ⟨by unfold QCtx; rw [record_vars]; exact h1, h2⟩
  · rw [(does_thr hd).1]
    refine ⟨by unfold QCtx; rw [record_vars]; exact hq, ?_⟩
    cases e <;> exact allB_lit hQ (by decide)

theorem history_Q [StdSort] {c c' : Ctx} {h : List (Str × Str)} (hc : Reachable c) (hh : History c h c') (hq : QCtx Q c)
    (ht : ∀ q ∈ h, AllB Q q.1) : QCtx Q c' ∧ ∀ q ∈ h, AllB Q q.2 := by
  induction hh with
  | nil => exact ⟨hq, by simp⟩
  | cons he _ ih =>
    obtain ⟨h1, h2⟩ := execute_Q hQ (reachable_inv hc) hq (ht _ (List.mem_cons_self ..)) he
    obtain ⟨h3, h4⟩ := ih (.step hc he) h1 fun q hq => ht q (List.mem_cons_of_mem _ hq)
    refine ⟨h3, fun q hq => ?_⟩
    rcases List.mem_cons.1 hq with rfl | hq
    · exact h2
    · exact h4 q hq

end

end Knuckle
