/-
The manual against the messages of the specification.
-/
import Verif.Spec.Reference
import Verif.Proofs.Errors
import Verif.Proofs.Replies
import Verif.Proofs.FloatText
import Verif.Proofs.Rebuild

namespace Knuckle

open Spec

deriving instance DecidableEq for DocKind
deriving instance DecidableEq for DocEntry

/-! ### Looking things up -/

/-- The entries of a section. -/
def entriesOf (p : Str) (k : Bool) : List DocEntry := manual.filter fun e => e.part == p && e.constructor == k

theorem mem_entriesOf {p : Str} {k : Bool} {e : DocEntry} : e ∈ entriesOf p k ↔ e ∈ manual ∧ e.part = p ∧ e.constructor = k := by
  simp [entriesOf]

/-- What an entry returns, by section and name. -/
def docReturns (p : Str) (k : Bool) (n : Str) : Option DocKind :=
  (manual.find? fun e => e.part == p && e.constructor == k && e.name == n).map (·.returns)

theorem docReturns_all : (manual.all fun e => docReturns e.part e.constructor e.name == some e.returns) = true := by
  decide +kernel

theorem docReturns_of {e : DocEntry} (h : e ∈ manual) : docReturns e.part e.constructor e.name = some e.returns := by
  have := List.all_eq_true.1 docReturns_all e h
  simpa using this

/-! ### Arguments -/

/-- What a word of the manual means as an argument of the message `n` to an object with value `i`. -/
def toArg (i : Inst) (n : Str) (k : Nat) : DocKind → ArgKind
  | .boolean => .lit b!"Boolean"
  | .character => .lit b!"Character"
  | .integer => match i with
    | .integer _ => if n = b!"set:" then .lit b!"Integer" else .number
    | _ => .lit b!"Integer"
  | .float => match i with
    | .integer _ => .number
    | _ => .lit b!"Float"
  | .string => .lit b!"String"
  | .object => match i with
    | .vector t _ => .lit t
    | .set t _ => .lit t
    | .dictionary t u _ => if n = b!"associateValue:withKey:" ∧ k = 0 then .lit u else .lit t
    | _ => .number
  | .namespace => .namespace
  | _ => .name

def argsFrom (i : Inst) (n : Str) : Nat → List DocKind → List ArgKind
  | _, [] => []
  | k, d :: ds => toArg i n k d :: argsFrom i n (k + 1) ds

theorem argsFrom_length (i : Inst) (n : Str) (k : Nat) (ds : List DocKind) : (argsFrom i n k ds).length = ds.length := by
  induction ds generalizing k with
  | nil => rfl
  | cons d ds ih => simp [argsFrom, ih]

theorem signature_manual (i : Inst) :
    signature i = (entriesOf (partOf i) false).map fun e => (e.name, argsFrom i e.name 0 e.args) := by
  cases i <;> rfl

theorem contextSignature_manual :
    contextSignature = (entriesOf b!"Context" false).map fun e => (e.name, argsFrom (.boolean true) e.name 0 e.args) := rfl

theorem connectionSignature_manual :
    connectionSignature.reverse = (entriesOf b!"Connection" false).map fun e => (e.name, argsFrom (.boolean true) e.name 0 e.args) := rfl

theorem toArg_fits {obj : Str → Prop} {i : Inst} {n x : Str} {k : Nat} {d : DocKind}
    (ho : d = .object → ∀ t, obj t → toArg i n k .object = .lit t) (h : OfKind obj d x) : Fits (toArg i n k d) x := by
  cases d with
  | boolean => exact .inl ⟨rfl, h⟩
  | character => exact .inr (.inl ⟨rfl, h⟩)
  | integer =>
    have h1 : Fits (.lit b!"Integer") x := .inr (.inr (.inl ⟨rfl, .inl h⟩))
    have h2 : Fits .number x := .inl h
    cases i <;> simp only [toArg] <;> (try split) <;> assumption
  | float =>
    have h1 : Fits (.lit b!"Float") x := .inr (.inr (.inr (.inl ⟨rfl, h⟩)))
    have h2 : Fits .number x := .inr h
    cases i <;> simp only [toArg] <;> assumption
  | string => exact .inr (.inr (.inr (.inr ⟨rfl, h⟩)))
  | object =>
    obtain ⟨t, ht, hl⟩ := h
    rw [ho rfl t ht]; exact hl
  | «variable» => exact h
  | «namespace» => exact h
  | _ => exact h.elim

theorem argsFrom_fits {obj : Nat → Str → Prop} {i : Inst} {n : Str} {ds : List DocKind} : ∀ {k : Nat} {l : List Str},
    (∀ j (h1 : j < ds.length), ds[j] = .object → ∀ t, obj (k + j) t → toArg i n (k + j) .object = .lit t) →
    (∀ j (h1 : j < ds.length) (h2 : j < l.length), OfKind (obj (k + j)) ds[j] l[j]) →
    ∀ q ∈ (argsFrom i n k ds).zip l, Fits q.1 q.2 := by
  induction ds with
  | nil => intro k l _ _ q hq; simp [argsFrom] at hq
  | cons d ds ih =>
    intro k l ho h q hq
    cases l with
    | nil => simp at hq
    | cons x xs =>
      simp only [argsFrom, List.zip_cons_cons, List.mem_cons] at hq
      rcases hq with rfl | hq
      · exact toArg_fits (ho 0 (by simp)) (h 0 (by simp) (by simp))
      · refine ih (k := k + 1) (l := xs) (fun j h1 => ?_) (fun j h1 h2 => ?_) q hq
        · have := ho (j + 1) (by simpa using h1)
          rw [show k + (j + 1) = k + 1 + j by omega] at this
          exact this
        · have := h (j + 1) (by simpa using h1) (by simpa using h2)
          rw [show k + (j + 1) = k + 1 + j by omega] at this
          exact this

/-- The arguments are of the documented kinds. -/
abbrev DocArgs (c : Ctx) (a name : Str) (ds : List DocKind) (args : List Str) : Prop :=
  ∀ j (h1 : j < ds.length) (h2 : j < args.length), OfKind (ObjectArg c a name j) ds[j] args[j]

/-- What the manual says about the messages of a receiver is what it understands. -/
def Agrees (c : Ctx) (a p : Str) (k : Bool) : Prop := ∀ name,
  (∀ e ∈ entriesOf p k, e.name = name → ∃ ks, Understands c a name ks ∧ ks.length = e.args.length ∧
    ∀ args, DocArgs c a name e.args args → ∀ q ∈ ks.zip args, Fits q.1 q.2) ∧
  (∀ ks, Understands c a name ks → ∃ e ∈ entriesOf p k, e.name = name)

theorem object_arg {c : Ctx} {n : Str} {i : Inst} (h : Holds c n i) {name t : Str} {k : Nat} (ho : ObjectArg c n name k t) :
    toArg i name k .object = .lit t := by
  unfold Holds at h
  cases ho with
  | vector h' => unfold Holds at h'; rw [h'] at h; cases h; rfl
  | set h' => unfold Holds at h'; rw [h'] at h; cases h; rfl
  | key h' hne =>
    unfold Holds at h'; rw [h'] at h; cases h
    simp only [toArg]
    rw [if_neg]
    rintro ⟨rfl, rfl⟩; exact hne rfl
  | value h' => unfold Holds at h'; rw [h'] at h; cases h; rfl

theorem agrees_table {c : Ctx} {a p : Str} {k : Bool} {i : Inst} {sig : List (Str × List ArgKind)}
    (hs : ∀ x, x ∈ sig ↔ x ∈ (entriesOf p k).map fun e => (e.name, argsFrom i e.name 0 e.args))
    (hu : ∀ name ks, Understands c a name ks ↔ (name, ks) ∈ sig)
    (ho : ∀ name j t, ObjectArg c a name j t → toArg i name j .object = .lit t) : Agrees c a p k := by
  intro name
  constructor
  · rintro e he rfl
    refine ⟨_, (hu _ _).2 ((hs _).2 (List.mem_map.2 ⟨e, he, rfl⟩)), argsFrom_length _ _ _ _, fun args h => ?_⟩
    refine argsFrom_fits (obj := fun j => ObjectArg c a e.name j) (fun j h1 _ t ht => ?_) (fun j h1 h2 => ?_)
    · exact ho _ _ _ ht
    · simpa using h j h1 h2
  · intro ks h
    obtain ⟨e, he, hx⟩ := List.mem_map.1 ((hs _).1 ((hu _ _).1 h))
    cases hx; exact ⟨e, he, rfl⟩

theorem object_arg_holds {c : Ctx} {n name t : Str} {k : Nat} (h : ObjectArg c n name k t) : ∃ i, Holds c n i := by
  cases h <;> exact ⟨_, by assumption⟩

/-- The messages of a type. -/
theorem agrees_type {c : Ctx} (hc : Inv c) {a p : Str} {sig : List (Str × List ArgKind)} (ht : IsType a)
    (hs : sig = (entriesOf p true).map fun e => (e.name, argsFrom (.boolean true) e.name 0 e.args))
    (hk : ∀ name ks, Creation a name ks ↔ (name, ks) ∈ sig) : Agrees c a p true := by
  refine agrees_table (i := .boolean true) (sig := sig) (fun x => by rw [hs]) (fun name ks => ?_) (fun name j t h => ?_)
  · rw [understands_type hc ht, hk]
  · obtain ⟨i, hi⟩ := object_arg_holds h
    exact absurd (inv_variable hc hi) (type_not_variable ht)

theorem containerType_not_object {a : Str} (h : ContainerType a) : ¬ ObjectType a := by
  intro ho
  have : c!"<" ∉ a := by
    simp only [ObjectType, List.mem_cons, List.not_mem_nil, or_false] at ho
    rcases ho with rfl | rfl | rfl | rfl | rfl <;> decide
  rcases h with ⟨w, t, w', rfl, _⟩ | ⟨w, t, w', rfl, _⟩ | ⟨w, t, w', v, u, v', rfl, _⟩ <;> simp at this

theorem creation_container {a : Str} (h : ContainerType a) (name : Str) (ks : List ArgKind) :
    Creation a name ks ↔ (name, ks) ∈ [(b!"create:", [ArgKind.name]), (b!"createIfNotExists:", [.name])] := by
  constructor
  · intro hk
    cases hk with
    | value ht _ => exact absurd ht (containerType_not_object h)
    | string _ => exact absurd ot_string (containerType_not_object h)
    | container _ hn =>
      simp only [List.mem_cons, List.not_mem_nil, or_false] at hn ⊢
      rcases hn with rfl | rfl <;> simp
  · intro hk
    simp only [List.mem_cons, List.not_mem_nil, or_false, Prod.mk.injEq] at hk
    rcases hk with ⟨rfl, rfl⟩ | ⟨rfl, rfl⟩ <;> exact .container h (by simp)

theorem creation_object {t : Str} (h : ObjectType t) (hs : t ≠ b!"String") (name : Str) (ks : List ArgKind) :
    Creation t name ks ↔ (name, ks) ∈ [(b!"create:withValue:", [ArgKind.name, .lit t]), (b!"createIfNotExists:withValue:", [.name, .lit t])] := by
  constructor
  · intro hk
    cases hk with
    | value _ hn =>
      simp only [List.mem_cons, List.not_mem_nil, or_false] at hn ⊢
      rcases hn with rfl | rfl <;> simp
    | string _ => exact absurd rfl hs
    | container hc _ => exact absurd h (containerType_not_object hc)
  · intro hk
    simp only [List.mem_cons, List.not_mem_nil, or_false, Prod.mk.injEq] at hk
    rcases hk with ⟨rfl, rfl⟩ | ⟨rfl, rfl⟩ <;> exact .value h (by simp)

theorem creation_string (name : Str) (ks : List ArgKind) :
    Creation b!"String" name ks ↔ (name, ks) ∈ [(b!"create:", [ArgKind.name]), (b!"createIfNotExists:", [.name]),
      (b!"create:withValue:", [ArgKind.name, .lit b!"String"]), (b!"createIfNotExists:withValue:", [.name, .lit b!"String"])] := by
  constructor
  · intro hk
    generalize ht : b!"String" = t at hk
    cases hk with
    | value _ hn =>
      simp only [List.mem_cons, List.not_mem_nil, or_false] at hn ⊢
      rcases hn with rfl | rfl <;> simp
    | string hn =>
      simp only [List.mem_cons, List.not_mem_nil, or_false] at hn ⊢
      rcases hn with rfl | rfl <;> simp
    | container hc _ => exact absurd (ht ▸ ot_string) (containerType_not_object hc)
  · intro hk
    simp only [List.mem_cons, List.not_mem_nil, or_false, Prod.mk.injEq] at hk
    rcases hk with ⟨rfl, rfl⟩ | ⟨rfl, rfl⟩ | ⟨rfl, rfl⟩ | ⟨rfl, rfl⟩
    · exact .string (by simp)
    · exact .string (by simp)
    · exact .value ot_string (by simp)
    · exact .value ot_string (by simp)

theorem agrees {c : Ctx} (hc : Inv c) {a p : Str} {k : Bool} (h : DocFor c a p k) : Agrees c a p k := by
  cases h with
  | object ht =>
    by_cases hs : a = b!"String"
    · subst hs
      exact agrees_type hc (.inl ot_string) rfl creation_string
    · refine agrees_type hc (.inl ht) ?_ (creation_object ht hs)
      simp only [ObjectType, List.mem_cons, List.not_mem_nil, or_false] at ht
      rcases ht with rfl | rfl | rfl | rfl | rfl <;> first | exact absurd rfl hs | rfl
  | vector h => exact agrees_type hc (.inr (.inl h)) rfl (creation_container (.inl h))
  | set h => exact agrees_type hc (.inr (.inr (.inl h))) rfl (creation_container (.inr (.inl h)))
  | dictionary h => exact agrees_type hc (.inr (.inr (.inr h))) rfl (creation_container (.inr (.inr h)))
  | @«variable» n i h =>
    exact agrees_table (fun x => by rw [signature_manual]) (fun _ _ => understands_variable (inv_variable hc h) h)
      (fun _ _ _ ho => object_arg h ho)
  | context =>
    refine agrees_table (fun x => by rw [contextSignature_manual]) (fun _ _ => understands_context hc) (fun _ _ _ ho => ?_)
    obtain ⟨i, hi⟩ := object_arg_holds ho
    exact absurd rfl (variable_not_special' (inv_variable hc hi)).1
  | connection =>
    refine agrees_table (sig := connectionSignature) (fun x => by rw [← connectionSignature_manual, List.mem_reverse]) (fun _ _ => understands_connection hc)
      (fun _ _ _ ho => ?_)
    obtain ⟨i, hi⟩ := object_arg_holds ho
    exact absurd rfl (variable_not_special' (inv_variable hc hi)).2

/-! ### Replies -/

theorem fixed_floatValue (p : Int) (neg : Bool) (k : Nat) : FloatValue (fmtFixed p (.fin neg k)) := by
  have key : ∀ q : Int, 0 ≤ q → FloatValue (fmtFixed q (.fin neg k)) := by
    intro q hq
    obtain ⟨m, ⟨ip, fp, e, h1, h2, _, h4, _⟩, _⟩ := fmtFixed_text q hq neg k
    refine ⟨if neg then b!"-" else [], ip ++ (if q.toNat = 0 then [] else c!"." :: fp), [], by rw [e, List.append_nil], ?_, ?_, .inl rfl⟩
    · cases neg <;> simp [Sign]
    · by_cases h0 : q.toNat = 0
      · rw [if_pos h0, List.append_nil]; exact .inl ⟨h2, h1⟩
      · rw [if_neg h0]; exact .inr ⟨ip, fp, rfl, h1, h4, .inl h2⟩
  by_cases hp : p < 0
  · have : fmtFixed p (.fin neg k) = fmtFixed 6 (.fin neg k) := by
      simp only [fmtFixed]; rw [if_pos hp]; rfl
    rw [this]; exact key 6 (by omega)
  · exact key p (by omega)

theorem shows_float (p : Int) (x : Fl) : Shows b!"Float" (fmtFixed p x) := by
  refine .inr (.inr (.inr (.inl ⟨rfl, ?_⟩)))
  cases x with
  | nan => exact .inr (by simp [fmtFixed])
  | inf s => exact .inr (by cases s <;> simp [fmtFixed])
  | fin s k => exact .inl (fixed_floatValue p s k)

theorem integerValue_intStr (n : Int) : IntegerValue (intStr n) := by
  obtain ⟨sg, ds, h1, h2, h3, h4, _⟩ := intStr_literal n
  exact ⟨sg, ds, h1, h2, h3, h4⟩

theorem shows_integer {n : Int} (h : IsInt32 n) : Shows b!"Integer" (intStr n) :=
  .inr (.inr (.inl ⟨rfl, n, intStr_literal n, h⟩))

theorem shows_truth (p : Prop) [Decidable p] : Shows b!"Boolean" (truth p) := by
  refine .inl ⟨rfl, ?_⟩
  unfold truth BooleanValue
  split <;> simp

theorem shows_char (b : Byte) : Shows b!"Character" (charStr b) := .inr (.inl ⟨rfl, b, rfl⟩)

theorem shows_quoted (v : Str) : Shows b!"String" (quoted v) := .inr (.inr (.inr (.inr ⟨rfl, v, rfl⟩)))

theorem shows_repr (p : Int) {t : Str} {o : Obj} (h : HasType t o) : Shows t (o.repr p) := by
  obtain ⟨rfl, hv⟩ := h
  cases o with
  | boolean b => exact .inl ⟨rfl, by cases b <;> simp [Obj.repr, boolStr, BooleanValue]⟩
  | character b => exact shows_char b
  | integer n => exact shows_integer hv
  | float x => exact shows_float p x
  | string v => exact shows_quoted v

theorem replyOf_vectorText (p : Int) {t : Str} {l : List Obj} (h : ∀ o ∈ l, HasType t o) : ReplyOf .vector (vectorText p l) := by
  refine ⟨_, rfl, .inl ⟨t, fun x hx => ?_⟩⟩
  obtain ⟨o, ho, rfl⟩ := List.mem_map.1 hx
  exact shows_repr p (h o ho)

theorem replyOf_index (o : Option Nat) : ReplyOf .integer (indexText o) := by
  cases o with
  | none => exact integerValue_intStr (-1)
  | some k => exact integerValue_intStr k

theorem key_of {e : DocEntry} (he : e ∈ manual) {p n r : Str} {k : Bool} (hp : e.part = p) (hk : e.constructor = k) (hn : e.name = n)
    (d : DocKind) (hd : docReturns p k n = some d) (h : ReplyOf d r) : ReplyOf e.returns r := by
  have := docReturns_of he
  rw [hp, hk, hn, hd] at this
  cases this; exact h

/-- The messages that may also be answered with `null`. -/
def Optional (n r : Str) : Prop := r = b!"null" ∧ n ∈ [b!"popBack", b!"popFront", b!"getValueForKey:"]

open Classical in
theorem behaves_reply {cfg : Cfg} {i i' : Inst} {name r : Str} {args : List Str} (hw : WellTyped i)
    (h : Behaves cfg i name args (.gives i' r)) {e : DocEntry} (he : e ∈ manual) (hp : e.part = partOf i)
    (hk : e.constructor = false) (hn : e.name = name) : ReplyOf e.returns r ∨ Optional name r := by
  generalize hx : Result.gives i' r = x at h
  cases h with
  | @boolean v _ _ m h =>
    change e.part = b!"Boolean" at hp
    obtain ⟨w, e, rfl⟩ := map_gives hx.symm
    cases h <;> cases e
    · exact .inl (key_of he hp hk hn .boolean (by decide +kernel) (shows_truth _))
    · exact .inl (key_of he hp hk hn .null (by decide +kernel) rfl)
    · exact .inl (key_of he hp hk hn .boolean (by decide +kernel) (shows_truth _))
    · exact .inl (key_of he hp hk hn .boolean (by decide +kernel) (shows_truth _))
  | @character v _ _ m h =>
    change e.part = b!"Character" at hp
    obtain ⟨w, e, rfl⟩ := map_gives hx.symm
    cases h <;> cases e <;> first
      | exact .inl (key_of he hp hk hn .null (by decide +kernel) rfl)
      | exact .inl (key_of he hp hk hn .boolean (by decide +kernel) (shows_truth _))
      | exact .inl (key_of he hp hk hn .character (by decide +kernel) (shows_char _))
  | @integer v _ _ m h =>
    change e.part = b!"Integer" at hp
    obtain ⟨w, e, rfl⟩ := map_gives hx.symm
    have ex : ∀ n, exactly n = .gives w r → r = b!"null" := by
      intro n h; unfold exactly at h; split at h <;> cases h; rfl
    have tr : ∀ x, truncated x = .gives w r → r = b!"null" := by
      intro x h; unfold truncated at h; split at h <;> cases h; rfl
    have bo : ∀ x (m : Num → IntMsg), (m = .eq ∨ m = .lt ∨ m = .le ∨ m = .gt ∨ m = .ge) →
        intMeaning cfg.eps v (m x) = .gives w r → ReplyOf .boolean r := by
      intro x m hm e
      rcases hm with rfl | rfl | rfl | rfl | rfl <;> cases x <;> simp only [intMeaning, Result.gives.injEq] at e <;>
        obtain ⟨_, rfl⟩ := e <;> exact shows_truth _
    have nu : ∀ x (m : Num → IntMsg), (m = .add ∨ m = .subtract ∨ m = .multiplyBy ∨ m = .divideBy) →
        intMeaning cfg.eps v (m x) = .gives w r → ReplyOf .null r := by
      intro x m hm e
      rcases hm with rfl | rfl | rfl | rfl <;> cases x <;> simp only [intMeaning] at e
      · exact ex _ e
      · exact tr _ e
      · exact ex _ e
      · exact tr _ e
      · exact ex _ e
      · exact tr _ e
      · split at e
        · cases e
        · exact ex _ e
      · exact tr _ e
    cases h with
    | get => cases e; exact .inl (key_of he hp hk hn .integer (by decide +kernel) (integerValue_intStr _))
    | set => cases e; exact .inl (key_of he hp hk hn .null (by decide +kernel) rfl)
    | eq => exact .inl (key_of he hp hk hn .boolean (by decide +kernel) (bo _ _ (by simp) e))
    | lt => exact .inl (key_of he hp hk hn .boolean (by decide +kernel) (bo _ .lt (by simp) e))
    | le => exact .inl (key_of he hp hk hn .boolean (by decide +kernel) (bo _ .le (by simp) e))
    | gt => exact .inl (key_of he hp hk hn .boolean (by decide +kernel) (bo _ .gt (by simp) e))
    | ge => exact .inl (key_of he hp hk hn .boolean (by decide +kernel) (bo _ .ge (by simp) e))
    | add => exact .inl (key_of he hp hk hn .null (by decide +kernel) (nu _ .add (by simp) e))
    | subtract => exact .inl (key_of he hp hk hn .null (by decide +kernel) (nu _ .subtract (by simp) e))
    | multiplyBy => exact .inl (key_of he hp hk hn .null (by decide +kernel) (nu _ .multiplyBy (by simp) e))
    | divideBy => exact .inl (key_of he hp hk hn .null (by decide +kernel) (nu _ .divideBy (by simp) e))
  | @float v _ _ m h =>
    change e.part = b!"Float" at hp
    obtain ⟨w, e, rfl⟩ := map_gives hx.symm
    cases h <;> cases e <;> first
      | exact .inl (key_of he hp hk hn .null (by decide +kernel) rfl)
      | exact .inl (key_of he hp hk hn .boolean (by decide +kernel) (shows_truth _))
      | exact .inl (key_of he hp hk hn .float (by decide +kernel) (shows_float _ _))
  | @string v _ _ m h =>
    change e.part = b!"String" at hp
    obtain ⟨w, e, rfl⟩ := map_gives hx.symm
    cases h <;> simp only [strMeaning] at e <;> (try split at e) <;> cases e <;> first
      | exact .inl (key_of he hp hk hn .null (by decide +kernel) rfl)
      | exact .inl (key_of he hp hk hn .boolean (by decide +kernel) (shows_truth _))
      | exact .inl (key_of he hp hk hn .string (by decide +kernel) (shows_quoted _))
      | exact .inl (key_of he hp hk hn .integer (by decide +kernel) (integerValue_intStr _))
      | exact .inl (key_of he hp hk hn .character (by decide +kernel) (shows_char _))
      | exact .inr ⟨rfl, by decide⟩
  | @vector t l _ _ m h =>
    change e.part = b!"Vector" at hp
    obtain ⟨w, e, rfl⟩ := map_gives hx.symm
    have hl : ∀ o ∈ l, HasType t o := hw.2
    cases h <;> simp only [vecMeaning] at e <;> (try split at e) <;> (try split at e) <;> cases e <;> first
      | exact .inl (key_of he hp hk hn .null (by decide +kernel) rfl)
      | exact .inl (key_of he hp hk hn .boolean (by decide +kernel) (shows_truth _))
      | exact .inl (key_of he hp hk hn .integer (by decide +kernel) (integerValue_intStr _))
      | exact .inl (key_of he hp hk hn .integer (by decide +kernel) (replyOf_index _))
      | exact .inl (key_of he hp hk hn .object (by decide +kernel) ⟨t, shows_repr _ (hl _ (List.getElem_mem _))⟩)
      | exact .inl (key_of he hp hk hn .object (by decide +kernel) ⟨t, shows_repr _ (hl _ (List.mem_of_getLast? (by assumption)))⟩)
      | exact .inl (key_of he hp hk hn .object (by decide +kernel) ⟨t, shows_repr _ (hl _ List.mem_cons_self)⟩)
      | exact .inl (key_of he hp hk hn .vector (by decide +kernel) (replyOf_vectorText _ hl))
      | exact .inl (key_of he hp hk hn .vector (by decide +kernel) (replyOf_vectorText _ fun o ho => hl o (List.mem_of_mem_take ho)))
      | exact .inl (key_of he hp hk hn .vector (by decide +kernel) (replyOf_vectorText _ fun o ho => hl o (List.mem_of_mem_drop ho)))
      | exact .inl (key_of he hp hk hn .vector (by decide +kernel)
          (replyOf_vectorText _ fun o ho => hl o (List.mem_of_mem_take (List.mem_of_mem_drop ho))))
      | exact .inl (key_of he hp hk hn .vector (by decide +kernel) ⟨_, rfl, .inr (.inl fun x hx => by
          obtain ⟨y, _, rfl⟩ := List.mem_map.1 hx; exact integerValue_intStr _)⟩)
      | exact .inr ⟨rfl, by decide⟩
  | sort h1 h2 h3 => cases hx; change e.part = b!"Vector" at hp; exact .inl (key_of he hp hk hn .null (by decide +kernel) rfl)
  | sortUndefined h => cases hx
  | @set t l _ _ m h =>
    change e.part = b!"Set" at hp
    obtain ⟨w, e, rfl⟩ := map_gives hx.symm
    have hl : ∀ o ∈ l, HasType t o := hw.2.1
    cases h <;> simp only [setMeaning] at e <;> (try split at e) <;> (try split at e) <;> cases e <;> first
      | exact .inl (key_of he hp hk hn .null (by decide +kernel) rfl)
      | exact .inl (key_of he hp hk hn .boolean (by decide +kernel) (shows_truth _))
      | exact .inl (key_of he hp hk hn .integer (by decide +kernel) (integerValue_intStr _))
      | exact .inl (key_of he hp hk hn .set (by decide +kernel) ⟨_, t, rfl, fun x hx => by
          obtain ⟨y, hy, rfl⟩ := List.mem_map.1 hx; exact shows_repr _ (hl _ hy)⟩)
  | @dictionary t u l _ _ m h =>
    change e.part = b!"Dictionary" at hp
    obtain ⟨w, e, rfl⟩ := map_gives hx.symm
    have hl : ∀ x ∈ l, HasType t x.1 ∧ HasType u x.2 := hw.2.2.1
    cases h <;> simp only [dictMeaning] at e <;> (try split at e) <;> (try split at e) <;> cases e <;> first
      | exact .inl (key_of he hp hk hn .null (by decide +kernel) rfl)
      | exact .inl (key_of he hp hk hn .boolean (by decide +kernel) (shows_truth _))
      | exact .inl (key_of he hp hk hn .integer (by decide +kernel) (integerValue_intStr _))
      | exact .inl (key_of he hp hk hn .vector (by decide +kernel) (replyOf_vectorText _ (t := t) fun o ho => by
          obtain ⟨y, hy, rfl⟩ := List.mem_map.1 ho; exact (hl y hy).1))
      | exact .inl (key_of he hp hk hn .vector (by decide +kernel) (replyOf_vectorText _ (t := u) fun o ho => by
          obtain ⟨y, hy, rfl⟩ := List.mem_map.1 ho; exact (hl y hy).2))
      | exact .inl (key_of he hp hk hn .object (by decide +kernel) ⟨u, shows_repr _ (hl _ (List.mem_of_find?_eq_some (by assumption))).2⟩)
      | exact .inl (key_of he hp hk hn .dictionary (by decide +kernel) ⟨_, t, u, rfl, fun x hx => by
          obtain ⟨y, hy, rfl⟩ := List.mem_map.1 hx
          exact ⟨_, _, rfl, shows_repr _ (hl y hy).1, shows_repr _ (hl y hy).2⟩⟩)
      | exact .inr ⟨rfl, by decide⟩

theorem docFor_type {c : Ctx} (hc : Inv c) {a p : Str} {k : Bool} (h : DocFor c a p k) (ha : IsType a) : k = true := by
  cases h with
  | «variable» h => exact absurd (inv_variable hc h) (type_not_variable ha)
  | context => exact absurd rfl (type_not_special ha).1
  | connection => exact absurd rfl (type_not_special ha).2
  | _ => rfl

theorem docFor_isType {c : Ctx} {a p : Str} (h : DocFor c a p true) : IsType a := by
  cases h with
  | object h => exact .inl h
  | vector h => exact .inr (.inl h)
  | set h => exact .inr (.inr (.inl h))
  | dictionary h => exact .inr (.inr (.inr h))

theorem docFor_variable {c : Ctx} {a p : Str} {k : Bool} {i : Inst} (h : DocFor c a p k) (hv : Variable a) (hi : c.vars.lookup a = some i) :
    p = partOf i ∧ k = false := by
  cases h with
  | «variable» h => unfold Holds at h; rw [hi] at h; cases h; exact ⟨rfl, rfl⟩
  | context => exact absurd rfl (variable_not_special' hv).1
  | connection => exact absurd rfl (variable_not_special' hv).2
  | object h => exact absurd hv (type_not_variable (.inl h))
  | vector h => exact absurd hv (type_not_variable (.inr (.inl h)))
  | set h => exact absurd hv (type_not_variable (.inr (.inr (.inl h))))
  | dictionary h => exact absurd hv (type_not_variable (.inr (.inr (.inr h))))

theorem docFor_context {c : Ctx} (hc : Inv c) {p : Str} {k : Bool} (h : DocFor c b!"Context" p k) : p = b!"Context" ∧ k = false := by
  generalize e : b!"Context" = a at h
  cases h with
  | «variable» h => exact absurd e.symm (variable_not_special' (inv_variable hc h)).1
  | context => exact ⟨e.symm ▸ rfl, rfl⟩
  | connection => exact absurd e (by decide)
  | object h => exact absurd e.symm (type_not_special (.inl h)).1
  | vector h => exact absurd e.symm (type_not_special (.inr (.inl h))).1
  | set h => exact absurd e.symm (type_not_special (.inr (.inr (.inl h)))).1
  | dictionary h => exact absurd e.symm (type_not_special (.inr (.inr (.inr h)))).1

theorem docFor_connection {c : Ctx} (hc : Inv c) {p : Str} {k : Bool} (h : DocFor c b!"Connection" p k) : p = b!"Connection" ∧ k = false := by
  generalize e : b!"Connection" = a at h
  cases h with
  | «variable» h => exact absurd e.symm (variable_not_special' (inv_variable hc h)).2
  | connection => exact ⟨e.symm ▸ rfl, rfl⟩
  | context => exact absurd e (by decide)
  | object h => exact absurd e.symm (type_not_special (.inl h)).2
  | vector h => exact absurd e.symm (type_not_special (.inr (.inl h))).2
  | set h => exact absurd e.symm (type_not_special (.inr (.inr (.inl h)))).2
  | dictionary h => exact absurd e.symm (type_not_special (.inr (.inr (.inr h)))).2

theorem constructors_null : (manual.all fun e => !e.constructor || e.returns == .null) = true := by decide +kernel

/-- A request that did not end with an exception has a reply of the documented kind. -/
theorem does_reply {pwd : Str} {c x : Ctx} {s s' : Option Session} {text r a name : Str} {args : List Str} (hc : Inv c)
    (hs : Statement text a name args) (h : Does pwd c s text (.ret (x, s') r)) {e : DocEntry} (he : Documented c a name e) :
    ReplyOf e.returns r ∨ Optional name r := by
  obtain ⟨hm, hf, hn⟩ := he
  have ty : IsType a → r = b!"null" → ReplyOf e.returns r := by
    rintro ha rfl
    have hk := docFor_type hc hf ha
    have := List.all_eq_true.1 constructors_null e hm
    rw [hk] at this
    have : e.returns = .null := by simpa using this
    rw [this]; rfl
  generalize hy : Run.ret (x, s') r = y at h
  cases h with
  | created hs' ht _ _ =>
    cases hy; obtain ⟨rfl, rfl, rfl⟩ := statement_unique hs hs'
    exact .inl (ty ht rfl)
  | kept hs' ht _ _ _ =>
    cases hy; obtain ⟨rfl, rfl, rfl⟩ := statement_unique hs hs'
    exact .inl (ty ht rfl)
  | varGives hs' hv hi _ _ _ hb =>
    cases hy; obtain ⟨rfl, rfl, rfl⟩ := statement_unique hs hs'
    obtain ⟨h1, h2⟩ := docFor_variable hf hv hi
    exact behaves_reply (hc.wellTyped hi) hb hm h1 h2 hn
  | context hs' h =>
    obtain ⟨rfl, rfl, rfl⟩ := statement_unique hs hs'
    obtain ⟨h1, h2⟩ := docFor_context hc hf
    cases h with
    | listNamespaces =>
      cases hy
      refine .inl (key_of hm h1 h2 hn .vector (by decide +kernel) ⟨_, rfl, .inr (.inr fun x hx => ?_)⟩)
      obtain ⟨v, hv, hx⟩ := ((allNamespaces_spec _).2 x).1 hx
      exact .inl ((namespacesOf_variable (hc.vars v hv).1 x).1 hx).1
    | listVariables =>
      cases hy
      refine .inl (key_of hm h1 h2 hn .vector (by decide +kernel) ⟨_, rfl, .inr (.inr fun x hx => ?_)⟩)
      obtain ⟨v, hv, rfl⟩ := List.mem_map.1 hx
      exact (hc.vars v hv).1
    | listOf =>
      cases hy
      refine .inl (key_of hm h1 h2 hn .vector (by decide +kernel) ⟨_, rfl, .inr (.inr fun x hx => ?_)⟩)
      obtain ⟨v, hv, rfl⟩ := List.mem_map.1 hx
      exact (hc.vars v (List.mem_of_mem_filter hv)).1
    | delete => cases hy; exact .inl (key_of hm h1 h2 hn .null (by decide +kernel) rfl)
    | deleteOf => cases hy; exact .inl (key_of hm h1 h2 hn .null (by decide +kernel) rfl)
    | setPrecision => cases hy; exact .inl (key_of hm h1 h2 hn .null (by decide +kernel) rfl)
    | setTolerance => cases hy; exact .inl (key_of hm h1 h2 hn .null (by decide +kernel) rfl)
    | getPrecision => cases hy; exact .inl (key_of hm h1 h2 hn .integer (by decide +kernel) (integerValue_intStr _))
    | getTolerance => cases hy; exact .inl (key_of hm h1 h2 hn .float (by decide +kernel) (shows_float _ _))
    | _ => cases hy
  | connection hs' _ h =>
    obtain ⟨rfl, rfl, rfl⟩ := statement_unique hs hs'
    obtain ⟨h1, h2⟩ := docFor_connection hc hf
    cases h with
    | close => cases hy; exact .inl (key_of hm h1 h2 hn .null (by decide +kernel) rfl)
    | auth => cases hy; exact .inl (key_of hm h1 h2 hn .null (by decide +kernel) rfl)
    | _ => cases hy
  | _ => cases hy

end Knuckle
