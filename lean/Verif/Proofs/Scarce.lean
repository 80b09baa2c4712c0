import Verif.Spec.Scarce
import Verif.Proofs.HeapContext

namespace Knuckle.Scarce

open Spec (CutShort)
open Heap (Addr Cell Mem PosSort posSort pairPtrs locate ptrLt HCtx cellOf store Good Same State Reads Entry held thenRun
  inst obj_congr reads_length reads_congr reads_nil reads_cons reads_append reads_cons_inv reads_take reads_drop reads_get reads_objs
  same_refl good_congr good_copy good_new settle obj_inst run_bind held_addr grow shrink count_take_drop count_take_drop_drop
  reads_reverse)

/-! ### The supply -/

/-- An allocation is refused only if `S`. -/
def Fed (S : Prop) (f : Supply) : Prop := ∀ k, Fate.refused k ∈ f → S

theorem fed_tail {S : Prop} {x : Fate} {f : Supply} (h : Fed S (x :: f)) : Fed S f := fun k hk => h k (List.mem_cons_of_mem _ hk)

theorem ask_cases {S : Prop} {f : Supply} (h : Fed S f) :
    (∃ f', ask f = (none, f') ∧ Fed S f') ∨ (∃ k f', ask f = (some k, f') ∧ Fed S f' ∧ S) := by
  rcases f with _ | ⟨_ | k, f⟩
  · exact .inl ⟨[], rfl, h⟩
  · exact .inl ⟨f, rfl, fed_tail h⟩
  · exact .inr ⟨k, f, rfl, fed_tail h, h k (by simp)⟩

theorem fed_ask {S : Prop} {f : Supply} (h : Fed S f) : Fed S (ask f).2 := by
  rcases ask_cases h with ⟨f', e, h'⟩ | ⟨k, f', e, h', _⟩ <;> rw [e] <;> exact h'

/-! ### Running -/

section
variable {σ α β : Type}

@[simp] theorem pure_apply (a : α) (s : σ) (m : Mem) (f : Supply) : (pure a : M σ α) s m f = .ok a s m f := rfl
theorem bind_apply (x : M σ α) (k : α → M σ β) (s : σ) (m : Mem) (f : Supply) : (x >>= k) s m f = M.bind x k s m f := rfl
@[simp] theorem value_bind (k : σ → M σ α) (s : σ) (m : Mem) (f : Supply) : (value >>= k) s m f = k s s m f := rfl
@[simp] theorem assign_bind (s' : σ) (k : Unit → M σ α) (s : σ) (m : Mem) (f : Supply) : (assign s' >>= k) s m f = k () s' m f := rfl
@[simp] theorem pure_bind' (a : α) (k : α → M σ β) (s : σ) (m : Mem) (f : Supply) : ((pure a : M σ α) >>= k) s m f = k a s m f := rfl

theorem ok_bind {x : M σ α} {a : α} {s s' : σ} {m m' : Mem} {f f' : Supply} (h : x s m f = .ok a s' m' f') (k : α → M σ β) :
    (x >>= k) s m f = k a s' m' f' := by
  rw [bind_apply]; unfold M.bind; rw [h]

theorem oom_bind {x : M σ α} {s s' : σ} {m m' : Mem} {f f' : Supply} (h : x s m f = .oom s' m' f') (k : α → M σ β) :
    (x >>= k) s m f = .oom s' m' f' := by
  rw [bind_apply]; unfold M.bind; rw [h]

theorem bind_congr' {x y : M σ α} {s : σ} {m : Mem} {f f' : Supply} (h : x s m f = y s m f') (k : α → M σ β) :
    (x >>= k) s m f = (y >>= k) s m f' := by
  rw [bind_apply, bind_apply]; unfold M.bind; rw [h]

theorem bind_assoc' {γ : Type} (x : M σ α) (k : α → M σ β) (k' : β → M σ γ) (s : σ) (m : Mem) (f : Supply) :
    ((x >>= k) >>= k') s m f = (x >>= fun a => k a >>= k') s m f := by
  simp only [bind_apply]
  unfold M.bind
  cases e : x s m f <;> simp only [bind_apply, M.bind, e]

theorem lift_bind (x : Res α) (k : α → M σ β) (s : σ) (m : Mem) (f : Supply) : (lift x >>= k) s m f = match x with
    | .ok a => k a s m f
    | .err e => .err e s m f
    | .ub => .ub := by
  rw [bind_apply]; unfold M.bind lift; cases x <;> rfl

theorem copy_ok {p : Addr} {m m' : Mem} (h : m.copy p = some m') (s : σ) (f : Supply) : (copy p : M σ Unit) s m f = .ok () s m' f := by
  simp only [copy, act, h]

theorem dropAll_ok {ps : List Addr} {m m' : Mem} (h : m.dropAll ps = some m') (s : σ) (f : Supply) :
    (dropAll ps : M σ Unit) s m f = .ok () s m' f := by
  simp only [dropAll, act, h]

theorem deref_ok {p : Addr} {m : Mem} {o : Obj} (h : m.obj p = some o) (s : σ) (f : Supply) : (deref p : M σ Obj) s m f = .ok o s m f := by
  unfold deref; rw [h]

theorem derefAll_ok {m : Mem} : ∀ {ps : List Addr} {l : List Obj}, Reads m ps l → ∀ (s : σ) (f : Supply),
    (derefAll ps : M σ (List Obj)) s m f = .ok l s m f
  | [], l, h, s, f => by
    have : l = [] := List.eq_nil_of_length_eq_zero (reads_length h).symm
    subst this; rfl
  | p :: ps, l, h, s, f => by
    obtain ⟨o, l', rfl, ho, hr⟩ := reads_cons_inv h
    unfold derefAll
    rw [ok_bind (deref_ok ho s f), ok_bind (derefAll_ok hr s f)]
    rfl

/-! ### Pieces without effects -/

/-- The piece has no effect and gives `r`, unless memory runs out. -/
def Calm (S : Prop) (x : M σ α) (s : σ) (m : Mem) (r : Res α) : Prop := ∀ f, Fed S f →
  (∃ f', Fed S f' ∧ x s m f = lift r s m f') ∨ ∃ f', Fed S f' ∧ S ∧ x s m f = .oom s m f'

/-- The piece has no effect and gives a result with `Q`, unless memory runs out. -/
def Quiet (S : Prop) (x : M σ α) (s : σ) (m : Mem) (Q : α → Prop) : Prop := ∀ f, Fed S f →
  (∃ a f', Fed S f' ∧ Q a ∧ x s m f = .ok a s m f') ∨ ∃ f', Fed S f' ∧ S ∧ x s m f = .oom s m f'

variable {S : Prop} {s : σ} {m : Mem}

theorem calm_lift (r : Res α) : Calm S (lift r : M σ α) s m r := fun f h => .inl ⟨f, h, rfl⟩

theorem calm_pure (a : α) : Calm S (pure a : M σ α) s m (.ok a) := fun f h => .inl ⟨f, h, rfl⟩

theorem calm_of_eq {x : M σ α} {r : Res α} (h : ∀ f, x s m f = lift r s m f) : Calm S x s m r := fun f hf => .inl ⟨f, hf, h f⟩

theorem calm_alloc : Calm S (alloc : M σ Unit) s m (.ok ()) := by
  intro f h
  unfold alloc
  rcases ask_cases h with ⟨f', e, h'⟩ | ⟨k, f', e, h', hS⟩
  · exact .inl ⟨f', h', by rw [e]; rfl⟩
  · exact .inr ⟨f', h', hS, by rw [e]⟩

theorem calm_bind {x : M σ α} {k : α → M σ β} {r : Res α} {g : α → Res β} (hx : Calm S x s m r)
    (hk : ∀ a, r = .ok a → Calm S (k a) s m (g a)) : Calm S (x >>= k) s m (r >>= g) := by
  intro f h
  rcases hx f h with ⟨f', h', e⟩ | ⟨f', h', hS, e⟩
  · rcases r with a | ex | _
    · rw [ok_bind (e.trans rfl)]
      exact hk a rfl f' h'
    · exact .inl ⟨f', h', by rw [bind_apply]; unfold M.bind; rw [e]; rfl⟩
    · exact .inl ⟨f', h', by rw [bind_apply]; unfold M.bind; rw [e]; rfl⟩
  · exact .inr ⟨f', h', hS, oom_bind e _⟩

theorem calm_quiet {x : M σ α} {a : α} (h : Calm S x s m (.ok a)) : Quiet S x s m (· = a) := by
  intro f hf
  rcases h f hf with ⟨f', h', e⟩ | h'
  · exact .inl ⟨a, f', h', rfl, e⟩
  · exact .inr h'

theorem quiet_bind {x : M σ α} {k : α → M σ β} {Q : α → Prop} {R : β → Prop} (hx : Quiet S x s m Q)
    (hk : ∀ a, Q a → Quiet S (k a) s m R) : Quiet S (x >>= k) s m R := by
  intro f h
  rcases hx f h with ⟨a, f', h', ha, e⟩ | ⟨f', h', hS, e⟩
  · rw [ok_bind e]
    exact hk a ha f' h'
  · exact .inr ⟨f', h', hS, oom_bind e _⟩

theorem quiet_pure {a : α} {Q : α → Prop} (h : Q a) : Quiet S (pure a : M σ α) s m Q := fun f hf => .inl ⟨a, f, hf, h, rfl⟩

theorem quiet_alloc {k : Unit → M σ β} {R : β → Prop} (h : Quiet S (k ()) s m R) : Quiet S (alloc >>= k) s m R :=
  quiet_bind (calm_quiet calm_alloc) fun _ _ => h

theorem comparing_calm (o : Obj) : Calm S (comparing o : M σ Unit) s m (.ok ()) := by
  unfold comparing
  split
  · exact calm_alloc
  · exact calm_pure ()

theorem equal_calm {p q : Addr} {a b : Obj} (hp : m.obj p = some a) (hq : m.obj q = some b) (eps : Fl) :
    Calm S (equal eps p q : M σ Bool) s m (equalTo eps a b) := by
  unfold equal
  refine calm_bind (r := .ok a) (g := fun a => equalTo eps a b) (calm_of_eq (deref_ok hp s)) fun a' ea => ?_
  refine calm_bind (r := .ok b) (g := fun b => equalTo eps a' b) (calm_of_eq (deref_ok hq s)) fun b' eb => ?_
  exact calm_bind (r := .ok ()) (g := fun _ => equalTo eps a' b') (comparing_calm b') fun _ _ => calm_lift _

theorem search_calm {eps : Fl} {p : Addr} {o : Obj} (hp : m.obj p = some o) :
    ∀ {ps : List Addr} {l : List Obj} (i : Nat), Reads m ps l → Calm S (search eps p ps i : M σ _) s m (findFrom eps o l i)
  | [], l, i, h => by
    have : l = [] := List.eq_nil_of_length_eq_zero (reads_length h).symm
    subst this; exact calm_pure _
  | x :: ps, l, i, h => by
    obtain ⟨a, l', rfl, ha, hr⟩ := reads_cons_inv h
    unfold search findFrom
    refine calm_bind (equal_calm ha hp eps) fun b _ => ?_
    cases b
    · exact search_calm hp (i + 1) hr
    · exact calm_pure _

theorem tally_calm {eps : Fl} {p : Addr} {o : Obj} (hp : m.obj p = some o) :
    ∀ {ps : List Addr} {l : List Obj} (i : Nat), Reads m ps l → Calm S (tally eps p ps i : M σ _) s m (countLoop eps o l i)
  | [], l, i, h => by
    have : l = [] := List.eq_nil_of_length_eq_zero (reads_length h).symm
    subst this; exact calm_pure _
  | x :: ps, l, i, h => by
    obtain ⟨a, l', rfl, ha, hr⟩ := reads_cons_inv h
    unfold tally countLoop
    refine calm_bind (equal_calm ha hp eps) fun b _ => ?_
    cases b
    · exact tally_calm hp i hr
    · exact tally_calm hp (i + 1) hr

theorem indexes_calm {eps : Fl} {p : Addr} {o : Obj} (hp : m.obj p = some o) :
    ∀ {ps : List Addr} {l : List Obj} (i : Nat) (acc : Str), Reads m ps l →
      Calm S (indexes eps p ps i acc : M σ _) s m (indexesLoop eps o l i acc)
  | [], l, i, acc, h => by
    have : l = [] := List.eq_nil_of_length_eq_zero (reads_length h).symm
    subst this; exact calm_pure _
  | x :: ps, l, i, acc, h => by
    obtain ⟨a, l', rfl, ha, hr⟩ := reads_cons_inv h
    unfold indexes indexesLoop
    refine calm_bind (equal_calm ha hp eps) fun b _ => ?_
    cases b
    · exact indexes_calm hp (i + 1) acc hr
    · refine calm_bind (r := .ok ()) (g := fun _ => _) calm_alloc fun _ _ => ?_
      exact indexes_calm hp (i + 1) _ hr

/-! ### Texts -/

theorem cut_refl (prec : Int) : ∀ t : Str, CutShort prec t t
  | [] => .nil
  | _ :: t => .char _ (cut_refl prec t)

theorem cut_append {prec : Int} {a b c d : Str} (h : CutShort prec a b) (h' : CutShort prec c d) : CutShort prec (a ++ c) (b ++ d) := by
  induction h with
  | nil => exact h'
  | char b _ ih => exact .char b ih
  | float x k _ ih => rw [List.append_assoc, List.append_assoc]; exact .float x k ih

/-- The text, or the text cut short if there are floats in it. -/
def Says (S C : Prop) (prec : Int) (t' t : Str) : Prop := t' = t ∨ (S ∧ C ∧ CutShort prec t' t)

theorem says_cut {C : Prop} {prec : Int} {t' t : Str} (h : Says S C prec t' t) : CutShort prec t' t := by
  rcases h with rfl | h
  · exact cut_refl prec _
  · exact h.2.2

theorem says_append {C : Prop} {prec : Int} {a b c d : Str} (h : Says S C prec a b) (h' : Says S C prec c d) :
    Says S C prec (a ++ c) (b ++ d) := by
  have hc := cut_append (says_cut h) (says_cut h')
  rcases h with rfl | h
  · rcases h' with rfl | h'
    · exact .inl rfl
    · exact .inr ⟨h'.1, h'.2.1, hc⟩
  · exact .inr ⟨h.1, h.2.1, hc⟩

theorem says_refl (S C : Prop) (prec : Int) (t : Str) : Says S C prec t t := .inl rfl

theorem says_cons {C : Prop} {prec : Int} {c d : Str} (b : Byte) (h : Says S C prec c d) : Says S C prec (b :: c) (b :: d) :=
  says_append (a := [b]) (b := [b]) (.inl rfl) h

theorem says_join {C : Prop} {prec : Int} : ∀ {ts' ts : List Str}, List.Forall₂ (Says S C prec) ts' ts →
    Says S C prec (joinComma ts') (joinComma ts)
  | _, _, .nil => .inl rfl
  | _, _, .cons h .nil => h
  | _, _, .cons h (.cons h' hs) => says_append h (says_cons _ (says_join (.cons h' hs)))

theorem objText_quiet {C : Prop} (prec : Int) (o : Obj) (hC : ∀ x, o = .float x → C) :
    Quiet S (objText prec o : M σ Str) s m (Says S C prec · (o.repr prec)) := by
  unfold objText
  split
  · rename_i x
    refine quiet_alloc fun f hf => ?_
    have e : ∀ k : Str → M σ Str, (streamed (Obj.repr prec (.float x)) >>= k) s m f =
      k (shortened (Obj.repr prec (.float x)) (ask f).1) s m (ask f).2 := fun _ => rfl
    rw [e]
    refine quiet_alloc (S := S) (R := fun t => Says S C prec t (Obj.repr prec (.float x)))
      (k := fun _ => pure (shortened (Obj.repr prec (.float x)) (ask f).1)) (quiet_pure ?_) _ (fed_ask hf)
    rcases ask_cases hf with ⟨f', e, h'⟩ | ⟨k, f', e, h', hS⟩
    · rw [e]; exact .inl rfl
    · rw [e]
      refine .inr ⟨hS, hC x rfl, ?_⟩
      have := CutShort.float (prec := prec) x k .nil
      simp only [List.append_nil] at this
      exact this
  · exact quiet_alloc (quiet_pure (.inl rfl))
  · exact quiet_pure (.inl rfl)

theorem text_quiet {C : Prop} {p : Addr} {o : Obj} (h : m.obj p = some o) (prec : Int) (hC : ∀ x, o = .float x → C) :
    Quiet S (text prec p : M σ Str) s m (Says S C prec · (o.repr prec)) := by
  unfold text
  refine quiet_bind (Q := (· = o)) (calm_quiet (calm_of_eq (deref_ok h s))) fun a ha => ?_
  subst ha
  exact objText_quiet prec a hC

theorem texts_quiet {C : Prop} (prec : Int) : ∀ {ps : List Addr} {os : List Obj}, Reads m ps os → (∀ x, .float x ∈ os → C) →
    Quiet S (texts prec ps : M σ (List Str)) s m (List.Forall₂ (Says S C prec) · (os.map (Obj.repr prec)))
  | [], os, h, _ => by
    have : os = [] := List.eq_nil_of_length_eq_zero (reads_length h).symm
    subst this; exact quiet_pure .nil
  | p :: ps, os, h, hC => by
    obtain ⟨o, os, rfl, ho, hr⟩ := reads_cons_inv h
    unfold texts
    refine quiet_bind (text_quiet ho prec fun x e => hC x (by simp [e])) fun t ht => quiet_alloc ?_
    exact quiet_bind (texts_quiet prec hr fun x hx => hC x (by simp [hx])) fun ts hts => quiet_pure (.cons ht hts)

theorem vectorText_quiet {C : Prop} (prec : Int) {ps : List Addr} {os : List Obj} (h : Reads m ps os) (hC : ∀ x, .float x ∈ os → C) :
    Quiet S (vectorText prec ps : M σ Str) s m (Says S C prec · (vectorRepr prec os)) := by
  unfold vectorText
  exact quiet_bind (texts_quiet prec h hC) fun ts hts =>
    quiet_alloc (quiet_pure (says_cons _ (says_append (says_join hts) (.inl rfl))))

theorem pairTexts_quiet {C : Prop} (prec : Int) : ∀ {ps : List (Addr × Addr)} {os : List (Obj × Obj)}, Reads m ps os →
    (∀ e ∈ os, ∀ x, e.1 = .float x ∨ e.2 = .float x → C) →
    Quiet S (pairTexts prec ps : M σ (List Str)) s m (List.Forall₂ (Says S C prec) ·
      (os.map fun kv => c!"(" :: (kv.1.repr prec ++ c!"," :: (kv.2.repr prec ++ [c!")"]))))
  | [], os, h, _ => by
    have : os = [] := List.eq_nil_of_length_eq_zero (reads_length h).symm
    subst this; exact quiet_pure .nil
  | p :: ps, os, h, hC => by
    obtain ⟨o, os, rfl, ho, hr⟩ := reads_cons_inv h
    unfold pairTexts
    refine quiet_bind (text_quiet (Heap.see_pair ho).1 prec fun x e => hC o (by simp) x (.inl e)) fun t ht => ?_
    refine quiet_bind (text_quiet (Heap.see_pair ho).2 prec fun x e => hC o (by simp) x (.inr e)) fun t' ht' => quiet_alloc ?_
    exact quiet_bind (pairTexts_quiet prec hr fun e he x hx => hC e (by simp [he]) x hx) fun ts hts => quiet_pure
      (.cons (says_cons _ (says_append ht (says_cons _ (says_append ht' (.inl rfl))))) hts)

end

/-! ### The relation between operators -/

/-- What may happen: whether memory may be refused; what may be left if it runs out; how replies may be cut short; whether the elements
may be left unspecified. -/
structure Allowed (τ : Type) where
  short : Prop
  part : τ → Prop
  cut : Str → Str → Prop
  ruin : Prop

section
variable {ε τ : Type} [Entry ε τ]

/-- An end of an operator matches an end of the operator on values. -/
def Sim (A : Allowed (List τ)) (L F : List Addr) (m0 : Mem) (out : Out (List ε) Str) (run : Run (List τ)) : Prop := match out with
  | .ok a s m f => Fed A.short f ∧ ∃ l b, run = .ret l b ∧ (a = b ∨ A.short ∧ A.cut a b) ∧ State L F m s l ∧ Same m0 m (L ++ F)
  | .err e s m f => Fed A.short f ∧ ∃ l, run = .thr l e ∧ State L F m s l ∧ Same m0 m (L ++ F)
  | .oom s m f => Fed A.short f ∧ A.short ∧ ∃ l, A.part l ∧ State L F m s l ∧ Same m0 m (L ++ F)
  | .unspecified => A.short ∧ A.ruin
  | .ub => run = .ub

variable {A : Allowed (List τ)} {L F : List Addr} {m m1 : Mem} {s : List ε} {l : List τ} {f : Supply} {r : Run (List τ)}
  {out : Out (List ε) Str}

theorem sim_same (h : Sim A L F m1 out r) (hs : Same m m1 (L ++ F)) : Sim A L F m out r := by
  cases out with
  | ok a s m f =>
    obtain ⟨h1, l, b, h2, h3, h4, h5⟩ := h
    exact ⟨h1, l, b, h2, h3, h4, hs.trans h5⟩
  | err e s m f =>
    obtain ⟨h1, l, h2, h4, h5⟩ := h
    exact ⟨h1, l, h2, h4, hs.trans h5⟩
  | oom s m f =>
    obtain ⟨h1, h2, l, h3, h4, h5⟩ := h
    exact ⟨h1, h2, l, h3, h4, hs.trans h5⟩
  | unspecified => exact h
  | ub => exact h

theorem sim_all (h : Sim A L F m1 out r) (hs : ∀ a, inst m1 a = inst m a) : Sim A L F m out r := sim_same h fun a _ => hs a

theorem sim_ok (h : State L F m s l) (hf : Fed A.short f) (a : Str) : Sim A L F m (.ok a s m f) (.ret l a) :=
  ⟨hf, l, a, rfl, .inl rfl, h, same_refl _ _⟩

theorem sim_says (h : State L F m s l) (hf : Fed A.short f) {a b : Str} (hs : a = b ∨ A.short ∧ A.cut a b) :
    Sim A L F m (.ok a s m f) (.ret l b) :=
  ⟨hf, l, b, rfl, hs, h, same_refl _ _⟩

theorem sim_ok' (h : State L F m1 s l) (hs : Same m m1 (L ++ F)) (hf : Fed A.short f) (a : Str) :
    Sim A L F m (.ok a s m1 f) (.ret l a) := sim_same (sim_ok h hf a) hs

theorem sim_err (h : State L F m s l) (hf : Fed A.short f) (e : Exc) : Sim A L F m (.err e s m f) (.thr l e) :=
  ⟨hf, l, rfl, h, same_refl _ _⟩

theorem sim_oom (h : State L F m s l) (hf : Fed A.short f) (hS : A.short) (hp : A.part l) (r : Run (List τ)) :
    Sim A L F m (.oom s m f) r := ⟨hf, hS, l, hp, h, same_refl _ _⟩

theorem sim_quiet {α : Type} {x : M (List ε) α} {k : α → M (List ε) Str} {Q : α → Prop} (h : State L F m s l) (hf : Fed A.short f)
    (hp : A.part l) (hx : Quiet A.short x s m Q) (hk : ∀ a f', Fed A.short f' → Q a → Sim A L F m (k a s m f') r) :
    Sim A L F m ((x >>= k) s m f) r := by
  rcases hx f hf with ⟨a, f', h', ha, e⟩ | ⟨f', h', hS, e⟩
  · rw [ok_bind e]; exact hk a f' h' ha
  · rw [oom_bind e]; exact sim_oom h h' hS hp r

theorem sim_alloc {k : Unit → M (List ε) Str} (h : State L F m s l) (hf : Fed A.short f) (hp : A.part l)
    (hk : ∀ f', Fed A.short f' → Sim A L F m (k () s m f') r) : Sim A L F m ((alloc >>= k) s m f) r :=
  sim_quiet h hf hp (calm_quiet calm_alloc) fun _ f' h' _ => hk f' h'

theorem sim_calm {α : Type} {x : M (List ε) α} {y : Res α} {k : α → M (List ε) Str} {g : α → Run (List τ)} (h : State L F m s l)
    (hf : Fed A.short f) (hp : A.part l) (hx : Calm A.short x s m y)
    (hk : ∀ a f', y = .ok a → Fed A.short f' → Sim A L F m (k a s m f') (g a)) :
    Sim A L F m ((x >>= k) s m f) (thenRun l y g) := by
  rcases hx f hf with ⟨f', h', e⟩ | ⟨f', h', hS, e⟩
  · rw [bind_congr' e, lift_bind]
    unfold thenRun
    rcases y with a | ex | _
    · exact hk a f' rfl h'
    · exact sim_err h h' ex
    · rfl
  · rw [oom_bind e]; exact sim_oom h h' hS hp _

theorem sim_lift {α : Type} {x : Res α} {k : α → M (List ε) Str} {g : α → Run (List τ)} (h : State L F m s l)
    (hf : Fed A.short f) (hk : ∀ a, x = .ok a → Sim A L F m (k a s m f) (g a)) :
    Sim A L F m ((lift x >>= k) s m f) (thenRun l x g) := by
  rw [lift_bind]
  unfold thenRun
  rcases x with a | e | _
  · exact hk a rfl
  · exact sim_err h hf e
  · rfl

/-- Leaving a scope with local pointers. -/
theorem sim_scope {ps : List Addr} {body : M (List ε) Str} (ho : ∀ p ∈ ps, (m.obj p).isSome)
    (h : Sim A (ps ++ L) F m (body s m f) r) : Sim A L F m (scope ps body s m f) r := by
  have key : ∀ {s' : List ε} {m' : Mem} {l : List τ}, State (ps ++ L) F m' s' l → Same m m' (ps ++ L ++ F) →
      ∃ m'', m'.dropAll ps = some m'' ∧ State L F m'' s' l ∧ Same m m'' (L ++ F) := by
    intro s' m' l hst hsa
    obtain ⟨m'', e, st, sa⟩ := settle (L := L) (D := ps) hst.good
      (by intro a; simp only [List.count_append]; omega)
      (by intro q hq
          rw [obj_congr (hsa q (by simp [hq]))]; exact ho q hq)
      hst.nodup hst.reads
    exact ⟨m'', e, st, (hsa.mono (by intro a ha; simp at ha ⊢; tauto)).trans (sa.mono (by intro a ha; simp at ha ⊢; tauto))⟩
  unfold scope
  revert h
  generalize body s m f = out
  intro h
  cases out with
  | ok a s m f =>
    obtain ⟨h1, l, b, h2, h3, h4, h5⟩ := h
    obtain ⟨m'', e, st, sa⟩ := key h4 h5
    simp only [e]
    exact ⟨h1, l, b, h2, h3, st, sa⟩
  | err x s m f =>
    obtain ⟨h1, l, h2, h4, h5⟩ := h
    obtain ⟨m'', e, st, sa⟩ := key h4 h5
    simp only [e]
    exact ⟨h1, l, h2, st, sa⟩
  | oom s m f =>
    obtain ⟨h1, h2, l, h3, h4, h5⟩ := h
    obtain ⟨m'', e, st, sa⟩ := key h4 h5
    simp only [e]
    exact ⟨h1, h2, l, h3, st, sa⟩
  | unspecified => exact h
  | ub => exact h

/-- Making an instance. -/
theorem newShared_cases {σ : Type} {S : Prop} (et a : Str) (s : σ) (m : Mem) {f : Supply} (hf : Fed S f) :
    (∃ f', Fed S f' ∧ newShared et a s m f = match getSharedInstance et a with
      | .ok o => .ok (m.new (.obj o)).1 s (m.new (.obj o)).2 f'
      | .err e => .err e s m f'
      | .ub => .ub) ∨ ∃ f', Fed S f' ∧ S ∧ newShared et a s m f = .oom s m f' := by
  unfold newShared
  rcases calm_alloc (σ := σ) (s := s) (m := m) f hf with ⟨f', h', e⟩ | ⟨f', h', hS, e⟩
  · refine .inl ⟨f', h', ?_⟩
    rw [ok_bind (e.trans rfl)]
    change M.bind _ _ s m f' = _
    unfold M.bind lift
    cases getSharedInstance et a <;> rfl
  · exact .inr ⟨f', h', hS, oom_bind e _⟩

theorem sim_shared (h : State L F m s l) (hf : Fed A.short f) (hp : A.part l) {et a : Str}
    {body : Addr → M (List ε) Str} {k : Obj → Run (List τ)}
    (hb : ∀ o p m1 f', getSharedInstance et a = .ok o → Fed A.short f' → State (p :: L) F m1 s l → p ∉ held s ++ (L ++ F) →
      m1.obj p = some o → Same m m1 (held s ++ (L ++ F)) → Sim A (p :: L) F m1 (body p s m1 f') (k o)) :
    Sim A L F m (shared et a body s m f) (thenRun l (getSharedInstance et a) k) := by
  unfold shared thenRun
  rcases newShared_cases et a s m hf with ⟨f', h', e⟩ | ⟨f', h', hS, e⟩
  · rcases e1 : getSharedInstance et a with o | x | _
    · rw [e1] at e
      rw [ok_bind e]
      obtain ⟨g, hn, hi, hs⟩ := good_new h.good (.obj o)
      have ho : (m.new (.obj o)).2.obj (m.new (.obj o)).1 = some o := by rw [obj_inst, hi]
      refine sim_same (sim_scope (ps := [(m.new (.obj o)).1]) ?_ (hb o _ _ f' e1 h' ⟨good_congr g ?_, h.nodup, ?_⟩ hn ho hs)) ?_
      · intro q hq
        have : q = (m.new (.obj o)).1 := by simpa using hq
        rw [this, ho]; rfl
      · intro a; simp only [List.count_append, List.count_cons]; omega
      · exact reads_congr h.reads (hs.mono (by intro a ha; simp [ha]))
      · exact hs.mono (by intro a ha; simp at ha ⊢; tauto)
    · rw [e1] at e
      rw [bind_apply]; unfold M.bind; rw [e]
      exact sim_err h h' x
    · rw [e1] at e
      rw [bind_apply]; unfold M.bind; rw [e]
      rfl
  · rw [oom_bind e]
    exact sim_oom h h' hS hp _

theorem sim_arg0 (h : State L F m s l) (hf : Fed A.short f) {x : M (List ε) Str} {g : Res (List τ × Str)}
    (hx : Sim A L F m (x s m f) (Res.run l g)) (args : List Str) : Sim A L F m (arg0 x args s m f) (op0 l g args) := by
  rcases args with _ | ⟨a, t⟩
  · exact hx
  · exact sim_err h hf _

theorem sim_arg1 (h : State L F m s l) (hf : Fed A.short f) {x : Str → M (List ε) Str} {g : Str → Res (List τ × Str)} {args : List Str}
    (hx : ∀ a, args = [a] → Sim A L F m (x a s m f) (Res.run l (g a))) : Sim A L F m (arg1 x args s m f) (op1 l g args) := by
  rcases args with _ | ⟨a, _ | ⟨b, t⟩⟩
  · exact sim_err h hf _
  · exact hx a rfl
  · exact sim_err h hf _

theorem sim_arg2 (h : State L F m s l) (hf : Fed A.short f) {x : Str → Str → M (List ε) Str} {g : Str → Str → Res (List τ × Str)}
    {args : List Str} (hx : ∀ a b, args = [a, b] → Sim A L F m (x a b s m f) (Res.run l (g a b))) :
    Sim A L F m (arg2 x args s m f) (op2 l g args) := by
  rcases args with _ | ⟨a, _ | ⟨b, _ | ⟨c, t⟩⟩⟩
  · exact sim_err h hf _
  · exact sim_err h hf _
  · exact hx a b rfl
  · exact sim_err h hf _

theorem sim_arg3 (h : State L F m s l) (hf : Fed A.short f) {x : Str → Str → Str → M (List ε) Str}
    {g : Str → Str → Str → Res (List τ × Str)} {args : List Str}
    (hx : ∀ a b c, args = [a, b, c] → Sim A L F m (x a b c s m f) (Res.run l (g a b c))) :
    Sim A L F m (arg3 x args s m f) (op3 l g args) := by
  rcases args with _ | ⟨a, _ | ⟨b, _ | ⟨c, _ | ⟨d, t⟩⟩⟩⟩
  · exact sim_err h hf _
  · exact sim_err h hf _
  · exact sim_err h hf _
  · exact hx a b c rfl
  · exact sim_err h hf _

theorem sim_dispatch (h : State L F m s l) (hf : Fed A.short f) (name : Str) (args : List Str) :
    ∀ {t : Table (List ε)} {t' : Knuckle.Table (List τ)},
    List.Forall₂ (fun r r' => r.1 = r'.1 ∧ (name = r.1 → Sim A L F m (r.2 args s m f) (r'.2 args))) t t' →
    Sim A L F m (dispatch t name args s m f) (Knuckle.dispatch l t' name args)
  | _, _, .nil => sim_err h hf _
  | (n, op) :: t, (n', op') :: t', .cons hr hs => by
    obtain ⟨e', hop⟩ := hr
    simp only at e' hop
    subst e'
    unfold dispatch Knuckle.dispatch
    by_cases e : name == n
    · rw [if_pos e, if_pos e]; exact hop (by simpa using e)
    · rw [if_neg e, if_neg e]; exact sim_dispatch h hf name args hs

theorem copyAll_ok {σ : Type} : ∀ {ps P : List Addr} {m : Mem}, Good m P → (∀ p ∈ ps, p ∈ P) →
    ∃ m', (∀ (s : σ) (f : Supply), (copyAll ps : M σ Unit) s m f = .ok () s m' f) ∧ Good m' (ps ++ P) ∧ ∀ a, inst m' a = inst m a
  | [], P, m, h, _ => ⟨m, fun _ _ => rfl, h, fun _ => rfl⟩
  | p :: ps, P, m, h, hp => by
    obtain ⟨m1, e1, g1, s1⟩ := good_copy h (hp p (by simp))
    obtain ⟨m2, e2, g2, s2⟩ := copyAll_ok (σ := σ) (ps := ps) g1 (fun q hq => by simp [hp q (by simp [hq])])
    refine ⟨m2, ?_, good_congr g2 ?_, fun a => (s2 a).trans (s1 a)⟩
    · intro s f
      unfold copyAll
      rw [ok_bind (copy_ok e1 s f)]
      exact e2 s f
    · intro a
      simp only [List.count_append, List.count_cons]
      omega

/-- Replies with floats may be cut short. -/
def Cuts (A : Allowed (List τ)) (C : Prop) (prec : Int) : Prop := ∀ a b, Says A.short C prec a b → a = b ∨ A.short ∧ A.cut a b

/-- A piece that makes the reply, at the end. -/
theorem sim_reply {x : M (List ε) Str} {C : Prop} {prec : Int} {b : Str} (h : State L F m s l) (hf : Fed A.short f)
    (hp : A.part l) (hc : Cuts A C prec) (hx : Quiet A.short x s m (Says A.short C prec · b)) :
    Sim A L F m (x s m f) (.ret l b) := by
  rcases hx f hf with ⟨a, f', h', ha, e⟩ | ⟨f', h', hS, e⟩
  · rw [e]; exact sim_says h h' (hc a b ha)
  · rw [e]; exact sim_oom h h' hS hp _

/-- A temporary vector of copies is destroyed after its text is made. -/
theorem temporary_sim (h : State L F m s l) (hf : Fed A.short f) (hA : A.part l) {C : Prop} {prec : Int} (hc : Cuts A C prec)
    {ps : List Addr} {os : List Obj} (hp : ∀ p ∈ ps, p ∈ held s) (hr : Reads m ps os) (hC : ∀ x, .float x ∈ os → C) :
    Sim A L F m (temporary ps (vectorText prec ps) s m f) (.ret l (vectorRepr prec os)) := by
  unfold temporary
  refine sim_alloc h hf hA fun f' hf' => ?_
  obtain ⟨m1, e1, g1, s1⟩ := copyAll_ok (σ := List ε) h.good (fun p hx => List.mem_append_left _ (hp p hx))
  rw [ok_bind (e1 s f')]
  have hr1 : Reads m1 ps os := reads_congr hr fun a _ => s1 a
  have st : State (ps ++ L) F m1 s l := ⟨good_congr g1 (by intro a; simp only [List.count_append]; omega), h.nodup,
    reads_congr h.reads fun a _ => s1 a⟩
  refine sim_all (sim_scope ?_ (sim_reply st hf' hA hc (vectorText_quiet prec hr1 hC))) s1
  intro p hx; rw [obj_congr (s1 p)]; exact reads_objs h.reads p (hp p hx)

end

end Knuckle.Scarce
