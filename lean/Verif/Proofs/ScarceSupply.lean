import Verif.Proofs.Scarce

/-! How the supply of memory is used up: from the front, and memory runs out only at an allocation that is refused. -/

namespace Knuckle.Scarce

open Heap (Addr Mem PosSort HCtx)

section
variable {σ α β : Type}

/-- The supply left after a piece of an operator. -/
def Left (f : Supply) : Out σ α → Prop
  | .ok _ _ _ f' => f' <:+ f
  | .err _ _ _ f' => f' <:+ f
  | .oom _ _ f' => ∃ k, Fate.refused k :: f' <:+ f
  | .unspecified => True
  | .ub => True

/-- The piece uses up the supply from the front. -/
def Uses (x : M σ α) : Prop := ∀ s m f, Left f (x s m f)

theorem left_mono {f f' : Supply} (h : f' <:+ f) : ∀ {o : Out σ α}, Left f' o → Left f o
  | .ok .., h' => h'.trans h
  | .err .., h' => h'.trans h
  | .oom .., ⟨k, h'⟩ => ⟨k, h'.trans h⟩
  | .unspecified, _ => trivial
  | .ub, _ => trivial

theorem ask_suffix : ∀ f : Supply, (ask f).2 <:+ f
  | [] => List.suffix_refl _
  | .granted :: _ => List.suffix_cons _ _
  | .refused _ :: _ => List.suffix_cons _ _

theorem ask_refused {f f' : Supply} {k : Nat} (h : ask f = (some k, f')) : f = .refused k :: f' := by
  rcases f with _ | ⟨_ | k', f⟩ <;> cases h
  rfl

theorem ask_snd {f f' : Supply} {x : Option Nat} (h : ask f = (x, f')) : f' <:+ f := by
  have := ask_suffix f
  rwa [h] at this

theorem uses_pure (a : α) : Uses (pure a : M σ α) := fun _ _ _ => List.suffix_refl _
theorem uses_value : Uses (value : M σ σ) := fun _ _ _ => List.suffix_refl _
theorem uses_assign (s : σ) : Uses (assign s) := fun _ _ _ => List.suffix_refl _
theorem uses_undefined : Uses (undefined : M σ α) := fun _ _ _ => trivial
theorem uses_raise (e : Exc) : Uses (raise e : M σ α) := fun _ _ _ => List.suffix_refl _
theorem uses_lift (r : Res α) : Uses (lift r : M σ α) := fun s m f => by
  cases r <;> first | exact List.suffix_refl _ | trivial

theorem uses_act (g : Mem → Option Mem) : Uses (act g : M σ Unit) := fun s m f => by
  unfold act
  cases g m
  · trivial
  · exact List.suffix_refl _

theorem uses_copy (p : Addr) : Uses (copy p : M σ Unit) := uses_act _
theorem uses_dropAll (ps : List Addr) : Uses (dropAll ps : M σ Unit) := uses_act _

theorem uses_alloc : Uses (alloc : M σ Unit) := fun s m f => by
  unfold alloc
  rcases e : ask f with ⟨_ | k, f'⟩
  · exact ask_snd e
  · exact ⟨k, ask_refused e ▸ List.suffix_refl _⟩

theorem uses_sortAlloc : Uses (sortAlloc : M σ Unit) := fun s m f => by
  unfold sortAlloc
  rcases e : ask f with ⟨_ | k, f'⟩
  · exact ask_snd e
  · trivial

theorem uses_streamed (t : Str) : Uses (streamed t : M σ Str) := fun _ _ f => ask_suffix f

theorem uses_deref (p : Addr) : Uses (deref p : M σ Obj) := fun s m f => by
  unfold deref
  cases m.obj p
  · trivial
  · exact List.suffix_refl _

theorem uses_bind {x : M σ α} {k : α → M σ β} (hx : Uses x) (hk : ∀ a, Uses (k a)) : Uses (x >>= k) := by
  intro s m f
  have := hx s m f
  rw [bind_apply]
  unfold M.bind
  revert this
  generalize x s m f = o
  intro h
  cases o with
  | ok a s m f' => exact left_mono h (hk a s m f')
  | err => exact h
  | oom => exact h
  | unspecified => trivial
  | ub => trivial

theorem uses_scope {ps : List Addr} {x : M σ α} (hx : Uses x) : Uses (scope ps x) := by
  intro s m f
  have := hx s m f
  unfold scope
  revert this
  generalize x s m f = o
  intro h
  cases o with
  | ok a s m f' => simp only; cases m.dropAll ps <;> first | exact h | trivial
  | err e s m f' => simp only; cases m.dropAll ps <;> first | exact h | trivial
  | oom s m f' => simp only; cases m.dropAll ps <;> first | exact h | trivial
  | unspecified => trivial
  | ub => trivial

theorem uses_newShared (t a : Str) : Uses (newShared t a : M σ Addr) :=
  uses_bind uses_alloc fun _ => uses_bind (uses_lift _) fun _ _ _ _ => List.suffix_refl _

theorem uses_shared {t a : Str} {k : Addr → M σ α} (hk : ∀ p, Uses (k p)) : Uses (shared t a k) :=
  uses_bind (uses_newShared t a) fun p => uses_scope (hk p)

theorem uses_copyAll : ∀ ps : List Addr, Uses (copyAll ps : M σ Unit)
  | [] => uses_pure _
  | p :: ps => uses_bind (uses_copy p) fun _ => uses_copyAll ps

theorem uses_derefAll : ∀ ps : List Addr, Uses (derefAll ps : M σ (List Obj))
  | [] => uses_pure _
  | p :: ps => uses_bind (uses_deref p) fun _ => uses_bind (uses_derefAll ps) fun _ => uses_pure _

theorem uses_temporary {ps : List Addr} {x : M σ α} (hx : Uses x) : Uses (temporary ps x) :=
  uses_bind uses_alloc fun _ => uses_bind (uses_copyAll ps) fun _ => uses_scope hx

theorem uses_comparing (o : Obj) : Uses (comparing o : M σ Unit) := by
  unfold comparing
  split
  · exact uses_alloc
  · exact uses_pure _

theorem uses_equal (eps : Fl) (p q : Addr) : Uses (equal eps p q : M σ Bool) :=
  uses_bind (uses_deref p) fun _ => uses_bind (uses_deref q) fun _ => uses_bind (uses_comparing _) fun _ => uses_lift _

theorem uses_objText (prec : Int) (o : Obj) : Uses (objText prec o : M σ Str) := by
  unfold objText
  split
  · exact uses_bind uses_alloc fun _ => uses_bind (uses_streamed _) fun _ => uses_bind uses_alloc fun _ => uses_pure _
  · exact uses_bind uses_alloc fun _ => uses_pure _
  · exact uses_pure _

theorem uses_text (prec : Int) (p : Addr) : Uses (text prec p : M σ Str) := uses_bind (uses_deref p) fun _ => uses_objText _ _

theorem uses_texts (prec : Int) : ∀ ps : List Addr, Uses (texts prec ps : M σ (List Str))
  | [] => uses_pure _
  | p :: ps => uses_bind (uses_text prec p) fun _ => uses_bind uses_alloc fun _ => uses_bind (uses_texts prec ps) fun _ => uses_pure _

theorem uses_pairTexts (prec : Int) : ∀ ps : List (Addr × Addr), Uses (pairTexts prec ps : M σ (List Str))
  | [] => uses_pure _
  | p :: ps => uses_bind (uses_text prec _) fun _ => uses_bind (uses_text prec _) fun _ => uses_bind uses_alloc fun _ =>
      uses_bind (uses_pairTexts prec ps) fun _ => uses_pure _

theorem uses_vectorText (prec : Int) (ps : List Addr) : Uses (vectorText prec ps : M σ Str) :=
  uses_bind (uses_texts prec ps) fun _ => uses_bind uses_alloc fun _ => uses_pure _

theorem uses_ite {c : Prop} [Decidable c] {x y : M σ α} (hx : Uses x) (hy : Uses y) : Uses (if c then x else y) := by
  split
  · exact hx
  · exact hy

theorem uses_search (eps : Fl) (p : Addr) : ∀ (l : List Addr) (i : Nat), Uses (search eps p l i : M σ _)
  | [], _ => uses_pure _
  | _ :: l, i => uses_bind (uses_equal _ _ _) fun _ => uses_ite (uses_pure _) (uses_search eps p l (i + 1))

theorem uses_tally (eps : Fl) (p : Addr) : ∀ (l : List Addr) (i : Nat), Uses (tally eps p l i : M σ _)
  | [], _ => uses_pure _
  | _ :: l, i => uses_bind (uses_equal _ _ _) fun _ => uses_ite (uses_tally eps p l _) (uses_tally eps p l _)

theorem uses_indexes (eps : Fl) (p : Addr) : ∀ (l : List Addr) (i : Nat) (acc : Str), Uses (indexes eps p l i acc : M σ _)
  | [], _, _ => uses_pure _
  | _ :: l, i, acc => uses_bind (uses_equal _ _ _) fun _ => uses_ite (uses_bind uses_alloc fun _ => uses_indexes eps p l _ _)
      (uses_indexes eps p l _ _)

theorem uses_removeFirst (eps : Fl) (p : Addr) : ∀ (l pre : List Addr), Uses (removeFirst eps p pre l)
  | [], _ => uses_pure _
  | _ :: l, pre => uses_bind (uses_equal _ _ _) fun _ => uses_ite (uses_bind (uses_assign _) fun _ => uses_dropAll _)
      (uses_removeFirst eps p l _)

theorem uses_removeAll (eps : Fl) (p : Addr) : ∀ (l pre : List Addr), Uses (removeAll eps p pre l)
  | [], _ => uses_pure _
  | _ :: l, pre => uses_bind (uses_equal _ _ _) fun _ => uses_ite
      (uses_bind (uses_assign _) fun _ => uses_bind (uses_dropAll _) fun _ => uses_removeAll eps p l _) (uses_removeAll eps p l _)

theorem uses_replaceFirst (eps : Fl) (t b : Str) (p : Addr) : ∀ (l pre : List Addr), Uses (replaceFirst eps t b p pre l)
  | [], _ => uses_pure _
  | _ :: l, pre => uses_bind (uses_equal _ _ _) fun _ => uses_ite
      (uses_bind (uses_newShared _ _) fun _ => uses_bind (uses_assign _) fun _ => uses_dropAll _) (uses_replaceFirst eps t b p l _)

theorem uses_replaceAll (eps : Fl) (t b : Str) (p : Addr) : ∀ (l pre : List Addr), Uses (replaceAll eps t b p pre l)
  | [], _ => uses_pure _
  | _ :: l, pre => uses_bind (uses_equal _ _ _) fun _ => uses_ite
      (uses_bind (uses_newShared _ _) fun _ => uses_bind (uses_assign _) fun _ => uses_bind (uses_dropAll _) fun _ =>
        uses_replaceAll eps t b p l _) (uses_replaceAll eps t b p l _)

theorem uses_find {τ : Type} (eps : Fl) (key : τ → Addr) (p : Addr) (s : List τ) : Uses (find eps key p s : M σ _) :=
  uses_bind (uses_deref p) fun _ => uses_bind (uses_derefAll _) fun _ => uses_bind (uses_comparing _) fun _ =>
    uses_bind (uses_lift _) fun _ _ _ _ => List.suffix_refl _

theorem uses_sorting (l : List Obj) : Uses (sorting l) := by
  unfold sorting
  split
  · exact uses_sortAlloc
  · exact uses_pure _

theorem uses_takeOut (prec : Int) (p : Addr) (rest : List Addr) : Uses (takeOut prec p rest) :=
  uses_bind (uses_copy p) fun _ => uses_scope (uses_bind (uses_assign _) fun _ => uses_bind (uses_dropAll _) fun _ => uses_text _ _)

theorem uses_arg0 {x : M σ Str} (h : Uses x) (args : List Str) : Uses (arg0 x args) := by
  unfold arg0; split
  · exact h
  · exact uses_raise _

theorem uses_arg1 {x : Str → M σ Str} (h : ∀ a, Uses (x a)) (args : List Str) : Uses (arg1 x args) := by
  unfold arg1; split
  · exact h _
  · exact uses_raise _

theorem uses_arg2 {x : Str → Str → M σ Str} (h : ∀ a b, Uses (x a b)) (args : List Str) : Uses (arg2 x args) := by
  unfold arg2; split
  · exact h _ _
  · exact uses_raise _

theorem uses_arg3 {x : Str → Str → Str → M σ Str} (h : ∀ a b c, Uses (x a b c)) (args : List Str) : Uses (arg3 x args) := by
  unfold arg3; split
  · exact h _ _ _
  · exact uses_raise _

theorem uses_dispatch : ∀ {t : Table σ}, (∀ row ∈ t, ∀ args, Uses (row.2 args)) → ∀ (name : Str) (args : List Str),
    Uses (dispatch t name args)
  | [], _, _, _ => uses_raise _
  | row :: t, h, name, args => by
    unfold dispatch
    exact uses_ite (h row (by simp) args) (uses_dispatch (fun r hr => h r (by simp [hr])) name args)

end

/-- One step through an operator. -/
macro "uses_step" : tactic => `(tactic| with_reducible first
  | refine uses_arg0 ?_ _ | refine uses_arg1 (fun _ => ?_) _ | refine uses_arg2 (fun _ _ => ?_) _ | refine uses_arg3 (fun _ _ _ => ?_) _
  | refine uses_shared fun _ => ?_
  | refine uses_temporary ?_
  | exact uses_pure _ | exact uses_value | exact uses_lift _ | exact uses_alloc | exact uses_copy _ | exact uses_assign _ | exact uses_dropAll _
  | exact uses_raise _ | exact uses_undefined | exact uses_text _ _ | exact uses_texts _ _ | exact uses_pairTexts _ _
  | exact uses_vectorText _ _ | exact uses_search _ _ _ _ | exact uses_tally _ _ _ _ | exact uses_indexes _ _ _ _ _ | exact uses_removeFirst _ _ _ _
  | exact uses_removeAll _ _ _ _ | exact uses_replaceFirst _ _ _ _ _ _ | exact uses_replaceAll _ _ _ _ _ _ | exact uses_find _ _ _ _ | exact uses_sorting _
  | exact uses_takeOut _ _ _ | exact uses_derefAll _
  | refine uses_bind ?_ fun _ => ?_
  | refine uses_ite ?_ ?_
  | split)

theorem uses_vector [PosSort] (cfg : Cfg) (et name : Str) (args : List Str) : Uses (dispatch (vectorTable cfg et) name args) := by
  refine uses_dispatch ?_ name args
  unfold vectorTable
  simp only [List.forall_mem_cons, List.not_mem_nil, false_implies, implies_true, and_true]
  unfold vecGet vecIsEmpty vecContains vecContainsFrom vecCount vecAtIndex vecFirstIndexOf vecFirstIndexOfFrom vecAllIndexesOf listSize
    vecFirst vecLast vecSlice vecSliceTo vecPushBack vecPushFront vecPopBack vecPopFront vecPopAtIndex vecInsert vecErase vecEraseTo
    vecRemoveFirst vecRemoveFirstFrom vecRemoveAll vecReplaceFirst vecReplaceFirstFrom vecReplaceAll vecSort vecReverse listClear
  refine ⟨?_, ?_, ?_, ?_, ?_, ?_, ?_, ?_, ?_, ?_, ?_, ?_, ?_, ?_, ?_, ?_, ?_, ?_, ?_, ?_, ?_, ?_, ?_, ?_, ?_, ?_, ?_, ?_, ?_, ?_, ?_⟩ <;>
    (intro args; repeat' uses_step)

theorem uses_set (cfg : Cfg) (et name : Str) (args : List Str) : Uses (dispatch (setTable cfg et) name args) := by
  refine uses_dispatch ?_ name args
  unfold setTable
  simp only [List.forall_mem_cons, List.not_mem_nil, false_implies, implies_true, and_true]
  unfold setGet setIsEmpty setContains setAdd setRemove listSize listClear
  refine ⟨?_, ?_, ?_, ?_, ?_, ?_, ?_⟩ <;> (intro args; repeat' uses_step)

theorem uses_dict (cfg : Cfg) (kt vt name : Str) (args : List Str) : Uses (dispatch (dictTable cfg kt vt) name args) := by
  refine uses_dispatch ?_ name args
  unfold dictTable
  simp only [List.forall_mem_cons, List.not_mem_nil, false_implies, implies_true, and_true]
  unfold dictText dictIsEmpty dictContains dictSize dictKeys dictValues dictGet dictAssociate dictRemove dictClear
  refine ⟨?_, ?_, ?_, ?_, ?_, ?_, ?_, ?_, ?_, ?_⟩ <;> (intro args; repeat' uses_step)

/-! ### Messages and requests -/

section
variable {σ τ : Type}

/-- The supply left after a message. -/
def LeftEnd (f : Supply) : End σ → Prop
  | .ret _ _ f' => f' <:+ f
  | .thr _ _ f' => f' <:+ f
  | .oom _ f' => ∃ k, Fate.refused k :: f' <:+ f
  | .unspecified => True
  | .ub => True

theorem left_finish {f : Supply} (p : Addr) (g : σ → Heap.Cell) {o : Out σ Str} (h : Left f o) : LeftEnd f (finish p g o) := by
  unfold finish
  cases o with
  | ok r s m f' => simp only; cases Heap.store p (g s) m <;> first | exact h | trivial
  | err e s m f' => simp only; cases Heap.store p (g s) m <;> first | exact h | trivial
  | oom s m f' => simp only; cases Heap.store p (g s) m <;> first | exact h | trivial
  | unspecified => trivial
  | ub => trivial

theorem left_once (s : σ) (b : Bool) (run : Run σ) (f : Supply) : LeftEnd f (once s b run f) := by
  unfold once
  rcases e : ask f with ⟨_ | k, f'⟩
  · simp only
    have hf := ask_snd e
    cases run with
    | ret s' r =>
      simp only
      split
      · unfold printed
        have h1 := (ask_suffix f').trans hf
        rcases e2 : ask (ask f').2 with ⟨_ | k, f''⟩
        · exact (ask_snd e2).trans h1
        · exact ⟨k, by rw [← ask_refused e2]; exact h1⟩
      · exact hf
    | thr s' x => exact hf
    | ub => trivial
  · exact ⟨k, ask_refused e ▸ List.suffix_refl _⟩

theorem left_leaving {f : Supply} (h : HCtx) (p : Addr) {r : HCtx → End HCtx} (hr : ∀ h, LeftEnd f (r h)) : LeftEnd f (leaving h p r) := by
  unfold leaving
  split
  · exact hr _
  · trivial

end

theorem left_receive [PosSort] (cfg : Cfg) (p : Addr) (m : Mem) (name : Str) (args : List Str) (f : Supply) :
    LeftEnd f (receive cfg p m name args f) := by
  unfold receive
  split
  · exact left_once ..
  · exact left_finish _ _ (uses_vector _ _ _ _ _ _ _)
  · exact left_finish _ _ (uses_set _ _ _ _ _ _ _)
  · exact left_finish _ _ (uses_dict _ _ _ _ _ _ _ _)
  · trivial

theorem left_inType (h : HCtx) (p : Parsed) (f : Supply) : LeftEnd f (executeInType h p f) := by
  unfold executeInType
  rcases e : ask f with ⟨_ | k, f1⟩
  · have h1 := ask_snd e
    simp only
    split
    · exact h1
    · trivial
    · trivial
    · split
      · rcases e2 : ask f1 with ⟨_ | k, f2⟩
        · have h2 := (ask_snd e2).trans h1
          simp only
          split
          · exact left_leaving _ _ fun _ => h2
          · trivial
        · exact left_leaving _ _ fun _ => ⟨k, by rw [← ask_refused e2]; exact h1⟩
      · split
        · exact left_leaving _ _ fun _ => h1
        · exact left_leaving _ _ fun _ => h1
  · exact ⟨k, ask_refused e ▸ List.suffix_refl _⟩

theorem left_inVariable [PosSort] (h : HCtx) (p : Parsed) (f : Supply) : LeftEnd f (executeInVariable h p f) := by
  unfold executeInVariable
  split
  · exact List.suffix_refl _
  · rename_i q _
    have := left_receive h.cfg q h.mem p.name p.args f
    revert this
    generalize receive h.cfg q h.mem p.name p.args f = x
    intro this
    cases x <;> exact this

theorem left_keep {σ : Type} (s : Option Session) {f : Supply} {x : End σ} (h : LeftEnd f x) : LeftEnd f (keep s x) := by
  cases x <;> exact h

theorem left_parsed [PosSort] (pwd : Str) (h : HCtx) (s : Option Session) (p : Parsed) (f : Supply) :
    LeftEnd f (executeParsed pwd h s p f) := by
  unfold executeParsed
  split
  · exact left_keep _ (left_inType ..)
  · split
    · exact left_keep _ (left_once ..)
    · split
      · exact left_keep _ (left_inVariable ..)
      · split
        · cases s with
          | none => trivial
          | some s =>
            simp only [executeInConnection]
            have := left_once s false (s.receive pwd p.name p.args) f
            revert this
            generalize once s false (s.receive pwd p.name p.args) f = x
            intro this
            cases x <;> exact this
        · exact List.suffix_refl _

end Knuckle.Scarce
