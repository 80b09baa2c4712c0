import Verif.Proofs.Settings
import Verif.Proofs.ScarceOrdered
import Verif.Proofs.Does

namespace Knuckle.Scarce

open Spec
open Heap (Addr Cell Mem PosSort pairPtrs HCtx cellOf store Good Same State Reads Entry held
  inst reads_congr same_refl good_congr good_copy good_new held_addr Row Rows Placed Shows ptrs ptrs_append ptrs_cons placed_congr shows_congr
  Rep Stands RunSim good_store instOf find_rows insert_rows update_rows stands_mem Bare bare_make good_release_last good_release_shared
  record_stands)

/-! ### Ends of messages -/

/-- An end of a message matches an end of the message on values. -/
def EndSim {σ τ : Type} (A : Allowed τ) (R : σ → τ → Prop) (e : End σ) (r : Run τ) : Prop := match e with
  | .ret s a f => Fed A.short f ∧ ∃ t b, r = .ret t b ∧ (a = b ∨ A.short ∧ A.cut a b) ∧ R s t
  | .thr s e f => Fed A.short f ∧ ∃ t, r = .thr t e ∧ R s t
  | .oom s f => Fed A.short f ∧ A.short ∧ ∃ t, A.part t ∧ R s t
  | .unspecified => A.short ∧ A.ruin
  | .ub => r = .ub

theorem end_once {σ τ : Type} {A : Allowed τ} {R : σ → τ → Prop} {s : σ} {t : τ} {f : Supply} (hf : Fed A.short f) (hs : R s t)
    (hp : A.part t) {run : Run σ} {r : Run τ} (h : RunSim R run r) {printing : Bool}
    (hc : printing = true → ∀ t b, r = .ret t b → A.part t ∧ ∀ k, A.short → A.cut (b.take k) b) :
    EndSim A R (once s printing run f) r := by
  unfold once
  rcases ask_cases hf with ⟨f', e, h'⟩ | ⟨k, f', e, h', hS⟩
  · rw [e]
    rcases run with ⟨s', a⟩ | ⟨s', x⟩ | _ <;> rcases r with ⟨t', b⟩ | ⟨t', y⟩ | _ <;> try exact h.elim
    · obtain ⟨rfl, hR⟩ := h
      simp only
      by_cases hpr : printing = true
      · rw [if_pos hpr]
        unfold printed
        rcases ask_cases h' with ⟨f1, e1, h1⟩ | ⟨k, f1, e1, h1, hS⟩
        · rw [e1]
          rcases ask_cases h1 with ⟨f2, e2, h2⟩ | ⟨k, f2, e2, h2, hS⟩
          · simp only [e2]
            exact ⟨h2, t', a, rfl, .inl rfl, hR⟩
          · simp only [e2]
            exact ⟨h2, hS, t', (hc hpr t' a rfl).1, hR⟩
        · rw [e1]
          rcases ask_cases h1 with ⟨f2, e2, h2⟩ | ⟨k, f2, e2, h2, hS⟩
          · simp only [e2]
            exact ⟨h2, t', a, rfl, .inr ⟨hS, (hc hpr t' a rfl).2 _ hS⟩, hR⟩
          · simp only [e2]
            exact ⟨h2, hS, t', (hc hpr t' a rfl).1, hR⟩
      · rw [if_neg hpr]
        exact ⟨h', t', a, rfl, .inl rfl, hR⟩
    · obtain ⟨rfl, hR⟩ := h
      exact ⟨h', t', rfl, hR⟩
    · rfl
  · rw [e]
    exact ⟨h', hS, t, hp, hs⟩

/-! ### Messages to instances -/

section
variable {ε τ : Type} [Entry ε τ] {A B : List Row} {n : Str} {p : Addr} {m : Mem}

theorem finish_sim {g : List ε → Cell} {k : List τ → Inst} (hg : ∀ s, (g s).children = held s)
    (hk : ∀ m s l, Reads m s l → Shows m (g s) (k l)) {out : Out (List ε) Str} {run : Run (List τ)} {X : Allowed (List τ)}
    {Y : Allowed Inst} (h1 : X.short = Y.short) (h2 : ∀ l, X.part l → Y.part (k l)) (h3 : X.cut = Y.cut) (h4 : X.ruin → Y.ruin)
    (hA : Placed m A) (hB : Placed m B) (h : Sim X [] (p :: (ptrs A ++ ptrs B)) m out run) :
    EndSim Y (fun m' i => ∃ c, Rows m' (A ++ ⟨n, p, c, i⟩ :: B)) (finish p g out) (wrap k run) := by
  have key : ∀ {s : List ε} {m' : Mem} {l : List τ}, State [] (p :: (ptrs A ++ ptrs B)) m' s l →
      Same m m' ([] ++ p :: (ptrs A ++ ptrs B)) →
      ∃ m'', store p (g s) m' = some m'' ∧ ∃ c, Rows m'' (A ++ ⟨n, p, c, k l⟩ :: B) := by
    intro s m' l st sa
    obtain ⟨m'', e, gd, hi, hs⟩ := good_store st.good (p := p) (by simp) (g s)
    have hnd := st.nodup
    rw [List.nodup_append] at hnd
    have hp := (List.nodup_cons.1 hnd.2.1).1
    have hne : ∀ a ∈ ptrs A ++ ptrs B, inst m'' a = inst m' a := fun a ha => hs a fun e => hp (e ▸ ha)
    refine ⟨m'', e, g s, ?_, ?_, ?_⟩
    · refine good_congr gd ?_
      intro a
      simp only [ptrs_append, ptrs_cons, hg, List.count_append, List.count_cons, List.count_nil]
      omega
    · refine (List.Perm.nodup_iff ?_).1 st.nodup
      rw [List.perm_iff_count]
      intro a
      simp only [ptrs_append, ptrs_cons, hg, List.count_append, List.count_cons]
      omega
    · intro r hr
      rw [List.mem_append, List.mem_cons] at hr
      rcases hr with hr | rfl | hr
      · refine placed_congr hA ?_ r hr
        exact fun a ha => (hne a (by simp [ha])).trans (sa a (by simp [ha]))
      · refine ⟨hi, shows_congr (hk m' s l st.reads) ?_⟩
        rw [hg]
        intro a ha
        exact hs a fun e => hnd.2.2 a ha p (by simp) e
      · refine placed_congr hB ?_ r hr
        exact fun a ha => (hne a (by simp [ha])).trans (sa a (by simp [ha]))
  cases out with
  | ok a s m' f =>
    obtain ⟨hf, l, b, rfl, hab, st, sa⟩ := h
    obtain ⟨m'', e, hR⟩ := key st sa
    simp only [finish, e, wrap]
    rw [h1, h3] at hab
    exact ⟨h1 ▸ hf, k l, b, rfl, hab, hR⟩
  | err x s m' f =>
    obtain ⟨hf, l, rfl, st, sa⟩ := h
    obtain ⟨m'', e, hR⟩ := key st sa
    simp only [finish, e, wrap]
    exact ⟨h1 ▸ hf, k l, rfl, hR⟩
  | oom s m' f =>
    obtain ⟨hf, hS, l, hl, st, sa⟩ := h
    obtain ⟨m'', e, hR⟩ := key st sa
    simp only [finish, e]
    exact ⟨h1 ▸ hf, h1 ▸ hS, k l, h2 l hl, hR⟩
  | unspecified => exact ⟨h1 ▸ h.1, h4 h.2⟩
  | ub =>
    have h : run = .ub := h
    subst h
    rfl

end

/-- The request sorts a vector of strings. -/
def SortsStrings (name : Str) (args : List Str) (i : Inst) : Prop :=
  name = b!"sort" ∧ args = [] ∧ ∃ t x y l, i = .vector t (.string x :: y :: l)

/-- What may happen to an instance. -/
def allowed (S : Prop) (cfg : Cfg) (i : Inst) (name : Str) (args : List Str) : Allowed Inst :=
  ⟨S, LeftOver cfg i name args, fun a b => ShowsFloat name i ∧ CutShort cfg.prec a b, SortsStrings name args i⟩

theorem behaves_ret [StdSort] {cfg : Cfg} {i i' : Inst} (hw : WellTyped i) {name r : Str} {args : List Str}
    (h : Knuckle.receive cfg i name args = .ret i' r) : Behaves cfg i name args (.gives i' r) := by
  rcases receive_cases cfg i hw name args with ⟨_, e⟩ | ⟨ks, _, ⟨_, e⟩ | ⟨_, _, e⟩ | ⟨_, _, e⟩ | ⟨_, _, x, hb, e⟩⟩
  · rw [h] at e; cases e
  · rw [h] at e; cases e
  · rw [h] at e; cases e
  · rw [h] at e; cases e
  · rw [h] at e
    cases x with
    | gives v b => cases e; exact hb
    | refuses => cases e
    | undefined => cases e

/-- What the messages that may stop halfway give, on well typed vectors. -/
theorem vecPart_leftOver [StdSort] (S : Prop) (cfg : Cfg) {t : Str} {l : List Obj} (hw : WellTyped (.vector t l)) (name : Str)
    (args : List Str) (cut : Str → Str → Prop) :
    VecPart cfg t l name args ⟨S, fun l' => LeftOver cfg (.vector t l) name args (.vector t l'), cut,
      SortsStrings name args (.vector t l)⟩ := by
  have hk : ∀ k, WellTyped (.vector t (l.take k)) := fun k => ⟨hw.1, fun x hx => hw.2 x (List.mem_of_mem_take hx)⟩
  have beh : ∀ {l0 l' : List Obj} {r : Str} (op : Run (List Obj)), WellTyped (.vector t l0) →
      Knuckle.receive cfg (.vector t l0) name args = wrap (.vector t) op → op = .ret l' r →
      ∃ x, Behaves cfg (.vector t l0) name args x ∧ x = .gives (.vector t l') r := by
    intro l0 l' r op h0 e e'
    rw [e'] at e
    exact ⟨_, behaves_ret h0 e, rfl⟩
  have ty : (∃ o ∈ l, Texty o) → t = b!"String" ∨ t = b!"Float" := by
    rintro ⟨o, ho, ⟨x, rfl⟩ | ⟨x, rfl⟩⟩
    · exact .inl (hw.2 _ ho).1.symm
    · exact .inr (hw.2 _ ho).1.symm
  refine ⟨.unchanged, ?_, ?_, ?_, ?_, ?_, ?_⟩
  · rintro rfl ht l' r e
    obtain ⟨x, hb, hx⟩ := beh _ hw (by rfl) e
    cases hb with
    | vector h =>
      cases h
      simp only [vecMeaning] at hx
      rcases e1 : l.getLast? with _ | o
      · rw [e1] at hx
        simp only [Result.map, Result.gives.injEq, Inst.vector.injEq] at hx
        have : l = [] := by simpa using e1
        rw [← hx.1.2, this]
        exact .unchanged
      · rw [e1] at hx
        simp only [Result.map, Result.gives.injEq, Inst.vector.injEq] at hx
        rw [← hx.1.2]
        exact .popBack (ty ht)
  · rintro rfl ht l' r e
    obtain ⟨x, hb, hx⟩ := beh _ hw (by rfl) e
    cases hb with
    | vector h =>
      cases h
      cases l with
      | nil =>
        simp only [vecMeaning, Result.map, Result.gives.injEq, Inst.vector.injEq] at hx
        rw [← hx.1.2]
        exact .unchanged
      | cons o l =>
        simp only [vecMeaning, Result.map, Result.gives.injEq, Inst.vector.injEq] at hx
        rw [← hx.1.2]
        exact .popFront (l := o :: l) (ty ht)
  · rintro rfl ht l' r e
    obtain ⟨x, hb, hx⟩ := beh _ hw (by rfl) e
    cases hb with
    | vector h =>
      cases h with
      | popAtIndex hd =>
        simp only [vecMeaning] at hx
        split at hx
        · rename_i hi
          simp only [Result.map, Result.gives.injEq, Inst.vector.injEq] at hx
          rw [← hx.1.2]
          exact .popAtIndex (ty ht) hd hi
        · cases hx
  · rintro rfl a x rfl hg k l' r e
    obtain rfl : b!"String" = t := (gsi_type hw.1 hg).1
    obtain ⟨x, hb, hx⟩ := beh _ (hk k) (by rfl) e
    cases hb with
    | vector h =>
      cases h with
      | removeAll hd =>
        simp only [vecMeaning, Result.map, Result.gives.injEq, Inst.vector.injEq] at hx
        rw [← hx.1.2]
        exact .removeAll k hd
  · rintro rfl k l' r e
    obtain ⟨x, hb, hx⟩ := beh _ (hk k) (by rfl) e
    cases hb with
    | vector h =>
      cases h with
      | replaceAll hd hd' =>
        simp only [vecMeaning, Result.map, Result.gives.injEq, Inst.vector.injEq] at hx
        rw [← hx.1.2]
        exact .replaceAll k hd hd'
  · rintro h1 h2 ⟨x, y, l', rfl⟩
    exact ⟨h1, h2, t, x, y, l', rfl⟩

theorem cut_float {prec : Int} (x : Fl) (k : Nat) : CutShort prec ((fmtFixed prec x).take k) (fmtFixed prec x) := by
  have := CutShort.float (prec := prec) x k .nil
  simpa only [List.append_nil] using this

theorem cuts_of {τ : Type} {S C : Prop} {part : List τ → Prop} {ruin : Prop} {cut : Str → Str → Prop} {prec : Int}
    (h : C → ∀ a b, CutShort prec a b → cut a b) : Cuts ⟨S, part, cut, ruin⟩ C prec := by
  rintro a b (e | ⟨hS, hC, hc⟩)
  · exact .inl e
  · exact .inr ⟨hS, h hC a b hc⟩

theorem receive_sim [PosSort] {A B : List Row} {n : Str} {p : Addr} {m : Mem} {c : Cell} {i : Inst} {f : Supply} {S : Prop}
    (h : Rows m (A ++ ⟨n, p, c, i⟩ :: B)) (hf : Fed S f) (hw : WellTyped i) (cfg : Cfg) (name : Str) (args : List Str) :
    EndSim (allowed S cfg i name args) (fun m' i => ∃ c, Rows m' (A ++ ⟨n, p, c, i⟩ :: B)) (receive cfg p m name args f)
      (@Knuckle.receive Heap.stdSortOf cfg i name args) := by
  letI := Heap.stdSortOf
  obtain ⟨hi, hs⟩ := h.placed ⟨n, p, c, i⟩ (by simp)
  have hA : Placed m A := fun r hr => h.placed r (by simp [hr])
  have hB : Placed m B := fun r hr => h.placed r (by simp [hr])
  obtain ⟨k, hk⟩ : ∃ k, m.cells p = some (c, k) := by
    simp only at hi
    unfold inst at hi
    rcases e : m.cells p with _ | ⟨c', k⟩
    · rw [e] at hi; cases hi
    · rw [e] at hi; cases hi; exact ⟨k, rfl⟩
  have st : ∀ {ε τ : Type} [Entry ε τ] (s : List ε) (l : List τ), c.children = held s → Reads m s l →
      State [] (p :: (ptrs A ++ ptrs B)) m s l := by
    intro ε τ _ s l hc hr
    refine ⟨good_congr h.good ?_, (List.Perm.nodup_iff ?_).1 h.nodup, hr⟩
    · intro a
      simp only [ptrs_append, ptrs_cons, hc, List.count_append, List.count_cons, List.count_nil]
      omega
    · rw [List.perm_iff_count]
      intro a
      simp only [ptrs_append, ptrs_cons, hc, List.count_append, List.count_cons]
      omega
  unfold receive
  rw [hk]
  cases c with
  | obj o =>
    have hs : i = instOf o := hs
    subst hs
    cases o with
    | boolean v =>
      exact end_once (A := allowed S cfg _ name args) hf ⟨_, h⟩ LeftOver.unchanged (Heap.finishObj_sim h Inst.boolean Obj.boolean (fun _ => rfl) (fun _ => rfl) _) (by simp [printsFloat])
    | character v =>
      exact end_once (A := allowed S cfg _ name args) hf ⟨_, h⟩ LeftOver.unchanged (Heap.finishObj_sim h Inst.character Obj.character (fun _ => rfl) (fun _ => rfl) _)
        (by simp [printsFloat])
    | integer v =>
      exact end_once (A := allowed S cfg _ name args) hf ⟨_, h⟩ LeftOver.unchanged (Heap.finishObj_sim h Inst.integer Obj.integer (fun _ => rfl) (fun _ => rfl) _) (by simp [printsFloat])
    | float v =>
      refine end_once (A := allowed S cfg _ name args) hf ⟨_, h⟩ LeftOver.unchanged (Heap.finishObj_sim h Inst.float Obj.float (fun _ => rfl) (fun _ => rfl) _) ?_
      intro hp t b e
      have hn : name = b!"get" := by simpa [printsFloat] using hp
      subst hn
      rcases args with _ | ⟨a, as⟩
      · have e : (Run.ret (Inst.float v) (fmtFixed cfg.prec v) : Run Inst) = .ret t b := e
        cases e
        exact ⟨LeftOver.unchanged, fun k _ => ⟨rfl, cut_float v k⟩⟩
      · have e : (Run.thr (Inst.float v) Exc.wrongNumberOfArguments : Run Inst) = .ret t b := e
        cases e
    | string v =>
      exact end_once (A := allowed S cfg _ name args) hf ⟨_, h⟩ LeftOver.unchanged (Heap.finishObj_sim h Inst.string Obj.string (fun _ => rfl) (fun _ => rfl) _) (by simp [printsFloat])
  | vector et s =>
    cases i with
    | vector et' l =>
      obtain ⟨rfl, hr⟩ := hs
      exact finish_sim (g := .vector et) (k := .vector et) (fun s => by rw [held_addr]; rfl) (fun m s l hr => ⟨rfl, hr⟩)
        (X := ⟨S, fun l' => LeftOver cfg (.vector et l) name args (.vector et l'), (allowed S cfg (.vector et l) name args).cut,
          SortsStrings name args (.vector et l)⟩) rfl (fun _ h => h) rfl id hA hB
        (vector_sim (C := ∃ x, Obj.float x ∈ l) (st s l (by rw [held_addr]; rfl) hr) hf cfg et name args (vecPart_leftOver S cfg hw name args _)
          (cuts_of fun hC a b hc => ⟨hC, hc⟩) fun x hx => ⟨x, hx⟩)
    | _ => exact hs.elim
  | set et s =>
    cases i with
    | set et' l =>
      obtain ⟨rfl, hr⟩ := hs
      exact finish_sim (g := .set et) (k := .set et) (fun s => by rw [held_addr]; rfl) (fun m s l hr => ⟨rfl, hr⟩)
        (X := ⟨S, fun l' => l' = l, (allowed S cfg (.set et l) name args).cut, False⟩) rfl (fun _ h => h ▸ .unchanged) rfl (fun h => h.elim)
        hA hB
        (set_sim (C := ∃ x, Obj.float x ∈ l) (st s l (by rw [held_addr]; rfl) hr) hf rfl cfg et name args
          (cuts_of fun hC a b hc => ⟨hC, hc⟩) fun x hx => ⟨x, hx⟩)
    | _ => exact hs.elim
  | dictionary kt vt s =>
    cases i with
    | dictionary kt' vt' l =>
      obtain ⟨rfl, rfl, hr⟩ := hs
      exact finish_sim (g := .dictionary kt vt) (k := .dictionary kt vt) (fun s => rfl) (fun m s l hr => ⟨rfl, rfl, hr⟩)
        (X := ⟨S, fun l' => l' = l, (allowed S cfg (.dictionary kt vt l) name args).cut, False⟩) rfl (fun _ h => h ▸ .unchanged) rfl
        (fun h => h.elim) hA hB
        (dict_sim (C := ∃ p ∈ l, ∃ x, p.1 = .float x ∨ p.2 = .float x) (st s l rfl hr) hf rfl cfg kt vt name args
          (cuts_of fun hC a b hc => ⟨hC, hc⟩) fun e he x hx => ⟨e, he, x, hx⟩)
    | _ => exact hs.elim

end Knuckle.Scarce
