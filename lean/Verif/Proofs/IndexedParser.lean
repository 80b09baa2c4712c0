/-
The index model of statements and of the parser, and the list model, agree.
-/
import Verif.Proofs.IndexedGrammar

namespace Knuckle.Idx

theorem isKeywordMessage_eqF : ∀ (depth : Nat) {s : Str}, Fits s → s.length < depth → isKeywordMessage depth s = .ok (isKeywordMessageF depth s)
  | 0, s, _, h => by omega
  | depth + 1, s, hs, h => by
    have hs' : s.length < 2147483648 := hs
    rw [isKeywordMessage, isKeywordMessageF, isKeywordMessagePart_eq hs, bind_def, bind_ok]
    split
    · rfl
    have := up_any (n := s.length) (x := true) (y := false) hs'
      (fun i => isSpace (s.getD i 0) && Knuckle.isKeywordMessagePart (s.take i) && isKeywordMessageF depth (Knuckle.ltrim (s.drop (i + 1))))
      (body := fun i (_ : Unit) => do
        if i < size s then
          let c ← «at» s i
          if ← Ix.and (Ix.and (.ok (isSpace c)) ((substr2 s 0 i).bind isKeywordMessagePart))
              ((int (i + 1)).bind fun j => (substr1 s j).bind fun t => (ltrim t).bind (isKeywordMessage depth)) then .ok (.stop true)
          else .ok (.next ())
        else .ok (.stop false))
      (by simp [size_eq hs]) (by
        intro i hi
        have h1 := ltrim_length (s.drop (i + 1))
        have h2 : (s.drop (i + 1)).length < depth := by simp; omega
        rw [size_eq hs, if_pos (by omega), at_nat (by omega), bind_def, bind_ok, substr2_zero, bind_ok, int_ok (by omega) (by omega), bind_ok,
          show (i : Int) + 1 = ((i + 1 : Nat) : Int) by omega, substr1_nat (by omega), bind_ok, ltrim_eq (fits_drop hs _), bind_ok,
          isKeywordMessagePart_eq (fits_take hs _), isKeywordMessage_eqF depth (fits_ltrim (fits_drop hs _)) (by omega), and_ok_ok, and_ok_ok, bind_def, bind_ok])
      s.length 0 (by omega)
    rw [← List.range_eq_range'] at this
    refine this.trans ?_
    cases (List.range s.length).any _ <;> rfl

theorem isKeywordMessage_eq {depth : Nat} {s : Str} (hs : Fits s) (h : s.length < depth) :
    isKeywordMessage depth s = .ok (Knuckle.isKeywordMessage s) := by
  rw [isKeywordMessage_eqF depth hs h, isKeywordMessageF_fuel s depth h]

/-- The text without white space around it, without the semicolon. -/
def core (s : Str) : Str := Knuckle.rtrim ((Knuckle.trim s).take ((Knuckle.trim s).length - 1))

theorem core_length (s : Str) : (core s).length ≤ s.length := by
  unfold core
  refine (rtrim_length _).trans ?_
  rw [List.length_take]
  unfold Knuckle.trim
  have := rtrim_length (Knuckle.ltrim s)
  have := ltrim_length s
  omega

theorem trim_length (s : Str) : (Knuckle.trim s).length ≤ s.length := (rtrim_length _).trans (ltrim_length _)

theorem isStatement_eq {depth : Nat} {s : Str} (hs : Fits s) (h : s.length < depth) : isStatement depth s = .ok (Knuckle.isStatement s) := by
  unfold isStatement Knuckle.isStatement
  have ht := fits_trim hs
  rw [trim_eq hs, bind_def, bind_ok]
  have hlast : Ix.or (.ok ((Knuckle.trim s).length == 0)) ((last (Knuckle.trim s)).bind fun c => .ok (c != c!";")) =
      .ok ((Knuckle.trim s).length == 0 || (Knuckle.trim s).getD ((Knuckle.trim s).length - 1) 0 != c!";") := by
    by_cases h0 : (Knuckle.trim s).length = 0
    · simp [h0]
    · rw [last_eq ht h0, bind_ok, or_ok_ok]
  rw [hlast, bind_def, bind_ok]
  simp only []
  split
  · rfl
  rename_i h1
  have h0 : (Knuckle.trim s).length ≠ 0 := by
    intro h0; simp [h0] at h1
  rw [init_eq ht h0, bind_def, bind_ok, rtrim_eq (fits_take ht _), bind_def, bind_ok]
  have hc : (core s).length ≤ s.length := core_length s
  change up _ _ _ = Ix.ok (statementLoop [] (core s))
  rw [show Knuckle.rtrim ((Knuckle.trim s).take ((Knuckle.trim s).length - 1)) = core s from rfl]
  have hf : Fits (core s) := fits_le hs hc
  have hf' : (core s).length < 2147483648 := hf
  rw [show (0 : Int) = (([] : Str).length : Int) from rfl,
    up_list hf (fun pre suf _ => statementLoop pre suf) (by intro st; simp [size_eq hf, statementLoop]) ?_ (core s) [] () rfl]
  intro pre c cs st e
  have hlt := lt_cons e
  have hpre : Fits pre := fits_le hf (by rw [e]; simp)
  have hcs : Fits cs := fits_le hf (by rw [e]; simp; omega)
  have hcl : cs.length ≤ (core s).length := by rw [e]; simp; omega
  have hm := ltrim_length cs
  simp only [size_eq hf, hlt, if_true, at_cons e, bind_ok, bind_def]
  rw [show ((([] : Str).length : Nat) : Int) = 0 from rfl, substr_to e, bind_ok, isActor_eq hpre, and_ok_ok, bind_ok, statementLoop]
  split
  · right
    rw [int_ok (by omega) (by omega), bind_ok, substr_from e, bind_ok, ltrim_eq hcs, bind_ok, isUnaryMessage_eq (fits_ltrim hcs),
      isKeywordMessage_eq (fits_ltrim hcs) (by omega), or_ok_ok, bind_ok]
  · left; exact ⟨(), rfl, rfl⟩

/-! ### The parser -/

theorem actor_up {t : Str} (ht : Fits t) : ∀ (suf pre actor rest : Str), t = pre ++ suf → actorLoop pre suf = .ok (actor, rest) →
    up (fun i (_ : Unit) => do
      if ← Ix.or ((«at» t i).bind fun c => .ok (!isSpace c)) (Ix.not ((substr2 t 0 i).bind isActor)) then .ok (.next ()) else .ok (.stop i)) pre.length () =
      .ok (actor.length : Int) ∧ ∃ c, t = actor ++ c :: rest
  | [], pre, actor, rest, e, h => by cases h
  | c :: cs, pre, actor, rest, e, h => by
    have ht' : t.length < 2147483648 := ht
    have hlt := lt_cons e
    have hb : ((do
        if ← Ix.or ((«at» t pre.length).bind fun c => .ok (!isSpace c)) (Ix.not ((substr2 t 0 pre.length).bind isActor)) then .ok (.next ()) else .ok (.stop (pre.length : Int))) : Ix (Flow Unit Int)) =
        (if !isSpace c || !Knuckle.isActor pre then Ix.ok (.next ()) else .ok (.stop (pre.length : Int))) := by
      rw [at_cons e, bind_ok, substr_to e, bind_ok, isActor_eq (fits_le ht (by rw [e]; simp)), not_ok, or_ok_ok, bind_def, bind_ok]
    rw [actorLoop] at h
    split at h
    · rename_i hc
      rw [if_pos hc] at hb
      rw [up_next hb (by omega)]
      have := actor_up ht cs (pre ++ [c]) actor rest (by simp [e]) h
      rw [show ((pre ++ [c]).length : Int) = (pre.length : Int) + 1 by simp] at this
      exact this
    · rename_i hc
      rw [if_neg hc] at hb
      cases h
      exact ⟨up_stop hb, c, e⟩

theorem token_up {m : Str} (hm : Fits m) : ∀ (suf p pre tok rest : Str), m = pre ++ (p ++ suf) → tokenLoop p suf = .ok (tok, rest) →
    ∃ k : Nat, up (fun k (_ : Unit) => do
      if ← Ix.and ((«at» m k).bind fun c => .ok (c != c!":")) ((«at» m k).bind fun c => .ok (c != c!"?")) then .ok (.next ())
      else .ok (.stop k)) ((pre.length : Int) + p.length) () = .ok (k : Int) ∧ k + 1 = pre.length + tok.length ∧ pre.length ≤ k ∧ m = pre ++ (tok ++ rest)
  | [], p, pre, tok, rest, e, h => by cases h
  | c :: cs, p, pre, tok, rest, e, h => by
    have hm' : m.length < 2147483648 := hm
    have e' : m = (pre ++ p) ++ c :: cs := by simp [e]
    have hlt := lt_cons e'
    have hidx : (pre.length : Int) + p.length = ((pre ++ p).length : Int) := by simp
    have hb : ((do
        if ← Ix.and ((«at» m ((pre.length : Int) + p.length)).bind fun c => .ok (c != c!":")) ((«at» m ((pre.length : Int) + p.length)).bind fun c => .ok (c != c!"?")) then .ok (.next ())
        else .ok (.stop ((pre.length : Int) + p.length))) : Ix (Flow Unit Int)) =
        (if c != c!":" && c != c!"?" then Ix.ok (.next ()) else .ok (.stop ((pre.length : Int) + p.length))) := by
      rw [hidx, at_cons e', bind_ok, bind_ok, and_ok_ok, bind_def, bind_ok]
    rw [tokenLoop] at h
    split at h
    · rename_i hc
      rw [if_pos hc] at hb
      rw [up_next hb (by omega)]
      have := token_up hm cs (p ++ [c]) pre tok rest (by simp [e]) h
      rw [show (pre.length : Int) + ((p ++ [c]).length : Int) = (pre.length : Int) + p.length + 1 by simp; ring] at this
      exact this
    · rename_i hc
      rw [if_neg hc] at hb
      cases h
      exact ⟨pre.length + p.length, by rw [up_stop hb]; rfl, by simp; omega, by omega, by simp [e]⟩

theorem space_up {m : Str} (hm : Fits m) {pre suf : Str} (e : m = pre ++ suf) :
    up (fun k (_ : Unit) => do
      let c ← «at» m k
      if isSpace c then .ok (.next ()) else .ok (.stop k)) (pre.length : Int) () = .ok ((pre.length + (suf.length - (Knuckle.ltrim suf).length) : Nat) : Int) := by
  refine up_list hm (fun pre suf _ => ((pre.length + (suf.length - (Knuckle.ltrim suf).length) : Nat) : Int)) ?_ ?_ suf pre () e
  · intro st
    rw [at_nat (by omega), bind_def, bind_ok]
    have : m.getD m.length 0 = 0 := by simp
    rw [this]
    simp [isSpace]
  · intro pre c cs st e
    simp only [at_cons e, bind_ok, bind_def]
    cases h : isSpace c
    · right; simp [Knuckle.ltrim, h]
    · left
      have := ltrim_length cs
      exact ⟨(), rfl, by simp [Knuckle.ltrim, h]; omega⟩

theorem space_up' {m : Str} (hm : Fits m) {pre suf : Str} (e : m = pre ++ suf) :
    up (fun k (_ : Unit) => do
      if ← Ix.and (.ok (decide (k < size m))) ((«at» m k).bind fun c => .ok (isSpace c)) then .ok (.next ()) else .ok (.stop k)) (pre.length : Int) () =
      .ok ((pre.length + (suf.length - (Knuckle.ltrim suf).length) : Nat) : Int) := by
  refine up_list hm (fun pre suf _ => ((pre.length + (suf.length - (Knuckle.ltrim suf).length) : Nat) : Int)) ?_ ?_ suf pre () e
  · intro st
    simp [size_eq hm]
  · intro pre c cs st e
    simp only [size_eq hm, lt_cons e, decide_true, and_ok, if_true, at_cons e, bind_ok, bind_def]
    cases h : isSpace c
    · right; simp [Knuckle.ltrim, h]
    · left
      have := ltrim_length cs
      exact ⟨(), rfl, by simp [Knuckle.ltrim, h]; omega⟩

theorem argLoop_split : ∀ (suf p : Str), (argLoop p suf).1 ++ (argLoop p suf).2 = p ++ suf
  | [], p => by simp [argLoop]
  | c :: cs, p => by
    rw [argLoop]
    split
    · rw [argLoop_split cs (p ++ [c])]; simp
    · rfl

theorem arg_up {m : Str} (hm : Fits m) {pre : Str} : ∀ (suf p : Str), m = pre ++ (p ++ suf) →
    up (fun k (_ : Unit) => do
        if ← Ix.and (.ok (decide (k < size m))) (Ix.or ((«at» m k).bind fun c => .ok (!isSpace c))
            (Ix.not ((int (k - (pre.length : Int))).bind fun n => (substr2 m (pre.length : Int) n).bind isKeywordMessageArgument))) then .ok (.next ())
        else .ok (.stop k)) ((pre.length : Int) + p.length) () = .ok ((pre.length + (argLoop p suf).1.length : Nat) : Int)
  | [], p, e => by
    have hl : m.length = pre.length + p.length := by rw [e]; simp
    refine (up_stop (b := (pre.length : Int) + p.length) ?_).trans ?_
    · rw [size_eq hm, and_ok, if_neg (by simp; omega)]; rfl
    · simp [argLoop]
  | c :: cs, p, e => by
    have hm' : m.length < 2147483648 := hm
    have e' : m = (pre ++ p) ++ c :: cs := by simp [e]
    have hlt := lt_cons e'
    have hidx : (pre.length : Int) + p.length = ((pre ++ p).length : Int) := by simp
    have hp : Fits p := fits_le hm (by rw [e]; simp; omega)
    have hsub : substr2 m (pre.length : Int) (p.length : Int) = .ok p := by
      rw [substr2_nat (by rw [e]; simp), e]; simp
    have hb : ((do
        if ← Ix.and (.ok (decide ((pre.length : Int) + p.length < size m))) (Ix.or ((«at» m ((pre.length : Int) + p.length)).bind fun c => .ok (!isSpace c))
            (Ix.not ((int ((pre.length : Int) + p.length - (pre.length : Int))).bind fun n => (substr2 m (pre.length : Int) n).bind isKeywordMessageArgument))) then .ok (.next ())
        else .ok (.stop ((pre.length : Int) + p.length))) : Ix (Flow Unit Int)) =
        (if !isSpace c || !Knuckle.isKeywordMessageArgument p then Ix.ok (.next ()) else .ok (.stop ((pre.length : Int) + p.length))) := by
      rw [size_eq hm, and_ok, if_pos (by simp only [decide_eq_true_eq]; omega), hidx, at_cons e', bind_ok,
        show ((pre ++ p).length : Int) - pre.length = (p.length : Int) by simp, int_ok (by omega) (by simp at hlt; omega), bind_ok, hsub, bind_ok,
        isKeywordMessageArgument_eq hp, not_ok, or_ok_ok, bind_def, bind_ok]
    rw [argLoop]
    split
    · rename_i hc
      rw [if_pos hc] at hb
      rw [up_next hb (by omega)]
      have := arg_up hm (pre := pre) cs (p ++ [c]) (by simp [e])
      rw [show (pre.length : Int) + ((p ++ [c]).length : Int) = (pre.length : Int) + p.length + 1 by simp; ring] at this
      exact this
    · rename_i hc
      rw [if_neg hc] at hb
      rw [up_stop hb]; rfl

theorem ltrim_split (s : Str) : ∃ w, s = w ++ Knuckle.ltrim s ∧ w.length = s.length - (Knuckle.ltrim s).length := by
  refine ⟨s.take (s.length - (Knuckle.ltrim s).length), ?_, by simp⟩
  conv_lhs => rw [← List.take_append_drop (s.length - (Knuckle.ltrim s).length) s, ltrim_drop]

theorem parts_eq {m : Str} (hm : Fits m) : ∀ (fuel : Nat) (suf pre name : Str) (args : List Str) (r : Str × List Str), m = pre ++ suf →
    partsLoop fuel suf name args = .ok r → parts m pre.length name args = .ok r := by
  have hm' : m.length < 2147483648 := hm
  intro fuel
  induction fuel with
  | zero =>
    intro suf pre name args r e h
    cases suf with
    | nil =>
      rw [partsLoop] at h
      rw [List.append_nil] at e
      rw [parts, size_eq hm, if_neg (by rw [e]; omega)]
      cases h; rfl
    | cons c cs => cases h
  | succ fuel ih =>
    intro suf pre name args r e h
    cases suf with
    | nil =>
      rw [partsLoop] at h
      rw [List.append_nil] at e
      rw [parts, size_eq hm, if_neg (by rw [e]; omega)]
      cases h; rfl
    | cons c cs =>
      rw [partsLoop] at h
      cases ht : tokenLoop [] (c :: cs) with
      | ub => rw [ht] at h; cases h
      | err x => rw [ht] at h; cases h
      | ok tr =>
        obtain ⟨tok, rest⟩ := tr
        rw [ht] at h
        replace h : partsLoop fuel (Knuckle.ltrim (argLoop [] (Knuckle.ltrim rest)).2) (name ++ tok) (args ++ [(argLoop [] (Knuckle.ltrim rest)).1]) = .ok r := h
        obtain ⟨k, hk1, hk2, hk0, hk3⟩ := token_up hm (c :: cs) [] pre tok rest (by simpa using e) ht
        simp only [List.length_nil, Nat.cast_zero, Int.add_zero] at hk1
        have hmlen : pre.length + tok.length + rest.length = m.length := by rw [hk3]; simp; omega
        -- the token
        have htok : substr2 m (pre.length : Int) (tok.length : Int) = .ok tok := by
          rw [substr2_nat (by omega), hk3]; simp
        -- the white space after it
        have hsp := space_up hm (pre := pre ++ tok) (suf := rest) (by simp [hk3])
        obtain ⟨w, hw1, hw2⟩ := ltrim_split rest
        have hk4 : m = (pre ++ tok ++ w) ++ ([] ++ Knuckle.ltrim rest) := by
          rw [hk3]; conv_lhs => rw [hw1]
          simp
        have hp1 : (((pre ++ tok).length + (rest.length - (Knuckle.ltrim rest).length) : Nat) : Int) = ((pre ++ tok ++ w).length : Int) := by
          rw [← hw2]; simp; ring
        rw [hp1] at hsp
        -- the argument
        have harg := arg_up hm (pre := pre ++ tok ++ w) (Knuckle.ltrim rest) [] hk4
        simp only [List.length_nil, Nat.cast_zero, Int.add_zero] at harg
        have hsplit := argLoop_split (Knuckle.ltrim rest) []
        rw [List.nil_append] at hsplit
        generalize hA : argLoop [] (Knuckle.ltrim rest) = A at *
        have hk5 : m = (pre ++ tok ++ w ++ A.1) ++ A.2 := by rw [hk4, List.nil_append, ← hsplit]; simp
        have hargs : substr2 m ((pre ++ tok ++ w).length : Int) (A.1.length : Int) = .ok A.1 := by
          rw [substr2_nat (by rw [hk5]; simp), hk5]
          simp
        have hsp2 := space_up' hm (pre := pre ++ tok ++ w ++ A.1) (suf := A.2) hk5
        obtain ⟨w', hw1', hw2'⟩ := ltrim_split A.2
        have hk6 : m = (pre ++ tok ++ w ++ A.1 ++ w') ++ Knuckle.ltrim A.2 := by
          rw [hk5]; conv_lhs => rw [hw1']
          simp
        have hp2 : (((pre ++ tok ++ w ++ A.1).length + (A.2.length - (Knuckle.ltrim A.2).length) : Nat) : Int) = ((pre ++ tok ++ w ++ A.1 ++ w').length : Int) := by
          rw [← hw2']; simp; ring
        rw [hp2] at hsp2
        have hlen6 : (pre ++ tok ++ w ++ A.1 ++ w').length ≤ m.length := by rw [hk6]; simp
        simp only [List.length_append] at hlen6
        rw [parts, size_eq hm, if_pos (by rw [e]; simp)]
        have e1 : int ((k : Int) + 1) = .ok (((pre ++ tok).length : Nat) : Int) := by
          rw [int_ok (by omega) (by omega)]; congr 1; simp only [List.length_append]; omega
        have e2 : int ((((pre ++ tok).length : Nat) : Int) - (pre.length : Int)) = .ok (tok.length : Int) := by
          rw [show (((pre ++ tok).length : Nat) : Int) - (pre.length : Int) = tok.length by simp only [List.length_append]; omega, int_ok (by omega) (by omega)]
        have e3 : int ((((pre ++ tok ++ w).length + A.1.length : Nat) : Int) - ((pre ++ tok ++ w).length : Int)) = .ok (A.1.length : Int) := by
          rw [show (((pre ++ tok ++ w).length + A.1.length : Nat) : Int) - ((pre ++ tok ++ w).length : Int) = A.1.length by omega,
            int_ok (by omega) (by omega)]
        have hlt : (pre.length : Int) < ((pre ++ tok ++ w ++ A.1 ++ w').length : Int) := by simp only [List.length_append]; omega
        have e4 : (((pre ++ tok ++ w).length + A.1.length : Nat) : Int) = ((pre ++ tok ++ w ++ A.1).length : Int) := by simp only [List.length_append]
        rw [← e4] at hsp2
        have hit : iteration m pre.length = .ok (((pre ++ tok ++ w ++ A.1 ++ w').length : Int), tok, A.1) := by
          unfold iteration
          rw [hk1, bind_def, bind_ok, e1, bind_def, bind_ok, e2, bind_def, bind_ok, htok, bind_def, bind_ok, hsp, bind_def, bind_ok]
          dsimp only
          rw [harg, bind_def, bind_ok, e3, bind_def, bind_ok, hargs, bind_def, bind_ok, hsp2, bind_def, bind_ok]
        rw [hit]
        dsimp only
        rw [if_pos hlt]
        exact ih _ _ _ _ r hk6 h

theorem parse_invalid {depth : Nat} {s : Str} (hd : isStatement depth s = .ok (Knuckle.isStatement s)) (h : Knuckle.isStatement s = false) :
    parse depth s = .throws .invalidStatement := by
  unfold parse
  rw [hd, h, not_ok, bind_def, bind_ok]
  rfl

theorem statement_nonempty {s : Str} (h : Knuckle.isStatement s = true) : (Knuckle.trim s).length ≠ 0 := by
  intro h0
  unfold Knuckle.isStatement at h
  simp [h0] at h

theorem parse_ok {depth : Nat} {s : Str} {p : Parsed} (hs : Fits s) (hd : isStatement depth s = .ok (Knuckle.isStatement s)) (h : Knuckle.parse s = .ok p) :
    parse depth s = .ok p := by
  unfold Knuckle.parse at h
  cases hst : Knuckle.isStatement s with
  | false => rw [hst] at h; cases h
  | true =>
    rw [hst] at h
    have h0 := statement_nonempty hst
    have ht := fits_trim hs
    have hf : Fits (core s) := fits_le hs (core_length s)
    replace h : ((actorLoop [] (core s)).bind fun (actor, rest) =>
        if Knuckle.isUnaryMessage (Knuckle.ltrim rest) then Res.ok ⟨actor, Knuckle.ltrim rest, []⟩
        else (partsLoop (Knuckle.ltrim rest).length (Knuckle.ltrim rest) [] []).bind fun (name, args) => Res.ok ⟨actor, name, args⟩) = .ok p := h
    cases ha : actorLoop [] (core s) with
    | ub => rw [ha] at h; cases h
    | err x => rw [ha] at h; cases h
    | ok ar =>
      obtain ⟨actor, rest⟩ := ar
      rw [ha] at h
      replace h : (if Knuckle.isUnaryMessage (Knuckle.ltrim rest) then Res.ok ⟨actor, Knuckle.ltrim rest, []⟩
        else (partsLoop (Knuckle.ltrim rest).length (Knuckle.ltrim rest) [] []).bind fun (name, args) => Res.ok (⟨actor, name, args⟩ : Parsed)) = .ok p := h
      obtain ⟨hup, c, hsp⟩ := actor_up hf (core s) [] actor rest rfl ha
      have hlt := lt_cons hsp
      have hf' : (core s).length < 2147483648 := hf
      have hrest : Fits rest := fits_le hf (by rw [hsp]; simp; omega)
      have hm := fits_ltrim hrest
      unfold parse
      rw [hd, hst, not_ok, bind_def, bind_ok, if_neg (by simp), trim_eq hs, bind_def, bind_ok, init_eq ht h0, bind_def, bind_ok,
        rtrim_eq (fits_take ht _), bind_def, bind_ok, show Knuckle.rtrim ((Knuckle.trim s).take ((Knuckle.trim s).length - 1)) = core s from rfl]
      rw [show ((([] : Str).length : Nat) : Int) = 0 from rfl] at hup
      rw [hup, bind_def, bind_ok,
        substr_to hsp, bind_def, bind_ok, int_ok (by omega) (by omega), bind_def, bind_ok, substr_from hsp, bind_def, bind_ok,
        ltrim_eq hrest, bind_def, bind_ok, isUnaryMessage_eq hm, bind_def, bind_ok]
      cases hu : Knuckle.isUnaryMessage (Knuckle.ltrim rest) with
      | true => rw [hu, if_pos rfl] at h; rw [if_pos rfl]; cases h; rfl
      | false =>
        rw [hu, if_neg (by simp)] at h
        rw [if_neg (by simp)]
        cases hp : partsLoop (Knuckle.ltrim rest).length (Knuckle.ltrim rest) [] [] with
        | ub => rw [hp] at h; cases h
        | err x => rw [hp] at h; cases h
        | ok na =>
          rw [hp] at h
          rw [show (0 : Int) = (([] : Str).length : Int) from rfl, parts_eq hm _ _ [] [] [] na rfl hp, bind_def, bind_ok]
          cases h; rfl

/-! ### Texts that are too long -/

theorem size_long {s : Str} (h : 2147483648 ≤ s.length) (h' : s.length < 4294967296) : size s = (s.length : Int) - 4294967296 := by
  unfold size toInt
  rw [Nat.mod_eq_of_lt h', if_neg (by omega)]

theorem ltrim_long {s : Str} (h : 2147483648 ≤ s.length) (h' : s.length < 4294967296) : ltrim s = .ok s := by
  unfold ltrim
  rw [up_stop (b := (0 : Int)) (by rw [size_long h h', and_ok, if_neg (by simp; omega)]; rfl), bind_def, bind_ok]
  unfold substr1
  simp

theorem toSize_neg {x : Int} (h : x < 0) (h' : -4294967296 ≤ x) : 4294967296 < toSize x := by
  unfold toSize
  rw [if_neg (by omega)]
  omega

theorem rtrim_long {s : Str} (h : 2147483648 < s.length) (h' : s.length < 4294967296) : rtrim s = .ok s := by
  unfold rtrim
  rw [size_long (by omega) h', int_ok (by omega) (by omega), bind_def, bind_ok,
    down_stop (b := (s.length : Int) - 4294967296 - 1) (by rw [and_ok, if_neg (by simp; omega)]; rfl), bind_def, bind_ok,
    int_ok (by omega) (by omega), bind_def, bind_ok]
  unfold substr2
  rw [toSize_zero, if_pos (by omega), List.drop_zero, List.take_of_length_le]
  have := toSize_neg (x := (s.length : Int) - 4294967296 - 1 + 1) (by omega) (by omega)
  omega

theorem trim_longest {s : Str} (h : s.length = 2147483648) : trim s = .ub := by
  unfold trim
  rw [ltrim_long (by omega) (by omega), bind_def, bind_ok]
  unfold rtrim
  rw [size_long (by omega) (by omega)]
  unfold int
  rw [if_neg (by omega)]
  rfl

theorem isStatement_long {depth : Nat} {s : Str} (h : 2147483648 ≤ s.length) (h' : s.length < 4294967296) : isStatement depth s = .ub := by
  unfold isStatement
  rcases Nat.lt_or_ge 2147483648 s.length with hl | hl
  · have ht : trim s = .ok s := by
      unfold trim
      rw [ltrim_long h h', bind_def, bind_ok, rtrim_long hl h']
    have hlast : last s = .ub := by
      unfold last
      rw [size_long h h', int_ok (by omega) (by omega), bind_def, bind_ok]
      unfold «at»
      have := toSize_neg (x := (s.length : Int) - 4294967296 - 1) (by omega) (by omega)
      rw [if_neg (by omega)]
    rw [ht, bind_def, bind_ok, hlast, or_ok, if_neg (by simp only [beq_iff_eq]; omega)]
    rfl
  · rw [trim_longest (by omega)]
    rfl

theorem parse_long {depth : Nat} {s : Str} (h : 2147483648 ≤ s.length) (h' : s.length < 4294967296) : parse depth s = .ub := by
  unfold parse
  rw [isStatement_long h h']
  rfl

end Knuckle.Idx
