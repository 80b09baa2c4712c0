/-
The index model of the grammar and the parser, and the list model, agree.
-/
import Verif.Proofs.Indexed
import Verif.Proofs.Parser

namespace Knuckle.Idx

theorem fits_le {s t : Str} (h : Fits s) (e : t.length ≤ s.length) : Fits t := lt_of_le_of_lt e h
theorem fits_take {s : Str} (h : Fits s) (n : Nat) : Fits (s.take n) := fits_le h (by simp)
theorem fits_drop {s : Str} (h : Fits s) (n : Nat) : Fits (s.drop n) := fits_le h (by simp)

theorem isCharacterValue_eq (s : Str) : isCharacterValue s = .ok (Knuckle.isCharacterValue s) := by
  unfold isCharacterValue Knuckle.isCharacterValue
  split
  · rfl
  rename_i h
  have h : s.length = 3 := by simpa using h
  rw [show (0 : Int) = ((0 : Nat) : Int) from rfl, at_nat (by omega), bind_ok, show (2 : Int) = ((2 : Nat) : Int) from rfl, at_nat (by omega), bind_ok,
    and_ok_ok]

theorem isIntegerValue_eq {s : Str} (hs : Fits s) : isIntegerValue s = .ok (Knuckle.isIntegerValue s) := by
  cases s with
  | nil => rfl
  | cons c cs =>
    have h0 : «at» (c :: cs) 0 = .ok c := at_pre [] c cs
    unfold isIntegerValue
    rw [if_neg (by simp), h0, bind_def, bind_ok, Knuckle.isIntegerValue]
    split
    · rfl
    rw [bind_def, show (1 : Int) = (([c] : Str).length : Int) from rfl,
      up_list hs (fun _ suf _ => if suf.any fun d => !isNumeric d then some false else none)
        (by intro st; simp [size_eq hs]) ?_ cs [c] () rfl]
    · rw [bind_ok]
      cases h : cs.any fun d => !isNumeric d
      · simp [h]
      · simp [h]
    · intro pre d ds st e
      simp only [size_eq hs, lt_cons e, if_true, at_cons e, bind_ok, bind_def]
      cases h : isNumeric d
      · right; simp [h]
      · left; exact ⟨(), by simp, by simp [h]⟩

theorem isFloatValue_eq {s : Str} (hs : Fits s) : isFloatValue s = .ok (Knuckle.isFloatValue s) := by
  cases s with
  | nil => rfl
  | cons c cs =>
    have h0 : «at» (c :: cs) 0 = .ok c := at_pre [] c cs
    have hs' : (c :: cs).length < 2147483648 := hs
    unfold isFloatValue
    rw [if_neg (by simp), h0, bind_def, bind_ok]
    have key := up_inv (s := c :: cs) (body := fun i (cp, cn) => do
      if i < size (c :: cs) then
        let d ← «at» (c :: cs) i
        if !isNumeric d && d != c!"." then
          if d != c!"e" then .ok (.stop false)
          else
            let b ← Ix.and (.ok (decide (cp ≤ 1) && decide (cn > 0))) ((int (i + 1)).bind fun j => (substr1 (c :: cs) j).bind isIntegerValue)
            .ok (.stop b)
        else
          let cp ← if d == c!"." then int (cp + 1) else .ok cp
          let cn ← if isNumeric d then int (cn + 1) else .ok cn
          .ok (.next (cp, cn))
      else .ok (.stop (decide (cp ≤ 1) && decide (cn > 0)))) hs
      (fun pre (x : Int × Int) => 0 ≤ x.1 ∧ x.1 ≤ pre.length ∧ 0 ≤ x.2 ∧ x.2 ≤ pre.length)
      (fun _ suf x => floatLoop suf x.1.toNat x.2.toNat)
      (by
        rintro ⟨cp, cn⟩ ⟨i1, i2, i3, i4⟩
        simp only [size_eq hs, lt_irrefl, if_false, floatLoop]
        simp only at i1 i2 i3 i4
        congr 3
        · simp
        · simp)
      (by
        rintro pre d ds ⟨cp, cn⟩ e ⟨i1, i2, i3, i4⟩
        simp only at i1 i2 i3 i4
        have hl := lt_cons e
        simp only [size_eq hs, hl, if_true, at_cons e, bind_ok, bind_def]
        rw [floatLoop]
        have hds : Fits ds := fits_le hs (by rw [e]; simp; omega)
        split
        · right
          split
          · rfl
          · rw [int_ok (x := (pre.length : Int) + 1) (by omega) (by omega), bind_ok, substr_from e, bind_ok, isIntegerValue_eq hds, and_ok_ok, bind_ok]
            congr 4
            · simp
            · simp
        · left
          refine ⟨(if d == c!"." then cp + 1 else cp, if isNumeric d then cn + 1 else cn), ?_, ?_, ?_⟩
          · rw [int_ok (x := cp + 1) (by omega) (by omega), int_ok (x := cn + 1) (by omega) (by omega)]
            by_cases p : (d == c!".") = true <;> by_cases q : isNumeric d = true <;> simp [p, q]
          · simp only [List.length_append, List.length_singleton, Nat.cast_add, Nat.cast_one]
            refine ⟨?_, ?_, ?_, ?_⟩ <;> split <;> omega
          · simp only
            congr 1
            · split <;> omega
            · split <;> omega)
    rw [Knuckle.isFloatValue]
    split
    · exact key cs [c] (0, 0) rfl ⟨by simp, by simp, by simp, by simp⟩
    · exact key (c :: cs) [] (0, 0) rfl ⟨by simp, by simp, by simp, by simp⟩

theorem tmod_two (d : Nat) : ((d : Int).tmod 2 == 1) = (d % 2 == 1) := by
  rw [Int.tmod_eq_emod_of_nonneg (by omega)]
  by_cases h : d % 2 = 1
  · rw [h, show ((d : Int) % 2) = 1 by omega]; rfl
  · rw [show d % 2 = 0 by omega, show ((d : Int) % 2) = 0 by omega]; rfl

theorem quoteLoop_eq {s : Str} (hs : Fits s) {i : Nat} (hi' : i < s.length) :
    quoteLoop s i = .ok (if quoteOk (scanBack (s.take i).reverse 1) then none else some false) := by
  have hs' : s.length < 2147483648 := hs
  unfold quoteLoop
  rw [bind_def, int_ok (by omega) (by omega), bind_ok]
  have key := down_list (s := s.take i) (base := []) (fits_take hs i) (body := fun j (_ : Unit) => do
    if 0 ≤ j then
      let c ← «at» s j
      if c != c!"\\" then
        let d ← int (i - j)
        if d.tmod 2 == 1 then .ok (.stop (some false)) else .ok (.stop none)
      else .ok (.next ())
    else .ok (.stop none))
    (fun l _ => if quoteOk (scanBack l (i + 1 - l.length)) then none else some false)
    (by intro st; simp [scanBack, quoteOk])
    (by
      intro c l suf st e
      have e : s.take i = l.reverse ++ c :: suf := by simpa using e
      have hl : l.length < i := by
        have := congrArg List.length e
        simp at this; omega
      have hat : «at» s (l.length : Int) = .ok c := by
        have := at_cons (s := s) (pre := l.reverse) (c := c) (cs := suf ++ s.drop i) (by
          conv_lhs => rw [← List.take_append_drop i s, e]
          simp)
        simpa using this
      simp only [List.length_nil, Nat.cast_zero, Int.zero_add, hat, bind_ok, bind_def, show (0 : Int) ≤ l.length by omega, if_true]
      cases h : c != c!"\\"
      · left; exact ⟨(), by simp, by
          have e1 : scanBack (c :: l) (i + 1 - (c :: l).length) = scanBack l (i + 1 - l.length) := by
            rw [scanBack, h, List.length_cons, show i + 1 - (l.length + 1) + 1 = i + 1 - l.length by omega]
            rfl
          rw [e1]⟩
      · right
        rw [int_ok (by omega) (by omega), bind_ok, show (i : Int) - l.length = ((i - l.length : Nat) : Int) by omega, tmod_two]
        have e1 : scanBack (c :: l) (i + 1 - (c :: l).length) = some (i - l.length) := by
          rw [scanBack, h, List.length_cons, show i + 1 - (l.length + 1) = i - l.length by omega]
          rfl
        rw [e1, quoteOk]
        by_cases p : (i - l.length) % 2 = 1 <;> simp [p]) (s.take i).reverse [] () (by simp)
  have hlen : ((s.take i).reverse).length = i := by simp; omega
  rw [hlen, show i + 1 - i = 1 by omega] at key
  rw [← key]
  congr 1
  simp

theorem endLoop_eq {s : Str} (hs : Fits s) (h2 : 2 ≤ s.length) :
    down (fun i (_ : Unit) => do
      if 0 < i then
        let c ← «at» s i
        if c != c!"\\" then
          let a ← int (size s - 1)
          let d ← int (a - i)
          .ok (.stop (some (d.tmod 2 == 1)))
        else .ok (.next ())
      else .ok (.stop none)) ((s.length : Int) - 2) () =
    .ok ((scanBack ((s.take (s.length - 1)).drop 1).reverse 1).map fun d => d % 2 == 1) := by
  have hs' : s.length < 2147483648 := hs
  obtain ⟨q, r, rfl⟩ : ∃ q r, s = q :: r := by
    cases s with
    | nil => simp at h2
    | cons q r => exact ⟨q, r, rfl⟩
  have key := down_list (s := q :: r) (base := [q]) hs (body := fun i (_ : Unit) => do
      if 0 < i then
        let c ← «at» (q :: r) i
        if c != c!"\\" then
          let a ← int (size (q :: r) - 1)
          let d ← int (a - i)
          .ok (.stop (some (d.tmod 2 == 1)))
        else .ok (.next ())
      else .ok (.stop none))
    (fun l _ => (scanBack l ((q :: r).length - 1 - l.length)).map fun d => d % 2 == 1)
    (by intro st; simp [scanBack])
    (by
      intro c l suf st e
      have hl : l.length + 1 < (q :: r).length := by
        have := congrArg List.length e
        simp at this; simp; omega
      have hat : «at» (q :: r) ((([q] : Str).length : Int) + l.length) = .ok c := by
        have := at_cons (s := q :: r) (pre := [q] ++ l.reverse) (c := c) (cs := suf) (by simpa using e)
        rw [← this]; congr 1; simp; omega
      have hpos : (0 : Int) < (([q] : Str).length : Int) + l.length := by simp; omega
      simp only [hat, hpos, if_true, bind_ok, bind_def, size_eq hs]
      cases h : c != c!"\\"
      · left; exact ⟨(), by simp, by
          have e1 : scanBack (c :: l) ((q :: r).length - 1 - (c :: l).length) = scanBack l ((q :: r).length - 1 - l.length) := by
            rw [scanBack, h, List.length_cons (as := l), show (q :: r).length - 1 - (l.length + 1) + 1 = (q :: r).length - 1 - l.length by omega]
            rfl
          rw [e1]⟩
      · right
        rw [int_ok (by omega) (by omega), bind_ok, int_ok (by simp at hl hs' ⊢; omega) (by simp at hl hs' ⊢; omega), bind_ok,
          show ((q :: r).length : Int) - 1 - ((([q] : Str).length : Int) + l.length) = (((q :: r).length - 1 - (l.length + 1) : Nat) : Int) by simp at hl ⊢; omega, tmod_two]
        have e1 : scanBack (c :: l) ((q :: r).length - 1 - (c :: l).length) = some ((q :: r).length - 1 - (l.length + 1)) := by
          rw [scanBack, h, List.length_cons (as := l)]
          rfl
        rw [e1]
        simp) (((q :: r).take ((q :: r).length - 1)).drop 1).reverse ((q :: r).drop ((q :: r).length - 1)) () (by
          rw [List.reverse_reverse]
          conv_lhs => rw [← List.take_append_drop ((q :: r).length - 1) (q :: r)]
          rw [← List.append_assoc]
          congr 1
          cases hr : r with
          | nil => simp [hr] at h2
          | cons x y => simp)
  have hlen : (((q :: r).take ((q :: r).length - 1)).drop 1).reverse.length = (q :: r).length - 2 := by simp
  rw [hlen, show (q :: r).length - 1 - ((q :: r).length - 2) = 1 by omega] at key
  rw [← key]
  congr 1
  simp only [List.length_singleton]
  omega

theorem isStringValue_eq {s : Str} (hs : Fits s) : isStringValue s = .ok (Knuckle.isStringValue s) := by
  have hs' : s.length < 2147483648 := hs
  unfold isStringValue Knuckle.isStringValue
  split
  · rfl
  rename_i h2
  have h2 : 2 ≤ s.length := by omega
  have hn : int (size s - 1) = .ok ((s.length - 1 : Nat) : Int) := by
    rw [size_eq hs, int_ok (by omega) (by omega)]; congr 1; omega
  rw [bind_def, hn, bind_ok, show (0 : Int) = ((0 : Nat) : Int) from rfl, at_nat (by omega), bind_ok, at_nat (by omega), bind_ok, or_ok_ok, bind_def, bind_ok]
  split
  · rfl
  have hloop := up_any (n := s.length - 1) (x := some false) (y := (none : Option Bool)) (by omega)
    (fun i => s.getD i 0 == c!"\"" && !quoteOk (scanBack (s.take i).reverse 1))
    (body := fun i (_ : Unit) => do
      let n ← int (size s - 1)
      if i < n then
        let c ← «at» s i
        if c == c!"\"" then
          match ← quoteLoop s i with
          | some b => .ok (.stop (some b))
          | none => .ok (.next ())
        else .ok (.next ())
      else .ok (.stop none))
    (by rw [hn]; simp) (by
      intro i hi
      have hlt : (i : Int) < ((s.length - 1 : Nat) : Int) := by omega
      simp only [hn, bind_def, bind_ok, hlt, if_true, at_nat (s := s) (i := i) (by omega), quoteLoop_eq hs (i := i) (by omega)]
      cases h : s.getD i 0 == c!"\"" <;> cases h' : quoteOk (scanBack (s.take i).reverse 1) <;> simp) (s.length - 2) 1 (by omega)
  rw [hn] at hloop
  refine (congrArg (fun x => Ix.bind x _) hloop).trans ?_
  rw [bind_ok, List.all_eq_not_any_not, Bool.not_not]
  have hsame : (List.range' 1 (s.length - 2)).any (fun i => s.getD i 0 == c!"\"" && !quoteOk (scanBack (s.take i).reverse 1)) =
      (List.range' 1 (s.length - 2)).any (fun i => !(if s.getD i 0 == c!"\"" then quoteOk (scanBack (s.take i).reverse 1) else true)) := by
    congr 1
    funext i
    cases s.getD i 0 == c!"\"" <;> simp
  rw [hsame]
  cases h : (List.range' 1 (s.length - 2)).any (fun i => !(if s.getD i 0 == c!"\"" then quoteOk (scanBack (s.take i).reverse 1) else true))
  swap
  · rfl
  · simp only [Bool.false_eq_true, if_false]
    rw [size_eq hs, bind_def, int_ok (by omega) (by omega), bind_ok, bind_def]
    have := endLoop_eq hs h2
    rw [hn] at this
    refine (congrArg (fun x => Ix.bind x _) this).trans ?_
    rw [bind_ok]
    cases scanBack ((s.take (s.length - 1)).drop 1).reverse 1 <;> rfl

theorem isObjectValue_eq {s : Str} (hs : Fits s) : isObjectValue s = .ok (Knuckle.isObjectValue s) := by
  unfold isObjectValue Knuckle.isObjectValue
  rw [isCharacterValue_eq, isIntegerValue_eq hs, isFloatValue_eq hs, isStringValue_eq hs, or_ok_ok, or_ok_ok, or_ok_ok, or_ok_ok]

/-- Between brackets. -/
theorem bracket_length {s p : Str} (h : Knuckle.startsWith s p = true) (h' : Knuckle.endsWith s b!">" = true) (hp : c!">" ∉ p) :
    p.length + 1 ≤ s.length := by
  obtain ⟨r, h1⟩ := (startsWith_iff _ _).1 h
  obtain ⟨r', h2⟩ := (endsWith_iff _ _).1 h'
  by_contra hn
  have : r = [] := by
    have := congrArg List.length h1
    simp at this
    exact List.eq_nil_of_length_eq_zero (by omega)
  rw [this, List.append_nil] at h1
  exact hp (by rw [← h1, h2]; simp)

theorem bracket_eq {s p : Str} (hs : Fits s) {k n : Nat} (hk : k = p.length) (hn : n = p.length + 1) (hp : c!">" ∉ p) :
    (do
      if ← Ix.or (Ix.not (startsWith s p)) (Ix.not (endsWith s b!">")) then .ok false
      else
        let n ← int (size s - (n : Int))
        let t ← substr2 s (k : Int) n
        let t ← trim t
        .ok (isObjectType t)) =
    Ix.ok (if !Knuckle.startsWith s p || !Knuckle.endsWith s b!">" then false else isObjectType (Knuckle.trim (substr s k (s.length - n)))) := by
  have hs' : s.length < 2147483648 := hs
  rw [startsWith_eq hs, endsWith_eq hs, not_ok, not_ok, or_ok_ok, bind_def, bind_ok]
  split
  · rfl
  rename_i h
  have h : Knuckle.startsWith s p = true ∧ Knuckle.endsWith s b!">" = true := by simpa using h
  have hl := bracket_length h.1 h.2 hp
  subst hk hn
  rw [bind_def, size_eq hs, int_ok (by omega) (by omega), bind_ok, show (s.length : Int) - ((p.length + 1 : Nat) : Int) = ((s.length - (p.length + 1) : Nat) : Int) by omega,
    substr2_nat (by omega), bind_def, bind_ok, trim_eq (fits_take (fits_drop hs _) _), bind_def, bind_ok]
  rfl

theorem isVectorType_eq {s : Str} (hs : Fits s) : isVectorType s = .ok (Knuckle.isVectorType s) :=
  bracket_eq (p := b!"Vector<") (k := 7) (n := 8) hs rfl rfl (by decide)

theorem isSetType_eq {s : Str} (hs : Fits s) : isSetType s = .ok (Knuckle.isSetType s) :=
  bracket_eq (p := b!"Set<") (k := 4) (n := 5) hs rfl rfl (by decide)

theorem isDictionaryType_eq {s : Str} (hs : Fits s) : isDictionaryType s = .ok (Knuckle.isDictionaryType s) := by
  have hs' : s.length < 2147483648 := hs
  unfold isDictionaryType Knuckle.isDictionaryType
  rw [startsWith_eq hs, endsWith_eq hs, not_ok, not_ok, or_ok_ok, bind_def, bind_ok]
  split
  · rfl
  rename_i h
  have h : Knuckle.startsWith s b!"Dictionary<" = true ∧ Knuckle.endsWith s b!">" = true := by simpa using h
  have hl := bracket_length h.1 h.2 (by decide)
  have hl : 12 ≤ s.length := hl
  rw [bind_def, size_eq hs, int_ok (by omega) (by omega), bind_ok, show (s.length : Int) - 12 = ((s.length - 12 : Nat) : Int) by omega,
    show (11 : Int) = ((11 : Nat) : Int) from rfl, substr2_nat (by omega), bind_def, bind_ok]
  have ht : Fits (substr s 11 (s.length - 12)) := fits_take (fits_drop hs _) _
  change up _ _ _ = .ok (dictLoop [] (substr s 11 (s.length - 12)))
  revert ht
  rw [show (s.drop 11).take (s.length - 12) = substr s 11 (s.length - 12) from rfl]
  generalize substr s 11 (s.length - 12) = t
  intro ht
  have ht' : t.length < 2147483648 := ht
  rw [show (0 : Int) = (([] : Str).length : Int) from rfl,
    up_list ht (fun pre suf _ => dictLoop pre suf) (by intro st; simp [size_eq ht, dictLoop]) ?_ t [] () rfl]
  intro pre c cs st e
  have hlt := lt_cons e
  have hpre : Fits pre := fits_le ht (by rw [e]; simp)
  have hcs : Fits cs := fits_le ht (by rw [e]; simp; omega)
  simp only [size_eq ht, hlt, if_true, at_cons e, bind_ok, bind_def]
  rw [dictLoop]
  cases h : c == c!","
  · left; exact ⟨(), by simp, by simp⟩
  · right
    rw [show ((([] : Str).length : Nat) : Int) = 0 from rfl, substr_to e, int_ok (by omega) (by omega), bind_ok, bind_ok, substr_from e, bind_ok,
      trim_eq hpre, trim_eq hcs, bind_ok, bind_ok, and_ok_ok]
    simp

theorem isType_eq {s : Str} (hs : Fits s) : isType s = .ok (Knuckle.isType s) := by
  unfold isType isContainerType
  rw [isVectorType_eq hs, isSetType_eq hs, isDictionaryType_eq hs, or_ok_ok, or_ok_ok, or_ok_ok]
  rfl

theorem isIdentifier_eq {s : Str} (hs : Fits s) : isIdentifier s = .ok (Knuckle.isIdentifier s) := by
  cases s with
  | nil => rfl
  | cons c cs =>
    have h0 : «at» (c :: cs) 0 = .ok c := at_pre [] c cs
    unfold isIdentifier
    rw [h0, bind_ok, or_ok_ok, bind_def, bind_ok, Knuckle.isIdentifier]
    cases ha : isAlpha c
    · simp
    rw [if_neg (by simp), if_neg (by simp), bind_def, show (1 : Int) = (([c] : Str).length : Int) from rfl,
      up_list hs (fun _ suf _ => if suf.any fun d => !isAlphanumeric d && d != c!"_" then some false else none)
        (by intro st; simp [size_eq hs]) ?_ cs [c] () rfl]
    · rw [bind_ok]
      cases h : cs.any fun d => !isAlphanumeric d && d != c!"_" <;> rfl
    · intro pre d ds st e
      simp only [size_eq hs, lt_cons e, if_true, at_cons e, bind_ok, bind_def]
      cases h : !isAlphanumeric d && d != c!"_"
      · left; exact ⟨(), by simp, by rw [List.any_cons, h, Bool.false_or]⟩
      · right; rw [List.any_cons, h, Bool.true_or]; rfl

/-- The loop of `is_variable`, with `none` if it does not return. -/
def varLoop (pre : Str) : Str → Option Bool
  | c :: d :: cs =>
    if c == c!":" && d == c!":" then some (Knuckle.isNamespace pre && Knuckle.isIdentifier cs) else varLoop (pre ++ [c]) (d :: cs)
  | _ => none

theorem varLoop_eq : ∀ suf pre, variableLoop pre suf = (varLoop pre suf).getD (Knuckle.isIdentifier (pre ++ suf))
  | [], pre => rfl
  | [c], pre => rfl
  | c :: d :: cs, pre => by
    rw [variableLoop, varLoop]
    split
    · rfl
    · rw [varLoop_eq (d :: cs) (pre ++ [c])]
      simp

theorem isVariable_eq {s : Str} (hs : Fits s) : isVariable s = .ok (Knuckle.isVariable s) := by
  have hs' : s.length < 2147483648 := hs
  unfold isVariable Knuckle.isVariable
  split
  · rfl
  rename_i h0
  have h0 : s.length ≠ 0 := by simpa using h0
  have hn : int (size s - 1) = .ok ((s.length : Int) - 1) := by rw [size_eq hs, int_ok (by omega) (by omega)]
  rw [bind_def, show (0 : Int) = (([] : Str).length : Int) from rfl,
    up_list hs (fun pre suf _ => varLoop pre suf) (by intro st; rw [hn, bind_def, bind_ok, if_neg (by omega)]; rfl) ?_ s [] () rfl]
  · rw [bind_ok, varLoop_eq, isIdentifier_eq hs]
    cases varLoop [] s <;> rfl
  · intro pre c cs st e
    have hlt := lt_cons e
    rw [show ((([] : Str).length : Nat) : Int) = 0 from rfl, hn, bind_def, bind_ok]
    cases cs with
    | nil =>
      right
      rw [if_neg (by rw [e]; simp)]; rfl
    | cons d ds =>
      have h2 : «at» s ((pre.length : Int) + 1) = .ok d := by
        have := at_cons (s := s) (pre := pre ++ [c]) (c := d) (cs := ds) (by simp [e])
        rw [← this]; congr 1; simp
      have h3 : substr1 s ((pre.length : Int) + 2) = .ok ds := by
        have := substr_from (s := s) (pre := pre ++ [c]) (c := d) (cs := ds) (by simp [e])
        rw [← this]; congr 1; simp; ring
      have hl2 : (pre.length : Int) + 1 < s.length := by rw [e]; simp
      have hpre : Fits pre := fits_le hs (by rw [e]; simp)
      have hds : Fits ds := fits_le hs (by rw [e]; simp; omega)
      rw [if_pos (by omega), at_cons e, bind_ok, int_ok (x := (pre.length : Int) + 1) (by omega) (by omega), bind_ok, h2, bind_ok, and_ok_ok, bind_def, bind_ok,
        varLoop]
      cases h : c == c!":" && d == c!":"
      · left; exact ⟨(), by simp, by simp⟩
      · right
        rw [substr_to e, bind_ok, int_ok (by omega) (by omega), bind_ok, h3, bind_ok, isIdentifier_eq hds, isNamespace, isIdentifier_eq hpre, and_ok_ok]
        rfl

theorem isActor_eq {s : Str} (hs : Fits s) : isActor s = .ok (Knuckle.isActor s) := by
  unfold isActor
  rw [isType_eq hs, isVariable_eq hs, or_ok_ok, or_ok_ok, or_ok_ok]
  rfl

theorem last_eq {s : Str} (hs : Fits s) (h : s.length ≠ 0) : last s = .ok (s.getD (s.length - 1) 0) := by
  have hs' : s.length < 2147483648 := hs
  unfold last
  rw [bind_def, size_eq hs, int_ok (by omega) (by omega), bind_ok, show (s.length : Int) - 1 = ((s.length - 1 : Nat) : Int) by omega, at_nat (by omega)]

theorem init_eq {s : Str} (hs : Fits s) (h : s.length ≠ 0) : init s = .ok (s.take (s.length - 1)) := by
  have hs' : s.length < 2147483648 := hs
  unfold init
  rw [bind_def, size_eq hs, int_ok (by omega) (by omega), bind_ok, show (s.length : Int) - 1 = ((s.length - 1 : Nat) : Int) by omega, substr2_zero]

theorem isUnaryMessage_eq {s : Str} (hs : Fits s) : isUnaryMessage s = .ok (Knuckle.isUnaryMessage s) := by
  unfold isUnaryMessage Knuckle.isUnaryMessage
  by_cases h : s.length = 0
  · simp [h]
  · rw [last_eq hs h, init_eq hs h, bind_ok, bind_ok, isIdentifier_eq hs, isIdentifier_eq (fits_take hs _), and_ok_ok, or_ok_ok, and_ok_ok]

theorem isKeywordMessageToken_eq {s : Str} (hs : Fits s) : isKeywordMessageToken s = .ok (Knuckle.isKeywordMessageToken s) := by
  unfold isKeywordMessageToken Knuckle.isKeywordMessageToken
  by_cases h : s.length = 0
  · simp [h]
  · rw [last_eq hs h, init_eq hs h, bind_ok, bind_ok, bind_ok, isIdentifier_eq (fits_take hs _), or_ok_ok, and_ok_ok, and_ok_ok]

theorem isKeywordMessageArgument_eq {s : Str} (hs : Fits s) : isKeywordMessageArgument s = .ok (Knuckle.isKeywordMessageArgument s) := by
  unfold isKeywordMessageArgument isNamespace
  rw [isObjectValue_eq hs, isIdentifier_eq hs, isVariable_eq hs, or_ok_ok, or_ok_ok]
  rfl

theorem isKeywordMessagePart_eq {s : Str} (hs : Fits s) : isKeywordMessagePart s = .ok (Knuckle.isKeywordMessagePart s) := by
  have hs' : s.length < 2147483648 := hs
  unfold isKeywordMessagePart Knuckle.isKeywordMessagePart
  rw [show (0 : Int) = (([] : Str).length : Int) from rfl,
    up_list hs (fun pre suf _ => partLoop pre suf) (by intro st; simp [size_eq hs, partLoop]) ?_ s [] () rfl]
  intro pre c cs st e
  have hlt := lt_cons e
  have hpre : Fits (pre ++ [c]) := fits_le hs (by rw [e]; simp)
  have hcs : Fits cs := fits_le hs (by rw [e]; simp; omega)
  have h1 : substr2 s 0 ((pre.length : Int) + 1) = .ok (pre ++ [c]) := by
    have := substr_to (s := s) (pre := pre ++ [c]) (suf := cs) (by simp [e])
    rw [← this]; congr 1; simp
  simp only [size_eq hs, hlt, if_true, at_cons e, bind_ok, bind_def]
  rw [partLoop]
  cases h : c == c!":" || c == c!"?"
  · left; exact ⟨(), by simp, by simp⟩
  · right
    rw [int_ok (by omega) (by omega), bind_ok, bind_ok, show ((([] : Str).length : Nat) : Int) = 0 from rfl, h1, substr_from e, bind_ok, bind_ok,
      ltrim_eq hcs, bind_ok, isKeywordMessageToken_eq hpre, isKeywordMessageArgument_eq (fits_ltrim hcs), and_ok_ok]
    simp

end Knuckle.Idx
