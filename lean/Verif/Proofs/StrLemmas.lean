import Verif.Spec.TleSpec
/-! Lemmas about strings: slices of ASCII text, trimming, splitting into lines, decimal numbers. -/

set_option linter.unusedSimpArgs false

namespace Sat
open Spec

/-! ### Slices -/

theorem utf8Size_ascii {c : Char} (h : c.toNat < 128) : c.utf8Size = 1 := by
  have h' : c.val ≤ 127 := by
    rw [UInt32.le_iff_toNat_le]; exact Nat.lt_succ_iff.mp h
  unfold Char.utf8Size
  exact if_pos h'

theorem ascii_cons {c : Char} {s : Str} (h : Ascii (c :: s)) : c.toNat < 128 ∧ Ascii s :=
  ⟨h c (List.mem_cons_self ..), fun d hd => h d (List.mem_cons_of_mem _ hd)⟩

theorem ascii_drop {s : Str} (h : Ascii s) (n : Nat) : Ascii (s.drop n) := fun c hc => h c (List.mem_of_mem_drop hc)
theorem ascii_take {s : Str} (h : Ascii s) (n : Nat) : Ascii (s.take n) := fun c hc => h c (List.mem_of_mem_take hc)

theorem splitBytes_ascii (n : Nat) (s : Str) (h : Ascii s) :
    splitBytes n s = if n ≤ s.length then some (s.take n, s.drop n) else none := by
  induction n generalizing s with
  | zero => simp [splitBytes]
  | succ n ih =>
    cases s with
    | nil => simp [splitBytes]
    | cons c cs =>
      obtain ⟨hc, hcs⟩ := ascii_cons h
      rw [splitBytes, utf8Size_ascii hc, if_pos (by omega), Nat.add_sub_cancel, ih cs hcs]
      by_cases hl : n ≤ cs.length
      · simp [hl]
      · simp [hl]

theorem byteLen_ascii {s : Str} (h : Ascii s) : byteLen s = s.length := by
  induction s with
  | nil => rfl
  | cons c cs ih =>
    obtain ⟨hc, hcs⟩ := ascii_cons h
    have := ih hcs
    simp only [byteLen, List.map_cons, List.sum_cons, List.length_cons] at this ⊢
    rw [this, utf8Size_ascii hc]; omega

/-- On ASCII text a slice is the columns `lo+1 .. hi`, or a panic if they are not all there. -/
theorem slice_ascii {ε : Type} {s : Str} (h : Ascii s) {lo hi : Nat} (hlt : lo < hi) :
    (slice s lo hi : Res ε Str) = if (cols s (lo + 1) hi).length = hi - lo then .ok (cols s (lo + 1) hi) else .panic := by
  have hc : cols s (lo + 1) hi = (s.drop lo).take (hi - lo) := by
    unfold cols; rw [Nat.add_sub_cancel, show hi + 1 - (lo + 1) = hi - lo by omega]
  rw [hc]
  unfold slice
  rw [splitBytes_ascii _ _ h]
  by_cases h1 : lo ≤ s.length
  · rw [if_pos h1]
    dsimp only
    rw [splitBytes_ascii _ _ (ascii_drop h lo)]
    by_cases h2 : hi - lo ≤ (s.drop lo).length
    · rw [if_pos h2, if_pos (by rw [List.length_take]; omega)]
    · rw [if_neg h2, if_neg (by rw [List.length_take]; omega)]
  · rw [if_neg h1, if_neg]
    rw [List.length_take, List.length_drop]; omega

theorem cols_length {s : Str} {lo hi : Nat} (h : hi ≤ s.length) (hlt : lo < hi) :
    (cols s (lo + 1) hi).length = hi - lo := by
  unfold cols; rw [List.length_take, List.length_drop]; omega

theorem slice_long {ε : Type} {s : Str} (h : Ascii s) {lo hi : Nat} (hlt : lo < hi) (hl : hi ≤ s.length) :
    (slice s lo hi : Res ε Str) = .ok (cols s (lo + 1) hi) := by
  rw [slice_ascii h hlt, if_pos (cols_length hl hlt)]

theorem splitBytes_len {n : Nat} {s a b : Str} (h : splitBytes n s = some (a, b)) : s = a ++ b ∧ byteLen a = n := by
  induction n using Nat.strongRecOn generalizing s a b with
  | _ n ih =>
    cases n with
    | zero => simp [splitBytes] at h; obtain ⟨rfl, rfl⟩ := h; exact ⟨rfl, rfl⟩
    | succ n =>
      cases s with
      | nil => simp [splitBytes] at h
      | cons c cs =>
        rw [splitBytes] at h
        have hpos : 0 < c.utf8Size := Char.utf8Size_pos c
        split at h
        · rename_i hle
          split at h
          · cases h
          · rename_i a' b' heq
            cases h
            obtain ⟨h1, h2⟩ := ih (n + 1 - c.utf8Size) (by omega) heq
            refine ⟨by rw [h1]; rfl, ?_⟩
            simp only [byteLen, List.map_cons, List.sum_cons] at h2 ⊢
            omega
        · cases h

theorem length_le_byteLen (s : Str) : s.length ≤ byteLen s := by
  induction s with
  | nil => exact Nat.le_refl 0
  | cons c cs ih =>
    have hpos : 0 < c.utf8Size := Char.utf8Size_pos c
    simp only [byteLen, List.map_cons, List.sum_cons, List.length_cons] at ih ⊢
    omega

/-- A slice that succeeds has the right number of bytes. -/
theorem slice_len {ε : Type} {s t : Str} {lo hi : Nat} (h : (slice s lo hi : Res ε Str) = .ok t) : byteLen t = hi - lo := by
  unfold slice at h
  split at h
  · cases h
  · split at h
    · cases h
    · rename_i heq
      cases h
      exact (splitBytes_len heq).2

theorem byteLen_append (a b : Str) : byteLen (a ++ b) = byteLen a + byteLen b := by
  simp [byteLen, List.map_append, List.sum_append]

/-- Too short a text cannot be cut. -/
theorem splitBytes_short {n : Nat} {s : Str} (h : byteLen s < n) : splitBytes n s = none := by
  cases hs : splitBytes n s with
  | none => rfl
  | some p =>
    obtain ⟨h1, h2⟩ := splitBytes_len (a := p.1) (b := p.2) hs
    rw [h1, byteLen_append] at h; omega

theorem slice_short {ε : Type} {s : Str} {lo hi : Nat} (hlt : lo ≤ hi) (h : byteLen s < hi) :
    (slice s lo hi : Res ε Str) = .panic := by
  unfold slice
  split
  · rfl
  · rename_i a r heq
    obtain ⟨h1, h2⟩ := splitBytes_len heq
    rw [h1, byteLen_append] at h
    rw [splitBytes_short (by omega)]

/-- A slice never gives an error value and always returns. -/
theorem slice_cases {ε : Type} (s : Str) (lo hi : Nat) :
    (∃ t, (slice s lo hi : Res ε Str) = .ok t) ∨ (slice s lo hi : Res ε Str) = .panic := by
  unfold slice
  split
  · exact Or.inr rfl
  · split
    · exact Or.inr rfl
    · exact Or.inl ⟨_, rfl⟩

/-! ### Trimming -/

theorem dropWhile_replicate (k : Nat) (s : Str) (hs : s.dropWhile isWhite = s) :
    (List.replicate k ' ' ++ s).dropWhile isWhite = s := by
  induction k with
  | zero => exact hs
  | succ k ih =>
    rw [List.replicate_succ, List.cons_append, List.dropWhile_cons_of_pos (by decide)]
    exact ih

theorem dropWhile_none (s : Str) (h : ∀ c ∈ s, isWhite c = false) : s.dropWhile isWhite = s := by
  cases s with
  | nil => rfl
  | cons c cs => rw [List.dropWhile_cons_of_neg (by rw [h c (List.mem_cons_self ..)]; decide)]

theorem trim_pad (k : Nat) (s : Str) (h : ∀ c ∈ s, isWhite c = false) : trim (List.replicate k ' ' ++ s) = s := by
  unfold trim trimStart trimEnd
  rw [dropWhile_replicate k s (dropWhile_none s h), dropWhile_none _ (fun c hc => h c (List.mem_reverse.mp hc)),
    List.reverse_reverse]

theorem trim_id (s : Str) (h : ∀ c ∈ s, isWhite c = false) : trim s = s := trim_pad 0 s h

theorem dropWhile_eq_nil {s : Str} : s.dropWhile isWhite = [] ↔ Blank s := by
  unfold Blank
  induction s with
  | nil => simp
  | cons c cs ih =>
    by_cases hc : isWhite c = true
    · rw [List.dropWhile_cons_of_pos hc, ih]; simp [hc]
    · rw [List.dropWhile_cons_of_neg hc]
      simp [hc]

theorem mem_dropWhile {s : Str} {c : Char} (h : c ∈ s.dropWhile isWhite) : c ∈ s :=
  (List.dropWhile_sublist _).subset h

/-- A line is blank exactly when trimming leaves nothing. -/
theorem trim_eq_nil {s : Str} : trim s = [] ↔ Blank s := by
  unfold trim trimStart trimEnd
  rw [List.reverse_eq_nil_iff, dropWhile_eq_nil]
  constructor
  · intro h
    rw [← dropWhile_eq_nil]
    cases hd : s.dropWhile isWhite with
    | nil => rfl
    | cons c cs =>
      have h1 : isWhite c = true := h c (by rw [hd, List.mem_reverse]; exact List.mem_cons_self ..)
      have h2 := List.head_dropWhile_not (p := isWhite) (l := s) (by rw [hd]; exact List.cons_ne_nil _ _)
      simp only [hd, List.head_cons] at h2
      rw [h1] at h2; cases h2
  · intro h c hc
    exact h c (mem_dropWhile (List.mem_reverse.mp hc))

/-- trimming removes characters only -/
theorem trim_length_le (s : Str) : (trim s).length ≤ s.length := by
  unfold trim trimStart trimEnd
  rw [List.length_reverse]
  refine Nat.le_trans (List.dropWhile_sublist _).length_le ?_
  rw [List.length_reverse]
  exact (List.dropWhile_sublist _).length_le

/-! ### Lines -/

theorem splitLines_single {l : Str} (h : OneLine l) : splitLines l = [l] := by
  unfold OneLine at h
  induction l with
  | nil => rfl
  | cons c cs ih =>
    have hc : c ≠ '\n' := fun e => h (by rw [e]; exact List.mem_cons_self ..)
    rw [splitLines, if_neg hc, ih (fun hm => h (List.mem_cons_of_mem _ hm))]

theorem splitLines_append {l : Str} (h : OneLine l) (t : Str) : splitLines (l ++ '\n' :: t) = l :: splitLines t := by
  unfold OneLine at h
  induction l with
  | nil => simp [splitLines]
  | cons c cs ih =>
    have hc : c ≠ '\n' := fun e => h (by rw [e]; exact List.mem_cons_self ..)
    rw [List.cons_append, splitLines, if_neg hc, ih (fun hm => h (List.mem_cons_of_mem _ hm))]

/-- Splitting undoes joining. -/
theorem splitLines_join : ∀ {ls : List Str}, ls ≠ [] → (∀ l ∈ ls, OneLine l) → splitLines (joinLines ls) = ls
  | [], h, _ => absurd rfl h
  | [l], _, h => by rw [joinLines]; exact splitLines_single (h l (List.mem_cons_self ..))
  | l :: m :: ls, _, h => by
    rw [joinLines, splitLines_append (h l (List.mem_cons_self ..)),
      splitLines_join (List.cons_ne_nil _ _) (fun x hx => h x (List.mem_cons_of_mem _ hx))]
    exact List.cons_ne_nil _ _

theorem splitLines_ne_nil (s : Str) : splitLines s ≠ [] := by
  cases s with
  | nil => simp [splitLines]
  | cons c cs =>
    rw [splitLines]
    split
    · simp
    · split <;> simp

/-- Every text is the join of its lines. -/
theorem join_splitLines (s : Str) : joinLines (splitLines s) = s := by
  induction s with
  | nil => rfl
  | cons c cs ih =>
    rw [splitLines]
    split
    · rename_i h
      subst h
      cases hs : splitLines cs with
      | nil => exact absurd hs (splitLines_ne_nil cs)
      | cons l ls =>
        rw [hs] at ih
        rw [joinLines, ih]; rfl
        exact List.cons_ne_nil _ _
    · cases hs : splitLines cs with
      | nil => exact absurd hs (splitLines_ne_nil cs)
      | cons l ls =>
        rw [hs] at ih
        dsimp only
        cases ls with
        | nil => rw [joinLines] at ih ⊢; rw [ih]
        | cons m ms =>
          rw [joinLines] at ih ⊢
          · rw [List.cons_append, ih]
          · exact List.cons_ne_nil _ _
          · exact List.cons_ne_nil _ _

theorem splitLines_oneLine (s : Str) : ∀ l ∈ splitLines s, OneLine l := by
  unfold OneLine
  induction s with
  | nil => intro l hl; simp [splitLines] at hl; simp [hl]
  | cons c cs ih =>
    intro l hl
    rw [splitLines] at hl
    split at hl
    · rcases List.mem_cons.mp hl with h | h
      · rw [h]; simp
      · exact ih l h
    · rename_i hc
      cases hs : splitLines cs with
      | nil => exact absurd hs (splitLines_ne_nil cs)
      | cons m ms =>
        rw [hs] at hl ih
        dsimp only at hl
        rcases List.mem_cons.mp hl with h | h
        · rw [h]
          intro hm
          rcases List.mem_cons.mp hm with h1 | h1
          · exact hc h1.symm
          · exact ih m (List.mem_cons_self ..) h1
        · exact ih l (List.mem_cons_of_mem _ h)

/-! ### Decimal digits -/

theorem digit_cases (n : Nat) : ∃ k, k < 10 ∧ n % 10 = k ∧ digit n = Char.ofNat (48 + k) :=
  ⟨n % 10, Nat.mod_lt _ (by decide), rfl, rfl⟩

theorem isDig_ofNat : ∀ k < 10, isDig (Char.ofNat (48 + k)) = true ∧ digVal (Char.ofNat (48 + k)) = k ∧
    isWhite (Char.ofNat (48 + k)) = false ∧ (Char.ofNat (48 + k)).toNat < 128 := by decide

theorem digit_isDig (n : Nat) : isDig (digit n) = true := by
  obtain ⟨k, hk, -, h⟩ := digit_cases n; rw [h]; exact (isDig_ofNat k hk).1

theorem digit_val (n : Nat) : digVal (digit n) = n % 10 := by
  obtain ⟨k, hk, h0, h⟩ := digit_cases n; rw [h, h0]; exact (isDig_ofNat k hk).2.1

theorem isDig_toNat {c : Char} (h : isDig c = true) : 48 ≤ c.toNat ∧ c.toNat ≤ 57 := by
  simp only [isDig, Bool.and_eq_true, decide_eq_true_eq] at h
  exact h

theorem isDig_notWhite {c : Char} (h : isDig c = true) : isWhite c = false := by
  obtain ⟨h1, h2⟩ := isDig_toNat h
  simp only [isWhite]
  have : ∀ n, 48 ≤ n → n ≤ 57 → ((decide (9 ≤ n) && decide (n ≤ 13)) || n == 0x20 || n == 0x85 || n == 0xA0 || n == 0x1680 ||
      (decide (0x2000 ≤ n) && decide (n ≤ 0x200A)) || n == 0x2028 || n == 0x2029 || n == 0x202F || n == 0x205F ||
      n == 0x3000) = false := by
    intro n h1 h2
    simp only [Bool.or_eq_false_iff, Bool.and_eq_false_iff, decide_eq_false_iff_not, beq_eq_false_iff_ne]
    omega
  exact this _ h1 h2

theorem digitsVal_append (a b : Str) : digitsVal (a ++ b) = digitsVal a * 10 ^ b.length + digitsVal b := by
  have gen : ∀ (b : Str) (acc : Nat), b.foldl (fun acc c => 10 * acc + digVal c) acc =
      acc * 10 ^ b.length + b.foldl (fun acc c => 10 * acc + digVal c) 0 := by
    intro b
    induction b with
    | nil => intro acc; simp
    | cons c cs ih =>
      intro acc
      rw [List.foldl_cons, List.foldl_cons, ih, ih (10 * 0 + digVal c), List.length_cons, Nat.pow_succ]
      rw [Nat.add_mul, Nat.mul_comm 10 acc, Nat.mul_assoc, Nat.mul_comm 10 (10 ^ _), Nat.mul_zero, Nat.zero_add]
      omega
  unfold digitsVal
  rw [List.foldl_append, gen]

theorem fixedDigits_length (w n : Nat) : (fixedDigits w n).length = w := by
  induction w generalizing n with
  | zero => rfl
  | succ w ih => rw [fixedDigits, List.length_append, ih]; rfl

theorem fixedDigits_isDig (w n : Nat) : ∀ c ∈ fixedDigits w n, isDig c = true := by
  induction w generalizing n with
  | zero => intro c hc; cases hc
  | succ w ih =>
    intro c hc
    rw [fixedDigits, List.mem_append] at hc
    rcases hc with h | h
    · exact ih _ c h
    · rw [List.mem_singleton.mp h]; exact digit_isDig n

theorem fixedDigits_val (w n : Nat) : digitsVal (fixedDigits w n) = n % 10 ^ w := by
  induction w generalizing n with
  | zero => simp [fixedDigits, digitsVal, Nat.mod_one]
  | succ w ih =>
    rw [fixedDigits, digitsVal_append, ih]
    have h1 : digitsVal [digit n] = n % 10 := by
      simp only [digitsVal, List.foldl_cons, List.foldl_nil]; rw [digit_val]; omega
    rw [h1, Nat.pow_succ, Nat.mul_comm (10 ^ w) 10, Nat.mod_mul]
    simp only [List.length_cons, List.length_nil]
    omega

/-- integer part and fraction of a fixed-point field, read as one digit string -/
theorem fixedDigits_split (a d n : Nat) (h : n < 10 ^ (a + d)) :
    digitsVal (fixedDigits a (n / 10 ^ d) ++ fixedDigits d n) = n := by
  rw [digitsVal_append, fixedDigits_val, fixedDigits_val, fixedDigits_length]
  rw [Nat.mod_eq_of_lt (a := n / 10 ^ d) (by rw [Nat.div_lt_iff_lt_mul (Nat.pow_pos (by decide)), ← Nat.pow_add]; exact h)]
  rw [Nat.mul_comm]; exact Nat.div_add_mod n (10 ^ d)

theorem showNat_spec (n : Nat) : (∀ c ∈ showNat n, isDig c = true) ∧ digitsVal (showNat n) = n ∧
    (showNat n).length = numDigits n ∧ showNat n ≠ [] := by
  induction n using Nat.strongRecOn with
  | _ n ih =>
    have one : ∀ m, digitsVal [digit m] = m % 10 := by
      intro m; simp only [digitsVal, List.foldl_cons, List.foldl_nil]; rw [digit_val]; omega
    rw [showNat, numDigits]
    by_cases h : n < 10
    · rw [if_pos h, if_pos h]
      have hd : Char.ofNat (48 + n) = digit n := by unfold digit; rw [Nat.mod_eq_of_lt h]
      rw [hd]
      refine ⟨?_, ?_, rfl, List.cons_ne_nil _ _⟩
      · intro c hc; rw [List.mem_singleton.mp hc]; exact digit_isDig n
      · rw [one, Nat.mod_eq_of_lt h]
    · rw [if_neg h, if_neg h]
      obtain ⟨h1, h2, h3, h4⟩ := ih (n / 10) (by omega)
      have hd : Char.ofNat (48 + n % 10) = digit n := rfl
      rw [hd]
      refine ⟨?_, ?_, ?_, ?_⟩
      · intro c hc
        rcases List.mem_append.mp hc with hc | hc
        · exact h1 c hc
        · rw [List.mem_singleton.mp hc]; exact digit_isDig n
      · rw [digitsVal_append, h2, one]; simp only [List.length_cons, List.length_nil]; omega
      · rw [List.length_append, h3]; rfl
      · simp

theorem numDigits_bounds (n : Nat) (h : n ≠ 0) : 10 ^ (numDigits n - 1) ≤ n ∧ n < 10 ^ numDigits n := by
  induction n using Nat.strongRecOn with
  | _ n ih =>
    rw [numDigits]
    split
    · rename_i h1; simp; omega
    · rename_i h1
      obtain ⟨h2, h3⟩ := ih (n / 10) (by omega) (by omega)
      have hp : 1 ≤ numDigits (n / 10) := by rw [numDigits]; split <;> omega
      generalize numDigits (n / 10) = k at *
      obtain ⟨j, rfl⟩ : ∃ j, k = j + 1 := ⟨k - 1, by omega⟩
      simp only [Nat.add_sub_cancel] at *
      rw [Nat.pow_succ] at h3
      rw [Nat.pow_succ, Nat.pow_succ, Nat.pow_succ]
      generalize 10 ^ j = p at *
      omega

/-! ### Numbers -/

theorem takeWhile_digits (a r : Str) (ha : ∀ c ∈ a, isDig c = true) (hr : ∀ c t, r = c :: t → isDig c = false) :
    (a ++ r).takeWhile isDig = a ∧ (a ++ r).dropWhile isDig = r := by
  induction a with
  | nil =>
    cases r with
    | nil => exact ⟨rfl, rfl⟩
    | cons c t =>
      have := hr c t rfl
      exact ⟨List.takeWhile_cons_of_neg (by rw [this]; decide), List.dropWhile_cons_of_neg (by rw [this]; decide)⟩
  | cons c cs ih =>
    have hc := ha c (List.mem_cons_self ..)
    obtain ⟨h1, h2⟩ := ih (fun d hd => ha d (List.mem_cons_of_mem _ hd))
    rw [List.cons_append, List.takeWhile_cons_of_pos hc, List.dropWhile_cons_of_pos hc, h1, h2]
    exact ⟨rfl, rfl⟩

/-- digits, point, digits, exponent -/
theorem parseNumber_point (a b r : Str) (ha : ∀ c ∈ a, isDig c = true) (hb : ∀ c ∈ b, isDig c = true)
    (hne : a ≠ [] ∨ b ≠ []) (hr : ∀ c t, r = c :: t → isDig c = false) :
    parseNumber (a ++ '.' :: (b ++ r)) = (parseExp r).map (fun e => (digitsVal (a ++ b), e - (b.length : Int))) := by
  obtain ⟨h1, h2⟩ := takeWhile_digits a ('.' :: (b ++ r)) ha (by intro c t h; cases h; decide)
  obtain ⟨h3, h4⟩ := takeWhile_digits b r hb hr
  unfold parseNumber
  rw [h1, h2]
  show (if a = [] ∧ (b ++ r).takeWhile isDig = [] then none else
    match parseExp ((b ++ r).dropWhile isDig) with
    | none => none
    | some e => some (digitsVal (a ++ (b ++ r).takeWhile isDig), e - (((b ++ r).takeWhile isDig).length : Int))) = _
  rw [h3, h4, if_neg (by intro ⟨x, y⟩; rcases hne with h | h <;> contradiction)]
  cases parseExp r <;> rfl

/-- how `parseF64` deals with a leading sign -/
theorem parseF64_minus (r : Str) (m : Nat) (e : Int) (h : parseNumber r = some (m, e)) :
    parseF64 ('-' :: r) = some (.num true m e) := by
  unfold parseF64
  show (match parseNumber r with
    | some (m, e) => some (Dec.num true m e)
    | none => _) = _
  rw [h]

theorem parseF64_plus (r : Str) (m : Nat) (e : Int) (h : parseNumber r = some (m, e)) :
    parseF64 ('+' :: r) = some (.num false m e) := by
  unfold parseF64
  show (match parseNumber r with
    | some (m, e) => some (Dec.num false m e)
    | none => _) = _
  rw [h]

theorem parseF64_nosign (s : Str) (m : Nat) (e : Int) (h : parseNumber s = some (m, e))
    (h1 : ∀ r, s ≠ '-' :: r) (h2 : ∀ r, s ≠ '+' :: r) : parseF64 s = some (.num false m e) := by
  unfold parseF64
  split
  rename_i neg r heq
  split at heq
  · exact absurd rfl (h1 _)
  · exact absurd rfl (h2 _)
  · cases heq; rw [h]

end Sat
