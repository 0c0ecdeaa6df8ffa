import Verif.Props.Decode
import Verif.F64.Consts
import Verif.Props.F64Time
import Mathlib.Data.List.TakeWhile
/-!
# C31: finiteness of the parsed elements in double arithmetic
-/

namespace Sat
open Spec F64

/-- No ASCII letter in the text. -/
def NoLetter (t : Str) : Prop := ∀ c ∈ t, ¬ (('a' ≤ c ∧ c ≤ 'z') ∨ ('A' ≤ c ∧ c ≤ 'Z'))

instance (t : Str) : Decidable (NoLetter t) := by unfold NoLetter; infer_instance

/-- The text contains neither `e` nor `E`. -/
def NoExp (t : Str) : Prop := ∀ c ∈ t, c ≠ 'e' ∧ c ≠ 'E'

theorem noLetter_noExp {t : Str} (h : NoLetter t) : NoExp t := by
  intro c hc
  have := h c hc
  constructor
  · rintro rfl; exact this (Or.inl (by decide))
  · rintro rfl; exact this (Or.inr (by decide))

theorem digitsVal_lt (ds : Str) (h : ds.all isDig = true) : digitsVal ds < 10 ^ ds.length := by
  induction ds using List.reverseRecOn with
  | nil => decide
  | append_singleton a c ih =>
    rw [List.all_append, Bool.and_eq_true] at h
    have h1 := ih h.1
    have hc : isDig c = true := by simpa using h.2
    have := isDig_toNat hc
    rw [digitsVal_append]
    simp only [List.length_append, List.length_cons, List.length_nil, Nat.pow_succ, Nat.pow_zero, digitsVal, List.foldl_cons, List.foldl_nil]
    rw [show List.foldl (fun acc c => 10 * acc + digVal c) 0 a = digitsVal a from rfl]
    unfold digVal
    omega

theorem takeWhile_all (s : Str) : (s.takeWhile isDig).all isDig = true := by
  rw [List.all_eq_true]
  intro c hc
  exact List.mem_takeWhile_imp hc

/-- The size of a decimal number: the mantissa is bounded by the length of the text, the exponent by the length of the part
from the first `e` on. -/
theorem parseNumber_bound (pre post : Str) (hp : NoExp pre) (m : Nat) (e : Int) (h : parseNumber (pre ++ post) = some (m, e)) :
    m < 10 ^ (pre ++ post).length ∧ e < 10 ^ (post.length - 1) := by
  -- the exponent of a suffix
  have hexp : ∀ (x r : Str) (e : Int), pre ++ post = x ++ r → parseExp r = some e → e < 10 ^ (post.length - 1) := by
    intro x r e hs he
    have hpos : (0 : Int) < 10 ^ (post.length - 1) := by positivity
    cases r with
    | nil =>
      have : e = 0 := by
        have : some (0 : Int) = some e := he
        exact (Option.some.inj this).symm
      omega
    | cons c r =>
      have hlen : (c :: r).length ≤ post.length := by
        by_contra hlt
        rw [List.append_eq_append_iff] at hs
        rcases hs with ⟨y, hx, hy⟩ | ⟨y, hx, hy⟩
        · have := congrArg List.length hy
          simp only [List.length_append, List.length_cons] at this hlt
          omega
        · cases y with
          | nil =>
            have := congrArg List.length hy
            simp only [List.nil_append, List.length_cons] at this hlt
            omega
          | cons d y =>
            have hd : d = c := by simp only [List.cons_append, List.cons.injEq] at hy; exact hy.1.symm
            subst hd
            have := hp d (by rw [hx]; simp)
            unfold parseExp at he
            simp only [this.1, this.2, or_self, if_false] at he
            exact absurd he (by simp)
      have fin : ∀ (neg : Bool) (ds : Str), ds.length ≤ r.length →
          (if ds ≠ [] ∧ ds.all isDig = true then some (if neg then -(digitsVal ds : Int) else (digitsVal ds : Int)) else none) = some e →
          e < 10 ^ (post.length - 1) := by
        intro neg ds hl h
        split at h
        · rename_i hc
          have hv := digitsVal_lt ds hc.2
          have hm : 10 ^ ds.length ≤ 10 ^ (post.length - 1) := Nat.pow_le_pow_right (by decide) (by
            simp only [List.length_cons] at hlen; omega)
          have hv' : (digitsVal ds : Int) < 10 ^ (post.length - 1) := by
            have : digitsVal ds < 10 ^ (post.length - 1) := by omega
            exact_mod_cast this
          cases neg with
          | false => cases h; simpa using hv'
          | true =>
            have := Option.some.inj h
            simp only [if_true] at this
            have : (0 : Int) ≤ digitsVal ds := Int.natCast_nonneg _
            omega
        · exact absurd h (by simp)
      unfold parseExp at he
      split at he
      · cases he; rename_i h; cases h
      · rename_i c' r' h
        cases h
        split at he
        · split at he
          rename_i neg ds heq
          refine fin neg ds ?_ he
          split at heq
          · cases heq; simp
          · cases heq; simp
          · cases heq; exact Nat.le_refl _
        · cases he
  generalize hs : pre ++ post = s at *
  have hsplit : s = s.takeWhile isDig ++ s.dropWhile isDig := (List.takeWhile_append_dropWhile).symm
  have main : ∀ (frac r : Str), frac.all isDig = true → (∃ x, s = x ++ r ∧ (s.takeWhile isDig).length + frac.length ≤ x.length) →
      (if s.takeWhile isDig = [] ∧ frac = [] then none else
        match parseExp r with
        | none => none
        | some e => some (digitsVal (s.takeWhile isDig ++ frac), e - frac.length)) = some (m, e) →
      m < 10 ^ s.length ∧ e < 10 ^ (post.length - 1) := by
    rintro frac r hf ⟨x, hx, hxl⟩ h
    split at h
    · exact absurd h (by simp)
    · split at h
      · exact absurd h (by simp)
      · rename_i e' he'
        have h1 := hexp x r e' hx he'
        cases h
        refine ⟨?_, by omega⟩
        have hall : (s.takeWhile isDig ++ frac).all isDig = true := by
          rw [List.all_append, takeWhile_all, hf]; rfl
        refine lt_of_lt_of_le (digitsVal_lt _ hall) (Nat.pow_le_pow_right (by decide) ?_)
        have := congrArg List.length hx
        rw [List.length_append] at this ⊢
        omega
  unfold parseNumber at h
  dsimp only at h
  split at h
  · rename_i r' hr
    refine main _ _ (takeWhile_all _) ⟨s.takeWhile isDig ++ '.' :: r'.takeWhile isDig, ?_, ?_⟩ h
    · rw [List.append_assoc, List.cons_append, List.takeWhile_append_dropWhile, ← hr]; exact hsplit
    · simp only [List.length_append, List.length_cons]; omega
  · exact main _ _ rfl ⟨s.takeWhile isDig, hsplit, by simp⟩ h

/-- A number text is not one of the words. -/
theorem not_word {r : Str} (h : '.' ∈ r ∨ NoLetter r) :
    r.map lowerAscii ≠ "nan".toList ∧ r.map lowerAscii ≠ "inf".toList ∧ r.map lowerAscii ≠ "infinity".toList := by
  have key : ∀ (w : Str) (x : Char), x ∈ w → ('a' ≤ x ∧ x ≤ 'z') → '.' ∉ w → r.map lowerAscii ≠ w := by
    intro w x hx hl hdot he
    rcases h with h | h
    · apply hdot
      rw [← he]
      exact List.mem_map.mpr ⟨'.', h, by decide⟩
    · rw [← he] at hx
      obtain ⟨c, hc, hcx⟩ := List.mem_map.mp hx
      unfold lowerAscii at hcx
      split at hcx
      · rename_i hu; exact h c hc (Or.inr hu)
      · exact h c hc (Or.inl (hcx ▸ hl))
  exact ⟨key _ 'n' (by decide) (by decide) (by decide), key _ 'n' (by decide) (by decide) (by decide),
    key _ 'n' (by decide) (by decide) (by decide)⟩

/-- What a number read from a text is worth. -/
theorem parseF64_bound (pre post : Str) (hp : NoExp pre) (d : Dec) (h : parseF64 (pre ++ post) = some d)
    (hw : '.' ∈ pre ∨ (NoLetter pre ∧ post = [])) (hpre : pre ≠ []) (hk : post.length ≤ 3) (hl : (pre ++ post).length ≤ 40) :
    Bd (F64.ofDec d) 466 := by
  -- the unsigned part
  have main : ∀ (neg : Bool) (q : Str), NoExp q → ('.' ∈ q ∨ (NoLetter q ∧ post = [])) → (q ++ post).length ≤ 40 →
      (match parseNumber (q ++ post) with
        | some (m, e) => some (.num neg m e)
        | none =>
          if (q ++ post).map lowerAscii = "nan".toList then some .nan
          else if (q ++ post).map lowerAscii = "inf".toList ∨ (q ++ post).map lowerAscii = "infinity".toList then some (.inf neg)
          else none) = some d → Bd (F64.ofDec d) 466 := by
    intro neg q hq hw hl h
    split at h
    · rename_i m e hm
      cases h
      obtain ⟨b1, b2⟩ := parseNumber_bound q post hq m e hm
      have b1' : m < 10 ^ 40 := lt_of_lt_of_le b1 (Nat.pow_le_pow_right (by decide) hl)
      have b2' : e ≤ 99 := by
        have : (10 : Int) ^ (post.length - 1) ≤ 10 ^ 2 := by
          have : 10 ^ (post.length - 1) ≤ 10 ^ 2 := Nat.pow_le_pow_right (by decide) (by omega)
          exact_mod_cast this
        omega
      refine (ofDecimal_rounds neg m e).pow (by norm_num) ?_
      unfold decR
      rw [abs_mul, abs_mul, abs_of_nonneg (show (0 : ℝ) ≤ 10 ^ e by positivity), Nat.abs_cast]
      have s1 : |(if neg = true then (-1 : ℝ) else 1)| = 1 := by split <;> norm_num
      rw [s1, one_mul]
      have h1 : (m : ℝ) ≤ 10 ^ 40 := by exact_mod_cast b1'.le
      have h2 : (10 : ℝ) ^ e ≤ 10 ^ (99 : ℤ) := zpow_le_zpow_right₀ (by norm_num) b2'
      calc (m : ℝ) * 10 ^ e ≤ 10 ^ 40 * 10 ^ (99 : ℤ) := mul_le_mul h1 h2 (by positivity) (by positivity)
        _ = 10 ^ 139 := by rw [show (99 : ℤ) = ((99 : ℕ) : ℤ) from rfl, zpow_natCast, ← pow_add]
        _ ≤ 2 ^ 466 := by
          have : (10 : ℕ) ^ 139 ≤ 2 ^ 466 := by decide +kernel
          exact_mod_cast this
    · have hn := not_word (r := q ++ post) (by
        rcases hw with hw | ⟨hw, hpost⟩
        · exact Or.inl (List.mem_append_left _ hw)
        · rw [hpost, List.append_nil]; exact Or.inr hw)
      rw [if_neg hn.1, if_neg (not_or.mpr hn.2)] at h
      exact absurd h (by simp)
  have tail : ∀ (c : Char) (q : Str), c ≠ '.' → pre = c :: q → NoExp q ∧ ('.' ∈ q ∨ (NoLetter q ∧ post = [])) ∧ (q ++ post).length ≤ 40 := by
    rintro c q hc rfl
    refine ⟨fun x hx => hp x (List.mem_cons_of_mem _ hx), ?_, ?_⟩
    · rcases hw with hw | ⟨hw, hpost⟩
      · rcases List.mem_cons.mp hw with h | h
        · exact absurd h.symm hc
        · exact Or.inl h
      · exact Or.inr ⟨fun x hx => hw x (List.mem_cons_of_mem _ hx), hpost⟩
    · rw [List.cons_append, List.length_cons] at hl; omega
  obtain ⟨c, q, rfl⟩ : ∃ c q, pre = c :: q := List.exists_cons_of_ne_nil hpre
  unfold parseF64 at h
  split at h
  rename_i neg r heq
  split at heq
  · rename_i r' hr
    rw [List.cons_append, List.cons.injEq] at hr
    obtain ⟨h1, h2, h3⟩ := tail c q (by rw [hr.1]; decide) rfl
    cases heq
    rw [← hr.2] at h
    exact main _ q h1 h2 h3 h
  · rename_i r' hr
    rw [List.cons_append, List.cons.injEq] at hr
    obtain ⟨h1, h2, h3⟩ := tail c q (by rw [hr.1]; decide) rfl
    cases heq
    rw [← hr.2] at h
    exact main _ q h1 h2 h3 h
  · cases heq
    exact main _ _ hp hw hl h

variable [Libm]

/-- a decimal field without letters -/
theorem field_finite {line : Str} {name : String} {lo hi : Nat} (ha : Ascii line) (hlt : lo < hi) (hw : hi - lo ≤ 40)
    (hn : NoLetter (cols line (lo + 1) hi)) {x : F64} (h : (parse_float line name lo hi : PRes F64) = .ok x) : Bd x 466 := by
  unfold parse_float at h
  obtain ⟨t, ht, h⟩ := Res.bind_ok h
  have hl := slice_len ht
  have htc : ∀ c ∈ t, c ∈ cols line (lo + 1) hi := by
    rw [slice_ascii ha hlt] at ht
    split at ht
    · cases ht; exact fun c hc => hc
    · cases ht
  split at h
  · rename_i d hd
    cases h
    show Bd (F64.ofDec d) 466
    have hlen : (trim t).length ≤ 40 := le_trans (trim_length_le t) (le_trans (length_le_byteLen t) (by omega))
    have hmem : ∀ c ∈ trim t, c ∈ t := by
      intro c hc
      unfold trim trimEnd trimStart at hc
      rw [List.mem_reverse] at hc
      have := mem_dropWhile hc
      rw [List.mem_reverse] at this
      exact mem_dropWhile this
    have hnl : NoLetter (trim t) := fun c hc => hn c (htc c (hmem c hc))
    have hne : trim t ≠ [] := by
      intro h0; rw [h0, show parseF64 [] = none from by decide] at hd; cases hd
    have := parseF64_bound (trim t) [] (noLetter_noExp hnl) d (by rwa [List.append_nil]) (Or.inr ⟨hnl, rfl⟩) hne (by simp)
      (by rwa [List.append_nil])
    exact this
  · cases h

omit [Libm] in
theorem trimEnd_mid (p q : Str) (x : Char) (hx : isWhite x = false) : trimEnd (p ++ x :: q) = p ++ x :: trimEnd q := by
  unfold trimEnd
  rw [List.reverse_append, List.reverse_cons, List.append_assoc, List.singleton_append, List.dropWhile_append]
  split
  · rename_i h
    rw [List.isEmpty_iff] at h
    rw [h, List.dropWhile_cons_of_neg (by simp [hx])]
    simp
  · simp

omit [Libm] in
theorem trimEnd_length (q : Str) : (trimEnd q).length ≤ q.length := by
  unfold trimEnd
  rw [List.length_reverse]
  exact le_trans (List.length_dropWhile_le _ _) (by rw [List.length_reverse])

omit [Libm] in
/-- the text of an `i64`: at most twenty characters, none of them `e` -/
theorem showInt_facts {t : Str} {i : Int} (h : parseI64 t = some i) : (showInt i).length ≤ 21 ∧ NoExp (showInt i) := by
  have hb : i.natAbs ≤ 2 ^ 63 := by
    unfold parseI64 at h
    split at h
    rename_i neg ds heq
    dsimp only at h
    generalize (if neg = true then -(digitsVal ds : Int) else (digitsVal ds : Int)) = v at h
    split at h
    · split at h
      · cases h; omega
      · cases h
    · cases h
  have hd : numDigits i.natAbs ≤ 20 := by
    by_cases h0 : i.natAbs = 0
    · rw [h0, numDigits, if_pos (by decide)]; decide
    · have h1 := (numDigits_bounds _ h0).1
      by_contra hlt
      have : 10 ^ 20 ≤ 10 ^ (numDigits i.natAbs - 1) := Nat.pow_le_pow_right (by decide) (by omega)
      omega
  obtain ⟨h1, -, h3, -⟩ := showNat_spec i.natAbs
  have hs : NoExp (showNat i.natAbs) := by
    intro c hc
    have := isDig_toNat (h1 c hc)
    constructor
    · rintro rfl; exact absurd this (by decide)
    · rintro rfl; exact absurd this (by decide)
  unfold showInt
  split
  · refine ⟨by rw [List.length_cons]; omega, ?_⟩
    intro c hc
    rcases List.mem_cons.mp hc with rfl | hc
    · decide
    · exact hs c hc
  · exact ⟨by omega, hs⟩

omit [Libm] in
/-- the divisors that turn revolutions and days into radians and minutes are at least one -/
theorem xpdotp_one : (div (sci 14400 true 1) (mul (sci 20 true 1) F64.pi)).Fin ∧
    1 ≤ (div (sci 14400 true 1) (mul (sci 20 true 1) F64.pi)).val ∧ Bd (div (sci 14400 true 1) (mul (sci 20 true 1) F64.pi)) 8 := by
  have hf : (div (sci 14400 true 1) (mul (sci 20 true 1) F64.pi)).Fin := by decide +kernel
  have h1 : fle (sci 10 true 1) (div (sci 14400 true 1) (mul (sci 20 true 1) F64.pi)) = true := by decide +kernel
  have h2 : fle (div (sci 14400 true 1) (mul (sci 20 true 1) F64.pi)) (sci 2560 true 1) = true := by decide +kernel
  have e1 : (sci 10 true 1).Fin ∧ (sci 10 true 1).val = 1 := by simpa using sci_int (m := 10) (s := true) (k := 1) 1 (by norm_num) (by norm_num)
  have e2 : (sci 2560 true 1).Fin ∧ (sci 2560 true 1).val = 256 := by
    have := sci_int (m := 2560) (s := true) (k := 1) 256 (by norm_num) (by norm_num)
    simpa using this
  rw [fle_fin e1.1 hf, e1.2] at h1
  rw [fle_fin hf e2.1, e2.2] at h2
  refine ⟨hf, h1, hf, ?_⟩
  rw [abs_of_nonneg (by linarith)]
  linarith

theorem nddot_finite {l1 : Str} {x : F64} (h : (parseNddot l1 : PRes F64) = .ok x) : x.Fin := by
  unfold parseNddot at h
  obtain ⟨i, hi, h⟩ := Res.bind_ok h
  obtain ⟨t, ht, h⟩ := Res.bind_ok h
  unfold parse_int at hi
  obtain ⟨u, -, hi⟩ := Res.bind_ok hi
  split at hi
  · rename_i j hj
    cases hi
    obtain ⟨f1, f2⟩ := showInt_facts hj
    have hl := slice_len ht
    have hl' := length_le_byteLen t
    dsimp only at h
    split at h
    · rename_i d hd
      cases h
      have hb := parseF64_bound ('.' :: showInt i) ('E' :: t) (by
          intro c hc
          rcases List.mem_cons.mp hc with rfl | hc
          · decide
          · exact f2 c hc) d (by rw [List.cons_append]; exact hd) (Or.inl (by simp)) (by simp)
        (by simp only [List.length_cons]; omega)
        (by simp only [List.length_append, List.length_cons]; omega)
      obtain ⟨x1, x2, x3⟩ := xpdotp_one
      have k : (sci 14400 true 1).Fin ∧ (sci 14400 true 1).val = 1440 := by
        have := sci_int (m := 14400) (s := true) (k := 1) 1440 (by norm_num) (by norm_num)
        simpa using this
      have kb : Bd (sci 14400 true 1) 11 := ⟨k.1, by rw [k.2]; norm_num⟩
      have m1 := x3.mul kb (by norm_num)
      have m2 := m1.mul kb (by norm_num)
      have g1 : (1 : ℝ) ≤ (mul (div (sci 14400 true 1) (mul (sci 20 true 1) F64.pi)) (sci 14400 true 1)).val :=
        (mul_rounds x1 k.1).ge m1.1 (by simpa using isRep_int 1 (by norm_num)) (by rw [k.2]; nlinarith)
      have g2 : (1 : ℝ) ≤ (mul (mul (div (sci 14400 true 1) (mul (sci 20 true 1) F64.pi)) (sci 14400 true 1)) (sci 14400 true 1)).val :=
        (mul_rounds m1.1 k.1).ge m2.1 (by simpa using isRep_int 1 (by norm_num)) (by rw [k.2]; nlinarith)
      have := hb.div m2.1 (by rw [abs_of_nonneg (by linarith)]; exact g2) (by norm_num)
      exact this.1
    · cases h
  · cases hi

theorem bstar_finite {l1 : Str} {x : F64} (h : (parseBstar l1 : PRes F64) = .ok x) : x.Fin := by
  unfold parseBstar at h
  obtain ⟨b, hb, h⟩ := Res.bind_ok h
  obtain ⟨i, hi, h⟩ := Res.bind_ok h
  obtain ⟨t, ht, h⟩ := Res.bind_ok h
  unfold parse_int at hi
  obtain ⟨u, -, hi⟩ := Res.bind_ok hi
  split at hi
  · rename_i j hj
    cases hi
    obtain ⟨f1, f2⟩ := showInt_facts hj
    have hl := slice_len ht
    have hl' := length_le_byteLen t
    have hbl := slice_len hb
    have hbl' := length_le_byteLen b
    have htr := trimEnd_length t
    dsimp only at h
    split at h
    · rename_i d hd
      cases h
      have f3 : NoExp ('.' :: showInt i) := by
        intro c hc
        rcases List.mem_cons.mp hc with rfl | hc
        · decide
        · exact f2 c hc
      have fin0 : ∀ (q : Str), NoExp q → '.' ∈ q → q.length ≤ 24 → parseF64 (q ++ 'E' :: trimEnd t) = some d → (F64.ofDec d).Fin := by
        intro q hq hdot hlen hp
        refine (parseF64_bound q ('E' :: trimEnd t) hq d hp (Or.inl hdot) (by rintro rfl; simp at hdot) ?_ ?_).1
        · simp only [List.length_cons]; omega
        · simp only [List.length_append, List.length_cons]; omega
      match b, hbl' with
      | [], _ =>
        rw [List.nil_append, ← List.cons_append] at hd
        unfold trim trimStart at hd
        rw [List.cons_append, List.dropWhile_cons_of_neg (by decide), ← List.cons_append, trimEnd_mid _ _ _ (by decide)] at hd
        exact fin0 _ f3 (by simp) (by simp only [List.length_cons]; omega) hd
      | [c], _ =>
        rw [List.singleton_append] at hd
        unfold trim trimStart at hd
        by_cases hc : isWhite c = true
        · rw [List.dropWhile_cons_of_pos hc, List.dropWhile_cons_of_neg (by decide), ← List.cons_append, trimEnd_mid _ _ _ (by decide)] at hd
          exact fin0 _ f3 (by simp) (by simp only [List.length_cons]; omega) hd
        · rw [List.dropWhile_cons_of_neg hc, ← List.cons_append, ← List.cons_append, trimEnd_mid _ _ _ (by decide)] at hd
          by_cases he : c ≠ 'e' ∧ c ≠ 'E'
          · refine fin0 (c :: '.' :: showInt i) ?_ (by simp) (by simp only [List.length_cons]; omega) hd
            intro x hx
            rcases List.mem_cons.mp hx with rfl | hx
            · exact he
            · exact f3 x hx
          · exfalso
            have hno : ∀ x : Char, (x = 'e' ∨ x = 'E') → ∀ r, '.' ∈ r → parseF64 (x :: r) ≠ some d := by
              intro x hx r hr hp
              have hpn : parseNumber (x :: r) = none := by
                have hx' : isDig x = false := by rcases hx with rfl | rfl <;> decide
                unfold parseNumber
                rw [List.takeWhile_cons_of_neg (by simp [hx']), List.dropWhile_cons_of_neg (by simp [hx'])]
                rcases hx with rfl | rfl <;> rfl
              have hn := not_word (r := x :: r) (Or.inl (List.mem_cons_of_mem _ hr))
              unfold parseF64 at hp
              split at hp
              rename_i neg q heq
              split at heq
              · rename_i hq; cases hq; rcases hx with hx | hx <;> cases hx
              · rename_i hq; cases hq; rcases hx with hx | hx <;> cases hx
              · cases heq
                rw [hpn] at hp
                dsimp only at hp
                rw [if_neg hn.1, if_neg (not_or.mpr hn.2)] at hp
                cases hp
            refine hno c (by tauto) _ ?_ hd
            simp
      | _ :: _ :: _, hh => simp only [List.length_cons] at hh; omega
    · cases h
  · cases hi

theorem ecco_finite {l2 : Str} (ha : Ascii l2) (hn : NoLetter (cols l2 27 33)) {x : F64} (h : (parseEcco l2 : PRes F64) = .ok x) :
    x.Fin := by
  unfold parseEcco at h
  obtain ⟨t, ht, h⟩ := Res.bind_ok h
  have hl := slice_len ht
  have htc : ∀ c ∈ t, c ∈ cols l2 27 33 := by
    rw [slice_ascii ha (by decide)] at ht
    split at ht
    · cases ht; exact fun c hc => hc
    · cases ht
  dsimp only at h
  split at h
  · rename_i d hd
    cases h
    have hmem : ∀ (s : Str), ∀ c ∈ trim s, c ∈ s := by
      intro s c hc
      unfold trim trimEnd trimStart at hc
      rw [List.mem_reverse] at hc
      have := mem_dropWhile hc
      rw [List.mem_reverse] at this
      exact mem_dropWhile this
    have hnl : NoLetter (trim ('.' :: trim t)) := by
      intro c hc
      rcases List.mem_cons.mp (hmem _ c hc) with rfl | hc
      · decide
      · exact hn c (htc c (hmem _ c hc))
    have hne : trim ('.' :: trim t) ≠ [] := by
      intro h0; rw [h0, show parseF64 [] = none from by decide] at hd; cases hd
    have hlen : (trim ('.' :: trim t)).length ≤ 40 := by
      have h1 := trim_length_le ('.' :: trim t)
      have h2 := trim_length_le t
      have h3 := length_le_byteLen t
      simp only [List.length_cons] at h1
      omega
    exact (parseF64_bound (trim ('.' :: trim t)) [] (noLetter_noExp hnl) d (by rwa [List.append_nil]) (Or.inr ⟨hnl, rfl⟩) hne (by simp)
      (by rwa [List.append_nil])).1
  · cases h

/-- The columns of the decimal numbers in line 1: day of year, first derivative. -/
def decimalColumns1 : List (Nat × Nat) := [(21, 32), (34, 43)]

/-- The columns of the decimal numbers in line 2: inclination, node, eccentricity, perigee, anomaly, mean motion. -/
def decimalColumns2 : List (Nat × Nat) := [(9, 16), (18, 25), (27, 33), (35, 42), (44, 51), (53, 63)]

/-- **C31.** In double arithmetic: whatever the lines contain, if `parse_satrec` accepts them and no letter stands in the columns of
the decimal numbers, then every element of the record is a finite number. -/
theorem C31_finite (l1 l2 : Str) (a1 : Ascii l1) (a2 : Ascii l2) (h1 : ∀ p ∈ decimalColumns1, NoLetter (cols l1 p.1 p.2))
    (h2 : ∀ p ∈ decimalColumns2, NoLetter (cols l2 p.1 p.2)) (s : Satrec F64) (h : (parse_satrec l1 l2 : PRes (Satrec F64)) = .ok s) :
    s.epochdays.Fin ∧ s.ndot.Fin ∧ s.nddot.Fin ∧ s.bstar.Fin ∧ s.inclo.Fin ∧ s.nodeo.Fin ∧ s.ecco.Fin ∧ s.argpo.Fin ∧
      s.mo.Fin ∧ s.no.Fin := by
  have m1 : ∀ A B, (A, B) ∈ decimalColumns1 → NoLetter (cols l1 A B) := fun A B h => h1 (A, B) h
  have m2 : ∀ A B, (A, B) ∈ decimalColumns2 → NoLetter (cols l2 A B) := fun A B h => h2 (A, B) h
  obtain ⟨a, b, ha, hb, rfl⟩ := parse_satrec_ok h
  unfold parseLine1 at ha
  obtain ⟨_, -, ha⟩ := Res.bind_ok ha
  obtain ⟨_, -, ha⟩ := Res.bind_ok ha
  obtain ⟨days, hdays, ha⟩ := Res.bind_ok ha
  obtain ⟨ndot, hndot, ha⟩ := Res.bind_ok ha
  obtain ⟨nddot, hnddot, ha⟩ := Res.bind_ok ha
  obtain ⟨bstar, hbstar, ha⟩ := Res.bind_ok ha
  cases ha
  unfold parseLine2 at hb
  obtain ⟨inclo, hinclo, hb⟩ := Res.bind_ok hb
  obtain ⟨nodeo, hnodeo, hb⟩ := Res.bind_ok hb
  obtain ⟨ecco, hecco, hb⟩ := Res.bind_ok hb
  obtain ⟨argpo, hargpo, hb⟩ := Res.bind_ok hb
  obtain ⟨mo, hmo, hb⟩ := Res.bind_ok hb
  obtain ⟨no, hno, hb⟩ := Res.bind_ok hb
  cases hb
  obtain ⟨x1, x2, x3⟩ := xpdotp_one
  have k : (sci 14400 true 1).Fin ∧ (sci 14400 true 1).val = 1440 := by
    have := sci_int (m := 14400) (s := true) (k := 1) 1440 (by norm_num) (by norm_num)
    simpa using this
  have kb : Bd (sci 14400 true 1) 11 := ⟨k.1, by rw [k.2]; norm_num⟩
  have q1 := x3.mul kb (by norm_num)
  have g1 : (1 : ℝ) ≤ (mul (div (sci 14400 true 1) (mul (sci 20 true 1) F64.pi)) (sci 14400 true 1)).val :=
    (mul_rounds x1 k.1).ge q1.1 (by simpa using isRep_int 1 (by norm_num)) (by rw [k.2]; nlinarith)
  have rad : Bd (div F64.pi (sci 1800 true 1)) 2 := by
    have := sci_int (m := 1800) (s := true) (k := 1) 180 (by norm_num) (by norm_num)
    refine Bd.div ⟨pi_val.1, by rw [pi_val.2, abs_of_nonneg (by norm_num)]; norm_num⟩ this.1 ?_ (by norm_num)
    rw [this.2]; norm_num
  have angle : ∀ x : F64, Bd x 466 → (F64.mul x (div F64.pi (sci 1800 true 1))).Fin := fun x hx => (hx.mul rad (by norm_num)).1
  refine ⟨?_, ?_, nddot_finite hnddot, bstar_finite hbstar, ?_, ?_, ecco_finite a2 (m2 27 33 (by decide)) hecco, ?_, ?_, ?_⟩
  · exact (field_finite a1 (by decide) (by decide) (m1 21 32 (by decide)) hdays).1
  · exact ((field_finite a1 (by decide) (by decide) (m1 34 43 (by decide)) hndot).div q1.1
      (by rw [abs_of_nonneg (by linarith)]; exact g1) (by norm_num)).1
  · exact angle _ (field_finite a2 (by decide) (by decide) (m2 9 16 (by decide)) hinclo)
  · exact angle _ (field_finite a2 (by decide) (by decide) (m2 18 25 (by decide)) hnodeo)
  · exact angle _ (field_finite a2 (by decide) (by decide) (m2 35 42 (by decide)) hargpo)
  · exact angle _ (field_finite a2 (by decide) (by decide) (m2 44 51 (by decide)) hmo)
  · exact ((field_finite a2 (by decide) (by decide) (m2 53 63 (by decide)) hno).div x1
      (by rw [abs_of_nonneg (by linarith)]; exact x2) (by norm_num)).1

/-- The line pair of the crate's own test meets the hypotheses. -/
example :
    let a := "1 25544U 98067A   19365.55868056  .00016717  00000-0  10270-3 0  9003".toList
    let c := "2 25544  51.6433 111.7433 0005139  86.8163 339.4171 15.49524087205923".toList
    (∀ p ∈ decimalColumns1, NoLetter (cols a p.1 p.2)) ∧ (∀ p ∈ decimalColumns2, NoLetter (cols c p.1 p.2)) := by
  decide

omit [Libm] in
theorem lower_eq {c x : Char} (h : lowerAscii c = x) : c = x ∨ (65 ≤ c.toNat ∧ c.toNat ≤ 90 ∧ c.toNat + 32 = x.toNat) := by
  unfold lowerAscii at h
  split at h
  · rename_i hu
    have h1 : 65 ≤ c.toNat := hu.1
    have h2 : c.toNat ≤ 90 := hu.2
    refine Or.inr ⟨h1, h2, ?_⟩
    have tab : ∀ k < 91, (Char.ofNat (k + 32)).toNat = k + 32 := by decide
    rw [← h, tab _ (by omega)]
  · exact Or.inl h

omit [Libm] in
/-- the words and the overflowing number are accepted, in any case -/
theorem word_read {w : Str} (hw : w.map lowerAscii ∈ ["nan".toList, "inf".toList, "infinity".toList, "1e999".toList]) :
    ∃ d, parseF64 w = some d ∧ ¬ (F64.ofDec d).Fin := by
  -- a first letter that cannot start a number
  have word : ∀ (c : Char) (r : Str), isDig c = false → c ≠ '-' → c ≠ '+' → c ≠ '.' →
      parseF64 (c :: r) = if (c :: r).map lowerAscii = "nan".toList then some .nan
          else if (c :: r).map lowerAscii = "inf".toList ∨ (c :: r).map lowerAscii = "infinity".toList then some (.inf false)
          else none := by
    intro c r h1 h2 h3 h4
    have hpn : parseNumber (c :: r) = none := by
      unfold parseNumber
      rw [List.takeWhile_cons_of_neg (by simp [h1]), List.dropWhile_cons_of_neg (by simp [h1])]
      dsimp only
      split
      · rename_i hq; cases hq; exact absurd rfl h4
      · simp
    unfold parseF64
    split
    rename_i neg q heq
    split at heq
    · rename_i hq; cases hq; exact absurd rfl h2
    · rename_i hq; cases hq; exact absurd rfl h3
    · cases heq
      rw [hpn]
  have first : ∀ (c x : Char), lowerAscii c = x → 97 ≤ x.toNat → isDig c = false ∧ c ≠ '-' ∧ c ≠ '+' ∧ c ≠ '.' := by
    intro c x h hx
    have hc : 65 ≤ c.toNat := by
      rcases lower_eq h with rfl | h <;> omega
    refine ⟨?_, ?_, ?_, ?_⟩
    · by_contra hd
      have := isDig_toNat (by simpa using hd)
      omega
    all_goals (rintro rfl; exact absurd hc (by decide))
  simp only [List.mem_cons, List.not_mem_nil, or_false] at hw
  cases w with
  | nil => simp at hw
  | cons c r =>
    have hh : ∀ (x : Char) (y : Str), (c :: r).map lowerAscii = x :: y → lowerAscii c = x := by
      intro x y h; rw [List.map_cons, List.cons.injEq] at h; exact h.1
    rcases hw with hw | hw | hw | hw
    · obtain ⟨h1, h2, h3, h4⟩ := first c 'n' (hh _ _ hw) (by decide)
      exact ⟨.nan, by rw [word c r h1 h2 h3 h4, if_pos hw], not_fin_nan⟩
    · obtain ⟨h1, h2, h3, h4⟩ := first c 'i' (hh _ _ hw) (by decide)
      refine ⟨.inf false, by rw [word c r h1 h2 h3 h4, hw, if_neg (by decide), if_pos (by decide)], ?_⟩
      exact fun h => h
    · obtain ⟨h1, h2, h3, h4⟩ := first c 'i' (hh _ _ hw) (by decide)
      refine ⟨.inf false, by rw [word c r h1 h2 h3 h4, hw, if_neg (by decide), if_pos (by decide)], ?_⟩
      exact fun h => h
    · have dig : ∀ {c : Char} {x : Char}, lowerAscii c = x → x.toNat ≤ 57 → c = x := by
        intro c x h hx
        rcases lower_eq h with h | h
        · exact h
        · omega
      have hl : r.length = 4 := by
        have := congrArg List.length hw
        simpa using this
      match r, hl with
      | [c2, c3, c4, c5], _ =>
        have hw' : [lowerAscii c, lowerAscii c2, lowerAscii c3, lowerAscii c4, lowerAscii c5] = ['1', 'e', '9', '9', '9'] := hw
        simp only [List.cons.injEq, and_true] at hw'
        obtain ⟨e1, e2, e3, e4, e5⟩ := hw'
        have e1 := dig e1 (by decide)
        have e3 := dig e3 (by decide)
        have e4 := dig e4 (by decide)
        have e5 := dig e5 (by decide)
        subst e1 e3 e4 e5
        have fin : ¬ (F64.ofDec (.num false 1 999)).Fin := by decide +kernel
        rcases lower_eq e2 with rfl | ⟨-, -, h⟩
        · exact ⟨.num false 1 999, by decide, fin⟩
        · have h' : c2.toNat = 'E'.toNat := by have h := h; change c2.toNat + 32 = 101 at h; show c2.toNat = 69; omega
          have : c2 = 'E' := Char.toNat_inj.mp h'
          subst this
          exact ⟨.num false 1 999, by decide, fin⟩

/-- **C31, why the letters must be excluded.** Take any accepted pair of lines and write one of the words `nan`, `inf`, `infinity`
(in any case, blank-padded), or the number `1e999`, into the inclination columns: the pair is still accepted, and the inclination of the
record is not a finite number. -/
theorem C31_violated_words (l1 l2 l2' : Str) (a2 : Ascii l2) (a2' : Ascii l2') (s : Satrec F64)
    (h : (parse_satrec l1 l2 : PRes (Satrec F64)) = .ok s) (hrest : cols l2' 17 63 = cols l2 17 63)
    (hlen : (cols l2' 9 16).length = 8)
    (hw : (trim (cols l2' 9 16)).map lowerAscii ∈ ["nan".toList, "inf".toList, "infinity".toList, "1e999".toList]) :
    ∃ s' : Satrec F64, (parse_satrec l1 l2' : PRes (Satrec F64)) = .ok s' ∧ ¬ s'.inclo.Fin ∧ s'.nodeo = s.nodeo ∧ s'.no = s.no := by
  obtain ⟨a, b, ha, hb, rfl⟩ := parse_satrec_ok h
  unfold parseLine2 at hb
  obtain ⟨inclo, hinclo, hb⟩ := Res.bind_ok hb
  obtain ⟨nodeo, hnodeo, hb⟩ := Res.bind_ok hb
  obtain ⟨ecco, hecco, hb⟩ := Res.bind_ok hb
  obtain ⟨argpo, hargpo, hb⟩ := Res.bind_ok hb
  obtain ⟨mo, hmo, hb⟩ := Res.bind_ok hb
  obtain ⟨no, hno, hb⟩ := Res.bind_ok hb
  cases hb
  obtain ⟨d, hd, hfin⟩ := word_read hw
  have hcol : (slice l2' 8 16 : PRes Str) = .ok (cols l2' 9 16) := by rw [slice_ascii a2' (by decide), if_pos hlen]
  have hp : (parseLine2 l2' : PRes (Line2 F64)) = .ok ⟨Arith.ofDec d * DEG_2_RAD, nodeo * DEG_2_RAD, ecco, argpo * DEG_2_RAD, mo * DEG_2_RAD, no / XPDOTP⟩ := by
    have s1 : ∀ {lo hi : Nat}, 16 ≤ lo → hi ≤ 63 → lo < hi → (slice l2' lo hi : PRes Str) = slice l2 lo hi :=
      fun h1 h2 h3 => slice_same a2' a2 hrest (by omega) (by omega) (by decide) (by omega)
    have f0 : (parse_float l2' "inclo" 8 16 : PRes F64) = .ok (Arith.ofDec d) := by
      unfold parse_float; rw [hcol, Res.ok_bind, hd]
    have f1 : ∀ {n : String} {lo hi : Nat}, 16 ≤ lo → hi ≤ 63 → lo < hi → (parse_float l2' n lo hi : PRes F64) = parse_float l2 n lo hi :=
      fun h1 h2 h3 => by unfold parse_float; rw [s1 h1 h2 h3]
    have f2 : (parseEcco l2' : PRes F64) = parseEcco l2 := by unfold parseEcco; rw [s1 (by decide) (by decide) (by decide)]
    unfold parseLine2
    rw [f0, f1 (by decide) (by decide) (by decide), f2, f1 (by decide) (by decide) (by decide), f1 (by decide) (by decide) (by decide),
      f1 (by decide) (by decide) (by decide), hnodeo, hecco, hargpo, hmo, hno]
    rfl
  refine ⟨buildSatrec a ⟨Arith.ofDec d * DEG_2_RAD, nodeo * DEG_2_RAD, ecco, argpo * DEG_2_RAD, mo * DEG_2_RAD, no / XPDOTP⟩, ?_, ?_, ?_, ?_⟩
  · unfold parse_satrec
    rw [ha, hp]
    rfl
  · intro h
    exact hfin (mul_fin_left h).1
  · rfl
  · rfl

/-- the ISS with the inclination columns overwritten -/
example :
    let c := "2 25544  51.6433 111.7433 0005139  86.8163 339.4171 15.49524087205923".toList
    let c' := "2 25544      NaN 111.7433 0005139  86.8163 339.4171 15.49524087205923".toList
    cols c' 17 63 = cols c 17 63 ∧ (cols c' 9 16).length = 8 ∧
      (trim (cols c' 9 16)).map lowerAscii ∈ ["nan".toList, "inf".toList, "infinity".toList, "1e999".toList] := by
  decide

end Sat
