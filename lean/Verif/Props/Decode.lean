import Verif.Props.Parse
import Verif.Props.Time
import Verif.Props.DeepInit
/-!
# What a well-formed element set decodes to: C21, C22

`Spec.Printed l1 l2 v` (in `Verif/Spec/TleSpec.lean`) says that the two lines show the numbers `v` in the columns of the TLE
format.  The first theorems hold for every arithmetic with its decimal conversion `ofDec`; the `_real` ones evaluate them.
-/

set_option linter.unusedSectionVars false
set_option linter.unusedSimpArgs false

namespace Sat
open Spec
variable {F : Type} [Arith F]

theorem slice_cols {ε : Type} {s : Str} (h : Ascii s) {lo hi : Nat} {t : Str} (hlt : lo < hi)
    (ht : cols s (lo + 1) hi = t) (hl : t.length = hi - lo) : (slice s lo hi : Res ε Str) = .ok t := by
  rw [slice_ascii h hlt, ht, if_pos hl]

theorem isDig_not {c : Char} (h : isDig c = true) : c ≠ '-' ∧ c ≠ '+' ∧ c ≠ '.' := by
  refine ⟨?_, ?_, ?_⟩ <;> rintro rfl <;> revert h <;> decide

/-- a text of digits is an integer -/
theorem parseI64_digits {ds : Str} (hne : ds ≠ []) (hd : ∀ c ∈ ds, isDig c = true) (hv : digitsVal ds < 2 ^ 63) :
    parseI64 ds = some (digitsVal ds : Int) ∧ parseI64 ('+' :: ds) = some (digitsVal ds : Int) ∧
      parseI64 ('-' :: ds) = some (-(digitsVal ds : Int)) := by
  have hall : ds ≠ [] ∧ ds.all isDig = true := ⟨hne, List.all_eq_true.mpr hd⟩
  have hr : -(2 ^ 63) ≤ (digitsVal ds : Int) ∧ (digitsVal ds : Int) < 2 ^ 63 := by
    have : ((digitsVal ds : Nat) : Int) < ((2 ^ 63 : Nat) : Int) := by exact_mod_cast hv
    exact ⟨le_trans (by norm_num) (Int.natCast_nonneg _), by simpa using this⟩
  have hr' : -(2 ^ 63) ≤ -(digitsVal ds : Int) ∧ -(digitsVal ds : Int) < 2 ^ 63 := by
    have : ((digitsVal ds : Nat) : Int) < ((2 ^ 63 : Nat) : Int) := by exact_mod_cast hv
    have h63 : ((2 ^ 63 : Nat) : Int) = 2 ^ 63 := by norm_num
    rw [h63] at this
    exact ⟨by omega, lt_of_le_of_lt (by omega : _ ≤ (0 : Int)) (by norm_num)⟩
  have key : ∀ (s : Str) (neg : Bool), (match s with
      | '-' :: r => (true, r)
      | '+' :: r => (false, r)
      | _ => (false, s) : Bool × Str) = (neg, ds) → parseI64 s = some (if neg then -(digitsVal ds : Int) else (digitsVal ds : Int)) := by
    intro s neg hs
    unfold parseI64
    split
    rename_i neg' ds' heq
    have e := heq.symm.trans hs
    cases e
    dsimp only
    rw [if_pos hall]
    cases neg
    · simp only [Bool.false_eq_true, if_false]; rw [if_pos hr]
    · simp only [if_true]; rw [if_pos hr']
  refine ⟨key ds false ?_, key _ false rfl, key _ true rfl⟩
  split
  · exact absurd rfl (isDig_not (hd _ (List.mem_cons_self ..))).1
  · exact absurd rfl (isDig_not (hd _ (List.mem_cons_self ..))).2.1
  · rfl

theorem notWhite_append {a b : Str} (ha : ∀ c ∈ a, isWhite c = false) (hb : ∀ c ∈ b, isWhite c = false) :
    ∀ c ∈ a ++ b, isWhite c = false := by
  intro c hc
  rcases List.mem_append.mp hc with h | h
  · exact ha c h
  · exact hb c h

theorem notWhite_cons {x : Char} {b : Str} (ha : isWhite x = false) (hb : ∀ c ∈ b, isWhite c = false) :
    ∀ c ∈ x :: b, isWhite c = false := by
  intro c hc
  rcases List.mem_cons.mp hc with h | h
  · rw [h]; exact ha
  · exact hb c h

theorem fixedDigits_notWhite (w n : Nat) : ∀ c ∈ fixedDigits w n, isWhite c = false :=
  fun c hc => isDig_notWhite (fixedDigits_isDig w n c hc)

theorem showNat_notWhite (n : Nat) : ∀ c ∈ showNat n, isWhite c = false :=
  fun c hc => isDig_notWhite ((showNat_spec n).1 c hc)

/-- a fixed-point text reads as its value -/
theorem parseF64_point (w d n : Nat) (hd : 0 < d) (hn : n < 10 ^ (w + d)) :
    parseF64 (fixedDigits w (n / 10 ^ d) ++ '.' :: fixedDigits d n) = some (.num false n (-(d : Int))) := by
  have hnum : parseNumber (fixedDigits w (n / 10 ^ d) ++ '.' :: fixedDigits d n) = some (n, -(d : Int)) := by
    have := parseNumber_point (fixedDigits w (n / 10 ^ d)) (fixedDigits d n) [] (fixedDigits_isDig _ _) (fixedDigits_isDig _ _)
      (Or.inr (by intro h; have := congrArg List.length h; rw [fixedDigits_length] at this; simp at this; omega))
      (by intro c t h; cases h)
    rw [List.append_nil] at this
    rw [this]
    show some _ = _
    rw [fixedDigits_split w d n hn, fixedDigits_length]
    simp
  have hh : ∀ (x : Char) r, fixedDigits w (n / 10 ^ d) ++ '.' :: fixedDigits d n = x :: r → x ≠ '-' ∧ x ≠ '+' := by
    intro x r h
    cases hw : fixedDigits w (n / 10 ^ d) with
    | nil => rw [hw] at h; cases h; decide
    | cons y ys =>
      rw [hw] at h
      have hxy : y = x := (List.cons.inj h).1
      subst hxy
      have := isDig_not (fixedDigits_isDig w (n / 10 ^ d) y (by rw [hw]; exact List.mem_cons_self ..))
      exact ⟨this.1, this.2.1⟩
  exact parseF64_nosign _ _ _ hnum (fun r h => (hh _ r h).1 rfl) (fun r h => (hh _ r h).2 rfl)

/-- a fixed-point field is read -/
theorem field_point {line : Str} {name : String} {lo hi w d n : Nat} (ha : Ascii line) (hlt : lo < hi)
    (hw : w + 1 + d = hi - lo) (hd : 0 < d) (h : PointField (cols line (lo + 1) hi) w d n) :
    (parse_float line name lo hi : PRes F) = .ok (Arith.ofDec (.num false n (-(d : Int)))) := by
  obtain ⟨k, hk, hn, ht⟩ := h
  unfold parse_float
  rw [slice_cols ha hlt ht (by simp [fixedDigits_length]; omega), Res.ok_bind, List.append_assoc, trim_pad, parseF64_point _ _ _ hd hn]
  exact notWhite_append (fixedDigits_notWhite _ _) (notWhite_cons (by decide) (fixedDigits_notWhite _ _))

/-- the exponent part `E-3` -/
theorem parseExp_sign (neg : Bool) (e : Nat) (he : e < 10) :
    parseExp ('E' :: [if neg then '-' else '+', digit e]) = some (sexp neg e) := by
  have hv : digitsVal [digit e] = e := by
    simp only [digitsVal, List.foldl_cons, List.foldl_nil]; rw [digit_val]; omega
  have hall : ([digit e] : Str) ≠ [] ∧ ([digit e] : Str).all isDig = true := ⟨by simp, by simp [digit_isDig]⟩
  cases neg
  · show (if ([digit e] : Str) ≠ [] ∧ ([digit e] : Str).all isDig = true then
      some (if false = true then -(digitsVal [digit e] : Int) else (digitsVal [digit e] : Int)) else none) = _
    rw [if_pos hall, hv]; rfl
  · show (if ([digit e] : Str) ≠ [] ∧ ([digit e] : Str).all isDig = true then
      some (if true = true then -(digitsVal [digit e] : Int) else (digitsVal [digit e] : Int)) else none) = _
    rw [if_pos hall, hv]; rfl

/-- `.mmmmmE-x` with the mantissa printed without leading zeros -/
theorem parseNumber_implied (m : Nat) (neg : Bool) (e : Nat) (he : e < 10) :
    parseNumber ('.' :: (showNat m ++ 'E' :: [if neg then '-' else '+', digit e])) =
      some (m, sexp neg e - (numDigits m : Int)) := by
  obtain ⟨h1, h2, h3, h4⟩ := showNat_spec m
  have := parseNumber_point [] (showNat m) ('E' :: [if neg then '-' else '+', digit e]) (by simp) h1 (Or.inr h4)
    (by intro c t h; cases h; decide)
  rw [List.nil_append] at this
  rw [this, parseExp_sign neg e he, Option.map_some, List.nil_append, h2, h3]

theorem trim_sign {c : Char} {neg : Bool} (hc : SignCol neg c) {s : Str} (hs : ∀ x ∈ s, isWhite x = false) :
    (neg = true ∧ trim (c :: s) = '-' :: s) ∨ (neg = false ∧ (trim (c :: s) = s ∨ trim (c :: s) = '+' :: s)) := by
  unfold SignCol at hc
  cases neg
  · simp only [Bool.false_eq_true, if_false] at hc
    rcases hc with rfl | rfl
    · exact Or.inr ⟨rfl, Or.inl (trim_pad 1 s hs)⟩
    · exact Or.inr ⟨rfl, Or.inr (trim_id _ (notWhite_cons (by decide) hs))⟩
  · simp only [if_true] at hc
    subst hc
    exact Or.inl ⟨rfl, trim_id _ (notWhite_cons (by decide) hs)⟩

/-- a signed text that begins with a point -/
theorem parseF64_signed {c : Char} {neg : Bool} (hc : SignCol neg c) {s : Str} (hs : ∀ x ∈ '.' :: s, isWhite x = false)
    {m : Nat} {e : Int} (h : parseNumber ('.' :: s) = some (m, e)) :
    parseF64 (trim (c :: '.' :: s)) = some (.num neg m e) := by
  rcases trim_sign hc hs with ⟨rfl, ht⟩ | ⟨rfl, ht | ht⟩
  · rw [ht]; exact parseF64_minus _ _ _ h
  · rw [ht]
    exact parseF64_nosign _ _ _ h (by intro r h; cases h) (by intro r h; cases h)
  · rw [ht]; exact parseF64_plus _ _ _ h

theorem exp_notWhite (neg : Bool) (e : Nat) : ∀ c ∈ [if neg then '-' else '+', digit e], isWhite c = false := by
  refine notWhite_cons (by cases neg <;> decide) (notWhite_cons (isDig_notWhite (digit_isDig e)) (by simp))

/-- the drag field -/
theorem bstar_read {l1 : Str} (ha : Ascii l1) {neg : Bool} {m : Nat} {eneg : Bool} {e : Nat} {c : Char} (hm : m < 10 ^ 5)
    (he : e < 10) (hc : SignCol neg c) (h1 : cols l1 54 54 = [c]) (h2 : cols l1 55 59 = fixedDigits 5 m)
    (h3 : cols l1 60 61 = [if eneg then '-' else '+', digit e]) :
    (parseBstar l1 : PRes F) = .ok (Arith.ofDec (.num neg m (sexp eneg e - (numDigits m : Int)))) := by
  unfold parseBstar parse_int
  rw [slice_cols ha (by decide) h1 rfl, slice_cols ha (by decide) h2 (by rw [fixedDigits_length]),
    slice_cols ha (by decide) h3 rfl]
  simp only [Res.ok_bind]
  rw [trim_id _ (fixedDigits_notWhite 5 m)]
  have hv : digitsVal (fixedDigits 5 m) = m := by rw [fixedDigits_val]; exact Nat.mod_eq_of_lt hm
  have hp := (parseI64_digits (ds := fixedDigits 5 m)
    (by intro h; have := congrArg List.length h; rw [fixedDigits_length] at this; simp at this)
    (fixedDigits_isDig 5 m) (by rw [hv]; exact lt_trans hm (by norm_num))).1
  rw [hp, hv]
  simp only [Res.ok_bind]
  have hshow : showInt (m : Int) = showNat m := by
    unfold showInt; rw [if_neg (by omega)]; rfl
  rw [hshow]
  show (match parseF64 (trim (c :: '.' :: (showNat m ++ 'E' :: [if eneg then '-' else '+', digit e]))) with
    | some d => Res.ok (Arith.ofDec d)
    | none => _) = _
  rw [parseF64_signed hc (notWhite_cons (by decide) (notWhite_append (showNat_notWhite m)
    (notWhite_cons (by decide) (exp_notWhite eneg e)))) (parseNumber_implied m eneg e he)]

/-- the mantissa of the second derivative as an integer -/
theorem nddot_mantissa {l1 : Str} (ha : Ascii l1) {neg : Bool} {m : Nat} {c : Char} (hm : m < 10 ^ 5)
    (hc : SignCol neg c) (h1 : cols l1 45 50 = c :: fixedDigits 5 m) (name : String) :
    parse_int l1 name 44 50 = .ok (if neg then -(m : Int) else (m : Int)) := by
  unfold parse_int
  rw [slice_cols ha (by decide) h1 (by rw [List.length_cons, fixedDigits_length]), Res.ok_bind]
  have hv : digitsVal (fixedDigits 5 m) = m := by rw [fixedDigits_val]; exact Nat.mod_eq_of_lt hm
  obtain ⟨hp1, hp2, hp3⟩ := parseI64_digits (ds := fixedDigits 5 m)
    (by intro h; have := congrArg List.length h; rw [fixedDigits_length] at this; simp at this)
    (fixedDigits_isDig 5 m) (by rw [hv]; exact lt_trans hm (by norm_num))
  rw [hv] at hp1 hp2 hp3
  rcases trim_sign hc (fixedDigits_notWhite 5 m) with ⟨rfl, ht⟩ | ⟨rfl, ht | ht⟩
  · rw [ht, hp3]; rfl
  · rw [ht, hp1]; rfl
  · rw [ht, hp2]; rfl

/-- the second derivative, when it is not negative -/
theorem nddot_read {l1 : Str} (ha : Ascii l1) {neg : Bool} {m : Nat} {eneg : Bool} {e : Nat} {c : Char} (hm : m < 10 ^ 5)
    (he : e < 10) (hc : SignCol neg c) (h1 : cols l1 45 50 = c :: fixedDigits 5 m)
    (h3 : cols l1 51 52 = [if eneg then '-' else '+', digit e]) (hpos : neg = false ∨ m = 0) :
    (parseNddot l1 : PRes F) =
      .ok (Arith.ofDec (.num false m (sexp eneg e - (numDigits m : Int))) / (XPDOTP * 1440.0 * 1440.0)) := by
  unfold parseNddot
  rw [nddot_mantissa ha hm hc h1, slice_cols ha (by decide) h3 rfl]
  simp only [Res.ok_bind]
  have hshow : showInt (if neg then -(m : Int) else (m : Int)) = showNat m := by
    rcases hpos with rfl | rfl
    · unfold showInt; simp only [Bool.false_eq_true, if_false]; rw [if_neg (by omega)]; rfl
    · cases neg <;> rfl
  rw [hshow, parseF64_nosign _ _ _ (parseNumber_implied m eneg e he) (by intro r h; cases h) (by intro r h; cases h)]

/-- the second derivative, when it is negative: an error -/
theorem nddot_negative {l1 : Str} (ha : Ascii l1) {m : Nat} {eneg : Bool} {e : Nat} {c : Char} (hm : m < 10 ^ 5)
    (hc : SignCol true c) (h1 : cols l1 45 50 = c :: fixedDigits 5 m)
    (h3 : cols l1 51 52 = [if eneg then '-' else '+', digit e]) (hpos : m ≠ 0) :
    ∃ t, (parseNddot l1 : PRes F) = .err (.CompoundError "nndot" t) := by
  unfold parseNddot
  rw [nddot_mantissa ha hm hc h1, slice_cols ha (by decide) h3 rfl]
  simp only [Res.ok_bind, if_true]
  have hshow : showInt (-(m : Int)) = '-' :: showNat m := by
    unfold showInt; rw [if_pos (by omega)]; simp
  rw [hshow]
  have : parseF64 ('.' :: ('-' :: showNat m ++ 'E' :: [if eneg then '-' else '+', digit e])) = none := by
    have hnum : parseNumber ('.' :: ('-' :: showNat m ++ 'E' :: [if eneg then '-' else '+', digit e])) = none := by
      unfold parseNumber
      rfl
    have hneq : ∀ (w : Str), w.head? ≠ some '.' →
        ('.' :: ('-' :: showNat m ++ 'E' :: [if eneg then '-' else '+', digit e])).map lowerAscii ≠ w := by
      intro w hw h
      rw [← h] at hw
      exact hw rfl
    unfold parseF64
    split
    rename_i neg r heq
    split at heq
    · rename_i h; cases h
    · rename_i h; cases h
    · cases heq
      rw [hnum]
      dsimp only
      rw [if_neg (hneq _ (by decide)), if_neg (by
        intro h; rcases h with h | h
        · exact hneq _ (by decide) h
        · exact hneq _ (by decide) h)]
  rw [this]
  exact ⟨_, rfl⟩

/-- the eccentricity -/
theorem ecco_read {l2 : Str} (ha : Ascii l2) {n : Nat} (hn : n < 10 ^ 7) (h : cols l2 27 33 = fixedDigits 7 n) :
    (parseEcco l2 : PRes F) = .ok (Arith.ofDec (.num false n (-7))) := by
  unfold parseEcco
  rw [slice_cols ha (by decide) h (by rw [fixedDigits_length]), Res.ok_bind, trim_id _ (fixedDigits_notWhite 7 n)]
  dsimp only
  rw [trim_id _ (notWhite_cons (by decide) (fixedDigits_notWhite 7 n))]
  have := parseF64_point 0 7 n (by decide) (by simpa using hn)
  rw [show fixedDigits 0 (n / 10 ^ 7) = [] from rfl, List.nil_append] at this
  rw [this]
  rfl

/-- the first derivative -/
theorem ndot_read {l1 : Str} (ha : Ascii l1) {neg : Bool} {n : Nat} {c : Char} (hn : n < 10 ^ 8) (hc : SignCol neg c)
    (h : cols l1 34 43 = c :: '.' :: fixedDigits 8 n) (name : String) :
    (parse_float l1 name 33 43 : PRes F) = .ok (Arith.ofDec (.num neg n (-8))) := by
  unfold parse_float
  rw [slice_cols ha (by decide) h (by simp [fixedDigits_length]), Res.ok_bind]
  have hnum : parseNumber ('.' :: fixedDigits 8 n) = some (n, -8) := by
    have := parseNumber_point [] (fixedDigits 8 n) [] (by simp) (fixedDigits_isDig _ _)
      (Or.inr (by intro h; have := congrArg List.length h; rw [fixedDigits_length] at this; simp at this))
      (by intro c t h; cases h)
    rw [List.append_nil, List.nil_append, List.nil_append] at this
    rw [this]
    show some _ = _
    rw [fixedDigits_val, fixedDigits_length, Nat.mod_eq_of_lt hn]
    rfl
  rw [parseF64_signed hc (notWhite_cons (by decide) (fixedDigits_notWhite 8 n)) hnum]

theorem year_read {l1 : Str} (ha : Ascii l1) {n : Nat} (hn : n < 100) (h : cols l1 19 20 = fixedDigits 2 n) (name : String) :
    parse_int l1 name 18 20 = .ok (n : Int) := by
  unfold parse_int
  rw [slice_cols ha (by decide) h (by rw [fixedDigits_length]), Res.ok_bind, trim_id _ (fixedDigits_notWhite 2 n)]
  have hv : digitsVal (fixedDigits 2 n) = n := by rw [fixedDigits_val]; exact Nat.mod_eq_of_lt (by simpa using hn)
  rw [(parseI64_digits (ds := fixedDigits 2 n)
    (by intro h; have := congrArg List.length h; rw [fixedDigits_length] at this; simp at this)
    (fixedDigits_isDig 2 n) (by rw [hv]; exact lt_trans hn (by norm_num))).1, hv]

theorem satnum_slice {l1 l2 : Str} {v : Tle} (h : Printed l1 l2 v) {ε : Type} : ∃ t, (slice l1 2 7 : Res ε Str) = .ok t ∧ trim t = v.satnum := by
  have hl : 20 ≤ l1.length := by
    have := congrArg List.length h.year.2
    rw [fixedDigits_length] at this
    unfold cols at this
    rw [List.length_take, List.length_drop] at this
    omega
  exact ⟨_, slice_long h.ascii1 (by decide) (by omega), h.satnum⟩

/-! ## C21 -/

/-- **C21.** Two lines that show the numbers `v`, with a second derivative that is not negative, are accepted, and every
element of the record is the decimal conversion of the printed number times the factor of its unit.  In the exponent of B* and
of the second derivative the number of significant digits of the mantissa appears where the format wants 5 (see C22). -/
theorem C21_decode (l1 l2 : Str) (v : Tle) (h : Printed l1 l2 v) (hpos : v.nddotNeg = false ∨ v.nddotMant = 0) :
    ∃ s : Satrec F, parse_satrec l1 l2 = .ok s ∧
      s.satnum = v.satnum ∧ s.name = none ∧ s.operationmode = .I ∧ s.error = 0 ∧
      s.epochyr = (v.year : Int) ∧
      s.epochdays = Arith.ofDec (.num false v.dayE8 (-8)) ∧
      s.jdsatepoch = epochJd (v.year : Int) (Arith.ofDec (.num false v.dayE8 (-8)) : F) ∧
      s.ndot = Arith.ofDec (.num v.ndotNeg v.ndotE8 (-8)) / (XPDOTP * 1440.0) ∧
      s.nddot = Arith.ofDec (.num false v.nddotMant (sexp v.nddotExpNeg v.nddotExp - (numDigits v.nddotMant : Int))) /
        (XPDOTP * 1440.0 * 1440.0) ∧
      s.bstar = Arith.ofDec (.num v.bstarNeg v.bstarMant (sexp v.bstarExpNeg v.bstarExp - (numDigits v.bstarMant : Int))) ∧
      s.inclo = Arith.ofDec (.num false v.inclE4 (-4)) * DEG_2_RAD ∧
      s.nodeo = Arith.ofDec (.num false v.nodeE4 (-4)) * DEG_2_RAD ∧
      s.ecco = Arith.ofDec (.num false v.eccE7 (-7)) ∧
      s.argpo = Arith.ofDec (.num false v.argpE4 (-4)) * DEG_2_RAD ∧
      s.mo = Arith.ofDec (.num false v.moE4 (-4)) * DEG_2_RAD ∧
      s.no = Arith.ofDec (.num false v.noE8 (-8)) / XPDOTP ∧
      s.a = Arith.powf (s.no * TUMIN) (-2.0 / 3.0) ∧
      s.alta = s.a * (1.0 + s.ecco) - 1.0 ∧ s.altp = s.a * (1.0 - s.ecco) - 1.0 := by
  obtain ⟨t, hsat, hsat'⟩ := satnum_slice h (ε := SatrecParseError)
  obtain ⟨h1a, c1, h1c, h1⟩ := h.ndot
  obtain ⟨h2a, h2b, c2, h2c, h2, h2'⟩ := h.nddot
  obtain ⟨h3a, h3b, c3, h3c, h3, h3', h3''⟩ := h.bstar
  unfold parse_satrec parseLine1 parseLine2
  rw [hsat, year_read h.ascii1 h.year.1 h.year.2, field_point h.ascii1 (by decide) (by decide) (by decide) h.day,
    ndot_read h.ascii1 h1a h1c h1, nddot_read h.ascii1 h2a h2b h2c h2 h2' hpos, bstar_read h.ascii1 h3a h3b h3c h3 h3' h3'',
    field_point h.ascii2 (by decide) (by decide) (by decide) h.incl,
    field_point h.ascii2 (by decide) (by decide) (by decide) h.node, ecco_read h.ascii2 h.ecc.1 h.ecc.2,
    field_point h.ascii2 (by decide) (by decide) (by decide) h.argp,
    field_point h.ascii2 (by decide) (by decide) (by decide) h.mo,
    field_point h.ascii2 (by decide) (by decide) (by decide) h.no]
  refine ⟨_, rfl, hsat', rfl, rfl, rfl, rfl, rfl, rfl, rfl, rfl, rfl, rfl, rfl, rfl, rfl, rfl, rfl, rfl, rfl, rfl⟩

/-- **C21/C22, violated.** A negative second derivative is rejected although the format allows it. -/
theorem C22_violated_negative (l1 l2 : Str) (v : Tle) (h : Printed l1 l2 v) (hneg : v.nddotNeg = true) (h0 : v.nddotMant ≠ 0) :
    ∃ t, (parse_satrec l1 l2 : PRes (Satrec F)) = .err (.CompoundError "nndot" t) := by
  obtain ⟨t, hsat, hsat'⟩ := satnum_slice h (ε := SatrecParseError)
  obtain ⟨h1a, c1, h1c, h1⟩ := h.ndot
  obtain ⟨h2a, h2b, c2, h2c, h2, h2'⟩ := h.nddot
  rw [hneg] at h2c
  obtain ⟨t', ht⟩ := nddot_negative (F := F) h.ascii1 h2a h2c h2 h2' h0
  refine ⟨t', ?_⟩
  unfold parse_satrec parseLine1
  rw [hsat, year_read h.ascii1 h.year.1 h.year.2, field_point h.ascii1 (by decide) (by decide) (by decide) h.day,
    ndot_read h.ascii1 h1a h1c h1, ht]
  rfl

/-! ## Over the reals -/

/-- The value of an assumed-decimal-point field `±mmmmm±x`: `±0.mmmmm · 10^±x`. -/
noncomputable def impliedValue (neg : Bool) (m : Nat) (e : Int) : ℝ := (if neg then -1 else 1) * ((m : ℝ) / 100000) * (10 : ℝ) ^ e

theorem numDigits_five {m : Nat} (h1 : 10000 ≤ m) (h2 : m < 10 ^ 5) : numDigits m = 5 := by
  obtain ⟨a, b⟩ := numDigits_bounds m (by omega)
  have l1 : numDigits m - 1 < 5 := (Nat.pow_lt_pow_iff_right (a := 10) (by decide)).mp (lt_of_le_of_lt a h2)
  have l2 : 4 < numDigits m :=
    (Nat.pow_lt_pow_iff_right (a := 10) (by decide)).mp (lt_of_le_of_lt (by simpa using h1) b)
  omega

/-- a mantissa with `k` leading zeros out of five digits -/
theorem numDigits_lead {m k : Nat} (hk : k < 5) (h1 : 10 ^ (4 - k) ≤ m) (h2 : m < 10 ^ (5 - k)) : numDigits m = 5 - k := by
  have hpos : 0 < 10 ^ (4 - k) := Nat.pow_pos (by decide)
  obtain ⟨a, b⟩ := numDigits_bounds m (by omega)
  have l1 : numDigits m - 1 < 5 - k := (Nat.pow_lt_pow_iff_right (a := 10) (by decide)).mp (lt_of_le_of_lt a h2)
  have l2 : 4 - k < numDigits m := (Nat.pow_lt_pow_iff_right (a := 10) (by decide)).mp (lt_of_le_of_lt h1 b)
  omega

theorem implied_real (neg : Bool) (m : Nat) (e : Int) (k : Nat) (hk : k < 5) (h1 : 10 ^ (4 - k) ≤ m) (h2 : m < 10 ^ (5 - k)) :
    decR (.num neg m (e - (numDigits m : Int))) = impliedValue neg m e * (10 : ℝ) ^ k := by
  rw [numDigits_lead hk h1 h2]
  unfold impliedValue decR
  dsimp only
  rw [show e - ((5 - k : Nat) : Int) = e + (k : Int) - 5 by omega, zpow_sub₀ (by norm_num), zpow_add₀ (by norm_num),
    zpow_natCast]
  rw [show ((10 : ℝ) ^ (5 : Int)) = 100000 by norm_num]
  ring

theorem implied_zero (neg : Bool) (e f : Int) : decR (.num neg 0 f) = impliedValue neg 0 e := by
  unfold impliedValue decR; simp

/-- A mantissa without leading zero, or zero. -/
def Normal (m : Nat) : Prop := m = 0 ∨ 10000 ≤ m

theorem implied_normal (neg : Bool) (m : Nat) (e : Int) (h : Normal m) (hm : m < 10 ^ 5) :
    decR (.num neg m (e - (numDigits m : Int))) = impliedValue neg m e := by
  rcases h with rfl | h
  · exact implied_zero _ _ _
  · rw [implied_real neg m e 0 (by decide) (by simpa using h) (by simpa using hm)]; simp

theorem real_dec (neg : Bool) (n d : Nat) : (Arith.ofDec (.num neg n (-(d : Int))) : ℝ) =
    (if neg then -1 else 1) * ((n : ℝ) / 10 ^ d) := by
  show decR _ = _
  unfold decR
  dsimp only
  rw [zpow_neg, zpow_natCast]
  ring

/-- **C21.** Read with exact arithmetic: the record holds what is printed, angles in radians, rates per minute, the epoch as a
Julian date (2415079.5 is 1900 March 1, 0 h, and `n` the number of days from then to January 1 of the year). -/
theorem C21_decode_real (l1 l2 : Str) (v : Tle) (h : Printed l1 l2 v) (hpos : v.nddotNeg = false ∨ v.nddotMant = 0)
    (hnd : Normal v.nddotMant) (hb : Normal v.bstarMant) :
    ∃ s : Satrec ℝ, parse_satrec l1 l2 = .ok s ∧ s.satnum = v.satnum ∧
      (∃ (year n : ℕ), 1957 ≤ year ∧ year ≤ 2056 ∧ (year : ℤ) % 100 = v.year ∧ Spec.base.after n = ⟨year, 1, 1⟩ ∧
        s.jdsatepoch = 2415079.5 + n - 1 + (v.dayE8 : ℝ) / 10 ^ 8) ∧
      s.ndot = (if v.ndotNeg then -1 else 1) * ((v.ndotE8 : ℝ) / 10 ^ 8) * (2 * Real.pi) / 1440 ^ 2 ∧
      s.nddot = impliedValue false v.nddotMant (sexp v.nddotExpNeg v.nddotExp) * (2 * Real.pi) / 1440 ^ 3 ∧
      s.bstar = impliedValue v.bstarNeg v.bstarMant (sexp v.bstarExpNeg v.bstarExp) ∧
      s.inclo = (v.inclE4 : ℝ) / 10 ^ 4 * (Real.pi / 180) ∧ s.nodeo = (v.nodeE4 : ℝ) / 10 ^ 4 * (Real.pi / 180) ∧
      s.ecco = (v.eccE7 : ℝ) / 10 ^ 7 ∧ s.argpo = (v.argpE4 : ℝ) / 10 ^ 4 * (Real.pi / 180) ∧
      s.mo = (v.moE4 : ℝ) / 10 ^ 4 * (Real.pi / 180) ∧
      s.no = (v.noE8 : ℝ) / 10 ^ 8 * (2 * Real.pi) / 1440 := by
  obtain ⟨s, hs, h1, -, -, -, h2, h3, h4, h5, h6, h7, h8, h9, h10, h11, h12, h13, -, -, -⟩ := C21_decode (F := ℝ) l1 l2 v h hpos
  have hd0 := real_dec false v.dayE8 8
  have hx : (XPDOTP : ℝ) = 1440 / (2 * Real.pi) := by
    unfold XPDOTP; rw [real_pi, real_lits.2.2, show (1440.0 : ℝ) = 1440 by norm_num]
  have hD : (DEG_2_RAD : ℝ) = Real.pi / 180 := by
    unfold DEG_2_RAD; rw [real_pi, show (180.0 : ℝ) = 180 by norm_num]
  have h1440 : (1440.0 : ℝ) = 1440 := by norm_num
  have hpi := Real.pi_ne_zero
  simp only [Bool.false_eq_true, if_false, one_mul] at hd0
  refine ⟨s, hs, h1, ?_, ?_, ?_, ?_, ?_, ?_, ?_, ?_, ?_, ?_⟩
  · have hday : (v.dayE8 : ℝ) / 10 ^ 8 < 2 ^ 64 := by
      obtain ⟨k, hk, hn, -⟩ := h.day
      have : v.dayE8 < 10 ^ 11 := lt_of_lt_of_le hn (Nat.pow_le_pow_right (by decide) (by omega))
      have : (v.dayE8 : ℝ) < 10 ^ 11 := by exact_mod_cast this
      rw [div_lt_iff₀ (by norm_num)]
      linarith [show (10 : ℝ) ^ 11 < 2 ^ 64 * 10 ^ 8 by norm_num]
    obtain ⟨year, n, a, b, c, d, e⟩ := C24_epoch (v.year : ℤ) (by omega) (by have := h.year.1; omega)
      ((v.dayE8 : ℝ) / 10 ^ 8) (by positivity) hday
    refine ⟨year, n, a, b, c, d, ?_⟩
    rw [h4, ← e]
    exact congrArg _ hd0
  · rw [h5, hx, h1440]
    have := real_dec v.ndotNeg v.ndotE8 8
    rw [show (-8 : Int) = -((8 : Nat) : Int) by rfl, this]
    field_simp
  · rw [h6, hx, h1440]
    have := implied_normal false v.nddotMant (sexp v.nddotExpNeg v.nddotExp) hnd h.nddot.1
    rw [show (Arith.ofDec (.num false v.nddotMant (sexp v.nddotExpNeg v.nddotExp - (numDigits v.nddotMant : Int))) : ℝ) =
      impliedValue false v.nddotMant (sexp v.nddotExpNeg v.nddotExp) from this]
    field_simp
  · rw [h7]
    exact implied_normal _ _ _ hb h.bstar.1
  · rw [h8, hD, show (-4 : Int) = -((4 : Nat) : Int) by rfl, real_dec]; simp
  · rw [h9, hD, show (-4 : Int) = -((4 : Nat) : Int) by rfl, real_dec]; simp
  · rw [h10, show (-7 : Int) = -((7 : Nat) : Int) by rfl, real_dec]; simp
  · rw [h11, hD, show (-4 : Int) = -((4 : Nat) : Int) by rfl, real_dec]; simp
  · rw [h12, hD, show (-4 : Int) = -((4 : Nat) : Int) by rfl, real_dec]; simp
  · rw [h13, hx, show (-8 : Int) = -((8 : Nat) : Int) by rfl, real_dec]
    simp only [Bool.false_eq_true, if_false, one_mul]
    field_simp

/-- **C22, violated.** If the five-digit mantissa of B* has `k` leading zeros (and is not zero), the value stored is `10^k`
times the value printed; likewise for the second derivative. -/
theorem C22_violated_leading_zeros (l1 l2 : Str) (v : Tle) (h : Printed l1 l2 v)
    (hpos : v.nddotNeg = false ∨ v.nddotMant = 0) (s : Satrec ℝ) (hs : parse_satrec l1 l2 = .ok s) (k : Nat) (hk : k < 5) :
    (10 ^ (4 - k) ≤ v.bstarMant → v.bstarMant < 10 ^ (5 - k) →
      s.bstar = impliedValue v.bstarNeg v.bstarMant (sexp v.bstarExpNeg v.bstarExp) * 10 ^ k) ∧
    (10 ^ (4 - k) ≤ v.nddotMant → v.nddotMant < 10 ^ (5 - k) →
      s.nddot = impliedValue false v.nddotMant (sexp v.nddotExpNeg v.nddotExp) * 10 ^ k * (2 * Real.pi) / 1440 ^ 3) := by
  obtain ⟨s', hs', h1, -, -, -, h2, h3, h4, h5, h6, h7, -⟩ := C21_decode (F := ℝ) l1 l2 v h hpos
  have e : s' = s := by rw [hs] at hs'; cases hs'; rfl
  subst e
  have hx : (XPDOTP : ℝ) = 1440 / (2 * Real.pi) := by
    unfold XPDOTP; rw [real_pi, real_lits.2.2, show (1440.0 : ℝ) = 1440 by norm_num]
  have h1440 : (1440.0 : ℝ) = 1440 := by norm_num
  have hpi := Real.pi_ne_zero
  constructor
  · intro a b
    rw [h7]
    exact implied_real _ _ _ k hk a b
  · intro a b
    rw [h6, hx, h1440]
    have := implied_real false v.nddotMant (sexp v.nddotExpNeg v.nddotExp) k hk a b
    rw [show (Arith.ofDec (.num false v.nddotMant (sexp v.nddotExpNeg v.nddotExp - (numDigits v.nddotMant : Int))) : ℝ) =
      impliedValue false v.nddotMant (sexp v.nddotExpNeg v.nddotExp) * 10 ^ k from this]
    field_simp

/-- The hypotheses are met by a published element set of the ISS, whose B* is negative; -/
theorem iss_printed : Printed "1 25544U 98067A   08264.51782528 -.00002182  00000-0 -11606-4 0  2927".toList
    "2 25544  51.6416 247.4627 0006703 130.5360 325.0288 15.72125391563537".toList
    { satnum := "25544".toList, year := 8, dayE8 := 26451782528, ndotNeg := true, ndotE8 := 2182, nddotNeg := false,
      nddotMant := 0, nddotExpNeg := true, nddotExp := 0, bstarNeg := true, bstarMant := 11606, bstarExpNeg := true,
      bstarExp := 4, inclE4 := 516416, nodeE4 := 2474627, eccE7 := 6703, argpE4 := 1305360, moE4 := 3250288,
      noE8 := 1572125391 } where
  ascii1 := by unfold Ascii; decide
  ascii2 := by unfold Ascii; decide
  satnum := by decide
  year := by decide
  day := ⟨0, by decide, by decide, by decide⟩
  ndot := ⟨by decide, '-', rfl, by decide⟩
  nddot := ⟨by decide, by decide, ' ', Or.inl rfl, by decide, by decide⟩
  bstar := ⟨by decide, by decide, '-', rfl, by decide, by decide, by decide⟩
  incl := ⟨1, by decide, by decide, by decide⟩
  node := ⟨0, by decide, by decide, by decide⟩
  ecc := by decide
  argp := ⟨0, by decide, by decide, by decide⟩
  mo := ⟨0, by decide, by decide, by decide⟩
  no := ⟨0, by decide, by decide, by decide⟩

/-- and so are those of `C22_violated_leading_zeros` (with `k = 1`) by the same set with another drag term. -/
theorem lead_printed : Printed "1 25544U 98067A   08264.51782528 -.00002182  00000-0  01234-4 0  2927".toList
    "2 25544  51.6416 247.4627 0006703 130.5360 325.0288 15.72125391563537".toList
    { satnum := "25544".toList, year := 8, dayE8 := 26451782528, ndotNeg := true, ndotE8 := 2182, nddotNeg := false,
      nddotMant := 0, nddotExpNeg := true, nddotExp := 0, bstarNeg := false, bstarMant := 1234, bstarExpNeg := true,
      bstarExp := 4, inclE4 := 516416, nodeE4 := 2474627, eccE7 := 6703, argpE4 := 1305360, moE4 := 3250288,
      noE8 := 1572125391 } where
  ascii1 := by unfold Ascii; decide
  ascii2 := by unfold Ascii; decide
  satnum := by decide
  year := by decide
  day := ⟨0, by decide, by decide, by decide⟩
  ndot := ⟨by decide, '-', rfl, by decide⟩
  nddot := ⟨by decide, by decide, ' ', Or.inl rfl, by decide, by decide⟩
  bstar := ⟨by decide, by decide, ' ', Or.inl rfl, by decide, by decide, by decide⟩
  incl := ⟨1, by decide, by decide, by decide⟩
  node := ⟨0, by decide, by decide, by decide⟩
  ecc := by decide
  argp := ⟨0, by decide, by decide, by decide⟩
  mo := ⟨0, by decide, by decide, by decide⟩
  no := ⟨0, by decide, by decide, by decide⟩

example : ∃ s : Satrec ℝ, parse_satrec "1 25544U 98067A   08264.51782528 -.00002182  00000-0  01234-4 0  2927".toList
    "2 25544  51.6416 247.4627 0006703 130.5360 325.0288 15.72125391563537".toList = .ok s ∧
    s.bstar = 10 * (0.01234 * 10 ^ (-4 : ℤ)) := by
  obtain ⟨s, hs, -⟩ := C21_decode (F := ℝ) _ _ _ lead_printed (Or.inl rfl)
  refine ⟨s, hs, ?_⟩
  rw [(C22_violated_leading_zeros _ _ _ lead_printed (Or.inl rfl) s hs 1 (by decide)).1 (by decide) (by decide)]
  unfold impliedValue sexp
  norm_num

end Sat
