import Verif.Props.F64Dspace
import Verif.Props.F64Finite
import Verif.Props.F64Jday
import Verif.Props.Deep
import Verif.Model.Io
/-!
# C68: every call comes back

Reading element sets runs the propagator once, at the epoch; propagating to a calendar date runs it at the elapsed minutes.
-/

namespace Sat
open F64

section generic
variable {F : Type} [Arith F]

theorem slice_returns {ε : Type} (s : Str) (a b : ℕ) : (slice s a b : Res ε Str) ≠ .diverge := by
  unfold slice
  split
  · simp
  · split <;> simp

theorem sliceFrom_returns {ε : Type} (s : Str) (a : ℕ) : (sliceFrom s a : Res ε Str) ≠ .diverge := by
  unfold sliceFrom
  split <;> simp

theorem firstByte_returns {ε : Type} (s : Str) : (firstByte s : Res ε UInt8) ≠ .diverge := by
  unfold firstByte
  split
  · simp
  · split <;> simp

theorem bind_returns {ε α β : Type} {r : Res ε α} {f : α → Res ε β} (h1 : r ≠ .diverge) (h2 : ∀ a, f a ≠ .diverge) : (r >>= f) ≠ .diverge := by
  cases r with
  | ok a => exact h2 a
  | err e => simp
  | panic => simp
  | diverge => exact absurd rfl h1

theorem parse_float_returns (line : Str) (name : String) (a b : ℕ) : (parse_float line name a b : PRes F) ≠ .diverge := by
  refine bind_returns (slice_returns _ _ _) fun t => ?_
  split <;> simp

theorem parse_int_returns (line : Str) (name : String) (a b : ℕ) : parse_int line name a b ≠ .diverge := by
  refine bind_returns (slice_returns _ _ _) fun t => ?_
  split <;> simp

theorem parse_satrec_returns (a b : Str) : (parse_satrec a b : PRes (Satrec F)) ≠ .diverge := by
  refine bind_returns ?_ fun l1 => bind_returns ?_ fun l2 => by simp
  · refine bind_returns (slice_returns _ _ _) fun _ => bind_returns (parse_int_returns _ _ _ _) fun _ =>
      bind_returns (parse_float_returns _ _ _ _) fun _ => bind_returns (parse_float_returns _ _ _ _) fun _ =>
      bind_returns ?_ fun _ => bind_returns ?_ fun _ => by simp
    · refine bind_returns (parse_int_returns _ _ _ _) fun _ => bind_returns (slice_returns _ _ _) fun _ => ?_
      dsimp only
      split <;> simp
    · refine bind_returns (slice_returns _ _ _) fun _ => bind_returns (parse_int_returns _ _ _ _) fun _ =>
        bind_returns (slice_returns _ _ _) fun _ => ?_
      dsimp only
      split <;> simp
  · refine bind_returns (parse_float_returns _ _ _ _) fun _ => bind_returns (parse_float_returns _ _ _ _) fun _ =>
      bind_returns ?_ fun _ => bind_returns (parse_float_returns _ _ _ _) fun _ => bind_returns (parse_float_returns _ _ _ _) fun _ =>
      bind_returns (parse_float_returns _ _ _ _) fun _ => by simp
    refine bind_returns (slice_returns _ _ _) fun _ => ?_
    dsimp only
    split <;> simp

/-- if the propagator returns at the epoch then so does every way of reading element sets -/
theorem reading_returns (h : ∀ s : Satrec F, ∃ s' r, sgp4 s 0.0 = some (s', r)) :
    (∀ a b : Str, (twoline2satrec a b : PRes (Satrec F)) ≠ .diverge) ∧ (∀ t : Str, (parse t : PRes (Satrec F)) ≠ .diverge) ∧
      (∀ t : Str, (parse_multiple t : Res Empty (List (Satrec F) × List SatrecParseError)) ≠ .diverge) := by
  have tl : ∀ a b : Str, (twoline2satrec a b : PRes (Satrec F)) ≠ .diverge := by
    intro a b
    refine bind_returns (parse_satrec_returns a b) fun s => ?_
    unfold sgp4init
    obtain ⟨s', r, hs⟩ := h (initRecord s (tleOptions s))
    rw [hs]
    cases r <;> simp
  refine ⟨tl, fun t => ?_, fun t => ?_⟩
  · unfold parse
    dsimp only
    split
    · refine bind_returns (firstByte_returns _) fun _ => ?_
      split
      · simp
      · refine bind_returns (firstByte_returns _) fun _ => ?_
        split
        · simp
        · refine bind_returns (tl _ _) fun _ => bind_returns ?_ fun _ => by simp
          refine bind_returns (firstByte_returns _) fun _ => ?_
          split
          · exact sliceFrom_returns _ _
          · simp
    · split
      · refine bind_returns (firstByte_returns _) fun _ => ?_
        split
        · simp
        · refine bind_returns (firstByte_returns _) fun _ => ?_
          split
          · simp
          · exact tl _ _
      · simp
  · unfold parse_multiple
    have name : ∀ l : Str, parseMultiName l ≠ .diverge := by
      intro l
      refine bind_returns (firstByte_returns _) fun _ => ?_
      split
      · exact bind_returns (sliceFrom_returns _ _) fun _ => by simp
      · simp
    have loop : ∀ (n : ℕ) (lines : List Str) (i : ℕ) (recs : List (Satrec F)) (errs : List SatrecParseError), lines.length - i ≤ n →
        multiLoop lines i recs errs ≠ .diverge := by
      intro n
      induction n with
      | zero =>
        intro lines i recs errs hn
        rw [multiLoop, if_neg (by omega)]
        simp
      | succ n ih =>
        intro lines i recs errs hn
        rw [multiLoop]
        split
        · split
          · split
            · simp
            · rename_i e; exact absurd e (tl _ _)
            · split
              · exact ih _ _ _ _ (by omega)
              · rename_i e _; exact nomatch e
              · simp
              · rename_i e; exact absurd e (name _)
            · exact ih _ _ _ _ (by omega)
          · split
            · split
              · simp
              · rename_i e; exact absurd e (tl _ _)
              · exact ih _ _ _ _ (by omega)
              · exact ih _ _ _ _ (by omega)
            · exact ih _ _ _ _ (by omega)
        · simp
    exact loop _ _ _ _ _ le_rfl

end generic

/-- **C68.** Exact arithmetic: for every text, reading element sets comes back (with a record, an error or a panic). -/
theorem C68_reading_returns_real :
    (∀ a b : Str, (twoline2satrec a b : PRes (Satrec ℝ)) ≠ .diverge) ∧ (∀ t : Str, (parse t : PRes (Satrec ℝ)) ≠ .diverge) ∧
      (∀ t : Str, (parse_multiple t : Res Empty (List (Satrec ℝ) × List SatrecParseError)) ≠ .diverge) :=
  reading_returns fun s => C09_sgp4_returns s 0.0

/-- **C68.** The same in double arithmetic, whatever the mathematical library returns. -/
theorem C68_reading_returns_f64 [Libm] :
    (∀ a b : Str, (twoline2satrec a b : PRes (Satrec F64)) ≠ .diverge) ∧ (∀ t : Str, (parse t : PRes (Satrec F64)) ≠ .diverge) ∧
      (∀ t : Str, (parse_multiple t : Res Empty (List (Satrec F64) × List SatrecParseError)) ≠ .diverge) :=
  reading_returns fun s => C09_f64_returns s 0.0 (Or.inr ⟨lit_zero.1, by
    show |(sci 0 true 1).val| ≤ _
    rw [lit_zero.2]; norm_num⟩)

theorem bd_floor {x : F64} {e : ℕ} (h : Bd x e) : Bd (F64.floor x) e := by
  obtain ⟨f1, f2⟩ := floor_val h.1
  refine ⟨f1, ?_⟩
  have hx := abs_le.mp h.2
  rw [f2, abs_le]
  constructor
  · have : (-(2 ^ e : ℤ)) ≤ ⌊x.val⌋ := Int.le_floor.mpr (by push_cast; exact hx.1)
    exact_mod_cast this
  · exact le_trans (Int.floor_le _) hx.2

theorem bd_ofInt {i : ℤ} {e : ℕ} (he : e ≤ 970) (h : |i| ≤ 2 ^ e) : Bd (F64.ofInt i) e :=
  (ofInt_rounds i).pow he (by exact_mod_cast h)

/-- **C68.** Propagation to a calendar date comes back in double arithmetic for every year of 32 bits, month, day, hour, minute and second
below `2^32`, and every record whose epoch is NaN or a finite number up to `2^50`. -/
theorem C68_datetime_returns_f64 [Libm] (s : Satrec F64) (d : DateTimeUtc) (hy : |d.year| ≤ 2 ^ 31) (hm : d.month ≤ 2 ^ 32)
    (hd : d.day ≤ 2 ^ 32) (hh : d.hour ≤ 2 ^ 32) (hmi : d.minute ≤ 2 ^ 32) (hs : d.second ≤ 2 ^ 32)
    (he : s.jdsatepoch = .nan ∨ Bd s.jdsatepoch 50) : ∃ r, propogate_datetime s d = some r := by
  have nn : ∀ n : ℕ, n ≤ 2 ^ 32 → Bd (F64.ofInt (n : ℤ)) 32 := fun n h =>
    bd_ofInt (by decide) (by rw [abs_of_nonneg (Int.natCast_nonneg n)]; exact_mod_cast h)
  have y := (bd_ofInt (e := 31) (by decide) hy)
  have mo := nn _ hm
  have da := nn _ hd
  have ho := nn _ hh
  have mi := nn _ hmi
  have se := nn _ hs
  have ms : Bd (F64.ofInt 0) 0 := bd_ofInt (by decide) (by norm_num)
  have lit : ∀ (m k e : ℕ), e ≤ 970 → |(OfScientific.ofScientific m true k : ℝ)| ≤ 2 ^ e → Bd (sci m true k) e := fun m k e a b => bd_sci _ _ _ _ a b
  have one : ∀ (m k : ℕ), (sci m true k).Fin → (1 : ℝ) ≤ OfScientific.ofScientific m true k → 1 ≤ |(sci m true k).val| := fun m k hf h =>
    le_trans ((sci_rounds m true k).ge hf isRep_one h) (le_abs_self _)
  have l367 := lit 3670 1 9 (by decide) (by norm_num)
  have l7 := lit 70 1 3 (by decide) (by norm_num)
  have l9 := lit 90 1 4 (by decide) (by norm_num)
  have l12 := lit 120 1 4 (by decide) (by norm_num)
  have l025 := lit 25 2 0 (by decide) (by norm_num)
  have l275 := lit 2750 1 9 (by decide) (by norm_num)
  have lb := lit 17210135 1 21 (by decide) (by norm_num)
  have l6e4 := lit 600000 1 16 (by decide) (by norm_num)
  have l60 := lit 600 1 6 (by decide) (by norm_num)
  have l24 := lit 240 1 5 (by decide) (by norm_num)
  have l1440 := lit 14400 1 11 (by decide) (by norm_num)
  have f1 := bd_floor ((mo.add' l9 (by decide)).div l12.1 (one _ _ l12.1 (by norm_num)) (by decide))
  have f2 := bd_floor (((l7.mul (y.add' f1 (by decide)) (by decide)).mul l025 (by decide)))
  have f3 := bd_floor ((l275.mul mo (by decide)).div l9.1 (one _ _ l9.1 (by norm_num)) (by decide))
  have g1 := (l367.mul y (by decide)).sub' f2 (by decide)
  have g2 := ((g1.add' f3 (by decide)).add' da (by decide)).add' lb (by decide)
  have t1 := ((ms.div l6e4.1 (one _ _ l6e4.1 (by norm_num)) (by decide)).add' (se.div l60.1 (one _ _ l60.1 (by norm_num)) (by decide)) (by decide)).add' mi (by decide)
  have t2 := ((t1.div l60.1 (one _ _ l60.1 (by norm_num)) (by decide)).add' ho (by decide)).div l24.1 (one _ _ l24.1 (by norm_num)) (by decide)
  have j : Bd (jday_datetime d : F64) 50 := by
    have j := (g2.add' t2 (by decide)).mono (b := 50) (by decide)
    rw [← jday_eq] at j
    exact j
  have tm : ((jday_datetime d - s.jdsatepoch) * 1440.0 : F64) = F64.mul (F64.sub (jday_datetime d) s.jdsatepoch) (sci 14400 true 1) := by
    simp only [f64_sub, f64_mul, f64_sci]
  have key : ∃ s' r, sgp4 s ((jday_datetime d - s.jdsatepoch) * 1440.0) = some (s', r) := by
    rw [tm]
    generalize (jday_datetime d : F64) = J at j
    clear tm
    apply C09_f64_returns
    rcases he with e | e
    · left; rw [e]; simp only [sub_nan, nan_mul]
    · right
      have := ((j.sub' e (by decide)).mul l1440 (by decide))
      exact ⟨this.1, le_trans this.2 (by norm_num)⟩
  obtain ⟨s', r, hr⟩ := key
  exact ⟨r, by rw [C04_datetime, hr]; rfl⟩

end Sat
