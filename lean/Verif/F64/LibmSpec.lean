import Verif.F64.Consts
import Verif.RealArith
import Mathlib.Data.Int.Log
/-!
# A specification of the mathematical library

IEEE-754 and Rust leave the rounding of `sin cos asin atan2 powf` open, so the model takes them as parameters without laws
(`Libm`).  Theorems about double arithmetic that need more take `Libm.Faithful` as an explicit hypothesis: results within
`2^-48` (absolute for the bounded functions, relative for `powf`), never outside the mathematical range, NaN for NaN.  Every
library in use is several hundred times more accurate than this.  `exists_faithful` shows that the hypothesis can be met.
-/

namespace Sat
open F64

/-- An accurate enough mathematical library. -/
structure Libm.Faithful [Libm] : Prop where
  sin_fin : ∀ x : F64, x.Fin → (Libm.sin x).Fin ∧ |(Libm.sin x).val| ≤ 1 ∧ |(Libm.sin x).val - Real.sin x.val| ≤ 1 / 2 ^ 48
  cos_fin : ∀ x : F64, x.Fin → (Libm.cos x).Fin ∧ |(Libm.cos x).val| ≤ 1 ∧ |(Libm.cos x).val - Real.cos x.val| ≤ 1 / 2 ^ 48
  asin_fin : ∀ x : F64, x.Fin → |x.val| ≤ 1 →
    (Libm.asin x).Fin ∧ |(Libm.asin x).val| ≤ F64.fracPi2.val ∧ |(Libm.asin x).val - Real.arcsin x.val| ≤ 1 / 2 ^ 48
  /-- the result is one of the doubles from `-π` to `π` (rounded) -/
  atan2_fin : ∀ y x : F64, y.Fin → x.Fin → (Libm.atan2 y x).Fin ∧ |(Libm.atan2 y x).val| ≤ F64.pi.val
  /-- right half plane; `atan2(±0, +0) = ±0` -/
  atan2_half : ∀ y x : F64, y.Fin → x.Fin → (0 < x.val ∨ x = zero false) → |(Libm.atan2 y x).val| ≤ F64.fracPi2.val
  /-- accuracy, up to a whole turn (the sign of a zero `y` decides between `-π` and `π`) -/
  atan2_acc : ∀ y x : F64, y.Fin → x.Fin → (y.val ≠ 0 ∨ x.val ≠ 0) →
    ∃ k : ℤ, |(Libm.atan2 y x).val - (atan2R y.val x.val + k * (2 * Real.pi))| ≤ 1 / 2 ^ 48
  powf_pos : ∀ x y : F64, x.Fin → y.Fin → 0 < x.val → 1 / 2 ^ 900 ≤ x.val ^ y.val → x.val ^ y.val ≤ 2 ^ 900 →
    (Libm.powf x y).Fin ∧ |(Libm.powf x y).val - x.val ^ y.val| ≤ x.val ^ y.val / 2 ^ 48
  /-- `x.powf(2.0)`, for both signs -/
  powf_two : ∀ x : F64, x.Fin → |x.val| ≤ 2 ^ 450 →
    (Libm.powf x (sci 20 true 1)).Fin ∧ 0 ≤ (Libm.powf x (sci 20 true 1)).val ∧
      |(Libm.powf x (sci 20 true 1)).val - x.val ^ 2| ≤ x.val ^ 2 / 2 ^ 48 + 1 / 2 ^ 900
  sin_nan : Libm.sin .nan = .nan
  cos_nan : Libm.cos .nan = .nan
  atan2_nan_left : ∀ x, Libm.atan2 .nan x = .nan
  atan2_nan_right : ∀ y, Libm.atan2 y .nan = .nan
  powf_nan : ∀ y : F64, y.Fin → y.val ≠ 0 → Libm.powf .nan y = .nan

namespace F64

/-- truncating to a multiple of `2^-48` -/
theorem exists_trunc (r : ℝ) (hr : |r| ≤ 4) : ∃ d : F64, d.Fin ∧ |d.val| ≤ |r| ∧ |d.val - r| ≤ 1 / 2 ^ 48 ∧
    ∃ k : ℤ, d.val = k / 2 ^ 48 := by
  have pos : ∀ r : ℝ, 0 ≤ r → r ≤ 4 → ∃ d : F64, d.Fin ∧ |d.val| ≤ |r| ∧ |d.val - r| ≤ 1 / 2 ^ 48 ∧ ∃ k : ℤ, d.val = k / 2 ^ 48 := by
    intro r h0 h4
    have f1 := Int.floor_le (r * 2 ^ 48)
    have f2 := Int.lt_floor_add_one (r * 2 ^ 48)
    have f0 : (0 : ℤ) ≤ ⌊r * 2 ^ 48⌋ := Int.floor_nonneg.mpr (by positivity)
    have f3 : ⌊r * 2 ^ 48⌋ ≤ 2 ^ 53 := by
      have : (⌊r * 2 ^ 48⌋ : ℝ) ≤ ((2 ^ 53 : ℤ) : ℝ) := by push_cast; linarith
      exact_mod_cast this
    obtain ⟨d, hd, hv⟩ := isRep_int_div ⌊r * 2 ^ 48⌋ 48 (by rw [abs_of_nonneg f0]; exact f3) (by norm_num)
    have f0R : (0 : ℝ) ≤ (⌊r * 2 ^ 48⌋ : ℤ) := by exact_mod_cast f0
    have h1 : 0 ≤ d.val := by rw [hv]; positivity
    have h2 : d.val ≤ r := by rw [hv, div_le_iff₀ (by positivity)]; exact f1
    have h3 : r - 1 / 2 ^ 48 ≤ d.val := by
      rw [hv, le_div_iff₀ (by positivity), sub_mul, one_div, inv_mul_cancel₀ (by positivity)]; linarith
    refine ⟨d, hd, ?_, ?_, _, hv⟩
    · rwa [abs_of_nonneg h1, abs_of_nonneg h0]
    · rw [abs_le]; constructor <;> linarith [show (0 : ℝ) ≤ 1 / 2 ^ 48 by positivity]
  rcases le_total 0 r with h | h
  · exact pos r h (by rwa [abs_of_nonneg h] at hr)
  · obtain ⟨d, hd, h1, h2, k, h3⟩ := pos (-r) (by linarith) (by rwa [abs_of_nonpos h] at hr)
    obtain ⟨n1, n2⟩ := neg_val hd
    refine ⟨neg d, n1, ?_, ?_, -k, ?_⟩
    · rw [n2, abs_neg]; rwa [abs_neg] at h1
    · rw [n2, show -d.val - r = -(d.val - -r) by ring, abs_neg]; exact h2
    · rw [n2, h3]; push_cast; ring

/-- every positive real in a wide range is close to a double -/
theorem exists_close (r : ℝ) (h1 : 1 / 2 ^ 900 ≤ r) (h2 : r ≤ 2 ^ 900) : ∃ d : F64, d.Fin ∧ |d.val - r| ≤ r / 2 ^ 48 ∧ 0 ≤ d.val := by
  have hr : 0 < r := lt_of_lt_of_le (by positivity) h1
  set e := Int.log 2 r with he
  have e1 : (2 : ℝ) ^ e ≤ r := by exact_mod_cast Int.zpow_log_le_self (b := 2) (by norm_num) hr
  have e2 : r < (2 : ℝ) ^ (e + 1) := by exact_mod_cast Int.lt_zpow_succ_log_self (b := 2) (by norm_num) r
  have hlo : -901 ≤ e := by
    by_contra hc
    have : (2 : ℝ) ^ (e + 1) ≤ 2 ^ (-900 : ℤ) := zpow_le_zpow_right₀ (by norm_num) (by omega)
    have h3 : (2 : ℝ) ^ (-900 : ℤ) = 1 / 2 ^ 900 := by rw [zpow_neg, one_div]; rfl
    rw [h3] at this; linarith
  have hhi : e ≤ 900 := by
    by_contra hc
    have : (2 : ℝ) ^ (901 : ℤ) ≤ 2 ^ e := zpow_le_zpow_right₀ (by norm_num) (by omega)
    have h3 : (2 : ℝ) ^ (901 : ℤ) = 2 * 2 ^ 900 := by rw [show (901 : ℤ) = ((901 : ℕ) : ℤ) by norm_num, zpow_natCast, pow_succ]; ring
    rw [h3] at this
    have hp : (0 : ℝ) < 2 ^ 900 := by positivity
    generalize (2 : ℝ) ^ 900 = B at *
    linarith
  set s : ℝ := (2 : ℝ) ^ (e - 52) with hs
  have hs0 : 0 < s := by positivity
  have hes : (2 : ℝ) ^ e = s * 2 ^ 52 := by
    rw [hs, ← zpow_natCast (2 : ℝ) 52, ← zpow_add₀ (by norm_num : (2 : ℝ) ≠ 0)]; congr 1; norm_num
  have hes1 : (2 : ℝ) ^ (e + 1) = s * 2 ^ 53 := by
    rw [hs, ← zpow_natCast (2 : ℝ) 53, ← zpow_add₀ (by norm_num : (2 : ℝ) ≠ 0)]; congr 1; push_cast; ring
  have q0 : 0 ≤ r / s := by positivity
  have f1 := Nat.floor_le q0
  have f2 := Nat.lt_floor_add_one (r / s)
  have f3 : ⌊r / s⌋₊ ≤ 2 ^ 53 := by
    have : (⌊r / s⌋₊ : ℝ) ≤ ((2 ^ 53 : ℕ) : ℝ) := by
      push_cast
      refine le_trans f1 ?_
      rw [div_le_iff₀ hs0]; linarith
    exact_mod_cast this
  obtain ⟨j, hj⟩ : ∃ j : ℕ, (j : ℤ) = e - 52 + 1074 := ⟨(e - 52 + 1074).toNat, by omega⟩
  obtain ⟨d, hd, hv⟩ := isRep_scaled ⌊r / s⌋₊ j f3 (by omega)
  have hsj : (2 : ℝ) ^ j / unitN = s := by
    rw [unit_eq, hs, ← zpow_natCast, hj, ← zpow_natCast, ← zpow_sub₀ (by norm_num : (2 : ℝ) ≠ 0)]; congr 1; push_cast; ring
  rw [mul_div_assoc, hsj] at hv
  rw [le_div_iff₀ hs0] at f1
  rw [div_lt_iff₀ hs0] at f2
  refine ⟨d, hd, ?_, by rw [hv]; positivity⟩
  have : s ≤ r / 2 ^ 48 := by rw [le_div_iff₀ (by positivity)]; nlinarith
  rw [hv, abs_le]; constructor <;> nlinarith

open Classical in
/-- some double near `r`, `|r| ≤ 4` -/
noncomputable def near (r : ℝ) : F64 := if h : |r| ≤ 4 then (exists_trunc r h).choose else .nan

theorem near_spec {r : ℝ} (h : |r| ≤ 4) : (near r).Fin ∧ |(near r).val| ≤ |r| ∧ |(near r).val - r| ≤ 1 / 2 ^ 48 ∧
    ∃ k : ℤ, (near r).val = k / 2 ^ 48 := by
  unfold near; rw [dif_pos h]; exact (exists_trunc r h).choose_spec

theorem near_pi {r : ℝ} (h : |r| ≤ Real.pi) : |(near r).val| ≤ F64.pi.val := by
  have h4 : |r| ≤ 4 := le_trans h (by linarith [Real.pi_lt_d2])
  obtain ⟨-, h1, -, k, hk⟩ := near_spec h4
  rw [pi_val.2]
  rw [hk, abs_div, abs_of_pos (by positivity : (0 : ℝ) < 2 ^ 48)] at h1 ⊢
  rw [div_le_div_iff_of_pos_right (by positivity)]
  rw [div_le_iff₀ (by positivity)] at h1
  have h2 : |(k : ℝ)| < 884279719003556 := by
    have := Real.pi_lt_d20
    have h3 : Real.pi * 2 ^ 48 < 884279719003556 := by
      refine lt_of_lt_of_le (mul_lt_mul_of_pos_right this (by positivity)) ?_
      norm_num
    refine lt_of_le_of_lt h1 (lt_of_le_of_lt ?_ h3)
    gcongr
  have h3 : |k| < 884279719003556 := by exact_mod_cast h2
  have h5 : |k| ≤ 884279719003555 := by omega
  exact_mod_cast h5

theorem near_pi_half {r : ℝ} (h : |r| ≤ Real.pi / 2) : |(near r).val| ≤ F64.fracPi2.val := by
  have hpi := Real.pi_pos
  have h4 : |r| ≤ 4 := le_trans h (by linarith [Real.pi_lt_d2])
  obtain ⟨-, h1, -, k, hk⟩ := near_spec h4
  rw [fracPi2_val.2]
  rw [hk, abs_div, abs_of_pos (by positivity : (0 : ℝ) < 2 ^ 48)] at h1 ⊢
  rw [div_le_div_iff₀ (by positivity) (by positivity)]
  rw [div_le_iff₀ (by positivity)] at h1
  have h2 : 2 * |(k : ℝ)| < 884279719003556 := by
    have := Real.pi_lt_d20
    have h3 : Real.pi * 2 ^ 48 < 884279719003556 := by
      refine lt_of_lt_of_le (mul_lt_mul_of_pos_right this (by positivity)) ?_
      norm_num
    have h5 : |r| * 2 ^ 48 ≤ Real.pi / 2 * 2 ^ 48 := by gcongr
    linarith
  have h3 : 2 * |k| < 884279719003556 := by exact_mod_cast h2
  have h5 : 2 * |k| ≤ 884279719003555 := by omega
  have h6 : 2 * |(k : ℝ)| ≤ 884279719003555 := by exact_mod_cast h5
  rw [pow_succ (2 : ℝ) 48]
  nlinarith [show (0 : ℝ) < 2 ^ 48 by positivity]

open Classical in
/-- some double relatively near `r` -/
noncomputable def nearRel (r : ℝ) : F64 :=
  if h : 1 / 2 ^ 900 ≤ r ∧ r ≤ 2 ^ 900 then (exists_close r h.1 h.2).choose else zero false

theorem nearRel_spec {r : ℝ} (h1 : 1 / 2 ^ 900 ≤ r) (h2 : r ≤ 2 ^ 900) :
    (nearRel r).Fin ∧ |(nearRel r).val - r| ≤ r / 2 ^ 48 ∧ 0 ≤ (nearRel r).val := by
  unfold nearRel; rw [dif_pos ⟨h1, h2⟩]; exact (exists_close r h1 h2).choose_spec

end F64

open Classical in
/-- a library with small errors -/
@[instance_reducible] noncomputable def Libm.ideal : Libm where
  sin x := if x.Fin then near (Real.sin x.val) else .nan
  cos x := if x.Fin then near (Real.cos x.val) else .nan
  asin x := if x.Fin then near (Real.arcsin x.val) else .nan
  atan2 y x := if y.Fin ∧ x.Fin then near (atan2R y.val x.val) else .nan
  powf x y := if x.Fin ∧ y.Fin then nearRel (x.val ^ y.val) else .nan

/-- The specification can be met. -/
theorem exists_faithful : @Libm.Faithful Libm.ideal := by
  have hsin : ∀ t : ℝ, |Real.sin t| ≤ 1 := Real.abs_sin_le_one
  have hcos : ∀ t : ℝ, |Real.cos t| ≤ 1 := Real.abs_cos_le_one
  have hasin : ∀ t : ℝ, |Real.arcsin t| ≤ Real.pi / 2 := fun t =>
    abs_le.mpr ⟨Real.neg_pi_div_two_le_arcsin t, Real.arcsin_le_pi_div_two t⟩
  have hatan : ∀ y x : ℝ, |atan2R y x| ≤ Real.pi := fun y x => Complex.abs_arg_le_pi _
  have hpi : Real.pi ≤ 4 := by linarith [Real.pi_lt_d2]
  have nn : ¬ F64.nan.Fin := id
  let _ : Libm := Libm.ideal
  have es : ∀ x : F64, Libm.sin x = if x.Fin then near (Real.sin x.val) else .nan := fun _ => by
    show (if _ then _ else _) = _; congr
  have ec : ∀ x : F64, Libm.cos x = if x.Fin then near (Real.cos x.val) else .nan := fun _ => by
    show (if _ then _ else _) = _; congr
  have ea : ∀ x : F64, Libm.asin x = if x.Fin then near (Real.arcsin x.val) else .nan := fun _ => by
    show (if _ then _ else _) = _; congr
  have et : ∀ y x : F64, Libm.atan2 y x = if y.Fin ∧ x.Fin then near (atan2R y.val x.val) else .nan := fun _ _ => by
    show (if _ then _ else _) = _; congr
  have ep : ∀ x y : F64, Libm.powf x y = if x.Fin ∧ y.Fin then nearRel (x.val ^ y.val) else .nan := fun _ _ => by
    show (if _ then _ else _) = _; congr
  constructor
  · intro x hx
    rw [es, if_pos hx]
    have h := near_spec (r := Real.sin x.val) (by linarith [hsin x.val])
    exact ⟨h.1, le_trans h.2.1 (hsin _), h.2.2.1⟩
  · intro x hx
    rw [ec, if_pos hx]
    have h := near_spec (r := Real.cos x.val) (by linarith [hcos x.val])
    exact ⟨h.1, le_trans h.2.1 (hcos _), h.2.2.1⟩
  · intro x hx h1
    rw [ea, if_pos hx]
    have h := near_spec (r := Real.arcsin x.val) (by linarith [hasin x.val, Real.pi_pos])
    exact ⟨h.1, near_pi_half (hasin _), h.2.2.1⟩
  · intro y x hy hx
    rw [et, if_pos ⟨hy, hx⟩]
    have h := near_spec (r := atan2R y.val x.val) (by linarith [hatan y.val x.val])
    exact ⟨h.1, near_pi (hatan _ _)⟩
  · intro y x hy hx h0
    rw [et, if_pos ⟨hy, hx⟩]
    apply near_pi_half
    have : (0 : ℝ) ≤ x.val := by
      rcases h0 with h | h
      · exact h.le
      · rw [h, zero_val]
    exact Complex.abs_arg_le_pi_div_two_iff.mpr (by exact this)
  · intro y x hy hx _
    rw [et, if_pos ⟨hy, hx⟩]
    have h := near_spec (r := atan2R y.val x.val) (by linarith [hatan y.val x.val])
    exact ⟨0, by simpa using h.2.2.1⟩
  · intro x y hx hy _ h1 h2
    rw [ep, if_pos ⟨hx, hy⟩]
    have h := nearRel_spec h1 h2
    exact ⟨h.1, h.2.1⟩
  · intro x hx hb
    rw [ep, if_pos ⟨hx, lit_two.1⟩, lit_two.2]
    rw [show x.val ^ (2 : ℝ) = x.val ^ 2 by norm_cast]
    by_cases hsmall : 1 / 2 ^ 900 ≤ x.val ^ 2
    · have h2 : x.val ^ 2 ≤ 2 ^ 900 := by
        rw [← sq_abs, show (2 : ℝ) ^ 900 = (2 ^ 450) ^ 2 by rw [← pow_mul]]
        exact pow_le_pow_left₀ (abs_nonneg _) hb 2
      have h := nearRel_spec hsmall h2
      exact ⟨h.1, h.2.2, le_trans h.2.1 (le_add_of_nonneg_right (by positivity))⟩
    · have hz : nearRel (x.val ^ 2) = zero false := by unfold nearRel; rw [dif_neg (fun h => hsmall h.1)]
      rw [hz, zero_val]
      refine ⟨trivial, le_rfl, ?_⟩
      rw [zero_sub, abs_neg, abs_of_nonneg (sq_nonneg _)]
      have : 0 ≤ x.val ^ 2 / 2 ^ 48 := by positivity
      linarith [not_le.mp hsmall]
  · rw [es, if_neg nn]
  · rw [ec, if_neg nn]
  · intro x; rw [et, if_neg (fun h => nn h.1)]
  · intro x; rw [et, if_neg (fun h => nn h.2)]
  · intro y _ _; rw [ep, if_neg (fun h => nn h.1)]

end Sat
