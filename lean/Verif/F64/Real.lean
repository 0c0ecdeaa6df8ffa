import Verif.F64.Round
import Verif.RealArith
/-!
# The value of a double, and IEEE arithmetic as rounded real arithmetic

`Rounds r x`: the double `x` is a correct rounding of the real number `r`.  Each finite operation is shown to give a correct
rounding of the exact result.
-/

set_option exponentiation.threshold 3000

namespace Sat.F64
open Sat

/-- not NaN and not infinite -/
def Fin : F64 → Prop
  | .fin .. => True
  | _ => False

instance (x : F64) : Decidable x.Fin := by cases x <;> unfold Fin <;> infer_instance

/-- the real number a finite double stands for (0 for the others) -/
noncomputable def val : F64 → ℝ
  | .fin a n _ => (sgn a n : ℝ) / unitN
  | _ => 0

/-- a real number that a finite double stands for -/
def IsRep (r : ℝ) : Prop := ∃ m : F64, m.Fin ∧ m.val = r

/-- the double `x` is a correct rounding of `r` -/
structure Rounds (r : ℝ) (x : F64) : Prop where
  lower : ∀ m : F64, m.Fin → m.val ≤ r → fle m x = true
  upper : ∀ m : F64, m.Fin → r ≤ m.val → fle x m = true
  err : x.Fin → |x.val - r| ≤ max (1 / (2 * (unitN : ℝ))) (|r| / 2 ^ 53)
  nearest : x.Fin → ∀ m : F64, m.Fin → |x.val - r| ≤ |m.val - r|
  bound : x.Fin → |r| < (topN : ℝ) / unitN

theorem unit_pos : (0 : ℝ) < unitN := by exact_mod_cast unitN_pos

theorem unit_eq : (unitN : ℝ) = 2 ^ 1074 := by rw [unitN_eq, Nat.cast_pow, Nat.cast_ofNat]

theorem fin_cases {x : F64} (h : x.Fin) : ∃ a n hn, x = .fin a n hn := by
  cases x with
  | fin a n hn => exact ⟨a, n, hn, rfl⟩
  | nan => exact absurd h (by simp [Fin])
  | inf a => exact absurd h (by simp [Fin])

@[simp] theorem fin_fin (a : Bool) (n : ℕ) (h : Rep n) : (F64.fin a n h).Fin := trivial
@[simp] theorem not_fin_nan : ¬ (F64.nan).Fin := fun h => h
@[simp] theorem not_fin_inf (a : Bool) : ¬ (F64.inf a).Fin := fun h => h

theorem val_fin (a : Bool) (n : ℕ) (h : Rep n) : (F64.fin a n h).val = (sgn a n : ℝ) / unitN := rfl

theorem fle_fin {x y : F64} (hx : x.Fin) (hy : y.Fin) : fle x y = true ↔ x.val ≤ y.val := by
  obtain ⟨a, m, hm, rfl⟩ := fin_cases hx
  obtain ⟨b, n, hn, rfl⟩ := fin_cases hy
  show decide (sgn a m ≤ sgn b n) = true ↔ _
  rw [decide_eq_true_iff, val_fin, val_fin, div_le_div_iff_of_pos_right unit_pos]
  exact_mod_cast Iff.rfl

theorem flt_fin {x y : F64} (hx : x.Fin) (hy : y.Fin) : flt x y = true ↔ x.val < y.val := by
  obtain ⟨a, m, hm, rfl⟩ := fin_cases hx
  obtain ⟨b, n, hn, rfl⟩ := fin_cases hy
  show decide (sgn a m < sgn b n) = true ↔ _
  rw [decide_eq_true_iff, val_fin, val_fin, div_lt_div_iff_of_pos_right unit_pos]
  exact_mod_cast Iff.rfl

theorem feq_fin {x y : F64} (hx : x.Fin) (hy : y.Fin) : feq x y = true ↔ x.val = y.val := by
  obtain ⟨a, m, hm, rfl⟩ := fin_cases hx
  obtain ⟨b, n, hn, rfl⟩ := fin_cases hy
  show decide (sgn a m = sgn b n) = true ↔ _
  rw [decide_eq_true_iff, val_fin, val_fin, div_left_inj' unit_pos.ne']
  exact_mod_cast Iff.rfl

theorem sgn_not (a : Bool) (n : ℕ) : sgn (!a) n = -sgn a n := by cases a <;> simp [sgn]

/-- the rounded magnitude with a sign -/
theorem mk_rounds (a : Bool) (R : ℝ) (hR : 0 ≤ R) (N : ℕ) (h : NearNat R N) (hs : Sig N) :
    Rounds ((if a then -R else R) / unitN) (mk a N hs) := by
  have hcast : ∀ (b : Bool) (n : ℕ), ((sgn b n : ℤ) : ℝ) = if b then -(n : ℝ) else n := by
    intro b n; cases b <;> simp [sgn]
  refine ⟨?_, ?_, ?_, ?_, ?_⟩
  · intro m hm hle
    obtain ⟨b, n, hn, rfl⟩ := fin_cases hm
    rw [val_fin, div_le_div_iff_of_pos_right unit_pos, hcast] at hle
    unfold mk
    split
    · show decide (sgn b n ≤ sgn a N) = true
      rw [decide_eq_true_iff]
      cases a <;> cases b <;> simp only [sgn, Bool.false_eq_true, if_true, if_false] at hle ⊢
      · exact_mod_cast h.lower n hn.2 hle
      · have := Int.natCast_nonneg N; have := Int.natCast_nonneg n; omega
      · have : (n : ℝ) ≤ 0 := by linarith
        have hn0 : n = 0 := by exact_mod_cast le_antisymm this (Nat.cast_nonneg n)
        have hR0 : R = 0 := by have : (0:ℝ) ≤ n := Nat.cast_nonneg n; linarith
        have hN0 := h.upper 0 (by simp [Sig]) (by simp [hR0])
        omega
      · have := h.upper n hn.2 (by linarith)
        omega
    · rename_i hN
      cases a
      · rfl
      · exfalso
        cases b <;> simp only [Bool.false_eq_true, if_true, if_false] at hle
        · have : (n : ℝ) ≤ 0 := by linarith
          have hR0 : R = 0 := by have : (0:ℝ) ≤ n := Nat.cast_nonneg n; linarith
          have hN0 := h.upper 0 (by simp [Sig]) (by simp [hR0])
          exact hN (lt_of_le_of_lt hN0 topN_pos)
        · have := h.upper n hn.2 (by linarith)
          exact hN (lt_of_le_of_lt this hn.1)
  · intro m hm hle
    obtain ⟨b, n, hn, rfl⟩ := fin_cases hm
    rw [val_fin, div_le_div_iff_of_pos_right unit_pos, hcast] at hle
    unfold mk
    split
    · show decide (sgn a N ≤ sgn b n) = true
      rw [decide_eq_true_iff]
      cases a <;> cases b <;> simp only [sgn, Bool.false_eq_true, if_true, if_false] at hle ⊢
      · exact_mod_cast h.upper n hn.2 hle
      · have : (n : ℝ) ≤ 0 := by linarith
        have hn0 : n = 0 := by exact_mod_cast le_antisymm this (Nat.cast_nonneg n)
        have hR0 : R = 0 := by have : (0:ℝ) ≤ n := Nat.cast_nonneg n; linarith
        have hN0 := h.upper 0 (by simp [Sig]) (by simp [hR0])
        omega
      · have := Int.natCast_nonneg N; have := Int.natCast_nonneg n; omega
      · have := h.lower n hn.2 (by linarith)
        omega
    · rename_i hN
      cases a
      · exfalso
        cases b <;> simp only [Bool.false_eq_true, if_true, if_false] at hle
        · have := h.upper n hn.2 (by linarith)
          exact hN (lt_of_le_of_lt this hn.1)
        · have : (n : ℝ) ≤ 0 := by linarith
          have hR0 : R = 0 := by have : (0:ℝ) ≤ n := Nat.cast_nonneg n; linarith
          have hN0 := h.upper 0 (by simp [Sig]) (by simp [hR0])
          exact hN (lt_of_le_of_lt hN0 topN_pos)
      · rfl
  · intro hfin
    by_cases hlt : N < topN
    · have e0 : (mk a N hs).val = (sgn a N : ℝ) / unitN := by unfold mk; rw [dif_pos hlt]; rfl
      rw [e0, ← sub_div, abs_div, abs_of_pos unit_pos, hcast]
      have e1 : |(if a = true then -(N : ℝ) else N) - (if a = true then -R else R)| = |(N : ℝ) - R| := by
        cases a
        · simp
        · simp only [if_true]; rw [← abs_neg]; ring_nf
      have e2 : |(if a = true then -R else R) / unitN| = R / unitN := by
        rw [abs_div, abs_of_pos unit_pos]; cases a <;> simp [abs_of_nonneg hR]
      rw [e1, e2]
      rcases le_max_iff.mp h.err with h1 | h1
      · apply le_max_of_le_left
        have hu := unit_pos
        generalize (unitN : ℝ) = u at hu ⊢
        rw [div_le_div_iff₀ hu (by positivity), one_mul]
        nlinarith
      · apply le_max_of_le_right
        rw [div_div, mul_comm, ← div_div]
        exact div_le_div_of_nonneg_right h1 unit_pos.le
    · exfalso
      unfold mk at hfin
      rw [dif_neg hlt] at hfin
      exact hfin
  · intro hfin m hm
    obtain ⟨b, n, hn, rfl⟩ := fin_cases hm
    by_cases hlt : N < topN
    · have e0 : (mk a N hs).val = (sgn a N : ℝ) / unitN := by unfold mk; rw [dif_pos hlt]; rfl
      rw [e0, val_fin, ← sub_div, ← sub_div, abs_div, abs_div, abs_of_pos unit_pos, hcast, hcast]
      refine div_le_div_of_nonneg_right ?_ unit_pos.le
      have e1 : |(if a = true then -(N : ℝ) else N) - (if a = true then -R else R)| = |(N : ℝ) - R| := by
        cases a
        · simp
        · simp only [if_true]; rw [← abs_neg]; ring_nf
      rw [e1]
      refine le_trans (h.nearest n hn.2) ?_
      have hn0 : (0 : ℝ) ≤ n := Nat.cast_nonneg n
      cases a <;> cases b <;> simp only [Bool.false_eq_true, if_true, if_false]
      · exact le_rfl
      · rw [abs_le, abs_of_nonpos (by linarith : -(n : ℝ) - R ≤ 0)]; constructor <;> linarith
      · rw [abs_le, abs_of_nonneg (by linarith : 0 ≤ (n : ℝ) - -R)]; constructor <;> linarith
      · rw [← abs_neg]; ring_nf; exact le_rfl
    · exfalso
      unfold mk at hfin
      rw [dif_neg hlt] at hfin
      exact hfin
  · intro hfin
    have hlt : N < topN := by
      by_contra hlt
      unfold mk at hfin
      rw [dif_neg hlt] at hfin
      exact hfin
    rw [abs_div, abs_of_pos unit_pos]
    refine div_lt_div_of_pos_right ?_ unit_pos
    have e1 : |if a = true then -R else R| = R := by cases a <;> simp [abs_of_nonneg hR]
    rw [e1]
    by_contra hle
    have hsig : Sig topN := by
      obtain ⟨e, he⟩ : ∃ e, topN = 2 ^ e := ⟨_, topN_eq⟩
      have := sig_mul_pow 1 e (by norm_num)
      rwa [one_mul, ← he] at this
    exact absurd (h.lower topN hsig (not_lt.mp hle)) (not_le.mpr hlt)

theorem ofQ_rounds (a : Bool) (p q : ℕ) (hq : 0 < q) :
    Rounds ((if a then -((p : ℝ) / q) else (p : ℝ) / q) / unitN) (ofQ a p q) :=
  mk_rounds a _ (by positivity) _ (roundN_near p q hq) _

/-! ## Consequences of being a rounding -/

namespace Rounds
variable {r s : ℝ} {x y : F64}

theorem not_nan (h : Rounds r x) : x ≠ .nan := by
  rintro rfl
  rcases le_total (zero false).val r with h1 | h1
  · exact absurd (h.lower (zero false) trivial h1) (by decide)
  · exact absurd (h.upper (zero false) trivial h1) (by decide)

/-- between two doubles: finite, and still between them -/
theorem between (h : Rounds r x) {a b : ℝ} (ha : IsRep a) (hb : IsRep b) (h1 : a ≤ r) (h2 : r ≤ b) :
    x.Fin ∧ a ≤ x.val ∧ x.val ≤ b := by
  obtain ⟨ma, hma, rfl⟩ := ha
  obtain ⟨mb, hmb, rfl⟩ := hb
  have l := h.lower ma hma h1
  have u := h.upper mb hmb h2
  have hx : x.Fin := by
    cases x with
    | fin => trivial
    | nan => exact absurd rfl h.not_nan
    | inf c =>
      obtain ⟨a, n, hn, rfl⟩ := fin_cases hma
      obtain ⟨b, k, hk, rfl⟩ := fin_cases hmb
      change (!c) = true at l
      change c = true at u
      rw [u] at l; cases l
  exact ⟨hx, (fle_fin hma hx).mp l, (fle_fin hx hmb).mp u⟩

/-- rounding a double does nothing -/
theorem exact (h : Rounds r x) (hr : IsRep r) : x.Fin ∧ x.val = r := by
  obtain ⟨h1, h2, h3⟩ := h.between hr hr le_rfl le_rfl
  exact ⟨h1, le_antisymm h3 h2⟩

theorem ge (h : Rounds r x) (hx : x.Fin) {a : ℝ} (ha : IsRep a) (h1 : a ≤ r) : a ≤ x.val := by
  obtain ⟨ma, hma, rfl⟩ := ha
  exact (fle_fin hma hx).mp (h.lower ma hma h1)

theorem le (h : Rounds r x) (hx : x.Fin) {a : ℝ} (ha : IsRep a) (h1 : r ≤ a) : x.val ≤ a := by
  obtain ⟨ma, hma, rfl⟩ := ha
  exact (fle_fin hx hma).mp (h.upper ma hma h1)

end Rounds

theorem isRep_val {x : F64} (h : x.Fin) : IsRep x.val := ⟨x, h, rfl⟩

/-! ## Which numbers are representable -/

theorem isRep_nat (n : ℕ) (h : Rep n) (a : Bool) : IsRep ((sgn a n : ℝ) / unitN) := ⟨.fin a n h, trivial, rfl⟩

theorem isRep_neg {r : ℝ} (h : IsRep r) : IsRep (-r) := by
  obtain ⟨m, hm, rfl⟩ := h
  obtain ⟨a, n, hn, rfl⟩ := fin_cases hm
  exact ⟨.fin (!a) n hn, trivial, by rw [val_fin, val_fin, sgn_not]; push_cast; ring⟩

/-- `k · 2^e` with a 53-bit `k` -/
theorem isRep_scaled (k : ℕ) (e : ℕ) (hk : k ≤ 2 ^ 53) (he : e ≤ 2044) : IsRep ((k : ℝ) * 2 ^ e / unitN) := by
  have hrep : Rep (k * 2 ^ e) := by
    refine ⟨?_, sig_mul_pow k e hk⟩
    calc k * 2 ^ e ≤ 2 ^ 53 * 2 ^ 2044 := Nat.mul_le_mul hk (Nat.pow_le_pow_right (by decide) he)
      _ = 2 ^ 2097 := by rw [← Nat.pow_add]
      _ < topN := by rw [topN_eq]; exact Nat.pow_lt_pow_right (by decide) (by decide)
  have := isRep_nat _ hrep false
  simpa [sgn] using this

/-- integers up to `2^53`, scaled by a power of two -/
theorem isRep_int_pow (k : ℤ) (e : ℕ) (hk : |k| ≤ 2 ^ 53) (he : e ≤ 970) : IsRep ((k : ℝ) * 2 ^ e) := by
  have main : ∀ n : ℕ, n ≤ 2 ^ 53 → IsRep ((n : ℝ) * 2 ^ e) := by
    intro n hn
    have := isRep_scaled n (e + 1074) hn (by omega)
    rwa [pow_add, ← mul_assoc, ← unit_eq, mul_div_assoc, div_self unit_pos.ne', mul_one] at this
  rcases le_total 0 k with h | h
  · obtain ⟨n, rfl⟩ := Int.eq_ofNat_of_zero_le h
    rw [abs_of_nonneg h] at hk
    exact_mod_cast main n (by exact_mod_cast hk)
  · obtain ⟨n, hn⟩ := Int.eq_ofNat_of_zero_le (neg_nonneg.mpr h)
    have hk' : k = -(n : ℤ) := by omega
    rw [hk', abs_neg] at hk
    rw [hk']
    push_cast
    rw [neg_mul]
    exact isRep_neg (main n (by rw [abs_of_nonneg (Int.natCast_nonneg n)] at hk; exact_mod_cast hk))

theorem isRep_int (k : ℤ) (hk : |k| ≤ 2 ^ 53) : IsRep (k : ℝ) := by
  have := isRep_int_pow k 0 hk (by decide)
  simpa using this

theorem isRep_zero : IsRep 0 := by have := isRep_int 0 (by norm_num); simpa using this
theorem isRep_one : IsRep 1 := by have := isRep_int 1 (by norm_num); simpa using this

/-- integers divided by a power of two -/
theorem isRep_int_div (k : ℤ) (e : ℕ) (hk : |k| ≤ 2 ^ 53) (he : e ≤ 1074) : IsRep ((k : ℝ) / 2 ^ e) := by
  have hrw : ∀ z : ℝ, z / 2 ^ e = z * 2 ^ (1074 - e) / unitN := by
    intro z
    rw [div_eq_div_iff (by positivity) unit_pos.ne', mul_assoc, ← pow_add, Nat.sub_add_cancel he, unit_eq]
  have main : ∀ n : ℕ, n ≤ 2 ^ 53 → IsRep ((n : ℝ) / 2 ^ e) := by
    intro n hn
    rw [hrw]; exact isRep_scaled n (1074 - e) hn (by omega)
  rcases le_total 0 k with h | h
  · obtain ⟨n, rfl⟩ := Int.eq_ofNat_of_zero_le h
    rw [abs_of_nonneg h] at hk
    rw [Int.cast_natCast]
    exact main n (by exact_mod_cast hk)
  · obtain ⟨n, hn⟩ := Int.eq_ofNat_of_zero_le (neg_nonneg.mpr h)
    have hk' : k = -(n : ℤ) := by omega
    rw [hk', abs_neg] at hk
    rw [hk']
    rw [Int.cast_neg, Int.cast_natCast, neg_div]
    exact isRep_neg (main n (by rw [abs_of_nonneg (Int.natCast_nonneg n)] at hk; exact_mod_cast hk))

/-! ## The operations -/

variable {x y : F64}

theorem neg_val (h : x.Fin) : (neg x).Fin ∧ (neg x).val = -x.val := by
  obtain ⟨a, n, hn, rfl⟩ := fin_cases h
  refine ⟨trivial, ?_⟩
  show (sgn (!a) n : ℝ) / unitN = -((sgn a n : ℝ) / unitN)
  rw [sgn_not]; push_cast; ring

theorem abs_val (h : x.Fin) : (F64.abs x).Fin ∧ (F64.abs x).val = |x.val| := by
  obtain ⟨a, n, hn, rfl⟩ := fin_cases h
  refine ⟨trivial, ?_⟩
  show (sgn false n : ℝ) / unitN = |(sgn a n : ℝ) / unitN|
  rw [abs_div, abs_of_pos unit_pos]
  cases a <;> simp [sgn]

theorem add_rounds (hx : x.Fin) (hy : y.Fin) : Rounds (x.val + y.val) (add x y) := by
  obtain ⟨a, m, hm, rfl⟩ := fin_cases hx
  obtain ⟨b, n, hn, rfl⟩ := fin_cases hy
  rw [val_fin, val_fin, ← add_div]
  show Rounds _ (if sgn a m + sgn b n = 0 then zero (a && b) else
    ofQ (decide (sgn a m + sgn b n < 0)) (sgn a m + sgn b n).natAbs 1)
  have hz : ((sgn a m : ℝ) + (sgn b n : ℝ)) = ((sgn a m + sgn b n : ℤ) : ℝ) := by push_cast; rfl
  rw [hz]
  generalize sgn a m + sgn b n = z
  split
  · rename_i h
    subst h
    have := mk_rounds (a && b) 0 le_rfl 0 ⟨by simp [Sig], fun M _ h => by exact_mod_cast h, fun M _ _ => Nat.zero_le _, by simp, by simp⟩
      (by simp [Sig])
    have e : mk (a && b) 0 (by simp [Sig]) = zero (a && b) := by
      unfold mk zero; rw [dif_pos topN_pos]
    rw [e] at this
    simpa using this
  · have := ofQ_rounds (decide (z < 0)) z.natAbs 1 (by decide)
    have e : (if decide (z < 0) = true then -((z.natAbs : ℝ) / (1 : ℕ)) else (z.natAbs : ℝ) / (1 : ℕ)) = (z : ℝ) := by
      have hna : ((z.natAbs : ℕ) : ℝ) = |(z : ℝ)| := by rw [← Int.cast_abs, Int.abs_eq_natAbs]; simp
      rw [hna]
      by_cases hneg : z < 0
      · have : (z : ℝ) < 0 := by exact_mod_cast hneg
        simp [hneg, abs_of_neg this]
      · have : (0 : ℝ) ≤ z := by exact_mod_cast not_lt.mp hneg
        simp [hneg, abs_of_nonneg this]
    rw [e] at this
    exact this

theorem sub_rounds (hx : x.Fin) (hy : y.Fin) : Rounds (x.val - y.val) (sub x y) := by
  obtain ⟨h1, h2⟩ := neg_val hy
  have := add_rounds hx h1
  rw [h2, ← sub_eq_add_neg] at this
  exact this

theorem sgn_xor (a b : Bool) (m n : ℕ) : ((sgn a m : ℤ) : ℝ) * (sgn b n : ℤ) = if (a ^^ b) then -((m : ℝ) * n) else (m : ℝ) * n := by
  cases a <;> cases b <;> simp [sgn]

theorem mul_rounds (hx : x.Fin) (hy : y.Fin) : Rounds (x.val * y.val) (mul x y) := by
  obtain ⟨a, m, hm, rfl⟩ := fin_cases hx
  obtain ⟨b, n, hn, rfl⟩ := fin_cases hy
  have := ofQ_rounds (a ^^ b) (m * n) unitN unitN_pos
  have e : (if (a ^^ b) = true then -(((m * n : ℕ) : ℝ) / (unitN : ℝ)) else ((m * n : ℕ) : ℝ) / (unitN : ℝ)) / unitN =
      (sgn a m : ℝ) / unitN * ((sgn b n : ℝ) / unitN) := by
    rw [div_mul_div_comm, sgn_xor, Nat.cast_mul]
    generalize (unitN : ℝ) = u
    split
    · rw [neg_div, neg_div, div_div]
    · rw [div_div]
  rw [e] at this
  exact this

theorem div_rounds (hx : x.Fin) (hy : y.Fin) (h0 : y.val ≠ 0) : Rounds (x.val / y.val) (div x y) := by
  obtain ⟨a, m, hm, rfl⟩ := fin_cases hx
  obtain ⟨b, n, hn, rfl⟩ := fin_cases hy
  have hn0 : n ≠ 0 := by rintro rfl; apply h0; rw [val_fin]; simp [sgn]
  have := ofQ_rounds (a ^^ b) (m * unitN) n (Nat.pos_of_ne_zero hn0)
  have e : (if (a ^^ b) = true then -(((m * unitN : ℕ) : ℝ) / (n : ℝ)) else ((m * unitN : ℕ) : ℝ) / (n : ℝ)) / unitN =
      (sgn a m : ℝ) / unitN / ((sgn b n : ℝ) / unitN) := by
    rw [div_div_div_cancel_right₀ unit_pos.ne', Nat.cast_mul]
    have hu := unit_pos.ne'
    have hn0' : (n : ℝ) ≠ 0 := by exact_mod_cast hn0
    generalize (unitN : ℝ) = u at hu ⊢
    cases a <;> cases b <;> simp [sgn] <;> field_simp
  rw [e] at this
  show Rounds _ (if n = 0 then _ else _)
  rw [if_neg hn0]
  exact this

theorem sqrt_rounds (hx : x.Fin) (h0 : 0 ≤ x.val) : Rounds (Real.sqrt x.val) (sqrt x) := by
  obtain ⟨a, n, hn, rfl⟩ := fin_cases hx
  show Rounds _ (if n = 0 then zero a else if a then .nan else mk false (roundSqrt (n * unitN)) (sig_roundSqrt _))
  by_cases hn0 : n = 0
  · subst hn0
    have := mk_rounds a 0 le_rfl 0 ⟨by simp [Sig], fun M _ h => by exact_mod_cast h, fun M _ _ => Nat.zero_le _, by simp, by simp⟩
      (by simp [Sig])
    have e : mk a 0 (by simp [Sig]) = zero a := by
      unfold mk zero; rw [dif_pos topN_pos]
    rw [e] at this
    rw [if_pos rfl, val_fin]
    simpa [sgn] using this
  · have ha : a = false := by
      cases a
      · rfl
      · exfalso
        rw [val_fin] at h0
        have hu := unit_pos
        have hn' : (0 : ℝ) < n := by exact_mod_cast Nat.pos_of_ne_zero hn0
        have : ((sgn true n : ℤ) : ℝ) < 0 := by simp [sgn]; omega
        exact absurd h0 (not_le.mpr (div_neg_of_neg_of_pos this hu))
    subst ha
    rw [if_neg hn0, if_neg (by simp), val_fin]
    have := mk_rounds false _ (Real.sqrt_nonneg _) _ (roundSqrt_near (n * unitN)) (sig_roundSqrt _)
    have e : (if false = true then -Real.sqrt ((n * unitN : ℕ) : ℝ) else Real.sqrt ((n * unitN : ℕ) : ℝ)) / unitN =
        Real.sqrt ((sgn false n : ℝ) / unitN) := by
      simp only [Bool.false_eq_true, if_false, sgn, Int.cast_natCast]
      rw [Nat.cast_mul]
      have hu := unit_pos
      generalize (unitN : ℝ) = u at hu ⊢
      rw [Real.sqrt_div' _ hu.le, Real.sqrt_mul (Nat.cast_nonneg n)]
      have hs : Real.sqrt u ≠ 0 := (Real.sqrt_pos.mpr hu).ne'
      rw [div_eq_div_iff hu.ne' hs, mul_assoc, Real.mul_self_sqrt hu.le]
    rw [e] at this
    exact this

theorem ofInt_rounds (i : ℤ) : Rounds (i : ℝ) (ofInt i) := by
  have := ofQ_rounds (decide (i < 0)) (i.natAbs * unitN) 1 (by decide)
  have e : (if decide (i < 0) = true then -(((i.natAbs * unitN : ℕ) : ℝ) / (1 : ℕ)) else ((i.natAbs * unitN : ℕ) : ℝ) / (1 : ℕ)) / unitN
      = (i : ℝ) := by
    have hna : ((i.natAbs : ℕ) : ℝ) = |(i : ℝ)| := by rw [← Int.cast_abs, Int.abs_eq_natAbs]; simp
    rw [Nat.cast_mul, hna]
    have hu := unit_pos.ne'
    generalize (unitN : ℝ) = u at hu ⊢
    by_cases hneg : i < 0
    · have : (i : ℝ) < 0 := by exact_mod_cast hneg
      simp [hneg, abs_of_neg this, hu]
    · have : (0 : ℝ) ≤ i := by exact_mod_cast not_lt.mp hneg
      simp [hneg, abs_of_nonneg this, hu]
  rw [e] at this
  exact this

theorem ofInt_exact (i : ℤ) (h : |i| ≤ 2 ^ 53) : (ofInt i).Fin ∧ (ofInt i).val = i := (ofInt_rounds i).exact (isRep_int i h)

theorem ofDecimal_rounds (a : Bool) (m : ℕ) (e : ℤ) : Rounds (decR (.num a m e)) (ofDecimal a m e) := by
  unfold ofDecimal decR
  dsimp only
  have hu := unit_pos.ne'
  rcases lt_or_ge e 0 with h | h
  · rw [if_pos h]
    have := ofQ_rounds a (m * unitN) (10 ^ e.natAbs) (Nat.pow_pos (by decide))
    have he : (10 : ℝ) ^ e = 1 / 10 ^ e.natAbs := by
      have h1 : e = -(e.natAbs : ℤ) := by omega
      generalize e.natAbs = k at h1
      rw [h1, zpow_neg, zpow_natCast, one_div]
    have e' : (if a = true then -(((m * unitN : ℕ) : ℝ) / ((10 ^ e.natAbs : ℕ) : ℝ)) else ((m * unitN : ℕ) : ℝ) / ((10 ^ e.natAbs : ℕ) : ℝ)) / unitN
        = (if a = true then -1 else 1) * (m : ℝ) * 10 ^ e := by
      rw [he, Nat.cast_mul, Nat.cast_pow, Nat.cast_ofNat]
      generalize (unitN : ℝ) = u at hu ⊢
      cases a <;> simp <;> field_simp
    rw [e'] at this
    exact this
  · rw [if_neg (not_lt.mpr h)]
    have := ofQ_rounds a (m * 10 ^ e.natAbs * unitN) 1 (by decide)
    have he : (10 : ℝ) ^ e = 10 ^ e.natAbs := by
      have h1 : e = (e.natAbs : ℤ) := by omega
      generalize e.natAbs = k at h1
      rw [h1, zpow_natCast]
    have e' : (if a = true then -(((m * 10 ^ e.natAbs * unitN : ℕ) : ℝ) / (1 : ℕ)) else ((m * 10 ^ e.natAbs * unitN : ℕ) : ℝ) / (1 : ℕ)) / unitN
        = (if a = true then -1 else 1) * (m : ℝ) * 10 ^ e := by
      rw [he, Nat.cast_mul, Nat.cast_mul, Nat.cast_pow, Nat.cast_ofNat]
      generalize (unitN : ℝ) = u at hu ⊢
      cases a <;> simp <;> field_simp
    rw [e'] at this
    exact this

/-- the value of a literal -/
theorem sci_real (m : ℕ) (s : Bool) (k : ℕ) :
    (OfScientific.ofScientific m s k : ℝ) = decR (.num false m (if s then -(k : ℤ) else k)) := by
  rw [NNRatCast.ofScientific_eq_ite]
  unfold decR
  dsimp only
  cases s
  · simp
  · simp [NNRat.cast_divNat, div_eq_mul_inv]

/-- a literal is a rounding of the number written -/
theorem sci_rounds (m : ℕ) (s : Bool) (k : ℕ) : Rounds (OfScientific.ofScientific m s k : ℝ) (sci m s k) := by
  rw [sci_real]
  exact ofDecimal_rounds false m _

theorem sig_of_lt {n : ℕ} (h : n ≤ 2 ^ 53) : Sig n := by have := sig_mul_pow n 0 h; simpa using this

end Sat.F64
