import Verif.F64.SqrtSq
import Verif.Model.Transforms
/-!
# C44: the argument of the arcsine in the look angles, in IEEE-754 arithmetic

`Libm.asin` is a parameter without laws, so "elevation is not a domain error" is stated as: the value handed to it is a finite
double in [-1, 1].
-/

namespace Sat
open F64

variable [Libm]

omit [Libm] in
/-- The range the code computes is at least the magnitude of each component whose square does not underflow, unless the
sum of squares overflows to infinity. -/
theorem range_ge {s e z : F64} (hs : s.Fin) (he : e.Fin) (hz : z.Fin) :
    let q := add (add (mul s s) (mul e e)) (mul z z)
    q = .inf false ∨ (q.Fin ∧ 0 ≤ q.val ∧
      ∀ c, (c = s ∨ c = e ∨ c = z) → 1 / 2 ^ 511 ≤ |c.val| → |c.val| ≤ (F64.sqrt q).val) := by
  intro q
  have n1 := nonNeg_sq hs
  have n2 := nonNeg_sq he
  have n3 := nonNeg_sq hz
  obtain ⟨n12, l1, l2⟩ := nonNeg_add n1 n2
  obtain ⟨n123, l12, l3⟩ := nonNeg_add n12 n3
  rcases n123 with h | ⟨hq, hq0⟩
  · exact Or.inl h
  · refine Or.inr ⟨hq, hq0, ?_⟩
    have f3 := fin_of_fle n3 hq l3
    have f12 := fin_of_fle n12 hq l12
    have f1 := fin_of_fle n1 f12.1 l1
    have f2 := fin_of_fle n2 f12.1 l2
    have hfin := (sqrt_fin hq hq0).1
    rintro c (rfl | rfl | rfl) hc
    · exact sqrt_sq_ge hs hc f1.1 hq (le_trans f1.2 f12.2) hfin
    · exact sqrt_sq_ge he hc f2.1 hq (le_trans f2.2 f12.2) hfin
    · exact sqrt_sq_ge hz hc f3.1 hq f3.2 hfin

omit [Libm] in
/-- the argument of the arcsine, as computed -/
theorem asin_argument_unit (tc : TopoCentric F64) (hs : tc.top_s.Fin) (he : tc.top_e.Fin) (hz : tc.top_z.Fin)
    (hbig : 1 / 2 ^ 511 ≤ |tc.top_s.val| ∨ 1 / 2 ^ 511 ≤ |tc.top_e.val| ∨ 1 / 2 ^ 511 ≤ |tc.top_z.val|) :
    (div tc.top_z (F64.sqrt (add (add (mul tc.top_s tc.top_s) (mul tc.top_e tc.top_e)) (mul tc.top_z tc.top_z)))).Fin ∧
    -1 ≤ (div tc.top_z (F64.sqrt (add (add (mul tc.top_s tc.top_s) (mul tc.top_e tc.top_e)) (mul tc.top_z tc.top_z)))).val ∧
    (div tc.top_z (F64.sqrt (add (add (mul tc.top_s tc.top_s) (mul tc.top_e tc.top_e)) (mul tc.top_z tc.top_z)))).val ≤ 1 := by
  rcases range_ge hs he hz with h | ⟨hq, hq0, h⟩
  · rw [h]
    obtain ⟨b, n, hn, hzz⟩ := fin_cases hz
    rw [hzz]
    have : div (F64.fin b n hn) (F64.sqrt (.inf false)) = zero (b ^^ false) := by
      simp only [F64.sqrt, div, Bool.false_eq_true, if_false]
    rw [this, zero_val]
    exact ⟨trivial, by norm_num, by norm_num⟩
  · generalize add (add (mul tc.top_s tc.top_s) (mul tc.top_e tc.top_e)) (mul tc.top_z tc.top_z) = q at *
    obtain ⟨hr, -⟩ := sqrt_fin hq hq0
    have hp : (0 : ℝ) < 1 / 2 ^ 511 := by positivity
    generalize (1 / 2 ^ 511 : ℝ) = t at *
    have hbound : 0 < (F64.sqrt q).val ∧ |tc.top_z.val| ≤ (F64.sqrt q).val := by
      by_cases hz' : t ≤ |tc.top_z.val|
      · have := h _ (Or.inr (Or.inr rfl)) hz'
        exact ⟨by linarith, this⟩
      · have hz' := not_le.mp hz'
        rcases hbig with hb | hb | hb
        · have := h _ (Or.inl rfl) hb; constructor <;> linarith
        · have := h _ (Or.inr (Or.inl rfl)) hb; constructor <;> linarith
        · linarith
    have hd := div_rounds hz hr hbound.1.ne'
    have hle : |tc.top_z.val / (F64.sqrt q).val| ≤ 1 := by
      rw [abs_div, abs_of_pos hbound.1, div_le_one hbound.1]; exact hbound.2
    obtain ⟨h1, h2⟩ := abs_le.mp hle
    exact hd.between (isRep_neg isRep_one) isRep_one h1 h2

/-- **C44**.  For every finite topocentric vector of doubles with a component of magnitude at least 2^-511 (10^-154 km), the
arcsine is applied to a finite double in [-1, 1], however the squares, their sums, the square root and the quotient are
rounded and whether or not they overflow. -/
theorem C44_asin_argument (tc : TopoCentric F64) (hs : tc.top_s.Fin) (he : tc.top_e.Fin) (hz : tc.top_z.Fin)
    (hbig : 1 / 2 ^ 511 ≤ |tc.top_s.val| ∨ 1 / 2 ^ 511 ≤ |tc.top_e.val| ∨ 1 / 2 ^ 511 ≤ |tc.top_z.val|) :
    ∃ a : F64, (topocentric_to_look_angles tc).elevation = Libm.asin a ∧ a.Fin ∧ -1 ≤ a.val ∧ a.val ≤ 1 :=
  ⟨_, rfl, asin_argument_unit tc hs he hz hbig⟩

/-- the hypotheses of `C44_asin_argument` at a satellite straight overhead (where the quotient is closest to 1) and at one 700 km
to the south-east -/
example : ∃ a : F64, (topocentric_to_look_angles (⟨.ofInt 0, .ofInt 0, .ofInt 500⟩ : TopoCentric F64)).elevation = Libm.asin a ∧
    a.Fin ∧ -1 ≤ a.val ∧ a.val ≤ 1 := by
  have h0 := ofInt_exact 0 (by norm_num)
  have h1 := ofInt_exact 500 (by norm_num)
  refine C44_asin_argument _ h0.1 h0.1 h1.1 (Or.inr (Or.inr ?_))
  show _ ≤ |(ofInt 500).val|
  rw [h1.2, div_le_iff₀ (by positivity)]
  have : (1 : ℝ) ≤ 2 ^ 511 := one_le_pow₀ (by norm_num)
  generalize (2 : ℝ) ^ 511 = g at this ⊢
  norm_num
  linarith

example : ∃ a : F64, (topocentric_to_look_angles (⟨.ofInt 400, .ofInt 300, .ofInt 500⟩ : TopoCentric F64)).elevation = Libm.asin a ∧
    a.Fin ∧ -1 ≤ a.val ∧ a.val ≤ 1 := by
  have h0 := ofInt_exact 400 (by norm_num)
  have h1 := ofInt_exact 300 (by norm_num)
  have h2 := ofInt_exact 500 (by norm_num)
  refine C44_asin_argument _ h0.1 h1.1 h2.1 (Or.inl ?_)
  show _ ≤ |(ofInt 400).val|
  rw [h0.2, div_le_iff₀ (by positivity)]
  have : (1 : ℝ) ≤ 2 ^ 511 := one_le_pow₀ (by norm_num)
  generalize (2 : ℝ) ^ 511 = g at this ⊢
  norm_num
  linarith

omit [Libm] in
/-- the square of a double below 2^-538 rounds to zero -/
theorem sq_underflow {x : F64} (hx : x.Fin) (h : |x.val| ≤ 1 / 2 ^ 538) : ∃ a h0, mul x x = .fin a 0 h0 := by
  have hr := mul_rounds hx hx
  have hu := unit_pos
  have hsq : x.val * x.val ≤ 1 / (4 * unitN) := by
    rw [← abs_mul_abs_self]
    have h1 : |x.val| * |x.val| ≤ 1 / 2 ^ 538 * (1 / 2 ^ 538) := mul_le_mul h h (abs_nonneg _) (by positivity)
    refine le_trans h1 (le_of_eq ?_)
    obtain ⟨E, hE, hU⟩ := unit_pow
    rw [hU]
    push_cast
    have : (4 : ℝ) * 2 ^ E = 2 ^ 538 * 2 ^ 538 := by
      rw [← pow_add, show (4 : ℝ) = 2 ^ 2 by norm_num, ← pow_add]
      congr 1; omega
    rw [this]
    rw [div_mul_div_comm, one_mul]
  have hn := hr.between isRep_zero isRep_one (mul_self_nonneg _) (by
    refine le_trans hsq ?_
    rw [div_le_one (by positivity)]
    have : (1 : ℝ) ≤ unitN := by exact_mod_cast unitN_pos
    linarith)
  have herr := hr.err hn.1
  obtain ⟨a, n, hh, e⟩ := fin_cases hn.1
  have hv : (mul x x).val = n / unitN := by
    rw [← abs_of_nonneg hn.2.1, e, abs_fin]
  rw [hv] at herr
  have hmax : |(n : ℝ) / unitN - x.val * x.val| ≤ 1 / (2 * unitN) := by
    refine le_trans herr (max_le le_rfl ?_)
    rw [abs_of_nonneg (mul_self_nonneg _), div_le_iff₀ (by norm_num)]
    refine le_trans hsq ?_
    rw [div_mul_eq_mul_div, div_le_div_iff₀ (by positivity) (by positivity)]
    nlinarith
  have h2 := (abs_le.mp hmax).2
  have h3 : (n : ℝ) / unitN < 1 / unitN := by
    have e1 : (1 : ℝ) / (2 * unitN) = 1 / unitN / 2 := by field_simp
    have e2 : (1 : ℝ) / (4 * unitN) = 1 / unitN / 4 := by field_simp
    have : (0 : ℝ) < 1 / unitN := by positivity
    rw [e1] at h2; rw [e2] at hsq; linarith
  rw [div_lt_div_iff_of_pos_right hu] at h3
  have : n = 0 := by
    have : n < 1 := by exact_mod_cast h3
    omega
  subst this
  exact ⟨a, hh, e⟩

/-- **C44, the excluded vectors** (among them the zero vector: the satellite at the observer).  If every component is at most
2^-538 in magnitude, the computed range is zero and the arcsine is applied to NaN or to an infinity. -/
theorem C44_violated_tiny (tc : TopoCentric F64) (hs : tc.top_s.Fin) (he : tc.top_e.Fin) (hz : tc.top_z.Fin)
    (h1 : |tc.top_s.val| ≤ 1 / 2 ^ 538) (h2 : |tc.top_e.val| ≤ 1 / 2 ^ 538) (h3 : |tc.top_z.val| ≤ 1 / 2 ^ 538) :
    ∃ a : F64, (topocentric_to_look_angles tc).elevation = Libm.asin a ∧ ¬ a.Fin ∧
      (a = .nan ↔ tc.top_z.val = 0) := by
  refine ⟨div tc.top_z (F64.sqrt (add (add (mul tc.top_s tc.top_s) (mul tc.top_e tc.top_e)) (mul tc.top_z tc.top_z))), rfl, ?_⟩
  obtain ⟨a1, r1, e1⟩ := sq_underflow hs h1
  obtain ⟨a2, r2, e2⟩ := sq_underflow he h2
  obtain ⟨a3, r3, e3⟩ := sq_underflow hz h3
  rw [e1, e2, e3]
  have hadd : ∀ (a b : Bool) (x y : Rep 0), add (.fin a 0 x) (.fin b 0 y) = zero (a && b) := by
    intro a b x y; simp only [add, sgn]; cases a <;> cases b <;> simp
  have hsqrt : ∀ a : Bool, F64.sqrt (zero a) = zero a := by intro a; simp [F64.sqrt, zero]
  rw [hadd a1 a2]
  unfold zero
  rw [hadd, hsqrt]
  obtain ⟨b, n, hn, e⟩ := fin_cases hz
  rw [e]
  have hdiv : ∀ c, div (.fin b n hn) (zero c) = if n = 0 then .nan else .inf (b ^^ c) := by
    intro c; simp [div, zero]
  rw [hdiv]
  have hv : (F64.fin b n hn).val = 0 ↔ n = 0 := by
    rw [← abs_eq_zero, abs_fin, div_eq_zero_iff]
    constructor
    · rintro (h | h)
      · exact_mod_cast h
      · exact absurd h unit_pos.ne'
    · rintro rfl; exact Or.inl (by norm_num)
  by_cases h0 : n = 0
  · rw [if_pos h0]; exact ⟨not_fin_nan, fun _ => hv.mpr h0, fun _ => rfl⟩
  · rw [if_neg h0]
    exact ⟨not_fin_inf _, fun h => (by cases h), fun h => absurd (hv.mp h) h0⟩

end Sat
