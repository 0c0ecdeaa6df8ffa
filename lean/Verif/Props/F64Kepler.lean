import Verif.Proofs.NewtonApprox
import Verif.F64.ApproxFn
/-!
# The Kepler iteration in doubles

`newtonOK_f64`: each step made in double precision is Newton's step up to 1e-13.  `sinCos_near`: the sine and cosine found by the iteration in
doubles, from inputs that are close to real numbers, are close to those found by the same iteration in exact arithmetic.
-/

namespace Sat
open F64 Spec

variable [Libm]

theorem cutoff_val : ∃ c : ℝ, ((1.0e-12 : F64).Fin ∧ (1.0e-12 : F64).val = c) ∧ |c - 1.0e-12| ≤ 1e-14 := by
  have h := Q.sci 10 true 13 (1.0e-12) (by norm_num)
  refine ⟨_, ⟨h.fin, rfl⟩, ?_⟩
  have := h.err
  refine this.trans ?_
  norm_num

theorem newtonOK_f64 (hL : Libm.Faithful) {U ax ay : F64} (hU : U.Fin) (hUb : |U.val| ≤ 6.4) (hx : ax.Fin) (hy : ay.Fin)
    (h : ax.val ^ 2 + ay.val ^ 2 ≤ 0.46 ^ 2) : NewtonOK (F := F64) F64.val (fun x => x.Fin) U ax ay 1e-13 where
  ecc := h
  start := hU
  step := by
    intro E hE hr
    obtain ⟨d1, d2⟩ := kden_bounds h (by norm_num) E.val
    have hD0 : 0 < kden ax.val ay.val E.val := by norm_num at *; linarith
    have hEb : |E.val| ≤ 7.4 := by
      have h1 := kres_near (U := U.val) h (by norm_num) E.val
      have e1 : E.val = U.val + (E.val - U.val) := by ring
      rw [e1]
      refine (abs_add_le _ _).trans ?_
      norm_num at *; linarith
    have hax : |ax.val| ≤ 0.46 := abs_le_of_sq_le_sq (by nlinarith [sq_nonneg ay.val]) (by norm_num)
    have hay : |ay.val| ≤ 0.46 := abs_le_of_sq_le_sq (by nlinarith [sq_nonneg ax.val]) (by norm_num)
    have qE := Q.exact hE hEb
    have qU := Q.exact hU hUb
    have qx := Q.exact hx hax
    have qy := Q.exact hy hay
    have qs := qE.angle.sin hL
    have qc := qE.angle.cos hL
    have n1 := (qU.sub (qy.mul qc)).mono (A' := 6.9) (δ' := 3 / 10 ^ 15) (by norm_num) (by norm_num)
    have n2 := (n1.add (qx.mul qs)).mono (A' := 7.4) (δ' := 6 / 10 ^ 15) (by norm_num) (by norm_num)
    have n3 := (n2.sub' qE 0.46 hr).mono (A' := 0.46) (δ' := 7 / 10 ^ 15) (by norm_num) (by norm_num)
    have m1 := ((Q.int 10 true 1 1 (by norm_num)).sub (qc.mul qx)).mono (A' := 1.5) (δ' := 3 / 10 ^ 15) (by norm_num) (by norm_num)
    have m2 := (m1.sub (qs.mul qy)).mono (A' := 2) (δ' := 6 / 10 ^ 15) (by norm_num) (by norm_num)
    have m3 : Q (1.0 - (Arith.cos E * ax) - (Arith.sin E * ay)) (kden ax.val ay.val E.val) 2 (6 / 10 ^ 15) :=
      m2.to (by unfold kden; norm_num)
    have n4 : Q (((U - (ay * Arith.cos E)) + (ax * Arith.sin E)) - E) (kres U.val ax.val ay.val E.val) 0.46 (7 / 10 ^ 15) := n3
    have hden : (0.54 : ℝ) ≤ |kden ax.val ay.val E.val| := by rw [abs_of_pos hD0]; norm_num at *; linarith
    have r1 := (n4.div m3 0.54 0.86 hden (quot_le n4.mag hden (by norm_num) (by norm_num))).mono (A' := 0.86) (δ' := 3 / 10 ^ 14)
      (by norm_num) (by norm_num)
    set raw := (((U - (ay * Arith.cos E)) + (ax * Arith.sin E)) - E) / (1.0 - (Arith.cos E * ax) - (Arith.sin E * ay)) with hraw
    have hst : newtonStep U ax ay E = raw := by
      unfold newtonStep
      rw [← hraw]
      have q95 := Q.sci 95 true 2 0.95 (by norm_num)
      have hcl : ¬ (Arith.abs raw ≥. (0.95 : F64)) = true := by
        show ¬ F64.fle (0.95 : F64) (F64.abs raw) = true
        rw [fle_fin q95.fin (abs_val r1.fin).1, (abs_val r1.fin).2, not_le]
        have h1 := r1.val_le
        have h2 := (abs_le.mp q95.err).1
        refine lt_of_le_of_lt h1 (lt_of_lt_of_le ?_ (sub_nonneg.mp (show 0 ≤ (0.95 : F64).val - 0.94 by
          have : (0.95 : F64).val - (OfScientific.ofScientific 95 true 2 : ℝ) ≥ -(0.95 / 2 ^ 53 + 1 / 2 ^ 153) := h2
          norm_num at this ⊢; linarith)))
        norm_num
      dsimp only
      rw [if_neg hcl]
    rw [hst]
    have r2 := (qE.add r1).mono (A' := 8.3) (δ' := 4 / 10 ^ 14) (by norm_num) (by norm_num)
    exact ⟨r1.fin, r2.fin, r1.err.trans (by norm_num), r2.err.trans (by norm_num)⟩
  stop := by
    intro d hd hs
    obtain ⟨c, ⟨c1, c2⟩, c3⟩ := cutoff_val
    have h1 : ¬ F64.fle (1.0e-12 : F64) (F64.abs d) = true := hs
    rw [fle_fin c1 (abs_val hd).1, (abs_val hd).2, c2, not_le] at h1
    have := (abs_le.mp c3).2
    norm_num at *; linarith
  go := by
    intro d hd hs
    obtain ⟨c, ⟨c1, c2⟩, c3⟩ := cutoff_val
    have h1 : F64.fle (1.0e-12 : F64) (F64.abs d) = true := hs
    rw [fle_fin c1 (abs_val hd).1, (abs_val hd).2, c2] at h1
    have := (abs_le.mp c3).1
    norm_num at *; linarith
  first := by
    show F64.fle (F64.sci 10 true 13) (F64.abs (F64.sci 99999 true 1)) = true
    decide +kernel

/-- the iteration in doubles and in exact arithmetic from nearby data -/
theorem sinCos_near (hL : Libm.Faithful) {U ax ay : F64} {U' ax' ay' δU δ η : ℝ} (hU : QA U U' 6.4 δU) (hx : Q ax ax' 0.46 δ) (hy : Q ay ay' 0.46 δ)
    (h : ax'^2 + ay'^2 ≤ 0.45 ^ 2) (hδ : δ ≤ 1 / 10 ^ 3) (sc : F64 × F64) (sc' : ℝ × ℝ)
    (hη : (5e-12 + δU + 2 * δ) / 0.55 + 1 / 2 ^ 48 ≤ η) :
    Q (newton U ax ay 10 U 9999.9 sc).1 (newton U' ax' ay' 10 U' 9999.9 sc').1 1 η ∧
    Q (newton U ax ay 10 U 9999.9 sc).2 (newton U' ax' ay' 10 U' 9999.9 sc').2 1 η ∧
    (newton U' ax' ay' 10 U' 9999.9 sc').1 ^ 2 + (newton U' ax' ay' 10 U' 9999.9 sc').2 ^ 2 = 1 := by
  have hδ0 := hx.nonneg_err
  have hx' : |ax'| ≤ 0.45 := abs_le_of_sq_le_sq (by nlinarith [sq_nonneg ay']) (by norm_num)
  have hy' : |ay'| ≤ 0.45 := abs_le_of_sq_le_sq (by nlinarith [sq_nonneg ax']) (by norm_num)
  have hv : ax.val ^ 2 + ay.val ^ 2 ≤ 0.46 ^ 2 := by
    have e1 : ax.val ^ 2 + ay.val ^ 2 = ax' ^ 2 + ay' ^ 2 + 2 * (ax' * (ax.val - ax')) + 2 * (ay' * (ay.val - ay')) +
      (ax.val - ax') ^ 2 + (ay.val - ay') ^ 2 := by ring
    have b1 : ax' * (ax.val - ax') ≤ 0.45 * δ := (le_abs_self _).trans (by
      rw [abs_mul]; exact mul_le_mul hx' hx.err (abs_nonneg _) (by norm_num))
    have b2 : ay' * (ay.val - ay') ≤ 0.45 * δ := (le_abs_self _).trans (by
      rw [abs_mul]; exact mul_le_mul hy' hy.err (abs_nonneg _) (by norm_num))
    have b3 : (ax.val - ax') ^ 2 ≤ δ ^ 2 := by rw [← sq_abs]; gcongr; exact hx.err
    have b4 : (ay.val - ay') ^ 2 ≤ δ ^ 2 := by rw [← sq_abs]; gcongr; exact hy.err
    have b5 : δ ^ 2 ≤ 1 / 10 ^ 3 * δ := by nlinarith
    rw [e1]; norm_num at *; linarith
  obtain ⟨E1, o1, s1, r1⟩ := newton_solves (newtonOK_f64 hL hU.fin hU.mag hx.fin hy.fin hv) le_rfl sc
  obtain ⟨E2, -, s2, r2⟩ := newton_solves (newtonOK_real U' ax' ay' (h.trans (by norm_num))) (by norm_num) sc'
  obtain ⟨k, hk⟩ := hU.err
  rw [s1, s2]
  simp only [id] at r2
  have key : |(E1.val - k * (2 * Real.pi)) - E2| ≤ (5e-12 + δU + 2 * δ) / 0.55 := by
    have h1 := kres_separates (U := U') h (by norm_num) (E1.val - k * (2 * Real.pi)) E2
    have c1 : Real.sin (E1.val - k * (2 * Real.pi)) = Real.sin E1.val := by
      rw [Real.sin_sub_int_mul_two_pi]
    have c2 : Real.cos (E1.val - k * (2 * Real.pi)) = Real.cos E1.val := by
      rw [Real.cos_sub_int_mul_two_pi]
    have e1 : kres U' ax' ay' (E1.val - k * (2 * Real.pi)) = kres U.val ax.val ay.val E1.val - (U.val - (U' + k * (2 * Real.pi)))
        + (ay.val - ay') * Real.cos E1.val - (ax.val - ax') * Real.sin E1.val := by
      unfold kres; rw [c1, c2]; ring
    have b1 : |(ay.val - ay') * Real.cos E1.val| ≤ δ * 1 := by
      rw [abs_mul]; exact mul_le_mul hy.err (Real.abs_cos_le_one _) (abs_nonneg _) hδ0
    have b2 : |(ax.val - ax') * Real.sin E1.val| ≤ δ * 1 := by
      rw [abs_mul]; exact mul_le_mul hx.err (Real.abs_sin_le_one _) (abs_nonneg _) hδ0
    have h2 : |kres U' ax' ay' (E1.val - k * (2 * Real.pi)) - kres U' ax' ay' E2| ≤ 5e-12 + δU + 2 * δ := by
      rw [e1]
      rw [abs_le] at *
      constructor <;> norm_num at * <;> linarith [r1.1, r1.2, r2.1, r2.2, hk.1, hk.2, b1.1, b1.2, b2.1, b2.2]
    rw [le_div_iff₀ (by norm_num)]
    norm_num at *; linarith
  have qa : QA E1 E2 |E1.val| ((5e-12 + δU + 2 * δ) / 0.55) := by
    refine ⟨o1, le_rfl, k, ?_⟩
    have e : E1.val - (E2 + k * (2 * Real.pi)) = (E1.val - k * (2 * Real.pi)) - E2 := by ring
    rw [e]; exact key
  exact ⟨(qa.sin hL).mono le_rfl hη, (qa.cos hL).mono le_rfl hη, Real.sin_sq_add_cos_sq E2⟩

end Sat
