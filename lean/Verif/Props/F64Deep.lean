import Verif.Props.F64Sgp4
import Verif.Props.F64Dspace
import Verif.Props.Deep
import Verif.Props.DeepOutput
/-!
# The propagator in doubles against the propagator in exact arithmetic (deep space)

The companion of `F64Sgp4` for deep-space records.  `OrdinaryDeep s t`: a deep-space record whose secular and drag terms are ordinary (`Smooth`) and
whose lunar-solar periodics are of ordinary size; the exact run has a perturbed eccentricity that is not about to become negative and an inclination
not within eight degrees of 180.  `C82`: the run in doubles is then within one metre and 1 mm/s of the exact run.
-/

namespace Sat
open F64 Spec

/-- Deep-space records and times to which the error bound applies. -/
structure OrdinaryDeep (s : Satrec F64) (t : F64) : Prop extends Smooth s t where
  deep : s.method = .D
  incl32 : |s.inclo.val| ≤ 32 / 10
  zmos : Within s.zmos 7
  zmol : Within s.zmol 7
  se2 : Within s.se2 (1 / 100)
  se3 : Within s.se3 (1 / 100)
  si2 : Within s.si2 (1 / 100)
  si3 : Within s.si3 (1 / 100)
  ee2 : Within s.ee2 (1 / 100)
  e3 : Within s.e3 (1 / 100)
  xi2 : Within s.xi2 (1 / 100)
  xi3 : Within s.xi3 (1 / 100)
  peo : Within s.peo (1 / 100)
  pinco : Within s.pinco (1 / 100)
  ep_lo : 1 / 10 ^ 10 ≤ (perturbed s.exact t.val).ep
  cos_lo : -(99 / 100) ≤ Real.cos (Spec.incl s.exact t.val)

section
variable [Libm] {s : Satrec F64} {t : F64}

/-- magnitude, as the program computes it for the inclination -/
theorem F64.Q.absIf {x : F64} {a A δ : ℝ} (h : Q x a A δ) : Q (if x <. (0.0 : F64) then -x else x) (if a <. (0.0 : ℝ) then -a else a) A δ := by
  have e1 : (if a <. (0.0 : ℝ) then -a else a) = |a| := by
    rw [real_flt]
    by_cases hc : a < 0
    · rw [if_pos (by rw [decide_eq_true_eq]; norm_num; exact hc), abs_of_neg hc]
    · rw [if_neg (by rw [decide_eq_true_eq]; norm_num; exact not_lt.mp hc), abs_of_nonneg (not_lt.mp hc)]
  obtain ⟨z1, z2⟩ := sci_int (m := 0) (s := true) (k := 1) 0 (by norm_num) (by norm_num)
  have e2 : (if x <. (0.0 : F64) then -x else x).Fin ∧ (if x <. (0.0 : F64) then -x else x).val = |x.val| := by
    by_cases hc : (x <. (0.0 : F64)) = true
    · rw [if_pos hc]
      have hc' : F64.flt x (F64.sci 0 true 1) = true := hc
      rw [flt_fin h.fin z1, z2] at hc'
      push_cast at hc'
      have := h.neg
      refine ⟨this.fin, ?_⟩
      rw [abs_of_neg hc']
      exact (F64.neg_val h.fin).2
    · rw [if_neg hc]
      have hc' : ¬ F64.flt x (F64.sci 0 true 1) = true := hc
      rw [flt_fin h.fin z1, z2, not_lt] at hc'
      push_cast at hc'
      exact ⟨h.fin, (abs_of_nonneg hc').symm⟩
  rw [e1]
  refine ⟨e2.1, ?_, by rw [abs_abs]; exact h.mag⟩
  rw [e2.2]
  exact (abs_abs_sub_abs_le _ _).trans h.err

theorem d_zms (hL : Libm.Faithful) (h : OrdinaryDeep s t) : Q (s.zmos + 1.19459e-5 * t) (s.exact.zmos + 1.19459e-5 * t.val) (82 / 10 ^ 1) (118 / 10 ^ 17) := by
  have g1 := (Q.sci 119459 true 10 (12 / 10 ^ 6) (by norm_num)).mono (A' := 12 / 10 ^ 6) (δ' := 134 / 10 ^ 23) (by norm_num) (by norm_num)
  have g2 := (g1.mul h.time.q).mono (A' := 12 / 10 ^ 1) (δ' := 268 / 10 ^ 18) (by norm_num) (by norm_num)
  have g3 := (h.zmos.q.add g2).mono (A' := 82 / 10 ^ 1) (δ' := 118 / 10 ^ 17) (by norm_num) (by norm_num)
  exact g3

theorem d_f2s (hL : Libm.Faithful) (h : OrdinaryDeep s t) : Q ((lsTerms (0.01675 : F64) (s.zmos + 1.19459e-5 * t)).2.1) ((lsTerms (0.01675 : ℝ) (s.exact.zmos + 1.19459e-5 * t.val)).2.1) (75 / 10 ^ 2) (605 / 10 ^ 17) := by
  have g1 := (Q.int 20 true 1 2 (by norm_num)).mono (A' := 2) (δ' := 0) (by norm_num) le_rfl
  have g2 := (Q.sci 1675 true 5 (168 / 10 ^ 4) (by norm_num)).mono (A' := 168 / 10 ^ 4) (δ' := 187 / 10 ^ 20) (by norm_num) (by norm_num)
  have g3 := (g1.mul g2).mono (A' := 336 / 10 ^ 4) (δ' := 748 / 10 ^ 20) (by norm_num) (by norm_num)
  have g4 := ((d_zms hL h).angle).mono (A' := 821 / 10 ^ 2) (δ' := 118 / 10 ^ 17) (by norm_num) (by norm_num)
  have g5 := (g4.sin hL).mono (A' := 1) (δ' := 474 / 10 ^ 17) (by norm_num) (by norm_num)
  have g6 := (g3.mul g5).mono (A' := 336 / 10 ^ 4) (δ' := 171 / 10 ^ 18) (by norm_num) (by norm_num)
  have g7 := ((d_zms hL h).add g6).mono (A' := 824 / 10 ^ 2) (δ' := 227 / 10 ^ 17) (by norm_num) (by norm_num)
  have g8 := (g7.angle).mono (A' := 825 / 10 ^ 2) (δ' := 227 / 10 ^ 17) (by norm_num) (by norm_num)
  have g9 := (g8.sin hL).mono (A' := 1) (δ' := 583 / 10 ^ 17) (by norm_num) (by norm_num)
  have g10 := (g7.angle).mono (A' := 825 / 10 ^ 2) (δ' := 227 / 10 ^ 17) (by norm_num) (by norm_num)
  have g11 := (g10.cos hL).mono (A' := 1) (δ' := 583 / 10 ^ 17) (by norm_num) (by norm_num)
  have g12 := Q.dyadic 5 true 1 1 1 (5 / 10 ^ 1) (by norm_num) (by norm_num)
  have g13 := (g12.mul g9).mono (A' := 5 / 10 ^ 1) (δ' := 298 / 10 ^ 17) (by norm_num) (by norm_num)
  have g14 := (g13.mul g9).mono (A' := 5 / 10 ^ 1) (δ' := 596 / 10 ^ 17) (by norm_num) (by norm_num)
  have g15 := Q.dyadic 25 true 2 1 2 (25 / 10 ^ 2) (by norm_num) (by norm_num)
  have g16 := (g14.sub g15).mono (A' := 75 / 10 ^ 2) (δ' := 605 / 10 ^ 17) (by norm_num) (by norm_num)
  exact g16

theorem d_f3s (hL : Libm.Faithful) (h : OrdinaryDeep s t) : Q ((lsTerms (0.01675 : F64) (s.zmos + 1.19459e-5 * t)).2.2) ((lsTerms (0.01675 : ℝ) (s.exact.zmos + 1.19459e-5 * t.val)).2.2) (5 / 10 ^ 1) (596 / 10 ^ 17) := by
  have g1 := (Q.int 20 true 1 2 (by norm_num)).mono (A' := 2) (δ' := 0) (by norm_num) le_rfl
  have g2 := (Q.sci 1675 true 5 (168 / 10 ^ 4) (by norm_num)).mono (A' := 168 / 10 ^ 4) (δ' := 187 / 10 ^ 20) (by norm_num) (by norm_num)
  have g3 := (g1.mul g2).mono (A' := 336 / 10 ^ 4) (δ' := 748 / 10 ^ 20) (by norm_num) (by norm_num)
  have g4 := ((d_zms hL h).angle).mono (A' := 821 / 10 ^ 2) (δ' := 118 / 10 ^ 17) (by norm_num) (by norm_num)
  have g5 := (g4.sin hL).mono (A' := 1) (δ' := 474 / 10 ^ 17) (by norm_num) (by norm_num)
  have g6 := (g3.mul g5).mono (A' := 336 / 10 ^ 4) (δ' := 171 / 10 ^ 18) (by norm_num) (by norm_num)
  have g7 := ((d_zms hL h).add g6).mono (A' := 824 / 10 ^ 2) (δ' := 227 / 10 ^ 17) (by norm_num) (by norm_num)
  have g8 := (g7.angle).mono (A' := 825 / 10 ^ 2) (δ' := 227 / 10 ^ 17) (by norm_num) (by norm_num)
  have g9 := (g8.sin hL).mono (A' := 1) (δ' := 583 / 10 ^ 17) (by norm_num) (by norm_num)
  have g10 := (g7.angle).mono (A' := 825 / 10 ^ 2) (δ' := 227 / 10 ^ 17) (by norm_num) (by norm_num)
  have g11 := (g10.cos hL).mono (A' := 1) (δ' := 583 / 10 ^ 17) (by norm_num) (by norm_num)
  have g12 := Q.dyadic 5 true 1 1 1 (5 / 10 ^ 1) (by norm_num) (by norm_num)
  have g13 := (g12.neg).mono (A' := 5 / 10 ^ 1) (δ' := 0) (by norm_num) (by norm_num)
  have g14 := (g13.mul g9).mono (A' := 5 / 10 ^ 1) (δ' := 298 / 10 ^ 17) (by norm_num) (by norm_num)
  have g15 := (g14.mul g11).mono (A' := 5 / 10 ^ 1) (δ' := 596 / 10 ^ 17) (by norm_num) (by norm_num)
  exact g15

theorem d_zml (hL : Libm.Faithful) (h : OrdinaryDeep s t) : Q (s.zmol + 1.5835218e-4 * t) (s.exact.zmol + 1.5835218e-4 * t.val) (229 / 10 ^ 1) (609 / 10 ^ 17) := by
  have g1 := (Q.sci 15835218 true 11 (159 / 10 ^ 6) (by norm_num)).mono (A' := 159 / 10 ^ 6) (δ' := 177 / 10 ^ 22) (by norm_num) (by norm_num)
  have g2 := (g1.mul h.time.q).mono (A' := 159 / 10 ^ 1) (δ' := 354 / 10 ^ 17) (by norm_num) (by norm_num)
  have g3 := (h.zmol.q.add g2).mono (A' := 229 / 10 ^ 1) (δ' := 609 / 10 ^ 17) (by norm_num) (by norm_num)
  exact g3

theorem d_f2l (hL : Libm.Faithful) (h : OrdinaryDeep s t) : Q ((lsTerms (0.05490 : F64) (s.zmol + 1.5835218e-4 * t)).2.1) ((lsTerms (0.05490 : ℝ) (s.exact.zmol + 1.5835218e-4 * t.val)).2.1) (75 / 10 ^ 2) (137 / 10 ^ 16) := by
  have g1 := (Q.int 20 true 1 2 (by norm_num)).mono (A' := 2) (δ' := 0) (by norm_num) le_rfl
  have g2 := (Q.sci 5490 true 5 (549 / 10 ^ 4) (by norm_num)).mono (A' := 549 / 10 ^ 4) (δ' := 61 / 10 ^ 19) (by norm_num) (by norm_num)
  have g3 := (g1.mul g2).mono (A' := 11 / 10 ^ 2) (δ' := 244 / 10 ^ 19) (by norm_num) (by norm_num)
  have g4 := ((d_zml hL h).angle).mono (A' := 23) (δ' := 609 / 10 ^ 17) (by norm_num) (by norm_num)
  have g5 := (g4.sin hL).mono (A' := 1) (δ' := 965 / 10 ^ 17) (by norm_num) (by norm_num)
  have g6 := (g3.mul g5).mono (A' := 11 / 10 ^ 2) (δ' := 11 / 10 ^ 16) (by norm_num) (by norm_num)
  have g7 := ((d_zml hL h).add g6).mono (A' := 231 / 10 ^ 1) (δ' := 975 / 10 ^ 17) (by norm_num) (by norm_num)
  have g8 := (g7.angle).mono (A' := 232 / 10 ^ 1) (δ' := 975 / 10 ^ 17) (by norm_num) (by norm_num)
  have g9 := (g8.sin hL).mono (A' := 1) (δ' := 134 / 10 ^ 16) (by norm_num) (by norm_num)
  have g10 := (g7.angle).mono (A' := 232 / 10 ^ 1) (δ' := 975 / 10 ^ 17) (by norm_num) (by norm_num)
  have g11 := (g10.cos hL).mono (A' := 1) (δ' := 134 / 10 ^ 16) (by norm_num) (by norm_num)
  have g12 := Q.dyadic 5 true 1 1 1 (5 / 10 ^ 1) (by norm_num) (by norm_num)
  have g13 := (g12.mul g9).mono (A' := 5 / 10 ^ 1) (δ' := 676 / 10 ^ 17) (by norm_num) (by norm_num)
  have g14 := (g13.mul g9).mono (A' := 5 / 10 ^ 1) (δ' := 136 / 10 ^ 16) (by norm_num) (by norm_num)
  have g15 := Q.dyadic 25 true 2 1 2 (25 / 10 ^ 2) (by norm_num) (by norm_num)
  have g16 := (g14.sub g15).mono (A' := 75 / 10 ^ 2) (δ' := 137 / 10 ^ 16) (by norm_num) (by norm_num)
  exact g16

theorem d_f3l (hL : Libm.Faithful) (h : OrdinaryDeep s t) : Q ((lsTerms (0.05490 : F64) (s.zmol + 1.5835218e-4 * t)).2.2) ((lsTerms (0.05490 : ℝ) (s.exact.zmol + 1.5835218e-4 * t.val)).2.2) (5 / 10 ^ 1) (136 / 10 ^ 16) := by
  have g1 := (Q.int 20 true 1 2 (by norm_num)).mono (A' := 2) (δ' := 0) (by norm_num) le_rfl
  have g2 := (Q.sci 5490 true 5 (549 / 10 ^ 4) (by norm_num)).mono (A' := 549 / 10 ^ 4) (δ' := 61 / 10 ^ 19) (by norm_num) (by norm_num)
  have g3 := (g1.mul g2).mono (A' := 11 / 10 ^ 2) (δ' := 244 / 10 ^ 19) (by norm_num) (by norm_num)
  have g4 := ((d_zml hL h).angle).mono (A' := 23) (δ' := 609 / 10 ^ 17) (by norm_num) (by norm_num)
  have g5 := (g4.sin hL).mono (A' := 1) (δ' := 965 / 10 ^ 17) (by norm_num) (by norm_num)
  have g6 := (g3.mul g5).mono (A' := 11 / 10 ^ 2) (δ' := 11 / 10 ^ 16) (by norm_num) (by norm_num)
  have g7 := ((d_zml hL h).add g6).mono (A' := 231 / 10 ^ 1) (δ' := 975 / 10 ^ 17) (by norm_num) (by norm_num)
  have g8 := (g7.angle).mono (A' := 232 / 10 ^ 1) (δ' := 975 / 10 ^ 17) (by norm_num) (by norm_num)
  have g9 := (g8.sin hL).mono (A' := 1) (δ' := 134 / 10 ^ 16) (by norm_num) (by norm_num)
  have g10 := (g7.angle).mono (A' := 232 / 10 ^ 1) (δ' := 975 / 10 ^ 17) (by norm_num) (by norm_num)
  have g11 := (g10.cos hL).mono (A' := 1) (δ' := 134 / 10 ^ 16) (by norm_num) (by norm_num)
  have g12 := Q.dyadic 5 true 1 1 1 (5 / 10 ^ 1) (by norm_num) (by norm_num)
  have g13 := (g12.neg).mono (A' := 5 / 10 ^ 1) (δ' := 0) (by norm_num) (by norm_num)
  have g14 := (g13.mul g9).mono (A' := 5 / 10 ^ 1) (δ' := 676 / 10 ^ 17) (by norm_num) (by norm_num)
  have g15 := (g14.mul g11).mono (A' := 5 / 10 ^ 1) (δ' := 136 / 10 ^ 16) (by norm_num) (by norm_num)
  exact g15

theorem d_pe (hL : Libm.Faithful) (h : OrdinaryDeep s t) : Q ((periodics { s with t := t } .N).pe) ((periodics { s.exact with t := t.val } .N).pe) (25 / 10 ^ 3) (403 / 10 ^ 18) := by
  have g1 := (h.se2.q.mul (d_f2s hL h)).mono (A' := 75 / 10 ^ 4) (δ' := 614 / 10 ^ 19) (by norm_num) (by norm_num)
  have g2 := (h.se3.q.mul (d_f3s hL h)).mono (A' := 5 / 10 ^ 3) (δ' := 602 / 10 ^ 19) (by norm_num) (by norm_num)
  have g3 := (g1.add g2).mono (A' := 125 / 10 ^ 4) (δ' := 123 / 10 ^ 18) (by norm_num) (by norm_num)
  have g4 := (h.ee2.q.mul (d_f2l hL h)).mono (A' := 75 / 10 ^ 4) (δ' := 138 / 10 ^ 18) (by norm_num) (by norm_num)
  have g5 := (h.e3.q.mul (d_f3l hL h)).mono (A' := 5 / 10 ^ 3) (δ' := 137 / 10 ^ 18) (by norm_num) (by norm_num)
  have g6 := (g4.add g5).mono (A' := 125 / 10 ^ 4) (δ' := 277 / 10 ^ 18) (by norm_num) (by norm_num)
  have g7 := (g3.add g6).mono (A' := 25 / 10 ^ 3) (δ' := 403 / 10 ^ 18) (by norm_num) (by norm_num)
  exact g7

theorem d_pinc (hL : Libm.Faithful) (h : OrdinaryDeep s t) : Q ((periodics { s with t := t } .N).pinc) ((periodics { s.exact with t := t.val } .N).pinc) (25 / 10 ^ 3) (403 / 10 ^ 18) := by
  have g1 := (h.si2.q.mul (d_f2s hL h)).mono (A' := 75 / 10 ^ 4) (δ' := 614 / 10 ^ 19) (by norm_num) (by norm_num)
  have g2 := (h.si3.q.mul (d_f3s hL h)).mono (A' := 5 / 10 ^ 3) (δ' := 602 / 10 ^ 19) (by norm_num) (by norm_num)
  have g3 := (g1.add g2).mono (A' := 125 / 10 ^ 4) (δ' := 123 / 10 ^ 18) (by norm_num) (by norm_num)
  have g4 := (h.xi2.q.mul (d_f2l hL h)).mono (A' := 75 / 10 ^ 4) (δ' := 138 / 10 ^ 18) (by norm_num) (by norm_num)
  have g5 := (h.xi3.q.mul (d_f3l hL h)).mono (A' := 5 / 10 ^ 3) (δ' := 137 / 10 ^ 18) (by norm_num) (by norm_num)
  have g6 := (g4.add g5).mono (A' := 125 / 10 ^ 4) (δ' := 277 / 10 ^ 18) (by norm_num) (by norm_num)
  have g7 := (g3.add g6).mono (A' := 25 / 10 ^ 3) (δ' := 403 / 10 ^ 18) (by norm_num) (by norm_num)
  exact g7

theorem d_ep (hL : Libm.Faithful) (h : OrdinaryDeep s t) : Q (perturbed s t).ep (perturbed s.exact t.val).ep (475 / 10 ^ 3) (579 / 10 ^ 17) := by
  rw [(perturbed_ep_incl s t).1, (perturbed_ep_incl s.exact t.val).1]
  have g1 := ((d_pe hL h).sub h.peo.q).mono (A' := 35 / 10 ^ 3) (δ' := 407 / 10 ^ 18) (by norm_num) (by norm_num)
  have g2 := ((o_ecc hL h.toSmooth).add g1).mono (A' := 475 / 10 ^ 3) (δ' := 579 / 10 ^ 17) (by norm_num) (by norm_num)
  exact g2

theorem d_incl (hL : Libm.Faithful) (h : OrdinaryDeep s t) : Q (Spec.incl s t) (Spec.incl s.exact t.val) (324 / 10 ^ 2) (767 / 10 ^ 18) := by
  have hD' : s.exact.method = .D := h.deep
  unfold Spec.incl
  rw [if_pos h.deep, if_pos hD']
  refine F64.Q.absIf ?_
  rw [(perturbed_ep_incl s t).2, (perturbed_ep_incl s.exact t.val).2]
  have g1 := ((d_pinc hL h).sub h.pinco.q).mono (A' := 35 / 10 ^ 3) (δ' := 407 / 10 ^ 18) (by norm_num) (by norm_num)
  have g2 := ((Q.exact h.inclo.1 h.incl32).add g1).mono (A' := 324 / 10 ^ 2) (δ' := 767 / 10 ^ 18) (by norm_num) (by norm_num)
  exact g2

omit [Libm] in
theorem J2_ge : 108 / 10 ^ 5 ≤ |(J2 : ℝ)| := by
  have : (J2 : ℝ) = 0.00108262998905 := rfl
  rw [this]; norm_num

theorem q_J3OJ2 : Q (J3OJ2 : F64) (J3OJ2 : ℝ) (24 / 10 ^ 4) (799 / 10 ^ 21) := by
  have g1 := (Q.sci 253215306 true 14 (254 / 10 ^ 8) (by norm_num)).mono (A' := 254 / 10 ^ 8) (δ' := 282 / 10 ^ 24) (by norm_num) (by norm_num)
  have g2 := (g1.neg).mono (A' := 254 / 10 ^ 8) (δ' := 282 / 10 ^ 24) (by norm_num) (by norm_num)
  have g3 := (g2.div q_J2 (108 / 10 ^ 5) (24 / 10 ^ 4) J2_ge (quot_le (m := 108 / 10 ^ 5) g2.mag J2_ge (by norm_num) (by norm_num))).mono (A' := 24 / 10 ^ 4) (δ' := 799 / 10 ^ 21) (by norm_num) (by norm_num)
  exact g3

theorem d_ay (hL : Libm.Faithful) (h : OrdinaryDeep s t) : Q (ayCoef s t) (ayCoef s.exact t.val) (12 / 10 ^ 4) (586 / 10 ^ 20) := by
  have hD' : s.exact.method = .D := h.deep
  have g1 := Q.dyadic 5 true 1 1 1 (5 / 10 ^ 1) (by norm_num) (by norm_num)
  have g2 := (g1.neg).mono (A' := 5 / 10 ^ 1) (δ' := 0) (by norm_num) (by norm_num)
  have g3 := (g2.mul q_J3OJ2).mono (A' := 12 / 10 ^ 4) (δ' := 533 / 10 ^ 21) (by norm_num) (by norm_num)
  have g4 := ((d_incl hL h).angle).mono (A' := 325 / 10 ^ 2) (δ' := 767 / 10 ^ 18) (by norm_num) (by norm_num)
  have g5 := (g4.sin hL).mono (A' := 1) (δ' := 432 / 10 ^ 17) (by norm_num) (by norm_num)
  have g6 := (g3.mul g5).mono (A' := 12 / 10 ^ 4) (δ' := 586 / 10 ^ 20) (by norm_num) (by norm_num)
  unfold ayCoef
  rw [if_pos h.deep, if_pos hD']
  exact g6

theorem d_xl (hL : Libm.Faithful) (h : OrdinaryDeep s t) : Q (xlCoef s t) (xlCoef s.exact t.val) (5 / 10 ^ 1) (232 / 10 ^ 15) := by
  have hD' : s.exact.method = .D := h.deep
  have hden : 1 / 10 ^ 2 ≤ |(1.0 : ℝ) + Real.cos (Spec.incl s.exact t.val)| := le_trans (by have := h.cos_lo; norm_num at *; linarith) (le_abs_self _)
  have g1 := ((d_incl hL h).angle).mono (A' := 325 / 10 ^ 2) (δ' := 767 / 10 ^ 18) (by norm_num) (by norm_num)
  have g2 := (g1.sin hL).mono (A' := 1) (δ' := 432 / 10 ^ 17) (by norm_num) (by norm_num)
  have g3 := ((d_incl hL h).angle).mono (A' := 325 / 10 ^ 2) (δ' := 767 / 10 ^ 18) (by norm_num) (by norm_num)
  have g4 := (g3.cos hL).mono (A' := 1) (δ' := 432 / 10 ^ 17) (by norm_num) (by norm_num)
  have g5 := Q.dyadic 25 true 2 1 2 (25 / 10 ^ 2) (by norm_num) (by norm_num)
  have g6 := (g5.neg).mono (A' := 25 / 10 ^ 2) (δ' := 0) (by norm_num) (by norm_num)
  have g7 := (g6.mul q_J3OJ2).mono (A' := 6 / 10 ^ 4) (δ' := 267 / 10 ^ 21) (by norm_num) (by norm_num)
  have g8 := (g7.mul g2).mono (A' := 6 / 10 ^ 4) (δ' := 293 / 10 ^ 20) (by norm_num) (by norm_num)
  have g9 := (Q.int 30 true 1 3 (by norm_num)).mono (A' := 3) (δ' := 0) (by norm_num) le_rfl
  have g10 := (Q.int 50 true 1 5 (by norm_num)).mono (A' := 5) (δ' := 0) (by norm_num) le_rfl
  have g11 := (g10.mul g4).mono (A' := 5) (δ' := 222 / 10 ^ 16) (by norm_num) (by norm_num)
  have g12 := (g9.add g11).mono (A' := 8) (δ' := 231 / 10 ^ 16) (by norm_num) (by norm_num)
  have g13 := (g8.mul g12).mono (A' := 48 / 10 ^ 4) (δ' := 379 / 10 ^ 19) (by norm_num) (by norm_num)
  have g14 := (Q.int 10 true 1 1 (by norm_num)).mono (A' := 1) (δ' := 0) (by norm_num) le_rfl
  have g15 := (g14.add g4).mono (A' := 2) (δ' := 455 / 10 ^ 17) (by norm_num) (by norm_num)
  have g16 := (g13.div g15 (1 / 10 ^ 2) (5 / 10 ^ 1) hden (quot_le (m := 1 / 10 ^ 2) g13.mag hden (by norm_num) (by norm_num))).mono (A' := 5 / 10 ^ 1) (δ' := 232 / 10 ^ 15) (by norm_num) (by norm_num)
  have g17 := (Q.int 10 true 1 1 (by norm_num)).mono (A' := 1) (δ' := 0) (by norm_num) le_rfl
  have g18 := (g4.add g17).mono (A' := 2) (δ' := 455 / 10 ^ 17) (by norm_num) (by norm_num)
  have b1 : (Arith.abs (Arith.cos (Spec.incl s t) + 1.0) >. (1.5e-12 : F64)) = true := by
    have q1 := g18.abs
    have q2 := Q.sci 15 true 13 (15 / 10 ^ 13) (by norm_num)
    refine (flt_fin q2.fin q1.fin).mpr ?_
    have e1 := (abs_le.mp q1.err).1
    have e2 := (abs_le.mp q2.err).2
    have e3 : (1 : ℝ) / 100 ≤ |Real.cos (Spec.incl s.exact t.val) + 1.0| := le_trans (by have := h.cos_lo; norm_num at *; linarith) (le_abs_self _)
    have e3' : (1 : ℝ) / 100 ≤ |Real.cos (Spec.incl s.exact t.val) + (OfScientific.ofScientific 10 true 1 : ℝ)| := e3
    generalize (OfScientific.ofScientific 15 true 13 : F64).val = w at *
    generalize |Real.cos (Spec.incl s.exact t.val) + (OfScientific.ofScientific 10 true 1 : ℝ)| = w' at *
    generalize (Arith.abs (Arith.cos (Spec.incl s t) + (OfScientific.ofScientific 10 true 1 : F64))).val = w'' at *
    norm_num at e1 e2 e3' ⊢; linarith
  have b2 : (Arith.abs (Arith.cos (Spec.incl s.exact t.val) + 1.0) >. (1.5e-12 : ℝ)) = true := by
    rw [real_flt, decide_eq_true_eq]
    have e3 : (1 : ℝ) / 100 ≤ |Real.cos (Spec.incl s.exact t.val) + 1.0| := le_trans (by have := h.cos_lo; norm_num at *; linarith) (le_abs_self _)
    change (1.5e-12 : ℝ) < |Real.cos (Spec.incl s.exact t.val) + 1.0|
    norm_num at e3 ⊢; linarith
  unfold xlCoef
  rw [if_pos h.deep, if_pos hD', if_pos b1, if_pos b2]
  exact g16

theorem d_c3 (hL : Libm.Faithful) (h : OrdinaryDeep s t) : Q (threeCos s t) (threeCos s.exact t.val) (4) (272 / 10 ^ 16) := by
  have hD' : s.exact.method = .D := h.deep
  have g1 := ((d_incl hL h).angle).mono (A' := 325 / 10 ^ 2) (δ' := 767 / 10 ^ 18) (by norm_num) (by norm_num)
  have g2 := (g1.cos hL).mono (A' := 1) (δ' := 432 / 10 ^ 17) (by norm_num) (by norm_num)
  have g3 := (g2.mul g2).mono (A' := 1) (δ' := 876 / 10 ^ 17) (by norm_num) (by norm_num)
  have g4 := (Q.int 30 true 1 3 (by norm_num)).mono (A' := 3) (δ' := 0) (by norm_num) le_rfl
  have g5 := (g4.mul g3).mono (A' := 3) (δ' := 267 / 10 ^ 16) (by norm_num) (by norm_num)
  have g6 := (Q.int 10 true 1 1 (by norm_num)).mono (A' := 1) (δ' := 0) (by norm_num) le_rfl
  have g7 := (g5.sub g6).mono (A' := 4) (δ' := 272 / 10 ^ 16) (by norm_num) (by norm_num)
  unfold threeCos
  rw [if_pos h.deep, if_pos hD']
  exact g7

theorem d_c1 (hL : Libm.Faithful) (h : OrdinaryDeep s t) : Q (oneMinusCos s t) (oneMinusCos s.exact t.val) (2) (899 / 10 ^ 17) := by
  have hD' : s.exact.method = .D := h.deep
  have g1 := ((d_incl hL h).angle).mono (A' := 325 / 10 ^ 2) (δ' := 767 / 10 ^ 18) (by norm_num) (by norm_num)
  have g2 := (g1.cos hL).mono (A' := 1) (δ' := 432 / 10 ^ 17) (by norm_num) (by norm_num)
  have g3 := (g2.mul g2).mono (A' := 1) (δ' := 876 / 10 ^ 17) (by norm_num) (by norm_num)
  have g4 := (Q.int 10 true 1 1 (by norm_num)).mono (A' := 1) (δ' := 0) (by norm_num) le_rfl
  have g5 := (g4.sub g3).mono (A' := 2) (δ' := 899 / 10 ^ 17) (by norm_num) (by norm_num)
  unfold oneMinusCos
  rw [if_pos h.deep, if_pos hD']
  exact g5

theorem d_c7 (hL : Libm.Faithful) (h : OrdinaryDeep s t) : Q (sevenCos s t) (sevenCos s.exact t.val) (8) (63 / 10 ^ 15) := by
  have hD' : s.exact.method = .D := h.deep
  have g1 := ((d_incl hL h).angle).mono (A' := 325 / 10 ^ 2) (δ' := 767 / 10 ^ 18) (by norm_num) (by norm_num)
  have g2 := (g1.cos hL).mono (A' := 1) (δ' := 432 / 10 ^ 17) (by norm_num) (by norm_num)
  have g3 := (g2.mul g2).mono (A' := 1) (δ' := 876 / 10 ^ 17) (by norm_num) (by norm_num)
  have g4 := (Q.int 70 true 1 7 (by norm_num)).mono (A' := 7) (δ' := 0) (by norm_num) le_rfl
  have g5 := (g4.mul g3).mono (A' := 7) (δ' := 621 / 10 ^ 16) (by norm_num) (by norm_num)
  have g6 := (Q.int 10 true 1 1 (by norm_num)).mono (A' := 1) (δ' := 0) (by norm_num) le_rfl
  have g7 := (g5.sub g6).mono (A' := 8) (δ' := 63 / 10 ^ 15) (by norm_num) (by norm_num)
  unfold sevenCos
  rw [if_pos h.deep, if_pos hD']
  exact g7

/-- the first half of the propagator on ordinary deep-space records -/
theorem d_mid (hL : Libm.Faithful) (h : OrdinaryDeep s t) : Mid s t s.exact t.val := by
  exact ⟨(o_a hL h.toSmooth).mono (by norm_num) (by norm_num), axis_lo h.toSmooth, (o_ecc hL h.toSmooth).mono le_rfl (by norm_num),
    (o_nodeR h.toSmooth).mono (by norm_num) (by norm_num), (o_perigeeR hL h.toSmooth).mono (by norm_num) (by norm_num),
    (o_anomalyR hL h.toSmooth).mono (by norm_num) (by norm_num), (d_incl hL h).mono (by norm_num) (by norm_num), (d_ay hL h).mono (by norm_num) (by norm_num),
    (d_xl hL h).mono (by norm_num) (by norm_num), (d_c3 hL h).mono (by norm_num) (by norm_num), (d_c1 hL h).mono (by norm_num) (by norm_num),
    (d_c7 hL h).mono (by norm_num) (by norm_num)⟩

/-! ## The outcome -/

/-- **C82.** A run of the propagator in double precision on an ordinary deep-space record returns a state as soon as the same run in exact
arithmetic stays 6 cm above the surface; each position component is then within one metre and each velocity component within 1 mm/s of the exact
run. -/
theorem C82_deep_space_accuracy (hL : Libm.Faithful) (s : Satrec F64) (t : F64) (h : OrdinaryDeep s t) (hr : 1 + 1 / 10 ^ 8 ≤ radius s.exact t.val) :
    ∃ (p : SGP4Result F64) (q : SGP4Result ℝ), resultOf (sgp4 s t) = some (.ok p) ∧ resultOf (sgp4 s.exact t.val) = some (.ok q) ∧
      p.position.Close q.position (1 / 10 ^ 3) ∧ p.velocity.Close q.velocity (1 / 10 ^ 6) := by
  have hm := d_mid hL h
  have hF : DspaceReturns s t := by
    obtain ⟨a, b, hab⟩ := C09_f64_returns s t (Or.inr ⟨h.time.1, h.time.2.trans (by norm_num)⟩)
    exact dspaceReturns_of_sgp4 (by rw [hab]; simp)
  have hR : DspaceReturns s.exact t.val := by
    obtain ⟨a, b, hab⟩ := C09_sgp4_returns s.exact t.val
    exact dspaceReturns_of_sgp4 (by rw [hab]; simp)
  have ep := d_ep hL h
  have ep1 := abs_le.mp ep.err
  have ep2 := (abs_le.mp ep.mag).2
  have ep3 := h.ep_lo
  refine ⟨⟨position s t, velocity s t⟩, ⟨position s.exact t.val, velocity s.exact t.val⟩, ?_, ?_, state_close hL hm⟩
  · rw [sgp4_refines s t hF]
    congr 1
    unfold Spec.result
    have c1 : ¬ (s.no ≤. (0.0 : F64)) = true := by
      obtain ⟨z1, z2⟩ := sci_int (m := 0) (s := true) (k := 1) 0 (by norm_num) (by norm_num)
      show ¬ F64.fle s.no (F64.sci 0 true 1) = true
      rw [fle_fin h.no.1 z1, z2, not_le]
      have := h.no_lo
      push_cast; norm_num at *; linarith
    have me := o_meanEcc hL h.toSmooth
    have m1 := abs_le.mp me.err
    have c2 : ¬ ((meanEcc s t ≥. (1.0 : F64)) || (meanEcc s t <. (-0.001 : F64))) = true := by
      rw [Bool.or_eq_true, not_or]
      constructor
      · obtain ⟨z1, z2⟩ := sci_int (m := 10) (s := true) (k := 1) 1 (by norm_num) (by norm_num)
        show ¬ F64.fle (F64.sci 10 true 1) (meanEcc s t) = true
        rw [fle_fin z1 me.fin, z2, not_le]
        have := h.ecc_hi
        push_cast; norm_num at *; linarith [m1.2]
      · have q := (Q.sci 1 true 3 (1 / 10 ^ 3) (by norm_num)).neg
        show ¬ F64.flt (meanEcc s t) (-(OfScientific.ofScientific 1 true 3 : F64)) = true
        rw [flt_fin me.fin q.fin, not_lt]
        have := h.ecc_lo
        have q2 := (abs_le.mp q.err).2
        norm_num at *; linarith [m1.1]
    have c3 : ¬ (((perturbed s t).ep <. (0.0 : F64)) || ((perturbed s t).ep >. (1.0 : F64))) = true := by
      rw [Bool.or_eq_true, not_or]
      constructor
      · refine lit_zero_le ep.fin ?_
        norm_num at * <;> linarith [ep1.1]
      · obtain ⟨z1, z2⟩ := sci_int (m := 10) (s := true) (k := 1) 1 (by norm_num) (by norm_num)
        show ¬ F64.flt (F64.sci 10 true 1) (perturbed s t).ep = true
        rw [flt_fin z1 ep.fin, z2, not_lt]
        push_cast; norm_num at *; linarith [ep1.2]
    have pl := t_semiLatus hL hm
    have c4 : ¬ (Spec.semiLatus s t <. (0.0 : F64)) = true := by
      refine lit_zero_le pl.fin ?_
      have := semiLatus_ge hL hm
      have := (abs_le.mp pl.err).1
      norm_num at * <;> linarith
    have rd := t_radius hL hm
    have c5 : ¬ (radius s t <. (1.0 : F64)) = true := by
      obtain ⟨z1, z2⟩ := sci_int (m := 10) (s := true) (k := 1) 1 (by norm_num) (by norm_num)
      show ¬ F64.flt (radius s t) (F64.sci 10 true 1) = true
      rw [flt_fin rd.fin z1, z2, not_lt]
      have := (abs_le.mp rd.err).1
      push_cast; norm_num at *; linarith
    rw [if_neg c1, if_neg c2, if_neg (fun hc => c3 hc.2), if_neg c4, if_neg c5]
  · rw [sgp4_refines s.exact t.val hR]
    congr 1
    unfold Spec.result
    have c1 : ¬ (s.exact.no ≤. (0.0 : ℝ)) = true := by
      rw [real_fle, decide_eq_true_eq, not_le]
      have := h.no_lo
      show (0.0 : ℝ) < s.no.val
      norm_num at *; linarith
    have c2 : ¬ ((meanEcc s.exact t.val ≥. (1.0 : ℝ)) || (meanEcc s.exact t.val <. (-0.001 : ℝ))) = true := by
      rw [Bool.or_eq_true, not_or, real_fle, real_flt, decide_eq_true_eq, decide_eq_true_eq, not_le, not_lt]
      have := h.ecc_hi
      have := h.ecc_lo
      constructor <;> norm_num at * <;> linarith
    have c3 : ¬ (((perturbed s.exact t.val).ep <. (0.0 : ℝ)) || ((perturbed s.exact t.val).ep >. (1.0 : ℝ))) = true := by
      rw [Bool.or_eq_true, not_or, real_flt, real_flt, decide_eq_true_eq, decide_eq_true_eq, not_lt, not_lt]
      constructor <;> norm_num at * <;> linarith
    have c4 : ¬ (Spec.semiLatus s.exact t.val <. (0.0 : ℝ)) = true := by
      rw [real_flt, decide_eq_true_eq, not_lt]
      have := semiLatus_ge hL hm
      norm_num at *; linarith
    have c5 : ¬ (radius s.exact t.val <. (1.0 : ℝ)) = true := by
      rw [real_flt, decide_eq_true_eq, not_lt]
      norm_num at *; linarith
    rw [if_neg c1, if_neg c2, if_neg (fun hc => c3 hc.2), if_neg c4, if_neg c5]

/-- **C82**, with a condition that can be read off the elements: perigee radius, after drag, of at least 1.02 earth radii. -/
theorem C82_deep_space_accuracy_perigee (hL : Libm.Faithful) (s : Satrec F64) (t : F64) (h : OrdinaryDeep s t) {A E : ℝ} (hA0 : 0 ≤ A)
    (hA : A ≤ semiMajor s.exact t.val) (hE : |Spec.ecc s.exact t.val| ≤ E) (hE1 : E ≤ 44 / 10 ^ 2) (hp : 1.02 ≤ A * (1 - E - 0.0034)) :
    ∃ (p : SGP4Result F64) (q : SGP4Result ℝ), resultOf (sgp4 s t) = some (.ok p) ∧ resultOf (sgp4 s.exact t.val) = some (.ok q) ∧
      p.position.Close q.position (1 / 10 ^ 3) ∧ p.velocity.Close q.velocity (1 / 10 ^ 6) := by
  refine C82_deep_space_accuracy hL s t h (le_trans ?_ (radius_lower hL (d_mid hL h) hA0 hA hE hE1))
  norm_num at *; linarith

/-! ## A record that meets the hypotheses -/

/-- a record of a 13-hour orbit -/
def deepSample : Satrec F64 :=
  { (Satrec.zero : Satrec F64) with
    method := .D, isimp := 1,
    no := 0.0078125, ecco := 0.015625, mo := 1.0, argpo := 2.0, nodeo := 3.0,
    inclo := 0.875, mdot := 0.0078125, argpdot := 0.00000095367431640625, nodedot := 0.0000019073486328125, bstar := 0.0001220703125,
    cc1 := 0.0000000000009094947017729282379150390625, cc4 := 0.000244140625, t2cof := 0.0000000000009094947017729282379150390625, nodecf := 0.000000000000028421709430404007434844970703125, dedt := 0.0000000298023223876953125,
    zmos := 2.5, zmol := 4.5, se2 := 0.000244140625, se3 := 0.0001220703125, si2 := 0.00048828125,
    si3 := 0.000244140625, ee2 := 0.0009765625, e3 := 0.00048828125, xi2 := 0.0009765625, xi3 := 0.000244140625,
    peo := 0.000244140625, pinco := 0.00048828125 }

theorem smd_no : Within deepSample.no (8 / 10 ^ 2) ∧ deepSample.no.val = 1 / 2 ^ 7 := by
  have := dyadic_within (m := 78125) (k := 7) (1 / 2 ^ 7) 1 7 (B := 8 / 10 ^ 2) (by norm_num) (by norm_num) (by norm_num) (by norm_num) (by norm_num [abs_of_pos])
  exact this

theorem smd_ecco : Within deepSample.ecco (1) ∧ deepSample.ecco.val = 1 / 2 ^ 6 := by
  have := dyadic_within (m := 15625) (k := 6) (1 / 2 ^ 6) 1 6 (B := 1) (by norm_num) (by norm_num) (by norm_num) (by norm_num) (by norm_num [abs_of_pos])
  exact this

theorem smd_mo : Within deepSample.mo (7) ∧ deepSample.mo.val = 1 / 2 ^ 0 := by
  have := dyadic_within (m := 10) (k := 1) (1 / 2 ^ 0) 1 0 (B := 7) (by norm_num) (by norm_num) (by norm_num) (by norm_num) (by norm_num [abs_of_pos])
  exact this

theorem smd_argpo : Within deepSample.argpo (7) ∧ deepSample.argpo.val = 2 / 2 ^ 0 := by
  have := dyadic_within (m := 20) (k := 1) (2 / 2 ^ 0) 2 0 (B := 7) (by norm_num) (by norm_num) (by norm_num) (by norm_num) (by norm_num [abs_of_pos])
  exact this

theorem smd_nodeo : Within deepSample.nodeo (7) ∧ deepSample.nodeo.val = 3 / 2 ^ 0 := by
  have := dyadic_within (m := 30) (k := 1) (3 / 2 ^ 0) 3 0 (B := 7) (by norm_num) (by norm_num) (by norm_num) (by norm_num) (by norm_num [abs_of_pos])
  exact this

theorem smd_inclo : Within deepSample.inclo (4) ∧ deepSample.inclo.val = 7 / 2 ^ 3 := by
  have := dyadic_within (m := 875) (k := 3) (7 / 2 ^ 3) 7 3 (B := 4) (by norm_num) (by norm_num) (by norm_num) (by norm_num) (by norm_num [abs_of_pos])
  exact this

theorem smd_mdot : Within deepSample.mdot (1 / 10) ∧ deepSample.mdot.val = 1 / 2 ^ 7 := by
  have := dyadic_within (m := 78125) (k := 7) (1 / 2 ^ 7) 1 7 (B := 1 / 10) (by norm_num) (by norm_num) (by norm_num) (by norm_num) (by norm_num [abs_of_pos])
  exact this

theorem smd_argpdot : Within deepSample.argpdot (1 / 64) ∧ deepSample.argpdot.val = 1 / 2 ^ 20 := by
  have := dyadic_within (m := 95367431640625) (k := 20) (1 / 2 ^ 20) 1 20 (B := 1 / 64) (by norm_num) (by norm_num) (by norm_num) (by norm_num) (by norm_num [abs_of_pos])
  exact this

theorem smd_nodedot : Within deepSample.nodedot (1 / 64) ∧ deepSample.nodedot.val = 1 / 2 ^ 19 := by
  have := dyadic_within (m := 19073486328125) (k := 19) (1 / 2 ^ 19) 1 19 (B := 1 / 64) (by norm_num) (by norm_num) (by norm_num) (by norm_num) (by norm_num [abs_of_pos])
  exact this

theorem smd_bstar : Within deepSample.bstar (1) ∧ deepSample.bstar.val = 1 / 2 ^ 13 := by
  have := dyadic_within (m := 1220703125) (k := 13) (1 / 2 ^ 13) 1 13 (B := 1) (by norm_num) (by norm_num) (by norm_num) (by norm_num) (by norm_num [abs_of_pos])
  exact this

theorem smd_cc1 : Within deepSample.cc1 (1) ∧ deepSample.cc1.val = 1 / 2 ^ 40 := by
  have := dyadic_within (m := 9094947017729282379150390625) (k := 40) (1 / 2 ^ 40) 1 40 (B := 1) (by norm_num) (by norm_num) (by norm_num) (by norm_num) (by norm_num [abs_of_pos])
  exact this

theorem smd_cc4 : Within deepSample.cc4 (1) ∧ deepSample.cc4.val = 1 / 2 ^ 12 := by
  have := dyadic_within (m := 244140625) (k := 12) (1 / 2 ^ 12) 1 12 (B := 1) (by norm_num) (by norm_num) (by norm_num) (by norm_num) (by norm_num [abs_of_pos])
  exact this

theorem smd_t2cof : Within deepSample.t2cof (1) ∧ deepSample.t2cof.val = 1 / 2 ^ 40 := by
  have := dyadic_within (m := 9094947017729282379150390625) (k := 40) (1 / 2 ^ 40) 1 40 (B := 1) (by norm_num) (by norm_num) (by norm_num) (by norm_num) (by norm_num [abs_of_pos])
  exact this

theorem smd_nodecf : Within deepSample.nodecf (1) ∧ deepSample.nodecf.val = 1 / 2 ^ 45 := by
  have := dyadic_within (m := 28421709430404007434844970703125) (k := 45) (1 / 2 ^ 45) 1 45 (B := 1) (by norm_num) (by norm_num) (by norm_num) (by norm_num) (by norm_num [abs_of_pos])
  exact this

theorem smd_dedt : Within deepSample.dedt (1) ∧ deepSample.dedt.val = 1 / 2 ^ 25 := by
  have := dyadic_within (m := 298023223876953125) (k := 25) (1 / 2 ^ 25) 1 25 (B := 1) (by norm_num) (by norm_num) (by norm_num) (by norm_num) (by norm_num [abs_of_pos])
  exact this

theorem smd_zmos : Within deepSample.zmos (7) ∧ deepSample.zmos.val = 5 / 2 ^ 1 := by
  have := dyadic_within (m := 25) (k := 1) (5 / 2 ^ 1) 5 1 (B := 7) (by norm_num) (by norm_num) (by norm_num) (by norm_num) (by norm_num [abs_of_pos])
  exact this

theorem smd_zmol : Within deepSample.zmol (7) ∧ deepSample.zmol.val = 9 / 2 ^ 1 := by
  have := dyadic_within (m := 45) (k := 1) (9 / 2 ^ 1) 9 1 (B := 7) (by norm_num) (by norm_num) (by norm_num) (by norm_num) (by norm_num [abs_of_pos])
  exact this

theorem smd_se2 : Within deepSample.se2 (1 / 100) ∧ deepSample.se2.val = 1 / 2 ^ 12 := by
  have := dyadic_within (m := 244140625) (k := 12) (1 / 2 ^ 12) 1 12 (B := 1 / 100) (by norm_num) (by norm_num) (by norm_num) (by norm_num) (by norm_num [abs_of_pos])
  exact this

theorem smd_se3 : Within deepSample.se3 (1 / 100) ∧ deepSample.se3.val = 1 / 2 ^ 13 := by
  have := dyadic_within (m := 1220703125) (k := 13) (1 / 2 ^ 13) 1 13 (B := 1 / 100) (by norm_num) (by norm_num) (by norm_num) (by norm_num) (by norm_num [abs_of_pos])
  exact this

theorem smd_si2 : Within deepSample.si2 (1 / 100) ∧ deepSample.si2.val = 1 / 2 ^ 11 := by
  have := dyadic_within (m := 48828125) (k := 11) (1 / 2 ^ 11) 1 11 (B := 1 / 100) (by norm_num) (by norm_num) (by norm_num) (by norm_num) (by norm_num [abs_of_pos])
  exact this

theorem smd_si3 : Within deepSample.si3 (1 / 100) ∧ deepSample.si3.val = 1 / 2 ^ 12 := by
  have := dyadic_within (m := 244140625) (k := 12) (1 / 2 ^ 12) 1 12 (B := 1 / 100) (by norm_num) (by norm_num) (by norm_num) (by norm_num) (by norm_num [abs_of_pos])
  exact this

theorem smd_ee2 : Within deepSample.ee2 (1 / 100) ∧ deepSample.ee2.val = 1 / 2 ^ 10 := by
  have := dyadic_within (m := 9765625) (k := 10) (1 / 2 ^ 10) 1 10 (B := 1 / 100) (by norm_num) (by norm_num) (by norm_num) (by norm_num) (by norm_num [abs_of_pos])
  exact this

theorem smd_e3 : Within deepSample.e3 (1 / 100) ∧ deepSample.e3.val = 1 / 2 ^ 11 := by
  have := dyadic_within (m := 48828125) (k := 11) (1 / 2 ^ 11) 1 11 (B := 1 / 100) (by norm_num) (by norm_num) (by norm_num) (by norm_num) (by norm_num [abs_of_pos])
  exact this

theorem smd_xi2 : Within deepSample.xi2 (1 / 100) ∧ deepSample.xi2.val = 1 / 2 ^ 10 := by
  have := dyadic_within (m := 9765625) (k := 10) (1 / 2 ^ 10) 1 10 (B := 1 / 100) (by norm_num) (by norm_num) (by norm_num) (by norm_num) (by norm_num [abs_of_pos])
  exact this

theorem smd_xi3 : Within deepSample.xi3 (1 / 100) ∧ deepSample.xi3.val = 1 / 2 ^ 12 := by
  have := dyadic_within (m := 244140625) (k := 12) (1 / 2 ^ 12) 1 12 (B := 1 / 100) (by norm_num) (by norm_num) (by norm_num) (by norm_num) (by norm_num [abs_of_pos])
  exact this

theorem smd_peo : Within deepSample.peo (1 / 100) ∧ deepSample.peo.val = 1 / 2 ^ 12 := by
  have := dyadic_within (m := 244140625) (k := 12) (1 / 2 ^ 12) 1 12 (B := 1 / 100) (by norm_num) (by norm_num) (by norm_num) (by norm_num) (by norm_num [abs_of_pos])
  exact this

theorem smd_pinco : Within deepSample.pinco (1 / 100) ∧ deepSample.pinco.val = 1 / 2 ^ 11 := by
  have := dyadic_within (m := 48828125) (k := 11) (1 / 2 ^ 11) 1 11 (B := 1 / 100) (by norm_num) (by norm_num) (by norm_num) (by norm_num) (by norm_num [abs_of_pos])
  exact this

theorem smd_d2 : Within deepSample.d2 (1) ∧ deepSample.d2.val = 0 / 2 ^ 0 := by
  have := dyadic_within (m := 0) (k := 1) (0 / 2 ^ 0) 0 0 (B := 1) (by norm_num) (by norm_num) (by norm_num) (by norm_num) (by norm_num [abs_of_pos])
  exact this

theorem smd_d3 : Within deepSample.d3 (1) ∧ deepSample.d3.val = 0 / 2 ^ 0 := by
  have := dyadic_within (m := 0) (k := 1) (0 / 2 ^ 0) 0 0 (B := 1) (by norm_num) (by norm_num) (by norm_num) (by norm_num) (by norm_num [abs_of_pos])
  exact this

theorem smd_d4 : Within deepSample.d4 (1) ∧ deepSample.d4.val = 0 / 2 ^ 0 := by
  have := dyadic_within (m := 0) (k := 1) (0 / 2 ^ 0) 0 0 (B := 1) (by norm_num) (by norm_num) (by norm_num) (by norm_num) (by norm_num [abs_of_pos])
  exact this

theorem smd_t3cof : Within deepSample.t3cof (1) ∧ deepSample.t3cof.val = 0 / 2 ^ 0 := by
  have := dyadic_within (m := 0) (k := 1) (0 / 2 ^ 0) 0 0 (B := 1) (by norm_num) (by norm_num) (by norm_num) (by norm_num) (by norm_num [abs_of_pos])
  exact this

theorem smd_t4cof : Within deepSample.t4cof (1) ∧ deepSample.t4cof.val = 0 / 2 ^ 0 := by
  have := dyadic_within (m := 0) (k := 1) (0 / 2 ^ 0) 0 0 (B := 1) (by norm_num) (by norm_num) (by norm_num) (by norm_num) (by norm_num [abs_of_pos])
  exact this

theorem smd_t5cof : Within deepSample.t5cof (1) ∧ deepSample.t5cof.val = 0 / 2 ^ 0 := by
  have := dyadic_within (m := 0) (k := 1) (0 / 2 ^ 0) 0 0 (B := 1) (by norm_num) (by norm_num) (by norm_num) (by norm_num) (by norm_num [abs_of_pos])
  exact this

theorem smd_omgcof : Within deepSample.omgcof (1) ∧ deepSample.omgcof.val = 0 / 2 ^ 0 := by
  have := dyadic_within (m := 0) (k := 1) (0 / 2 ^ 0) 0 0 (B := 1) (by norm_num) (by norm_num) (by norm_num) (by norm_num) (by norm_num [abs_of_pos])
  exact this

theorem smd_xmcof : Within deepSample.xmcof (5 / 10 ^ 2) ∧ deepSample.xmcof.val = 0 / 2 ^ 0 := by
  have := dyadic_within (m := 0) (k := 1) (0 / 2 ^ 0) 0 0 (B := 5 / 10 ^ 2) (by norm_num) (by norm_num) (by norm_num) (by norm_num) (by norm_num [abs_of_pos])
  exact this

theorem smd_eta : Within deepSample.eta (1) ∧ deepSample.eta.val = 0 / 2 ^ 0 := by
  have := dyadic_within (m := 0) (k := 1) (0 / 2 ^ 0) 0 0 (B := 1) (by norm_num) (by norm_num) (by norm_num) (by norm_num) (by norm_num [abs_of_pos])
  exact this

theorem smd_delmo : Within deepSample.delmo (8) ∧ deepSample.delmo.val = 0 / 2 ^ 0 := by
  have := dyadic_within (m := 0) (k := 1) (0 / 2 ^ 0) 0 0 (B := 8) (by norm_num) (by norm_num) (by norm_num) (by norm_num) (by norm_num [abs_of_pos])
  exact this

theorem smd_sinmao : Within deepSample.sinmao (1) ∧ deepSample.sinmao.val = 0 / 2 ^ 0 := by
  have := dyadic_within (m := 0) (k := 1) (0 / 2 ^ 0) 0 0 (B := 1) (by norm_num) (by norm_num) (by norm_num) (by norm_num) (by norm_num [abs_of_pos])
  exact this

theorem smd_cc5 : Within deepSample.cc5 (1) ∧ deepSample.cc5.val = 0 / 2 ^ 0 := by
  have := dyadic_within (m := 0) (k := 1) (0 / 2 ^ 0) 0 0 (B := 1) (by norm_num) (by norm_num) (by norm_num) (by norm_num) (by norm_num [abs_of_pos])
  exact this

omit [Libm] in
theorem ls_bounds (ze zm : ℝ) : |(lsTerms ze zm).2.1| ≤ 1 ∧ |(lsTerms ze zm).2.2| ≤ 1 := by
  set z : ℝ := zm + 2.0 * ze * Real.sin zm with hz
  have e1 : (lsTerms ze zm).2.1 = 0.5 * Real.sin z * Real.sin z - 0.25 := rfl
  have e2 : (lsTerms ze zm).2.2 = -0.5 * Real.sin z * Real.cos z := rfl
  have h1 := Real.sin_sq_add_cos_sq z
  rw [e1, e2, abs_le, abs_le]
  refine ⟨⟨?_, ?_⟩, ?_, ?_⟩ <;> norm_num <;> nlinarith [sq_nonneg (Real.sin z), sq_nonneg (Real.cos z), sq_nonneg (Real.sin z + Real.cos z), sq_nonneg (Real.sin z - Real.cos z)]

omit [Libm] in
theorem smd_periodics (u : Satrec ℝ) (h1 : |u.se2| ≤ 1 / 1024) (h2 : |u.se3| ≤ 1 / 1024) (h3 : |u.ee2| ≤ 1 / 1024) (h4 : |u.e3| ≤ 1 / 1024)
    (h5 : |u.si2| ≤ 1 / 1024) (h6 : |u.si3| ≤ 1 / 1024) (h7 : |u.xi2| ≤ 1 / 1024) (h8 : |u.xi3| ≤ 1 / 1024) :
    |(periodics u .N).pe| ≤ 4 / 1024 ∧ |(periodics u .N).pinc| ≤ 4 / 1024 := by
  obtain ⟨a1, a2⟩ := ls_bounds 0.01675 (u.zmos + 1.19459e-5 * u.t)
  obtain ⟨a3, a4⟩ := ls_bounds 0.05490 (u.zmol + 1.5835218e-4 * u.t)
  have key : ∀ {a b c d w x y z : ℝ}, |a| ≤ 1 / 1024 → |b| ≤ 1 / 1024 → |c| ≤ 1 / 1024 → |d| ≤ 1 / 1024 → |w| ≤ 1 → |x| ≤ 1 → |y| ≤ 1 → |z| ≤ 1 →
      |a * w + b * x + (c * y + d * z)| ≤ 4 / 1024 := by
    intro a b c d w x y z ha hb hc hd hw hx hy hz
    have m : ∀ {p q : ℝ}, |p| ≤ 1 / 1024 → |q| ≤ 1 → |p * q| ≤ 1 / 1024 := fun hp hq => by
      rw [abs_mul]; exact (mul_le_mul hp hq (abs_nonneg _) (by norm_num)).trans (by norm_num)
    have := abs_le.mp (m ha hw); have := abs_le.mp (m hb hx); have := abs_le.mp (m hc hy); have := abs_le.mp (m hd hz)
    rw [abs_le]; constructor <;> linarith
  exact ⟨key h1 h2 h3 h4 a1 a2 a3 a4, key h5 h6 h7 h8 a1 a2 a3 a4⟩

theorem smd_ecc : |meanEcc deepSample.exact (1440.0 : F64).val - 1 / 64| ≤ 1 / 5000 := by
  have e : meanEcc deepSample.exact (1440.0 : F64).val = deepSample.ecco.val + deepSample.dedt.val * (1440.0 : F64).val -
      deepSample.bstar.val * deepSample.cc4.val * (1440.0 : F64).val := by
    unfold meanEcc dragE
    rw [if_pos (show deepSample.exact.method = .D from rfl), if_pos (show deepSample.exact.isimp = 1 from rfl)]
    rfl
  rw [e, smd_ecco.2, smd_dedt.2, smd_bstar.2, smd_cc4.2, smp_t.2, abs_le]
  constructor <;> norm_num

theorem smd_eccU : |Spec.ecc deepSample.exact (1440.0 : F64).val - 1 / 64| ≤ 1 / 5000 := by
  have h := smd_ecc
  unfold Spec.ecc
  rw [if_neg]
  · exact h
  · rw [real_flt, decide_eq_true_eq, not_lt]
    have := (abs_le.mp h).1
    norm_num at *; linarith

theorem smd_per : |(periodics { deepSample.exact with t := (1440.0 : F64).val } .N).pe| ≤ 4 / 1024 ∧
    |(periodics { deepSample.exact with t := (1440.0 : F64).val } .N).pinc| ≤ 4 / 1024 := by
  refine smd_periodics _ ?_ ?_ ?_ ?_ ?_ ?_ ?_ ?_

  · show |deepSample.se2.val| ≤ _; rw [smd_se2.2]; norm_num [abs_of_pos]
  · show |deepSample.se3.val| ≤ _; rw [smd_se3.2]; norm_num [abs_of_pos]
  · show |deepSample.ee2.val| ≤ _; rw [smd_ee2.2]; norm_num [abs_of_pos]
  · show |deepSample.e3.val| ≤ _; rw [smd_e3.2]; norm_num [abs_of_pos]
  · show |deepSample.si2.val| ≤ _; rw [smd_si2.2]; norm_num [abs_of_pos]
  · show |deepSample.si3.val| ≤ _; rw [smd_si3.2]; norm_num [abs_of_pos]
  · show |deepSample.xi2.val| ≤ _; rw [smd_xi2.2]; norm_num [abs_of_pos]
  · show |deepSample.xi3.val| ≤ _; rw [smd_xi3.2]; norm_num [abs_of_pos]

theorem smd_incl : |Spec.incl deepSample.exact (1440.0 : F64).val| ≤ 1 := by
  have h := abs_le.mp smd_per.2
  have e := (perturbed_ep_incl deepSample.exact (1440.0 : F64).val).2
  have e' : (perturbed deepSample.exact (1440.0 : F64).val).inclp = deepSample.inclo.val + ((periodics { deepSample.exact with t := (1440.0 : F64).val } .N).pinc - deepSample.pinco.val) := e
  rw [smd_inclo.2, smd_pinco.2] at e'
  have b : |(perturbed deepSample.exact (1440.0 : F64).val).inclp| ≤ 1 := by
    rw [e', abs_le]; constructor <;> norm_num at * <;> linarith [h.1, h.2]
  unfold Spec.incl
  rw [if_pos (show deepSample.exact.method = .D from rfl)]
  split
  · rw [abs_neg]; exact b
  · exact b

/-- the record and a time one day after epoch meet the hypotheses of C82 -/
theorem sample_ordinaryDeep : OrdinaryDeep deepSample 1440.0 := by
  have hE := abs_le.mp smd_ecc
  refine { deep := rfl, incl32 := by rw [smd_inclo.2]; norm_num [abs_of_pos], zmos := smd_zmos.1, zmol := smd_zmol.1, se2 := smd_se2.1, se3 := smd_se3.1, si2 := smd_si2.1, si3 := smd_si3.1, ee2 := smd_ee2.1, e3 := smd_e3.1, xi2 := smd_xi2.1, xi3 := smd_xi3.1, peo := smd_peo.1, pinco := smd_pinco.1, ep_lo := ?_, cos_lo := ?_, toSmooth := ?_ }
  rotate_left
  · have h := abs_le.mp smd_per.1
    have h2 := abs_le.mp smd_eccU
    have e := (perturbed_ep_incl deepSample.exact (1440.0 : F64).val).1
    have e' : (perturbed deepSample.exact (1440.0 : F64).val).ep = Spec.ecc deepSample.exact (1440.0 : F64).val + ((periodics { deepSample.exact with t := (1440.0 : F64).val } .N).pe - deepSample.peo.val) := e
    rw [smd_peo.2] at e'
    rw [e']
    norm_num at *; linarith [h.1, h2.1]
  · have h := abs_le.mp smd_incl
    have := Real.pi_gt_three
    exact le_trans (by norm_num) (Real.cos_nonneg_of_neg_pi_div_two_le_of_le (by linarith [h.1]) (by linarith [h.2]))
  constructor
  · exact smp_t.1
  · exact smd_mo.1
  · exact smd_argpo.1
  · exact smd_nodeo.1
  · exact smd_inclo.1
  · exact smd_ecco.1
  · exact smd_no.1
  · rw [smd_no.2]; norm_num
  · exact smd_mdot.1
  · exact smd_argpdot.1
  · exact smd_nodedot.1
  · exact smd_nodecf.1
  · exact smd_omgcof.1
  · exact smd_xmcof.1
  · exact smd_eta.1
  · exact smd_delmo.1
  · exact smd_sinmao.1
  · exact smd_bstar.1
  · exact smd_cc1.1
  · exact smd_cc4.1
  · exact smd_cc5.1
  · exact smd_d2.1
  · exact smd_d3.1
  · exact smd_d4.1
  · exact smd_t2cof.1
  · exact smd_t3cof.1
  · exact smd_t4cof.1
  · exact smd_t5cof.1
  · exact fun _ => smd_dedt.1
  · rw [smd_nodecf.2, smp_t.2]; norm_num [abs_of_pos]
  · rw [smd_omgcof.2, smp_t.2]; norm_num [abs_of_pos]
  · rw [smd_cc1.2, smp_t.2]; norm_num [abs_of_pos]
  · rw [smd_d2.2, smp_t.2]; norm_num [abs_of_pos]
  · rw [smd_d3.2, smp_t.2]; norm_num [abs_of_pos]
  · rw [smd_d4.2, smp_t.2]; norm_num [abs_of_pos]
  · rw [smd_bstar.2, smd_cc4.2, smp_t.2]; norm_num [abs_of_pos]
  · rw [smd_bstar.2, smd_cc5.2]; norm_num [abs_of_pos]
  · rw [smd_t2cof.2, smp_t.2]; norm_num [abs_of_pos]
  · rw [smd_t3cof.2, smp_t.2]; norm_num [abs_of_pos]
  · rw [smd_t4cof.2, smp_t.2]; norm_num [abs_of_pos]
  · rw [smd_t5cof.2, smp_t.2]; norm_num [abs_of_pos]
  · intro _; rw [smd_dedt.2, smp_t.2]; norm_num [abs_of_pos]
  · norm_num at *; linarith [hE.1]
  · norm_num at *; linarith [hE.2]

/-- and the run returns a state close to the exact one -/
theorem C82_sample (hL : Libm.Faithful) :
    ∃ (p : SGP4Result F64) (q : SGP4Result ℝ), resultOf (sgp4 deepSample 1440.0) = some (.ok p) ∧
      resultOf (sgp4 deepSample.exact (1440.0 : F64).val) = some (.ok q) ∧
      p.position.Close q.position (1 / 10 ^ 3) ∧ p.velocity.Close q.velocity (1 / 10 ^ 6) := by
  have hE := abs_le.mp smd_eccU
  refine C82_deep_space_accuracy_perigee hL _ _ sample_ordinaryDeep (A := 4) (E := 1 / 10) (by norm_num) ?_ ?_ (by norm_num) (by norm_num)
  · have e : semiMajor deepSample.exact (1440.0 : F64).val = ((XKE : ℝ) / deepSample.no.val) ^ (X2O3 : ℝ) *
        dragA deepSample.exact (1440.0 : F64).val * dragA deepSample.exact (1440.0 : F64).val := rfl
    have e2 : dragA deepSample.exact (1440.0 : F64).val = (1.0 : ℝ) - deepSample.cc1.val * (1440.0 : F64).val := by
      unfold dragA
      rw [if_pos (show deepSample.exact.isimp = 1 from rfl)]
      rfl
    rw [e, e2, smd_cc1.2, smp_t.2, smd_no.2, XKE_val]
    have h0 : (0 : ℝ) < 0.07436685316871385 / (1 / 2 ^ 7) := by norm_num
    have h3 := pow23 h0
    have h4 : (44 / 10 : ℝ) ≤ (0.07436685316871385 / (1 / 2 ^ 7)) ^ (X2O3 : ℝ) := by
      refine le_of_lt (lt_of_pow_lt_pow_left₀ 3 (Real.rpow_nonneg h0.le _) ?_)
      rw [h3]; norm_num
    refine le_trans ?_ (mul_le_mul_of_nonneg_right (mul_le_mul_of_nonneg_right h4 ?_) ?_) <;> norm_num
  · rw [abs_le]; constructor <;> norm_num at * <;> linarith [hE.1, hE.2]

end
end Sat
