import Verif.Props.F64Deep
import Verif.Props.F64Accuracy
import Verif.Props.DeepInit
/-!
# C54 in doubles: every constant of the crate is the number it stands for to 15 digits
-/

namespace Sat
open F64
variable [Libm]

/-- a finite double within a relative 10^-15 of a real number -/
def Digits15 (x : F64) (a : ℝ) : Prop := x.Fin ∧ |x.val - a| ≤ |a| / 10 ^ 15

omit [Libm] in
theorem F64.Q.digits {x : F64} {a A δ : ℝ} (h : Q x a A δ) (hd : δ * 10 ^ 15 ≤ |a|) : Digits15 x a :=
  ⟨h.fin, h.err.trans (by rw [le_div_iff₀ (by norm_num)]; exact hd)⟩

/-- C54 in IEEE-754 doubles: each constant is a finite double within a relative 10^-15 of what it stands for: whole turns, degrees and
radians, minutes of a day, the exponent 2/3, miles, revolutions per day, the earth's radius, gravity and light constants. -/
theorem C54_constants_f64 :
    Digits15 (TWO_PI : F64) (2 * Real.pi) ∧ Digits15 (DEG_2_RAD : F64) (Real.pi / 180) ∧ Digits15 (RAD_TO_DEG : F64) (180 / Real.pi) ∧
    Digits15 (MINUTES_PER_DAY : F64) 1440 ∧ Digits15 (MU : F64) 398600.5 ∧ Digits15 (EARTH_RADIUS : F64) 6378.137 ∧
    Digits15 (X2O3 : F64) (2 / 3) ∧ Digits15 (LIGHT : F64) 299792.458 ∧ Digits15 (KM_TO_MI : F64) 0.62137 ∧
    Digits15 (MI_TO_KM : F64) (1 / 0.62137) ∧ Digits15 (J2 : F64) 0.00108262998905 ∧ Digits15 (J3 : F64) (-0.00000253215306) ∧
    Digits15 (J4 : F64) (-0.00000161098761) ∧ Digits15 (J3OJ2 : F64) (-0.00000253215306 / 0.00108262998905) ∧
    Digits15 (XKE : F64) 0.07436685316871385 ∧ Digits15 (TUMIN : F64) 13.446851082044981 ∧
    Digits15 (XPDOTP : F64) (1440 / (2 * Real.pi)) := by
  have hp := Real.pi_gt_d4
  have hp2 := Real.pi_lt_d4
  refine ⟨?_, ?_, ?_, ?_, ?_, ?_, ?_, ?_, ?_, ?_, ?_, ?_, ?_, ?_, ?_, ?_, ?_⟩
  · have h : Q (TWO_PI : F64) (2 * Real.pi) 6.3 (1 / 10 ^ 15) :=
      ((q_pi.mul (Q.int 20 true 1 2 (by norm_num))).mono (A' := 6.3) (δ' := 1 / 10 ^ 15) (by norm_num) (by norm_num)).to (by
        norm_num; ring)
    refine h.digits ?_
    rw [abs_of_pos (by positivity)]; norm_num at *; linarith
  · refine q_deg.digits ?_
    rw [abs_of_pos (by positivity)]; norm_num at *; linarith
  · have hb : (314 / 100 : ℝ) ≤ |Real.pi| := by rw [abs_of_pos Real.pi_pos]; norm_num at *; linarith
    have h : Q (RAD_TO_DEG : F64) (180 / Real.pi) 58 (1 / 10 ^ 14) :=
      (((Q.int 1800 true 1 180 (by norm_num)).div q_pi (314 / 100) 58 hb
        (quot_le (A := 180) (by norm_num) hb (by norm_num) (by norm_num))).mono (by norm_num) (by norm_num)).to (by norm_num)
    refine h.digits ?_
    rw [abs_of_pos (by positivity), le_div_iff₀ Real.pi_pos]; norm_num at *; linarith
  · exact ((Q.int 14400 true 1 1440 (by norm_num)).to (by norm_num)).digits (by norm_num)
  · exact ((Q.sci 3986005 true 1 398601 (by norm_num)).mono le_rfl (δ' := 1 / 10 ^ 10) (by norm_num)).digits (by norm_num)
  · exact q_ER.digits (by show _ ≤ |(6378.137 : ℝ)|; norm_num)
  · exact (((Q.int 20 true 1 2 (by norm_num)).div (Q.int 30 true 1 3 (by norm_num)) 3 1 (by norm_num) (by norm_num)).mono (A' := 1)
      (δ' := 3 / 10 ^ 16) (by norm_num) (by norm_num)).to (a' := 2 / 3) (by norm_num) |>.digits (by norm_num)
  · exact ((Q.sci 299792458 true 3 299793 (by norm_num)).mono le_rfl (δ' := 1 / 10 ^ 10) (by norm_num)).digits (by norm_num)
  · exact ((Q.sci 62137 true 5 1 (by norm_num)).mono le_rfl (δ' := 3 / 10 ^ 16) (by norm_num)).digits (by norm_num)
  · exact (((Q.int 10 true 1 1 (by norm_num)).div ((Q.sci 62137 true 5 (622 / 1000) (by norm_num)).mono (A' := 622 / 1000) le_rfl (δ' := 7 / 10 ^ 17) (by norm_num))
      (62137 / 10 ^ 5) (162 / 100) (by norm_num) (by norm_num)).mono (A' := 162 / 100) (δ' := 1 / 10 ^ 15) (by norm_num) (by norm_num)).to
        (a' := 1 / 0.62137) (by norm_num) |>.digits (by norm_num)
  · exact q_J2.digits (by show _ ≤ |(0.00108262998905 : ℝ)|; norm_num)
  · exact (((Q.sci 253215306 true 14 (254 / 10 ^ 8) (by norm_num)).mono (A' := 254 / 10 ^ 8) (δ' := 282 / 10 ^ 24) (by norm_num) (by norm_num)).neg).digits
      (by norm_num)
  · exact (((Q.sci 161098761 true 14 (162 / 10 ^ 8) (by norm_num)).mono (A' := 162 / 10 ^ 8) (δ' := 282 / 10 ^ 24) (by norm_num) (by norm_num)).neg).digits
      (by norm_num)
  · have : (J3OJ2 : ℝ) = -0.00000253215306 / 0.00108262998905 := rfl
    rw [← this]
    exact q_J3OJ2.digits (by rw [this]; norm_num)
  · exact q_XKE.digits (by show _ ≤ |(0.07436685316871385 : ℝ)|; norm_num)
  · exact ((Q.sci 13446851082044981 true 15 (135 / 10) (by norm_num)).mono le_rfl (δ' := 2 / 10 ^ 15) (by norm_num)).digits (by norm_num)
  · refine q_xpdotp.digits ?_
    rw [abs_of_pos (by positivity), le_div_iff₀ (by positivity)]; norm_num at *; linarith

end Sat
