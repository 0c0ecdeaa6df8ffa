import Verif.Props.F64Geodetic
import Verif.Props.F64Dspace
import Verif.F64.SqrtSq
/-!
# C92: angles in range stay in range when they are converted, in doubles

The checked conversions panic outside `[-pi/2, pi/2]`, `[-pi, pi]`, `[-90, 90]`, `[-180, 180]`.  In doubles `180/pi` and `pi/180` are rounded, so it is
not obvious that the image of one range lies in the other: an excess of one unit in the last place would be a panic.
-/

namespace Sat
open F64

/-- rounding is monotone -/
theorem F64.Rounds.lt_mono {r r' : ℝ} {x x' : F64} (h : Rounds r x) (h' : Rounds r' x') (hx : x.Fin) (hx' : x'.Fin) (hr : r < r') :
    x.val ≤ x'.val := by
  by_contra hc
  push Not at hc
  have n1 := h.nearest hx x' hx'
  have n2 := h'.nearest hx' x hx
  rcases abs_cases (x.val - r) with ⟨e1, _⟩ | ⟨e1, _⟩ <;> rcases abs_cases (x'.val - r) with ⟨e2, _⟩ | ⟨e2, _⟩ <;>
  rcases abs_cases (x'.val - r') with ⟨e3, _⟩ | ⟨e3, _⟩ <;> rcases abs_cases (x.val - r') with ⟨e4, _⟩ | ⟨e4, _⟩ <;>
  rw [e1, e2] at n1 <;> rw [e3, e4] at n2 <;> linarith

/-- a product with a constant is within the value at the end of the range -/
theorem mul_in_range {x b c y : F64} (hx : x.Fin) (hb : b.Fin) (hc : c.Fin) (hy : y.Fin) (hc0 : 0 < c.val) (hb0 : 0 < b.val)
    (h1 : mul b c = y) (h2 : mul (neg b) c = neg y) (hM : b.val * c.val ≤ 2 ^ 20) (hxb : |x.val| ≤ b.val) : (mul x c).Fin ∧ |(mul x c).val| ≤ y.val := by
  obtain ⟨nb, vb⟩ := neg_val hb
  obtain ⟨ny, vy⟩ := neg_val hy
  have r := mul_rounds hx hc
  have r1 := mul_rounds hb hc
  have r2 := mul_rounds nb hc
  rw [h1] at r1
  rw [h2, vb] at r2
  obtain ⟨u1, u2⟩ := abs_le.mp hxb
  have w1 : -b.val * c.val ≤ x.val * c.val := mul_le_mul_of_nonneg_right u1 hc0.le
  have w2 : x.val * c.val ≤ b.val * c.val := mul_le_mul_of_nonneg_right u2 hc0.le
  have hf : (mul x c).Fin := (r.pow (e := 20) (by norm_num) (by rw [abs_le]; constructor <;> linarith)).1
  refine ⟨hf, abs_le.mpr ⟨?_, ?_⟩⟩
  · rcases eq_or_lt_of_le u1 with e | e
    · rw [val_inj hx nb (by rw [vb, e]) (by rw [← e]; exact neg_ne_zero.mpr hb0.ne'), h2, vy]
    · rw [← vy]; exact r2.lt_mono r ny hf (mul_lt_mul_of_pos_right e hc0)
  · rcases eq_or_lt_of_le u2 with e | e
    · rw [val_inj hx hb e (by rw [e]; exact hb0.ne'), h1]
    · exact r.lt_mono r1 hf hy (mul_lt_mul_of_pos_right e hc0)

theorem kernel_deg : mul F64.pi (div (sci 1800 true 1) F64.pi) = sci 1800 true 1 ∧
    mul (neg F64.pi) (div (sci 1800 true 1) F64.pi) = neg (sci 1800 true 1) ∧
    mul F64.fracPi2 (div (sci 1800 true 1) F64.pi) = sci 900 true 1 ∧
    mul (neg F64.fracPi2) (div (sci 1800 true 1) F64.pi) = neg (sci 900 true 1) ∧
    mul (sci 1800 true 1) (div F64.pi (sci 1800 true 1)) = F64.pi ∧
    mul (neg (sci 1800 true 1)) (div F64.pi (sci 1800 true 1)) = neg F64.pi ∧
    mul (sci 900 true 1) (div F64.pi (sci 1800 true 1)) = F64.fracPi2 ∧
    mul (neg (sci 900 true 1)) (div F64.pi (sci 1800 true 1)) = neg F64.fracPi2 := by
  decide +kernel

theorem val_900 : (sci 900 true 1).Fin ∧ (sci 900 true 1).val = 90 := by
  have h := (sci_rounds 900 true 1).exact (by
    have := isRep_int 90 (by norm_num)
    have e : (OfScientific.ofScientific 900 true 1 : ℝ) = ((90 : ℤ) : ℝ) := by norm_num
    rw [e]; exact this)
  exact ⟨h.1, h.2.trans (by norm_num)⟩

variable [Libm]

omit [Libm] in
/-- a double below `k/2^j` is at most `(k-1)/2^j`, when `k` has 53 bits -/
theorem gap_val {k j n : ℕ} (hk : 2 ^ 52 < k) (hj : j ≤ 1074) (hn : Sig n) (h : (n : ℝ) / unitN < k / 2 ^ j) :
    (n : ℝ) / unitN ≤ ((k - 1 : ℕ) : ℝ) / 2 ^ j := by
  have hu := unit_pos
  obtain ⟨E, hE, hU⟩ := unit_pow
  have hs : (unitN : ℝ) = 2 ^ j * 2 ^ (E - j) := by
    rw [hU, ← pow_add, show j + (E - j) = E by omega]; push_cast; rfl
  have h2 : (0 : ℝ) < 2 ^ j := by positivity
  rw [div_lt_div_iff₀ hu h2, hs, mul_comm (2 ^ j : ℝ), ← mul_assoc] at h
  have h1 : n < k * 2 ^ (E - j) := by exact_mod_cast lt_of_mul_lt_mul_right h h2.le
  have h3 := gap_below hk hn h1
  have h4 : (n : ℝ) ≤ ((k - 1 : ℕ) : ℝ) * 2 ^ (E - j) := by exact_mod_cast h3
  rw [div_le_div_iff₀ hu h2, hs, mul_comm (2 ^ j : ℝ), ← mul_assoc]
  exact mul_le_mul_of_nonneg_right h4 h2.le

omit [Libm] in
/-- no double lies strictly between the doubles `pi`, `pi/2` and the numbers `π`, `π/2` -/
theorem le_pi_iff {x : F64} (hx : x.Fin) :
    (|x.val| ≤ Real.pi ↔ |x.val| ≤ F64.pi.val) ∧ (|x.val| ≤ Real.pi / 2 ↔ |x.val| ≤ F64.fracPi2.val) := by
  obtain ⟨a, n, hn, rfl⟩ := fin_cases hx
  have hp1 := Real.pi_gt_d20
  have hp2 := Real.pi_lt_d20
  rw [abs_fin]
  refine ⟨⟨fun h => ?_, fun h => h.trans ?_⟩, ⟨fun h => ?_, fun h => h.trans ?_⟩⟩
  · rw [pi_val.2]
    refine (gap_val (k := 7074237752028441) (j := 51) (by norm_num) (by norm_num) hn.2 (lt_of_le_of_lt h ?_)).trans (le_of_eq ?_)
    · norm_num at *; linarith
    · norm_num
  · rw [pi_val.2]; norm_num at *; linarith
  · rw [fracPi2_val.2]
    refine (gap_val (k := 7074237752028441) (j := 52) (by norm_num) (by norm_num) hn.2 (lt_of_le_of_lt h ?_)).trans (le_of_eq ?_)
    · norm_num at *; linarith
    · norm_num
  · rw [fracPi2_val.2]; norm_num at *; linarith

omit [Libm] in
/-- what an accepted argument of a range check is -/
theorem inside {x : F64} {b : ℝ} (h : ¬ Outside x b) : x = .nan ∨ (x.Fin ∧ |x.val| ≤ b) := by
  cases x with
  | nan => exact Or.inl rfl
  | inf a => exact absurd (Or.inl ⟨a, rfl⟩) h
  | fin a n hn =>
    refine Or.inr ⟨trivial, ?_⟩
    by_contra hc
    exact h (Or.inr ⟨trivial, not_le.mp hc⟩)

omit [Libm] in
theorem not_outside {x : F64} {b : ℝ} (h : x = .nan ∨ (x.Fin ∧ |x.val| ≤ b)) : ¬ Outside x b := by
  rintro (⟨a, rfl⟩ | ⟨_, h2⟩)
  · rcases h with h | ⟨h, _⟩
    · cases h
    · exact h
  · rcases h with rfl | ⟨_, h⟩
    · rename_i h1; exact h1
    · linarith

/-- the factor from radians to degrees keeps the ranges -/
theorem degrees_in_range {x : F64} (hx : x.Fin) :
    (|x.val| ≤ F64.pi.val → (radians_to_degrees x).Fin ∧ |(radians_to_degrees x).val| ≤ 180) ∧
    (|x.val| ≤ F64.fracPi2.val → (radians_to_degrees x).Fin ∧ |(radians_to_degrees x).val| ≤ 90) := by
  obtain ⟨k1, k2, k3, k4, -⟩ := kernel_deg
  obtain ⟨δ₁, δ₂, d1, d2, fD, vD, fR, vR⟩ := factors_val
  have hp := pi_val
  have hp2 := fracPi2_val
  have b2 := abs_le.mp d2
  have c0 : 0 < (RAD_TO_DEG : F64).val := by
    rw [vR, hp.2]; refine mul_pos (by positivity) ?_; norm_num at b2 ⊢; linarith
  have c1 : (RAD_TO_DEG : F64).val ≤ 100 := by
    rw [vR, hp.2]; norm_num at b2 ⊢; linarith
  have p0 : 0 < F64.pi.val := by rw [hp.2]; positivity
  have p1 : F64.pi.val ≤ 4 := by rw [hp.2]; norm_num
  have q0 : 0 < F64.fracPi2.val := by rw [hp2.2]; positivity
  have q1 : F64.fracPi2.val ≤ 4 := by rw [hp2.2]; norm_num
  constructor
  · intro h
    have := mul_in_range hx hp.1 fR lit_180.1 c0 p0 k1 k2 ((mul_le_mul p1 c1 c0.le (by norm_num)).trans (by norm_num)) h
    rwa [lit_180.2] at this
  · intro h
    have := mul_in_range hx hp2.1 fR val_900.1 c0 q0 k3 k4 ((mul_le_mul q1 c1 c0.le (by norm_num)).trans (by norm_num)) h
    rwa [val_900.2] at this

/-- the factor from degrees to radians keeps the ranges -/
theorem radians_in_range {x : F64} (hx : x.Fin) :
    (|x.val| ≤ 180 → (degrees_to_radians x).Fin ∧ |(degrees_to_radians x).val| ≤ F64.pi.val) ∧
    (|x.val| ≤ 90 → (degrees_to_radians x).Fin ∧ |(degrees_to_radians x).val| ≤ F64.fracPi2.val) := by
  obtain ⟨-, -, -, -, k1, k2, k3, k4⟩ := kernel_deg
  obtain ⟨δ₁, δ₂, d1, d2, fD, vD, fR, vR⟩ := factors_val
  have hp := pi_val
  have hp2 := fracPi2_val
  have b1 := abs_le.mp d1
  have c0 : 0 < (DEG_2_RAD : F64).val := by
    rw [vD, hp.2]; refine mul_pos (by positivity) ?_; norm_num at b1 ⊢; linarith
  have c1 : (DEG_2_RAD : F64).val ≤ 1 := by
    rw [vD, hp.2]; norm_num at b1 ⊢; linarith
  have a1 := lit_180.2
  have a2 := val_900.2
  constructor
  · intro h
    exact mul_in_range hx lit_180.1 fD hp.1 c0 (by rw [a1]; norm_num) k1 k2
      (by rw [a1]; exact (mul_le_mul_of_nonneg_left c1 (by norm_num)).trans (by norm_num)) (by rw [a1]; exact h)
  · intro h
    exact mul_in_range hx val_900.1 fD hp2.1 c0 (by rw [a2]; norm_num) k3 k4
      (by rw [a2]; exact (mul_le_mul_of_nonneg_left c1 (by norm_num)).trans (by norm_num)) (by rw [a2]; exact h)

omit [Libm] in
theorem nan_mul (y : F64) : mul .nan y = .nan := by cases y <;> rfl

/-- **C92.**  In doubles, whatever a checked conversion returns is accepted by the checked conversion back: there is no angle whose conversion
leaves the range by rounding. -/
theorem C92_conversions_compose (x y : F64) :
    (degrees_lat x = some y → ∃ z, radians_lat y = some z) ∧ (degrees_long x = some y → ∃ z, radians_long y = some z) ∧
    (radians_lat x = some y → ∃ z, degrees_lat y = some z) ∧ (radians_long x = some y → ∃ z, degrees_long y = some z) := by
  obtain ⟨h1, h2, h3, h4, v1, v2, v3, v4⟩ := C46_f64_checked x
  obtain ⟨g1, g2, g3, g4, -⟩ := C46_f64_checked y
  have some_of : ∀ {o : Option F64} {P : Prop}, (o = none ↔ P) → ¬ P → ∃ z, o = some z := fun {o P} h hP => by
    cases o with
    | none => exact absurd (h.1 rfl) hP
    | some z => exact ⟨z, rfl⟩
  have dn : radians_to_degrees (.nan : F64) = .nan := nan_mul RAD_TO_DEG
  have rn : degrees_to_radians (.nan : F64) = .nan := nan_mul DEG_2_RAD
  refine ⟨fun h => some_of g3 (not_outside ?_), fun h => some_of g4 (not_outside ?_), fun h => some_of g1 (not_outside ?_),
    fun h => some_of g2 (not_outside ?_)⟩
  · have e := v1 y h
    rcases inside (fun hh => by rw [h1.2 hh] at h; cases h) with rfl | ⟨a, b⟩
    · left; rw [e, dn]
    · right; rw [e]; exact (degrees_in_range a).2 b
  · have e := v2 y h
    rcases inside (fun hh => by rw [h2.2 hh] at h; cases h) with rfl | ⟨a, b⟩
    · left; rw [e, dn]
    · right; rw [e]; exact (degrees_in_range a).1 b
  · have e := v3 y h
    rcases inside (fun hh => by rw [h3.2 hh] at h; cases h) with rfl | ⟨a, b⟩
    · left; rw [e, rn]
    · right; rw [e]; exact (radians_in_range a).2 b
  · have e := v4 y h
    rcases inside (fun hh => by rw [h4.2 hh] at h; cases h) with rfl | ⟨a, b⟩
    · left; rw [e, rn]
    · right; rw [e]; exact (radians_in_range a).1 b

/-- **C92**: in doubles the checks of `degrees_lat` and `degrees_long` are the mathematical ones: a double is rejected exactly when it is infinite or its
magnitude exceeds a quarter turn (half a turn), although the bounds in the program are rounded. -/
theorem C92_checks_exact (x : F64) :
    (degrees_lat x = none ↔ Outside x (Real.pi / 2)) ∧ (degrees_long x = none ↔ Outside x Real.pi) := by
  obtain ⟨h1, h2, -⟩ := C46_f64_checked x
  rw [h1, h2]
  constructor
  · refine or_congr Iff.rfl ⟨fun ⟨a, b⟩ => ⟨a, ?_⟩, fun ⟨a, b⟩ => ⟨a, ?_⟩⟩
    · exact not_le.mp fun hc => not_lt.mpr ((le_pi_iff a).2.1 hc) b
    · exact not_le.mp fun hc => not_lt.mpr ((le_pi_iff a).2.2 hc) b
  · refine or_congr Iff.rfl ⟨fun ⟨a, b⟩ => ⟨a, ?_⟩, fun ⟨a, b⟩ => ⟨a, ?_⟩⟩
    · exact not_le.mp fun hc => not_lt.mpr ((le_pi_iff a).1.1 hc) b
    · exact not_le.mp fun hc => not_lt.mpr ((le_pi_iff a).1.2 hc) b

/-- the ends of the ranges are accepted and come back exactly -/
theorem C92_ends : degrees_long (F64.pi : F64) = some (sci 1800 true 1) ∧ degrees_lat (F64.fracPi2 : F64) = some (sci 900 true 1) ∧
    radians_long (sci 1800 true 1 : F64) = some F64.pi ∧ radians_lat (sci 900 true 1 : F64) = some F64.fracPi2 := by
  obtain ⟨k1, -, k3, -, k5, -, k7, -⟩ := kernel_deg
  have hp := pi_val
  have hp2 := fracPi2_val
  have some_of : ∀ {o : Option F64} {P : Prop} {z : F64}, (o = none ↔ P) → ¬ P → (∀ y, o = some y → y = z) → o = some z :=
    fun {o P z} h hP hz => by
      cases o with
      | none => exact absurd (h.1 rfl) hP
      | some y => rw [hz y rfl]
  refine ⟨?_, ?_, ?_, ?_⟩
  · obtain ⟨-, h2, -, -, -, v2, -, -⟩ := C46_f64_checked F64.pi
    exact some_of h2 (not_outside (Or.inr ⟨hp.1, by rw [abs_of_pos (by rw [hp.2]; positivity)]⟩)) (fun y hy => (v2 y hy).trans k1)
  · obtain ⟨h1, -, -, -, v1, -, -, -⟩ := C46_f64_checked F64.fracPi2
    exact some_of h1 (not_outside (Or.inr ⟨hp2.1, by rw [abs_of_pos (by rw [hp2.2]; positivity)]⟩)) (fun y hy => (v1 y hy).trans k3)
  · obtain ⟨-, -, -, h4, -, -, -, v4⟩ := C46_f64_checked (sci 1800 true 1)
    exact some_of h4 (not_outside (Or.inr ⟨lit_180.1, by rw [lit_180.2]; norm_num⟩)) (fun y hy => (v4 y hy).trans k5)
  · obtain ⟨-, -, h3, -, -, -, v3, -⟩ := C46_f64_checked (sci 900 true 1)
    exact some_of h3 (not_outside (Or.inr ⟨val_900.1, by rw [val_900.2]; norm_num⟩)) (fun y hy => (v3 y hy).trans k7)

/-- **C92** for the ground track: latitude and longitude found by `eci_to_geodedic` can always be shown in degrees; the checked conversions never panic on them
and give at most 90 and 180 degrees. -/
theorem C92_geodetic_in_degrees (hL : Libm.Faithful) (p : Vec3 F64) (gmst : F64) (hx : Bd p.x 450) (hy : Bd p.y 450) (hz : Bd p.z 450)
    (hg : gmst.Fin) (hgb : |gmst.val| ≤ 2 ^ 50) :
    ∃ (g : Geodedic F64) (lat long : F64), eci_to_geodedic p gmst = some g ∧ degrees_lat g.latitude = some lat ∧ degrees_long g.longitude = some long ∧
      lat.Fin ∧ |lat.val| ≤ 90 ∧ long.Fin ∧ |long.val| ≤ 180 := by
  obtain ⟨g, hgeo, l1, l2, l3, l4, -⟩ := C41_f64 hL p gmst hx hy hz hg hgb
  obtain ⟨h1, -, -, -, v1, -, -, -⟩ := C46_f64_checked g.latitude
  obtain ⟨-, h2, -, -, -, v2, -, -⟩ := C46_f64_checked g.longitude
  have a1 : degrees_lat g.latitude = some (radians_to_degrees g.latitude) := by
    cases ho : degrees_lat g.latitude with
    | none => exact absurd (h1.1 ho) (not_outside (Or.inr ⟨l3, l4⟩))
    | some y => rw [v1 y ho]
  have a2 : degrees_long g.longitude = some (radians_to_degrees g.longitude) := by
    cases ho : degrees_long g.longitude with
    | none => exact absurd (h2.1 ho) (not_outside (Or.inr ⟨l1, l2⟩))
    | some y => rw [v2 y ho]
  have r1 := (degrees_in_range l3).2 l4
  have r2 := (degrees_in_range l1).1 l2
  exact ⟨g, _, _, hgeo, a1, a2, r1.1, r1.2, r2.1, r2.2⟩

end Sat
