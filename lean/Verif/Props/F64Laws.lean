import Verif.Props.F64DeepEquator
import Verif.Props.Laws
/-!
# C109: Kepler's third law, from the printed text, in doubles

Distance and speed that are reported fit the orbit whose size follows, by Kepler's third law, from the printed revolutions per day.
-/

namespace Sat
open F64 hiding sub
open Spec Spec.R3 Spec.SDP Chain

/-- Position `p` (km) and velocity `w` (km/s) are those of a satellite that makes `rev` revolutions a day in an orbit of eccentricity at most `e`.
The semi-major axis `A` is that of Kepler's third law, with the gravitational parameter 398600.5 km³/s²; the distance is between perigee and
apogee, up to one per cent; and the energy equation `v² = μ (2 / r - 1 / A)` holds, multiplied by `r / μ`, up to 0.015. -/
def KeplerOrbit (rev e : ℝ) (p w : Vec3 ℝ) : Prop :=
  ∃ A : ℝ, 0 < A ∧ A ^ 3 * (rev * (2 * Real.pi) / 86400) ^ 2 = 398600.5 ∧
    0.99 * (A * (1 - e)) ≤ len p ∧ len p ≤ 1.01 * (A * (1 + e)) ∧
    |(w.x ^ 2 + w.y ^ 2 + w.z ^ 2) * len p / 398600.5 + len p / A - 2| ≤ 0.015

/-! ## The theory -/

theorem recovered_upper {n e i : ℝ} (hn : 0 < n) (he : 0 ≤ e ∧ e ≤ 1 / 2) (ha : 0.94 ≤ (ke / n) ^ (2 / 3 : ℝ)) : recoveredMotion n e i ≤ 1.0035 * n := by
  set a1 := (ke / n) ^ (2 / 3 : ℝ) with ha1
  set c := (3 * Real.cos i ^ 2 - 1) / Real.sqrt (1 - e ^ 2) ^ 3 with hc
  have hs : 0.86 ≤ Real.sqrt (1 - e ^ 2) := Real.le_sqrt_of_sq_le (by nlinarith [he.1, he.2])
  have hs3 : 0.636 ≤ Real.sqrt (1 - e ^ 2) ^ 3 := by
    calc (0.636 : ℝ) ≤ 0.86 ^ 3 := by norm_num
      _ ≤ _ := by gcongr
  have hcos : Real.cos i ^ 2 ≤ 1 := Real.cos_sq_le_one i
  have hcc : |c| ≤ 3.15 := by
    rw [hc, abs_div, abs_of_pos (lt_of_lt_of_le (by norm_num) hs3), div_le_iff₀ (lt_of_lt_of_le (by norm_num) hs3)]
    have : |3 * Real.cos i ^ 2 - 1| ≤ 2 := abs_le.mpr ⟨by nlinarith [sq_nonneg (Real.cos i)], by linarith⟩
    nlinarith
  have hk2 : (3 / 2 * R3.k2 : ℝ) = 0.0008119724917875 := by unfold R3.k2 R3.j2; norm_num
  have small : ∀ a : ℝ, 0.935 ≤ a → |3 / 2 * R3.k2 / a ^ 2 * c| ≤ 0.003 := by
    intro a h
    have h2 : 0.874 ≤ a ^ 2 := by nlinarith
    rw [abs_mul, hk2, abs_div, abs_of_pos (show (0 : ℝ) < a ^ 2 by linarith), abs_of_pos (by norm_num), div_mul_eq_mul_div,
      div_le_iff₀ (by linarith)]
    nlinarith [abs_nonneg c]
  have hδ1 := small a1 (by linarith)
  set δ1 := 3 / 2 * R3.k2 / a1 ^ 2 * c with hδ1d
  obtain ⟨l1, u1⟩ := abs_le.mp hδ1
  have ha0 : 0.935 ≤ a1 * (1 - δ1 / 3 - δ1 ^ 2 - 134 / 81 * δ1 ^ 3) := by
    have h2 : δ1 ^ 2 ≤ 0.003 ^ 2 := sq_le_sq' (by linarith) u1
    have h3 : δ1 ^ 3 ≤ 0.0001 := by
      have : δ1 ^ 3 = δ1 ^ 2 * δ1 := by ring
      rw [this]; nlinarith [sq_nonneg δ1]
    have : 0.998 ≤ 1 - δ1 / 3 - δ1 ^ 2 - 134 / 81 * δ1 ^ 3 := by norm_num at *; linarith
    nlinarith
  have hδ0 := small _ ha0
  have e : recoveredMotion n e i = n / (1 + 3 / 2 * R3.k2 / (a1 * (1 - δ1 / 3 - δ1 ^ 2 - 134 / 81 * δ1 ^ 3)) ^ 2 * c) := rfl
  rw [e]
  generalize 3 / 2 * R3.k2 / (a1 * (1 - δ1 / 3 - δ1 ^ 2 - 134 / 81 * δ1 ^ 3)) ^ 2 * c = δ0 at hδ0
  obtain ⟨l0, u0⟩ := abs_le.mp hδ0
  have hp : 0 < 1 + δ0 := by linarith
  rw [div_le_iff₀ hp]; nlinarith

/-- the axis of Kepler's third law against that of the mean elements -/
theorem third_law {a n A : ℝ} (ha : 0 < a) (hn : 0 < n) (hA : 0 < A) (h : A ^ 3 * (n / 60) ^ 2 = 398600.5)
    (h1 : 0.9895 * ke ^ 2 ≤ a ^ 3 * n ^ 2) (h2 : a ^ 3 * n ^ 2 ≤ 1.0125 * ke ^ 2) : 0.996 * A ≤ a * 6378.137 ∧ a * 6378.137 ≤ 1.0045 * A := by
  have hn2 : 0 < n ^ 2 := by positivity
  have hk1 : 398600.4 * 3600 ≤ ke ^ 2 * 6378.137 ^ 3 := by unfold ke; norm_num
  have hk2 : ke ^ 2 * 6378.137 ^ 3 ≤ 398600.6 * 3600 := by unfold ke; norm_num
  have e1 : A ^ 3 * n ^ 2 = 398600.5 * 3600 := by linear_combination 3600 * h
  constructor
  · rw [← pow_le_pow_iff_left₀ (by positivity) (by positivity) (show 3 ≠ 0 by norm_num), ← mul_le_mul_iff_of_pos_right hn2]
    calc (0.996 * A) ^ 3 * n ^ 2 = 0.996 ^ 3 * (A ^ 3 * n ^ 2) := by ring
      _ = 0.996 ^ 3 * (398600.5 * 3600) := by rw [e1]
      _ ≤ 0.9895 * (398600.4 * 3600) := by norm_num
      _ ≤ 0.9895 * (ke ^ 2 * 6378.137 ^ 3) := mul_le_mul_of_nonneg_left hk1 (by norm_num)
      _ = 0.9895 * ke ^ 2 * 6378.137 ^ 3 := by ring
      _ ≤ a ^ 3 * n ^ 2 * 6378.137 ^ 3 := mul_le_mul_of_nonneg_right h1 (by norm_num)
      _ = _ := by ring
  · rw [← pow_le_pow_iff_left₀ (by positivity) (by positivity) (show 3 ≠ 0 by norm_num), ← mul_le_mul_iff_of_pos_right hn2]
    calc (a * 6378.137) ^ 3 * n ^ 2 = a ^ 3 * n ^ 2 * 6378.137 ^ 3 := by ring
      _ ≤ 1.0125 * ke ^ 2 * 6378.137 ^ 3 := mul_le_mul_of_nonneg_right h2 (by norm_num)
      _ = 1.0125 * (ke ^ 2 * 6378.137 ^ 3) := by ring
      _ ≤ 1.0125 * (398600.6 * 3600) := mul_le_mul_of_nonneg_left hk2 (by norm_num)
      _ ≤ 1.0045 ^ 3 * (398600.5 * 3600) := by norm_num
      _ = 1.0045 ^ 3 * (A ^ 3 * n ^ 2) := by rw [e1]
      _ = _ := by ring

theorem exists_axis {n : ℝ} (hn : 0 < n) : ∃ A : ℝ, 0 < A ∧ A ^ 3 * (n / 60) ^ 2 = 398600.5 := by
  refine ⟨(398600.5 / (n / 60) ^ 2) ^ (1 / 3 : ℝ), by positivity, ?_⟩
  rw [← Real.rpow_natCast ((398600.5 / (n / 60) ^ 2) ^ (1 / 3 : ℝ)) 3, ← Real.rpow_mul (by positivity)]
  norm_num
  field_simp

/-- a state near that of given mean elements -/
theorem kepler_orbit {m : Mean} {E n e : ℝ} {p w : Vec3 F64} (hn : 0 < n) (ha : 1 ≤ m.a * (1 - m.e)) (he : 0 ≤ m.e ∧ m.e ≤ 0.44) (h0 : 0 ≤ e ∧ e ≤ 0.43)
    (hme : m.e ≤ e + 0.00076) (h1 : 0.9895 * ke ^ 2 ≤ m.a ^ 3 * n ^ 2) (h2 : m.a ^ 3 * n ^ 2 ≤ 1.0125 * ke ^ 2)
    (hp : p.Close (vec (m.positionKm E)) (1 / 10 ^ 3)) (hw : w.Close (vec (m.velocityKmS E)) (2 / 10 ^ 6))
    (hfar : len (vec (m.positionKm E)) ≤ 99500) :
    KeplerOrbit (n * 1440 / (2 * Real.pi)) e ⟨p.x.val, p.y.val, p.z.val⟩ ⟨w.x.val, w.y.val, w.z.val⟩ := by
  have hm0 : 0 < m.a := by
    by_contra hcon
    have : m.a * (1 - m.e) ≤ 0 := mul_nonpos_of_nonpos_of_nonneg (not_lt.mp hcon) (by linarith only [he.2])
    linarith only [this, ha]
  obtain ⟨A, hA, hA3⟩ := exists_axis hn
  obtain ⟨b1, b2⟩ := third_law hm0 hn hA hA3 h1 h2
  obtain ⟨-, r1, r2⟩ := distance_bounds m E ⟨he.1, he.2.trans (by norm_num)⟩ ha
  obtain ⟨hE, -⟩ := laws_of_state m E ⟨he.1, he.2.trans (by norm_num)⟩ ha rfl rfl
  obtain ⟨l1, -, -⟩ := frame_lengths m E rfl rfl
  have hrk0 : 0 ≤ m.rk E := le_trans (by linarith only [ha]) r1
  have hlen : len (vec (m.positionKm E)) = m.rk E * 6378.137 := by
    have e1 : dot (vec (m.positionKm E)) (vec (m.positionKm E)) = (m.rk E * kmPerRadius) ^ 2 := by rw [← l1]; unfold dot; ring
    unfold len
    rw [e1, Real.sqrt_sq (mul_nonneg hrk0 (by unfold kmPerRadius; norm_num))]
    rfl
  have elen : ∀ X : Vec3 ℝ, Real.sqrt (X.x ^ 2 + X.y ^ 2 + X.z ^ 2) = len X := by
    intro X; unfold len dot; congr 1; ring
  unfold EnergyLaw at hE
  rw [elen] at hE
  set P := vec (m.positionKm E) with hP
  set W := vec (m.velocityKmS E) with hW
  set P' : Vec3 ℝ := ⟨p.x.val, p.y.val, p.z.val⟩ with hP'
  set W' : Vec3 ℝ := ⟨w.x.val, w.y.val, w.z.val⟩ with hW'
  -- rounding of the position
  have hlr : |len P' - len P| ≤ 0.002 := by
    refine (len_sub_len P' P).trans ?_
    unfold len dot sub
    refine Real.sqrt_le_iff.mpr ⟨by norm_num, ?_⟩
    have a1 := abs_le.mp hp.1.2
    have a2 := abs_le.mp hp.2.1.2
    have a3 := abs_le.mp hp.2.2.2
    have q : ∀ x : ℝ, -(1 / 10 ^ 3) ≤ x → x ≤ 1 / 10 ^ 3 → x * x ≤ (1 / 10 ^ 3) ^ 2 := fun x g1 g2 => by nlinarith
    have := q _ a1.1 a1.2; have := q _ a2.1 a2.2; have := q _ a3.1 a3.2
    simp only [hP']
    norm_num at *; linarith
  obtain ⟨d1, d2⟩ := abs_le.mp hlr
  -- the distance
  have c1 : 0.9905 * (A * (1 - e)) ≤ len P := by
    rw [hlen]
    have g1 : 0.9986 * (1 - e) ≤ 1 - m.e := by norm_num at hme h0 ⊢; linarith only [hme, h0.2]
    have g0 : 0 ≤ 0.9986 * (1 - e) := by norm_num at h0 ⊢; linarith only [h0.2]
    calc 0.9905 * (A * (1 - e)) ≤ 0.996 * (0.996 * A * (0.9986 * (1 - e))) := by
          have : 0 ≤ A * (1 - e) := mul_nonneg hA.le (by norm_num at h0 ⊢; linarith only [h0.2])
          norm_num; linarith only [this]
      _ ≤ 0.996 * (m.a * 6378.137 * (1 - m.e)) := by
          refine mul_le_mul_of_nonneg_left (mul_le_mul b1 g1 g0 (by positivity)) (by norm_num)
      _ = 0.996 * (m.a * (1 - m.e)) * 6378.137 := by ring
      _ ≤ _ := mul_le_mul_of_nonneg_right r1 (by norm_num)
  have c2 : len P ≤ 1.0094 * (A * (1 + e)) := by
    rw [hlen]
    have g1 : 1 + m.e ≤ 1.00076 * (1 + e) := by norm_num at hme h0 ⊢; linarith only [hme, h0.1]
    calc m.rk E * 6378.137 ≤ 1.004 * (m.a * (1 + m.e)) * 6378.137 := mul_le_mul_of_nonneg_right r2 (by norm_num)
      _ = 1.004 * (m.a * 6378.137 * (1 + m.e)) := by ring
      _ ≤ 1.004 * (1.0045 * A * (1.00076 * (1 + e))) := by
          refine mul_le_mul_of_nonneg_left (mul_le_mul b2 g1 (by linarith only [he.1]) (by positivity)) (by norm_num)
      _ ≤ _ := by
          have : 0 ≤ A * (1 + e) := mul_nonneg hA.le (by linarith only [h0.1])
          norm_num; linarith only [this]
  have hAlo : 6000 ≤ A := by
    have g : 1 ≤ m.a := by
      have : m.a * (1 - m.e) ≤ m.a * 1 := mul_le_mul_of_nonneg_left (by linarith only [he.1]) hm0.le
      linarith only [this, ha]
    norm_num at b2; linarith only [b2, g]
  have hP0 : 6300 ≤ len P := by
    rw [hlen]
    have g : 0.996 ≤ m.rk E := by linarith only [r1, ha]
    norm_num at g ⊢; linarith only [g]
  have hA1 : A * 0.57 ≤ A * (1 - e) := mul_le_mul_of_nonneg_left (by norm_num at h0 ⊢; linarith only [h0.2]) hA.le
  have hA2 : A * 1 ≤ A * (1 + e) := mul_le_mul_of_nonneg_left (by linarith only [h0.1]) hA.le
  refine ⟨A, hA, ?_, by norm_num at c1 d1 ⊢; linarith only [c1, d1, hA1, hAlo], by norm_num at c2 d2 ⊢; linarith only [c2, d2, hA2, hAlo], ?_⟩
  · rw [← hA3]
    have := Real.pi_ne_zero
    field_simp
    norm_num
  -- the energy
  set S := W.x ^ 2 + W.y ^ 2 + W.z ^ 2 with hS
  set S' := W'.x ^ 2 + W'.y ^ 2 + W'.z ^ 2 with hS'
  have hS0 : 0 ≤ S := by positivity
  obtain ⟨E1, E2⟩ := abs_le.mp hE
  have hx0 : 0 ≤ len P / (m.a * 6378.137) := by positivity
  have hSl : S * len P ≤ 2.008 * 398600.5 := by
    have : S * len P / 398600.5 ≤ 2.008 := by norm_num at E2 ⊢; linarith only [E2, hx0]
    rwa [div_le_iff₀ (by norm_num)] at this
  have hS1 : S ≤ 128 := by
    by_contra hcon
    have : 128 * 6300 ≤ S * len P := mul_le_mul (not_le.mp hcon).le hP0 (by norm_num) hS0
    norm_num at hSl this; linarith only [hSl, this]
  have comp : ∀ {x y : ℝ}, |x - y| ≤ 2 / 10 ^ 6 → y ^ 2 ≤ 128 → |x ^ 2 - y ^ 2| ≤ 5 / 10 ^ 5 := by
    intro x y g1 g2
    have g3 : |y| ≤ 12 := abs_le_of_sq_le_sq (by norm_num; linarith only [g2]) (by norm_num)
    have e : x ^ 2 - y ^ 2 = (x - y) * (x - y + 2 * y) := by ring
    rw [e, abs_mul]
    calc |x - y| * |x - y + 2 * y| ≤ 2 / 10 ^ 6 * (2 / 10 ^ 6 + 2 * 12) := by
          refine mul_le_mul g1 ((abs_add_le _ _).trans (add_le_add g1 ?_)) (abs_nonneg _) (by norm_num)
          rw [abs_mul, abs_two]; linarith only [g3]
      _ ≤ _ := by norm_num
  have hSS : |S' - S| ≤ 15 / 10 ^ 5 := by
    have t1 := comp hw.1.2 (by rw [hS] at hS1; nlinarith only [hS1, sq_nonneg W.y, sq_nonneg W.z])
    have t2 := comp hw.2.1.2 (by rw [hS] at hS1; nlinarith only [hS1, sq_nonneg W.x, sq_nonneg W.z])
    have t3 := comp hw.2.2.2 (by rw [hS] at hS1; nlinarith only [hS1, sq_nonneg W.y, sq_nonneg W.x])
    rw [abs_le] at t1 t2 t3 ⊢
    simp only [hS, hS', hW']
    constructor <;> norm_num at t1 t2 t3 ⊢ <;> linarith only [t1, t2, t3]
  have hprod : |S' * len P' - S * len P| ≤ 20 := by
    have e : S' * len P' - S * len P = (S' - S) * len P' + S * (len P' - len P) := by ring
    rw [e]
    have hP'0 : 0 ≤ len P' := Real.sqrt_nonneg _
    have hP'1 : len P' ≤ 100000 := by norm_num at d2; linarith only [d2, hfar]
    calc |(S' - S) * len P' + S * (len P' - len P)| ≤ |S' - S| * |len P'| + |S| * |len P' - len P| := by
          rw [← abs_mul, ← abs_mul]; exact abs_add_le _ _
      _ ≤ 15 / 10 ^ 5 * 100000 + 128 * 0.002 := by
          rw [abs_of_nonneg hP'0, abs_of_nonneg hS0]
          exact add_le_add (mul_le_mul hSS hP'1 hP'0 (by norm_num)) (mul_le_mul hS1 hlr (abs_nonneg _) (by norm_num))
      _ ≤ 20 := by norm_num
  have k1 : |S' * len P' / 398600.5 - S * len P / 398600.5| ≤ 0.0001 := by
    rw [← sub_div, abs_div, abs_of_pos (by norm_num : (0 : ℝ) < 398600.5), div_le_iff₀ (by norm_num)]
    exact hprod.trans (by norm_num)
  have k2 : |len P' / A - len P / A| ≤ 0.0001 := by
    rw [← sub_div, abs_div, abs_of_pos hA, div_le_iff₀ hA]
    refine hlr.trans ?_
    norm_num; linarith only [hAlo]
  have k3 : |len P / A - len P / (m.a * 6378.137)| ≤ 0.0066 := by
    have hB : 0 < m.a * 6378.137 := by positivity
    have e : len P / A - len P / (m.a * 6378.137) = len P / (m.a * 6378.137) * ((m.a * 6378.137 - A) / A) := by
      field_simp
    have g1 : len P / (m.a * 6378.137) ≤ 1.446 := by
      rw [div_le_iff₀ hB, hlen]
      have : m.a * (1 + m.e) ≤ m.a * 1.44 := mul_le_mul_of_nonneg_left (by norm_num at he ⊢; linarith only [he.2]) hm0.le
      norm_num at this r2 ⊢; linarith only [this, r2, hm0]
    have g2 : |(m.a * 6378.137 - A) / A| ≤ 0.0045 := by
      rw [abs_div, abs_of_pos hA, div_le_iff₀ hA, abs_le]
      constructor <;> norm_num at b1 b2 ⊢ <;> linarith only [b1, b2, hA]
    rw [e, abs_mul, abs_of_nonneg hx0]
    calc len P / (m.a * 6378.137) * |(m.a * 6378.137 - A) / A| ≤ 1.446 * 0.0045 := mul_le_mul g1 g2 (abs_nonneg _) (by norm_num)
      _ ≤ _ := by norm_num
  rw [abs_le] at k1 k2 k3 ⊢
  generalize S' * len P' / 398600.5 = x1 at *
  generalize S * len P / 398600.5 = x2 at *
  generalize len P' / A = x3 at *
  generalize len P / A = x4 at *
  generalize len P / (m.a * 6378.137) = x5 at *
  constructor <;> norm_num at k1 k2 k3 E1 E2 ⊢ <;> linarith only [k1, k2, k3, E1, E2]

theorem axis_cubed {n : ℝ} (hn : 0 < n) : ((ke / n) ^ (2 / 3 : ℝ)) ^ 3 = (ke / n) ^ 2 := by
  have hk : 0 < ke := by unfold ke; norm_num
  rw [← Real.rpow_natCast ((ke / n) ^ (2 / 3 : ℝ)) 3, ← Real.rpow_mul (by positivity), ← Real.rpow_natCast (ke / n) 2]
  norm_num

theorem ke_pos : 0 < ke := by unfold ke; norm_num

/-- from the mean motion to the cube of the axis -/
theorem cube_bounds {x n N : ℝ} (hn : 0 < n) (hN : 0 < N) (hx : x = (ke / N) ^ 2) (h1 : 0.9944 * n ≤ N) (h2 : N ≤ 1.005 * n) :
    0.9895 * ke ^ 2 ≤ x * n ^ 2 ∧ x * n ^ 2 ≤ 1.0125 * ke ^ 2 := by
  have hk := ke_pos
  have e : x * n ^ 2 = ke ^ 2 * (n ^ 2 / N ^ 2) := by rw [hx]; field_simp
  rw [e]
  have hN2 : 0 < N ^ 2 := by positivity
  have g1 : 0.9895 ≤ n ^ 2 / N ^ 2 := by
    rw [le_div_iff₀ hN2]
    have : N ^ 2 ≤ (1.005 * n) ^ 2 := by gcongr
    norm_num at this ⊢; nlinarith only [this, hn]
  have g2 : n ^ 2 / N ^ 2 ≤ 1.0125 := by
    rw [div_le_iff₀ hN2]
    have : (0.9944 * n) ^ 2 ≤ N ^ 2 := by gcongr
    norm_num at this ⊢; nlinarith only [this, hn]
  have hk2 : 0 < ke ^ 2 := by positivity
  constructor
  · rw [mul_comm]; exact mul_le_mul_of_nonneg_left g1 hk2.le
  · rw [mul_comm 1.0125]; exact mul_le_mul_of_nonneg_left g2 hk2.le

theorem tle_motion_upper {v : Tle} {τ : ℝ} (hl : LowTle v τ) : (tleOrbit v).n ≤ 1.0035 * tleMotion v := by
  obtain ⟨-, hpos, hup⟩ := tle_motion_lower hl
  have h3 : (v.eccE7 : ℝ) ≤ 4300000 := by exact_mod_cast hl.ecc
  refine recovered_upper hpos ⟨by unfold tleEcc; positivity, ?_⟩ ?_
  · unfold tleEcc; rw [div_le_iff₀ (by norm_num)]; linarith only [h3]
  · have hk : ke / tleMotion v ≥ 0.94 := by
      rw [ge_iff_le, le_div_iff₀ hpos]
      have : (0.0738 : ℝ) ≤ ke := by unfold ke; norm_num
      norm_num at *; linarith
    rcases le_total (ke / tleMotion v) 1 with h | h
    · calc (0.94 : ℝ) ≤ ke / tleMotion v := hk
        _ = (ke / tleMotion v) ^ (1 : ℝ) := (Real.rpow_one _).symm
        _ ≤ _ := Real.rpow_le_rpow_of_exponent_ge (lt_of_lt_of_le (by norm_num) hk) h (by norm_num)
    · exact le_trans (by norm_num) (Real.one_le_rpow h (by norm_num))

theorem tle_motion_deep_upper {v : Tle} (hl : HighTle v) : (tleOrbit v).n ≤ 1.0035 * tleMotion v := by
  obtain ⟨-, hpos, hup⟩ := tle_motion_deep hl
  have h3 : (v.eccE7 : ℝ) ≤ 4100000 := by exact_mod_cast hl.ecc
  refine recovered_upper hpos ⟨by unfold tleEcc; positivity, ?_⟩ ?_
  · unfold tleEcc; rw [div_le_iff₀ (by norm_num)]; linarith only [h3]
  · have hk : 1 ≤ ke / tleMotion v := by
      rw [le_div_iff₀ hpos]
      have : (0.0738 : ℝ) ≤ ke := by unfold ke; norm_num
      norm_num at *; linarith only [hup, this]
    exact le_trans (by norm_num) (Real.one_le_rpow hk (by norm_num))

theorem motion_rev (v : Tle) : tleMotion v * 1440 / (2 * Real.pi) = (v.noE8 : ℝ) / 10 ^ 8 := by
  unfold tleMotion
  have := Real.pi_ne_zero
  field_simp

variable [Libm]

/-- **C109**, near-earth satellites: the state reported for any time in range fits, in size of the orbit and in speed, the *printed* number of
revolutions per day and the *printed* eccentricity. -/
theorem C109_third_law_f64 (hL : Libm.Faithful) (l1 l2 : Str) (v : Tle) (h : Printed l1 l2 v) (hpos : v.nddotNeg = false ∨ v.nddotMant = 0)
    (hnd : Normal v.nddotMant) (hb : Normal v.bstarMant) (t : F64) (ht : t.Fin) (hl : LowTle v t.val) :
    ∃ (s : Satrec F64) (p : SGP4Result F64), twoline2satrec l1 l2 = .ok s ∧ (sgp4 s t).map Prod.snd = some (.ok p) ∧
      KeplerOrbit ((v.noE8 : ℝ) / 10 ^ 8) ((v.eccE7 : ℝ) / 10 ^ 7) p.position.exact p.velocity.exact := by
  obtain ⟨s, p, hs, hp, k, -, -, -, c1, c2⟩ := C85_text_to_state_f64 hL l1 l2 v h hpos hnd hb t ht hl
  refine ⟨s, p, hs, hp, ?_⟩
  have Q := quiet_low hL h hpos hnd hb hl
  obtain ⟨n1, n2, n3⟩ := tle_motion_lower hl
  have n4 := tle_motion_upper hl
  obtain ⟨_, _, _, _, _, D⟩ := Q.drift (tleNode v)
  obtain ⟨s1, s2, s3⟩ := Q.shape (tleNode v)
  obtain ⟨g1, g2, g3, -, -⟩ := quiet_numbers Q (tleNode v)
  set m := (tleOrbit v).mean (tleNode v) t.val with hm
  have ha0 : 0 < m.a := by
    by_contra hcon
    have : m.a * (1 - m.e) ≤ 0 := mul_nonpos_of_nonpos_of_nonneg (not_lt.mp hcon) (by norm_num at g2; linarith only [g2])
    norm_num at g3; linarith only [this, g3]
  have hmn : 0 < m.n := by unfold Mean.n; exact div_pos ke_pos (Real.rpow_pos_of_pos ha0 _)
  have hcube : m.a ^ 3 = (ke / m.n) ^ 2 := by
    have hr : 0 < m.a ^ (3 / 2 : ℝ) := Real.rpow_pos_of_pos ha0 _
    have e : ke / m.n = m.a ^ (3 / 2 : ℝ) := by unfold Mean.n; have := ke_pos; field_simp
    rw [e, ← Real.rpow_natCast (m.a ^ (3 / 2 : ℝ)) 2, ← Real.rpow_mul ha0.le, ← Real.rpow_natCast m.a 3]
    norm_num
  have hv := abs_le.mp D.vn
  obtain ⟨q1, q2⟩ := cube_bounds n2 hmn hcube (by norm_num at hv n1 n4 ⊢; linarith only [hv, n1, n4]) (by norm_num at hv n1 n4 ⊢; linarith only [hv, n1, n4])
  have he := Q.ecc
  have hfar : len (vec (m.positionKm (m.newton k))) ≤ 99500 := by
    obtain ⟨l1, -, -⟩ := frame_lengths m (m.newton k) rfl rfl
    obtain ⟨-, r1, r2⟩ := distance_bounds m (m.newton k) ⟨g1, g2.trans (by norm_num)⟩ (le_trans (by norm_num) g3)
    have hrk0 : 0 ≤ m.rk (m.newton k) := le_trans (by norm_num at g3; linarith only [g3]) r1
    have e1 : dot (vec (m.positionKm (m.newton k))) (vec (m.positionKm (m.newton k))) = (m.rk (m.newton k) * kmPerRadius) ^ 2 := by rw [← l1]; unfold dot; ring
    unfold len
    rw [e1, Real.sqrt_sq (mul_nonneg hrk0 (by unfold kmPerRadius; norm_num))]
    have : m.a * (1 + m.e) ≤ 2.1 * 1.44 := mul_le_mul s3 (by norm_num at g2 ⊢; linarith only [g2]) (by linarith only [g1]) (by norm_num)
    unfold kmPerRadius
    norm_num at this r2 ⊢; linarith only [this, r2]
  have K := kepler_orbit (m := m) (E := m.newton k) (e := tleEcc v) (p := p.position) (w := p.velocity) n2 (le_trans (by norm_num) g3) ⟨g1, g2⟩
    ⟨(tleEcc_range h).1, he.2⟩ (by linarith only [(abs_le.mp s1).2, show (tleOrbit v).e = tleEcc v from rfl]) q1 q2 c1 c2 hfar
  rw [motion_rev] at K
  exact K

/-- **C109**, deep-space satellites: the same at any time within a month of the epoch, up to three per cent of the printed eccentricity. -/
theorem C109_deep_third_law_f64 (hL : Libm.Faithful) (l1 l2 : Str) (v : Tle) (h : Printed l1 l2 v) (hpos : v.nddotNeg = false ∨ v.nddotMant = 0)
    (hnd : Normal v.nddotMant) (hb : Normal v.bstarMant) (hl : HighTle v) (t : F64) (ht : t.Fin) (hτ : |t.val| ≤ 43200) :
    ∃ (s : Satrec F64) (p : SGP4Result F64), twoline2satrec l1 l2 = .ok s ∧ (sgp4 s t).map Prod.snd = some (.ok p) ∧
      KeplerOrbit ((v.noE8 : ℝ) / 10 ^ 8) (1.031 * ((v.eccE7 : ℝ) / 10 ^ 7)) p.position.exact p.velocity.exact := by
  obtain ⟨s, p, jd, hs, -, hp, hj, κ, -, -, -, c1, c2, -, hfar, -, -, m1, m2, -⟩ := deep_sized hL l1 l2 v h hpos hnd hb hl t ht hτ
  refine ⟨s, p, hs, hp, ?_⟩
  have hM := deep_motion hL h hpos hnd hb hl hj
  obtain ⟨n1, n2, n3⟩ := tle_motion_deep hl
  have n4 := tle_motion_deep_upper hl
  obtain ⟨e0, e1⟩ := hM.ecc hτ
  have hqn : 0 < (tleOrbit v).n := lt_of_lt_of_le (by linarith only [n2]) n1
  have hC : |(tleOrbit v).C1 * t.val| ≤ 0.0001 := by
    rw [abs_mul]
    calc |(tleOrbit v).C1| * |t.val| ≤ 14 / 10 ^ 10 * 43200 := mul_le_mul hM.drag hτ (abs_nonneg _) (by norm_num)
      _ ≤ _ := by norm_num
  obtain ⟨C1, C2⟩ := abs_le.mp hC
  set f := 1 - (tleOrbit v).C1 * t.val with hf
  have f1 : 0.9999 ≤ f := by rw [hf]; norm_num at C2 ⊢; linarith only [C2]
  have f2 : f ≤ 1.0001 := by rw [hf]; norm_num at C1 ⊢; linarith only [C1]
  set m := carriedMean (tleOrbit v) (tleNode v) (jd - 2415020) t.val with hm
  have ea : m.a = (tleOrbit v).a * f ^ 2 := rfl
  have hf0 : 0 < f := lt_of_lt_of_le (by norm_num) f1
  have hcube : m.a ^ 3 = (ke / ((tleOrbit v).n / f ^ 3)) ^ 2 := by
    have e : (tleOrbit v).a ^ 3 = (ke / (tleOrbit v).n) ^ 2 := axis_cubed hqn
    have hk := ke_pos
    rw [ea, mul_pow, e]
    field_simp
  have hf3a : f ^ 3 ≤ 1.0004 := le_trans (pow_le_pow_left₀ hf0.le f2 3) (by norm_num)
  have hf3b : 0.9996 ≤ f ^ 3 := le_trans (by norm_num) (pow_le_pow_left₀ (by norm_num) f1 3)
  have hf3 : 0 < f ^ 3 := by positivity
  obtain ⟨q1, q2⟩ := cube_bounds n2 (div_pos hqn hf3) hcube (by
      rw [le_div_iff₀ hf3]
      have : 0.9944 * tleMotion v * f ^ 3 ≤ 0.9944 * tleMotion v * 1.0004 := mul_le_mul_of_nonneg_left hf3a (by positivity)
      norm_num at this n1 ⊢; linarith only [this, n1, n2]) (by
      rw [div_le_iff₀ hf3]
      have : 1.005 * tleMotion v * 0.9996 ≤ 1.005 * tleMotion v * f ^ 3 := mul_le_mul_of_nonneg_left hf3b (by positivity)
      norm_num at this n4 ⊢; linarith only [this, n4, n2])
  have hce : (tleOrbit v).e ≤ 0.41 := hM.e.2
  have ee : (tleOrbit v).e = tleEcc v := rfl
  rw [ee] at m2 hce
  have hc2 : p.velocity.Close (vec (m.velocityKmS (m.newton κ))) (2 / 10 ^ 6) :=
    ⟨⟨c2.1.1, c2.1.2.trans (by norm_num)⟩, ⟨c2.2.1.1, c2.2.1.2.trans (by norm_num)⟩, ⟨c2.2.2.1, c2.2.2.2.trans (by norm_num)⟩⟩
  have K := kepler_orbit (m := m) (E := m.newton κ) (e := 1.031 * tleEcc v) (p := p.position) (w := p.velocity) n2
    (by
      calc (1 : ℝ) ≤ 191 / 10 ^ 2 * 0.57 := by norm_num
        _ ≤ _ := mul_le_mul m1 (by norm_num at e1 ⊢; linarith only [e1]) (by norm_num) (le_trans (by norm_num) m1))
    ⟨e0, e1.trans (by norm_num)⟩
    ⟨mul_nonneg (by norm_num) (tleEcc_range h).1, by norm_num at hce ⊢; linarith only [hce]⟩
    (by norm_num at m2 ⊢; linarith only [m2]) q1 q2 c1 hc2 hfar
  rw [motion_rev] at K
  exact K

/-- The International Space Station: 15.72125391 revolutions per day, at any double within four weeks of the epoch. -/
theorem iss_third_law (hL : Libm.Faithful) (t : F64) (ht : t.Fin) (h : |t.val| ≤ 40000) :
    ∃ (s : Satrec F64) (p : SGP4Result F64), twoline2satrec "1 25544U 98067A   08264.51782528 -.00002182  00000-0 -11606-4 0  2927".toList
        "2 25544  51.6416 247.4627 0006703 130.5360 325.0288 15.72125391563537".toList = .ok s ∧ (sgp4 s t).map Prod.snd = some (.ok p) ∧
      KeplerOrbit (1572125391 / 10 ^ 8) (6703 / 10 ^ 7) p.position.exact p.velocity.exact := by
  obtain ⟨s, p, h1, h2, h3⟩ := C109_third_law_f64 hL _ _ _ iss_printed (Or.inl rfl) (Or.inl rfl) (Or.inr (by decide)) t ht (iss_low h)
  refine ⟨s, p, h1, h2, ?_⟩
  norm_num at h3 ⊢
  exact h3

/-- A navigation satellite: two revolutions per day, at any double within a month of the epoch. -/
theorem nav_third_law (hL : Libm.Faithful) (t : F64) (ht : t.Fin) (h : |t.val| ≤ 43200) :
    ∃ (s : Satrec F64) (p : SGP4Result F64), twoline2satrec navLine1 navLine2 = .ok s ∧ (sgp4 s t).map Prod.snd = some (.ok p) ∧
      KeplerOrbit ((navTle.noE8 : ℝ) / 10 ^ 8) (1.031 * ((navTle.eccE7 : ℝ) / 10 ^ 7)) p.position.exact p.velocity.exact :=
  C109_deep_third_law_f64 hL _ _ _ nav_printed (Or.inl rfl) (Or.inl rfl) (Or.inr (by decide)) nav_high t ht h

end Sat
