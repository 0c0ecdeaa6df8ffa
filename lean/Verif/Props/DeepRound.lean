import Verif.Props.F64Equator
import Verif.Props.MeanLongitude
import Verif.Spec.Sdp4
/-!
# Deep-space orbits go round

The argument of latitude of the mean elements that the crate carries for a deep-space orbit passes through the northernmost and the southernmost value in
every 1.2 revolutions.
-/

namespace Sat
open Spec Spec.R3 Spec.SDP

/-- secular rates of an orbit at a distance from the earth -/
theorem far_rates {q : Orbit} (ha : 1.91 ≤ q.a) (he : 0 ≤ q.e ∧ q.e ≤ 0.41) (hn : 0 ≤ q.n) :
    |q.rateAnomaly - q.n| ≤ 0.0012 * q.n ∧ |q.ratePerigee| ≤ 0.0022 * q.n := by
  have hβ : 0.91 ≤ q.β := by
    refine Real.le_sqrt_of_sq_le ?_
    have : q.e ^ 2 ≤ 0.41 ^ 2 := by
      have := he.1; have := he.2; gcongr
    norm_num at this ⊢; linarith only [this]
  have hβ1 : q.β ≤ 1 := Real.sqrt_le_iff.mpr ⟨zero_le_one, by linarith only [sq_nonneg q.e]⟩
  unfold Orbit.rateAnomaly Orbit.ratePerigee
  have hk : R3.k2 ≤ 0.00054132 ∧ 0 ≤ R3.k2 := by unfold R3.k2 j2; norm_num
  have hk4 : R3.k4 ≤ 0.000001 ∧ 0 ≤ R3.k4 := by unfold R3.k4 j4; norm_num
  have hA2 : 3.64 ≤ q.a ^ 2 := by
    calc (3.64 : ℝ) ≤ 1.91 ^ 2 := by norm_num
      _ ≤ _ := by gcongr
  have hA4 : 13.3 ≤ q.a ^ 4 := by
    calc (13.3 : ℝ) ≤ 1.91 ^ 4 := by norm_num
      _ ≤ _ := by gcongr
  have bb : ∀ j : ℕ, j ≤ 8 → 0.47 ≤ q.β ^ j := by
    intro j hj
    calc (0.47 : ℝ) ≤ 0.91 ^ 8 := by norm_num
      _ ≤ 0.91 ^ j := pow_le_pow_of_le_one (by norm_num) (by norm_num) hj
      _ ≤ _ := by gcongr
  have t2 : 0 ≤ q.θ ^ 2 ∧ q.θ ^ 2 ≤ 1 := ⟨sq_nonneg _, Real.cos_sq_le_one _⟩
  have t4 : 0 ≤ q.θ ^ 4 ∧ q.θ ^ 4 ≤ 1 := by
    rw [show q.θ ^ 4 = (q.θ ^ 2) ^ 2 by ring]; exact ⟨sq_nonneg _, pow_le_one₀ t2.1 t2.2⟩
  have big : ∀ {x y X Y : ℝ}, |x| ≤ X → 0 < Y → Y ≤ y → |x / y| ≤ X / Y := by
    intro x y X Y hx hY hy
    rw [abs_div, abs_of_pos (lt_of_lt_of_le hY hy)]
    exact div_le_div₀ ((abs_nonneg _).trans hx) hx hY hy
  have b3 := bb 3 (by norm_num); have b4 := bb 4 (by norm_num); have b7 := bb 7 (by norm_num); have b8 := bb 8 (by norm_num)
  obtain ⟨k1, k0⟩ := hk
  obtain ⟨l1, l0⟩ := hk4
  obtain ⟨t20, t21⟩ := t2
  obtain ⟨t40, t41⟩ := t4
  have x1 : |3 * R3.k2 * (-1 + 3 * q.θ ^ 2) / (2 * q.a ^ 2 * q.β ^ 3)| ≤ 3 * 0.00054132 * 2 / (2 * 3.64 * 0.47) := by
    refine big ?_ (by norm_num) (by gcongr)
    rw [abs_mul, abs_of_nonneg (by positivity : 0 ≤ 3 * R3.k2)]
    have : |-1 + 3 * q.θ ^ 2| ≤ 2 := by rw [abs_le]; constructor <;> linarith only [t20, t21]
    gcongr
  have x2 : |3 * R3.k2 ^ 2 * (13 - 78 * q.θ ^ 2 + 137 * q.θ ^ 4) / (16 * q.a ^ 4 * q.β ^ 7)| ≤ 3 * 0.00054132 ^ 2 * 228 / (16 * 13.3 * 0.47) := by
    refine big ?_ (by norm_num) (by gcongr)
    rw [abs_mul, abs_of_nonneg (by positivity : 0 ≤ 3 * R3.k2 ^ 2)]
    have : |13 - 78 * q.θ ^ 2 + 137 * q.θ ^ 4| ≤ 228 := by rw [abs_le]; constructor <;> linarith only [t20, t21, t40, t41]
    gcongr
  have y1 : |-3 * R3.k2 * (1 - 5 * q.θ ^ 2) / (2 * q.a ^ 2 * q.β ^ 4)| ≤ 3 * 0.00054132 * 4 / (2 * 3.64 * 0.47) := by
    refine big ?_ (by norm_num) (by gcongr)
    rw [neg_mul, neg_mul, abs_neg, abs_mul, abs_of_nonneg (by positivity : 0 ≤ 3 * R3.k2)]
    have : |1 - 5 * q.θ ^ 2| ≤ 4 := by rw [abs_le]; constructor <;> linarith only [t20, t21]
    gcongr
  have y2 : |3 * R3.k2 ^ 2 * (7 - 114 * q.θ ^ 2 + 395 * q.θ ^ 4) / (16 * q.a ^ 4 * q.β ^ 8)| ≤ 3 * 0.00054132 ^ 2 * 516 / (16 * 13.3 * 0.47) := by
    refine big ?_ (by norm_num) (by gcongr)
    rw [abs_mul, abs_of_nonneg (by positivity : 0 ≤ 3 * R3.k2 ^ 2)]
    have : |7 - 114 * q.θ ^ 2 + 395 * q.θ ^ 4| ≤ 516 := by rw [abs_le]; constructor <;> linarith only [t20, t21, t40, t41]
    gcongr
  have y3 : |5 * R3.k4 * (3 - 36 * q.θ ^ 2 + 49 * q.θ ^ 4) / (4 * q.a ^ 4 * q.β ^ 8)| ≤ 5 * 0.000001 * 88 / (4 * 13.3 * 0.47) := by
    refine big ?_ (by norm_num) (by gcongr)
    rw [abs_mul, abs_of_nonneg (by positivity : 0 ≤ 5 * R3.k4)]
    have : |3 - 36 * q.θ ^ 2 + 49 * q.θ ^ 4| ≤ 88 := by rw [abs_le]; constructor <;> linarith only [t20, t21, t40, t41]
    gcongr
  generalize 3 * R3.k2 * (-1 + 3 * q.θ ^ 2) / (2 * q.a ^ 2 * q.β ^ 3) = X1 at *
  generalize 3 * R3.k2 ^ 2 * (13 - 78 * q.θ ^ 2 + 137 * q.θ ^ 4) / (16 * q.a ^ 4 * q.β ^ 7) = X2 at *
  generalize -3 * R3.k2 * (1 - 5 * q.θ ^ 2) / (2 * q.a ^ 2 * q.β ^ 4) = Y1 at *
  generalize 3 * R3.k2 ^ 2 * (7 - 114 * q.θ ^ 2 + 395 * q.θ ^ 4) / (16 * q.a ^ 4 * q.β ^ 8) = Y2 at *
  generalize 5 * R3.k4 * (3 - 36 * q.θ ^ 2 + 49 * q.θ ^ 4) / (4 * q.a ^ 4 * q.β ^ 8) = Y3 at *
  constructor
  · rw [show q.n * (1 + X1 + X2) - q.n = (X1 + X2) * q.n by ring, abs_mul, abs_of_nonneg hn]
    refine mul_le_mul_of_nonneg_right ((abs_add_le _ _).trans ((add_le_add x1 x2).trans (by norm_num))) hn
  · rw [mul_comm, abs_mul, abs_of_nonneg hn]
    refine mul_le_mul_of_nonneg_right ((abs_add_le _ _).trans ((add_le_add ((abs_add_le _ _).trans (add_le_add y1 y2)) y3).trans (by norm_num))) hn

/-- Facts about the secular motion of a deep-space orbit over a month, for the mean elements that the crate carries. -/
structure FarMotion (q : Orbit) (node day : ℝ) : Prop where
  a : 1.91 ≤ q.a
  e : 0 ≤ q.e ∧ q.e ≤ 0.41
  n : 0 ≤ q.n ∧ q.n ≤ 0.028
  drag : |q.C1| ≤ 14 / 10 ^ 10
  after : eccentricityRaw q node day 43200 ≤ 0.43
  before : eccentricityRaw q node day (-43200) ≤ 0.43

namespace FarMotion
variable {q : Orbit} {node day : ℝ}

theorem slope (h : FarMotion q node day) : ∃ c, |c| ≤ 1 / 10 ^ 5 ∧ ∀ t, eccentricityRaw q node day t = q.e + c * t := by
  refine ⟨(targetAt q node).rateE sun + (targetAt q node).rateE (moon day) - q.bstar * q.C4, ?_, fun t => by unfold eccentricityRaw; ring⟩
  have h1 := h.after
  have h2 := h.before
  unfold eccentricityRaw at h1 h2
  have h3 := h.e.1
  rw [abs_le]
  constructor <;> (norm_num at *; linarith)

theorem ecc (h : FarMotion q node day) {t : ℝ} (ht : |t| ≤ 43200) : 0 ≤ (carriedMean q node day t).e ∧ (carriedMean q node day t).e ≤ 0.43 := by
  obtain ⟨c, hc, he⟩ := h.slope
  refine ⟨le_max_of_le_right (by norm_num), max_le ?_ (by norm_num)⟩
  have h1 := h.after
  have h2 := h.before
  rw [he] at h1 h2 ⊢
  have h3 := h.e.2
  have h4 : c * t ≤ |c| * 43200 := (le_abs_self _).trans (by rw [abs_mul]; gcongr)
  rcases abs_cases c with ⟨h5, -⟩ | ⟨h5, -⟩ <;> (rw [h5] at h4; norm_num at *; linarith)

/-- The angle from the node at which the eccentric longitude is sought, up to long-period terms. -/
noncomputable def angle (q : Orbit) (node day σ t : ℝ) : ℝ :=
  q.MDF t + q.ωDF t + q.n * (3 / 2 * q.C1 * t ^ 2) + σ * ((carriedMean q node day t).e * Real.cos (q.ωDF t))

theorem angle_continuous (h : FarMotion q node day) (σ : ℝ) : Continuous (angle q node day σ) := by
  obtain ⟨c, -, he⟩ := h.slope
  have e : ∀ t, (carriedMean q node day t).e = max (q.e + c * t) (1 / 10 ^ 6) := fun t => by
    show max (eccentricityRaw q node day t) _ = _; rw [he]
  unfold angle
  simp only [e]
  unfold Orbit.MDF Orbit.ωDF
  fun_prop

/-- it passes through a quarter turn, or three quarters, in every 1.2 revolutions -/
theorem passes (h : FarMotion q node day) {A B σ : ℝ} (hσ : σ = 1 ∨ σ = -1) (hAB : A ≤ B) (hA : |A| ≤ 43200) (hB : |B| ≤ 43200) (hn : 7.5 ≤ q.n * (B - A)) :
    ∃ t, A ≤ t ∧ t ≤ B ∧ ∃ k : ℤ, angle q node day σ t = σ * (Real.pi / 2) + k * (2 * Real.pi) := by
  have hs1 : |σ| = 1 := by rcases hσ with rfl | rfl <;> norm_num
  obtain ⟨r1, r2⟩ := far_rates h.a h.e h.n.1
  have small : ∀ t : ℝ, |t| ≤ 43200 → |σ * ((carriedMean q node day t).e * Real.cos (q.ωDF t))| ≤ 0.43 := by
    intro t ht
    obtain ⟨e0, e1⟩ := h.ecc ht
    rw [abs_mul, hs1, one_mul, abs_mul, abs_of_nonneg e0]
    exact (mul_le_of_le_one_right e0 (Real.abs_cos_le_one _)).trans e1
  have sA := abs_le.mp (small A hA)
  have sB := abs_le.mp (small B hB)
  have hd : |3 / 2 * q.C1 * (B + A)| ≤ 0.0002 := by
    rw [abs_mul, abs_mul, abs_of_pos (by norm_num : (0 : ℝ) < 3 / 2)]
    calc _ ≤ 3 / 2 * (14 / 10 ^ 10) * (43200 + 43200 : ℝ) :=
          mul_le_mul (mul_le_mul_of_nonneg_left h.drag (by norm_num)) ((abs_add_le _ _).trans (add_le_add hB hA)) (abs_nonneg _) (by norm_num)
      _ ≤ _ := by norm_num
  have hgain : angle q node day σ A + 2 * Real.pi ≤ angle q node day σ B := by
    have e : angle q node day σ B - angle q node day σ A = q.n * (B - A) + (q.rateAnomaly - q.n) * (B - A) + q.ratePerigee * (B - A) +
        q.n * (B - A) * (3 / 2 * q.C1 * (B + A)) + (σ * ((carriedMean q node day B).e * Real.cos (q.ωDF B)) - σ * ((carriedMean q node day A).e * Real.cos (q.ωDF A))) := by
      unfold angle Orbit.MDF; unfold Orbit.ωDF; ring
    have hp := Real.pi_lt_d4
    have hBA : 0 ≤ B - A := by linarith
    have t1 := mul_le_mul_of_nonneg_right (abs_le.mp r1).1 hBA
    have t2 := mul_le_mul_of_nonneg_right (abs_le.mp r2).1 hBA
    have t3 := mul_le_mul_of_nonneg_left (abs_le.mp hd).1 (le_trans (by norm_num) hn)
    have t1' : -(0.0012 * q.n) * (B - A) = -0.0012 * (q.n * (B - A)) := by ring
    have t2' : -(0.0022 * q.n) * (B - A) = -0.0022 * (q.n * (B - A)) := by ring
    rw [t1'] at t1
    rw [t2'] at t2
    generalize q.n * (B - A) = w at *
    norm_num at hp hn t1 t2 t3 sA sB
    linarith only [hp, hn, t1, t2, t3, sA.1, sA.2, sB.1, sB.2, e]
  set f : ℝ → ℝ := fun s => angle q node day σ s - σ * (Real.pi / 2) with hf
  have hc : ContinuousOn f (Set.Icc A B) := ((h.angle_continuous σ).sub continuous_const).continuousOn
  have hpi := Real.pi_pos
  set k : ℤ := ⌈f A / (2 * Real.pi)⌉ with hk
  have k1 : f A ≤ k * (2 * Real.pi) := by
    have := Int.le_ceil (f A / (2 * Real.pi))
    rwa [div_le_iff₀ (by positivity)] at this
  have k2 : k * (2 * Real.pi) ≤ f A + 2 * Real.pi := by
    have := (Int.ceil_lt_add_one (f A / (2 * Real.pi))).le
    have h3 : (k : ℝ) * (2 * Real.pi) ≤ (f A / (2 * Real.pi) + 1) * (2 * Real.pi) := mul_le_mul_of_nonneg_right this (by positivity)
    rwa [add_mul, div_mul_cancel₀ _ (by positivity), one_mul] at h3
  obtain ⟨t, ht, hft⟩ := intermediate_value_Icc hAB hc ⟨k1, k2.trans (by simp only [hf]; linarith)⟩
  refine ⟨t, ht.1, ht.2, k, ?_⟩
  simp only [hf] at hft
  linarith

/-- and hardly moves in 150 microseconds -/
theorem angle_step (h : FarMotion q node day) {s t σ : ℝ} (hσ : σ = 1 ∨ σ = -1) (hs : |s| ≤ 43200) (ht : |t| ≤ 43200) (hst : |s - t| ≤ 1 / 400000) :
    |angle q node day σ s - angle q node day σ t| ≤ 1 / 10 ^ 5 := by
  have hs1 : |σ| = 1 := by rcases hσ with rfl | rfl <;> norm_num
  obtain ⟨r1, r2⟩ := far_rates h.a h.e h.n.1
  obtain ⟨c, hc, he⟩ := h.slope
  obtain ⟨e0, e1⟩ := h.ecc hs
  have hn := h.n
  have hr : |q.rateAnomaly + q.ratePerigee| ≤ 0.03 := by
    have a := abs_le.mp r1
    have b := abs_le.mp r2
    rw [abs_le]; constructor <;> (norm_num at *; linarith)
  have hr2 : |q.ratePerigee| ≤ 0.03 := r2.trans (by norm_num at *; linarith)
  have hd : |q.n * (3 / 2 * q.C1 * (s + t))| ≤ 0.001 := by
    rw [abs_mul, abs_of_nonneg hn.1, abs_mul, abs_mul, abs_of_pos (by norm_num : (0 : ℝ) < 3 / 2)]
    calc _ ≤ 0.028 * (3 / 2 * (14 / 10 ^ 10) * (43200 + 43200 : ℝ)) :=
          mul_le_mul hn.2 (mul_le_mul (mul_le_mul_of_nonneg_left h.drag (by norm_num)) ((abs_add_le _ _).trans (add_le_add hs ht)) (abs_nonneg _) (by norm_num))
            (by positivity) (by norm_num)
      _ ≤ _ := by norm_num
  have hcos : |Real.cos (q.ωDF s) - Real.cos (q.ωDF t)| ≤ 0.03 * (1 / 400000) := by
    refine (Real.abs_cos_sub_cos_le _ _).trans ?_
    rw [show q.ωDF s - q.ωDF t = q.ratePerigee * (s - t) by unfold Orbit.ωDF; ring, abs_mul]
    exact mul_le_mul hr2 hst (abs_nonneg _) (by norm_num)
  have hec : |(carriedMean q node day s).e - (carriedMean q node day t).e| ≤ 1 / 10 ^ 5 * (1 / 400000) := by
    refine (abs_max_sub_max_le_abs _ _ _).trans ?_
    rw [he, he, show q.e + c * s - (q.e + c * t) = c * (s - t) by ring, abs_mul]
    exact mul_le_mul hc hst (abs_nonneg _) (by norm_num)
  have e : angle q node day σ s - angle q node day σ t = (q.rateAnomaly + q.ratePerigee) * (s - t) + q.n * (3 / 2 * q.C1 * (s + t)) * (s - t) +
      σ * ((carriedMean q node day s).e * (Real.cos (q.ωDF s) - Real.cos (q.ωDF t)) +
        ((carriedMean q node day s).e - (carriedMean q node day t).e) * Real.cos (q.ωDF t)) := by
    unfold angle Orbit.MDF
    rw [show q.ωDF s = q.argp + q.ratePerigee * s from rfl, show q.ωDF t = q.argp + q.ratePerigee * t from rfl]
    ring
  rw [e]
  have g1 : |(q.rateAnomaly + q.ratePerigee) * (s - t)| ≤ 0.03 * (1 / 400000) := by
    rw [abs_mul]; exact mul_le_mul hr hst (abs_nonneg _) (by norm_num)
  have g2 : |q.n * (3 / 2 * q.C1 * (s + t)) * (s - t)| ≤ 0.001 * (1 / 400000) := by
    rw [abs_mul]; exact mul_le_mul hd hst (abs_nonneg _) (by norm_num)
  have g3 : |σ * ((carriedMean q node day s).e * (Real.cos (q.ωDF s) - Real.cos (q.ωDF t)) +
        ((carriedMean q node day s).e - (carriedMean q node day t).e) * Real.cos (q.ωDF t))| ≤ 0.43 * (0.03 * (1 / 400000)) + 1 / 10 ^ 5 * (1 / 400000) * 1 := by
    rw [abs_mul, hs1, one_mul]
    refine (abs_add_le _ _).trans (add_le_add ?_ ?_)
    · rw [abs_mul, abs_of_nonneg e0]
      exact mul_le_mul e1 hcos (abs_nonneg _) (by norm_num)
    · rw [abs_mul]
      exact mul_le_mul hec (Real.abs_cos_le_one _) (abs_nonneg _) (by norm_num)
  exact (abs_add_le _ _).trans ((add_le_add ((abs_add_le _ _).trans (add_le_add g1 g2)) g3).trans (by norm_num))

end FarMotion

/-- The mean elements of a deep-space orbit. -/
structure FarMean (m : Mean) : Prop where
  a : 1.91 ≤ m.a
  e0 : 0 ≤ m.e
  e1 : m.e ≤ 0.43
  i : 1 / 100 ≤ 1 + Real.cos m.i

namespace FarMean
variable {m : Mean}

theorem p (h : FarMean m) : 1.55 ≤ m.a * (1 - m.e ^ 2) := by
  have h1 := h.a
  have h2 : m.e ^ 2 ≤ 0.43 ^ 2 := by have := h.e0; have := h.e1; gcongr
  calc (1.55 : ℝ) ≤ 1.91 * (1 - 0.43 ^ 2) := by norm_num
    _ ≤ _ := mul_le_mul h1 (by linarith) (by norm_num) (by linarith)

theorem fair (h : FarMean m) : Fair m := by
  have hp := h.p
  have h1 : |longAy m.i / (m.a * (1 - m.e ^ 2))| ≤ 0.001 := by
    rw [abs_div, abs_of_pos (by linarith : 0 < m.a * (1 - m.e ^ 2)), div_le_iff₀ (by linarith)]
    have e : longAy m.i = a30 / (4 * R3.k2) * Real.sin m.i := by unfold longAy; ring
    rw [e, abs_mul]
    have h1 : |a30 / (4 * R3.k2)| ≤ 0.00117 := by
      unfold a30 R3.k2 j2 j3
      rw [abs_of_pos (by norm_num)]; norm_num
    calc _ ≤ (0.00117 : ℝ) * 1 := mul_le_mul h1 (Real.abs_sin_le_one _) (abs_nonneg _) (by norm_num)
      _ ≤ _ := by norm_num at *; linarith
  have he2 : m.eL2 ≤ 0.45 ^ 2 := by
    unfold Mean.eL2 Mean.axN Mean.ayN
    set g := longAy m.i / (m.a * (1 - m.e ^ 2))
    have e : (m.e * Real.cos m.ω) ^ 2 + (m.e * Real.sin m.ω + g) ^ 2 = m.e ^ 2 + 2 * (m.e * (g * Real.sin m.ω)) + g ^ 2 := by
      linear_combination m.e ^ 2 * Real.sin_sq_add_cos_sq m.ω
    rw [e]
    have h2 : m.e * (g * Real.sin m.ω) ≤ 0.43 * (0.001 * 1) := by
      refine (le_abs_self _).trans ?_
      rw [abs_mul, abs_mul, abs_of_nonneg h.e0]
      exact mul_le_mul h.e1 (mul_le_mul h1 (Real.abs_sin_le_one _) (abs_nonneg _) (by norm_num)) (by positivity) (by norm_num)
    have h3 : g ^ 2 ≤ 0.001 ^ 2 := sq_le_sq' (abs_le.mp h1).1 (abs_le.mp h1).2
    have h4 : m.e ^ 2 ≤ 0.43 ^ 2 := by have := h.e0; have := h.e1; gcongr
    norm_num at *; linarith only [h2, h3, h4]
  refine ⟨he2, by linarith [h.a], ?_⟩
  unfold Mean.pL
  calc (0.998 : ℝ) ≤ 1.91 * (1 - 0.45 ^ 2) := by norm_num
    _ ≤ _ := mul_le_mul h.a (by linarith only [he2]) (by norm_num) (by linarith [h.a])

/-- Near the top, or the bottom, of the orbit the satellite is far from the plane of the equator. -/
theorem top (h : FarMean m) {E σ : ℝ} (hσ : σ = 1 ∨ σ = -1) (k : ℤ) (hk : |m.kepler E| ≤ 1 / 10 ^ 6)
    (hm : |m.L - m.Ω + σ * m.axN - (σ * (Real.pi / 2) + k * (2 * Real.pi))| ≤ 1 / 10 ^ 5) {y : ℝ} (hy : 0.0184 ≤ y) (hi : y - 0.0179 ≤ Real.sin m.i) :
    4400 * (y - 0.0184) ≤ σ * m.positionKm E 2 := by
  have hF := h.fair
  have hp := h.p
  have hs1 : |σ| = 1 := by rcases hσ with rfl | rfl <;> norm_num
  have hσ2 : σ * σ = 1 := by rcases hσ with rfl | rfl <;> norm_num
  set E0 := σ * (Real.pi / 2) + k * (2 * Real.pi) with hE0
  have hsin : Real.sin E0 = σ := by
    rw [hE0, Real.sin_add_int_mul_two_pi]
    rcases hσ with rfl | rfl
    · rw [one_mul, Real.sin_pi_div_two]
    · rw [neg_one_mul, Real.sin_neg, Real.sin_pi_div_two]
  have hcos : Real.cos E0 = 0 := by
    rw [hE0, Real.cos_add_int_mul_two_pi]
    rcases hσ with rfl | rfl
    · rw [one_mul, Real.cos_pi_div_two]
    · rw [neg_one_mul, Real.cos_neg, Real.cos_pi_div_two]
  have hx : |m.axN| ≤ 0.45 := axN_abs hF.ecc (by norm_num)
  have hay : |m.ayN| ≤ 0.45 := ayN_abs hF.ecc (by norm_num)
  have hk0 : |m.kepler E0| ≤ 0.0292 := by
    have e : m.kepler E0 = (m.L - m.Ω + σ * m.axN - E0) + longL m.i / (m.a * (1 - m.e ^ 2)) * m.axN := by
      unfold Mean.kepler Mean.U; rw [hsin, hcos]; ring
    rw [e]
    refine (abs_add_le _ _).trans ?_
    have : |longL m.i / (m.a * (1 - m.e ^ 2)) * m.axN| ≤ 0.1 / 1.55 * 0.45 := by
      rw [abs_mul, abs_div, abs_of_pos (by linarith : 0 < m.a * (1 - m.e ^ 2))]
      exact mul_le_mul (div_le_div₀ (by norm_num) (longL_small h.i) (by norm_num) hp) hx (abs_nonneg _) (by norm_num)
    norm_num at *; linarith only [hm, this]
  have hEE : |E - E0| ≤ 0.0532 := by
    have h1 := kepler_separates hF.ecc (by norm_num) E E0
    have h2 : |m.kepler E - m.kepler E0| ≤ 0.0292 + 1 / 10 ^ 6 := (abs_sub _ _).trans (by linarith)
    norm_num at h1 h2 ⊢
    linarith only [h1, h2]
  have hC : |Real.cos E| ≤ 0.0532 := by
    have := (Real.abs_cos_sub_cos_le E E0).trans hEE
    rwa [hcos, sub_zero] at this
  have hS1 : σ * Real.sin E ≤ 1 := (le_abs_self _).trans (by rw [abs_mul, hs1, one_mul]; exact Real.abs_sin_le_one _)
  have hS : 0.998 ≤ σ * Real.sin E := by
    have h1 := (Real.abs_sin_sub_sin_le E E0).trans hEE
    rw [hsin] at h1
    have h2 : |σ * Real.sin E - 1| ≤ 0.0532 := by
      rw [← hσ2, ← mul_sub, abs_mul, hs1, one_mul]; exact h1
    have h3 : (σ * Real.sin E) ^ 2 = 1 - Real.cos E ^ 2 := by
      rw [mul_pow, sq σ, hσ2, one_mul]; linarith [Real.sin_sq_add_cos_sq E]
    have h4 : Real.cos E ^ 2 ≤ 0.0532 ^ 2 := sq_le_sq' (abs_le.mp hC).1 (abs_le.mp hC).2
    by_contra hcon
    push Not at hcon
    have h5 : 0 ≤ σ * Real.sin E := by have := (abs_le.mp h2).1; norm_num at *; linarith
    have h6 : (σ * Real.sin E) ^ 2 ≤ 0.998 * 0.998 := by rw [sq]; exact mul_le_mul hcon.le hcon.le h5 (by norm_num)
    norm_num at h3 h4 h6; linarith only [h3, h4, h6]
  -- the sine of the argument of latitude
  obtain ⟨p1, p2, p3, -, p5, -, p7, -, -⟩ := perturbation_bounds m E ⟨h.e0, h.e1.trans (by norm_num)⟩
    (by calc (1 : ℝ) ≤ 1.91 * (1 - 0.43) := by norm_num
          _ ≤ _ := mul_le_mul h.a (by linarith only [h.e1]) (by norm_num) (by linarith [h.a]))
  have hr0 : m.r E ≠ 0 := by norm_num at p3; intro h0; rw [h0] at p3; norm_num at p3
  obtain ⟨u1, u2⟩ := cos_u_sin_u m E hr0 p5
  have hu := sinu_sq_add_cosu_sq m E hr0 p5
  have hsu : 0.7 ≤ σ * m.sinu E := by
    have ha : m.a ≠ 0 := by linarith [h.a]
    have har : m.a / m.r E = 1 / (1 - m.ecosE E) := by unfold Mean.r; field_simp
    have hden : 0 < 1 - m.ecosE E := by
      have := (abs_le.mp (ecosE_le hF.ecc (by norm_num) E)).2
      norm_num at *; linarith only [this]
    have hecc := hF.ecc
    unfold Mean.eL2 at hecc
    have hβ : 0.89 ≤ Real.sqrt (1 - m.eL2) := Real.le_sqrt_of_sq_le (by have := hF.ecc; norm_num at *; linarith)
    unfold Mean.sinu
    rw [har]
    set w := 1 / (1 + Real.sqrt (1 - m.eL2)) with hw
    have w0 : 0 ≤ w := by positivity
    have w1 : w ≤ 0.53 := by rw [hw, div_le_iff₀ (by positivity)]; norm_num at *; linarith
    have e : σ * (1 / (1 - m.ecosE E) * (Real.sin E - m.ayN - m.axN * m.esinE E / (1 + Real.sqrt (1 - m.eL2)))) =
        (σ * Real.sin E - σ * m.ayN - w * (m.axN ^ 2 * (σ * Real.sin E) - m.axN * m.ayN * σ * Real.cos E)) / (1 - m.ecosE E) := by
      unfold Mean.esinE; rw [hw]; ring
    have e2 : m.ecosE E = m.axN * Real.cos E + σ * m.ayN * (σ * Real.sin E) := by
      unfold Mean.ecosE; linear_combination -m.ayN * Real.sin E * hσ2
    rw [e, le_div_iff₀ hden, e2]
    have hy2 : (σ * m.ayN) ^ 2 = m.ayN ^ 2 := by rw [mul_pow, sq σ, hσ2, one_mul]
    rw [← hy2] at hecc
    have hc1 : |m.axN * m.ayN * σ * Real.cos E| ≤ 0.45 * 0.45 * 1 * 0.0532 := by
      rw [abs_mul, abs_mul, abs_mul, hs1]
      exact mul_le_mul (mul_le_mul (mul_le_mul hx hay (abs_nonneg _) (by norm_num)) le_rfl zero_le_one (by norm_num)) hC (abs_nonneg _) (by norm_num)
    have hc2 : |m.axN * Real.cos E| ≤ 0.45 * 0.0532 := by
      rw [abs_mul]; exact mul_le_mul hx hC (abs_nonneg _) (by norm_num)
    have hyb : |σ * m.ayN| ≤ 0.45 := by rw [abs_mul, hs1, one_mul]; exact hay
    generalize σ * Real.sin E = S at *
    generalize σ * m.ayN = Y at *
    generalize m.axN * m.ayN * σ * Real.cos E = c1 at *
    generalize m.axN * Real.cos E = c2 at *
    have d1 : w * (m.axN ^ 2 * S - c1) ≤ 0.53 * m.axN ^ 2 + 0.0058 := by
      have f1 : m.axN ^ 2 * S ≤ m.axN ^ 2 := mul_le_of_le_one_right (sq_nonneg _) hS1
      have f2 := (abs_le.mp hc1).1
      calc w * (m.axN ^ 2 * S - c1) ≤ w * (m.axN ^ 2 + 0.0109) := mul_le_mul_of_nonneg_left (by norm_num at *; linarith only [f1, f2]) w0
        _ ≤ 0.53 * (m.axN ^ 2 + 0.0109) := mul_le_mul_of_nonneg_right w1 (by positivity)
        _ ≤ _ := by norm_num; linarith
    have d2 := (abs_le.mp hc2).1
    have d3 : Y * S ≥ Y - 0.001 := by
      have : |Y * (1 - S)| ≤ 0.45 * 0.002 := by
        rw [abs_mul, abs_of_nonneg (by linarith : 0 ≤ 1 - S)]
        exact mul_le_mul hyb (by norm_num at *; linarith) (by linarith) (by norm_num)
      have := (abs_le.mp this).2
      norm_num at *; linarith
    have d4 : 0.53 * (m.axN ^ 2) + 0.3 * Y ≤ 0.152 := by
      norm_num at hecc ⊢
      linarith only [hecc, sq_nonneg (Y - 15 / 53)]
    norm_num at *
    linarith only [d1, d2, d3, d4, hS]
  have hd : |m.uk E - m.u E| ≤ 0.001 := by
    have hp : 0.996 ≤ m.pL ^ 2 := by
      calc (0.996 : ℝ) ≤ 0.998 ^ 2 := by norm_num
        _ ≤ _ := by have := hF.per; gcongr
    have h2 : |m.sin2u E| ≤ 1 := by
      unfold Mean.sin2u
      rw [abs_le]; constructor <;> nlinarith only [hu, sq_nonneg (m.sinu E + m.cosu E), sq_nonneg (m.sinu E - m.cosu E)]
    have hk : |R3.k2 / (4 * m.pL ^ 2)| ≤ 0.00014 := by
      have k0 : 0 < R3.k2 := by unfold R3.k2 R3.j2; norm_num
      rw [abs_of_pos (div_pos k0 (by linarith)), div_le_iff₀ (by linarith)]
      unfold R3.k2 R3.j2; norm_num at hp ⊢; linarith
    have h7 : |7 * m.θ ^ 2 - 1| ≤ 6 := by
      obtain ⟨t1, t2, -⟩ := Slow.θ_sq m
      rw [abs_le]; constructor <;> linarith
    have e : m.uk E - m.u E = -(R3.k2 / (4 * m.pL ^ 2) * (7 * m.θ ^ 2 - 1) * m.sin2u E) := by unfold Mean.uk; ring
    rw [e, abs_neg, abs_mul, abs_mul]
    calc |R3.k2 / (4 * m.pL ^ 2)| * |7 * m.θ ^ 2 - 1| * |m.sin2u E| ≤ 0.00014 * 6 * 1 :=
          mul_le_mul (mul_le_mul hk h7 (abs_nonneg _) (by norm_num)) h2 (abs_nonneg _) (by norm_num)
      _ ≤ 0.001 := by norm_num
  have hsk : 0.699 ≤ σ * Real.sin (m.uk E) := by
    have h1 := (Real.abs_sin_sub_sin_le (m.uk E) (m.u E)).trans hd
    rw [u2] at h1
    have h2 : |σ * Real.sin (m.uk E) - σ * m.sinu E| ≤ 0.001 := by rw [← mul_sub, abs_mul, hs1, one_mul]; exact h1
    have := (abs_le.mp h2).1
    norm_num at *; linarith only [this, hsu]
  have hsi : y - 0.01832 ≤ Real.sin (m.ik E) := by
    have := (abs_le.mp ((Real.abs_sin_sub_sin_le (m.ik E) m.i).trans (ik_near hF E))).1
    norm_num at *; linarith only [this, hi]
  have hrk : 0.996 ≤ m.rk E := by
    have := (abs_le.mp p7).1
    norm_num at *; linarith only [this, p3]
  have e : σ * m.positionKm E 2 = m.rk E * kmPerRadius * (σ * Real.sin (m.uk E)) * Real.sin (m.ik E) := by
    show σ * (m.rk E * m.Uvec E 2 * kmPerRadius) = _
    rw [show m.Uvec E 2 = Real.sin (m.ik E) * Real.sin (m.uk E) from rfl]; ring
  rw [e]
  have hCC : 4440 ≤ m.rk E * kmPerRadius * (σ * Real.sin (m.uk E)) := by
    calc (4440 : ℝ) ≤ 0.996 * 6378.135 * 0.699 := by norm_num
      _ ≤ _ := mul_le_mul (mul_le_mul hrk (by unfold kmPerRadius; norm_num) (by norm_num) (le_trans (by norm_num) hrk)) hsk (by norm_num)
        (mul_nonneg (le_trans (by norm_num) hrk) (by unfold kmPerRadius; norm_num))
  have h0 : 0 ≤ Real.sin (m.ik E) := by norm_num at hsi hy; linarith only [hsi, hy]
  calc 4400 * (y - 0.0184) ≤ 4440 * (y - 0.01832) := by norm_num at hy ⊢; linarith only [hy]
    _ ≤ 4440 * Real.sin (m.ik E) := by linarith only [hsi]
    _ ≤ _ := mul_le_mul_of_nonneg_right hCC h0

end FarMean
end Sat
