import Verif.Props.Geodetic
import Mathlib.Analysis.SpecialFunctions.Trigonometric.Bounds
/-!
# C40: how wrong the geodetic round trip is

`eci_to_geodedic` lacks a square root (C40_violated_round_trip).  Its effect, in exact arithmetic: the longitude is right, the latitude
is right to 150 m on the ground, and the height is too low by `a (1/w - 1/√w)` with `w = 1 - e² sin² φ`, up to 21.6 km at the poles.
-/

namespace Sat
open Spec

theorem ellE2_le : (ellE2 : ℝ) ≤ 0.0067 := by
  rw [ellE2_real, polar, equatorial]; norm_num

theorem sin_lipschitz (x y : ℝ) : |Real.sin x - Real.sin y| ≤ |x - y| := by
  rw [Real.sin_sub_sin, abs_mul, abs_mul, abs_two]
  have h1 := Real.abs_sin_le_abs (x := (x - y) / 2)
  rw [abs_div, abs_two] at h1
  have h2 := Real.abs_cos_le_one ((x + y) / 2)
  nlinarith [abs_nonneg (Real.sin ((x - y) / 2)), abs_nonneg (Real.cos ((x + y) / 2))]

/-- the height error at latitude `φ`, in km: `a (1/w - 1/√w)` with `w = 1 - e² sin² φ` -/
noncomputable def heightError (φ : ℝ) : ℝ :=
  equatorial * (1 / (1 - ellE2 * Real.sin φ ^ 2) - 1 / Real.sqrt (1 - ellE2 * Real.sin φ ^ 2))

theorem w_bounds (φ : ℝ) : 0.9933 ≤ 1 - ellE2 * Real.sin φ ^ 2 ∧ 1 - ellE2 * Real.sin φ ^ 2 ≤ 1 ∧
    0.99664 ≤ Real.sqrt (1 - ellE2 * Real.sin φ ^ 2) ∧ Real.sqrt (1 - ellE2 * Real.sin φ ^ 2) ≤ 1 := by
  have h1 := Real.sin_sq_le_one φ
  have h0 := sq_nonneg (Real.sin φ)
  have e1 := ellE2_le
  have e0 := ellE2_pos
  have ha : 0.9933 ≤ 1 - ellE2 * Real.sin φ ^ 2 := by nlinarith
  refine ⟨ha, by nlinarith, ?_, ?_⟩
  · exact Real.le_sqrt_of_sq_le (by norm_num at *; linarith)
  · rw [Real.sqrt_le_one]; nlinarith

theorem heightError_bounds (φ : ℝ) : 0 ≤ heightError φ ∧ heightError φ ≤ 21.6 := by
  obtain ⟨h1, h2, h3, h4⟩ := w_bounds φ
  have hsq : Real.sqrt (1 - ellE2 * Real.sin φ ^ 2) ^ 2 = 1 - ellE2 * Real.sin φ ^ 2 := Real.sq_sqrt (by linarith)
  unfold heightError
  rw [← hsq]
  rw [Real.sqrt_sq (by linarith)]
  generalize Real.sqrt (1 - ellE2 * Real.sin φ ^ 2) = W at *
  have hW : 0 < W := by linarith
  have e : 1 / W ^ 2 - 1 / W = (1 - W) / W ^ 2 := by field_simp
  rw [e, equatorial]
  constructor
  · have : 0 ≤ 1 - W := by linarith
    positivity
  · rw [← mul_div_assoc, div_le_iff₀ (by positivity)]
    nlinarith

/-- moving the tip of a vector along the axis -/
theorem tip_moved {R φ Δ : ℝ} (hφ : φ ∈ Set.Ioo (-(Real.pi / 2)) (Real.pi / 2)) (hΔ : |Δ| < R) :
    |atan2R (R * Real.sin φ + Δ) (R * Real.cos φ) - φ| ≤ |Δ| * Real.cos φ / (R - |Δ|) ∧
    ∃ ρ, |ρ - R| ≤ |Δ| ∧ 0 < ρ ∧ 0 < Real.cos (atan2R (R * Real.sin φ + Δ) (R * Real.cos φ)) ∧
      ρ * Real.cos (atan2R (R * Real.sin φ + Δ) (R * Real.cos φ)) = R * Real.cos φ := by
  have hc : 0 < Real.cos φ := Real.cos_pos_of_mem_Ioo hφ
  have hR : 0 < R := lt_of_le_of_lt (abs_nonneg _) hΔ
  obtain ⟨d1, d2⟩ := abs_lt.mp hΔ
  set ψ := atan2R (R * Real.sin φ + Δ) (R * Real.cos φ) with hψ
  have a1 := atan2R_cos (R * Real.sin φ + Δ) (R * Real.cos φ)
  have a2 := atan2R_sin (R * Real.sin φ + Δ) (R * Real.cos φ)
  rw [← hψ] at a1 a2
  set ρ := Real.sqrt ((R * Real.cos φ) ^ 2 + (R * Real.sin φ + Δ) ^ 2) with hρ
  have hpyth := Real.sin_sq_add_cos_sq φ
  have hρ2 : ρ ^ 2 = R ^ 2 + 2 * R * Δ * Real.sin φ + Δ ^ 2 := by
    rw [hρ, Real.sq_sqrt (by positivity)]
    linear_combination R ^ 2 * hpyth
  have hs1 := Real.sin_le_one φ
  have hs2 := Real.neg_one_le_sin φ
  have hΔs : |Δ * Real.sin φ| ≤ |Δ| := by
    rw [abs_mul]; exact mul_le_of_le_one_right (abs_nonneg _) (Real.abs_sin_le_one φ)
  obtain ⟨ds1, ds2⟩ := abs_le.mp hΔs
  have hρ0 : 0 < ρ := by
    refine lt_of_le_of_ne (Real.sqrt_nonneg _) fun h0 => ?_
    rw [← h0] at a1
    have := mul_pos hR hc
    linarith
  have habs : |Δ| ^ 2 = Δ ^ 2 := sq_abs Δ
  have hlow : R - |Δ| ≤ ρ := by
    refine le_of_sq_le_sq ?_ hρ0.le
    rw [hρ2]
    nlinarith [abs_nonneg Δ]
  have hup : ρ ≤ R + |Δ| := by
    refine le_of_sq_le_sq ?_ (by positivity)
    rw [hρ2]
    nlinarith [abs_nonneg Δ]
  have hcψ : 0 < Real.cos ψ := by
    have := mul_pos hR hc
    rw [← a1] at this
    exact (pos_iff_pos_of_mul_pos this).mp hρ0
  refine ⟨?_, ρ, abs_le.mpr ⟨by linarith, by linarith⟩, hρ0, hcψ, a1⟩
  -- the angle between the two directions
  have hsd : ρ * Real.sin (ψ - φ) = Δ * Real.cos φ := by
    rw [Real.sin_sub]; linear_combination Real.cos φ * a2 - Real.sin φ * a1
  have hcd : ρ * Real.cos (ψ - φ) = R + Δ * Real.sin φ := by
    rw [Real.cos_sub]; linear_combination Real.cos φ * a1 + Real.sin φ * a2 + R * hpyth
  have hcd0 : 0 < Real.cos (ψ - φ) := by
    have : 0 < R + Δ * Real.sin φ := by linarith
    rw [← hcd] at this
    exact (pos_iff_pos_of_mul_pos this).mp hρ0
  have hψm : ψ ∈ Set.Icc (-(Real.pi / 2)) (Real.pi / 2) := atan2R_half (mul_pos hR hc).le
  have hlt : |ψ - φ| < Real.pi / 2 := by
    by_contra hcon
    push Not at hcon
    have hle : |ψ - φ| ≤ Real.pi + Real.pi / 2 := by
      rw [abs_le]; constructor <;> linarith [hψm.1, hψm.2, hφ.1, hφ.2, Real.pi_pos]
    have := Real.cos_nonpos_of_pi_div_two_le_of_le hcon hle
    rw [Real.cos_abs] at this
    linarith
  have htan : |ψ - φ| ≤ |Real.tan (ψ - φ)| := by
    rcases le_total 0 (ψ - φ) with h | h
    · rw [abs_of_nonneg h] at hlt ⊢
      exact (Real.le_tan h hlt).trans (le_abs_self _)
    · rw [abs_of_nonpos h] at hlt ⊢
      refine (Real.le_tan (by linarith) hlt).trans ?_
      rw [Real.tan_neg]; exact neg_le_abs _
  refine htan.trans ?_
  have ht : Real.tan (ψ - φ) = Δ * Real.cos φ / (R + Δ * Real.sin φ) := by
    rw [Real.tan_eq_sin_div_cos, ← hsd, ← hcd]; field_simp
  rw [ht, abs_div, abs_mul, abs_of_pos hc, abs_of_pos (show 0 < R + Δ * Real.sin φ by linarith)]
  exact div_le_div_of_nonneg_left (by positivity) (by linarith) (by linarith)

/-- one step of the iteration moves the tip by this much -/
theorem tip_error (x φ : ℝ) :
    |equatorial * (1 / (1 - ellE2 * Real.sin x ^ 2)) * ellE2 * Real.sin x - ellE2 * primeVertical φ * Real.sin φ| ≤ 43.7 * |x - φ| + 0.145 := by
  obtain ⟨h1, h2, -, -⟩ := w_bounds x
  obtain ⟨k1, k2, k3, k4⟩ := w_bounds φ
  have e0 := ellE2_pos
  have e1 := ellE2_le
  have hd : |Real.sin x - Real.sin φ| ≤ |x - φ| := sin_lipschitz x φ
  have hH := heightError_bounds φ
  have hsplit : equatorial * (1 / (1 - ellE2 * Real.sin x ^ 2)) * ellE2 * Real.sin x - ellE2 * primeVertical φ * Real.sin φ =
      equatorial * ellE2 * ((1 + ellE2 * Real.sin x * Real.sin φ) / ((1 - ellE2 * Real.sin x ^ 2) * (1 - ellE2 * Real.sin φ ^ 2))) *
        (Real.sin x - Real.sin φ) + ellE2 * heightError φ * Real.sin φ := by
    unfold heightError primeVertical
    have hw1 : 1 - ellE2 * Real.sin x ^ 2 ≠ 0 := by linarith
    have hw2 : 1 - ellE2 * Real.sin φ ^ 2 ≠ 0 := by linarith
    have hw3 : Real.sqrt (1 - ellE2 * Real.sin φ ^ 2) ≠ 0 := by linarith
    generalize Real.sqrt (1 - ellE2 * Real.sin φ ^ 2) = W at *
    field_simp
    ring
  rw [hsplit]
  have hxy : |Real.sin x * Real.sin φ| ≤ 1 := by
    rw [abs_mul]
    calc _ ≤ (1 : ℝ) * 1 := mul_le_mul (Real.abs_sin_le_one x) (Real.abs_sin_le_one φ) (abs_nonneg _) (by norm_num)
      _ = 1 := by ring
  obtain ⟨xy1, xy2⟩ := abs_le.mp hxy
  have hq : |(1 + ellE2 * Real.sin x * Real.sin φ) / ((1 - ellE2 * Real.sin x ^ 2) * (1 - ellE2 * Real.sin φ ^ 2))| ≤ 1.0204 := by
    have hp : 0.98664 ≤ (1 - ellE2 * Real.sin x ^ 2) * (1 - ellE2 * Real.sin φ ^ 2) := by nlinarith
    have hnum : |1 + ellE2 * Real.sin x * Real.sin φ| ≤ 1.0067 := by
      rw [mul_assoc, abs_le]; constructor <;> nlinarith
    rw [abs_div, abs_of_pos (show 0 < (1 - ellE2 * Real.sin x ^ 2) * (1 - ellE2 * Real.sin φ ^ 2) by linarith),
      div_le_iff₀ (by linarith)]
    linarith
  refine (abs_add_le _ _).trans (add_le_add ?_ ?_)
  · rw [abs_mul, abs_mul, abs_of_pos (mul_pos (by rw [equatorial]; norm_num) e0)]
    calc _ ≤ (6378.137 * 0.0067) * 1.0204 * |x - φ| := by
          gcongr
          rw [equatorial]
      _ ≤ _ := by nlinarith [abs_nonneg (x - φ)]
  · rw [abs_mul, abs_mul, abs_of_pos e0, abs_of_nonneg hH.1]
    calc _ ≤ 0.0067 * 21.6 * (1 : ℝ) := by
          gcongr
          · exact hH.1
          · exact hH.2
          · exact Real.abs_sin_le_one φ
      _ ≤ _ := by norm_num

/-- the iteration of `eci_to_geodedic` at the point of latitude `φ` at distance `R` along the normal from the axis -/
theorem latitude_iteration {φ R z c₀ : ℝ} (hlat : φ ∈ Set.Ioo (-(Real.pi / 2)) (Real.pi / 2)) (hR : 6278 ≤ R)
    (hz : z = R * Real.sin φ - ellE2 * primeVertical φ * Real.sin φ) :
    |(latLoop z (R * Real.cos φ) 20 (atan2R z (R * Real.cos φ), c₀)).1 - φ| * R ≤ 0.15 * Real.cos φ ∧
    |R * Real.cos φ / Real.cos (latLoop z (R * Real.cos φ) 20 (atan2R z (R * Real.cos φ), c₀)).1 -
      equatorial * (latLoop z (R * Real.cos φ) 20 (atan2R z (R * Real.cos φ), c₀)).2 -
      (R - primeVertical φ - heightError φ)| ≤ 0.155 := by
  have hcos : 0 < Real.cos φ := Real.cos_pos_of_mem_Ioo hlat
  obtain ⟨w1, w2, w3, w4⟩ := w_bounds φ
  have hN1 : 6378.137 ≤ primeVertical φ := by
    rw [primeVertical, equatorial, le_div_iff₀ (by linarith)]; nlinarith
  have hN2 : primeVertical φ ≤ 6400 := by
    rw [primeVertical, equatorial, div_le_iff₀ (by linarith)]; nlinarith
  have e0 := ellE2_pos
  have e1 := ellE2_le
  have hstep : ∀ st : ℝ × ℝ, latStep z (R * Real.cos φ) st =
      (atan2R (R * Real.sin φ + (equatorial * (1 / (1 - ellE2 * Real.sin st.1 ^ 2)) * ellE2 * Real.sin st.1 - ellE2 * primeVertical φ * Real.sin φ))
        (R * Real.cos φ), 1 / (1 - ellE2 * Real.sin st.1 ^ 2)) := by
    intro st
    have h1 : (1.0 : ℝ) / (1.0 - ellE2 * Real.sin st.1 ^ 2) = 1 / (1 - ellE2 * Real.sin st.1 ^ 2) := by norm_num
    have hA : (ellA : ℝ) = equatorial := rfl
    simp only [latStep, real_atan2, real_powi2, real_sin]
    rw [show (OfScientific.ofScientific 10 true 1 : ℝ) / (OfScientific.ofScientific 10 true 1 - ellE2 * Real.sin st.1 ^ 2) =
      1 / (1 - ellE2 * Real.sin st.1 ^ 2) from h1, hA, hz]
    congr 2
    ring
  set Δ : ℝ → ℝ := fun x => equatorial * (1 / (1 - ellE2 * Real.sin x ^ 2)) * ellE2 * Real.sin x - ellE2 * primeVertical φ * Real.sin φ with hΔ
  have hmove : ∀ (x b : ℝ), |x - φ| ≤ b → b ≤ 0.007 →
      |Δ x| ≤ 43.7 * b + 0.145 ∧ |atan2R (R * Real.sin φ + Δ x) (R * Real.cos φ) - φ| ≤ (43.7 * b + 0.145) * Real.cos φ / (R - (43.7 * b + 0.145)) := by
    intro x b hb hb7
    have h1 : |Δ x| ≤ 43.7 * b + 0.145 := (tip_error x φ).trans (by linarith)
    refine ⟨h1, ((tip_moved hlat (by linarith)).1).trans ?_⟩
    exact div_le_div₀ (mul_nonneg (by linarith [abs_nonneg (Δ x)]) hcos.le) (mul_le_mul_of_nonneg_right h1 hcos.le) (by linarith) (by linarith)
  have hc1 := Real.cos_le_one φ
  set x0 : ℝ × ℝ := (atan2R z (R * Real.cos φ), c₀) with hx0
  have s0 : |x0.1 - φ| ≤ 0.007 := by
    have hΔ0 : |-(ellE2 * primeVertical φ * Real.sin φ)| ≤ 42.9 := by
      rw [abs_neg, abs_mul, abs_of_pos (mul_pos e0 (by linarith))]
      calc _ ≤ (0.0067 * 6400) * (1 : ℝ) := by
            gcongr
            exact Real.abs_sin_le_one φ
        _ ≤ _ := by norm_num
    have := (tip_moved (R := R) (Δ := -(ellE2 * primeVertical φ * Real.sin φ)) hlat (by linarith)).1
    rw [show R * Real.sin φ + -(ellE2 * primeVertical φ * Real.sin φ) = z by rw [hz]; ring] at this
    refine this.trans ?_
    rw [div_le_iff₀ (by linarith)]
    nlinarith [abs_nonneg (-(ellE2 * primeVertical φ * Real.sin φ))]
  have s1 : |(latLoop z (R * Real.cos φ) 1 x0).1 - φ| ≤ 0.00008 := by
    rw [latLoop_succ, hstep]
    refine ((hmove _ _ s0 (le_refl _)).2).trans ?_
    rw [div_le_iff₀ (by linarith)]
    nlinarith
  have s2 : ∀ n, |(latLoop z (R * Real.cos φ) (n + 2) x0).1 - φ| ≤ 0.149 * Real.cos φ / R := by
    intro n
    have hb : |(latLoop z (R * Real.cos φ) (n + 1) x0).1 - φ| ≤ 0.00008 := by
      induction n with
      | zero => exact s1
      | succ n ih =>
        rw [latLoop_succ, hstep]
        refine ((hmove _ _ ih (by norm_num)).2).trans ?_
        rw [div_le_iff₀ (by linarith)]
        nlinarith
    rw [latLoop_succ, hstep]
    refine ((hmove _ _ hb (by norm_num)).2).trans ?_
    rw [div_le_div_iff₀ (by linarith) (by linarith)]
    nlinarith
  have h19 := s2 17
  have hb19 : |(latLoop z (R * Real.cos φ) 19 x0).1 - φ| ≤ 0.00003 := by
    refine h19.trans ?_
    rw [div_le_iff₀ (by linarith)]
    nlinarith
  have h20 := s2 18
  have e20 : latLoop z (R * Real.cos φ) 20 x0 = latStep z (R * Real.cos φ) (latLoop z (R * Real.cos φ) 19 x0) := latLoop_succ _ _ 19 _
  constructor
  · calc _ ≤ 0.149 * Real.cos φ / R * R := mul_le_mul_of_nonneg_right h20 (by linarith)
      _ = 0.149 * Real.cos φ := by field_simp
      _ ≤ _ := by nlinarith
  · rw [e20, hstep]
    dsimp only
    set y := (latLoop z (R * Real.cos φ) 19 x0).1 with hy
    obtain ⟨hd1, -⟩ := hmove y _ hb19 (by norm_num)
    obtain ⟨-, ρ, hρ1, hρ0, hcp, hρ⟩ := tip_moved (R := R) (Δ := Δ y) hlat (by linarith)
    have hdiv : R * Real.cos φ / Real.cos (atan2R (R * Real.sin φ + Δ y) (R * Real.cos φ)) = ρ := by
      rw [div_eq_iff hcp.ne', hρ]
    rw [show (equatorial * (1 / (1 - ellE2 * Real.sin y ^ 2)) * ellE2 * Real.sin y - ellE2 * primeVertical φ * Real.sin φ) = Δ y from rfl, hdiv]
    obtain ⟨y1, y2, -, -⟩ := w_bounds y
    have hcc : |equatorial * (1 / (1 - ellE2 * Real.sin y ^ 2)) - equatorial * (1 / (1 - ellE2 * Real.sin φ ^ 2))| ≤ 0.003 := by
      have hw1 : 1 - ellE2 * Real.sin y ^ 2 ≠ 0 := by linarith
      have hw2 : 1 - ellE2 * Real.sin φ ^ 2 ≠ 0 := by linarith
      have hsd : |Real.sin y - Real.sin φ| ≤ 0.00003 := (sin_lipschitz y φ).trans hb19
      have hss : |Real.sin y + Real.sin φ| ≤ 2 :=
        (abs_add_le _ _).trans (by linarith [Real.abs_sin_le_one y, Real.abs_sin_le_one φ])
      have : equatorial * (1 / (1 - ellE2 * Real.sin y ^ 2)) - equatorial * (1 / (1 - ellE2 * Real.sin φ ^ 2)) =
          equatorial * ellE2 * ((Real.sin y - Real.sin φ) * (Real.sin y + Real.sin φ)) / ((1 - ellE2 * Real.sin y ^ 2) * (1 - ellE2 * Real.sin φ ^ 2)) := by
        field_simp; ring
      have hp : 0.98664 ≤ (1 - ellE2 * Real.sin y ^ 2) * (1 - ellE2 * Real.sin φ ^ 2) := by nlinarith
      rw [this, abs_div, abs_of_pos (show 0 < (1 - ellE2 * Real.sin y ^ 2) * (1 - ellE2 * Real.sin φ ^ 2) by linarith), div_le_iff₀ (by linarith),
        abs_mul (equatorial * ellE2), abs_mul (Real.sin y - Real.sin φ), abs_of_pos (mul_pos (show 0 < equatorial by rw [equatorial]; norm_num) e0)]
      have h4 : equatorial * ellE2 * (|Real.sin y - Real.sin φ| * |Real.sin y + Real.sin φ|) ≤ (6378.137 * 0.0067) * (0.00003 * 2) := by
        have h5 : equatorial * ellE2 ≤ 6378.137 * 0.0067 := by rw [equatorial]; linarith
        exact mul_le_mul h5 (mul_le_mul hsd hss (abs_nonneg _) (by norm_num)) (by positivity) (by norm_num)
      have h6 : (6378.137 * 0.0067 : ℝ) * (0.00003 * 2) ≤ 0.003 * 0.98664 := by norm_num
      linarith
    have hfin : ρ - equatorial * (1 / (1 - ellE2 * Real.sin y ^ 2)) - (R - primeVertical φ - heightError φ) =
        (ρ - R) - (equatorial * (1 / (1 - ellE2 * Real.sin y ^ 2)) - equatorial * (1 / (1 - ellE2 * Real.sin φ ^ 2))) := by
      unfold heightError primeVertical; ring
    rw [hfin]
    have h3 := abs_sub (ρ - R) (equatorial * (1 / (1 - ellE2 * Real.sin y ^ 2)) - equatorial * (1 / (1 - ellE2 * Real.sin φ ^ 2)))
    linarith

/-- **C40**, quantitatively: for every position outside the poles at a height above -100 km, and every sidereal angle, the round trip
returns the longitude (normalised), a latitude at most 150 m (on the ground) off, and a height that is too low by `heightError`
(between 0 and 21.6 km), within 155 m. -/
theorem C40_error_bound (g : Geodedic ℝ) (θ : ℝ) (hlat : g.latitude ∈ Set.Ioo (-(Real.pi / 2)) (Real.pi / 2)) (hh : -100 ≤ g.height) :
    ∃ g', eci_to_geodedic (ecf_to_eci (geodedic_to_ecf g) θ) θ = some g' ∧
      SameAngle g'.longitude g.longitude ∧ g'.longitude ∈ Set.Icc (-Real.pi) Real.pi ∧
      |g'.latitude - g.latitude| * (primeVertical g.latitude + g.height) ≤ 0.15 * Real.cos g.latitude ∧
      |g'.height - (g.height - heightError g.latitude)| ≤ 0.155 := by
  have hcos : 0 < Real.cos g.latitude := Real.cos_pos_of_mem_Ioo hlat
  obtain ⟨w1, w2, w3, w4⟩ := w_bounds g.latitude
  have hN1 : 6378.137 ≤ primeVertical g.latitude := by
    rw [primeVertical, equatorial, le_div_iff₀ (by linarith)]; nlinarith
  have hN2 : primeVertical g.latitude ≤ 6400 := by
    rw [primeVertical, equatorial, div_le_iff₀ (by linarith)]; nlinarith
  set φ := g.latitude with hφ
  set R := primeVertical φ + g.height with hRd
  have hR : 6278 ≤ R := by linarith
  have hr0 : 0 < R * Real.cos φ := mul_pos (by linarith) hcos
  have hr := ecf_axis_radius g θ hr0.le
  have hz : (ecf_to_eci (geodedic_to_ecf g) θ).z = R * Real.sin φ - ellE2 * primeVertical φ * Real.sin φ := by
    rw [geodedic_to_ecf_real]
    show (primeVertical φ * (1 - ellE2) + g.height) * Real.sin φ = _
    rw [hRd]; ring
  have hxx : (ecf_to_eci (geodedic_to_ecf g) θ).x = (R * Real.cos φ) * Real.cos (g.longitude + θ) := by
    rw [geodedic_to_ecf_real]; simp only [ecf_to_eci, real_cos, real_sin, Real.cos_add]; ring
  have hyy : (ecf_to_eci (geodedic_to_ecf g) θ).y = (R * Real.cos φ) * Real.sin (g.longitude + θ) := by
    rw [geodedic_to_ecf_real]; simp only [ecf_to_eci, real_cos, real_sin, Real.sin_add]; ring
  obtain ⟨g', hg, hg1, hg2, -⟩ := C41_longitude_normalised (ecf_to_eci (geodedic_to_ecf g) θ) θ
  have hlong : SameAngle g'.longitude g.longitude := by
    have a1 := atan2R_cos ((R * Real.cos φ) * Real.sin (g.longitude + θ)) ((R * Real.cos φ) * Real.cos (g.longitude + θ))
    have a2 := atan2R_sin ((R * Real.cos φ) * Real.sin (g.longitude + θ)) ((R * Real.cos φ) * Real.cos (g.longitude + θ))
    have hq : Real.sqrt (((R * Real.cos φ) * Real.cos (g.longitude + θ)) ^ 2 + ((R * Real.cos φ) * Real.sin (g.longitude + θ)) ^ 2) =
        R * Real.cos φ := by rw [← hxx, ← hyy]; exact hr
    rw [hq] at a1 a2
    obtain ⟨j, hj⟩ := sin_cos_eq_same (mul_left_cancel₀ hr0.ne' a1) (mul_left_cancel₀ hr0.ne' a2)
    obtain ⟨i, hi⟩ := hg2
    rw [hxx, hyy, hj] at hi
    exact ⟨i + j, by rw [hi]; push_cast; ring⟩
  refine ⟨g', hg, hlong, hg1, ?_⟩
  clear hg1 hlong hg2 hxx hyy
  generalize ecf_to_eci (geodedic_to_ecf g) θ = p at *
  have hr' : Real.sqrt (p.x * p.x + p.y * p.y) = R * Real.cos φ := by
    have : Real.sqrt (p.x ^ 2 + p.y ^ 2) = R * Real.cos φ := hr
    rw [← this]; congr 1; ring
  have hr2 : Real.sqrt (p.x ^ 2 + p.y ^ 2) = R * Real.cos φ := hr
  obtain ⟨k, hk1, _⟩ := wrapUp_real (atan2R p.y p.x - θ)
  obtain ⟨m, hm1, _⟩ := wrapDown_real (atan2R p.y p.x - θ + k * (2 * Real.pi))
  simp only [eci_to_geodedic, real_atan2, hk1, hm1, Option.some.injEq, real_sqrt, real_powi2, hr', hr2, real_cos] at hg
  have hit := latitude_iteration (c₀ := 0.0) hlat hR hz
  have hlat' : g'.latitude = (latLoop p.z (R * Real.cos φ) 20 (atan2R p.z (R * Real.cos φ), 0.0)).1 := by rw [← hg]
  have hh' : g'.height = R * Real.cos φ / Real.cos (latLoop p.z (R * Real.cos φ) 20 (atan2R p.z (R * Real.cos φ), 0.0)).1 -
      equatorial * (latLoop p.z (R * Real.cos φ) 20 (atan2R p.z (R * Real.cos φ), 0.0)).2 := by rw [← hg]; rfl
  rw [hlat', hh']
  rw [show R - primeVertical φ - heightError φ = g.height - heightError φ by rw [hRd]; ring] at hit
  exact hit

/-- a station at 45° north, 400 km up -/
example : (Real.pi / 4 : ℝ) ∈ Set.Ioo (-(Real.pi / 2)) (Real.pi / 2) ∧ (-100 : ℝ) ≤ 400 := by
  have := Real.pi_pos
  exact ⟨⟨by linarith, by linarith⟩, by norm_num⟩

end Sat
