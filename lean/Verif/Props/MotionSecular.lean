import Verif.Props.MotionOrbit
import Verif.Props.LongTerm
import Verif.Spec.LowPerigee
/-!
# C88: rates of the mean elements of the secular theory
-/

namespace Sat
open Spec.R3 Filter Topology
open Spec (lowness one_le_lowness lowness_le lowness_mul scaled_mul scaled_mul_spare scaled_le)

/-- the parameter of the mean ellipse in earth radii -/
noncomputable def latus (q : Orbit) : ℝ := q.a * (1 - q.e ^ 2)

set_option maxHeartbeats 1000000 in
/-- The secular rates in units of the mean motion. -/
theorem secular_rates {q : Orbit} (hn : 0 < q.n) (he : 0 ≤ q.e ∧ q.e < 1) (hp : 1 ≤ q.a * (1 - q.e)) :
    1 + q.e ≤ latus q ∧ |q.rateAnomaly / q.n - 1| ≤ 0.00164 / latus q ^ 2 ∧ |q.ratePerigee / q.n| ≤ 0.0033 / latus q ^ 2 ∧
      |q.rateNode / q.n| ≤ 0.00165 / latus q ^ 2 := by
  obtain ⟨e0, e1⟩ := he
  have hP : 1 + q.e ≤ latus q := by unfold latus; nlinarith
  refine ⟨hP, ?_⟩
  have hP1 : 1 ≤ latus q := by linarith
  have hP0 : 0 < latus q := by linarith
  have ha0 : 0 < q.a := by
    by_contra h; push Not at h; nlinarith
  have hb2 : q.β ^ 2 = 1 - q.e ^ 2 := Real.sq_sqrt (by nlinarith)
  have hb0 : 0 < q.β := Real.sqrt_pos.mpr (by nlinarith)
  have hb1 : q.β ≤ 1 := Real.sqrt_le_one.mpr (by nlinarith [sq_nonneg q.e])
  have hl : latus q = q.a * q.β ^ 2 := by rw [hb2]; rfl
  set w := 1 / latus q ^ 2 with hw
  have hw0 : 0 < w := by positivity
  have hw1 : w ≤ 1 := by rw [hw, div_le_one (by positivity)]; nlinarith
  have k2a : |k2| ≤ 0.0005414 := by unfold k2 j2; rw [abs_of_pos] <;> norm_num
  have k2b : |k2 ^ 2| ≤ 0.0000003 := by unfold k2 j2; rw [abs_of_pos] <;> norm_num
  have k4a : |k4| ≤ 0.00000061 := by unfold k4 j4; rw [abs_of_pos] <;> norm_num
  have t0 : 0 ≤ q.θ ^ 2 := sq_nonneg _
  have t1 : q.θ ^ 2 ≤ 1 := by unfold Orbit.θ; exact Real.cos_sq_le_one _
  have tt : |q.θ| ≤ 1 := Real.abs_cos_le_one _
  set c := q.θ ^ 2 with hc
  have p1 : |13 - 78 * c + 137 * c ^ 2| ≤ 72 := by rw [abs_le]; constructor <;> nlinarith [sq_nonneg (c - 39 / 137)]
  have p2 : |7 - 114 * c + 395 * c ^ 2| ≤ 288 := by rw [abs_le]; constructor <;> nlinarith [sq_nonneg (c - 57 / 395)]
  have p3 : |3 - 36 * c + 49 * c ^ 2| ≤ 16 := by rw [abs_le]; constructor <;> nlinarith [sq_nonneg (c - 18 / 49)]
  have p4 : |4 - 19 * c| ≤ 15 := by rw [abs_le]; constructor <;> linarith
  have p5 : |3 - 7 * c| ≤ 4 := by rw [abs_le]; constructor <;> linarith
  have p6 : |-1 + 3 * c| ≤ 2 := by rw [abs_le]; constructor <;> linarith
  have p7 : |1 - 5 * c| ≤ 4 := by rw [abs_le]; constructor <;> linarith
  have bβ : |q.β| ≤ 1 := by rwa [abs_of_pos hb0]
  have bw : |w| ≤ 1 := by rwa [abs_of_pos hw0]
  have c4 : q.θ ^ 4 = c ^ 2 := by rw [hc]; ring
  have hda : q.a ^ 2 * q.β ^ 4 = latus q ^ 2 := by rw [hl]; ring
  refine ⟨?_, ?_, ?_⟩
  · have e : q.rateAnomaly / q.n - 1 = (3 / 2 * (k2 * (-1 + 3 * c)) * q.β + 3 / 16 * (k2 ^ 2 * (13 - 78 * c + 137 * c ^ 2)) * q.β * w) * w := by
      unfold Orbit.rateAnomaly
      rw [c4, ← hc, hw, hl]
      field_simp
      ring
    rw [e, show 0.00164 / latus q ^ 2 = 0.00164 * w by rw [hw]; ring, abs_mul, abs_of_pos hw0]
    gcongr
    refine (abs_add_bd (abs_mul_bd (abs_mul_bd (show |(3 / 2 : ℝ)| ≤ 3 / 2 by norm_num) (abs_mul_bd k2a p6)) bβ)
      (abs_mul_bd (abs_mul_bd (abs_mul_bd (show |(3 / 16 : ℝ)| ≤ 3 / 16 by norm_num) (abs_mul_bd k2b p1)) bβ) bw)).trans (by norm_num)
  · have e : q.ratePerigee / q.n = (-(3 / 2) * (k2 * (1 - 5 * c)) + 3 / 16 * (k2 ^ 2 * (7 - 114 * c + 395 * c ^ 2)) * w +
        5 / 4 * (k4 * (3 - 36 * c + 49 * c ^ 2)) * w) * w := by
      unfold Orbit.ratePerigee
      rw [c4, ← hc, hw, hl]
      field_simp
    rw [e, show 0.0033 / latus q ^ 2 = 0.0033 * w by rw [hw]; ring, abs_mul, abs_of_pos hw0]
    gcongr
    refine (abs_add_bd (abs_add_bd (abs_mul_bd (show |(-(3 / 2) : ℝ)| ≤ 3 / 2 by norm_num) (abs_mul_bd k2a p7))
      (abs_mul_bd (abs_mul_bd (show |(3 / 16 : ℝ)| ≤ 3 / 16 by norm_num) (abs_mul_bd k2b p2)) bw))
      (abs_mul_bd (abs_mul_bd (show |(5 / 4 : ℝ)| ≤ 5 / 4 by norm_num) (abs_mul_bd k4a p3)) bw)).trans (by norm_num)
  · have e : q.rateNode / q.n = (-3 * (k2 * q.θ) + 3 / 2 * (k2 ^ 2 * (q.θ * (4 - 19 * c))) * w + 5 / 2 * (k4 * (q.θ * (3 - 7 * c))) * w) * w := by
      unfold Orbit.rateNode
      rw [show q.θ ^ 3 = q.θ * c by rw [hc]; ring, ← hc, hw, hl]
      field_simp
    rw [e, show 0.00165 / latus q ^ 2 = 0.00165 * w by rw [hw]; ring, abs_mul, abs_of_pos hw0]
    gcongr
    refine (abs_add_bd (abs_add_bd (abs_mul_bd (show |(-3 : ℝ)| ≤ 3 by norm_num) (abs_mul_bd k2a tt))
      (abs_mul_bd (abs_mul_bd (show |(3 / 2 : ℝ)| ≤ 3 / 2 by norm_num) (abs_mul_bd k2b (abs_mul_bd tt p4))) bw))
      (abs_mul_bd (abs_mul_bd (show |(5 / 2 : ℝ)| ≤ 5 / 2 by norm_num) (abs_mul_bd k4a (abs_mul_bd tt p5))) bw)).trans (by norm_num)

theorem longL_small {i : ℝ} (h : 1 / 100 ≤ 1 + Real.cos i) : |longL i| ≤ 0.1 := by
  unfold longL
  rw [max_eq_left (le_trans (by norm_num) h)]
  set s := Real.sin i
  set c := Real.cos i
  have hs : s ^ 2 + c ^ 2 = 1 := Real.sin_sq_add_cos_sq i
  have hc1 : c ≤ 1 := Real.cos_le_one i
  have h1 : |s / (1 + c)| ≤ 14.2 := by
    rw [abs_div, abs_of_pos (by linarith : 0 < 1 + c), div_le_iff₀ (by linarith)]
    apply abs_le_of_sq_le_sq _ (by norm_num; linarith)
    have : s ^ 2 = (1 - c) * (1 + c) := by linear_combination hs
    rw [this]
    norm_num; nlinarith
  have h2 : |3 + 5 * c| ≤ 8 := by rw [abs_le]; constructor <;> linarith
  have h3 : |a30 / (8 * k2)| ≤ 0.0006 := by
    unfold a30 j3 k2 j2; rw [abs_of_pos] <;> norm_num
  rw [show a30 * s / (8 * k2) * ((3 + 5 * c) / (1 + c)) = a30 / (8 * k2) * (s / (1 + c)) * (3 + 5 * c) by ring]
  exact (abs_mul_bd (abs_mul_bd h3 h1) h2).trans (by norm_num)

/-- the mean motion belongs to the semi-major axis -/
theorem motion_of_axis {q : Orbit} (hn : 0 < q.n) : ke / q.a ^ (3 / 2 : ℝ) = q.n := by
  have hk : (0:ℝ) < ke := by unfold ke; norm_num
  unfold Orbit.a
  rw [← Real.rpow_mul (by positivity)]
  norm_num
  field_simp

theorem mean_noDrag {q : Orbit} (h : q.bstar = 0) (node t : ℝ) :
    q.mean node t = { a := q.a, e := max q.e (1 / 10 ^ 6), ω := q.argp + q.ratePerigee * t, Ω := node + q.rateNode * t,
                      L := (q.anom + q.rateAnomaly * t) + (q.argp + q.ratePerigee * t) + (node + q.rateNode * t), i := q.inc } := by
  have hC : q.C1 = 0 := by unfold Orbit.C1; rw [h, zero_mul]
  have hδ : q.δωM t = 0 := by
    unfold Orbit.δωM Orbit.dω Orbit.dM; rw [h]; simp
  have hL : q.dL t = 0 := by
    unfold Orbit.dL Orbit.D2 Orbit.D3 Orbit.D4; rw [hC]; simp
  have hΩ : q.dΩ = 0 := by unfold Orbit.dΩ; rw [hC, mul_zero]
  unfold Orbit.mean
  rw [aT_noDrag h, eRaw_noDrag h]
  unfold Orbit.L Orbit.Mp Orbit.ω Orbit.Ω Orbit.MDF Orbit.ωDF
  rw [hδ, hL, hΩ]
  congr 1 <;> ring

/-- An orbit without drag: eccentricity at most 0.43, perigee not below the surface, inclination below 171 degrees. -/
theorem rates_noDrag {q : Orbit} (hb : q.bstar = 0) (hn : 0 < q.n) (he : 0 ≤ q.e ∧ q.e ≤ 0.43) (hp : 1.0001 ≤ q.a * (1 - q.e))
    (hi : 1 / 100 ≤ 1 + Real.cos q.inc) (node t : ℝ) :
    Rates (q.mean node) t 0 q.ratePerigee q.rateNode 0 (q.rateAnomaly + q.ratePerigee + q.rateNode) := by
  obtain ⟨e0, e1⟩ := he
  obtain ⟨hP, r1, r2, r3⟩ := secular_rates hn ⟨e0, lt_of_le_of_lt e1 (by norm_num)⟩ (by norm_num at *; linarith)
  have ha0 : 0 < q.a := by
    by_contra h; push Not at h; norm_num at *; nlinarith
  have hm := mean_noDrag hb node
  have hme : q.mean node = fun t => q.mean node t := rfl
  have hnn : ∀ t, (q.mean node t).n = q.n := fun t => by
    rw [← motion_of_axis hn]; show ke / (q.mean node t).a ^ _ = _; rw [hm]
  have hP0 : 0 < latus q := by linarith
  have hPs : (1 + q.e) ^ 2 ≤ latus q ^ 2 := by gcongr
  have hPs1 : 1 ≤ latus q ^ 2 := by nlinarith
  have r1' : |q.rateAnomaly / q.n - 1| ≤ 0.00164 := r1.trans (div_le_self (by norm_num) hPs1)
  have r2' : |q.ratePerigee / q.n| ≤ 0.0033 := r2.trans (div_le_self (by norm_num) hPs1)
  have r3' : |q.rateNode / q.n| ≤ 0.00165 := r3.trans (div_le_self (by norm_num) hPs1)
  have r4 : |q.e * (q.ratePerigee / q.n)| ≤ 0.00083 := by
    refine (abs_mul_bd (le_of_eq (abs_of_nonneg e0)) r2).trans ?_
    rw [mul_div_assoc', div_le_iff₀ (by positivity)]
    norm_num at *; nlinarith [sq_nonneg (1 - q.e)]
  have un : ∀ {x y : ℝ}, |x / q.n| ≤ y → |x| ≤ y * q.n := fun {x y} h => by
    rwa [abs_div, abs_of_pos hn, div_le_iff₀ hn] at h
  have lin : ∀ a b : ℝ, HasDerivAt (fun s : ℝ => a + b * s) b t := fun a b => by
    simpa using ((hasDerivAt_id t).const_mul b).const_add a
  refine ⟨?_, ?_, ?_, ?_, ?_, ?_, ?_, ?_, ?_, ?_, ?_, ?_, ?_, ?_⟩ <;> (try rw [hnn]) <;> (try simp only [hm])
  · exact hasDerivAt_const _ _
  · exact lin _ _
  · exact lin _ _
  · exact hasDerivAt_const _ _
  · exact ((lin _ _).add (lin _ _)).add (lin _ _)
  · rw [abs_zero]; positivity
  · rcases le_total (1 / 10 ^ 6) q.e with h | h
    · rw [max_eq_left h]
      have := un (x := q.e * q.ratePerigee) (y := 0.00083) (by rw [mul_div_assoc]; exact r4)
      refine this.trans ?_; norm_num at *; nlinarith
    · rw [max_eq_right h]
      have := un r2'
      rw [abs_mul, abs_of_pos (by norm_num)]
      norm_num at *; nlinarith
  · refine (un r3').trans ?_; norm_num at *; nlinarith
  · rw [abs_zero]; positivity
  · rw [show q.rateAnomaly + q.ratePerigee + q.rateNode - q.rateNode - q.n = (q.rateAnomaly / q.n - 1 + q.ratePerigee / q.n) * q.n by field_simp; ring,
      abs_mul, abs_of_pos hn]
    gcongr
    exact (abs_add_bd r1' r2').trans (by norm_num)
  · intro; trivial
  · exact ⟨le_max_of_le_left e0, max_le (e1.trans (by norm_num)) (by norm_num)⟩
  · rcases le_total (1 / 10 ^ 6) q.e with h | h
    · rw [max_eq_left h]; norm_num at *; linarith
    · rw [max_eq_right h]
      norm_num at *; nlinarith
  · exact longL_small hi

/-! ## With drag -/

/-- An ordinary low orbit with drag: eccentricity at most 0.43, semi-major axis at most two earth radii, perigee at least 240 km, inclination below
171 degrees, and a drag term that is not extreme for the height of the perigee, the eccentricity and the time. -/
structure Quiet (q : Orbit) (t : ℝ) : Prop where
  mot : 0 < q.n
  ecc : 0 ≤ q.e ∧ q.e ≤ 0.43
  side : q.e ≤ 1 / 10000 ∨ |q.bstar| * lowness (q.a * (1 - q.e)) ^ 5 ≤ 5000 * q.e ^ 2
  incl : 1 / 100 ≤ 1 + Real.cos q.inc
  drag : |q.bstar| * lowness (q.a * (1 - q.e)) ^ 5 ≤ 1 / 1000
  axis : q.a ≤ 2
  per : 1 + 240 / 6378.137 ≤ q.a * (1 - q.e)
  time : |q.bstar * t| * lowness (q.a * (1 - q.e)) ^ 5 ≤ 2

namespace Quiet
variable {q : Orbit} {t : ℝ}

theorem full (H : Quiet q t) : q.fullDrag := by
  unfold Orbit.fullDrag Orbit.perigeeKm kmPerRadius
  have := H.per
  norm_num at *; linarith

theorem s_eq (H : Quiet q t) : q.s = 1 + 78 / 6378.137 := by
  have := H.per
  have hp : 240 ≤ q.perigeeKm := by unfold Orbit.perigeeKm kmPerRadius; norm_num at *; linarith
  unfold Orbit.s Orbit.sKm
  rw [if_neg (by linarith), if_neg (by linarith)]; rfl

theorem a_lo (H : Quiet q t) : 1.0376 ≤ q.a := by
  have h1 := H.per
  obtain ⟨h2, h3⟩ := H.ecc
  by_contra h; push Not at h
  norm_num at *; nlinarith

/-- how low the perigee is -/
noncomputable def low (q : Orbit) : ℝ := lowness (q.a * (1 - q.e))

theorem low_one (q : Orbit) : 1 ≤ low q := one_le_lowness _

/-- sizes of the density function -/
theorem density (H : Quiet q t) : 0 < q.ξ ∧ q.ξ ≤ 19.81 * low q ∧ q.a * q.ξ ≤ 21.06 * low q ∧ 0 ≤ q.η ∧ q.η ≤ 1 ∧ 0 < q.ψ ∧ q.ψ ≤ 1 ∧
    q.ξ / q.ψ ≤ 19.81 * low q ∧ 0 < q.q4 * q.ξ ^ 4 ∧ q.q4 * q.ξ ^ 4 / q.ψ ^ (7 / 2 : ℝ) ≤ 29 / 10 ^ 5 * low q ^ 4 ∧
    0 ≤ q.q4 * q.ξ ^ 4 / q.ψ ^ (7 / 2 : ℝ) ∧ q.q4 * q.ξ ^ 4 ≤ 29 / 10 ^ 5 * low q ^ 4 := by
  have hs := H.s_eq
  have ha := H.a_lo
  have hp := H.per
  obtain ⟨e0, e1⟩ := H.ecc
  set g := q.a * (1 - q.e) - q.s with hg
  have hL : 1 ≤ low q := low_one q
  have hL0 : 0 < low q := by linarith
  have hg1 : 322 / 6378.137 ≤ low q * g := by rw [hg, hs]; exact lowness_mul hp
  have hg0 : 0 < g := by rw [hg, hs]; norm_num at *; linarith
  have hae : 0 ≤ q.a * q.e := mul_nonneg (by norm_num at *; linarith) e0
  have hy : q.a - q.s = g + q.a * q.e := by rw [hg]; ring
  have hy0 : 0 < g + q.a * q.e := by linarith
  have hξ : q.ξ = 1 / (g + q.a * q.e) := by unfold Orbit.ξ; rw [hy]
  have hξ0 : 0 < q.ξ := by rw [hξ]; positivity
  have hκ : 1 - q.η = g * q.ξ := by unfold Orbit.η; rw [hξ]; field_simp; ring
  have hκ0 : 0 < g * q.ξ := by positivity
  have hη0 : 0 ≤ q.η := by unfold Orbit.η; positivity
  have hη1 : q.η ≤ 1 := by linarith
  have hψ : q.ψ = (g * q.ξ) * (1 + q.η) := by
    unfold Orbit.ψ
    rw [show 1 - q.η ^ 2 = (1 - q.η) * (1 + q.η) by ring, hκ, abs_of_pos (by positivity)]
  have hψ0 : 0 < q.ψ := by rw [hψ]; positivity
  have hψκ : g * q.ξ ≤ q.ψ := by rw [hψ]; nlinarith
  have hψ1 : q.ψ ≤ 1 := by
    unfold Orbit.ψ; rw [abs_le]; constructor <;> nlinarith
  have h4 : q.q4 = (42 / 6378.137) ^ 4 := by
    unfold Orbit.q4; rw [hs]; unfold kmPerRadius; norm_num
  have hq0 : 0 < q.q4 := by rw [h4]; norm_num
  have hψ4 : q.ψ ^ 4 ≤ q.ψ ^ (7 / 2 : ℝ) := by
    rw [← Real.rpow_natCast]
    exact Real.rpow_le_rpow_of_exponent_ge hψ0 hψ1 (by norm_num)
  have hr0 : 0 < q.ψ ^ (7 / 2 : ℝ) := Real.rpow_pos_of_pos hψ0 _
  have hr1 : q.ψ ^ (7 / 2 : ℝ) ≤ 1 := Real.rpow_le_one hψ0.le hψ1 (by norm_num)
  have hc0 : 0 < q.q4 * q.ξ ^ 4 := by positivity
  have hc : q.q4 * q.ξ ^ 4 / q.ψ ^ (7 / 2 : ℝ) ≤ 29 / 10 ^ 5 * low q ^ 4 := by
    rw [div_le_iff₀ hr0]
    have h5 : (g * q.ξ) ^ 4 ≤ q.ψ ^ (7 / 2 : ℝ) := (by gcongr : (g * q.ξ) ^ 4 ≤ q.ψ ^ 4).trans hψ4
    calc q.q4 * q.ξ ^ 4 = q.q4 / (322 / 6378.137) ^ 4 * ((322 / 6378.137 * q.ξ) ^ 4) := by ring
      _ ≤ q.q4 / (322 / 6378.137) ^ 4 * ((low q * g * q.ξ) ^ 4) := by gcongr
      _ ≤ 29 / 10 ^ 5 * ((low q * g * q.ξ) ^ 4) := by
        refine mul_le_mul_of_nonneg_right ?_ (by positivity)
        rw [h4]; norm_num
      _ = 29 / 10 ^ 5 * low q ^ 4 * (g * q.ξ) ^ 4 := by ring
      _ ≤ _ := by gcongr
  refine ⟨hξ0, ?_, ?_, hη0, hη1, hψ0, hψ1, ?_, hc0, hc, by positivity, ?_⟩
  · rw [hξ, div_le_iff₀ hy0]
    have : 0 ≤ low q * (q.a * q.e) := mul_nonneg hL0.le hae
    norm_num at hg1 ⊢; linarith
  · rw [hξ, mul_one_div, div_le_iff₀ hy0]
    have h1 : 0 ≤ (low q - 1) * (q.a * q.e) := mul_nonneg (by linarith) hae
    have h2 : q.a = q.s + g + q.a * q.e := by rw [hg]; ring
    have h3 : 0 ≤ (low q - 1) * g := mul_nonneg (by linarith) hg0.le
    rw [hs] at h2
    norm_num at hg1 h2 ⊢; nlinarith
  · rw [div_le_iff₀ hψ0]
    calc q.ξ ≤ 19.81 * (322 / 6378.137 * q.ξ) := by rw [← mul_assoc]; nlinarith
      _ ≤ 19.81 * (low q * g * q.ξ) := by gcongr
      _ = 19.81 * low q * (g * q.ξ) := by ring
      _ ≤ _ := by gcongr
  · have := le_div_self hc0.le hr0 hr1
    linarith

theorem n_le (H : Quiet q t) : q.n ≤ 0.0704 := by
  rw [← motion_of_axis H.mot]
  have ha := H.a_lo
  have h0 : (1.0567 : ℝ) ≤ q.a ^ (3 / 2 : ℝ) := by
    have h1 : (1.0376 : ℝ) ^ (3 / 2 : ℝ) ≤ q.a ^ (3 / 2 : ℝ) := Real.rpow_le_rpow (by norm_num) ha (by norm_num)
    refine le_trans ?_ h1
    refine abs_le_of_sq_le_sq' ?_ (by positivity) |>.2
    rw [← Real.rpow_natCast, ← Real.rpow_natCast, ← Real.rpow_mul (by norm_num)]
    norm_num
  rw [div_le_iff₀ (lt_of_lt_of_le (by norm_num) h0)]
  unfold ke
  norm_num at h0 ⊢; linarith

/-- The coefficients of the drag terms. -/
theorem coefficients (H : Quiet q t) : |q.C2| ≤ 0.0029 * q.n * low q ^ 5 ∧ |q.C4| ≤ 0.0049 * q.n * low q ^ 5 ∧ |q.C5| ≤ 0.0063 * low q ^ 4 ∧
    |q.C2| ≤ 0.00304 * q.n * low q ^ 4 := by
  obtain ⟨x0, x1, x2, n0, n1, s0, s1, xs, -, c1, c0, -⟩ := H.density
  have ha := H.a_lo
  have ha2 := H.axis
  obtain ⟨e0, e1⟩ := H.ecc
  have hn := H.mot
  set c := q.q4 * q.ξ ^ 4 / q.ψ ^ (7 / 2 : ℝ) with hc
  have hL := low_one q
  have hL0 : 0 < low q := by linarith
  have hL2 : low q ≤ 1.988 := lowness_le H.per
  have bc : |c| ≤ 29 / 10 ^ 5 * low q ^ 4 := by rwa [abs_of_nonneg c0]
  have bn : |q.n| ≤ q.n := le_of_eq (abs_of_pos hn)
  have ba : |q.a| ≤ 2 := by rwa [abs_of_pos (by norm_num at *; linarith)]
  have bη : |q.η| ≤ 1 := by rwa [abs_of_nonneg n0]
  have be : |q.e| ≤ 0.43 := by rwa [abs_of_nonneg e0]
  have bxs : |q.ξ / q.ψ| ≤ 19.81 * low q := by rwa [abs_of_pos (by positivity)]
  have k2a : |k2| ≤ 0.0005414 := by unfold k2 j2; rw [abs_of_pos] <;> norm_num
  have bη2 : |q.η ^ 2| ≤ 1 := by rw [abs_of_nonneg (sq_nonneg _)]; exact pow_le_one₀ n0 n1
  have bη3 : |q.η ^ 3| ≤ 1 := by rw [abs_of_nonneg (by positivity)]; exact pow_le_one₀ n0 n1
  have bη4 : |q.η ^ 4| ≤ 1 := by rw [abs_of_nonneg (by positivity)]; exact pow_le_one₀ n0 n1
  have t0 : 0 ≤ q.θ ^ 2 := sq_nonneg _
  have t1 : q.θ ^ 2 ≤ 1 := by unfold Orbit.θ; exact Real.cos_sq_le_one _
  have ia : |1 / q.a| ≤ 1 := by
    rw [abs_of_pos (one_div_pos.mpr (by norm_num at *; linarith)), div_le_one (by norm_num at *; linarith)]; norm_num at *; linarith
  have hb2 : q.β ^ 2 = 1 - q.e ^ 2 := Real.sq_sqrt (by norm_num at *; nlinarith)
  have bβ : |q.β ^ 2| ≤ 1 := by rw [hb2, abs_le]; constructor <;> nlinarith
  have n1' : ∀ {a b : ℝ}, 0 ≤ a → a ≤ b → |a| ≤ b := fun h1 h2 => by rwa [abs_of_nonneg h1]
  have l4 : 0 < low q ^ 4 := by positivity
  have l5 : low q ^ 4 ≤ low q ^ 5 := pow_le_pow_right₀ hL (by norm_num)
  have l5' : low q ^ 5 = low q ^ 4 * low q := by ring
  have h2 : |q.C2| ≤ (0.0027 + 0.000164 * low q) * q.n * low q ^ 4 := by
    have e : q.C2 = c * (q.a * (1 + 3 / 2 * q.η ^ 2 + 4 * (q.e * q.η) + q.e * q.η ^ 3) +
        3 / 2 * (k2 * (q.ξ / q.ψ)) * (-1 / 2 + 3 / 2 * q.θ ^ 2) * (8 + 24 * q.η ^ 2 + 3 * q.η ^ 4)) * q.n := by
      unfold Orbit.C2; rw [hc]; ring
    rw [e, show (0.0027 + 0.000164 * low q) * q.n * low q ^ 4 = (0.0027 + 0.000164 * low q) * low q ^ 4 * q.n by ring]
    refine abs_mul_bd ?_ bn
    refine (abs_mul_bd bc (abs_add_bd (abs_mul_bd ba (abs_add_bd (abs_add_bd (abs_add_bd (le_of_eq abs_one) (abs_mul_bd (n1' (by norm_num) le_rfl) bη2))
      (abs_mul_bd (n1' (by norm_num) le_rfl) (abs_mul_bd be bη))) (abs_mul_bd be bη3)))
      (abs_mul_bd (abs_mul_bd (abs_mul_bd (n1' (by norm_num) le_rfl) (abs_mul_bd k2a bxs)) (show |-1 / 2 + 3 / 2 * q.θ ^ 2| ≤ 1 by
        rw [abs_le]; constructor <;> linarith)) (abs_add_bd (abs_add_bd (n1' (by norm_num) le_rfl) (abs_mul_bd (n1' (by norm_num) le_rfl) bη2)) (abs_mul_bd (n1' (by norm_num) le_rfl) bη4))))).trans ?_
    have : 0 < low q ^ 4 * low q := by positivity
    norm_num; linarith
  refine ⟨?_, ?_, ?_, ?_⟩
  · refine h2.trans ?_
    have h3 : (0.0027 + 0.000164 * low q) * low q ^ 4 ≤ 0.0029 * low q ^ 5 := by
      rw [l5', show 0.0029 * (low q ^ 4 * low q) = 0.0029 * low q * low q ^ 4 by ring]
      refine mul_le_mul_of_nonneg_right ?_ l4.le
      norm_num; linarith
    have := mul_le_mul_of_nonneg_right h3 hn.le
    linarith
  · have e : q.C4 = c * (2 * q.a * q.β ^ 2 * ((2 * q.η * (1 + q.e * q.η) + 1 / 2 * q.e + 1 / 2 * q.η ^ 3) - 2 * (k2 * (q.ξ / q.ψ)) * (1 / q.a) *
        (3 * (1 - 3 * q.θ ^ 2) * (1 + 3 / 2 * q.η ^ 2 - 2 * (q.e * q.η) - 1 / 2 * (q.e * q.η ^ 3)) +
          3 / 4 * (1 - q.θ ^ 2) * (2 * q.η ^ 2 - q.e * q.η - q.e * q.η ^ 3) * Real.cos (2 * q.argp)))) * q.n := by
      unfold Orbit.C4; rw [hc]; ring
    rw [e, show 0.0049 * q.n * low q ^ 5 = 0.0049 * low q ^ 5 * q.n by ring]
    refine abs_mul_bd ?_ bn
    have j1 : |2 * q.η * (1 + q.e * q.η) + 1 / 2 * q.e + 1 / 2 * q.η ^ 3| ≤ 2 * 1 * (1 + 0.43 * 1) + 1 / 2 * 0.43 + 1 / 2 * 1 :=
      abs_add_bd (abs_add_bd (abs_mul_bd (abs_mul_bd (n1' (by norm_num) le_rfl) bη) (abs_add_bd (le_of_eq abs_one) (abs_mul_bd be bη)))
        (abs_mul_bd (n1' (by norm_num) le_rfl) be)) (abs_mul_bd (n1' (by norm_num) le_rfl) bη3)
    have j2 : |1 + 3 / 2 * q.η ^ 2 - 2 * (q.e * q.η) - 1 / 2 * (q.e * q.η ^ 3)| ≤ 1 + 3 / 2 * 1 + 2 * (0.43 * 1) + 1 / 2 * (0.43 * 1) :=
      abs_sub_bd (abs_sub_bd (abs_add_bd (le_of_eq abs_one) (abs_mul_bd (n1' (by norm_num) le_rfl) bη2)) (abs_mul_bd (n1' (by norm_num) le_rfl) (abs_mul_bd be bη)))
        (abs_mul_bd (n1' (by norm_num) le_rfl) (abs_mul_bd be bη3))
    have j3 : |2 * q.η ^ 2 - q.e * q.η - q.e * q.η ^ 3| ≤ 2 * 1 + 0.43 * 1 + 0.43 * 1 :=
      abs_sub_bd (abs_sub_bd (abs_mul_bd (n1' (by norm_num) le_rfl) bη2) (abs_mul_bd be bη)) (abs_mul_bd be bη3)
    have j4 : |1 - 3 * q.θ ^ 2| ≤ 2 := by rw [abs_le]; constructor <;> linarith
    have j5 : |1 - q.θ ^ 2| ≤ 1 := by rw [abs_le]; constructor <;> linarith
    refine (abs_mul_bd bc (abs_mul_bd (abs_mul_bd (abs_mul_bd (n1' (by norm_num) le_rfl) ba) bβ) (abs_sub_bd j1 (abs_mul_bd (abs_mul_bd (abs_mul_bd (n1' (by norm_num) le_rfl)
      (abs_mul_bd k2a bxs)) ia) (abs_add_bd (abs_mul_bd (abs_mul_bd (n1' (by norm_num) le_rfl) j4) j2)
        (abs_mul_bd (abs_mul_bd (abs_mul_bd (n1' (by norm_num) le_rfl) j5) j3) (Real.abs_cos_le_one _))))))).trans ?_
    rw [l5']
    have : 0 < low q ^ 4 * low q := by positivity
    have : low q ^ 4 ≤ low q ^ 4 * low q := by rw [← l5']; exact l5
    norm_num; linarith
  · have e : q.C5 = c * (2 * q.a * q.β ^ 2 * (1 + 11 / 4 * q.η * (q.η + q.e) + q.e * q.η ^ 3)) := by
      unfold Orbit.C5; rw [hc]; ring
    rw [e]
    refine (abs_mul_bd bc (abs_mul_bd (abs_mul_bd (abs_mul_bd (n1' (by norm_num) le_rfl) ba) bβ) (abs_add_bd (abs_add_bd (le_of_eq abs_one)
      (abs_mul_bd (abs_mul_bd (n1' (by norm_num) le_rfl) bη) (abs_add_bd bη be))) (abs_mul_bd be bη3)))).trans ?_
    norm_num; linarith
  · refine h2.trans ?_
    have h3 : (0.0027 + 0.000164 * low q) * low q ^ 4 ≤ 0.00304 * low q ^ 4 := by
      refine mul_le_mul_of_nonneg_right ?_ l4.le
      norm_num at hL2 ⊢; linarith
    have := mul_le_mul_of_nonneg_right h3 hn.le
    linarith

theorem c1_le (H : Quiet q t) : |q.C1| ≤ 0.0000029 * q.n ∧ |q.C1 * t| ≤ 0.000432 ∧ |q.C1 * t| * low q ≤ 0.000432 := by
  obtain ⟨h1, -, -, h2⟩ := H.coefficients
  have hn := H.n_le
  have h0 := H.mot
  have hL := low_one q
  have hs : |q.C1 * t| * low q ≤ 0.000432 := by
    rw [show q.C1 * t = (q.bstar * t) * q.C2 by unfold Orbit.C1; ring]
    refine (scaled_mul_spare hL H.time h2 (by positivity)).trans ?_
    norm_num at *; linarith
  refine ⟨(scaled_mul hL H.drag h1 le_rfl (by positivity)).trans (le_of_eq (by ring)), ?_, hs⟩
  exact (le_mul_of_one_le_right (abs_nonneg _) hL).trans hs

/-- the drag polynomial of the semi-major axis -/
noncomputable def dragPoly (q : Orbit) (t : ℝ) : ℝ := q.C1 * t + q.D2 * t ^ 2 + q.D3 * t ^ 3 + q.D4 * t ^ 4

/-- its rate -/
noncomputable def dragRate (q : Orbit) (t : ℝ) : ℝ := q.C1 + 2 * q.D2 * t + 3 * q.D3 * t ^ 2 + 4 * q.D4 * t ^ 3

theorem powers (H : Quiet q t) : |q.D2 * t ^ 2| ≤ 0.000016 ∧ |q.D3 * t ^ 3| ≤ 0.000001 ∧ |q.D4 * t ^ 4| ≤ 0.0000001 ∧
    |dragRate q t| ≤ 0.0000033 * q.n := by
  obtain ⟨x0, x1, x2, -, -, -, -, -, -, -, -, -⟩ := H.density
  obtain ⟨c1, c2, c3⟩ := H.c1_le
  have hs := H.s_eq
  have ha := H.a_lo
  have hn := H.mot
  have ha0 : 0 < q.a := by norm_num at *; linarith
  have hs0 : 0 < q.s := by rw [hs]; norm_num
  have hsa : q.s ≤ q.a := by rw [hs]; norm_num at *; linarith
  have hL0 : 0 < low q := lt_of_lt_of_le one_pos (low_one q)
  set A := q.a * q.ξ with hA
  have hA0 : 0 < A := by positivity
  have hr : |q.s / q.a| ≤ 1 := by rw [abs_of_pos (by positivity), div_le_one ha0]; exact hsa
  set X := q.C1 * t with hX
  have bY : |A * X| ≤ 0.0091 := by
    rw [abs_mul, abs_of_pos hA0]
    calc A * |X| ≤ 21.06 * low q * |X| := by gcongr
      _ = 21.06 * (|X| * low q) := by ring
      _ ≤ 21.06 * 0.000432 := by gcongr
      _ ≤ _ := by norm_num
  have bY2 : |(A * X) ^ 2| ≤ 0.0091 ^ 2 := by rw [abs_pow]; gcongr
  have bY3 : |(A * X) ^ 3| ≤ 0.0091 ^ 3 := by rw [abs_pow]; gcongr
  have n1' : ∀ {a b : ℝ}, 0 ≤ a → a ≤ b → |a| ≤ b := fun h1 h2 => by rwa [abs_of_nonneg h1]
  have k3 : |4 / 3 * (17 + q.s / q.a) * (A * X) ^ 2| ≤ 4 / 3 * (17 + 1) * 0.0091 ^ 2 :=
    abs_mul_bd (abs_mul_bd (n1' (by norm_num) le_rfl) (abs_add_bd (n1' (by norm_num) le_rfl) hr)) bY2
  have k4 : |2 / 3 * (221 + 31 * (q.s / q.a)) * (A * X) ^ 3| ≤ 2 / 3 * (221 + 31 * 1) * 0.0091 ^ 3 :=
    abs_mul_bd (abs_mul_bd (n1' (by norm_num) le_rfl) (abs_add_bd (n1' (by norm_num) le_rfl) (abs_mul_bd (n1' (by norm_num) le_rfl) hr))) bY3
  have e2 : q.D2 * t ^ 2 = 4 * (A * X) * X := by unfold Orbit.D2; rw [hA, hX]; ring
  have e3 : q.D3 * t ^ 3 = 4 / 3 * (17 + q.s / q.a) * (A * X) ^ 2 * X := by unfold Orbit.D3; rw [hA, hX]; field_simp
  have e4 : q.D4 * t ^ 4 = 2 / 3 * (221 + 31 * (q.s / q.a)) * (A * X) ^ 3 * X := by unfold Orbit.D4; rw [hA, hX]; field_simp
  refine ⟨?_, ?_, ?_, ?_⟩
  · rw [e2]; exact (abs_mul_bd (abs_mul_bd (n1' (by norm_num) le_rfl) bY) c2).trans (by norm_num)
  · rw [e3]; exact (abs_mul_bd k3 c2).trans (by norm_num)
  · rw [e4]; exact (abs_mul_bd k4 c2).trans (by norm_num)
  · have e : dragRate q t = q.C1 * (1 + 2 * (4 * (A * X)) + 3 * (4 / 3 * (17 + q.s / q.a) * (A * X) ^ 2) + 4 * (2 / 3 * (221 + 31 * (q.s / q.a)) * (A * X) ^ 3)) := by
      unfold dragRate Orbit.D2 Orbit.D3 Orbit.D4; rw [hA, hX]; field_simp
    rw [e]
    refine (abs_mul_bd c1 (abs_add_bd (abs_add_bd (abs_add_bd (le_of_eq abs_one) (abs_mul_bd (n1' (by norm_num) le_rfl) (abs_mul_bd (n1' (by norm_num) le_rfl) bY)))
      (abs_mul_bd (n1' (by norm_num) le_rfl) k3)) (abs_mul_bd (n1' (by norm_num) le_rfl) k4))).trans ?_
    norm_num at *; linarith

/-- the drag term of the mean longitude follows the mean motion -/
theorem series (H : Quiet q t) (node : ℝ) : |dragPoly q t| ≤ 0.00045 ∧
    q.aT t = q.a * (1 - dragPoly q t) ^ 2 ∧
    (q.mean node t).n = q.n / (1 - dragPoly q t) ^ 3 ∧
    |(q.mean node t).n / q.n - 1| ≤ 0.0014 ∧
    ∃ l, HasDerivAt q.dL l t ∧ |l - ((q.mean node t).n / q.n - 1)| ≤ 0.000004 := by
  obtain ⟨-, c2, -⟩ := H.c1_le
  obtain ⟨x2, x3, x4, -⟩ := H.powers
  have ha := H.a_lo
  have hn := H.mot
  have ha0 : 0 < q.a := by norm_num at *; linarith
  have hx : |dragPoly q t| ≤ 0.00045 := by
    refine (abs_add_bd (abs_add_bd (abs_add_bd c2 x2) x3) x4).trans (by norm_num)
  have hT : q.aT t = q.a * (1 - dragPoly q t) ^ 2 := by
    unfold Orbit.aT dragPoly; rw [if_pos H.full]; ring
  set x := dragPoly q t with hxd
  obtain ⟨xa, xb⟩ := abs_le.mp hx
  have hy0 : 0 < 1 - x := by norm_num at *; linarith
  have hN : (q.mean node t).n = q.n / (1 - x) ^ 3 := by
    show ke / (q.aT t) ^ (3 / 2 : ℝ) = _
    rw [hT, Real.mul_rpow ha0.le (by positivity), ← Real.rpow_natCast (1 - x) 2, ← Real.rpow_mul hy0.le]
    rw [show ((2:ℕ):ℝ) * (3 / 2) = ((3:ℕ):ℝ) by norm_num, Real.rpow_natCast, ← div_div, motion_of_axis hn]
  have hq : (q.mean node t).n / q.n = 1 / (1 - x) ^ 3 := by rw [hN]; field_simp
  have x2' : x ^ 2 ≤ 0.00045 ^ 2 := by rw [← sq_abs]; gcongr
  have hs : |1 / (1 - x) ^ 3 - 1 - 3 * x| ≤ 0.0000015 := by
    have h3 : 0 < (1 - x) ^ 3 := by positivity
    have h4 : 0.99 ≤ (1 - x) ^ 3 := by
      have : (0.999:ℝ) ^ 3 ≤ (1 - x) ^ 3 := by gcongr; norm_num at *; linarith
      refine le_trans (by norm_num) this
    rw [show 1 / (1 - x) ^ 3 - 1 - 3 * x = x ^ 2 * (6 - 8 * x + 3 * x ^ 2) / (1 - x) ^ 3 by field_simp; ring]
    have h5 : |x ^ 2 * (6 - 8 * x + 3 * x ^ 2)| ≤ 0.00045 ^ 2 * 6.1 := by
      refine abs_mul_bd (by rwa [abs_of_nonneg (sq_nonneg _)]) ?_
      rw [abs_le]; norm_num at *; constructor <;> nlinarith
    exact (abs_div_bd h5 (by norm_num) h4).trans (by norm_num)
  refine ⟨hx, hT, hN, ?_, ?_⟩
  · rw [hq, show 1 / (1 - x) ^ 3 - 1 = (1 / (1 - x) ^ 3 - 1 - 3 * x) + 3 * x by ring]
    refine (abs_add_bd hs (abs_mul_bd (show |(3:ℝ)| ≤ 3 by norm_num) hx)).trans (by norm_num)
  · have hd : q.dL = fun t => 3 / 2 * q.C1 * t ^ 2 + (q.D2 + 2 * q.C1 ^ 2) * t ^ 3 + 1 / 4 * (3 * q.D3 + 12 * q.C1 * q.D2 + 10 * q.C1 ^ 3) * t ^ 4
        + 1 / 5 * (3 * q.D4 + 12 * q.C1 * q.D3 + 6 * q.D2 ^ 2 + 30 * q.C1 ^ 2 * q.D2 + 15 * q.C1 ^ 4) * t ^ 5 := by
      funext s; unfold Orbit.dL; rw [if_pos H.full]
    rw [hd]
    refine ⟨_, ((((hasDerivAt_pow 2 t).const_mul _).add ((hasDerivAt_pow 3 t).const_mul _)).add ((hasDerivAt_pow 4 t).const_mul _)).add ((hasDerivAt_pow 5 t).const_mul _), ?_⟩
    rw [hq]
    set X1 := q.C1 * t
    set X2 := q.D2 * t ^ 2
    set X3 := q.D3 * t ^ 3
    set X4 := q.D4 * t ^ 4
    have hxe : x = X1 + X2 + X3 + X4 := rfl
    have b1 : |X1 ^ 2| ≤ 0.000432 ^ 2 := by rw [abs_pow]; gcongr
    have b3 : |X1 ^ 3| ≤ 0.000432 ^ 3 := by rw [abs_pow]; gcongr
    have b4 : |X1 ^ 4| ≤ 0.000432 ^ 4 := by rw [abs_pow]; gcongr
    have b2 : |X2 ^ 2| ≤ 0.000016 ^ 2 := by rw [abs_pow]; gcongr
    have e : 3 / 2 * q.C1 * (((2:ℕ):ℝ) * t ^ (2 - 1)) + (q.D2 + 2 * q.C1 ^ 2) * (((3:ℕ):ℝ) * t ^ (3 - 1)) + 1 / 4 * (3 * q.D3 + 12 * q.C1 * q.D2 + 10 * q.C1 ^ 3) * (((4:ℕ):ℝ) * t ^ (4 - 1))
        + 1 / 5 * (3 * q.D4 + 12 * q.C1 * q.D3 + 6 * q.D2 ^ 2 + 30 * q.C1 ^ 2 * q.D2 + 15 * q.C1 ^ 4) * (((5:ℕ):ℝ) * t ^ (5 - 1)) - (1 / (1 - x) ^ 3 - 1) =
        6 * X1 ^ 2 + 12 * (X1 * X2) + 10 * X1 ^ 3 + 12 * (X1 * X3) + 6 * X2 ^ 2 + 30 * (X1 ^ 2 * X2) + 15 * X1 ^ 4 - (1 / (1 - x) ^ 3 - 1 - 3 * x) := by
      rw [show (1 / (1 - x) ^ 3 - 1 - 3 * x) = (1 / (1 - x) ^ 3 - 1) - 3 * (X1 + X2 + X3 + X4) by rw [hxe]]
      push_cast
      ring
    rw [e]
    have n1' : ∀ {a : ℝ}, 0 ≤ a → |a| ≤ a := fun h1 => by rw [abs_of_nonneg h1]
    refine (abs_sub_bd (abs_add_bd (abs_add_bd (abs_add_bd (abs_add_bd (abs_add_bd (abs_add_bd (abs_mul_bd (n1' (by norm_num)) b1) (abs_mul_bd (n1' (by norm_num)) (abs_mul_bd c2 x2)))
      (abs_mul_bd (n1' (by norm_num)) b3)) (abs_mul_bd (n1' (by norm_num)) (abs_mul_bd c2 x3))) (abs_mul_bd (n1' (by norm_num)) b2))
      (abs_mul_bd (n1' (by norm_num)) (abs_mul_bd b1 x2))) (abs_mul_bd (n1' (by norm_num)) b4)) hs).trans (by norm_num)

/-- the drag term of the perigee and of the mean anomaly -/
theorem swing (H : Quiet q t) : ∃ d, HasDerivAt q.δωM d t ∧ |d| ≤ 0.0056 * q.n ∧ |q.e * d| ≤ 0.000003 * q.n ∧
    |q.rateAnomaly| ≤ 1.0017 * q.n := by
  obtain ⟨x0, x1, -, n0, n1, -, -, -, c0, -, -, c1⟩ := H.density
  obtain ⟨e0, e1⟩ := H.ecc
  have hn := H.mot
  have ha := H.a_lo
  have ha0 : 0 < q.a := by norm_num at *; linarith
  obtain ⟨hP, r1, -, -⟩ := secular_rates hn ⟨e0, lt_of_le_of_lt e1 (by norm_num)⟩ (le_trans (by norm_num) H.per)
  have hPs1 : 1 ≤ latus q ^ 2 := by nlinarith
  have r1' : |q.rateAnomaly / q.n - 1| ≤ 0.00164 := r1.trans (div_le_self (by norm_num) hPs1)
  have hrM : |q.rateAnomaly| ≤ 1.0017 * q.n := by
    rw [show q.rateAnomaly = (q.rateAnomaly / q.n - 1 + 1) * q.n by field_simp; ring, abs_mul, abs_of_pos hn]
    gcongr
    exact (abs_add_bd r1' (le_of_eq abs_one)).trans (by norm_num)
  have hd : q.δωM = fun t => q.dω * t + q.dM * ((1 + q.η * Real.cos (q.anom + q.rateAnomaly * t)) ^ 3 - (1 + q.η * Real.cos q.anom) ^ 3) := by
    funext s; unfold Orbit.δωM Orbit.MDF; rw [if_pos H.full]
  have lin : HasDerivAt (fun s : ℝ => q.anom + q.rateAnomaly * s) q.rateAnomaly t := by
    simpa using ((hasDerivAt_id t).const_mul q.rateAnomaly).const_add q.anom
  have hder := ((hasDerivAt_id t).const_mul q.dω).add ((((((lin.cos).const_mul q.η).const_add 1).pow 3).sub_const ((1 + q.η * Real.cos q.anom) ^ 3)).const_mul q.dM)
  set M := q.anom + q.rateAnomaly * t with hM
  set f := 3 * (1 + q.η * Real.cos M) ^ 2 * Real.sin M with hf
  have hcos : |1 + q.η * Real.cos M| ≤ 2 := (abs_add_bd (le_of_eq abs_one) (abs_mul_bd (B := 1) (show |q.η| ≤ 1 by rwa [abs_of_nonneg n0]) (Real.abs_cos_le_one M))).trans (by norm_num)
  have bf : |f| ≤ 12 := by
    have h2 : |(1 + q.η * Real.cos M) ^ 2| ≤ 4 := by
      rw [abs_pow]; exact (pow_le_pow_left₀ (abs_nonneg _) hcos 2).trans (by norm_num)
    exact (abs_mul_bd (abs_mul_bd (show |(3:ℝ)| ≤ 3 by norm_num) h2) (Real.abs_sin_le_one M)).trans (by norm_num)
  have hd' : HasDerivAt q.δωM (q.dω - q.dM * q.η * (f * q.rateAnomaly)) t := by
    rw [hd]
    refine hder.congr_deriv ?_
    rw [hf]; simp; ring
  refine ⟨_, hd', ?_⟩
  have bb : |f * q.rateAnomaly| ≤ 12 * (1.0017 * q.n) := abs_mul_bd bf hrM
  by_cases hc : 1 / 10000 < q.e
  · have he : 0 < q.e := lt_trans (by norm_num) hc
    have hb : |q.bstar| * low q ^ 5 ≤ 5000 * q.e ^ 2 := by
      rcases H.side with h | h
      · exact absurd hc (not_lt.mpr h)
      · exact h
    have hL := low_one q
    have hL0 : 0 < low q := by linarith
    have hbe : |q.bstar / q.e| * low q ^ 5 ≤ 2.2361 := by
      rw [abs_div, abs_of_pos he, div_mul_eq_mul_div, div_le_iff₀ he]
      apply abs_le_of_sq_le_sq' _ (by positivity) |>.2
      have h1 : |q.bstar| * low q ^ 5 ≤ 1 / 1000 := H.drag
      have h0 : 0 ≤ |q.bstar| * low q ^ 5 := by positivity
      have h2 : (|q.bstar| * low q ^ 5) ^ 2 ≤ 1 / 1000 * (5000 * q.e ^ 2) := by
        rw [sq]; exact mul_le_mul h1 hb h0 (by norm_num)
      norm_num at h2 ⊢; nlinarith
    have hη : q.η ≠ 0 := by unfold Orbit.η; positivity
    have k : |a30 / k2| ≤ 0.00468 := by unfold a30 j3 k2 j2; rw [abs_of_pos] <;> norm_num
    have bc : |q.q4 * q.ξ ^ 4| ≤ 29 / 10 ^ 5 * low q ^ 4 := by rwa [abs_of_pos c0]
    have bξ : |q.ξ| ≤ 19.81 * low q := by rwa [abs_of_pos x0]
    have bn : |q.n| ≤ q.n := le_of_eq (abs_of_pos hn)
    have ew : q.dω = q.bstar / q.e * (q.q4 * q.ξ ^ 4 * q.ξ * (a30 / k2) * Real.sin q.inc * Real.cos q.argp) * q.n := by
      unfold Orbit.dω Orbit.C3; rw [if_pos hc]; field_simp
    have eM : q.dM * q.η = q.bstar / q.e * (-2 / 3 * (q.q4 * q.ξ ^ 4)) := by
      unfold Orbit.dM; rw [if_pos hc]; field_simp
    have g1 : |q.q4 * q.ξ ^ 4 * q.ξ * (a30 / k2) * Real.sin q.inc * Real.cos q.argp| ≤ 29 / 10 ^ 5 * 19.81 * 0.00468 * low q ^ 5 :=
      (abs_mul_bd (abs_mul_bd (abs_mul_bd (abs_mul_bd bc bξ) k) (Real.abs_sin_le_one _)) (Real.abs_cos_le_one _)).trans (le_of_eq (by ring))
    have g2 : |-2 / 3 * (q.q4 * q.ξ ^ 4)| ≤ 2 / 3 * (29 / 10 ^ 5) * low q ^ 4 :=
      (abs_mul_bd (show |(-2 / 3 : ℝ)| ≤ 2 / 3 by norm_num [abs_div]) bc).trans (le_of_eq (by ring))
    have g3 : ∀ {x a : ℝ}, |x| * low q ^ 5 ≤ a → |x * (q.q4 * q.ξ ^ 4 * q.ξ * (a30 / k2) * Real.sin q.inc * Real.cos q.argp)| ≤ a * (29 / 10 ^ 5 * 19.81 * 0.00468) :=
      fun hx => scaled_mul hL hx g1 le_rfl (by norm_num)
    have g4 : ∀ {x a : ℝ}, |x| * low q ^ 5 ≤ a → |x * (-2 / 3 * (q.q4 * q.ξ ^ 4))| ≤ a * (2 / 3 * (29 / 10 ^ 5)) :=
      fun hx => scaled_mul hL hx g2 (by norm_num) (by norm_num)
    have eb : q.e * (q.bstar / q.e) = q.bstar := by field_simp
    refine ⟨?_, ?_, hrM⟩
    · rw [ew, eM]
      refine (abs_sub_bd (abs_mul_bd (g3 hbe) bn) (abs_mul_bd (g4 hbe) bb)).trans ?_
      norm_num at *; linarith
    · rw [show q.e * (q.dω - q.dM * q.η * (f * q.rateAnomaly)) = q.bstar * (q.q4 * q.ξ ^ 4 * q.ξ * (a30 / k2) * Real.sin q.inc * Real.cos q.argp) * q.n -
        q.bstar * (-2 / 3 * (q.q4 * q.ξ ^ 4)) * (f * q.rateAnomaly) by rw [ew, eM]; field_simp]
      refine (abs_sub_bd (abs_mul_bd (g3 H.drag) bn) (abs_mul_bd (g4 H.drag) bb)).trans ?_
      norm_num at *; linarith
  · have z1 : q.dω = 0 := by unfold Orbit.dω Orbit.C3; rw [if_neg hc]; ring
    have z2 : q.dM = 0 := by unfold Orbit.dM; rw [if_neg hc]
    rw [z1, z2]
    simp only [zero_mul, sub_zero, mul_zero, abs_zero]
    exact ⟨by positivity, by positivity, hrM⟩

/-- Rates of the secular elements per minute, before the lower limit of the eccentricity is applied. -/
structure Drift (q : Orbit) (node t e' w' h' a' l' : ℝ) : Prop where
  he : HasDerivAt q.eRaw e' t
  hw : HasDerivAt q.ω w' t
  hh : HasDerivAt (q.Ω node) h' t
  ha : HasDerivAt q.aT a' t
  hl : HasDerivAt (q.L node) l' t
  be : |e'| ≤ 0.000012 * q.n
  bw : |w'| ≤ 0.009 * q.n
  bew : |q.e * w'| ≤ 0.000834 * q.n
  bh : |h'| ≤ 0.00166 * q.n
  ba : |a'| ≤ 0.000007 * q.a * q.n
  bl : |l' - h' - (q.mean node t).n| ≤ 0.005 * q.n
  ve : |q.eRaw t - q.e| ≤ 0.00075
  va : |q.aT t - q.a| ≤ 0.00095 * q.a
  vn : |(q.mean node t).n - q.n| ≤ 0.0014 * q.n

set_option maxHeartbeats 1600000 in
theorem drift (H : Quiet q t) (node : ℝ) : ∃ e' w' h' a' l', Drift q node t e' w' h' a' l' := by
  obtain ⟨-, c4, c5, -⟩ := H.coefficients
  obtain ⟨c1, c1t, -⟩ := H.c1_le
  have hLow := low_one q
  obtain ⟨x2, x3, x4, xr⟩ := H.powers
  obtain ⟨p1, p2, p3, p4, l, hl, bl⟩ := H.series node
  obtain ⟨d, hd, bd, bed, brM⟩ := H.swing
  obtain ⟨e0, e1⟩ := H.ecc
  have hn := H.mot
  have hn1 := H.n_le
  have ha := H.a_lo
  have ha0 : 0 < q.a := by norm_num at *; linarith
  obtain ⟨hP, r1, r2, r3⟩ := secular_rates hn ⟨e0, lt_of_le_of_lt e1 (by norm_num)⟩ (le_trans (by norm_num) H.per)
  have hP0 : 0 < latus q := by linarith
  have hPs : (1 + q.e) ^ 2 ≤ latus q ^ 2 := by gcongr
  have hPs1 : 1 ≤ latus q ^ 2 := by nlinarith
  have r1' : |q.rateAnomaly / q.n - 1| ≤ 0.00164 := r1.trans (div_le_self (by norm_num) hPs1)
  have r2' : |q.ratePerigee / q.n| ≤ 0.0033 := r2.trans (div_le_self (by norm_num) hPs1)
  have r3' : |q.rateNode / q.n| ≤ 0.00165 := r3.trans (div_le_self (by norm_num) hPs1)
  have r4 : |q.e * q.ratePerigee / q.n| ≤ 0.000826 := by
    rw [mul_div_assoc]
    refine (abs_mul_bd (le_of_eq (abs_of_nonneg e0)) r2).trans ?_
    rw [mul_div_assoc', div_le_iff₀ (by positivity)]
    norm_num at *; nlinarith [sq_nonneg (1 - q.e)]
  have un : ∀ {x y : ℝ}, |x / q.n| ≤ y → |x| ≤ y * q.n := fun {x y} h => by
    rwa [abs_div, abs_of_pos hn, div_le_iff₀ hn] at h
  have lin : ∀ a b : ℝ, HasDerivAt (fun s : ℝ => a + b * s) b t := fun a b => by
    simpa using ((hasDerivAt_id t).const_mul b).const_add a
  have b4 : |q.bstar * q.C4| ≤ 1 / 1000 * (0.0049 * q.n) := scaled_mul hLow H.drag c4 le_rfl (by positivity)
  have b4t : |q.bstar * t * q.C4| ≤ 2 * (0.0049 * q.n) := scaled_mul hLow H.time c4 le_rfl (by positivity)
  have b5 : |q.bstar * q.C5| ≤ 1 / 1000 * 0.0063 := scaled_mul hLow H.drag c5 (by norm_num) (by norm_num)
  -- mean anomaly with drag
  have hMp : HasDerivAt q.Mp (q.rateAnomaly + d) t := (lin q.anom q.rateAnomaly).add hd
  have hω : HasDerivAt q.ω (q.ratePerigee - d) t := (lin q.argp q.ratePerigee).sub hd
  have hΩ : HasDerivAt (q.Ω node) (q.rateNode + q.dΩ * (2 * t)) t := by
    refine ((lin node q.rateNode).add ((hasDerivAt_pow 2 t).const_mul q.dΩ)).congr_deriv ?_
    norm_num
  have hL : HasDerivAt (q.L node) ((q.rateAnomaly + d) + (q.ratePerigee - d) + (q.rateNode + q.dΩ * (2 * t)) + q.n * l) t :=
    ((hMp.add hω).add hΩ).add (hl.const_mul q.n)
  have hE : HasDerivAt q.eRaw (0 - q.bstar * q.C4 - q.bstar * q.C5 * (Real.cos (q.Mp t) * (q.rateAnomaly + d))) t := by
    have e : q.eRaw = fun t => q.e - q.bstar * q.C4 * t - q.bstar * q.C5 * (Real.sin (q.Mp t) - Real.sin q.anom) := by
      funext s; unfold Orbit.eRaw; rw [if_pos H.full]
    rw [e]
    refine (((hasDerivAt_const t q.e).sub ((hasDerivAt_id t).const_mul (q.bstar * q.C4))).sub
      ((hMp.sin.sub_const (Real.sin q.anom)).const_mul (q.bstar * q.C5))).congr_deriv ?_
    rw [mul_one]
  have hA : HasDerivAt q.aT (q.a * (2 * (1 - dragPoly q t) * -dragRate q t)) t := by
    have e : q.aT = fun t => q.a * (1 - dragPoly q t) ^ 2 := by
      funext s; unfold Orbit.aT dragPoly; rw [if_pos H.full]; ring
    rw [e]
    have hp : HasDerivAt (dragPoly q) (dragRate q t) t := by
      have := ((((hasDerivAt_id t).const_mul q.C1).add ((hasDerivAt_pow 2 t).const_mul q.D2)).add ((hasDerivAt_pow 3 t).const_mul q.D3)).add
        ((hasDerivAt_pow 4 t).const_mul q.D4)
      refine this.congr_deriv ?_
      unfold dragRate; norm_num; ring
    have := (((hp.const_sub 1).pow 2).const_mul q.a)
    refine this.congr_deriv ?_
    norm_num
  have hbθ : |q.dΩ * (2 * t)| ≤ 0.000006 * q.n := by
    have hP1 : 1 ≤ q.a * latus q := by nlinarith
    have he1 : q.e ≤ 1 := e1.trans (by norm_num)
    have hb2 : q.β ^ 2 = 1 - q.e ^ 2 := Real.sq_sqrt (by nlinarith)
    have e : q.dΩ * (2 * t) = -21 * k2 * q.θ * (1 / (q.a * latus q)) * (q.C1 * t) * q.n := by
      unfold Orbit.dΩ latus; rw [hb2]; field_simp
    have i1 : |1 / (q.a * latus q)| ≤ 1 := by rw [abs_of_pos (by positivity), div_le_one (by positivity)]; exact hP1
    have k2a : |k2| ≤ 0.0005414 := by unfold k2 j2; rw [abs_of_pos] <;> norm_num
    rw [e]
    refine (abs_mul_bd (abs_mul_bd (abs_mul_bd (abs_mul_bd (abs_mul_bd (show |(-21:ℝ)| ≤ 21 by norm_num) k2a) (Real.abs_cos_le_one _)) i1) c1t) (le_of_eq (abs_of_pos hn))).trans ?_
    norm_num at *; linarith
  have hMd : |q.rateAnomaly + d| ≤ 1.0073 * q.n := (abs_add_bd brM bd).trans (le_of_eq (by ring))
  refine ⟨_, _, _, _, _, hE, hω, hΩ, hA, hL, ?_, ?_, ?_, ?_, ?_, ?_, ?_, ?_, ?_⟩
  · refine (abs_sub_bd (abs_sub_bd (le_of_eq abs_zero) b4) (abs_mul_bd b5 (abs_mul_bd (Real.abs_cos_le_one _) hMd))).trans ?_
    norm_num at *; linarith
  · refine (abs_sub_bd (un r2') bd).trans ?_
    norm_num at *; linarith
  · rw [mul_sub]
    refine (abs_sub_bd (un r4) bed).trans ?_
    norm_num at *; linarith
  · refine (abs_add_bd (un r3') hbθ).trans ?_
    norm_num at *; linarith
  · have : |1 - dragPoly q t| ≤ 1.001 := (abs_sub_bd (le_of_eq abs_one) p1).trans (by norm_num)
    refine (abs_mul_bd (le_of_eq (abs_of_pos ha0)) (abs_mul_bd (abs_mul_bd (show |(2:ℝ)| ≤ 2 by norm_num) this) (abs_neg_bd xr))).trans ?_
    have : 0 < q.a * q.n := by positivity
    norm_num at *; linarith
  · rw [show (q.rateAnomaly + d) + (q.ratePerigee - d) + (q.rateNode + q.dΩ * (2 * t)) + q.n * l - (q.rateNode + q.dΩ * (2 * t)) - (q.mean node t).n =
      ((q.rateAnomaly / q.n - 1) + q.ratePerigee / q.n + (l - ((q.mean node t).n / q.n - 1))) * q.n by field_simp; ring, abs_mul, abs_of_pos hn]
    gcongr
    exact (abs_add_bd (abs_add_bd r1' r2') bl).trans (by norm_num)
  · have e : q.eRaw t - q.e = -(q.bstar * t * q.C4) - q.bstar * q.C5 * (Real.sin (q.Mp t) - Real.sin q.anom) := by
      unfold Orbit.eRaw; rw [if_pos H.full]; ring
    rw [e]
    refine (abs_sub_bd (abs_neg_bd b4t) (abs_mul_bd b5 (abs_sub_bd (Real.abs_sin_le_one _) (Real.abs_sin_le_one _)))).trans ?_
    norm_num at *; linarith
  · rw [p2, show q.a * (1 - dragPoly q t) ^ 2 - q.a = (dragPoly q t * (dragPoly q t - 2)) * q.a by ring, abs_mul, abs_of_pos ha0]
    gcongr
    refine (abs_mul_bd p1 (abs_sub_bd p1 (show |(2:ℝ)| ≤ 2 by norm_num))).trans (by norm_num)
  · rw [show (q.mean node t).n - q.n = ((q.mean node t).n / q.n - 1) * q.n by field_simp, abs_mul, abs_of_pos hn]
    gcongr

/-- An ordinary low orbit with drag, at an instant at which the lower limit of the eccentricity does not act. -/
theorem rates (H : Quiet q t) (node : ℝ) (hf : 1 / 10 ^ 6 < q.eRaw t) : ∃ e' w' h' a' l', Rates (q.mean node) t e' w' h' a' l' := by
  obtain ⟨e', w', h', a', l', D⟩ := H.drift node
  obtain ⟨e0, e1⟩ := H.ecc
  have hn := H.mot
  have ha := H.a_lo
  have ha2 := H.axis
  obtain ⟨v1, v2⟩ := abs_le.mp D.ve
  obtain ⟨v3, v4⟩ := abs_le.mp D.va
  obtain ⟨v5, v6⟩ := abs_le.mp D.vn
  have hm : (q.mean node t).e = q.eRaw t := max_eq_left hf.le
  have hev : ∀ᶠ s in 𝓝 t, (q.mean node s).e = q.eRaw s := by
    have := D.he.continuousAt.eventually (lt_mem_nhds hf)
    filter_upwards [this] with s hs
    exact max_eq_left (le_of_lt hs)
  have b1 := D.be
  have b2 := D.bw
  have b3 := D.bew
  have b4 := D.bh
  have b5 := D.ba
  have b6 := D.bl
  refine ⟨e', w', h', a', l', D.he.congr_of_eventuallyEq hev, D.hw, D.hh, D.ha, D.hl, ?_, ?_, ?_, ?_, ?_, fun _ => rfl, ?_, ?_, longL_small H.incl⟩
  · norm_num at *; linarith
  · rw [hm, show q.eRaw t * w' = q.e * w' + (q.eRaw t - q.e) * w' by ring]
    refine (abs_add_bd b3 (abs_mul_bd D.ve b2)).trans ?_
    norm_num at *; linarith
  · norm_num at *; linarith
  · show |a'| ≤ 0.0001 * q.aT t * (q.mean node t).n
    have h1 : 0.99 * q.a ≤ q.aT t := by norm_num at *; linarith
    have h2 : 0.99 * q.n ≤ (q.mean node t).n := by norm_num at *; linarith
    refine b5.trans ?_
    calc 0.000007 * q.a * q.n ≤ 0.0001 * (0.99 * q.a) * (0.99 * q.n) := by
          have : 0 < q.a * q.n := mul_pos (by norm_num at *; linarith) hn
          norm_num at *; linarith
      _ ≤ _ := by
        have : 0 < q.a := by norm_num at *; linarith
        have : 0 ≤ q.aT t := by norm_num at *; linarith
        gcongr
  · norm_num at *; linarith
  · rw [hm]; constructor <;> (norm_num at *; linarith)
  · rw [hm]
    show 1 ≤ q.aT t * (1 - q.eRaw t)
    have hp := H.per
    have h1 : 0.99905 * q.a ≤ q.aT t := by norm_num at *; linarith
    have h2 : 1 - q.e - 0.00075 ≤ 1 - q.eRaw t := by linarith
    have h3 : 0 ≤ 1 - q.e - 0.00075 := by norm_num at *; linarith
    calc (1:ℝ) ≤ 0.99905 * q.a * (1 - q.e - 0.00075) := by norm_num at *; nlinarith
      _ ≤ _ := mul_le_mul h1 h2 h3 (by norm_num at *; linarith)

end Quiet
end Sat
