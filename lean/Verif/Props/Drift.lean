import Verif.Props.Laws
import Verif.Props.Samples
/-!
# C96, C97: which way the orbit drifts and what drag does to it

Consequences of the published secular rates (C56) and drag series (C57) that a user of the crate relies on: the node of a direct orbit moves west and
that of a retrograde one east, perigee advances below and recedes above the critical inclination, and a positive drag term makes the orbit shrink.
-/

namespace Sat
open Spec.R3

section spec
variable (q : Orbit)

/-- semi-latus rectum of the mean orbit (earth radii) -/
noncomputable def orbitLatus : ℝ := q.a * (1 - q.e ^ 2)

theorem orbit_a_pos {q : Orbit} (hn : 0 < q.n) : 0 < q.a := by
  unfold Orbit.a; exact Real.rpow_pos_of_pos (div_pos (by unfold ke; norm_num) hn) _

theorem a_beta4 {q : Orbit} (he : 0 ≤ q.e ∧ q.e < 1) : q.a ^ 2 * q.β ^ 4 = orbitLatus q ^ 2 := by
  have : q.β ^ 2 = 1 - q.e ^ 2 := by unfold Orbit.β; exact Real.sq_sqrt (by nlinarith [he.1, he.2])
  unfold orbitLatus; rw [← this]; ring

/-- the rate of the node is that of the second zonal harmonic up to one per cent -/
theorem rateNode_bounds {q : Orbit} (he : 0 ≤ q.e ∧ q.e < 1) (hp : 1 ≤ orbitLatus q) :
    ∃ c, 0.99 ≤ c ∧ c ≤ 1.01 ∧ q.rateNode = -(c * (3 * k2 / orbitLatus q ^ 2) * q.n * Real.cos q.inc) := by
  have hb := a_beta4 he
  have hp2 : 1 ≤ orbitLatus q ^ 2 := by nlinarith
  set x := 1 / orbitLatus q ^ 2 with hx
  have hx0 : 0 < x := by positivity
  have hx1 : x ≤ 1 := by rw [hx, div_le_one (by positivity)]; exact hp2
  have hθ : q.θ ^ 2 ≤ 1 := by unfold Orbit.θ; nlinarith [Real.sin_sq_add_cos_sq q.inc, sq_nonneg (Real.sin q.inc)]
  have hθ0 := sq_nonneg q.θ
  refine ⟨1 - x * (k2 * (4 - 19 * q.θ ^ 2) / 2 + 5 * k4 * (3 - 7 * q.θ ^ 2) / (6 * k2)), ?_, ?_, ?_⟩
  · have : k2 * (4 - 19 * q.θ ^ 2) / 2 + 5 * k4 * (3 - 7 * q.θ ^ 2) / (6 * k2) ≤ 0.01 := by
      have : k2 * (4 - 19 * q.θ ^ 2) / 2 + 5 * k4 * (3 - 7 * q.θ ^ 2) / (6 * k2) =
        (2 * k2 + 5 * k4 / (2 * k2)) - (19 * k2 / 2 + 35 * k4 / (6 * k2)) * q.θ ^ 2 := by
        unfold k2 k4 j2 j4; ring
      rw [this]
      have : 0 ≤ (19 * k2 / 2 + 35 * k4 / (6 * k2)) * q.θ ^ 2 := mul_nonneg (by unfold k2 k4 j2 j4; norm_num) hθ0
      have : 2 * k2 + 5 * k4 / (2 * k2) ≤ 0.01 := by unfold k2 k4 j2 j4; norm_num
      linarith
    nlinarith
  · have : -0.01 ≤ k2 * (4 - 19 * q.θ ^ 2) / 2 + 5 * k4 * (3 - 7 * q.θ ^ 2) / (6 * k2) := by
      have : k2 * (4 - 19 * q.θ ^ 2) / 2 + 5 * k4 * (3 - 7 * q.θ ^ 2) / (6 * k2) =
        (2 * k2 + 5 * k4 / (2 * k2)) - (19 * k2 / 2 + 35 * k4 / (6 * k2)) * q.θ ^ 2 := by
        unfold k2 k4 j2 j4; ring
      rw [this]
      have h1 : (19 * k2 / 2 + 35 * k4 / (6 * k2)) * q.θ ^ 2 ≤ (19 * k2 / 2 + 35 * k4 / (6 * k2)) * 1 :=
        mul_le_mul_of_nonneg_left hθ (by unfold k2 k4 j2 j4; norm_num)
      have : -0.01 ≤ 2 * k2 + 5 * k4 / (2 * k2) - (19 * k2 / 2 + 35 * k4 / (6 * k2)) * 1 := by unfold k2 k4 j2 j4; norm_num
      linarith
    nlinarith
  · have e1 : q.a ^ 4 * q.β ^ 8 = (orbitLatus q ^ 2) ^ 2 := by rw [← hb]; ring
    have hk : (k2 : ℝ) ≠ 0 := by unfold k2 j2; norm_num
    unfold Orbit.rateNode
    rw [show 2 * q.a ^ 4 * q.β ^ 8 = 2 * (q.a ^ 4 * q.β ^ 8) by ring, e1, hb, hx]
    have hl : orbitLatus q ≠ 0 := by nlinarith
    show _ = -((1 - 1 / orbitLatus q ^ 2 * (k2 * (4 - 19 * q.θ ^ 2) / 2 + 5 * k4 * (3 - 7 * q.θ ^ 2) / (6 * k2))) * (3 * k2 / orbitLatus q ^ 2) * q.n * q.θ)
    field_simp
    ring

/-- the rate of perigee: `w = 5 cos² i - 1` is what the second zonal harmonic gives -/
theorem ratePerigee_bounds {q : Orbit} (he : 0 ≤ q.e ∧ q.e < 1) (hp : 1 ≤ orbitLatus q) :
    ∃ c, q.ratePerigee = 3 / 2 * k2 / orbitLatus q ^ 2 * q.n * c ∧ |c - (5 * Real.cos q.inc ^ 2 - 1)| ≤ 0.05 ∧
      (5 * Real.cos q.inc ^ 2 - 1 ≤ 0 → c < 0) ∧ (0.003 ≤ 5 * Real.cos q.inc ^ 2 - 1 → 0 < c) := by
  have hb := a_beta4 he
  have hp2 : 1 ≤ orbitLatus q ^ 2 := by nlinarith
  have hx0 : 0 < 1 / orbitLatus q ^ 2 := by positivity
  have hx1 : 1 / orbitLatus q ^ 2 ≤ 1 := by rw [div_le_one (by positivity)]; exact hp2
  have hθ : q.θ ^ 2 ≤ 1 := by unfold Orbit.θ; nlinarith [Real.sin_sq_add_cos_sq q.inc, sq_nonneg (Real.sin q.inc)]
  have hθ0 := sq_nonneg q.θ
  have hl : orbitLatus q ≠ 0 := by nlinarith
  have hk : (k2 : ℝ) ≠ 0 := by unfold k2 j2; norm_num
  show ∃ c, q.ratePerigee = 3 / 2 * k2 / orbitLatus q ^ 2 * q.n * c ∧ |c - (5 * q.θ ^ 2 - 1)| ≤ 0.05 ∧
      (5 * q.θ ^ 2 - 1 ≤ 0 → c < 0) ∧ (0.003 ≤ 5 * q.θ ^ 2 - 1 → 0 < c)
  refine ⟨(5 * q.θ ^ 2 - 1) + 1 / orbitLatus q ^ 2 * (k2 / 8 * (7 - 114 * q.θ ^ 2 + 395 * q.θ ^ 4) + 5 * k4 / (6 * k2) * (3 - 36 * q.θ ^ 2 + 49 * q.θ ^ 4)),
    ?_, ?_⟩
  · have e1 : q.a ^ 4 * q.β ^ 8 = (orbitLatus q ^ 2) ^ 2 := by rw [← hb]; ring
    unfold Orbit.ratePerigee
    rw [show 16 * q.a ^ 4 * q.β ^ 8 = 16 * (q.a ^ 4 * q.β ^ 8) by ring, show 4 * q.a ^ 4 * q.β ^ 8 = 4 * (q.a ^ 4 * q.β ^ 8) by ring,
      show 2 * q.a ^ 2 * q.β ^ 4 = 2 * (q.a ^ 2 * q.β ^ 4) by ring, e1, hb]
    field_simp
    ring
  · rw [show q.θ ^ 4 = (q.θ ^ 2) ^ 2 by ring]
    generalize q.θ ^ 2 = y at *
    generalize 1 / orbitLatus q ^ 2 = x at *
    obtain ⟨u, rfl⟩ : ∃ u, y = (1 + u) / 5 := ⟨5 * y - 1, by ring⟩
    have hu0 : -1 ≤ u := by linarith
    have hu1 : u ≤ 4 := by linarith
    have A : k2 / 8 * (7 - 114 * ((1 + u) / 5) + 395 * ((1 + u) / 5) ^ 2) + 5 * k4 / (6 * k2) * (3 - 36 * ((1 + u) / 5) + 49 * ((1 + u) / 5) ^ 2) =
        -(5 * k4 / (6 * k2) * 2.24) + (k2 / 8 * 8.8 - 5 * k4 / (6 * k2) * 3.28) * u + (k2 / 8 * 15.8 + 5 * k4 / (6 * k2) * 1.96) * u ^ 2 := by ring
    have c0 : 0.002 ≤ 5 * k4 / (6 * k2) * 2.24 ∧ 5 * k4 / (6 * k2) * 2.24 ≤ 0.0025 := by unfold k2 k4 j2 j4; norm_num
    have c1 : -0.003 ≤ k2 / 8 * 8.8 - 5 * k4 / (6 * k2) * 3.28 ∧ k2 / 8 * 8.8 - 5 * k4 / (6 * k2) * 3.28 ≤ 0 := by unfold k2 k4 j2 j4; norm_num
    have c2 : 0 ≤ k2 / 8 * 15.8 + 5 * k4 / (6 * k2) * 1.96 ∧ k2 / 8 * 15.8 + 5 * k4 / (6 * k2) * 1.96 ≤ 0.003 := by unfold k2 k4 j2 j4; norm_num
    rw [A]
    generalize 5 * k4 / (6 * k2) * 2.24 = p0 at *
    generalize k2 / 8 * 8.8 - 5 * k4 / (6 * k2) * 3.28 = p1 at *
    generalize k2 / 8 * 15.8 + 5 * k4 / (6 * k2) * 1.96 = p2 at *
    have e : 5 * ((1 + u) / 5) - 1 = u := by ring
    rw [e]
    have hu2 : u ^ 2 ≤ 16 := by nlinarith
    have b2 : 0 ≤ p2 * u ^ 2 ∧ p2 * u ^ 2 ≤ 0.048 := by
      refine ⟨by have := c2.1; positivity, ?_⟩
      nlinarith [c2.2, sq_nonneg u]
    have b1 : |p1 * u| ≤ 0.012 := by
      rw [abs_mul, abs_of_nonpos c1.2]
      have : |u| ≤ 4 := abs_le.mpr ⟨by linarith, hu1⟩
      nlinarith [abs_nonneg u, c1.1]
    obtain ⟨b3, b4⟩ := abs_le.mp b1
    refine ⟨?_, ?_, ?_⟩
    · rw [add_sub_cancel_left, abs_mul, abs_of_pos hx0]
      have h1 : |-p0 + p1 * u + p2 * u ^ 2| ≤ 0.05 := by
        rw [abs_le]
        constructor
        · linarith [c0.2, b2.1]
        · rcases le_or_gt 0 u with h | h
          · have := mul_nonpos_of_nonpos_of_nonneg c1.2 h
            linarith [c0.1, b2.2]
          · have h1 : p2 * u ^ 2 ≤ 0.003 * 1 := mul_le_mul c2.2 (by nlinarith) (sq_nonneg u) (by norm_num)
            linarith [c0.1]
      calc x * |-p0 + p1 * u + p2 * u ^ 2| ≤ 1 * 0.05 := mul_le_mul hx1 h1 (abs_nonneg _) (by norm_num)
        _ = _ := by norm_num
    · intro h
      have g1 : p1 * u ≤ -0.003 * u := mul_le_mul_of_nonpos_right c1.1 h
      have h3 : u ^ 2 ≤ -u := by nlinarith
      have g2 : p2 * u ^ 2 ≤ 0.003 * -u := mul_le_mul c2.2 h3 (sq_nonneg u) (by norm_num)
      have h1 : -p0 + p1 * u + p2 * u ^ 2 ≤ -0.002 + -0.006 * u := by linarith [c0.1]
      have h2 : x * (-p0 + p1 * u + p2 * u ^ 2) ≤ x * (-0.002 + -0.006 * u) := mul_le_mul_of_nonneg_left h1 hx0.le
      have h5 : x * (-0.006 * u) ≤ 1 * (-0.006 * u) := mul_le_mul_of_nonneg_right hx1 (by linarith)
      rw [mul_add] at h2
      linarith
    · intro h
      have g1 : -0.003 * u ≤ p1 * u := mul_le_mul_of_nonneg_right c1.1 (by linarith)
      have h1 : -(0.0025 + 0.003 * u) ≤ -p0 + p1 * u + p2 * u ^ 2 := by linarith [c0.2, b2.1]
      have h2 : x * -(0.0025 + 0.003 * u) ≤ x * (-p0 + p1 * u + p2 * u ^ 2) := mul_le_mul_of_nonneg_left h1 hx0.le
      have h3 : x * (0.0025 + 0.003 * u) ≤ 1 * (0.0025 + 0.003 * u) := mul_le_mul_of_nonneg_right hx1 (by linarith)
      linarith

/-! ## Drag -/

open Classical in
/-- the factor by which drag changes the square root of the semi-major axis in time `t` -/
noncomputable def shrink (t : ℝ) : ℝ := if q.fullDrag then 1 - q.C1 * t - q.D2 * t ^ 2 - q.D3 * t ^ 3 - q.D4 * t ^ 4 else 1 - q.C1 * t

theorem aT_shrink (t : ℝ) : q.aT t = q.a * shrink q t ^ 2 := by
  unfold Orbit.aT shrink; split_ifs <;> rfl

/-- perigee is at least 78 km above the level `s` of the density function -/
theorem above_s {q : Orbit} (h : 98 ≤ q.perigeeKm) : 78 / 6378.137 ≤ q.a * (1 - q.e) - q.s ∧ 1 ≤ q.s := by
  have e : q.a * (1 - q.e) = 1 + q.perigeeKm / kmPerRadius := by
    unfold Orbit.perigeeKm; rw [mul_div_assoc, div_self (by unfold kmPerRadius; norm_num)]; ring
  have hk : (0:ℝ) < kmPerRadius := by unfold kmPerRadius; norm_num
  have key : 20 ≤ q.sKm ∧ q.sKm + 78 ≤ q.perigeeKm := by
    unfold Orbit.sKm
    rw [if_neg (not_lt.mpr h)]
    split_ifs with h2
    · constructor <;> linarith
    · constructor <;> linarith
  unfold Orbit.s
  rw [e]
  constructor
  · have : (78:ℝ) / 6378.137 = 78 / kmPerRadius := rfl
    rw [this, show 1 + q.perigeeKm / kmPerRadius - (1 + q.sKm / kmPerRadius) = (q.perigeeKm - q.sKm) / kmPerRadius by ring]
    exact div_le_div_of_nonneg_right (by linarith) hk.le
  · have : 0 ≤ q.sKm / kmPerRadius := div_nonneg (by linarith) hk.le
    linarith

theorem C2_pos {q : Orbit} (hn : 0 < q.n) (he : 0 ≤ q.e ∧ q.e < 1) (h : 98 ≤ q.perigeeKm) :
    0 < q.C2 ∧ 0 < q.ξ ∧ q.s ≤ q.a := by
  have ha := orbit_a_pos hn
  obtain ⟨g1, g2⟩ := above_s h
  have hae : 0 ≤ q.a * q.e := mul_nonneg ha.le he.1
  have hd : 0 < q.a - q.s := by norm_num at g1; nlinarith
  have hξ : 0 < q.ξ := by unfold Orbit.ξ; positivity
  have hη0 : 0 ≤ q.η := by unfold Orbit.η; positivity
  have h1η : 1 - q.η = (q.a * (1 - q.e) - q.s) * q.ξ := by
    unfold Orbit.η Orbit.ξ; field_simp; ring
  have hη1 : 0 < 1 - q.η := by
    rw [h1η]; exact mul_pos (lt_of_lt_of_le (by norm_num) g1) hξ
  have hψ : q.ψ = (1 - q.η) * (1 + q.η) := by
    unfold Orbit.ψ; rw [abs_of_pos (by nlinarith)]; ring
  have hψ0 : 0 < q.ψ := by rw [hψ]; exact mul_pos hη1 (by linarith)
  have hk2 : 0 < k2 := by unfold k2 j2; norm_num
  refine ⟨?_, hξ, by linarith⟩
  unfold Orbit.C2
  have hq4 : 0 < q.q4 := by
    unfold Orbit.q4 Orbit.s
    have : q.sKm ≤ 78 := by
      unfold Orbit.sKm
      split_ifs with a b
      · norm_num
      · linarith
      · norm_num
    have : 0 < 1 + 120 / kmPerRadius - (1 + q.sKm / kmPerRadius) := by
      rw [show 1 + 120 / kmPerRadius - (1 + q.sKm / kmPerRadius) = (120 - q.sKm) / kmPerRadius by ring]
      exact div_pos (by linarith) (by unfold kmPerRadius; norm_num)
    positivity
  refine mul_pos (div_pos (by positivity) (Real.rpow_pos_of_pos hψ0 _)) ?_
  have a1 : 1 + 78 / 6378.137 ≤ q.a := by nlinarith
  have t1 : q.a ≤ q.a * (1 + 3 / 2 * q.η ^ 2 + 4 * q.e * q.η + q.e * q.η ^ 3) := by
    have : 0 ≤ 3 / 2 * q.η ^ 2 + 4 * q.e * q.η + q.e * q.η ^ 3 := by have := he.1; positivity
    nlinarith
  have t2 : k2 * q.ξ / q.ψ ≤ k2 * (6378.137 / 78) / (1 + q.η) := by
    rw [hψ, h1η, div_le_div_iff₀ (by positivity) (by linarith)]
    have : 1 ≤ 6378.137 / 78 * (q.a * (1 - q.e) - q.s) := by
      calc (1:ℝ) = 6378.137 / 78 * (78 / 6378.137) := by norm_num
        _ ≤ _ := by gcongr
    have h0 : 0 ≤ k2 * q.ξ * (1 + q.η) := by positivity
    nlinarith
  have t3 : (8 + 24 * q.η ^ 2 + 3 * q.η ^ 4) ≤ 17.5 * (1 + q.η) := by
    have h1 : q.η ≤ 1 := by linarith
    have h2 : q.η ^ 2 ≤ q.η := by nlinarith
    have h4 : q.η ^ 4 ≤ q.η ^ 2 := by nlinarith [sq_nonneg q.η]
    nlinarith
  have t4 : 3 / 2 * (k2 * q.ξ / q.ψ) * (1 / 2) * (8 + 24 * q.η ^ 2 + 3 * q.η ^ 4) ≤ 0.6 := by
    calc 3 / 2 * (k2 * q.ξ / q.ψ) * (1 / 2) * (8 + 24 * q.η ^ 2 + 3 * q.η ^ 4)
        ≤ 3 / 2 * (k2 * (6378.137 / 78) / (1 + q.η)) * (1 / 2) * (17.5 * (1 + q.η)) := by gcongr
      _ = 3 / 2 * k2 * (6378.137 / 78) * (1 / 2) * 17.5 := by
        have : 1 + q.η ≠ 0 := by linarith
        field_simp
      _ ≤ 0.6 := by unfold k2 j2; norm_num
  have t5 : -(3 / 2 * (k2 * q.ξ / q.ψ) * (1 / 2) * (8 + 24 * q.η ^ 2 + 3 * q.η ^ 4)) ≤
      3 / 2 * (k2 * q.ξ / q.ψ) * (-1 / 2 + 3 / 2 * q.θ ^ 2) * (8 + 24 * q.η ^ 2 + 3 * q.η ^ 4) := by
    have h0 : 0 ≤ 3 / 2 * (k2 * q.ξ / q.ψ) * (8 + 24 * q.η ^ 2 + 3 * q.η ^ 4) := by positivity
    have h1 := mul_nonneg h0 (sq_nonneg q.θ)
    linarith
  norm_num at a1 t4
  linarith

/-- With a positive drag term the factor falls, from a time shortly before the epoch on. -/
theorem shrink_falls {q : Orbit} (hn : 0 < q.n) (he : 0 ≤ q.e ∧ q.e < 1) (h : 98 ≤ q.perigeeKm) (hb : 0 < q.bstar) {t1 t2 : ℝ} (h12 : t1 < t2)
    (h0 : -1 ≤ 16 * q.a * q.ξ * q.C1 * t1) : shrink q t2 < shrink q t1 := by
  obtain ⟨c2, hξ, hs⟩ := C2_pos hn he h
  have ha := orbit_a_pos hn
  have hC : 0 < q.C1 := by unfold Orbit.C1; positivity
  have hs1 := (above_s h).2
  unfold shrink
  split_ifs with hf
  · have hD2 : 0 ≤ q.D2 := by unfold Orbit.D2; positivity
    have hD3 : 0 ≤ q.D3 := by unfold Orbit.D3; have : 0 ≤ q.s := by linarith
                              positivity
    have hD4 : 0 ≤ q.D4 := by unfold Orbit.D4; have : 0 ≤ q.s := by linarith
                              positivity
    have key : 0 < q.C1 + q.D2 * (t1 + t2) + q.D3 * (t1 ^ 2 + t1 * t2 + t2 ^ 2) + q.D4 * ((t1 + t2) * (t1 ^ 2 + t2 ^ 2)) := by
      have hq : 0 ≤ q.D3 * (t1 ^ 2 + t1 * t2 + t2 ^ 2) := mul_nonneg hD3 (by nlinarith [sq_nonneg (t1 + t2), sq_nonneg t1, sq_nonneg t2])
      rcases le_or_gt 0 (t1 + t2) with hp | hp
      · have := mul_nonneg hD2 hp
        have := mul_nonneg hD4 (mul_nonneg hp (by positivity : 0 ≤ t1 ^ 2 + t2 ^ 2))
        linarith
      · obtain ⟨τ, rfl⟩ : ∃ τ, t1 = -τ := ⟨-t1, by ring⟩
        have hτ : 0 < τ := by linarith
        have hy : q.a * q.ξ * q.C1 * τ ≤ 1 / 16 := by linarith
        have hy0 : 0 ≤ q.a * q.ξ * q.C1 * τ := by positivity
        have g2 : -(2 * τ * q.D2) ≤ q.D2 * (-τ + t2) := by nlinarith
        have ht2 : t2 ^ 2 ≤ τ ^ 2 := by nlinarith
        have g4 : -(4 * τ ^ 3 * q.D4) ≤ q.D4 * ((-τ + t2) * ((-τ) ^ 2 + t2 ^ 2)) := by
          have : -(4 * τ ^ 3) ≤ (-τ + t2) * ((-τ) ^ 2 + t2 ^ 2) := by
            have a1 : 0 ≤ (-τ) ^ 2 + t2 ^ 2 := by positivity
            have a2 : (-τ) ^ 2 + t2 ^ 2 ≤ 2 * τ ^ 2 := by nlinarith
            have a3 : -(2 * τ) ≤ -τ + t2 := by linarith
            nlinarith
          nlinarith
        have e2 : 2 * τ * q.D2 = 8 * (q.a * q.ξ * q.C1 * τ) * q.C1 := by unfold Orbit.D2; ring
        have e4 : 4 * τ ^ 3 * q.D4 ≤ 672 * (q.a * q.ξ * q.C1 * τ) ^ 3 * q.C1 := by
          have : 4 * τ ^ 3 * q.D4 = 8 / 3 * (q.a ^ 2 * q.ξ ^ 3 * q.C1 ^ 3 * τ ^ 3) * (221 * q.a + 31 * q.s) * q.C1 := by unfold Orbit.D4; ring
          rw [this]
          calc 8 / 3 * (q.a ^ 2 * q.ξ ^ 3 * q.C1 ^ 3 * τ ^ 3) * (221 * q.a + 31 * q.s) * q.C1
              ≤ 8 / 3 * (q.a ^ 2 * q.ξ ^ 3 * q.C1 ^ 3 * τ ^ 3) * (221 * q.a + 31 * q.a) * q.C1 := by gcongr
            _ = _ := by ring
        have e5 : (q.a * q.ξ * q.C1 * τ) ^ 3 ≤ (1 / 16) ^ 3 := by gcongr
        nlinarith
    have e : 1 - q.C1 * t1 - q.D2 * t1 ^ 2 - q.D3 * t1 ^ 3 - q.D4 * t1 ^ 4 - (1 - q.C1 * t2 - q.D2 * t2 ^ 2 - q.D3 * t2 ^ 3 - q.D4 * t2 ^ 4) =
        (t2 - t1) * (q.C1 + q.D2 * (t1 + t2) + q.D3 * (t1 ^ 2 + t1 * t2 + t2 ^ 2) + q.D4 * ((t1 + t2) * (t1 ^ 2 + t2 ^ 2))) := by ring
    have := mul_pos (sub_pos.mpr h12) key
    linarith
  · nlinarith

end spec

/-- **C96.** The node of a direct orbit (inclination below 90 degrees) moves west, that of a retrograde orbit east, at the rate of the second zonal
harmonic up to one per cent; for every element set whose mean perigee is above the surface. -/
theorem C96_node_drift (s s' : Satrec ℝ) (o : SGP4InitOptions ℝ) (r : Except SGP4Error (SGP4Result ℝ)) (h : sgp4init s o = some (s', r))
    (he : 0 ≤ o.xecco ∧ o.xecco < 1) (hn : 0 < s'.no) (hp : 1 ≤ (ke / s'.no) ^ (2 / 3 : ℝ) * (1 - o.xecco)) :
    (s'.nodedot < 0 ↔ 0 < Real.cos o.xinclo) ∧ (0 < s'.nodedot ↔ Real.cos o.xinclo < 0) ∧
    |s'.nodedot + 3 / 2 * j2 * s'.no * Real.cos o.xinclo / ((ke / s'.no) ^ (2 / 3 : ℝ) * (1 - o.xecco ^ 2)) ^ 2| ≤
      0.01 * |3 / 2 * j2 * s'.no * Real.cos o.xinclo / ((ke / s'.no) ^ (2 / 3 : ℝ) * (1 - o.xecco ^ 2)) ^ 2| := by
  have hl : 1 ≤ orbitLatus (orbitOf s' o) := by
    show 1 ≤ (ke / s'.no) ^ (2 / 3 : ℝ) * (1 - o.xecco ^ 2)
    have := he.1
    have e : (ke / s'.no) ^ (2 / 3 : ℝ) * (1 - o.xecco ^ 2) = (ke / s'.no) ^ (2 / 3 : ℝ) * (1 - o.xecco) * (1 + o.xecco) := by ring
    rw [e]; nlinarith
  obtain ⟨c, c1, c2, hc⟩ := rateNode_bounds (q := orbitOf s' o) he hl
  rw [(C56_secular_rates s s' o r h he).2.2, hc]
  show (-(c * (3 * k2 / orbitLatus (orbitOf s' o) ^ 2) * s'.no * Real.cos o.xinclo) < 0 ↔ _) ∧
    (0 < -(c * (3 * k2 / orbitLatus (orbitOf s' o) ^ 2) * s'.no * Real.cos o.xinclo) ↔ _) ∧
    |-(c * (3 * k2 / orbitLatus (orbitOf s' o) ^ 2) * s'.no * Real.cos o.xinclo) + 3 / 2 * j2 * s'.no * Real.cos o.xinclo / orbitLatus (orbitOf s' o) ^ 2| ≤
      0.01 * |3 / 2 * j2 * s'.no * Real.cos o.xinclo / orbitLatus (orbitOf s' o) ^ 2|
  have hk2 : 0 < k2 := by unfold k2 j2; norm_num
  have hpos : 0 < c * (3 * k2 / orbitLatus (orbitOf s' o) ^ 2) * s'.no := by
    have : 0 < c := lt_of_lt_of_le (by norm_num) c1
    positivity
  refine ⟨?_, ?_, ?_⟩
  · rw [neg_lt_zero]; exact mul_pos_iff_of_pos_left hpos
  · rw [neg_pos]; exact ⟨fun hh => by_contra fun hx => absurd hh (not_lt.mpr (mul_nonneg hpos.le (not_lt.mp hx))), fun hh => mul_neg_of_pos_of_neg hpos hh⟩
  · have e : -(c * (3 * k2 / orbitLatus (orbitOf s' o) ^ 2) * s'.no * Real.cos o.xinclo) + 3 / 2 * j2 * s'.no * Real.cos o.xinclo / orbitLatus (orbitOf s' o) ^ 2 =
        (1 - c) * (3 / 2 * j2 * s'.no * Real.cos o.xinclo / orbitLatus (orbitOf s' o) ^ 2) := by unfold k2; ring
    rw [e, abs_mul]
    refine mul_le_mul_of_nonneg_right ?_ (abs_nonneg _)
    rw [abs_le]; constructor <;> (norm_num at *; linarith)

/-- **C96.** Perigee moves forward in orbits inclined by less than about 63.4 degrees (`5 cos² i ≥ 1.003`; also for retrograde orbits), and backward in
between (`5 cos² i ≤ 1`). -/
theorem C96_perigee_drift (s s' : Satrec ℝ) (o : SGP4InitOptions ℝ) (r : Except SGP4Error (SGP4Result ℝ)) (h : sgp4init s o = some (s', r))
    (he : 0 ≤ o.xecco ∧ o.xecco < 1) (hn : 0 < s'.no) (hp : 1 ≤ (ke / s'.no) ^ (2 / 3 : ℝ) * (1 - o.xecco)) :
    (5 * Real.cos o.xinclo ^ 2 ≤ 1 → s'.argpdot < 0) ∧ (1.003 ≤ 5 * Real.cos o.xinclo ^ 2 → 0 < s'.argpdot) := by
  have hl : 1 ≤ orbitLatus (orbitOf s' o) := by
    show 1 ≤ (ke / s'.no) ^ (2 / 3 : ℝ) * (1 - o.xecco ^ 2)
    have := he.1
    have e : (ke / s'.no) ^ (2 / 3 : ℝ) * (1 - o.xecco ^ 2) = (ke / s'.no) ^ (2 / 3 : ℝ) * (1 - o.xecco) * (1 + o.xecco) := by ring
    rw [e]; nlinarith
  obtain ⟨c, hc, -, c1, c2⟩ := ratePerigee_bounds (q := orbitOf s' o) he hl
  rw [(C56_secular_rates s s' o r h he).2.1, hc]
  have hk2 : 0 < k2 := by unfold k2 j2; norm_num
  have hpos : 0 < 3 / 2 * k2 / orbitLatus (orbitOf s' o) ^ 2 * (orbitOf s' o).n := by
    have : 0 < (orbitOf s' o).n := hn
    positivity
  refine ⟨fun hh => mul_neg_of_pos_of_neg hpos (c1 ?_), fun hh => mul_pos hpos (c2 ?_)⟩
  · show 5 * Real.cos o.xinclo ^ 2 - 1 ≤ 0
    linarith
  · show 0.003 ≤ 5 * Real.cos o.xinclo ^ 2 - 1
    norm_num at *; linarith

/-- **C97.** With a positive drag term the orbit shrinks: of two times, not long before the epoch, the mean semi-major axis in which the states are computed
is smaller, and the mean motion larger, at the later one, as long as the orbit has not collapsed; and the returned states obey the energy equation of these axes. -/
theorem C97_drag_shrinks (s s' : Satrec ℝ) (o : SGP4InitOptions ℝ) (r : Except SGP4Error (SGP4Result ℝ)) (h : sgp4init s o = some (s', r))
    (he : 0 ≤ o.xecco ∧ o.xecco < 1) (hn : 0 < s'.no) (hN : s'.method = .N) (hb : 0 < o.xbstar)
    (hp : 98 ≤ (orbitOf s' o).perigeeKm) (t1 t2 : ℝ) (h12 : t1 < t2)
    (h0 : -1 ≤ 16 * (orbitOf s' o).a * (orbitOf s' o).ξ * (orbitOf s' o).C1 * t1) (hs : 0 < shrink (orbitOf s' o) t2)
    (s1 s2 : Satrec ℝ) (v1 v2 : SGP4Result ℝ) (r1 : sgp4 s' t1 = some (s1, .ok v1)) (r2 : sgp4 s' t2 = some (s2, .ok v2)) :
    let m1 := (orbitOf s' o).mean o.xnodeo t1
    let m2 := (orbitOf s' o).mean o.xnodeo t2
    m2.a < m1.a ∧ m1.n < m2.n ∧
      (m1.e ≤ 1 / 2 → 1 ≤ m1.a * (1 - m1.e) → EnergyLaw v1.position v1.velocity (m1.a * 6378.137)) ∧
      (m2.e ≤ 1 / 2 → 1 ≤ m2.a * (1 - m2.e) → EnergyLaw v2.position v2.velocity (m2.a * 6378.137)) := by
  intro m1 m2
  have hn' : 0 < (orbitOf s' o).n := hn
  have hf := shrink_falls (q := orbitOf s' o) hn' he hp hb h12 h0
  have ha : 0 < (orbitOf s' o).a := orbit_a_pos hn'
  have ha2 : 0 < m2.a := by show 0 < (orbitOf s' o).aT t2; rw [aT_shrink]; positivity
  have hlt : m2.a < m1.a := by
    show (orbitOf s' o).aT t2 < (orbitOf s' o).aT t1
    rw [aT_shrink, aT_shrink]
    exact mul_lt_mul_of_pos_left (by nlinarith) ha
  have hq : orbitOf s' o = ⟨recoveredMotion o.xno o.xecco o.xinclo, o.xecco, o.xinclo, o.xargpo, o.xmo, o.xbstar⟩ := by
    unfold orbitOf; rw [C56_recovered_motion s s' o r h he]
  refine ⟨hlt, ?_, fun g1 g2 => ?_, fun g1 g2 => ?_⟩
  · show ke / m1.a ^ (3 / 2 : ℝ) < ke / m2.a ^ (3 / 2 : ℝ)
    exact div_lt_div_of_pos_left (by unfold ke; norm_num) (Real.rpow_pos_of_pos ha2 _) (Real.rpow_lt_rpow ha2.le hlt (by norm_num))
  · have := C86_energy_and_areas s s' s1 o r t1 v1 h he hN r1
    dsimp only at this
    rw [← hq] at this
    exact (this g1 g2).1
  · have := C86_energy_and_areas s s' s2 o r t2 v2 h he hN r2
    dsimp only at this
    rw [← hq] at this
    exact (this g1 g2).1

/-! ## Cases that meet the hypotheses -/

theorem orbitOf_sample {s s' : Satrec ℝ} {r} (h : sgp4init s sampleNear = some (s', r)) :
    orbitOf s' sampleNear = ⟨ke / 1.3 ^ 3, 0.1, Real.arccos (1 / Real.sqrt 3), 1, 2, 0.0001⟩ := by
  unfold orbitOf
  rw [C56_recovered_motion s s' sampleNear r h (by show (0 : ℝ) ≤ 0.1 ∧ (0.1 : ℝ) < 1; norm_num), show recoveredMotion sampleNear.xno sampleNear.xecco sampleNear.xinclo =
    ke / 1.3 ^ 3 from sample_motion 1.3 0.1 0.0001]
  rfl

/-- C96: the sample orbit (inclination 54.7 degrees): the node moves west, perigee forward -/
example (s s' : Satrec ℝ) (r) (h : sgp4init s sampleNear = some (s', r)) : s'.nodedot < 0 ∧ 0 < s'.argpdot := by
  have hno : s'.no = ke / 1.3 ^ 3 := congrArg Orbit.n (orbitOf_sample h)
  have he : (0 : ℝ) ≤ sampleNear.xecco ∧ sampleNear.xecco < 1 := by show (0 : ℝ) ≤ 0.1 ∧ (0.1 : ℝ) < 1; norm_num
  have hn : 0 < s'.no := by rw [hno]; unfold ke; norm_num
  have hp : 1 ≤ (ke / s'.no) ^ (2 / 3 : ℝ) * (1 - sampleNear.xecco) := by
    rw [hno, sample_axis (by norm_num)]; show (1 : ℝ) ≤ 1.3 ^ 2 * (1 - 0.1); norm_num
  refine ⟨(C96_node_drift s s' sampleNear r h he hn hp).1.mpr ?_, (C96_perigee_drift s s' sampleNear r h he hn hp).2 ?_⟩
  · show 0 < Real.cos (Real.arccos (1 / Real.sqrt 3))
    have h31 : 1 ≤ Real.sqrt 3 := Real.one_le_sqrt.mpr (by norm_num)
    have h0 : 0 < 1 / Real.sqrt 3 := by positivity
    rw [Real.cos_arccos (by linarith) (by rw [div_le_one (by linarith)]; exact h31)]
    exact h0
  · show 1.003 ≤ 5 * Real.cos (Real.arccos (1 / Real.sqrt 3)) ^ 2
    rw [sample_cos]; norm_num

open Filter Topology in
/-- C97: two times at which the sample orbit, with drag, is propagated: at the later one it is smaller and faster -/
example (s s' : Satrec ℝ) (r) (h : sgp4init s sampleNear = some (s', r)) :
    ∃ t2 s1 s2 v1 v2, 0 < t2 ∧ sgp4 s' 0 = some (s1, .ok v1) ∧ sgp4 s' t2 = some (s2, .ok v2) ∧
      ((orbitOf s' sampleNear).mean sampleNear.xnodeo t2).a < ((orbitOf s' sampleNear).mean sampleNear.xnodeo 0).a := by
  have hq := orbitOf_sample h
  have hno : s'.no = ke / 1.3 ^ 3 := congrArg Orbit.n hq
  have he : (0 : ℝ) ≤ sampleNear.xecco ∧ sampleNear.xecco < 1 := by show (0 : ℝ) ≤ 0.1 ∧ (0.1 : ℝ) < 1; norm_num
  have hn : 0 < s'.no := by rw [hno]; unfold ke; norm_num
  obtain ⟨m1, m2⟩ := sample_near (b := 1.3) ⟨by norm_num, by norm_num⟩ 0.1 0.0001
  have hN := near_of_motion h he m2
  have hq' : orbitOf s' sampleNear = ⟨recoveredMotion sampleNear.xno sampleNear.xecco sampleNear.xinclo, sampleNear.xecco, sampleNear.xinclo, sampleNear.xargpo,
      sampleNear.xmo, sampleNear.xbstar⟩ := by
    unfold orbitOf; rw [C56_recovered_motion s s' sampleNear r h he]
  have ha : (orbitOf s' sampleNear).a = 1.3 ^ 2 := by rw [hq]; exact sample_axis (by norm_num)
  have hE : (orbitOf s' sampleNear).e = 0.1 := by rw [hq]
  have hper : 98 ≤ (orbitOf s' sampleNear).perigeeKm := by
    unfold Orbit.perigeeKm kmPerRadius; rw [ha, hE]; norm_num
  have cE : Continuous (orbitOf s' sampleNear).eRaw := by
    unfold Orbit.eRaw Orbit.Mp Orbit.MDF Orbit.δωM Orbit.MDF; split_ifs <;> fun_prop
  have cA : Continuous (shrink (orbitOf s' sampleNear)) := by
    unfold shrink; split_ifs <;> fun_prop
  have e0 : (orbitOf s' sampleNear).eRaw 0 = 0.1 := by
    unfold Orbit.eRaw Orbit.Mp Orbit.δωM Orbit.MDF; rw [hE]; split_ifs <;> simp
  have a0 : shrink (orbitOf s' sampleNear) 0 = 1 := by unfold shrink; split_ifs <;> simp
  have ok : ∀ t, |(orbitOf s' sampleNear).eRaw t - 0.1| < 0.1 → |shrink (orbitOf s' sampleNear) t - 1| < 0.05 → ∃ s'' v, sgp4 s' t = some (s'', .ok v) := by
    intro t g1 g2
    obtain ⟨x1, x2⟩ := abs_lt.mp g1
    obtain ⟨y1, y2⟩ := abs_lt.mp g2
    have := C66_accepted s s' sampleNear r t h he m1 m2
    dsimp only at this
    rw [← hq'] at this
    norm_num at x1 x2 y1 y2
    refine this (by norm_num; linarith) (by linarith) ?_
    show 1.01 ≤ (orbitOf s' sampleNear).aT t * (1 - max ((orbitOf s' sampleNear).eRaw t) (1 / 10 ^ 6))
    rw [aT_shrink, ha]
    have h1 : 0.9 ≤ shrink (orbitOf s' sampleNear) t ^ 2 := by norm_num; nlinarith
    have h2 : 0.8 ≤ 1 - max ((orbitOf s' sampleNear).eRaw t) (1 / 10 ^ 6) := by
      have : max ((orbitOf s' sampleNear).eRaw t) (1 / 10 ^ 6) ≤ 1 / 5 := max_le (by linarith) (by norm_num)
      have e : (0.8 : ℝ) = 1 - 1 / 5 := by norm_num
      rw [e]; linarith
    calc (1.01:ℝ) ≤ 1.3 ^ 2 * 0.9 * 0.8 := by norm_num
      _ ≤ _ := by gcongr
  have ev : ∀ᶠ t in 𝓝[>] (0:ℝ), |(orbitOf s' sampleNear).eRaw t - 0.1| < 0.1 ∧ |shrink (orbitOf s' sampleNear) t - 1| < 0.05 := by
    refine nhdsWithin_le_nhds ?_
    have q1 : ∀ᶠ t in 𝓝 (0:ℝ), |(orbitOf s' sampleNear).eRaw t - 0.1| < 0.1 :=
      (by fun_prop : Continuous fun t => |(orbitOf s' sampleNear).eRaw t - 0.1|).continuousAt.eventually_lt continuousAt_const (by rw [e0]; norm_num)
    have q2 : ∀ᶠ t in 𝓝 (0:ℝ), |shrink (orbitOf s' sampleNear) t - 1| < 0.05 :=
      (by fun_prop : Continuous fun t => |shrink (orbitOf s' sampleNear) t - 1|).continuousAt.eventually_lt continuousAt_const (by rw [a0]; norm_num)
    exact q1.and q2
  obtain ⟨t2, ⟨g1, g2⟩, ht⟩ := (ev.and self_mem_nhdsWithin).exists
  obtain ⟨s1, v1, r1⟩ := ok 0 (by rw [e0]; norm_num) (by rw [a0]; norm_num)
  obtain ⟨s2, v2, r2⟩ := ok t2 g1 g2
  have hs : 0 < shrink (orbitOf s' sampleNear) t2 := by have := (abs_lt.mp g2).1; norm_num at this; linarith
  exact ⟨t2, s1, s2, v1, v2, ht, r1, r2,
    (C97_drag_shrinks s s' sampleNear r h he hn hN (by show (0 : ℝ) < 0.0001; norm_num) hper 0 t2 ht (by simp) hs s1 s2 v1 v2 r1 r2).1⟩

end Sat
