import Verif.Props.F64Tilt
import Verif.Props.Drift
/-!
# C111: the plane of the orbit turns at the rate the earth's oblateness gives, from the printed text, in doubles

The plane in which a near-earth satellite is reported to move is compared with the plane of the printed ascending node and inclination. It turns
about the axis of the earth, westward for orbits inclined by less than 90 degrees, at the rate of the second zonal harmonic.
-/

namespace Sat
open F64 hiding sub
open Spec Spec.R3 Spec.SDP Chain

/-- Position `p` and velocity `w` lie in a plane with ascending node `Ω` and inclination `i` (radians), up to `ε` in each component of the unit normal. -/
def InPlane (Ω i ε : ℝ) (p w : Vec3 ℝ) : Prop :=
  40000 ≤ len (cross p w) ∧
    |(cross p w).x / len (cross p w) - Real.sin i * Real.sin Ω| ≤ ε ∧
    |(cross p w).y / len (cross p w) - -(Real.sin i * Real.cos Ω)| ≤ ε ∧
    |(cross p w).z / len (cross p w) - Real.cos i| ≤ ε

/-- Motion of the node, in radians per minute, of an orbit with `rev` revolutions a day, semi-major axis `A` (km), eccentricity `e` and inclination
`i`: the secular effect of the second zonal harmonic, `- 3/2 J₂ (R / (A (1 - e²)))² n cos i`. -/
noncomputable def nodalRate (rev A e i : ℝ) : ℝ :=
  -(3 / 2 * 0.00108262998905 * (6378.137 / (A * (1 - e ^ 2))) ^ 2 * (rev * (2 * Real.pi) / 1440) * Real.cos i)

/-! ## The theory -/

theorem Ωk_near {m : Mean} (h : Fair m) (E : ℝ) : |m.Ωk E - m.Ω| ≤ 0.00082 := by
  have hc : |m.sin2u E| ≤ 1 := by
    unfold Mean.sin2u
    by_cases hr : m.r E = 0
    · unfold Mean.sinu; rw [hr]; simp
    · have := sinu_sq_add_cosu_sq m E hr (h.ecc.trans (by norm_num))
      rw [abs_le]; constructor <;> nlinarith [sq_nonneg (m.cosu E + m.sinu E), sq_nonneg (m.cosu E - m.sinu E)]
  have ht : |m.θ| ≤ 1 := Real.abs_cos_le_one _
  have hp : 0.996 ≤ m.pL ^ 2 := by have := h.per; norm_num at this ⊢; nlinarith
  have hp0 : 0 < m.pL ^ 2 := lt_of_lt_of_le (by norm_num) hp
  have hk : |3 * R3.k2 / (2 * m.pL ^ 2)| ≤ 0.00082 := by
    have k0 : 0 < 3 * R3.k2 := by unfold R3.k2 R3.j2; norm_num
    rw [abs_of_pos (div_pos k0 (by linarith)), div_le_iff₀ (by linarith)]
    unfold R3.k2 R3.j2; norm_num at hp ⊢; linarith
  have e : m.Ωk E - m.Ω = 3 * R3.k2 / (2 * m.pL ^ 2) * m.θ * m.sin2u E := by unfold Mean.Ωk; ring
  rw [e, abs_mul, abs_mul]
  calc |3 * R3.k2 / (2 * m.pL ^ 2)| * |m.θ| * |m.sin2u E| ≤ 0.00082 * 1 * 1 :=
        mul_le_mul (mul_le_mul hk ht (abs_nonneg _) (by norm_num)) hc (abs_nonneg _) (by norm_num)
    _ ≤ 0.00082 := by norm_num

/-- the node at time `t`, as a multiple of the motion by the second zonal harmonic -/
theorem node_motion {q : Orbit} {t : ℝ} (Q : Quiet q t) (node : ℝ) : ∃ c, 0.988 ≤ c ∧ c ≤ 1.012 ∧
    q.Ω node t = node - c * (3 * R3.k2 / orbitLatus q ^ 2 * q.n * Real.cos q.inc) * t := by
  obtain ⟨e0, e1⟩ := Q.ecc
  have ha0 : 0 < q.a := by
    have := Q.per
    by_contra hcon
    have h2 : q.a * (1 - q.e) ≤ 0 := mul_nonpos_of_nonpos_of_nonneg (not_lt.mp hcon) (by norm_num at e1; linarith only [e1])
    norm_num at this; linarith only [this, h2]
  have hl : 1 ≤ orbitLatus q := by
    have e : orbitLatus q = q.a * (1 - q.e) * (1 + q.e) := by unfold orbitLatus; ring
    have h1 : 1 ≤ q.a * (1 - q.e) := le_trans (by norm_num) Q.per
    rw [e]; nlinarith only [h1, e0]
  have he : 0 ≤ q.e ∧ q.e < 1 := ⟨e0, lt_of_le_of_lt e1 (by norm_num)⟩
  obtain ⟨c, c1, c2, hc⟩ := rateNode_bounds he hl
  obtain ⟨-, d2, -⟩ := Q.c1_le
  have hb : q.β ^ 2 = 1 - q.e ^ 2 := by
    unfold Orbit.β; rw [Real.sq_sqrt (by nlinarith only [e0, he.2])]
  have hb1 : 0 < 1 - q.e ^ 2 := by nlinarith only [e0, he.2]
  have hb2 : 1 - q.e ^ 2 ≤ 1 := by nlinarith only [e0]
  have hx : |3.5 * (1 - q.e ^ 2) * (q.C1 * t)| ≤ 0.002 := by
    rw [abs_mul, abs_mul, abs_of_pos hb1, abs_of_pos (by norm_num : (0 : ℝ) < 3.5)]
    calc 3.5 * (1 - q.e ^ 2) * |q.C1 * t| ≤ 3.5 * 1 * 0.000432 := by gcongr
      _ ≤ _ := by norm_num
  obtain ⟨x1, x2⟩ := abs_le.mp hx
  refine ⟨c + 3.5 * (1 - q.e ^ 2) * (q.C1 * t), by norm_num at c1 x1 ⊢; linarith only [c1, x1], by norm_num at c2 x2 ⊢; linarith only [c2, x2], ?_⟩
  unfold Orbit.Ω Orbit.dΩ
  rw [hc, hb]
  unfold orbitLatus Orbit.θ
  have hb0 := hb1.ne'
  field_simp
  ring

/-- the motion of the node against that computed from the printed numbers -/
theorem node_rate {c a n A ω e i t : ℝ} (hc : 0.988 ≤ c ∧ c ≤ 1.012) (hA : 0 < A) (hω : 0 < ω) (he : 0 ≤ e ∧ e < 1) (ha : 0 < a)
    (a1 : 0.996 * A ≤ a * 6378.137) (a2 : a * 6378.137 ≤ 1.0045 * A) (n1 : 0.996 * ω ≤ n) (n2 : n ≤ 1.0035 * ω) :
    |c * (3 * R3.k2 / (a * (1 - e ^ 2)) ^ 2 * n * Real.cos i) * t - 3 / 2 * 0.00108262998905 * (6378.137 / (A * (1 - e ^ 2))) ^ 2 * ω * Real.cos i * t| ≤
      0.03 * |3 / 2 * 0.00108262998905 * (6378.137 / (A * (1 - e ^ 2))) ^ 2 * ω * Real.cos i * t| := by
  have hb1 : 0 < 1 - e ^ 2 := by nlinarith only [he.1, he.2]
  set B := a * 6378.137 with hB
  have hB0 : 0 < B := by positivity
  set r := A ^ 2 / B ^ 2 with hr
  have r1 : 0.991 ≤ r := by
    rw [hr, le_div_iff₀ (by positivity)]
    have : B ^ 2 ≤ (1.0045 * A) ^ 2 := by gcongr
    norm_num at this ⊢; nlinarith only [this, hA]
  have r2 : r ≤ 1.0081 := by
    rw [hr, div_le_iff₀ (by positivity)]
    have : (0.996 * A) ^ 2 ≤ B ^ 2 := by gcongr
    norm_num at this ⊢; nlinarith only [this, hA]
  set s := n / ω with hs
  have s1 : 0.996 ≤ s := by rw [hs, le_div_iff₀ hω]; exact n1
  have s2 : s ≤ 1.0035 := by rw [hs, div_le_iff₀ hω]; exact n2
  have key : c * (3 * R3.k2 / (a * (1 - e ^ 2)) ^ 2 * n * Real.cos i) * t =
      c * r * s * (3 / 2 * 0.00108262998905 * (6378.137 / (A * (1 - e ^ 2))) ^ 2 * ω * Real.cos i * t) := by
    rw [hr, hs, hB]
    unfold R3.k2 R3.j2
    field_simp
  rw [key]
  generalize 3 / 2 * 0.00108262998905 * (6378.137 / (A * (1 - e ^ 2))) ^ 2 * ω * Real.cos i * t = y
  have e2 : c * r * s * y - y = (c * r * s - 1) * y := by ring
  rw [e2, abs_mul]
  refine mul_le_mul_of_nonneg_right ?_ (abs_nonneg _)
  have l : 0.97 ≤ c * r * s := by
    calc (0.97 : ℝ) ≤ 0.988 * 0.991 * 0.996 := by norm_num
      _ ≤ _ := mul_le_mul (mul_le_mul hc.1 r1 (by norm_num) (le_trans (by norm_num) hc.1)) s1 (by norm_num)
        (mul_nonneg (le_trans (by norm_num) hc.1) (le_trans (by norm_num) r1))
  have u : c * r * s ≤ 1.03 := by
    calc c * r * s ≤ 1.012 * 1.0081 * 1.0035 := mul_le_mul (mul_le_mul hc.2 r2 (le_trans (by norm_num) r1) (by norm_num)) s2
          (le_trans (by norm_num) s1) (by norm_num)
      _ ≤ _ := by norm_num
  rw [abs_le]
  constructor <;> norm_num at l u ⊢ <;> linarith only [l, u]

/-- components of the normal against those of nearby angles -/
theorem normal_comp {a b a' b' d1 d2 : ℝ} (h1 : |a - a'| ≤ d1) (h2 : |b - b'| ≤ d2) :
    |Real.sin a * Real.sin b - Real.sin a' * Real.sin b'| ≤ d1 + d2 ∧ |Real.sin a * Real.cos b - Real.sin a' * Real.cos b'| ≤ d1 + d2 := by
  have s1 : |Real.sin a - Real.sin a'| ≤ d1 := (Real.abs_sin_sub_sin_le _ _).trans h1
  have go : ∀ x y : ℝ, |x - y| ≤ d2 → |x| ≤ 1 → |Real.sin a * x - Real.sin a' * y| ≤ d1 + d2 := by
    intro x y g1 g2
    have e : Real.sin a * x - Real.sin a' * y = (Real.sin a - Real.sin a') * x + Real.sin a' * (x - y) := by ring
    rw [e]
    refine (abs_add_le _ _).trans (add_le_add ?_ ?_)
    · rw [abs_mul]; exact (mul_le_of_le_one_right (abs_nonneg _) g2).trans s1
    · rw [abs_mul]; exact (mul_le_of_le_one_left (abs_nonneg _) (Real.abs_sin_le_one _)).trans g1
  exact ⟨go _ _ ((Real.abs_sin_sub_sin_le _ _).trans h2) (Real.abs_sin_le_one _), go _ _ ((Real.abs_cos_sub_cos_le _ _).trans h2) (Real.abs_cos_le_one _)⟩

variable [Libm]

/-- **C111.** The plane in which a near-earth satellite is reported to move, at any time in range, has the printed inclination, and its ascending node
is the printed one moved by the printed orbit's nodal rate times the minutes since epoch, up to three per cent of that motion. -/
theorem C111_precession_f64 (hL : Libm.Faithful) (l1 l2 : Str) (v : Tle) (h : Printed l1 l2 v) (hpos : v.nddotNeg = false ∨ v.nddotMant = 0)
    (hnd : Normal v.nddotMant) (hb : Normal v.bstarMant) (t : F64) (ht : t.Fin) (hl : LowTle v t.val) :
    ∃ (s : Satrec F64) (p : SGP4Result F64) (A Ω : ℝ), twoline2satrec l1 l2 = .ok s ∧ (sgp4 s t).map Prod.snd = some (.ok p) ∧
      0 < A ∧ A ^ 3 * ((v.noE8 : ℝ) / 10 ^ 8 * (2 * Real.pi) / 86400) ^ 2 = 398600.5 ∧
      |Ω - ((v.nodeE4 : ℝ) / 10 ^ 4 * (Real.pi / 180) +
          nodalRate ((v.noE8 : ℝ) / 10 ^ 8) A ((v.eccE7 : ℝ) / 10 ^ 7) ((v.inclE4 : ℝ) / 10 ^ 4 * (Real.pi / 180)) * t.val)| ≤
        0.03 * |nodalRate ((v.noE8 : ℝ) / 10 ^ 8) A ((v.eccE7 : ℝ) / 10 ^ 7) ((v.inclE4 : ℝ) / 10 ^ 4 * (Real.pi / 180)) * t.val| ∧
      InPlane Ω ((v.inclE4 : ℝ) / 10 ^ 4 * (Real.pi / 180)) 0.0014 p.position.exact p.velocity.exact := by
  obtain ⟨s, p, hs, hp, k, -, -, -, c1, c2⟩ := C85_text_to_state_f64 hL l1 l2 v h hpos hnd hb t ht hl
  have Q := quiet_low hL h hpos hnd hb hl
  obtain ⟨n1, n2, n3⟩ := tle_motion_lower hl
  have n4 := tle_motion_upper hl
  obtain ⟨-, -, s3⟩ := Q.shape (tleNode v)
  obtain ⟨g1, g2, g3, -, -⟩ := quiet_numbers Q (tleNode v)
  have hik := ik_near (Q.fair (tleNode v)) (((tleOrbit v).mean (tleNode v) t.val).newton k)
  have hΩk := Ωk_near (Q.fair (tleNode v)) (((tleOrbit v).mean (tleNode v) t.val).newton k)
  obtain ⟨c, hc1, hc2, hc⟩ := node_motion Q (tleNode v)
  have hqn := Q.mot
  have hcube : (tleOrbit v).a ^ 3 = (ke / (tleOrbit v).n) ^ 2 := axis_cubed hqn
  have ha0 : 0 < (tleOrbit v).a := by
    show 0 < (ke / (tleOrbit v).n) ^ (2 / 3 : ℝ)
    exact Real.rpow_pos_of_pos (div_pos ke_pos hqn) _
  obtain ⟨q1, q2⟩ := cube_bounds n2 hqn hcube (by norm_num at n1 ⊢; linarith only [n1, n2]) (by norm_num at n4 ⊢; linarith only [n4, n2])
  obtain ⟨A, hA, hA3⟩ := exists_axis n2
  obtain ⟨b1, b2⟩ := third_law ha0 n2 hA hA3 q1 q2
  have hrate := node_rate (c := c) (i := (tleOrbit v).inc) (t := t.val) ⟨hc1, hc2⟩ hA n2 ⟨Q.ecc.1, lt_of_le_of_lt Q.ecc.2 (by norm_num)⟩ ha0 b1 b2 n1 n4
  set m := (tleOrbit v).mean (tleNode v) t.val with hm
  obtain ⟨k0, k1, k2, k3⟩ := plane_near (le_trans (by norm_num) g3) ⟨g1, g2⟩ c1 c2 (low_far g1 g2 g3 s3 (m.newton k))
  refine ⟨s, p, A, m.Ω, hs, hp, hA, ?_, ?_, k0, ?_, ?_, ?_⟩
  · rw [← hA3]; unfold tleMotion; ring
  · have e1 : nodalRate ((v.noE8 : ℝ) / 10 ^ 8) A ((v.eccE7 : ℝ) / 10 ^ 7) ((v.inclE4 : ℝ) / 10 ^ 4 * (Real.pi / 180)) * t.val =
        -(3 / 2 * 0.00108262998905 * (6378.137 / (A * (1 - (tleOrbit v).e ^ 2))) ^ 2 * tleMotion v * Real.cos (tleOrbit v).inc * t.val) := by
      show -(3 / 2 * 0.00108262998905 * (6378.137 / (A * (1 - ((v.eccE7 : ℝ) / 10 ^ 7) ^ 2))) ^ 2 * ((v.noE8 : ℝ) / 10 ^ 8 * (2 * Real.pi) / 1440) *
        Real.cos ((v.inclE4 : ℝ) / 10 ^ 4 * (Real.pi / 180))) * t.val = -(3 / 2 * 0.00108262998905 * (6378.137 / (A * (1 - ((v.eccE7 : ℝ) / 10 ^ 7) ^ 2))) ^ 2 *
        ((v.noE8 : ℝ) / 10 ^ 8 * (2 * Real.pi) / 1440) * Real.cos ((v.inclE4 : ℝ) / 10 ^ 4 * (Real.pi / 180)) * t.val)
      rw [neg_mul]
    have e2 : m.Ω = tleNode v - c * (3 * R3.k2 / ((tleOrbit v).a * (1 - (tleOrbit v).e ^ 2)) ^ 2 * (tleOrbit v).n * Real.cos (tleOrbit v).inc) * t.val := hc
    rw [e1, e2, abs_neg]
    refine le_trans (le_of_eq ?_) hrate
    rw [← abs_neg]
    congr 1
    unfold tleNode
    ring
  all_goals have hcomp := normal_comp hik hΩk
  all_goals have ei : m.i = (v.inclE4 : ℝ) / 10 ^ 4 * (Real.pi / 180) := rfl
  all_goals rw [ei] at hcomp
  · have := (abs_sub_le _ _ _).trans (add_le_add k1 hcomp.1)
    exact this.trans (by norm_num)
  · have h2 := hcomp.2
    rw [← abs_neg, neg_sub'] at h2
    have := (abs_sub_le _ _ _).trans (add_le_add k2 h2)
    exact this.trans (by norm_num)
  · have h3 := (Real.abs_cos_sub_cos_le (m.ik (m.newton k)) m.i).trans hik
    rw [ei] at h3
    have := (abs_sub_le _ _ _).trans (add_le_add k3 h3)
    exact this.trans (by norm_num)

/-- The plane of the International Space Station (247.4627 degrees at epoch, inclined by 51.6416 degrees) turns westward, by 3.9 to 6.1 degrees a day,
at any double within four weeks after the epoch. -/
theorem iss_precession (hL : Libm.Faithful) (t : F64) (ht : t.Fin) (h0 : 0 ≤ t.val) (h : t.val ≤ 40000) :
    ∃ (s : Satrec F64) (p : SGP4Result F64) (Ω : ℝ),
      twoline2satrec "1 25544U 98067A   08264.51782528 -.00002182  00000-0 -11606-4 0  2927".toList
        "2 25544  51.6416 247.4627 0006703 130.5360 325.0288 15.72125391563537".toList = .ok s ∧ (sgp4 s t).map Prod.snd = some (.ok p) ∧
      (247.4627 - 6.1 * (t.val / 1440)) * (Real.pi / 180) ≤ Ω ∧ Ω ≤ (247.4627 - 3.9 * (t.val / 1440)) * (Real.pi / 180) ∧
      InPlane Ω (51.6416 * (Real.pi / 180)) 0.0014 p.position.exact p.velocity.exact := by
  obtain ⟨s, p, A, Ω, h1, h2, hA, hA3, h4, h5⟩ := C111_precession_f64 hL _ _ _ iss_printed (Or.inl rfl) (Or.inl rfl) (Or.inr (by decide)) t ht
    (iss_low (abs_le.mpr ⟨by linarith only [h0], h⟩))
  change A ^ 3 * ((1572125391 : ℕ) / 10 ^ 8 * (2 * Real.pi) / 86400) ^ 2 = (398600.5 : ℝ) at hA3
  change |Ω - (((2474627 : ℕ) : ℝ) / 10 ^ 4 * (Real.pi / 180) +
      nodalRate (((1572125391 : ℕ) : ℝ) / 10 ^ 8) A (((6703 : ℕ) : ℝ) / 10 ^ 7) (((516416 : ℕ) : ℝ) / 10 ^ 4 * (Real.pi / 180)) * t.val)| ≤
      0.03 * |nodalRate (((1572125391 : ℕ) : ℝ) / 10 ^ 8) A (((6703 : ℕ) : ℝ) / 10 ^ 7) (((516416 : ℕ) : ℝ) / 10 ^ 4 * (Real.pi / 180)) * t.val| at h4
  change InPlane Ω (((516416 : ℕ) : ℝ) / 10 ^ 4 * (Real.pi / 180)) 0.0014 p.position.exact p.velocity.exact at h5
  have ei : ((516416 : ℕ) : ℝ) / 10 ^ 4 = 51.6416 := by norm_num
  rw [ei] at h4 h5
  have hp0 := Real.pi_gt_d4
  have hp1 := Real.pi_lt_d4
  have hpp := Real.pi_pos
  have c1 : 1 / 2 ≤ Real.cos (51.6416 * (Real.pi / 180)) := by
    rw [← Real.cos_pi_div_three]
    exact Real.cos_le_cos_of_nonneg_of_le_pi (by positivity) (by linarith only [hpp]) (by norm_num; linarith only [hpp])
  have c2 : Real.cos (51.6416 * (Real.pi / 180)) ≤ 0.7072 := by
    have : Real.cos (51.6416 * (Real.pi / 180)) ≤ Real.cos (Real.pi / 4) :=
      Real.cos_le_cos_of_nonneg_of_le_pi (by positivity) (by norm_num; linarith only [hpp]) (by norm_num; linarith only [hpp])
    rw [Real.cos_pi_div_four] at this
    have hs : Real.sqrt 2 ≤ 1.4144 := Real.sqrt_le_iff.mpr ⟨by norm_num, by norm_num⟩
    norm_num at hs ⊢; linarith only [this, hs]
  set C := Real.cos (51.6416 * (Real.pi / 180)) with hC
  have A1 : 6700 ≤ A := by
    by_contra hcon
    have : A ^ 3 * ((1572125391 : ℕ) / 10 ^ 8 * (2 * Real.pi) / 86400) ^ 2 ≤ 6700 ^ 3 * ((1572125391 : ℕ) / 10 ^ 8 * (2 * 3.1416) / 86400) ^ 2 := by
      have := (not_le.mp hcon).le
      gcongr
    rw [hA3] at this
    norm_num at this
  have A2 : A ≤ 6750 := by
    by_contra hcon
    have : 6750 ^ 3 * ((1572125391 : ℕ) / 10 ^ 8 * (2 * 3.1415) / 86400) ^ 2 ≤ A ^ 3 * ((1572125391 : ℕ) / 10 ^ 8 * (2 * Real.pi) / 86400) ^ 2 := by
      have := (not_le.mp hcon).le
      gcongr
    rw [hA3] at this
    norm_num at this
  -- the square of the ratio of radius and semi-latus rectum
  set r := (6378.137 / (A * (1 - (((6703 : ℕ) : ℝ) / 10 ^ 7) ^ 2))) ^ 2 with hr
  have r1 : 0.8928 ≤ r := by
    calc (0.8928 : ℝ) ≤ (6378.137 / (6750 * 1)) ^ 2 := by norm_num
      _ ≤ _ := by
        rw [hr]
        refine pow_le_pow_left₀ (by norm_num) (div_le_div_of_nonneg_left (by norm_num) (mul_pos hA (by norm_num)) (mul_le_mul A2 (by norm_num) (by norm_num) (by norm_num))) 2
  have r2 : r ≤ 0.9063 := by
    calc r ≤ (6378.137 / (6700 * 0.9999995)) ^ 2 := by
          rw [hr]
          refine pow_le_pow_left₀ (div_nonneg (by norm_num) (mul_nonneg hA.le (by norm_num))) (div_le_div_of_nonneg_left (by norm_num) (by norm_num) (mul_le_mul A1 (by norm_num) (by norm_num) hA.le)) 2
      _ ≤ _ := by norm_num
  set D := Real.pi / 180 * (t.val / 1440) with hD
  have hD0 : 0 ≤ D := by positivity
  have er : nodalRate (((1572125391 : ℕ) : ℝ) / 10 ^ 8) A (((6703 : ℕ) : ℝ) / 10 ^ 7) (51.6416 * (Real.pi / 180)) * t.val =
      -(3 / 2 * 0.00108262998905 * 15.72125391 * 360 * (r * C) * D) := by
    unfold nodalRate
    rw [← hr, ← hC, hD]
    push_cast
    ring
  have x1 : 0.4464 * D ≤ r * C * D := by
    refine mul_le_mul_of_nonneg_right ?_ hD0
    calc (0.4464 : ℝ) = 0.8928 * (1 / 2) := by norm_num
      _ ≤ _ := mul_le_mul r1 c1 (by norm_num) (le_trans (by norm_num) r1)
  have x2 : r * C * D ≤ 0.641 * D := by
    refine mul_le_mul_of_nonneg_right ?_ hD0
    calc r * C ≤ 0.9063 * 0.7072 := mul_le_mul r2 c2 (le_trans (by norm_num) c1) (by norm_num)
      _ ≤ _ := by norm_num
  have hrCD : 0 ≤ r * C * D := le_trans (by positivity) x1
  rw [er, abs_neg, abs_of_nonneg (mul_nonneg (mul_nonneg (by norm_num) (by
    have : 0 ≤ C := le_trans (by norm_num) c1
    have : 0 ≤ r := le_trans (by norm_num) r1
    positivity)) hD0)] at h4
  obtain ⟨h6, h7⟩ := abs_le.mp h4
  have e7 : (247.4627 - 6.1 * (t.val / 1440)) * (Real.pi / 180) = ((2474627 : ℕ) : ℝ) / 10 ^ 4 * (Real.pi / 180) - 6.1 * D := by rw [hD]; push_cast; ring
  have e8 : (247.4627 - 3.9 * (t.val / 1440)) * (Real.pi / 180) = ((2474627 : ℕ) : ℝ) / 10 ^ 4 * (Real.pi / 180) - 3.9 * D := by rw [hD]; push_cast; ring
  refine ⟨s, p, Ω, h1, h2, ?_, ?_, h5⟩
  · rw [e7]
    generalize ((2474627 : ℕ) : ℝ) / 10 ^ 4 * (Real.pi / 180) = N at *
    generalize r * C = z at *
    norm_num at h6 x2 ⊢
    linarith only [h6, x2, hD0]
  · rw [e8]
    generalize ((2474627 : ℕ) : ℝ) / 10 ^ 4 * (Real.pi / 180) = N at *
    generalize r * C = z at *
    norm_num at h7 x1 ⊢
    linarith only [h7, x1, hD0]

/-- The plane of a weather satellite in a sun-synchronous orbit (54.2187 degrees at epoch, inclined by 99.1934 degrees) turns eastward, by 0.98 to 1.07
degrees a day, at any double within three weeks after the epoch. -/
theorem noaa_precession (hL : Libm.Faithful) (t : F64) (ht : t.Fin) (h0 : 0 ≤ t.val) (h : t.val ≤ 30000) :
    ∃ (s : Satrec F64) (p : SGP4Result F64) (Ω : ℝ), twoline2satrec noaaLine1 noaaLine2 = .ok s ∧ (sgp4 s t).map Prod.snd = some (.ok p) ∧
      (54.2187 + 0.98 * (t.val / 1440)) * (Real.pi / 180) ≤ Ω ∧ Ω ≤ (54.2187 + 1.07 * (t.val / 1440)) * (Real.pi / 180) ∧
      InPlane Ω (99.1934 * (Real.pi / 180)) 0.0014 p.position.exact p.velocity.exact := by
  obtain ⟨s, p, A, Ω, h1, h2, hA, hA3, h4, h5⟩ := C111_precession_f64 hL _ _ _ noaa_printed (Or.inl rfl) (Or.inl rfl) (Or.inr (by decide)) t ht
    (noaa_low (abs_le.mpr ⟨by linarith only [h0], h⟩))
  change A ^ 3 * ((1412401218 : ℕ) / 10 ^ 8 * (2 * Real.pi) / 86400) ^ 2 = (398600.5 : ℝ) at hA3
  change |Ω - (((542187 : ℕ) : ℝ) / 10 ^ 4 * (Real.pi / 180) +
      nodalRate (((1412401218 : ℕ) : ℝ) / 10 ^ 8) A (((13542 : ℕ) : ℝ) / 10 ^ 7) (((991934 : ℕ) : ℝ) / 10 ^ 4 * (Real.pi / 180)) * t.val)| ≤
      0.03 * |nodalRate (((1412401218 : ℕ) : ℝ) / 10 ^ 8) A (((13542 : ℕ) : ℝ) / 10 ^ 7) (((991934 : ℕ) : ℝ) / 10 ^ 4 * (Real.pi / 180)) * t.val| at h4
  change InPlane Ω (((991934 : ℕ) : ℝ) / 10 ^ 4 * (Real.pi / 180)) 0.0014 p.position.exact p.velocity.exact at h5
  have ei : ((991934 : ℕ) : ℝ) / 10 ^ 4 = 99.1934 := by norm_num
  rw [ei] at h4 h5
  have hp0 := Real.pi_gt_d4
  have hp1 := Real.pi_lt_d4
  have hpp := Real.pi_pos
  set x := 9.1934 * (Real.pi / 180) with hx
  have x1 : 0.16045 ≤ x := by rw [hx]; norm_num at hp0 ⊢; linarith only [hp0]
  have x2 : x ≤ 0.16046 := by rw [hx]; norm_num at hp1 ⊢; linarith only [hp1]
  have hx0 : 0 < x := lt_of_lt_of_le (by norm_num) x1
  have ec : Real.cos (99.1934 * (Real.pi / 180)) = -Real.sin x := by
    rw [show 99.1934 * (Real.pi / 180) = x + Real.pi / 2 by rw [hx]; ring, Real.cos_add_pi_div_two]
  have c2 : Real.sin x ≤ 0.16046 := (Real.sin_lt hx0).le.trans x2
  have c1 : 0.1594 ≤ Real.sin x := by
    have h3 := Real.sin_gt_sub_cube hx0
    have h6 : x ^ 3 ≤ 0.16046 ^ 3 := by gcongr
    norm_num at x1 h3 h6 ⊢; linarith only [x1, h3, h6]
  set C := Real.sin x with hC
  have A1 : 7225 ≤ A := by
    by_contra hcon
    have : A ^ 3 * ((1412401218 : ℕ) / 10 ^ 8 * (2 * Real.pi) / 86400) ^ 2 ≤ 7225 ^ 3 * ((1412401218 : ℕ) / 10 ^ 8 * (2 * 3.1416) / 86400) ^ 2 := by
      have := (not_le.mp hcon).le
      gcongr
    rw [hA3] at this
    norm_num at this
  have A2 : A ≤ 7235 := by
    by_contra hcon
    have : 7235 ^ 3 * ((1412401218 : ℕ) / 10 ^ 8 * (2 * 3.1415) / 86400) ^ 2 ≤ A ^ 3 * ((1412401218 : ℕ) / 10 ^ 8 * (2 * Real.pi) / 86400) ^ 2 := by
      have := (not_le.mp hcon).le
      gcongr
    rw [hA3] at this
    norm_num at this
  -- the square of the ratio of radius and semi-latus rectum
  set r := (6378.137 / (A * (1 - (((13542 : ℕ) : ℝ) / 10 ^ 7) ^ 2))) ^ 2 with hr
  have r1 : 0.777 ≤ r := by
    calc (0.777 : ℝ) ≤ (6378.137 / (7235 * 1)) ^ 2 := by norm_num
      _ ≤ _ := by
        rw [hr]
        refine pow_le_pow_left₀ (by norm_num) (div_le_div_of_nonneg_left (by norm_num) (mul_pos hA (by norm_num)) (mul_le_mul A2 (by norm_num) (by norm_num) (by norm_num))) 2
  have r2 : r ≤ 0.7795 := by
    calc r ≤ (6378.137 / (7225 * 0.999998)) ^ 2 := by
          rw [hr]
          refine pow_le_pow_left₀ (div_nonneg (by norm_num) (mul_nonneg hA.le (by norm_num))) (div_le_div_of_nonneg_left (by norm_num) (by norm_num) (mul_le_mul A1 (by norm_num) (by norm_num) hA.le)) 2
      _ ≤ _ := by norm_num
  set D := Real.pi / 180 * (t.val / 1440) with hD
  have hD0 : 0 ≤ D := by positivity
  have er : nodalRate (((1412401218 : ℕ) : ℝ) / 10 ^ 8) A (((13542 : ℕ) : ℝ) / 10 ^ 7) (99.1934 * (Real.pi / 180)) * t.val =
      3 / 2 * 0.00108262998905 * 14.12401218 * 360 * (r * C) * D := by
    unfold nodalRate
    rw [← hr, ec, hD]
    push_cast
    ring
  have y1 : 0.12385 * D ≤ r * C * D := by
    refine mul_le_mul_of_nonneg_right ?_ hD0
    calc (0.12385 : ℝ) ≤ 0.777 * 0.1594 := by norm_num
      _ ≤ _ := mul_le_mul r1 c1 (by norm_num) (le_trans (by norm_num) r1)
  have y2 : r * C * D ≤ 0.1251 * D := by
    refine mul_le_mul_of_nonneg_right ?_ hD0
    calc r * C ≤ 0.7795 * 0.16046 := mul_le_mul r2 c2 (le_trans (by norm_num) c1) (by norm_num)
      _ ≤ _ := by norm_num
  rw [er, abs_of_nonneg (mul_nonneg (mul_nonneg (by norm_num) (by
    have : 0 ≤ C := le_trans (by norm_num) c1
    have : 0 ≤ r := le_trans (by norm_num) r1
    positivity)) hD0)] at h4
  obtain ⟨h6, h7⟩ := abs_le.mp h4
  have e7 : (54.2187 + 0.98 * (t.val / 1440)) * (Real.pi / 180) = ((542187 : ℕ) : ℝ) / 10 ^ 4 * (Real.pi / 180) + 0.98 * D := by rw [hD]; push_cast; ring
  have e8 : (54.2187 + 1.07 * (t.val / 1440)) * (Real.pi / 180) = ((542187 : ℕ) : ℝ) / 10 ^ 4 * (Real.pi / 180) + 1.07 * D := by rw [hD]; push_cast; ring
  refine ⟨s, p, Ω, h1, h2, ?_, ?_, h5⟩
  · rw [e7]
    generalize ((542187 : ℕ) : ℝ) / 10 ^ 4 * (Real.pi / 180) = N at *
    generalize r * C = z at *
    norm_num at h6 y1 ⊢
    linarith only [h6, y1, hD0]
  · rw [e8]
    generalize ((542187 : ℕ) : ℝ) / 10 ^ 4 * (Real.pi / 180) = N at *
    generalize r * C = z at *
    norm_num at h7 y2 ⊢
    linarith only [h7, y2, hD0]

end Sat
