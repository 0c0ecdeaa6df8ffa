import Verif.Props.F64Precession
/-!
# C111 for deep-space satellites

The plane in which a deep-space satellite is reported to move turns at the rate of the second zonal harmonic as well: this program drops the lunar and
solar secular rates of the node.
-/

namespace Sat
open F64 hiding sub
open Spec Spec.R3 Spec.SDP Chain

theorem far_node_motion {q : Orbit} {node day t : ℝ} (H : FarMotion q node day) (ht : |t| ≤ 43200) : ∃ c, 0.988 ≤ c ∧ c ≤ 1.012 ∧
    q.Ω node t = node - c * (3 * R3.k2 / orbitLatus q ^ 2 * q.n * Real.cos q.inc) * t := by
  obtain ⟨e0, e1⟩ := H.e
  have ha := H.a
  have ha0 : 0 < q.a := lt_of_lt_of_le (by norm_num) ha
  have hl : 1 ≤ orbitLatus q := by
    unfold orbitLatus
    have h2 : q.e ^ 2 ≤ 0.41 ^ 2 := by gcongr
    calc (1 : ℝ) ≤ 1.91 * (1 - 0.41 ^ 2) := by norm_num
      _ ≤ _ := mul_le_mul ha (by linarith only [h2]) (by norm_num) ha0.le
  have d2 : |q.C1 * t| ≤ 0.000432 := by
    rw [abs_mul]
    calc |q.C1| * |t| ≤ 14 / 10 ^ 10 * 43200 := mul_le_mul H.drag ht (abs_nonneg _) (by norm_num)
      _ ≤ _ := by norm_num
  have he : 0 ≤ q.e ∧ q.e < 1 := ⟨e0, lt_of_le_of_lt e1 (by norm_num)⟩
  obtain ⟨c, c1, c2, hc⟩ := rateNode_bounds he hl
  have hb : q.β ^ 2 = 1 - q.e ^ 2 := by
    unfold Orbit.β; rw [Real.sq_sqrt (by nlinarith only [e0, he.2])]
  have hb1 : 0 < 1 - q.e ^ 2 := by nlinarith only [e0, he.2]
  have hb2 : 1 - q.e ^ 2 ≤ 1 := by nlinarith only [e0]
  have hx : |3.5 * (1 - q.e ^ 2) * (q.C1 * t)| ≤ 0.002 := by
    rw [abs_mul, abs_mul, abs_of_pos hb1, abs_of_pos (by norm_num : (0 : ℝ) < 3.5)]
    calc 3.5 * (1 - q.e ^ 2) * |q.C1 * t| ≤ 3.5 * 1 * 0.000432 := by gcongr
      _ ≤ _ := by norm_num
  obtain ⟨x1, x2⟩ := abs_le.mp hx
  refine ⟨c + 3.5 * (1 - q.e ^ 2) * (q.C1 * t), by norm_num at c1 x1 ⊢; linarith only [c1, x1], by norm_num at c2 x2 ⊢; linarith only [c2, x2], ?_⟩
  unfold Orbit.Ω Orbit.dΩ
  rw [hc, hb]
  unfold orbitLatus Orbit.θ
  have hb0 := hb1.ne'
  field_simp
  ring

variable [Libm]

/-- **C111**, deep space: the plane in which a deep-space satellite is reported to move has the printed inclination, up to the lunar and solar
periodics, and its ascending node is the printed one moved by the printed orbit's nodal rate times the minutes since epoch, up to three per cent of
that motion. -/
theorem C111_deep_precession_f64 (hL : Libm.Faithful) (l1 l2 : Str) (v : Tle) (h : Printed l1 l2 v) (hpos : v.nddotNeg = false ∨ v.nddotMant = 0)
    (hnd : Normal v.nddotMant) (hb : Normal v.bstarMant) (hl : HighTle v) (t : F64) (ht : t.Fin) (hτ : |t.val| ≤ 43200) :
    ∃ (s : Satrec F64) (p : SGP4Result F64) (A Ω : ℝ), twoline2satrec l1 l2 = .ok s ∧ (sgp4 s t).map Prod.snd = some (.ok p) ∧
      0 < A ∧ A ^ 3 * ((v.noE8 : ℝ) / 10 ^ 8 * (2 * Real.pi) / 86400) ^ 2 = 398600.5 ∧
      |Ω - ((v.nodeE4 : ℝ) / 10 ^ 4 * (Real.pi / 180) +
          nodalRate ((v.noE8 : ℝ) / 10 ^ 8) A ((v.eccE7 : ℝ) / 10 ^ 7) ((v.inclE4 : ℝ) / 10 ^ 4 * (Real.pi / 180)) * t.val)| ≤
        0.03 * |nodalRate ((v.noE8 : ℝ) / 10 ^ 8) A ((v.eccE7 : ℝ) / 10 ^ 7) ((v.inclE4 : ℝ) / 10 ^ 4 * (Real.pi / 180)) * t.val| ∧
      InPlane Ω ((v.inclE4 : ℝ) / 10 ^ 4 * (Real.pi / 180)) 0.0193 p.position.exact p.velocity.exact := by
  obtain ⟨s, p, jd, hs, -, hp, hj, κ, -, -, -, c1, c2, -, hfar, -, -, m1, m2, m3⟩ := deep_sized hL l1 l2 v h hpos hnd hb hl t ht hτ
  have hM := deep_motion hL h hpos hnd hb hl hj
  obtain ⟨e0, e1⟩ := hM.ecc hτ
  set m := carriedMean (tleOrbit v) (tleNode v) (jd - 2415020) t.val with hm
  have hinc0 : 0 ≤ (tleOrbit v).inc := by show 0 ≤ (v.inclE4 : ℝ) / 10 ^ 4 * (Real.pi / 180); positivity
  have hinc1 : (tleOrbit v).inc ≤ 2.793 := by
    show (v.inclE4 : ℝ) / 10 ^ 4 * (Real.pi / 180) ≤ _
    have h1 : (v.inclE4 : ℝ) ≤ 1600000 := by exact_mod_cast hl.incl
    have hp2 := Real.pi_lt_d4
    calc (v.inclE4 : ℝ) / 10 ^ 4 * (Real.pi / 180) ≤ 1600000 / 10 ^ 4 * (3.1416 / 180) := by gcongr
      _ ≤ _ := by norm_num
  obtain ⟨m3a, m3b⟩ := abs_le.mp m3
  have hfm : FarMean m := ⟨by norm_num at m1 ⊢; linarith only [m1], e0, e1,
    not_retrograde (by rw [abs_le]; constructor <;> norm_num at m3a m3b hinc1 ⊢ <;> linarith only [m3a, m3b, hinc0, hinc1])⟩
  have hik : |m.ik (m.newton κ) - (v.inclE4 : ℝ) / 10 ^ 4 * (Real.pi / 180)| ≤ 0.01831 := by
    have e : m.ik (m.newton κ) - (v.inclE4 : ℝ) / 10 ^ 4 * (Real.pi / 180) = (m.ik (m.newton κ) - m.i) + (m.i - (tleOrbit v).inc) := by
      rw [show (tleOrbit v).inc = (v.inclE4 : ℝ) / 10 ^ 4 * (Real.pi / 180) from rfl]; ring
    rw [e]
    exact (abs_add_le _ _).trans ((add_le_add (ik_near hfm.fair _) m3).trans (by norm_num))
  have hΩk := Ωk_near hfm.fair (m.newton κ)
  obtain ⟨c, hc1, hc2, hc⟩ := far_node_motion hM hτ
  obtain ⟨n1, n2, n3⟩ := tle_motion_deep hl
  have n4 := tle_motion_deep_upper hl
  have hqn : 0 < (tleOrbit v).n := lt_of_lt_of_le (by linarith only [n2]) n1
  have hcube : (tleOrbit v).a ^ 3 = (ke / (tleOrbit v).n) ^ 2 := axis_cubed hqn
  have ha0 : 0 < (tleOrbit v).a := lt_of_lt_of_le (by norm_num) hM.a
  obtain ⟨q1, q2⟩ := cube_bounds n2 hqn hcube (by norm_num at n1 ⊢; linarith only [n1, n2]) (by norm_num at n4 ⊢; linarith only [n4, n2])
  obtain ⟨A, hA, hA3⟩ := exists_axis n2
  obtain ⟨b1, b2⟩ := third_law ha0 n2 hA hA3 q1 q2
  have hrate := node_rate (c := c) (i := (tleOrbit v).inc) (t := t.val) ⟨hc1, hc2⟩ hA n2 ⟨hM.e.1, lt_of_le_of_lt hM.e.2 (by norm_num)⟩ ha0 b1 b2 n1 n4
  have hv2 : p.velocity.Close (vec (m.velocityKmS (m.newton κ))) (2 / 10 ^ 6) :=
    ⟨⟨c2.1.1, c2.1.2.trans (by norm_num)⟩, ⟨c2.2.1.1, c2.2.1.2.trans (by norm_num)⟩, ⟨c2.2.2.1, c2.2.2.2.trans (by norm_num)⟩⟩
  obtain ⟨k0, k1, k2, k3⟩ := plane_near (m := m) (E := m.newton κ) (by
      calc (1 : ℝ) ≤ 191 / 10 ^ 2 * 0.57 := by norm_num
        _ ≤ _ := mul_le_mul m1 (by norm_num at e1 ⊢; linarith only [e1]) (by norm_num) (le_trans (by norm_num) m1))
    ⟨e0, e1.trans (by norm_num)⟩ c1 hv2 hfar
  refine ⟨s, p, A, m.Ω, hs, hp, hA, ?_, ?_, k0, ?_, ?_, ?_⟩
  · rw [← hA3]; unfold tleMotion; ring
  · have e1 : nodalRate ((v.noE8 : ℝ) / 10 ^ 8) A ((v.eccE7 : ℝ) / 10 ^ 7) ((v.inclE4 : ℝ) / 10 ^ 4 * (Real.pi / 180)) * t.val =
        -(3 / 2 * 0.00108262998905 * (6378.137 / (A * (1 - (tleOrbit v).e ^ 2))) ^ 2 * tleMotion v * Real.cos (tleOrbit v).inc * t.val) := by
      show -(3 / 2 * 0.00108262998905 * (6378.137 / (A * (1 - ((v.eccE7 : ℝ) / 10 ^ 7) ^ 2))) ^ 2 * ((v.noE8 : ℝ) / 10 ^ 8 * (2 * Real.pi) / 1440) *
        Real.cos ((v.inclE4 : ℝ) / 10 ^ 4 * (Real.pi / 180))) * t.val = -(3 / 2 * 0.00108262998905 * (6378.137 / (A * (1 - ((v.eccE7 : ℝ) / 10 ^ 7) ^ 2))) ^ 2 *
        ((v.noE8 : ℝ) / 10 ^ 8 * (2 * Real.pi) / 1440) * Real.cos ((v.inclE4 : ℝ) / 10 ^ 4 * (Real.pi / 180)) * t.val)
      rw [neg_mul]
    have e2 : m.Ω = tleNode v - c * (3 * R3.k2 / ((tleOrbit v).a * (1 - (tleOrbit v).e ^ 2)) ^ 2 * (tleOrbit v).n * Real.cos (tleOrbit v).inc) * t.val := hc
    rw [e1, e2, abs_neg]
    refine le_trans (le_of_eq ?_) hrate
    rw [← abs_neg]
    congr 1
    unfold tleNode
    ring
  all_goals have hcomp := normal_comp hik hΩk
  · have := (abs_sub_le _ _ _).trans (add_le_add k1 hcomp.1)
    exact this.trans (by norm_num)
  · have h2 := hcomp.2
    rw [← abs_neg, neg_sub'] at h2
    have := (abs_sub_le _ _ _).trans (add_le_add k2 h2)
    exact this.trans (by norm_num)
  · have h3 := (Real.abs_cos_sub_cos_le (m.ik (m.newton κ)) ((v.inclE4 : ℝ) / 10 ^ 4 * (Real.pi / 180))).trans hik
    have := (abs_sub_le _ _ _).trans (add_le_add k3 h3)
    exact this.trans (by norm_num)

/-- The plane of a navigation satellite, at any double within a month of the epoch. -/
theorem nav_precession (hL : Libm.Faithful) (t : F64) (ht : t.Fin) (h : |t.val| ≤ 43200) :
    ∃ (s : Satrec F64) (p : SGP4Result F64) (A Ω : ℝ), twoline2satrec navLine1 navLine2 = .ok s ∧ (sgp4 s t).map Prod.snd = some (.ok p) ∧
      0 < A ∧ A ^ 3 * (((200563537 : ℕ) : ℝ) / 10 ^ 8 * (2 * Real.pi) / 86400) ^ 2 = 398600.5 ∧
      |Ω - (((2474627 : ℕ) : ℝ) / 10 ^ 4 * (Real.pi / 180) +
          nodalRate (((200563537 : ℕ) : ℝ) / 10 ^ 8) A (((106703 : ℕ) : ℝ) / 10 ^ 7) (((554416 : ℕ) : ℝ) / 10 ^ 4 * (Real.pi / 180)) * t.val)| ≤
        0.03 * |nodalRate (((200563537 : ℕ) : ℝ) / 10 ^ 8) A (((106703 : ℕ) : ℝ) / 10 ^ 7) (((554416 : ℕ) : ℝ) / 10 ^ 4 * (Real.pi / 180)) * t.val| ∧
      InPlane Ω (((554416 : ℕ) : ℝ) / 10 ^ 4 * (Real.pi / 180)) 0.0193 p.position.exact p.velocity.exact :=
  C111_deep_precession_f64 hL _ _ _ nav_printed (Or.inl rfl) (Or.inl rfl) (Or.inr (by decide)) nav_high t ht h

end Sat
