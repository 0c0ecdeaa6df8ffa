import Verif.Props.F64FollowVelocity
import Verif.Props.F64Areas
import Verif.Props.F64DeepPrecession
import Verif.Props.F64DeepEpoch
/-!
# C114 for deep-space satellites
-/

namespace Sat
open F64 hiding sub
open Spec Spec.R3 Spec.SDP Chain

/-- the mean elements carried for a deep-space satellite against undisturbed motion -/
theorem carried_follow {q : Orbit} {node day t N : ℝ} (H : FarMotion q node day) (ht : |t| ≤ 43200) (hN : 0 < N) (n1 : 0.996 * N ≤ q.n)
    (n2 : q.n ≤ 1.0035 * N) {d : ℝ} (hd : |(carriedMean q node day t).e - q.e| ≤ d) :
    |(carriedMean q node day t).L - (carriedMean q node day t).Ω - (q.anom + q.argp + N * t)| ≤ 0.0076 * (N * |t|) ∧
    ‖((carriedMean q node day t).e : ℂ) * dir (carriedMean q node day t).ω - (q.e : ℂ) * dir q.argp‖ ≤ d + 0.00091 * (N * |t|) ∧
    |(carriedMean q node day t).Ω - node| ≤ 0.00067 * (N * |t|) := by
  obtain ⟨r1, r2⟩ := far_rates H.a H.e H.n.1
  obtain ⟨e0, e1⟩ := H.e
  have hn0 := H.n.1
  have ht0 := abs_nonneg t
  refine ⟨?_, ?_, ?_⟩
  · have e : (carriedMean q node day t).L - (carriedMean q node day t).Ω - (q.anom + q.argp + N * t) =
        ((q.rateAnomaly - q.n) + q.ratePerigee + (q.n - N) + q.n * (3 / 2 * (q.C1 * t))) * t := by
      show q.MDF t + q.ωDF t + q.Ω node t + q.n * (3 / 2 * q.C1 * t ^ 2) - q.Ω node t - (q.anom + q.argp + N * t) = _
      unfold Orbit.MDF Orbit.ωDF; ring
    rw [e, abs_mul, ← mul_assoc (0.0076 : ℝ) N |t|]
    refine mul_le_mul_of_nonneg_right ?_ ht0
    have hC : |q.C1 * t| ≤ 0.000061 := by
      rw [abs_mul]
      calc |q.C1| * |t| ≤ 14 / 10 ^ 10 * 43200 := mul_le_mul H.drag ht ht0 (by norm_num)
        _ ≤ _ := by norm_num
    have hC2 : |q.n * (3 / 2 * (q.C1 * t))| ≤ q.n * 0.0000915 := by
      rw [abs_mul, abs_of_nonneg hn0, abs_mul, abs_of_pos (by norm_num : (0 : ℝ) < 3 / 2)]
      refine mul_le_mul_of_nonneg_left ?_ hn0
      norm_num at hC ⊢; linarith only [hC]
    have a1 := abs_le.mp r1
    have a2 := abs_le.mp r2
    have a3 := abs_le.mp hC2
    rw [abs_le]
    constructor <;> norm_num at a1 a2 a3 n1 n2 ⊢ <;> linarith only [a1, a2, a3, n1, n2, hN]
  · have e : ((carriedMean q node day t).e : ℂ) * dir (carriedMean q node day t).ω - (q.e : ℂ) * dir q.argp =
        (((carriedMean q node day t).e - q.e : ℝ) : ℂ) * dir (carriedMean q node day t).ω +
          (q.e : ℂ) * (dir (carriedMean q node day t).ω - dir q.argp) := by push_cast; ring
    rw [e]
    refine (norm_add_le _ _).trans (add_le_add ?_ ?_)
    · rw [norm_mul, dir_norm, mul_one, Complex.norm_real, Real.norm_eq_abs]; exact hd
    · rw [norm_mul, Complex.norm_real, Real.norm_eq_abs, abs_of_nonneg e0]
      have h1 : |(carriedMean q node day t).ω - q.argp| ≤ 0.00221 * (N * |t|) := by
        have e2 : (carriedMean q node day t).ω - q.argp = q.ratePerigee * t := by
          show q.ωDF t - q.argp = _
          unfold Orbit.ωDF; ring
        rw [e2, abs_mul, ← mul_assoc]
        refine mul_le_mul_of_nonneg_right (r2.trans ?_) ht0
        norm_num at n2 ⊢; linarith only [n2, hN]
      have hx : 0 ≤ N * |t| := by positivity
      calc q.e * ‖dir (carriedMean q node day t).ω - dir q.argp‖ ≤ 0.41 * (0.00221 * (N * |t|)) :=
            mul_le_mul e1 ((dir_sub_le _ _).trans h1) (norm_nonneg _) (by norm_num)
        _ ≤ _ := by norm_num; linarith only [hx]
  · obtain ⟨c, c1, c2, hc⟩ := far_node_motion H ht
    have hl : 1.588 ≤ orbitLatus q := by
      unfold orbitLatus
      have h2 : q.e ^ 2 ≤ 0.41 ^ 2 := by gcongr
      calc (1.588 : ℝ) ≤ 1.91 * (1 - 0.41 ^ 2) := by norm_num
        _ ≤ _ := mul_le_mul H.a (by linarith only [h2]) (by norm_num) (le_trans (by norm_num) H.a)
    have e2 : (carriedMean q node day t).Ω - node = -(c * (3 * R3.k2 / orbitLatus q ^ 2 * q.n * Real.cos q.inc)) * t := by
      show q.Ω node t - node = _
      rw [hc]; ring
    rw [e2, abs_mul, abs_neg, ← mul_assoc (0.00067 : ℝ) N |t|]
    refine mul_le_mul_of_nonneg_right ?_ ht0
    have hk0 : 0 ≤ R3.k2 := by unfold R3.k2 j2; norm_num
    have hk : R3.k2 ≤ 0.00054132 := by unfold R3.k2 j2; norm_num
    have hc0 : 0 ≤ c := le_trans (by norm_num) c1
    rw [abs_mul, abs_of_nonneg hc0, abs_mul, abs_mul, abs_of_nonneg hn0, abs_of_nonneg (by positivity : 0 ≤ 3 * R3.k2 / orbitLatus q ^ 2)]
    calc c * (3 * R3.k2 / orbitLatus q ^ 2 * q.n * |Real.cos q.inc|) ≤ 1.012 * (3 * 0.00054132 / 1.588 ^ 2 * (1.0035 * N) * 1) := by
          have := Real.abs_cos_le_one q.inc
          gcongr
      _ ≤ _ := by norm_num; linarith only [hN]

variable [Libm]

/-- the eccentricity of a deep-space satellite changes in proportion to the time, by at most three per cent in a month -/
theorem deep_ecc_rate (hL : Libm.Faithful) {l1 l2 : Str} {v : Tle} (h : Printed l1 l2 v) (hpos : v.nddotNeg = false ∨ v.nddotMant = 0)
    (hnd : Normal v.nddotMant) (hb : Normal v.bstarMant) (hl : HighTle v) {jd : ℝ} (hj : PrintedEpoch v jd) (t : ℝ) :
    |(carriedMean (tleOrbit v) (tleNode v) (jd - 2415020) t).e - (tleOrbit v).e| ≤ 1 / 10 ^ 6 + 0.00012 * (tleMotion v * |t|) := by
  have hM := deep_motion hL h hpos hnd hb hl hj
  obtain ⟨c, -, hc⟩ := hM.slope
  obtain ⟨e0, e1⟩ := hM.e
  have end1 : ∀ z : ℝ, |z| ≤ 43200 → c * z ≤ 0.031 * (tleOrbit v).e + 0.0000032 := by
    intro z hz
    have := (abs_le.mp (deep_ecc_near hL h hpos hnd hb hl hj hz)).2
    have ee : (tleOrbit v).e + c * z ≤ (carriedMean (tleOrbit v) (tleNode v) (jd - 2415020) z).e := by rw [← hc]; exact le_max_left _ _
    linarith only [this, ee]
  have h1 := end1 43200 (by norm_num [abs_of_pos])
  have h2 := end1 (-43200) (by norm_num [abs_of_pos])
  have hc1 : |c| * 43200 ≤ 0.01272 := by
    rcases abs_cases c with ⟨g, -⟩ | ⟨g, -⟩ <;> rw [g] <;> norm_num at h1 h2 e1 ⊢ <;> linarith only [h1, h2, e1]
  have hN : 0.00249 ≤ tleMotion v := by
    have h1 : (57300000 : ℝ) ≤ v.noE8 := by exact_mod_cast hl.mot_lo
    have hp := Real.pi_gt_d4
    unfold tleMotion
    calc (0.00249 : ℝ) ≤ 57300000 / 10 ^ 8 * (2 * 3.1415) / 1440 := by norm_num
      _ ≤ _ := by gcongr
  have hct : |c * t| ≤ 0.00012 * (tleMotion v * |t|) := by
    rw [abs_mul, ← mul_assoc]
    refine mul_le_mul_of_nonneg_right ?_ (abs_nonneg _)
    norm_num at hc1 hN ⊢; linarith only [hc1, hN]
  obtain ⟨c1, c2⟩ := abs_le.mp hct
  have ee : (carriedMean (tleOrbit v) (tleNode v) (jd - 2415020) t).e = max ((tleOrbit v).e + c * t) (1 / 10 ^ 6) := by rw [← hc]; rfl
  rw [ee]
  rcases le_total ((tleOrbit v).e + c * t) (1 / 10 ^ 6) with g | g
  · rw [max_eq_right g, abs_le]
    constructor <;> linarith only [g, c1, c2, e0]
  · rw [max_eq_left g, add_sub_cancel_left]
    exact hct.trans (by norm_num)

/-- **C114**, deep-space satellites: within a month of the epoch, position and velocity reported are those of undisturbed motion on the ellipse of the
printed elements, up to `0.032 + 0.07 e + 0.022 φ` of the semi-major axis and `0.05 + 0.18 e + 0.065 φ` of the circular speed, where `φ` is the angle
(in radians) by which the mean anomaly has grown. -/
theorem C114_deep_follow_f64 (hL : Libm.Faithful) (l1 l2 : Str) (v : Tle) (h : Printed l1 l2 v) (hpos : v.nddotNeg = false ∨ v.nddotMant = 0)
    (hnd : Normal v.nddotMant) (hb : Normal v.bstarMant) (hl : HighTle v) (t : F64) (ht : t.Fin) (hτ : |t.val| ≤ 43200) :
    ∃ (s : Satrec F64) (p : SGP4Result F64) (A E : ℝ), twoline2satrec l1 l2 = .ok s ∧ (sgp4 s t).map Prod.snd = some (.ok p) ∧
      0 < A ∧ A ^ 3 * ((v.noE8 : ℝ) / 10 ^ 8 * (2 * Real.pi) / 86400) ^ 2 = 398600.5 ∧
      E - (v.eccE7 : ℝ) / 10 ^ 7 * Real.sin E = (v.moE4 : ℝ) / 10 ^ 4 * (Real.pi / 180) + (v.noE8 : ℝ) / 10 ^ 8 * (2 * Real.pi) / 1440 * t.val ∧
      let X := ellipsePosition A ((v.eccE7 : ℝ) / 10 ^ 7) ((v.inclE4 : ℝ) / 10 ^ 4 * (Real.pi / 180)) ((v.nodeE4 : ℝ) / 10 ^ 4 * (Real.pi / 180))
        ((v.argpE4 : ℝ) / 10 ^ 4 * (Real.pi / 180)) E
      let φ := (v.noE8 : ℝ) / 10 ^ 8 * (2 * Real.pi) / 1440 * |t.val|
      let n := (v.noE8 : ℝ) / 10 ^ 8 * (2 * Real.pi) / 86400
      let V := ellipseVelocity A n ((v.eccE7 : ℝ) / 10 ^ 7) ((v.inclE4 : ℝ) / 10 ^ 4 * (Real.pi / 180)) ((v.nodeE4 : ℝ) / 10 ^ 4 * (Real.pi / 180))
        ((v.argpE4 : ℝ) / 10 ^ 4 * (Real.pi / 180)) E
      let ε := (0.032 + 0.07 * ((v.eccE7 : ℝ) / 10 ^ 7) + 0.022 * φ) * A
      let η := (0.05 + 0.18 * ((v.eccE7 : ℝ) / 10 ^ 7) + 0.065 * φ) * (A * n)
      (|p.position.x.val - X.x| ≤ ε ∧ |p.position.y.val - X.y| ≤ ε ∧ |p.position.z.val - X.z| ≤ ε) ∧
      |p.velocity.x.val - V.x| ≤ η ∧ |p.velocity.y.val - V.y| ≤ η ∧ |p.velocity.z.val - V.z| ≤ η := by
  obtain ⟨s, p, jd, hs, -, hp, hj, κ, -, k2, k3, c1, c2, -, -, -, -, m1, m2, m3⟩ := deep_sized hL l1 l2 v h hpos hnd hb hl t ht hτ
  have hM := deep_motion hL h hpos hnd hb hl hj
  have hdev := deep_ecc_rate hL h hpos hnd hb hl hj t.val
  obtain ⟨n1, n2, n3⟩ := tle_motion_deep hl
  have n4 := tle_motion_deep_upper hl
  obtain ⟨f1, f2, f3⟩ := carried_follow hM hτ n2 n1 n4 hdev
  obtain ⟨x0, x1⟩ := hM.ecc hτ
  have hqn : 0 < (tleOrbit v).n := lt_of_lt_of_le (by linarith only [n2]) n1
  have hC : |(tleOrbit v).C1 * t.val| ≤ 0.0001 := by
    rw [abs_mul]
    calc |(tleOrbit v).C1| * |t.val| ≤ 14 / 10 ^ 10 * 43200 := mul_le_mul hM.drag hτ (abs_nonneg _) (by norm_num)
      _ ≤ _ := by norm_num
  obtain ⟨C1, C2⟩ := abs_le.mp hC
  set f := 1 - (tleOrbit v).C1 * t.val with hf
  have g1 : 0.9999 ≤ f := by rw [hf]; norm_num at C2 ⊢; linarith only [C2]
  have g2 : f ≤ 1.0001 := by rw [hf]; norm_num at C1 ⊢; linarith only [C1]
  set m := carriedMean (tleOrbit v) (tleNode v) (jd - 2415020) t.val with hm
  have ea : m.a = (tleOrbit v).a * f ^ 2 := rfl
  have hf0 : 0 < f := lt_of_lt_of_le (by norm_num) g1
  have hcube : m.a ^ 3 = (ke / ((tleOrbit v).n / f ^ 3)) ^ 2 := by
    have e : (tleOrbit v).a ^ 3 = (ke / (tleOrbit v).n) ^ 2 := axis_cubed hqn
    have hk := ke_pos
    rw [ea, mul_pow, e]
    field_simp
  have hf3a : f ^ 3 ≤ 1.0004 := le_trans (pow_le_pow_left₀ hf0.le g2 3) (by norm_num)
  have hf3b : 0.9996 ≤ f ^ 3 := le_trans (by norm_num) (pow_le_pow_left₀ (by norm_num) g1 3)
  have hf3 : 0 < f ^ 3 := by positivity
  obtain ⟨q1, q2⟩ := cube_bounds n2 (div_pos hqn hf3) hcube (by
      rw [le_div_iff₀ hf3]
      have : 0.9944 * tleMotion v * f ^ 3 ≤ 0.9944 * tleMotion v * 1.0004 := mul_le_mul_of_nonneg_left hf3a (by positivity)
      norm_num at this n1 ⊢; linarith only [this, n1, n2]) (by
      rw [div_le_iff₀ hf3]
      have : 1.005 * tleMotion v * 0.9996 ≤ 1.005 * tleMotion v * f ^ 3 := mul_le_mul_of_nonneg_left hf3b (by positivity)
      norm_num at this n4 ⊢; linarith only [this, n4, n2])
  have ha0 : 0 < m.a := lt_of_lt_of_le (by norm_num) m1
  obtain ⟨A, hA, hA3⟩ := exists_axis n2
  obtain ⟨b1, b2⟩ := third_law ha0 n2 hA hA3 q1 q2
  obtain ⟨e0, e1'⟩ := hM.e
  have e1 : (tleOrbit v).e ≤ 0.43 := e1'.trans (by norm_num)
  have hinc0 : 0 ≤ (tleOrbit v).inc := by show 0 ≤ (v.inclE4 : ℝ) / 10 ^ 4 * (Real.pi / 180); positivity
  have hinc1 : (tleOrbit v).inc ≤ 2.793 := by
    show (v.inclE4 : ℝ) / 10 ^ 4 * (Real.pi / 180) ≤ _
    have h1 : (v.inclE4 : ℝ) ≤ 1600000 := by exact_mod_cast hl.incl
    have hp2 := Real.pi_lt_d4
    calc (v.inclE4 : ℝ) / 10 ^ 4 * (Real.pi / 180) ≤ 1600000 / 10 ^ 4 * (3.1416 / 180) := by gcongr
      _ ≤ _ := by norm_num
  obtain ⟨m3a, m3b⟩ := abs_le.mp m3
  have hfm : FarMean m := ⟨by norm_num at m1 ⊢; linarith only [m1], x0, x1,
    not_retrograde (by rw [abs_le]; constructor <;> norm_num at m3a m3b hinc1 ⊢ <;> linarith only [m3a, m3b, hinc0, hinc1])⟩
  have FA := hfm.fair
  obtain ⟨-, hker, -⟩ := C65_kepler_converges _ FA.ecc κ k2 k3
  obtain ⟨E, hE⟩ : ∃ E, E - (tleOrbit v).e * Real.sin E = (tleOrbit v).anom + tleMotion v * t.val := by
    obtain ⟨E, hE⟩ := exists_root { a := 1, e := (tleOrbit v).e, ω := 0, Ω := 0, L := (tleOrbit v).anom + tleMotion v * t.val, i := 0 }
    refine ⟨E, ?_⟩
    unfold Mean.kepler Mean.U Mean.ayN Mean.axN longAy longL at hE
    simp only [Real.sin_zero, Real.cos_zero, mul_zero, zero_div, zero_mul, add_zero, sub_zero, mul_one] at hE
    linarith only [hE]
  -- the circular speed
  have hmn : 0 < m.n := by unfold Mean.n; exact div_pos ke_pos (Real.rpow_pos_of_pos ha0 _)
  have hmc : m.a ^ 3 = (ke / m.n) ^ 2 := by
    have hr : 0 < m.a ^ (3 / 2 : ℝ) := Real.rpow_pos_of_pos ha0 _
    have e : ke / m.n = m.a ^ (3 / 2 : ℝ) := by unfold Mean.n; have := ke_pos; field_simp
    rw [e, ← Real.rpow_natCast (m.a ^ (3 / 2 : ℝ)) 2, ← Real.rpow_mul ha0.le, ← Real.rpow_natCast m.a 3]
    norm_num
  have hnf : m.n = (tleOrbit v).n / f ^ 3 := by
    have hk := ke_pos
    have h1 : ke / m.n = ke / ((tleOrbit v).n / f ^ 3) :=
      (pow_left_inj₀ (by positivity) (by positivity) (show 2 ≠ 0 by norm_num)).mp (hmc.symm.trans hcube)
    have hq : 0 < (tleOrbit v).n / f ^ 3 := div_pos hqn hf3
    rw [div_eq_div_iff hmn.ne' hq.ne'] at h1
    exact (mul_left_cancel₀ hk.ne' h1).symm
  have hsp : ke / Real.sqrt m.a = m.n * m.a := by
    have hsa : 0 < Real.sqrt m.a := Real.sqrt_pos.mpr ha0
    have s2 : Real.sqrt m.a ^ 2 = m.a := Real.sq_sqrt ha0.le
    rw [div_eq_iff hsa.ne', ← pow_left_inj₀ ke_pos.le (by positivity) (show 2 ≠ 0 by norm_num), mul_pow, mul_pow, s2]
    have : ke ^ 2 = m.a ^ 3 * m.n ^ 2 := by rw [hmc]; field_simp
    rw [this]; ring
  have hS : 0 < A * (tleMotion v / 60) := by positivity
  have hS1 : ke / Real.sqrt m.a * (6378.137 / 60) = m.n * (m.a * 6378.137) / 60 := by rw [hsp]; ring
  have o1 : 0.9945 * tleMotion v ≤ m.n := by
    rw [hnf, le_div_iff₀ hf3]
    have : 0.9945 * tleMotion v * f ^ 3 ≤ 0.9945 * tleMotion v * 1.0004 := mul_le_mul_of_nonneg_left hf3a (by positivity)
    norm_num at this n1 ⊢; linarith only [this, n1, n2]
  have o2 : m.n ≤ 1.00491 * tleMotion v := by
    rw [hnf, div_le_iff₀ hf3]
    have : 1.00491 * tleMotion v * 0.9996 ≤ 1.00491 * tleMotion v * f ^ 3 := mul_le_mul_of_nonneg_left hf3b (by positivity)
    norm_num at this n4 ⊢; linarith only [this, n4, n2]
  have w1 : 0.9905 * (A * (tleMotion v / 60)) ≤ ke / Real.sqrt m.a * (6378.137 / 60) := by
    rw [hS1]
    have : 0.9945 * tleMotion v * (0.996 * A) ≤ m.n * (m.a * 6378.137) := mul_le_mul o1 b1 (by positivity) hmn.le
    have p0 : 0 < A * tleMotion v := by positivity
    norm_num at this ⊢; linarith only [this, p0]
  have w2 : ke / Real.sqrt m.a * (6378.137 / 60) ≤ 1.0095 * (A * (tleMotion v / 60)) := by
    rw [hS1]
    have : m.n * (m.a * 6378.137) ≤ 1.00491 * tleMotion v * (1.0045 * A) := mul_le_mul o2 b2 (by positivity) (by positivity)
    have p0 : 0 < A * tleMotion v := by positivity
    norm_num at this ⊢; linarith only [this, p0]
  have per : 1.001 ≤ m.a * (1 - m.e) := by
    calc (1.001 : ℝ) ≤ 1.91 * 0.57 := by norm_num
      _ ≤ _ := mul_le_mul hfm.a (by norm_num at x1 ⊢; linarith only [x1]) (by norm_num) (le_trans (by norm_num) hfm.a)
  have hvl := velocity_follow FA x0 (x1.trans (by norm_num)) per (le_trans (by norm_num) hfm.p) hfm.i e0 e1 hS w1 w2 (F := E) (ω := (tleOrbit v).argp)
    (by rw [hE]; ring) hker f1 f2
  have hpl := plane_follow FA x0 (x1.trans (by norm_num)) per (le_trans (by norm_num) hfm.p) hfm.i e0 e1 hA b1 b2 (F := E) (ω := (tleOrbit v).argp)
    (by rw [hE]; ring) hker f1 f2
  have hΩk := (abs_sub_le _ _ _).trans (add_le_add (Ωk_near FA (m.newton κ)) f3)
  have hik : |m.ik (m.newton κ) - (v.inclE4 : ℝ) / 10 ^ 4 * (Real.pi / 180)| ≤ 0.01831 := by
    have e : m.ik (m.newton κ) - (v.inclE4 : ℝ) / 10 ^ 4 * (Real.pi / 180) = (m.ik (m.newton κ) - m.i) + (m.i - (tleOrbit v).inc) := by
      rw [show (tleOrbit v).inc = (v.inclE4 : ℝ) / 10 ^ 4 * (Real.pi / 180) from rfl]; ring
    rw [e]
    exact (abs_add_le _ _).trans ((add_le_add (ik_near FA _) m3).trans (by norm_num))
  rw [place_position] at c1
  have hcl := place_close (Z := ((m.rk (m.newton κ) * kmPerRadius : ℝ) : ℂ) * dir (m.uk (m.newton κ)))
    (W := (A : ℂ) * ellipse (((tleOrbit v).e : ℂ) * dir (tleOrbit v).argp) (E + (tleOrbit v).argp)) hΩk hik
  rw [← place_ellipse ⟨e0, lt_of_le_of_lt e1 (by norm_num)⟩] at hcl
  obtain ⟨-, hn⟩ := ellipse_classical ⟨e0, lt_of_le_of_lt e1 (by norm_num)⟩ (tleOrbit v).argp E
  have hW : ‖(A : ℂ) * ellipse (((tleOrbit v).e : ℂ) * dir (tleOrbit v).argp) (E + (tleOrbit v).argp)‖ ≤ A * (1 + (tleOrbit v).e) := by
    rw [norm_mul, Complex.norm_real, Real.norm_eq_abs, abs_of_pos hA]
    exact mul_le_mul_of_nonneg_left hn hA.le
  rw [place_velocity] at c2
  set Z := ((kmPerRadius / 60 : ℝ) : ℂ) * ((⟨m.rdotk (m.newton κ), m.rfdotk (m.newton κ)⟩ : ℂ) * dir (m.uk (m.newton κ))) with hZ
  set T := ((A * (tleMotion v / 60) : ℝ) : ℂ) * hodo (((tleOrbit v).e : ℂ) * dir (tleOrbit v).argp) (E + (tleOrbit v).argp) with hTd
  have hcv := place_close (Z := Z) (W := T) hΩk hik
  rw [hTd, ← place_hodo ⟨e0, e1⟩, ← hTd] at hcv
  obtain ⟨-, -, -, hnv⟩ := hodo_classical (e := (tleOrbit v).e) ⟨e0, e1⟩ (tleOrbit v).argp E
  have hT : ‖T‖ ≤ A * (tleMotion v / 60) * (1 + 1.755 * (tleOrbit v).e) := by
    rw [hTd, norm_mul, Complex.norm_real, Real.norm_eq_abs, abs_of_pos hS]
    exact mul_le_mul_of_nonneg_left hnv hS.le
  have hSlo : 0.2 ≤ A * (tleMotion v / 60) := by
    have h1 : (57300000 : ℝ) ≤ v.noE8 := by exact_mod_cast hl.mot_lo
    have hp := Real.pi_gt_three
    have h2 : 0.002 ≤ tleMotion v := by
      unfold tleMotion
      calc (0.002 : ℝ) ≤ 57300000 / 10 ^ 8 * (2 * 3) / 1440 := by norm_num
        _ ≤ _ := by gcongr
    have h3 : 6000 ≤ A := by norm_num at b2 m1; linarith only [b2, m1]
    calc (0.2 : ℝ) = 6000 * (0.002 / 60) := by norm_num
      _ ≤ _ := by gcongr
  have hAlo : 6000 ≤ A := by norm_num at b2 m1; linarith only [b2, m1]
  have hφ0 : 0 ≤ tleMotion v * |t.val| := by positivity
  have eφ : (v.noE8 : ℝ) / 10 ^ 8 * (2 * Real.pi) / 1440 * |t.val| = tleMotion v * |t.val| := by unfold tleMotion; ring
  have fin : ∀ {x y u : ℝ}, |x - y| ≤ 1 / 10 ^ 3 →
      |y - u| ≤ ‖((m.rk (m.newton κ) * kmPerRadius : ℝ) : ℂ) * dir (m.uk (m.newton κ)) -
        (A : ℂ) * ellipse (((tleOrbit v).e : ℂ) * dir (tleOrbit v).argp) (E + (tleOrbit v).argp)‖ +
        ‖(A : ℂ) * ellipse (((tleOrbit v).e : ℂ) * dir (tleOrbit v).argp) (E + (tleOrbit v).argp)‖ *
          (2 * (0.00082 + 0.00067 * (tleMotion v * |t.val|)) + 0.01831) →
      |x - u| ≤ (0.032 + 0.07 * (tleOrbit v).e + 0.022 * ((v.noE8 : ℝ) / 10 ^ 8 * (2 * Real.pi) / 1440 * |t.val|)) * A := by
    intro x y u g1 g2
    rw [eφ]
    have g3 := (abs_sub_le x y u).trans (add_le_add g1 g2)
    generalize tleMotion v * |t.val| = φ at g3 hφ0 hpl ⊢
    refine g3.trans ((add_le_add le_rfl (add_le_add hpl (mul_le_mul_of_nonneg_right hW (by positivity)))).trans ?_)
    have s3 : 0 ≤ A * (tleOrbit v).e := mul_nonneg hA.le e0
    have s4 : 0 ≤ A * φ := mul_nonneg hA.le hφ0
    have s5 : A * φ * (tleOrbit v).e ≤ A * φ * 0.43 := mul_le_mul_of_nonneg_left e1 s4
    norm_num at s5 ⊢
    nlinarith only [s3, s4, s5, hAlo]
  have finv : ∀ {x y u : ℝ}, |x - y| ≤ 1 / 10 ^ 6 → |y - u| ≤ ‖Z - T‖ + ‖T‖ * (2 * (0.00082 + 0.00067 * (tleMotion v * |t.val|)) + 0.01831) →
      |x - u| ≤ (0.05 + 0.18 * (tleOrbit v).e + 0.065 * ((v.noE8 : ℝ) / 10 ^ 8 * (2 * Real.pi) / 1440 * |t.val|)) * (A * (tleMotion v / 60)) := by
    intro x y u g1 g2
    rw [eφ]
    have g3 := (abs_sub_le x y u).trans (add_le_add g1 g2)
    generalize tleMotion v * |t.val| = φ at g3 hφ0 hvl ⊢
    refine g3.trans ((add_le_add le_rfl (add_le_add hvl (mul_le_mul_of_nonneg_right hT (by positivity)))).trans ?_)
    generalize A * (tleMotion v / 60) = S at hS hSlo ⊢
    have s3 : 0 ≤ S * (tleOrbit v).e := mul_nonneg hS.le e0
    have s4 : 0 ≤ S * φ := mul_nonneg hS.le hφ0
    have s5 : S * φ * (tleOrbit v).e ≤ S * φ * 0.43 := mul_le_mul_of_nonneg_left e1 s4
    norm_num at s5 hSlo ⊢
    nlinarith only [s3, s4, s5, hSlo]
  have en : tleMotion v / 60 = (v.noE8 : ℝ) / 10 ^ 8 * (2 * Real.pi) / 86400 := by unfold tleMotion; ring
  rw [en] at finv hcv hA3
  refine ⟨s, p, A, E, hs, hp, hA, hA3, ?_, ⟨fin c1.1.2 hcl.1, fin c1.2.1.2 hcl.2.1, fin c1.2.2.2 hcl.2.2⟩,
    finv c2.1.2 hcv.1, finv c2.2.1.2 hcv.2.1, finv c2.2.2.2 hcv.2.2⟩
  refine hE.trans ?_
  change (v.moE4 : ℝ) / 10 ^ 4 * (Real.pi / 180) + _ = _
  unfold tleMotion; ring

/-- A navigation satellite: in the three hours before and after the epoch each coordinate is within 1850 km, and each component of the velocity within
0.63 km/s, of that of undisturbed motion on the ellipse with the printed elements.  (In each of these the satellite covers some 40000 km.) -/
theorem nav_follow (hL : Libm.Faithful) (t : F64) (ht : t.Fin) (h : |t.val| ≤ 180) :
    ∃ (s : Satrec F64) (p : SGP4Result F64) (A E n : ℝ), twoline2satrec navLine1 navLine2 = .ok s ∧ (sgp4 s t).map Prod.snd = some (.ok p) ∧
      26500 ≤ A ∧ A ≤ 26620 ∧ n = 2.00563537 * (2 * Real.pi) / 86400 ∧
      E - ((106703 : ℕ) : ℝ) / 10 ^ 7 * Real.sin E = ((3250288 : ℕ) : ℝ) / 10 ^ 4 * (Real.pi / 180) + ((200563537 : ℕ) : ℝ) / 10 ^ 8 * (2 * Real.pi) / 1440 * t.val ∧
      let X := ellipsePosition A (((106703 : ℕ) : ℝ) / 10 ^ 7) (((554416 : ℕ) : ℝ) / 10 ^ 4 * (Real.pi / 180)) (((2474627 : ℕ) : ℝ) / 10 ^ 4 * (Real.pi / 180))
        (((1305360 : ℕ) : ℝ) / 10 ^ 4 * (Real.pi / 180)) E
      let V := ellipseVelocity A n (((106703 : ℕ) : ℝ) / 10 ^ 7) (((554416 : ℕ) : ℝ) / 10 ^ 4 * (Real.pi / 180))
        (((2474627 : ℕ) : ℝ) / 10 ^ 4 * (Real.pi / 180)) (((1305360 : ℕ) : ℝ) / 10 ^ 4 * (Real.pi / 180)) E
      (|p.position.x.val - X.x| ≤ 1850 ∧ |p.position.y.val - X.y| ≤ 1850 ∧ |p.position.z.val - X.z| ≤ 1850) ∧
      |p.velocity.x.val - V.x| ≤ 0.63 ∧ |p.velocity.y.val - V.y| ≤ 0.63 ∧ |p.velocity.z.val - V.z| ≤ 0.63 := by
  obtain ⟨s, p, A, E, h1, h2, hA, hA3, h5, ⟨x1, x2, x3⟩, v1, v2, v3⟩ := C114_deep_follow_f64 hL _ _ _ nav_printed (Or.inl rfl) (Or.inl rfl)
    (Or.inr (by decide)) nav_high t ht (h.trans (by norm_num))
  change A ^ 3 * ((200563537 : ℕ) / 10 ^ 8 * (2 * Real.pi) / 86400) ^ 2 = (398600.5 : ℝ) at hA3
  have hp0 := Real.pi_gt_d4
  have hp1 := Real.pi_lt_d4
  have hpp := Real.pi_pos
  have A1 : 26500 ≤ A := by
    by_contra hcon
    have : A ^ 3 * ((200563537 : ℕ) / 10 ^ 8 * (2 * Real.pi) / 86400) ^ 2 ≤ 26500 ^ 3 * ((200563537 : ℕ) / 10 ^ 8 * (2 * 3.1416) / 86400) ^ 2 := by
      have := (not_le.mp hcon).le
      gcongr
    rw [hA3] at this
    norm_num at this
  have A2 : A ≤ 26620 := by
    by_contra hcon
    have : 26620 ^ 3 * ((200563537 : ℕ) / 10 ^ 8 * (2 * 3.1415) / 86400) ^ 2 ≤ A ^ 3 * ((200563537 : ℕ) / 10 ^ 8 * (2 * Real.pi) / 86400) ^ 2 := by
      have := (not_le.mp hcon).le
      gcongr
    rw [hA3] at this
    norm_num at this
  have hε : (0.032 + 0.07 * (((106703 : ℕ) : ℝ) / 10 ^ 7) + 0.022 * (((200563537 : ℕ) : ℝ) / 10 ^ 8 * (2 * Real.pi) / 1440 * |t.val|)) * A ≤ 1850 := by
    calc _ ≤ (0.032 + 0.07 * (((106703 : ℕ) : ℝ) / 10 ^ 7) + 0.022 * (((200563537 : ℕ) : ℝ) / 10 ^ 8 * (2 * 3.1416) / 1440 * 180)) * 26620 := by gcongr
      _ ≤ _ := by norm_num
  have hη : (0.05 + 0.18 * (((106703 : ℕ) : ℝ) / 10 ^ 7) + 0.065 * (((200563537 : ℕ) : ℝ) / 10 ^ 8 * (2 * Real.pi) / 1440 * |t.val|)) *
      (A * (((200563537 : ℕ) : ℝ) / 10 ^ 8 * (2 * Real.pi) / 86400)) ≤ 0.63 := by
    calc _ ≤ (0.05 + 0.18 * (((106703 : ℕ) : ℝ) / 10 ^ 7) + 0.065 * (((200563537 : ℕ) : ℝ) / 10 ^ 8 * (2 * 3.1416) / 1440 * 180)) *
          (26620 * (((200563537 : ℕ) : ℝ) / 10 ^ 8 * (2 * 3.1416) / 86400)) := by gcongr
      _ ≤ _ := by norm_num
  exact ⟨s, p, A, E, _, h1, h2, A1, A2, by rw [show navTle.noE8 = 200563537 from rfl]; norm_num, h5, ⟨x1.trans hε, x2.trans hε, x3.trans hε⟩,
    v1.trans hη, v2.trans hη, v3.trans hη⟩

end Sat
