import Verif.Props.F64Tilt
/-!
# C113: equal areas in equal times, from the printed text, in doubles

Twice the area that the line from the centre of the earth to the satellite sweeps in a second, `|position × velocity|`, is the constant that belongs
to the printed revolutions per day and eccentricity, at any time.
-/

namespace Sat
open F64 hiding sub
open Spec Spec.R3 Spec.SDP Chain

/-- The line from the centre of the earth to a satellite with position `p` (km) and velocity `w` (km/s) sweeps area at the rate of an elliptic orbit
with `rev` revolutions a day and eccentricity `e`: the square of `|p × w|` is `μ A (1 - e²)`, up to the fraction `ε`, with the semi-major axis `A` of
Kepler's third law and `μ` = 398600.5 km³/s². -/
def Sweeps (rev e ε : ℝ) (p w : Vec3 ℝ) : Prop :=
  ∃ A : ℝ, 0 < A ∧ A ^ 3 * (rev * (2 * Real.pi) / 86400) ^ 2 = 398600.5 ∧ |len (cross p w) ^ 2 / (398600.5 * (A * (1 - e ^ 2))) - 1| ≤ ε

/-- the area rate of a state near that of given mean elements -/
theorem sweeps_near {m : Mean} {E A e δ : ℝ} {p w : Vec3 F64} (ha : 1 ≤ m.a * (1 - m.e)) (he : 0 ≤ m.e ∧ m.e ≤ 0.44)
    (hp : p.Close (vec (m.positionKm E)) (1 / 10 ^ 3)) (hw : w.Close (vec (m.velocityKmS E)) (2 / 10 ^ 6))
    (hfar : len (vec (m.positionKm E)) ≤ 99500) (hA : 0 < A) (b1 : 0.996 * A ≤ m.a * 6378.137) (b2 : m.a * 6378.137 ≤ 1.0045 * A)
    (h0 : 0 < 1 - e ^ 2) (hδ : δ ≤ 1) (d : |m.e ^ 2 - e ^ 2| ≤ δ * (1 - e ^ 2)) :
    0.9849 * (1 - δ) ≤ len (cross p.exact w.exact) ^ 2 / (398600.5 * (A * (1 - e ^ 2))) ∧
      len (cross p.exact w.exact) ^ 2 / (398600.5 * (A * (1 - e ^ 2))) ≤ 1.0157 * (1 + δ) := by
  have he' : 0 ≤ m.e ∧ m.e ≤ 1 / 2 := ⟨he.1, he.2.trans (by norm_num)⟩
  obtain ⟨-, hA2⟩ := laws_of_state m E he' ha rfl rfl
  obtain ⟨hlo, hlr, -⟩ := momentum_near ha he hp hw hfar
  have eL : (((vec (m.positionKm E)).y * (vec (m.velocityKmS E)).z - (vec (m.positionKm E)).z * (vec (m.velocityKmS E)).y) ^ 2 +
      ((vec (m.positionKm E)).z * (vec (m.velocityKmS E)).x - (vec (m.positionKm E)).x * (vec (m.velocityKmS E)).z) ^ 2 +
      ((vec (m.positionKm E)).x * (vec (m.velocityKmS E)).y - (vec (m.positionKm E)).y * (vec (m.velocityKmS E)).x) ^ 2) =
      len (cross (vec (m.positionKm E)) (vec (m.velocityKmS E))) ^ 2 := by
    have hn : ∀ u : Vec3 ℝ, len u ^ 2 = u.x ^ 2 + u.y ^ 2 + u.z ^ 2 := by
      intro u
      unfold len
      rw [Real.sq_sqrt (by unfold dot; nlinarith only [mul_self_nonneg u.x, mul_self_nonneg u.y, mul_self_nonneg u.z])]
      unfold dot; ring
    rw [hn]
    unfold cross; ring
  unfold AreaLaw at hA2
  rw [eL] at hA2
  generalize len (cross (vec (m.positionKm E)) (vec (m.velocityKmS E))) = L at hlo hlr hA2
  generalize len (cross p.exact w.exact) = L' at hlr ⊢
  obtain ⟨r1, r2⟩ := abs_le.mp hlr
  obtain ⟨d1, d2⟩ := abs_le.mp d
  have ha0 : 0 < m.a * 6378.137 := lt_of_lt_of_le (by positivity) b1
  have hm0 : 0 < 1 - m.e ^ 2 := by nlinarith only [he'.1, he'.2]
  have hL0 : 0 < L := lt_of_lt_of_le (by norm_num) hlo
  have hL1 : 0 < L' := by linarith only [r1, hlo]
  set B := m.a * 6378.137 with hB
  have hD : 0 < 398600.5 * (B * (1 - m.e ^ 2)) := by positivity
  have hD2 : 0 < 398600.5 * (A * (1 - e ^ 2)) := by positivity
  obtain ⟨a1, a2⟩ := abs_le.mp hA2
  have a3 : 0.989 * (398600.5 * (B * (1 - m.e ^ 2))) ≤ L ^ 2 := by
    rw [← le_div_iff₀ hD]; norm_num at a1 ⊢; linarith only [a1]
  have a4 : L ^ 2 ≤ 1.011 * (398600.5 * (B * (1 - m.e ^ 2))) := by
    rw [← div_le_iff₀ hD]; norm_num at a2 ⊢; linarith only [a2]
  have l1 : 0.99995 * L ^ 2 ≤ L' ^ 2 := by
    have : 0.999975 * L ≤ L' := by norm_num at hlo ⊢; linarith only [hlo, r1]
    calc 0.99995 * L ^ 2 ≤ (0.999975 * L) ^ 2 := by norm_num; nlinarith only [sq_nonneg L]
      _ ≤ _ := by gcongr
  have l2 : L' ^ 2 ≤ 1.00005 * L ^ 2 := by
    have : L' ≤ 1.0000245 * L := by norm_num at hlo ⊢; linarith only [hlo, r2]
    calc L' ^ 2 ≤ (1.0000245 * L) ^ 2 := by gcongr
      _ ≤ _ := by norm_num; nlinarith only [sq_nonneg L]
  have u1 : (1 - δ) * (1 - e ^ 2) ≤ 1 - m.e ^ 2 := by linarith only [d2]
  have u2 : 1 - m.e ^ 2 ≤ (1 + δ) * (1 - e ^ 2) := by linarith only [d1]
  have hδ0 : 0 ≤ 1 - δ := by linarith only [hδ]
  constructor
  · rw [le_div_iff₀ hD2]
    calc 0.9849 * (1 - δ) * (398600.5 * (A * (1 - e ^ 2))) = 0.9849 * (398600.5 * (A * ((1 - δ) * (1 - e ^ 2)))) := by ring
      _ ≤ 0.99995 * (0.989 * (398600.5 * (0.996 * A * ((1 - δ) * (1 - e ^ 2))))) := by
        have : 0 ≤ A * ((1 - δ) * (1 - e ^ 2)) := by positivity
        norm_num; linarith only [this]
      _ ≤ 0.99995 * (0.989 * (398600.5 * (B * (1 - m.e ^ 2)))) := by gcongr
      _ ≤ 0.99995 * L ^ 2 := by gcongr
      _ ≤ _ := l1
  · rw [div_le_iff₀ hD2]
    calc L' ^ 2 ≤ 1.00005 * L ^ 2 := l2
      _ ≤ 1.00005 * (1.011 * (398600.5 * (B * (1 - m.e ^ 2)))) := by gcongr
      _ ≤ 1.00005 * (1.011 * (398600.5 * (1.0045 * A * ((1 + δ) * (1 - e ^ 2))))) := by gcongr
      _ ≤ 1.0157 * (398600.5 * (A * ((1 + δ) * (1 - e ^ 2)))) := by
        have : 0 ≤ A * ((1 + δ) * (1 - e ^ 2)) := mul_nonneg hA.le (hm0.le.trans u2)
        norm_num; linarith only [this]
      _ = _ := by ring

variable [Libm]

/-- **C113.** The area that the line to a near-earth satellite sweeps in a second is, at any time in range, that of the printed revolutions per day and
eccentricity: its square is constant up to 1.7 per cent. -/
theorem C113_areas_f64 (hL : Libm.Faithful) (l1 l2 : Str) (v : Tle) (h : Printed l1 l2 v) (hpos : v.nddotNeg = false ∨ v.nddotMant = 0)
    (hnd : Normal v.nddotMant) (hb : Normal v.bstarMant) (t : F64) (ht : t.Fin) (hl : LowTle v t.val) :
    ∃ (s : Satrec F64) (p : SGP4Result F64), twoline2satrec l1 l2 = .ok s ∧ (sgp4 s t).map Prod.snd = some (.ok p) ∧
      Sweeps ((v.noE8 : ℝ) / 10 ^ 8) ((v.eccE7 : ℝ) / 10 ^ 7) 0.017 p.position.exact p.velocity.exact := by
  obtain ⟨s, p, hs, hp, k, -, -, -, c1, c2⟩ := C85_text_to_state_f64 hL l1 l2 v h hpos hnd hb t ht hl
  refine ⟨s, p, hs, hp, ?_⟩
  have Q := quiet_low hL h hpos hnd hb hl
  obtain ⟨n1, n2, n3⟩ := tle_motion_lower hl
  have n4 := tle_motion_upper hl
  obtain ⟨_, _, _, _, _, D⟩ := Q.drift (tleNode v)
  obtain ⟨s1, s2, s3⟩ := Q.shape (tleNode v)
  obtain ⟨g1, g2, g3, -, -⟩ := quiet_numbers Q (tleNode v)
  obtain ⟨e0, e1⟩ := Q.ecc
  set m := (tleOrbit v).mean (tleNode v) t.val with hm
  have ha0 : 0 < m.a := by
    by_contra hcon
    have : m.a * (1 - m.e) ≤ 0 := mul_nonpos_of_nonpos_of_nonneg (not_lt.mp hcon) (by norm_num at g2; linarith only [g2])
    norm_num at g3; linarith only [this, g3]
  have hmn : 0 < m.n := by unfold Mean.n; exact div_pos ke_pos (Real.rpow_pos_of_pos ha0 _)
  have hcube : m.a ^ 3 = (ke / m.n) ^ 2 := by
    have hr : 0 < m.a ^ (3 / 2 : ℝ) := Real.rpow_pos_of_pos ha0 _
    have e : ke / m.n = m.a ^ (3 / 2 : ℝ) := by unfold Mean.n; have := ke_pos; field_simp
    rw [e, ← Real.rpow_natCast (m.a ^ (3 / 2 : ℝ)) 2, ← Real.rpow_mul ha0.le, ← Real.rpow_natCast m.a 3]
    norm_num
  have hv := abs_le.mp D.vn
  obtain ⟨q1, q2⟩ := cube_bounds n2 hmn hcube (by norm_num at hv n1 n4 ⊢; linarith only [hv, n1, n4]) (by norm_num at hv n1 n4 ⊢; linarith only [hv, n1, n4])
  obtain ⟨A, hA, hA3⟩ := exists_axis n2
  obtain ⟨b1, b2⟩ := third_law ha0 n2 hA hA3 q1 q2
  have hd : |m.e ^ 2 - (tleOrbit v).e ^ 2| ≤ 0.00082 * (1 - (tleOrbit v).e ^ 2) := by
    have f : m.e ^ 2 - (tleOrbit v).e ^ 2 = (m.e - (tleOrbit v).e) * (m.e + (tleOrbit v).e) := by ring
    rw [f, abs_mul, abs_of_nonneg (add_nonneg g1 e0)]
    have h2 : (tleOrbit v).e ^ 2 ≤ 0.43 ^ 2 := by gcongr
    have h3 : m.e + (tleOrbit v).e ≤ 0.861 := by have := (abs_le.mp s1).2; norm_num at this e1 ⊢; linarith only [this, e1]
    calc _ ≤ 0.00076 * 0.861 := mul_le_mul s1 h3 (add_nonneg g1 e0) (by norm_num)
      _ ≤ 0.00082 * (1 - 0.43 ^ 2) := by norm_num
      _ ≤ _ := by gcongr
  obtain ⟨x1, x2⟩ := sweeps_near (m := m) (E := m.newton k) (le_trans (by norm_num) g3) ⟨g1, g2⟩ c1 c2 (low_far g1 g2 g3 s3 (m.newton k)) hA b1 b2
    (by nlinarith only [e0, e1]) (by norm_num) hd
  refine ⟨A, hA, by rw [← hA3]; unfold tleMotion; ring, ?_⟩
  change |_ / (398600.5 * (A * (1 - (tleOrbit v).e ^ 2))) - 1| ≤ 0.017
  rw [abs_le]
  constructor <;> norm_num at x1 x2 ⊢ <;> linarith only [x1, x2]

/-- the eccentricity of a deep-space satellite keeps within three per cent of the printed one -/
theorem deep_ecc_near (hL : Libm.Faithful) {l1 l2 : Str} {v : Tle} (h : Printed l1 l2 v) (hpos : v.nddotNeg = false ∨ v.nddotMant = 0)
    (hnd : Normal v.nddotMant) (hb : Normal v.bstarMant) (hl : HighTle v) {jd : ℝ} (hj : PrintedEpoch v jd) {t : ℝ} (ht : |t| ≤ 43200) :
    |(carriedMean (tleOrbit v) (tleNode v) (jd - 2415020) t).e - (tleOrbit v).e| ≤ 0.031 * (tleOrbit v).e + 0.0000032 := by
  have near : ∀ z : ℤ, |(z : ℝ)| ≤ 43200 → eccentricityRaw (tleOrbit v) (tleNode v) (jd - 2415020) z ≤ 1.031 * (tleOrbit v).e + 0.0000022 := by
    intro z hz
    obtain ⟨t, t1, t2⟩ := isRep_int z (by
      have : |z| ≤ 43200 := by exact_mod_cast hz
      exact this.trans (by norm_num))
    obtain ⟨s, p, jd', -, -, -, b2, k, -, -, -, -, -, -, -, -, -, hm⟩ := deep_sized hL l1 l2 v h hpos hnd hb hl t t1 (by rw [t2]; exact hz)
    rw [b2.unique hj, t2] at hm
    refine (le_max_left _ (1 / 10 ^ 6)).trans (hm.2.1.trans ?_)
    norm_num
  have h1 := near 43200 (by norm_num [abs_of_pos])
  have h2 := near (-43200) (by norm_num [abs_of_pos])
  push_cast at h1 h2
  obtain ⟨c, -, hc⟩ := (deep_motion hL h hpos hnd hb hl hj).slope
  have e0 := (tleEcc_range h).1
  change 0 ≤ (tleOrbit v).e at e0
  rw [hc] at h1 h2
  have hct : |c * t| ≤ 0.031 * (tleOrbit v).e + 0.0000022 := by
    have hc1 : |c| * 43200 ≤ 0.031 * (tleOrbit v).e + 0.0000022 := by
      rcases abs_cases c with ⟨g, -⟩ | ⟨g, -⟩ <;> rw [g] <;> norm_num at h1 h2 ⊢ <;> linarith only [h1, h2]
    rw [abs_mul]
    exact (mul_le_mul_of_nonneg_left ht (abs_nonneg _)).trans hc1
  obtain ⟨c1, c2⟩ := abs_le.mp hct
  have ee : (carriedMean (tleOrbit v) (tleNode v) (jd - 2415020) t).e = max ((tleOrbit v).e + c * t) (1 / 10 ^ 6) := by rw [← hc]; rfl
  rw [ee]
  rcases le_total ((tleOrbit v).e + c * t) (1 / 10 ^ 6) with g | g
  · rw [max_eq_right g, abs_le]
    constructor <;> norm_num at g c1 c2 ⊢ <;> linarith only [g, c1, c2, e0]
  · rw [max_eq_left g, add_sub_cancel_left]
    refine hct.trans ?_
    norm_num

/-- **C113**, deep-space satellites: the same at any time within a month of the epoch, up to 3 per cent. -/
theorem C113_deep_areas_f64 (hL : Libm.Faithful) (l1 l2 : Str) (v : Tle) (h : Printed l1 l2 v) (hpos : v.nddotNeg = false ∨ v.nddotMant = 0)
    (hnd : Normal v.nddotMant) (hb : Normal v.bstarMant) (hl : HighTle v) (t : F64) (ht : t.Fin) (hτ : |t.val| ≤ 43200) :
    ∃ (s : Satrec F64) (p : SGP4Result F64), twoline2satrec l1 l2 = .ok s ∧ (sgp4 s t).map Prod.snd = some (.ok p) ∧
      Sweeps ((v.noE8 : ℝ) / 10 ^ 8) ((v.eccE7 : ℝ) / 10 ^ 7) 0.03 p.position.exact p.velocity.exact := by
  obtain ⟨s, p, jd, hs, -, hp, hj, κ, -, -, -, c1, c2, -, hfar, -, -, m1, m2, -⟩ := deep_sized hL l1 l2 v h hpos hnd hb hl t ht hτ
  refine ⟨s, p, hs, hp, ?_⟩
  have hM := deep_motion hL h hpos hnd hb hl hj
  have hdev := deep_ecc_near hL h hpos hnd hb hl hj hτ
  obtain ⟨n1, n2, n3⟩ := tle_motion_deep hl
  have n4 := tle_motion_deep_upper hl
  obtain ⟨g1, g2⟩ := hM.ecc hτ
  have hqn : 0 < (tleOrbit v).n := lt_of_lt_of_le (by linarith only [n2]) n1
  have hC : |(tleOrbit v).C1 * t.val| ≤ 0.0001 := by
    rw [abs_mul]
    calc |(tleOrbit v).C1| * |t.val| ≤ 14 / 10 ^ 10 * 43200 := mul_le_mul hM.drag hτ (abs_nonneg _) (by norm_num)
      _ ≤ _ := by norm_num
  obtain ⟨C1, C2⟩ := abs_le.mp hC
  set f := 1 - (tleOrbit v).C1 * t.val with hf
  have f1 : 0.9999 ≤ f := by rw [hf]; norm_num at C2 ⊢; linarith only [C2]
  have f2 : f ≤ 1.0001 := by rw [hf]; norm_num at C1 ⊢; linarith only [C1]
  set m := carriedMean (tleOrbit v) (tleNode v) (jd - 2415020) t.val with hm
  have ea : m.a = (tleOrbit v).a * f ^ 2 := rfl
  have hf0 : 0 < f := lt_of_lt_of_le (by norm_num) f1
  have hcube : m.a ^ 3 = (ke / ((tleOrbit v).n / f ^ 3)) ^ 2 := by
    have e : (tleOrbit v).a ^ 3 = (ke / (tleOrbit v).n) ^ 2 := axis_cubed hqn
    have hk := ke_pos
    rw [ea, mul_pow, e]
    field_simp
  have hf3a : f ^ 3 ≤ 1.0004 := le_trans (pow_le_pow_left₀ hf0.le f2 3) (by norm_num)
  have hf3b : 0.9996 ≤ f ^ 3 := le_trans (by norm_num) (pow_le_pow_left₀ (by norm_num) f1 3)
  have hf3 : 0 < f ^ 3 := by positivity
  obtain ⟨q1, q2⟩ := cube_bounds n2 (div_pos hqn hf3) hcube (by
      rw [le_div_iff₀ hf3]
      have : 0.9944 * tleMotion v * f ^ 3 ≤ 0.9944 * tleMotion v * 1.0004 := mul_le_mul_of_nonneg_left hf3a (by positivity)
      norm_num at this n1 ⊢; linarith only [this, n1, n2]) (by
      rw [div_le_iff₀ hf3]
      have : 1.005 * tleMotion v * 0.9996 ≤ 1.005 * tleMotion v * f ^ 3 := mul_le_mul_of_nonneg_left hf3b (by positivity)
      norm_num at this n4 ⊢; linarith only [this, n4, n2])
  have ha0 : 0 < m.a := lt_of_lt_of_le (by norm_num) m1
  obtain ⟨A, hA, hA3⟩ := exists_axis n2
  obtain ⟨b1, b2⟩ := third_law ha0 n2 hA hA3 q1 q2
  obtain ⟨e0, e1⟩ := hM.e
  have hd : |m.e ^ 2 - (tleOrbit v).e ^ 2| ≤ 0.0129 * (1 - (tleOrbit v).e ^ 2) := by
    have f : m.e ^ 2 - (tleOrbit v).e ^ 2 = (m.e - (tleOrbit v).e) * (m.e + (tleOrbit v).e) := by ring
    rw [f, abs_mul, abs_of_nonneg (add_nonneg g1 e0)]
    have h2 : (tleOrbit v).e ^ 2 ≤ 0.41 ^ 2 := by gcongr
    have h4 : |m.e - (tleOrbit v).e| ≤ 0.0127132 := hdev.trans (by norm_num at e1 ⊢; linarith only [e1])
    have h3 : m.e + (tleOrbit v).e ≤ 0.8328 := by have := (abs_le.mp h4).2; norm_num at this e1 ⊢; linarith only [this, e1]
    calc _ ≤ 0.0127132 * 0.8328 := mul_le_mul h4 h3 (add_nonneg g1 e0) (by norm_num)
      _ ≤ 0.0129 * (1 - 0.41 ^ 2) := by norm_num
      _ ≤ _ := by gcongr
  have hc2 : p.velocity.Close (vec (m.velocityKmS (m.newton κ))) (2 / 10 ^ 6) :=
    ⟨⟨c2.1.1, c2.1.2.trans (by norm_num)⟩, ⟨c2.2.1.1, c2.2.1.2.trans (by norm_num)⟩, ⟨c2.2.2.1, c2.2.2.2.trans (by norm_num)⟩⟩
  obtain ⟨x1, x2⟩ := sweeps_near (m := m) (E := m.newton κ) (by
      calc (1 : ℝ) ≤ 191 / 10 ^ 2 * 0.57 := by norm_num
        _ ≤ _ := mul_le_mul m1 (by norm_num at g2 ⊢; linarith only [g2]) (by norm_num) (le_trans (by norm_num) m1))
    ⟨g1, g2.trans (by norm_num)⟩ c1 hc2 hfar hA b1 b2 (by nlinarith only [e0, e1]) (by norm_num) hd
  refine ⟨A, hA, by rw [← hA3]; unfold tleMotion; ring, ?_⟩
  change |_ / (398600.5 * (A * (1 - (tleOrbit v).e ^ 2))) - 1| ≤ 0.03
  rw [abs_le]
  constructor <;> norm_num at x1 x2 ⊢ <;> linarith only [x1, x2]

/-- The International Space Station, at any double within four weeks of the epoch. -/
theorem iss_areas (hL : Libm.Faithful) (t : F64) (ht : t.Fin) (h : |t.val| ≤ 40000) :
    ∃ (s : Satrec F64) (p : SGP4Result F64), twoline2satrec "1 25544U 98067A   08264.51782528 -.00002182  00000-0 -11606-4 0  2927".toList
        "2 25544  51.6416 247.4627 0006703 130.5360 325.0288 15.72125391563537".toList = .ok s ∧ (sgp4 s t).map Prod.snd = some (.ok p) ∧
      Sweeps (1572125391 / 10 ^ 8) (6703 / 10 ^ 7) 0.017 p.position.exact p.velocity.exact := by
  obtain ⟨s, p, h1, h2, h3⟩ := C113_areas_f64 hL _ _ _ iss_printed (Or.inl rfl) (Or.inl rfl) (Or.inr (by decide)) t ht (iss_low h)
  refine ⟨s, p, h1, h2, ?_⟩
  norm_num at h3 ⊢
  exact h3

/-- A navigation satellite, at any double within a month of the epoch. -/
theorem nav_areas (hL : Libm.Faithful) (t : F64) (ht : t.Fin) (h : |t.val| ≤ 43200) :
    ∃ (s : Satrec F64) (p : SGP4Result F64), twoline2satrec navLine1 navLine2 = .ok s ∧ (sgp4 s t).map Prod.snd = some (.ok p) ∧
      Sweeps ((navTle.noE8 : ℝ) / 10 ^ 8) ((navTle.eccE7 : ℝ) / 10 ^ 7) 0.03 p.position.exact p.velocity.exact :=
  C113_deep_areas_f64 hL _ _ _ nav_printed (Or.inl rfl) (Or.inl rfl) (Or.inr (by decide)) nav_high t ht h

end Sat
