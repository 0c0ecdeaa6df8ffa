import Verif.Props.F64Laws
/-!
# C110: the tilt of the orbit, from the printed text, in doubles

Position and velocity that are reported turn about an axis that is inclined to the axis of the earth by the printed inclination; in particular the
satellite goes round eastward or westward as the printed inclination says.
-/

namespace Sat
open F64 hiding sub
open Spec Spec.R3 Spec.SDP Chain

/-- The angular momentum `p × w` (km²/s) of position `p` and velocity `w` is not zero, and the cosine of its angle to the axis of the earth is that of
`inc`, up to `ε`. -/
def Tilted (inc ε : ℝ) (p w : Vec3 ℝ) : Prop :=
  40000 ≤ len (cross p w) ∧ |(cross p w).z / len (cross p w) - Real.cos inc| ≤ ε

theorem transverse_pos {m : Mean} (E : ℝ) (he : 0 ≤ m.e ∧ m.e ≤ 1 / 2) (hp : 1 ≤ m.a * (1 - m.e)) : 0 < m.rfdotk E := by
  obtain ⟨ha, hpL, hr1, hr2, -, -, -, -, hd⟩ := perturbation_bounds m E he hp
  have hk := ke_pos
  have ha0 : 0 < m.a := by linarith only [ha]
  have hr0 : 0 < m.r E := lt_of_lt_of_le (by norm_num) hr1
  have hn : m.n ≤ ke / m.a := by
    unfold Mean.n
    refine div_le_div_of_nonneg_left hk.le ha0 ?_
    calc m.a = m.a ^ (1 : ℝ) := (Real.rpow_one _).symm
      _ ≤ _ := Real.rpow_le_rpow_of_exponent_le ha (by norm_num)
  have hx : 3 * (R3.k2 * m.n / m.pL) ≤ 0.01 * (ke / m.a) := by
    have hk2 : R3.k2 ≤ 0.001 := by unfold R3.k2 R3.j2; norm_num
    have hk0 : 0 ≤ R3.k2 := by unfold R3.k2 R3.j2; norm_num
    have hq : 0 ≤ ke / m.a := by positivity
    have h1 : R3.k2 * m.n ≤ 0.001 * (ke / m.a) := (mul_le_mul_of_nonneg_left hn hk0).trans (mul_le_mul_of_nonneg_right hk2 hq)
    have h2 : R3.k2 * m.n / m.pL ≤ 0.003 * (ke / m.a) := by
      rw [div_le_iff₀ (lt_of_lt_of_le (by norm_num) hpL)]
      have : 0.003 * (ke / m.a) * 0.998 ≤ 0.003 * (ke / m.a) * m.pL := mul_le_mul_of_nonneg_left hpL (by positivity)
      norm_num at this h1 ⊢; linarith only [this, h1, hq]
    norm_num at h2 ⊢; linarith only [h2, hq]
  have hy : 0.6 * (ke / m.a) ≤ m.rfdot E := by
    have hs : 0.99 ≤ Real.sqrt m.pL := Real.le_sqrt_of_sq_le (by norm_num at hpL ⊢; linarith only [hpL])
    have e : m.rfdot E = ke * (Real.sqrt m.pL / m.r E) := by unfold Mean.rfdot; ring
    have e2 : 0.6 * (ke / m.a) = ke * (0.6 / m.a) := by ring
    rw [e, e2]
    refine mul_le_mul_of_nonneg_left ?_ hk.le
    rw [div_le_div_iff₀ ha0 hr0]
    calc 0.6 * m.r E ≤ 0.6 * (1.502 * m.a) := mul_le_mul_of_nonneg_left hr2 (by norm_num)
      _ ≤ 0.99 * m.a := by norm_num; linarith only [ha0]
      _ ≤ _ := mul_le_mul_of_nonneg_right hs ha0.le
  have hq : 0 < ke / m.a := by positivity
  have := (abs_le.mp hd).1
  norm_num at hx hy; linarith only [this, hx, hy, hq]

theorem momentum_z (m : Mean) (E : ℝ) : (cross (vec (m.positionKm E)) (vec (m.velocityKmS E))).z =
    m.rk E * m.rfdotk E * (kmPerRadius * (kmPerRadius / 60)) * Real.cos (m.ik E) := by
  show m.positionKm E 0 * m.velocityKmS E 1 - m.positionKm E 1 * m.velocityKmS E 0 = _
  unfold Mean.positionKm Mean.velocityKmS Mean.Uvec Mean.Vvec
  simp only [Matrix.cons_val_zero, Matrix.cons_val_one]
  generalize m.Ωk E = a, m.ik E = b, m.uk E = c
  have ea := Real.sin_sq_add_cos_sq a
  have ec := Real.sin_sq_add_cos_sq c
  generalize Real.sin a = sa, Real.cos a = ca, Real.cos b = cb, Real.sin c = sc, Real.cos c = cc at *
  linear_combination m.rk E * m.rfdotk E * (kmPerRadius * (kmPerRadius / 60)) * cb * ((sc ^ 2 + cc ^ 2) * ea + ec)

theorem momentum_xy (m : Mean) (E : ℝ) : (cross (vec (m.positionKm E)) (vec (m.velocityKmS E))).x =
      m.rk E * m.rfdotk E * (kmPerRadius * (kmPerRadius / 60)) * (Real.sin (m.ik E) * Real.sin (m.Ωk E)) ∧
    (cross (vec (m.positionKm E)) (vec (m.velocityKmS E))).y =
      m.rk E * m.rfdotk E * (kmPerRadius * (kmPerRadius / 60)) * -(Real.sin (m.ik E) * Real.cos (m.Ωk E)) := by
  show m.positionKm E 1 * m.velocityKmS E 2 - m.positionKm E 2 * m.velocityKmS E 1 = _ ∧
    m.positionKm E 2 * m.velocityKmS E 0 - m.positionKm E 0 * m.velocityKmS E 2 = _
  unfold Mean.positionKm Mean.velocityKmS Mean.Uvec Mean.Vvec
  simp only [Matrix.cons_val_zero, Matrix.cons_val_one, Matrix.cons_val]
  generalize m.Ωk E = a, m.ik E = b, m.uk E = c
  have ec := Real.sin_sq_add_cos_sq c
  generalize Real.sin a = sa, Real.cos a = ca, Real.sin b = sb, Real.cos b = cb, Real.sin c = sc, Real.cos c = cc at *
  constructor
  · linear_combination m.rk E * m.rfdotk E * (kmPerRadius * (kmPerRadius / 60)) * (sb * sa) * ec
  · linear_combination -(m.rk E * m.rfdotk E * (kmPerRadius * (kmPerRadius / 60)) * (sb * ca)) * ec

theorem momentum_len (m : Mean) (E : ℝ) (h : 0 ≤ m.rk E * m.rfdotk E) : len (cross (vec (m.positionKm E)) (vec (m.velocityKmS E))) =
    m.rk E * m.rfdotk E * (kmPerRadius * (kmPerRadius / 60)) := by
  obtain ⟨l1, l2, l3⟩ := frame_lengths m E rfl rfl
  have e : dot (cross (vec (m.positionKm E)) (vec (m.velocityKmS E))) (cross (vec (m.positionKm E)) (vec (m.velocityKmS E))) =
      (m.rk E * m.rfdotk E * (kmPerRadius * (kmPerRadius / 60))) ^ 2 := by
    generalize vec (m.positionKm E) = p at *
    generalize vec (m.velocityKmS E) = w at *
    have : dot (cross p w) (cross p w) = (p.x ^ 2 + p.y ^ 2 + p.z ^ 2) * (w.x ^ 2 + w.y ^ 2 + w.z ^ 2) - (p.x * w.x + p.y * w.y + p.z * w.z) ^ 2 := by
      unfold dot cross; ring
    rw [this, l1, l2, l3]; ring
  unfold len
  rw [e, Real.sqrt_sq]
  exact mul_nonneg h (by unfold kmPerRadius; norm_num)

theorem prod_close {x y x' y' A B δ η : ℝ} (hx : |x' - x| ≤ δ) (hy : |y' - y| ≤ η) (hA : |x| ≤ A) (hB : |y| ≤ B) :
    |x' * y' - x * y| ≤ δ * (B + η) + A * η := by
  have e : x' * y' - x * y = (x' - x) * (y + (y' - y)) + x * (y' - y) := by ring
  rw [e]
  refine (abs_add_le _ _).trans (add_le_add ?_ ?_)
  · rw [abs_mul]
    exact mul_le_mul hx ((abs_add_le _ _).trans (add_le_add hB hy)) (abs_nonneg _) ((abs_nonneg _).trans hx)
  · rw [abs_mul]
    exact mul_le_mul hA hy (abs_nonneg _) ((abs_nonneg _).trans hA)

theorem comp_le_len (v : Vec3 ℝ) : |v.x| ≤ len v ∧ |v.y| ≤ len v ∧ |v.z| ≤ len v := by
  refine ⟨?_, ?_, ?_⟩ <;> (unfold len dot; refine Real.le_sqrt_of_sq_le ?_; rw [sq_abs]; nlinarith [sq_nonneg v.x, sq_nonneg v.y, sq_nonneg v.z])

/-- the angular momentum of a state near that of given mean elements -/
theorem momentum_near {m : Mean} {E : ℝ} {p w : Vec3 F64} (ha : 1 ≤ m.a * (1 - m.e)) (he : 0 ≤ m.e ∧ m.e ≤ 0.44)
    (hp : p.Close (vec (m.positionKm E)) (1 / 10 ^ 3)) (hw : w.Close (vec (m.velocityKmS E)) (2 / 10 ^ 6))
    (hfar : len (vec (m.positionKm E)) ≤ 99500) :
    let H := cross (vec (m.positionKm E)) (vec (m.velocityKmS E))
    41000 ≤ len H ∧ |len (cross p.exact w.exact) - len H| ≤ 1 ∧
      |(cross p.exact w.exact).x - H.x| ≤ 0.5 ∧ |(cross p.exact w.exact).y - H.y| ≤ 0.5 ∧ |(cross p.exact w.exact).z - H.z| ≤ 0.5 := by
  intro H0
  have he' : 0 ≤ m.e ∧ m.e ≤ 1 / 2 := ⟨he.1, he.2.trans (by norm_num)⟩
  obtain ⟨-, r1, -⟩ := distance_bounds m E he' ha
  obtain ⟨hE, hA⟩ := laws_of_state m E he' ha rfl rfl
  have hrk0 : 0.996 ≤ m.rk E := by linarith only [r1, ha]
  have elen : ∀ X : Vec3 ℝ, Real.sqrt (X.x ^ 2 + X.y ^ 2 + X.z ^ 2) = len X := by
    intro X; unfold len dot; congr 1; ring
  have hP0 : 6300 ≤ len (vec (m.positionKm E)) := by
    obtain ⟨l1, -, -⟩ := frame_lengths m E rfl rfl
    rw [← elen, l1, Real.sqrt_sq (mul_nonneg (le_trans (by norm_num) hrk0) (by unfold kmPerRadius; norm_num))]
    unfold kmPerRadius
    norm_num at hrk0 ⊢; linarith only [hrk0]
  set P := vec (m.positionKm E) with hP
  set W := vec (m.velocityKmS E) with hW
  -- the speed
  have hWl : len W ≤ 12 := by
    unfold EnergyLaw at hE
    rw [elen] at hE
    have hx0 : 0 ≤ len P / (m.a * 6378.137) := by
      have : 0 ≤ m.a := by
        by_contra hcon
        have : m.a * (1 - m.e) ≤ 0 := mul_nonpos_of_nonpos_of_nonneg (not_le.mp hcon).le (by linarith only [he'.2])
        linarith only [this, ha]
      exact div_nonneg (Real.sqrt_nonneg _) (by positivity)
    have h2 := (abs_le.mp hE).2
    have h3 : (W.x ^ 2 + W.y ^ 2 + W.z ^ 2) * len P / 398600.5 ≤ 2.008 := by norm_num at h2 ⊢; linarith only [h2, hx0]
    rw [div_le_iff₀ (by norm_num)] at h3
    have h0 : 0 ≤ W.x ^ 2 + W.y ^ 2 + W.z ^ 2 := by positivity
    have h4 : W.x ^ 2 + W.y ^ 2 + W.z ^ 2 ≤ 144 := by
      by_contra hcon
      have : 144 * 6300 ≤ (W.x ^ 2 + W.y ^ 2 + W.z ^ 2) * len P := mul_le_mul (not_le.mp hcon).le hP0 (by norm_num) h0
      norm_num at h3 this; linarith only [h3, this]
    rw [← elen]
    exact Real.sqrt_le_iff.mpr ⟨by norm_num, by norm_num; linarith only [h4]⟩
  -- the momentum of the theory
  have hlo : 41000 ≤ len (cross P W) := by
    unfold AreaLaw at hA
    have h1 := (abs_le.mp hA).1
    have hd : 6378.137 ≤ m.a * 6378.137 * (1 - m.e ^ 2) := by
      have e : m.a * 6378.137 * (1 - m.e ^ 2) = 6378.137 * (m.a * (1 - m.e) * (1 + m.e)) := by ring
      rw [e]
      have : 1 * 1 ≤ m.a * (1 - m.e) * (1 + m.e) := mul_le_mul ha (by linarith only [he.1]) (by norm_num) (le_trans zero_le_one ha)
      norm_num at this ⊢; linarith only [this]
    have hd0 : (0 : ℝ) < 398600.5 * (m.a * 6378.137 * (1 - m.e ^ 2)) := mul_pos (by norm_num) (lt_of_lt_of_le (by norm_num) hd)
    have h2 : 0.989 ≤ ((P.y * W.z - P.z * W.y) ^ 2 + (P.z * W.x - P.x * W.z) ^ 2 + (P.x * W.y - P.y * W.x) ^ 2) /
        (398600.5 * (m.a * 6378.137 * (1 - m.e ^ 2))) := by norm_num at h1 ⊢; linarith only [h1]
    rw [le_div_iff₀ hd0] at h2
    rw [← elen]
    refine Real.le_sqrt_of_sq_le ?_
    show (41000 : ℝ) ^ 2 ≤ (P.y * W.z - P.z * W.y) ^ 2 + (P.z * W.x - P.x * W.z) ^ 2 + (P.x * W.y - P.y * W.x) ^ 2
    refine le_trans ?_ h2
    calc (41000 : ℝ) ^ 2 ≤ 0.989 * (398600.5 * 6378.137) := by norm_num
      _ ≤ _ := by gcongr
  -- rounding
  obtain ⟨p1, p2, p3⟩ := comp_le_len P
  obtain ⟨w1, w2, w3⟩ := comp_le_len W
  have near : |(cross p.exact w.exact).x - (cross P W).x| ≤ 0.5 ∧ |(cross p.exact w.exact).y - (cross P W).y| ≤ 0.5 ∧
      |(cross p.exact w.exact).z - (cross P W).z| ≤ 0.5 := by
    have one : ∀ {x y x' y' : ℝ}, |x' - x| ≤ 1 / 10 ^ 3 → |y' - y| ≤ 2 / 10 ^ 6 → |x| ≤ len P → |y| ≤ len W → |x' * y' - x * y| ≤ 0.25 := by
      intro x y x' y' g1 g2 g3 g4
      refine (prod_close g1 g2 (g3.trans hfar) (g4.trans hWl)).trans (by norm_num)
    have two : ∀ {a b a' b' : ℝ}, |a' - a| ≤ 0.25 → |b' - b| ≤ 0.25 → |a' - b' - (a - b)| ≤ 0.5 := by
      intro a b a' b' g1 g2
      have e : a' - b' - (a - b) = (a' - a) - (b' - b) := by ring
      rw [e]
      exact (abs_sub _ _).trans (by norm_num at g1 g2 ⊢; linarith only [g1, g2])
    exact ⟨two (one hp.2.1.2 hw.2.2.2 p2 w3) (one hp.2.2.2 hw.2.1.2 p3 w2), two (one hp.2.2.2 hw.1.2 p3 w1) (one hp.1.2 hw.2.2.2 p1 w3),
      two (one hp.1.2 hw.2.1.2 p1 w2) (one hp.2.1.2 hw.1.2 p2 w1)⟩
  set H := cross P W with hH
  set H' := cross p.exact w.exact with hH'
  have hlr : |len H' - len H| ≤ 1 := by
    refine (len_sub_len H' H).trans ?_
    unfold len dot sub
    refine Real.sqrt_le_iff.mpr ⟨by norm_num, ?_⟩
    have q : ∀ x : ℝ, |x| ≤ 0.5 → x * x ≤ 0.25 := fun x g => by
      have := abs_le.mp g
      norm_num at this ⊢; nlinarith only [this.1, this.2]
    have a1 := q _ near.1
    have a2 := q _ near.2.1
    have a3 := q _ near.2.2
    norm_num at a1 a2 a3 ⊢; linarith only [a1, a2, a3]
  exact ⟨hlo, hlr, near⟩

/-- the normal of a state near that of given mean elements -/
theorem plane_near {m : Mean} {E : ℝ} {p w : Vec3 F64} (ha : 1 ≤ m.a * (1 - m.e)) (he : 0 ≤ m.e ∧ m.e ≤ 0.44)
    (hp : p.Close (vec (m.positionKm E)) (1 / 10 ^ 3)) (hw : w.Close (vec (m.velocityKmS E)) (2 / 10 ^ 6))
    (hfar : len (vec (m.positionKm E)) ≤ 99500) : 40000 ≤ len (cross p.exact w.exact) ∧
      |(cross p.exact w.exact).x / len (cross p.exact w.exact) - Real.sin (m.ik E) * Real.sin (m.Ωk E)| ≤ 0.0001 ∧
      |(cross p.exact w.exact).y / len (cross p.exact w.exact) - -(Real.sin (m.ik E) * Real.cos (m.Ωk E))| ≤ 0.0001 ∧
      |(cross p.exact w.exact).z / len (cross p.exact w.exact) - Real.cos (m.ik E)| ≤ 0.0001 := by
  have he' : 0 ≤ m.e ∧ m.e ≤ 1 / 2 := ⟨he.1, he.2.trans (by norm_num)⟩
  have ht := transverse_pos E he' ha
  obtain ⟨-, r1, -⟩ := distance_bounds m E he' ha
  have hrk0 : 0.996 ≤ m.rk E := by linarith only [r1, ha]
  have hpos : 0 ≤ m.rk E * m.rfdotk E := mul_nonneg (le_trans (by norm_num) hrk0) ht.le
  have hz := momentum_z m E
  obtain ⟨hx, hy⟩ := momentum_xy m E
  have hl := momentum_len m E hpos
  rw [← hl] at hx hy hz
  obtain ⟨hlo, hlr, near⟩ := momentum_near ha he hp hw hfar
  set H := cross (vec (m.positionKm E)) (vec (m.velocityKmS E)) with hH
  set H' := cross p.exact w.exact with hH'
  obtain ⟨d1, d2⟩ := abs_le.mp hlr
  have hL0 : 40000 ≤ len H' := by linarith only [d1, hlo]
  have hL1 : 0 < len H' := lt_of_lt_of_le (by norm_num) hL0
  have key : ∀ x y z : ℝ, |x - y| ≤ 0.5 → y = len H * z → |z| ≤ 1 → |x / len H' - z| ≤ 0.0001 := by
    intro x y z g1 g2 g3
    have e : x / len H' - z = ((x - y) + (len H - len H') * z) / len H' := by
      rw [g2]; field_simp; ring
    rw [e, abs_div, abs_of_pos hL1, div_le_iff₀ hL1]
    calc |x - y + (len H - len H') * z| ≤ 0.5 + 1 * 1 := by
          refine (abs_add_le _ _).trans (add_le_add g1 ?_)
          rw [abs_mul]
          exact mul_le_mul (by rw [abs_sub_comm]; exact hlr) g3 (abs_nonneg _) (by norm_num)
      _ ≤ _ := by norm_num at hL0 ⊢; linarith only [hL0]
  have unit : ∀ x y : ℝ, |x| ≤ 1 → |y| ≤ 1 → |x * y| ≤ 1 := fun x y g1 g2 => by rw [abs_mul]; exact mul_le_one₀ g1 (abs_nonneg _) g2
  exact ⟨hL0, key _ _ _ near.1 hx (unit _ _ (Real.abs_sin_le_one _) (Real.abs_sin_le_one _)),
    key _ _ _ near.2.1 hy (by rw [abs_neg]; exact unit _ _ (Real.abs_sin_le_one _) (Real.abs_cos_le_one _)),
    key _ _ _ near.2.2 hz (Real.abs_cos_le_one _)⟩

theorem tilted {m : Mean} {E i ε : ℝ} {p w : Vec3 F64} (ha : 1 ≤ m.a * (1 - m.e)) (he : 0 ≤ m.e ∧ m.e ≤ 0.44) (hi : |m.ik E - i| ≤ ε)
    (hp : p.Close (vec (m.positionKm E)) (1 / 10 ^ 3)) (hw : w.Close (vec (m.velocityKmS E)) (2 / 10 ^ 6))
    (hfar : len (vec (m.positionKm E)) ≤ 99500) : Tilted i (ε + 0.0001) p.exact w.exact := by
  obtain ⟨h1, -, -, h2⟩ := plane_near ha he hp hw hfar
  refine ⟨h1, ?_⟩
  have hcos : |Real.cos (m.ik E) - Real.cos i| ≤ ε := (Real.abs_cos_sub_cos_le _ _).trans hi
  generalize (cross p.exact w.exact).z / len (cross p.exact w.exact) = x at *
  have e : x - Real.cos i = (Real.cos (m.ik E) - Real.cos i) + (x - Real.cos (m.ik E)) := by ring
  rw [e]
  exact (abs_add_le _ _).trans (add_le_add hcos h2)

theorem low_far {m : Mean} (g1 : 0 ≤ m.e) (g2 : m.e ≤ 0.44) (g3 : 1.001 ≤ m.a * (1 - m.e)) (s3 : m.a ≤ 2.1) (E : ℝ) :
    len (vec (m.positionKm E)) ≤ 99500 := by
  obtain ⟨l1, -, -⟩ := frame_lengths m E rfl rfl
  obtain ⟨-, r1, r2⟩ := distance_bounds m E ⟨g1, g2.trans (by norm_num)⟩ (le_trans (by norm_num) g3)
  have hrk0 : 0 ≤ m.rk E := le_trans (by norm_num at g3; linarith only [g3]) r1
  have e1 : dot (vec (m.positionKm E)) (vec (m.positionKm E)) = (m.rk E * kmPerRadius) ^ 2 := by rw [← l1]; unfold dot; ring
  unfold len
  rw [e1, Real.sqrt_sq (mul_nonneg hrk0 (by unfold kmPerRadius; norm_num))]
  have : m.a * (1 + m.e) ≤ 2.1 * 1.44 := mul_le_mul s3 (by norm_num at g2 ⊢; linarith only [g2]) (by linarith only [g1]) (by norm_num)
  unfold kmPerRadius
  norm_num at this r2 ⊢; linarith only [this, r2]

variable [Libm]

/-- **C110**, near-earth satellites: position and velocity reported for any time in range turn about an axis that is inclined by the printed inclination. -/
theorem C110_tilt_f64 (hL : Libm.Faithful) (l1 l2 : Str) (v : Tle) (h : Printed l1 l2 v) (hpos : v.nddotNeg = false ∨ v.nddotMant = 0)
    (hnd : Normal v.nddotMant) (hb : Normal v.bstarMant) (t : F64) (ht : t.Fin) (hl : LowTle v t.val) :
    ∃ (s : Satrec F64) (p : SGP4Result F64), twoline2satrec l1 l2 = .ok s ∧ (sgp4 s t).map Prod.snd = some (.ok p) ∧
      Tilted ((v.inclE4 : ℝ) / 10 ^ 4 * (Real.pi / 180)) 0.0006 p.position.exact p.velocity.exact := by
  obtain ⟨s, p, hs, hp, k, -, -, -, c1, c2⟩ := C85_text_to_state_f64 hL l1 l2 v h hpos hnd hb t ht hl
  refine ⟨s, p, hs, hp, ?_⟩
  have Q := quiet_low hL h hpos hnd hb hl
  obtain ⟨-, -, s3⟩ := Q.shape (tleNode v)
  obtain ⟨g1, g2, g3, -, -⟩ := quiet_numbers Q (tleNode v)
  have hik := ik_near (Q.fair (tleNode v)) (((tleOrbit v).mean (tleNode v) t.val).newton k)
  set m := (tleOrbit v).mean (tleNode v) t.val with hm
  have hfar := low_far g1 g2 g3 s3 (m.newton k)
  obtain ⟨k1, k2⟩ := tilted (le_trans (by norm_num) g3) ⟨g1, g2⟩ hik c1 c2 hfar
  exact ⟨k1, k2.trans (by norm_num)⟩

/-- **C110**, deep-space satellites: the same within a month of the epoch, up to 1.1 degrees (the sun and the moon turn the plane of the orbit). -/
theorem C110_deep_tilt_f64 (hL : Libm.Faithful) (l1 l2 : Str) (v : Tle) (h : Printed l1 l2 v) (hpos : v.nddotNeg = false ∨ v.nddotMant = 0)
    (hnd : Normal v.nddotMant) (hb : Normal v.bstarMant) (hl : HighTle v) (t : F64) (ht : t.Fin) (hτ : |t.val| ≤ 43200) :
    ∃ (s : Satrec F64) (p : SGP4Result F64), twoline2satrec l1 l2 = .ok s ∧ (sgp4 s t).map Prod.snd = some (.ok p) ∧
      Tilted ((v.inclE4 : ℝ) / 10 ^ 4 * (Real.pi / 180)) 0.0185 p.position.exact p.velocity.exact := by
  obtain ⟨s, p, jd, hs, -, hp, hj, κ, -, -, -, c1, c2, -, hfar, -, -, m1, m2, m3⟩ := deep_sized hL l1 l2 v h hpos hnd hb hl t ht hτ
  refine ⟨s, p, hs, hp, ?_⟩
  have hM := deep_motion hL h hpos hnd hb hl hj
  obtain ⟨e0, e1⟩ := hM.ecc hτ
  set m := carriedMean (tleOrbit v) (tleNode v) (jd - 2415020) t.val with hm
  have hinc0 : 0 ≤ (tleOrbit v).inc := by show 0 ≤ (v.inclE4 : ℝ) / 10 ^ 4 * (Real.pi / 180); positivity
  have hinc1 : (tleOrbit v).inc ≤ 2.793 := by
    show (v.inclE4 : ℝ) / 10 ^ 4 * (Real.pi / 180) ≤ _
    have h1 : (v.inclE4 : ℝ) ≤ 1600000 := by exact_mod_cast hl.incl
    have hp2 := Real.pi_lt_d4
    calc (v.inclE4 : ℝ) / 10 ^ 4 * (Real.pi / 180) ≤ 1600000 / 10 ^ 4 * (3.1416 / 180) := by gcongr
      _ ≤ _ := by norm_num
  obtain ⟨m3a, m3b⟩ := abs_le.mp m3
  have hfm : FarMean m := ⟨by norm_num at m1 ⊢; linarith only [m1], e0, e1,
    not_retrograde (by rw [abs_le]; constructor <;> norm_num at * <;> linarith only [m3a, m3b, hinc0, hinc1])⟩
  have hik := ik_near hfm.fair (m.newton κ)
  have hi : |m.ik (m.newton κ) - (tleOrbit v).inc| ≤ 0.01831 := by
    have e : m.ik (m.newton κ) - (tleOrbit v).inc = (m.ik (m.newton κ) - m.i) + (m.i - (tleOrbit v).inc) := by ring
    rw [e]
    exact (abs_add_le _ _).trans ((add_le_add hik m3).trans (by norm_num))
  have hc2 : p.velocity.Close (vec (m.velocityKmS (m.newton κ))) (2 / 10 ^ 6) :=
    ⟨⟨c2.1.1, c2.1.2.trans (by norm_num)⟩, ⟨c2.2.1.1, c2.2.1.2.trans (by norm_num)⟩, ⟨c2.2.2.1, c2.2.2.2.trans (by norm_num)⟩⟩
  obtain ⟨k1, k2⟩ := tilted (m := m) (E := m.newton κ) (by
      calc (1 : ℝ) ≤ 191 / 10 ^ 2 * 0.57 := by norm_num
        _ ≤ _ := mul_le_mul m1 (by norm_num at e1 ⊢; linarith only [e1]) (by norm_num) (le_trans (by norm_num) m1))
    ⟨e0, e1.trans (by norm_num)⟩ hi c1 hc2 hfar
  exact ⟨k1, k2.trans (by norm_num)⟩

/-- The International Space Station (51.6416 degrees) goes round eastward, at any double within four weeks of the epoch. -/
theorem iss_eastward (hL : Libm.Faithful) (t : F64) (ht : t.Fin) (h : |t.val| ≤ 40000) :
    ∃ (s : Satrec F64) (p : SGP4Result F64), twoline2satrec "1 25544U 98067A   08264.51782528 -.00002182  00000-0 -11606-4 0  2927".toList
        "2 25544  51.6416 247.4627 0006703 130.5360 325.0288 15.72125391563537".toList = .ok s ∧ (sgp4 s t).map Prod.snd = some (.ok p) ∧
      0 < p.position.x.val * p.velocity.y.val - p.position.y.val * p.velocity.x.val := by
  obtain ⟨s, p, h1, h2, h3, h4⟩ := C110_tilt_f64 hL _ _ _ iss_printed (Or.inl rfl) (Or.inl rfl) (Or.inr (by decide)) t ht (iss_low h)
  refine ⟨s, p, h1, h2, ?_⟩
  have hp := Real.pi_lt_d4
  have hp0 := Real.pi_pos
  have hc : Real.cos (Real.pi / 3) ≤ Real.cos ((516416 : ℝ) / 10 ^ 4 * (Real.pi / 180)) :=
    Real.cos_le_cos_of_nonneg_of_le_pi (by positivity) (by linarith only [hp0]) (by norm_num; linarith only [hp0])
  rw [Real.cos_pi_div_three] at hc
  have h5 := (abs_le.mp h4).1
  norm_num at h5 hc
  have h6 : 0 < (cross p.position.exact p.velocity.exact).z / len (cross p.position.exact p.velocity.exact) := by
    linarith only [h5, hc]
  have h7 := (div_pos_iff_of_pos_right (lt_of_lt_of_le (by norm_num) h3)).mp h6
  exact h7

/-- A navigation satellite (55.4416 degrees), at any double within a month of the epoch. -/
theorem nav_tilt (hL : Libm.Faithful) (t : F64) (ht : t.Fin) (h : |t.val| ≤ 43200) :
    ∃ (s : Satrec F64) (p : SGP4Result F64), twoline2satrec navLine1 navLine2 = .ok s ∧ (sgp4 s t).map Prod.snd = some (.ok p) ∧
      Tilted ((navTle.inclE4 : ℝ) / 10 ^ 4 * (Real.pi / 180)) 0.0185 p.position.exact p.velocity.exact :=
  C110_deep_tilt_f64 hL _ _ _ nav_printed (Or.inl rfl) (Or.inl rfl) (Or.inr (by decide)) nav_high t ht h

end Sat
