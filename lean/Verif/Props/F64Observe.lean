import Verif.Props.F64Sgp4
import Verif.Props.F64Look
import Verif.Props.GeodeticError
import Verif.Props.F64Accuracy
import Verif.Props.F64Geodetic
/-!
# Frame conversions and look angles in doubles against exact arithmetic

`Vec3.exact`, `Geodedic.exact`: the numbers the doubles denote.  Positions up to 100000 km in each component, observers up to 10000 km of
height, any finite latitude, longitude and sidereal angle.
-/

namespace Sat
open F64

/-- the vector of numbers denoted by a vector of doubles -/
noncomputable def Vec3.exact (v : Vec3 F64) : Vec3 ℝ := { x := v.x.val, y := v.y.val, z := v.z.val }

/-- the numbers denoted by geodetic coordinates in doubles -/
noncomputable def Geodedic.exact (g : Geodedic F64) : Geodedic ℝ :=
  { longitude := g.longitude.val, latitude := g.latitude.val, height := g.height.val }

/-- each component finite and at most 100000 km -/
def Vec3.Bounded (v : Vec3 F64) : Prop := Within v.x 100000 ∧ Within v.y 100000 ∧ Within v.z 100000

/-- an observer -/
structure Station (g : Geodedic F64) : Prop where
  lat : g.latitude.Fin
  lon : g.longitude.Fin
  height : Within g.height 10000

section
variable [Libm] {g : Geodedic F64} {v : Vec3 F64} {θ : F64}

theorem q_sin (hL : Libm.Faithful) {x : F64} (h : x.Fin) : Q (Arith.sin x) (Real.sin x.val) 1 (356 / 10 ^ 17) :=
  ((Q.exact h le_rfl).angle.sin hL).mono le_rfl (by norm_num)

theorem q_cos (hL : Libm.Faithful) {x : F64} (h : x.Fin) : Q (Arith.cos x) (Real.cos x.val) 1 (356 / 10 ^ 17) :=
  ((Q.exact h le_rfl).angle.cos hL).mono le_rfl (by norm_num)

omit [Libm] in
theorem rpow_2 (a : ℝ) : a ^ (OfScientific.ofScientific 20 true 1 : ℝ) = a ^ 2 := by
  have : (OfScientific.ofScientific 20 true 1 : ℝ) = (2 : ℕ) := by norm_num
  rw [this, Real.rpow_natCast]

/-- the square through `powf` -/
theorem F64.Q.pow2 (hL : Libm.Faithful) {x : F64} {a A δ : ℝ} (h : Q x a A δ) (hb : A + δ ≤ 2 ^ 100 := by norm_num) :
    Q (Arith.powf x (OfScientific.ofScientific 20 true 1 : F64)) (a ^ (OfScientific.ofScientific 20 true 1 : ℝ)) (A * A)
      (2 * A * δ + δ * δ + (A + δ) ^ 2 / 2 ^ 48 + 1 / 2 ^ 153) := by
  have hv := h.val_le
  have h0 := h.nonneg_err
  have h1 := h.nonneg_mag
  have ht : (2 : ℝ) ^ 100 ≤ 2 ^ 450 := pow_le_pow_right₀ (by norm_num) (by norm_num)
  obtain ⟨f1, f2, f3⟩ := hL.powf_two x h.fin ((hv.trans hb).trans ht)
  rw [rpow_2]
  refine ⟨f1, ?_, ?_⟩
  · have hs : x.val ^ 2 ≤ (A + δ) ^ 2 := sq_le_sq' (by linarith [(abs_le.mp hv).1]) (abs_le.mp hv).2
    have e : (Libm.powf x (F64.sci 20 true 1)).val - a ^ 2 = ((Libm.powf x (F64.sci 20 true 1)).val - x.val ^ 2) + (x.val - a) * (x.val + a) := by ring
    have e2 : |(x.val - a) * (x.val + a)| ≤ δ * (2 * A + δ) := by
      rw [abs_mul]
      refine mul_le_mul h.err ?_ (abs_nonneg _) h0
      refine (abs_add_le _ _).trans ?_
      linarith [h.mag]
    have e3 : x.val ^ 2 / 2 ^ 48 ≤ (A + δ) ^ 2 / 2 ^ 48 := div_le_div_of_nonneg_right hs (by positivity)
    have e4 : (1 : ℝ) / 2 ^ 900 ≤ 1 / 2 ^ 153 := one_div_le_one_div_of_le (by positivity) (pow_le_pow_right₀ (by norm_num) (by norm_num))
    show |(Libm.powf x (F64.sci 20 true 1)).val - a ^ 2| ≤ _
    rw [e]
    refine (abs_add_le _ _).trans ?_
    linarith
  · rw [abs_of_nonneg (sq_nonneg a), ← sq_abs a, sq]
    exact mul_le_mul h.mag h.mag (abs_nonneg _) h1

theorem q_ellF : Q (ellF : F64) (ellF : ℝ) (336 / 10 ^ 5) (224 / 10 ^ 18) := by
  have g1 := (Q.sci 6378137 true 3 (6380) (by norm_num)).mono (A' := 6380) (δ' := 709 / 10 ^ 15) (by norm_num) (by norm_num)
  have g2 := (Q.sci 63567523142 true 7 (6360) (by norm_num)).mono (A' := 6360) (δ' := 707 / 10 ^ 15) (by norm_num) (by norm_num)
  have g3 := (g1.sub' g2 (214 / 10 ^ 1) (by norm_num [abs_of_pos])).mono (A' := 214 / 10 ^ 1) (δ' := 142 / 10 ^ 14) (by norm_num) (by norm_num)
  have g4 := (g3.div g1 (6378) (336 / 10 ^ 5) (by norm_num [abs_of_pos]) (quot_le (m := 6378) g3.mag (by norm_num [abs_of_pos]) (by norm_num) (by norm_num))).mono (A' := 336 / 10 ^ 5) (δ' := 224 / 10 ^ 18) (by norm_num) (by norm_num)
  exact g4

theorem q_ellE2 : Q (ellE2 : F64) (ellE2 : ℝ) (674 / 10 ^ 5) (452 / 10 ^ 18) := by
  have g1 := (Q.int 20 true 1 2 (by norm_num)).mono (A' := 2) (δ' := 0) (by norm_num) le_rfl
  have g2 := (g1.mul q_ellF).mono (A' := 672 / 10 ^ 5) (δ' := 449 / 10 ^ 18) (by norm_num) (by norm_num)
  have g3 := (q_ellF.mul q_ellF).mono (A' := 113 / 10 ^ 7) (δ' := 151 / 10 ^ 20) (by norm_num) (by norm_num)
  have g4 := (g2.sub g3).mono (A' := 674 / 10 ^ 5) (δ' := 452 / 10 ^ 18) (by norm_num) (by norm_num)
  exact g4

/-- radius of curvature in the prime vertical, as the code writes it -/
def normal {F : Type} [Arith F] (g : Geodedic F) : F := ellA / Arith.sqrt (1.0 - (ellE2 * Arith.powf (Arith.sin g.latitude) 2.0))

theorem u_normal (hL : Libm.Faithful) (h : Station g) : Q (normal g) (normal g.exact) (6500) (641 / 10 ^ 14) := by
  have hpow : (Real.sin g.latitude.val) ^ (OfScientific.ofScientific 20 true 1 : ℝ) = Real.sin g.latitude.val ^ 2 := rpow_2 _
  have hw0 : (0.9933 : ℝ) ≤ 1.0 - ellE2 * (Real.sin g.latitude.val) ^ (OfScientific.ofScientific 20 true 1 : ℝ) := by
    rw [hpow]; have := (w_bounds g.latitude.val).1; norm_num at *; linarith
  have hw : (99 / 10 ^ 2 : ℝ) ^ 2 ≤ OfScientific.ofScientific 10 true 1 - ellE2 * (Real.sin g.latitude.val) ^ (OfScientific.ofScientific 20 true 1 : ℝ) := le_trans (by norm_num) hw0
  have hs : (99 / 10 ^ 2 : ℝ) ≤ |Real.sqrt (OfScientific.ofScientific 10 true 1 - ellE2 * (Real.sin g.latitude.val) ^ (OfScientific.ofScientific 20 true 1 : ℝ))| :=
    le_trans (Real.le_sqrt_of_sq_le hw) (le_abs_self _)
  have g1 := ((q_sin hL h.lat).pow2 hL).mono (A' := 1) (δ' := 107 / 10 ^ 16) (by norm_num) (by norm_num)
  have g2 := (Q.int 10 true 1 1 (by norm_num)).mono (A' := 1) (δ' := 0) (by norm_num) le_rfl
  have g3 := (q_ellE2.mul g1).mono (A' := 674 / 10 ^ 5) (δ' := 525 / 10 ^ 18) (by norm_num) (by norm_num)
  have g4 := (g2.sub g3).mono (A' := 101 / 10 ^ 2) (δ' := 637 / 10 ^ 18) (by norm_num) (by norm_num)
  have g5 := (g4.sqrt (99 / 10 ^ 2) (101 / 10 ^ 2) hw (by norm_num)).mono (A' := 101 / 10 ^ 2) (δ' := 756 / 10 ^ 18) (by norm_num) (by norm_num)
  have g6 := (Q.sci 6378137 true 3 (6380) (by norm_num)).mono (A' := 6380) (δ' := 709 / 10 ^ 15) (by norm_num) (by norm_num)
  have g7 := (g6.div g5 (99 / 10 ^ 2) (6500) hs (quot_le (m := 99 / 10 ^ 2) g6.mag hs (by norm_num) (by norm_num))).mono (A' := 6500) (δ' := 641 / 10 ^ 14) (by norm_num) (by norm_num)
  exact g7

theorem u_gx (hL : Libm.Faithful) (h : Station g) : Q ((geodedic_to_ecf g).x) ((geodedic_to_ecf g.exact).x) (16500) (13 / 10 ^ 11) := by
  have g1 := ((u_normal hL h).add h.height.q).mono (A' := 16500) (δ' := 825 / 10 ^ 14) (by norm_num) (by norm_num)
  have g2 := (g1.mul (q_cos hL h.lat)).mono (A' := 16500) (δ' := 689 / 10 ^ 13) (by norm_num) (by norm_num)
  have g3 := (g2.mul (q_cos hL h.lon)).mono (A' := 16500) (δ' := 13 / 10 ^ 11) (by norm_num) (by norm_num)
  exact g3

theorem u_gy (hL : Libm.Faithful) (h : Station g) : Q ((geodedic_to_ecf g).y) ((geodedic_to_ecf g.exact).y) (16500) (13 / 10 ^ 11) := by
  have g1 := ((u_normal hL h).add h.height.q).mono (A' := 16500) (δ' := 825 / 10 ^ 14) (by norm_num) (by norm_num)
  have g2 := (g1.mul (q_cos hL h.lat)).mono (A' := 16500) (δ' := 689 / 10 ^ 13) (by norm_num) (by norm_num)
  have g3 := (g2.mul (q_sin hL h.lon)).mono (A' := 16500) (δ' := 13 / 10 ^ 11) (by norm_num) (by norm_num)
  exact g3

theorem u_gz (hL : Libm.Faithful) (h : Station g) : Q ((geodedic_to_ecf g).z) ((geodedic_to_ecf g.exact).z) (16600) (738 / 10 ^ 13) := by
  have g1 := (Q.int 10 true 1 1 (by norm_num)).mono (A' := 1) (δ' := 0) (by norm_num) le_rfl
  have g2 := (g1.sub q_ellE2).mono (A' := 101 / 10 ^ 2) (δ' := 564 / 10 ^ 18) (by norm_num) (by norm_num)
  have g3 := ((u_normal hL h).mul g2).mono (A' := 6570) (δ' := 109 / 10 ^ 13) (by norm_num) (by norm_num)
  have g4 := (g3.add h.height.q).mono (A' := 16600) (δ' := 128 / 10 ^ 13) (by norm_num) (by norm_num)
  have g5 := (g4.mul (q_sin hL h.lat)).mono (A' := 16600) (δ' := 738 / 10 ^ 13) (by norm_num) (by norm_num)
  exact g5

theorem u_ts (hL : Libm.Faithful) (h : Station g) (hv : v.Bounded) : Q ((topocentric g v).top_s) ((topocentric g.exact v.exact).top_s) (351000) (261 / 10 ^ 11) := by
  have g1 := (hv.1.q.sub (u_gx hL h)).mono (A' := 117000) (δ' := 143 / 10 ^ 12) (by norm_num) (by norm_num)
  have g2 := (hv.2.1.q.sub (u_gy hL h)).mono (A' := 117000) (δ' := 143 / 10 ^ 12) (by norm_num) (by norm_num)
  have g3 := (hv.2.2.q.sub (u_gz hL h)).mono (A' := 117000) (δ' := 868 / 10 ^ 13) (by norm_num) (by norm_num)
  have g4 := ((q_sin hL h.lat).mul (q_cos hL h.lon)).mono (A' := 1) (δ' := 724 / 10 ^ 17) (by norm_num) (by norm_num)
  have g5 := (g4.mul g1).mono (A' := 117000) (δ' := 101 / 10 ^ 11) (by norm_num) (by norm_num)
  have g6 := ((q_sin hL h.lat).mul (q_sin hL h.lon)).mono (A' := 1) (δ' := 724 / 10 ^ 17) (by norm_num) (by norm_num)
  have g7 := (g6.mul g2).mono (A' := 117000) (δ' := 101 / 10 ^ 11) (by norm_num) (by norm_num)
  have g8 := (g5.add g7).mono (A' := 234000) (δ' := 205 / 10 ^ 11) (by norm_num) (by norm_num)
  have g9 := ((q_cos hL h.lat).mul g3).mono (A' := 117000) (δ' := 517 / 10 ^ 12) (by norm_num) (by norm_num)
  have g10 := (g8.sub g9).mono (A' := 351000) (δ' := 261 / 10 ^ 11) (by norm_num) (by norm_num)
  exact g10

theorem u_te (hL : Libm.Faithful) (h : Station g) (hv : v.Bounded) : Q ((topocentric g v).top_e) ((topocentric g.exact v.exact).top_e) (234000) (118 / 10 ^ 11) := by
  have g1 := (hv.1.q.sub (u_gx hL h)).mono (A' := 117000) (δ' := 143 / 10 ^ 12) (by norm_num) (by norm_num)
  have g2 := (hv.2.1.q.sub (u_gy hL h)).mono (A' := 117000) (δ' := 143 / 10 ^ 12) (by norm_num) (by norm_num)
  have g3 := (hv.2.2.q.sub (u_gz hL h)).mono (A' := 117000) (δ' := 868 / 10 ^ 13) (by norm_num) (by norm_num)
  have g4 := ((q_sin hL h.lon).neg).mono (A' := 1) (δ' := 356 / 10 ^ 17) (by norm_num) (by norm_num)
  have g5 := (g4.mul g1).mono (A' := 117000) (δ' := 573 / 10 ^ 12) (by norm_num) (by norm_num)
  have g6 := ((q_cos hL h.lon).mul g2).mono (A' := 117000) (δ' := 573 / 10 ^ 12) (by norm_num) (by norm_num)
  have g7 := (g5.add g6).mono (A' := 234000) (δ' := 118 / 10 ^ 11) (by norm_num) (by norm_num)
  exact g7

theorem u_tz (hL : Libm.Faithful) (h : Station g) (hv : v.Bounded) : Q ((topocentric g v).top_z) ((topocentric g.exact v.exact).top_z) (351000) (261 / 10 ^ 11) := by
  have g1 := (hv.1.q.sub (u_gx hL h)).mono (A' := 117000) (δ' := 143 / 10 ^ 12) (by norm_num) (by norm_num)
  have g2 := (hv.2.1.q.sub (u_gy hL h)).mono (A' := 117000) (δ' := 143 / 10 ^ 12) (by norm_num) (by norm_num)
  have g3 := (hv.2.2.q.sub (u_gz hL h)).mono (A' := 117000) (δ' := 868 / 10 ^ 13) (by norm_num) (by norm_num)
  have g4 := ((q_cos hL h.lat).mul (q_cos hL h.lon)).mono (A' := 1) (δ' := 724 / 10 ^ 17) (by norm_num) (by norm_num)
  have g5 := (g4.mul g1).mono (A' := 117000) (δ' := 101 / 10 ^ 11) (by norm_num) (by norm_num)
  have g6 := ((q_cos hL h.lat).mul (q_sin hL h.lon)).mono (A' := 1) (δ' := 724 / 10 ^ 17) (by norm_num) (by norm_num)
  have g7 := (g6.mul g2).mono (A' := 117000) (δ' := 101 / 10 ^ 11) (by norm_num) (by norm_num)
  have g8 := (g5.add g7).mono (A' := 234000) (δ' := 205 / 10 ^ 11) (by norm_num) (by norm_num)
  have g9 := ((q_sin hL h.lat).mul g3).mono (A' := 117000) (δ' := 517 / 10 ^ 12) (by norm_num) (by norm_num)
  have g10 := (g8.add g9).mono (A' := 351000) (δ' := 261 / 10 ^ 11) (by norm_num) (by norm_num)
  exact g10

theorem u_fx (hL : Libm.Faithful) (hv : v.Bounded) (hg : θ.Fin) : Q ((eci_to_ecf v θ).x) ((eci_to_ecf v.exact θ.val).x) (200000) (759 / 10 ^ 12) := by
  have g1 := (hv.1.q.mul (q_cos hL hg)).mono (A' := 100000) (δ' := 368 / 10 ^ 12) (by norm_num) (by norm_num)
  have g2 := (hv.2.1.q.mul (q_sin hL hg)).mono (A' := 100000) (δ' := 368 / 10 ^ 12) (by norm_num) (by norm_num)
  have g3 := (g1.add g2).mono (A' := 200000) (δ' := 759 / 10 ^ 12) (by norm_num) (by norm_num)
  exact g3

theorem u_fy (hL : Libm.Faithful) (hv : v.Bounded) (hg : θ.Fin) : Q ((eci_to_ecf v θ).y) ((eci_to_ecf v.exact θ.val).y) (200000) (759 / 10 ^ 12) := by
  have g1 := ((q_sin hL hg).neg).mono (A' := 1) (δ' := 356 / 10 ^ 17) (by norm_num) (by norm_num)
  have g2 := (hv.1.q.mul g1).mono (A' := 100000) (δ' := 368 / 10 ^ 12) (by norm_num) (by norm_num)
  have g3 := (hv.2.1.q.mul (q_cos hL hg)).mono (A' := 100000) (δ' := 368 / 10 ^ 12) (by norm_num) (by norm_num)
  have g4 := (g2.add g3).mono (A' := 200000) (δ' := 759 / 10 ^ 12) (by norm_num) (by norm_num)
  exact g4

theorem u_ix (hL : Libm.Faithful) (hv : v.Bounded) (hg : θ.Fin) : Q ((ecf_to_eci v θ).x) ((ecf_to_eci v.exact θ.val).x) (200000) (759 / 10 ^ 12) := by
  have g1 := (hv.1.q.mul (q_cos hL hg)).mono (A' := 100000) (δ' := 368 / 10 ^ 12) (by norm_num) (by norm_num)
  have g2 := (hv.2.1.q.mul (q_sin hL hg)).mono (A' := 100000) (δ' := 368 / 10 ^ 12) (by norm_num) (by norm_num)
  have g3 := (g1.sub g2).mono (A' := 200000) (δ' := 759 / 10 ^ 12) (by norm_num) (by norm_num)
  exact g3

theorem u_iy (hL : Libm.Faithful) (hv : v.Bounded) (hg : θ.Fin) : Q ((ecf_to_eci v θ).y) ((ecf_to_eci v.exact θ.val).y) (200000) (759 / 10 ^ 12) := by
  have g1 := (hv.1.q.mul (q_sin hL hg)).mono (A' := 100000) (δ' := 368 / 10 ^ 12) (by norm_num) (by norm_num)
  have g2 := (hv.2.1.q.mul (q_cos hL hg)).mono (A' := 100000) (δ' := 368 / 10 ^ 12) (by norm_num) (by norm_num)
  have g3 := (g1.add g2).mono (A' := 200000) (δ' := 759 / 10 ^ 12) (by norm_num) (by norm_num)
  exact g3

/-! ## Frames -/

omit [Libm] in
theorem z_close {x : F64} (h : Within x 100000) : Close x x.val (1 / 10 ^ 9) := ⟨h.1, by rw [sub_self, abs_zero]; norm_num⟩

/-- **C83, frames.** The rotations between the inertial and the earth-fixed frame are accurate to one micrometre, for every finite sidereal angle. -/
theorem C83_frames (hL : Libm.Faithful) (v : Vec3 F64) (θ : F64) (hv : v.Bounded) (hg : θ.Fin) :
    (eci_to_ecf v θ).Close (eci_to_ecf v.exact θ.val) (1 / 10 ^ 9) ∧ (ecf_to_eci v θ).Close (ecf_to_eci v.exact θ.val) (1 / 10 ^ 9) :=
  ⟨⟨(u_fx hL hv hg).close (by norm_num), (u_fy hL hv hg).close (by norm_num), z_close hv.2.2⟩,
   ⟨(u_ix hL hv hg).close (by norm_num), (u_iy hL hv hg).close (by norm_num), z_close hv.2.2⟩⟩

/-- **C83, observer.** The position of an observer is accurate to one micrometre, for every finite latitude and longitude and heights up to 10000 km. -/
theorem C83_observer (hL : Libm.Faithful) (g : Geodedic F64) (h : Station g) : (geodedic_to_ecf g).Close (geodedic_to_ecf g.exact) (1 / 10 ^ 9) :=
  ⟨(u_gx hL h).close (by norm_num), (u_gy hL h).close (by norm_num), (u_gz hL h).close (by norm_num)⟩

/-- **C83, topocentric.** -/
theorem C83_topocentric (hL : Libm.Faithful) (g : Geodedic F64) (v : Vec3 F64) (h : Station g) (hv : v.Bounded) :
    Close (topocentric g v).top_s (topocentric g.exact v.exact).top_s (3 / 10 ^ 9) ∧
    Close (topocentric g v).top_e (topocentric g.exact v.exact).top_e (3 / 10 ^ 9) ∧
    Close (topocentric g v).top_z (topocentric g.exact v.exact).top_z (3 / 10 ^ 9) :=
  ⟨(u_ts hL h hv).close (by norm_num), (u_te hL h hv).close (by norm_num), (u_tz hL h hv).close (by norm_num)⟩

/-! ## Length of a vector -/

omit [Libm] in
theorem sqrt_near {a b ε η : ℝ} (ha : 0 ≤ a) (hb : 0 ≤ b) (hε : 0 ≤ ε) (hη : 0 ≤ η) (h : |a - b| ≤ ε * b + η ^ 2) : |Real.sqrt a - Real.sqrt b| ≤ ε * Real.sqrt b + η := by
  set p := Real.sqrt a with hp
  set q := Real.sqrt b with hq
  have p0 : 0 ≤ p := Real.sqrt_nonneg _
  have q0 : 0 ≤ q := Real.sqrt_nonneg _
  have pa : p * p = a := Real.mul_self_sqrt ha
  have qb : q * q = b := Real.mul_self_sqrt hb
  rcases le_total (p + q) η with hc | hc
  · have : |p - q| ≤ p + q := by rw [abs_le]; constructor <;> linarith
    have := mul_nonneg hε q0
    linarith
  · rcases eq_or_lt_of_le (add_nonneg p0 q0) with h0 | h0
    · have h1 : p = 0 := by linarith
      have h2 : q = 0 := by linarith
      rw [h1, h2, sub_zero, abs_zero, mul_zero, zero_add]; exact hη
    · by_contra hcon
      rw [not_le] at hcon
      have e : |p - q| * (p + q) = |a - b| := by
        rw [← pa, ← qb, show p * p - q * q = (p - q) * (p + q) by ring, abs_mul, abs_of_pos h0]
      have h1 : (ε * q + η) * (p + q) < |a - b| := by rw [← e]; exact mul_lt_mul_of_pos_right hcon h0
      have h2 : ε * q * q ≤ ε * q * (p + q) := mul_le_mul_of_nonneg_left (by linarith) (mul_nonneg hε q0)
      have h3 : η * η ≤ η * (p + q) := mul_le_mul_of_nonneg_left hc hη
      have h4 : ε * b = ε * q * q := by rw [← qb]; ring
      nlinarith

/-- the length of a vector, from its squared components -/
theorem norm_near {a b c : F64} {x y z : ℝ} (ha : a.Fin) (hb : b.Fin) (hc : c.Fin) (ha0 : 0 ≤ a.val) (hb0 : 0 ≤ b.val) (hc0 : 0 ≤ c.val)
    (h1 : |a.val - x ^ 2| ≤ x ^ 2 / 2 ^ 47 + 1 / 2 ^ 150) (h2 : |b.val - y ^ 2| ≤ y ^ 2 / 2 ^ 47 + 1 / 2 ^ 150)
    (h3 : |c.val - z ^ 2| ≤ z ^ 2 / 2 ^ 47 + 1 / 2 ^ 150) (hx : |x| ≤ 2 ^ 20) (hy : |y| ≤ 2 ^ 20) (hz : |z| ≤ 2 ^ 20) :
    (Arith.sqrt (a + b + c)).Fin ∧ |(Arith.sqrt (a + b + c)).val - Real.sqrt (x ^ 2 + y ^ 2 + z ^ 2)| ≤ Real.sqrt (x ^ 2 + y ^ 2 + z ^ 2) / 2 ^ 45 + 1 / 2 ^ 70 := by
  have sq : ∀ {w : ℝ}, |w| ≤ 2 ^ 20 → w ^ 2 ≤ 2 ^ 40 := fun {w} hw => by
    have := sq_le_sq' (by linarith [(abs_le.mp hw).1]) (abs_le.mp hw).2
    refine this.trans (by norm_num)
  have hx2 := sq hx
  have hy2 := sq hy
  have hz2 := sq hz
  have x0 := sq_nonneg x
  have y0 := sq_nonneg y
  have z0 := sq_nonneg z
  generalize hX : x ^ 2 = X at *
  generalize hY : y ^ 2 = Y at *
  generalize hZ : z ^ 2 = Z at *
  have h1' := abs_le.mp h1
  have h2' := abs_le.mp h2
  have h3' := abs_le.mp h3
  have r1 := add_rounds ha hb
  have n1 := nonNeg_of_rounds r1 (add_nonneg ha0 hb0)
  obtain ⟨f1, g1⟩ := r1.near (B := a.val + b.val) (by rw [abs_of_nonneg (add_nonneg ha0 hb0)]) (by norm_num at *; linarith)
  have n1' : 0 ≤ (F64.add a b).val := by
    rcases n1 with h | h
    · rw [h] at f1; exact absurd f1 (not_fin_inf _)
    · exact h.2
  have g1' := abs_le.mp g1
  have r2 := add_rounds f1 hc
  have n2 := nonNeg_of_rounds r2 (add_nonneg n1' hc0)
  obtain ⟨f2, g2⟩ := r2.near (B := (F64.add a b).val + c.val) (by rw [abs_of_nonneg (add_nonneg n1' hc0)]) (by norm_num at *; linarith [g1'.2, h1'.2, h2'.2, h3'.2])
  have n2' : 0 ≤ (F64.add (F64.add a b) c).val := by
    rcases n2 with h | h
    · rw [h] at f2; exact absurd f2 (not_fin_inf _)
    · exact h.2
  have g2' := abs_le.mp g2
  have key : |(F64.add (F64.add a b) c).val - (X + Y + Z)| ≤ 1 / 2 ^ 46 * (X + Y + Z) + (1 / 2 ^ 73) ^ 2 := by
    rw [abs_le]
    constructor <;> norm_num at * <;> linarith [g1'.1, g1'.2, g2'.1, g2'.2, h1'.1, h1'.2, h2'.1, h2'.2, h3'.1, h3'.2]
  have hS : 0 ≤ X + Y + Z := by linarith
  have s1 := sqrt_near n2' hS (by norm_num) (by norm_num) key
  have hR : Real.sqrt (X + Y + Z) ≤ 2 ^ 21 := Real.sqrt_le_iff.mpr ⟨by norm_num, by norm_num at *; linarith⟩
  have hR0 := Real.sqrt_nonneg (X + Y + Z)
  have hs0 := Real.sqrt_nonneg (F64.add (F64.add a b) c).val
  have s1' := abs_le.mp s1
  obtain ⟨f3, g3⟩ := (sqrt_rounds f2 n2').near (B := Real.sqrt (F64.add (F64.add a b) c).val) (by rw [abs_of_nonneg hs0]) (by norm_num at *; linarith [s1'.2])
  refine ⟨f3, ?_⟩
  have g3' := abs_le.mp g3
  have e : (Arith.sqrt (a + b + c)).val = (F64.sqrt (F64.add (F64.add a b) c)).val := rfl
  rw [e]
  generalize (F64.sqrt (F64.add (F64.add a b) c)).val = w at *
  generalize Real.sqrt (F64.add (F64.add a b) c).val = w' at *
  generalize Real.sqrt (X + Y + Z) = w'' at *
  rw [abs_le]
  constructor <;> norm_num at s1' g3' hR ⊢ <;> linarith [s1'.1, s1'.2, g3'.1, g3'.2]

omit [Libm] in
theorem norm_triangle (a b c x y z : ℝ) : |Real.sqrt (a ^ 2 + b ^ 2 + c ^ 2) - Real.sqrt (x ^ 2 + y ^ 2 + z ^ 2)| ≤ |a - x| + |b - y| + |c - z| := by
  have one : ∀ a b c x y z : ℝ, Real.sqrt (a ^ 2 + b ^ 2 + c ^ 2) ≤ Real.sqrt (x ^ 2 + y ^ 2 + z ^ 2) + (|a - x| + |b - y| + |c - z|) := by
    intro a b c x y z
    set R := Real.sqrt (x ^ 2 + y ^ 2 + z ^ 2) with hR
    have hR0 : 0 ≤ R := Real.sqrt_nonneg _
    have hRR : R ^ 2 = x ^ 2 + y ^ 2 + z ^ 2 := Real.sq_sqrt (by positivity)
    have hx : |x| ≤ R := Real.abs_le_sqrt (by nlinarith [sq_nonneg y, sq_nonneg z])
    have hy : |y| ≤ R := Real.abs_le_sqrt (by nlinarith [sq_nonneg x, sq_nonneg z])
    have hz : |z| ≤ R := Real.abs_le_sqrt (by nlinarith [sq_nonneg x, sq_nonneg y])
    refine Real.sqrt_le_iff.mpr ⟨by positivity, ?_⟩
    have step : ∀ {p q : ℝ}, |q| ≤ R → p ^ 2 ≤ q ^ 2 + 2 * R * |p - q| + |p - q| ^ 2 := by
      intro p q hq
      have e : p ^ 2 = q ^ 2 + 2 * (q * (p - q)) + (p - q) ^ 2 := by ring
      have h1 : q * (p - q) ≤ R * |p - q| := (le_abs_self _).trans (by rw [abs_mul]; exact mul_le_mul_of_nonneg_right hq (abs_nonneg _))
      rw [sq_abs]; linarith
    have s1 := step (p := a) hx
    have s2 := step (p := b) hy
    have s3 := step (p := c) hz
    have := abs_nonneg (a - x)
    have := abs_nonneg (b - y)
    have := abs_nonneg (c - z)
    nlinarith [mul_nonneg (abs_nonneg (a - x)) (abs_nonneg (b - y)), mul_nonneg (abs_nonneg (a - x)) (abs_nonneg (c - z)), mul_nonneg (abs_nonneg (b - y)) (abs_nonneg (c - z))]
  rw [abs_le]
  constructor
  · have := one x y z a b c
    rw [abs_sub_comm x, abs_sub_comm y, abs_sub_comm z] at this
    linarith
  · linarith [one a b c x y z]

theorem sq_near {x : F64} (hx : x.Fin) (hb : |x.val| ≤ 2 ^ 20) : (x * x).Fin ∧ 0 ≤ (x * x).val ∧ |(x * x).val - x.val ^ 2| ≤ x.val ^ 2 / 2 ^ 47 + 1 / 2 ^ 150 := by
  have r := mul_rounds hx hx
  have h2 : x.val ^ 2 ≤ 2 ^ 40 := (sq_le_sq' (by linarith [(abs_le.mp hb).1]) (abs_le.mp hb).2).trans (by norm_num)
  obtain ⟨f, e⟩ := r.near (B := x.val ^ 2) (by rw [← sq, abs_of_nonneg (sq_nonneg _)]) (by norm_num at *; linarith)
  have n := nonNeg_of_rounds r (mul_self_nonneg _)
  refine ⟨f, ?_, ?_⟩
  · rcases n with h | h
    · exact absurd f (by rw [h]; exact not_fin_inf _)
    · exact h.2
  · rw [sq] at *
    refine le_trans e ?_
    have := mul_self_nonneg x.val
    norm_num at *; linarith

/-! ## Look angles -/

omit [Libm] in
/-- directions of nearby vectors in the plane -/
theorem angle_near {x y a b ε m : ℝ} (hx : |x - a| ≤ ε) (hy : |y - b| ≤ ε) (hm : 0 < m) (hab : m ^ 2 ≤ a ^ 2 + b ^ 2) (hs : 10 * ε ≤ m) :
    ∃ k : ℤ, |atan2R y x - (atan2R b a + k * (2 * Real.pi))| ≤ 4 * ε / m := by
  obtain ⟨ρ, hρ, px, py⟩ := atan2_polar y x
  obtain ⟨ρ', hρ', qx, qy⟩ := atan2_polar b a
  set α := atan2R y x
  set β := atan2R b a
  have hε : 0 ≤ ε := (abs_nonneg _).trans hx
  have hρ0 : 0 ≤ ρ := hρ ▸ Real.sqrt_nonneg _
  have hρ'm : m ≤ ρ' := by rw [hρ']; exact Real.le_sqrt_of_sq_le hab
  have hρ'0 : 0 < ρ' := lt_of_lt_of_le hm hρ'm
  have hsq' : ρ' ^ 2 = a ^ 2 + b ^ 2 := by rw [hρ']; exact Real.sq_sqrt (by positivity)
  have hsq : ρ ^ 2 = x ^ 2 + y ^ 2 := by rw [hρ]; exact Real.sq_sqrt (by positivity)
  have ha : |a| ≤ ρ' := by rw [hρ']; exact Real.abs_le_sqrt (by nlinarith [sq_nonneg b])
  have hb : |b| ≤ ρ' := by rw [hρ']; exact Real.abs_le_sqrt (by nlinarith [sq_nonneg a])
  have hprod : ∀ {p q : ℝ}, |p| ≤ ε → |q| ≤ ρ' → |p * q| ≤ ε * ρ' := fun hp hq => by
    rw [abs_mul]; exact mul_le_mul hp hq (abs_nonneg _) hε
  -- the vectors point the same way
  have hdot : 4 / 5 * ρ' ^ 2 ≤ x * a + y * b := by
    have e : x * a + y * b = ρ' ^ 2 + ((x - a) * a + (y - b) * b) := by rw [hsq']; ring
    have h1 := (abs_le.mp (hprod hx ha)).1
    have h2 := (abs_le.mp (hprod hy hb)).1
    have h3 : 10 * ε * ρ' ≤ ρ' * ρ' := mul_le_mul_of_nonneg_right (by linarith) hρ'0.le
    rw [e]; nlinarith
  have hρ45 : 4 / 5 * ρ' ≤ ρ := by
    have h1 : (x * a + y * b) ^ 2 ≤ ρ ^ 2 * ρ' ^ 2 := by rw [hsq, hsq']; nlinarith [sq_nonneg (x * b - y * a)]
    have h2 : (4 / 5 * ρ' ^ 2) ^ 2 ≤ ρ ^ 2 * ρ' ^ 2 := (pow_le_pow_left₀ (by positivity) hdot 2).trans h1
    by_contra hc
    rw [not_le] at hc
    have h3 : ρ * ρ' < 4 / 5 * ρ' * ρ' := mul_lt_mul_of_pos_right hc hρ'0
    have h4 : (ρ * ρ') ^ 2 < (4 / 5 * ρ' * ρ') ^ 2 := pow_lt_pow_left₀ h3 (by positivity) (by norm_num)
    nlinarith
  have hρpos : 0 < ρ := by nlinarith
  have hcos : 0 < Real.cos (α - β) := by
    have e : ρ * ρ' * Real.cos (α - β) = x * a + y * b := by rw [Real.cos_sub]; nth_rw 1 [px, py, qx, qy]; ring
    have : 0 < ρ * ρ' * Real.cos (α - β) := by rw [e]; nlinarith
    exact (pos_iff_pos_of_mul_pos this).mp (by positivity)
  have hsin : |Real.sin (α - β)| ≤ 2 * ε / ρ := by
    rw [le_div_iff₀ hρpos]
    have e : ρ' * (ρ * Real.sin (α - β)) = (y - b) * a - (x - a) * b := by
      have : (y - b) * a - (x - a) * b = y * a - x * b := by ring
      rw [this, Real.sin_sub]; nth_rw 1 [px, py, qx, qy]; ring
    have h1 : |ρ' * (ρ * Real.sin (α - β))| ≤ ε * ρ' + ε * ρ' := by
      rw [e]; exact (abs_sub _ _).trans (add_le_add (hprod hy ha) (hprod hx hb))
    rw [abs_mul, abs_of_pos hρ'0, abs_mul, abs_of_pos hρpos] at h1
    have h2 : ρ' * (ρ * |Real.sin (α - β)|) ≤ ρ' * (2 * ε) := by linarith
    have := le_of_mul_le_mul_left h2 hρ'0
    linarith
  obtain ⟨k, hk⟩ := near_turn hcos hsin
  refine ⟨k, ?_⟩
  have e : α - (β + k * (2 * Real.pi)) = α - β - k * (2 * Real.pi) := by ring
  rw [e]
  refine hk.trans ?_
  have h1 : 2 * ε / ρ ≤ 2 * ε / (4 / 5 * m) := div_le_div_of_nonneg_left (by positivity) (by positivity) (by linarith)
  have h2 : 2 * ε / (4 / 5 * m) = 5 / 2 * (ε / m) := by field_simp; ring
  have h3 : 4 * ε / m = 4 * (ε / m) := by ring
  rw [h2] at h1
  rw [h3]; linarith

/-- the range computed from the topocentric components -/
theorem range_near (hL : Libm.Faithful) (h : Station g) (hv : v.Bounded) :
    Close (ecf_to_look_angles g v).range (ecf_to_look_angles g.exact v.exact).range (4 / 10 ^ 8) := by
  obtain ⟨a1, a2, a3⟩ := C83_topocentric hL g v h hv
  have m1 := (u_ts hL h hv).val_le
  have m2 := (u_te hL h hv).val_le
  have m3 := (u_tz hL h hv).val_le
  have b1 : |(topocentric g v).top_s.val| ≤ 2 ^ 19 := m1.trans (by norm_num)
  have b2 : |(topocentric g v).top_e.val| ≤ 2 ^ 19 := m2.trans (by norm_num)
  have b3 : |(topocentric g v).top_z.val| ≤ 2 ^ 19 := m3.trans (by norm_num)
  obtain ⟨f1, n1, e1⟩ := sq_near a1.1 (b1.trans (by norm_num))
  obtain ⟨f2, n2, e2⟩ := sq_near a2.1 (b2.trans (by norm_num))
  obtain ⟨f3, n3, e3⟩ := sq_near a3.1 (b3.trans (by norm_num))
  obtain ⟨r1, r2⟩ := norm_near f1 f2 f3 n1 n2 n3 e1 e2 e3 (b1.trans (by norm_num)) (b2.trans (by norm_num)) (b3.trans (by norm_num))
  refine ⟨r1, ?_⟩
  have tr := norm_triangle (topocentric g v).top_s.val (topocentric g v).top_e.val (topocentric g v).top_z.val
    (topocentric g.exact v.exact).top_s (topocentric g.exact v.exact).top_e (topocentric g.exact v.exact).top_z
  have er : (ecf_to_look_angles g.exact v.exact).range = Real.sqrt ((topocentric g.exact v.exact).top_s ^ 2 + (topocentric g.exact v.exact).top_e ^ 2 + (topocentric g.exact v.exact).top_z ^ 2) := by
    rw [sq, sq, sq]; rfl
  have eF : (ecf_to_look_angles g v).range.val = (Arith.sqrt ((topocentric g v).top_s * (topocentric g v).top_s + (topocentric g v).top_e * (topocentric g v).top_e +
      (topocentric g v).top_z * (topocentric g v).top_z)).val := rfl
  rw [er, eF]
  have hR : Real.sqrt ((topocentric g v).top_s.val ^ 2 + (topocentric g v).top_e.val ^ 2 + (topocentric g v).top_z.val ^ 2) ≤ 2 ^ 20 := by
    refine Real.sqrt_le_iff.mpr ⟨by norm_num, ?_⟩
    have s : ∀ {w : ℝ}, |w| ≤ 2 ^ 19 → w ^ 2 ≤ 2 ^ 38 := fun {w} hw => (sq_le_sq' (by linarith [(abs_le.mp hw).1]) (abs_le.mp hw).2).trans (by norm_num)
    have := s b1; have := s b2; have := s b3
    norm_num at *; linarith
  have t1 := a1.2
  have t2 := a2.2
  have t3 := a3.2
  rw [abs_le] at r2 tr ⊢
  generalize Real.sqrt ((topocentric g v).top_s.val ^ 2 + (topocentric g v).top_e.val ^ 2 + (topocentric g v).top_z.val ^ 2) = R at *
  generalize Real.sqrt ((topocentric g.exact v.exact).top_s ^ 2 + (topocentric g.exact v.exact).top_e ^ 2 + (topocentric g.exact v.exact).top_z ^ 2) = R' at *
  norm_num at r2 tr t1 t2 t3 hR ⊢
  constructor <;> linarith [r2.1, r2.2, tr.1, tr.2]

/-- **C83, look angles.** For every observer and satellite `ρ` apart (`ρ` at least one kilometre): range within 0.1 mm; sine of the elevation within
`10^-7 / ρ`; and, when the satellite is at least `m` (ten centimetres or more) off the vertical of the observer, azimuth within `2 * 10^-8 / m` radians of the exact
one, up to a whole turn. -/
theorem C83_look_angles (hL : Libm.Faithful) (g : Geodedic F64) (v : Vec3 F64) (h : Station g) (hv : v.Bounded) (ρ : ℝ) (hρ : 1 ≤ ρ)
    (hr : ρ ≤ (ecf_to_look_angles g.exact v.exact).range) :
    Close (ecf_to_look_angles g v).range (ecf_to_look_angles g.exact v.exact).range (1 / 10 ^ 7) ∧
    (ecf_to_look_angles g v).elevation.Fin ∧
    |Real.sin (ecf_to_look_angles g v).elevation.val - Real.sin (ecf_to_look_angles g.exact v.exact).elevation| ≤ 1 / 10 ^ 7 / ρ + 1 / 10 ^ 14 ∧
    (ecf_to_look_angles g v).azimuth.Fin ∧
    ∀ m : ℝ, 1 / 10 ^ 4 ≤ m → m ^ 2 ≤ (topocentric g.exact v.exact).top_s ^ 2 + (topocentric g.exact v.exact).top_e ^ 2 →
      ∃ k : ℤ, |(ecf_to_look_angles g v).azimuth.val - ((ecf_to_look_angles g.exact v.exact).azimuth + k * (2 * Real.pi))| ≤ 2 / 10 ^ 8 / m + 1 / 10 ^ 14 := by
  have hR := range_near hL h hv
  obtain ⟨a1, a2, a3⟩ := C83_topocentric hL g v h hv
  have hρ0 : (0 : ℝ) < ρ := lt_of_lt_of_le one_pos hρ
  set tc := topocentric g v with htc
  set tx := topocentric g.exact v.exact with htx
  set Rx := (ecf_to_look_angles g.exact v.exact).range with hRx
  have hRx0 : 0 < Rx := lt_of_lt_of_le hρ0 hr
  have eRx : Rx = Real.sqrt (tx.top_s * tx.top_s + tx.top_e * tx.top_e + tx.top_z * tx.top_z) := rfl
  have eRx2 : Rx ^ 2 = tx.top_s * tx.top_s + tx.top_e * tx.top_e + tx.top_z * tx.top_z := by
    rw [eRx]; exact Real.sq_sqrt (by nlinarith [mul_self_nonneg tx.top_s, mul_self_nonneg tx.top_e, mul_self_nonneg tx.top_z])
  have hzR : |tx.top_z| ≤ Rx := by
    rw [eRx]; exact Real.abs_le_sqrt (by nlinarith [mul_self_nonneg tx.top_s, mul_self_nonneg tx.top_e])
  -- elevation
  have hq : |tx.top_z / Rx| ≤ 1 := by rw [abs_div, abs_of_pos hRx0, div_le_one hRx0]; exact hzR
  have qz : Q tc.top_z tx.top_z (|tx.top_z|) (3 / 10 ^ 9) := ⟨a3.1, a3.2, le_rfl⟩
  have qR : Q (ecf_to_look_angles g v).range Rx Rx (4 / 10 ^ 8) := ⟨hR.1, hR.2, by rw [abs_of_pos hRx0]⟩
  have dv1 : (3 / 10 ^ 9 + 1 * (4 / 10 ^ 8)) / (ρ - 4 / 10 ^ 8) ≤ 9 / 10 ^ 8 / ρ := by
    rw [div_le_div_iff₀ (by norm_num at *; linarith) hρ0]
    norm_num at *; linarith
  have dv2 : 9 / 10 ^ 8 / ρ ≤ 9 / 10 ^ 8 := div_le_self (by norm_num) hρ
  have qd := qz.div qR ρ 1 (by rw [abs_of_pos hRx0]; exact hr) hq (by norm_num at *; linarith) (by norm_num at dv1 dv2 ⊢; linarith)
  have big : 1 / 2 ^ 511 ≤ |tc.top_s.val| ∨ 1 / 2 ^ 511 ≤ |tc.top_e.val| ∨ 1 / 2 ^ 511 ≤ |tc.top_z.val| := by
    have ht : (1 : ℝ) / 2 ^ 511 ≤ 1 / 2 ^ 10 := one_div_le_one_div_of_le (by positivity) (pow_le_pow_right₀ (by norm_num) (by norm_num))
    by_contra hc
    rw [not_or, not_or, not_le, not_le, not_le] at hc
    obtain ⟨c1, c2, c3⟩ := hc
    have tr := norm_triangle tx.top_s tx.top_e tx.top_z 0 0 0
    have z0 : Real.sqrt ((0 : ℝ) ^ 2 + 0 ^ 2 + 0 ^ 2) = 0 := by norm_num
    rw [z0, ← sq_abs (tx.top_s), sq_abs, sub_zero, sub_zero, sub_zero, sub_zero] at tr
    have e : Real.sqrt (tx.top_s ^ 2 + tx.top_e ^ 2 + tx.top_z ^ 2) = Rx := by rw [eRx, sq, sq, sq]
    rw [e, abs_of_pos hRx0] at tr
    have k : ∀ {p q : ℝ}, |p - q| ≤ 3 / 10 ^ 9 → |p| < 1 / 2 ^ 511 → |q| ≤ 1 / 2 ^ 10 + 3 / 10 ^ 9 := fun {p q} h1 h2 => by
      have e : q = p - (p - q) := by ring
      rw [e]; refine (abs_sub _ _).trans ?_; linarith
    have k1 := k a1.2 c1
    have k2 := k a2.2 c2
    have k3 := k a3.2 c3
    clear ht c1 c2 c3
    norm_num at k1 k2 k3 tr hr hρ
    linarith
  obtain ⟨hAf, hA1, hA2⟩ := asin_argument_unit tc a1.1 a2.1 a3.1 big
  have hA : (topocentric_to_look_angles tc).elevation = Libm.asin (tc.top_z / (ecf_to_look_angles g v).range) := rfl
  change (tc.top_z / (ecf_to_look_angles g v).range).Fin at hAf
  change -1 ≤ (tc.top_z / (ecf_to_look_angles g v).range).val at hA1
  change (tc.top_z / (ecf_to_look_angles g v).range).val ≤ 1 at hA2
  have qe := qd.err
  generalize tc.top_z / (ecf_to_look_angles g v).range = A at *
  obtain ⟨el1, el2, el3⟩ := hL.asin_fin A hAf (abs_le.mpr ⟨hA1, hA2⟩)
  have hel : (ecf_to_look_angles g v).elevation = Libm.asin A := hA
  refine ⟨⟨hR.1, hR.2.trans (by norm_num)⟩, by rw [hel]; exact el1, ?_, ?_⟩
  · have ex : (ecf_to_look_angles g.exact v.exact).elevation = Real.arcsin (tx.top_z / Rx) := rfl
    rw [ex, Real.sin_arcsin (abs_le.mp hq).1 (abs_le.mp hq).2, hel]
    have s1 := sin_lipschitz (Libm.asin A).val (Real.arcsin A.val)
    rw [Real.sin_arcsin hA1 hA2] at s1
    have s2 := abs_le.mp (s1.trans el3)
    have qe' := abs_le.mp qe
    rw [abs_le]
    generalize Real.sin (Libm.asin A).val = w at *
    generalize tx.top_z / Rx = w' at *
    have h11 : (9 : ℝ) / 10 ^ 8 / ρ * (1 + 1 / 2 ^ 53) ≤ 1 / 10 ^ 7 / ρ := by
      rw [div_mul_eq_mul_div]; exact div_le_div_of_nonneg_right (by norm_num) hρ0.le
    norm_num at s2 qe' dv1 dv2 h11 ⊢
    constructor <;> linarith [s2.1, s2.2, qe'.1, qe'.2]
  · have nE := neg_val a2.1
    obtain ⟨t1, t2⟩ := hL.atan2_fin (F64.neg tc.top_e) tc.top_s nE.1 a1.1
    have hP := pi_val
    have t2' := abs_le.mp t2
    have qp := q_pi
    have hb : |(Libm.atan2 (F64.neg tc.top_e) tc.top_s).val + F64.pi.val| ≤ 6.4 := by
      have := P_bounds
      rw [abs_le]; constructor <;> norm_num at * <;> linarith [t2'.1, t2'.2]
    obtain ⟨f1, f2⟩ := (add_rounds t1 hP.1).near hb (by norm_num)
    have az : (ecf_to_look_angles g v).azimuth = F64.add (Libm.atan2 (F64.neg tc.top_e) tc.top_s) F64.pi := rfl
    rw [az]
    refine ⟨f1, fun m hm hm2 => ?_⟩
    have hm0 : (0 : ℝ) < m := lt_of_lt_of_le (by norm_num) hm
    have hne : (F64.neg tc.top_e).val ≠ 0 ∨ tc.top_s.val ≠ 0 := by
      by_contra hc
      rw [not_or, not_not, not_not, nE.2, neg_eq_zero] at hc
      have h1 := a1.2
      have h2 := a2.2
      rw [hc.2, zero_sub, abs_neg] at h1
      rw [hc.1, zero_sub, abs_neg] at h2
      have s : ∀ {w : ℝ}, |w| ≤ 3 / 10 ^ 9 → w ^ 2 ≤ (3 / 10 ^ 9) ^ 2 := fun {w} hw => sq_le_sq' (by linarith [(abs_le.mp hw).1]) (abs_le.mp hw).2
      have h3 := s h1
      have h4 := s h2
      have h5 : (1 / 10 ^ 4 : ℝ) ^ 2 ≤ m ^ 2 := pow_le_pow_left₀ (by norm_num) hm 2
      norm_num at h3 h4 h5; linarith
    obtain ⟨j, hj⟩ := hL.atan2_acc (F64.neg tc.top_e) tc.top_s nE.1 a1.1 hne
    obtain ⟨k, hk⟩ := angle_near (x := tc.top_s.val) (y := (F64.neg tc.top_e).val) (a := tx.top_s) (b := -tx.top_e) (ε := 3 / 10 ^ 9) (m := m)
      a1.2 (by rw [nE.2]; have := a2.2; rw [← abs_neg]; rw [show -(-tc.top_e.val - -tx.top_e) = tc.top_e.val - tx.top_e by ring]; exact this) hm0
      (by rw [neg_sq]; exact hm2) (by norm_num at *; linarith)
    refine ⟨j + k, ?_⟩
    have ex : (ecf_to_look_angles g.exact v.exact).azimuth = atan2R (-tx.top_e) tx.top_s + Real.pi := rfl
    rw [ex]
    have pe := qp.err
    have pe' : |F64.pi.val - Real.pi| ≤ 13 / 10 ^ 17 := pe
    push_cast
    have d : 4 * (3 / 10 ^ 9) / m ≤ 2 / 10 ^ 8 / m := div_le_div_of_nonneg_right (by norm_num) hm0.le
    generalize 4 * (3 / 10 ^ 9) / m = e1 at *
    generalize 2 / 10 ^ 8 / m = e2 at *
    rw [abs_le] at *
    generalize (Libm.atan2 (F64.neg tc.top_e) tc.top_s).val = α at *
    generalize atan2R (F64.neg tc.top_e).val tc.top_s.val = β at *
    generalize atan2R (-tx.top_e) tx.top_s = γ at *
    rw [add_mul]
    generalize (j : ℝ) * (2 * Real.pi) = J at *
    generalize (k : ℝ) * (2 * Real.pi) = K at *
    norm_num at f2 hj pe' ⊢
    constructor <;> linarith [f2.1, f2.2, hj.1, hj.2, hk.1, hk.2, pe'.1, pe'.2]

/-! ## Doppler factor -/

/-- distance of two points known to within a tenth of a micrometre -/
theorem vrange_near (hL : Libm.Faithful) {a b : Vec3 F64} {w u : Vec3 ℝ} (ha : a.Close w (1 / 10 ^ 10)) (hb : b.Close u (1 / 10 ^ 10))
    (hax : |w.x| ≤ 110000) (hay : |w.y| ≤ 110000) (haz : |w.z| ≤ 110000) (hbx : |u.x| ≤ 100000) (hby : |u.y| ≤ 100000) (hbz : |u.z| ≤ 100000) :
    Q (a.range b) (w.range u) 400000 (2 / 10 ^ 8) := by
  have one : ∀ {p q : F64} {x y : ℝ}, Close p x (1 / 10 ^ 10) → Close q y (1 / 10 ^ 10) → |x| ≤ 110000 → |y| ≤ 100000 →
      |(p - q).val| ≤ 2 ^ 20 ∧ |(p - q).val - (x - y)| ≤ 3 / 10 ^ 10 ∧ (Arith.powf (p - q) (2.0 : F64)).Fin ∧ 0 ≤ (Arith.powf (p - q) (2.0 : F64)).val ∧
      |(Arith.powf (p - q) (2.0 : F64)).val - (p - q).val ^ 2| ≤ (p - q).val ^ 2 / 2 ^ 47 + 1 / 2 ^ 150 ∧ |x - y| ≤ 210000 := by
    intro p q x y hp hq hx hy
    have q1 : Q p x 110000 (1 / 10 ^ 10) := ⟨hp.1, hp.2, hx⟩
    have q2 : Q q y 100000 (1 / 10 ^ 10) := ⟨hq.1, hq.2, hy⟩
    have q3 := (q1.sub q2).mono (A' := 210000) (δ' := 3 / 10 ^ 10) (by norm_num) (by norm_num)
    have hv := q3.val_le
    have hv20 : |(p - q).val| ≤ 2 ^ 20 := hv.trans (by norm_num)
    obtain ⟨f1, f2, f3⟩ := hL.powf_two (p - q) q3.fin (hv20.trans (pow_le_pow_right₀ (by norm_num) (by norm_num)))
    refine ⟨hv20, q3.err, f1, f2, f3.trans ?_, q3.mag⟩
    have e4 : (1 : ℝ) / 2 ^ 900 ≤ 1 / 2 ^ 150 := one_div_le_one_div_of_le (by positivity) (pow_le_pow_right₀ (by norm_num) (by norm_num))
    have e5 : (p - q).val ^ 2 / 2 ^ 48 ≤ (p - q).val ^ 2 / 2 ^ 47 := div_le_div_of_nonneg_left (sq_nonneg _) (by norm_num) (by norm_num)
    linarith
  obtain ⟨x1, x2, x3, x4, x5, x6⟩ := one ha.1 hb.1 hax hbx
  obtain ⟨y1, y2, y3, y4, y5, y6⟩ := one ha.2.1 hb.2.1 hay hby
  obtain ⟨z1, z2, z3, z4, z5, z6⟩ := one ha.2.2 hb.2.2 haz hbz
  obtain ⟨r1, r2⟩ := norm_near x3 y3 z3 x4 y4 z4 x5 y5 z5 x1 y1 z1
  have tr := norm_triangle (a.x - b.x).val (a.y - b.y).val (a.z - b.z).val (w.x - u.x) (w.y - u.y) (w.z - u.z)
  have er : w.range u = Real.sqrt ((w.x - u.x) ^ 2 + (w.y - u.y) ^ 2 + (w.z - u.z) ^ 2) := by
    rw [← rpow_2, ← rpow_2, ← rpow_2]; rfl
  have hR : Real.sqrt ((w.x - u.x) ^ 2 + (w.y - u.y) ^ 2 + (w.z - u.z) ^ 2) ≤ 400000 := by
    refine Real.sqrt_le_iff.mpr ⟨by norm_num, ?_⟩
    have s : ∀ {w : ℝ}, |w| ≤ 210000 → w ^ 2 ≤ 210000 ^ 2 := fun {w} hw => sq_le_sq' (by linarith [(abs_le.mp hw).1]) (abs_le.mp hw).2
    have := s x6; have := s y6; have := s z6
    norm_num at *; linarith
  refine ⟨r1, ?_, ?_⟩
  · have eF : (a.range b).val = (Arith.sqrt (Arith.powf (a.x - b.x) (2.0 : F64) + Arith.powf (a.y - b.y) (2.0 : F64) + Arith.powf (a.z - b.z) (2.0 : F64))).val := rfl
    rw [er, eF]
    generalize (Arith.sqrt (Arith.powf (a.x - b.x) (2.0 : F64) + Arith.powf (a.y - b.y) (2.0 : F64) + Arith.powf (a.z - b.z) (2.0 : F64))).val = V at *
    generalize Real.sqrt ((a.x - b.x).val ^ 2 + (a.y - b.y).val ^ 2 + (a.z - b.z).val ^ 2) = R at *
    generalize Real.sqrt ((w.x - u.x) ^ 2 + (w.y - u.y) ^ 2 + (w.z - u.z) ^ 2) = R' at *
    rw [abs_le] at r2 tr ⊢
    norm_num at r2 tr x2 y2 z2 hR ⊢
    constructor <;> linarith [r2.1, r2.2, tr.1, tr.2]
  · rw [er, abs_of_nonneg (Real.sqrt_nonneg _)]; exact hR

/-- magnitude, as the Doppler factor computes it -/
theorem F64.Q.magnitude {x : F64} {a A δ : ℝ} (h : Q x a A δ) (hb : A + δ ≤ 2 ^ 100 := by norm_num) :
    Q (x * sign x) (a * sign a) A (δ + ((A + δ) / 2 ^ 53 + 1 / 2 ^ 153)) := by
  have e1 : a * sign a = |a| := by
    unfold sign
    rw [real_fle]
    by_cases hc : 0 ≤ a
    · rw [if_pos (by rw [decide_eq_true_eq]; norm_num; exact hc), abs_of_nonneg hc]; norm_num
    · rw [if_neg (by rw [decide_eq_true_eq]; norm_num; exact not_le.mp hc), abs_of_neg (not_le.mp hc)]; norm_num
  have e2 : (sign x).Fin ∧ x.val * (sign x).val = |x.val| := by
    obtain ⟨z1, z2⟩ := sci_int (m := 0) (s := true) (k := 1) 0 (by norm_num) (by norm_num)
    obtain ⟨o1, o2⟩ := sci_int (m := 10) (s := true) (k := 1) 1 (by norm_num) (by norm_num)
    have o3 := neg_val o1
    unfold sign
    by_cases hc : (x ≥. (0.0 : F64)) = true
    · rw [if_pos hc]
      have hc' : F64.fle (F64.sci 0 true 1) x = true := hc
      rw [fle_fin z1 h.fin, z2] at hc'
      push_cast at hc'
      refine ⟨o1, ?_⟩
      show x.val * (F64.sci 10 true 1).val = _
      rw [o2, abs_of_nonneg hc']; push_cast; ring
    · rw [if_neg hc]
      have hc' : ¬ F64.fle (F64.sci 0 true 1) x = true := hc
      rw [fle_fin z1 h.fin, z2, not_le] at hc'
      push_cast at hc'
      refine ⟨o3.1, ?_⟩
      show x.val * (F64.neg (F64.sci 10 true 1)).val = _
      rw [o3.2, o2, abs_of_neg hc']; push_cast; ring
  refine Q.mul' h.fin e2.1 ?_ (by rw [e1, abs_abs]; exact h.mag) hb
  rw [e1, e2.2]
  exact (abs_abs_sub_abs_le _ _).trans h.err

/-- **C83, Doppler factor.** Positions up to 100000 km and velocities up to 1000 km/s in each component: the factor is within `10^-12` of the exact one. -/
theorem C83_doppler (hL : Libm.Faithful) (loc pos vel : Vec3 F64) (hl : loc.Bounded) (hp : pos.Bounded)
    (hv : Within vel.x 1000 ∧ Within vel.y 1000 ∧ Within vel.z 1000) :
    Close (doppler_factor loc pos vel) (doppler_factor loc.exact pos.exact vel.exact) (1 / 10 ^ 12) := by
  have z : ∀ {p : F64}, p.Fin → Close p p.val (1 / 10 ^ 10) := fun {p} h => ⟨h, by rw [sub_self, abs_zero]; norm_num⟩
  have ex : ∀ {v : Vec3 F64}, v.Bounded → v.Close v.exact (1 / 10 ^ 10) := fun h => ⟨z h.1.1, z h.2.1.1, z h.2.2.1⟩
  have nx : ∀ {p q : F64}, Within p 100000 → Within q 1000 → Q (p + q) (p.val + q.val) 101000 (1 / 10 ^ 10) := fun h1 h2 =>
    (h1.q.add h2.q).mono (by norm_num) (by norm_num)
  have n1 := nx hp.1 hv.1
  have n2 := nx hp.2.1 hv.2.1
  have n3 := nx hp.2.2 hv.2.2
  have r0 := vrange_near hL (ex hp) (ex hl) (hp.1.2.trans (by norm_num)) (hp.2.1.2.trans (by norm_num)) (hp.2.2.2.trans (by norm_num)) hl.1.2 hl.2.1.2 hl.2.2.2
  have r1 := vrange_near hL (a := pos.add vel) (w := pos.exact.add vel.exact) ⟨n1.close le_rfl, n2.close le_rfl, n3.close le_rfl⟩ (ex hl)
    (n1.mag.trans (by norm_num)) (n2.mag.trans (by norm_num)) (n3.mag.trans (by norm_num)) hl.1.2 hl.2.1.2 hl.2.2.2
  have d := (r1.sub r0).mono (A' := 800000) (δ' := 5 / 10 ^ 8) (by norm_num) (by norm_num)
  have m := (F64.Q.magnitude d).mono (A' := 800000) (δ' := 6 / 10 ^ 8) (by norm_num) (by norm_num)
  have c := (Q.sci 299792458 true 3 300000 (by norm_num)).mono (A' := 300000) (δ' := 4 / 10 ^ 11) (by norm_num) (by norm_num)
  have q := (m.div c 299792 3 (by norm_num) (quot_le (m := 299792) m.mag (by norm_num) (by norm_num) (by norm_num))).mono (A' := 3) (δ' := 5 / 10 ^ 13) (by norm_num) (by norm_num)
  have o := (Q.int 10 true 1 1 (by norm_num)).mono (A' := 1) (δ' := 0) (by norm_num) le_rfl
  exact (o.add q).close (by norm_num)

/-! ## An instance -/

/-- an observer at latitude 0.75 rad and longitude 0, 500 m above the ellipsoid, and a satellite 32768 km along the first axis -/
theorem C83_sample (hL : Libm.Faithful) :
    Station (⟨0.0, 0.75, 0.5⟩ : Geodedic F64) ∧ (⟨32768.0, 0.0, 0.0⟩ : Vec3 F64).Bounded ∧
    1000 ≤ (ecf_to_look_angles (⟨0.0, 0.75, 0.5⟩ : Geodedic F64).exact (⟨32768.0, 0.0, 0.0⟩ : Vec3 F64).exact).range ∧
    (ecf_to_look_angles (⟨0.0, 0.75, 0.5⟩ : Geodedic F64) ⟨32768.0, 0.0, 0.0⟩).elevation.Fin := by
  have w1 := dyadic_within (m := 0) (k := 1) 0 0 0 (B := 100000) (by norm_num) (by norm_num) (by norm_num) (by norm_num) (by norm_num)
  have w2 := dyadic_within (m := 75) (k := 2) (3 / 4) 3 2 (B := 1) (by norm_num) (by norm_num) (by norm_num) (by norm_num) (by norm_num [abs_of_pos])
  have w3 := dyadic_within (m := 5) (k := 1) (1 / 2) 1 1 (B := 10000) (by norm_num) (by norm_num) (by norm_num) (by norm_num) (by norm_num [abs_of_pos])
  have w4 := dyadic_within (m := 327680) (k := 1) 32768 32768 0 (B := 100000) (by norm_num) (by norm_num) (by norm_num) (by norm_num) (by norm_num [abs_of_pos])
  have hS : Station (⟨0.0, 0.75, 0.5⟩ : Geodedic F64) := ⟨w2.1.1, w1.1.1, w3.1⟩
  have hB : (⟨32768.0, 0.0, 0.0⟩ : Vec3 F64).Bounded := ⟨w4.1, w1.1, w1.1⟩
  have hr : 1000 ≤ (ecf_to_look_angles (⟨0.0, 0.75, 0.5⟩ : Geodedic F64).exact (⟨32768.0, 0.0, 0.0⟩ : Vec3 F64).exact).range := by
    rw [(C43_ecf_look_angles _ _).1]
    have hx := (abs_le.mp (u_gx hL hS).mag).2
    refine Real.le_sqrt_of_sq_le ?_
    have e : ∀ u w : Vec3 ℝ, (1000 : ℝ) ≤ u.x - w.x → (1000 : ℝ) ^ 2 ≤ Spec.dot (Spec.sub u w) (Spec.sub u w) := by
      intro u w h
      show _ ≤ (u.x - w.x) * (u.x - w.x) + (u.y - w.y) * (u.y - w.y) + (u.z - w.z) * (u.z - w.z)
      nlinarith [mul_self_nonneg (u.y - w.y), mul_self_nonneg (u.z - w.z)]
    refine e _ _ ?_
    have ex : (⟨32768.0, 0.0, 0.0⟩ : Vec3 F64).exact.x = 32768 := w4.2
    rw [ex]; linarith
  exact ⟨hS, hB, hr, (C83_look_angles hL _ _ hS hB 1000 (by norm_num) hr).2.1⟩

end
end Sat
