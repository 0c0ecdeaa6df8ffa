import Verif.Props.F64Nan
import Verif.Props.F64Geodetic
/-!
# C17 in IEEE-754 arithmetic: when all six components are finite
-/

namespace Sat
open F64

namespace F64

theorem Bd.add' {x y : F64} {a b : ℕ} (hx : Bd x a) (hy : Bd y b) (h : max a b + 1 ≤ 970) : Bd (F64.add x y) (max a b + 1) :=
  (hx.mono (le_max_left _ _)).add (hy.mono (le_max_right _ _)) h

theorem Bd.sub' {x y : F64} {a b : ℕ} (hx : Bd x a) (hy : Bd y b) (h : max a b + 1 ≤ 970) : Bd (F64.sub x y) (max a b + 1) :=
  (hx.mono (le_max_left _ _)).sub (hy.mono (le_max_right _ _)) h

theorem Bd.div' {x y : F64} {a j : ℕ} (hx : Bd x a) (hy : y.Fin) (h1 : 1 / 2 ^ j ≤ |y.val|) (h : a + j ≤ 970) : Bd (F64.div x y) (a + j) := by
  have hj : (0 : ℝ) < 1 / 2 ^ j := by positivity
  have hp : 0 < |y.val| := lt_of_lt_of_le hj h1
  refine (div_rounds hx.1 hy (abs_pos.mp hp)).pow h ?_
  rw [abs_div, div_le_iff₀ hp, pow_add]
  have h2 : (2 : ℝ) ^ a * 2 ^ j * (1 / 2 ^ j) = 2 ^ a := by rw [mul_assoc, mul_one_div_cancel (by positivity), mul_one]
  have h3 : (2 : ℝ) ^ a * 2 ^ j * (1 / 2 ^ j) ≤ 2 ^ a * 2 ^ j * |y.val| := mul_le_mul_of_nonneg_left h1 (by positivity)
  linarith [hx.2]

theorem Bd.sqrt {x : F64} {a : ℕ} (hx : Bd x a) (h0 : 0 ≤ x.val) (h : a ≤ 970) : Bd (F64.sqrt x) a ∧ 0 ≤ (F64.sqrt x).val := by
  have hr := sqrt_rounds hx.1 h0
  have hb : Bd (F64.sqrt x) a := by
    refine hr.pow h ?_
    rw [abs_of_nonneg (Real.sqrt_nonneg _), Real.sqrt_le_left (by positivity)]
    have h1 : (1 : ℝ) ≤ 2 ^ a := one_le_pow₀ (by norm_num)
    have := le_of_abs_le hx.2
    nlinarith
  exact ⟨hb, hr.ge hb.1 (by simpa using isRep_int 0 (by norm_num)) (Real.sqrt_nonneg _)⟩

/-- a product of numbers that are not small is not small -/
theorem mul_ge {x y : F64} {a b : ℕ} (hf : (F64.mul x y).Fin) (hx : x.Fin) (hy : y.Fin) (h1 : 1 / 2 ^ a ≤ x.val) (h2 : 1 / 2 ^ b ≤ y.val)
    (h : a + b ≤ 1074) : 1 / 2 ^ (a + b) ≤ (F64.mul x y).val := by
  refine (mul_rounds hx hy).ge hf (isRep_pow_neg _ h) ?_
  have := mul_le_mul h1 h2 (by positivity) (le_trans (by positivity) h1)
  rwa [div_mul_div_comm, one_mul, ← pow_add] at this

end F64

section
variable [Libm]

theorem bd_sin (hL : Libm.Faithful) {x : F64} (hx : x.Fin) : Bd (Libm.sin x) 0 := by
  obtain ⟨h1, h2, -⟩ := hL.sin_fin x hx
  exact ⟨h1, by simpa using h2⟩

theorem bd_cos (hL : Libm.Faithful) {x : F64} (hx : x.Fin) : Bd (Libm.cos x) 0 := by
  obtain ⟨h1, h2, -⟩ := hL.cos_fin x hx
  exact ⟨h1, by simpa using h2⟩

theorem bd_rem {x : F64} (hx : x.Fin) : Bd (F64.rem x TWO_PI) 3 := by
  obtain ⟨t1, t2⟩ := two_pi_eq
  obtain ⟨p1, p2⟩ := P_bounds
  obtain ⟨h1, h2⟩ := rem_val hx t1 (by rw [t2]; linarith)
  refine ⟨h1, ?_⟩
  rw [h2, t2]
  have := remR_lt (y := 2 * F64.pi.val) (by linarith) x.val
  linarith

/-- A sine and a cosine as the library delivers them. -/
structure GoodSC (s c : F64) : Prop where
  sin : Bd s 0
  cos : Bd c 0
  sq : s.val ^ 2 + c.val ^ 2 ≤ 1 + 1 / 2 ^ 46

theorem goodSC (hL : Libm.Faithful) {E : F64} (hE : E.Fin) : GoodSC (Libm.sin E) (Libm.cos E) := by
  refine ⟨bd_sin hL hE, bd_cos hL hE, ?_⟩
  obtain ⟨-, h2, h3⟩ := hL.sin_fin E hE
  obtain ⟨-, h5, h6⟩ := hL.cos_fin E hE
  have key : ∀ a b : ℝ, |a| ≤ 1 → |b| ≤ 1 → |a - b| ≤ 1 / 2 ^ 48 → a ^ 2 ≤ b ^ 2 + 2 / 2 ^ 48 := by
    intro a b ha hb hab
    have h : (a - b) * (a + b) ≤ 1 / 2 ^ 48 * 2 := by
      refine le_trans (le_abs_self _) ?_
      rw [abs_mul]
      exact mul_le_mul hab (le_trans (abs_add_le a b) (by linarith)) (abs_nonneg _) (by positivity)
    nlinarith
  have h7 := key _ _ h2 (Real.abs_sin_le_one _) h3
  have h8 := key _ _ h5 (Real.abs_cos_le_one _) h6
  have h9 := Real.sin_sq_add_cos_sq E.val
  have : (2 : ℝ) / 2 ^ 48 + 2 / 2 ^ 48 = 1 / 2 ^ 46 := by norm_num
  linarith

omit [Libm] in
theorem bd_one : Bd (sci 10 true 1) 0 := bd_sci _ _ _ _ (by norm_num) (by norm_num)

/-- An eccentricity vector inside the unit circle by a margin. -/
structure Inside (ax ay : F64) : Prop where
  x : Bd ax 0
  y : Bd ay 0
  sq : ax.val ^ 2 + ay.val ^ 2 ≤ 1 - 1 / 2 ^ 40

omit [Libm] in
theorem inside_dot {ax ay s c : F64} (hi : Inside ax ay) (hg : GoodSC s c) : |ax.val * c.val + ay.val * s.val| ≤ 1 - 31 / 2 ^ 46 := by
  have h1 := hi.sq
  have h2 := hg.sq
  generalize ax.val = x at *
  generalize ay.val = y at *
  generalize s.val = s at *
  generalize c.val = c at *
  have cs : (x * c + y * s) ^ 2 ≤ (x ^ 2 + y ^ 2) * (s ^ 2 + c ^ 2) := by nlinarith [sq_nonneg (x * s - y * c)]
  refine abs_le_of_sq_le_sq ?_ (by norm_num)
  refine le_trans cs (le_trans (mul_le_mul h1 h2 (by positivity) (by norm_num)) ?_)
  norm_num

omit [Libm] in
theorem bd0_mul {x y : F64} (hx : Bd x 0) (hy : Bd y 0) : Bd (F64.mul x y) 0 ∧ |(F64.mul x y).val - x.val * y.val| ≤ 1 / 2 ^ 53 := by
  have h := hx.mul hy (by norm_num)
  refine ⟨h, ?_⟩
  refine (mul_rounds hx.1 hy.1).err_le h.1 (B := 1) (by norm_num) ?_
  rw [abs_mul]
  have a := hx.2; have b := hy.2
  simp only [pow_zero] at a b
  calc _ ≤ (1 : ℝ) * 1 := mul_le_mul a b (abs_nonneg _) (by norm_num)
    _ = 1 := one_mul 1

omit [Libm] in
/-- the denominator of the Newton step -/
theorem den_newton {ax ay s c : F64} (hi : Inside ax ay) (hg : GoodSC s c) :
    (F64.sub (F64.sub (sci 10 true 1) (F64.mul c ax)) (F64.mul s ay)).Fin ∧
      1 / 2 ^ 42 ≤ (F64.sub (F64.sub (sci 10 true 1) (F64.mul c ax)) (F64.mul s ay)).val := by
  obtain ⟨m1, e1⟩ := bd0_mul hg.cos hi.x
  obtain ⟨m2, e2⟩ := bd0_mul hg.sin hi.y
  have hd := abs_le.mp (inside_dot hi hg)
  have o : (sci 10 true 1).val = 1 := lit_one.2
  have d1 := bd_one.sub m1 (by norm_num)
  have r1 := (sub_rounds bd_one.1 m1.1).err_le d1.1 (B := 2) (by norm_num) (by
    have a := abs_le.mp m1.2; simp only [pow_zero] at a; rw [o, abs_le]; constructor <;> linarith)
  have d2 := d1.sub' m2 (by decide)
  have r2 := (sub_rounds d1.1 m2.1).err_le d2.1 (B := 4) (by norm_num) (by
    have a := abs_le.mp m2.2; have b := abs_le.mp d1.2; simp only [pow_zero] at a; norm_num at b; rw [abs_le]; constructor <;> linarith)
  refine ⟨d2.1, ?_⟩
  rw [o] at r1
  have r1 := abs_le.mp r1; have r2 := abs_le.mp r2; have e1 := abs_le.mp e1; have e2 := abs_le.mp e2
  have q : (1 : ℝ) - (1 - 31 / 2 ^ 46) - 1 / 2 ^ 53 - 1 / 2 ^ 53 - 2 / 2 ^ 53 - 4 / 2 ^ 53 ≥ 1 / 2 ^ 42 := by norm_num
  linarith [mul_comm c.val ax.val, mul_comm s.val ay.val]

omit [Libm] in
/-- the denominator `1 - e cos E` -/
theorem den_radius {ax ay s c : F64} (hi : Inside ax ay) (hg : GoodSC s c) :
    Bd (F64.sub (sci 10 true 1) (F64.add (F64.mul ax c) (F64.mul ay s))) 2 ∧
      1 / 2 ^ 42 ≤ (F64.sub (sci 10 true 1) (F64.add (F64.mul ax c) (F64.mul ay s))).val := by
  obtain ⟨m1, e1⟩ := bd0_mul hi.x hg.cos
  obtain ⟨m2, e2⟩ := bd0_mul hi.y hg.sin
  have hd := abs_le.mp (inside_dot hi hg)
  have o : (sci 10 true 1).val = 1 := lit_one.2
  have d1 := m1.add m2 (by norm_num)
  have a1 := abs_le.mp m1.2; have a2 := abs_le.mp m2.2
  simp only [pow_zero] at a1 a2
  have r1 := (add_rounds m1.1 m2.1).err_le d1.1 (B := 2) (by norm_num) (by rw [abs_le]; constructor <;> linarith)
  have d2 := bd_one.sub' d1 (by decide)
  have b := abs_le.mp d1.2
  norm_num at b
  have r2 := (sub_rounds bd_one.1 d1.1).err_le d2.1 (B := 4) (by norm_num) (by rw [o, abs_le]; constructor <;> linarith)
  refine ⟨d2, ?_⟩
  rw [o] at r2
  have r1 := abs_le.mp r1; have r2 := abs_le.mp r2; have e1 := abs_le.mp e1; have e2 := abs_le.mp e2
  have q : (1 : ℝ) - (1 - 31 / 2 ^ 46) - 1 / 2 ^ 53 - 1 / 2 ^ 53 - 2 / 2 ^ 53 - 4 / 2 ^ 53 ≥ 1 / 2 ^ 42 := by norm_num
  linarith

omit [Libm] in
/-- `1 - e²` of the eccentricity vector -/
theorem den_latus {ax ay : F64} (hi : Inside ax ay) :
    Bd (F64.sub (sci 10 true 1) (F64.add (F64.mul ax ax) (F64.mul ay ay))) 2 ∧
      1 / 2 ^ 41 ≤ (F64.sub (sci 10 true 1) (F64.add (F64.mul ax ax) (F64.mul ay ay))).val := by
  obtain ⟨m1, e1⟩ := bd0_mul hi.x hi.x
  obtain ⟨m2, e2⟩ := bd0_mul hi.y hi.y
  have hd := hi.sq
  have o : (sci 10 true 1).val = 1 := lit_one.2
  have d1 := m1.add m2 (by norm_num)
  have a1 := abs_le.mp m1.2; have a2 := abs_le.mp m2.2
  simp only [pow_zero] at a1 a2
  have r1 := (add_rounds m1.1 m2.1).err_le d1.1 (B := 2) (by norm_num) (by rw [abs_le]; constructor <;> linarith)
  have d2 := bd_one.sub' d1 (by decide)
  have b := abs_le.mp d1.2
  norm_num at b
  have r2 := (sub_rounds bd_one.1 d1.1).err_le d2.1 (B := 4) (by norm_num) (by rw [o, abs_le]; constructor <;> linarith)
  refine ⟨d2, ?_⟩
  rw [o] at r2
  have r1 := abs_le.mp r1; have r2 := abs_le.mp r2; have e1 := abs_le.mp e1; have e2 := abs_le.mp e2
  have q : (1 : ℝ) / 2 ^ 40 - 1 / 2 ^ 53 - 1 / 2 ^ 53 - 2 / 2 ^ 53 - 4 / 2 ^ 53 ≥ 1 / 2 ^ 41 := by norm_num
  linarith [pow_two ax.val, pow_two ay.val]

omit [Libm] in
theorem bd_95 : Bd (sci 95 true 2) 0 := bd_sci _ _ _ _ (by norm_num) (by norm_num)

omit [Libm] in
/-- a clamped Newton correction -/
theorem clamp_bd {raw : F64} (h : raw.Fin) :
    Bd (if fle (sci 95 true 2) (F64.abs raw) then (if flt (sci 0 true 1) raw then sci 95 true 2 else F64.neg (sci 95 true 2)) else raw) 0 := by
  split
  · split
    · exact bd_95
    · exact bd_95.neg
  · rename_i hc
    obtain ⟨a1, a2⟩ := abs_val h
    rw [fle_fin bd_95.1 a1, a2] at hc
    refine ⟨h, ?_⟩
    have := bd_95.2
    have h3 := le_abs_self (sci 95 true 2).val
    linarith [not_le.mp hc]

theorem newton_good (hL : Libm.Faithful) {U ax ay : F64} (hU : Bd U 3) (hi : Inside ax ay) :
    ∀ (n k : ℕ) (E d : F64) (sc : F64 × F64), 3 ≤ k → k + n ≤ 40 → Bd E k → GoodSC sc.1 sc.2 →
      GoodSC (Spec.newton U ax ay n E d sc).1 (Spec.newton U ax ay n E d sc).2 := by
  intro n
  induction n with
  | zero => intro k E d sc _ _ _ h; exact h
  | succ n ih =>
    intro k E d sc hk3 hk hE h
    unfold Spec.newton
    split
    · have hg := goodSC hL hE.1
      obtain ⟨dn1, dn2⟩ := den_newton hi hg
      have num : Bd (F64.sub (F64.add (F64.sub U (F64.mul ay (Libm.cos E))) (F64.mul ax (Libm.sin E))) E) (k + 3) := by
        have h1 := (hU.mono hk3).sub (((bd0_mul hi.y hg.cos).1).mono (Nat.zero_le k)) (by omega)
        have h2 := h1.add (((bd0_mul hi.x hg.sin).1).mono (Nat.zero_le _)) (by omega)
        exact h2.sub (hE.mono (by omega)) (by omega)
      have hraw := num.div' dn1 (by rw [abs_of_nonneg (le_trans (by positivity) dn2)]; exact dn2) (by omega)
      have hstep := clamp_bd hraw.1
      have hE' := hE.add (hstep.mono (Nat.zero_le k)) (by omega)
      exact ih (k + 1) _ _ _ (by omega) (by omega) hE' hg
    · exact h

/-- **Magnitudes.** What C17 asks of a record and a time: the coefficients the propagation reads are finite and at most `2^60`, the time at
most `2^40` minutes, the semi-major axis between `2^-20` and `2^40` earth radii, and the orbit is elliptic by a margin of
`2^-40`. -/
structure Moderate (s : Satrec F64) (t : F64) : Prop where
  time : Bd t 40
  coef : ∀ x ∈ [s.mo, s.mdot, s.argpo, s.argpdot, s.nodeo, s.nodedot, s.nodecf, s.omgcof, s.xmcof, s.eta, s.delmo, s.no, s.t2cof,
    s.t3cof, s.t4cof, s.t5cof], Bd x 60
  incl : Bd (Spec.incl s t) 60
  near : s.method = .N → ∀ x ∈ [s.aycof, s.xlcof, s.con41, s.x1mth2, s.x7thm1], Bd x 60
  axis : (Spec.semiMajor s t).Fin ∧ 1 / 2 ^ 20 ≤ (Spec.semiMajor s t).val ∧ (Spec.semiMajor s t).val ≤ 2 ^ 40
  ecc : (Spec.ecc s t).Fin ∧ 0 ≤ (Spec.ecc s t).val ∧ (Spec.ecc s t).val ≤ 1 - 1 / 2 ^ 40
  vector : (Spec.axn s t).val ^ 2 + (Spec.ayn s t).val ^ 2 ≤ 1 - 1 / 2 ^ 40

section
variable {s : Satrec F64} {t : F64}

theorem bd_angles (hL : Libm.Faithful) (h : Moderate s t) :
    Bd (Spec.anomaly s t) 246 ∧ Bd (Spec.perigee s t) 246 ∧ Bd (Spec.node s t) 141 ∧ Bd (Spec.dragL s t) 262 := by
  have c := h.coef
  simp only [List.mem_cons, List.not_mem_nil, or_false, forall_eq_or_imp, forall_eq] at c
  obtain ⟨c1, c2, c3, c4, c5, c6, c7, c8, c9, c10, c11, c12, c13, c14, c15, c16⟩ := c
  have tt := h.time
  have t2 := tt.mul tt (by decide)
  have t3 := t2.mul tt (by decide)
  have t4 := t3.mul tt (by decide)
  have g : Bd (Spec.anomalyGravity s t) 101 := c1.add' (c2.mul tt (by decide)) (by decide)
  have w := bd_one.add' (c10.mul (bd_cos hL g.1) (by decide)) (by decide)
  have www := (w.mul w (by decide)).mul w (by decide)
  have da : Bd (Spec.dragAngle s t) 245 :=
    ((c8.mul tt (by decide)).add' (c9.mul (www.sub' c11 (by decide)) (by decide)) (by decide)).mono (by decide)
  have pg := c3.add' (c4.mul tt (by decide)) (by decide)
  refine ⟨?_, ?_, ?_, ?_⟩
  · unfold Spec.anomaly
    split
    · exact g.mono (by decide)
    · exact (g.add' da (by decide)).mono (by decide)
  · unfold Spec.perigee
    split
    · exact pg.mono (by decide)
    · exact (pg.sub' da (by decide)).mono (by decide)
  · exact ((c5.add' (c6.mul tt (by decide)) (by decide)).add' (c7.mul t2 (by decide)) (by decide)).mono (by decide)
  · unfold Spec.dragL
    split
    · exact (c13.mul t2 (by decide)).mono (by decide)
    · exact (((c13.mul t2 (by decide)).add' (c14.mul t3 (by decide)) (by decide)).add'
        (t4.mul (c15.add' (tt.mul c16 (by decide)) (by decide)) (by decide)) (by decide)).mono (by decide)

theorem bd_reduced (hL : Libm.Faithful) (h : Moderate s t) :
    Bd (Spec.nodeR s t) 3 ∧ Bd (Spec.perigeeR s t) 3 ∧ Bd (Spec.anomalyR s t) 3 := by
  obtain ⟨a, p, n, l⟩ := bd_angles hL h
  have hno : Bd s.no 60 := h.coef _ (by simp)
  have h1 : Bd (Spec.nodeR s t) 3 := bd_rem n.1
  have h2 : Bd (Spec.perigeeR s t) 3 := bd_rem p.1
  have h3 := ((a.add' (hno.mul l (by decide)) (by decide)).add' p (by decide)).add' n (by decide)
  refine ⟨h1, h2, ?_⟩
  exact bd_rem (((bd_rem h3.1).sub' h2 (by decide)).sub' h1 (by decide)).1

theorem bd_invP (h : Moderate s t) : Bd (Spec.invP s t) 60 := by
  obtain ⟨a1, a2, a3⟩ := h.axis
  obtain ⟨e1, e2, e3⟩ := h.ecc
  have be : Bd (Spec.ecc s t) 0 := ⟨e1, by rw [abs_of_nonneg e2, pow_zero]; linarith [show (0 : ℝ) ≤ 1 / 2 ^ 40 by positivity]⟩
  obtain ⟨m1, -⟩ := bd0_mul be be
  have rep : IsRep (1 - 1 / 2 ^ 40 : ℝ) := by
    have := isRep_int_div (2 ^ 40 - 1) 40 (by norm_num) (by norm_num)
    convert this using 1
    norm_num
  have m2 : (F64.mul (Spec.ecc s t) (Spec.ecc s t)).val ≤ 1 - 1 / 2 ^ 40 :=
    (mul_rounds e1 e1).le m1.1 rep (by nlinarith)
  have d := bd_one.sub m1 (by decide)
  have d2 : 1 / 2 ^ 40 ≤ (F64.sub (sci 10 true 1) (F64.mul (Spec.ecc s t) (Spec.ecc s t))).val :=
    (sub_rounds bd_one.1 m1.1).ge d.1 (isRep_pow_neg 40 (by norm_num)) (by rw [lit_one.2]; linarith)
  have ba : Bd (Spec.semiMajor s t) 40 := ⟨a1, by rw [abs_of_nonneg (le_trans (by positivity) a2)]; exact a3⟩
  have f := ba.mul d (by decide)
  have g := mul_ge f.1 a1 d.1 a2 d2 (by decide)
  exact (bd_one.div' f.1 (by rw [abs_of_nonneg (le_trans (by positivity) g)]; exact g) (by decide)).mono (by decide)

omit [Libm] in
theorem j2_ge : (sci 108262998905 true 14).Fin ∧ 1 / 2 ^ 10 ≤ |(sci 108262998905 true 14).val| := by
  have hb : Bd (sci 108262998905 true 14) 0 := bd_sci _ _ _ _ (by norm_num) (by norm_num)
  have := (sci_rounds 108262998905 true 14).ge hb.1 (isRep_pow_neg 10 (by norm_num)) (by norm_num)
  exact ⟨hb.1, le_trans this (le_abs_self _)⟩

theorem bd_j3oj2 : Bd (J3OJ2 : F64) 10 := by
  have hb : Bd (sci 253215306 true 14) 0 := bd_sci _ _ _ _ (by norm_num) (by norm_num)
  exact (hb.neg).div' j2_ge.1 j2_ge.2 (by decide)

omit [Libm] in
theorem bd_xke : Bd (sci 7436685316871385 true 17) 0 ∧ 1 / 2 ^ 4 ≤ |(sci 7436685316871385 true 17).val| := by
  have hb : Bd (sci 7436685316871385 true 17) 0 := bd_sci _ _ _ _ (by norm_num) (by norm_num)
  have := (sci_rounds 7436685316871385 true 17).ge hb.1 (isRep_pow_neg 4 (by norm_num)) (by norm_num)
  exact ⟨hb, le_trans this (le_abs_self _)⟩

theorem bd_shape (hL : Libm.Faithful) (h : Moderate s t) :
    Bd (Spec.ayCoef s t) 60 ∧ Bd (Spec.xlCoef s t) 60 ∧ Bd (Spec.threeCos s t) 60 ∧ Bd (Spec.oneMinusCos s t) 60 ∧
      Bd (Spec.sevenCos s t) 60 := by
  have sn := bd_sin hL h.incl.1
  have cs := bd_cos hL h.incl.1
  have cc := cs.mul cs (by decide)
  have l3 : Bd (sci 30 true 1) 2 := bd_sci _ _ _ _ (by norm_num) (by norm_num)
  have l5 : Bd (sci 50 true 1) 3 := bd_sci _ _ _ _ (by norm_num) (by norm_num)
  have l7 : Bd (sci 70 true 1) 3 := bd_sci _ _ _ _ (by norm_num) (by norm_num)
  have l05 : Bd (sci 5 true 1) 0 := bd_sci _ _ _ _ (by norm_num) (by norm_num)
  have l25 : Bd (sci 25 true 2) 0 := bd_sci _ _ _ _ (by norm_num) (by norm_num)
  unfold Spec.ayCoef Spec.xlCoef Spec.threeCos Spec.oneMinusCos Spec.sevenCos
  rcases (method_cases s).symm with hm | hm
  · rw [if_pos hm, if_pos hm, if_pos hm, if_pos hm, if_pos hm]
    have num := ((l25.neg.mul bd_j3oj2 (by decide)).mul sn (by decide)).mul (l3.add' (l5.mul cs (by decide)) (by decide)) (by decide)
    have eps : Bd (sci 15 true 13) 0 := bd_sci _ _ _ _ (by norm_num) (by norm_num)
    have eps1 : 1 / 2 ^ 40 ≤ (sci 15 true 13).val :=
      (sci_rounds 15 true 13).ge eps.1 (isRep_pow_neg 40 (by norm_num)) (by norm_num)
    refine ⟨((l05.neg.mul bd_j3oj2 (by decide)).mul sn (by decide)).mono (by decide), ?_, ?_, ?_, ?_⟩
    · split
      · rename_i hc
        have s1 := cs.add bd_one (by decide)
        have s2 := bd_one.add cs (by decide)
        have hc : flt (sci 15 true 13) (F64.abs (F64.add (Libm.cos (Spec.incl s t)) (sci 10 true 1))) = true := hc
        obtain ⟨v1, v2⟩ := abs_val s1.1
        rw [flt_fin eps.1 v1, v2] at hc
        have low : (1 : ℝ) / 2 ^ 40 ≤ 1 + (Libm.cos (Spec.incl s t)).val := by
          by_contra hlt
          have hlt := not_le.mp hlt
          have c1 := abs_le.mp cs.2
          simp only [pow_zero] at c1
          have u1 := (add_rounds cs.1 bd_one.1).le s1.1 (isRep_pow_neg 40 (by norm_num)) (by rw [lit_one.2]; linarith)
          have u2 := (add_rounds cs.1 bd_one.1).ge s1.1 (by simpa using isRep_int 0 (by norm_num)) (a := 0) (by rw [lit_one.2]; linarith)
          rw [abs_of_nonneg u2] at hc
          linarith
        have d := (add_rounds bd_one.1 cs.1).ge s2.1 (isRep_pow_neg 40 (by norm_num)) (by rw [lit_one.2]; exact low)
        exact (num.div' s2.1 (le_trans d (le_abs_self _)) (by decide)).mono (by decide)
      · exact (num.div' eps.1 (le_trans eps1 (le_abs_self _)) (by decide)).mono (by decide)
    · exact ((l3.mul cc (by decide)).sub' bd_one (by decide)).mono (by decide)
    · exact (bd_one.sub' cc (by decide)).mono (by decide)
    · exact ((l7.mul cc (by decide)).sub' bd_one (by decide)).mono (by decide)
  · have hne : ¬ s.method = .D := by rw [hm]; decide
    rw [if_neg hne, if_neg hne, if_neg hne, if_neg hne, if_neg hne]
    have c := h.near hm
    simp only [List.mem_cons, List.not_mem_nil, or_false, forall_eq_or_imp, forall_eq] at c
    obtain ⟨c1, c2, c3, c4, c5⟩ := c
    exact ⟨c1, c2, c3, c4, c5⟩

theorem inside_vec (hL : Libm.Faithful) (h : Moderate s t) : Inside (Spec.axn s t) (Spec.ayn s t) := by
  obtain ⟨n, p, a⟩ := bd_reduced hL h
  obtain ⟨y, x, -, -, -⟩ := bd_shape hL h
  obtain ⟨e1, e2, e3⟩ := h.ecc
  have be : Bd (Spec.ecc s t) 0 := ⟨e1, by rw [abs_of_nonneg e2, pow_zero]; linarith [show (0 : ℝ) ≤ 1 / 2 ^ 40 by positivity]⟩
  have bx : Bd (Spec.axn s t) 0 := (be.mul (bd_cos hL p.1) (by decide)).mono (by decide)
  have by' : Bd (Spec.ayn s t) 121 := ((be.mul (bd_sin hL p.1) (by decide)).add' ((bd_invP h).mul y (by decide)) (by decide)).mono (by decide)
  refine ⟨bx, ⟨by'.1, ?_⟩, h.vector⟩
  rw [pow_zero]
  refine abs_le_of_sq_le_sq ?_ (by norm_num)
  have := h.vector
  nlinarith [sq_nonneg (Spec.axn s t).val, show (0 : ℝ) ≤ 1 / 2 ^ 40 by positivity]

theorem good_E (hL : Libm.Faithful) (h : Moderate s t) : GoodSC (Spec.sinCosE s t).1 (Spec.sinCosE s t).2 := by
  obtain ⟨n, p, a⟩ := bd_reduced hL h
  obtain ⟨-, x, -, -, -⟩ := bd_shape hL h
  have hi := inside_vec hL h
  have hu : Bd (Spec.keplerU s t) 3 :=
    bd_rem ((((a.add' p (by decide)).add' n (by decide)).add' (((bd_invP h).mul x (by decide)).mul hi.x (by decide)) (by decide)).sub' n (by decide)).1
  have z : (sci 0 true 1).Fin ∧ (sci 0 true 1).val = 0 := lit_zero
  refine newton_good hL hu hi 10 3 _ _ _ (by decide) (by decide) hu ⟨⟨z.1, ?_⟩, ⟨z.1, ?_⟩, ?_⟩
  · show |(sci 0 true 1).val| ≤ _
    rw [z.2]; norm_num
  · show |(sci 0 true 1).val| ≤ _
    rw [z.2]; norm_num
  · show (sci 0 true 1).val ^ 2 + (sci 0 true 1).val ^ 2 ≤ _
    rw [z.2]; norm_num

theorem bd_axis (h : Moderate s t) : Bd (Spec.semiMajor s t) 40 := by
  obtain ⟨a1, a2, a3⟩ := h.axis
  exact ⟨a1, by rw [abs_of_nonneg (le_trans (by positivity) a2)]; exact a3⟩

/-- the distances -/
theorem bd_dist (hL : Libm.Faithful) (h : Moderate s t) :
    (Bd (Spec.semiLatus s t) 42 ∧ 1 / 2 ^ 61 ≤ (Spec.semiLatus s t).val) ∧ (Bd (Spec.radius0 s t) 42 ∧ 1 / 2 ^ 62 ≤ (Spec.radius0 s t).val) ∧
      (Bd (Spec.beta s t) 2 ∧ 0 ≤ (Spec.beta s t).val) ∧ Bd (Spec.esinE s t) 1 := by
  have hi := inside_vec hL h
  have hg := good_E hL h
  have ha := bd_axis h
  obtain ⟨l1, l2⟩ := den_latus hi
  obtain ⟨r1, r2⟩ := den_radius hi hg
  have p1 : Bd (Spec.semiLatus s t) 42 := ha.mul l1 (by decide)
  have p2 : Bd (Spec.radius0 s t) 42 := ha.mul r1 (by decide)
  have b : Bd (Spec.beta s t) 2 ∧ 0 ≤ (Spec.beta s t).val := l1.sqrt (le_trans (by positivity) l2) (by decide)
  have ob := bd_one.add' b.1 (by decide)
  have ob1 : (1 : ℝ) ≤ (F64.add (sci 10 true 1) (Spec.beta s t)).val :=
    (add_rounds bd_one.1 b.1.1).ge ob.1 (by simpa using isRep_int 1 (by norm_num)) (by rw [lit_one.2]; linarith [b.2])
  refine ⟨⟨p1, mul_ge p1.1 ha.1 l1.1 h.axis.2.1 l2 (by decide)⟩, ⟨p2, mul_ge p2.1 ha.1 r1.1 h.axis.2.1 r2 (by decide)⟩, b, ?_⟩
  have num := ((bd0_mul hi.x hg.sin).1).sub (bd0_mul hi.y hg.cos).1 (by decide)
  exact num.div' (j := 0) ob.1 (by rw [pow_zero, div_one]; exact le_trans ob1 (le_abs_self _)) (by decide)

omit [Libm] in
theorem div_ge_one_bd {x y : F64} {a : ℕ} (hx : Bd x a) (hy : y.Fin) (h1 : 1 / 2 ^ 62 ≤ y.val) (h : a + 62 ≤ 970) : Bd (F64.div x y) (a + 62) :=
  hx.div' hy (le_trans h1 (le_abs_self _)) h

/-- argument of latitude before the short-period terms -/
theorem bd_lat (hL : Libm.Faithful) (h : Moderate s t) :
    Bd (Spec.sinU s t) 105 ∧ Bd (Spec.cosU s t) 105 ∧ Bd (Spec.cos2u s t) 212 ∧ Bd (Spec.sin2u s t) 211 := by
  have hi := inside_vec hL h
  have hg := good_E hL h
  have ha := bd_axis h
  obtain ⟨-, ⟨r1, r2⟩, -, e⟩ := bd_dist hL h
  have q := div_ge_one_bd ha r1.1 r2 (by decide)
  have su : Bd (Spec.sinU s t) 105 :=
    (q.mul ((hg.sin.sub' hi.y (by decide)).sub' (hi.x.mul e (by decide)) (by decide)) (by decide)).mono (by decide)
  have cu : Bd (Spec.cosU s t) 105 :=
    (q.mul ((hg.cos.sub' hi.x (by decide)).add' (hi.y.mul e (by decide)) (by decide)) (by decide)).mono (by decide)
  have l2 : Bd (sci 20 true 1) 1 := bd_sci _ _ _ _ (by norm_num) (by norm_num)
  exact ⟨su, cu, (bd_one.sub' ((l2.mul su (by decide)).mul su (by decide)) (by decide)).mono (by decide),
    ((cu.add' cu (by decide)).mul su (by decide)).mono (by decide)⟩

theorem bd_k (hL : Libm.Faithful) (h : Moderate s t) : Bd (Spec.k1 s t) 61 ∧ Bd (Spec.k2 s t) 122 := by
  obtain ⟨⟨p1, p2⟩, -, -, -⟩ := bd_dist hL h
  have l05 : Bd (sci 5 true 1) 0 := bd_sci _ _ _ _ (by norm_num) (by norm_num)
  have j2 : Bd (sci 108262998905 true 14) 0 := bd_sci _ _ _ _ (by norm_num) (by norm_num)
  have q := bd_one.div' p1.1 (le_trans p2 (le_abs_self _)) (by decide)
  have k1 : Bd (Spec.k1 s t) 61 := ((l05.mul j2 (by decide)).mul q (by decide)).mono (by decide)
  exact ⟨k1, k1.mul q (by decide)⟩

/-- the elements with short-period terms -/
theorem bd_short (hL : Libm.Faithful) (h : Moderate s t) :
    Bd (Spec.radius s t) 340 ∧ (Spec.argLat s t).Fin ∧ (Spec.nodeS s t).Fin ∧ (Spec.inclS s t).Fin := by
  obtain ⟨n, -, -⟩ := bd_reduced hL h
  obtain ⟨-, -, tc, oc, sc⟩ := bd_shape hL h
  obtain ⟨-, ⟨r1, r2⟩, ⟨b, -⟩, -⟩ := bd_dist hL h
  obtain ⟨su, cu, c2, s2⟩ := bd_lat hL h
  obtain ⟨k1, k2⟩ := bd_k hL h
  have ci := bd_cos hL h.incl.1
  have si := bd_sin hL h.incl.1
  have l05 : Bd (sci 5 true 1) 0 := bd_sci _ _ _ _ (by norm_num) (by norm_num)
  have l25 : Bd (sci 25 true 2) 0 := bd_sci _ _ _ _ (by norm_num) (by norm_num)
  have l15 : Bd (sci 15 true 1) 1 := bd_sci _ _ _ _ (by norm_num) (by norm_num)
  have l15k := l15.mul k2 (by decide)
  have at2 : Bd (Libm.atan2 (Spec.sinU s t) (Spec.cosU s t)) 2 := by
    obtain ⟨a1, a2⟩ := hL.atan2_fin _ _ su.1 cu.1
    have := P_bounds
    exact ⟨a1, by norm_num; linarith⟩
  refine ⟨?_, ?_, ?_, ?_⟩
  · exact ((r1.mul (bd_one.sub' ((l15k.mul b (by decide)).mul tc (by decide)) (by decide)) (by decide)).add'
      (((l05.mul k1 (by decide)).mul oc (by decide)).mul c2 (by decide)) (by decide)).mono (by decide)
  · exact (at2.sub' (((l25.mul k2 (by decide)).mul sc (by decide)).mul s2 (by decide)) (by decide)).1
  · exact (n.add' ((l15k.mul ci (by decide)).mul s2 (by decide)) (by decide)).1
  · exact (h.incl.add' (((l15k.mul ci (by decide)).mul si (by decide)).mul c2 (by decide)) (by decide)).1

/-- the mean motion -/
theorem bd_motion (hL : Libm.Faithful) (h : Moderate s t) : Bd (Spec.motion s t) 31 := by
  obtain ⟨a1, a2, a3⟩ := h.axis
  have h15 : Bd (sci 15 true 1) 1 := bd_sci _ _ _ _ (by norm_num) (by norm_num)
  have v15 : (sci 15 true 1).val = 3 / 2 := by
    have r : IsRep (3 / 2 : ℝ) := by simpa using isRep_int_div 3 1 (by norm_num) (by norm_num)
    have e := sci_rounds 15 true 1
    exact le_antisymm (e.le h15.1 r (by norm_num)) (e.ge h15.1 r (by norm_num))
  have a0 : 0 < (Spec.semiMajor s t).val := lt_of_lt_of_le (by positivity) a2
  have q1 : ((1 : ℝ) / 2 ^ 20) ^ (3 / 2 : ℝ) = 1 / 2 ^ 30 := by
    rw [show ((1 : ℝ) / 2 ^ 20) = (1 / 2 ^ 10) ^ (2 : ℝ) by norm_num, ← Real.rpow_mul (by positivity)]
    norm_num
  have q2 : ((2 : ℝ) ^ 40) ^ (3 / 2 : ℝ) = 2 ^ 60 := by
    rw [show ((2 : ℝ) ^ 40) = (2 ^ 20) ^ (2 : ℝ) by norm_num, ← Real.rpow_mul (by positivity)]
    norm_num
  have b1 : (1 : ℝ) / 2 ^ 30 ≤ (Spec.semiMajor s t).val ^ (3 / 2 : ℝ) := by
    rw [← q1]; exact Real.rpow_le_rpow (by positivity) a2 (by norm_num)
  have b2 : (Spec.semiMajor s t).val ^ (3 / 2 : ℝ) ≤ 2 ^ 60 := by
    rw [← q2]; exact Real.rpow_le_rpow a0.le a3 (by norm_num)
  obtain ⟨f1, f2⟩ := hL.powf_pos _ _ a1 h15.1 a0
    (by rw [v15]; exact le_trans (one_div_le_one_div_of_le (by positivity) (pow_le_pow_right₀ (by norm_num) (by norm_num))) b1)
    (by rw [v15]; exact le_trans b2 (pow_le_pow_right₀ (by norm_num) (by norm_num)))
  rw [v15] at f2
  have f3 := abs_le.mp f2
  have f4 : 1 / 2 ^ 31 ≤ (Libm.powf (Spec.semiMajor s t) (sci 15 true 1)).val := by
    have : (Spec.semiMajor s t).val ^ (3 / 2 : ℝ) / 2 ^ 48 ≤ (Spec.semiMajor s t).val ^ (3 / 2 : ℝ) / 2 := by
      apply div_le_div_of_nonneg_left (by positivity) (by norm_num) (by norm_num)
    have q : (1 : ℝ) / 2 ^ 31 = 1 / 2 ^ 30 / 2 := by norm_num
    rw [q]
    linarith
  exact bd_xke.1.div' f1 (le_trans f4 (le_abs_self _)) (by decide)

theorem bd_speed (hL : Libm.Faithful) (h : Moderate s t) : Bd (Spec.rdot s t) 380 ∧ Bd (Spec.rfdot s t) 380 := by
  have hi := inside_vec hL h
  have hg := good_E hL h
  have ha := bd_axis h
  obtain ⟨-, -, tc, oc, sc⟩ := bd_shape hL h
  obtain ⟨⟨p1, p2⟩, ⟨r1, r2⟩, -, -⟩ := bd_dist hL h
  obtain ⟨-, -, c2, s2⟩ := bd_lat hL h
  obtain ⟨k1, -⟩ := bd_k hL h
  have mk := (bd_motion hL h).mul k1 (by decide)
  have l15 : Bd (sci 15 true 1) 1 := bd_sci _ _ _ _ (by norm_num) (by norm_num)
  have sa := (ha.sqrt (le_trans (by positivity) h.axis.2.1) (by decide)).1
  have sp := (p1.sqrt (le_trans (by positivity) p2) (by decide)).1
  have num := ((bd0_mul hi.x hg.sin).1).sub (bd0_mul hi.y hg.cos).1 (by decide)
  obtain ⟨x1, x2⟩ := bd_xke
  exact ⟨((div_ge_one_bd (sa.mul num (by decide)) r1.1 r2 (by decide)).sub'
      (((mk.mul oc (by decide)).mul s2 (by decide)).div' x1.1 x2 (by decide)) (by decide)).mono (by decide),
    ((div_ge_one_bd sp r1.1 r2 (by decide)).add'
      ((mk.mul ((oc.mul c2 (by decide)).add' (l15.mul tc (by decide)) (by decide)) (by decide)).div' x1.1 x2 (by decide)) (by decide)).mono (by decide)⟩

theorem bd_unit (hL : Libm.Faithful) {u n i : F64} (hu : u.Fin) (hn : n.Fin) (hi : i.Fin) :
    (Bd (Spec.unitU u n i).x 1 ∧ Bd (Spec.unitU u n i).y 1 ∧ Bd (Spec.unitU u n i).z 1) ∧
      (Bd (Spec.unitV u n i).x 1 ∧ Bd (Spec.unitV u n i).y 1 ∧ Bd (Spec.unitV u n i).z 1) := by
  have su := bd_sin hL hu
  have cu := bd_cos hL hu
  have sn := bd_sin hL hn
  have cn := bd_cos hL hn
  have si := bd_sin hL hi
  have ci := bd_cos hL hi
  exact ⟨⟨((sn.neg.mul ci (by decide)).mul su (by decide)).add' (cn.mul cu (by decide)) (by decide),
      ((cn.mul ci (by decide)).mul su (by decide)).add' (sn.mul cu (by decide)) (by decide), (si.mul su (by decide)).mono (by decide)⟩,
    ⟨((sn.neg.mul ci (by decide)).mul cu (by decide)).sub' (cn.mul su (by decide)) (by decide),
      ((cn.mul ci (by decide)).mul cu (by decide)).sub' (sn.mul su (by decide)) (by decide), (si.mul cu (by decide)).mono (by decide)⟩⟩

/-- **C17.** In double arithmetic, with any accurate mathematical library: for a record and a time of moderate size, whenever propagation
reports success all six components of position and velocity are finite numbers. -/
theorem C17_finite (hL : Libm.Faithful) (h : Moderate s t) {s' : Satrec F64} {v : SGP4Result F64} (hr : sgp4 s t = some (s', .ok v)) :
    (v.position.x.Fin ∧ v.position.y.Fin ∧ v.position.z.Fin) ∧ (v.velocity.x.Fin ∧ v.velocity.y.Fin ∧ v.velocity.z.Fin) := by
  have hv : v = ⟨Spec.position s t, Spec.velocity s t⟩ := by
    have h1 := C16_outcome _ _ _ _ hr
    unfold Spec.result at h1
    repeat' split at h1
    all_goals first | exact Except.ok.inj h1 | exact absurd h1 (by simp)
  subst hv
  obtain ⟨r, hu, hn, hi⟩ := bd_short hL h
  obtain ⟨d1, d2⟩ := bd_speed hL h
  obtain ⟨⟨u1, u2, u3⟩, ⟨v1, v2, v3⟩⟩ := bd_unit hL hu hn hi
  have er : Bd (sci 6378137 true 3) 13 := bd_sci _ _ _ _ (by norm_num) (by norm_num)
  have l60 : Bd (sci 600 true 1) 6 := bd_sci _ _ _ _ (by norm_num) (by norm_num)
  have l60' : (1 : ℝ) / 2 ^ 0 ≤ |(sci 600 true 1).val| := by
    have := (sci_rounds 600 true 1).ge l60.1 (a := 1) (by simpa using isRep_int 1 (by norm_num)) (by norm_num)
    rw [pow_zero, div_one]
    exact le_trans this (le_abs_self _)
  have vk := (er.mul bd_xke.1 (by decide)).div' l60.1 l60' (by decide)
  have P : ∀ {a : F64}, Bd a 1 → (F64.mul (F64.mul (Spec.radius s t) a) (sci 6378137 true 3)).Fin :=
    fun ha => ((r.mul ha (by decide)).mul er (by decide)).1
  have V : ∀ {a b : F64}, Bd a 1 → Bd b 1 →
      (F64.mul (F64.add (F64.mul (Spec.rdot s t) a) (F64.mul (Spec.rfdot s t) b))
        (F64.div (F64.mul (sci 6378137 true 3) (sci 7436685316871385 true 17)) (sci 600 true 1))).Fin :=
    fun ha hb => (((d1.mul ha (by decide)).add' (d2.mul hb (by decide)) (by decide)).mul vk (by decide)).1
  exact ⟨⟨P u1, P u2, P u3⟩, ⟨V u1 v1, V u2 v2, V u3 v3⟩⟩

end

/-! ### A record meeting the hypotheses -/

/-- a nearly circular near-earth orbit of 83 minutes without drag -/
def circ : Satrec F64 :=
  { Satrec.zero with no := 0.06, mdot := 0.06, mo := 1.0, ecco := 0.01, inclo := 0.5, nodedot := 0.001, isimp := 1, method := .N }

omit [Libm] in
theorem zero_mul_val {x : F64} (hx : x.Fin) : (F64.mul (sci 0 true 1) x).Fin ∧ (F64.mul (sci 0 true 1) x).val = 0 := by
  have := mul_rounds lit_zero.1 hx
  rw [lit_zero.2, zero_mul] at this
  exact this.exact (by simpa using isRep_int 0 (by norm_num))

omit [Libm] in
theorem mul_zero_val {x : F64} (hx : x.Fin) : (F64.mul x (sci 0 true 1)).Fin ∧ (F64.mul x (sci 0 true 1)).val = 0 := by
  have := mul_rounds hx lit_zero.1
  rw [lit_zero.2, mul_zero] at this
  exact this.exact (by simpa using isRep_int 0 (by norm_num))

omit [Libm] in
theorem mul_zero_val' {x y : F64} (hx : x.Fin) (hy : y.Fin) (h0 : y.val = 0) : (F64.mul x y).Fin ∧ (F64.mul x y).val = 0 := by
  have := mul_rounds hx hy
  rw [h0, mul_zero] at this
  exact this.exact (by simpa using isRep_int 0 (by norm_num))

omit [Libm] in
theorem add_zero_val {x y : F64} (hx : x.Fin) (hy : y.Fin) (h0 : y.val = 0) : (F64.add x y).Fin ∧ (F64.add x y).val = x.val := by
  have := add_rounds hx hy
  rw [h0, add_zero] at this
  exact this.exact (isRep_val hx)

omit [Libm] in
theorem sub_zero_val {x y : F64} (hx : x.Fin) (hy : y.Fin) (h0 : y.val = 0) : (F64.sub x y).Fin ∧ (F64.sub x y).val = x.val := by
  have := sub_rounds hx hy
  rw [h0, sub_zero] at this
  exact this.exact (isRep_val hx)

omit [Libm] in
theorem b01 : Bd (sci 1 true 2) 0 ∧ 1 / 2 ^ 7 ≤ (sci 1 true 2).val ∧ (sci 1 true 2).val ≤ 1 / 2 ^ 6 := by
  have b : Bd (sci 1 true 2) 0 := bd_sci _ _ _ _ (by norm_num) (by norm_num)
  exact ⟨b, (sci_rounds 1 true 2).ge b.1 (isRep_pow_neg 7 (by norm_num)) (by norm_num),
    (sci_rounds 1 true 2).le b.1 (isRep_pow_neg 6 (by norm_num)) (by norm_num)⟩

theorem circ_meanEcc {t : F64} (ht : t.Fin) : (Spec.meanEcc circ t).Fin ∧ (Spec.meanEcc circ t).val = (sci 1 true 2).val := by
  have z : Spec.dragE circ t = F64.mul (F64.mul (sci 0 true 1) (sci 0 true 1)) t := rfl
  have z1 := zero_mul_val lit_zero.1
  have z2 : (Spec.dragE circ t).Fin ∧ (Spec.dragE circ t).val = 0 := by
    rw [z]
    have := mul_rounds z1.1 ht
    rw [z1.2, zero_mul] at this
    exact this.exact (by simpa using isRep_int 0 (by norm_num))
  have e : Spec.meanEcc circ t = F64.sub (sci 1 true 2) (Spec.dragE circ t) := rfl
  rw [e]
  exact sub_zero_val b01.1.1 z2.1 z2.2

theorem circ_ecc {t : F64} (ht : t.Fin) : (Spec.ecc circ t).Fin ∧ (Spec.ecc circ t).val = (sci 1 true 2).val := by
  obtain ⟨h1, h2⟩ := circ_meanEcc ht
  have l : Bd (sci 10 true 7) 0 := bd_sci _ _ _ _ (by norm_num) (by norm_num)
  have l1 := (sci_rounds 10 true 7).le l.1 (isRep_pow_neg 10 (by norm_num)) (by norm_num)
  have hn : ¬ (flt (Spec.meanEcc circ t) (sci 10 true 7) = true) := by
    rw [flt_fin h1 l.1, h2]
    have := b01.2.1
    rw [not_lt]
    exact le_trans l1 (le_trans (by norm_num) this)
  have : Spec.ecc circ t = Spec.meanEcc circ t := if_neg hn
  rw [this]
  exact ⟨h1, h2⟩

theorem circ_axis (hL : Libm.Faithful) {t : F64} (ht : t.Fin) :
    (Spec.semiMajor circ t).Fin ∧ 17 / 16 ≤ (Spec.semiMajor circ t).val ∧ (Spec.semiMajor circ t).val ≤ 2 := by
  have z := zero_mul_val ht
  have dA : Spec.dragA circ t = F64.sub (sci 10 true 1) (F64.mul (sci 0 true 1) t) := rfl
  have d : (Spec.dragA circ t).Fin ∧ (Spec.dragA circ t).val = 1 := by
    rw [dA]
    have := sub_zero_val lit_one.1 z.1 z.2
    rwa [lit_one.2] at this
  have n6 : Bd (sci 6 true 2) 0 := bd_sci _ _ _ _ (by norm_num) (by norm_num)
  obtain ⟨x1, -⟩ := bd_xke
  have n6l : 1 / 2 ^ 5 ≤ (sci 6 true 2).val := (sci_rounds 6 true 2).ge n6.1 (isRep_pow_neg 5 (by norm_num)) (by norm_num)
  have q := x1.div' n6.1 (le_trans n6l (le_abs_self _)) (by decide)
  have n6u : (sci 6 true 2).val ≤ 4097 / 2 ^ 16 := (sci_rounds 6 true 2).le n6.1 (by simpa using isRep_int_div 4097 16 (by norm_num) (by norm_num)) (by norm_num)
  have n6m : 3932 / 2 ^ 16 ≤ (sci 6 true 2).val := (sci_rounds 6 true 2).ge n6.1 (by simpa using isRep_int_div 3932 16 (by norm_num) (by norm_num)) (by norm_num)
  have xm : 4873 / 2 ^ 16 ≤ (sci 7436685316871385 true 17).val :=
    (sci_rounds 7436685316871385 true 17).ge x1.1 (by simpa using isRep_int_div 4873 16 (by norm_num) (by norm_num)) (by norm_num)
  have xu : (sci 7436685316871385 true 17).val ≤ 4874 / 2 ^ 16 :=
    (sci_rounds 7436685316871385 true 17).le x1.1 (by simpa using isRep_int_div 4874 16 (by norm_num) (by norm_num)) (by norm_num)
  set no := sci 6 true 2 with hno
  set xke := sci 7436685316871385 true 17 with hxke
  have no0 : 0 < no.val := lt_of_lt_of_le (by norm_num) n6m
  have q1 : 19 / 2 ^ 4 ≤ (F64.div xke no).val := (div_rounds x1.1 n6.1 no0.ne').ge q.1 (by simpa using isRep_int_div 19 4 (by norm_num) (by norm_num)) (by
    rw [le_div_iff₀ no0]; nlinarith)
  have q2 : (F64.div xke no).val ≤ 5 / 2 ^ 2 := (div_rounds x1.1 n6.1 no0.ne').le q.1 (by simpa using isRep_int_div 5 2 (by norm_num) (by norm_num)) (by
    rw [div_le_iff₀ no0]; nlinarith)
  have l2 : (sci 20 true 1).Fin ∧ (sci 20 true 1).val = 2 := lit_two
  have l3 : (sci 30 true 1).Fin ∧ (sci 30 true 1).val = 3 := by simpa using sci_int (m := 30) (s := true) (k := 1) 3 (by norm_num) (by norm_num)
  have xr := div_rounds l2.1 l3.1 (by rw [l3.2]; norm_num)
  rw [l2.2, l3.2] at xr
  have xb : Bd (F64.div (sci 20 true 1) (sci 30 true 1)) 0 := xr.pow (by decide) (by norm_num)
  have xl := xr.ge xb.1 (a := 1 / 2 ^ 1) (isRep_pow_neg 1 (by norm_num)) (by norm_num)
  have xu' := xr.le xb.1 (a := 1) (by simpa using isRep_int 1 (by norm_num)) (by norm_num)
  have sm : Spec.semiMajor circ t = F64.mul (F64.mul (Libm.powf (F64.div xke no) (F64.div (sci 20 true 1) (sci 30 true 1))) (Spec.dragA circ t)) (Spec.dragA circ t) := rfl
  generalize F64.div (sci 20 true 1) (sci 30 true 1) = x at *
  generalize F64.div xke no = y at *
  have y1 : (1 : ℝ) ≤ y.val := by linarith
  have e1 : (17 / 16 + 1 / 1000 : ℝ) * 1 ≤ y.val ^ x.val := by
    have a1 : y.val ^ (1 / 2 : ℝ) ≤ y.val ^ x.val := Real.rpow_le_rpow_of_exponent_le y1 (by linarith)
    rw [← Real.sqrt_eq_rpow] at a1
    refine le_trans ?_ a1
    apply Real.le_sqrt_of_sq_le
    norm_num
    norm_num at q1
    linarith
  have e2 : y.val ^ x.val ≤ 5 / 4 := by
    have a1 : y.val ^ x.val ≤ y.val ^ (1 : ℝ) := Real.rpow_le_rpow_of_exponent_le y1 xu'
    rw [Real.rpow_one] at a1
    linarith
  obtain ⟨f1, f2⟩ := hL.powf_pos y x q.1 xb.1 (by linarith)
    (le_trans (show (1 : ℝ) / 2 ^ 900 ≤ 1 by rw [div_le_one (by positivity)]; exact one_le_pow₀ (by norm_num)) (by linarith))
    (le_trans e2 (le_trans (show (5 / 4 : ℝ) ≤ 2 ^ 1 by norm_num) (pow_le_pow_right₀ (by norm_num) (by norm_num))))
  have f3 := abs_le.mp f2
  have f4 : y.val ^ x.val / 2 ^ 48 ≤ 1 / 1000 := by
    rw [div_le_iff₀ (by positivity)]; norm_num; linarith
  have mul1 : ∀ {a : F64}, a.Fin → (F64.mul a (Spec.dragA circ t)).Fin ∧ (F64.mul a (Spec.dragA circ t)).val = a.val := by
    intro a ha
    have := mul_rounds ha d.1
    rw [d.2, mul_one] at this
    exact this.exact (isRep_val ha)
  obtain ⟨m1, m2⟩ := mul1 f1
  obtain ⟨m3, m4⟩ := mul1 m1
  rw [sm, m4, m2]
  refine ⟨m3, ?_, ?_⟩ <;> linarith

theorem circ_vector (hL : Libm.Faithful) {t : F64} (ht : t.Fin) :
    (Bd (Spec.axn circ t) 0 ∧ |(Spec.axn circ t).val| ≤ 1 / 2 ^ 6) ∧ (Bd (Spec.ayn circ t) 0 ∧ |(Spec.ayn circ t).val| ≤ 1 / 2 ^ 6) := by
  obtain ⟨e1, e2⟩ := circ_ecc ht
  obtain ⟨a1, a2, a3⟩ := circ_axis hL ht
  obtain ⟨c1, c2, c3⟩ := b01
  have pe : Spec.perigeeR circ t = F64.rem (F64.add (sci 0 true 1) (F64.mul (sci 0 true 1) t)) TWO_PI := rfl
  have z := zero_mul_val ht
  have z2 := add_zero_val lit_zero.1 z.1 z.2
  have pr : Bd (Spec.perigeeR circ t) 3 := by rw [pe]; exact bd_rem z2.1
  have key : ∀ {x : F64}, Bd x 0 → (F64.mul (Spec.ecc circ t) x).Fin ∧ |(F64.mul (Spec.ecc circ t) x).val| ≤ 1 / 2 ^ 6 := by
    intro x hx
    have be : Bd (Spec.ecc circ t) 0 := ⟨e1, by rw [e2]; exact c1.2⟩
    have m := be.mul hx (by decide)
    refine ⟨m.1, ?_⟩
    have h6 : IsRep (1 / 2 ^ 6 : ℝ) := isRep_pow_neg 6 (by norm_num)
    have hm : |(Spec.ecc circ t).val * x.val| ≤ 1 / 2 ^ 6 := by
      rw [abs_mul, e2]
      have h0 : 0 ≤ (sci 1 true 2).val := le_trans (by positivity) c2
      rw [abs_of_nonneg h0]
      have := hx.2
      rw [pow_zero] at this
      calc _ ≤ (1 / 2 ^ 6 : ℝ) * 1 := mul_le_mul c3 this (abs_nonneg _) (by positivity)
        _ = _ := mul_one _
    have hm := abs_le.mp hm
    rw [abs_le]
    exact ⟨(mul_rounds e1 hx.1).ge m.1 (isRep_neg h6) hm.1, (mul_rounds e1 hx.1).le m.1 h6 hm.2⟩
  have b6 : (1 : ℝ) / 2 ^ 6 ≤ 2 ^ 0 := by norm_num
  obtain ⟨x1, x2⟩ := key (bd_cos hL pr.1)
  obtain ⟨y1, y2⟩ := key (bd_sin hL pr.1)
  have ip : (Spec.invP circ t).Fin := by
    have be : Bd (Spec.ecc circ t) 0 := ⟨e1, by rw [e2]; exact c1.2⟩
    have m := be.mul be (by decide)
    have m1 : (F64.mul (Spec.ecc circ t) (Spec.ecc circ t)).val ≤ 1 / 2 ^ 1 := (mul_rounds e1 e1).le m.1 (isRep_pow_neg 1 (by norm_num)) (by
      rw [e2]; nlinarith)
    have d := bd_one.sub' m (by decide)
    have d1 : 1 / 2 ^ 1 ≤ (F64.sub (sci 10 true 1) (F64.mul (Spec.ecc circ t) (Spec.ecc circ t))).val :=
      (sub_rounds bd_one.1 m.1).ge d.1 (isRep_pow_neg 1 (by norm_num)) (by rw [lit_one.2]; linarith)
    have ba : Bd (Spec.semiMajor circ t) 1 := ⟨a1, by rw [abs_of_nonneg (by linarith)]; simpa using a3⟩
    have p := ba.mul d (by decide)
    have p1 := mul_ge (a := 0) p.1 a1 d.1 (by norm_num; linarith) d1 (by norm_num)
    exact (bd_one.div' p.1 (le_trans p1 (le_abs_self _)) (by decide)).1
  obtain ⟨w1, w2⟩ := mul_zero_val ip
  obtain ⟨v1, v2⟩ := add_zero_val y1 w1 w2
  have ay : Spec.ayn circ t = F64.add (F64.mul (Spec.ecc circ t) (Libm.sin (Spec.perigeeR circ t))) (F64.mul (Spec.invP circ t) (sci 0 true 1)) := rfl
  have ax : Spec.axn circ t = F64.mul (Spec.ecc circ t) (Libm.cos (Spec.perigeeR circ t)) := rfl
  rw [ay, ax]
  refine ⟨⟨⟨x1, le_trans x2 b6⟩, x2⟩, ⟨⟨v1, ?_⟩, ?_⟩⟩
  · rw [v2]; exact le_trans y2 b6
  · rw [v2]; exact y2

theorem circ_moderate (hL : Libm.Faithful) {t : F64} (ht : Bd t 40) : Moderate circ t := by
  obtain ⟨a1, a2, a3⟩ := circ_axis hL ht.1
  obtain ⟨e1, e2⟩ := circ_ecc ht.1
  obtain ⟨⟨-, x⟩, ⟨-, y⟩⟩ := circ_vector hL ht.1
  have z : Bd (sci 0 true 1) 60 := bd_sci _ _ _ _ (by norm_num) (by norm_num)
  have n6 : Bd (sci 6 true 2) 60 := bd_sci _ _ _ _ (by norm_num) (by norm_num)
  have o : Bd (sci 10 true 1) 60 := bd_sci _ _ _ _ (by norm_num) (by norm_num)
  have h5 : Bd (sci 5 true 1) 60 := bd_sci _ _ _ _ (by norm_num) (by norm_num)
  have n3 : Bd (sci 1 true 3) 60 := bd_sci _ _ _ _ (by norm_num) (by norm_num)
  refine ⟨ht, ?_, h5, ?_, ⟨a1, by norm_num at *; linarith, by norm_num; linarith⟩, ⟨e1, ?_, ?_⟩, ?_⟩
  · simp only [List.mem_cons, List.not_mem_nil, or_false, forall_eq_or_imp, forall_eq]
    exact ⟨o, n6, z, z, z, n3, z, z, z, z, z, n6, z, z, z, z⟩
  · intro _
    simp only [List.mem_cons, List.not_mem_nil, or_false, forall_eq_or_imp, forall_eq]
    exact ⟨z, z, z, z, z⟩
  · rw [e2]; exact le_trans (by positivity) b01.2.1
  · rw [e2]; exact le_trans b01.2.2 (by norm_num)
  · have x := abs_le.mp x
    have y := abs_le.mp y
    norm_num at x y ⊢
    nlinarith

/-- the error tests that precede the solution of Kepler's equation pass at every finite time -/
theorem circ_tests (hL : Libm.Faithful) {t : F64} (ht : t.Fin) :
    Spec.result circ t = if flt (Spec.radius circ t) (sci 10 true 1) then .error .DecayCondition else .ok ⟨Spec.position circ t, Spec.velocity circ t⟩ := by
  obtain ⟨m1, m2⟩ := circ_meanEcc ht
  obtain ⟨a1, a2, a3⟩ := circ_axis hL ht
  obtain ⟨⟨x, x'⟩, ⟨y, y'⟩⟩ := circ_vector hL ht
  have hi : Inside (Spec.axn circ t) (Spec.ayn circ t) := ⟨x, y, by
    have x := abs_le.mp x'
    have y := abs_le.mp y'
    norm_num at x y ⊢
    nlinarith⟩
  obtain ⟨l1, l2⟩ := den_latus hi
  have ba : Bd (Spec.semiMajor circ t) 1 := ⟨a1, by rw [abs_of_nonneg (by linarith)]; simpa using a3⟩
  have p1 : Bd (Spec.semiLatus circ t) 3 := ba.mul l1 (by decide)
  have p2 : 1 / 2 ^ (0 + 41) ≤ (Spec.semiLatus circ t).val := mul_ge p1.1 a1 l1.1 (by norm_num; linarith) l2 (by decide)
  have t1 : ¬ (fle (sci 6 true 2) (sci 0 true 1) = true) := by decide +kernel
  have c3 : Bd (sci 1 true 3) 0 := bd_sci _ _ _ _ (by norm_num) (by norm_num)
  have c3' : 0 ≤ (sci 1 true 3).val := (sci_rounds 1 true 3).ge c3.1 (by simpa using isRep_int 0 (by norm_num)) (by norm_num)
  have t2 : ¬ ((fle (sci 10 true 1) (Spec.meanEcc circ t) || flt (Spec.meanEcc circ t) (F64.neg (sci 1 true 3))) = true) := by
    rw [Bool.or_eq_true, fle_fin lit_one.1 m1, flt_fin m1 c3.neg.1, m2, lit_one.2, (neg_val c3.1).2]
    have h1 := b01.2.1
    have h2 := b01.2.2
    rintro (h | h)
    · norm_num at h2; linarith
    · norm_num at h1; linarith
  have t4 : ¬ (flt (Spec.semiLatus circ t) (sci 0 true 1) = true) := by
    rw [flt_fin p1.1 lit_zero.1, lit_zero.2, not_lt]
    exact le_trans (by positivity) p2
  unfold Spec.result
  refine (if_neg t1).trans ((if_neg t2).trans ((if_neg ?_).trans ((if_neg t4).trans rfl)))
  intro h
  exact absurd h.1 (by show ¬ (InitlMethod.N = .D); decide)

/-- **C17, violated: a finite record at a finite time.** The propagation of `circ` to every finite time beyond `2^512` minutes succeeds with
six NaNs. -/
theorem C17_violated_finite (hL : Libm.Faithful) {t : F64} (ht : t.Fin) (hb : 2 ^ 512 ≤ |t.val|) :
    ∃ s', sgp4 circ t = some (s', .ok allNan) := by
  obtain ⟨s', r, h⟩ := C08_near_returns circ t rfl
  have hr := C16_outcome _ _ _ _ h
  have hu : Spec.keplerU circ t = .nan := by
    unfold Spec.keplerU
    rw [huge_node circ t ht hb]
    simp only [f64_sub, f64_rem, sub_nan, nan_rem]
  obtain ⟨h1, h2, h3⟩ := nan_spreads hL circ t hu
  refine ⟨s', ?_⟩
  rw [h, hr, circ_tests hL ht, h1, h2, h3]
  rfl

/-- the propagation of `circ` succeeds at every time of at most `2^40` minutes, and so with six finite numbers -/
theorem circ_ok (hL : Libm.Faithful) {t : F64} (ht : Bd t 40) : ∃ s' v, sgp4 circ t = some (s', .ok v) ∧
    (v.position.x.Fin ∧ v.position.y.Fin ∧ v.position.z.Fin) ∧ (v.velocity.x.Fin ∧ v.velocity.y.Fin ∧ v.velocity.z.Fin) := by
  have h := circ_moderate hL ht
  obtain ⟨s', r, hs⟩ := C08_near_returns circ t rfl
  have hr := C16_outcome _ _ _ _ hs
  obtain ⟨a1, a2, a3⟩ := circ_axis hL ht.1
  obtain ⟨⟨x, x'⟩, ⟨y, y'⟩⟩ := circ_vector hL ht.1
  have hg := good_E hL h
  obtain ⟨-, ⟨r1, -⟩, ⟨b, -⟩, -⟩ := bd_dist hL h
  obtain ⟨su, cu, c2, s2⟩ := bd_lat hL h
  obtain ⟨k1, k2⟩ := bd_k hL h
  have l05 : Bd (sci 5 true 1) 0 := bd_sci _ _ _ _ (by norm_num) (by norm_num)
  have l15 : Bd (sci 15 true 1) 1 := bd_sci _ _ _ _ (by norm_num) (by norm_num)
  have i6 : IsRep (1 / 2 ^ 6 : ℝ) := isRep_pow_neg 6 (by norm_num)
  have key : ∀ {u v : F64}, Bd u 0 → |u.val| ≤ 1 / 2 ^ 6 → Bd v 0 → Bd (F64.mul u v) 0 ∧ (F64.mul u v).val ≤ 1 / 2 ^ 6 := by
    intro u v hu hu' hv
    have m := hu.mul hv (by decide)
    refine ⟨m, (mul_rounds hu.1 hv.1).le m.1 i6 (le_trans (le_abs_self _) ?_)⟩
    have := hv.2
    rw [pow_zero] at this
    rw [abs_mul]
    calc _ ≤ (1 / 2 ^ 6 : ℝ) * 1 := mul_le_mul hu' this (abs_nonneg _) (by positivity)
      _ = _ := mul_one _
  obtain ⟨p1, p2⟩ := key x x' hg.cos
  obtain ⟨q1, q2⟩ := key y y' hg.sin
  have sm := p1.add q1 (by decide)
  have sm1 := (add_rounds p1.1 q1.1).le sm.1 (isRep_pow_neg 5 (by norm_num)) (by norm_num at *; linarith)
  have dn := bd_one.sub' sm (by decide)
  have i31 : IsRep (31 / 2 ^ 5 : ℝ) := by simpa using isRep_int_div 31 5 (by norm_num) (by norm_num)
  have dn1 := (sub_rounds bd_one.1 sm.1).ge dn.1 i31 (by rw [lit_one.2]; norm_num at *; linarith)
  have i1 : IsRep (1 : ℝ) := by simpa using isRep_int 1 (by norm_num)
  have r2 : (1 : ℝ) ≤ (Spec.radius0 circ t).val := by
    refine (mul_rounds a1 dn.1).ge r1.1 i1 ?_
    change 31 / 2 ^ 5 ≤ _ at dn1
    norm_num at dn1
    nlinarith
  have w := mul_zero_val ((l15.mul k2 (by decide)).mul b (by decide)).1
  have w1 := sub_zero_val bd_one.1 w.1 w.2
  have w2 := mul_rounds r1.1 w1.1
  rw [w1.2, lit_one.2, mul_one] at w2
  obtain ⟨w3, w4⟩ := w2.exact (isRep_val r1.1)
  have z := mul_zero_val ((l05.mul k1 (by decide))).1
  have z1 := mul_rounds z.1 c2.1
  rw [z.2, zero_mul] at z1
  obtain ⟨z2, z3⟩ := z1.exact (by simpa using isRep_int 0 (by norm_num))
  obtain ⟨f1, f2⟩ := add_zero_val w3 z2 z3
  have hrad : ¬ (flt (Spec.radius circ t) (sci 10 true 1) = true) := by
    have e : Spec.radius circ t = F64.add (F64.mul (Spec.radius0 circ t) (F64.sub (sci 10 true 1)
      (F64.mul (F64.mul (F64.mul (sci 15 true 1) (Spec.k2 circ t)) (Spec.beta circ t)) (sci 0 true 1))))
      (F64.mul (F64.mul (F64.mul (sci 5 true 1) (Spec.k1 circ t)) (sci 0 true 1)) (Spec.cos2u circ t)) := rfl
    rw [e, flt_fin f1 lit_one.1, f2, w4, lit_one.2, not_lt]
    exact r2
  have hs' : sgp4 circ t = some (s', .ok ⟨Spec.position circ t, Spec.velocity circ t⟩) := by
    rw [hs, hr, circ_tests hL ht.1, if_neg hrad]
  exact ⟨s', _, hs', C17_finite hL h hs'⟩

end

/-- with the ideal library, at a thousand minutes and at `10^160` minutes -/
example : (∃ s' v, @sgp4 F64 (@instArithF64 Libm.ideal) (@circ Libm.ideal) (sci 10000 true 1) = some (s', .ok v) ∧
      (v.position.x.Fin ∧ v.position.y.Fin ∧ v.position.z.Fin) ∧ (v.velocity.x.Fin ∧ v.velocity.y.Fin ∧ v.velocity.z.Fin)) ∧
    (∃ s', @sgp4 F64 (@instArithF64 Libm.ideal) (@circ Libm.ideal) (sci 1 false 160) = some (s', .ok allNan)) := by
  have b0 : Bd (sci 10000 true 1) 40 := bd_sci _ _ _ _ (by norm_num) (by norm_num)
  refine ⟨@circ_ok Libm.ideal exists_faithful _ b0, ?_⟩
  have e : (OfScientific.ofScientific 1 false 160 : ℝ) = 10 ^ 160 := by norm_num
  have n1 : (2 : ℝ) ^ 512 ≤ 10 ^ 160 := by exact_mod_cast (show 2 ^ 512 ≤ 10 ^ 160 by decide +kernel)
  have n2 : (10 : ℝ) ^ 160 ≤ 2 ^ 532 := by exact_mod_cast (show 10 ^ 160 ≤ 2 ^ 532 by decide +kernel)
  have b : Bd (sci 1 false 160) 532 := bd_sci _ _ _ _ (by norm_num) (by rw [e, abs_of_nonneg (by positivity)]; exact n2)
  refine @C17_violated_finite Libm.ideal exists_faithful _ b.1 ?_
  refine le_trans ((sci_rounds 1 false 160).ge b.1 ?_ (by rw [e]; exact n1)) (le_abs_self _)
  have := isRep_int_pow 1 512 (by norm_num) (by norm_num)
  rwa [Int.cast_one, one_mul] at this

end Sat
