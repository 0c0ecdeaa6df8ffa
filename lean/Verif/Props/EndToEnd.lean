import Verif.Props.Coefficients
import Verif.Props.Orbit
import Verif.Props.Deep
/-!
# Propagation of an initialised near-earth record is SGP4 as published: C64

Exact arithmetic.
-/

namespace Sat
open Spec.R3

/-! ## The program's Newton iteration -/

/-- The correction of the program is the published one. -/
theorem correction_eq (m : Mean) (E : ℝ) :
    (let raw := (((m.U - (m.ayN * Real.cos E)) + (m.axN * Real.sin E)) - E) / (1.0 - (Real.cos E * m.axN) - (Real.sin E * m.ayN))
     if Arith.abs raw ≥. 0.95 then (if raw >. 0.0 then 0.95 else -0.95) else raw) = m.correction E := by
  have e : (((m.U - (m.ayN * Real.cos E)) + (m.axN * Real.sin E)) - E) / (1.0 - (Real.cos E * m.axN) - (Real.sin E * m.ayN))
      = m.kepler E / (1 - m.axN * Real.cos E - m.ayN * Real.sin E) := by
    unfold Mean.kepler; norm_num1; ring
  dsimp only
  rw [e]
  unfold Mean.correction
  dsimp only
  generalize m.kepler E / (1 - m.axN * Real.cos E - m.ayN * Real.sin E) = d
  simp only [real_fle, real_flt, real_abs, decide_eq_true_eq]
  have l0 : (0.0 : ℝ) = 0 := by norm_num
  have l95 : (0:ℝ) < 0.95 := by norm_num
  rw [l0]
  by_cases h1 : 0.95 ≤ d
  · rw [if_pos (h1.trans (le_abs_self d)), if_pos (lt_of_lt_of_le l95 h1), if_pos h1]
  · rw [if_neg h1]
    by_cases h2 : d ≤ -0.95
    · have : (0.95:ℝ) ≤ |d| := by rw [le_abs]; right; linarith
      rw [if_pos this, if_neg (by linarith), if_pos h2]
    · rw [if_neg h2, if_neg]
      rw [not_le, abs_lt]; constructor <;> linarith

/-- The sine and cosine the program uses are those of the `k`-th Newton approximation, where `k` is the first index whose correction
is below 1e-12, and at most 9. -/
theorem newton_index (m : Mean) : ∃ k, k ≤ 9 ∧ (∀ j < k, 1e-12 ≤ |m.correction (m.newton j)|) ∧
    (k = 9 ∨ |m.correction (m.newton k)| < 1e-12) ∧
    Spec.newton m.U m.axN m.ayN 10 m.U 9999.9 (0.0, 0.0) = (Real.sin (m.newton k), Real.cos (m.newton k)) := by
  have key : ∀ n i : ℕ, n + i = 9 → (∀ j < i, 1e-12 ≤ |m.correction (m.newton j)|) →
      ∃ k, k ≤ 9 ∧ (∀ j < k, 1e-12 ≤ |m.correction (m.newton j)|) ∧ (k = 9 ∨ |m.correction (m.newton k)| < 1e-12) ∧
      Spec.newton m.U m.axN m.ayN n (m.newton (i + 1)) (m.correction (m.newton i)) (Real.sin (m.newton i), Real.cos (m.newton i))
        = (Real.sin (m.newton k), Real.cos (m.newton k)) := by
    intro n
    induction n with
    | zero =>
      intro i hi hj
      exact ⟨i, by omega, hj, Or.inl (by omega), rfl⟩
    | succ n ih =>
      intro i hi hj
      unfold Spec.newton
      by_cases hs : 1e-12 ≤ |m.correction (m.newton i)|
      · have hc : (Arith.abs (m.correction (m.newton i)) ≥. 1.0e-12) = true := by
          simp only [real_fle, real_abs, decide_eq_true_eq]
          calc _ = (1e-12 : ℝ) := by norm_num
            _ ≤ _ := hs
        rw [if_pos hc]
        obtain ⟨k, h1, h2, h3, h4⟩ := ih (i + 1) (by omega) (by
          intro j hj'
          rcases Nat.lt_succ_iff_lt_or_eq.mp hj' with h | h
          · exact hj j h
          · subst h; exact hs)
        refine ⟨k, h1, h2, h3, ?_⟩
        rw [← h4]
        have e := correction_eq m (m.newton (i + 1))
        dsimp only [real_sin, real_cos] at e ⊢
        rw [e]
        rfl
      · have hc : ¬ (Arith.abs (m.correction (m.newton i)) ≥. 1.0e-12) = true := by
          simp only [real_fle, real_abs, decide_eq_true_eq]
          intro h; apply hs
          calc (1e-12 : ℝ) = _ := by norm_num
            _ ≤ _ := h
        rw [if_neg hc]
        exact ⟨i, by omega, hj, Or.inr (not_le.mp hs), rfl⟩
  obtain ⟨k, h1, h2, h3, h4⟩ := key 9 0 rfl (fun j hj => absurd hj (Nat.not_lt_zero j))
  refine ⟨k, h1, h2, h3, ?_⟩
  rw [← h4]
  have hc : (Arith.abs (9999.9 : ℝ) ≥. 1.0e-12) = true := by
    simp only [real_fle, real_abs, decide_eq_true_eq]; norm_num
  rw [Spec.newton, if_pos hc]
  have e := correction_eq m (m.newton 0)
  dsimp only [real_sin, real_cos] at e ⊢
  have e0 : m.U = m.newton 0 := rfl
  rw [← e0] at e ⊢
  rw [e]
  rfl

/-! ## From mean elements to position and velocity -/

/-- The mean elements a record uses at time `t` are `m`. -/
structure HasMean (s : Satrec ℝ) (t : ℝ) (m : Mean) : Prop where
  a : Spec.semiMajor s t = m.a
  e : Spec.ecc s t = m.e
  ω : Spec.SameAngle (Spec.perigeeR s t) m.ω
  Ω : Spec.SameAngle (Spec.nodeR s t) m.Ω
  L : Spec.SameAngle (Spec.anomalyR s t + Spec.perigeeR s t + Spec.nodeR s t) m.L
  i : Spec.incl s t = m.i
  ay : Spec.ayCoef s t = longAy m.i
  xl : Spec.xlCoef s t = longL m.i
  t3 : Spec.threeCos s t = 3 * m.θ ^ 2 - 1
  t1 : Spec.oneMinusCos s t = 1 - m.θ ^ 2
  t7 : Spec.sevenCos s t = 7 * m.θ ^ 2 - 1

/-- the vector with the given components -/
def vec (f : Fin 3 → ℝ) : Vec3 ℝ := ⟨f 0, f 1, f 2⟩

theorem rdot_arith {k : ℝ} (hk : k ≠ 0) (R A e r n c p s2 : ℝ) :
    (A * e / r - n * (c / p) * s2 / k) * (R * k / 60.0) = (k * A * e / r - c * n / p * s2) * (R / 60) := by
  rw [show (60.0 : ℝ) = 60 by norm_num]
  have : (A * e / r - n * (c / p) * s2 / k) * (R * k / 60) = (A * e / r * k - n * (c / p) * s2 * (k / k)) * (R / 60) := by ring
  rw [this, div_self hk]; ring

theorem rfdot_arith {k : ℝ} (hk : k ≠ 0) (R P r n c p s2 : ℝ) :
    (P / r + n * (c / p) * s2 / k) * (R * k / 60.0) = (k * P / r + c * n / p * s2) * (R / 60) := by
  rw [show (60.0 : ℝ) = 60 by norm_num]
  have : (P / r + n * (c / p) * s2 / k) * (R * k / 60) = (P / r * k + n * (c / p) * s2 * (k / k)) * (R / 60) := by ring
  rw [this, div_self hk]; ring

/-- Short-period periodics and orientation, for any eccentric longitude. -/
theorem state_of_mean {s : Satrec ℝ} {t : ℝ} {m : Mean} (h : HasMean s t m) :
    ∃ k, k ≤ 9 ∧ (∀ j < k, 1e-12 ≤ |m.correction (m.newton j)|) ∧ (k = 9 ∨ |m.correction (m.newton k)| < 1e-12) ∧
      Spec.position s t = vec (m.positionKm (m.newton k)) ∧ Spec.velocity s t = vec (m.velocityKmS (m.newton k)) ∧
      Spec.radius s t = m.rk (m.newton k) ∧ Spec.semiLatus s t = m.pL := by
  have l1 : (1.0 : ℝ) = 1 := by norm_num
  have lits : (1.0 : ℝ) = 1 ∧ (1.5 : ℝ) = 3 / 2 ∧ (0.5 : ℝ) = 1 / 2 ∧ (0.25 : ℝ) = 1 / 4 ∧ (2.0 : ℝ) = 2 := by norm_num
  have hax : Spec.axn s t = m.axN := by
    unfold Spec.axn Mean.axN; rw [h.e, real_cos, sameAngle_cos h.ω]
  have hip : Spec.invP s t = 1 / (m.a * (1 - m.e ^ 2)) := by
    unfold Spec.invP; rw [h.e, h.a, l1]; ring
  have hay : Spec.ayn s t = m.ayN := by
    unfold Spec.ayn Mean.ayN; rw [h.e, real_sin, sameAngle_sin h.ω, hip, h.ay]; ring
  have hU : Spec.SameAngle (Spec.keplerU s t) m.U := by
    unfold Spec.keplerU Mean.U
    simp only [real_rem, real_TWO_PI]
    refine sameAngle_trans (sameAngle_rem _) ?_
    rw [hip, h.xl, hax]
    have e : 1 / (m.a * (1 - m.e ^ 2)) * longL m.i * m.axN = longL m.i / (m.a * (1 - m.e ^ 2)) * m.axN := by ring
    rw [e]
    exact sameAngle_sub (sameAngle_add h.L (sameAngle_refl _)) h.Ω
  obtain ⟨k, k1, k2, k3, k4⟩ := newton_index m
  have hsc : Spec.sinCosE s t = (Real.sin (m.newton k), Real.cos (m.newton k)) := by
    unfold Spec.sinCosE
    obtain ⟨n, hn⟩ := hU
    rw [hax, hay, hn, ← k4]
    exact newton_turn m.U m.axN m.ayN n 10 m.U 9999.9 (0.0, 0.0)
  refine ⟨k, k1, k2, k3, ?_⟩
  generalize m.newton k = E at *
  have hel : (Spec.axn s t * Spec.axn s t) + (Spec.ayn s t * Spec.ayn s t) = m.eL2 := by
    rw [hax, hay]; unfold Mean.eL2; ring
  have hpL : Spec.semiLatus s t = m.pL := by
    unfold Spec.semiLatus Mean.pL; rw [hel, h.a, l1]
  have hr0 : Spec.radius0 s t = m.r E := by
    unfold Spec.radius0 Mean.r Mean.ecosE; rw [h.a, hsc, hax, hay, l1]
  have hbe : Spec.beta s t = Real.sqrt (1 - m.eL2) := by
    unfold Spec.beta; rw [hel, real_sqrt, l1]
  have hes : Spec.esinE s t = m.esinE E / (1 + Real.sqrt (1 - m.eL2)) := by
    unfold Spec.esinE Mean.esinE; rw [hax, hay, hsc, hbe, l1]
  have hsu : Spec.sinU s t = m.sinu E := by
    unfold Spec.sinU Mean.sinu; rw [h.a, hr0, hsc, hax, hay, hes]; ring
  have hcu : Spec.cosU s t = m.cosu E := by
    unfold Spec.cosU Mean.cosu; rw [h.a, hr0, hsc, hax, hay, hes]; ring
  have hc2 : Spec.cos2u s t = m.cos2u E := by
    unfold Spec.cos2u Mean.cos2u; rw [hsu]; simp only [lits]; ring
  have hs2 : Spec.sin2u s t = m.sin2u E := by
    unfold Spec.sin2u Mean.sin2u; rw [hsu, hcu]; ring
  have hJ : (J2 : ℝ) = 2 * Spec.R3.k2 := by unfold J2 Spec.R3.k2 j2; norm_num
  have hk1 : Spec.k1 s t = Spec.R3.k2 / m.pL := by
    unfold Spec.k1; rw [hpL, hJ]; simp only [lits]; ring
  have hk2 : Spec.k2 s t = Spec.R3.k2 / m.pL ^ 2 := by
    unfold Spec.k2; rw [hk1, hpL]; simp only [lits]; ring
  have hra : Spec.radius s t = m.rk E := by
    unfold Spec.radius Mean.rk; rw [hr0, hk2, hbe, h.t3, hk1, h.t1, hc2]; simp only [lits]; ring
  have hal : Spec.argLat s t = m.uk E := by
    unfold Spec.argLat Mean.uk Mean.u; rw [hsu, hcu, hk2, h.t7, hs2]
    show Complex.arg _ - _ = _
    simp only [lits]; ring
  have hci : Arith.cos (Spec.incl s t) = m.θ := by rw [h.i]; rfl
  have hsi : Arith.sin (Spec.incl s t) = Real.sin m.i := by rw [h.i]; rfl
  have hnS : Spec.SameAngle (Spec.nodeS s t) (m.Ωk E) := by
    unfold Spec.nodeS Mean.Ωk
    rw [hk2, hci, hs2]
    have e : (1.5 : ℝ) * (Spec.R3.k2 / m.pL ^ 2) * m.θ * m.sin2u E = 3 * Spec.R3.k2 * m.θ / (2 * m.pL ^ 2) * m.sin2u E := by
      simp only [lits]; ring
    rw [e]
    exact sameAngle_add h.Ω (sameAngle_refl _)
  have hiS : Spec.inclS s t = m.ik E := by
    unfold Spec.inclS Mean.ik; rw [hci, hsi, h.i, hk2, hc2]; simp only [lits]; ring
  have hmo : Spec.motion s t = m.n := by
    unfold Spec.motion Mean.n
    rw [h.a, real_powf, show (1.5 : ℝ) = 3 / 2 by norm_num]; rfl
  have hX : (XKE : ℝ) = ke := rfl
  have hke : ke ≠ 0 := by unfold ke; norm_num
  have hrd : Spec.rdot s t * ((EARTH_RADIUS * XKE) / 60.0) = m.rdotk E * (kmPerRadius / 60) := by
    unfold Spec.rdot Mean.rdotk Mean.rdot Mean.esinE
    rw [h.a, hax, hay, hsc, hr0, hmo, hk1, h.t1, hs2, hX, real_sqrt, show (EARTH_RADIUS : ℝ) = kmPerRadius from rfl]
    dsimp only
    rw [mul_assoc (m.n * (Spec.R3.k2 / m.pL)), mul_assoc (Spec.R3.k2 * m.n / m.pL)]
    exact rdot_arith hke _ _ _ _ _ _ _ _
  have hrf : Spec.rfdot s t * ((EARTH_RADIUS * XKE) / 60.0) = m.rfdotk E * (kmPerRadius / 60) := by
    unfold Spec.rfdot Mean.rfdotk Mean.rfdot
    rw [hpL, hr0, hmo, hk1, h.t1, hc2, h.t3, hX, real_sqrt, show (EARTH_RADIUS : ℝ) = kmPerRadius from rfl]
    rw [rfdot_arith hke]; simp only [lits]; ring
  have sn := sameAngle_sin hnS
  have cn := sameAngle_cos hnS
  have hu : Spec.unitU (Spec.argLat s t) (Spec.nodeS s t) (Spec.inclS s t) = vec (m.Uvec E) := by
    rw [hal, hiS]
    simp only [Spec.unitU, real_sin, real_cos, sn, cn]; rfl
  have hv : Spec.unitV (Spec.argLat s t) (Spec.nodeS s t) (Spec.inclS s t) = vec (m.Vvec E) := by
    rw [hal, hiS]
    simp only [Spec.unitV, real_sin, real_cos, sn, cn]; rfl
  refine ⟨?_, ?_, hra, hpL⟩
  · simp only [Spec.position]
    rw [hu, hra]; rfl
  · simp only [Spec.velocity]
    rw [hu, hv]
    have e : ∀ x y : ℝ, (Spec.rdot s t * x + Spec.rfdot s t * y) * ((EARTH_RADIUS * XKE) / 60.0) =
        (m.rdotk E * x + m.rfdotk E * y) * (kmPerRadius / 60) := by
      intro x y
      have e1 : ∀ c : ℝ, (Spec.rdot s t * x + Spec.rfdot s t * y) * c = Spec.rdot s t * c * x + Spec.rfdot s t * c * y := by
        intro c; ring
      rw [e1, hrd, hrf]; ring
    simp only [e]; rfl

/-! ## The mean elements of an initialised near-earth record -/

theorem mean_of_init {s s' : Satrec ℝ} {o : SGP4InitOptions ℝ} {r : Except SGP4Error (SGP4Result ℝ)}
    (h : sgp4init s o = some (s', r)) (he : 0 ≤ o.xecco ∧ o.xecco < 1) (hN : s'.method = .N) (t : ℝ) :
    HasMean s' t ((orbitOf s' o).mean o.xnodeo t) ∧ Spec.meanEcc s' t = (orbitOf s' o).eRaw t := by
  have hl := (sgp4init_left h).1
  have hel := initRecord_elements s o
  have hmo : s'.mo = o.xmo := by
    have h0 : s'.mo = (initRecord s o).mo := (congrArg (fun x : Satrec ℝ => x.mo) hl).trans rfl
    rw [h0, hel]
  have hnd : s'.nodeo = o.xnodeo := by
    have h0 : s'.nodeo = (initRecord s o).nodeo := (congrArg (fun x : Satrec ℝ => x.nodeo) hl).trans rfl
    rw [h0, hel]
  have hw : s'.argpo = o.xargpo := by
    have h0 : s'.argpo = (initRecord s o).argpo := (congrArg (fun x : Satrec ℝ => x.argpo) hl).trans rfl
    rw [h0, hel]
  have hin : s'.inclo = o.xinclo := by
    have h0 : s'.inclo = (initRecord s o).inclo := (congrArg (fun x : Satrec ℝ => x.inclo) hl).trans rfl
    rw [h0, hel]
  have hec : s'.ecco = o.xecco := by
    have h0 : s'.ecco = (initRecord s o).ecco := (congrArg (fun x : Satrec ℝ => x.ecco) hl).trans rfl
    rw [h0, hel]
  have hbs : s'.bstar = o.xbstar := by
    have h0 : s'.bstar = (initRecord s o).bstar := (congrArg (fun x : Satrec ℝ => x.bstar) hl).trans rfl
    rw [h0, hel]
  obtain ⟨r1, r2, r3⟩ := C56_secular_rates s s' o r h he
  obtain ⟨c1, c2, c3, c4, c5, c6, c7, c8, c9, c10⟩ := C57_drag_coefficients s s' o r h he
  obtain ⟨p1, p2, p3, p4, p5⟩ := C57_long_period_coefficients s s' o r h he hN
  obtain ⟨sf, ss⟩ := C57_drag_series s s' o r h he
  have hq1 : (orbitOf s' o).anom = o.xmo := rfl
  have hq2 : (orbitOf s' o).argp = o.xargpo := rfl
  have hq3 : (orbitOf s' o).inc = o.xinclo := rfl
  have hq4 : (orbitOf s' o).e = o.xecco := rfl
  have hq5 : (orbitOf s' o).bstar = o.xbstar := rfl
  have hq6 : (orbitOf s' o).n = s'.no := rfl
  have hqa : ((XKE : ℝ) / s'.no) ^ (X2O3 : ℝ) = (orbitOf s' o).a := by
    rw [show (X2O3 : ℝ) = 2 / 3 by unfold X2O3; norm_num]; rfl
  generalize orbitOf s' o = q at *
  have hNd : ¬ s'.method = .D := by rw [hN]; decide
  have hMDF : Spec.anomalyGravity s' t = q.MDF t := by
    unfold Spec.anomalyGravity Orbit.MDF; rw [hmo, r1, hq1]
  have hdr : s'.isimp ≠ 1 → q.fullDrag ∧ Spec.dragAngle s' t = q.δωM t := by
    intro h1
    have hf : q.fullDrag := by
      unfold Orbit.fullDrag
      by_contra hc
      exact h1 (ss (Or.inr (not_le.mp hc))).2.2.2.2.2.2
    refine ⟨hf, ?_⟩
    unfold Spec.dragAngle Orbit.δωM
    rw [if_pos hf]
    simp only [real_cos]
    rw [hMDF, c5, c6, c9, c1]
    norm_num1; ring
  have hsi : s'.isimp = 1 → ¬ q.fullDrag := by
    intro h1 hf
    have := (sf hN hf).2.2.2.2.2.2
    rw [h1] at this; cases this
  have hMp : Spec.anomaly s' t = q.Mp t := by
    unfold Spec.anomaly Orbit.Mp
    by_cases h1 : s'.isimp = 1
    · rw [if_pos h1, hMDF, Orbit.δωM, if_neg (hsi h1), add_zero]
    · rw [if_neg h1, hMDF, (hdr h1).2]
  have hωp : Spec.perigee s' t = q.ω t := by
    unfold Spec.perigee Orbit.ω Orbit.ωDF
    by_cases h1 : s'.isimp = 1
    · rw [if_pos h1, hw, r2, Orbit.δωM, if_neg (hsi h1), hq2, sub_zero]
    · rw [if_neg h1, hw, r2, (hdr h1).2, hq2]
  have hΩp : Spec.node s' t = q.Ω o.xnodeo t := by
    unfold Spec.node Orbit.Ω; rw [hnd, r3, c7]; ring
  have hA : Spec.semiMajor s' t = q.aT t := by
    unfold Spec.semiMajor Spec.dragA Orbit.aT
    rw [real_powf, hqa]
    by_cases h1 : s'.isimp = 1
    · rw [if_pos h1, if_neg (hsi h1), c2]; norm_num1; ring
    · obtain ⟨d2, d3, d4, -⟩ := sf hN (hdr h1).1
      rw [if_neg h1, if_pos (hdr h1).1, c2, d2, d3, d4]; norm_num1; ring
  have hdL : Spec.dragL s' t = q.dL t := by
    unfold Spec.dragL Orbit.dL
    by_cases h1 : s'.isimp = 1
    · rw [if_pos h1, if_neg (hsi h1), c8]; ring
    · obtain ⟨-, -, -, t3, t4, t5, -⟩ := sf hN (hdr h1).1
      rw [if_neg h1, if_pos (hdr h1).1, c8, t3, t4, t5]; ring
  have hE : Spec.meanEcc s' t = q.eRaw t := by
    unfold Spec.meanEcc Spec.dragE Orbit.eRaw
    rw [if_neg hNd, hec, hbs, ← hq4, ← hq5]
    by_cases h1 : s'.isimp = 1
    · rw [if_pos h1, if_neg (hsi h1), c3]
    · rw [if_neg h1, if_pos (hdr h1).1, c3, c4, real_sin, hMp, c10]; ring
  have hpR : Spec.SameAngle (Spec.perigeeR s' t) (q.ω t) := by
    unfold Spec.perigeeR; simp only [real_rem, real_TWO_PI]; rw [hωp]; exact sameAngle_rem _
  have hnR : Spec.SameAngle (Spec.nodeR s' t) (q.Ω o.xnodeo t) := by
    unfold Spec.nodeR; simp only [real_rem, real_TWO_PI]; rw [hΩp]; exact sameAngle_rem _
  have hincl : Spec.incl s' t = o.xinclo := by unfold Spec.incl; rw [if_neg hNd, hin]
  refine ⟨⟨hA, ?_, hpR, hnR, ?_, by rw [hincl]; exact hq3.symm, ?_, ?_, ?_, ?_, ?_⟩, hE⟩
  · unfold Spec.ecc Orbit.mean
    rw [hE]
    simp only [real_flt, decide_eq_true_eq]
    have l : (1.0e-6 : ℝ) = 1 / 10 ^ 6 := by norm_num
    rw [l]
    split
    · rename_i h; rw [max_eq_right h.le]
    · rename_i h; rw [max_eq_left (not_lt.mp h)]
  · have e : Spec.SameAngle (Spec.anomalyR s' t)
        ((Spec.anomaly s' t + s'.no * Spec.dragL s' t) + Spec.perigee s' t + Spec.node s' t - q.ω t - q.Ω o.xnodeo t) := by
      unfold Spec.anomalyR
      simp only [real_rem, real_TWO_PI]
      exact sameAngle_trans (sameAngle_rem _) (sameAngle_sub (sameAngle_sub (sameAngle_rem _) hpR) hnR)
    refine sameAngle_trans (sameAngle_add (sameAngle_add e hpR) hnR) ?_
    rw [hMp, hdL, hωp, hΩp]
    refine ⟨0, ?_⟩
    show _ = q.L o.xnodeo t + _
    unfold Orbit.L
    rw [hq6]; push_cast; ring
  · unfold Spec.ayCoef; rw [if_neg hNd, p1]; show _ = longAy q.inc; rw [hq3]
  · unfold Spec.xlCoef; rw [if_neg hNd, p2]; show _ = longL q.inc; rw [hq3]
  · unfold Spec.threeCos; rw [if_neg hNd, p3]; show _ = 3 * Real.cos q.inc ^ 2 - 1; rw [hq3]
  · unfold Spec.oneMinusCos; rw [if_neg hNd, p4]; show _ = 1 - Real.cos q.inc ^ 2; rw [hq3]
  · unfold Spec.sevenCos; rw [if_neg hNd, p5]; show _ = 7 * Real.cos q.inc ^ 2 - 1; rw [hq3]

/-- **C64.** Whatever a near-earth record was initialised from, `sgp4` at any time either reports an error or returns exactly the
position (km) and velocity (km/s) of SGP4 as published (Spacetrack Report No. 3), evaluated at the eccentric longitude given by
the Newton iteration of the report: the first approximation whose correction is below 1e-12, or the tenth. -/
theorem C64_near_earth_published (s s' s'' : Satrec ℝ) (o : SGP4InitOptions ℝ) (r : Except SGP4Error (SGP4Result ℝ)) (t : ℝ)
    (v : SGP4Result ℝ) (h : sgp4init s o = some (s', r)) (he : 0 ≤ o.xecco ∧ o.xecco < 1) (hN : s'.method = .N)
    (ht : sgp4 s' t = some (s'', .ok v)) :
    let q : Orbit :=
      { n := recoveredMotion o.xno o.xecco o.xinclo, e := o.xecco, inc := o.xinclo, argp := o.xargpo, anom := o.xmo, bstar := o.xbstar }
    let m := q.mean o.xnodeo t
    ∃ k, k ≤ 9 ∧ (∀ j < k, 1e-12 ≤ |m.correction (m.newton j)|) ∧ (k = 9 ∨ |m.correction (m.newton k)| < 1e-12) ∧
      v.position = vec (m.positionKm (m.newton k)) ∧ v.velocity = vec (m.velocityKmS (m.newton k)) := by
  have hq : orbitOf s' o = ⟨recoveredMotion o.xno o.xecco o.xinclo, o.xecco, o.xinclo, o.xargpo, o.xmo, o.xbstar⟩ := by
    unfold orbitOf; rw [C56_recovered_motion s s' o r h he]
  dsimp only
  rw [← hq]
  obtain ⟨k, k1, k2, k3, kp, kv, -, -⟩ := state_of_mean (mean_of_init h he hN t).1
  obtain ⟨vp, vv, -⟩ := ok_spec ht
  exact ⟨k, k1, k2, k3, vp.trans kp, vv.trans kv⟩

open Classical in
/-- **C64**, with the errors: the complete outcome of `sgp4` on an initialised near-earth record, in the terms of the report. -/
theorem C64_near_earth_outcome (s s' : Satrec ℝ) (o : SGP4InitOptions ℝ) (r : Except SGP4Error (SGP4Result ℝ)) (t : ℝ)
    (h : sgp4init s o = some (s', r)) (he : 0 ≤ o.xecco ∧ o.xecco < 1) (hN : s'.method = .N) :
    let q : Orbit :=
      { n := recoveredMotion o.xno o.xecco o.xinclo, e := o.xecco, inc := o.xinclo, argp := o.xargpo, anom := o.xmo, bstar := o.xbstar }
    let m := q.mean o.xnodeo t
    ∃ k, k ≤ 9 ∧ (∀ j < k, 1e-12 ≤ |m.correction (m.newton j)|) ∧ (k = 9 ∨ |m.correction (m.newton k)| < 1e-12) ∧
      (sgp4 s' t).map Prod.snd = some (
        if q.n ≤ 0 then .error .Nm
        else if 1 ≤ q.eRaw t ∨ q.eRaw t < -0.001 then .error .Eccentricty
        else if m.pL < 0 then .error .Pl
        else if m.rk (m.newton k) < 1 then .error .DecayCondition
        else .ok { position := vec (m.positionKm (m.newton k)), velocity := vec (m.velocityKmS (m.newton k)) }) := by
  intro q
  have hq : q = orbitOf s' o := by
    unfold orbitOf; rw [C56_recovered_motion s s' o r h he]
  clear_value q
  subst hq
  dsimp only
  obtain ⟨hm, hE⟩ := mean_of_init h he hN t
  obtain ⟨k, k1, k2, k3, kp, kv, kr, kl⟩ := state_of_mean hm
  refine ⟨k, k1, k2, k3, ?_⟩
  have h1 := sgp4_refines s' t (fun hD => by rw [hN] at hD; cases hD)
  change (sgp4 s' t).map Prod.snd = _ at h1
  rw [h1]
  congr 1
  have hNd : ¬ s'.method = .D := by rw [hN]; decide
  have hn : (orbitOf s' o).n = s'.no := rfl
  unfold Spec.result
  rw [kp, kv, kr, kl, hE]
  simp only [hNd, false_and, if_false, real_fle, real_flt, Bool.or_eq_true, decide_eq_true_eq]
  have l0 : (0.0 : ℝ) = 0 := by norm_num
  have l1 : (1.0 : ℝ) = 1 := by norm_num
  rw [l0, l1, hn]

end Sat
