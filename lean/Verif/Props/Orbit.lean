import Verif.Props.Propagate
import Verif.Props.Frames
import Mathlib.Analysis.SpecialFunctions.Trigonometric.Bounds
/-!
# Geometry of the propagated state (exact real arithmetic)

C11-C15 over `ℝ`; the decay check of C11 also over every arithmetic.
-/

set_option linter.unusedSimpArgs false

namespace Sat
open Spec

/-! ## C11 and C12 -/

/-- C11, every arithmetic: a radius below one earth radius is never returned as `Ok`. -/
theorem C11_decay_reported {F : Type} [Arith F] (s s' : Satrec F) (t : F) (r : Except SGP4Error (SGP4Result F))
    (h : sgp4 s t = some (s', r)) (hr : (Spec.radius s t <. 1.0) = true) : ∃ e, r = .error e := by
  cases r with
  | error e => exact ⟨e, rfl⟩
  | ok v =>
    have := ((C16_error_conditions s s' t _ h).2.2.2.2.2.mp ⟨v, rfl⟩).2.2.2.2
    exact absurd hr this

theorem unit_dots (u n i : ℝ) : dot (unitU u n i) (unitU u n i) = 1 ∧ dot (unitV u n i) (unitV u n i) = 1 ∧
    dot (unitU u n i) (unitV u n i) = 0 := by
  have h1 := Real.sin_sq_add_cos_sq u
  have h2 := Real.sin_sq_add_cos_sq n
  have h3 := Real.sin_sq_add_cos_sq i
  simp only [dot, unitU, unitV, real_sin, real_cos]
  generalize Real.sin u = a at *
  generalize Real.cos u = b at *
  generalize Real.sin n = c at *
  generalize Real.cos n = d at *
  generalize Real.sin i = e at *
  generalize Real.cos i = f at *
  refine ⟨?_, ?_, ?_⟩
  · linear_combination (b ^ 2 + f ^ 2 * a ^ 2) * h2 + a ^ 2 * h3 + h1
  · linear_combination (a ^ 2 + f ^ 2 * b ^ 2) * h2 + b ^ 2 * h3 + h1
  · linear_combination (f ^ 2 * a * b - a * b) * h2 + a * b * h3

/-- What an `Ok` result is: position and velocity of the specification, with radius at least one. -/
theorem ok_spec {s s' : Satrec ℝ} {t : ℝ} {v : SGP4Result ℝ} (h : sgp4 s t = some (s', .ok v)) :
    v.position = Spec.position s t ∧ v.velocity = Spec.velocity s t ∧ 1 ≤ Spec.radius s t := by
  have h1 := C16_outcome s s' t _ h
  have h2 := ((C16_error_conditions s s' t _ h).2.2.2.2.2.mp ⟨v, rfl⟩)
  obtain ⟨a, b, c, d, e⟩ := h2
  have e' : 1 ≤ Spec.radius s t := by
    simp only [real_flt, decide_eq_true_eq, not_lt] at e; norm_num at e; exact e
  simp only [Spec.result] at h1
  rw [if_neg a, if_neg (by simpa using b), if_neg (by simpa using c), if_neg d, if_neg e] at h1
  injection h1 with h1
  subst h1
  exact ⟨rfl, rfl, e'⟩

/-- **C11** (exact arithmetic): an `Ok` position has length (perturbed radius) × 6378.137 km and is never below the surface. -/
theorem C11_above_surface (s s' : Satrec ℝ) (t : ℝ) (v : SGP4Result ℝ) (h : sgp4 s t = some (s', .ok v)) :
    len v.position = Spec.radius s t * 6378.137 ∧ 6378.137 ≤ len v.position := by
  obtain ⟨hp, -, hr⟩ := ok_spec h
  have hU := (unit_dots (argLat s t) (nodeS s t) (inclS s t)).1
  have hR : len v.position = Spec.radius s t * 6378.137 := by
    rw [hp, len]
    have : dot (Spec.position s t) (Spec.position s t) = (Spec.radius s t * 6378.137) ^ 2 := by
      simp only [Spec.position, EARTH_RADIUS]
      simp only [dot] at hU ⊢
      norm_num
      linear_combination (Spec.radius s t * (6378137 / 1000)) ^ 2 * hU
    rw [this, Real.sqrt_sq]
    have : (0:ℝ) ≤ 6378.137 := by norm_num
    positivity
  refine ⟨hR, ?_⟩
  rw [hR]
  have : (0:ℝ) ≤ 6378.137 := by norm_num
  nlinarith

/-- normal of an orbit with node `n` and inclination `i` -/
noncomputable def orbitNormal (n i : ℝ) : Vec3 ℝ := ⟨Real.sin i * Real.sin n, -(Real.sin i * Real.cos n), Real.cos i⟩

/-- **C12** (exact arithmetic): the position is along a unit vector `U`, the velocity is a combination of `U` and a unit
vector `V` orthogonal to `U`, both orthogonal to the orbit normal of the perturbed node and inclination; position ×
velocity is a multiple of that normal, the factor being |position| times the transverse speed. -/
theorem C12_orbital_plane (s s' : Satrec ℝ) (t : ℝ) (v : SGP4Result ℝ) (h : sgp4 s t = some (s', .ok v)) :
    ∃ (U V : Vec3 ℝ) (vr vt : ℝ), dot U U = 1 ∧ dot V V = 1 ∧ dot U V = 0 ∧
      v.position = scale (len v.position) U ∧ v.velocity = along (scale vr U) vt V ∧
      dot U (orbitNormal (nodeS s t) (inclS s t)) = 0 ∧ dot V (orbitNormal (nodeS s t) (inclS s t)) = 0 ∧
      cross v.position v.velocity = scale (len v.position * vt) (orbitNormal (nodeS s t) (inclS s t)) := by
  obtain ⟨hU, hV, hUV⟩ := unit_dots (argLat s t) (nodeS s t) (inclS s t)
  obtain ⟨hlen, -⟩ := C11_above_surface s s' t v h
  obtain ⟨hp, hv, hr⟩ := ok_spec h
  have hp' : v.position = scale (len v.position) (unitU (argLat s t) (nodeS s t) (inclS s t)) := by
    rw [hlen, hp]
    ext <;> simp only [Spec.position, scale, EARTH_RADIUS] <;> norm_num <;> ring
  have hv' : v.velocity = along (scale (rdot s t * ((6378.137 * XKE) / 60)) (unitU (argLat s t) (nodeS s t) (inclS s t)))
      (rfdot s t * ((6378.137 * XKE) / 60)) (unitV (argLat s t) (nodeS s t) (inclS s t)) := by
    rw [hv]
    ext <;> simp only [Spec.velocity, scale, along, EARTH_RADIUS] <;> norm_num <;> ring
  refine ⟨unitU (argLat s t) (nodeS s t) (inclS s t), unitV (argLat s t) (nodeS s t) (inclS s t),
    rdot s t * ((6378.137 * XKE) / 60), rfdot s t * ((6378.137 * XKE) / 60), hU, hV, hUV, hp', hv', ?_, ?_, ?_⟩
  · simp only [dot, unitU, orbitNormal, real_sin, real_cos]
    linear_combination (-Real.sin (inclS s t) * Real.cos (inclS s t) * Real.sin (argLat s t)) * Real.sin_sq_add_cos_sq (nodeS s t)
  · simp only [dot, unitV, orbitNormal, real_sin, real_cos]
    linear_combination (-Real.sin (inclS s t) * Real.cos (inclS s t) * Real.cos (argLat s t)) * Real.sin_sq_add_cos_sq (nodeS s t)
  · generalize len v.position = L at *
    rw [hp', hv']
    generalize rdot s t * ((6378.137 * XKE) / 60) = a
    generalize rfdot s t * ((6378.137 * XKE) / 60) = b
    have h1 := Real.sin_sq_add_cos_sq (argLat s t)
    have h2 := Real.sin_sq_add_cos_sq (nodeS s t)
    simp only [cross, scale, along, unitU, unitV, orbitNormal, real_sin, real_cos]
    generalize Real.sin (argLat s t) = su at *
    generalize Real.cos (argLat s t) = cu at *
    generalize Real.sin (nodeS s t) = sn at *
    generalize Real.cos (nodeS s t) = cn at *
    generalize Real.sin (inclS s t) = si at *
    generalize Real.cos (inclS s t) = ci at *
    ext
    · simp only; linear_combination L * b * si * sn * h1
    · simp only; linear_combination (-L * b * si * cn) * h1
    · simp only; linear_combination L * b * ci * (sn ^ 2 + cn ^ 2) * h1 + L * b * ci * h2

/-! ## C13 and C14: symmetries -/

/-- a record with mean anomaly, perigee and node moved -/
def turned {F : Type} [Arith F] (s : Satrec F) (dm dw dn : F) : Satrec F :=
  { s with mo := s.mo + dm, argpo := s.argpo + dw, nodeo := s.nodeo + dn }

/-- rotating the outcome about the z axis; errors are not affected -/
noncomputable def rotOutcome (δ : ℝ) : Except SGP4Error (SGP4Result ℝ) → Except SGP4Error (SGP4Result ℝ)
  | .error e => .error e
  | .ok v => .ok { position := rotZ δ v.position, velocity := rotZ δ v.velocity }

theorem sameAngle_refl (a : ℝ) : SameAngle a a := ⟨0, by simp⟩
theorem sameAngle_symm {a b : ℝ} (h : SameAngle a b) : SameAngle b a := by
  obtain ⟨k, hk⟩ := h; exact ⟨-k, by rw [hk]; push_cast; ring⟩
theorem sameAngle_trans {a b c : ℝ} (h : SameAngle a b) (h' : SameAngle b c) : SameAngle a c := by
  obtain ⟨k, hk⟩ := h; obtain ⟨l, hl⟩ := h'; exact ⟨k + l, by rw [hk, hl]; push_cast; ring⟩
theorem sameAngle_add {a b c d : ℝ} (h : SameAngle a b) (h' : SameAngle c d) : SameAngle (a + c) (b + d) := by
  obtain ⟨k, hk⟩ := h; obtain ⟨l, hl⟩ := h'; exact ⟨k + l, by rw [hk, hl]; push_cast; ring⟩
theorem sameAngle_sub {a b c d : ℝ} (h : SameAngle a b) (h' : SameAngle c d) : SameAngle (a - c) (b - d) := by
  obtain ⟨k, hk⟩ := h; obtain ⟨l, hl⟩ := h'; exact ⟨k - l, by rw [hk, hl]; push_cast; ring⟩
theorem sameAngle_rem (x : ℝ) : SameAngle (remR x (2 * Real.pi)) x := by
  obtain ⟨k, hk⟩ := remR_congr x (2 * Real.pi); exact ⟨-k, by rw [hk]; push_cast; ring⟩
theorem sameAngle_sin {a b : ℝ} (h : SameAngle a b) : Real.sin a = Real.sin b := by
  obtain ⟨k, hk⟩ := h; rw [hk, Real.sin_add_int_mul_two_pi]
theorem sameAngle_cos {a b : ℝ} (h : SameAngle a b) : Real.cos a = Real.cos b := by
  obtain ⟨k, hk⟩ := h; rw [hk, Real.cos_add_int_mul_two_pi]

/-- Newton's method does not see whole turns. -/
theorem newton_turn (U ax ay : ℝ) (k : ℤ) (n : ℕ) (E d : ℝ) (sc : ℝ × ℝ) :
    Spec.newton (U + k * (2 * Real.pi)) ax ay n (E + k * (2 * Real.pi)) d sc = Spec.newton U ax ay n E d sc := by
  induction n generalizing E d sc with
  | zero => rfl
  | succ n ih =>
    simp only [Spec.newton, real_sin, real_cos, Real.sin_add_int_mul_two_pi, Real.cos_add_int_mul_two_pi]
    have e : (U + k * (2 * Real.pi) - ay * Real.cos E + ax * Real.sin E - (E + k * (2 * Real.pi))) =
        (U - ay * Real.cos E + ax * Real.sin E - E) := by ring
    rw [e]
    have e2 : ∀ x : ℝ, E + k * (2 * Real.pi) + x = (E + x) + k * (2 * Real.pi) := by intro x; ring
    simp only [e2, ih]

/-- All quantities of a turned near-earth record. -/
theorem turned_quantities (s : Satrec ℝ) (hN : s.method = .N) (a b : ℤ) (δ t : ℝ) :
    let s2 := turned s (a * (2 * Real.pi)) (b * (2 * Real.pi)) δ
    SameAngle (nodeR s2 t) (nodeR s t + δ) ∧ SameAngle (perigeeR s2 t) (perigeeR s t) ∧
    SameAngle (keplerU s2 t) (keplerU s t) ∧ meanEcc s2 t = meanEcc s t ∧ semiMajor s2 t = semiMajor s t ∧
    ecc s2 t = ecc s t ∧ axn s2 t = axn s t ∧ ayn s2 t = ayn s t := by
  intro s2
  have hm : s2.method = s.method := rfl
  have hg : SameAngle (anomalyGravity s2 t) (anomalyGravity s t) := ⟨a, by
    show s.mo + a * (2 * Real.pi) + s.mdot * t = s.mo + s.mdot * t + a * (2 * Real.pi); ring⟩
  have hda : dragAngle s2 t = dragAngle s t := by
    simp only [dragAngle, real_cos, sameAngle_cos hg]; rfl
  have han : SameAngle (anomaly s2 t) (anomaly s t) := by
    simp only [anomaly, hda]
    change SameAngle (if s.isimp = 1 then _ else _) _
    split
    · exact hg
    · exact sameAngle_add hg (sameAngle_refl _)
  have hw0 : SameAngle (s2.argpo + s2.argpdot * t) (s.argpo + s.argpdot * t) := ⟨b, by
    show s.argpo + b * (2 * Real.pi) + s.argpdot * t = s.argpo + s.argpdot * t + b * (2 * Real.pi); ring⟩
  have hpe : SameAngle (perigee s2 t) (perigee s t) := by
    simp only [perigee, hda]
    change SameAngle (if s.isimp = 1 then _ else _) _
    split
    · exact hw0
    · exact sameAngle_sub hw0 (sameAngle_refl _)
  have hno : node s2 t = node s t + δ := by
    show s.nodeo + δ + s.nodedot * t + s.nodecf * (t * t) = s.nodeo + s.nodedot * t + s.nodecf * (t * t) + δ; ring
  have hnR : SameAngle (nodeR s2 t) (nodeR s t + δ) := by
    simp only [nodeR, real_rem, real_TWO_PI]
    refine sameAngle_trans (sameAngle_rem _) ?_
    rw [hno]
    exact sameAngle_add (sameAngle_symm (sameAngle_rem _)) (sameAngle_refl _)
  have hpR : SameAngle (perigeeR s2 t) (perigeeR s t) := by
    simp only [perigeeR, real_rem, real_TWO_PI]
    exact sameAngle_trans (sameAngle_rem _) (sameAngle_trans hpe (sameAngle_symm (sameAngle_rem _)))
  have hdE : dragE s2 t = dragE s t := by
    simp only [dragE, real_sin, sameAngle_sin han]; rfl
  have hdL : dragL s2 t = dragL s t := rfl
  have hme : meanEcc s2 t = meanEcc s t := by
    simp only [meanEcc, hdE]; rfl
  have hec : ecc s2 t = ecc s t := by simp only [ecc, hme]
  have hsm : semiMajor s2 t = semiMajor s t := rfl
  have haR : SameAngle (anomalyR s2 t) (anomalyR s t) := by
    simp only [anomalyR, real_rem, real_TWO_PI, hdL]
    refine sameAngle_trans (sameAngle_rem _) (sameAngle_trans ?_ (sameAngle_symm (sameAngle_rem _)))
    have h1 : SameAngle (remR (anomaly s2 t + s2.no * dragL s t + perigee s2 t + node s2 t) (2 * Real.pi))
        (remR (anomaly s t + s.no * dragL s t + perigee s t + node s t) (2 * Real.pi) + δ) := by
      refine sameAngle_trans (sameAngle_rem _) ?_
      rw [hno]
      have h2 : SameAngle (anomaly s2 t + s2.no * dragL s t + perigee s2 t + (node s t + δ))
          (anomaly s t + s.no * dragL s t + perigee s t + (node s t + δ)) :=
        sameAngle_add (sameAngle_add (sameAngle_add han (sameAngle_refl _)) hpe) (sameAngle_refl _)
      refine sameAngle_trans h2 ?_
      rw [← add_assoc]
      exact sameAngle_add (sameAngle_symm (sameAngle_rem _)) (sameAngle_refl _)
    have h3 := sameAngle_sub (sameAngle_sub h1 hpR) hnR
    refine sameAngle_trans h3 ?_
    have e : ∀ x p n : ℝ, x + δ - p - (n + δ) = x - p - n := by intros; ring
    rw [e]; exact sameAngle_refl _
  have hip : invP s2 t = invP s t := by simp only [invP, hec, hsm]
  have hax : axn s2 t = axn s t := by simp only [axn, hec, real_cos, sameAngle_cos hpR]
  have hayc : ayCoef s2 t = ayCoef s t := by
    simp only [ayCoef, hm, hN]; rfl
  have hxlc : xlCoef s2 t = xlCoef s t := by
    simp only [xlCoef, hm, hN]; rfl
  have hay : ayn s2 t = ayn s t := by simp only [ayn, hec, real_sin, sameAngle_sin hpR, hip, hayc]
  refine ⟨hnR, hpR, ?_, hme, hsm, hec, hax, hay⟩
  simp only [keplerU, real_rem, real_TWO_PI, hip, hxlc, hax]
  refine sameAngle_trans (sameAngle_rem _) (sameAngle_trans ?_ (sameAngle_symm (sameAngle_rem _)))
  have h1 := sameAngle_sub (sameAngle_add (sameAngle_add (sameAngle_add haR hpR) hnR)
    (sameAngle_refl (invP s t * xlCoef s t * axn s t))) hnR
  refine sameAngle_trans h1 ?_
  have e : ∀ x n y : ℝ, x + (n + δ) + y - (n + δ) = x + n + y - n := by intros; ring
  rw [e]; exact sameAngle_refl _

/-- The outcome for a turned near-earth record is the rotated outcome. -/
theorem turned_result (s : Satrec ℝ) (hN : s.method = .N) (a b : ℤ) (δ t : ℝ) :
    Spec.result (turned s (a * (2 * Real.pi)) (b * (2 * Real.pi)) δ) t = rotOutcome δ (Spec.result s t) := by
  obtain ⟨hn, hw, hU, hme, hsm, hec, hax, hay⟩ := turned_quantities s hN a b δ t
  generalize hs2 : turned s (a * (2 * Real.pi)) (b * (2 * Real.pi)) δ = s2 at *
  have hm2 : s2.method = .N := by rw [← hs2]; exact hN
  have hno : s2.no = s.no := by rw [← hs2]; rfl
  have hmN : s.method ≠ .D := by rw [hN]; decide
  have hm2N : s2.method ≠ .D := by rw [hm2]; decide
  have hsc : sinCosE s2 t = sinCosE s t := by
    simp only [sinCosE, hax, hay]
    obtain ⟨k, hk⟩ := hU
    rw [hk]; exact newton_turn _ _ _ k 10 _ _ _
  have hsl : Spec.semiLatus s2 t = Spec.semiLatus s t := by simp only [Spec.semiLatus, hsm, hax, hay]
  have hr0 : radius0 s2 t = radius0 s t := by simp only [radius0, hsm, hax, hay, hsc]
  have hbe : beta s2 t = beta s t := by simp only [beta, hax, hay]
  have hes : esinE s2 t = esinE s t := by simp only [esinE, hax, hay, hsc, hbe]
  have hsu : sinU s2 t = sinU s t := by simp only [sinU, hsm, hr0, hax, hay, hsc, hes]
  have hcu : cosU s2 t = cosU s t := by simp only [cosU, hsm, hr0, hax, hay, hsc, hes]
  have hk1 : k1 s2 t = k1 s t := by simp only [k1, hsl]
  have hk2 : k2 s2 t = k2 s t := by simp only [k2, hk1, hsl]
  have hth : threeCos s2 t = threeCos s t := by simp only [threeCos, if_neg hmN, if_neg hm2N]; rw [← hs2]; rfl
  have hon : oneMinusCos s2 t = oneMinusCos s t := by simp only [oneMinusCos, if_neg hmN, if_neg hm2N]; rw [← hs2]; rfl
  have hse : sevenCos s2 t = sevenCos s t := by simp only [sevenCos, if_neg hmN, if_neg hm2N]; rw [← hs2]; rfl
  have hin : incl s2 t = incl s t := by simp only [incl, if_neg hmN, if_neg hm2N]; rw [← hs2]; rfl
  have hc2 : cos2u s2 t = cos2u s t := by simp only [cos2u, hsu]
  have hs2u : sin2u s2 t = sin2u s t := by simp only [sin2u, hsu, hcu]
  have hra : Spec.radius s2 t = Spec.radius s t := by simp only [Spec.radius, hr0, hk2, hbe, hth, hk1, hon, hc2]
  have hal : argLat s2 t = argLat s t := by simp only [argLat, hsu, hcu, hk2, hse, hs2u]
  have hnS : SameAngle (nodeS s2 t) (nodeS s t + δ) := by
    simp only [nodeS, hk2, hin, hs2u]
    have e : nodeR s t + 1.5 * k2 s t * Arith.cos (incl s t) * sin2u s t + δ =
      (nodeR s t + δ) + 1.5 * k2 s t * Arith.cos (incl s t) * sin2u s t := add_right_comm _ _ _
    rw [e]; exact sameAngle_add hn (sameAngle_refl _)
  have hiS : inclS s2 t = inclS s t := by simp only [inclS, hin, hk2, hc2]
  have hmo : Spec.motion s2 t = Spec.motion s t := by simp only [Spec.motion, hsm]
  have hrd : rdot s2 t = rdot s t := by simp only [rdot, hsm, hax, hay, hsc, hr0, hmo, hk1, hon, hs2u]
  have hrf : rfdot s2 t = rfdot s t := by simp only [rfdot, hsl, hr0, hmo, hk1, hon, hc2, hth]
  have sn := sameAngle_sin hnS
  have cn := sameAngle_cos hnS
  rw [Real.sin_add] at sn
  rw [Real.cos_add] at cn
  have hUu : unitU (argLat s2 t) (nodeS s2 t) (inclS s2 t) = rotZ δ (unitU (argLat s t) (nodeS s t) (inclS s t)) := by
    rw [hal, hiS]
    ext <;> simp only [unitU, rotZ, real_sin, real_cos, sn, cn] <;> ring
  have hVv : unitV (argLat s2 t) (nodeS s2 t) (inclS s2 t) = rotZ δ (unitV (argLat s t) (nodeS s t) (inclS s t)) := by
    rw [hal, hiS]
    ext <;> simp only [unitV, rotZ, real_sin, real_cos, sn, cn] <;> ring
  have hpos : Spec.position s2 t = rotZ δ (Spec.position s t) := by
    simp only [Spec.position, hUu, hra]
    ext <;> simp only [rotZ] <;> ring
  have hvel : Spec.velocity s2 t = rotZ δ (Spec.velocity s t) := by
    simp only [Spec.velocity, hUu, hVv, hrd, hrf]
    have h1 : ∀ (c a b x y x' y' p q : ℝ), (a * (x * p - y * q) + b * (x' * p - y' * q)) * c =
      (a * x + b * x') * c * p - (a * y + b * y') * c * q := by intros; ring
    have h2 : ∀ (c a b x y x' y' p q : ℝ), (a * (x * q + y * p) + b * (x' * q + y' * p)) * c =
      (a * x + b * x') * c * q + (a * y + b * y') * c * p := by intros; ring
    ext <;> simp only [rotZ]
    · exact h1 _ _ _ _ _ _ _ _ _
    · exact h2 _ _ _ _ _ _ _ _ _
  simp only [Spec.result, hno, hme, hm2, hN, hsl, hra, hpos, hvel]
  simp only [reduceCtorEq, false_and, if_false]
  split_ifs <;> rfl

/-- **C13** (exact arithmetic): adding `δ` to the node of a near-earth record rotates every propagated position and velocity about the z axis by `δ`,
and errors occur in exactly the same cases. -/
theorem C13_node_rotation (s : Satrec ℝ) (hN : s.method = .N) (δ t : ℝ) :
    (sgp4 { s with nodeo := s.nodeo + δ } t).map Prod.snd = (sgp4 s t).map (fun o => rotOutcome δ o.2) := by
  have h1 := sgp4_refines s t (fun hD => by rw [hN] at hD; cases hD)
  have h2 := sgp4_refines ({ s with nodeo := s.nodeo + δ }) t (fun hD => by
    change s.method = .D at hD; rw [hN] at hD; cases hD)
  have e : ({ s with nodeo := s.nodeo + δ } : Satrec ℝ) = turned s (((0:ℤ):ℝ) * (2 * Real.pi)) (((0:ℤ):ℝ) * (2 * Real.pi)) δ := by
    simp [turned]
  have h3 := turned_result s hN 0 0 δ t
  rw [← e] at h3
  change (sgp4 _ t).map Prod.snd = _ at h1
  change (sgp4 _ t).map Prod.snd = _ at h2
  rw [h2, h3]
  cases hs : sgp4 s t with
  | none => rw [hs] at h1; cases h1
  | some o =>
    rw [hs] at h1
    simp only [Option.map_some, Option.some.injEq] at h1 ⊢
    rw [h1]

theorem rotOutcome_turn (k : ℤ) (r : Except SGP4Error (SGP4Result ℝ)) : rotOutcome (k * (2 * Real.pi)) r = r := by
  have hc : Real.cos (k * (2 * Real.pi)) = 1 := Real.cos_int_mul_two_pi k
  have hs : Real.sin (k * (2 * Real.pi)) = 0 := by
    have := Real.sin_add_int_mul_two_pi 0 k
    simpa using this
  have h : ∀ v : Vec3 ℝ, rotZ (k * (2 * Real.pi)) v = v := by
    intro v; ext <;> simp [rotZ, hc, hs]
  cases r with
  | error e => rfl
  | ok v => simp only [rotOutcome, h]

/-- **C14** (exact arithmetic): adding whole turns to mean anomaly, argument of perigee and node of a near-earth record changes no result. -/
theorem C14_whole_turns (s : Satrec ℝ) (hN : s.method = .N) (i j k : ℤ) (t : ℝ) :
    (sgp4 { s with mo := s.mo + i * (2 * Real.pi), argpo := s.argpo + j * (2 * Real.pi), nodeo := s.nodeo + k * (2 * Real.pi) } t).map Prod.snd =
      (sgp4 s t).map Prod.snd := by
  have h1 := sgp4_refines s t (fun hD => by rw [hN] at hD; cases hD)
  have h2 := sgp4_refines (turned s (i * (2 * Real.pi)) (j * (2 * Real.pi)) (k * (2 * Real.pi))) t (fun hD => by
    change s.method = .D at hD; rw [hN] at hD; cases hD)
  rw [turned_result s hN, rotOutcome_turn, ← h1] at h2
  exact h2

/-! ## C15: Kepler's equation -/

/-- second-order remainder of `exp (i δ)` -/
theorem cis_remainder (δ : ℝ) : (Real.cos δ - 1) ^ 2 + (Real.sin δ - δ) ^ 2 ≤ (δ ^ 2 / 2) ^ 2 := by
  have key : ∀ x : ℝ, 0 ≤ x → (Real.cos x - 1) ^ 2 + (Real.sin x - x) ^ 2 ≤ (x ^ 2 / 2) ^ 2 := by
    intro x hx
    let k : ℝ → ℝ := fun y => y ^ 4 / 4 - (2 - 2 * Real.cos y - 2 * y * Real.sin y + y ^ 2)
    have hd : ∀ y, HasDerivAt k (y * (y ^ 2 - 2 * (1 - Real.cos y))) y := by
      intro y
      have h1 : HasDerivAt (fun y : ℝ => y ^ 4 / 4) (y ^ 3) y := by
        have := (hasDerivAt_pow 4 y).div_const 4
        exact this.congr_deriv (by push_cast; ring)
      have h2 : HasDerivAt (fun y : ℝ => 2 - 2 * Real.cos y - 2 * y * Real.sin y + y ^ 2)
          (2 * Real.sin y - (2 * Real.sin y + 2 * y * Real.cos y) + 2 * y) y := by
        have a := (Real.hasDerivAt_cos y).const_mul 2
        have b := ((hasDerivAt_id y).const_mul 2).mul (Real.hasDerivAt_sin y)
        have c := hasDerivAt_pow 2 y
        have := (((hasDerivAt_const y (2:ℝ)).sub a).sub b).add c
        exact this.congr_deriv (by simp)
      have := h1.sub h2
      exact this.congr_deriv (by ring)
    have hmono : MonotoneOn k (Set.Ici 0) := by
      apply monotoneOn_of_deriv_nonneg (convex_Ici 0)
      · exact fun y _ => (hd y).continuousAt.continuousWithinAt
      · exact fun y _ => (hd y).differentiableAt.differentiableWithinAt
      · intro y hy
        rw [interior_Ici] at hy
        rw [(hd y).deriv]
        have := Real.one_sub_sq_div_two_le_cos (x := y)
        apply mul_nonneg hy.le
        linarith
    have h0 := hmono (Set.mem_Ici.mpr le_rfl) (Set.mem_Ici.mpr hx) hx
    simp only [k] at h0
    have := Real.sin_sq_add_cos_sq x
    simp at h0
    nlinarith
  rcases le_total 0 δ with h | h
  · exact key δ h
  · have := key (-δ) (by linarith)
    rw [Real.cos_neg, Real.sin_neg] at this
    calc (Real.cos δ - 1) ^ 2 + (Real.sin δ - δ) ^ 2 = (Real.cos δ - 1) ^ 2 + (-Real.sin δ - -δ) ^ 2 := by ring
      _ ≤ ((-δ) ^ 2 / 2) ^ 2 := this
      _ = (δ ^ 2 / 2) ^ 2 := by ring

/-- residual of Kepler's equation in the eccentric longitude: `U - (E - ax sin E + ay cos E)` -/
noncomputable def keplerResidual (U ax ay E : ℝ) : ℝ := U - (E - ax * Real.sin E + ay * Real.cos E)

theorem newton_residual (U ax ay E δ : ℝ) (hD : 1 - Real.cos E * ax - Real.sin E * ay ≠ 0)
    (hδ : δ = (U - ay * Real.cos E + ax * Real.sin E - E) / (1 - Real.cos E * ax - Real.sin E * ay)) :
    |keplerResidual U ax ay (E + δ)| ≤ (|ax| + |ay|) / 2 * δ ^ 2 := by
  have hδ' : δ * (1 - Real.cos E * ax - Real.sin E * ay) = U - ay * Real.cos E + ax * Real.sin E - E := by
    rw [hδ, div_mul_cancel₀ _ hD]
  set P := Real.sin E * (Real.cos δ - 1) + Real.cos E * (Real.sin δ - δ) with hP
  set Q := Real.cos E * (Real.cos δ - 1) - Real.sin E * (Real.sin δ - δ) with hQ
  have hres : keplerResidual U ax ay (E + δ) = ax * P - ay * Q := by
    rw [keplerResidual, Real.sin_add, Real.cos_add, hP, hQ]
    linear_combination -hδ'
  have hPQ : P ^ 2 + Q ^ 2 ≤ (δ ^ 2 / 2) ^ 2 := by
    have := cis_remainder δ
    have h1 := Real.sin_sq_add_cos_sq E
    have : P ^ 2 + Q ^ 2 = (Real.cos δ - 1) ^ 2 + (Real.sin δ - δ) ^ 2 := by
      rw [hP, hQ]; linear_combination ((Real.cos δ - 1) ^ 2 + (Real.sin δ - δ) ^ 2) * h1
    linarith
  have hδ2 : 0 ≤ δ ^ 2 / 2 := by positivity
  have hPa : |P| ≤ δ ^ 2 / 2 := abs_le_of_sq_le_sq (by nlinarith [sq_nonneg Q]) hδ2
  have hQa : |Q| ≤ δ ^ 2 / 2 := abs_le_of_sq_le_sq (by nlinarith [sq_nonneg P]) hδ2
  rw [hres]
  calc |ax * P - ay * Q| ≤ |ax * P| + |ay * Q| := abs_sub _ _
    _ = |ax| * |P| + |ay| * |Q| := by rw [abs_mul, abs_mul]
    _ ≤ |ax| * (δ ^ 2 / 2) + |ay| * (δ ^ 2 / 2) := by
        gcongr
    _ = (|ax| + |ay|) / 2 * δ ^ 2 := by ring

/-- **C15** (exact arithmetic): if the Kepler iteration stops because its last correction is below 1e-12 (not because ten steps were made), the
eccentric longitude it ends with solves Kepler's equation up to `(|ax|+|ay|)/2 · 1e-24`; and the sine and cosine handed on
(those at the start of the last step) differ from the ones of that longitude by less than 1e-12.  The hypothesis `ax² + ay² < 1` (elliptic orbit) makes the Newton denominator
positive; it holds for every propagation that is not rejected later with a negative semi-latus rectum (or zero). -/
theorem C15_kepler_residual (U ax ay : ℝ) (he : ax ^ 2 + ay ^ 2 < 1) (k : KeplerSt ℝ) (hk : kepler U ax ay = some k)
    (hstop : |k.tem5| < 1e-12) :
    |keplerResidual U ax ay k.eo1| ≤ (|ax| + |ay|) / 2 * 1e-24 ∧
    |Real.sin k.eo1 - k.sineo1| < 1e-12 ∧ |Real.cos k.eo1 - k.coseo1| < 1e-12 := by
  obtain ⟨n, hn, -, -⟩ := whileLoop_some hk
  obtain ⟨m, rfl⟩ : ∃ m, n = m + 1 := by
    cases n with
    | zero =>
      exfalso
      rw [hn] at hstop
      simp only [iterate, keplerStart] at hstop
      norm_num at hstop
    | succ m => exact ⟨m, rfl⟩
  rw [iterate_succ'] at hn
  set k0 := iterate (keplerBody U ax ay) m (keplerStart U) with hk0
  clear_value k0
  have hD : 0 < 1 - Real.cos k0.eo1 * ax - Real.sin k0.eo1 * ay := by
    have h1 := Real.sin_sq_add_cos_sq k0.eo1
    have : (Real.cos k0.eo1 * ax + Real.sin k0.eo1 * ay) ^ 2 < 1 := by
      nlinarith [sq_nonneg (Real.cos k0.eo1 * ay - Real.sin k0.eo1 * ax)]
    nlinarith [abs_lt_of_sq_lt_sq (a := Real.cos k0.eo1 * ax + Real.sin k0.eo1 * ay) (b := 1) (by linarith) (by norm_num),
      le_abs_self (Real.cos k0.eo1 * ax + Real.sin k0.eo1 * ay)]
  set δ := keplerDelta U ax ay (Real.sin k0.eo1) (Real.cos k0.eo1) k0.eo1 with hδdef
  have hδ : δ = (U - ay * Real.cos k0.eo1 + ax * Real.sin k0.eo1 - k0.eo1) / (1 - Real.cos k0.eo1 * ax - Real.sin k0.eo1 * ay) := by
    rw [hδdef]; simp only [keplerDelta]; norm_num
  have hcl : clampDelta δ = δ ∨ 0.95 ≤ |clampDelta δ| := by
    simp only [clampDelta, real_abs, real_fle, real_flt, decide_eq_true_eq]
    split_ifs <;> norm_num [abs_of_pos]
  have hk5 : k.tem5 = clampDelta δ := by rw [hn]; rfl
  have hcl' : clampDelta δ = δ := by
    rcases hcl with h | h
    · exact h
    · rw [hk5] at hstop; norm_num at hstop h; linarith
  rw [hk5, hcl'] at hstop
  have hE : k.eo1 = k0.eo1 + δ := by
    rw [hn]; simp only [keplerBody]; rw [show clampDelta (keplerDelta U ax ay (Arith.sin k0.eo1) (Arith.cos k0.eo1) k0.eo1) = clampDelta δ from rfl, hcl']
  have hs : k.sineo1 = Real.sin k0.eo1 := by rw [hn]; rfl
  have hc : k.coseo1 = Real.cos k0.eo1 := by rw [hn]; rfl
  refine ⟨?_, ?_, ?_⟩
  · rw [hE]
    refine (newton_residual U ax ay k0.eo1 δ hD.ne' hδ).trans ?_
    have : δ ^ 2 ≤ 1e-24 := by
      have := sq_le_sq' (by linarith [(abs_lt.mp hstop).1]) (abs_lt.mp hstop).2.le
      norm_num at this ⊢; linarith
    gcongr
  · rw [hE, hs, Real.sin_sub_sin]
    have h1 : |Real.sin ((k0.eo1 + δ - k0.eo1) / 2)| ≤ |δ| / 2 := by
      rw [show (k0.eo1 + δ - k0.eo1) / 2 = δ / 2 by ring]
      have := Real.abs_sin_le_abs (x := δ / 2)
      rw [abs_div, abs_two] at this; exact this
    rw [abs_mul, abs_mul, abs_two]
    have h2 := Real.abs_cos_le_one ((k0.eo1 + δ + k0.eo1) / 2)
    nlinarith [abs_nonneg (Real.sin ((k0.eo1 + δ - k0.eo1) / 2)), abs_nonneg (Real.cos ((k0.eo1 + δ + k0.eo1) / 2))]
  · rw [hE, hc, Real.cos_sub_cos]
    have h1 : |Real.sin ((k0.eo1 + δ - k0.eo1) / 2)| ≤ |δ| / 2 := by
      rw [show (k0.eo1 + δ - k0.eo1) / 2 = δ / 2 by ring]
      have := Real.abs_sin_le_abs (x := δ / 2)
      rw [abs_div, abs_two] at this; exact this
    rw [abs_mul, abs_mul, abs_neg, abs_two]
    have h2 := Real.abs_sin_le_one ((k0.eo1 + δ + k0.eo1) / 2)
    nlinarith [abs_nonneg (Real.sin ((k0.eo1 + δ - k0.eo1) / 2)), abs_nonneg (Real.sin ((k0.eo1 + δ + k0.eo1) / 2))]

/-- A non-trivial case of C15: a circular orbit, where the first correction is zero and the loop stops at once. -/
example : ∃ k, kepler (1.5 : ℝ) 0 0 = some k ∧ |k.tem5| < 1e-12 ∧ k.eo1 = 1.5 := by
  have h1 : keplerCond (keplerStart (1.5 : ℝ)) = true := by
    simp only [keplerCond, keplerStart, real_abs, real_fle]; norm_num
  have h2 : (keplerBody 1.5 0 0 (keplerStart (1.5 : ℝ))).tem5 = 0 := by
    simp only [keplerBody, keplerStart, keplerDelta, clampDelta, real_abs, real_fle, real_flt]; norm_num
  have h3 : keplerCond (keplerBody 1.5 0 0 (keplerStart (1.5 : ℝ))) = false := by
    simp only [keplerCond, h2, real_abs, real_fle]; norm_num
  refine ⟨keplerBody 1.5 0 0 (keplerStart 1.5), ?_, ?_, ?_⟩
  · rw [kepler, whileLoop_true h1, whileLoop_false h3]
  · rw [h2]; norm_num
  · rw [show (keplerBody 1.5 0 0 (keplerStart (1.5 : ℝ))).eo1 = (keplerStart (1.5 : ℝ)).eo1 + (keplerBody 1.5 0 0 (keplerStart (1.5 : ℝ))).tem5 from rfl, h2]
    simp [keplerStart]

end Sat
