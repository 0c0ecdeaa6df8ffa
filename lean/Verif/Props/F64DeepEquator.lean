import Verif.Props.DeepRound
import Verif.Props.F64DeepLatitude
/-!
# C105 for deep-space satellites

In every 1.2 revolutions a deep-space satellite is reported, in doubles, once well north and once well south of the equator.
-/

namespace Sat
open F64 hiding sub
open Spec Spec.R3 Spec.SDP Chain

/-- the sine of an inclination between 2 and 160 degrees, in units of 1/10000 degree -/
theorem steep_two {x : ℝ} (h1 : 20000 ≤ x) (h2 : x ≤ 1600000) : 0.0348 ≤ Real.sin (x / 10 ^ 4 * (Real.pi / 180)) := by
  have hpi := Real.pi_gt_d4
  have hp0 := Real.pi_pos
  have c1 : 0.0349 ≤ x / 10 ^ 4 * (Real.pi / 180) := by
    calc (0.0349 : ℝ) ≤ 20000 / 10 ^ 4 * (3.1415 / 180) := by norm_num
      _ ≤ _ := by gcongr
  have c2 : x / 10 ^ 4 * (Real.pi / 180) ≤ Real.pi - 0.0349 := by
    calc x / 10 ^ 4 * (Real.pi / 180) ≤ 1600000 / 10 ^ 4 * (Real.pi / 180) := by gcongr
      _ ≤ _ := by norm_num at hpi ⊢; linarith only [hpi]
  set inc := x / 10 ^ 4 * (Real.pi / 180) with hinc
  have hs0 : (0.0348 : ℝ) ≤ Real.sin 0.0349 := by
    have := Real.sin_gt_sub_cube (x := 0.0349) (by norm_num)
    norm_num at this ⊢; linarith only [this]
  rcases le_total inc (Real.pi / 2) with hh | hh
  · exact hs0.trans (Real.sin_le_sin_of_le_of_le_pi_div_two (by norm_num at hpi ⊢; linarith only [hpi]) hh c1)
  · rw [← Real.sin_pi_sub]
    exact hs0.trans (Real.sin_le_sin_of_le_of_le_pi_div_two (by norm_num at hpi ⊢; linarith only [hpi]) (by linarith only [hh]) (by linarith only [c2]))

theorem not_retrograde {x : ℝ} (h : |x| ≤ 2.811) : 1 / 100 ≤ 1 + Real.cos x := by
  have hpi := Real.pi_gt_d4
  have hb := (abs_le.mp (Real.cos_bound (x := 0.33) (by norm_num [abs_of_pos]))).2
  have h1 : Real.cos (Real.pi - 0.33) ≤ Real.cos |x| :=
    Real.cos_le_cos_of_nonneg_of_le_pi (abs_nonneg _) (by norm_num) (by norm_num at *; linarith only [h, hpi])
  rw [Real.cos_abs, Real.cos_pi_sub] at h1
  rw [abs_of_pos (by norm_num : (0 : ℝ) < 0.33)] at hb
  norm_num at *; linarith only [hb, h1]

theorem tle_motion_deep {v : Tle} (hl : HighTle v) : 0.996 * tleMotion v ≤ (tleOrbit v).n ∧ 0 < tleMotion v ∧ tleMotion v ≤ 0.0278 := by
  have h1 : (57300000 : ℝ) ≤ v.noE8 := by exact_mod_cast hl.mot_lo
  have h2 : (v.noE8 : ℝ) ≤ 637100000 := by exact_mod_cast hl.mot_hi
  have h3 : (v.eccE7 : ℝ) ≤ 4100000 := by exact_mod_cast hl.ecc
  have hp := Real.pi_lt_d4
  have hp0 := Real.pi_pos
  have hpos : 0 < tleMotion v := by
    unfold tleMotion
    have : (0 : ℝ) < v.noE8 := by linarith only [h1]
    positivity
  have hup : tleMotion v ≤ 0.0278 := by
    unfold tleMotion
    calc (v.noE8 : ℝ) / 10 ^ 8 * (2 * Real.pi) / 1440 ≤ 637100000 / 10 ^ 8 * (2 * 3.1416) / 1440 := by gcongr
      _ ≤ _ := by norm_num
  refine ⟨recovered_lower hpos ⟨by unfold tleEcc; positivity, ?_⟩ ?_, hpos, hup⟩
  · unfold tleEcc; rw [div_le_iff₀ (by norm_num)]; linarith only [h3]
  · have hk : 1 ≤ ke / tleMotion v := by
      rw [le_div_iff₀ hpos]
      have : (0.0738 : ℝ) ≤ ke := by unfold ke; norm_num
      norm_num at *; linarith only [hup, this]
    exact le_trans (by norm_num) (Real.one_le_rpow hk (by norm_num))

variable [Libm]

/-- the mean motion and the drag coefficient of a printed set -/
theorem deep_drag (hL : Libm.Faithful) {l1 l2 : Str} {v : Tle} (h : Printed l1 l2 v) (hpos : v.nddotNeg = false ∨ v.nddotMant = 0)
    (hnd : Normal v.nddotMant) (hb : Normal v.bstarMant) (hl : HighTle v) : |(tleOrbit v).C1| ≤ 14 / 10 ^ 10 ∧ 0 ≤ (tleOrbit v).n ∧ (tleOrbit v).n ≤ 0.028 := by
  obtain ⟨p, hp, -⟩ := C21_decode (F := F64) l1 l2 v h hpos
  obtain ⟨ρ, hρ, -⟩ := C21_decode (F := ℝ) l1 l2 v h hpos
  have hE := elements_deep h hpos hnd hb hl hp hρ
  obtain ⟨z1, z2⟩ := sci_int (m := 0) (s := true) (k := 1) 0 (by norm_num) (by norm_num)
  have z3 : (0.0 : F64).val = 0 := z2.trans (by push_cast; rfl)
  obtain ⟨s, r, p0, q, q0, y, a1, a2, a3, a4, a5, a6, a7, a8, -, -, a9, a10⟩ := Far.init_and_run hL hE p ρ (t := (0.0 : F64)) ⟨z1, by rw [z3]; norm_num⟩
  obtain ⟨p4, hpar4, -, -, -, -, hbs, hinc, hnode, hecc, hargp, hmo, hno⟩ := C21_decode_real l1 l2 v h hpos hnd hb
  obtain rfl : p4 = ρ := by rw [hρ] at hpar4; cases hpar4; rfl
  have e2 : (tleOptions p4).xecco = tleEcc v := hecc
  have eo : orbitOf r (tleOptions p4) = tleOrbit v := by
    unfold orbitOf tleOrbit
    rw [C56_recovered_motion p4 r (tleOptions p4) _ a2 (by rw [e2]; exact tleEcc_range h), show (tleOptions p4).xno = tleMotion v from hno, e2,
      show (tleOptions p4).xinclo = (tleOrbit v).inc from hinc,
      show (tleOptions p4).xargpo = (v.argpE4 : ℝ) / 10 ^ 4 * (Real.pi / 180) from hargp,
      show (tleOptions p4).xmo = (v.moE4 : ℝ) / 10 ^ 4 * (Real.pi / 180) from hmo,
      show (tleOptions p4).xbstar = impliedValue v.bstarNeg v.bstarMant (sexp v.bstarExpNeg v.bstarExp) from hbs]
    rfl
  have hc := (C57_drag_coefficients p4 r (tleOptions p4) _ a2 (by rw [e2]; exact tleEcc_range h)).2.1
  rw [eo] at hc
  have hn : r.no = (tleOrbit v).n := by rw [← eo]; rfl
  rw [← hc, ← hn, a10]
  obtain ⟨n1, n2⟩ := Far.no_bounds hL hE
  exact ⟨(Far.i_cc1 hL hE).mag, le_trans (by norm_num) n1, n2.trans (by norm_num)⟩

theorem deep_motion (hL : Libm.Faithful) {l1 l2 : Str} {v : Tle} (h : Printed l1 l2 v) (hpos : v.nddotNeg = false ∨ v.nddotMant = 0)
    (hnd : Normal v.nddotMant) (hb : Normal v.bstarMant) (hl : HighTle v) {jd : ℝ} (hj : PrintedEpoch v jd) : FarMotion (tleOrbit v) (tleNode v) (jd - 2415020) := by
  have near : ∀ z : ℤ, |(z : ℝ)| ≤ 43200 → MeanNear (tleOrbit v) (carriedMean (tleOrbit v) (tleNode v) (jd - 2415020) z) := by
    intro z hz
    obtain ⟨t, t1, t2⟩ := isRep_int z (by
      have : |z| ≤ 43200 := by exact_mod_cast hz
      exact this.trans (by norm_num))
    obtain ⟨s, p, jd', -, -, -, b2, k, -, -, -, -, -, -, -, -, -, hm⟩ := deep_sized hL l1 l2 v h hpos hnd hb hl t t1 (by rw [t2]; exact hz)
    rw [b2.unique hj, t2] at hm
    exact hm
  obtain ⟨d1, d2, d3⟩ := deep_drag hL h hpos hnd hb hl
  have he : (tleOrbit v).e ≤ 0.41 := by
    show tleEcc v ≤ _
    unfold tleEcc
    rw [div_le_iff₀ (by norm_num)]
    have : (v.eccE7 : ℝ) ≤ 4100000 := by exact_mod_cast hl.ecc
    exact this.trans (by norm_num)
  have ecc : ∀ z : ℤ, |(z : ℝ)| ≤ 43200 → eccentricityRaw (tleOrbit v) (tleNode v) (jd - 2415020) z ≤ 0.43 := by
    intro z hz
    obtain ⟨-, h2, -⟩ := near z hz
    refine (le_max_left _ (1 / 10 ^ 6)).trans (h2.trans ?_)
    norm_num at *; linarith only [he]
  refine ⟨?_, ⟨(tleEcc_range h).1, he⟩, ⟨d2, d3⟩, d1, ?_, ?_⟩
  · obtain ⟨h1, -, -⟩ := near 0 (by norm_num)
    have e : (carriedMean (tleOrbit v) (tleNode v) (jd - 2415020) ((0 : ℤ) : ℝ)).a = (tleOrbit v).a := by
      show (tleOrbit v).a * (1 - (tleOrbit v).C1 * ((0 : ℤ) : ℝ)) ^ 2 = _
      push_cast; ring
    rw [e] at h1
    norm_num at h1 ⊢; linarith only [h1]
  · have := ecc 43200 (by norm_num [abs_of_pos])
    push_cast at this; exact this
  · have := ecc (-43200) (by norm_num [abs_of_pos])
    push_cast at this; exact this

theorem once_round_deep (hL : Libm.Faithful) {l1 l2 : Str} {v : Tle} (h : Printed l1 l2 v) (hpos : v.nddotNeg = false ∨ v.nddotMant = 0)
    (hnd : Normal v.nddotMant) (hb : Normal v.bstarMant) (hl : HighTle v) {A B : ℝ} (hAB : A ≤ B) (hA : |A| ≤ 43200) (hB : |B| ≤ 43200)
    (hrev : 1.2 ≤ (v.noE8 : ℝ) / 10 ^ 8 / 1440 * (B - A)) (hi : 20000 ≤ v.inclE4) {σ : ℝ} (hσ : σ = 1 ∨ σ = -1) :
    ∃ (t : F64) (s : Satrec F64) (p : SGP4Result F64), t.Fin ∧ A ≤ t.val ∧ t.val ≤ B ∧ twoline2satrec l1 l2 = .ok s ∧
      (sgp4 s t).map Prod.snd = some (.ok p) ∧ p.position.z.Fin ∧
      4400 * Real.sin ((v.inclE4 : ℝ) / 10 ^ 4 * (Real.pi / 180)) - 81 ≤ σ * p.position.z.val := by
  obtain ⟨n1, n2, n3⟩ := tle_motion_deep hl
  obtain ⟨z1, z2⟩ := sci_int (m := 0) (s := true) (k := 1) 0 (by norm_num) (by norm_num)
  have z3 : (0.0 : F64).val = 0 := z2.trans (by push_cast; rfl)
  obtain ⟨-, -, jd, -, -, -, hj, -⟩ := deep_sized hL l1 l2 v h hpos hnd hb hl (0.0 : F64) z1 (by rw [z3]; norm_num)
  have hM := deep_motion hL h hpos hnd hb hl hj
  have hpi := Real.pi_gt_d4
  have hm : 1.2 * (2 * 3.1415) ≤ tleMotion v * (B - A) := by
    have e : tleMotion v * (B - A) = (v.noE8 : ℝ) / 10 ^ 8 / 1440 * (B - A) * (2 * Real.pi) := by unfold tleMotion; ring
    rw [e]
    exact mul_le_mul hrev (by linarith only [hpi]) (by norm_num) (le_trans (by norm_num) hrev)
  have hlen : 1 ≤ B - A := by
    by_contra hcon
    have : tleMotion v * (B - A) ≤ 0.0278 * 1 := mul_le_mul n3 (by linarith only [hcon]) (by linarith only [hAB]) (by norm_num)
    norm_num at hm this; linarith only [hm, this]
  have hA' : |A + 1 / 400000| ≤ 43200 := by
    have := abs_le.mp hA; have := abs_le.mp hB
    rw [abs_le]; constructor <;> linarith
  have hn : 7.5 ≤ (tleOrbit v).n * (B - (A + 1 / 400000)) := by
    have h1 : 0.9999 * (B - A) ≤ B - (A + 1 / 400000) := by norm_num; linarith only [hlen]
    calc (7.5 : ℝ) ≤ 0.996 * 0.9999 * (1.2 * (2 * 3.1415)) := by norm_num
      _ ≤ 0.996 * 0.9999 * (tleMotion v * (B - A)) := mul_le_mul_of_nonneg_left hm (by norm_num)
      _ = 0.996 * tleMotion v * (0.9999 * (B - A)) := by ring
      _ ≤ _ := mul_le_mul n1 h1 (by linarith only [hAB]) (le_trans (by linarith only [n2]) n1)
  obtain ⟨τ, τ1, τ2, k, hk⟩ := hM.passes hσ (by linarith only [hlen]) hA' hB hn
  have hτ : |τ| ≤ 43200 := by
    have := abs_le.mp hA; have := abs_le.mp hB
    rw [abs_le]; constructor <;> linarith
  obtain ⟨t, tf, t1, t2⟩ := double_below hτ
  have ht : |t.val| ≤ 43200 := by
    have := abs_le.mp hA; have := abs_le.mp hB
    rw [abs_le]; constructor <;> linarith
  obtain ⟨s, p, jd', hs, -, hp, hj', κ, k3, k4, k5, k6, -, -, -, -, -, m1, m2, m3⟩ := deep_sized hL l1 l2 v h hpos hnd hb hl t tf ht
  rw [hj'.unique hj] at k4 k5 k6 m1 m2 m3
  have hstep := hM.angle_step hσ ht hτ (by rw [abs_le]; constructor <;> linarith only [t1, t2])
  rw [hk] at hstep
  set m := carriedMean (tleOrbit v) (tleNode v) (jd - 2415020) t.val with hmd
  have eang : FarMotion.angle (tleOrbit v) (tleNode v) (jd - 2415020) σ t.val = m.L - m.Ω + σ * m.axN := by
    unfold FarMotion.angle
    rw [hmd]
    unfold Mean.axN
    simp only [carriedMean]
    ring
  rw [eang] at hstep
  have hinc0 : 0 ≤ (tleOrbit v).inc := by show 0 ≤ (v.inclE4 : ℝ) / 10 ^ 4 * (Real.pi / 180); positivity
  have hinc1 : (tleOrbit v).inc ≤ 2.793 := by
    show (v.inclE4 : ℝ) / 10 ^ 4 * (Real.pi / 180) ≤ _
    have h1 : (v.inclE4 : ℝ) ≤ 1600000 := by exact_mod_cast hl.incl
    have hp2 := Real.pi_lt_d4
    calc (v.inclE4 : ℝ) / 10 ^ 4 * (Real.pi / 180) ≤ 1600000 / 10 ^ 4 * (3.1416 / 180) := by gcongr
      _ ≤ _ := by norm_num
  obtain ⟨m3a, m3b⟩ := abs_le.mp m3
  obtain ⟨e0, e1⟩ := hM.ecc ht
  rw [← hmd] at e0 e1
  have hfar : FarMean m := ⟨by norm_num at m1 ⊢; linarith only [m1], e0, e1,
    not_retrograde (by rw [abs_le]; constructor <;> norm_num at * <;> linarith only [m3a, m3b, hinc0, hinc1])⟩
  have hkep : |m.kepler (m.newton κ)| ≤ 1 / 10 ^ 6 := (C65_kepler_converges m hfar.fair.ecc κ k4 k5).2.1.trans (by norm_num)
  have hsi := steep_two (x := v.inclE4) (by exact_mod_cast hi) (by exact_mod_cast hl.incl)
  have esi : Real.sin ((v.inclE4 : ℝ) / 10 ^ 4 * (Real.pi / 180)) = Real.sin (tleOrbit v).inc := rfl
  rw [esi] at hsi ⊢
  have hmi : Real.sin (tleOrbit v).inc - 0.0179 ≤ Real.sin m.i := by
    have := (abs_le.mp ((Real.abs_sin_sub_sin_le m.i (tleOrbit v).inc).trans m3)).1
    norm_num at this ⊢; linarith only [this]
  have htop := hfar.top hσ k hkep hstep (y := Real.sin (tleOrbit v).inc) (le_trans (by norm_num) hsi) hmi
  refine ⟨t, s, p, tf, by linarith only [τ1, t2], by linarith only [τ2, t1], hs, hp, k6.2.2.1, ?_⟩
  have hz := abs_le.mp k6.2.2.2
  have e3 : (vec (m.positionKm (m.newton κ))).z = m.positionKm (m.newton κ) 2 := rfl
  rw [e3] at hz
  obtain ⟨hz1, hz2⟩ := hz
  generalize m.positionKm (m.newton κ) 2 = Z at *
  generalize Real.sin (tleOrbit v).inc = y at *
  rcases hσ with rfl | rfl <;> (norm_num at htop hz1 hz2 ⊢; linarith only [htop, hz1, hz2])

/-- **C105**, deep-space satellites. Take the text of an element set of an ordinary deep-space orbit inclined by at least two degrees, and any interval of
1.2 printed revolutions within a month of the epoch. Then there is a time in the interval, a double, for which the propagator reports a position well to
the north of the equatorial plane, and one for which it reports a position well to the south of it. -/
theorem C105_deep_goes_round_f64 (hL : Libm.Faithful) (l1 l2 : Str) (v : Tle) (h : Printed l1 l2 v) (hpos : v.nddotNeg = false ∨ v.nddotMant = 0)
    (hnd : Normal v.nddotMant) (hb : Normal v.bstarMant) (hl : HighTle v) (A B : ℝ) (hAB : A ≤ B) (hA : |A| ≤ 43200) (hB : |B| ≤ 43200)
    (hrev : 1.2 ≤ (v.noE8 : ℝ) / 10 ^ 8 / 1440 * (B - A)) (hi : 20000 ≤ v.inclE4) :
    ∃ (s : Satrec F64) (t₁ t₂ : F64) (p₁ p₂ : SGP4Result F64), twoline2satrec l1 l2 = .ok s ∧
      (t₁.Fin ∧ A ≤ t₁.val ∧ t₁.val ≤ B ∧ (sgp4 s t₁).map Prod.snd = some (.ok p₁)) ∧
      (t₂.Fin ∧ A ≤ t₂.val ∧ t₂.val ≤ B ∧ (sgp4 s t₂).map Prod.snd = some (.ok p₂)) ∧
      p₁.position.z.Fin ∧ p₂.position.z.Fin ∧
      let north := 4400 * Real.sin ((v.inclE4 : ℝ) / 10 ^ 4 * (Real.pi / 180)) - 81
      70 ≤ north ∧ north ≤ p₁.position.z.val ∧ p₂.position.z.val ≤ -north := by
  obtain ⟨t₁, s, p₁, a1, a2, a3, a4, a5, a6, a7⟩ := once_round_deep hL h hpos hnd hb hl hAB hA hB hrev hi (σ := 1) (Or.inl rfl)
  obtain ⟨t₂, s', p₂, b1, b2, b3, b4, b5, b6, b7⟩ := once_round_deep hL h hpos hnd hb hl hAB hA hB hrev hi (σ := -1) (Or.inr rfl)
  have e : s' = s := by rw [a4] at b4; exact (Res.ok.inj b4).symm
  subst e
  refine ⟨s', t₁, t₂, p₁, p₂, a4, ⟨a1, a2, a3, a5⟩, ⟨b1, b2, b3, b5⟩, a6, b6, ?_, by linarith only [a7], by linarith only [b7]⟩
  have hs := steep_two (x := v.inclE4) (by exact_mod_cast hi) (by exact_mod_cast hl.incl)
  generalize Real.sin ((v.inclE4 : ℝ) / 10 ^ 4 * (Real.pi / 180)) = y at *
  norm_num at hs ⊢; linarith only [hs]

/-- A navigation satellite, in the sixteen hours and forty minutes from one day after the epoch. -/
theorem nav_goes_round (hL : Libm.Faithful) :
    ∃ (s : Satrec F64) (t₁ t₂ : F64) (p₁ p₂ : SGP4Result F64), twoline2satrec navLine1 navLine2 = .ok s ∧
      (t₁.Fin ∧ 1440 ≤ t₁.val ∧ t₁.val ≤ 2440 ∧ (sgp4 s t₁).map Prod.snd = some (.ok p₁)) ∧
      (t₂.Fin ∧ 1440 ≤ t₂.val ∧ t₂.val ≤ 2440 ∧ (sgp4 s t₂).map Prod.snd = some (.ok p₂)) ∧
      70 ≤ p₁.position.z.val ∧ p₂.position.z.val ≤ -70 := by
  obtain ⟨s, t₁, t₂, p₁, p₂, h1, h2, h3, -, -, h4, h5, h6⟩ := C105_deep_goes_round_f64 hL _ _ _ nav_printed (Or.inl rfl) (Or.inl rfl) (Or.inr (by decide))
    nav_high 1440 2440 (by norm_num) (by norm_num [abs_of_pos]) (by norm_num [abs_of_pos]) (by
      rw [show (navTle.noE8 : ℝ) = (navTle.noE8 : ℕ) from rfl]; unfold navTle; norm_num) (by decide)
  exact ⟨s, t₁, t₂, p₁, p₂, h1, h2, h3, h4.trans h5, by linarith only [h4, h6]⟩

end Sat
