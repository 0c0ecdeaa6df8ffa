import Verif.Props.F64Text
import Verif.Props.MotionChord
/-!
# C85 at a calendar date: the state at exactly the instant asked for

The elapsed time computed from two Julian dates is off by up to 150 microseconds (C78), in which a low satellite moves about a metre.
The bounds on the motion of `Props/MotionChord.lean` turn this into an error of the state at the instant itself.
-/

namespace Sat
open F64 Spec Spec.R3 Chain
variable [Libm]

theorem quiet_low (hL : Libm.Faithful) {l1 l2 : Str} {v : Tle} {τ : ℝ} (h : Printed l1 l2 v) (hpos : v.nddotNeg = false ∨ v.nddotMant = 0)
    (hnd : Normal v.nddotMant) (hb : Normal v.bstarMant) (hl : LowTle v τ) : Quiet (tleOrbit v) τ := by
  obtain ⟨p, hp, -⟩ := C21_decode (F := F64) l1 l2 v h hpos
  obtain ⟨ρ, hρ, -⟩ := C21_decode (F := ℝ) l1 l2 v h hpos
  have hc := calm_low h hpos hnd hb hl hρ
  have hE := elements_calm hL hc (rounded_read h hpos hb hl hp hρ)
  obtain ⟨p', hpar, -, -, -, -, hbs, hinc, -, hecc, -, -, hno⟩ := C21_decode_real l1 l2 v h hpos hnd hb
  obtain rfl : p' = ρ := by rw [hpar] at hρ; cases hρ; rfl
  have e1 : (tleOptions p').xno = tleMotion v := hno
  have e2 : (tleOptions p').xecco = tleEcc v := hecc
  have e3 : (tleOptions p').xinclo = (v.inclE4 : ℝ) / 10 ^ 4 * (Real.pi / 180) := hinc
  have en : no (tleOptions p') = (tleOrbit v).n := by
    rw [no_recovered ⟨hc.ecc_lo, lt_of_le_of_lt hc.ecc_hi (by norm_num)⟩, e1, e2, e3]; rfl
  have ea : ao (tleOptions p') = (tleOrbit v).a := by
    show ((XKE : ℝ) / no (tleOptions p')) ^ (X2O3 : ℝ) = _
    rw [en, show (X2O3 : ℝ) = 2 / 3 by unfold X2O3; norm_num]; rfl
  have he0 : 0 ≤ tleEcc v := by unfold tleEcc; positivity
  have hee : tleEcc v ≤ 43 / 100 := by
    unfold tleEcc
    rw [div_le_iff₀ (by norm_num)]
    have : (v.eccE7 : ℝ) ≤ 4300000 := by exact_mod_cast hl.ecc
    linarith
  refine ⟨en ▸ no_pos hL hE, ⟨he0, hee.trans (by norm_num)⟩, ?_, ?_, hl.bstar.trans (by norm_num), ?_, hl.perigee, hl.drag⟩
  · rcases hl.ecc_side with h1 | ⟨-, h2⟩
    · left
      show tleEcc v ≤ _
      unfold tleEcc
      rw [div_le_iff₀ (by norm_num)]
      have : (v.eccE7 : ℝ) ≤ 1000 := by exact_mod_cast h1.le
      norm_num; linarith
    · exact Or.inr h2
  · refine (cos_171 (x := (v.inclE4 : ℝ) / 10 ^ 4 * (Real.pi / 180)) (by positivity) ?_).trans' (by norm_num)
    refine mul_le_mul_of_nonneg_right ?_ (by positivity)
    rw [div_le_iff₀ (by norm_num)]
    have : (v.inclE4 : ℝ) ≤ 1710000 := by exact_mod_cast hl.incl
    linarith
  · rw [← ea]; exact (ao_bounds0 hL hE).2.trans (by norm_num)

omit [Libm] in
theorem mean_speed {m : Mean} (h : 1 ≤ m.a) : 0 < m.n ∧ m.n ≤ ke ∧ m.n * m.a ≤ ke := by
  have hk : (0:ℝ) < ke := by unfold ke; norm_num
  have h0 : 0 < m.a := by linarith
  have hp : 0 < m.a ^ (3 / 2 : ℝ) := Real.rpow_pos_of_pos h0 _
  have h1 : m.a ≤ m.a ^ (3 / 2 : ℝ) := by
    calc m.a = m.a ^ (1 : ℝ) := (Real.rpow_one _).symm
      _ ≤ _ := Real.rpow_le_rpow_of_exponent_le h (by norm_num)
  unfold Mean.n
  refine ⟨by positivity, ?_, ?_⟩
  · rw [div_le_iff₀ hp]; nlinarith
  · rw [div_mul_eq_mul_div, div_le_iff₀ hp]; gcongr

omit [Libm] in
/-- states of the theory at instants at most 150 microseconds apart -/
theorem states_near {q : Orbit} {node t τ : ℝ} (h : |t - τ| ≤ 1 / 400000) (H1 : Quiet q t) (H2 : Quiet q τ) (j : Fin 3) :
    |(q.mean node t).positionKm (keplerRoot (q.mean node t)) j - (q.mean node τ).positionKm (keplerRoot (q.mean node τ)) j| ≤ 3.25e-3 ∧
    |(q.mean node t).velocityKmS (keplerRoot (q.mean node t)) j - (q.mean node τ).velocityKmS (keplerRoot (q.mean node τ)) j| ≤ 2.25e-5 := by
  wlog hle : τ ≤ t with W
  · obtain ⟨w1, w2⟩ := W (node := node) (by rw [abs_sub_comm]; exact h) H2 H1 j (le_of_not_ge hle)
    rw [abs_sub_comm] at w1 w2
    exact ⟨w1, w2⟩
  rcases eq_or_lt_of_le hle with rfl | hlt
  · rw [sub_self, sub_self, abs_zero]; norm_num
  rw [abs_of_pos (by linarith)] at h
  have A := apart_of_quiet (q := q) (t := τ) (d := t - τ) (by linarith) (by norm_num at *; linarith) (fun s h1 h2 => { H2 with
    time := by
      have hl : 0 < lowness (q.a * (1 - q.e)) ^ 5 := pow_pos (lt_of_lt_of_le one_pos (one_le_lowness _)) 5
      have h3 := H1.time
      have h4 := H2.time
      rw [← le_div_iff₀ hl] at h3 h4 ⊢
      rw [abs_le] at h3 h4 ⊢
      rcases le_total 0 q.bstar with hb | hb
      · have k1 : q.bstar * τ ≤ q.bstar * s := by gcongr
        have k2 : q.bstar * s ≤ q.bstar * t := by gcongr; linarith
        constructor <;> linarith
      · have k1 := mul_le_mul_of_nonpos_left h1 hb
        have k2 := mul_le_mul_of_nonpos_left (show s ≤ t by linarith) hb
        constructor <;> linarith }) node
  obtain ⟨s1, s2⟩ := A.states j
  rw [add_sub_cancel] at s1 s2
  have ha : 1 ≤ (q.mean node τ).a := by
    have := A.per
    have := A.ecc
    by_contra hc; push Not at hc; norm_num at *; nlinarith
  obtain ⟨n0, n1, n2⟩ := mean_speed ha
  unfold ke at n1 n2
  unfold kmPerRadius at s1 s2
  have hd0 : 0 ≤ t - τ := by linarith
  constructor
  · refine s1.trans ?_
    calc 2.71 * ((q.mean node τ).n * (q.mean node τ).a * 6378.137) * (t - τ) ≤ 2.71 * (0.07436685316871385 * 6378.137) * (1 / 400000) := by gcongr
      _ ≤ _ := by norm_num
  · refine s2.trans ?_
    calc 15.1 * ((q.mean node τ).n * ((q.mean node τ).n * (q.mean node τ).a * 6378.137 / 60)) * (t - τ) ≤
          15.1 * (0.07436685316871385 * (0.07436685316871385 * 6378.137 / 60)) * (1 / 400000) := by gcongr
      _ ≤ _ := by norm_num

/-- `p` is within `δ` kilometres and `η` kilometres per second, in every component, of the state that SGP4 as published (Report No. 3) gives for
the printed elements `τ` minutes after the epoch, at the one and only solution of Kepler's equation. -/
def NearTheory (v : Tle) (τ : ℝ) (p : SGP4Result F64) (δ η : ℝ) : Prop :=
  let m := (tleOrbit v).mean (tleNode v) τ
  ∃ E, m.kepler E = 0 ∧ (∀ E', m.kepler E' = 0 → E' = E) ∧
    p.position.Close (vec (m.positionKm E)) δ ∧ p.velocity.Close (vec (m.velocityKmS E)) η

omit [Libm] in
theorem near_of_close {v : Tle} {t τ : ℝ} {p : SGP4Result F64} (h : |t - τ| ≤ 1 / 400000) (H1 : Quiet (tleOrbit v) t) (H2 : Quiet (tleOrbit v) τ)
    (hc : CloseToTheory v t p) : NearTheory v τ p (4.3 / 10 ^ 3) (2.5 / 10 ^ 5) := by
  obtain ⟨k, -, c2, c3, c4, c5⟩ := hc
  have A : ∀ s, Quiet (tleOrbit v) s → Fair ((tleOrbit v).mean (tleNode v) s) ∧ ((tleOrbit v).mean (tleNode v) s).a ≤ 2.1 := by
    exact fun s Q => ⟨Q.fair _, (Q.shape _).2.2⟩
  obtain ⟨F1, a1⟩ := A t H1
  obtain ⟨F2, -⟩ := A τ H2
  obtain ⟨n0, n1, n2⟩ := mean_speed F1.axis
  have hE := (C65_kepler_converges _ F1.ecc k c2 c3).2.1
  have hr := fun j => near_root F1 hE j
  have hs := fun j => states_near (node := tleNode v) h H1 H2 j
  have pos : ∀ j, |((tleOrbit v).mean (tleNode v) t).positionKm (((tleOrbit v).mean (tleNode v) t).newton k) j -
      ((tleOrbit v).mean (tleNode v) τ).positionKm (keplerRoot ((tleOrbit v).mean (tleNode v) τ)) j| ≤ 3.3e-3 := by
    intro j
    refine (abs_sub_le _ _ _).trans ((add_le_add (hr j).1 (hs j).1).trans ?_)
    unfold kmPerRadius
    calc 2.7 * (((tleOrbit v).mean (tleNode v) t).a * 6378.137) * 1.45e-12 + 3.25e-3 ≤ 2.7 * (2.1 * 6378.137) * 1.45e-12 + 3.25e-3 := by gcongr
      _ ≤ _ := by norm_num
  have vel : ∀ j, |((tleOrbit v).mean (tleNode v) t).velocityKmS (((tleOrbit v).mean (tleNode v) t).newton k) j -
      ((tleOrbit v).mean (tleNode v) τ).velocityKmS (keplerRoot ((tleOrbit v).mean (tleNode v) τ)) j| ≤ 2.3e-5 := by
    intro j
    refine (abs_sub_le _ _ _).trans ((add_le_add (hr j).2 (hs j).2).trans ?_)
    unfold kmPerRadius
    unfold ke at n2
    calc 15 * (((tleOrbit v).mean (tleNode v) t).n * ((tleOrbit v).mean (tleNode v) t).a * 6378.137 / 60) * 1.45e-12 + 2.25e-5 ≤
          15 * (0.07436685316871385 * 6378.137 / 60) * 1.45e-12 + 2.25e-5 := by gcongr
      _ ≤ _ := by norm_num
  have T : ∀ {x : F64} {a b δ ε η : ℝ}, Close x a δ → |a - b| ≤ ε → δ + ε ≤ η → Close x b η := fun {x a b δ ε η} h1 h2 h3 =>
    ⟨h1.1, (abs_sub_le _ a _).trans ((add_le_add h1.2 h2).trans h3)⟩
  refine ⟨keplerRoot _, kepler_root _, fun E' h' => (root_unique _ F2.ecc h').symm, ⟨?_, ?_, ?_⟩, ⟨?_, ?_, ?_⟩⟩
  · exact T c4.1 (pos 0) (by norm_num)
  · exact T c4.2.1 (pos 1) (by norm_num)
  · exact T c4.2.2 (pos 2) (by norm_num)
  · exact T c5.1 (vel 0) (by norm_num)
  · exact T c5.2.1 (vel 1) (by norm_num)
  · exact T c5.2.2 (vel 2) (by norm_num)

/-- **C85**, at a calendar date, for exactly the instant asked for: the state that the record gives for a date and time of day within a month of the
printed epoch is within 4.3 metres and 25 millimetres per second, in every component, of that of the published theory for the printed elements at that
very instant, counted by the calendar from the printed epoch. -/
theorem C85_state_at_date_f64 (hL : Libm.Faithful) (l1 l2 : Str) (v : Tle) (h : Printed l1 l2 v) (hpos : v.nddotNeg = false ∨ v.nddotMant = 0)
    (hnd : Normal v.nddotMant) (hb : Normal v.bstarMant) (hday : v.dayE8 ≤ 400 * 10 ^ 8) (hl : LowTle v 0)
    (time : DateTimeUtc) (d : Date) (hd : d.InRange) (hy : time.year = d.year) (hm : time.month = d.month) (hdd : time.day = d.day)
    (hh : time.hour < 24) (hmi : time.minute < 60) (hse : time.second < 60) :
    ∃ (s : Satrec F64) (year nE nD : ℕ), twoline2satrec l1 l2 = .ok s ∧
      1957 ≤ year ∧ year ≤ 2056 ∧ (year : ℤ) % 100 = v.year ∧ base.after nE = ⟨year, 1, 1⟩ ∧ base.after nD = d ∧
      let τ : ℝ := ((nD : ℝ) - nE + 1 - (v.dayE8 : ℝ) / 10 ^ 8) * 1440 + time.hour * 60 + time.minute + (time.second : ℝ) / 60
      |τ| ≤ 43199 → |tleDrag v * τ| * tleLow v ^ 5 ≤ 1.99 →
        ∃ p : SGP4Result F64, propogate_datetime s time = some (.ok p) ∧ NearTheory v τ p (4.3 / 10 ^ 3) (2.5 / 10 ^ 5) := by
  obtain ⟨s, year, nE, nD, hs, y1, y2, y3, y4, y5, hh⟩ := C85_text_and_date_f64 hL l1 l2 v h hpos hnd hb hday hl time d hd hy hm hdd hh hmi hse
  refine ⟨s, year, nE, nD, hs, y1, y2, y3, y4, y5, ?_⟩
  intro τ h1 h2
  obtain ⟨τ', p, k1, k2, k3⟩ := hh h1 h2
  have hτ : |τ' - τ| ≤ 1 / 400000 := k2
  refine ⟨p, k1, near_of_close hτ (quiet_low hL h hpos hnd hb { hl with time := ?_, drag := drag_shift hl.bstar h2 hτ })
    (quiet_low hL h hpos hnd hb { hl with time := h1.trans (by norm_num), drag := h2.trans (by norm_num) }) k3⟩
  · have := abs_sub_abs_le_abs_sub τ' τ
    norm_num at *; linarith

/-- The weather satellite of `Props/F64Text.lean` on 2020 February 5 at 6:30:15, six days after the epoch. -/
theorem noaa_at_date (hL : Libm.Faithful) (time : DateTimeUtc) (h1 : time.year = 2020) (h2 : time.month = 2) (h3 : time.day = 5) (h4 : time.hour = 6)
    (h5 : time.minute = 30) (h6 : time.second = 15) :
    ∃ (s : Satrec F64) (p : SGP4Result F64), twoline2satrec noaaLine1 noaaLine2 = .ok s ∧ propogate_datetime s time = some (.ok p) ∧
      NearTheory noaaTle ((36 - 29.54791435) * 1440 + 6 * 60 + 30 + 15 / 60) p (4.3 / 10 ^ 3) (2.5 / 10 ^ 5) := by
  obtain ⟨s, year, nE, nD, hs, y1, y2, y3, y4, y5, hh⟩ := C85_state_at_date_f64 hL _ _ _ noaa_printed (Or.inl rfl) (Or.inl rfl) (Or.inr (by decide))
    (by decide) (noaa_low (τ := 0) (by norm_num)) time ⟨2020, 2, 5⟩ ⟨by decide, by unfold Date.before base; decide, by unfold Date.before; decide⟩ h1 h2 h3 (by omega) (by omega) (by omega)
  have ey : year = 2020 := by
    have e : (noaaTle.year : ℤ) = 20 := rfl
    rw [e] at y3; omega
  have e1 := (serial_after nE).2.2
  have e2 := (serial_after nD).2.2
  rw [y4, ey] at e1
  rw [y5] at e2
  have e3 : serial ⟨2020, 2, 5⟩ = serial ⟨2020, 1, 1⟩ + 35 := by decide +kernel
  have e4 : (nD : ℝ) = nE + 35 := by exact_mod_cast (by omega : nD = nE + 35)
  have e5 : ((nD : ℝ) - nE + 1 - (noaaTle.dayE8 : ℝ) / 10 ^ 8) * 1440 + time.hour * 60 + time.minute + (time.second : ℝ) / 60 =
      (36 - 29.54791435) * 1440 + 6 * 60 + 30 + 15 / 60 := by
    rw [e4, h4, h5, h6, show (noaaTle.dayE8 : ℝ) = 2954791435 by unfold noaaTle; norm_num]; norm_num
  rw [e5] at hh
  have hd : tleDrag noaaTle = 59621 / 10 ^ 9 := by
    unfold tleDrag impliedValue sexp noaaTle; norm_num
  obtain ⟨p, k1, k2⟩ := hh (by norm_num [abs_of_pos]) (by rw [hd, noaa_lowness]; norm_num [abs_of_pos])
  exact ⟨s, p, hs, k1, k2⟩

end Sat
