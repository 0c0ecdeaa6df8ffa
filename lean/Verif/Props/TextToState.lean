import Verif.Props.TwoLineFile
import Verif.Props.Samples
/-!
# From the text of an element set to the state: C72, C73

Exact arithmetic.
-/

namespace Sat
open Spec Spec.R3

/-- Recovering the mean motion changes it by less than 0.3 %. -/
theorem recovered_close {n e i : ℝ} (hn : 0 < n) (he : 0 ≤ e ∧ e ≤ 1 / 2) (ha : 1 ≤ (ke / n) ^ (2 / 3 : ℝ)) :
    0.997 * n ≤ recoveredMotion n e i ∧ recoveredMotion n e i ≤ 1.003 * n := by
  set a1 := (ke / n) ^ (2 / 3 : ℝ) with ha1
  set c := (3 * Real.cos i ^ 2 - 1) / Real.sqrt (1 - e ^ 2) ^ 3 with hc
  have hs2 : Real.sqrt (1 - e ^ 2) ^ 2 = 1 - e ^ 2 := Real.sq_sqrt (by nlinarith [he.1, he.2])
  have hs : 0.86 ≤ Real.sqrt (1 - e ^ 2) := Real.le_sqrt_of_sq_le (by nlinarith [he.1, he.2])
  have hs3 : 0.636 ≤ Real.sqrt (1 - e ^ 2) ^ 3 := by
    calc (0.636 : ℝ) ≤ 0.86 ^ 3 := by norm_num
      _ ≤ _ := by gcongr
  have hcos : Real.cos i ^ 2 ≤ 1 := Real.cos_sq_le_one i
  have hcc : |c| ≤ 3.15 := by
    rw [hc, abs_div, abs_of_pos (lt_of_lt_of_le (by norm_num) hs3), div_le_iff₀ (lt_of_lt_of_le (by norm_num) hs3)]
    have : |3 * Real.cos i ^ 2 - 1| ≤ 2 := abs_le.mpr ⟨by nlinarith [sq_nonneg (Real.cos i)], by linarith⟩
    nlinarith
  have hk2 : (3 / 2 * R3.k2 : ℝ) = 0.0008119724917875 := by unfold R3.k2 R3.j2; norm_num
  have small : ∀ a : ℝ, 0.998 ≤ a → |3 / 2 * R3.k2 / a ^ 2 * c| ≤ 0.0026 := by
    intro a h
    have h2 : 0.996 ≤ a ^ 2 := by nlinarith
    rw [abs_mul, hk2, abs_div, abs_of_pos (show (0 : ℝ) < a ^ 2 by linarith), abs_of_pos (by norm_num), div_mul_eq_mul_div,
      div_le_iff₀ (by linarith)]
    nlinarith [abs_nonneg c]
  have hδ1 := small a1 (by linarith)
  set δ1 := 3 / 2 * R3.k2 / a1 ^ 2 * c with hδ1d
  obtain ⟨l1, u1⟩ := abs_le.mp hδ1
  have ha0 : 0.998 ≤ a1 * (1 - δ1 / 3 - δ1 ^ 2 - 134 / 81 * δ1 ^ 3) := by
    have h2 : δ1 ^ 2 ≤ 0.0026 ^ 2 := sq_le_sq' (by linarith) u1
    have h3 : δ1 ^ 3 ≤ 0.0001 := by
      have : δ1 ^ 3 = δ1 ^ 2 * δ1 := by ring
      rw [this]; nlinarith [sq_nonneg δ1]
    have : 0.998 ≤ 1 - δ1 / 3 - δ1 ^ 2 - 134 / 81 * δ1 ^ 3 := by norm_num at *; linarith
    nlinarith
  have hδ0 := small _ ha0
  have e : recoveredMotion n e i = n / (1 + 3 / 2 * R3.k2 / (a1 * (1 - δ1 / 3 - δ1 ^ 2 - 134 / 81 * δ1 ^ 3)) ^ 2 * c) := rfl
  rw [e]
  generalize 3 / 2 * R3.k2 / (a1 * (1 - δ1 / 3 - δ1 ^ 2 - 134 / 81 * δ1 ^ 3)) ^ 2 * c = δ0 at hδ0
  obtain ⟨l0, u0⟩ := abs_le.mp hδ0
  have hp : 0 < 1 + δ0 := by linarith
  constructor
  · rw [le_div_iff₀ hp]; nlinarith
  · rw [div_le_iff₀ hp]; nlinarith

/-- the size of the orbit changes by less than 0.3 % -/
theorem recovered_axis {n e i : ℝ} (hn : 0 < n) (he : 0 ≤ e ∧ e ≤ 1 / 2) (ha : 1 ≤ (ke / n) ^ (2 / 3 : ℝ)) :
    0.997 * (ke / n) ^ (2 / 3 : ℝ) ≤ (ke / recoveredMotion n e i) ^ (2 / 3 : ℝ) := by
  obtain ⟨h1, h2⟩ := recovered_close (i := i) hn he ha
  have hk : 0 < ke := by unfold ke; norm_num
  have hr : 0 < recoveredMotion n e i := lt_of_lt_of_le (by positivity) h1
  have h3 : 0.997 * (ke / n) ≤ ke / recoveredMotion n e i := by
    rw [le_div_iff₀ hr]
    have : 0.997 * (ke / n) * recoveredMotion n e i ≤ 0.997 * (ke / n) * (1.003 * n) := by gcongr
    refine this.trans (le_of_eq_of_le (b := 0.997 * 1.003 * ke) (by field_simp) ?_)
    nlinarith
  have h4 : (0.997 : ℝ) ≤ 0.997 ^ (2 / 3 : ℝ) := by
    calc (0.997 : ℝ) = 0.997 ^ (1 : ℝ) := (Real.rpow_one _).symm
      _ ≤ _ := Real.rpow_le_rpow_of_exponent_ge (by norm_num) (by norm_num) (by norm_num)
  calc 0.997 * (ke / n) ^ (2 / 3 : ℝ) ≤ 0.997 ^ (2 / 3 : ℝ) * (ke / n) ^ (2 / 3 : ℝ) := by gcongr
    _ = (0.997 * (ke / n)) ^ (2 / 3 : ℝ) := (Real.mul_rpow (by norm_num) (by positivity)).symm
    _ ≤ _ := Real.rpow_le_rpow (by positivity) h3 (by norm_num)

/-- mean motion in radians per minute of a printed element set -/
noncomputable def tleMotion (v : Tle) : ℝ := (v.noE8 : ℝ) / 10 ^ 8 * (2 * Real.pi) / 1440
noncomputable def tleEcc (v : Tle) : ℝ := (v.eccE7 : ℝ) / 10 ^ 7

/-- what the record read from a printed set holds -/
theorem tle_fields (l1 l2 : Str) (v : Tle) (h : Printed l1 l2 v) (hpos : v.nddotNeg = false ∨ v.nddotMant = 0) :
    ∃ s : Satrec ℝ, parse_satrec l1 l2 = .ok s ∧ s.ecco = tleEcc v ∧ s.no = tleMotion v := by
  obtain ⟨s, hs, -, -, -, -, -, -, -, -, -, -, -, -, h10, -, -, h13, -, -, -⟩ := C21_decode (F := ℝ) l1 l2 v h hpos
  have hx : (XPDOTP : ℝ) = 1440 / (2 * Real.pi) := by
    unfold XPDOTP; rw [real_pi, real_lits.2.2, show (1440.0 : ℝ) = 1440 by norm_num]
  have hpi := Real.pi_ne_zero
  refine ⟨s, hs, ?_, ?_⟩
  · rw [h10, show (-7 : Int) = -((7 : Nat) : Int) by rfl, real_dec]; simp [tleEcc]
  · rw [h13, hx, show (-8 : Int) = -((8 : Nat) : Int) by rfl, real_dec]
    simp only [Bool.false_eq_true, if_false, one_mul, tleMotion]
    field_simp

/-- **C72.** A well-formed two-line set is accepted if its eccentricity is at most 1/2, its mean motion at least 0.025 revolutions per
day, and the perigee computed from the printed mean motion at least 1.0135 earth radii from the centre (86 km up); whatever the other
contents are.  (The second derivative must not be negative, see C22.) -/
theorem C72_tle_accepted (l1 l2 : Str) (v : Tle) (h : Printed l1 l2 v) (hpos : v.nddotNeg = false ∨ v.nddotMant = 0)
    (he : tleEcc v ≤ 1 / 2) (hn : 2500000 ≤ v.noE8) (hp : 1.0135 ≤ (ke / tleMotion v) ^ (2 / 3 : ℝ) * (1 - tleEcc v)) :
    ∃ s : Satrec ℝ, twoline2satrec l1 l2 = .ok s := by
  obtain ⟨p, hpar, hecc, hno⟩ := tle_fields l1 l2 v h hpos
  have he0 : 0 ≤ tleEcc v := by unfold tleEcc; positivity
  have hn2 : 1.08e-4 ≤ tleMotion v := by
    have h1 : (2500000 : ℝ) ≤ (v.noE8 : ℝ) := by exact_mod_cast hn
    have h2 := Real.pi_gt_d2
    unfold tleMotion
    rw [le_div_iff₀ (by norm_num)]
    have : (0.025 : ℝ) ≤ (v.noE8 : ℝ) / 10 ^ 8 := by rw [le_div_iff₀ (by norm_num)]; norm_num; exact hn
    calc (1.08e-4 * 1440 : ℝ) ≤ 0.025 * (2 * 3.14) := by norm_num
      _ ≤ _ := by gcongr
  have hn0 : 0 < tleMotion v := lt_of_lt_of_le (by norm_num) hn2
  have ha1 : 1 ≤ (ke / tleMotion v) ^ (2 / 3 : ℝ) := by
    have : 0 < (ke / tleMotion v) ^ (2 / 3 : ℝ) := Real.rpow_pos_of_pos (div_pos (by unfold ke; norm_num) hn0) _
    nlinarith
  have hclose := recovered_close (i := p.inclo) hn0 ⟨he0, he⟩ ha1
  have haxis := recovered_axis (i := p.inclo) hn0 ⟨he0, he⟩ ha1
  have hpp : 1.0101 ≤ (ke / recoveredMotion (tleMotion v) (tleEcc v) p.inclo) ^ (2 / 3 : ℝ) * (1 - tleEcc v) := by
    have : 0.997 * (ke / tleMotion v) ^ (2 / 3 : ℝ) * (1 - tleEcc v) ≤
        (ke / recoveredMotion (tleMotion v) (tleEcc v) p.inclo) ^ (2 / 3 : ℝ) * (1 - tleEcc v) :=
      mul_le_mul_of_nonneg_right haxis (by linarith)
    norm_num at *; linarith
  have hacc : ∃ s' r, sgp4init p (tleOptions p) = some (s', .ok r) := by
    have e1 : (tleOptions p).xno = tleMotion v := hno
    have e2 : (tleOptions p).xecco = tleEcc v := hecc
    have e3 : (tleOptions p).xinclo = p.inclo := rfl
    rcases lt_or_ge (2 * Real.pi / recoveredMotion (tleMotion v) (tleEcc v) p.inclo) 225 with hT | hT
    · obtain ⟨s', r, hh, -⟩ := C66_accepted_at_epoch p (tleOptions p) (by rw [e2]; exact ⟨he0, he⟩)
        (by rw [e1, e2, e3]; linarith [hclose.1]) (by rw [e1, e2, e3]; exact hT) (by rw [e1, e2, e3]; exact hpp)
      exact ⟨s', r, hh⟩
    · obtain ⟨s', r, hh, -⟩ := C69_accepted_at_epoch p (tleOptions p) (by rw [e2]; exact ⟨he0, he⟩)
        (by rw [e1, e2, e3]; norm_num at *; linarith [hclose.1]) (by rw [e1, e2, e3]; exact hT) (by rw [e1, e2, e3]; exact hpp)
      exact ⟨s', r, hh⟩
  obtain ⟨s', r, hh⟩ := hacc
  refine ⟨s', ?_⟩
  unfold twoline2satrec
  rw [hpar, Res.ok_bind, hh]

/-- The orbit of Spacetrack Report No. 3 that a printed element set describes. -/
noncomputable def tleOrbit (v : Tle) : Orbit :=
  { n := recoveredMotion (tleMotion v) (tleEcc v) ((v.inclE4 : ℝ) / 10 ^ 4 * (Real.pi / 180)), e := tleEcc v,
    inc := (v.inclE4 : ℝ) / 10 ^ 4 * (Real.pi / 180), argp := (v.argpE4 : ℝ) / 10 ^ 4 * (Real.pi / 180),
    anom := (v.moE4 : ℝ) / 10 ^ 4 * (Real.pi / 180), bstar := impliedValue v.bstarNeg v.bstarMant (sexp v.bstarExpNeg v.bstarExp) }

/-- **C73.** From the text to the state: whatever near-earth record `twoline2satrec` makes of a well-formed two-line set (whose mantissas
have no leading zeros), propagating it to any time gives an error, or exactly the position and velocity of SGP4 as published for the
printed elements, at the eccentric longitude of the published iteration. -/
theorem C73_text_to_state (l1 l2 : Str) (v : Tle) (h : Printed l1 l2 v) (hpos : v.nddotNeg = false ∨ v.nddotMant = 0)
    (hnd : Normal v.nddotMant) (hb : Normal v.bstarMant) (s : Satrec ℝ) (hs : twoline2satrec l1 l2 = .ok s) (hN : s.method = .N)
    (t : ℝ) (s' : Satrec ℝ) (r : SGP4Result ℝ) (hr : sgp4 s t = some (s', .ok r)) :
    let m := (tleOrbit v).mean ((v.nodeE4 : ℝ) / 10 ^ 4 * (Real.pi / 180)) t
    ∃ k, k ≤ 9 ∧ (∀ j < k, 1e-12 ≤ |m.correction (m.newton j)|) ∧ (k = 9 ∨ |m.correction (m.newton k)| < 1e-12) ∧
      r.position = vec (m.positionKm (m.newton k)) ∧ r.velocity = vec (m.velocityKmS (m.newton k)) := by
  obtain ⟨p, hpar, -, -, -, -, hbs, hinc, hnode, hecc, hargp, hmo, hno⟩ := C21_decode_real l1 l2 v h hpos hnd hb
  unfold twoline2satrec at hs
  rw [hpar, Res.ok_bind] at hs
  have hin : ∃ r0, sgp4init p (tleOptions p) = some (s, r0) := by
    cases hi : sgp4init p (tleOptions p) with
    | none => rw [hi] at hs; cases hs
    | some q =>
      obtain ⟨q1, q2⟩ := q
      rw [hi] at hs
      cases q2 with
      | error e => cases hs
      | ok x => cases hs; exact ⟨_, rfl⟩
  obtain ⟨r0, hin⟩ := hin
  have he : (tleOptions p).xecco = tleEcc v := hecc
  have hlt : tleEcc v < 1 := by
    unfold tleEcc
    rw [div_lt_one (by norm_num)]
    exact_mod_cast h.ecc.1
  have := C64_near_earth_published p s s' (tleOptions p) r0 t r hin (by rw [he]; exact ⟨by unfold tleEcc; positivity, hlt⟩) hN hr
  have e1 : (tleOptions p).xno = tleMotion v := hno
  have e3 : (tleOptions p).xinclo = (v.inclE4 : ℝ) / 10 ^ 4 * (Real.pi / 180) := hinc
  have e4 : (tleOptions p).xargpo = (v.argpE4 : ℝ) / 10 ^ 4 * (Real.pi / 180) := hargp
  have e5 : (tleOptions p).xmo = (v.moE4 : ℝ) / 10 ^ 4 * (Real.pi / 180) := hmo
  have e6 : (tleOptions p).xbstar = impliedValue v.bstarNeg v.bstarMant (sexp v.bstarExpNeg v.bstarExp) := hbs
  have e7 : (tleOptions p).xnodeo = (v.nodeE4 : ℝ) / 10 ^ 4 * (Real.pi / 180) := hnode
  rw [e1, he, e3, e4, e5, e6, e7] at this
  exact this

/-! ## The space station -/

/-- The element set of the ISS in `Decode.lean` is accepted: an end-to-end instance of C72 (and, with its negative drag term, of
C73 and C29). -/
theorem iss_accepted : ∃ s : Satrec ℝ, twoline2satrec "1 25544U 98067A   08264.51782528 -.00002182  00000-0 -11606-4 0  2927".toList
    "2 25544  51.6416 247.4627 0006703 130.5360 325.0288 15.72125391563537".toList = .ok s := by
  refine C72_tle_accepted _ _ _ iss_printed (Or.inl rfl) ?_ (by decide) ?_
  · unfold tleEcc; norm_num
  · unfold tleEcc tleMotion
    dsimp only
    have hpi := Real.pi_lt_d4
    have hp0 := Real.pi_pos
    have h1 : (1.05 : ℝ) ≤ (ke / (((1572125391 : ℕ) : ℝ) / 10 ^ 8 * (2 * Real.pi) / 1440)) ^ (2 / 3 : ℝ) := by
      have h2 : (1.08 : ℝ) ≤ ke / (((1572125391 : ℕ) : ℝ) / 10 ^ 8 * (2 * Real.pi) / 1440) := by
        rw [le_div_iff₀ (by positivity)]
        unfold ke
        norm_num
        nlinarith
      calc (1.05 : ℝ) = (1.05 ^ (3 / 2 : ℝ)) ^ (2 / 3 : ℝ) := by
            rw [← Real.rpow_mul (by norm_num)]; norm_num
        _ ≤ 1.08 ^ (2 / 3 : ℝ) := by
            apply Real.rpow_le_rpow (by positivity) _ (by norm_num)
            rw [show (3 / 2 : ℝ) = 1 + 1 / 2 by norm_num, Real.rpow_add (by norm_num), Real.rpow_one, ← Real.sqrt_eq_rpow]
            have : Real.sqrt 1.05 ≤ 1.0257 := Real.sqrt_le_iff.mpr ⟨by norm_num, by norm_num⟩
            nlinarith
        _ ≤ _ := Real.rpow_le_rpow (by norm_num) h2 (by norm_num)
    generalize (ke / (((1572125391 : ℕ) : ℝ) / 10 ^ 8 * (2 * Real.pi) / 1440)) ^ (2 / 3 : ℝ) = a at h1
    norm_num at *
    nlinarith

/-- It meets the hypotheses of C29. -/
example : ∃ s : TwoLine ℝ, s.Standard := by
  obtain ⟨r, hr⟩ := iss_accepted
  refine ⟨⟨"1 25544U 98067A   08264.51782528 -.00002182  00000-0 -11606-4 0  2927".toList,
    "2 25544  51.6416 247.4627 0006703 130.5360 325.0288 15.72125391563537".toList, r⟩,
    ⟨?_, ?_, rfl, rfl, ⟨_, iss_printed⟩, ?_, hr⟩⟩ <;> dsimp only <;> (try unfold OneLine) <;> decide

end Sat
