import Verif.Props.TextToState
import Verif.Props.DeepEndToEnd
import Verif.Props.Time
/-!
# From the text of an element set to the record and to the state at a date: C75, C76, C77

Exact arithmetic.
-/

namespace Sat
open Spec Spec.R3 Spec.SDP

/-! ## Specification -/

/-- right ascension of the ascending node of a printed set, in radians -/
noncomputable def tleNode (v : Tle) : ℝ := (v.nodeE4 : ℝ) / 10 ^ 4 * (Real.pi / 180)

open Classical in
/-- What SGP4 as published (Report No. 3) gives for a printed near-earth set `t` minutes after its epoch. -/
def NearOutcome (v : Tle) (t : ℝ) (x : Except SGP4Error (SGP4Result ℝ)) : Prop :=
  let q := tleOrbit v
  let m := q.mean (tleNode v) t
  ∃ k, k ≤ 9 ∧ (∀ j < k, 1e-12 ≤ |m.correction (m.newton j)|) ∧ (k = 9 ∨ |m.correction (m.newton k)| < 1e-12) ∧
    x = if q.n ≤ 0 then .error .Nm
        else if 1 ≤ q.eRaw t ∨ q.eRaw t < -0.001 then .error .Eccentricty
        else if m.pL < 0 then .error .Pl
        else if m.rk (m.newton k) < 1 then .error .DecayCondition
        else .ok { position := vec (m.positionKm (m.newton k)), velocity := vec (m.velocityKmS (m.newton k)) }

open Classical in
/-- What the part of the deep-space theory carried by the crate gives for a printed set, `t` minutes after the epoch, which is `jd` as a
Julian date (2415020 is 1899 December 31, noon, from which the lunar and solar arguments are counted). -/
def DeepOutcome (v : Tle) (jd t : ℝ) (x : Except SGP4Error (SGP4Result ℝ)) : Prop :=
  let q := tleOrbit v
  let T := targetAt q (tleNode v)
  let day := jd - 2415020
  let m := carriedMean q (tleNode v) day t
  let ep := m.e + (T.perE sun (sunAnomaly day t) + T.perE (moon day) (moonAnomaly day t))
  ∃ k, k ≤ 9 ∧ (∀ j < k, 1e-12 ≤ |m.correction (m.newton j)|) ∧ (k = 9 ∨ |m.correction (m.newton k)| < 1e-12) ∧
    x = if q.n ≤ 0 then .error .Nm
        else if 1 ≤ eccentricityRaw q (tleNode v) day t ∨ eccentricityRaw q (tleNode v) day t < -0.001 then .error .Eccentricty
        else if ep < 0 ∨ 1 < ep then .error .Ep
        else if m.pL < 0 then .error .Pl
        else if m.rk (m.newton k) < 1 then .error .DecayCondition
        else .ok { position := vec (m.positionKm (m.newton k)), velocity := vec (m.velocityKmS (m.newton k)) }

/-! ## Auxiliary -/

/-- The sidereal time stored by initialisation. -/
theorem init_gsto {F : Type} [Arith F] {s s' : Satrec F} {o : SGP4InitOptions F} {r} (h : sgp4init s o = some (s', r)) :
    s'.gsto = (initlOf (resetSatrec s o) o.epoch).gsto := by
  have h0 : s'.gsto = (initRecord s o).gsto := (congrArg (fun x : Satrec F => x.gsto) (sgp4init_left h).1).trans rfl
  rw [h0]
  have h3 : ∀ (s : Satrec F) (i : InitlReturn F) (e x : F), (initDeep s i e x).gsto = s.gsto := by
    intro s i e x; unfold initDeep; split <;> rfl
  unfold initRecord initFinish
  dsimp only
  split
  · rw [initDrag_deep, h3]; rfl
  · rfl

theorem twoline_init {F : Type} [Arith F] {l1 l2 : Str} {s p : Satrec F} (hs : (twoline2satrec l1 l2 : PRes (Satrec F)) = .ok s)
    (hp : (parse_satrec l1 l2 : PRes (Satrec F)) = .ok p) : ∃ r, sgp4init p (tleOptions p) = some (s, .ok r) := by
  unfold twoline2satrec at hs
  rw [hp, Res.ok_bind] at hs
  cases hi : sgp4init p (tleOptions p) with
  | none => rw [hi] at hs; cases hs
  | some q =>
    obtain ⟨q1, q2⟩ := q
    rw [hi] at hs
    cases q2 with
    | error e => cases hs
    | ok x => cases hs; exact ⟨_, rfl⟩

theorem tleEcc_range {l1 l2 : Str} {v : Tle} (h : Printed l1 l2 v) : 0 ≤ tleEcc v ∧ tleEcc v < 1 := by
  unfold tleEcc
  refine ⟨by positivity, ?_⟩
  rw [div_lt_one (by norm_num)]
  exact_mod_cast h.ecc.1

/-! ## The record -/

/-- **C75.** The record made of a well-formed two-line set: the epoch is the printed day of the printed year (1957 to 2056), the stored mean
motion is the one recovered from the printed one; the stored size and heights come from the *printed* mean motion, by Kepler's third law
(lengths in earth radii; 13.4468... minutes is the time unit in which the constant of gravitation is one), the class is deep space exactly
if the recovered period is at least 225 minutes, and the stored sidereal time is that of the epoch. -/
theorem C75_text_to_record (l1 l2 : Str) (v : Tle) (h : Printed l1 l2 v) (hpos : v.nddotNeg = false ∨ v.nddotMant = 0)
    (hnd : Normal v.nddotMant) (hb : Normal v.bstarMant) (hno : 0 < v.noE8) (s : Satrec ℝ) (hs : twoline2satrec l1 l2 = .ok s) :
    (∃ (year n : ℕ), 1957 ≤ year ∧ year ≤ 2056 ∧ (year : ℤ) % 100 = v.year ∧ Spec.base.after n = ⟨year, 1, 1⟩ ∧
      s.jdsatepoch = 2415079.5 + n - 1 + (v.dayE8 : ℝ) / 10 ^ 8) ∧
    s.no = (tleOrbit v).n ∧ s.ecco = tleEcc v ∧
    (0 < s.a ∧ s.a ^ 3 * (tleMotion v * 13.446851082044981) ^ 2 = 1) ∧
    s.alta = s.a * (1 + tleEcc v) - 1 ∧ s.altp = s.a * (1 - tleEcc v) - 1 ∧
    (s.method = .D ↔ 225 ≤ 2 * Real.pi / (tleOrbit v).n) ∧
    s.gsto ∈ Set.Ico 0 (2 * Real.pi) ∧ SameAngle s.gsto (gmstSeconds s.jdsatepoch / 86400 * (2 * Real.pi)) := by
  obtain ⟨p, hpar, -, hjd, -, -, -, hinc, -, hecc, -, -, hno'⟩ := C21_decode_real l1 l2 v h hpos hnd hb
  obtain ⟨p2, hpar2, -, -, -, -, -, -, -, -, -, -, -, -, -, -, -, -, ha, halta, haltp⟩ := C21_decode (F := ℝ) l1 l2 v h hpos
  obtain rfl : p2 = p := by rw [hpar] at hpar2; cases hpar2; rfl
  obtain ⟨p3, hpar3, -, hecc', -, -, -, -, -, -, -, hjd', -, -, ha', halta', haltp', -, -, hop, -, -⟩ := C06_twoline_elements l1 l2 s hs
  obtain rfl : p3 = p2 := by rw [hpar] at hpar3; cases hpar3; rfl
  obtain ⟨r, hin⟩ := twoline_init hs hpar
  have hr := tleEcc_range h
  have e2 : (tleOptions p3).xecco = tleEcc v := hecc
  have e1 : (tleOptions p3).xno = tleMotion v := hno'
  have e3 : (tleOptions p3).xinclo = (v.inclE4 : ℝ) / 10 ^ 4 * (Real.pi / 180) := hinc
  have hno2 : s.no = (tleOrbit v).n := by
    rw [C56_recovered_motion p3 s (tleOptions p3) _ hin (by rw [e2]; exact hr), e1, e2, e3]; rfl
  have hm : 0 < tleMotion v := by unfold tleMotion; positivity
  have hep : p3.ecco = tleEcc v := hecc
  refine ⟨by rw [hjd']; exact hjd, hno2, by rw [hecc']; exact hecc, ?_, ?_, ?_, ?_, ?_⟩
  · rw [ha', ha, hno']
    change 0 < ((tleMotion v * TUMIN : ℝ) ^ ((-2.0 / 3.0 : ℝ)) : ℝ) ∧ ((tleMotion v * TUMIN : ℝ) ^ ((-2.0 / 3.0 : ℝ)) : ℝ) ^ 3 * _ = 1
    have ht : (TUMIN : ℝ) = 13.446851082044981 := rfl
    rw [ht]
    set y := tleMotion v * 13.446851082044981 with hy
    have hy0 : 0 < y := by positivity
    refine ⟨Real.rpow_pos_of_pos hy0 _, ?_⟩
    rw [← Real.rpow_natCast (y ^ (-2.0 / 3.0 : ℝ)) 3, ← Real.rpow_mul hy0.le, ← Real.rpow_natCast y 2, ← Real.rpow_add hy0]
    norm_num
  · rw [halta', halta, ha', hep]; norm_num
  · rw [haltp', haltp, ha', hep]; norm_num
  · have hc := (C07_classification p3 s (tleOptions p3) _ hin (Or.inl (guard_real (by rw [e2]; exact hr)))).1
    rw [hc, hno2]
    simp only [real_fle, real_TWO_PI, decide_eq_true_eq]
    rw [show (225.0 : ℝ) = 225 by norm_num]
  · have hg : s.gsto = gstime (s.jdsatepoch) := by
      rw [init_gsto hin, hjd']
      show gstime (p3.jdsatepoch - 2433281.5 + 2433281.5) = _
      congr 1; ring
    rw [hg]
    exact ⟨C36_range _, C37_polynomial _⟩

/-! ## Text to state -/

/-- **C73**, with the errors: the complete outcome of propagating a near-earth two-line set. -/
theorem C73_outcome (l1 l2 : Str) (v : Tle) (h : Printed l1 l2 v) (hpos : v.nddotNeg = false ∨ v.nddotMant = 0)
    (hnd : Normal v.nddotMant) (hb : Normal v.bstarMant) (s : Satrec ℝ) (hs : twoline2satrec l1 l2 = .ok s) (hN : s.method = .N) (t : ℝ) :
    ∃ x, (sgp4 s t).map Prod.snd = some x ∧ NearOutcome v t x := by
  obtain ⟨p, hpar, -, -, -, -, hbs, hinc, hnode, hecc, hargp, hmo, hno⟩ := C21_decode_real l1 l2 v h hpos hnd hb
  obtain ⟨r, hin⟩ := twoline_init hs hpar
  have he : (tleOptions p).xecco = tleEcc v := hecc
  have := C64_near_earth_outcome p s (tleOptions p) _ t hin (by rw [he]; exact tleEcc_range h) hN
  have e1 : (tleOptions p).xno = tleMotion v := hno
  have e3 : (tleOptions p).xinclo = (v.inclE4 : ℝ) / 10 ^ 4 * (Real.pi / 180) := hinc
  have e4 : (tleOptions p).xargpo = (v.argpE4 : ℝ) / 10 ^ 4 * (Real.pi / 180) := hargp
  have e5 : (tleOptions p).xmo = (v.moE4 : ℝ) / 10 ^ 4 * (Real.pi / 180) := hmo
  have e6 : (tleOptions p).xbstar = impliedValue v.bstarNeg v.bstarMant (sexp v.bstarExpNeg v.bstarExp) := hbs
  have e7 : (tleOptions p).xnodeo = tleNode v := hnode
  rw [e1, he, e3, e4, e5, e6, e7] at this
  obtain ⟨k, k1, k2, k3, k4⟩ := this
  exact ⟨_, k4, k, k1, k2, k3, rfl⟩

/-- **C76.** The same for deep-space sets: the complete outcome, in terms of the printed elements and the printed epoch. -/
theorem C76_deep_text_to_state (l1 l2 : Str) (v : Tle) (h : Printed l1 l2 v) (hpos : v.nddotNeg = false ∨ v.nddotMant = 0)
    (hnd : Normal v.nddotMant) (hb : Normal v.bstarMant) (s : Satrec ℝ) (hs : twoline2satrec l1 l2 = .ok s) (hD : s.method = .D) (t : ℝ) :
    ∃ x, (sgp4 s t).map Prod.snd = some x ∧ DeepOutcome v s.jdsatepoch t x := by
  obtain ⟨p, hpar, -, -, -, -, hbs, hinc, hnode, hecc, hargp, hmo, hno⟩ := C21_decode_real l1 l2 v h hpos hnd hb
  obtain ⟨p3, hpar3, -, -, -, -, -, -, -, -, -, hjd', -⟩ := C06_twoline_elements l1 l2 s hs
  obtain rfl : p3 = p := by rw [hpar] at hpar3; cases hpar3; rfl
  obtain ⟨r, hin⟩ := twoline_init hs hpar
  have he : (tleOptions p3).xecco = tleEcc v := hecc
  have := C62_deep_space_outcome p3 s (tleOptions p3) _ t hin (by rw [he]; exact tleEcc_range h) hD
  have e1 : (tleOptions p3).xno = tleMotion v := hno
  have e3 : (tleOptions p3).xinclo = (v.inclE4 : ℝ) / 10 ^ 4 * (Real.pi / 180) := hinc
  have e4 : (tleOptions p3).xargpo = (v.argpE4 : ℝ) / 10 ^ 4 * (Real.pi / 180) := hargp
  have e5 : (tleOptions p3).xmo = (v.moE4 : ℝ) / 10 ^ 4 * (Real.pi / 180) := hmo
  have e6 : (tleOptions p3).xbstar = impliedValue v.bstarNeg v.bstarMant (sexp v.bstarExpNeg v.bstarExp) := hbs
  have e7 : (tleOptions p3).xnodeo = tleNode v := hnode
  have e8 : (tleOptions p3).epoch + 18261.5 = s.jdsatepoch - 2415020 := by
    rw [hjd']; show p3.jdsatepoch - 2433281.5 + 18261.5 = _; ring
  rw [e1, he, e3, e4, e5, e6, e7, e8] at this
  obtain ⟨k, k1, k2, k3, k4⟩ := this
  exact ⟨_, k4, k, k1, k2, k3, rfl⟩

/-- **C77.** From the text and a calendar date to the state.  The time handed to the theory is the number of minutes, counted by the
calendar, from the printed epoch (day `dayE8 / 10^8` of its year, January 1 being day 1) to the date and time of day asked for. -/
theorem C77_text_and_date_to_state (l1 l2 : Str) (v : Tle) (h : Printed l1 l2 v) (hpos : v.nddotNeg = false ∨ v.nddotMant = 0)
    (hnd : Normal v.nddotMant) (hb : Normal v.bstarMant) (s : Satrec ℝ) (hs : twoline2satrec l1 l2 = .ok s)
    (time : DateTimeUtc) (d : Date) (hd : d.InRange) (hy : time.year = d.year) (hm : time.month = d.month) (hday : time.day = d.day) :
    ∃ (year nE nD : ℕ), 1957 ≤ year ∧ year ≤ 2056 ∧ (year : ℤ) % 100 = v.year ∧ Spec.base.after nE = ⟨year, 1, 1⟩ ∧
      Spec.base.after nD = d ∧
      let t : ℝ := ((nD : ℝ) - nE + 1 - (v.dayE8 : ℝ) / 10 ^ 8) * 1440 + time.hour * 60 + time.minute + (time.second : ℝ) / 60
      ∃ x, propogate_datetime s time = some x ∧
        ((s.method = .N ∧ NearOutcome v t x) ∨ (s.method = .D ∧ DeepOutcome v (2415079.5 + nE - 1 + (v.dayE8 : ℝ) / 10 ^ 8) t x)) := by
  obtain ⟨p, hpar, -, ⟨year, nE, y1, y2, y3, y4, y5⟩, -⟩ := C21_decode_real l1 l2 v h hpos hnd hb
  obtain ⟨p3, hpar3, -, -, -, -, -, -, -, -, -, hjd', -⟩ := C06_twoline_elements l1 l2 s hs
  obtain rfl : p3 = p := by rw [hpar] at hpar3; cases hpar3; rfl
  obtain ⟨nD, hD1, hD2⟩ := C34_jday_datetime time d hd hy hm hday
  refine ⟨year, nE, nD, y1, y2, y3, y4, hD1, ?_⟩
  intro t
  have ht : ((jday_datetime time - s.jdsatepoch) * 1440.0 : ℝ) = t := by
    rw [hD2, hjd', y5]; push_cast; norm_num; ring
  rw [C04_datetime, ht]
  cases hM : s.method with
  | N =>
    obtain ⟨x, hx, hx'⟩ := C73_outcome l1 l2 v h hpos hnd hb s hs hM t
    exact ⟨x, hx, Or.inl ⟨rfl, hx'⟩⟩
  | D =>
    obtain ⟨x, hx, hx'⟩ := C76_deep_text_to_state l1 l2 v h hpos hnd hb s hs hM t
    rw [hjd', y5] at hx'
    exact ⟨x, hx, Or.inr ⟨rfl, hx'⟩⟩

/-! ## A navigation satellite -/

/-- A well-formed set of a twelve-hour orbit. -/
def navTle : Tle :=
  { satnum := "24876".toList, year := 97, dayE8 := 26451782528, ndotNeg := false, ndotE8 := 12, nddotNeg := false,
    nddotMant := 0, nddotExpNeg := true, nddotExp := 0, bstarNeg := false, bstarMant := 10000, bstarExpNeg := true,
    bstarExp := 3, inclE4 := 554416, nodeE4 := 2474627, eccE7 := 106703, argpE4 := 1305360, moE4 := 3250288,
    noE8 := 200563537 }

def navLine1 : Str := "1 24876U 97035A   97264.51782528  .00000012  00000-0  10000-3 0  2927".toList
def navLine2 : Str := "2 24876  55.4416 247.4627 0106703 130.5360 325.0288  2.00563537563537".toList

theorem nav_printed : Printed navLine1 navLine2 navTle where
  ascii1 := by unfold Ascii; decide
  ascii2 := by unfold Ascii; decide
  satnum := by decide
  year := by decide
  day := ⟨0, by decide, by decide, by decide⟩
  ndot := ⟨by decide, ' ', Or.inl rfl, by decide⟩
  nddot := ⟨by decide, by decide, ' ', Or.inl rfl, by decide, by decide⟩
  bstar := ⟨by decide, by decide, ' ', Or.inl rfl, by decide, by decide, by decide⟩
  incl := ⟨1, by decide, by decide, by decide⟩
  node := ⟨0, by decide, by decide, by decide⟩
  ecc := by decide
  argp := ⟨0, by decide, by decide, by decide⟩
  mo := ⟨0, by decide, by decide, by decide⟩
  no := ⟨1, by decide, by decide, by decide⟩

theorem nav_motion : 0 < tleMotion navTle ∧ tleMotion navTle ≤ 0.0088 := by
  have hp := Real.pi_pos
  have h := Real.pi_lt_d2
  unfold tleMotion navTle
  constructor
  · positivity
  · norm_num at *; linarith

theorem nav_axis : 3 ≤ (ke / tleMotion navTle) ^ (2 / 3 : ℝ) := by
  have h2 : (6 : ℝ) ≤ ke / tleMotion navTle := by
    rw [le_div_iff₀ nav_motion.1]
    have := nav_motion.2
    unfold ke; norm_num at *; linarith
  calc (3 : ℝ) = (3 ^ (3 / 2 : ℝ)) ^ (2 / 3 : ℝ) := by rw [← Real.rpow_mul (by norm_num)]; norm_num
    _ ≤ 6 ^ (2 / 3 : ℝ) := by
        apply Real.rpow_le_rpow (by positivity) _ (by norm_num)
        rw [show (3 / 2 : ℝ) = 1 + 1 / 2 by norm_num, Real.rpow_add (by norm_num), Real.rpow_one, ← Real.sqrt_eq_rpow]
        have : Real.sqrt 3 ≤ 2 := Real.sqrt_le_iff.mpr ⟨by norm_num, by norm_num⟩
        linarith
    _ ≤ _ := Real.rpow_le_rpow (by norm_num) h2 (by norm_num)

/-- It is accepted, as a deep-space orbit: an instance of C75, C76 and C77. -/
theorem nav_accepted : ∃ s : Satrec ℝ, twoline2satrec navLine1 navLine2 = .ok s ∧ s.method = .D := by
  have he : tleEcc navTle ≤ 0.011 := by unfold tleEcc navTle; norm_num
  have he0 : 0 ≤ tleEcc navTle := by unfold tleEcc; positivity
  obtain ⟨s, hs⟩ := C72_tle_accepted _ _ _ nav_printed (Or.inl rfl) (by norm_num at *; linarith) (by decide)
    (by have := nav_axis; norm_num at *; nlinarith)
  refine ⟨s, hs, ?_⟩
  have hd := (C75_text_to_record _ _ _ nav_printed (Or.inl rfl) (Or.inl rfl) (Or.inr (by decide)) (by decide) s hs).2.2.2.2.2.2.1
  rw [hd]
  have hc := recovered_close (i := (navTle.inclE4 : ℝ) / 10 ^ 4 * (Real.pi / 180)) nav_motion.1 ⟨he0, by norm_num at *; linarith⟩
    (by linarith [nav_axis])
  have hm := nav_motion
  have h1 : (tleOrbit navTle).n ≤ 1.003 * tleMotion navTle := hc.2
  have h2 : 0.997 * tleMotion navTle ≤ (tleOrbit navTle).n := hc.1
  have h3 : 0 < (tleOrbit navTle).n := lt_of_lt_of_le (by nlinarith) h2
  rw [le_div_iff₀ h3]
  have := Real.pi_gt_d2
  norm_num at *; nlinarith

example : Normal navTle.nddotMant ∧ Normal navTle.bstarMant := ⟨Or.inl rfl, Or.inr (by decide)⟩

end Sat
