import Verif.Props.F64DeepFront
import Verif.Props.F64Text
/-!
# C93: from the text of a deep-space element set to the state, in doubles

The elements read from a two-line set of an ordinary deep-space orbit are the printed ones up to rounding (`Far.Elements`), and the epoch handed to the
initialisation is the printed one within 0.1 milliseconds; with `Far.init_and_run` and C76 the state that the program computes, in doubles and from
the text on, is within a metre of that of the part of the deep-space theory which the crate carries, for the printed elements and the printed epoch.
-/

namespace Sat
open F64 Spec Spec.R3 Spec.SDP Chain

/-- A printed set of an ordinary deep-space orbit: eccentricity at most 0.41, 0.573 to 6.371 revolutions per day, inclination at most 160 degrees, and a
drag term of at most 0.001. -/
structure HighTle (v : Tle) : Prop where
  day : v.dayE8 ≤ 400 * 10 ^ 8
  ecc : v.eccE7 ≤ 4100000
  mot_lo : 57300000 ≤ v.noE8
  mot_hi : v.noE8 ≤ 637100000
  incl : v.inclE4 ≤ 1600000
  argp : v.argpE4 ≤ 3600000
  node : v.nodeE4 ≤ 3600000
  anom : v.moE4 ≤ 3600000
  bstar : |tleDrag v| ≤ 1 / 10 ^ 3

/-- The printed epoch as a Julian date: day `dayE8 / 10^8` (January 1 being day 1) of the year, between 1957 and 2056, whose last two digits are
printed; `nE` is the number of days from 1900 March 1 to January 1 of that year. -/
def PrintedEpoch (v : Tle) (jd : ℝ) : Prop :=
  ∃ year nE : ℕ, 1957 ≤ year ∧ year ≤ 2056 ∧ (year : ℤ) % 100 = v.year ∧ base.after nE = ⟨year, 1, 1⟩ ∧ jd = 2415079.5 + nE - 1 + (v.dayE8 : ℝ) / 10 ^ 8

theorem year_days : ∀ y < 100, 20000 ≤ serial ⟨1957 + y, 1, 1⟩ ∧ serial ⟨1957 + y, 1, 1⟩ ≤ 57000 := by decide +kernel

theorem start_of_year {year nE : ℕ} (h1 : 1957 ≤ year) (h2 : year ≤ 2056) (h : base.after nE = ⟨year, 1, 1⟩) :
    nE + 60 = serial ⟨year, 1, 1⟩ ∧ 19000 ≤ nE ∧ nE ≤ 57000 := by
  have e := (serial_after nE).2.2
  rw [h] at e
  obtain ⟨y, rfl⟩ : ∃ y, year = 1957 + y := ⟨year - 1957, by omega⟩
  have := year_days y (by omega)
  omega

/-- two dates of the same year of the century are in the same year -/
theorem PrintedEpoch.unique {v : Tle} {a b : ℝ} (ha : PrintedEpoch v a) (hb : PrintedEpoch v b) : a = b := by
  obtain ⟨y, n, h1, h2, h3, h4, rfl⟩ := ha
  obtain ⟨y', n', g1, g2, g3, g4, rfl⟩ := hb
  obtain rfl : y = y' := by omega
  have e1 := (start_of_year h1 h2 h4).1
  have e2 := (start_of_year g1 g2 g4).1
  obtain rfl : n = n' := by omega
  rfl

/-- the epoch of a set read in exact arithmetic is the printed one -/
theorem epoch_real {l1 l2 : Str} {v : Tle} (h : Printed l1 l2 v) (hd : v.dayE8 ≤ 400 * 10 ^ 8) :
    PrintedEpoch v (epochJd (v.year : ℤ) (Arith.ofDec (.num false v.dayE8 (-8)) : ℝ)) := by
  have e : (Arith.ofDec (.num false v.dayE8 (-8)) : ℝ) = (v.dayE8 : ℝ) / 10 ^ 8 := by
    have := real_dec false v.dayE8 8
    simpa using this
  have hd8 : (v.dayE8 : ℝ) / 10 ^ 8 ≤ 400 := by
    rw [div_le_iff₀ (by positivity)]; exact_mod_cast hd
  rw [e]
  obtain ⟨year, n, h1, h2, h3, h4, h5⟩ := C24_epoch (v.year : ℤ) (by omega) (by have := h.year.1; omega) ((v.dayE8 : ℝ) / 10 ^ 8) (by positivity) (lt_of_le_of_lt hd8 (by norm_num))
  exact ⟨year, n, h1, h2, h3, h4, h5⟩

theorem PrintedEpoch.size {v : Tle} {jd : ℝ} (h : PrintedEpoch v jd) (hd : v.dayE8 ≤ 400 * 10 ^ 8) : |jd - 2433281.5| ≤ 40000 := by
  obtain ⟨y, n, h1, h2, h3, h4, rfl⟩ := h
  obtain ⟨-, e1, e2⟩ := start_of_year h1 h2 h4
  have hd8 : (v.dayE8 : ℝ) / 10 ^ 8 ≤ 400 := by
    rw [div_le_iff₀ (by positivity)]; exact_mod_cast hd
  have hd0 : 0 ≤ (v.dayE8 : ℝ) / 10 ^ 8 := by positivity
  have f1 : (19000 : ℝ) ≤ n := by exact_mod_cast e1
  have f2 : (n : ℝ) ≤ 57000 := by exact_mod_cast e2
  rw [abs_le]; constructor <;> linarith

/-- The part of the deep-space theory that the crate carries, for the printed elements and the epoch `jd`, `τ` minutes after the epoch: `p` is within a
metre, and a millimetre per second, in every component, of the state at the eccentric longitude of the published iteration. -/
def CloseToDeepTheory (v : Tle) (jd τ : ℝ) (p : SGP4Result F64) : Prop :=
  let m := carriedMean (tleOrbit v) (tleNode v) (jd - 2415020) τ
  ∃ k, k ≤ 9 ∧ (∀ j < k, 1e-12 ≤ |m.correction (m.newton j)|) ∧ (k = 9 ∨ |m.correction (m.newton k)| < 1e-12) ∧
    p.position.Close (vec (m.positionKm (m.newton k))) (1 / 10 ^ 3) ∧ p.velocity.Close (vec (m.velocityKmS (m.newton k))) (1 / 10 ^ 6)

/-- Mean elements near those at epoch: moon, sun and drag change the eccentricity by a few per cent, the inclination by a degree. -/
def MeanNear (q : Orbit) (m : Mean) : Prop :=
  191 / 10 ^ 2 ≤ m.a ∧ m.e ≤ 1031 / 10 ^ 3 * q.e + 215 / 10 ^ 8 ∧ |m.i - q.inc| ≤ 179 / 10 ^ 4

/-- the same, the distance of that state from the centre of the earth being between 6569 and 99500 km, its velocity at most 41 km/s in
every component; the position lies in a plane through the centre of the earth with the printed inclination up to 0.0182 rad, and the
mean elements are near the printed ones -/
def SizedDeepTheory (v : Tle) (jd τ : ℝ) (p : SGP4Result F64) : Prop :=
  let m := carriedMean (tleOrbit v) (tleNode v) (jd - 2415020) τ
  ∃ k, k ≤ 9 ∧ (∀ j < k, 1e-12 ≤ |m.correction (m.newton j)|) ∧ (k = 9 ∨ |m.correction (m.newton k)| < 1e-12) ∧
    p.position.Close (vec (m.positionKm (m.newton k))) (1 / 10 ^ 3) ∧ p.velocity.Close (vec (m.velocityKmS (m.newton k))) (1 / 10 ^ 6) ∧
    6569 ≤ len (vec (m.positionKm (m.newton k))) ∧ len (vec (m.positionKm (m.newton k))) ≤ 99500 ∧ (∀ j, |m.velocityKmS (m.newton k) j| ≤ 41) ∧
    (∃ ι, |ι - (tleOrbit v).inc| ≤ 0.0182 ∧ |(vec (m.positionKm (m.newton k))).z| ≤ |Real.sin ι| * len (vec (m.positionKm (m.newton k)))) ∧
    MeanNear (tleOrbit v) m

theorem SizedDeepTheory.close {v : Tle} {jd τ : ℝ} {p : SGP4Result F64} (h : SizedDeepTheory v jd τ p) : CloseToDeepTheory v jd τ p := by
  obtain ⟨k, k1, k2, k3, k4, k5, -⟩ := h
  exact ⟨k, k1, k2, k3, k4, k5⟩

theorem deep_ok {v : Tle} {jd τ : ℝ} {q : SGP4Result ℝ} {p : SGP4Result F64} (h : DeepOutcome v jd τ (.ok q))
    (h1 : p.position.Close q.position (1 / 10 ^ 3)) (h2 : p.velocity.Close q.velocity (1 / 10 ^ 6)) (h3 : Far.Between (tleOrbit v).inc q)
    (h4 : MeanNear (tleOrbit v) (carriedMean (tleOrbit v) (tleNode v) (jd - 2415020) τ)) : SizedDeepTheory v jd τ p := by
  obtain ⟨k, k1, k2, k3, k4⟩ := h
  refine ⟨k, k1, k2, k3, ?_⟩
  split_ifs at k4
  simp only [Except.ok.injEq] at k4
  subst k4
  obtain ⟨R, r1, r2, r3, ⟨r4, r5, r6⟩, ι, r7, r8⟩ := h3
  have e : len (vec ((carriedMean (tleOrbit v) (tleNode v) (jd - 2415020) τ).positionKm ((carriedMean (tleOrbit v) (tleNode v) (jd - 2415020) τ).newton k))) =
      R * 6378.137 := by
    rw [len, ← Real.sqrt_sq (show 0 ≤ R * 6378.137 by positivity), ← r3]
    congr 1
    unfold dot; ring
  rw [e]
  refine ⟨h1, h2, by norm_num at *; linarith, by norm_num at *; linarith, fun j => ?_, ⟨ι, ?_, r8⟩, h4⟩
  · fin_cases j
    · exact r4
    · exact r5
    · exact r6
  · rw [abs_of_nonneg (show 0 ≤ (tleOrbit v).inc by show 0 ≤ (v.inclE4 : ℝ) / 10 ^ 4 * (Real.pi / 180); positivity)] at r7
    exact r7

/-- the elements of a printed set of an ordinary deep-space orbit -/
theorem ranges_deep {l1 l2 : Str} {v : Tle} (h : Printed l1 l2 v) (hpos : v.nddotNeg = false ∨ v.nddotMant = 0)
    (hnd : Normal v.nddotMant) (hb : Normal v.bstarMant) (hl : HighTle v) {ρ : Satrec ℝ}
    (hρ : parse_satrec l1 l2 = .ok ρ) : Far.Ranges (tleOptions ρ) := by
  obtain ⟨p, hpar, -, -, -, -, hbs, hinc, hnode, hecc, hargp, hmo, hno⟩ := C21_decode_real l1 l2 v h hpos hnd hb
  obtain rfl : p = ρ := by rw [hpar] at hρ; cases hρ; rfl
  obtain ⟨p', hs', -, -, -, -, -, -, gjd, -⟩ := C21_decode (F := ℝ) l1 l2 v h hpos
  obtain rfl : p' = p := by rw [hs'] at hρ; cases hρ; rfl
  have e1 : (tleOptions p').xno = tleMotion v := hno
  have e2 : (tleOptions p').xecco = tleEcc v := hecc
  have e3 : (tleOptions p').xinclo = (v.inclE4 : ℝ) / 10 ^ 4 * (Real.pi / 180) := hinc
  have e4 : (tleOptions p').xargpo = (v.argpE4 : ℝ) / 10 ^ 4 * (Real.pi / 180) := hargp
  have e5 : (tleOptions p').xmo = (v.moE4 : ℝ) / 10 ^ 4 * (Real.pi / 180) := hmo
  have e6 : (tleOptions p').xbstar = tleDrag v := hbs
  have e7 : (tleOptions p').xnodeo = (v.nodeE4 : ℝ) / 10 ^ 4 * (Real.pi / 180) := hnode
  have hp := Real.pi_gt_d4
  have hp2 := Real.pi_lt_d4
  have he0 : 0 ≤ tleEcc v := by unfold tleEcc; positivity
  have he1 : tleEcc v ≤ 41 / 10 ^ 2 := by
    unfold tleEcc
    rw [div_le_iff₀ (by norm_num)]
    have : (v.eccE7 : ℝ) ≤ 4100000 := by exact_mod_cast hl.ecc
    linarith
  have ang : ∀ m : ℕ, m ≤ 3600000 → |(m : ℝ) / 10 ^ 4 * (Real.pi / 180)| ≤ 63 / 10 := by
    intro m h
    have h1 : (m : ℝ) / 10 ^ 4 ≤ 360 := by
      rw [div_le_iff₀ (by norm_num)]
      have : (m : ℝ) ≤ 3600000 := by exact_mod_cast h
      linarith
    rw [abs_of_nonneg (by positivity)]
    calc _ ≤ 360 * (Real.pi / 180) := mul_le_mul_of_nonneg_right h1 (by positivity)
      _ ≤ _ := by linarith
  have hi0 : (0 : ℝ) ≤ (v.inclE4 : ℝ) / 10 ^ 4 * (Real.pi / 180) := by positivity
  have hi1 : (v.inclE4 : ℝ) / 10 ^ 4 * (Real.pi / 180) ≤ 160 * (Real.pi / 180) := by
    refine mul_le_mul_of_nonneg_right ?_ (by positivity)
    rw [div_le_iff₀ (by norm_num)]
    have : (v.inclE4 : ℝ) ≤ 1600000 := by exact_mod_cast hl.incl
    linarith
  have hn1 : (0.573 : ℝ) ≤ (v.noE8 : ℝ) / 10 ^ 8 := by
    rw [le_div_iff₀ (by norm_num)]
    have : (57300000 : ℝ) ≤ v.noE8 := by exact_mod_cast hl.mot_lo
    norm_num at *; linarith
  have hn2 : (v.noE8 : ℝ) / 10 ^ 8 ≤ 6.371 := by
    rw [div_le_iff₀ (by norm_num)]
    have : (v.noE8 : ℝ) ≤ 637100000 := by exact_mod_cast hl.mot_hi
    norm_num at *; linarith
  have hm1 : 25 / 10 ^ 4 ≤ tleMotion v := by
    unfold tleMotion
    rw [le_div_iff₀ (by norm_num)]
    calc (25 / 10 ^ 4 * 1440 : ℝ) ≤ 0.573 * (2 * 3.1415) := by norm_num
      _ ≤ _ := by gcongr
  have hm2 : tleMotion v ≤ 278 / 10 ^ 4 := by
    unfold tleMotion
    rw [div_le_iff₀ (by norm_num)]
    calc (v.noE8 : ℝ) / 10 ^ 8 * (2 * Real.pi) ≤ 6.371 * (2 * 3.1416) := by gcongr
      _ ≤ _ := by norm_num
  refine ⟨by rw [e2]; exact he0, by rw [e2]; exact he1, by rw [e1]; exact hm1, by rw [e1]; exact hm2, ?_,
    by rw [e4]; exact ang _ hl.argp, by rw [e7]; exact ang _ hl.node, by rw [e5]; exact ang _ hl.anom, by rw [e6]; exact hl.bstar, ?_⟩
  · rw [e3, abs_of_nonneg hi0]
    refine hi1.trans ?_
    linarith
  · show |p'.jdsatepoch - 2433281.5| ≤ 40000
    rw [gjd]; exact (epoch_real h hl.day).size hl.day

variable [Libm]

/-! ## Rounding of the elements -/

/-- the epoch read in doubles is the printed one within 0.1 ms -/
theorem near_epoch {l1 l2 : Str} {v : Tle} (h : Printed l1 l2 v) (hl : HighTle v) :
    Near (epochJd (v.year : ℤ) (Arith.ofDec (.num false v.dayE8 (-8)) : F64) - 2433281.5) (epochJd (v.year : ℤ) (Arith.ofDec (.num false v.dayE8 (-8)) : ℝ) - 2433281.5) 0 (94 / 10 ^ 11) := by
  have hr := epoch_real h hl.day
  have hz := hr.size hl.day
  have hd8 : (v.dayE8 : ℝ) / 10 ^ 8 ≤ 400 := by
    rw [div_le_iff₀ (by positivity)]; exact_mod_cast hl.day
  have hq := (q_dec false v.dayE8 8 400 hd8).to (a' := (v.dayE8 : ℝ) / 10 ^ 8) (by simp)
  have hpos0 : 0 ≤ (Arith.ofDec (.num false v.dayE8 (-8)) : F64).val ∧ (Arith.ofDec (.num false v.dayE8 (-8)) : F64).val ≤ 400 := by
    have hr := ofDecimal_rounds false v.dayE8 (-8)
    have e := real_dec false v.dayE8 8
    rw [show (Arith.ofDec (.num false v.dayE8 (-((8 : ℕ) : ℤ))) : ℝ) = decR (.num false v.dayE8 (-8)) from rfl] at e
    rw [e] at hr
    simp only [Bool.false_eq_true, if_false, one_mul] at hr
    exact ⟨hr.ge hq.fin isRep_zero (by positivity), hr.le hq.fin (by simpa using isRep_int 400 (by norm_num)) hd8⟩
  obtain ⟨year, nE, y1, y2, y3, y4, y5, y6⟩ := C24_f64 (v.year : ℤ) (by omega) (by have := h.year.1; omega)
    (Arith.ofDec (.num false v.dayE8 (-8)) : F64) hq.fin hpos0.1 hpos0.2
  have hu := hr.unique ⟨year, nE, y1, y2, y3, y4, rfl⟩
  rw [hu] at hz ⊢
  have hz2 : |2415079.5 + (nE : ℝ) - 1 + (v.dayE8 : ℝ) / 10 ^ 8| ≤ 25 * 10 ^ 5 := by
    obtain ⟨-, f1, f2⟩ := start_of_year y1 y2 y4
    have f1 : (19000 : ℝ) ≤ nE := by exact_mod_cast f1
    have f2 : (nE : ℝ) ≤ 57000 := by exact_mod_cast f2
    have : 0 ≤ (v.dayE8 : ℝ) / 10 ^ 8 := by positivity
    rw [abs_of_nonneg (by linarith)]
    linarith
  have qe : Q (epochJd (v.year : ℤ) (Arith.ofDec (.num false v.dayE8 (-8)) : F64)) (2415079.5 + nE - 1 + (v.dayE8 : ℝ) / 10 ^ 8) (25 * 10 ^ 5) (9314 / 10 ^ 13) := by
    refine ⟨y5, ?_, hz2⟩
    have e1 := abs_le.mp y6
    have e2 := abs_le.mp hq.err
    rw [abs_le]
    constructor <;> norm_num at * <;> linarith [e1.1, e1.2, e2.1, e2.2]
  have lit : Q (2433281.5 : F64) (2433281.5 : ℝ) (25 * 10 ^ 5) 0 := (Q.dyadic 24332815 true 1 4866563 1 (25 * 10 ^ 5) (by norm_num) (by norm_num))
  have := (qe.sub' lit 40000 hz).mono (A' := 40000) (δ' := 94 / 10 ^ 11) le_rfl (by norm_num)
  exact ⟨this.fin, by rw [zero_mul, zero_add]; exact this.err⟩

theorem near_motion_deep {n : ℕ} (h1 : 57300000 ≤ n) (h2 : n ≤ 637100000) :
    Near (Arith.ofDec (.num false n (-8)) / XPDOTP : F64) ((n : ℝ) / 10 ^ 8 * (2 * Real.pi) / 1440) (6 / 10 ^ 16) 0 := by
  have hn1 : (57 / 10 ^ 2 : ℝ) ≤ (n : ℝ) / 10 ^ 8 := by
    rw [le_div_iff₀ (by norm_num)]
    have : (57300000 : ℝ) ≤ n := by exact_mod_cast h1
    norm_num; linarith
  have hn2 : (n : ℝ) / 10 ^ 8 ≤ 18 := by
    rw [div_le_iff₀ (by norm_num)]
    have : (n : ℝ) ≤ 637100000 := by exact_mod_cast h2
    linarith
  have hn0 : |(n : ℝ) / 10 ^ 8| = (n : ℝ) / 10 ^ 8 := abs_of_nonneg (by positivity)
  have e : (Arith.ofDec (.num false n (-8)) : ℝ) = (n : ℝ) / 10 ^ 8 := by
    have := real_dec false n 8
    simpa using this
  have e' : decR (.num false n (-8)) = (n : ℝ) / 10 ^ 8 := e
  have hd := near_dec false n (-8) (by rw [e', hn0]; exact hn2.trans (by norm_num))
  rw [e] at hd
  have hq : QS (Arith.ofDec (.num false n (-8)) : F64) ((n : ℝ) / 10 ^ 8) |(n : ℝ) / 10 ^ 8| 18 (1 / 2 ^ 53) (1 / 2 ^ 153) :=
    ⟨hd.1, le_rfl, by rw [hn0]; exact hn2, hd.2, by norm_num, by norm_num⟩
  have hq' : QS (Arith.ofDec (.num false n (-8)) : F64) ((n : ℝ) / 10 ^ 8) |(n : ℝ) / 10 ^ 8| 18 (112 / 10 ^ 18) 0 :=
    (hq.absorb (57 / 10 ^ 2) (by rw [hn0]; exact hn1)).mono le_rfl (by norm_num) le_rfl
  have hp := Real.pi_gt_d4
  have hp2 := Real.pi_lt_d4
  have hb : (229 : ℝ) ≤ |1440 / (2 * Real.pi)| := by
    rw [abs_of_pos (by positivity), le_div_iff₀ (by positivity)]
    norm_num at *; linarith
  have hz := hq'.rdiv qs_xpdotp 229 hb
  have ez : (n : ℝ) / 10 ^ 8 / (1440 / (2 * Real.pi)) = (n : ℝ) / 10 ^ 8 * (2 * Real.pi) / 1440 := by
    have := Real.pi_ne_zero; field_simp
  rw [ez] at hz
  have hlo : (24 / 10 ^ 4 : ℝ) ≤ |(n : ℝ) / 10 ^ 8 * (2 * Real.pi) / 1440| := by
    rw [abs_of_nonneg (by positivity), le_div_iff₀ (by norm_num)]
    nlinarith
  have hz' := (hz.absorb (24 / 10 ^ 4) hlo).mono (ε₁ := 6 / 10 ^ 16) (η₁ := 0) le_rfl (by norm_num) le_rfl
  exact ⟨hz'.fin, hz'.err⟩

/-- The elements read in doubles are the printed ones, rounded, and those of an ordinary deep-space orbit. -/
theorem elements_deep {l1 l2 : Str} {v : Tle} (h : Printed l1 l2 v) (hpos : v.nddotNeg = false ∨ v.nddotMant = 0)
    (hnd : Normal v.nddotMant) (hb : Normal v.bstarMant) (hl : HighTle v) {p : Satrec F64} (hp : parse_satrec l1 l2 = .ok p) {ρ : Satrec ℝ}
    (hρ : parse_satrec l1 l2 = .ok ρ) : Far.Elements (tleOptions p) (tleOptions ρ) := by
  obtain ⟨p', hs, -, -, -, -, -, -, hjd, -, -, hbs, hi, hn, he, ha, hm, hno, -, -, -⟩ := C21_decode (F := F64) l1 l2 v h hpos
  obtain rfl : p' = p := by rw [hs] at hp; cases hp; rfl
  obtain ⟨ρ', hs', -, -, -, -, -, -, gjd, -, -, gbs, gi, gn, ge, ga, gm, gno, -, -, -⟩ := C21_decode (F := ℝ) l1 l2 v h hpos
  obtain rfl : ρ' = ρ := by rw [hs'] at hρ; cases hρ; rfl
  have hdeg : (DEG_2_RAD : ℝ) = Real.pi / 180 := by
    unfold DEG_2_RAD; rw [real_pi]; norm_num
  have hx : (XPDOTP : ℝ) = 1440 / (2 * Real.pi) := by
    unfold XPDOTP; rw [real_pi, real_lits.2.2, show (1440.0 : ℝ) = 1440 by norm_num]
  have hang : ∀ m : ℕ, (Arith.ofDec (.num false m (-4)) * DEG_2_RAD : ℝ) = (m : ℝ) / 10 ^ 4 * (Real.pi / 180) := by
    intro m
    have := real_dec false m 4
    rw [hdeg]
    congr 1
    simpa using this
  have big : ∀ m : ℕ, m ≤ 3600000 → (m : ℝ) / 10 ^ 4 ≤ 360 := by
    intro m h
    rw [div_le_iff₀ (by norm_num)]
    have : (m : ℝ) ≤ 3600000 := by exact_mod_cast h
    linarith
  have bigi : (v.inclE4 : ℝ) / 10 ^ 4 ≤ 160 := by
    rw [div_le_iff₀ (by norm_num)]
    have : (v.inclE4 : ℝ) ≤ 1600000 := by exact_mod_cast hl.incl
    linarith
  have wk : ∀ {x : F64} {r : ℝ}, Near x r (1 / 2 ^ 53) (1 / 2 ^ 153) → Near x r (23 / 10 ^ 17) (1 / 10 ^ 46) := by
    intro x r h
    refine ⟨h.1, h.2.trans (add_le_add (mul_le_mul_of_nonneg_right (by norm_num) (abs_nonneg _)) (by norm_num))⟩
  refine ⟨ranges_deep h hpos hnd hb hl hρ, ?_, ?_, ?_, ?_, ?_, ?_, ?_, ?_⟩
  · show Near p'.ecco ρ'.ecco _ _
    rw [he, ge]
    have e : decR (.num false v.eccE7 (-7)) = (v.eccE7 : ℝ) / 10 ^ 7 := by
      have := real_dec false v.eccE7 7
      simp only [Bool.false_eq_true, if_false, one_mul] at this
      exact this
    refine wk (near_dec _ _ _ ?_)
    rw [e, abs_of_nonneg (by positivity), div_le_iff₀ (by norm_num)]
    have : (v.eccE7 : ℝ) ≤ 4100000 := by exact_mod_cast hl.ecc
    linarith
  · show Near p'.bstar ρ'.bstar _ _
    rw [hbs, gbs]
    refine wk (near_dec _ _ _ ?_)
    have e : decR (.num v.bstarNeg v.bstarMant (sexp v.bstarExpNeg v.bstarExp - (numDigits v.bstarMant : Int))) = tleDrag v :=
      implied_normal _ _ _ hb h.bstar.1
    rw [e]
    exact hl.bstar.trans (by norm_num)
  · show Near p'.no ρ'.no _ _
    rw [hno, gno]
    have e : (Arith.ofDec (.num false v.noE8 (-8)) / XPDOTP : ℝ) = (v.noE8 : ℝ) / 10 ^ 8 * (2 * Real.pi) / 1440 := by
      have := real_dec false v.noE8 8
      have h8 : (Arith.ofDec (.num false v.noE8 (-8)) : ℝ) = (v.noE8 : ℝ) / 10 ^ 8 := by simpa using this
      rw [hx, h8]
      have := Real.pi_ne_zero; field_simp
    rw [e]
    exact near_motion_deep hl.mot_lo hl.mot_hi
  · show Near p'.inclo ρ'.inclo _ _
    rw [hi, gi, hang]
    exact near_angle bigi (by norm_num) (by norm_num) (by norm_num)
  · show Near p'.argpo ρ'.argpo _ _
    rw [ha, ga, hang]
    exact near_angle (big _ hl.argp) (by norm_num) (by norm_num) (by norm_num)
  · show Near p'.nodeo ρ'.nodeo _ _
    rw [hn, gn, hang]
    exact near_angle (big _ hl.node) (by norm_num) (by norm_num) (by norm_num)
  · show Near p'.mo ρ'.mo _ _
    rw [hm, gm, hang]
    exact near_angle (big _ hl.anom) (by norm_num) (by norm_num) (by norm_num)
  · obtain ⟨x1, x2⟩ := near_epoch h hl
    show Near (p'.jdsatepoch - 2433281.5) (ρ'.jdsatepoch - 2433281.5) _ _
    rw [hjd, gjd]
    exact ⟨x1, x2⟩

/-- the state, with its distance -/
theorem deep_sized (hL : Libm.Faithful) (l1 l2 : Str) (v : Tle) (h : Printed l1 l2 v) (hpos : v.nddotNeg = false ∨ v.nddotMant = 0)
    (hnd : Normal v.nddotMant) (hb : Normal v.bstarMant) (hl : HighTle v) (t : F64) (ht : t.Fin) (hτ : |t.val| ≤ 43200) :
    ∃ (s : Satrec F64) (p : SGP4Result F64) (jd : ℝ), twoline2satrec l1 l2 = .ok s ∧ s.method = .D ∧ (sgp4 s t).map Prod.snd = some (.ok p) ∧
      PrintedEpoch v jd ∧ SizedDeepTheory v jd t.val p := by
  obtain ⟨p, hp, -⟩ := C21_decode (F := F64) l1 l2 v h hpos
  obtain ⟨ρ, hρ, -, -, -, -, -, -, gjd, -⟩ := C21_decode (F := ℝ) l1 l2 v h hpos
  have hE := elements_deep h hpos hnd hb hl hp hρ
  obtain ⟨s, r, p0, q, q0, y, a1, a2, a3, a4, a5, a6, a7, a8, -, -, a9, a10⟩ := Far.init_and_run hL hE p ρ (t := t) ⟨ht, hτ⟩
  have hs := twoline_ok hp a1
  have hr := twoline_ok hρ a2
  obtain ⟨p3, hpar3, -, -, -, -, -, -, -, -, -, hjd', -⟩ := C06_twoline_elements l1 l2 r hr
  obtain rfl : p3 = ρ := by rw [hρ] at hpar3; cases hpar3; rfl
  obtain ⟨x, x1, x2⟩ := C76_deep_text_to_state l1 l2 v h hpos hnd hb r hr a4 t.val
  rw [a6] at x1
  cases x1
  obtain ⟨p4, hpar4, -, -, -, -, hbs, hinc, hnode, hecc, hargp, hmo, hno⟩ := C21_decode_real l1 l2 v h hpos hnd hb
  obtain rfl : p4 = p3 := by rw [hρ] at hpar4; cases hpar4; rfl
  have e3 : (tleOptions p4).xinclo = (tleOrbit v).inc := hinc
  rw [e3] at a9
  have hmean : MeanNear (tleOrbit v) (carriedMean (tleOrbit v) (tleNode v) (r.jdsatepoch - 2415020) t.val) := by
    have e2 : (tleOptions p4).xecco = tleEcc v := hecc
    have hI := (mean_of_init_deep a2 (by rw [e2]; exact tleEcc_range h) a4 t.val).1
    have eo : orbitOf r (tleOptions p4) = tleOrbit v := by
      unfold orbitOf tleOrbit
      rw [C56_recovered_motion p4 r (tleOptions p4) _ a2 (by rw [e2]; exact tleEcc_range h), show (tleOptions p4).xno = tleMotion v from hno, e2, e3,
        show (tleOptions p4).xargpo = (v.argpE4 : ℝ) / 10 ^ 4 * (Real.pi / 180) from hargp,
        show (tleOptions p4).xmo = (v.moE4 : ℝ) / 10 ^ 4 * (Real.pi / 180) from hmo,
        show (tleOptions p4).xbstar = impliedValue v.bstarNeg v.bstarMant (sexp v.bstarExpNeg v.bstarExp) from hbs]
      rfl
    have en : (tleOptions p4).xnodeo = tleNode v := hnode
    have ed : (tleOptions p4).epoch + 18261.5 = r.jdsatepoch - 2415020 := by
      rw [hjd']; show p4.jdsatepoch - 2433281.5 + 18261.5 = _; ring
    rw [eo, en, ed] at hI
    have b1 := Far.axis_lo (r0 := r) hL hE (t := t) ⟨ht, hτ⟩
    have b2 := (Far.meanEcc_bounds (r0 := r) hL hE (t := t) ⟨ht, hτ⟩).2
    have b3 := Far.incl_near (r0 := r) hL hE (t := t) ⟨ht, hτ⟩
    rw [← a10] at b1 b2 b3
    rw [hI.a] at b1
    rw [hI.i, e3, abs_of_nonneg (show 0 ≤ (tleOrbit v).inc by show 0 ≤ (v.inclE4 : ℝ) / 10 ^ 4 * (Real.pi / 180); positivity)] at b3
    refine ⟨b1, ?_, b3⟩
    have he0 : 0 ≤ (tleOrbit v).e := (tleEcc_range h).1
    rw [← hI.e]
    rw [show (tleOptions p4).xecco = (tleOrbit v).e from e2] at b2
    unfold Spec.ecc
    simp only [real_flt, decide_eq_true_eq]
    split_ifs
    · norm_num at *; linarith
    · exact b2
  refine ⟨s, q, r.jdsatepoch, hs, a3, a5, ?_, deep_ok x2 a7 a8 a9 hmean⟩
  rw [hjd', gjd]; exact epoch_real h hl.day

/-- the state at a date, with its distance -/
theorem deep_sized_at_date (hL : Libm.Faithful) (l1 l2 : Str) (v : Tle) (h : Printed l1 l2 v) (hpos : v.nddotNeg = false ∨ v.nddotMant = 0)
    (hnd : Normal v.nddotMant) (hb : Normal v.bstarMant) (hl : HighTle v)
    (time : DateTimeUtc) (d : Date) (hd : d.InRange) (hy : time.year = d.year) (hm : time.month = d.month) (hdd : time.day = d.day)
    (hh : time.hour < 24) (hmi : time.minute < 60) (hse : time.second < 60) :
    ∃ (s : Satrec F64) (year nE nD : ℕ), twoline2satrec l1 l2 = .ok s ∧
      1957 ≤ year ∧ year ≤ 2056 ∧ (year : ℤ) % 100 = v.year ∧ base.after nE = ⟨year, 1, 1⟩ ∧ base.after nD = d ∧
      let τ : ℝ := ((nD : ℝ) - nE + 1 - (v.dayE8 : ℝ) / 10 ^ 8) * 1440 + time.hour * 60 + time.minute + (time.second : ℝ) / 60
      |τ| ≤ 43199 →
        ∃ (τ' : ℝ) (p : SGP4Result F64), propogate_datetime s time = some (.ok p) ∧ |τ' - τ| ≤ 1 / 400000 ∧
          SizedDeepTheory v (2415079.5 + nE - 1 + (v.dayE8 : ℝ) / 10 ^ 8) τ' p := by
  obtain ⟨p, hp, -⟩ := C21_decode (F := F64) l1 l2 v h hpos
  obtain ⟨z1, z2⟩ := sci_int (m := 0) (s := true) (k := 1) 0 (by norm_num) (by norm_num)
  have z3 : (0.0 : F64).val = 0 := z2.trans (by push_cast; rfl)
  obtain ⟨s, -, -, hs, -⟩ := deep_sized hL l1 l2 v h hpos hnd hb hl (0.0 : F64) z1 (by rw [z3]; norm_num)
  obtain ⟨p3, hpar3, -, -, -, -, -, -, -, -, -, hjd', -⟩ := C06_twoline_elements l1 l2 s hs
  obtain rfl : p3 = p := by rw [hp] at hpar3; cases hpar3; rfl
  obtain ⟨year, nE, nD, t, y1, y2, y3, y4, y5, y6, y7, y8⟩ :=
    C78_epoch_kept l1 l2 v h hpos hl.day s p3 hp hjd' time d hd hy hm hdd hh hmi hse
  refine ⟨s, year, nE, nD, hs, y1, y2, y3, y4, y5, ?_⟩
  intro τ h1
  have h3 : |t.val - τ| ≤ 1 / 400000 := y8
  have h4 : |t.val| ≤ 43200 := by
    have := abs_sub_abs_le_abs_sub t.val τ
    norm_num at *; linarith
  obtain ⟨s', q, jd, hs', -, b1, b2, b3⟩ := deep_sized hL l1 l2 v h hpos hnd hb hl t y7 h4
  obtain rfl : s' = s := by rw [hs] at hs'; cases hs'; rfl
  rw [b2.unique ⟨year, nE, y1, y2, y3, y4, rfl⟩] at b3
  exact ⟨t.val, q, by rw [y6]; exact b1, h3, b3⟩

/-- **C93.** From the text of a deep-space set to the state, in doubles.  A well-formed two-line set of an ordinary deep-space orbit is accepted, as a
deep-space orbit, and propagating the record to any time within a month of the epoch gives a position within one metre, and a velocity within one
millimetre per second, in every component, of those of the theory that the crate carries, evaluated exactly for the *printed* elements and epoch. -/
theorem C93_deep_text_to_state_f64 (hL : Libm.Faithful) (l1 l2 : Str) (v : Tle) (h : Printed l1 l2 v) (hpos : v.nddotNeg = false ∨ v.nddotMant = 0)
    (hnd : Normal v.nddotMant) (hb : Normal v.bstarMant) (hl : HighTle v) (t : F64) (ht : t.Fin) (hτ : |t.val| ≤ 43200) :
    ∃ (s : Satrec F64) (p : SGP4Result F64) (jd : ℝ), twoline2satrec l1 l2 = .ok s ∧ s.method = .D ∧ (sgp4 s t).map Prod.snd = some (.ok p) ∧
      PrintedEpoch v jd ∧ CloseToDeepTheory v jd t.val p := by
  obtain ⟨s, p, jd, h1, h2, h3, h4, h5⟩ := deep_sized hL l1 l2 v h hpos hnd hb hl t ht hτ
  exact ⟨s, p, jd, h1, h2, h3, h4, h5.close⟩

/-- **C93**, at a calendar date: the state that the record gives for a date and time of day within a month of the printed epoch is, within one metre
and one millimetre per second, that of the theory for the printed elements at an instant within 150 microseconds (1/400000 minute) of the one asked
for, counted by the calendar from the printed epoch. -/
theorem C93_deep_text_and_date_f64 (hL : Libm.Faithful) (l1 l2 : Str) (v : Tle) (h : Printed l1 l2 v) (hpos : v.nddotNeg = false ∨ v.nddotMant = 0)
    (hnd : Normal v.nddotMant) (hb : Normal v.bstarMant) (hl : HighTle v)
    (time : DateTimeUtc) (d : Date) (hd : d.InRange) (hy : time.year = d.year) (hm : time.month = d.month) (hdd : time.day = d.day)
    (hh : time.hour < 24) (hmi : time.minute < 60) (hse : time.second < 60) :
    ∃ (s : Satrec F64) (year nE nD : ℕ), twoline2satrec l1 l2 = .ok s ∧
      1957 ≤ year ∧ year ≤ 2056 ∧ (year : ℤ) % 100 = v.year ∧ base.after nE = ⟨year, 1, 1⟩ ∧ base.after nD = d ∧
      let τ : ℝ := ((nD : ℝ) - nE + 1 - (v.dayE8 : ℝ) / 10 ^ 8) * 1440 + time.hour * 60 + time.minute + (time.second : ℝ) / 60
      |τ| ≤ 43199 →
        ∃ (τ' : ℝ) (p : SGP4Result F64), propogate_datetime s time = some (.ok p) ∧ |τ' - τ| ≤ 1 / 400000 ∧
          CloseToDeepTheory v (2415079.5 + nE - 1 + (v.dayE8 : ℝ) / 10 ^ 8) τ' p := by
  obtain ⟨s, year, nE, nD, h1, h2, h3, h4, h5, h6, h7⟩ := deep_sized_at_date hL l1 l2 v h hpos hnd hb hl time d hd hy hm hdd hh hmi hse
  refine ⟨s, year, nE, nD, h1, h2, h3, h4, h5, h6, fun h => ?_⟩
  obtain ⟨τ', p, k1, k2, k3⟩ := h7 h
  exact ⟨τ', p, k1, k2, k3.close⟩

/-! ## A navigation satellite -/

omit [Libm] in
theorem nav_high : HighTle navTle := by
  have hd : tleDrag navTle = 1 / 10 ^ 4 := by
    unfold tleDrag impliedValue sexp navTle; norm_num
  exact ⟨by decide, by decide, by decide, by decide, by decide, by decide, by decide, by decide, by rw [hd]; norm_num [abs_of_pos]⟩

/-- The satellite meets the hypotheses of C93, up to a month before or after the epoch. -/
theorem nav_state (hL : Libm.Faithful) (t : F64) (ht : t.Fin) (h : |t.val| ≤ 43200) :
    ∃ (s : Satrec F64) (p : SGP4Result F64) (jd : ℝ), twoline2satrec navLine1 navLine2 = .ok s ∧ s.method = .D ∧
      (sgp4 s t).map Prod.snd = some (.ok p) ∧ PrintedEpoch navTle jd ∧ CloseToDeepTheory navTle jd t.val p :=
  C93_deep_text_to_state_f64 hL _ _ _ nav_printed (Or.inl rfl) (Or.inl rfl) (Or.inr (by decide)) nav_high t ht h

/-- The same for a date: 1997 October 1, 12:00:00. -/
theorem nav_date (hL : Libm.Faithful) (time : DateTimeUtc) (h1 : time.year = 1997) (h2 : time.month = 10) (h3 : time.day = 1) (h4 : time.hour = 12)
    (h5 : time.minute = 0) (h6 : time.second = 0) :
    ∃ (s : Satrec F64) (τ jd : ℝ) (p : SGP4Result F64), twoline2satrec navLine1 navLine2 = .ok s ∧ propogate_datetime s time = some (.ok p) ∧
      |τ - ((274 - 264.51782528) * 1440 + 12 * 60)| ≤ 1 / 400000 ∧ PrintedEpoch navTle jd ∧ CloseToDeepTheory navTle jd τ p := by
  obtain ⟨s, year, nE, nD, hs, y1, y2, y3, y4, y5, hh⟩ := C93_deep_text_and_date_f64 hL _ _ _ nav_printed (Or.inl rfl) (Or.inl rfl) (Or.inr (by decide))
    nav_high time ⟨1997, 10, 1⟩ ⟨by decide, by unfold Date.before base; decide, by unfold Date.before; decide⟩ h1 h2 h3 (by omega) (by omega) (by omega)
  have ey : year = 1997 := by
    have e : (navTle.year : ℤ) = 97 := rfl
    rw [e] at y3; omega
  have e1 := (serial_after nE).2.2
  have e2 := (serial_after nD).2.2
  rw [y4, ey] at e1
  rw [y5] at e2
  have e3 : serial ⟨1997, 10, 1⟩ = serial ⟨1997, 1, 1⟩ + 273 := by decide +kernel
  have e4 : (nD : ℝ) = nE + 273 := by exact_mod_cast (by omega : nD = nE + 273)
  have e5 : ((nD : ℝ) - nE + 1 - (navTle.dayE8 : ℝ) / 10 ^ 8) * 1440 + time.hour * 60 + time.minute + (time.second : ℝ) / 60 =
      (274 - 264.51782528) * 1440 + 12 * 60 := by
    rw [e4, h4, h5, h6, show (navTle.dayE8 : ℝ) = 26451782528 by unfold navTle; norm_num]; norm_num
  rw [e5] at hh
  obtain ⟨τ, p, k1, k2, k3⟩ := hh (by norm_num [abs_of_pos])
  exact ⟨s, τ, _, p, hs, k1, k2, ⟨year, nE, y1, y2, y3, y4, rfl⟩, k3⟩

end Sat
