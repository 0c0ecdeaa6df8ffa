import Verif.Props.F64Calm
import Verif.Props.F64Accuracy
/-!
# C85: from the text of an element set to the state, in doubles

The elements read from a two-line set are the printed ones up to the rounding of `Rounded`; with C84 and C73 the state that the program
computes, in doubles and from the text on, is within a metre of the published theory for the printed elements.
-/

namespace Sat
open F64 Spec Spec.R3 Chain

/-- the drag term of a printed set -/
noncomputable def tleDrag (v : Tle) : ℝ := impliedValue v.bstarNeg v.bstarMant (sexp v.bstarExpNeg v.bstarExp)

/-- how low the perigee of the mean orbit is: 1 from 400 km up, 1.99 at 240 km -/
noncomputable def tleLow (v : Tle) : ℝ := lowness ((tleOrbit v).a * (1 - tleEcc v))

/-- A printed set of an ordinary low orbit, and a time within a month (30 days) of its epoch: eccentricity at most 0.43 and not exactly 0.0001,
6.45 to 17.98 revolutions per day, inclination at most 171 degrees, perigee of the mean orbit (Report No. 3) at least 240 km above the equatorial
radius, and a drag term that is not extreme for the time span and the eccentricity (below 400 km it counts `tleLow ^ 5` times). -/
structure LowTle (v : Tle) (τ : ℝ) : Prop where
  ecc : v.eccE7 ≤ 4300000
  ecc_side : v.eccE7 < 1000 ∨ 1000 < v.eccE7 ∧ |tleDrag v| * tleLow v ^ 5 ≤ 5000 * tleEcc v ^ 2
  mot_lo : 645000000 ≤ v.noE8
  mot_hi : v.noE8 ≤ 1798000000
  incl : v.inclE4 ≤ 1710000
  argp : v.argpE4 ≤ 3600000
  node : v.nodeE4 ≤ 3600000
  anom : v.moE4 ≤ 3600000
  bstar : |tleDrag v| * tleLow v ^ 5 ≤ 1 / 10 ^ 3
  perigee : 1 + 240 / 6378.137 ≤ (tleOrbit v).a * (1 - tleEcc v)
  time : |τ| ≤ 43200
  drag : |tleDrag v * τ| * tleLow v ^ 5 ≤ 2

/-- the condition on the drag at an instant at most 150 microseconds away -/
theorem drag_shift {v : Tle} {t τ : ℝ} (hb : |tleDrag v| * tleLow v ^ 5 ≤ 1 / 10 ^ 3) (hd : |tleDrag v * τ| * tleLow v ^ 5 ≤ 1.99) (ht : |t - τ| ≤ 1 / 400000) :
    |tleDrag v * t| * tleLow v ^ 5 ≤ 2 := by
  have hl : 0 < tleLow v ^ 5 := pow_pos (lt_of_lt_of_le one_pos (one_le_lowness _)) 5
  have e : tleDrag v * t = tleDrag v * τ + tleDrag v * (t - τ) := by ring
  have h1 : |tleDrag v * t| ≤ |tleDrag v * τ| + |tleDrag v| * (1 / 400000) := by
    rw [e]
    refine (abs_add_le _ _).trans (add_le_add le_rfl ?_)
    rw [abs_mul]
    exact mul_le_mul_of_nonneg_left ht (abs_nonneg _)
  calc |tleDrag v * t| * tleLow v ^ 5 ≤ (|tleDrag v * τ| + |tleDrag v| * (1 / 400000)) * tleLow v ^ 5 := mul_le_mul_of_nonneg_right h1 hl.le
    _ = |tleDrag v * τ| * tleLow v ^ 5 + |tleDrag v| * tleLow v ^ 5 * (1 / 400000) := by ring
    _ ≤ 1.99 + 1 / 10 ^ 3 * (1 / 400000) := add_le_add hd (mul_le_mul_of_nonneg_right hb (by norm_num))
    _ ≤ 2 := by norm_num

variable [Libm]

/-! ## Rounding of the elements -/

theorem near_dec (neg : Bool) (m : ℕ) (e : ℤ) (h : |decR (.num neg m e)| ≤ 2 ^ 100) :
    Near (Arith.ofDec (.num neg m e) : F64) (Arith.ofDec (.num neg m e) : ℝ) (1 / 2 ^ 53) (1 / 2 ^ 153) := by
  have hr := ofDecimal_rounds neg m e
  obtain ⟨h1, -⟩ := hr.near h le_rfl
  refine ⟨h1, (hr.err h1).trans (max_le ?_ ?_)⟩
  · refine le_trans ?_ (le_add_of_nonneg_left (by positivity))
    unfold unitN
    rw [one_div, one_div]
    refine inv_anti₀ (by positivity) ?_
    push_cast
    calc (2 : ℝ) ^ 153 ≤ 2 ^ 1074 := pow_le_pow_right₀ (by norm_num) (by norm_num)
      _ ≤ 2 * 2 ^ 1074 := le_mul_of_one_le_left (by positivity) (by norm_num)
  · show |decR (.num neg m e)| / 2 ^ 53 ≤ 1 / 2 ^ 53 * |decR (.num neg m e)| + 1 / 2 ^ 153
    rw [div_mul_eq_mul_div, one_mul]
    exact le_add_of_nonneg_right (by positivity)

theorem near_angle {m : ℕ} {C δ : ℝ} (hm : (m : ℝ) / 10 ^ 4 ≤ C) (hC : C ≤ 360) (h0 : 1 ≤ C) (hδ : C * (11 / 10 ^ 18) ≤ δ) :
    Near (Arith.ofDec (.num false m (-4)) * DEG_2_RAD : F64) ((m : ℝ) / 10 ^ 4 * (Real.pi / 180)) 0 δ := by
  have q := ((q_dec false m 4 C hm (hC.trans (by norm_num))).mul q_deg (by
    norm_num at *; linarith)).to (a' := (m : ℝ) / 10 ^ 4 * (Real.pi / 180)) (by simp)
  refine ⟨q.fin, q.err.trans ?_⟩
  norm_num at *
  linarith

theorem qs_xpdotp : QS (XPDOTP : F64) (1440 / (2 * Real.pi)) |1440 / (2 * Real.pi)| 230 (28 / 10 ^ 17) 0 := by
  have hp := Real.pi_gt_d4
  have hp2 := Real.pi_lt_d4
  have ap : |Real.pi| = Real.pi := abs_of_pos Real.pi_pos
  have h0 : QS (Arith.pi : F64) Real.pi |Real.pi| 3.15 (42 / 10 ^ 18) 0 :=
    (q_pi.qs le_rfl q_pi.mag (m := 314 / 100) (by rw [ap]; norm_num at *; linarith)).mono le_rfl (by norm_num) le_rfl
  have h2' : Q (2.0 : F64) (2.0 : ℝ) 2 0 := (Q.int 20 true 1 2 (by norm_num)).mono (by norm_num) le_rfl
  have h2 : QS (2.0 : F64) (2.0 : ℝ) |(2.0 : ℝ)| 2 0 0 :=
    (h2'.qs le_rfl (by norm_num) (m := 2) (by norm_num)).mono le_rfl (by norm_num) le_rfl
  have hm := h2.rmul h0
  have am : |(2.0 : ℝ) * Real.pi| = 2 * Real.pi := by rw [abs_of_pos (by positivity)]; norm_num
  have hm' : QS (2.0 * Arith.pi : F64) (2.0 * Real.pi) |2.0 * Real.pi| 6.3 (16 / 10 ^ 17) 0 :=
    (hm.absorb 6 (by rw [am]; norm_num at *; linarith)).mono (by norm_num) (by norm_num) le_rfl
  have hn' : Q (1440.0 : F64) (1440.0 : ℝ) 1440 0 := (Q.int 14400 true 1 1440 (by norm_num)).mono (by norm_num) le_rfl
  have hn : QS (1440.0 : F64) (1440.0 : ℝ) |(1440.0 : ℝ)| 1440 0 0 :=
    (hn'.qs le_rfl (by norm_num) (m := 1440) (by norm_num)).mono le_rfl (by norm_num) le_rfl
  have hd := hn.rdiv hm' (6283 / 1000) (by rw [am]; norm_num at *; linarith)
  have e : (1440.0 : ℝ) / (2.0 * Real.pi) = 1440 / (2 * Real.pi) := by norm_num
  rw [e] at hd
  have hb : (229 : ℝ) ≤ |1440 / (2 * Real.pi)| := by
    rw [abs_of_pos (by positivity), le_div_iff₀ (by positivity)]
    norm_num at *; linarith
  have hb2 : |1440 / (2 * Real.pi)| ≤ 230 := by
    rw [abs_of_pos (by positivity), div_le_iff₀ (by positivity)]
    norm_num at *; linarith
  exact ((hd.absorb 229 hb).mono le_rfl (by norm_num) le_rfl).cap hb2

theorem near_motion {n : ℕ} (h1 : 645000000 ≤ n) (h2 : n ≤ 1798000000) :
    Near (Arith.ofDec (.num false n (-8)) / XPDOTP : F64) ((n : ℝ) / 10 ^ 8 * (2 * Real.pi) / 1440) (6 / 10 ^ 16) 0 := by
  have hn1 : (6 : ℝ) ≤ (n : ℝ) / 10 ^ 8 := by
    rw [le_div_iff₀ (by norm_num)]
    have : (645000000 : ℝ) ≤ n := by exact_mod_cast h1
    linarith
  have hn2 : (n : ℝ) / 10 ^ 8 ≤ 18 := by
    rw [div_le_iff₀ (by norm_num)]
    have : (n : ℝ) ≤ 1798000000 := by exact_mod_cast h2
    linarith
  have hn0 : |(n : ℝ) / 10 ^ 8| = (n : ℝ) / 10 ^ 8 := abs_of_nonneg (by positivity)
  have e : (Arith.ofDec (.num false n (-8)) : ℝ) = (n : ℝ) / 10 ^ 8 := by
    have := real_dec false n 8
    simpa using this
  have e' : decR (.num false n (-8)) = (n : ℝ) / 10 ^ 8 := e
  have hd := near_dec false n (-8) (by rw [e', hn0]; exact hn2.trans (by norm_num))
  rw [e] at hd
  have hq : QS (Arith.ofDec (.num false n (-8)) : F64) ((n : ℝ) / 10 ^ 8) |(n : ℝ) / 10 ^ 8| 18 (1 / 2 ^ 53) (1 / 2 ^ 153) :=
    ⟨hd.1, le_rfl, by rw [hn0]; exact hn2, hd.2, by norm_num, by norm_num⟩
  have hq' : QS (Arith.ofDec (.num false n (-8)) : F64) ((n : ℝ) / 10 ^ 8) |(n : ℝ) / 10 ^ 8| 18 (112 / 10 ^ 18) 0 :=
    (hq.absorb 6 (by rw [hn0]; exact hn1)).mono le_rfl (by norm_num) le_rfl
  have hp := Real.pi_gt_d4
  have hp2 := Real.pi_lt_d4
  have hb : (229 : ℝ) ≤ |1440 / (2 * Real.pi)| := by
    rw [abs_of_pos (by positivity), le_div_iff₀ (by positivity)]
    norm_num at *; linarith
  have hz := hq'.rdiv qs_xpdotp 229 hb
  have ez : (n : ℝ) / 10 ^ 8 / (1440 / (2 * Real.pi)) = (n : ℝ) / 10 ^ 8 * (2 * Real.pi) / 1440 := by
    have := Real.pi_ne_zero; field_simp
  rw [ez] at hz
  have hlo : (2 / 100 : ℝ) ≤ |(n : ℝ) / 10 ^ 8 * (2 * Real.pi) / 1440| := by
    rw [abs_of_nonneg (by positivity), le_div_iff₀ (by norm_num)]
    nlinarith
  have hz' := (hz.absorb (2 / 100) hlo).mono (ε₁ := 6 / 10 ^ 16) (η₁ := 0) le_rfl (by norm_num) le_rfl
  exact ⟨hz'.fin, hz'.err⟩

/-- The elements read in doubles are the printed ones, rounded. -/
theorem rounded_read {l1 l2 : Str} {v : Tle} {τ : ℝ} (h : Printed l1 l2 v) (hpos : v.nddotNeg = false ∨ v.nddotMant = 0)
    (hb : Normal v.bstarMant) (hl : LowTle v τ) {p : Satrec F64} (hp : parse_satrec l1 l2 = .ok p) {ρ : Satrec ℝ}
    (hρ : parse_satrec l1 l2 = .ok ρ) : Rounded (tleOptions p) (tleOptions ρ) := by
  obtain ⟨p', hs, -, -, -, -, -, -, -, -, -, hbs, hi, hn, he, ha, hm, hno, -, -, -⟩ := C21_decode (F := F64) l1 l2 v h hpos
  obtain rfl : p' = p := by rw [hs] at hp; cases hp; rfl
  obtain ⟨ρ', hs', -, -, -, -, -, -, -, -, -, gbs, gi, gn, ge, ga, gm, gno, -, -, -⟩ := C21_decode (F := ℝ) l1 l2 v h hpos
  obtain rfl : ρ' = ρ := by rw [hs'] at hρ; cases hρ; rfl
  have hdeg : (DEG_2_RAD : ℝ) = Real.pi / 180 := by
    unfold DEG_2_RAD; rw [real_pi]; norm_num
  have hx : (XPDOTP : ℝ) = 1440 / (2 * Real.pi) := by
    unfold XPDOTP; rw [real_pi, real_lits.2.2, show (1440.0 : ℝ) = 1440 by norm_num]
  have hang : ∀ m : ℕ, (Arith.ofDec (.num false m (-4)) * DEG_2_RAD : ℝ) = (m : ℝ) / 10 ^ 4 * (Real.pi / 180) := by
    intro m
    have := real_dec false m 4
    rw [hdeg]
    congr 1
    simpa using this
  have big : ∀ m : ℕ, m ≤ 3600000 → (m : ℝ) / 10 ^ 4 ≤ 360 := by
    intro m h
    rw [div_le_iff₀ (by norm_num)]
    have : (m : ℝ) ≤ 3600000 := by exact_mod_cast h
    linarith
  have bigi : (v.inclE4 : ℝ) / 10 ^ 4 ≤ 171 := by
    rw [div_le_iff₀ (by norm_num)]
    have : (v.inclE4 : ℝ) ≤ 1710000 := by exact_mod_cast hl.incl
    linarith
  have wk : ∀ {x : F64} {r : ℝ}, Near x r (1 / 2 ^ 53) (1 / 2 ^ 153) → Near x r (23 / 10 ^ 17) (1 / 10 ^ 46) := by
    intro x r h
    refine ⟨h.1, h.2.trans (add_le_add (mul_le_mul_of_nonneg_right (by norm_num) (abs_nonneg _)) (by norm_num))⟩
  refine ⟨?_, ?_, ?_, ?_, ?_, ?_, ?_⟩
  · show Near p'.ecco ρ'.ecco _ _
    rw [he, ge]
    have e : decR (.num false v.eccE7 (-7)) = (v.eccE7 : ℝ) / 10 ^ 7 := by
      have := real_dec false v.eccE7 7
      simp only [Bool.false_eq_true, if_false, one_mul] at this
      exact this
    refine wk (near_dec _ _ _ ?_)
    rw [e, abs_of_nonneg (by positivity), div_le_iff₀ (by norm_num)]
    have : (v.eccE7 : ℝ) ≤ 4300000 := by exact_mod_cast hl.ecc
    linarith
  · show Near p'.bstar ρ'.bstar _ _
    rw [hbs, gbs]
    refine wk (near_dec _ _ _ ?_)
    have e : decR (.num v.bstarNeg v.bstarMant (sexp v.bstarExpNeg v.bstarExp - (numDigits v.bstarMant : Int))) = tleDrag v :=
      implied_normal _ _ _ hb h.bstar.1
    rw [e]
    exact (scaled_le (one_le_lowness _) hl.bstar).trans (by norm_num)
  · show Near p'.no ρ'.no _ _
    rw [hno, gno]
    have e : (Arith.ofDec (.num false v.noE8 (-8)) / XPDOTP : ℝ) = (v.noE8 : ℝ) / 10 ^ 8 * (2 * Real.pi) / 1440 := by
      have := real_dec false v.noE8 8
      have h8 : (Arith.ofDec (.num false v.noE8 (-8)) : ℝ) = (v.noE8 : ℝ) / 10 ^ 8 := by simpa using this
      rw [hx, h8]
      have := Real.pi_ne_zero; field_simp
    rw [e]
    exact near_motion hl.mot_lo hl.mot_hi
  · show Near p'.inclo ρ'.inclo _ _
    rw [hi, gi, hang]
    exact near_angle bigi (by norm_num) (by norm_num) (by norm_num)
  · show Near p'.argpo ρ'.argpo _ _
    rw [ha, ga, hang]
    exact near_angle (big _ hl.argp) (by norm_num) (by norm_num) (by norm_num)
  · show Near p'.nodeo ρ'.nodeo _ _
    rw [hn, gn, hang]
    exact near_angle (big _ hl.node) (by norm_num) (by norm_num) (by norm_num)
  · show Near p'.mo ρ'.mo _ _
    rw [hm, gm, hang]
    exact near_angle (big _ hl.anom) (by norm_num) (by norm_num) (by norm_num)

omit [Libm] in
theorem cos_171 {x : ℝ} (h0 : 0 ≤ x) (h : x ≤ 171 * (Real.pi / 180)) : 1 / 10 ^ 2 ≤ 1 + Real.cos x := by
  have hp := Real.pi_gt_d4
  have hp2 := Real.pi_lt_d4
  have h1 : Real.cos (171 * (Real.pi / 180)) ≤ Real.cos x := Real.cos_le_cos_of_nonneg_of_le_pi h0 (by linarith) h
  have h2 : Real.cos (171 * (Real.pi / 180)) = -Real.cos (Real.pi / 20) := by
    rw [← Real.cos_pi_sub]; congr 1; ring
  have h3 := Real.cos_bound (x := Real.pi / 20) (by rw [abs_of_pos (by positivity)]; linarith)
  have h4 : (Real.pi / 20) ^ 2 ≥ 0.1570 ^ 2 := by
    have : (0.1570 : ℝ) ≤ Real.pi / 20 := by norm_num at *; linarith
    gcongr
  have h5 : |Real.pi / 20| ^ 4 ≤ 0.1571 ^ 4 := by
    have : |Real.pi / 20| ≤ 0.1571 := by rw [abs_of_pos (by positivity)]; norm_num at *; linarith
    gcongr
  have h6 := (abs_le.mp h3).2
  norm_num at *
  linarith

omit [Libm] in
/-- A printed set of an ordinary low orbit has calm elements. -/
theorem calm_low {l1 l2 : Str} {v : Tle} {τ : ℝ} (h : Printed l1 l2 v) (hpos : v.nddotNeg = false ∨ v.nddotMant = 0)
    (hnd : Normal v.nddotMant) (hb : Normal v.bstarMant) (hl : LowTle v τ) {ρ : Satrec ℝ}
    (hρ : parse_satrec l1 l2 = .ok ρ) : Calm (tleOptions ρ) τ := by
  obtain ⟨p, hpar, -, -, -, -, hbs, hinc, hnode, hecc, hargp, hmo, hno⟩ := C21_decode_real l1 l2 v h hpos hnd hb
  obtain rfl : p = ρ := by rw [hpar] at hρ; cases hρ; rfl
  have e1 : (tleOptions p).xno = tleMotion v := hno
  have e2 : (tleOptions p).xecco = tleEcc v := hecc
  have e3 : (tleOptions p).xinclo = (v.inclE4 : ℝ) / 10 ^ 4 * (Real.pi / 180) := hinc
  have e4 : (tleOptions p).xargpo = (v.argpE4 : ℝ) / 10 ^ 4 * (Real.pi / 180) := hargp
  have e5 : (tleOptions p).xmo = (v.moE4 : ℝ) / 10 ^ 4 * (Real.pi / 180) := hmo
  have e6 : (tleOptions p).xbstar = tleDrag v := hbs
  have e7 : (tleOptions p).xnodeo = (v.nodeE4 : ℝ) / 10 ^ 4 * (Real.pi / 180) := hnode
  have e8 : lowOf (tleOptions p) = tleLow v := by unfold lowOf; rw [e1, e2, e3]; rfl
  have hp := Real.pi_gt_d4
  have hp2 := Real.pi_lt_d4
  have he0 : 0 ≤ tleEcc v := by unfold tleEcc; positivity
  have he1 : tleEcc v ≤ 43 / 100 := by
    unfold tleEcc
    rw [div_le_iff₀ (by norm_num)]
    have : (v.eccE7 : ℝ) ≤ 4300000 := by exact_mod_cast hl.ecc
    linarith
  have ang : ∀ m : ℕ, m ≤ 3600000 → |(m : ℝ) / 10 ^ 4 * (Real.pi / 180)| ≤ 63 / 10 := by
    intro m h
    have h1 : (m : ℝ) / 10 ^ 4 ≤ 360 := by
      rw [div_le_iff₀ (by norm_num)]
      have : (m : ℝ) ≤ 3600000 := by exact_mod_cast h
      linarith
    rw [abs_of_nonneg (by positivity)]
    calc _ ≤ 360 * (Real.pi / 180) := mul_le_mul_of_nonneg_right h1 (by positivity)
      _ ≤ _ := by linarith
  have hi0 : (0 : ℝ) ≤ (v.inclE4 : ℝ) / 10 ^ 4 * (Real.pi / 180) := by positivity
  have hi1 : (v.inclE4 : ℝ) / 10 ^ 4 * (Real.pi / 180) ≤ 171 * (Real.pi / 180) := by
    refine mul_le_mul_of_nonneg_right ?_ (by positivity)
    rw [div_le_iff₀ (by norm_num)]
    have : (v.inclE4 : ℝ) ≤ 1710000 := by exact_mod_cast hl.incl
    linarith
  have hn1 : (6.45 : ℝ) ≤ (v.noE8 : ℝ) / 10 ^ 8 := by
    rw [le_div_iff₀ (by norm_num)]
    have : (645000000 : ℝ) ≤ v.noE8 := by exact_mod_cast hl.mot_lo
    norm_num at *; linarith
  have hn2 : (v.noE8 : ℝ) / 10 ^ 8 ≤ 17.98 := by
    rw [div_le_iff₀ (by norm_num)]
    have : (v.noE8 : ℝ) ≤ 1798000000 := by exact_mod_cast hl.mot_hi
    norm_num at *; linarith
  have hm1 : 281 / 10 ^ 4 ≤ tleMotion v := by
    unfold tleMotion
    rw [le_div_iff₀ (by norm_num)]
    calc (281 / 10 ^ 4 * 1440 : ℝ) ≤ 6.45 * (2 * 3.1415) := by norm_num
      _ ≤ _ := by gcongr
  have hm2 : tleMotion v ≤ 785 / 10 ^ 4 := by
    unfold tleMotion
    rw [div_le_iff₀ (by norm_num)]
    calc (v.noE8 : ℝ) / 10 ^ 8 * (2 * Real.pi) ≤ 17.98 * (2 * 3.1416) := by gcongr
      _ ≤ _ := by norm_num
  have hm0 : 0 < tleMotion v := lt_of_lt_of_le (by norm_num) hm1
  refine ⟨by rw [e2]; exact he0, by rw [e2]; exact he1.trans (by norm_num), ?_, by rw [e1]; exact hm1, by rw [e1]; exact hm2, ?_, ?_,
    by rw [e4]; exact ang _ hl.argp, by rw [e7]; exact ang _ hl.node, by rw [e5]; exact ang _ hl.anom, by rw [e6, e8]; exact hl.bstar, ?_, hl.time,
    by rw [e6, e8]; exact hl.drag⟩
  · rw [e2, e6, e8]
    rcases hl.ecc_side with h | ⟨h, h'⟩
    · left
      unfold tleEcc
      have : (v.eccE7 : ℝ) ≤ 999 := by exact_mod_cast (by omega : v.eccE7 ≤ 999)
      norm_num; linarith
    · right
      refine ⟨?_, h'⟩
      unfold tleEcc
      have : (1001 : ℝ) ≤ (v.eccE7 : ℝ) := by exact_mod_cast h
      norm_num; linarith
  · rw [e3, abs_of_nonneg hi0]
    refine hi1.trans ?_
    linarith
  · rw [e3]; exact cos_171 hi0 hi1
  · have := hl.perigee
    rw [e1, e2, e3]; exact this

omit [Libm] in
theorem twoline_ok {F : Type} [Arith F] {l1 l2 : Str} {p s : Satrec F} {r : SGP4Result F} (hp : (parse_satrec l1 l2 : PRes (Satrec F)) = .ok p)
    (hi : sgp4init p (tleOptions p) = some (s, .ok r)) : (twoline2satrec l1 l2 : PRes (Satrec F)) = .ok s := by
  unfold twoline2satrec
  rw [hp, Res.ok_bind, hi]

/-- `p` is within a metre, and two millimetres per second, in every component, of the state that SGP4 as published (Report No. 3) gives for the
printed elements `τ` minutes after the epoch, at the eccentric longitude of the published iteration. -/
def CloseToTheory (v : Tle) (τ : ℝ) (p : SGP4Result F64) : Prop :=
  let m := (tleOrbit v).mean (tleNode v) τ
  ∃ k, k ≤ 9 ∧ (∀ j < k, 1e-12 ≤ |m.correction (m.newton j)|) ∧ (k = 9 ∨ |m.correction (m.newton k)| < 1e-12) ∧
    p.position.Close (vec (m.positionKm (m.newton k))) (1 / 10 ^ 3) ∧ p.velocity.Close (vec (m.velocityKmS (m.newton k))) (2 / 10 ^ 6)

/-- **C85.** From the text to the state, in doubles.  A well-formed two-line set of an ordinary low orbit is accepted, and propagating the record
to any time within a month of the epoch gives a position within one metre, and a velocity within two millimetres per second, in every component,
of those of SGP4 as published (Report No. 3) for the *printed* elements. -/
theorem C85_text_to_state_f64 (hL : Libm.Faithful) (l1 l2 : Str) (v : Tle) (h : Printed l1 l2 v) (hpos : v.nddotNeg = false ∨ v.nddotMant = 0)
    (hnd : Normal v.nddotMant) (hb : Normal v.bstarMant) (t : F64) (ht : t.Fin) (hl : LowTle v t.val) :
    ∃ (s : Satrec F64) (p : SGP4Result F64), twoline2satrec l1 l2 = .ok s ∧ (sgp4 s t).map Prod.snd = some (.ok p) ∧
      CloseToTheory v t.val p := by
  obtain ⟨p, hp, -⟩ := C21_decode (F := F64) l1 l2 v h hpos
  obtain ⟨ρ, hρ, -⟩ := C21_decode (F := ℝ) l1 l2 v h hpos
  have hc := calm_low h hpos hnd hb hl hρ
  have hro := rounded_read h hpos hb hl hp hρ
  obtain ⟨s, r, p0, q, q0, y, a1, a2, a3, a4, a5, a6, -⟩ :=
    C84_initialise_and_propagate hL (tleOptions p) (tleOptions ρ) p ρ t ht hc hro
  have hs := twoline_ok hp a1
  have hr := twoline_ok hρ a2
  have hN : r.method = .N := by
    have c := (C07_classification ρ r (tleOptions ρ) _ a2
      (Or.inl (guard_real ⟨hc.ecc_lo, lt_of_le_of_lt hc.ecc_hi (by norm_num)⟩))).1
    have hno := C56_recovered_motion ρ r (tleOptions ρ) _ a2 ⟨hc.ecc_lo, lt_of_le_of_lt hc.ecc_hi (by norm_num)⟩
    rw [← no_recovered ⟨hc.ecc_lo, lt_of_le_of_lt hc.ecc_hi (by norm_num)⟩] at hno
    have hE := elements_calm hL hc hro
    have hn := (no_bounds hL hE).1
    cases hM : r.method with
    | N => rfl
    | D =>
      exfalso
      have := c.mp hM
      rw [hno, real_fle, decide_eq_true_eq, real_TWO_PI, le_div_iff₀ (no_pos hL hE)] at this
      have := Real.pi_lt_d4
      norm_num at *; linarith
  refine ⟨s, q, hs, a3, ?_⟩
  cases hx : sgp4 r t.val with
  | none => rw [hx] at a4; cases a4
  | some w =>
    obtain ⟨w1, w2⟩ := w
    rw [hx] at a4
    obtain rfl : w2 = .ok y := by
      have : some w2 = some (Except.ok y) := a4
      cases this; rfl
    obtain ⟨k, k1, k2, k3, k4, k5⟩ := C73_text_to_state l1 l2 v h hpos hnd hb r hr hN t.val w1 y hx
    exact ⟨k, k1, k2, k3, k4 ▸ a5, k5 ▸ a6⟩

/-- **C85**, at a calendar date: the state that the record gives for a date and time of day within a month of the printed epoch is, within one metre
and two millimetres per second, that of the published theory for the printed elements at an instant within 150 microseconds (1/400000 minute) of the
one asked for, counted by the calendar from the printed epoch. -/
theorem C85_text_and_date_f64 (hL : Libm.Faithful) (l1 l2 : Str) (v : Tle) (h : Printed l1 l2 v) (hpos : v.nddotNeg = false ∨ v.nddotMant = 0)
    (hnd : Normal v.nddotMant) (hb : Normal v.bstarMant) (hday : v.dayE8 ≤ 400 * 10 ^ 8) (hl : LowTle v 0)
    (time : DateTimeUtc) (d : Date) (hd : d.InRange) (hy : time.year = d.year) (hm : time.month = d.month) (hdd : time.day = d.day)
    (hh : time.hour < 24) (hmi : time.minute < 60) (hse : time.second < 60) :
    ∃ (s : Satrec F64) (year nE nD : ℕ), twoline2satrec l1 l2 = .ok s ∧
      1957 ≤ year ∧ year ≤ 2056 ∧ (year : ℤ) % 100 = v.year ∧ base.after nE = ⟨year, 1, 1⟩ ∧ base.after nD = d ∧
      let τ : ℝ := ((nD : ℝ) - nE + 1 - (v.dayE8 : ℝ) / 10 ^ 8) * 1440 + time.hour * 60 + time.minute + (time.second : ℝ) / 60
      |τ| ≤ 43199 → |tleDrag v * τ| * tleLow v ^ 5 ≤ 1.99 →
        ∃ (τ' : ℝ) (p : SGP4Result F64), propogate_datetime s time = some (.ok p) ∧ |τ' - τ| ≤ 1 / 400000 ∧ CloseToTheory v τ' p := by
  obtain ⟨p, hp, -⟩ := C21_decode (F := F64) l1 l2 v h hpos
  obtain ⟨z1, z2⟩ := sci_int (m := 0) (s := true) (k := 1) 0 (by norm_num) (by norm_num)
  have z3 : (0.0 : F64).val = 0 := z2.trans (by push_cast; rfl)
  obtain ⟨s, -, hs, -, -⟩ := C85_text_to_state_f64 hL l1 l2 v h hpos hnd hb (0.0 : F64) z1 (by rw [z3]; exact hl)
  obtain ⟨p3, hpar3, -, -, -, -, -, -, -, -, -, hjd', -⟩ := C06_twoline_elements l1 l2 s hs
  obtain rfl : p3 = p := by rw [hp] at hpar3; cases hpar3; rfl
  obtain ⟨year, nE, nD, t, y1, y2, y3, y4, y5, y6, y7, y8⟩ :=
    C78_epoch_kept l1 l2 v h hpos hday s p3 hp hjd' time d hd hy hm hdd hh hmi hse
  refine ⟨s, year, nE, nD, hs, y1, y2, y3, y4, y5, ?_⟩
  intro τ h1 h2
  have h3 : |t.val - τ| ≤ 1 / 400000 := y8
  have h4 : |t.val| ≤ 43200 := by
    have := abs_sub_abs_le_abs_sub t.val τ
    norm_num at *; linarith
  have h5 := drag_shift hl.bstar h2 h3
  obtain ⟨s', q, hs', b1, b2⟩ := C85_text_to_state_f64 hL l1 l2 v h hpos hnd hb t y7 { hl with time := h4, drag := h5 }
  obtain rfl : s' = s := by rw [hs] at hs'; cases hs'; rfl
  exact ⟨t.val, q, by rw [y6]; exact b1, h3, b2⟩

/-! ## A weather satellite -/

def noaaLine1 : Str := "1 33591U 09005A   20029.54791435  .00000064  00000-0  59621-4 0  9993".toList
def noaaLine2 : Str := "2 33591  99.1934  54.2187 0013542 310.4710  49.5312 14.12401218567812".toList
def noaaTle : Tle :=
  { satnum := "33591".toList, year := 20, dayE8 := 2954791435, ndotNeg := false, ndotE8 := 64, nddotNeg := false, nddotMant := 0,
    nddotExpNeg := true, nddotExp := 0, bstarNeg := false, bstarMant := 59621, bstarExpNeg := true, bstarExp := 4, inclE4 := 991934,
    nodeE4 := 542187, eccE7 := 13542, argpE4 := 3104710, moE4 := 495312, noE8 := 1412401218 }

omit [Libm] in
theorem noaa_printed : Printed noaaLine1 noaaLine2 noaaTle where
  ascii1 := by unfold Ascii; decide
  ascii2 := by unfold Ascii; decide
  satnum := by decide
  year := by decide
  day := ⟨0, by decide, by decide, by decide⟩
  ndot := ⟨by decide, ' ', Or.inl rfl, by decide⟩
  nddot := ⟨by decide, by decide, ' ', Or.inl rfl, by decide, by decide⟩
  bstar := ⟨by decide, by decide, ' ', Or.inl rfl, by decide, by decide, by decide⟩
  incl := ⟨1, by decide, by decide, by decide⟩
  node := ⟨1, by decide, by decide, by decide⟩
  ecc := by decide
  argp := ⟨0, by decide, by decide, by decide⟩
  mo := ⟨1, by decide, by decide, by decide⟩
  no := ⟨0, by decide, by decide, by decide⟩

omit [Libm] in
theorem noaa_axis : 1.088 ≤ (tleOrbit noaaTle).a * (1 - tleEcc noaaTle) := by
  have hp := Real.pi_pos
  have hp2 := Real.pi_lt_d4
  have he0 : 0 ≤ tleEcc noaaTle := by unfold tleEcc; positivity
  have he : tleEcc noaaTle = 13542 / 10 ^ 7 := by unfold tleEcc noaaTle; norm_num
  have hm0 : 0 < tleMotion noaaTle := by unfold tleMotion noaaTle; positivity
  have hm1 : tleMotion noaaTle ≤ 0.0617 := by unfold tleMotion noaaTle; norm_num at *; linarith
  have ha : (1.1 : ℝ) ≤ (ke / tleMotion noaaTle) ^ (2 / 3 : ℝ) := by
    have h2 : (1.2 : ℝ) ≤ ke / tleMotion noaaTle := by
      rw [le_div_iff₀ hm0]; unfold ke; norm_num at *; linarith
    calc (1.1 : ℝ) = (1.1 ^ (3 / 2 : ℝ)) ^ (2 / 3 : ℝ) := by rw [← Real.rpow_mul (by norm_num)]; norm_num
      _ ≤ 1.2 ^ (2 / 3 : ℝ) := by
          apply Real.rpow_le_rpow (by positivity) _ (by norm_num)
          rw [show (3 / 2 : ℝ) = 1 + 1 / 2 by norm_num, Real.rpow_add (by norm_num), Real.rpow_one, ← Real.sqrt_eq_rpow]
          have : Real.sqrt 1.1 ≤ 1.05 := Real.sqrt_le_iff.mpr ⟨by norm_num, by norm_num⟩
          nlinarith
      _ ≤ _ := Real.rpow_le_rpow (by norm_num) h2 (by norm_num)
  have hax := recovered_axis (i := (noaaTle.inclE4 : ℝ) / 10 ^ 4 * (Real.pi / 180)) hm0 ⟨he0, by rw [he]; norm_num⟩ (by norm_num at *; linarith)
  have hax' : 1.09 ≤ (tleOrbit noaaTle).a := by
    have : (tleOrbit noaaTle).a = (ke / recoveredMotion (tleMotion noaaTle) (tleEcc noaaTle) ((noaaTle.inclE4 : ℝ) / 10 ^ 4 * (Real.pi / 180))) ^ (2 / 3 : ℝ) := rfl
    rw [this]; norm_num at *; linarith
  rw [he]; norm_num at hax' ⊢; linarith

omit [Libm] in
theorem noaa_lowness : tleLow noaaTle = 1 := lowness_high (le_trans (by norm_num) noaa_axis)

omit [Libm] in
theorem noaa_low {τ : ℝ} (h : |τ| ≤ 30000) : LowTle noaaTle τ := by
  have hd : tleDrag noaaTle = 59621 / 10 ^ 9 := by
    unfold tleDrag impliedValue sexp noaaTle; norm_num
  have he : tleEcc noaaTle = 13542 / 10 ^ 7 := by unfold tleEcc noaaTle; norm_num
  have hlow := noaa_lowness
  refine ⟨by decide, Or.inr ⟨by decide, ?_⟩, by decide, by decide, by decide, by decide, by decide, by decide, ?_, le_trans (by norm_num) noaa_axis, h.trans (by norm_num), ?_⟩
  · rw [hd, he, hlow]; norm_num
  · rw [hd, hlow]; norm_num
  · rw [hd, hlow, abs_mul]
    have := abs_nonneg τ
    norm_num at *; linarith

/-- The satellite meets the hypotheses of C85 (and its elements, read in doubles, those of C84): twenty days after the epoch. -/
theorem noaa_state (hL : Libm.Faithful) (t : F64) (ht : t.Fin) (h : |t.val| ≤ 30000) :
    ∃ (s : Satrec F64) (p : SGP4Result F64), twoline2satrec noaaLine1 noaaLine2 = .ok s ∧ (sgp4 s t).map Prod.snd = some (.ok p) ∧
      CloseToTheory noaaTle t.val p :=
  C85_text_to_state_f64 hL _ _ _ noaa_printed (Or.inl rfl) (Or.inl rfl) (Or.inr (by decide)) t ht (noaa_low h)

/-- The same for a date: 2020 February 5, 6:30:15. -/
theorem noaa_date (hL : Libm.Faithful) (time : DateTimeUtc) (h1 : time.year = 2020) (h2 : time.month = 2) (h3 : time.day = 5) (h4 : time.hour = 6)
    (h5 : time.minute = 30) (h6 : time.second = 15) :
    ∃ (s : Satrec F64) (τ : ℝ) (p : SGP4Result F64), twoline2satrec noaaLine1 noaaLine2 = .ok s ∧ propogate_datetime s time = some (.ok p) ∧
      |τ - ((36 - 29.54791435) * 1440 + 6 * 60 + 30 + 15 / 60)| ≤ 1 / 400000 ∧ CloseToTheory noaaTle τ p := by
  obtain ⟨s, year, nE, nD, hs, y1, y2, y3, y4, y5, hh⟩ := C85_text_and_date_f64 hL _ _ _ noaa_printed (Or.inl rfl) (Or.inl rfl) (Or.inr (by decide))
    (by decide) (noaa_low (τ := 0) (by norm_num)) time ⟨2020, 2, 5⟩ ⟨by decide, by unfold Date.before base; decide, by unfold Date.before; decide⟩ h1 h2 h3 (by omega) (by omega) (by omega)
  have ey : year = 2020 := by
    have e : (noaaTle.year : ℤ) = 20 := rfl
    rw [e] at y3; omega
  have e1 := (serial_after nE).2.2
  have e2 := (serial_after nD).2.2
  rw [y4, ey] at e1
  rw [y5] at e2
  have e3 : serial ⟨2020, 2, 5⟩ = serial ⟨2020, 1, 1⟩ + 35 := by decide +kernel
  have e4 : (nD : ℝ) = nE + 35 := by exact_mod_cast (by omega : nD = nE + 35)
  have e5 : ((nD : ℝ) - nE + 1 - (noaaTle.dayE8 : ℝ) / 10 ^ 8) * 1440 + time.hour * 60 + time.minute + (time.second : ℝ) / 60 =
      (36 - 29.54791435) * 1440 + 6 * 60 + 30 + 15 / 60 := by
    rw [e4, h4, h5, h6, show (noaaTle.dayE8 : ℝ) = 2954791435 by unfold noaaTle; norm_num]; norm_num
  rw [e5] at hh
  have hd : tleDrag noaaTle = 59621 / 10 ^ 9 := by
    unfold tleDrag impliedValue sexp noaaTle; norm_num
  obtain ⟨τ, p, k1, k2, k3⟩ := hh (by norm_num [abs_of_pos]) (by rw [hd, noaa_lowness]; norm_num [abs_of_pos])
  exact ⟨s, τ, p, hs, k1, k2, k3⟩

/-! ## The space station, whose perigee is below 400 km -/

def issTle : Tle :=
  { satnum := "25544".toList, year := 8, dayE8 := 26451782528, ndotNeg := true, ndotE8 := 2182, nddotNeg := false,
    nddotMant := 0, nddotExpNeg := true, nddotExp := 0, bstarNeg := true, bstarMant := 11606, bstarExpNeg := true,
    bstarExp := 4, inclE4 := 516416, nodeE4 := 2474627, eccE7 := 6703, argpE4 := 1305360, moE4 := 3250288,
    noE8 := 1572125391 }

omit [Libm] in
theorem iss_low {τ : ℝ} (h : |τ| ≤ 40000) : LowTle issTle τ := by
  have hd : tleDrag issTle = -11606 / 10 ^ 9 := by
    unfold tleDrag impliedValue sexp issTle; norm_num
  have hp := Real.pi_pos
  have hp2 := Real.pi_lt_d4
  have he0 : 0 ≤ tleEcc issTle := by unfold tleEcc; positivity
  have he : tleEcc issTle = 6703 / 10 ^ 7 := by unfold tleEcc issTle; norm_num
  have hm0 : 0 < tleMotion issTle := by unfold tleMotion issTle; positivity
  have hm1 : tleMotion issTle ≤ 0.0686 := by unfold tleMotion issTle; norm_num at *; linarith
  have ha : (1.055 : ℝ) ≤ (ke / tleMotion issTle) ^ (2 / 3 : ℝ) := by
    have h2 : (1.084 : ℝ) ≤ ke / tleMotion issTle := by
      rw [le_div_iff₀ hm0]; unfold ke; norm_num at *; linarith
    calc (1.055 : ℝ) = (1.055 ^ (3 / 2 : ℝ)) ^ (2 / 3 : ℝ) := by rw [← Real.rpow_mul (by norm_num)]; norm_num
      _ ≤ 1.084 ^ (2 / 3 : ℝ) := by
          apply Real.rpow_le_rpow (by positivity) _ (by norm_num)
          rw [show (3 / 2 : ℝ) = 1 + 1 / 2 by norm_num, Real.rpow_add (by norm_num), Real.rpow_one, ← Real.sqrt_eq_rpow]
          have : Real.sqrt 1.055 ≤ 1.0272 := Real.sqrt_le_iff.mpr ⟨by norm_num, by norm_num⟩
          nlinarith
      _ ≤ _ := Real.rpow_le_rpow (by norm_num) h2 (by norm_num)
  have hax := recovered_axis (i := (issTle.inclE4 : ℝ) / 10 ^ 4 * (Real.pi / 180)) hm0 ⟨he0, by rw [he]; norm_num⟩ (by norm_num at *; linarith)
  have hax' : 1.0518 ≤ (tleOrbit issTle).a := by
    have : (tleOrbit issTle).a = (ke / recoveredMotion (tleMotion issTle) (tleEcc issTle) ((issTle.inclE4 : ℝ) / 10 ^ 4 * (Real.pi / 180))) ^ (2 / 3 : ℝ) := rfl
    rw [this]; norm_num at *; linarith
  have hper : 1.051 ≤ (tleOrbit issTle).a * (1 - tleEcc issTle) := by rw [he]; norm_num at hax' ⊢; linarith
  have hlow : tleLow issTle ≤ 1.31 := by
    refine max_le (by norm_num) ?_
    rw [div_le_iff₀ (by norm_num at hper ⊢; linarith)]
    norm_num at hper ⊢; linarith
  have hl0 : 0 ≤ tleLow issTle := le_trans zero_le_one (one_le_lowness _)
  have h5 : tleLow issTle ^ 5 ≤ 3.86 := (pow_le_pow_left₀ hl0 hlow 5).trans (by norm_num)
  have h50 : 0 ≤ tleLow issTle ^ 5 := by positivity
  have hb : |tleDrag issTle| = 11606 / 10 ^ 9 := by rw [hd, abs_of_neg (by norm_num)]; norm_num
  refine ⟨by decide, Or.inr ⟨by decide, ?_⟩, by decide, by decide, by decide, by decide, by decide, by decide, ?_, le_trans (by norm_num) hper, h.trans (by norm_num), ?_⟩
  · rw [hb, he]; norm_num at h5 ⊢; linarith
  · rw [hb]; norm_num at h5 ⊢; linarith
  · rw [abs_mul, hb]
    calc 11606 / 10 ^ 9 * |τ| * tleLow issTle ^ 5 ≤ 11606 / 10 ^ 9 * 40000 * 3.86 := by gcongr
      _ ≤ 2 := by norm_num

/-- The space station in 2008, within four weeks of the epoch of its elements. -/
theorem iss_state (hL : Libm.Faithful) (t : F64) (ht : t.Fin) (h : |t.val| ≤ 40000) :
    ∃ (s : Satrec F64) (p : SGP4Result F64), twoline2satrec "1 25544U 98067A   08264.51782528 -.00002182  00000-0 -11606-4 0  2927".toList
        "2 25544  51.6416 247.4627 0006703 130.5360 325.0288 15.72125391563537".toList = .ok s ∧ (sgp4 s t).map Prod.snd = some (.ok p) ∧
      CloseToTheory issTle t.val p :=
  C85_text_to_state_f64 hL _ _ _ iss_printed (Or.inl rfl) (Or.inl rfl) (Or.inr (by decide)) t ht (iss_low h)

example : ∃ (o : SGP4InitOptions F64) (ρ : SGP4InitOptions ℝ), Calm ρ 28800 ∧ Rounded o ρ := by
  obtain ⟨p, hp, -⟩ := C21_decode (F := F64) _ _ _ noaa_printed (Or.inl rfl)
  obtain ⟨ρ, hρ, -⟩ := C21_decode (F := ℝ) _ _ _ noaa_printed (Or.inl rfl)
  have hl := noaa_low (τ := 28800) (by norm_num)
  exact ⟨_, _, calm_low noaa_printed (Or.inl rfl) (Or.inl rfl) (Or.inr (by decide)) hl hρ,
    rounded_read noaa_printed (Or.inl rfl) (Or.inr (by decide)) hl hp hρ⟩

end Sat
