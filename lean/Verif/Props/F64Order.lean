import Verif.Props.F64Accuracy
/-!
# C98: reading keeps printed values apart, and in order, in doubles

Every conversion made while a two-line set is read rounds (degrees to radians, revolutions per day to radians per minute, days to Julian dates).
No two different printed values are made equal, and none change order: a smaller printed value always becomes a smaller double.
-/

namespace Sat
open F64 Spec
variable [Libm]

omit [Libm] in
/-- values known to less than half the step between them keep their order -/
theorem keep_order {x x' u δ : ℝ} {m m' : ℤ} (h : |x - m * u| ≤ δ) (h' : |x' - m' * u| ≤ δ) (hu : 2 * δ < u) (hm : m < m') : x < x' := by
  have h1 := (abs_le.mp h).2
  have h2 := (abs_le.mp h').1
  have h3 : (m : ℝ) + 1 ≤ m' := by exact_mod_cast hm
  have h4 : 0 ≤ δ := (abs_nonneg _).trans h
  nlinarith

omit [Libm] in
theorem keep_order_nat {x x' u δ : ℝ} {m m' : ℕ} (h : |x - m * u| ≤ δ) (h' : |x' - m' * u| ≤ δ) (hu : 2 * δ < u) (hm : m < m') : x < x' :=
  keep_order (m := m) (m' := m') (by simpa using h) (by simpa using h') hu (by exact_mod_cast hm)

/-- the printed first derivative, with its sign, in units of 10^-8 revolutions per day squared -/
def Spec.Tle.ndotSigned (v : Tle) : ℤ := if v.ndotNeg then -(v.ndotE8 : ℤ) else v.ndotE8

omit [Libm] in
/-- scaled decimal numbers of five digits are apart by a fraction of their size -/
theorem decimal_gap {M M' : ℤ} (h : M < M') (hs : |M| < 10 ^ 5 ∨ |M'| < 10 ^ 5) :
    ((|M| : ℤ) : ℝ) + ((|M'| : ℤ) : ℝ) ≤ 4 * 10 ^ 5 * ((M' : ℝ) - M) := by
  have key : |M| + |M'| ≤ 4 * 10 ^ 5 * (M' - M) := by
    rcases hs with hs | hs <;> rw [abs_lt] at hs <;> rcases abs_cases M with ⟨e1, h1⟩ | ⟨e1, h1⟩ <;> rcases abs_cases M' with ⟨e2, h2⟩ | ⟨e2, h2⟩ <;>
      rw [e1, e2] <;> omega
  exact_mod_cast key

omit [Libm] in
theorem implied_scaled (neg : Bool) (m : ℕ) (e g : ℤ) (h : g ≤ e) :
    impliedValue neg m e = (((if neg then -1 else 1) * (m : ℤ) * 10 ^ (e - g).toNat : ℤ) : ℝ) * (10 : ℝ) ^ (g - 5) := by
  obtain ⟨k, rfl⟩ := Int.le.dest h
  unfold impliedValue
  rw [show g + (k : ℤ) - g = k by ring, Int.toNat_natCast, zpow_sub₀ (by norm_num), zpow_add₀ (by norm_num), zpow_natCast]
  rw [show ((10 : ℝ) ^ (5 : Int)) = 100000 by norm_num]
  push_cast
  split <;> ring

omit [Libm] in
/-- drag terms printed with five digits keep their order -/
theorem implied_order {neg neg' : Bool} {m m' : ℕ} {e e' : ℤ} (hm : m < 10 ^ 5) (hm' : m' < 10 ^ 5) (he : |e| ≤ 9) (he' : |e'| ≤ 9)
    {x x' : F64} (hx : Rounds (impliedValue neg m e) x) (hx' : Rounds (impliedValue neg' m' e') x')
    (h : impliedValue neg m e < impliedValue neg' m' e') : x.val < x'.val := by
  set g := min e e' with hg
  have hge : g ≤ e := min_le_left _ _
  have hge' : g ≤ e' := min_le_right _ _
  have hg9 : -9 ≤ g := le_min (neg_le_of_abs_le he) (neg_le_of_abs_le he')
  have e1 := implied_scaled neg m e g hge
  have e2 := implied_scaled neg' m' e' g hge'
  set M : ℤ := (if neg then -1 else 1) * (m : ℤ) * 10 ^ (e - g).toNat with hM
  set M' : ℤ := (if neg' then -1 else 1) * (m' : ℤ) * 10 ^ (e' - g).toNat with hM'
  have hs : |M| < 10 ^ 5 ∨ |M'| < 10 ^ 5 := by
    rcases le_total e e' with hh | hh
    · left
      have : g = e := min_eq_left hh
      rw [hM, this, sub_self, Int.toNat_zero, pow_zero, mul_one]
      split <;> rw [abs_lt] <;> omega
    · right
      have : g = e' := min_eq_right hh
      rw [hM', this, sub_self, Int.toNat_zero, pow_zero, mul_one]
      split <;> rw [abs_lt] <;> omega
  have hu : (0 : ℝ) < (10 : ℝ) ^ (g - 5) := by positivity
  have hlo : (1 : ℝ) / 10 ^ 14 ≤ (10 : ℝ) ^ (g - 5) := by
    have := zpow_le_zpow_right₀ (a := (10 : ℝ)) (by norm_num) (show (-14 : ℤ) ≤ g - 5 by omega)
    refine le_trans (le_of_eq ?_) this
    rw [zpow_neg]; norm_num
  have hlt : M < M' := by
    rw [e1, e2] at h
    exact_mod_cast lt_of_mul_lt_mul_right h hu.le
  have hgap := decimal_gap hlt hs
  have big : ∀ (b : Bool) (k : ℕ) (f : ℤ), k < 10 ^ 5 → |f| ≤ 9 → |impliedValue b k f| ≤ 2 ^ 100 := by
    intro b k f hk hf
    have h1 : (k : ℝ) / 100000 ≤ 1 := by
      rw [div_le_one (by norm_num)]; exact_mod_cast hk.le
    have h2 : (10 : ℝ) ^ f ≤ 10 ^ 9 := by
      have := zpow_le_zpow_right₀ (a := (10 : ℝ)) (by norm_num) (show f ≤ 9 from le_of_abs_le hf)
      exact this.trans (by norm_num)
    have h3 : |impliedValue b k f| = (k : ℝ) / 100000 * (10 : ℝ) ^ f := by
      unfold impliedValue
      rw [abs_mul, abs_mul, abs_of_nonneg (by positivity : (0 : ℝ) ≤ (k : ℝ) / 100000), abs_of_pos (by positivity : (0 : ℝ) < (10 : ℝ) ^ f)]
      split <;> simp
    rw [h3]
    calc (k : ℝ) / 100000 * (10 : ℝ) ^ f ≤ 1 * 10 ^ 9 := mul_le_mul h1 h2 (by positivity) (by norm_num)
      _ ≤ 2 ^ 100 := by norm_num
  have n1 := (hx.near le_rfl (big neg m e hm he)).2
  have n2 := (hx'.near le_rfl (big neg' m' e' hm' he')).2
  rw [e1, abs_mul, abs_of_pos hu] at n1
  rw [e2, abs_mul, abs_of_pos hu] at n2
  rw [show |(M : ℝ)| = ((|M| : ℤ) : ℝ) by push_cast; rfl] at n1
  rw [show |(M' : ℝ)| = ((|M'| : ℤ) : ℝ) by push_cast; rfl] at n2
  have h1 := (abs_le.mp n1).2
  have h2 := (abs_le.mp n2).1
  have h3 : (M : ℝ) + 1 ≤ M' := by exact_mod_cast hlt
  set u := (10 : ℝ) ^ (g - 5) with hudef
  have h4 : (((|M| : ℤ) : ℝ) + ((|M'| : ℤ) : ℝ)) * u ≤ 4 * 10 ^ 5 * ((M' : ℝ) - M) * u := mul_le_mul_of_nonneg_right hgap hu.le
  have h5 : u ≤ ((M' : ℝ) - M) * u := le_mul_of_one_le_left hu.le (by linarith)
  have h6 : (1 : ℝ) / 2 ^ 153 ≤ 1 / 10 ^ 20 := by norm_num
  have h7 : ((|M| : ℤ) : ℝ) * u / 2 ^ 53 + ((|M'| : ℤ) : ℝ) * u / 2 ^ 53 ≤ 1 / 10 ^ 9 * (((M' : ℝ) - M) * u) := by
    rw [← add_div, ← add_mul, div_le_iff₀ (by norm_num)]
    have : 0 ≤ ((M' : ℝ) - M) * u := hu.le.trans h5
    norm_num at h4 ⊢
    linarith
  have h8 : (2 : ℝ) / 10 ^ 20 ≤ 1 / 10 ^ 5 * u := by norm_num at hlo ⊢; linarith
  have h9 : (0 : ℝ) < ((M' : ℝ) - M) * u := lt_of_lt_of_le hu h5
  have h10 : ((M' : ℝ) - M) * u = M' * u - M * u := by ring
  norm_num at h8 h6 h7
  linarith

/-- **C98.** Reading in doubles keeps printed values apart and in order: for any two printed element sets (each with a non-negative second derivative),
whichever field is compared, the smaller printed value becomes the smaller double. -/
theorem C98_reading_keeps_order (l1 l2 l1' l2' : Str) (v v' : Tle) (h : Printed l1 l2 v) (h' : Printed l1' l2' v')
    (hpos : v.nddotNeg = false ∨ v.nddotMant = 0) (hpos' : v'.nddotNeg = false ∨ v'.nddotMant = 0)
    (s s' : Satrec F64) (hs : (parse_satrec l1 l2 : PRes (Satrec F64)) = .ok s) (hs' : (parse_satrec l1' l2' : PRes (Satrec F64)) = .ok s') :
    (v.inclE4 < v'.inclE4 → s.inclo.val < s'.inclo.val) ∧ (v.nodeE4 < v'.nodeE4 → s.nodeo.val < s'.nodeo.val) ∧
    (v.argpE4 < v'.argpE4 → s.argpo.val < s'.argpo.val) ∧ (v.moE4 < v'.moE4 → s.mo.val < s'.mo.val) ∧
    (v.eccE7 < v'.eccE7 → s.ecco.val < s'.ecco.val) ∧ (v.noE8 < v'.noE8 → s.no.val < s'.no.val) ∧
    (v.dayE8 < v'.dayE8 → s.epochdays.val < s'.epochdays.val) ∧
    (v.ndotSigned < v'.ndotSigned → s.ndot.val < s'.ndot.val) ∧
    (Normal v.bstarMant → Normal v'.bstarMant →
      impliedValue v.bstarNeg v.bstarMant (sexp v.bstarExpNeg v.bstarExp) <
        impliedValue v'.bstarNeg v'.bstarMant (sexp v'.bstarExpNeg v'.bstarExp) → s.bstar.val < s'.bstar.val) := by
  have hp := Real.pi_gt_d4
  obtain ⟨t, ht, a1, a2, a3, a4, a5, a6⟩ := C80_elements_read l1 l2 v h hpos
  obtain rfl : t = s := by rw [hs] at ht; cases ht; rfl
  obtain ⟨t', ht', b1, b2, b3, b4, b5, b6⟩ := C80_elements_read l1' l2' v' h' hpos'
  obtain rfl : t' = s' := by rw [hs'] at ht'; cases ht'; rfl
  obtain ⟨t2, ht2, -, -, -, -, -, c1, -, c2, -, c3, -⟩ := C21_decode (F := F64) l1 l2 v h hpos
  obtain rfl : t2 = t := by rw [hs] at ht2; cases ht2; rfl
  obtain ⟨t2', ht2', -, -, -, -, -, d1, -, d2, -, d3, -⟩ := C21_decode (F := F64) l1' l2' v' h' hpos'
  obtain rfl : t2' = t' := by rw [hs'] at ht2'; cases ht2'; rfl
  have ang : ∀ {x x' : ℝ} {m m' : ℕ}, |x - (m : ℝ) / 10 ^ 4 * (Real.pi / 180)| ≤ 1 / 10 ^ 14 →
      |x' - (m' : ℝ) / 10 ^ 4 * (Real.pi / 180)| ≤ 1 / 10 ^ 14 → m < m' → x < x' := by
    intro x x' m m' g g' hm
    refine keep_order_nat (u := 1 / 10 ^ 4 * (Real.pi / 180)) (δ := 1 / 10 ^ 14) (m := m) (m' := m') ?_ ?_ ?_ hm
    · rwa [show (m : ℝ) * (1 / 10 ^ 4 * (Real.pi / 180)) = (m : ℝ) / 10 ^ 4 * (Real.pi / 180) by ring]
    · rwa [show (m' : ℝ) * (1 / 10 ^ 4 * (Real.pi / 180)) = (m' : ℝ) / 10 ^ 4 * (Real.pi / 180) by ring]
    · norm_num at hp ⊢; linarith
  have dec : ∀ {w w' : Str} {m m' : ℕ}, PointField w 3 8 m → PointField w' 3 8 m' → m < m' →
      (Arith.ofDec (.num false m (-8)) : F64).val < (Arith.ofDec (.num false m' (-8)) : F64).val := by
    intro w w' m m' g g' hm
    have q := ((q_dec false m 8 (10 ^ 3) (point_lt g)).to (a' := (m : ℝ) * (1 / 10 ^ 8)) (by simp; ring)).err
    have q' := ((q_dec false m' 8 (10 ^ 3) (point_lt g')).to (a' := (m' : ℝ) * (1 / 10 ^ 8)) (by simp; ring)).err
    exact keep_order_nat q q' (by norm_num) hm
  have ndq : ∀ {v : Tle}, v.ndotE8 < 10 ^ 8 →
      |(Arith.ofDec (.num v.ndotNeg v.ndotE8 (-8)) / (XPDOTP * 1440.0) : F64).val - (v.ndotSigned : ℝ) * (1 / 10 ^ 8 / (1440 / (2 * Real.pi) * 1440.0))| ≤
        1 / 10 ^ 17 := by
    intro v hv
    have hm : (v.ndotE8 : ℝ) / 10 ^ 8 ≤ 1 := by
      rw [div_le_one (by norm_num)]; exact_mod_cast hv.le
    have q1 := q_dec v.ndotNeg v.ndotE8 8 1 hm
    have q2 := (q_xpdotp.mul (Q.int 14400 true 1 1440 (by norm_num))).mono (A' := 400000) (δ' := 1 / 10 ^ 9) (by norm_num) (by norm_num)
    have hp2 := Real.pi_lt_d4
    have hb : (329000 : ℝ) ≤ |1440 / (2 * Real.pi) * (1440.0 : ℝ)| := by
      rw [abs_of_pos (by positivity), div_mul_eq_mul_div, le_div_iff₀ (by positivity)]
      norm_num at *; linarith
    have q := (q1.div (q2.to (a' := 1440 / (2 * Real.pi) * (1440.0 : ℝ)) (by norm_num)) 329000 (4 / 10 ^ 6) hb (quot_le q1.mag hb (by norm_num) (by norm_num))).mono
      (A' := 4 / 10 ^ 6) (δ' := 1 / 10 ^ 17) le_rfl (by norm_num)
    have e : (if v.ndotNeg then (-1 : ℝ) else 1) * ((v.ndotE8 : ℝ) / 10 ^ 8) / (1440 / (2 * Real.pi) * 1440.0) =
        (v.ndotSigned : ℝ) * (1 / 10 ^ 8 / (1440 / (2 * Real.pi) * 1440.0)) := by
      unfold Tle.ndotSigned
      generalize (1440 / (2 * Real.pi) * 1440.0 : ℝ) = K
      split <;> push_cast <;> ring
    exact (q.to e).err
  refine ⟨ang a1.2 b1.2, ang a2.2 b2.2, ang a3.2 b3.2, ang a4.2 b4.2, fun hm => ?_, fun hm => ?_, fun hm => ?_, fun hm => ?_, fun n1 n2 hm => ?_⟩
  · refine keep_order_nat (u := 1 / 10 ^ 7) (δ := 1 / 2 ^ 52) (m := v.eccE7) (m' := v'.eccE7) ?_ ?_ (by norm_num) hm
    · rw [mul_one_div]; exact a5.2
    · rw [mul_one_div]; exact b5.2
  · refine keep_order_nat (u := 1 / 10 ^ 8 * (2 * Real.pi) / 1440) (δ := 1 / 10 ^ 15) (m := v.noE8) (m' := v'.noE8) ?_ ?_ ?_ hm
    · rw [show (v.noE8 : ℝ) * (1 / 10 ^ 8 * (2 * Real.pi) / 1440) = (v.noE8 : ℝ) / 10 ^ 8 * (2 * Real.pi) / 1440 by ring]; exact a6.2
    · rw [show (v'.noE8 : ℝ) * (1 / 10 ^ 8 * (2 * Real.pi) / 1440) = (v'.noE8 : ℝ) / 10 ^ 8 * (2 * Real.pi) / 1440 by ring]; exact b6.2
    · norm_num at hp ⊢; linarith
  · rw [c1, d1]; exact dec h.day h'.day hm
  · rw [c2, d2]
    refine keep_order (ndq h.ndot.1) (ndq h'.ndot.1) ?_ hm
    rw [div_mul_eq_mul_div, div_div_eq_mul_div, lt_div_iff₀ (by positivity)]
    norm_num at hp ⊢; linarith
  · rw [c3, d3]
    have r1 := ofDecimal_rounds v.bstarNeg v.bstarMant (sexp v.bstarExpNeg v.bstarExp - (numDigits v.bstarMant : Int))
    have r2 := ofDecimal_rounds v'.bstarNeg v'.bstarMant (sexp v'.bstarExpNeg v'.bstarExp - (numDigits v'.bstarMant : Int))
    rw [implied_normal _ _ _ n1 h.bstar.1] at r1
    rw [implied_normal _ _ _ n2 h'.bstar.1] at r2
    have ex : ∀ (b : Bool) (k : ℕ), k < 10 → |sexp b k| ≤ 9 := by
      intro b k hk
      unfold sexp; rw [abs_le]; split <;> omega
    exact implied_order h.bstar.1 h'.bstar.1 (ex _ _ h.bstar.2.1) (ex _ _ h'.bstar.2.1) r1 r2 hm

/-- **C98.** The epochs keep their order too: of two printed epochs, counted by the calendar, the earlier one becomes the smaller Julian date.  (The step of the
format is 864 µs; a Julian date held in a double is known to 81 µs.) -/
theorem C98_epoch_keeps_order (l1 l2 l1' l2' : Str) (v v' : Tle) (h : Printed l1 l2 v) (h' : Printed l1' l2' v')
    (hpos : v.nddotNeg = false ∨ v.nddotMant = 0) (hpos' : v'.nddotNeg = false ∨ v'.nddotMant = 0)
    (hday : v.dayE8 ≤ 400 * 10 ^ 8) (hday' : v'.dayE8 ≤ 400 * 10 ^ 8)
    (s s' : Satrec F64) (hs : (parse_satrec l1 l2 : PRes (Satrec F64)) = .ok s) (hs' : (parse_satrec l1' l2' : PRes (Satrec F64)) = .ok s')
    (year year' n n' : ℕ) (hy : 1957 ≤ year ∧ year ≤ 2056 ∧ (year : ℤ) % 100 = v.year) (hy' : 1957 ≤ year' ∧ year' ≤ 2056 ∧ (year' : ℤ) % 100 = v'.year)
    (hn : base.after n = ⟨year, 1, 1⟩) (hn' : base.after n' = ⟨year', 1, 1⟩)
    (hlt : (n : ℤ) * 10 ^ 8 + v.dayE8 < (n' : ℤ) * 10 ^ 8 + v'.dayE8) : s.jdsatepoch.val < s'.jdsatepoch.val := by
  have one : ∀ {l1 l2 : Str} {v : Tle} (_ : Printed l1 l2 v) (_ : v.nddotNeg = false ∨ v.nddotMant = 0) (_ : v.dayE8 ≤ 400 * 10 ^ 8) {s : Satrec F64}
      (_ : (parse_satrec l1 l2 : PRes (Satrec F64)) = .ok s) {year n : ℕ} (_ : 1957 ≤ year ∧ year ≤ 2056 ∧ (year : ℤ) % 100 = v.year)
      (_ : base.after n = ⟨year, 1, 1⟩),
      |s.jdsatepoch.val - 2415078.5 - (((n : ℤ) * 10 ^ 8 + v.dayE8 : ℤ) : ℝ) * (1 / 10 ^ 8)| ≤ 1 / 2 ^ 29 := by
    intro l1 l2 v h hpos hday s hs year n hy hn
    obtain ⟨p, hpar, -, -, -, -, -, -, hjd, -⟩ := C21_decode (F := F64) l1 l2 v h hpos
    obtain rfl : p = s := by rw [hpar] at hs; cases hs; rfl
    have hd8 : (v.dayE8 : ℝ) / 10 ^ 8 ≤ 400 := by
      rw [div_le_iff₀ (by positivity)]; exact_mod_cast hday
    have hq := (q_dec false v.dayE8 8 400 hd8).to (a' := (v.dayE8 : ℝ) / 10 ^ 8) (by simp)
    have hpos0 : 0 ≤ (Arith.ofDec (.num false v.dayE8 (-8)) : F64).val ∧ (Arith.ofDec (.num false v.dayE8 (-8)) : F64).val ≤ 400 := by
      have hr := ofDecimal_rounds false v.dayE8 (-8)
      have e := real_dec false v.dayE8 8
      rw [show (Arith.ofDec (.num false v.dayE8 (-((8 : ℕ) : ℤ))) : ℝ) = decR (.num false v.dayE8 (-8)) from rfl] at e
      rw [e] at hr
      simp only [Bool.false_eq_true, if_false, one_mul] at hr
      exact ⟨hr.ge hq.fin isRep_zero (by positivity), hr.le hq.fin (by simpa using isRep_int 400 (by norm_num)) hd8⟩
    obtain ⟨y, k, y1, y2, y3, y4, y5, y6⟩ := C24_f64 (v.year : ℤ) (by omega) (by have := h.year.1; omega)
      (Arith.ofDec (.num false v.dayE8 (-8)) : F64) hq.fin hpos0.1 hpos0.2
    obtain rfl : y = year := by omega
    have hk : k = n := by
      have e1 := (serial_after k).2.2
      have e2 := (serial_after n).2.2
      rw [y4] at e1; rw [hn] at e2; omega
    subst hk
    rw [hjd]
    generalize epochJd (v.year : ℤ) (Arith.ofDec (.num false v.dayE8 (-8)) : F64) = Y at *
    have g1 := abs_le.mp y6
    have g2 := abs_le.mp (hq.err.trans (show (400 : ℝ) / 2 ^ 53 + 1 / 2 ^ 153 ≤ 1 / 10 ^ 12 by norm_num))
    push_cast
    have e : ((k : ℝ) * 100000000 + v.dayE8) * (1 / 10 ^ 8) = k + (v.dayE8 : ℝ) / 10 ^ 8 := by ring
    rw [e]
    generalize (v.dayE8 : ℝ) / 10 ^ 8 = D at *
    generalize (Arith.ofDec (.num false v.dayE8 (-8)) : F64).val = D' at *
    rw [abs_le]
    obtain ⟨g1a, g1b⟩ := g1
    obtain ⟨g2a, g2b⟩ := g2
    constructor <;> norm_num at g1a g1b g2a g2b ⊢ <;> linarith
  have hlt' := keep_order (one h hpos hday hs hy hn) (one h' hpos' hday' hs' hy' hn') (by norm_num) hlt
  linarith

/-- The station and the GPS satellite: inclination 51.6416 against 55.4416, first derivative and drag term negative against positive. -/
example (s s' : Satrec F64) (hs : (parse_satrec "1 25544U 98067A   08264.51782528 -.00002182  00000-0 -11606-4 0  2927".toList
      "2 25544  51.6416 247.4627 0006703 130.5360 325.0288 15.72125391563537".toList : PRes (Satrec F64)) = .ok s)
    (hs' : (parse_satrec navLine1 navLine2 : PRes (Satrec F64)) = .ok s') :
    s.inclo.val < s'.inclo.val ∧ s.ndot.val < s'.ndot.val ∧ s.bstar.val < s'.bstar.val := by
  obtain ⟨h1, -, -, -, -, -, -, h2, h3⟩ := C98_reading_keeps_order _ _ _ _ _ _ iss_printed nav_printed (Or.inl rfl) (Or.inl rfl) s s' hs hs'
  refine ⟨h1 (by decide), h2 (by decide), h3 (Or.inr (by decide)) (Or.inr (by decide)) ?_⟩
  unfold impliedValue navTle sexp
  norm_num

end Sat
