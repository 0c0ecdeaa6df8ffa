import Verif.Props.F64Frames
/-! # C41 in IEEE-754 arithmetic: longitude normalisation and latitude range; the inputs for which the loops never exit -/

namespace Sat
open F64 Spec

local notation "P" => F64.pi.val

theorem P_bounds : (3.14 : ℝ) < P ∧ P < 3.15 := by rw [pi_val.2]; norm_num

section
variable [Libm]

theorem two_pi_eq : (TWO_PI : F64).Fin ∧ (TWO_PI : F64).val = 2 * P := by
  refine ⟨two_pi_val.1, ?_⟩
  rw [two_pi_val.2, pi_val.2]; norm_num

/-- The upward loop: from a finite longitude up to `2^51` it stops after `k` turns at a longitude not below `-π`; each turn is
subject to one rounding. -/
theorem wrapUp_f64 (B : ℝ) (hB8 : 8 ≤ B) (hB : B ≤ 2 ^ 51) (l : F64) (hl : l.Fin) (hb : |l.val| ≤ B) :
    ∃ (l' : F64) (k : ℕ), wrapUp l = some l' ∧ l'.Fin ∧ -P ≤ l'.val ∧ ((k = 0 ∧ l' = l) ∨ (l'.val ≤ P ∧ 5 * (k : ℝ) ≤ -l.val + 2)) ∧
      |l'.val - (l.val + k * (2 * P))| ≤ k * (B / 2 ^ 53) ∧ |l'.val| ≤ B := by
  obtain ⟨n, hn⟩ := exists_nat_gt ((-l.val) / 5)
  have hn' : -l.val < n * 5 := by rwa [div_lt_iff₀ (by norm_num)] at hn
  clear hn
  obtain ⟨p1, p2⟩ := P_bounds
  obtain ⟨np1, np2⟩ := neg_val pi_val.1
  obtain ⟨t1, t2⟩ := two_pi_eq
  induction n generalizing l with
  | zero =>
    refine ⟨l, 0, ?_, hl, ?_, Or.inl ⟨rfl, rfl⟩, by simp, hb⟩
    · rw [wrapUp, whileLoop_false]
      have : ¬ (flt l (neg F64.pi) = true) := by
        rw [flt_fin hl np1, np2]; simp at hn'; linarith
      simpa using this
    · simp at hn'; linarith
  | succ n ih =>
    by_cases hc : -P ≤ l.val
    · refine ⟨l, 0, ?_, hl, hc, Or.inl ⟨rfl, rfl⟩, by simp, hb⟩
      rw [wrapUp, whileLoop_false]
      have : ¬ (flt l (neg F64.pi) = true) := by
        rw [flt_fin hl np1, np2]; linarith
      simpa using this
    · have hc := not_le.mp hc
      have hstep : wrapUp l = wrapUp (add l TWO_PI) := by
        rw [wrapUp, whileLoop_true]
        · rfl
        · show flt l (neg F64.pi) = true
          rw [flt_fin hl np1, np2]; exact hc
      have hr := add_rounds hl t1
      rw [t2] at hr
      have hb' := abs_le.mp hb
      have habs : |l.val + 2 * P| ≤ B := by rw [abs_le]; constructor <;> linarith
      have hfin := (hr.pow (e := 51) (by norm_num) (le_trans habs hB)).1
      have herr := hr.err_le hfin (B := B) (le_trans (by norm_num) hB8) habs
      have hle := hr.le hfin (isRep_val pi_val.1) (by linarith)
      have hsmall : B / 2 ^ 53 ≤ 1 / 4 := by rw [div_le_iff₀ (by norm_num)]; linarith
      have he := abs_le.mp herr
      obtain ⟨l', k, h1, h2, h3, h4, h5, h6⟩ := ih (add l TWO_PI) hfin (by rw [abs_le]; constructor <;> linarith)
        (by push_cast at hn'; linarith)
      refine ⟨l', k + 1, by rw [hstep, h1], h2, h3, Or.inr ?_, ?_, h6⟩
      · rcases h4 with ⟨rfl, rfl⟩ | ⟨h4, h4'⟩
        · exact ⟨hle, by push_cast; linarith⟩
        · exact ⟨h4, by push_cast; linarith⟩
      · have e : l'.val - (l.val + ((k + 1 : ℕ) : ℝ) * (2 * P)) =
            (l'.val - ((add l TWO_PI).val + k * (2 * P))) + ((add l TWO_PI).val - (l.val + 2 * P)) := by push_cast; ring
        rw [e]
        refine le_trans (abs_add_le _ _) ?_
        push_cast
        linarith

/-- The downward loop, likewise. -/
theorem wrapDown_f64 (B : ℝ) (hB8 : 8 ≤ B) (hB : B ≤ 2 ^ 51) (l : F64) (hl : l.Fin) (hb : |l.val| ≤ B) :
    ∃ (l' : F64) (k : ℕ), wrapDown l = some l' ∧ l'.Fin ∧ l'.val ≤ P ∧ ((k = 0 ∧ l' = l) ∨ (-P ≤ l'.val ∧ 5 * (k : ℝ) ≤ l.val + 2)) ∧
      |l'.val - (l.val - k * (2 * P))| ≤ k * (B / 2 ^ 53) ∧ |l'.val| ≤ B := by
  obtain ⟨n, hn⟩ := exists_nat_gt (l.val / 5)
  have hn' : l.val < n * 5 := by rwa [div_lt_iff₀ (by norm_num)] at hn
  clear hn
  obtain ⟨p1, p2⟩ := P_bounds
  have np1 := pi_val.1
  obtain ⟨t1, t2⟩ := two_pi_eq
  induction n generalizing l with
  | zero =>
    refine ⟨l, 0, ?_, hl, ?_, Or.inl ⟨rfl, rfl⟩, by simp, hb⟩
    · rw [wrapDown, whileLoop_false]
      have : ¬ (flt F64.pi l = true) := by
        rw [flt_fin np1 hl]; simp at hn'; linarith
      simpa using this
    · simp at hn'; linarith
  | succ n ih =>
    by_cases hc : l.val ≤ P
    · refine ⟨l, 0, ?_, hl, hc, Or.inl ⟨rfl, rfl⟩, by simp, hb⟩
      rw [wrapDown, whileLoop_false]
      have : ¬ (flt F64.pi l = true) := by
        rw [flt_fin np1 hl]; linarith
      simpa using this
    · have hc := not_le.mp hc
      have hstep : wrapDown l = wrapDown (sub l TWO_PI) := by
        rw [wrapDown, whileLoop_true]
        · rfl
        · show flt F64.pi l = true
          rw [flt_fin np1 hl]; exact hc
      have hr := sub_rounds hl t1
      rw [t2] at hr
      have hb' := abs_le.mp hb
      have habs : |l.val - 2 * P| ≤ B := by rw [abs_le]; constructor <;> linarith
      have hfin := (hr.pow (e := 51) (by norm_num) (le_trans habs hB)).1
      have herr := hr.err_le hfin (B := B) (le_trans (by norm_num) hB8) habs
      have hge := hr.ge hfin (isRep_neg (isRep_val pi_val.1)) (by linarith)
      have hsmall : B / 2 ^ 53 ≤ 1 / 4 := by rw [div_le_iff₀ (by norm_num)]; linarith
      have he := abs_le.mp herr
      obtain ⟨l', k, h1, h2, h3, h4, h5, h6⟩ := ih (sub l TWO_PI) hfin (by rw [abs_le]; constructor <;> linarith)
        (by push_cast at hn'; linarith)
      refine ⟨l', k + 1, by rw [hstep, h1], h2, h3, Or.inr ?_, ?_, h6⟩
      · rcases h4 with ⟨rfl, rfl⟩ | ⟨h4, h4'⟩
        · exact ⟨hge, by push_cast; linarith⟩
        · exact ⟨h4, by push_cast; linarith⟩
      · have e : l'.val - (l.val - ((k + 1 : ℕ) : ℝ) * (2 * P)) =
            (l'.val - ((sub l TWO_PI).val - k * (2 * P))) + ((sub l TWO_PI).val - (l.val - 2 * P)) := by push_cast; ring
        rw [e]
        refine le_trans (abs_add_le _ _) ?_
        push_cast
        linarith

/-! ### The latitude -/

omit [Libm] in
theorem mk_fin {n : ℕ} {h : Sig n} (hf : (mk false n h).Fin) : ∃ hr, mk false n h = .fin false n hr := by
  unfold mk at hf ⊢
  by_cases hlt : n < topN
  · rw [dif_pos hlt]; exact ⟨⟨hlt, h⟩, rfl⟩
  · rw [dif_neg hlt] at hf; exact absurd hf (not_fin_inf _)

omit [Libm] in
/-- sign bit clear, finite -/
theorem sign_sq {x : F64} (hx : x.Fin) (hf : (mul x x).Fin) : ∃ n h, mul x x = .fin false n h := by
  obtain ⟨a, m, hm, rfl⟩ := fin_cases hx
  have : mul (.fin a m hm) (.fin a m hm) = ofQ false (m * m) unitN := by simp only [mul, Bool.xor_self]
  rw [this] at hf ⊢
  obtain ⟨hr, e⟩ := mk_fin hf
  exact ⟨_, hr, e⟩

omit [Libm] in
theorem sign_add {x y : F64} (hx : ∃ n h, x = .fin false n h) (hy : ∃ n h, y = .fin false n h) (hf : (add x y).Fin) :
    ∃ n h, add x y = .fin false n h := by
  obtain ⟨m, hm, rfl⟩ := hx
  obtain ⟨n, hn, rfl⟩ := hy
  have e : add (.fin false m hm) (.fin false n hn) =
      if ((m : ℤ) + n) = 0 then zero false else ofQ (decide ((m : ℤ) + n < 0)) ((m : ℤ) + n).natAbs 1 := by
    simp only [add, sgn, Bool.false_eq_true, if_false, Bool.and_self]
  rw [e] at hf ⊢
  by_cases h0 : ((m : ℤ) + n) = 0
  · rw [if_pos h0]; exact ⟨0, rep_zero, rfl⟩
  · rw [if_neg h0] at hf ⊢
    rw [show decide ((m : ℤ) + n < 0) = false by simp; omega] at hf ⊢
    obtain ⟨hr, e⟩ := mk_fin hf
    exact ⟨_, hr, e⟩

omit [Libm] in
theorem sign_sqrt {x : F64} (hx : ∃ n h, x = .fin false n h) (hf : (F64.sqrt x).Fin) : 0 < (F64.sqrt x).val ∨ F64.sqrt x = zero false := by
  obtain ⟨m, hm, rfl⟩ := hx
  have e : F64.sqrt (.fin false m hm) = if m = 0 then zero false else mk false (roundSqrt (m * unitN)) (sig_roundSqrt _) := by
    simp only [F64.sqrt, Bool.false_eq_true, if_false]
  rw [e] at hf ⊢
  by_cases h0 : m = 0
  · rw [if_pos h0]; exact Or.inr rfl
  · rw [if_neg h0] at hf ⊢
    obtain ⟨hr, e⟩ := mk_fin hf
    rw [e]
    by_cases hz : roundSqrt (m * unitN) = 0
    · right
      unfold zero
      simp only [hz]
    · left
      rw [val_fin, sgn, if_neg (by decide)]
      exact div_pos (by exact_mod_cast Nat.pos_of_ne_zero hz) unit_pos

omit [Libm] in
/-- the distance from the axis, as a double -/
theorem axis_dist {x y : F64} (hx : Bd x 450) (hy : Bd y 450) :
    Bd (F64.sqrt (add (mul x x) (mul y y))) 901 ∧ (0 < (F64.sqrt (add (mul x x) (mul y y))).val ∨ F64.sqrt (add (mul x x) (mul y y)) = zero false) := by
  have b1 := hx.mul hx (by norm_num)
  have b2 := hy.mul hy (by norm_num)
  have b3 := b1.add b2 (by norm_num)
  have s := sign_add (sign_sq hx.1 b1.1) (sign_sq hy.1 b2.1) b3.1
  have h0 : 0 ≤ (add (mul x x) (mul y y)).val := by
    obtain ⟨n, h, e⟩ := s
    rw [e, val_fin, sgn, if_neg (by decide)]
    have := unit_pos
    exact div_nonneg (by exact_mod_cast Nat.zero_le n) this.le
  have hf := sqrt_fin b3.1 h0
  refine ⟨?_, sign_sqrt s hf.1⟩
  refine (sqrt_rounds b3.1 h0).pow (by norm_num) ?_
  rw [abs_of_nonneg (Real.sqrt_nonneg _), Real.sqrt_le_left (by positivity)]
  refine le_trans (le_trans (le_abs_self _) b3.2) ?_
  exact le_self_pow₀ (one_le_pow₀ (by norm_num)) (by norm_num)

/-- the literal expression of `E2` -/
def e2lit : F64 :=
  sub (mul (sci 20 true 1) (div (sub (sci 6378137 true 3) (sci 63567523142 true 7)) (sci 6378137 true 3)))
    (mul (div (sub (sci 6378137 true 3) (sci 63567523142 true 7)) (sci 6378137 true 3))
      (div (sub (sci 6378137 true 3) (sci 63567523142 true 7)) (sci 6378137 true 3)))

omit [Libm] in
theorem e2lit_facts : e2lit.Fin ∧ 0 ≤ e2lit.val ∧ e2lit.val ≤ 1 / 4 := by
  have h1 : e2lit.Fin := by decide +kernel
  have h2 : fle (sci 0 true 1) e2lit = true := by decide +kernel
  have h3 : fle e2lit (sci 25 true 2) = true := by decide +kernel
  have q := sci_dyadic (m := 25) (s := true) (k := 2) 1 2 (by norm_num) (by norm_num) (by norm_num)
  rw [fle_fin lit_zero.1 h1, lit_zero.2] at h2
  rw [fle_fin h1 q.1, q.2] at h3
  exact ⟨h1, h2, by norm_num at h3; linarith⟩

theorem ellE2_f64 : (ellE2 : F64) = e2lit := rfl

/-- One latitude step from a finite latitude gives again a finite latitude, in `[-π/2, π/2]`. -/
theorem latStep_f64 (hL : Libm.Faithful) {z r : F64} (hz : Bd z 450) (hr : r.Fin) (hr0 : 0 < r.val ∨ r = zero false) (st : F64 × F64)
    (h : st.1.Fin) : (latStep z r st).1.Fin ∧ |(latStep z r st).1.val| ≤ F64.fracPi2.val := by
  obtain ⟨s1, s2, -⟩ := hL.sin_fin st.1 h
  have bs : Bd (Libm.sin st.1) 0 := ⟨s1, by simpa using s2⟩
  obtain ⟨e1, e2, e3⟩ := e2lit_facts
  have be : Bd e2lit 0 := ⟨e1, by rw [abs_of_nonneg e2]; norm_num; linarith⟩
  have one : Bd (sci 10 true 1) 0 := ⟨lit_one.1, by rw [lit_one.2]; norm_num⟩
  -- the denominator is between 1/2 and 2
  have hsq := bs.mul bs (by norm_num)
  have hm := mul_rounds e1 hsq.1
  have hm' : |e2lit.val * (mul (Libm.sin st.1) (Libm.sin st.1)).val| ≤ 1 / 2 := by
    rw [abs_mul, abs_of_nonneg e2]
    have h1 := hsq.2
    simp only [Nat.add_zero, pow_zero] at h1
    nlinarith [abs_nonneg (mul (Libm.sin st.1) (Libm.sin st.1)).val]
  have half : IsRep (1 / 2 : ℝ) := by simpa using isRep_pow_neg 1 (by norm_num)
  have hmb := hm.between (isRep_neg half) half (abs_le.mp hm').1 (abs_le.mp hm').2
  have hd := sub_rounds lit_one.1 hmb.1
  have hdb := hd.between half (isRep_int 2 (by norm_num)) (by rw [lit_one.2]; linarith) (by rw [lit_one.2]; push_cast; linarith)
  have hc := div_rounds lit_one.1 hdb.1 (by linarith)
  have bc : Bd (div (sci 10 true 1) (sub (sci 10 true 1) (mul e2lit (mul (Libm.sin st.1) (Libm.sin st.1))))) 1 := by
    refine hc.pow (by norm_num) ?_
    rw [lit_one.2, abs_div, abs_one, abs_of_pos (by linarith), div_le_iff₀ (by linarith)]
    linarith
  have bA : Bd (sci 6378137 true 3) 13 := bd_sci _ _ _ _ (by norm_num) (by norm_num)
  have p1 := bA.mul bc (by norm_num)
  have p2 := p1.mul be (by norm_num)
  have p3 := p2.mul bs (by norm_num)
  have p4 := hz.add (p3.mono (by norm_num)) (by norm_num)
  exact ⟨(hL.atan2_fin _ _ p4.1 hr).1, hL.atan2_half _ _ p4.1 hr hr0⟩

theorem latLoop_f64 (hL : Libm.Faithful) {z r : F64} (hz : Bd z 450) (hr : r.Fin) (hr0 : 0 < r.val ∨ r = zero false) (n : ℕ) (st : F64 × F64)
    (h : st.1.Fin) : (latLoop z r (n + 1) st).1.Fin ∧ |(latLoop z r (n + 1) st).1.val| ≤ F64.fracPi2.val := by
  induction n generalizing st with
  | zero => exact latStep_f64 hL hz hr hr0 st h
  | succ n ih =>
    rw [latLoop]
    exact ih _ (latStep_f64 hL hz hr hr0 st h).1

/-- **C41 in doubles.**  For every finite position (components up to `2^450`) and every finite sidereal angle up to `2^50`,
`eci_to_geodedic` returns; the longitude is a double from `-π` to `π`, the latitude one from `-π/2` to `π/2`, and the longitude agrees
modulo a whole number of turns with `atan2(y,x) - gmst` up to the stated accumulated rounding. -/
theorem C41_f64 (hL : Libm.Faithful) (p : Vec3 F64) (gmst : F64) (hx : Bd p.x 450) (hy : Bd p.y 450) (hz : Bd p.z 450)
    (hg : gmst.Fin) (hgb : |gmst.val| ≤ 2 ^ 50) :
    ∃ g, eci_to_geodedic p gmst = some g ∧
      g.longitude.Fin ∧ |g.longitude.val| ≤ P ∧ g.latitude.Fin ∧ |g.latitude.val| ≤ F64.fracPi2.val ∧
      ((p.y.val ≠ 0 ∨ p.x.val ≠ 0) → ∃ k : ℤ, |g.longitude.val - (atan2R p.y.val p.x.val - gmst.val + k * (2 * Real.pi))| ≤
        (|gmst.val| + 11) ^ 2 / 2 ^ 52 + 1 / 2 ^ 48) := by
  obtain ⟨a1, a2⟩ := hL.atan2_fin p.y p.x hy.1 hx.1
  obtain ⟨p1, p2⟩ := P_bounds
  set G := |gmst.val| with hG
  have hG0 : 0 ≤ G := abs_nonneg _
  have hr := sub_rounds a1 hg
  have hraw : |(Libm.atan2 p.y p.x).val - gmst.val| ≤ G + 4 := by
    have := abs_sub (Libm.atan2 p.y p.x).val gmst.val
    linarith
  have f0 := (hr.pow (e := 51) (by norm_num) (le_trans hraw (by
    have : (4 : ℝ) ≤ 2 ^ 50 := by norm_num
    rw [pow_succ]; linarith))).1
  have e0 := hr.err_le f0 (B := G + 4) (by
    have : (1 : ℝ) / 2 ^ 100 ≤ 4 := by norm_num
    linarith) hraw
  have hBsmall : (G + 8) / 2 ^ 53 ≤ 1 := by
    rw [div_le_one (by positivity)]
    have : (8 : ℝ) ≤ 2 ^ 50 := by norm_num
    have h2 : (2 : ℝ) ^ 53 = 2 ^ 50 * 8 := by norm_num
    linarith
  have hB1 : (G + 4) / 2 ^ 53 ≤ (G + 8) / 2 ^ 53 := by gcongr; linarith
  have b0 : |(sub (Libm.atan2 p.y p.x) gmst).val| ≤ G + 8 := by
    have := abs_add_le ((sub (Libm.atan2 p.y p.x) gmst).val - ((Libm.atan2 p.y p.x).val - gmst.val)) ((Libm.atan2 p.y p.x).val - gmst.val)
    rw [sub_add_cancel] at this
    linarith
  have hB51 : G + 8 ≤ 2 ^ 51 := by
    have : (8 : ℝ) ≤ 2 ^ 50 := by norm_num
    rw [pow_succ]; linarith
  obtain ⟨l1, k1, u1, u2, u3, u4, u5, u6⟩ := wrapUp_f64 (G + 8) (by linarith) hB51 _ f0 b0
  obtain ⟨l2, k2, d1, d2, d3, d4, d5, d6⟩ := wrapDown_f64 (G + 8) (by linarith) hB51 l1 u2 u6
  have hr' := axis_dist hx hy
  -- the latitude
  have hlat0 := hL.atan2_fin p.z _ hz.1 hr'.1.1
  have hlat := latLoop_f64 hL hz hr'.1.1 hr'.2 19 (Libm.atan2 p.z (F64.sqrt (add (mul p.x p.x) (mul p.y p.y))), sci 0 true 1) hlat0.1
  refine ⟨⟨l2, (latLoop p.z (F64.sqrt (add (mul p.x p.x) (mul p.y p.y))) 20
      (Libm.atan2 p.z (F64.sqrt (add (mul p.x p.x) (mul p.y p.y))), sci 0 true 1)).1, ?_⟩, ?_, d2, ?_, hlat.1, hlat.2, ?_⟩
  rotate_left
  · unfold eci_to_geodedic
    dsimp only
    rw [f64_sub, f64_atan2, u1]
    dsimp only
    rw [d1]
    rfl
  · dsimp only
    rw [abs_le]
    refine ⟨?_, d3⟩
    rcases d4 with ⟨-, rfl⟩ | ⟨h, -⟩
    · exact u3
    · exact h
  · intro hne
    obtain ⟨k, hk⟩ := hL.atan2_acc p.y p.x hy.1 hx.1 hne
    refine ⟨k + k1 - k2, ?_⟩
    -- the number of turns
    have hb0 := abs_le.mp b0
    have hu6 := abs_le.mp u6
    have hk1 : 5 * (k1 : ℝ) ≤ G + 10 := by
      rcases u4 with ⟨h, -⟩ | ⟨-, h⟩
      · rw [h]; push_cast; linarith
      · linarith
    have hk2 : 5 * (k2 : ℝ) ≤ G + 10 := by
      rcases d4 with ⟨h, -⟩ | ⟨-, h⟩
      · rw [h]; push_cast; linarith
      · linarith
    have hpi : |2 * P - 2 * Real.pi| ≤ 1 / 2 ^ 51 := by
      rw [pi_val.2]
      have h1 := Real.pi_gt_d20
      have h2 := Real.pi_lt_d20
      rw [abs_le]
      constructor
      · have : (2 : ℝ) * 3.14159265358979323847 - 1 / 2 ^ 51 ≤ 2 * (884279719003555 / 2 ^ 48) := by norm_num
        linarith
      · have : (2 : ℝ) * (884279719003555 / 2 ^ 48) ≤ 2 * 3.14159265358979323846 + 1 / 2 ^ 51 := by norm_num
        linarith
    have e : l2.val - (atan2R p.y.val p.x.val - gmst.val + ((k + k1 - k2 : ℤ) : ℝ) * (2 * Real.pi)) =
        (l2.val - (l1.val - k2 * (2 * P))) + (l1.val - ((sub (Libm.atan2 p.y p.x) gmst).val + k1 * (2 * P))) +
        ((sub (Libm.atan2 p.y p.x) gmst).val - ((Libm.atan2 p.y p.x).val - gmst.val)) +
        ((Libm.atan2 p.y p.x).val - (atan2R p.y.val p.x.val + k * (2 * Real.pi))) + ((k1 : ℝ) - k2) * (2 * P - 2 * Real.pi) := by
      push_cast; ring
    have hkk : |((k1 : ℝ) - k2) * (2 * P - 2 * Real.pi)| ≤ (k1 + k2) * (1 / 2 ^ 51) := by
      rw [abs_mul]
      refine mul_le_mul ?_ hpi (abs_nonneg _) (by positivity)
      have := abs_sub (k1 : ℝ) k2
      rwa [Nat.abs_cast, Nat.abs_cast] at this
    dsimp only
    rw [e]
    have t1 := abs_add_le (l2.val - (l1.val - k2 * (2 * P))) (l1.val - ((sub (Libm.atan2 p.y p.x) gmst).val + k1 * (2 * P)))
    have t2 := abs_add_le ((l2.val - (l1.val - k2 * (2 * P))) + (l1.val - ((sub (Libm.atan2 p.y p.x) gmst).val + k1 * (2 * P))))
      ((sub (Libm.atan2 p.y p.x) gmst).val - ((Libm.atan2 p.y p.x).val - gmst.val))
    have t3 := abs_add_le ((l2.val - (l1.val - k2 * (2 * P))) + (l1.val - ((sub (Libm.atan2 p.y p.x) gmst).val + k1 * (2 * P))) +
      ((sub (Libm.atan2 p.y p.x) gmst).val - ((Libm.atan2 p.y p.x).val - gmst.val)))
      ((Libm.atan2 p.y p.x).val - (atan2R p.y.val p.x.val + k * (2 * Real.pi)))
    refine le_trans (abs_add_le _ _) ?_
    have hsum : (k1 : ℝ) * ((G + 8) / 2 ^ 53) + k2 * ((G + 8) / 2 ^ 53) + (G + 4) / 2 ^ 53 + (k1 + k2) * (1 / 2 ^ 51) ≤ (G + 11) ^ 2 / 2 ^ 52 := by
      have e1 : (k1 : ℝ) * ((G + 8) / 2 ^ 53) + k2 * ((G + 8) / 2 ^ 53) + (G + 4) / 2 ^ 53 + (k1 + k2) * (1 / 2 ^ 51) =
          ((k1 + k2) * (G + 12) + (G + 4)) / 2 ^ 53 := by ring
      rw [e1, show (2 : ℝ) ^ 53 = 2 ^ 52 * 2 by norm_num, ← div_div, div_right_comm]
      refine div_le_div_of_nonneg_right ?_ (by positivity)
      have : ((k1 : ℝ) + k2) * (G + 12) ≤ (2 * (G + 10) / 5) * (G + 12) := mul_le_mul_of_nonneg_right (by linarith) (by linarith)
      nlinarith
    linarith

/-! ### Angles for which the loops never exit -/

omit [Libm] in
theorem rep_2p57 : Rep (2 ^ 1131) := by
  refine ⟨?_, ?_⟩
  · rw [topN_eq]; exact Nat.pow_lt_pow_right (by norm_num) (by norm_num)
  · have := sig_mul_pow 1 1131 (by norm_num); simpa using this

omit [Libm] in
theorem stuck_57 : add (.fin true (2 ^ 1131) rep_2p57) (mul F64.pi (sci 20 true 1)) = .fin true (2 ^ 1131) rep_2p57 ∧
    sub (.fin false (2 ^ 1131) rep_2p57) (mul F64.pi (sci 20 true 1)) = .fin false (2 ^ 1131) rep_2p57 := by decide +kernel

omit [Libm] in
/-- a double of magnitude at least `2^57` is a multiple of 32 -/
theorem grid32 {a : Bool} {n : ℕ} {hn : Rep n} (h : (2 : ℝ) ^ 57 ≤ |(F64.fin a n hn).val|) : ∃ m : ℕ, 2 ^ 52 ≤ m ∧
    (F64.fin a n hn).val = (if a then -1 else 1) * (m * 32) ∧ (m = 2 ^ 52 → n = 2 ^ 1131) := by
  rw [abs_fin, le_div_iff₀ unit_pos, unit_eq, ← pow_add] at h
  have h1 : 2 ^ 1131 ≤ n := by exact_mod_cast h
  obtain ⟨m, hm⟩ := sig_dvd (e := 1079) hn.2 (by simpa using h1)
  refine ⟨m, ?_, ?_, ?_⟩
  rotate_left
  · rw [val_fin, unit_eq]
    have h79 : (2 : ℝ) ^ 1079 = 2 ^ 1074 * 32 := by rw [show (1079 : ℕ) = 1074 + 5 from rfl, pow_add]; norm_num
    have hp : (0 : ℝ) < 2 ^ 1074 := by positivity
    have hnR : (n : ℝ) = 2 ^ 1079 * m := by exact_mod_cast congrArg (Nat.cast (R := ℝ)) hm
    rw [h79] at hnR
    rw [div_eq_iff hp.ne']
    cases a
    · rw [sgn, if_neg (by decide), if_neg (by decide), Int.cast_natCast, hnR]; ring
    · rw [sgn, if_pos rfl, if_pos rfl, Int.cast_neg, Int.cast_natCast, hnR]; ring
  · intro h52; rw [hm, h52, ← pow_add]
  by_contra hc
  have : n < 2 ^ 1131 := by
    rw [hm, show (2 : ℕ) ^ 1131 = 2 ^ 1079 * 2 ^ 52 by rw [← pow_add]]
    exact Nat.mul_lt_mul_of_pos_left (not_le.mp hc) (by positivity)
  omega

omit [Libm] in
theorem isRep_57 : IsRep ((2 : ℝ) ^ 57) := by simpa using isRep_int_pow 1 57 (by norm_num) (by norm_num)

/-- Longitudes at or beyond `-2^57` never move above it. -/
theorem stuck_up (l : F64) (h : l = .inf true ∨ (l.Fin ∧ l.val ≤ -2 ^ 57)) :
    add l TWO_PI = .inf true ∨ ((add l TWO_PI).Fin ∧ (add l TWO_PI).val ≤ -2 ^ 57) := by
  rcases h with rfl | ⟨hf, hv⟩
  · left
    obtain ⟨a, n, hn, e⟩ := fin_cases two_pi_eq.1
    rw [e]; rfl
  · obtain ⟨t1, t2⟩ := two_pi_eq
    obtain ⟨p1, p2⟩ := P_bounds
    have hr := add_rounds hf t1
    rw [t2] at hr
    have hpos : (0 : ℝ) < 2 ^ 57 := by positivity
    have hgen : l.val ≤ -2 ^ 57 - 32 ∨ l.val = -2 ^ 57 := by
      obtain ⟨a, n, hn, rfl⟩ := fin_cases hf
      obtain ⟨m, hm, hval, hmn⟩ := grid32 (hn := hn) (by rw [abs_of_neg (by linarith)]; linarith)
      rw [hval] at hv ⊢
      have hm' : ((2 ^ 52 : ℕ) : ℝ) ≤ m := by exact_mod_cast hm
      push_cast at hm'
      have e57 : (2 : ℝ) ^ 57 = 2 ^ 52 * 32 := by norm_num
      cases a
      · rw [if_neg (by decide)] at hv; linarith
      · rw [if_pos rfl, e57]
        rcases Nat.eq_or_lt_of_le hm with h | h
        · right; rw [← h]; norm_num
        · left
          have : ((2 ^ 52 + 1 : ℕ) : ℝ) ≤ m := by exact_mod_cast h
          push_cast at this
          linarith
    rcases hgen with h | h
    · have hup := hr.upper
      obtain ⟨d, hd, hdv⟩ := isRep_neg isRep_57
      have h1 := hup d hd (by rw [hdv]; linarith)
      cases hx : add l TWO_PI with
      | nan => exact absurd hx hr.not_nan
      | inf a =>
        cases a
        · rw [hx] at h1
          obtain ⟨b, n, hn, rfl⟩ := fin_cases hd
          cases h1
        · exact Or.inl rfl
      | fin a n hn =>
        right
        rw [hx] at h1
        have := (fle_fin (show (F64.fin a n hn).Fin from trivial) hd).mp h1
        rw [hdv] at this
        exact ⟨trivial, this⟩
    · have : l = .fin true (2 ^ 1131) rep_2p57 := by
        obtain ⟨a, n, hn, rfl⟩ := fin_cases hf
        obtain ⟨m, hm, hval, hmn⟩ := grid32 (hn := hn) (by rw [abs_of_neg (by linarith)]; linarith)
        rw [hval] at h
        have e57 : (2 : ℝ) ^ 57 = 2 ^ 52 * 32 := by norm_num
        cases a
        · rw [if_neg (by decide)] at h
          have : (0 : ℝ) ≤ m := Nat.cast_nonneg m
          linarith
        · rw [if_pos rfl, e57] at h
          have : (m : ℝ) = ((2 ^ 52 : ℕ) : ℝ) := by push_cast; linarith
          have hm2 : m = 2 ^ 52 := by exact_mod_cast this
          simp only [hmn hm2]
      right
      have e : add l TWO_PI = l := by
        rw [this]; exact stuck_57.1
      rw [e]; exact ⟨hf, hv⟩

/-- Longitudes at or beyond `2^57` never move below it. -/
theorem stuck_down (l : F64) (h : l = .inf false ∨ (l.Fin ∧ 2 ^ 57 ≤ l.val)) :
    sub l TWO_PI = .inf false ∨ ((sub l TWO_PI).Fin ∧ 2 ^ 57 ≤ (sub l TWO_PI).val) := by
  rcases h with rfl | ⟨hf, hv⟩
  · left
    obtain ⟨a, n, hn, e⟩ := fin_cases two_pi_eq.1
    rw [e]; rfl
  · obtain ⟨t1, t2⟩ := two_pi_eq
    obtain ⟨p1, p2⟩ := P_bounds
    have hr := sub_rounds hf t1
    rw [t2] at hr
    have hpos : (0 : ℝ) < 2 ^ 57 := by positivity
    have hgen : 2 ^ 57 + 32 ≤ l.val ∨ l.val = 2 ^ 57 := by
      obtain ⟨a, n, hn, rfl⟩ := fin_cases hf
      obtain ⟨m, hm, hval, hmn⟩ := grid32 (hn := hn) (by rw [abs_of_pos (by linarith)]; linarith)
      rw [hval] at hv ⊢
      have hm' : ((2 ^ 52 : ℕ) : ℝ) ≤ m := by exact_mod_cast hm
      push_cast at hm'
      have e57 : (2 : ℝ) ^ 57 = 2 ^ 52 * 32 := by norm_num
      cases a
      · rw [if_neg (by decide), e57]
        rcases Nat.eq_or_lt_of_le hm with h | h
        · right; rw [← h]; norm_num
        · left
          have : ((2 ^ 52 + 1 : ℕ) : ℝ) ≤ m := by exact_mod_cast h
          push_cast at this
          linarith
      · rw [if_pos rfl] at hv; linarith
    rcases hgen with h | h
    · have hlo := hr.lower
      obtain ⟨d, hd, hdv⟩ := isRep_57
      have h1 := hlo d hd (by rw [hdv]; linarith)
      cases hx : sub l TWO_PI with
      | nan => exact absurd hx hr.not_nan
      | inf a =>
        cases a
        · exact Or.inl rfl
        · rw [hx] at h1
          obtain ⟨b, n, hn, rfl⟩ := fin_cases hd
          cases h1
      | fin a n hn =>
        right
        rw [hx] at h1
        have := (fle_fin hd (show (F64.fin a n hn).Fin from trivial)).mp h1
        rw [hdv] at this
        exact ⟨trivial, this⟩
    · have : l = .fin false (2 ^ 1131) rep_2p57 := by
        obtain ⟨a, n, hn, rfl⟩ := fin_cases hf
        obtain ⟨m, hm, hval, hmn⟩ := grid32 (hn := hn) (by rw [abs_of_pos (by linarith)]; linarith)
        rw [hval] at h
        have e57 : (2 : ℝ) ^ 57 = 2 ^ 52 * 32 := by norm_num
        cases a
        · rw [if_neg (by decide), e57] at h
          have : (m : ℝ) = ((2 ^ 52 : ℕ) : ℝ) := by push_cast; linarith
          have hm2 : m = 2 ^ 52 := by exact_mod_cast this
          simp only [hmn hm2]
        · rw [if_pos rfl] at h
          have : (0 : ℝ) ≤ m := Nat.cast_nonneg m
          linarith
      right
      have e : sub l TWO_PI = l := by
        rw [this]; exact stuck_57.2
      rw [e]; exact ⟨hf, hv⟩

/-- **C41, the excluded angles**: for an infinite sidereal angle, or a finite one of magnitude `2^58` or more, `eci_to_geodedic` never
returns, whatever the position. -/
theorem C41_violated_never_returns (hL : Libm.Faithful) (p : Vec3 F64) (gmst : F64) (hx : p.x.Fin) (hy : p.y.Fin)
    (hg : (∃ a, gmst = .inf a) ∨ (gmst.Fin ∧ 2 ^ 58 ≤ |gmst.val|)) : eci_to_geodedic p gmst = none := by
  obtain ⟨a1, a2⟩ := hL.atan2_fin p.y p.x hy hx
  obtain ⟨p1, p2⟩ := P_bounds
  have a2' := abs_le.mp a2
  have hpi := neg_val pi_val.1
  have e58 : (2 : ℝ) ^ 58 = 2 ^ 57 + 2 ^ 57 := by norm_num
  have e4 : (4 : ℝ) ≤ 2 ^ 57 := by norm_num
  -- where the first subtraction leads
  have hstart : (sub (Libm.atan2 p.y p.x) gmst = .inf true ∨ ((sub (Libm.atan2 p.y p.x) gmst).Fin ∧ (sub (Libm.atan2 p.y p.x) gmst).val ≤ -2 ^ 57)) ∨
      (sub (Libm.atan2 p.y p.x) gmst = .inf false ∨ ((sub (Libm.atan2 p.y p.x) gmst).Fin ∧ 2 ^ 57 ≤ (sub (Libm.atan2 p.y p.x) gmst).val)) := by
    rcases hg with ⟨a, rfl⟩ | ⟨hf, hb⟩
    · obtain ⟨b, n, hn, e⟩ := fin_cases a1
      rw [e]
      cases a
      · exact Or.inl (Or.inl rfl)
      · exact Or.inr (Or.inl rfl)
    · have hr := sub_rounds a1 hf
      generalize sub (Libm.atan2 p.y p.x) gmst = l at *
      obtain ⟨d, hd, hdv⟩ := isRep_57
      obtain ⟨d', hd', hdv'⟩ := isRep_neg isRep_57
      rcases le_abs.mp hb with h | h
      · left
        have h1 := hr.upper d' hd' (by rw [hdv']; linarith)
        cases l with
        | nan => exact absurd rfl hr.not_nan
        | inf a =>
          cases a
          · obtain ⟨b, n, hn, rfl⟩ := fin_cases hd'
            cases h1
          · exact Or.inl rfl
        | fin a n hn =>
          have := (fle_fin (show (F64.fin a n hn).Fin from trivial) hd').mp h1
          exact Or.inr ⟨trivial, by rw [hdv'] at this; exact this⟩
      · right
        have h1 := hr.lower d hd (by rw [hdv]; linarith)
        cases l with
        | nan => exact absurd rfl hr.not_nan
        | inf a =>
          cases a
          · exact Or.inl rfl
          · obtain ⟨b, n, hn, rfl⟩ := fin_cases hd
            cases h1
        | fin a n hn =>
          have := (fle_fin hd (show (F64.fin a n hn).Fin from trivial)).mp h1
          exact Or.inr ⟨trivial, by rw [hdv] at this; exact this⟩
  unfold eci_to_geodedic
  dsimp only
  rw [f64_sub, f64_atan2]
  generalize sub (Libm.atan2 p.y p.x) gmst = l at *
  rcases hstart with h | h
  · have : wrapUp l = none := by
      rw [wrapUp, whileLoop_none_iff]
      have inv : ∀ k, iterate (fun l : F64 => l + TWO_PI) k l = .inf true ∨ ((iterate (fun l : F64 => l + TWO_PI) k l).Fin ∧
          (iterate (fun l : F64 => l + TWO_PI) k l).val ≤ -2 ^ 57) := by
        intro k
        induction k with
        | zero => exact h
        | succ k ih => rw [iterate_succ']; exact stuck_up _ ih
      intro k
      rcases inv k with h' | ⟨h', h''⟩
      · rw [h']
        obtain ⟨b, n, hn, e⟩ := fin_cases hpi.1
        show flt (.inf true) (neg F64.pi) = true
        rw [e]; rfl
      · show flt _ (neg F64.pi) = true
        rw [flt_fin h' hpi.1, hpi.2]; linarith
    rw [this]
  · have hup : wrapUp l = some l := by
      rw [wrapUp, whileLoop_false]
      rcases h with rfl | ⟨h1, h2⟩
      · show flt (.inf false) (neg F64.pi) = false
        obtain ⟨b, n, hn, e⟩ := fin_cases hpi.1
        rw [e]; rfl
      · have : ¬ (flt l (neg F64.pi) = true) := by rw [flt_fin h1 hpi.1, hpi.2]; linarith
        simpa using this
    rw [hup]
    have : wrapDown l = none := by
      rw [wrapDown, whileLoop_none_iff]
      have inv : ∀ k, iterate (fun l : F64 => l - TWO_PI) k l = .inf false ∨ ((iterate (fun l : F64 => l - TWO_PI) k l).Fin ∧
          2 ^ 57 ≤ (iterate (fun l : F64 => l - TWO_PI) k l).val) := by
        intro k
        induction k with
        | zero => exact h
        | succ k ih => rw [iterate_succ']; exact stuck_down _ ih
      intro k
      rcases inv k with h' | ⟨h', h''⟩
      · rw [h']
        obtain ⟨b, n, hn, e⟩ := fin_cases pi_val.1
        show flt F64.pi (.inf false) = true
        rw [e]; rfl
      · show flt F64.pi _ = true
        rw [flt_fin pi_val.1 h']; linarith
    dsimp only
    rw [this]

/-! ## Look angles -/

/-- **C43 in doubles**: for every finite topocentric vector (components up to `2^450`, one of them at least `2^-511`) range, elevation and
azimuth are numbers, the range is not negative, the elevation is between `-π/2` and `π/2` and the azimuth between 0 and `2π` (as doubles). -/
theorem C43_f64_ranges (hL : Libm.Faithful) (tc : TopoCentric F64) (hs : Bd tc.top_s 450) (he : Bd tc.top_e 450) (hz : Bd tc.top_z 450)
    (hbig : 1 / 2 ^ 511 ≤ |tc.top_s.val| ∨ 1 / 2 ^ 511 ≤ |tc.top_e.val| ∨ 1 / 2 ^ 511 ≤ |tc.top_z.val|) :
    (topocentric_to_look_angles tc).range.Fin ∧ 0 ≤ (topocentric_to_look_angles tc).range.val ∧
    (topocentric_to_look_angles tc).elevation.Fin ∧ |(topocentric_to_look_angles tc).elevation.val| ≤ F64.fracPi2.val ∧
    (topocentric_to_look_angles tc).azimuth.Fin ∧ 0 ≤ (topocentric_to_look_angles tc).azimuth.val ∧
    (topocentric_to_look_angles tc).azimuth.val ≤ (TWO_PI : F64).val := by
  obtain ⟨a, ha, hf, h1, h2⟩ := C44_asin_argument tc hs.1 he.1 hz.1 hbig
  obtain ⟨e1, e2, -⟩ := hL.asin_fin a hf (abs_le.mpr ⟨h1, h2⟩)
  have n := neg_val he.1
  obtain ⟨t1, t2⟩ := hL.atan2_fin (neg tc.top_e) tc.top_s n.1 hs.1
  have hr := add_rounds t1 pi_val.1
  have t2' := abs_le.mp t2
  have haz := hr.between isRep_zero (isRep_val two_pi_eq.1) (by linarith) (by rw [two_pi_eq.2]; linarith)
  have q1 := hs.mul hs (by norm_num)
  have q2 := he.mul he (by norm_num)
  have q3 := hz.mul hz (by norm_num)
  have q := (q1.add q2 (by norm_num)).add (q3.mono (by norm_num)) (by norm_num)
  have h0 : 0 ≤ (add (add (mul tc.top_s tc.top_s) (mul tc.top_e tc.top_e)) (mul tc.top_z tc.top_z)).val := by
    rcases (nonNeg_add (nonNeg_add (nonNeg_sq hs.1) (nonNeg_sq he.1)).1 (nonNeg_sq hz.1)).1 with h | h
    · rw [h] at q; exact absurd q.1 (not_fin_inf _)
    · exact h.2
  have hrange := sqrt_fin q.1 h0
  exact ⟨hrange.1, hrange.2, by rw [ha]; exact e1, by rw [ha]; exact e2, haz.1, haz.2.1, haz.2.2⟩

/-! ## C38 -/

omit [Libm] in
/-- `a p + b q` in doubles -/
theorem lin_add {a b p q : F64} {M : ℝ} (hM1 : 1 / 2 ^ 90 ≤ M) (hM2 : M ≤ 2 ^ 900) (ha : a.Fin) (hb : b.Fin) (hp : p.Fin) (hq : q.Fin)
    (ha' : |a.val| ≤ M) (hb' : |b.val| ≤ M) (hp' : |p.val| ≤ 1) (hq' : |q.val| ≤ 1) :
    (add (mul a p) (mul b q)).Fin ∧ |(add (mul a p) (mul b q)).val - (a.val * p.val + b.val * q.val)| ≤ 5 * M / 2 ^ 53 ∧
    (sub (mul a p) (mul b q)).Fin ∧ |(sub (mul a p) (mul b q)).val - (a.val * p.val - b.val * q.val)| ≤ 5 * M / 2 ^ 53 := by
  have hM0 : 0 < M := lt_of_lt_of_le (by positivity) hM1
  have hM3 : 1 / 2 ^ 100 ≤ M := le_trans (by norm_num) hM1
  have prod : ∀ c d : F64, c.Fin → d.Fin → |c.val| ≤ M → |d.val| ≤ 1 → (mul c d).Fin ∧ |(mul c d).val - c.val * d.val| ≤ M / 2 ^ 53 ∧
      |c.val * d.val| ≤ M := by
    intro c d hc hd hc' hd'
    have h1 : |c.val * d.val| ≤ M := by
      rw [abs_mul]; nlinarith [abs_nonneg c.val, abs_nonneg d.val]
    have hr := mul_rounds hc hd
    have hf := (hr.pow (e := 900) (by norm_num) (le_trans h1 hM2)).1
    exact ⟨hf, hr.err_le hf hM3 h1, h1⟩
  obtain ⟨m1, m2, m3⟩ := prod a p ha hp ha' hp'
  obtain ⟨n1, n2, n3⟩ := prod b q hb hq hb' hq'
  have small : M / 2 ^ 53 ≤ M / 4 := div_le_div_of_nonneg_left hM0.le (by norm_num) (by norm_num)
  have m2' := abs_le.mp m2
  have m3' := abs_le.mp m3
  have n2' := abs_le.mp n2
  have n3' := abs_le.mp n3
  have big : (3 : ℝ) * M ≤ 2 ^ 902 := by
    rw [show (2 : ℝ) ^ 902 = 2 ^ 900 * 4 by rw [show (902 : ℕ) = 900 + 2 from rfl, pow_add]; norm_num]
    have : (0 : ℝ) < 2 ^ 900 := by positivity
    generalize (2 : ℝ) ^ 900 = B at *
    linarith
  have hs : |(mul a p).val + (mul b q).val| ≤ 3 * M := by rw [abs_le]; constructor <;> linarith
  have hd : |(mul a p).val - (mul b q).val| ≤ 3 * M := by rw [abs_le]; constructor <;> linarith
  have r1 := add_rounds m1 n1
  have r2 := sub_rounds m1 n1
  have f1 := (r1.pow (e := 902) (by norm_num) (le_trans hs big)).1
  have f2 := (r2.pow (e := 902) (by norm_num) (le_trans hd big)).1
  have g1 := abs_le.mp (r1.err_le f1 (B := 3 * M) (by linarith) hs)
  have g2 := abs_le.mp (r2.err_le f2 (B := 3 * M) (by linarith) hd)
  have e5 : 5 * M / 2 ^ 53 = 3 * M / 2 ^ 53 + M / 2 ^ 53 + M / 2 ^ 53 := by ring
  refine ⟨f1, ?_, f2, ?_⟩
  · rw [abs_le, e5]; constructor <;> linarith
  · rw [abs_le, e5]; constructor <;> linarith

omit [Libm] in
/-- the algebra of turning there and back with approximate sine and cosine -/
theorem turn_back {x y c s C S x1 y1 x2 M : ℝ} (hC : S ^ 2 + C ^ 2 = 1) (hM : 0 ≤ M) (hx : |x| ≤ M) (hc : |c| ≤ 1) (hs : |s| ≤ 1)
    (hC1 : |C| ≤ 1) (hS1 : |S| ≤ 1) (h1 : |c - C| ≤ 1 / 2 ^ 48) (h2 : |s - S| ≤ 1 / 2 ^ 48)
    (hx1 : |x1 - (x * c - y * s)| ≤ 5 * M / 2 ^ 53) (hy1 : |y1 - (x * s + y * c)| ≤ 5 * M / 2 ^ 53)
    (hx2 : |x2 - (x1 * c + y1 * s)| ≤ 15 * M / 2 ^ 53) : |x2 - x| ≤ M / 2 ^ 45 := by
  have key : |c ^ 2 + s ^ 2 - 1| ≤ 4 / 2 ^ 48 := by
    have e1 : c ^ 2 + s ^ 2 - 1 = (c - C) * (c + C) + (s - S) * (s + S) := by linear_combination hC
    rw [e1]
    have b1 : |(c - C) * (c + C)| ≤ 1 / 2 ^ 48 * 2 := by
      rw [abs_mul]; exact mul_le_mul h1 (le_trans (abs_add_le _ _) (by linarith)) (abs_nonneg _) (by positivity)
    have b2 : |(s - S) * (s + S)| ≤ 1 / 2 ^ 48 * 2 := by
      rw [abs_mul]; exact mul_le_mul h2 (le_trans (abs_add_le _ _) (by linarith)) (abs_nonneg _) (by positivity)
    refine le_trans (abs_add_le _ _) ?_
    linarith
  have e2 : x2 - x = (x2 - (x1 * c + y1 * s)) + (x1 - (x * c - y * s)) * c + (y1 - (x * s + y * c)) * s + x * (c ^ 2 + s ^ 2 - 1) := by ring
  have b1 : |(x1 - (x * c - y * s)) * c| ≤ 5 * M / 2 ^ 53 * 1 := by
    rw [abs_mul]; exact mul_le_mul hx1 hc (abs_nonneg _) (by positivity)
  have b2 : |(y1 - (x * s + y * c)) * s| ≤ 5 * M / 2 ^ 53 * 1 := by
    rw [abs_mul]; exact mul_le_mul hy1 hs (abs_nonneg _) (by positivity)
  have b3 : |x * (c ^ 2 + s ^ 2 - 1)| ≤ M * (4 / 2 ^ 48) := by
    rw [abs_mul]; exact mul_le_mul hx key (abs_nonneg _) hM
  rw [e2]
  have t1 := abs_add_le ((x2 - (x1 * c + y1 * s)) + (x1 - (x * c - y * s)) * c + (y1 - (x * s + y * c)) * s) (x * (c ^ 2 + s ^ 2 - 1))
  have t2 := abs_add_le ((x2 - (x1 * c + y1 * s)) + (x1 - (x * c - y * s)) * c) ((y1 - (x * s + y * c)) * s)
  have t3 := abs_add_le (x2 - (x1 * c + y1 * s)) ((x1 - (x * c - y * s)) * c)
  have fin : 15 * M / 2 ^ 53 + 5 * M / 2 ^ 53 * 1 + 5 * M / 2 ^ 53 * 1 + M * (4 / 2 ^ 48) ≤ M / 2 ^ 45 := by
    norm_num at *; linarith
  linarith

/-- **C38 in doubles**: turning a vector with coordinates up to `M` to the other frame and back (in either order, any finite angle) changes each
coordinate by at most `M / 2^45`, and the third not at all. -/
theorem C38_f64_round_trip (hL : Libm.Faithful) (v : Vec3 F64) (g : F64) (M : ℝ) (hg : g.Fin) (hx : v.x.Fin) (hy : v.y.Fin)
    (hM1 : 1 / 2 ^ 80 ≤ M) (hM2 : M ≤ 2 ^ 890) (hxM : |v.x.val| ≤ M) (hyM : |v.y.val| ≤ M) :
    ((eci_to_ecf (ecf_to_eci v g) g).x.Fin ∧ |(eci_to_ecf (ecf_to_eci v g) g).x.val - v.x.val| ≤ M / 2 ^ 45 ∧
     (eci_to_ecf (ecf_to_eci v g) g).y.Fin ∧ |(eci_to_ecf (ecf_to_eci v g) g).y.val - v.y.val| ≤ M / 2 ^ 45 ∧
     (eci_to_ecf (ecf_to_eci v g) g).z = v.z) ∧
    ((ecf_to_eci (eci_to_ecf v g) g).x.Fin ∧ |(ecf_to_eci (eci_to_ecf v g) g).x.val - v.x.val| ≤ M / 2 ^ 45 ∧
     (ecf_to_eci (eci_to_ecf v g) g).y.Fin ∧ |(ecf_to_eci (eci_to_ecf v g) g).y.val - v.y.val| ≤ M / 2 ^ 45 ∧
     (ecf_to_eci (eci_to_ecf v g) g).z = v.z) := by
  have hM0 : 0 < M := lt_of_lt_of_le (by positivity) hM1
  obtain ⟨s1, s2, s3⟩ := hL.sin_fin g hg
  obtain ⟨c1, c2, c3⟩ := hL.cos_fin g hg
  obtain ⟨n1, n2⟩ := neg_val s1
  have n3 : |(neg (Libm.sin g)).val| ≤ 1 := by rw [n2, abs_neg]; exact s2
  have hCS := Real.sin_sq_add_cos_sq g.val
  have hC1 := Real.abs_cos_le_one g.val
  have hS1 := Real.abs_sin_le_one g.val
  have n4 : |(neg (Libm.sin g)).val - -Real.sin g.val| ≤ 1 / 2 ^ 48 := by
    rw [n2, show -(Libm.sin g).val - -Real.sin g.val = -((Libm.sin g).val - Real.sin g.val) by ring, abs_neg]; exact s3
  have hM1' : 1 / 2 ^ 90 ≤ M := le_trans (by norm_num) hM1
  have hM2' : M ≤ 2 ^ 900 := le_trans hM2 (pow_le_pow_right₀ (by norm_num) (by norm_num))
  have h3M1 : 1 / 2 ^ 90 ≤ 3 * M := by linarith
  have h3M2 : 3 * M ≤ 2 ^ 900 := by
    have h : (2 : ℝ) ^ 900 = 2 ^ 890 * 2 ^ 10 := by rw [← pow_add]
    have : (0 : ℝ) < 2 ^ 890 := by positivity
    rw [h]
    have h10 : (2 : ℝ) ^ 10 = 1024 := by norm_num
    rw [h10]
    clear h
    generalize (2 : ℝ) ^ 890 = B at *
    linarith
  -- magnitude after one turn
  have mag : ∀ a b p q w : ℝ, |a| ≤ M → |b| ≤ M → |p| ≤ 1 → |q| ≤ 1 → |w - (a * p + b * q)| ≤ 5 * M / 2 ^ 53 → |w| ≤ 3 * M := by
    intro a b p q w ha hb hp hq hw
    have h1 : |a * p| ≤ M := by rw [abs_mul]; nlinarith [abs_nonneg a, abs_nonneg p]
    have h2 : |b * q| ≤ M := by rw [abs_mul]; nlinarith [abs_nonneg b, abs_nonneg q]
    have h3 : 5 * M / 2 ^ 53 ≤ M := by rw [div_le_iff₀ (by norm_num)]; norm_num; linarith
    have h1' := abs_le.mp h1
    have h2' := abs_le.mp h2
    have hw' := abs_le.mp hw
    rw [abs_le]; constructor <;> linarith
  constructor
  · obtain ⟨-, -, x1f, x1e⟩ := lin_add hM1' hM2' hx hy c1 s1 hxM hyM c2 s2
    obtain ⟨y1f, y1e, -, -⟩ := lin_add hM1' hM2' hx hy s1 c1 hxM hyM s2 c2
    have x1m := mag _ _ (Libm.cos g).val (-(Libm.sin g).val) _ hxM hyM c2 (by rw [abs_neg]; exact s2)
      (by rw [mul_neg, ← sub_eq_add_neg]; exact x1e)
    have y1m := mag _ _ _ _ _ hxM hyM s2 c2 y1e
    obtain ⟨x2f, x2e, -, -⟩ := lin_add h3M1 h3M2 x1f y1f c1 s1 x1m y1m c2 s2
    obtain ⟨y2f, y2e, -, -⟩ := lin_add h3M1 h3M2 x1f y1f n1 c1 x1m y1m n3 c2
    refine ⟨x2f, ?_, y2f, ?_, rfl⟩
    · exact turn_back hCS hM0.le hxM c2 s2 hC1 hS1 c3 s3 x1e y1e (by rw [show 15 * M = 5 * (3 * M) by ring]; exact x2e)
    · refine turn_back (x := v.y.val) (y := v.x.val) (c := (Libm.cos g).val) (s := (neg (Libm.sin g)).val) (C := Real.cos g.val)
        (S := -Real.sin g.val) (x1 := (add (mul v.x (Libm.sin g)) (mul v.y (Libm.cos g))).val)
        (y1 := (sub (mul v.x (Libm.cos g)) (mul v.y (Libm.sin g))).val) (by rw [neg_sq]; exact hCS) hM0.le hyM c2 n3 hC1
        (by rw [abs_neg]; exact hS1) c3 n4 ?_ ?_ ?_
      · rw [n2, show v.y.val * (Libm.cos g).val - v.x.val * -(Libm.sin g).val = v.x.val * (Libm.sin g).val + v.y.val * (Libm.cos g).val by ring]
        exact y1e
      · rw [n2, show v.y.val * -(Libm.sin g).val + v.x.val * (Libm.cos g).val = v.x.val * (Libm.cos g).val - v.y.val * (Libm.sin g).val by ring]
        exact x1e
      · rw [show 15 * M = 5 * (3 * M) by ring]
        rw [add_comm]
        exact y2e
  · obtain ⟨x1f, x1e, -, -⟩ := lin_add hM1' hM2' hx hy c1 s1 hxM hyM c2 s2
    obtain ⟨y1f, y1e, -, -⟩ := lin_add hM1' hM2' hx hy n1 c1 hxM hyM n3 c2
    have x1m := mag _ _ _ _ _ hxM hyM c2 s2 x1e
    have y1m := mag _ _ _ _ _ hxM hyM n3 c2 y1e
    obtain ⟨-, -, x2f, x2e⟩ := lin_add h3M1 h3M2 x1f y1f c1 s1 x1m y1m c2 s2
    obtain ⟨y2f, y2e, -, -⟩ := lin_add h3M1 h3M2 x1f y1f s1 c1 x1m y1m s2 c2
    refine ⟨x2f, ?_, y2f, ?_, rfl⟩
    · refine turn_back (x := v.x.val) (y := v.y.val) (c := (Libm.cos g).val) (s := (neg (Libm.sin g)).val) (C := Real.cos g.val)
        (S := -Real.sin g.val) (x1 := (add (mul v.x (Libm.cos g)) (mul v.y (Libm.sin g))).val)
        (y1 := (add (mul v.x (neg (Libm.sin g))) (mul v.y (Libm.cos g))).val) (by rw [neg_sq]; exact hCS) hM0.le hxM c2 n3 hC1
        (by rw [abs_neg]; exact hS1) c3 n4 ?_ ?_ ?_
      · rw [n2, show v.x.val * (Libm.cos g).val - v.y.val * -(Libm.sin g).val = v.x.val * (Libm.cos g).val + v.y.val * (Libm.sin g).val by ring]
        exact x1e
      · exact y1e
      · rw [show 15 * M = 5 * (3 * M) by ring, n2, mul_neg, ← sub_eq_add_neg]
        exact x2e
    · refine turn_back (x := v.y.val) (y := v.x.val) (c := (Libm.cos g).val) (s := (Libm.sin g).val) (C := Real.cos g.val)
        (S := Real.sin g.val) (x1 := (add (mul v.x (neg (Libm.sin g))) (mul v.y (Libm.cos g))).val)
        (y1 := (add (mul v.x (Libm.cos g)) (mul v.y (Libm.sin g))).val) hCS hM0.le hyM c2 s2 hC1 hS1 c3 s3 ?_ ?_ ?_
      · rw [n2] at y1e
        rw [show v.y.val * (Libm.cos g).val - v.x.val * (Libm.sin g).val = v.x.val * -(Libm.sin g).val + v.y.val * (Libm.cos g).val by ring]
        exact y1e
      · rw [show v.y.val * (Libm.sin g).val + v.x.val * (Libm.cos g).val = v.x.val * (Libm.cos g).val + v.y.val * (Libm.sin g).val by ring]
        exact x1e
      · rw [show 15 * M = 5 * (3 * M) by ring, add_comm]
        exact y2e
end

/-! ### The hypotheses are met -/

theorem bd_7000 : Bd (sci 70000 true 1) 13 := bd_sci _ _ _ _ (by norm_num) (by norm_num)

/-- C41, C43 and C38 apply to a satellite 7000 km from the earth's centre and the sidereal angle 1.5, with a library that meets `Faithful` -/
example : ∃ g, @eci_to_geodedic F64 (@instArithF64 Libm.ideal) ⟨sci 70000 true 1, sci 70000 true 1, sci 70000 true 1⟩ (sci 15 true 1) = some g := by
  have b := bd_7000.mono (show 13 ≤ 450 by norm_num)
  have g15 : Bd (sci 15 true 1) 1 := bd_sci _ _ _ _ (by norm_num) (by norm_num)
  obtain ⟨g, hg, -⟩ := @C41_f64 Libm.ideal exists_faithful ⟨sci 70000 true 1, sci 70000 true 1, sci 70000 true 1⟩ (sci 15 true 1) b b b
    g15.1 (le_trans g15.2 (by norm_num))
  exact ⟨g, hg⟩

end Sat
