import Verif.Props.F64Time
/-! # Julian dates in IEEE-754 arithmetic: C34, C35, C24 -/

namespace Sat
open F64 Spec

theorem exact_int {r : ℝ} {x : F64} (h : Rounds r x) (k : ℤ) (e : r = k) (hk : |k| ≤ 2 ^ 53) : x.Fin ∧ x.val = k := by
  rw [e] at h; exact h.exact (isRep_int k hk)

/-- the time-of-day part of `jday` -/
theorem dayFrac_f64 {h mi s ms : F64} (fh : h.Fin) (fmi : mi.Fin) (fs : s.Fin) (fms : ms.Fin) (h0 : 0 ≤ h.val) (h1 : h.val ≤ 24)
    (mi0 : 0 ≤ mi.val) (mi1 : mi.val ≤ 60) (s0 : 0 ≤ s.val) (s1 : s.val ≤ 60) (ms0 : 0 ≤ ms.val) (ms1 : ms.val ≤ 1000) :
    ∀ t, t = F64.div (F64.add (F64.div (F64.add (F64.add (F64.div ms (sci 600000 true 1)) (F64.div s (sci 600 true 1))) mi)
      (sci 600 true 1)) h) (sci 240 true 1) →
    t.Fin ∧ 0 ≤ t.val ∧ t.val ≤ 2 ∧ |t.val - (h.val * 3600 + mi.val * 60 + s.val + ms.val / 1000) / 86400| ≤ 1 / 2 ^ 46 ∧
    (h.val = 0 → mi.val = 0 → s.val = 0 → ms.val = 0 → t.val = 0) := by
  intro t ht
  have l6 : (sci 600000 true 1).Fin ∧ (sci 600000 true 1).val = 60000 := by
    simpa using sci_int (m := 600000) (s := true) (k := 1) 60000 (by norm_num) (by norm_num)
  have nat_rep : ∀ n : ℕ, n ≤ 2 ^ 53 → IsRep (n : ℝ) := isRep_natCast
  have r2 : IsRep (2 : ℝ) := by simpa using nat_rep 2 (by norm_num)
  have r64 : IsRep (64 : ℝ) := by simpa using nat_rep 64 (by norm_num)
  have r32 : IsRep (32 : ℝ) := by simpa using nat_rep 32 (by norm_num)
  -- ms / 60000
  have A := div_rounds fms l6.1 (by rw [l6.2]; norm_num)
  rw [l6.2] at A
  obtain ⟨a1, a2, a3⟩ := A.between isRep_zero isRep_one (by positivity) (by rw [div_le_one (by norm_num)]; linarith)
  have a4 := A.err_le a1 (B := 1) (by norm_num) (by rw [abs_of_nonneg (by positivity), div_le_one (by norm_num)]; linarith)
  -- s / 60
  have B := div_rounds fs lit_60.1 (by rw [lit_60.2]; norm_num)
  rw [lit_60.2] at B
  obtain ⟨b1, b2, b3⟩ := B.between isRep_zero isRep_one (by positivity) (by rw [div_le_one (by norm_num)]; linarith)
  have b4 := B.err_le b1 (B := 1) (by norm_num) (by rw [abs_of_nonneg (by positivity), div_le_one (by norm_num)]; linarith)
  -- sum
  have C := add_rounds a1 b1
  obtain ⟨c1, c2, c3⟩ := C.between isRep_zero r2 (by linarith) (by linarith)
  have c4 := C.err_le c1 (B := 2) (by norm_num) (by rw [abs_of_nonneg (by linarith)]; linarith)
  -- + minute
  have D := add_rounds c1 fmi
  obtain ⟨d1, d2, d3⟩ := D.between isRep_zero r64 (by linarith) (by linarith)
  have d4 := D.err_le d1 (B := 64) (by norm_num) (by rw [abs_of_nonneg (by linarith)]; linarith)
  -- / 60
  have E := div_rounds d1 lit_60.1 (by rw [lit_60.2]; norm_num)
  rw [lit_60.2] at E
  obtain ⟨e1, e2, e3⟩ := E.between isRep_zero r2 (by positivity) (by rw [div_le_iff₀ (by norm_num)]; linarith)
  have e4 := E.err_le e1 (B := 2) (by norm_num) (by rw [abs_of_nonneg (by positivity), div_le_iff₀ (by norm_num)]; linarith)
  -- + hour
  have G := add_rounds e1 fh
  obtain ⟨g1, g2, g3⟩ := G.between isRep_zero r32 (by linarith) (by linarith)
  have g4 := G.err_le g1 (B := 32) (by norm_num) (by rw [abs_of_nonneg (by linarith)]; linarith)
  -- / 24
  have H := div_rounds g1 lit_24.1 (by rw [lit_24.2]; norm_num)
  rw [lit_24.2, ← ht] at H
  obtain ⟨i1, i2, i3⟩ := H.between isRep_zero r2 (by positivity) (by rw [div_le_iff₀ (by norm_num)]; linarith)
  have i4 := H.err_le i1 (B := 2) (by norm_num) (by rw [abs_of_nonneg (by positivity), div_le_iff₀ (by norm_num)]; linarith)
  refine ⟨i1, i2, i3, ?_, ?_⟩
  · rw [abs_le] at a4 b4 c4 d4 e4 g4 i4 ⊢
    norm_num at a4 b4 c4 d4 e4 g4 i4 ⊢
    constructor <;> linarith [a4.1, a4.2, b4.1, b4.2, c4.1, c4.2, d4.1, d4.2, e4.1, e4.2, g4.1, g4.2, i4.1, i4.2]
  · intro z1 z2 z3 z4
    have y1 := (A.exact (by rw [z4]; simpa using isRep_zero)).2
    rw [z4, zero_div] at y1
    have y2 := (B.exact (by rw [z3]; simpa using isRep_zero)).2
    rw [z3, zero_div] at y2
    have y3 := (C.exact (by rw [y1, y2]; simpa using isRep_zero)).2
    rw [y1, y2, add_zero] at y3
    have y4 := (D.exact (by rw [y3, z2]; simpa using isRep_zero)).2
    rw [y3, z2, add_zero] at y4
    have y5 := (E.exact (by rw [y4]; simpa using isRep_zero)).2
    rw [y4, zero_div] at y5
    have y6 := (G.exact (by rw [y5, z1]; simpa using isRep_zero)).2
    rw [y5, z1, add_zero] at y6
    have y7 := (H.exact (by rw [y6]; simpa using isRep_zero)).2
    rw [y6, zero_div] at y7
    exact y7

theorem day_le {d : Date} (h : d.Valid) : d.day ≤ 400 := by
  have h4 := h.2.2.2
  have : ∀ l m, monthLengthOf l m ≤ 31 := by
    intro l m; unfold monthLengthOf; split <;> (try split) <;> omega
  rw [monthLength] at h4
  exact le_trans h4 (le_trans (this _ _) (by norm_num))

variable [Libm]

theorem jday_eq (y m d h mi s ms : F64) : jday y m d h mi s ms =
    F64.add (F64.add (F64.add (F64.add (F64.sub (F64.mul (sci 3670 true 1) y)
      (F64.floor (F64.mul (F64.mul (sci 70 true 1) (F64.add y (F64.floor (F64.div (F64.add m (sci 90 true 1)) (sci 120 true 1))))) (sci 25 true 2))))
      (F64.floor (F64.div (F64.mul (sci 2750 true 1) m) (sci 90 true 1)))) d) (sci 17210135 true 1))
      (F64.div (F64.add (F64.div (F64.add (F64.add (F64.div ms (sci 600000 true 1)) (F64.div s (sci 600 true 1))) mi)
      (sci 600 true 1)) h) (sci 240 true 1)) := by
  simp only [jday, f64_add, f64_sub, f64_mul, f64_div, f64_floor, f64_sci]

/-- `jday` in doubles: the calendar part is exact, the time-of-day part accurate to 2^-46, and the sum is rounded once more. -/
theorem jday_f64 (y m d : ℕ) {Y M D : F64} (ey : Y.Fin ∧ Y.val = y) (em : M.Fin ∧ M.val = m) (ed : D.Fin ∧ D.val = d)
    (hy1 : 1900 ≤ y) (hy2 : y ≤ 2100) (hm1 : 1 ≤ m) (hm2 : m ≤ 12) (hd2 : d ≤ 400)
    {h mi s ms : F64} (fh : h.Fin) (fmi : mi.Fin) (fs : s.Fin) (fms : ms.Fin) (h0 : 0 ≤ h.val) (h1 : h.val ≤ 24)
    (mi0 : 0 ≤ mi.val) (mi1 : mi.val ≤ 60) (s0 : 0 ≤ s.val) (s1 : s.val ≤ 60) (ms0 : 0 ≤ ms.val) (ms1 : ms.val ≤ 1000) :
    (jday Y M D h mi s ms).Fin ∧
    |(jday Y M D h mi s ms).val - jday (y : ℝ) (m : ℝ) (d : ℝ) h.val mi.val s.val ms.val| ≤ 1 / 2 ^ 31 ∧
    (h.val = 0 → mi.val = 0 → s.val = 0 → ms.val = 0 →
      (jday Y M D h mi s ms).val = jday (y : ℝ) (m : ℝ) (d : ℝ) 0 0 0 0) := by
  have lit : ∀ (k i : ℕ), k = i * 10 → i ≤ 2 ^ 53 → (sci k true 1).Fin ∧ (sci k true 1).val = (i : ℕ) := by
    intro k i hk hi
    have := sci_int (m := k) (s := true) (k := 1) i (by subst hk; rw [sci_real]; simp [decR]) (by rw [abs_of_nonneg (by positivity)]; exact_mod_cast hi)
    rwa [Int.cast_natCast] at this
  have l367 := lit 3670 367 (by norm_num) (by norm_num)
  have l7 := lit 70 7 (by norm_num) (by norm_num)
  have l9 := lit 90 9 (by norm_num) (by norm_num)
  have l12 := lit 120 12 (by norm_num) (by norm_num)
  have l275 := lit 2750 275 (by norm_num) (by norm_num)
  have l25 : (sci 25 true 2).Fin ∧ (sci 25 true 2).val = 1 / 4 := by
    have := sci_dyadic (m := 25) (s := true) (k := 2) 1 2 (by norm_num) (by norm_num) (by norm_num)
    norm_num at this ⊢; exact this
  have l17 : (sci 17210135 true 1).Fin ∧ (sci 17210135 true 1).val = 3442027 / 2 := by
    have := sci_dyadic (m := 17210135) (s := true) (k := 1) 3442027 1 (by norm_num) (by norm_num) (by norm_num)
    norm_num at this ⊢; exact this
  -- floor((mon + 9) / 12)
  have q1 := exact_int (add_rounds em.1 l9.1) (m + 9 : ℕ) (by rw [em.2, l9.2]; push_cast; ring) (by
    rw [abs_of_nonneg (by positivity)]; norm_num; omega)
  have f1 := floor_quot q1.1 l12.1 (m + 9) 12 (by rw [q1.2]; push_cast; ring) (by rw [l12.2]) (by norm_num) (by norm_num) (by norm_num; omega)
  set a := (m + 9) / 12 with ha
  have ha1 : a ≤ 2 := by omega
  -- 7 (year + a) / 4
  have q2 := exact_int (add_rounds ey.1 f1.1) (y + a : ℕ) (by rw [ey.2, f1.2]; push_cast; ring) (by
    rw [abs_of_nonneg (by positivity)]; norm_num; omega)
  have q3 := exact_int (mul_rounds l7.1 q2.1) (7 * (y + a) : ℕ) (by rw [l7.2, q2.2]; push_cast; ring) (by
    rw [abs_of_nonneg (by positivity)]; norm_num; omega)
  have q4 := (mul_rounds q3.1 l25.1).exact (by
    rw [q3.2, l25.2]
    have := isRep_int_div ((7 * (y + a) : ℕ) : ℤ) 2 (by rw [abs_of_nonneg (by positivity)]; norm_num; omega) (by norm_num)
    have e : (((7 * (y + a) : ℕ) : ℤ) : ℝ) * (1 / 4) = (((7 * (y + a) : ℕ) : ℤ) : ℝ) / 2 ^ 2 := by ring
    rw [e]; exact this)
  rw [q3.2, l25.2] at q4
  have f2 := floor_val q4.1
  have f2v : (F64.floor (mul (mul (sci 70 true 1) (F64.add Y (F64.floor (F64.div (F64.add M (sci 90 true 1)) (sci 120 true 1))))) (sci 25 true 2))).val =
      ((7 * (y + a) / 4 : ℕ) : ℝ) := by
    rw [f2.2, q4.2]
    have := floor_div_int ((7 * (y + a) : ℕ) : ℤ) 4
    have e : (((7 * (y + a) : ℕ) : ℤ) : ℝ) * (1 / 4) = (((7 * (y + a) : ℕ) : ℤ) : ℝ) / ((4 : ℕ) : ℝ) := by push_cast; ring
    rw [e, this]
    norm_cast
  set b := 7 * (y + a) / 4 with hb
  -- 275 mon / 9
  have q5 := exact_int (mul_rounds l275.1 em.1) (275 * m : ℕ) (by rw [l275.2, em.2]; push_cast; ring) (by
    rw [abs_of_nonneg (by positivity)]; norm_num; omega)
  have f3 := floor_quot q5.1 l9.1 (275 * m) 9 (by rw [q5.2]; push_cast; ring) (by rw [l9.2]) (by norm_num) (by norm_num) (by norm_num; omega)
  set c := 275 * m / 9 with hc
  have hc1 : c ≤ 367 := by omega
  have hb1 : b ≤ 3700 := by omega
  have hb2 : 3000 ≤ b := by omega
  -- the sums
  have q6 := exact_int (mul_rounds l367.1 ey.1) (367 * y : ℕ) (by rw [l367.2, ey.2]; push_cast; ring) (by
    rw [abs_of_nonneg (by positivity)]; norm_num; omega)
  have q7 := exact_int (sub_rounds q6.1 f2.1) ((367 * y : ℕ) - (b : ℕ)) (by rw [q6.2, f2v]; push_cast; ring) (by
    rw [abs_of_nonneg (by omega)]; norm_num; omega)
  have q8 := exact_int (add_rounds q7.1 f3.1) ((367 * y : ℕ) - (b : ℕ) + (c : ℕ)) (by rw [q7.2, f3.2]; push_cast; ring) (by
    rw [abs_of_nonneg (by omega)]; norm_num; omega)
  have q9 := exact_int (add_rounds q8.1 ed.1) ((367 * y : ℕ) - (b : ℕ) + (c : ℕ) + (d : ℕ)) (by rw [q8.2, ed.2]; push_cast; ring) (by
    rw [abs_of_nonneg (by omega)]; norm_num; omega)
  set J : ℤ := (367 * y : ℕ) - (b : ℕ) + (c : ℕ) + (d : ℕ) with hJ
  have hJ0 : 690000 ≤ J := by omega
  have hJ1 : J ≤ 772000 := by omega
  have hrepJ : IsRep ((J : ℝ) + 3442027 / 2) := by
    have := isRep_int_div (2 * J + 3442027) 1 (by rw [abs_of_nonneg (by omega)]; norm_num; omega) (by norm_num)
    have e : (J : ℝ) + 3442027 / 2 = ((2 * J + 3442027 : ℤ) : ℝ) / 2 ^ 1 := by push_cast; ring
    rw [e]; exact this
  have q10 := (add_rounds q9.1 l17.1).exact (by rw [q9.2, l17.2]; exact hrepJ)
  rw [q9.2, l17.2] at q10
  have hfr := dayFrac_f64 fh fmi fs fms h0 h1 mi0 mi1 s0 s1 ms0 ms1 _ rfl
  have hjd := jday_eq Y M D h mi s ms
  generalize F64.div (F64.add (F64.div (F64.add (F64.add (F64.div ms (sci 600000 true 1)) (F64.div s (sci 600 true 1))) mi)
      (sci 600 true 1)) h) (sci 240 true 1) = t at hfr hjd
  obtain ⟨t1, t2, t3, t4, t5⟩ := hfr
  have R := add_rounds q10.1 t1
  rw [q10.2, ← hjd] at R
  have hJ0R : (690000 : ℝ) ≤ J := by exact_mod_cast hJ0
  have hJ1R : (J : ℝ) ≤ 772000 := by exact_mod_cast hJ1
  have r22 : IsRep ((4194304 : ℕ) : ℝ) := isRep_natCast _ (by norm_num)
  have Rf := R.between isRep_zero r22 (by linarith) (by norm_num; linarith)
  have Re := R.err_le Rf.1 (B := 2600000) (by norm_num) (by rw [abs_of_nonneg (by linarith)]; norm_num; linarith)
  -- the exact value
  have hreal : ∀ H M S MS : ℝ, jday (y : ℝ) (m : ℝ) (d : ℝ) H M S MS = (J : ℝ) + 3442027 / 2 + (H * 3600 + M * 60 + S + MS / 1000) / 86400 := by
    intro H M S MS
    rw [jday_split]
    have g1 : ⌊((m : ℝ) + 9) / 12⌋ = ((a : ℕ) : ℤ) := by
      have := floor_div_int ((m : ℤ) + 9) 12
      push_cast at this; rw [this, ha]; push_cast; rfl
    have g2 : ⌊275 * (m : ℝ) / 9⌋ = ((c : ℕ) : ℤ) := by
      have := floor_div_int (275 * (m : ℤ)) 9
      push_cast at this; rw [this, hc]; push_cast; rfl
    have g3 : ⌊7 * ((y : ℝ) + (((a : ℕ) : ℤ) : ℝ)) / 4⌋ = ((b : ℕ) : ℤ) := by
      have := floor_div_int (7 * ((y : ℤ) + a)) 4
      push_cast at this ⊢; rw [this, hb]; push_cast; rfl
    rw [g1, g3, g2, hJ]
    push_cast
    norm_num
    ring
  clear hjd q10 q9 q8 q7 q6 q5 q4 q3 q2 q1 f1 f2 f3 f2v
  generalize jday Y M D h mi s ms = X at *
  refine ⟨Rf.1, ?_, ?_⟩
  · rw [hreal]
    obtain ⟨u1, u2⟩ := abs_le.mp t4
    obtain ⟨v1, v2⟩ := abs_le.mp Re
    rw [abs_le]
    norm_num at u1 u2 v1 v2 ⊢
    constructor <;> linarith
  · intro z1 z2 z3 z4
    have ht := t5 z1 z2 z3 z4
    rw [ht, add_zero] at R
    have := (R.exact hrepJ).2
    rw [hreal, this]
    norm_num

/-- **C34** in IEEE-754 arithmetic: at 0h of every date from 1900-03-01 to 2100-02-28 the Julian date is exact. -/
theorem C34_f64_exact (d : Date) (hd : d.InRange) :
    ∃ n : ℕ, base.after n = d ∧
      (jday (F64.ofInt d.year) (F64.ofInt d.month) (F64.ofInt d.day) (F64.ofInt 0) (F64.ofInt 0) (F64.ofInt 0) (F64.ofInt 0)).Fin ∧
      (jday (F64.ofInt d.year) (F64.ofInt d.month) (F64.ofInt d.day) (F64.ofInt 0) (F64.ofInt 0) (F64.ofInt 0) (F64.ofInt 0)).val =
        2415079.5 + n := by
  obtain ⟨n, h1, h2⟩ := C34_jday_counts_days d hd
  obtain ⟨c1, c2, -⟩ := inRange_cond hd
  have hdm : d.day ≤ 400 := day_le hd.1
  have z := ofInt_exact 0 (by norm_num)
  rw [Int.cast_zero] at z
  have h := jday_f64 d.year d.month d.day (ofNat_exact _ (by norm_num; omega)) (ofNat_exact _ (by norm_num; have := hd.1.2.1; omega))
    (ofNat_exact _ (by norm_num; omega)) c1 c2 hd.1.1 hd.1.2.1 hdm z.1 z.1 z.1 z.1 z.2.ge (by rw [z.2]; norm_num) z.2.ge (by rw [z.2]; norm_num)
    z.2.ge (by rw [z.2]; norm_num) z.2.ge (by rw [z.2]; norm_num)
  exact ⟨n, h1, h.1, (h.2.2 z.2 z.2 z.2 z.2).trans h2⟩

/-- the Julian date of a date-time with millisecond resolution, as the code computes it from integers -/
def jdOf (a : Instant) : F64 :=
  jday (F64.ofInt a.date.year) (F64.ofInt a.date.month) (F64.ofInt a.date.day) (F64.ofInt a.hour) (F64.ofInt a.minute)
    (F64.ofInt a.sec) (F64.ofInt a.msec)

theorem jdOf_serial (a : Instant) (ha : a.Valid) (hr : a.date.InRange) :
    (jdOf a).Fin ∧ |(jdOf a).val - (2415019.5 + (serial a.date : ℝ) + (a.msOfDay : ℝ) / 86400000)| ≤ 1 / 2 ^ 31 := by
  obtain ⟨c1, c2, -⟩ := inRange_cond hr
  obtain ⟨-, b1, b2, b3, b4⟩ := ha
  have hdm : a.date.day ≤ 400 := day_le hr.1
  have e : ∀ k : ℕ, k ≤ 2 ^ 53 → (F64.ofInt k).Fin ∧ (F64.ofInt k).val = k := ofNat_exact
  have p53 : (2 : ℕ) ^ 53 = 9007199254740992 := by norm_num
  have eh := e a.hour (by omega)
  have em := e a.minute (by omega)
  have es := e a.sec (by omega)
  have ems := e a.msec (by omega)
  have hm12 := hr.1.2.1
  have R : ∀ k : ℕ, (0 : ℝ) ≤ k := fun k => Nat.cast_nonneg k
  have h := jday_f64 a.date.year a.date.month a.date.day (e _ (by omega)) (e _ (by omega)) (e _ (by omega)) c1 c2 hr.1.1 hr.1.2.1 hdm
    eh.1 em.1 es.1 ems.1 (eh.2 ▸ R _) (by rw [eh.2]; exact_mod_cast b1.le) (em.2 ▸ R _) (by rw [em.2]; exact_mod_cast b2.le)
    (es.2 ▸ R _) (by rw [es.2]; exact_mod_cast b3.le) (ems.2 ▸ R _) (by rw [ems.2]; exact_mod_cast b4.le)
  refine ⟨h.1, ?_⟩
  have h3 := h.2.1
  rw [eh.2, em.2, es.2, ems.2, jday_serial hr] at h3
  have e1 : (2415019.5 : ℝ) + (serial a.date : ℝ) + (a.msOfDay : ℝ) / 86400000 =
      2415019.5 + (serial a.date : ℝ) + (a.hour * 3600 + a.minute * 60 + a.sec + a.msec / 1000) / 86400 := by
    rw [Instant.msOfDay]; push_cast; ring
  rw [e1]; exact h3

/-- **C34** in IEEE-754 arithmetic, any time of day: the Julian date is within 2^-31 days (41 µs) of the true one. -/
theorem C34_f64_error (a : Instant) (ha : a.Valid) (hr : a.date.InRange) :
    ∃ n : ℕ, base.after n = a.date ∧ (jdOf a).Fin ∧
      |(jdOf a).val - (2415079.5 + n + (a.msOfDay : ℝ) / 86400000)| ≤ 1 / 2 ^ 31 := by
  obtain ⟨n, h1, h2⟩ := reached hr.1 hr.2.1
  obtain ⟨h3, h4⟩ := jdOf_serial a ha hr
  refine ⟨n, h1, h3, ?_⟩
  rw [h2] at h4
  have e1 : (2415079.5 : ℝ) + n = 2415019.5 + ((60 + n : ℕ) : ℝ) := by push_cast; norm_num; ring
  rw [e1]; exact h4

/-- **C35** in IEEE-754 arithmetic: of two valid date-times in range (millisecond resolution), the earlier one has the strictly smaller Julian
date, in spite of the roundings. -/
theorem C35_f64_monotone (a b : Instant) (ha : a.Valid) (hb : b.Valid) (hra : a.date.InRange) (hrb : b.date.InRange)
    (h : a.before b) : F64.flt (jdOf a) (jdOf b) = true := by
  obtain ⟨fa, ea⟩ := jdOf_serial a ha hra
  obtain ⟨fb, eb⟩ := jdOf_serial b hb hrb
  rw [flt_fin fa fb]
  have key : serial a.date * 86400000 + a.msOfDay + 1 ≤ serial b.date * 86400000 + b.msOfDay := by
    obtain ⟨va, h1, h2, h3, h4⟩ := ha
    obtain ⟨vb, g1, g2, g3, g4⟩ := hb
    simp only [Instant.msOfDay]
    rcases h with h | ⟨e, h⟩
    · have := serial_lt hra.1 hrb.1 (inRange_cond hra).1 h
      omega
    · rw [e]; omega
  have keyR : (serial a.date : ℝ) * 86400000 + a.msOfDay + 1 ≤ (serial b.date : ℝ) * 86400000 + b.msOfDay := by exact_mod_cast key
  rw [abs_le] at ea eb
  norm_num at ea eb
  linarith [ea.2, eb.1]

/-- two neighbouring milliseconds around midnight of a leap day -/
example : F64.flt (jdOf ⟨⟨2024, 2, 29⟩, 23, 59, 59, 999⟩) (jdOf ⟨⟨2024, 3, 1⟩, 0, 0, 0, 0⟩) = true := by
  refine C35_f64_monotone _ _ ?_ ?_ ?_ ?_ ?_
  · exact ⟨by decide, by decide, by decide, by decide, by decide⟩
  · exact ⟨by decide, by decide, by decide, by decide, by decide⟩
  · exact ⟨by decide, by simp [Date.before, base], by simp [Date.before]⟩
  · exact ⟨by decide, by simp [Date.before, base], by simp [Date.before]⟩
  · left; right; exact ⟨rfl, Or.inl (by decide)⟩

omit [Libm] in
theorem c24_arith {X Y B day h mi s t u d f n : ℝ} (H : |X - (2415019.5 + Y + B + day + (h * 3600 + mi * 60 + s + 0 / 1000) / 86400)| ≤ 1 / 2 ^ 31)
    (b1 : |t - (d - f) * 24| ≤ 24 / 2 ^ 53) (b2 : |u - (t - h) * 60| ≤ 60 / 2 ^ 53) (b3 : |s - (u - mi) * 60| ≤ 60 / 2 ^ 53)
    (e6 : B + day = f) (hY : Y = 59 + n) : |X - (2415079.5 + n - 1 + d)| ≤ 1 / 2 ^ 30 := by
  rw [abs_le] at H b1 b2 b3 ⊢
  norm_num at H b1 b2 b3 ⊢
  constructor <;> linarith [H.1, H.2, b1.1, b1.2, b2.1, b2.2, b3.1, b3.2]

/-- **C24** in IEEE-754 arithmetic: for every two-digit year and every double epoch day in [0, 400] the epoch Julian date is within 2^-30 days
(81 µs) of January 0 of the year plus the day. -/
theorem C24_f64 (epochyr : ℤ) (h0 : 0 ≤ epochyr) (h1 : epochyr ≤ 99) (d : F64) (hd : d.Fin) (hd0 : 0 ≤ d.val) (hd1 : d.val ≤ 400) :
    ∃ (year n : ℕ), 1957 ≤ year ∧ year ≤ 2056 ∧ (year : ℤ) % 100 = epochyr ∧ base.after n = ⟨year, 1, 1⟩ ∧
      (epochJd epochyr d).Fin ∧ |(epochJd epochyr d).val - (2415079.5 + n - 1 + d.val)| ≤ 1 / 2 ^ 30 := by
  obtain ⟨year, hy⟩ : ∃ year : ℕ, fullYear epochyr = year := by
    refine ⟨(fullYear epochyr).toNat, ?_⟩
    unfold fullYear; split <;> omega
  have hy' : 1957 ≤ year ∧ year ≤ 2056 ∧ (year : ℤ) % 100 = epochyr := by
    unfold fullYear at hy; split at hy <;> omega
  have hr : (⟨year, 1, 1⟩ : Date).InRange := by
    refine ⟨⟨by simp, by simp, by simp, by simp [monthLength, monthLengthOf]⟩, ?_, ?_⟩ <;> simp only [Date.before, base] <;> omega
  obtain ⟨n, hn, hn'⟩ := reached hr.1 hr.2.1
  refine ⟨year, n, hy'.1, hy'.2.1, hy'.2.2, hn, ?_⟩
  have hU : asU64 (year : ℤ) = year := by
    unfold asU64; omega
  simp only [epochJd, hy, hU, f64_ofInt, f64_sci]
  obtain ⟨m, day, h, mi, s, t, u, e1, e2, e3, e4, e5, ⟨m1, m2, e6, e7, e8⟩, a1, a2, a3, a4, b1, b2, b3⟩ :=
    days2mdhms_f64 year d hd hd0 (by norm_num; linarith)
  have hfl : ⌊d.val⌋₊ ≤ 400 := Nat.floor_le_of_le (by exact_mod_cast hd1)
  have z := lit_zero
  have H := jday_f64 year m day (ofNat_exact year (by norm_num; omega)) e1 e2 (by omega) (by omega) m1 m2 (by omega) e3.1 e4.1 e5.1 z.1
    (by rw [e3.2]; positivity) (by rw [e3.2]; exact_mod_cast a1.le) (by rw [e4.2]; positivity) (by rw [e4.2]; exact_mod_cast a2.le)
    (by rw [e5.2]; exact a3) (by rw [e5.2]; exact a4.le) z.2.ge (by rw [z.2]; norm_num)
  refine ⟨H.1, ?_⟩
  have H2 := H.2.1
  rw [e3.2, e4.2, e5.2, z.2, jday_linear year m m1 m2 (by omega) (by omega) (by omega) (by omega)] at H2
  rw [← leap_range (by omega) (by omega)] at e6
  have e6' : (daysBeforeMonth year m : ℝ) + day = ⌊d.val⌋₊ := by rw [daysBeforeMonth]; exact_mod_cast e6
  have hs : (serial ⟨year, 1, 1⟩ : ℝ) = (daysInYears (year - 1900) : ℝ) + 1 := by
    have h0 : daysBeforeOf (leapYear year) 1 = 0 := rfl
    simp only [serial, Date.dayOfYear, daysBeforeMonth, h0]
    push_cast; ring
  rw [hn'] at hs
  push_cast at hs
  exact c24_arith H2 b1 b2 b3 e6' (by linarith)

/-- an epoch that meets the hypotheses -/
example : (0 : ℤ) ≤ 8 ∧ (8 : ℤ) ≤ 99 ∧ (F64.ofInt 264).Fin ∧ 0 ≤ (F64.ofInt 264).val ∧ (F64.ofInt 264).val ≤ 400 := by
  have h := ofInt_exact 264 (by norm_num)
  refine ⟨by norm_num, by norm_num, h.1, ?_, ?_⟩ <;> rw [h.2] <;> norm_num

end Sat
