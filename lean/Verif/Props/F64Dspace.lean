import Verif.Props.F64Nan
import Verif.Proofs.Loop
/-!
# C09 in IEEE-754 arithmetic: exactly when the resonance integrator stops

No assumption about the mathematical library.  The integrator steps by ±720 minutes; in double arithmetic the step is lost in
rounding once the integrator has reached `2^63` minutes, so the loop exits for every time up to there and never beyond.
-/

namespace Sat
open F64

/-- 720 minutes -/
theorem lit_720 : (sci 7200 true 1).Fin ∧ (sci 7200 true 1).val = 720 := by
  simpa using sci_int (m := 7200) (s := true) (k := 1) 720 (by norm_num) (by norm_num)

theorem neg_720 : (F64.neg (sci 7200 true 1)).Fin ∧ (F64.neg (sci 7200 true 1)).val = -720 := by
  obtain ⟨h1, h2⟩ := neg_val lit_720.1
  exact ⟨h1, by rw [h2, lit_720.2]⟩

/-- the test of the loop, for finite operands -/
theorem far_iff {t a : F64} (hs : (F64.sub t a).Fin) : fle (sci 7200 true 1) (F64.abs (F64.sub t a)) = true ↔ 720 ≤ |(F64.sub t a).val| := by
  obtain ⟨h1, h2⟩ := abs_val hs
  rw [fle_fin lit_720.1 h1, lit_720.2, h2]

/-- Between the epoch and the target, with `σ` the direction of integration. -/
structure OnWay (σ : ℝ) (t a : F64) : Prop where
  fin : a.Fin
  pos : 0 ≤ σ * a.val
  near : σ * a.val ≤ σ * t.val ∨ |a.val - t.val| < 1

theorem abs_sigma {σ : ℝ} (h : σ = 1 ∨ σ = -1) (x : ℝ) : |x| = |σ * x| := by
  rcases h with rfl | rfl
  · rw [one_mul]
  · rw [neg_one_mul, abs_neg]

theorem sub_fin_small {t a : F64} (ht : t.Fin) (ha : a.Fin) (h : |t.val - a.val| ≤ 2 ^ 65) : (F64.sub t a).Fin :=
  ((sub_rounds ht ha).pow (e := 65) (by norm_num) h).1

theorem onWay_le {σ : ℝ} (hσ : σ = 1 ∨ σ = -1) {t a : F64} (ht : σ * t.val ≤ 2 ^ 63) (h : OnWay σ t a) : σ * a.val ≤ 2 ^ 63 + 1 := by
  rcases h.near with h1 | h1
  · linarith
  · rw [abs_sigma hσ] at h1
    have := abs_lt.mp h1
    linarith [mul_sub σ a.val t.val]

/-- one integration step makes progress and does not run away -/
theorem step_on {σ : ℝ} (hσ : σ = 1 ∨ σ = -1) {t a d : F64} (ht : t.Fin) (h0 : 0 ≤ σ * t.val) (h63 : σ * t.val ≤ 2 ^ 63)
    (hd : d.Fin) (hdv : d.val = σ * 720) (h : OnWay σ t a)
    (hfar : fle (sci 7200 true 1) (F64.abs (F64.sub t a)) = true) :
    OnWay σ t (F64.add a d) ∧ σ * a.val < σ * (F64.add a d).val := by
  have ha := h.fin
  have hss : σ * σ = 1 := by rcases hσ with rfl | rfl <;> norm_num
  have hale := onWay_le hσ h63 h
  have apos := h.pos
  have hsmall : |t.val - a.val| ≤ 2 ^ 65 := by
    rw [abs_sigma hσ, mul_sub, abs_le]; constructor <;> linarith
  have sf := sub_fin_small ht ha hsmall
  have sr := sub_rounds ht ha
  rw [far_iff sf] at hfar
  -- the target is really ahead
  have i719 : IsRep (719 : ℝ) := by simpa using isRep_int 719 (by norm_num)
  have hreal : 719 < |t.val - a.val| := by
    by_contra hle
    have hle := abs_le.mp (not_lt.mp hle)
    have u := sr.le sf i719 hle.2
    have l := sr.ge sf (isRep_neg i719) hle.1
    have := abs_le.mpr ⟨l, u⟩
    linarith
  have hle : σ * a.val ≤ σ * t.val := by
    rcases h.near with h1 | h1
    · exact h1
    · rw [abs_sub_comm] at h1; linarith
  have hgap : |t.val - a.val| = σ * t.val - σ * a.val := by
    rw [abs_sigma hσ, mul_sub, abs_of_nonneg (by linarith)]
  rw [hgap] at hreal
  have ar := add_rounds ha hd
  set r := a.val + d.val with hr
  have hσr : σ * r = σ * a.val + 720 := by rw [hr, hdv]; linear_combination 720 * hss
  have af : (F64.add a d).Fin := by
    refine (ar.pow (e := 65) (by norm_num) ?_).1
    rw [abs_sigma hσ, hσr, abs_le]; constructor <;> linarith
  have near : ∀ m : F64, m.Fin → |σ * (F64.add a d).val - σ * r| ≤ |σ * m.val - σ * r| := by
    intro m hm
    rw [← mul_sub, ← mul_sub, ← abs_sigma hσ, ← abs_sigma hσ]
    exact ar.nearest af m hm
  have near := near
  -- progress: there is a double not far above
  have prog : σ * a.val < σ * (F64.add a d).val := by
    have f1 := Int.floor_le (σ * a.val / 1024)
    have f2 := Int.lt_floor_add_one (σ * a.val / 1024)
    set q := ⌊σ * a.val / 1024⌋ with hq
    have q0 : 0 ≤ q := Int.floor_nonneg.mpr (by positivity)
    have q1 : q + 1 ≤ 2 ^ 53 := by
      have : (q : ℝ) < ((2 ^ 53 : ℤ) : ℝ) := by
        push_cast
        rw [le_div_iff₀ (by norm_num)] at f1
        linarith
      have : q < 2 ^ 53 := by exact_mod_cast this
      omega
    obtain ⟨m, hm, hmv⟩ := isRep_int_pow (q + 1) 10 (by rw [abs_of_nonneg (by omega)]; exact q1) (by norm_num)
    rw [le_div_iff₀ (by norm_num)] at f1
    rw [div_lt_iff₀ (by norm_num)] at f2
    push_cast at hmv
    have key : ∀ m' : F64, m'.Fin → σ * m'.val = m.val → σ * a.val < σ * (F64.add a d).val := by
      intro m' hm' hv
      by_contra hno
      have hno := not_lt.mp hno
      have hn := near m' hm'
      rw [hσr, hv, hmv] at hn
      have b1 : 720 ≤ |σ * (F64.add a d).val - (σ * a.val + 720)| := by
        rw [abs_of_nonpos (by linarith)]; linarith
      have b2 : |((q : ℝ) + 1) * 2 ^ 10 - (σ * a.val + 720)| < 720 := by
        rw [abs_lt]; constructor <;> norm_num <;> linarith
      linarith
    rcases hσ with rfl | rfl
    · exact key m hm (by ring)
    · obtain ⟨n1, n2⟩ := neg_val hm
      exact key _ n1 (by rw [n2]; ring)
  refine ⟨⟨af, by linarith, ?_⟩, prog⟩
  have nt := near t ht
  by_cases hover : σ * r ≤ σ * t.val
  · left
    rw [abs_of_nonneg (show 0 ≤ σ * t.val - σ * r by linarith)] at nt
    linarith [le_abs_self (σ * (F64.add a d).val - σ * r)]
  · right
    have hover := not_le.mp hover
    have e := sr.err_le sf (B := 720) (by norm_num) (by rw [hgap]; linarith)
    have e' : |(F64.sub t a).val| ≤ |t.val - a.val| + 720 / 2 ^ 53 := by
      have := abs_sub_abs_le_abs_sub (F64.sub t a).val (t.val - a.val)
      linarith
    rw [hgap] at e'
    have : (720 : ℝ) / 2 ^ 53 < 1 / 4 := by norm_num
    rw [abs_of_nonpos (show σ * t.val - σ * r ≤ 0 by linarith)] at nt
    rw [abs_sigma hσ, mul_sub, abs_lt]
    have nt := abs_le.mp nt
    constructor <;> linarith

/-- doubles are multiples of `2^-1074` -/
theorem val_grid {x : F64} (h : x.Fin) : ∃ z : ℤ, x.val * unitN = z := by
  obtain ⟨a, n, hn, rfl⟩ := fin_cases h
  exact ⟨sgn a n, by rw [val_fin, div_mul_cancel₀ _ unit_pos.ne']⟩

section
variable [Libm]

theorem body_far (o : DspaceOptions F64) (d : F64) (st : DspaceSt F64) (h : fle (sci 7200 true 1) (F64.abs (F64.sub o.t st.atime)) = true) :
    (dspaceBody o d st).atime = F64.add st.atime d ∧ (dspaceBody o d st).iretn = 381 := by
  have hc : (Arith.abs (o.t - st.atime) ≥. (720.0 : F64)) = true := h
  unfold dspaceBody; dsimp only; rw [if_pos hc]; exact ⟨rfl, rfl⟩

theorem body_close (o : DspaceOptions F64) (d : F64) (st : DspaceSt F64) (h : ¬ fle (sci 7200 true 1) (F64.abs (F64.sub o.t st.atime)) = true) :
    (dspaceBody o d st).iretn = 0 := by
  have hc : ¬ (Arith.abs (o.t - st.atime) ≥. (720.0 : F64)) = true := h
  unfold dspaceBody; dsimp only; rw [if_neg hc]

/-- the loop exits when it is entered on the way to a time within `2^63` minutes -/
theorem loop_exits (o : DspaceOptions F64) {σ : ℝ} (hσ : σ = 1 ∨ σ = -1) (ht : o.t.Fin) (h0 : 0 ≤ σ * o.t.val) (h63 : σ * o.t.val ≤ 2 ^ 63)
    {d : F64} (hd : d.Fin) (hdv : d.val = σ * 720) (m : ℕ) :
    ∀ st : DspaceSt F64, st.iretn = 381 → OnWay σ o.t st.atime → (σ * o.t.val - σ * st.atime.val) * unitN < m →
      ∃ r, whileLoop (fun st => st.iretn == 381) (dspaceBody o d) st = some r := by
  induction m using Nat.strong_induction_on with
  | _ m ih =>
    intro st hi hw hm
    rw [whileLoop_true (by simp [hi])]
    by_cases hfar : fle (sci 7200 true 1) (F64.abs (F64.sub o.t st.atime)) = true
    · obtain ⟨w1, w2⟩ := step_on hσ ht h0 h63 hd hdv hw hfar
      have hb := body_far o d st hfar
      -- the distance shrinks by at least one unit
      obtain ⟨z1, e1⟩ := val_grid hw.fin
      obtain ⟨z2, e2⟩ := val_grid w1.fin
      have hlt : σ * (st.atime.val * unitN) < σ * ((F64.add st.atime d).val * unitN) := by
        rw [← mul_assoc, ← mul_assoc]; exact mul_lt_mul_of_pos_right w2 unit_pos
      have hone : σ * (st.atime.val * unitN) + 1 ≤ σ * ((F64.add st.atime d).val * unitN) := by
        rw [e1, e2] at hlt ⊢
        rcases hσ with rfl | rfl
        · rw [one_mul, one_mul] at hlt ⊢
          have : z1 + 1 ≤ z2 := by have : z1 < z2 := by exact_mod_cast hlt
                                   omega
          exact_mod_cast this
        · rw [neg_one_mul, neg_one_mul] at hlt ⊢
          have : -z1 + 1 ≤ -z2 := by have : -z1 < -z2 := by exact_mod_cast hlt
                                     omega
          exact_mod_cast this
      cases m with
      | zero =>
        exfalso
        push_cast at hm
        have hneg : σ * o.t.val - σ * st.atime.val < 0 := by
          by_contra hc; have := mul_nonneg (not_lt.mp hc) unit_pos.le; linarith
        have hsmall : |o.t.val - st.atime.val| ≤ 719 := by
          rcases hw.near with h1 | h1
          · linarith
          · rw [abs_sub_comm]; linarith
        have sf := sub_fin_small ht hw.fin (le_trans hsmall (by norm_num))
        rw [far_iff sf] at hfar
        have i719 : IsRep (719 : ℝ) := by simpa using isRep_int 719 (by norm_num)
        have hs := abs_le.mp hsmall
        have := abs_le.mpr ⟨(sub_rounds ht hw.fin).ge sf (isRep_neg i719) hs.1, (sub_rounds ht hw.fin).le sf i719 hs.2⟩
        linarith
      | succ m =>
        refine ih m (Nat.lt_succ_self m) _ hb.2 (by rw [hb.1]; exact w1) ?_
        rw [hb.1]
        push_cast at hm
        linarith [sub_mul (σ * o.t.val) (σ * st.atime.val) (unitN : ℝ), sub_mul (σ * o.t.val) (σ * (F64.add st.atime d).val) (unitN : ℝ),
          mul_assoc σ st.atime.val (unitN : ℝ), mul_assoc σ (F64.add st.atime d).val (unitN : ℝ)]
    · have hb := body_close o d st hfar
      exact ⟨_, whileLoop_false (by rw [hb]; rfl)⟩

/-- the loop exits at once when its test fails on entry -/
theorem loop_closes (o : DspaceOptions F64) (d : F64) (st : DspaceSt F64) (hi : st.iretn = 381)
    (h : ¬ fle (sci 7200 true 1) (F64.abs (F64.sub o.t st.atime)) = true) :
    ∃ r, whileLoop (fun st => st.iretn == 381) (dspaceBody o d) st = some r := by
  rw [whileLoop_true (by simp [hi])]
  exact ⟨_, whileLoop_false (by rw [body_close o d st h]; rfl)⟩

/-- the integrator stops for NaN and for every time within `2^63` minutes -/
theorem dspaceLoop_exits (o : DspaceOptions F64) (h : o.t = .nan ∨ (o.t.Fin ∧ |o.t.val| ≤ 2 ^ 63)) : ∃ r, dspaceLoop o = some r := by
  have hi : (dspaceStart o).iretn = 381 := by unfold dspaceStart; split <;> rfl
  rcases h with h | ⟨ht, hb⟩
  · refine loop_closes o _ _ hi ?_
    rw [h]
    simp only [nan_sub, abs_nan, fle_nan, Bool.false_eq_true, not_false_eq_true]
  · have hb := abs_le.mp hb
    -- where the loop is entered
    have start : (dspaceStart o).atime = sci 0 true 1 ∨ (dspaceStart o).atime = .nan ∨
        ((dspaceStart o).atime.Fin ∧ 0 < o.t.val * (dspaceStart o).atime.val ∧ |(dspaceStart o).atime.val| ≤ |o.t.val|) := by
      unfold dspaceStart
      split
      · left; rfl
      · rename_i hc
        right
        have hc : ¬ ((feq o.atime (sci 0 true 1) || fle (F64.mul o.t o.atime) (sci 0 true 1) || flt (F64.abs o.t) (F64.abs o.atime)) = true) := hc
        simp only [Bool.or_eq_true, not_or] at hc
        obtain ⟨⟨c1, c2⟩, c3⟩ := hc
        dsimp only
        cases ha : o.atime with
        | nan => left; rfl
        | inf b =>
          exfalso
          obtain ⟨a, n, hn, e⟩ := fin_cases ht
          rw [ha, e] at c3
          exact c3 rfl
        | fin b n hn =>
          right
          have hf : o.atime.Fin := by rw [ha]; trivial
          rw [← ha]
          obtain ⟨a1, a2⟩ := abs_val ht
          obtain ⟨a3, a4⟩ := abs_val hf
          rw [flt_fin a1 a3, a2, a4, not_lt] at c3
          refine ⟨hf, ?_, c3⟩
          by_contra hle
          exact c2 ((mul_rounds ht hf).upper _ lit_zero.1 (by rw [lit_zero.2]; exact not_lt.mp hle))
    have delt : dspaceDelt o = if flt (sci 0 true 1) o.t then sci 7200 true 1 else F64.neg (sci 7200 true 1) := rfl
    have main : ∀ σ : ℝ, (σ = 1 ∨ σ = -1) → 0 ≤ σ * o.t.val → (dspaceDelt o).Fin → (dspaceDelt o).val = σ * 720 → ∃ r, dspaceLoop o = some r := by
      intro σ hσ h0 d1 d2
      have h63 : σ * o.t.val ≤ 2 ^ 63 := by rcases hσ with rfl | rfl <;> linarith
      have go : OnWay σ o.t (dspaceStart o).atime → ∃ r, dspaceLoop o = some r := by
        intro hw
        obtain ⟨m, hm⟩ := exists_nat_gt ((σ * o.t.val - σ * (dspaceStart o).atime.val) * unitN)
        exact loop_exits o hσ ht h0 h63 d1 d2 m _ hi hw hm
      rcases start with hs | hs | ⟨s1, s2, s3⟩
      · refine go ⟨by rw [hs]; exact lit_zero.1, by rw [hs, lit_zero.2, mul_zero], ?_⟩
        left; rw [hs, lit_zero.2, mul_zero]; exact h0
      · refine loop_closes o _ _ hi ?_
        rw [hs]
        simp only [sub_nan, abs_nan, fle_nan, Bool.false_eq_true, not_false_eq_true]
      · have hpos : 0 ≤ σ * (dspaceStart o).atime.val := by
          have hσσ : σ * σ = 1 := by rcases hσ with rfl | rfl <;> norm_num
          by_contra hneg
          have hneg := not_le.mp hneg
          have : (σ * o.t.val) * (σ * (dspaceStart o).atime.val) = o.t.val * (dspaceStart o).atime.val := by
            linear_combination (o.t.val * (dspaceStart o).atime.val) * hσσ
          have h2 := mul_nonpos_of_nonneg_of_nonpos h0 hneg.le
          linarith
        refine go ⟨s1, hpos, Or.inl ?_⟩
        rwa [abs_sigma hσ, abs_sigma hσ o.t.val, abs_of_nonneg hpos, abs_of_nonneg h0] at s3
    by_cases hp : flt (sci 0 true 1) o.t = true
    · rw [if_pos hp] at delt
      rw [flt_fin lit_zero.1 ht, lit_zero.2] at hp
      exact main 1 (Or.inl rfl) (by linarith) (by rw [delt]; exact lit_720.1) (by rw [delt, lit_720.2]; norm_num)
    · rw [if_neg hp] at delt
      rw [flt_fin lit_zero.1 ht, lit_zero.2, not_lt] at hp
      exact main (-1) (Or.inr rfl) (by linarith) (by rw [delt]; exact neg_720.1) (by rw [delt, neg_720.2]; norm_num)

/-- **C09.** In double arithmetic, whatever the record contains and whatever the mathematical library returns: `sgp4` returns for the time
NaN and for every time of at most `2^63` minutes. -/
theorem C09_f64_returns (s : Satrec F64) (t : F64) (h : t = .nan ∨ (t.Fin ∧ |t.val| ≤ 2 ^ 63)) : ∃ s' r, sgp4 s t = some (s', r) := by
  have hs := sgp4_refines s t (fun hD => by
    unfold dspace
    dsimp only
    split
    · exact ⟨_, rfl⟩
    · obtain ⟨st, hst⟩ := dspaceLoop_exits (dspaceOptions (atTime s t) (secular (atTime s t))) h
      rw [hst]
      exact ⟨_, rfl⟩)
  cases hr : sgp4 s t with
  | none => rw [hr] at hs; cases hs
  | some o => exact ⟨o.1, o.2, rfl⟩

/-! ### Beyond -/

omit [Libm] in
theorem val_inj {x y : F64} (hx : x.Fin) (hy : y.Fin) (h : x.val = y.val) (h0 : x.val ≠ 0) : x = y := by
  obtain ⟨a, n, hn, rfl⟩ := fin_cases hx
  obtain ⟨b, m, hm, rfl⟩ := fin_cases hy
  rw [val_fin, val_fin, div_left_inj' unit_pos.ne'] at h
  rw [val_fin] at h0
  have h1 : sgn a n = sgn b m := by exact_mod_cast h
  have h2 : sgn a n ≠ 0 := by intro e; apply h0; rw [e]; simp
  have : a = b ∧ n = m := by
    have hn0 : (0 : ℤ) ≤ n := Int.natCast_nonneg n
    have hm0 : (0 : ℤ) ≤ m := Int.natCast_nonneg m
    cases a <;> cases b <;> simp only [sgn, Bool.false_eq_true, if_false, if_true, ne_eq] at h1 h2 ⊢
    · exact ⟨trivial, by omega⟩
    · exact absurd (by omega : (n : ℤ) = 0) h2
    · exact absurd (by omega : -(n : ℤ) = 0) h2
    · exact ⟨trivial, by omega⟩
  obtain ⟨rfl, rfl⟩ := this
  rfl

/-- `2^63` -/
def top63 : F64 := sci 9223372036854775808 false 0

omit [Libm] in
theorem top63_val : top63.Fin ∧ top63.val = 2 ^ 63 := by
  have := (sci_rounds 9223372036854775808 false 0).exact (by
    have := isRep_int_pow 1 63 (by norm_num) (by norm_num)
    norm_num at this ⊢; exact this)
  refine ⟨this.1, this.2.trans (by norm_num)⟩

omit [Libm] in
theorem top63_stuck : F64.add top63 (sci 7200 true 1) = top63 := by decide +kernel
omit [Libm] in
theorem neg63_stuck : F64.add (F64.neg top63) (F64.neg (sci 7200 true 1)) = F64.neg top63 := by decide +kernel

/-- The far end: the value at which the step is lost. -/
structure Stuck (σ : ℝ) (d M : F64) : Prop where
  dir : σ = 1 ∨ σ = -1
  dfin : d.Fin
  dval : d.val = σ * 720
  fin : M.Fin
  val : σ * M.val = 2 ^ 63
  add : F64.add M d = M

omit [Libm] in
theorem stuck_pos : Stuck 1 (sci 7200 true 1) top63 :=
  ⟨Or.inl rfl, lit_720.1, by rw [lit_720.2]; norm_num, top63_val.1, by rw [top63_val.2, one_mul], top63_stuck⟩

omit [Libm] in
theorem stuck_neg : Stuck (-1) (F64.neg (sci 7200 true 1)) (F64.neg top63) := by
  obtain ⟨n1, n2⟩ := neg_val top63_val.1
  exact ⟨Or.inr rfl, neg_720.1, by rw [neg_720.2]; norm_num, n1, by rw [n2, top63_val.2]; norm_num, neg63_stuck⟩

omit [Libm] in
/-- no double lies within 1440 beyond `2^63` -/
theorem stuck_gap {σ : ℝ} {d M : F64} (h : Stuck σ d M) {x : F64} (hx : x.Fin) (hlt : 2 ^ 63 < σ * x.val) : 2 ^ 63 + 1440 ≤ σ * x.val := by
  have hss : σ * σ = 1 := by rcases h.dir with e | e <;> rw [e] <;> norm_num
  have ar := add_rounds h.fin h.dfin
  rw [h.add] at ar
  have hn := ar.nearest h.fin x hx
  rw [abs_sigma h.dir, abs_sigma h.dir (x.val - _), mul_sub, mul_sub, mul_add, h.val, h.dval, ← mul_assoc, hss, one_mul] at hn
  rw [show (2 : ℝ) ^ 63 - (2 ^ 63 + 720) = -720 by ring, abs_neg, abs_of_pos (by norm_num : (0 : ℝ) < 720)] at hn
  rcases le_abs.mp hn with h1 | h1 <;> linarith

omit [Libm] in
/-- the integrator never gets past `2^63` -/
theorem stuck_step {σ : ℝ} {d M : F64} (h : Stuck σ d M) {a : F64} (ha : a.Fin) (h0 : 0 ≤ σ * a.val) (h1 : σ * a.val ≤ 2 ^ 63) :
    (F64.add a d).Fin ∧ 0 ≤ σ * (F64.add a d).val ∧ σ * (F64.add a d).val ≤ 2 ^ 63 := by
  have hss : σ * σ = 1 := by rcases h.dir with e | e <;> rw [e] <;> norm_num
  have ar := add_rounds ha h.dfin
  have hσr : σ * (a.val + d.val) = σ * a.val + 720 := by rw [h.dval]; linear_combination 720 * hss
  have af : (F64.add a d).Fin := by
    refine (ar.pow (e := 65) (by norm_num) ?_).1
    rw [abs_sigma h.dir, hσr, abs_le]; constructor <;> linarith
  have near : ∀ m : F64, m.Fin → |σ * (F64.add a d).val - (σ * a.val + 720)| ≤ |σ * m.val - (σ * a.val + 720)| := by
    intro m hm
    rw [← hσr, ← mul_sub, ← mul_sub, ← abs_sigma h.dir, ← abs_sigma h.dir]
    exact ar.nearest af m hm
  refine ⟨af, ?_, ?_⟩
  · have hn := near a ha
    rw [show σ * a.val - (σ * a.val + 720) = -720 by ring, abs_neg, abs_of_pos (by norm_num : (0 : ℝ) < 720)] at hn
    linarith [(abs_le.mp hn).1]
  · rcases h1.lt_or_eq with hlt | heq
    · by_contra hc
      have hg := stuck_gap h af (not_le.mp hc)
      have hn := near M h.fin
      rw [h.val] at hn
      have hn1 := le_trans (le_abs_self _) hn
      rcases abs_cases ((2 : ℝ) ^ 63 - (σ * a.val + 720)) with ⟨e, -⟩ | ⟨e, -⟩ <;> rw [e] at hn1 <;> linarith
    · have hv : a.val = M.val := by
        have : σ * a.val = σ * M.val := by rw [heq, h.val]
        rcases h.dir with e | e <;> rw [e] at this <;> linarith
      have hne : a.val ≠ 0 := by
        intro e; rw [e, mul_zero] at heq; norm_num at heq
      rw [val_inj ha h.fin hv hne, h.add, h.val]

omit [Libm] in
/-- the test of the loop stays true for a time beyond `2^63` -/
theorem stuck_far {σ : ℝ} {d M : F64} (h : Stuck σ d M) {t a : F64} (ht : (∃ b, t = .inf b) ∨ (t.Fin ∧ 2 ^ 63 < σ * t.val))
    (ha : a.Fin) (h0 : 0 ≤ σ * a.val) (h1 : σ * a.val ≤ 2 ^ 63) : fle (sci 7200 true 1) (F64.abs (F64.sub t a)) = true := by
  rcases ht with ⟨b, rfl⟩ | ⟨ht, hb⟩
  · obtain ⟨c, n, hn, rfl⟩ := fin_cases ha
    obtain ⟨c', n', hn', e⟩ := fin_cases lit_720.1
    rw [e]; rfl
  · have hg := stuck_gap h ht hb
    have sr := sub_rounds ht ha
    have sf : (F64.sub t a).Fin := by
      rcases h.dir with e | e
      · rw [e] at h0 h1 hg
        exact (sr.between isRep_zero (isRep_val ht) (by linarith) (by linarith)).1
      · rw [e] at h0 h1 hg
        exact (sr.between (isRep_val ht) isRep_zero (by linarith) (by linarith)).1
    rw [far_iff sf]
    have i720 : IsRep (720 : ℝ) := by simpa using isRep_int 720 (by norm_num)
    rcases h.dir with e | e
    · rw [e] at h0 h1 hg
      exact le_trans (sr.ge sf i720 (by linarith)) (le_abs_self _)
    · rw [e] at h0 h1 hg
      have := sr.le sf (isRep_neg i720) (by linarith)
      exact le_trans (by linarith) (neg_le_abs _)

/-- the integrator loop never exits for a time beyond `2^63` -/
theorem loop_forever (o : DspaceOptions F64) {σ : ℝ} {d M : F64} (h : Stuck σ d M)
    (ht : (∃ b, o.t = .inf b) ∨ (o.t.Fin ∧ 2 ^ 63 < σ * o.t.val)) (st : DspaceSt F64) (hi : st.iretn = 381)
    (ha : st.atime.Fin) (h0 : 0 ≤ σ * st.atime.val) (h1 : σ * st.atime.val ≤ 2 ^ 63) :
    whileLoop (fun st => st.iretn == 381) (dspaceBody o d) st = none := by
  rw [whileLoop_none_iff]
  have inv : ∀ k, (iterate (dspaceBody o d) k st).iretn = 381 ∧ (iterate (dspaceBody o d) k st).atime.Fin ∧
      0 ≤ σ * (iterate (dspaceBody o d) k st).atime.val ∧ σ * (iterate (dspaceBody o d) k st).atime.val ≤ 2 ^ 63 := by
    intro k
    induction k with
    | zero => exact ⟨hi, ha, h0, h1⟩
    | succ k ih =>
      obtain ⟨i1, i2, i3, i4⟩ := ih
      rw [iterate_succ']
      obtain ⟨b1, b2⟩ := body_far o d _ (stuck_far h ht i2 i3 i4)
      rw [b1]
      exact ⟨b2, stuck_step h i2 i3 i4⟩
  intro k
  simp [(inv k).1]

/-- **C09, violated.** A deep-space record with resonance, its integrator at epoch: for an infinite time and for every finite time beyond
`2^63` minutes `sgp4` never returns. -/
theorem C09_violated_forever (s : Satrec F64) (t : F64) (hD : s.method = .D) (hi : feq s.irez (sci 0 true 1) = false)
    (ha : feq s.atime (sci 0 true 1) = true) (ht : (∃ b, t = .inf b) ∨ (t.Fin ∧ 2 ^ 63 < |t.val|)) : sgp4 s t = none := by
  set o := dspaceOptions (atTime s t) (secular (atTime s t)) with ho
  have hloop : dspaceLoop o = none := by
    have hst : (dspaceStart o) = ⟨o.xlamo, o.no, sci 0 true 1, 0.0, 0.0, 0.0, 0.0, 381⟩ := by
      unfold dspaceStart
      have hc : ((o.atime ==. (0.0 : F64)) || (o.t * o.atime ≤. 0.0) || (Arith.abs o.t <. Arith.abs o.atime)) = true := by
        have : (o.atime ==. (0.0 : F64)) = true := ha
        rw [this]; rfl
      rw [if_pos hc]; rfl
    have delt : dspaceDelt o = if flt (sci 0 true 1) o.t then sci 7200 true 1 else F64.neg (sci 7200 true 1) := rfl
    have e : o.t = t := rfl
    unfold dspaceLoop
    rw [hst]
    have z : ∀ σ : ℝ, σ * (sci 0 true 1).val = 0 := fun σ => by rw [lit_zero.2, mul_zero]
    by_cases hp : flt (sci 0 true 1) o.t = true
    · rw [if_pos hp] at delt
      rw [delt]
      refine loop_forever o stuck_pos ?_ _ rfl lit_zero.1 (by rw [z]) (by rw [z]; norm_num)
      rcases ht with h | ⟨h1, h2⟩
      · exact Or.inl h
      · right
        rw [e, flt_fin lit_zero.1 h1, lit_zero.2] at hp
        rw [abs_of_pos hp] at h2
        exact ⟨h1, by rw [one_mul]; exact h2⟩
    · rw [if_neg hp] at delt
      rw [delt]
      refine loop_forever o stuck_neg ?_ _ rfl lit_zero.1 (by rw [z]) (by rw [z]; norm_num)
      rcases ht with h | ⟨h1, h2⟩
      · exact Or.inl h
      · right
        rw [e, flt_fin lit_zero.1 h1, lit_zero.2, not_lt] at hp
        rw [abs_of_nonpos hp] at h2
        exact ⟨h1, by rw [neg_one_mul]; exact h2⟩
  have hds : dspace o = none := by
    unfold dspace
    dsimp only
    have hz : ¬ (o.irez ==. (0.0 : F64)) = true := by
      have : (o.irez ==. (0.0 : F64)) = false := hi
      rw [this]; decide
    rw [if_neg hz, hloop]
  by_contra hne
  obtain ⟨r, hr⟩ := dspaceReturns_of_sgp4 hne hD
  rw [← ho, hds] at hr
  cases hr

/-- **C09.** Exactly when a resonant deep-space record whose integrator is at epoch cannot be propagated. -/
theorem C09_f64_exact (s : Satrec F64) (t : F64) (hD : s.method = .D) (hi : feq s.irez (sci 0 true 1) = false)
    (ha : feq s.atime (sci 0 true 1) = true) : sgp4 s t = none ↔ ((∃ b, t = .inf b) ∨ (t.Fin ∧ 2 ^ 63 < |t.val|)) := by
  refine ⟨fun h => ?_, C09_violated_forever s t hD hi ha⟩
  by_contra hc
  have : t = .nan ∨ (t.Fin ∧ |t.val| ≤ 2 ^ 63) := by
    rw [not_or] at hc
    cases t with
    | nan => exact Or.inl rfl
    | inf b => exact absurd ⟨b, rfl⟩ hc.1
    | fin a n hn => exact Or.inr ⟨trivial, not_lt.mp fun h => hc.2 ⟨trivial, h⟩⟩
  obtain ⟨s', r, hs⟩ := C09_f64_returns s t this
  rw [h] at hs
  cases hs

/-- the hypotheses are met by a synchronous deep-space record -/
example : sgp4 ({ Satrec.zero with method := .D, irez := 1.0 } : Satrec F64) (.inf false) = none :=
  C09_violated_forever _ _ rfl (show feq (sci 10 true 1) (sci 0 true 1) = false by decide +kernel)
    (show feq (sci 0 true 1) (sci 0 true 1) = true by decide +kernel) (Or.inl ⟨false, rfl⟩)

end
end Sat
