import Verif.Props.F64Latitude

/-!
# The satellite goes round

C105: in every 1.2 revolutions of the mean orbit the satellite is once well north and once well south of the equator.
-/

namespace Sat
open F64 hiding sub
open Spec Spec.R3 Chain

/-! ## The published theory -/

theorem quiet_numbers {q : Orbit} {t : ℝ} (Q : Quiet q t) (node : ℝ) :
    0 ≤ (q.mean node t).e ∧ (q.mean node t).e ≤ 0.44 ∧ 1.001 ≤ (q.mean node t).a * (1 - (q.mean node t).e) ∧
      1 ≤ (q.mean node t).a * (1 - (q.mean node t).e ^ 2) ∧ |(q.mean node t).axN| ≤ 0.44 := by
  obtain ⟨h1, h2, -⟩ := Q.shape node
  obtain ⟨e0, e1⟩ := Q.ecc
  obtain ⟨v1, v2⟩ := abs_le.mp h1
  have he0 : 0 ≤ (q.mean node t).e := le_max_of_le_right (by norm_num)
  have he1 : (q.mean node t).e ≤ 0.44 := by norm_num at *; linarith
  refine ⟨he0, he1, h2, ?_, ?_⟩
  · have : (q.mean node t).a * (1 - (q.mean node t).e ^ 2) = (q.mean node t).a * (1 - (q.mean node t).e) * (1 + (q.mean node t).e) := by ring
    rw [this]
    norm_num at h2
    nlinarith
  · unfold Mean.axN
    rw [abs_mul, abs_of_nonneg he0]
    exact (mul_le_of_le_one_right he0 (Real.abs_cos_le_one _)).trans he1

theorem continuous_mean {q : Orbit} {t : ℝ} (Q : Quiet q t) (node : ℝ) :
    ContinuousAt (fun s => (q.mean node s).U) t ∧ ContinuousAt (fun s => (q.mean node s).axN) t := by
  obtain ⟨_, _, _, _, _, D⟩ := Q.drift node
  obtain ⟨-, -, -, h4, -⟩ := quiet_numbers Q node
  have ce : ContinuousAt (fun s => (q.mean node s).e) t := D.he.continuousAt.max continuousAt_const
  have cw : ContinuousAt (fun s => (q.mean node s).ω) t := D.hw.continuousAt
  have ca : ContinuousAt (fun s => (q.mean node s).a) t := D.ha.continuousAt
  have cl : ContinuousAt (fun s => (q.mean node s).L) t := D.hl.continuousAt
  have ch : ContinuousAt (fun s => (q.mean node s).Ω) t := D.hh.continuousAt
  have cx : ContinuousAt (fun s => (q.mean node s).axN) t := ce.mul (Real.continuous_cos.continuousAt.comp cw)
  refine ⟨?_, cx⟩
  have cd : ContinuousAt (fun s => (q.mean node s).a * (1 - (q.mean node s).e ^ 2)) t := ca.mul (continuousAt_const.sub (ce.pow 2))
  exact (cl.add ((ContinuousAt.div (f := fun _ => longL q.inc) continuousAt_const cd (by linarith)).mul cx)).sub ch

theorem goes_round {q : Orbit} {A B node σ : ℝ} (hAB : A ≤ B) (hσ : σ = 1 ∨ σ = -1) (H : ∀ s, A ≤ s → s ≤ B → Quiet q s) (hn : 7.35 ≤ q.n * (B - A)) :
    ∃ t, A ≤ t ∧ t ≤ B ∧ ∃ E, (q.mean node t).kepler E = 0 ∧ Real.sin E = σ ∧ Real.cos E = 0 := by
  have hs1 : |σ| = 1 := by rcases hσ with rfl | rfl <;> norm_num
  set f : ℝ → ℝ := fun s => (q.mean node s).U + σ * (q.mean node s).axN - σ * (Real.pi / 2) with hf
  have hc : ContinuousOn f (Set.Icc A B) := by
    intro s hs
    obtain ⟨c1, c2⟩ := continuous_mean (H s hs.1 hs.2) node
    exact ((c1.add (c2.const_mul σ)).sub continuousAt_const).continuousWithinAt
  have hW : |(q.L node B - q.Ω node B) - (q.L node A - q.Ω node A) - q.n * (B - A)| ≤ 0.0064 * q.n * (B - A) := by
    have := increment (f := fun s => q.L node s - q.Ω node s) (t := A) (d := B - A) (C := 0.0064 * q.n) (k := q.n) (by linarith) (by
      intro s h1 h2
      obtain ⟨e', w', h', a', l', D⟩ := (H s h1 (by linarith)).drift node
      refine ⟨l' - h', D.hl.sub D.hh, ?_⟩
      have e : l' - h' - q.n = (l' - h' - (q.mean node s).n) + ((q.mean node s).n - q.n) := by ring
      rw [e]
      exact (abs_add_le _ _).trans ((add_le_add D.bl D.vn).trans (by ring_nf; exact le_rfl)))
    rw [show A + (B - A) = B by ring] at this
    exact this
  have near : ∀ s, A ≤ s → s ≤ B → |(q.mean node s).U + σ * (q.mean node s).axN - (q.L node s - q.Ω node s)| ≤ 0.484 := by
    intro s h1 h2
    have Q := H s h1 h2
    obtain ⟨-, -, -, g4, g5⟩ := quiet_numbers Q node
    have hl := longL_small Q.incl
    have e : (q.mean node s).U + σ * (q.mean node s).axN - (q.L node s - q.Ω node s) =
        (σ + longL q.inc / ((q.mean node s).a * (1 - (q.mean node s).e ^ 2))) * (q.mean node s).axN := by
      unfold Mean.U Orbit.mean; ring
    rw [e, abs_mul]
    have hd : |longL q.inc / ((q.mean node s).a * (1 - (q.mean node s).e ^ 2))| ≤ 0.1 := by
      rw [abs_div, abs_of_pos (lt_of_lt_of_le one_pos g4), div_le_iff₀ (lt_of_lt_of_le one_pos g4)]
      refine hl.trans ?_
      linarith
    calc |σ + longL q.inc / ((q.mean node s).a * (1 - (q.mean node s).e ^ 2))| * |(q.mean node s).axN| ≤ (1 + 0.1) * 0.44 :=
          mul_le_mul ((abs_add_le _ _).trans (add_le_add hs1.le hd)) g5 (abs_nonneg _) (by norm_num)
      _ ≤ 0.484 := by norm_num
  have hA := abs_le.mp (near A le_rfl hAB)
  have hB := abs_le.mp (near B hAB le_rfl)
  have hW' := abs_le.mp hW
  have hp := Real.pi_lt_d4
  have hp0 := Real.pi_pos
  have hgain : f A + 2 * Real.pi ≤ f B := by
    simp only [hf]
    have : 0.0064 * q.n * (B - A) = 0.0064 * (q.n * (B - A)) := by ring
    rw [this] at hW'
    generalize q.n * (B - A) = w at *
    generalize (q.mean node A).U + σ * (q.mean node A).axN = x at *
    generalize (q.mean node B).U + σ * (q.mean node B).axN = y at *
    norm_num at *; linarith
  set k : ℤ := ⌈f A / (2 * Real.pi)⌉ with hk
  have k1 : f A ≤ k * (2 * Real.pi) := by
    have := Int.le_ceil (f A / (2 * Real.pi))
    rwa [div_le_iff₀ (by positivity)] at this
  have k2 : k * (2 * Real.pi) ≤ f A + 2 * Real.pi := by
    have := (Int.ceil_lt_add_one (f A / (2 * Real.pi))).le
    have h3 : (k : ℝ) * (2 * Real.pi) ≤ (f A / (2 * Real.pi) + 1) * (2 * Real.pi) := mul_le_mul_of_nonneg_right this (by positivity)
    rwa [add_mul, div_mul_cancel₀ _ (by positivity), one_mul] at h3
  obtain ⟨t, ht, hft⟩ := intermediate_value_Icc hAB hc ⟨k1, k2.trans hgain⟩
  have hsin : Real.sin (σ * (Real.pi / 2) + k * (2 * Real.pi)) = σ := by
    rw [Real.sin_add_int_mul_two_pi]
    rcases hσ with rfl | rfl
    · rw [one_mul, Real.sin_pi_div_two]
    · rw [neg_one_mul, Real.sin_neg, Real.sin_pi_div_two]
  have hcos : Real.cos (σ * (Real.pi / 2) + k * (2 * Real.pi)) = 0 := by
    rw [Real.cos_add_int_mul_two_pi]
    rcases hσ with rfl | rfl
    · rw [one_mul, Real.cos_pi_div_two]
    · rw [neg_one_mul, Real.cos_neg, Real.cos_pi_div_two]
  refine ⟨t, ht.1, ht.2, σ * (Real.pi / 2) + k * (2 * Real.pi), ?_, hsin, hcos⟩
  unfold Mean.kepler
  rw [hsin, hcos]
  simp only [hf] at hft
  linarith

theorem top_of_orbit {q : Orbit} {t node σ E : ℝ} (Q : Quiet q t) (hσ : σ = 1 ∨ σ = -1) (hs : Real.sin E = σ) (hc : Real.cos E = 0) (hi : 0.001 ≤ Real.sin q.inc) :
    5000 * Real.sin q.inc - 2.5 ≤ σ * (q.mean node t).positionKm E 2 := by
  obtain ⟨g1, g2, g3, -, -⟩ := quiet_numbers Q node
  have F := Q.fair node
  obtain ⟨p1, p2, p3, -, p5, -, p7, -, -⟩ := perturbation_bounds (q.mean node t) E ⟨g1, g2.trans (by norm_num)⟩ (le_trans (by norm_num) g3)
  have hik := ik_near F E
  have hinc : (q.mean node t).i = q.inc := rfl
  rw [hinc] at hik
  set m := q.mean node t with hm
  have hr0 : m.r E ≠ 0 := by norm_num at p3; intro h0; rw [h0] at p3; norm_num at p3
  have hF := F.ecc
  obtain ⟨u1, u2⟩ := cos_u_sin_u m E hr0 p5
  have hu := sinu_sq_add_cosu_sq m E hr0 p5
  have hσ2 : σ * σ = 1 := by rcases hσ with rfl | rfl <;> norm_num
  -- the sine of the argument of latitude
  have hax : m.axN ^ 2 ≤ 0.2025 := by unfold Mean.eL2 at hF; norm_num at *; nlinarith [sq_nonneg m.ayN]
  have hay : |m.ayN| ≤ 0.45 := by
    refine abs_le_of_sq_le_sq ?_ (by norm_num)
    unfold Mean.eL2 at hF; nlinarith [sq_nonneg m.axN]
  have hay1 : σ * m.ayN ≤ 0.45 := by
    rcases hσ with rfl | rfl <;> linarith [abs_le.mp hay]
  have hβ : 0.85 ≤ Real.sqrt (1 - m.eL2) := Real.le_sqrt_of_sq_le (by norm_num at *; linarith)
  have hsu : 0.8 ≤ σ * m.sinu E := by
    have ha : m.a ≠ 0 := by linarith
    have hden : 0.55 ≤ 1 - σ * m.ayN := by norm_num at *; linarith
    have e : σ * m.sinu E = 1 - m.axN ^ 2 / ((1 + Real.sqrt (1 - m.eL2)) * (1 - σ * m.ayN)) := by
      have hr : m.r E = m.a * (1 - σ * m.ayN) := by unfold Mean.r Mean.ecosE; rw [hs, hc]; ring
      have he : m.esinE E = σ * m.axN := by unfold Mean.esinE; rw [hs, hc]; ring
      have n1 : 1 - σ * m.ayN ≠ 0 := by intro h0; rw [h0] at hden; norm_num at hden
      have n2 : 1 + Real.sqrt (1 - m.eL2) ≠ 0 := by positivity
      unfold Mean.sinu
      rw [hr, he, hs]
      generalize Real.sqrt (1 - m.eL2) = β at *
      field_simp
      linear_combination (1 + β - m.axN ^ 2) * hσ2
    rw [e]
    have hprod : 1.85 * 0.55 ≤ (1 + Real.sqrt (1 - m.eL2)) * (1 - σ * m.ayN) := mul_le_mul (by norm_num at *; linarith) hden (by norm_num) (by positivity)
    have : m.axN ^ 2 / ((1 + Real.sqrt (1 - m.eL2)) * (1 - σ * m.ayN)) ≤ 0.2 := by
      rw [div_le_iff₀ (lt_of_lt_of_le (by norm_num) hprod)]
      norm_num at *; linarith
    norm_num at *; linarith
  have hd : |m.uk E - m.u E| ≤ 0.001 := by
    have hp : 0.996 ≤ m.pL ^ 2 := by have := F.per; norm_num at this ⊢; nlinarith
    have h2 : |m.sin2u E| ≤ 1 := by
      unfold Mean.sin2u
      rw [abs_le]; constructor <;> nlinarith [sq_nonneg (m.sinu E + m.cosu E), sq_nonneg (m.sinu E - m.cosu E)]
    have hk : |R3.k2 / (4 * m.pL ^ 2)| ≤ 0.00014 := by
      have k0 : 0 < R3.k2 := by unfold R3.k2 R3.j2; norm_num
      rw [abs_of_pos (div_pos k0 (by linarith)), div_le_iff₀ (by linarith)]
      unfold R3.k2 R3.j2; norm_num at hp ⊢; linarith
    have h7 : |7 * m.θ ^ 2 - 1| ≤ 6 := by
      obtain ⟨t1, t2, -⟩ := Slow.θ_sq m
      rw [abs_le]; constructor <;> linarith
    have e : m.uk E - m.u E = -(R3.k2 / (4 * m.pL ^ 2) * (7 * m.θ ^ 2 - 1) * m.sin2u E) := by unfold Mean.uk; ring
    rw [e, abs_neg, abs_mul, abs_mul]
    calc |R3.k2 / (4 * m.pL ^ 2)| * |7 * m.θ ^ 2 - 1| * |m.sin2u E| ≤ 0.00014 * 6 * 1 :=
          mul_le_mul (mul_le_mul hk h7 (abs_nonneg _) (by norm_num)) h2 (abs_nonneg _) (by norm_num)
      _ ≤ 0.001 := by norm_num
  have lip : ∀ x y : ℝ, |Real.sin x - Real.sin y| ≤ |x - y| := fun x y => Real.abs_sin_sub_sin_le x y
  have hsk : 0.799 ≤ σ * Real.sin (m.uk E) := by
    have h1 := (lip (m.uk E) (m.u E)).trans hd
    rw [u2] at h1
    obtain ⟨h1, h2⟩ := abs_le.mp h1
    rcases hσ with rfl | rfl <;> (norm_num at *; linarith)
  have hsk1 : σ * Real.sin (m.uk E) ≤ 1 := by
    rcases hσ with rfl | rfl
    · rw [one_mul]; exact Real.sin_le_one _
    · have := Real.neg_one_le_sin (m.uk E); linarith
  have hsi : Real.sin q.inc - 0.00041 ≤ Real.sin (m.ik E) := by
    have := (abs_le.mp ((lip (m.ik E) q.inc).trans hik)).1
    linarith
  have hrk : 0.996 ≤ m.rk E := by
    have := (abs_le.mp p7).1
    norm_num at *; linarith
  have e : σ * m.positionKm E 2 = m.rk E * kmPerRadius * (σ * Real.sin (m.uk E)) * Real.sin (m.ik E) := by
    show σ * (m.rk E * m.Uvec E 2 * kmPerRadius) = _
    rw [show m.Uvec E 2 = Real.sin (m.ik E) * Real.sin (m.uk E) from rfl]; ring
  rw [e]
  have hC : 5075 ≤ m.rk E * kmPerRadius * (σ * Real.sin (m.uk E)) := by
    calc (5075 : ℝ) ≤ 0.996 * 6378.135 * 0.799 := by norm_num
      _ ≤ _ := mul_le_mul (mul_le_mul hrk (by unfold kmPerRadius; norm_num) (by norm_num) (le_trans (by norm_num) hrk)) hsk (by norm_num)
        (mul_nonneg (le_trans (by norm_num) hrk) (by unfold kmPerRadius; norm_num))
  have h0 : 0 ≤ Real.sin (m.ik E) := by norm_num at hi hsi ⊢; linarith
  calc 5000 * Real.sin q.inc - 2.5 ≤ 5075 * (Real.sin q.inc - 0.00041) := by norm_num at hi ⊢; linarith
    _ ≤ 5075 * Real.sin (m.ik E) := by linarith
    _ ≤ _ := mul_le_mul_of_nonneg_right hC h0

/-! ## From the printed text, in doubles -/

/-- recovering the mean motion, with no condition on the perigee -/
theorem recovered_lower {n e i : ℝ} (hn : 0 < n) (he : 0 ≤ e ∧ e ≤ 1 / 2) (ha : 0.94 ≤ (ke / n) ^ (2 / 3 : ℝ)) : 0.996 * n ≤ recoveredMotion n e i := by
  set a1 := (ke / n) ^ (2 / 3 : ℝ) with ha1
  set c := (3 * Real.cos i ^ 2 - 1) / Real.sqrt (1 - e ^ 2) ^ 3 with hc
  have hs : 0.86 ≤ Real.sqrt (1 - e ^ 2) := Real.le_sqrt_of_sq_le (by nlinarith [he.1, he.2])
  have hs3 : 0.636 ≤ Real.sqrt (1 - e ^ 2) ^ 3 := by
    calc (0.636 : ℝ) ≤ 0.86 ^ 3 := by norm_num
      _ ≤ _ := by gcongr
  have hcos : Real.cos i ^ 2 ≤ 1 := Real.cos_sq_le_one i
  have hcc : |c| ≤ 3.15 := by
    rw [hc, abs_div, abs_of_pos (lt_of_lt_of_le (by norm_num) hs3), div_le_iff₀ (lt_of_lt_of_le (by norm_num) hs3)]
    have : |3 * Real.cos i ^ 2 - 1| ≤ 2 := abs_le.mpr ⟨by nlinarith [sq_nonneg (Real.cos i)], by linarith⟩
    nlinarith
  have hk2 : (3 / 2 * R3.k2 : ℝ) = 0.0008119724917875 := by unfold R3.k2 R3.j2; norm_num
  have small : ∀ a : ℝ, 0.935 ≤ a → |3 / 2 * R3.k2 / a ^ 2 * c| ≤ 0.003 := by
    intro a h
    have h2 : 0.874 ≤ a ^ 2 := by nlinarith
    rw [abs_mul, hk2, abs_div, abs_of_pos (show (0 : ℝ) < a ^ 2 by linarith), abs_of_pos (by norm_num), div_mul_eq_mul_div,
      div_le_iff₀ (by linarith)]
    nlinarith [abs_nonneg c]
  have hδ1 := small a1 (by linarith)
  set δ1 := 3 / 2 * R3.k2 / a1 ^ 2 * c with hδ1d
  obtain ⟨l1, u1⟩ := abs_le.mp hδ1
  have ha0 : 0.935 ≤ a1 * (1 - δ1 / 3 - δ1 ^ 2 - 134 / 81 * δ1 ^ 3) := by
    have h2 : δ1 ^ 2 ≤ 0.003 ^ 2 := sq_le_sq' (by linarith) u1
    have h3 : δ1 ^ 3 ≤ 0.0001 := by
      have : δ1 ^ 3 = δ1 ^ 2 * δ1 := by ring
      rw [this]; nlinarith [sq_nonneg δ1]
    have : 0.998 ≤ 1 - δ1 / 3 - δ1 ^ 2 - 134 / 81 * δ1 ^ 3 := by norm_num at *; linarith
    nlinarith
  have hδ0 := small _ ha0
  have e : recoveredMotion n e i = n / (1 + 3 / 2 * R3.k2 / (a1 * (1 - δ1 / 3 - δ1 ^ 2 - 134 / 81 * δ1 ^ 3)) ^ 2 * c) := rfl
  rw [e]
  generalize 3 / 2 * R3.k2 / (a1 * (1 - δ1 / 3 - δ1 ^ 2 - 134 / 81 * δ1 ^ 3)) ^ 2 * c = δ0 at hδ0
  obtain ⟨l0, u0⟩ := abs_le.mp hδ0
  have hp : 0 < 1 + δ0 := by linarith
  rw [le_div_iff₀ hp]; nlinarith

theorem tle_motion_lower {v : Tle} {τ : ℝ} (hl : LowTle v τ) : 0.996 * tleMotion v ≤ (tleOrbit v).n ∧ 0 < tleMotion v ∧ tleMotion v ≤ 0.0785 := by
  have h1 : (645000000 : ℝ) ≤ v.noE8 := by exact_mod_cast hl.mot_lo
  have h2 : (v.noE8 : ℝ) ≤ 1798000000 := by exact_mod_cast hl.mot_hi
  have h3 : (v.eccE7 : ℝ) ≤ 4300000 := by exact_mod_cast hl.ecc
  have hp := Real.pi_lt_d4
  have hp0 := Real.pi_pos
  have hpos : 0 < tleMotion v := by unfold tleMotion; have : (0 : ℝ) < v.noE8 := by linarith
                                    positivity
  have hup : tleMotion v ≤ 0.0785 := by
    unfold tleMotion
    have : (v.noE8 : ℝ) * Real.pi ≤ 1798000000 * 3.1416 := mul_le_mul h2 hp.le hp0.le (by norm_num)
    norm_num at this ⊢; linarith
  refine ⟨recovered_lower hpos ⟨by unfold tleEcc; positivity, ?_⟩ ?_, hpos, hup⟩
  · unfold tleEcc; rw [div_le_iff₀ (by norm_num)]; linarith
  · have hk : ke / tleMotion v ≥ 0.94 := by
      rw [ge_iff_le, le_div_iff₀ hpos]
      have : (0.0738 : ℝ) ≤ ke := by unfold ke; norm_num
      norm_num at *; linarith
    rcases le_total (ke / tleMotion v) 1 with h | h
    · calc (0.94 : ℝ) ≤ ke / tleMotion v := hk
        _ = (ke / tleMotion v) ^ (1 : ℝ) := (Real.rpow_one _).symm
        _ ≤ _ := Real.rpow_le_rpow_of_exponent_ge (lt_of_lt_of_le (by norm_num) hk) h (by norm_num)
    · exact le_trans (by norm_num) (Real.one_le_rpow h (by norm_num))

/-- what holds at two times holds between them -/
theorem low_between {v : Tle} {A B s : ℝ} (hA : LowTle v A) (hB : LowTle v B) (h1 : A ≤ s) (h2 : s ≤ B) : LowTle v s := by
  have hs : |s| ≤ max |A| |B| := abs_le_max_abs_abs h1 h2
  refine { hA with time := hs.trans (max_le hA.time hB.time), drag := ?_ }
  have e : ∀ x : ℝ, |tleDrag v * x| * tleLow v ^ 5 = (|tleDrag v| * tleLow v ^ 5) * |x| := fun x => by rw [abs_mul]; ring
  have h5 : 0 ≤ |tleDrag v| * tleLow v ^ 5 := mul_nonneg (abs_nonneg _) (pow_nonneg (zero_le_one.trans (one_le_lowness _)) 5)
  have a := hA.drag
  have b := hB.drag
  rw [e] at a b ⊢
  refine (mul_le_mul_of_nonneg_left hs h5).trans ?_
  rcases max_choice |A| |B| with h | h <;> rw [h] <;> assumption

/-- a double just below a given time -/
theorem double_below {x : ℝ} (h : |x| ≤ 43200) : ∃ t : F64, t.Fin ∧ t.val ≤ x ∧ x - 1 / 400000 ≤ t.val := by
  have h1 := Int.floor_le (x * 2 ^ 20)
  have h2 := (Int.lt_floor_add_one (x * 2 ^ 20)).le
  obtain ⟨l, u⟩ := abs_le.mp h
  obtain ⟨t, t1, t2⟩ := isRep_int_div ⌊x * 2 ^ 20⌋ 20 (by
    rw [abs_le]
    constructor
    · have : (-(2 : ℝ) ^ 53) ≤ x * 2 ^ 20 := by norm_num; linarith
      exact Int.le_floor.mpr (by push_cast; norm_num at this ⊢; linarith)
    · have : ((⌊x * 2 ^ 20⌋ : ℤ) : ℝ) ≤ ((2 ^ 53 : ℤ) : ℝ) := h1.trans (by push_cast; norm_num; linarith)
      exact_mod_cast this) (by norm_num)
  refine ⟨t, t1, ?_, ?_⟩
  · rw [t2, div_le_iff₀ (by norm_num)]; exact h1
  · rw [t2, le_div_iff₀ (by norm_num)]
    generalize (⌊x * 2 ^ 20⌋ : ℝ) = z at *
    norm_num at h2 ⊢; linarith

/-- the sine of an inclination between 1 and 171 degrees, in units of 1/10000 degree -/
theorem steep {x : ℝ} (h1 : 10000 ≤ x) (h2 : x ≤ 1710000) : 0.0174 ≤ Real.sin (x / 10 ^ 4 * (Real.pi / 180)) := by
  have hpi := Real.pi_gt_d4
  have hp0 := Real.pi_pos
  set inc := x / 10 ^ 4 * (Real.pi / 180) with hinc
  have c1 : 0.01745 ≤ inc := by rw [hinc]; norm_num at hpi ⊢; nlinarith
  have c2 : inc ≤ Real.pi - 0.01745 := by rw [hinc]; norm_num at hpi ⊢; nlinarith
  have hs0 : (0.0174 : ℝ) ≤ Real.sin 0.01745 := by
    have := Real.sin_gt_sub_cube (x := 0.01745) (by norm_num)
    norm_num at this ⊢; linarith
  rcases le_total inc (Real.pi / 2) with hh | hh
  · exact hs0.trans (Real.sin_le_sin_of_le_of_le_pi_div_two (by norm_num at hpi ⊢; linarith) hh c1)
  · rw [← Real.sin_pi_sub]
    exact hs0.trans (Real.sin_le_sin_of_le_of_le_pi_div_two (by norm_num at hpi ⊢; linarith) (by linarith) (by linarith))

variable [Libm]

theorem once_round (hL : Libm.Faithful) {l1 l2 : Str} {v : Tle} (h : Printed l1 l2 v) (hpos : v.nddotNeg = false ∨ v.nddotMant = 0)
    (hnd : Normal v.nddotMant) (hb : Normal v.bstarMant) {A B : ℝ} (hAB : A ≤ B) (hA : LowTle v A) (hB : LowTle v B)
    (hrev : 1.2 ≤ (v.noE8 : ℝ) / 10 ^ 8 / 1440 * (B - A)) (hi : 10000 ≤ v.inclE4) {σ : ℝ} (hσ : σ = 1 ∨ σ = -1) :
    ∃ (t : F64) (s : Satrec F64) (p : SGP4Result F64), t.Fin ∧ A ≤ t.val ∧ t.val ≤ B ∧ twoline2satrec l1 l2 = .ok s ∧
      (sgp4 s t).map Prod.snd = some (.ok p) ∧ p.position.z.Fin ∧
      5000 * Real.sin ((v.inclE4 : ℝ) / 10 ^ 4 * (Real.pi / 180)) - 3 ≤ σ * p.position.z.val := by
  obtain ⟨n1, n2, n3⟩ := tle_motion_lower hA
  have hpi := Real.pi_gt_d4
  have hm : 1.2 * (2 * 3.1415) ≤ tleMotion v * (B - A) := by
    have e : tleMotion v * (B - A) = (v.noE8 : ℝ) / 10 ^ 8 / 1440 * (B - A) * (2 * Real.pi) := by unfold tleMotion; ring
    rw [e]
    exact mul_le_mul hrev (by linarith) (by norm_num) (le_trans (by norm_num) hrev)
  have hlen : 1 ≤ B - A := by
    by_contra hcon
    have : tleMotion v * (B - A) ≤ 0.0785 * 1 := mul_le_mul n3 (by linarith) (by linarith) (by norm_num)
    norm_num at *; linarith
  have H : ∀ s, A + 1 / 400000 ≤ s → s ≤ B → Quiet (tleOrbit v) s := fun s h1 h2 => quiet_low hL h hpos hnd hb (low_between hA hB (by linarith) h2)
  have hn : 7.35 ≤ (tleOrbit v).n * (B - (A + 1 / 400000)) := by
    have h1 : 0.999 * (B - A) ≤ B - (A + 1 / 400000) := by norm_num; linarith
    calc (7.35 : ℝ) ≤ 0.996 * 0.999 * (1.2 * (2 * 3.1415)) := by norm_num
      _ ≤ 0.996 * 0.999 * (tleMotion v * (B - A)) := mul_le_mul_of_nonneg_left hm (by norm_num)
      _ = 0.996 * tleMotion v * (0.999 * (B - A)) := by ring
      _ ≤ _ := mul_le_mul n1 h1 (by linarith) (le_trans (by linarith) n1)
  obtain ⟨τ, τ1, τ2, E, hk, hsin, hcos⟩ := goes_round (node := tleNode v) (by linarith) hσ H hn
  have hlow := low_between hA hB (s := τ) (by linarith) τ2
  obtain ⟨t, tf, t1, t2⟩ := double_below hlow.time
  have hlow' := low_between hA hB (s := t.val) (by linarith) (by linarith)
  obtain ⟨s, p, hs, hp, hc⟩ := C85_text_to_state_f64 hL l1 l2 v h hpos hnd hb t tf hlow'
  obtain ⟨E', k1, k2, k3, -⟩ := near_of_close (τ := τ) (by rw [abs_le]; constructor <;> linarith) (quiet_low hL h hpos hnd hb hlow') (H τ τ1 τ2) hc
  have hE : E = E' := k2 E hk
  subst hE
  have hsi : 0.001 ≤ Real.sin (tleOrbit v).inc := le_trans (by norm_num) (steep (by exact_mod_cast hi) (by exact_mod_cast hA.incl))
  have htop := top_of_orbit (node := tleNode v) (H τ τ1 τ2) hσ hsin hcos hsi
  refine ⟨t, s, p, tf, by linarith, by linarith, hs, hp, k3.2.2.1, ?_⟩
  have hz := abs_le.mp k3.2.2.2
  have e3 : (vec (((tleOrbit v).mean (tleNode v) τ).positionKm E)).z = ((tleOrbit v).mean (tleNode v) τ).positionKm E 2 := rfl
  rw [e3] at hz
  have e4 : Real.sin ((v.inclE4 : ℝ) / 10 ^ 4 * (Real.pi / 180)) = Real.sin (tleOrbit v).inc := rfl
  rw [e4]
  rcases hσ with rfl | rfl <;> (norm_num at *; linarith)

/-- **C105.** The satellite goes round. Take the text of an element set of a low or middle orbit inclined by at least one degree, and any
interval of 1.2 printed revolutions in which the set is in range. Then there is a time in the interval, a double, for which the propagator
reports a position well to the north of the equatorial plane, and one for which it reports a position well to the south of it. -/
theorem C105_goes_round_f64 (hL : Libm.Faithful) (l1 l2 : Str) (v : Tle) (h : Printed l1 l2 v) (hpos : v.nddotNeg = false ∨ v.nddotMant = 0)
    (hnd : Normal v.nddotMant) (hb : Normal v.bstarMant) (A B : ℝ) (hAB : A ≤ B) (hA : LowTle v A) (hB : LowTle v B)
    (hrev : 1.2 ≤ (v.noE8 : ℝ) / 10 ^ 8 / 1440 * (B - A)) (hi : 10000 ≤ v.inclE4) :
    ∃ (s : Satrec F64) (t₁ t₂ : F64) (p₁ p₂ : SGP4Result F64), twoline2satrec l1 l2 = .ok s ∧
      (t₁.Fin ∧ A ≤ t₁.val ∧ t₁.val ≤ B ∧ (sgp4 s t₁).map Prod.snd = some (.ok p₁)) ∧
      (t₂.Fin ∧ A ≤ t₂.val ∧ t₂.val ≤ B ∧ (sgp4 s t₂).map Prod.snd = some (.ok p₂)) ∧
      p₁.position.z.Fin ∧ p₂.position.z.Fin ∧
      let north := 5000 * Real.sin ((v.inclE4 : ℝ) / 10 ^ 4 * (Real.pi / 180)) - 3
      80 ≤ north ∧ north ≤ p₁.position.z.val ∧ p₂.position.z.val ≤ -north := by
  obtain ⟨t₁, s, p₁, a1, a2, a3, a4, a5, a6, a7⟩ := once_round hL h hpos hnd hb hAB hA hB hrev hi (σ := 1) (Or.inl rfl)
  obtain ⟨t₂, s', p₂, b1, b2, b3, b4, b5, b6, b7⟩ := once_round hL h hpos hnd hb hAB hA hB hrev hi (σ := -1) (Or.inr rfl)
  have e : s' = s := by rw [a4] at b4; exact (Res.ok.inj b4).symm
  subst e
  refine ⟨s', t₁, t₂, p₁, p₂, a4, ⟨a1, a2, a3, a5⟩, ⟨b1, b2, b3, b5⟩, a6, b6, ?_, by linarith, by linarith⟩
  have hs := steep (x := v.inclE4) (by exact_mod_cast hi) (by exact_mod_cast hA.incl)
  generalize Real.sin ((v.inclE4 : ℝ) / 10 ^ 4 * (Real.pi / 180)) = y at *
  norm_num at hs ⊢; linarith

/-- The International Space Station in the two hours from one week after the epoch. -/
theorem iss_goes_round (hL : Libm.Faithful) :
    ∃ (s : Satrec F64) (t₁ t₂ : F64) (p₁ p₂ : SGP4Result F64), twoline2satrec "1 25544U 98067A   08264.51782528 -.00002182  00000-0 -11606-4 0  2927".toList
        "2 25544  51.6416 247.4627 0006703 130.5360 325.0288 15.72125391563537".toList = .ok s ∧
      (t₁.Fin ∧ 10080 ≤ t₁.val ∧ t₁.val ≤ 10200 ∧ (sgp4 s t₁).map Prod.snd = some (.ok p₁)) ∧
      (t₂.Fin ∧ 10080 ≤ t₂.val ∧ t₂.val ≤ 10200 ∧ (sgp4 s t₂).map Prod.snd = some (.ok p₂)) ∧
      80 ≤ p₁.position.z.val ∧ p₂.position.z.val ≤ -80 := by
  obtain ⟨s, t₁, t₂, p₁, p₂, h1, h2, h3, -, -, h4, h5, h6⟩ := C105_goes_round_f64 hL _ _ _ iss_printed (Or.inl rfl) (Or.inl rfl) (Or.inr (by decide))
    10080 10200 (by norm_num) (iss_low (by norm_num [abs_of_pos])) (iss_low (by norm_num [abs_of_pos])) (by norm_num) (by decide)
  exact ⟨s, t₁, t₂, p₁, p₂, h1, h2, h3, h4.trans h5, by linarith⟩

end Sat
