import Verif.Props.MotionSecular
/-!
# The state of the theory at two neighbouring instants

For ordinary low orbits the mean elements are Lipschitz functions of time even where the lower limit of the eccentricity begins or ceases to act.
A path of mean elements is drawn straight from those of one instant to those of another, and the rates of `Props/MotionOrbit.lean` apply along it.
-/

namespace Sat
open Spec.R3 Filter Topology

/-- mean motions of neighbouring semi-major axes -/
theorem motion_close {m₀ m₁ : Mean} (h0 : 0 < m₀.a) {ε : ℝ} (hε : ε ≤ 0.01) (h : |m₁.a - m₀.a| ≤ ε * m₀.a) :
    |m₁.n - m₀.n| ≤ 4 * ε * m₀.n := by
  obtain ⟨h1, h2⟩ := abs_le.mp h
  have hk : (0:ℝ) < ke := by unfold ke; norm_num
  have ε0 : 0 ≤ ε := by
    have := (abs_nonneg _).trans h
    by_contra hc; push Not at hc; nlinarith
  have hp : 0 < m₁.a := by
    have : m₁.a ≥ (1 - ε) * m₀.a := by linarith
    have : 0 < (1 - ε) * m₀.a := mul_pos (by norm_num at *; linarith) h0
    linarith
  set r := m₀.a / m₁.a with hr
  have hr0 : 0 < r := by positivity
  have r1 : r ≤ 1 + 1.02 * ε := by
    rw [hr, div_le_iff₀ hp]
    have : (1 - ε) * m₀.a ≤ m₁.a := by linarith
    have h3 : 1 ≤ (1 + 1.02 * ε) * (1 - ε) := by norm_num at *; nlinarith
    calc m₀.a = 1 * m₀.a := (one_mul _).symm
      _ ≤ (1 + 1.02 * ε) * (1 - ε) * m₀.a := by gcongr
      _ = (1 + 1.02 * ε) * ((1 - ε) * m₀.a) := by ring
      _ ≤ _ := by gcongr
  have r2 : 1 - ε ≤ r := by
    rw [hr, le_div_iff₀ hp]
    have : m₁.a ≤ (1 + ε) * m₀.a := by linarith
    have h4 : 0 ≤ 1 - ε := by norm_num at *; linarith
    calc (1 - ε) * m₁.a ≤ (1 - ε) * ((1 + ε) * m₀.a) := by gcongr
      _ = (1 - ε ^ 2) * m₀.a := by ring
      _ ≤ 1 * m₀.a := by gcongr; nlinarith
      _ = _ := one_mul _
  have e : m₁.n = m₀.n * r ^ (3 / 2 : ℝ) := by
    unfold Mean.n
    rw [hr, Real.div_rpow h0.le hp.le]
    have : 0 < m₀.a ^ (3 / 2 : ℝ) := Real.rpow_pos_of_pos h0 _
    field_simp
  have hn0 : 0 < m₀.n := div_pos hk (Real.rpow_pos_of_pos h0 _)
  have hup : r ^ (3 / 2 : ℝ) ≤ 1 + 4 * ε := by
    rcases le_total r 1 with h | h
    · have := Real.rpow_le_one hr0.le h (by norm_num : (0:ℝ) ≤ 3 / 2); linarith
    · have h5 : r ^ (3 / 2 : ℝ) ≤ r ^ (2 : ℝ) := Real.rpow_le_rpow_of_exponent_le h (by norm_num)
      rw [Real.rpow_two] at h5
      have : r ^ 2 ≤ (1 + 1.02 * ε) ^ 2 := by gcongr
      norm_num at *; nlinarith
  have hlo : 1 - 4 * ε ≤ r ^ (3 / 2 : ℝ) := by
    rcases le_total r 1 with h | h
    · have h5 : r ^ (2 : ℝ) ≤ r ^ (3 / 2 : ℝ) := Real.rpow_le_rpow_of_exponent_ge hr0 h (by norm_num)
      rw [Real.rpow_two] at h5
      have h4 : 0 ≤ 1 - ε := by norm_num at *; linarith
      have : (1 - ε) ^ 2 ≤ r ^ 2 := by gcongr
      nlinarith
    · have := Real.one_le_rpow h (by norm_num : (0:ℝ) ≤ 3 / 2); linarith
  rw [e, show m₀.n * r ^ (3 / 2 : ℝ) - m₀.n = (r ^ (3 / 2 : ℝ) - 1) * m₀.n by ring, abs_mul, abs_of_pos hn0]
  gcongr
  rw [abs_le]; constructor <;> linarith

/-- the straight path between two sets of mean elements -/
noncomputable def chord (m₀ m₁ : Mean) (d s : ℝ) : Mean :=
  { a := m₀.a + (m₁.a - m₀.a) / d * s, e := m₀.e + (m₁.e - m₀.e) / d * s, ω := m₀.ω + (m₁.ω - m₀.ω) / d * s,
    Ω := m₀.Ω + (m₁.Ω - m₀.Ω) / d * s, L := m₀.L + (m₁.L - m₀.L) / d * s, i := m₀.i }

/-- Mean elements `d` minutes apart, changing slowly. -/
structure Apart (m₀ m₁ : Mean) (d : ℝ) : Prop where
  pos : 0 < d
  short : d ≤ 0.001
  mot : m₀.n ≤ 0.1
  he : |m₁.e - m₀.e| ≤ 0.00002 * m₀.n * d
  hw : |m₁.ω - m₀.ω| ≤ 0.01 * m₀.n * d
  hew : |m₀.e * (m₁.ω - m₀.ω)| ≤ 0.000847 * m₀.n * d
  hh : |m₁.Ω - m₀.Ω| ≤ 0.0017 * m₀.n * d
  ha : |m₁.a - m₀.a| ≤ 0.00001 * m₀.a * m₀.n * d
  hl : |m₁.L - m₀.L - (m₁.Ω - m₀.Ω) - m₀.n * d| ≤ 0.0052 * m₀.n * d
  inc : m₁.i = m₀.i
  ecc : 0 ≤ m₀.e ∧ 0 ≤ m₁.e ∧ m₀.e ≤ 0.435
  per : 1.001 ≤ m₀.a * (1 - m₀.e)
  long : |longL m₀.i| ≤ 0.1

set_option maxHeartbeats 1000000 in
theorem Apart.rates {m₀ m₁ : Mean} {d : ℝ} (H : Apart m₀ m₁ d) {s : ℝ} (hs : 0 ≤ s ∧ s ≤ d) :
    Rates (chord m₀ m₁ d) s ((m₁.e - m₀.e) / d) ((m₁.ω - m₀.ω) / d) ((m₁.Ω - m₀.Ω) / d) ((m₁.a - m₀.a) / d) ((m₁.L - m₀.L) / d) ∧
    (chord m₀ m₁ d s).n ≤ 1.0001 * m₀.n ∧ (chord m₀ m₁ d s).a ≤ 1.0001 * m₀.a := by
  obtain ⟨s0, s1⟩ := hs
  have hd := H.pos
  have hd1 := H.short
  obtain ⟨e0, e1, e2⟩ := H.ecc
  have hper := H.per
  have ha0 : 0 < m₀.a := by
    by_contra h; push Not at h; norm_num at *; nlinarith
  have ha1 : 1 ≤ m₀.a := by
    norm_num at *; nlinarith
  have hk : (0:ℝ) < ke := by unfold ke; norm_num
  have hn0 : 0 < m₀.n := div_pos hk (Real.rpow_pos_of_pos ha0 _)
  have hmot := H.mot
  have dv : ∀ {x y : ℝ}, |x| ≤ y * d → |x / d| ≤ y := fun {x y} h => by
    rw [abs_div, abs_of_pos hd, div_le_iff₀ hd]; exact h
  have be : |(m₁.e - m₀.e) / d| ≤ 0.00002 * m₀.n := dv H.he
  have bw : |(m₁.ω - m₀.ω) / d| ≤ 0.01 * m₀.n := dv H.hw
  have bew : |m₀.e * (m₁.ω - m₀.ω) / d| ≤ 0.000847 * m₀.n := dv H.hew
  have bh : |(m₁.Ω - m₀.Ω) / d| ≤ 0.0017 * m₀.n := dv H.hh
  have ba : |(m₁.a - m₀.a) / d| ≤ 0.00001 * m₀.a * m₀.n := dv H.ha
  have bl : |(m₁.L - m₀.L) / d - (m₁.Ω - m₀.Ω) / d - m₀.n| ≤ 0.0052 * m₀.n := by
    rw [show (m₁.L - m₀.L) / d - (m₁.Ω - m₀.Ω) / d - m₀.n = (m₁.L - m₀.L - (m₁.Ω - m₀.Ω) - m₀.n * d) / d by field_simp]
    exact dv H.hl
  have bs : |s| ≤ 0.001 := by rw [abs_of_nonneg s0]; linarith
  have hea : |(chord m₀ m₁ d s).a - m₀.a| ≤ 1e-8 * m₀.a := by
    rw [show (chord m₀ m₁ d s).a - m₀.a = (m₁.a - m₀.a) / d * s by show m₀.a + _ - m₀.a = _; ring]
    refine (abs_mul_bd ba bs).trans ?_
    norm_num at *; nlinarith
  have hen := motion_close ha0 (by norm_num) hea
  have hee : |(chord m₀ m₁ d s).e - m₀.e| ≤ 1e-8 := by
    rw [show (chord m₀ m₁ d s).e - m₀.e = (m₁.e - m₀.e) / d * s by show m₀.e + _ - m₀.e = _; ring]
    refine (abs_mul_bd be bs).trans ?_
    norm_num at *; linarith
  obtain ⟨a3, a4⟩ := abs_le.mp hea
  obtain ⟨n3, n4⟩ := abs_le.mp hen
  obtain ⟨e3, e4⟩ := abs_le.mp hee
  set M := chord m₀ m₁ d s with hM
  have lin : ∀ a b : ℝ, HasDerivAt (fun s : ℝ => a + b * s) b s := fun a b => by
    simpa using ((hasDerivAt_id s).const_mul b).const_add a
  have hMe : 0 ≤ M.e := by
    have : M.e = m₀.e * (1 - s / d) + m₁.e * (s / d) := by
      show m₀.e + (m₁.e - m₀.e) / d * s = _; ring
    rw [this]
    have : s / d ≤ 1 := by rw [div_le_one hd]; exact s1
    have : 0 ≤ s / d := by positivity
    have : 0 ≤ 1 - s / d := by linarith
    positivity
  refine ⟨⟨lin _ _, lin _ _, lin _ _, lin _ _, lin _ _, ?_, ?_, ?_, ?_, ?_, fun _ => rfl, ⟨hMe, ?_⟩, ?_, H.long⟩, ?_, ?_⟩
  · norm_num at *; linarith
  · rw [← hM, show M.e * ((m₁.ω - m₀.ω) / d) = m₀.e * (m₁.ω - m₀.ω) / d + (M.e - m₀.e) * ((m₁.ω - m₀.ω) / d) by ring]
    refine (abs_add_bd bew (abs_mul_bd hee bw)).trans ?_
    norm_num at *; linarith
  · norm_num at *; linarith
  · rw [← hM]
    refine ba.trans ?_
    have h1 : 0.99 * m₀.a ≤ M.a := by norm_num at *; linarith
    have h2 : 0.99 * m₀.n ≤ M.n := by norm_num at *; linarith
    have h3 : 0 < M.a := by norm_num at *; linarith
    calc 0.00001 * m₀.a * m₀.n ≤ 0.0001 * (0.99 * m₀.a) * (0.99 * m₀.n) := by
          have : 0 < m₀.a * m₀.n := by positivity
          norm_num at *; linarith
      _ ≤ _ := by gcongr
  · rw [← hM, show (m₁.L - m₀.L) / d - (m₁.Ω - m₀.Ω) / d - M.n = ((m₁.L - m₀.L) / d - (m₁.Ω - m₀.Ω) / d - m₀.n) - (M.n - m₀.n) by ring]
    refine (abs_sub_bd bl hen).trans ?_
    norm_num at *; linarith
  · rw [← hM]; norm_num at *; linarith
  · rw [← hM]
    have h1 : (1 - 1e-8) * m₀.a ≤ M.a := by norm_num at *; linarith
    have h2 : 1 - m₀.e - 1e-8 ≤ 1 - M.e := by norm_num at *; linarith
    calc (1:ℝ) ≤ (1 - 1e-8) * m₀.a * (1 - m₀.e - 1e-8) := by norm_num at *; nlinarith
      _ ≤ _ := mul_le_mul h1 h2 (by norm_num at *; linarith) (by norm_num at *; linarith)
  · norm_num at *; linarith
  · norm_num at *; linarith

theorem lipschitz_on {f f' : ℝ → ℝ} {C d : ℝ} (hd : 0 ≤ d) (hf : ∀ x, 0 ≤ x → x ≤ d → HasDerivAt f (f' x) x) (hb : ∀ x, 0 ≤ x → x ≤ d → |f' x| ≤ C) :
    |f d - f 0| ≤ C * d := by
  have := Convex.norm_image_sub_le_of_norm_hasDerivWithin_le (f := f) (f' := f') (s := Set.Icc 0 d) (C := C) (x := 0) (y := d)
    (fun z hz => (hf z hz.1 hz.2).hasDerivWithinAt) (fun z hz => hb z hz.1 hz.2) (convex_Icc 0 d) ⟨le_rfl, hd⟩ ⟨hd, le_rfl⟩
  rw [sub_zero, Real.norm_eq_abs, Real.norm_eq_abs, abs_of_nonneg hd] at this
  exact this

theorem Apart.states {m₀ m₁ : Mean} {d : ℝ} (H : Apart m₀ m₁ d) (j : Fin 3) :
    |m₁.positionKm (keplerRoot m₁) j - m₀.positionKm (keplerRoot m₀) j| ≤ 2.71 * (m₀.n * m₀.a * kmPerRadius) * d ∧
    |m₁.velocityKmS (keplerRoot m₁) j - m₀.velocityKmS (keplerRoot m₀) j| ≤ 15.1 * (m₀.n * (m₀.n * m₀.a * kmPerRadius / 60)) * d := by
  have hd := H.pos
  have c0 : chord m₀ m₁ d 0 = m₀ := by unfold chord; simp
  have c1 : chord m₀ m₁ d d = m₁ := by
    unfold chord
    rw [div_mul_cancel₀ _ hd.ne', div_mul_cancel₀ _ hd.ne', div_mul_cancel₀ _ hd.ne', div_mul_cancel₀ _ hd.ne', div_mul_cancel₀ _ hd.ne',
      ← H.inc]
    simp
  have hR : (0:ℝ) < kmPerRadius := by unfold kmPerRadius; norm_num
  have ex : ∀ s, ∃ p' v', (0 ≤ s → s ≤ d → HasDerivAt (fun s => (chord m₀ m₁ d s).positionKm (keplerRoot (chord m₀ m₁ d s)) j) p' s ∧
      |p'| ≤ 2.71 * (m₀.n * m₀.a * kmPerRadius) ∧ HasDerivAt (fun s => (chord m₀ m₁ d s).velocityKmS (keplerRoot (chord m₀ m₁ d s)) j) v' s ∧
      |v'| ≤ 15.1 * (m₀.n * (m₀.n * m₀.a * kmPerRadius / 60))) := by
    intro s
    by_cases hs : 0 ≤ s ∧ s ≤ d
    · obtain ⟨R, q1, q2⟩ := H.rates hs
      obtain ⟨hF, -⟩ := fair_of R.ecc R.per
      have hN : 0 < (chord m₀ m₁ d s).n := (slow_shift hF 0).n_pos
      have hA : 0 < (chord m₀ m₁ d s).a := by have := hF.axis; linarith
      obtain ⟨p', g1, -, g2⟩ := R.motion j
      obtain ⟨v', g3, g4⟩ := R.acceleration j
      have hn0 : 0 < m₀.n := by norm_num at *; linarith
      have ha0 : 0 < m₀.a := by norm_num at *; linarith
      have hp : (chord m₀ m₁ d s).n * (chord m₀ m₁ d s).a ≤ 1.0001 * m₀.n * (1.0001 * m₀.a) := mul_le_mul q1 q2 hA.le (by positivity)
      refine ⟨p', v', fun _ _ => ⟨g1, ?_, g3, ?_⟩⟩
      · rw [abs_div, abs_of_pos (by norm_num : (0:ℝ) < 60), div_le_iff₀ (by norm_num)] at g2
        refine g2.trans ?_
        calc 2.7 * ((chord m₀ m₁ d s).n * (chord m₀ m₁ d s).a * kmPerRadius / 60) * 60 ≤ 2.7 * (1.0001 * m₀.n * (1.0001 * m₀.a) * kmPerRadius / 60) * 60 := by gcongr
          _ = (2.7 * 1.0001 ^ 2) * (m₀.n * m₀.a * kmPerRadius) := by ring
          _ ≤ _ := by gcongr; norm_num
      · refine g4.trans ?_
        calc 15 * ((chord m₀ m₁ d s).n * ((chord m₀ m₁ d s).n * (chord m₀ m₁ d s).a * kmPerRadius / 60)) ≤
              15 * (1.0001 * m₀.n * (1.0001 * m₀.n * (1.0001 * m₀.a) * kmPerRadius / 60)) := by gcongr
          _ = (15 * 1.0001 ^ 3) * (m₀.n * (m₀.n * m₀.a * kmPerRadius / 60)) := by ring
          _ ≤ _ := by gcongr; norm_num
    · exact ⟨0, 0, fun h1 h2 => absurd ⟨h1, h2⟩ hs⟩
  choose p' v' h using ex
  have k1 := lipschitz_on hd.le (fun s h1 h2 => (h s h1 h2).1) (fun s h1 h2 => (h s h1 h2).2.1)
  have k2 := lipschitz_on hd.le (fun s h1 h2 => (h s h1 h2).2.2.1) (fun s h1 h2 => (h s h1 h2).2.2.2)
  rw [c0, c1] at k1 k2
  exact ⟨k1, k2⟩

/-! ## Application to the secular theory -/

/-- mean value estimate on an interval, with the rate compared to a constant -/
theorem increment {f : ℝ → ℝ} {t d C k : ℝ} (hd : 0 ≤ d) (h : ∀ s, t ≤ s → s ≤ t + d → ∃ f', HasDerivAt f f' s ∧ |f' - k| ≤ C) :
    |f (t + d) - f t - k * d| ≤ C * d := by
  have h' : ∀ s, ∃ f', t ≤ s → s ≤ t + d → HasDerivAt f f' s ∧ |f' - k| ≤ C := by
    intro s
    by_cases hs : t ≤ s ∧ s ≤ t + d
    · obtain ⟨f', h1⟩ := h s hs.1 hs.2; exact ⟨f', fun _ _ => h1⟩
    · exact ⟨0, fun h1 h2 => absurd ⟨h1, h2⟩ hs⟩
  choose f' hf using h'
  have := Convex.norm_image_sub_le_of_norm_hasDerivWithin_le (f := fun s => f s - k * s) (f' := fun s => f' s - k) (s := Set.Icc t (t + d)) (C := C) (x := t) (y := t + d)
    (fun z hz => ((hf z hz.1 hz.2).1.sub (by simpa using (hasDerivAt_id z).const_mul k)).hasDerivWithinAt) (fun z hz => (hf z hz.1 hz.2).2) (convex_Icc _ _) ⟨le_rfl, by linarith⟩ ⟨by linarith, le_rfl⟩
  rw [add_sub_cancel_left, Real.norm_eq_abs, Real.norm_eq_abs, abs_of_nonneg hd] at this
  rw [show f (t + d) - f t - k * d = f (t + d) - k * (t + d) - (f t - k * t) by ring]
  exact this

/-- the mean elements stay those of an ordinary low orbit -/
theorem Quiet.shape {q : Orbit} {t : ℝ} (Q : Quiet q t) (node : ℝ) :
    |(q.mean node t).e - q.e| ≤ 0.00076 ∧ 1.001 ≤ (q.mean node t).a * (1 - (q.mean node t).e) ∧ (q.mean node t).a ≤ 2.1 := by
  obtain ⟨_, _, _, _, _, D⟩ := Q.drift node
  have ha := Q.a_lo
  have hp := Q.per
  have hx := Q.axis
  obtain ⟨e0, e1⟩ := Q.ecc
  obtain ⟨v1, v2⟩ := abs_le.mp D.ve
  obtain ⟨v3, v4⟩ := abs_le.mp D.va
  have hme : (q.mean node t).e = max (q.eRaw t) (1 / 10 ^ 6) := rfl
  have hma : (q.mean node t).a = q.aT t := rfl
  have heb : |(q.mean node t).e - q.e| ≤ 0.00076 := by
    rw [hme, abs_le]
    constructor
    · linarith [le_max_left (q.eRaw t) (1 / 10 ^ 6)]
    · rcases le_total (q.eRaw t) (1 / 10 ^ 6) with h | h
      · rw [max_eq_right h]; norm_num at *; linarith
      · rw [max_eq_left h]; norm_num at *; linarith
  obtain ⟨v7, v8⟩ := abs_le.mp heb
  refine ⟨heb, ?_, by rw [hma]; norm_num at *; linarith⟩
  rw [hma]
  have h1 : 0.99905 * q.a ≤ q.aT t := by norm_num at *; linarith
  have h2 : 1 - q.e - 0.00076 ≤ 1 - (q.mean node t).e := by linarith
  have h3 : 0 ≤ 1 - q.e - 0.00076 := by norm_num at *; linarith
  calc (1.001:ℝ) ≤ 0.99905 * q.a * (1 - q.e - 0.00076) := by
        norm_num at *; nlinarith
    _ ≤ _ := mul_le_mul h1 h2 h3 (by norm_num at *; linarith)

theorem Quiet.fair {q : Orbit} {t : ℝ} (Q : Quiet q t) (node : ℝ) : Fair (q.mean node t) := by
  obtain ⟨h1, h2, -⟩ := Q.shape node
  obtain ⟨e0, e1⟩ := Q.ecc
  obtain ⟨v7, v8⟩ := abs_le.mp h1
  exact (fair_of ⟨le_max_of_le_right (by norm_num), by norm_num at *; linarith⟩ (le_trans (by norm_num) h2)).1

set_option maxHeartbeats 2000000 in
theorem apart_of_quiet {q : Orbit} {t d : ℝ} (hd : 0 < d) (hd1 : d ≤ 0.001) (H : ∀ s, t ≤ s → s ≤ t + d → Quiet q s) (node : ℝ) :
    Apart (q.mean node t) (q.mean node (t + d)) d := by
  have Q := H t le_rfl (by linarith)
  obtain ⟨_, _, _, _, _, D⟩ := Q.drift node
  have hn := Q.mot
  have hn1 := Q.n_le
  have ha := Q.a_lo
  have hp := Q.per
  obtain ⟨e0, e1⟩ := Q.ecc
  have ha0 : 0 < q.a := by norm_num at *; linarith
  choose! E' W' H' A' L' DD using fun s h1 h2 => (H s h1 h2).drift node
  have i1 := increment (f := q.eRaw) (k := 0) hd.le (fun s h1 h2 => ⟨_, (DD s h1 h2).he, by rw [sub_zero]; exact (DD s h1 h2).be⟩)
  have i2 := increment (f := q.ω) (k := 0) hd.le (fun s h1 h2 => ⟨_, (DD s h1 h2).hw, by rw [sub_zero]; exact (DD s h1 h2).bw⟩)
  have i3 := increment (f := q.Ω node) (k := 0) hd.le (fun s h1 h2 => ⟨_, (DD s h1 h2).hh, by rw [sub_zero]; exact (DD s h1 h2).bh⟩)
  have i4 := increment (f := q.aT) (k := 0) hd.le (fun s h1 h2 => ⟨_, (DD s h1 h2).ha, by rw [sub_zero]; exact (DD s h1 h2).ba⟩)
  have i5 := increment (f := fun s => q.e * q.ω s) (k := 0) hd.le (fun s h1 h2 => ⟨_, (DD s h1 h2).hw.const_mul q.e, by rw [sub_zero]; exact (DD s h1 h2).bew⟩)
  rw [zero_mul, sub_zero] at i1 i2 i3 i4 i5
  obtain ⟨v1, v2⟩ := abs_le.mp D.ve
  obtain ⟨v3, v4⟩ := abs_le.mp D.va
  obtain ⟨v5, v6⟩ := abs_le.mp D.vn
  have haT : 0 < q.aT t := by norm_num at *; linarith
  -- the mean motion on the interval
  have hmn : ∀ s, t ≤ s → s ≤ t + d → |(q.mean node s).n - (q.mean node t).n| ≤ 0.00001 * q.n := by
    intro s h1 h2
    have i6 := increment (f := q.aT) (t := t) (d := s - t) (k := 0) (by linarith) (fun z g1 g2 => ⟨_, (DD z g1 (by linarith)).ha, by rw [sub_zero]; exact (DD z g1 (by linarith)).ba⟩)
    rw [zero_mul, sub_zero, show t + (s - t) = s by ring] at i6
    have h3 : |(q.mean node s).a - (q.mean node t).a| ≤ 1e-6 * (q.mean node t).a := by
      refine i6.trans ?_
      show _ ≤ 1e-6 * q.aT t
      have : 0.000007 * q.a * q.n * (s - t) ≤ 0.000007 * q.a * 0.0704 * 0.001 := by gcongr; linarith
      norm_num at *; linarith
    have := motion_close (m₀ := q.mean node t) (m₁ := q.mean node s) haT (by norm_num) h3
    norm_num at *; linarith
  have i7 := increment (f := fun s => q.L node s - q.Ω node s) (t := t) (d := d) (k := (q.mean node t).n) (C := 0.00501 * q.n) hd.le (fun s h1 h2 => ⟨_, (DD s h1 h2).hl.sub (DD s h1 h2).hh, by
    have b := (DD s h1 h2).bl
    rw [show L' s - H' s - (q.mean node t).n = (L' s - H' s - (q.mean node s).n) + ((q.mean node s).n - (q.mean node t).n) by ring]
    refine (abs_add_bd b (hmn s h1 h2)).trans ?_
    norm_num at *; linarith⟩)
  set N := (q.mean node t).n with hN
  have hN0 : 0.998 * q.n ≤ N := by norm_num at *; linarith
  have nd : 0 < q.n * d := by positivity
  have Nd : 0.998 * (q.n * d) ≤ N * d := by rw [← mul_assoc]; gcongr
  obtain ⟨heb, hper, -⟩ := Q.shape node
  obtain ⟨v7, v8⟩ := abs_le.mp heb
  refine ⟨hd, hd1, ?_, ?_, ?_, ?_, ?_, ?_, ?_, rfl, ⟨le_max_of_le_right (by norm_num), le_max_of_le_right (by norm_num), ?_⟩, ?_, longL_small Q.incl⟩
  · norm_num at *; linarith
  · show |max (q.eRaw (t + d)) (1 / 10 ^ 6) - max (q.eRaw t) (1 / 10 ^ 6)| ≤ _
    refine (abs_max_sub_max_le_abs _ _ _).trans (i1.trans ?_)
    norm_num at *; linarith
  · show |q.ω (t + d) - q.ω t| ≤ _
    refine i2.trans ?_
    norm_num at *; linarith
  · show |(q.mean node t).e * (q.ω (t + d) - q.ω t)| ≤ _
    rw [show (q.mean node t).e * (q.ω (t + d) - q.ω t) = (q.e * q.ω (t + d) - q.e * q.ω t) + ((q.mean node t).e - q.e) * (q.ω (t + d) - q.ω t) by ring]
    refine (abs_add_bd i5 (abs_mul_bd heb i2)).trans ?_
    norm_num at *; linarith
  · show |q.Ω node (t + d) - q.Ω node t| ≤ _
    refine i3.trans ?_
    norm_num at *; linarith
  · show |q.aT (t + d) - q.aT t| ≤ 0.00001 * q.aT t * N * d
    refine i4.trans ?_
    have h1 : 0.99 * q.a ≤ q.aT t := by norm_num at *; linarith
    have h2 : 0.99 * q.n ≤ N := by norm_num at *; linarith
    calc 0.000007 * q.a * q.n * d ≤ 0.00001 * (0.99 * q.a) * (0.99 * q.n) * d := by
          have : 0 < q.a * q.n * d := by positivity
          linarith
      _ ≤ _ := by gcongr
  · show |q.L node (t + d) - q.L node t - (q.Ω node (t + d) - q.Ω node t) - N * d| ≤ _
    rw [show q.L node (t + d) - q.L node t - (q.Ω node (t + d) - q.Ω node t) - N * d =
      (q.L node (t + d) - q.Ω node (t + d)) - (q.L node t - q.Ω node t) - N * d by ring]
    refine i7.trans ?_
    norm_num at *; linarith
  · norm_num at *; linarith
  · exact hper

end Sat
