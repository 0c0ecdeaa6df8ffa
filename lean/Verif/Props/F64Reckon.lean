import Verif.Props.F64Equator
import Verif.Props.Velocity

/-!
# Consecutive positions agree with the velocity between them

C106: dead reckoning. No jumps, no reversed or wrongly scaled velocities, in doubles, from the printed text.
-/

namespace Sat
open F64 hiding sub
open Spec Spec.R3 Chain

/-- the positions of two nearby sets of mean elements differ by the velocity times the time between them -/
theorem Apart.step {m₀ m₁ : Mean} {d : ℝ} (H : Apart m₀ m₁ d) (j : Fin 3) :
    |m₁.positionKm (keplerRoot m₁) j - m₀.positionKm (keplerRoot m₀) j - 60 * m₀.velocityKmS (keplerRoot m₀) j * d| ≤
      0.0617 * (m₀.n * m₀.a * kmPerRadius) * d := by
  have hd := H.pos
  have hd1 := H.short
  have c0 : chord m₀ m₁ d 0 = m₀ := by unfold chord; simp
  have c1 : chord m₀ m₁ d d = m₁ := by
    unfold chord
    rw [div_mul_cancel₀ _ hd.ne', div_mul_cancel₀ _ hd.ne', div_mul_cancel₀ _ hd.ne', div_mul_cancel₀ _ hd.ne', div_mul_cancel₀ _ hd.ne',
      ← H.inc]
    simp
  have hR : (0:ℝ) < kmPerRadius := by unfold kmPerRadius; norm_num
  have bounds : ∀ s, 0 ≤ s → s ≤ d → 0 < (chord m₀ m₁ d s).n ∧ 0 < (chord m₀ m₁ d s).a ∧ 0 < m₀.n ∧ 0 < m₀.a ∧
      (chord m₀ m₁ d s).n * (chord m₀ m₁ d s).a ≤ 1.0001 * m₀.n * (1.0001 * m₀.a) := by
    intro s h1 h2
    obtain ⟨R, q1, q2⟩ := H.rates ⟨h1, h2⟩
    obtain ⟨hF, -⟩ := fair_of R.ecc R.per
    have hN : 0 < (chord m₀ m₁ d s).n := (slow_shift hF 0).n_pos
    have hA : 0 < (chord m₀ m₁ d s).a := by have := hF.axis; linarith
    have hn0 : 0 < m₀.n := by norm_num at *; linarith
    have ha0 : 0 < m₀.a := by norm_num at *; linarith
    exact ⟨hN, hA, hn0, ha0, mul_le_mul q1 q2 hA.le (by positivity)⟩
  obtain ⟨-, -, hn0, ha0, -⟩ := bounds 0 le_rfl hd.le
  have ex : ∀ s, ∃ v', (0 ≤ s → s ≤ d → HasDerivAt (fun s => (chord m₀ m₁ d s).velocityKmS (keplerRoot (chord m₀ m₁ d s)) j) v' s ∧
      |v'| ≤ 15.1 * (m₀.n * (m₀.n * m₀.a * kmPerRadius / 60))) := by
    intro s
    by_cases hs : 0 ≤ s ∧ s ≤ d
    · obtain ⟨R, q1, q2⟩ := H.rates hs
      obtain ⟨hN, hA, -, -, -⟩ := bounds s hs.1 hs.2
      obtain ⟨v', g3, g4⟩ := R.acceleration j
      refine ⟨v', fun _ _ => ⟨g3, g4.trans ?_⟩⟩
      calc 15 * ((chord m₀ m₁ d s).n * ((chord m₀ m₁ d s).n * (chord m₀ m₁ d s).a * kmPerRadius / 60)) ≤
            15 * (1.0001 * m₀.n * (1.0001 * m₀.n * (1.0001 * m₀.a) * kmPerRadius / 60)) := by gcongr
        _ = (15 * 1.0001 ^ 3) * (m₀.n * (m₀.n * m₀.a * kmPerRadius / 60)) := by ring
        _ ≤ _ := by gcongr; norm_num
    · exact ⟨0, fun h1 h2 => absurd ⟨h1, h2⟩ hs⟩
  choose v' hv using ex
  have lip : ∀ s, 0 ≤ s → s ≤ d → |(chord m₀ m₁ d s).velocityKmS (keplerRoot (chord m₀ m₁ d s)) j - m₀.velocityKmS (keplerRoot m₀) j| ≤
      15.1 * (m₀.n * (m₀.n * m₀.a * kmPerRadius / 60)) * s := by
    intro s h1 h2
    have := lipschitz_on h1 (fun z z1 z2 => (hv z z1 (z2.trans h2)).1) (fun z z1 z2 => (hv z z1 (z2.trans h2)).2)
    rwa [c0] at this
  have := increment (f := fun s => (chord m₀ m₁ d s).positionKm (keplerRoot (chord m₀ m₁ d s)) j) (t := 0) (d := d)
    (k := 60 * m₀.velocityKmS (keplerRoot m₀) j) (C := 0.0617 * (m₀.n * m₀.a * kmPerRadius)) hd.le (by
      intro s h1 h2
      rw [zero_add] at h2
      obtain ⟨R, -, -⟩ := H.rates ⟨h1, h2⟩
      obtain ⟨hN, hA, -, -, hp⟩ := bounds s h1 h2
      obtain ⟨p', g1, g2, -⟩ := R.motion j
      refine ⟨p', g1, ?_⟩
      have l := lip s h1 h2
      have e : p' - 60 * m₀.velocityKmS (keplerRoot m₀) j = 60 * (p' / 60 - (chord m₀ m₁ d s).velocityKmS (keplerRoot (chord m₀ m₁ d s)) j) +
        60 * ((chord m₀ m₁ d s).velocityKmS (keplerRoot (chord m₀ m₁ d s)) j - m₀.velocityKmS (keplerRoot m₀) j) := by ring
      rw [e]
      refine (abs_add_le _ _).trans ?_
      rw [abs_mul, abs_mul, abs_of_pos (by norm_num : (0:ℝ) < 60)]
      have b1 : 60 * |p' / 60 - (chord m₀ m₁ d s).velocityKmS (keplerRoot (chord m₀ m₁ d s)) j| ≤ 0.0601 * (m₀.n * m₀.a * kmPerRadius) := by
        calc _ ≤ 60 * (0.06 * ((chord m₀ m₁ d s).n * (chord m₀ m₁ d s).a * kmPerRadius / 60)) := by gcongr
          _ ≤ 60 * (0.06 * (1.0001 * m₀.n * (1.0001 * m₀.a) * kmPerRadius / 60)) := by gcongr
          _ = 0.06 * 1.0001 ^ 2 * (m₀.n * m₀.a * kmPerRadius) := by ring
          _ ≤ _ := by gcongr; norm_num
      have b2 : 60 * |(chord m₀ m₁ d s).velocityKmS (keplerRoot (chord m₀ m₁ d s)) j - m₀.velocityKmS (keplerRoot m₀) j| ≤
          0.00151 * (m₀.n * m₀.a * kmPerRadius) := by
        have hm := H.mot
        calc _ ≤ 60 * (15.1 * (m₀.n * (m₀.n * m₀.a * kmPerRadius / 60)) * s) := by gcongr
          _ ≤ 60 * (15.1 * (0.1 * (m₀.n * m₀.a * kmPerRadius / 60)) * 0.001) := by gcongr; exact h2.trans hd1
          _ = 15.1 * 0.1 * 0.001 * (m₀.n * m₀.a * kmPerRadius) := by ring
          _ ≤ _ := by gcongr; norm_num
      have : 0 ≤ m₀.n * m₀.a * kmPerRadius := by positivity
      norm_num at *; linarith)
  rw [zero_add, c0, c1] at this
  exact this

/-- from short steps to a long one -/
theorem long_step {f g : ℝ → ℝ} {t D c l : ℝ} (hD : 0 ≤ D) (hc : 0 ≤ c) (hl : 0 ≤ l)
    (h : ∀ s d, t ≤ s → 0 < d → d ≤ 0.001 → s + d ≤ t + D → |f (s + d) - f s - 60 * g s * d| ≤ c * d ∧ |g (s + d) - g s| ≤ l * d) :
    |f (t + D) - f t - 60 * g t * D| ≤ (c + 60 * l * D) * D := by
  rcases eq_or_lt_of_le hD with rfl | hD
  · simp
  set N : ℕ := ⌈D * 1000⌉₊ with hN
  have hN0 : 0 < N := Nat.ceil_pos.mpr (by positivity)
  have hNr : (0 : ℝ) < N := by exact_mod_cast hN0
  set d := D / N with hd
  have d0 : 0 < d := by positivity
  have d1 : d ≤ 0.001 := by
    rw [hd, div_le_iff₀ hNr]
    have := Nat.le_ceil (D * 1000)
    norm_num at *; linarith
  have hNd : N * d = D := by rw [hd]; field_simp
  have key : ∀ k : ℕ, k ≤ N → |g (t + k * d) - g t| ≤ l * (k * d) ∧ |f (t + k * d) - f t - 60 * g t * (k * d)| ≤ (c + 60 * l * D) * (k * d) := by
    intro k
    induction k with
    | zero => intro _; simp
    | succ k ih =>
      intro hk
      obtain ⟨i1, i2⟩ := ih (by omega)
      have hk' : ((k : ℝ) + 1) ≤ N := by exact_mod_cast hk
      have hkd : ((k : ℝ) + 1) * d ≤ D := by rw [← hNd]; gcongr
      have k0 : (0 : ℝ) ≤ k := Nat.cast_nonneg k
      have hkd' : (k : ℝ) * d ≤ D := by nlinarith
      obtain ⟨s1, s2⟩ := h (t + k * d) d (by nlinarith) d0 d1 (by linarith [hkd])
      have e : t + ((k + 1 : ℕ) : ℝ) * d = t + k * d + d := by push_cast; ring
      have e' : ((k + 1 : ℕ) : ℝ) * d = k * d + d := by push_cast; ring
      rw [e, e']
      set s := t + k * d
      constructor
      · have : g (s + d) - g t = (g (s + d) - g s) + (g s - g t) := by ring
        rw [this]
        exact (abs_add_le _ _).trans (by linarith)
      · have : f (s + d) - f t - 60 * g t * (k * d + d) = (f (s + d) - f s - 60 * g s * d) + (60 * d) * (g s - g t) + (f s - f t - 60 * g t * (k * d)) := by ring
        rw [this]
        have b : |60 * d * (g s - g t)| ≤ 60 * d * (l * D) := by
          rw [abs_mul, abs_of_pos (by positivity)]
          exact mul_le_mul_of_nonneg_left (i1.trans (mul_le_mul_of_nonneg_left hkd' hl)) (by positivity)
        refine (abs_add_le _ _).trans ((add_le_add ((abs_add_le _ _).trans (add_le_add s1 b)) i2).trans (le_of_eq ?_))
        ring
  have := (key N le_rfl).2
  rwa [hNd] at this

theorem reckon {q : Orbit} {t D node : ℝ} (hD : 0 ≤ D) (H : ∀ s, t ≤ s → s ≤ t + D → Quiet q s) (j : Fin 3) :
    |(q.mean node (t + D)).positionKm (keplerRoot (q.mean node (t + D))) j - (q.mean node t).positionKm (keplerRoot (q.mean node t)) j -
      60 * (q.mean node t).velocityKmS (keplerRoot (q.mean node t)) j * D| ≤ (29.3 + 533 * D) * D := by
  have := long_step (f := fun s => (q.mean node s).positionKm (keplerRoot (q.mean node s)) j)
    (g := fun s => (q.mean node s).velocityKmS (keplerRoot (q.mean node s)) j) (t := t) (D := D) (c := 29.3) (l := 8.88) hD (by norm_num) (by norm_num) (by
      intro s d h1 h2 h3 h4
      have A := apart_of_quiet (q := q) (t := s) (d := d) h2 h3 (fun z z1 z2 => H z (by linarith) (by linarith)) node
      have ha : 1 ≤ (q.mean node s).a := by
        have := A.per
        have := A.ecc
        by_contra hc; push Not at hc; norm_num at *; nlinarith
      obtain ⟨n0, n1, n2⟩ := mean_speed ha
      unfold ke at n1 n2
      obtain ⟨-, s2⟩ := A.states j
      have s1 := A.step j
      unfold kmPerRadius at s1 s2
      constructor
      · refine s1.trans ?_
        calc 0.0617 * ((q.mean node s).n * (q.mean node s).a * 6378.137) * d ≤ 0.0617 * (0.07436685316871385 * 6378.137) * d := by gcongr
          _ ≤ _ := by gcongr; norm_num
      · refine s2.trans ?_
        calc 15.1 * ((q.mean node s).n * ((q.mean node s).n * (q.mean node s).a * 6378.137 / 60)) * d ≤
              15.1 * (0.07436685316871385 * (0.07436685316871385 * 6378.137 / 60)) * d := by gcongr
          _ ≤ _ := by gcongr; norm_num)
  refine this.trans ?_
  gcongr
  norm_num

theorem reckon_near {P P' W X X' V D δ η ε : ℝ} (hD : 0 ≤ D) (r : |X' - X - 60 * V * D| ≤ (29.3 + 533 * D) * D) (x1 : |P - X| ≤ δ) (x2 : |W - V| ≤ η)
    (y1 : |P' - X'| ≤ δ) (hδ : 2 * δ ≤ ε) (hη : 60 * η ≤ 0.1) : |P' - (P + 60 * D * W)| ≤ ε + 29.4 * D + 533 * D ^ 2 := by
  have e : P' - (P + 60 * D * W) = (P' - X') - (P - X) + (X' - X - 60 * V * D) - 60 * D * (W - V) := by ring
  have b : |60 * D * (W - V)| ≤ 0.1 * D := by
    rw [abs_mul, abs_of_nonneg (by positivity)]
    calc 60 * D * |W - V| ≤ 60 * D * η := by gcongr
      _ = (60 * η) * D := by ring
      _ ≤ _ := by gcongr
  obtain ⟨b1, b2⟩ := abs_le.mp b
  obtain ⟨x3, x4⟩ := abs_le.mp x1
  obtain ⟨y3, y4⟩ := abs_le.mp y1
  obtain ⟨r3, r4⟩ := abs_le.mp r
  have er : (29.3 + 533 * D) * D = 29.3 * D + 533 * D ^ 2 := by ring
  rw [er] at r3 r4
  rw [e, abs_le]
  constructor <;> (norm_num at *; linarith)

/-- `p'`, reported `D` minutes after `p`, is where `p` and its velocity lead: up to `δ` kilometres in every coordinate. -/
def Reckons (p p' : SGP4Result F64) (D δ : ℝ) : Prop :=
  |p'.position.x.val - (p.position.x.val + 60 * D * p.velocity.x.val)| ≤ δ ∧
  |p'.position.y.val - (p.position.y.val + 60 * D * p.velocity.y.val)| ≤ δ ∧
  |p'.position.z.val - (p.position.z.val + 60 * D * p.velocity.z.val)| ≤ δ

variable [Libm]

/-- **C106.** Dead reckoning, in doubles, from the printed text. Of two times in range, `D` minutes apart, the position reported for the later
is that reported for the earlier moved by its reported velocity, up to 2.1 metres, 6 per cent of the speed of a low orbit (the terms of the
theory that the velocity leaves out) and what gravity can do in the time (a square of it). -/
theorem C106_dead_reckoning_f64 (hL : Libm.Faithful) (l1 l2 : Str) (v : Tle) (h : Printed l1 l2 v) (hpos : v.nddotNeg = false ∨ v.nddotMant = 0)
    (hnd : Normal v.nddotMant) (hb : Normal v.bstarMant) (t t' : F64) (ht : t.Fin) (ht' : t'.Fin) (hle : t.val ≤ t'.val)
    (hl : LowTle v t.val) (hl' : LowTle v t'.val) :
    ∃ (s : Satrec F64) (p p' : SGP4Result F64), twoline2satrec l1 l2 = .ok s ∧
      (sgp4 s t).map Prod.snd = some (.ok p) ∧ (sgp4 s t').map Prod.snd = some (.ok p') ∧
      let D := t'.val - t.val
      Reckons p p' D (0.0021 + 29.4 * D + 533 * D ^ 2) := by
  obtain ⟨s, p, hs, hp, hc⟩ := C85_text_to_state_f64 hL l1 l2 v h hpos hnd hb t ht hl
  obtain ⟨s', p', hs', hp', hc'⟩ := C85_text_to_state_f64 hL l1 l2 v h hpos hnd hb t' ht' hl'
  have e : s' = s := by rw [hs] at hs'; exact (Res.ok.inj hs').symm
  subst e
  refine ⟨s', p, p', hs, hp, hp', ?_⟩
  intro D
  have hD : 0 ≤ D := sub_nonneg.mpr hle
  have eD : t.val + D = t'.val := by simp only [D]; ring
  have H : ∀ s, t.val ≤ s → s ≤ t.val + D → Quiet (tleOrbit v) s := fun s h1 h2 => quiet_low hL h hpos hnd hb (low_between hl hl' h1 (by linarith))
  have near : ∀ (τ : ℝ) (r : SGP4Result F64), Quiet (tleOrbit v) τ → CloseToTheory v τ r → ∀ j,
      |(r.position.exact).coord j - ((tleOrbit v).mean (tleNode v) τ).positionKm (keplerRoot ((tleOrbit v).mean (tleNode v) τ)) j| ≤ 0.00101 ∧
      |(r.velocity.exact).coord j - ((tleOrbit v).mean (tleNode v) τ).velocityKmS (keplerRoot ((tleOrbit v).mean (tleNode v) τ)) j| ≤ 3e-6 := by
    intro τ r Q hc j
    obtain ⟨k, -, c2, c3, c4, c5⟩ := hc
    have F1 := Q.fair (tleNode v)
    have a1 := (Q.shape (tleNode v)).2.2
    obtain ⟨n0, n1, n2⟩ := mean_speed F1.axis
    have hE := (C65_kepler_converges _ F1.ecc k c2 c3).2.1
    obtain ⟨r1, r2⟩ := near_root F1 hE j
    unfold kmPerRadius at r1 r2
    unfold ke at n2
    have b1 : 2.7 * (((tleOrbit v).mean (tleNode v) τ).a * 6378.137) * 1.45e-12 ≤ 1e-6 := by norm_num at *; linarith
    have b2 : 15 * (((tleOrbit v).mean (tleNode v) τ).n * ((tleOrbit v).mean (tleNode v) τ).a * 6378.137 / 60) * 1.45e-12 ≤ 1e-7 := by norm_num at *; linarith
    have q1 : |(r.position.exact).coord j - ((tleOrbit v).mean (tleNode v) τ).positionKm (((tleOrbit v).mean (tleNode v) τ).newton k) j| ≤ 1 / 10 ^ 3 := by
      fin_cases j
      · exact c4.1.2
      · exact c4.2.1.2
      · exact c4.2.2.2
    have q2 : |(r.velocity.exact).coord j - ((tleOrbit v).mean (tleNode v) τ).velocityKmS (((tleOrbit v).mean (tleNode v) τ).newton k) j| ≤ 2 / 10 ^ 6 := by
      fin_cases j
      · exact c5.1.2
      · exact c5.2.1.2
      · exact c5.2.2.2
    constructor
    · refine (abs_sub_le _ _ _).trans ((add_le_add q1 (r1.trans b1)).trans (by norm_num))
    · refine (abs_sub_le _ _ _).trans ((add_le_add q2 (r2.trans b2)).trans (by norm_num))
  have main : ∀ j, |(p'.position.exact).coord j - ((p.position.exact).coord j + 60 * D * (p.velocity.exact).coord j)| ≤ 0.0021 + 29.4 * D + 533 * D ^ 2 := by
    intro j
    obtain ⟨x1, x2⟩ := near t.val p (H _ le_rfl (by linarith)) hc j
    obtain ⟨y1, -⟩ := near t'.val p' (H _ hle (by linarith)) hc' j
    have r := reckon (node := tleNode v) hD H j
    rw [eD] at r
    exact reckon_near hD r x1 x2 y1 (by norm_num) (by norm_num)
  exact ⟨main 0, main 1, main 2⟩

/-- Two consecutive seconds of the weather satellite. -/
example (hL : Libm.Faithful) (t t' : F64) (ht : t.Fin) (ht' : t'.Fin) (h0 : 0 ≤ t.val) (h1 : t.val ≤ t'.val) (h2 : t'.val ≤ t.val + 1 / 60) (h3 : t'.val ≤ 30000) :
    ∃ (s : Satrec F64) (p p' : SGP4Result F64), twoline2satrec noaaLine1 noaaLine2 = .ok s ∧
      (sgp4 s t).map Prod.snd = some (.ok p) ∧ (sgp4 s t').map Prod.snd = some (.ok p') ∧ Reckons p p' (t'.val - t.val) 0.65 := by
  obtain ⟨s, p, p', hs, hp, hp', x, y, z⟩ := C106_dead_reckoning_f64 hL _ _ _ noaa_printed (Or.inl rfl) (Or.inl rfl) (Or.inr (by decide)) t t' ht ht' h1
    (noaa_low (by rw [abs_of_nonneg h0]; linarith)) (noaa_low (by rw [abs_of_nonneg (by linarith)]; exact h3))
  have hb : 0.0021 + 29.4 * (t'.val - t.val) + 533 * (t'.val - t.val) ^ 2 ≤ 0.65 := by
    have d0 : 0 ≤ t'.val - t.val := by linarith
    have d1 : t'.val - t.val ≤ 1 / 60 := by linarith
    have : (t'.val - t.val) ^ 2 ≤ (1 / 60) ^ 2 := by gcongr
    norm_num at *; linarith
  exact ⟨s, p, p', hs, hp, hp', x.trans hb, y.trans hb, z.trans hb⟩

/-- **C106**, at calendar dates. Of two dates within a month of the printed epoch, the position that `propogate_datetime` reports for the later is
that reported for the earlier moved by its reported velocity over the time that the calendar counts between them, up to 9 metres, 6 per cent of
the speed and what gravity can do in the time. -/
theorem C106_dates_f64 (hL : Libm.Faithful) (l1 l2 : Str) (v : Tle) (h : Printed l1 l2 v) (hpos : v.nddotNeg = false ∨ v.nddotMant = 0)
    (hnd : Normal v.nddotMant) (hb : Normal v.bstarMant) (hday : v.dayE8 ≤ 400 * 10 ^ 8) (hl : LowTle v 0)
    (time time' : DateTimeUtc) (d d' : Date) (hd : d.InRange) (hy : time.year = d.year) (hm : time.month = d.month) (hdd : time.day = d.day)
    (hh : time.hour < 24) (hmi : time.minute < 60) (hse : time.second < 60)
    (hd' : d'.InRange) (hy' : time'.year = d'.year) (hm' : time'.month = d'.month) (hdd' : time'.day = d'.day)
    (hh' : time'.hour < 24) (hmi' : time'.minute < 60) (hse' : time'.second < 60) :
    ∃ (s : Satrec F64) (year nE nD nD' : ℕ), twoline2satrec l1 l2 = .ok s ∧
      1957 ≤ year ∧ year ≤ 2056 ∧ (year : ℤ) % 100 = v.year ∧ base.after nE = ⟨year, 1, 1⟩ ∧ base.after nD = d ∧ base.after nD' = d' ∧
      let τ : ℝ := ((nD : ℝ) - nE + 1 - (v.dayE8 : ℝ) / 10 ^ 8) * 1440 + time.hour * 60 + time.minute + (time.second : ℝ) / 60
      let τ' : ℝ := ((nD' : ℝ) - nE + 1 - (v.dayE8 : ℝ) / 10 ^ 8) * 1440 + time'.hour * 60 + time'.minute + (time'.second : ℝ) / 60
      |τ| ≤ 43199 → |tleDrag v * τ| * tleLow v ^ 5 ≤ 1.99 → |τ'| ≤ 43199 → |tleDrag v * τ'| * tleLow v ^ 5 ≤ 1.99 → τ ≤ τ' →
        ∃ p p' : SGP4Result F64, propogate_datetime s time = some (.ok p) ∧ propogate_datetime s time' = some (.ok p') ∧
          let D := τ' - τ
          Reckons p p' D (0.009 + 29.4 * D + 533 * D ^ 2) := by
  obtain ⟨s, year, nE, nD, hs, y1, y2, y3, y4, y5, k⟩ := C85_state_at_date_f64 hL l1 l2 v h hpos hnd hb hday hl time d hd hy hm hdd hh hmi hse
  obtain ⟨s', year', nE', nD', hs', y1', y2', y3', y4', y5', k'⟩ := C85_state_at_date_f64 hL l1 l2 v h hpos hnd hb hday hl time' d' hd' hy' hm' hdd' hh' hmi' hse'
  have e : s' = s := by rw [hs] at hs'; exact (Res.ok.inj hs').symm
  subst e
  have ey : year' = year := by omega
  subst ey
  have en : nE' = nE := by
    have e1 := (serial_after nE).2.2
    have e2 := (serial_after nE').2.2
    rw [y4] at e1
    rw [y4'] at e2
    omega
  subst en
  refine ⟨s', year', nE', nD, nD', hs, y1, y2, y3, y4, y5, y5', ?_⟩
  intro τ τ' h1 h2 h3 h4 hle
  obtain ⟨p, hp, E, r1, r2, r3, r4⟩ := k h1 h2
  obtain ⟨p', hp', E', r1', r2', r3', -⟩ := k' h3 h4
  refine ⟨p, p', hp, hp', ?_⟩
  intro D
  have hD : 0 ≤ D := sub_nonneg.mpr hle
  have eD : τ + D = τ' := by simp only [D]; ring
  have l1 : LowTle v τ := { hl with time := h1.trans (by norm_num), drag := h2.trans (by norm_num) }
  have l2 : LowTle v τ' := { hl with time := h3.trans (by norm_num), drag := h4.trans (by norm_num) }
  have H : ∀ s, τ ≤ s → s ≤ τ + D → Quiet (tleOrbit v) s := fun s h1 h2 => quiet_low hL h hpos hnd hb (low_between l1 l2 h1 (by linarith))
  have er : keplerRoot ((tleOrbit v).mean (tleNode v) τ) = E := r2 _ (kepler_root _)
  have er' : keplerRoot ((tleOrbit v).mean (tleNode v) τ') = E' := r2' _ (kepler_root _)
  have main : ∀ j, |(p'.position.exact).coord j - ((p.position.exact).coord j + 60 * D * (p.velocity.exact).coord j)| ≤ 0.009 + 29.4 * D + 533 * D ^ 2 := by
    intro j
    have r := reckon (node := tleNode v) hD H j
    rw [eD, er, er'] at r
    have x1 : |(p.position.exact).coord j - ((tleOrbit v).mean (tleNode v) τ).positionKm E j| ≤ 4.3 / 10 ^ 3 := by
      fin_cases j
      · exact r3.1.2
      · exact r3.2.1.2
      · exact r3.2.2.2
    have x2 : |(p.velocity.exact).coord j - ((tleOrbit v).mean (tleNode v) τ).velocityKmS E j| ≤ 2.5 / 10 ^ 5 := by
      fin_cases j
      · exact r4.1.2
      · exact r4.2.1.2
      · exact r4.2.2.2
    have y1 : |(p'.position.exact).coord j - ((tleOrbit v).mean (tleNode v) τ').positionKm E' j| ≤ 4.3 / 10 ^ 3 := by
      fin_cases j
      · exact r3'.1.2
      · exact r3'.2.1.2
      · exact r3'.2.2.2
    exact reckon_near hD r x1 x2 y1 (by norm_num) (by norm_num)
  exact ⟨main 0, main 1, main 2⟩

/-- The weather satellite on 2020 February 5, from 6:30:15 to 6:30:16: 650 metres, of the 7.4 kilometres that it moves. -/
example (hL : Libm.Faithful) (time time' : DateTimeUtc) (h1 : time.year = 2020) (h2 : time.month = 2) (h3 : time.day = 5) (h4 : time.hour = 6)
    (h5 : time.minute = 30) (h6 : time.second = 15) (h' : time' = { time with second := 16 }) :
    ∃ (s : Satrec F64) (p p' : SGP4Result F64), twoline2satrec noaaLine1 noaaLine2 = .ok s ∧ propogate_datetime s time = some (.ok p) ∧
      propogate_datetime s time' = some (.ok p') ∧ Reckons p p' (1 / 60) 0.65 := by
  have f1 : time'.year = 2020 := by rw [h']; exact h1
  have f2 : time'.month = 2 := by rw [h']; exact h2
  have f3 : time'.day = 5 := by rw [h']; exact h3
  have f4 : time'.hour = 6 := by rw [h']; exact h4
  have f5 : time'.minute = 30 := by rw [h']; exact h5
  have f6 : time'.second = 16 := by rw [h']
  have hr : (⟨2020, 2, 5⟩ : Date).InRange := ⟨by decide, by unfold Date.before base; decide, by unfold Date.before; decide⟩
  obtain ⟨s, year, nE, nD, nD', hs, y1, y2, y3, y4, y5, y6, hh⟩ := C106_dates_f64 hL _ _ _ noaa_printed (Or.inl rfl) (Or.inl rfl) (Or.inr (by decide))
    (by decide) (noaa_low (τ := 0) (by norm_num)) time time' ⟨2020, 2, 5⟩ ⟨2020, 2, 5⟩ hr h1 h2 h3
    (by omega) (by omega) (by omega) hr f1 f2 f3 (by omega) (by omega) (by omega)
  have ey : year = 2020 := by
    have e : (noaaTle.year : ℤ) = 20 := rfl
    rw [e] at y3; omega
  have e1 := (serial_after nE).2.2
  have e2 := (serial_after nD).2.2
  have e2' := (serial_after nD').2.2
  rw [y4, ey] at e1
  rw [y5] at e2
  rw [y6] at e2'
  have e3 : serial ⟨2020, 2, 5⟩ = serial ⟨2020, 1, 1⟩ + 35 := by decide +kernel
  have e4 : (nD : ℝ) = nE + 35 := by exact_mod_cast (by omega : nD = nE + 35)
  have e4' : (nD' : ℝ) = nE + 35 := by exact_mod_cast (by omega : nD' = nE + 35)
  have e5 : ((nD : ℝ) - nE + 1 - (noaaTle.dayE8 : ℝ) / 10 ^ 8) * 1440 + time.hour * 60 + time.minute + (time.second : ℝ) / 60 =
      (36 - 29.54791435) * 1440 + 6 * 60 + 30 + 15 / 60 := by
    rw [e4, h4, h5, h6, show (noaaTle.dayE8 : ℝ) = 2954791435 by unfold noaaTle; norm_num]; norm_num
  have e6 : ((nD' : ℝ) - nE + 1 - (noaaTle.dayE8 : ℝ) / 10 ^ 8) * 1440 + time'.hour * 60 + time'.minute + (time'.second : ℝ) / 60 =
      (36 - 29.54791435) * 1440 + 6 * 60 + 30 + 16 / 60 := by
    rw [e4', f4, f5, f6, show (noaaTle.dayE8 : ℝ) = 2954791435 by unfold noaaTle; norm_num]; norm_num
  dsimp only at hh
  rw [e5, e6] at hh
  have hd : tleDrag noaaTle = 59621 / 10 ^ 9 := by
    unfold tleDrag impliedValue sexp noaaTle; norm_num
  obtain ⟨p, p', k1, k2, k3⟩ := hh (by norm_num [abs_of_pos]) (by rw [hd, noaa_lowness]; norm_num [abs_of_pos])
    (by norm_num [abs_of_pos]) (by rw [hd, noaa_lowness]; norm_num [abs_of_pos]) (by norm_num)
  rw [show ((36 - 29.54791435) * 1440 + 6 * 60 + 30 + 16 / 60 - ((36 - 29.54791435) * 1440 + 6 * 60 + 30 + 15 / 60) : ℝ) = 1 / 60 by norm_num] at k3
  obtain ⟨x, y, z⟩ := k3
  exact ⟨s, p, p', hs, k1, k2, x.trans (by norm_num), y.trans (by norm_num), z.trans (by norm_num)⟩

end Sat
