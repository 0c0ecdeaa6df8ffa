import Verif.Props.Propagate
import Verif.F64.LibmSpec
import Verif.Props.F64Time
/-!
# C17 in IEEE-754 arithmetic: how NaN gets past the checks
-/

namespace Sat
open F64

variable [Libm]

/-- What `sgp4` returns when every component is NaN. -/
def allNan : SGP4Result F64 := ⟨⟨.nan, .nan, .nan⟩, ⟨.nan, .nan, .nan⟩⟩

omit [Libm] in
theorem start_big : fle (sci 10 true 13) (F64.abs (sci 99999 true 1)) = true := by decide +kernel

/-- Newton's method with a NaN right-hand side: one pass, NaN sine and cosine. -/
theorem newton_nan (hL : Libm.Faithful) (ax ay : F64) :
    Spec.newton (.nan : F64) ax ay 10 .nan 9999.9 (0.0, 0.0) = (.nan, .nan) := by
  have h0 : fle (sci 10 true 13) (F64.abs (sci 99999 true 1)) = true := start_big
  unfold Spec.newton
  simp only [f64_sci, f64_abs, f64_fle, h0, if_true, f64_sin, f64_cos, f64_sub, f64_add, f64_mul, f64_div, hL.sin_nan, hL.cos_nan,
    sub_nan, div_nan, abs_nan, fle_nan, Bool.false_eq_true, if_false, mul_nan, nan_mul, add_nan]
  unfold Spec.newton
  simp only [f64_sci, f64_abs, f64_fle, abs_nan, fle_nan, Bool.false_eq_true, if_false]

/-- If the right-hand side of Kepler's equation is NaN then all of position and velocity is, and no check notices. -/
theorem nan_spreads (hL : Libm.Faithful) (s : Satrec F64) (t : F64) (hu : Spec.keplerU s t = .nan) :
    Spec.radius s t = .nan ∧ Spec.position s t = ⟨.nan, .nan, .nan⟩ ∧ Spec.velocity s t = ⟨.nan, .nan, .nan⟩ := by
  have hsc : Spec.sinCosE s t = (.nan, .nan) := by
    unfold Spec.sinCosE
    rw [hu]
    exact newton_nan hL _ _
  have hr0 : Spec.radius0 s t = .nan := by
    unfold Spec.radius0
    rw [hsc]
    simp only [f64_sub, f64_add, f64_mul, mul_nan, add_nan, sub_nan]
  have hr : Spec.radius s t = .nan := by
    unfold Spec.radius
    rw [hr0]
    simp only [f64_add, f64_mul, nan_mul, nan_add]
  have hrd : Spec.rdot s t = .nan := by
    unfold Spec.rdot
    rw [hr0]
    simp only [f64_sub, f64_div, div_nan, nan_sub]
  refine ⟨hr, ?_, ?_⟩
  · unfold Spec.position
    dsimp only
    rw [hr]
    simp only [f64_mul, nan_mul]
  · unfold Spec.velocity
    dsimp only
    rw [hrd]
    simp only [f64_mul, f64_add, nan_mul, nan_add]

/-- **C17, violated: NaN time.** For every near-earth record whose mean motion is not `≤ 0` the propagation to the time NaN
succeeds, and all six components are NaN. -/
theorem C17_violated_nan_time (hL : Libm.Faithful) (s : Satrec F64) (hN : s.method = .N) (hno : fle s.no (sci 0 true 1) = false) :
    ∃ s', sgp4 s .nan = some (s', .ok allNan) := by
  obtain ⟨s', r, h⟩ := C08_near_returns s (.nan : F64) hN
  have hr := C16_outcome s s' .nan r h
  have hE : Spec.dragE s .nan = .nan := by
    unfold Spec.dragE; split <;> simp only [f64_mul, f64_add, mul_nan, nan_add]
  have hme : Spec.meanEcc s .nan = .nan := by
    unfold Spec.meanEcc; rw [hE]; simp only [f64_sub, sub_nan]
  have hnode : Spec.nodeR s .nan = .nan := by
    unfold Spec.nodeR Spec.node; simp only [f64_mul, f64_add, f64_rem, mul_nan, add_nan, nan_rem]
  have hA : Spec.dragA s .nan = .nan := by
    unfold Spec.dragA; split <;> simp only [f64_mul, f64_sub, mul_nan, sub_nan]
  have hu : Spec.keplerU s .nan = .nan := by
    unfold Spec.keplerU
    rw [hnode]
    simp only [f64_add, f64_sub, f64_rem, sub_nan, nan_rem]
  obtain ⟨h1, h2, h3⟩ := nan_spreads hL s .nan hu
  have hpl : Spec.semiLatus s .nan = .nan := by
    unfold Spec.semiLatus Spec.semiMajor
    rw [hA]
    simp only [f64_mul, mul_nan, nan_mul]
  have hres : Spec.result s .nan = .ok allNan := by
    unfold Spec.result
    rw [hme, hpl, h1, h2, h3, hN]
    simp only [f64_fle, f64_flt, f64_sci, hno, fle_nan, nan_flt, Bool.or_self, Bool.false_eq_true, if_false, reduceCtorEq, false_and]
    rfl
  exact ⟨s', by rw [h, hr, hres]⟩

omit [Libm] in
theorem not_fin_of_big {r : ℝ} {x : F64} (h : Rounds r x) (hr : 2 ^ 1024 ≤ |r|) : ¬ x.Fin := by
  intro hx
  have hb := h.bound hx
  have hu := unit_pos
  rw [lt_div_iff₀ hu, topN_eq, unitN_eq, Nat.cast_pow, Nat.cast_pow, Nat.cast_ofNat, show 2098 = 1024 + 1074 from rfl, pow_add] at hb
  exact absurd (mul_le_mul_of_nonneg_right hr (show (0 : ℝ) ≤ 2 ^ 1074 by positivity)) (not_le.mpr hb)

omit [Libm] in
theorem rem_not_fin {x y : F64} (h : ¬ x.Fin) : F64.rem x y = .nan := by
  cases x with
  | nan => exact nan_rem y
  | inf a => cases y <;> rfl
  | fin a n hn => exact absurd trivial h

/-- at a huge time the node is lost -/
theorem huge_node (s : Satrec F64) (t : F64) (ht : t.Fin) (hb : 2 ^ 512 ≤ |t.val|) : Spec.nodeR s t = .nan := by
  have h2 : ¬ (F64.mul t t).Fin := by
    refine not_fin_of_big (mul_rounds ht ht) ?_
    rw [abs_mul]
    have : (2 : ℝ) ^ 1024 = 2 ^ 512 * 2 ^ 512 := by rw [← pow_add]
    rw [this]
    exact mul_le_mul hb hb (by positivity) (abs_nonneg _)
  refine rem_not_fin (fun h => h2 ?_)
  exact (mul_fin_left (add_fin_left h).2).2

/-- **C17, violated: huge finite times.** At every finite time of magnitude `2^512` minutes and more (near-earth or deep space, any
record), if the propagation succeeds then all six components are NaN: the node is reduced modulo one turn after it has
overflowed. -/
theorem C17_violated_huge_time (hL : Libm.Faithful) (s s' : Satrec F64) (t : F64) (ht : t.Fin) (hb : 2 ^ 512 ≤ |t.val|) (v : SGP4Result F64)
    (h : sgp4 s t = some (s', .ok v)) : v = allNan := by
  have hr := C16_outcome s s' t _ h
  have hu : Spec.keplerU s t = .nan := by
    unfold Spec.keplerU
    rw [huge_node s t ht hb]
    simp only [f64_sub, f64_rem, sub_nan, nan_rem]
  obtain ⟨-, h2, h3⟩ := nan_spreads hL s t hu
  unfold Spec.result at hr
  rw [h2, h3] at hr
  split at hr
  · cases hr
  split at hr
  · cases hr
  split at hr
  · cases hr
  split at hr
  · cases hr
  split at hr
  · cases hr
  · exact Except.ok.inj hr

end Sat
