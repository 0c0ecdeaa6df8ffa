import Verif.Props.F64Dspace
import Verif.Props.Init
/-!
# C08, C09 and C51 in IEEE-754 arithmetic, for records as initialisation leaves them
-/

namespace Sat
open F64

section generic
variable {F : Type} [Arith F]

theorem initDeep_atime {s : Satrec F} (h : s.init = .Y) (i : InitlReturn F) (e x : F) (h0 : s.atime = 0.0) :
    (initDeep s i e x).atime = 0.0 := by
  unfold initDeep
  split
  · dsimp only
    rw [initDpper_id]
    · unfold storeDsinit dsinit
      dsimp only
      split
      · exact h0
      · rfl
    · exact h
  · exact h0

/-- **C09.** However initialisation ends, and whatever the record held before, the integrator is left at epoch. -/
theorem C09_integrator_at_epoch (s s' : Satrec F) (o : SGP4InitOptions F) (r : Except SGP4Error (SGP4Result F))
    (h : sgp4init s o = some (s', r)) : s'.atime = 0.0 := by
  have h0 : (initRecord s o).atime = 0.0 := by
    unfold initRecord initFinish
    split
    · have hd := initDeep_atime (s := (initNear (initStart s o) (initlOf (resetSatrec s o) o.epoch)).1)
        rfl (initlOf (resetSatrec s o) o.epoch) o.epoch
        (initNear (initStart s o) (initlOf (resetSatrec s o) o.epoch)).2.xpidot rfl
      dsimp only
      unfold initDrag
      split
      · exact hd
      · exact hd
    · rfl
  rw [← h0]
  unfold sgp4init at h
  split at h
  · cases h
  · rename_i s1 e h1
    cases h
    obtain ⟨hl, -⟩ := sgp4_left h1
    rcases hl with ⟨_, hs⟩ | ⟨_, hs⟩ <;> · rw [hs]
  · rename_i s1 r1 h1
    cases h
    obtain ⟨hl, -⟩ := sgp4_left h1
    rcases hl with ⟨_, hs⟩ | ⟨_, hs⟩ <;> · rw [hs]

end generic

/-! ## C51 -/

theorem lit_zero_irez : feq (sci 0 true 1) (sci 0 true 1) = true := by decide +kernel
theorem lit_one_irez : feq (sci 10 true 1) (sci 0 true 1) = false := by decide +kernel
theorem lit_two_irez : feq (sci 20 true 1) (sci 0 true 1) = false := by decide +kernel

/-- Comparison of doubles is transitive in the mixed form needed to tell the two windows apart. -/
theorem flt_fle_trans {x a b : F64} (ha : a.Fin) (hb : b.Fin) (h : a.val < b.val) (h1 : flt x a = true) (h2 : fle b x = true) : False := by
  cases x with
  | nan => exact absurd h1 (by cases a <;> simp [flt])
  | inf n =>
    cases n with
    | false =>
      cases a with
      | fin s m hm => exact absurd h1 (by simp [flt])
      | nan => cases ha
      | inf _ => cases ha
    | true =>
      cases b with
      | fin s m hm => exact absurd h2 (by simp [fle])
      | nan => cases hb
      | inf _ => cases hb
  | fin s n hn =>
    have f1 := (flt_fin (show (F64.fin s n hn).Fin from trivial) ha).1 h1
    have f2 := (fle_fin hb (show (F64.fin s n hn).Fin from trivial)).1 h2
    linarith

/-- The mean motion (in the library's own double comparisons) lies in the one-day window. -/
def DayWindowF64 (n : F64) : Prop := flt (sci 34906585 true 10) n = true ∧ flt n (sci 52359877 true 10) = true
/-- Mean motion and eccentricity lie in the half-day window. -/
def HalfDayWindowF64 (n e : F64) : Prop := fle (sci 826 true 5) n = true ∧ fle n (sci 924 true 5) = true ∧ fle (sci 5 true 1) e = true

theorem windows_apart : (sci 52359877 true 10).Fin ∧ (sci 826 true 5).Fin ∧ (sci 52359877 true 10).val < (sci 826 true 5).val := by
  have h1 : (sci 52359877 true 10).Fin := by decide +kernel
  have h2 : (sci 826 true 5).Fin := by decide +kernel
  exact ⟨h1, h2, (flt_fin h1 h2).1 (by decide +kernel)⟩

/-- No double mean motion is in both windows. -/
theorem C51_windows_f64 (n e : F64) : ¬ (DayWindowF64 n ∧ HalfDayWindowF64 n e) := by
  rintro ⟨⟨-, h1⟩, ⟨h2, -, -⟩⟩
  exact flt_fle_trans windows_apart.1 windows_apart.2.1 windows_apart.2.2 h1 h2

section
variable [Libm]

/-- **C51** in doubles: the reported resonance class, for every mean motion and eccentricity (NaN and infinities included). -/
theorem C51_class_f64 (o : DsinitOptions F64) (k : Resonance F64) :
    (DayWindowF64 o.nm → (dsinit o k).irez = 1.0) ∧ (HalfDayWindowF64 o.nm o.em → (dsinit o k).irez = 2.0) ∧
    (¬ DayWindowF64 o.nm → ¬ HalfDayWindowF64 o.nm o.em → (dsinit o k).irez = 0.0) := by
  have hi : (dsinit o k).irez = resonanceClass o.nm o.em := by
    unfold dsinit; dsimp only; split <;> rfl
  rw [hi]
  have hx := C51_windows_f64 o.nm o.em
  unfold resonanceClass
  unfold DayWindowF64 HalfDayWindowF64 at *
  simp only [f64_flt, f64_fle, f64_sci, Bool.and_eq_true]
  refine ⟨fun ⟨h1, h2⟩ => ?_, fun ⟨h1, h2, h3⟩ => ?_, fun h1 h2 => ?_⟩
  · rw [if_neg (by rintro ⟨⟨h3, h4⟩, h5⟩; exact hx ⟨⟨h1, h2⟩, h3, h4, h5⟩), if_pos ⟨h2, h1⟩]
  · rw [if_pos ⟨⟨h1, h2⟩, h3⟩]
  · rw [if_neg (by rintro ⟨⟨h3, h4⟩, h5⟩; exact h2 ⟨h3, h4, h5⟩), if_neg (by rintro ⟨h3, h4⟩; exact h1 ⟨h4, h3⟩)]

/-- The two windows are inhabited. -/
example : DayWindowF64 (sci 4375 true 6) ∧ HalfDayWindowF64 (sci 875 true 5) (sci 7 true 1) := by
  unfold DayWindowF64 HalfDayWindowF64
  decide +kernel

/-! ## C08 -/

/-- **C08** in doubles: between one and ten Newton steps, whatever the angle and the eccentricity components. -/
theorem C08_kepler_once_f64 (u ax ay : F64) :
    ∃ n, 1 ≤ n ∧ n ≤ 10 ∧ kepler u ax ay = some (iterate (keplerBody u ax ay) n (keplerStart u)) :=
  C08_kepler_once u ax ay start_big

/-! ## C09 -/

/-- **C09.** For every record the library hands out after initialising a resonant deep-space orbit, propagation fails to return
exactly for the infinite times and those beyond `2^63` minutes. -/
theorem C09_initialised_exact (s s' : Satrec F64) (o : SGP4InitOptions F64) (r : Except SGP4Error (SGP4Result F64))
    (h : sgp4init s o = some (s', r)) (hD : s'.method = .D) (hi : feq s'.irez (sci 0 true 1) = false) (t : F64) :
    sgp4 s' t = none ↔ ((∃ b, t = .inf b) ∨ (t.Fin ∧ 2 ^ 63 < |t.val|)) :=
  C09_f64_exact s' t hD hi (by rw [C09_integrator_at_epoch s s' o r h]; exact lit_zero_irez)

end
end Sat
