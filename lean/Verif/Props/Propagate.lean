import Verif.Proofs.Refine
/-!
# Propagation as a state machine: C01, C02, C03, C04, C08, C10, C16, C48

Everything here holds for **every** arithmetic `F` (no laws), hence for IEEE doubles.  `sgp4 s t = some (s', r)` reads: the
call returns `r` and leaves the record `s'`; `none`: the call does not return.
-/

set_option linter.unusedSectionVars false

namespace Sat
variable {F : Type} [Arith F]

/-! ## C01 -/

/-- The record after calling `sgp4` at each of the given times, in order (`none` if one of the calls does not return). -/
def afterCalls : Satrec F → List F → Option (Satrec F)
  | s, [] => some s
  | s, t :: ts =>
    match sgp4 s t with
    | none => none
    | some (s', _) => afterCalls s' ts

theorem resultOf_after (s s' : Satrec F) (t0 t : F) (r) (h : sgp4 s t0 = some (s', r)) :
    (sgp4 s' t).map Prod.snd = (sgp4 s t).map Prod.snd := by
  obtain ⟨hl, -⟩ := sgp4_left h
  rcases hl with ⟨_, hs⟩ | ⟨hD, hs⟩
  · rw [hs]; rfl
  · rw [hs]
    exact sgp4_same_deep (a := s) hD t0 s'.error s'.aycof s'.xlcof s'.con41 s'.x1mth2 s'.x7thm1 t

/-- **C01.** What `sgp4` returns at time `t` does not depend on the calls made before on the same record. -/
theorem C01_history_independent (s s' : Satrec F) (earlier : List F) (t : F)
    (h : afterCalls s earlier = some s') :
    (sgp4 s' t).map Prod.snd = (sgp4 s t).map Prod.snd := by
  induction earlier generalizing s with
  | nil => cases h; rfl
  | cons t0 ts ih =>
    unfold afterCalls at h
    split at h
    · cases h
    · rename_i s1 r1 h1
      rw [ih s1 h, resultOf_after s s1 t0 t r1 h1]

/-- C01, near-earth records: the record left by the last call is the same too. -/
theorem C01_record_independent_near (s s' : Satrec F) (earlier : List F) (t : F) (hN : s.method = .N)
    (h : afterCalls s earlier = some s') : sgp4 s' t = sgp4 s t := by
  induction earlier generalizing s with
  | nil => cases h; rfl
  | cons t0 ts ih =>
    unfold afterCalls at h
    split at h
    · cases h
    · rename_i s1 r1 h1
      obtain ⟨hl, -⟩ := sgp4_left h1
      rcases hl with ⟨_, hs⟩ | ⟨hD, _⟩
      · rw [ih s1 (by rw [hs]; exact hN) h, hs]; rfl
      · change s.method = .D at hD
        rw [hN] at hD; cases hD

/-! ## C02 -/

/-- **C02**, near earth: the record after the call is the record before it, except for `t` and `error`. -/
theorem C02_footprint_near (s s' : Satrec F) (t : F) (r : Except SGP4Error (SGP4Result F))
    (hm : s.method = .N) (h : sgp4 s t = some (s', r)) :
    s' = { s with t := t, error := s'.error } := by
  obtain ⟨hl, -⟩ := sgp4_left h
  rcases hl with ⟨_, hs⟩ | ⟨hD, _⟩
  · exact hs
  · change s.method = .D at hD
    rw [hm] at hD; cases hD

/-- **C02**, deep space: of the 103 fields only `t`, `error` and five coefficients may change. -/
theorem C02_footprint_deep (s s' : Satrec F) (t : F) (r : Except SGP4Error (SGP4Result F))
    (hm : s.method = .D) (h : sgp4 s t = some (s', r)) :
    s' = { s with t := t, error := s'.error, aycof := s'.aycof, xlcof := s'.xlcof,
                  con41 := s'.con41, x1mth2 := s'.x1mth2, x7thm1 := s'.x7thm1 } := by
  obtain ⟨hl, -⟩ := sgp4_left h
  rcases hl with ⟨hN, _⟩ | ⟨_, hs⟩
  · change s.method = .N at hN
    rw [hm] at hN; cases hN
  · exact hs

/-! ## C03 -/

/-- **C03.** The error field is 0 exactly on success and otherwise the code of the returned error; no other value occurs,
in particular not 5, whatever was in the field before. -/
theorem C03_error_flag (s s' : Satrec F) (t : F) (r : Except SGP4Error (SGP4Result F))
    (h : sgp4 s t = some (s', r)) :
    (s'.error = 0 ↔ ∃ v, r = .ok v) ∧ (s'.error = 1 ↔ r = .error .Eccentricty) ∧ (s'.error = 2 ↔ r = .error .Nm) ∧
    (s'.error = 3 ↔ r = .error .Ep) ∧ (s'.error = 4 ↔ r = .error .Pl) ∧ (s'.error = 6 ↔ r = .error .DecayCondition) ∧
    s'.error ≠ 5 ∧ s'.error ≤ 6 := by
  obtain ⟨-, hf⟩ := sgp4_left h
  cases r with
  | ok v => have : s'.error = 0 := hf; simp [this]
  | error e =>
    have : s'.error = e.code := hf
    cases e <;> simp [this, SGP4Error.code]

/-! ## C04 -/

/-- **C04.** `propogate_datetime` returns what `sgp4` returns at `1440 (JD(time) - epoch JD)` minutes. -/
theorem C04_datetime (s : Satrec F) (time : DateTimeUtc) :
    propogate_datetime s time =
      (sgp4 s ((jday_datetime time - s.jdsatepoch) * 1440.0)).map Prod.snd := by
  show (match sgp4 s ((jday_datetime time - s.jdsatepoch) * MINUTES_PER_DAY) with
    | none => none | some out => some out.2) = _
  cases h : sgp4 s ((jday_datetime time - s.jdsatepoch) * MINUTES_PER_DAY) <;>
    · rw [show ((1440.0 : F)) = MINUTES_PER_DAY from rfl, h]; rfl

/-- **C04.** Two instants of the same second give the same result. -/
theorem C04_subsecond (s : Satrec F) (t1 t2 : DateTimeUtc)
    (h : t1 = { t2 with nanosecond := t1.nanosecond }) :
    propogate_datetime s t1 = propogate_datetime s t2 := by
  rw [h]; rfl

/-! ## C08 -/

/-- **C08.** The Kepler iteration makes at most 10 passes, and stops earlier only because the last correction is not
`>= 1e-12`. -/
theorem C08_kepler_bounded (u ax ay : F) :
    ∃ n ≤ 10, kepler u ax ay = some (iterate (keplerBody u ax ay) n (keplerStart u)) ∧
      (n < 10 → (Arith.abs (iterate (keplerBody u ax ay) n (keplerStart u)).tem5 ≥. 1.0e-12) = false) := by
  obtain ⟨k, hk, -, -, h11, hstop⟩ := kepler_spec u ax ay
  obtain ⟨n, hn, -, -⟩ := whileLoop_some hk
  have hktr : ∀ (m : Nat) (k0 : KeplerSt F), (iterate (keplerBody u ax ay) m k0).ktr = k0.ktr + m := by
    intro m
    induction m with
    | zero => intro k0; rfl
    | succ m ih => intro k0; rw [iterate, ih]; simp only [keplerBody]; omega
  have hkn : k.ktr = 1 + n := by rw [hn, hktr]; rfl
  refine ⟨n, by omega, by rw [← hn]; exact hk, fun hlt => ?_⟩
  rw [← hn]
  exact hstop.resolve_left (by omega)

/-- **C08.** It makes at least one pass in every arithmetic in which 9999.9 is not below 1e-12 (both interpretations used
here: see `C08_kepler_once_real`, `C08_kepler_once_f64`). -/
theorem C08_kepler_once (u ax ay : F) (h : (Arith.abs (9999.9 : F) ≥. 1.0e-12) = true) :
    ∃ n, 1 ≤ n ∧ n ≤ 10 ∧ kepler u ax ay = some (iterate (keplerBody u ax ay) n (keplerStart u)) := by
  obtain ⟨n, h10, hn, hstop⟩ := C08_kepler_bounded u ax ay
  refine ⟨n, ?_, h10, hn⟩
  rcases Nat.eq_zero_or_pos n with h0 | h0
  · subst h0
    have := hstop (by decide)
    rw [show (iterate (keplerBody u ax ay) 0 (keplerStart u)).tem5 = (9999.9 : F) from rfl, h] at this
    cases this
  · exact h0

/-- **C08.** Near-earth propagation returns for every time. -/
theorem C08_near_returns (s : Satrec F) (t : F) (hN : s.method = .N) : ∃ s' r, sgp4 s t = some (s', r) := by
  have h := sgp4_refines s t (fun hD => by rw [hN] at hD; cases hD)
  cases hs : sgp4 s t with
  | none => rw [hs] at h; cases h
  | some o => exact ⟨o.1, o.2, rfl⟩

/-! ## C16 -/

/-- **C16.** A call that returns has exactly the outcome given by the decision list `Spec.result`. -/
theorem C16_outcome (s s' : Satrec F) (t : F) (r : Except SGP4Error (SGP4Result F)) (h : sgp4 s t = some (s', r)) :
    r = Spec.result s t := by
  have hr := sgp4_refines s t (dspaceReturns_of_sgp4 (by rw [h]; exact Option.some_ne_none _))
  rw [h] at hr
  exact Option.some.inj hr

/-- **C16.** Each error, exactly when. -/
theorem C16_error_conditions (s s' : Satrec F) (t : F) (r : Except SGP4Error (SGP4Result F))
    (h : sgp4 s t = some (s', r)) :
    let badN := (s.no ≤. 0.0) = true
    let badE := (Spec.meanEcc s t ≥. 1.0) = true ∨ (Spec.meanEcc s t <. -0.001) = true
    let badP := s.method = .D ∧ (((Spec.perturbed s t).ep <. 0.0) = true ∨ ((Spec.perturbed s t).ep >. 1.0) = true)
    let badL := (Spec.semiLatus s t <. 0.0) = true
    let badR := (Spec.radius s t <. 1.0) = true
    (r = .error .Nm ↔ badN) ∧
    (r = .error .Eccentricty ↔ ¬ badN ∧ badE) ∧
    (r = .error .Ep ↔ ¬ badN ∧ ¬ badE ∧ badP) ∧
    (r = .error .Pl ↔ ¬ badN ∧ ¬ badE ∧ ¬ badP ∧ badL) ∧
    (r = .error .DecayCondition ↔ ¬ badN ∧ ¬ badE ∧ ¬ badP ∧ ¬ badL ∧ badR) ∧
    ((∃ v, r = .ok v) ↔ ¬ badN ∧ ¬ badE ∧ ¬ badP ∧ ¬ badL ∧ ¬ badR) := by
  intro badN badE badP badL badR
  have hr := C16_outcome s s' t r h
  have e2 : ((Spec.meanEcc s t ≥. 1.0) || (Spec.meanEcc s t <. -0.001)) = true ↔ badE := by
    simp only [Bool.or_eq_true]; exact Iff.rfl
  have e3 : (s.method = .D ∧ (((Spec.perturbed s t).ep <. 0.0) || ((Spec.perturbed s t).ep >. 1.0)) = true) ↔ badP := by
    simp only [Bool.or_eq_true]; exact Iff.rfl
  rw [hr]
  unfold Spec.result
  by_cases c1 : badN
  · rw [if_pos c1]; simp [c1]
  rw [if_neg c1]
  by_cases c2 : badE
  · rw [if_pos (e2.mpr c2)]; simp [c1, c2]
  rw [if_neg (fun h => c2 (e2.mp h))]
  by_cases c3 : badP
  · rw [if_pos (e3.mpr c3)]; simp [c1, c2, c3]
  rw [if_neg (fun h => c3 (e3.mp h))]
  by_cases c4 : badL
  · rw [if_pos c4]; simp [c1, c2, c3, c4]
  rw [if_neg c4]
  by_cases c5 : badR
  · rw [if_pos c5]; simp [c1, c2, c3, c4, c5]
  rw [if_neg c5]; simp [c1, c2, c3, c4, c5]

/-- C16: near-earth records never report `Ep`. -/
theorem C16_near_no_Ep (s s' : Satrec F) (t : F) (r : Except SGP4Error (SGP4Result F)) (hN : s.method = .N)
    (h : sgp4 s t = some (s', r)) : r ≠ .error .Ep := by
  intro hr
  have := ((C16_error_conditions s s' t r h).2.2.1.mp hr).2.2.1
  rw [hN] at this; cases this

/-! ## C48 -/

/-- **C48.** `dpper` called in initialisation mode hands back the five elements it was given. -/
theorem C48_dpper_identity (s : Satrec F) (o : DpperOptions F) (h : o.init = .Y) :
    dpper s o = { ep := o.ep, inclp := o.inclp, nodep := o.nodep, argpp := o.argpp, mp := o.mp } := by
  unfold dpper
  dsimp only
  rw [if_neg (by rw [h]; decide)]

end Sat
