import Verif.Model.Sgp4init
import Verif.Proofs.Loop
/-! Stage lemmas about `sgp4`, valid for every arithmetic. -/

set_option linter.unusedSectionVars false

namespace Sat
variable {F : Type} [Arith F]

/-- What a call may leave in a record: only `error` (near earth), plus five coefficients (deep space). -/
def Left (s s' : Satrec F) : Prop :=
  (s.method = .N ∧ s' = { s with error := s'.error }) ∨
  (s.method = .D ∧ s' = { s with error := s'.error, aycof := s'.aycof, xlcof := s'.xlcof,
                                 con41 := s'.con41, x1mth2 := s'.x1mth2, x7thm1 := s'.x7thm1 })

/-- The error field agrees with the result. -/
def FlagOk (s' : Satrec F) (r : Except SGP4Error (SGP4Result F)) : Prop :=
  match r with
  | .ok _ => s'.error = 0
  | .error e => s'.error = e.code

theorem method_cases (s : Satrec F) : s.method = .N ∨ s.method = .D := by
  cases s.method
  · exact Or.inl rfl
  · exact Or.inr rfl

theorem left_error (s : Satrec F) (e : Nat) : Left s { s with error := e } := by
  rcases method_cases s with h | h
  · exact Or.inl ⟨h, rfl⟩
  · exact Or.inr ⟨h, rfl⟩

theorem left_setShort (s : Satrec F) (c : F) (e : Nat) : Left s { setShort s c with error := e } := by
  rcases method_cases s with h | h
  · refine Or.inl ⟨h, ?_⟩
    have : ¬ s.method = .D := by rw [h]; decide
    simp only [setShort, this, if_false]
  · refine Or.inr ⟨h, ?_⟩
    simp only [setShort, h, if_true]

theorem left_setShort' (s : Satrec F) (c : F) : Left s (setShort s c) := by
  rcases method_cases s with h | h
  · refine Or.inl ⟨h, ?_⟩
    have : ¬ s.method = .D := by rw [h]; decide
    simp only [setShort, this, if_false]
  · refine Or.inr ⟨h, ?_⟩
    simp only [setShort, h, if_true]

theorem setShort_error (s : Satrec F) (c : F) : (setShort s c).error = s.error := by
  unfold setShort; split <;> rfl

theorem setShort_D {s : Satrec F} (h : s.method = .D) (c : F) :
    (setShort s c).con41 = (3.0 * (c * c)) - 1.0 ∧ (setShort s c).x1mth2 = 1.0 - (c * c) ∧
      (setShort s c).x7thm1 = (7.0 * (c * c)) - 1.0 := by
  unfold setShort; rw [if_pos h]; exact ⟨rfl, rfl, rfl⟩

theorem setShort_N {s : Satrec F} (h : ¬ s.method = .D) (c : F) : setShort s c = s := by
  unfold setShort; rw [if_neg h]

theorem setShort_method (s : Satrec F) (c : F) : (setShort s c).method = s.method := by
  unfold setShort; split <;> rfl

theorem tail_left {s s' : Satrec F} {am nm ep xincp sinip cosip argpp nodep mp : F} {r}
    (h : sgp4Tail s am nm ep xincp sinip cosip argpp nodep mp = some (s', r)) (h0 : s.error = 0) :
    Left s s' ∧ FlagOk s' r := by
  unfold sgp4Tail at h
  dsimp only at h
  split at h
  · cases h
  split at h
  · cases h; exact ⟨left_error s 4, rfl⟩
  split at h
  · cases h; exact ⟨left_setShort s _ 6, rfl⟩
  · cases h; exact ⟨left_setShort' s _, by show (setShort s cosip).error = 0; rw [setShort_error]; exact h0⟩

theorem periodics_left {s s' : Satrec F} {am nm em : F} {m : MeanAngles F} {r}
    (h : sgp4Periodics s am nm em m = some (s', r)) (h0 : s.error = 0) : Left s s' ∧ FlagOk s' r := by
  unfold sgp4Periodics at h
  split at h
  · rename_i hD
    dsimp only at h
    split at h
    · cases h; exact ⟨left_error s 3, rfl⟩
    · obtain ⟨h1, h2⟩ := tail_left h h0
      refine ⟨?_, h2⟩
      rcases h1 with ⟨hN, _⟩ | ⟨_, h1⟩
      · change s.method = .N at hN; rw [hD] at hN; cases hN
      · exact Or.inr ⟨hD, h1⟩
  · exact tail_left h h0

theorem body_left {s s' : Satrec F} {c : SecularOut F} {em : F} {r}
    (h : sgp4Body s c em = some (s', r)) (h0 : s.error = 0) : Left s s' ∧ FlagOk s' r := by
  unfold sgp4Body at h
  split at h
  · cases h; exact ⟨left_error s 2, rfl⟩
  dsimp only at h
  split at h
  · cases h; exact ⟨left_error s 1, rfl⟩
  · exact periodics_left h h0

theorem sgp4_left {s s' : Satrec F} {t : F} {r} (h : sgp4 s t = some (s', r)) :
    Left { s with t := t, error := 0 } s' ∧ FlagOk s' r := by
  unfold sgp4 at h
  dsimp only at h
  split at h
  · cases h
  · exact body_left h rfl

/-! ### Independence of the scratch fields -/

/-- the result of a call, without the record -/
def resultOf (o : Option (Sgp4Out F)) : Option (Except SGP4Error (SGP4Result F)) := o.map Prod.snd

theorem tail_same {a : Satrec F} (hD : a.method = .D) (x1 x2 x3 y1 y2 y3 : F)
    (am nm ep xincp sinip cosip argpp nodep mp : F) :
    resultOf (sgp4Tail { a with con41 := x1, x1mth2 := x2, x7thm1 := x3 } am nm ep xincp sinip cosip argpp nodep mp) =
    resultOf (sgp4Tail { a with con41 := y1, x1mth2 := y2, x7thm1 := y3 } am nm ep xincp sinip cosip argpp nodep mp) := by
  have e : ∀ x1 x2 x3 : F, longPeriod { a with con41 := x1, x1mth2 := x2, x7thm1 := x3 } am ep argpp nodep mp =
      longPeriod a am ep argpp nodep mp := fun _ _ _ => rfl
  have e2 : ∀ x1 x2 x3 : F, setShort { a with con41 := x1, x1mth2 := x2, x7thm1 := x3 } cosip = setShort a cosip := by
    intro x1 x2 x3
    simp only [setShort, hD, if_true]
  unfold sgp4Tail
  simp only [e, e2]
  split
  · rfl
  · split
    · rfl
    · rfl

theorem periodics_same {a : Satrec F} (hD : a.method = .D) (x1 x2 x3 x4 x5 : F) (am nm em : F) (m : MeanAngles F) :
    resultOf (sgp4Periodics { a with aycof := x1, xlcof := x2, con41 := x3, x1mth2 := x4, x7thm1 := x5 } am nm em m) =
    resultOf (sgp4Periodics a am nm em m) := by
  have e : ∀ d, sgp4Dpper { a with aycof := x1, xlcof := x2, con41 := x3, x1mth2 := x4, x7thm1 := x5 } em d =
      sgp4Dpper a em d := fun _ => rfl
  unfold sgp4Periodics
  rw [if_pos hD, if_pos hD, e]
  by_cases hc : (((sgp4Dpper a em m).ep <. 0.0) || ((sgp4Dpper a em m).ep >. 1.0)) = true
  · simp only [if_pos hc]
    rfl
  · simp only [if_neg hc]
    generalize (if ((sgp4Dpper a em m).inclp <. 0.0) = true then -(sgp4Dpper a em m).inclp
      else (sgp4Dpper a em m).inclp) = xi
    exact tail_same (a := { a with aycof := aycofOf (Arith.sin xi), xlcof := xlcofOf (Arith.sin xi) (Arith.cos xi) })
      hD x3 x4 x5 a.con41 a.x1mth2 a.x7thm1 am nm em xi (Arith.sin xi) (Arith.cos xi) m.argpm m.nodem m.mm

theorem body_same {a : Satrec F} (hD : a.method = .D) (x1 x2 x3 x4 x5 : F) (c : SecularOut F) (em : F) :
    resultOf (sgp4Body { a with aycof := x1, xlcof := x2, con41 := x3, x1mth2 := x4, x7thm1 := x5 } c em) =
    resultOf (sgp4Body a c em) := by
  unfold sgp4Body
  dsimp only
  split
  · rfl
  split
  · rfl
  · exact periodics_same hD x1 x2 x3 x4 x5 ..

/-- The result of a deep-space call does not depend on the fields such a call leaves behind. -/
theorem sgp4_same_deep {a : Satrec F} (hD : a.method = .D) (t' : F) (e' : Nat) (x1 x2 x3 x4 x5 t : F) :
    resultOf (sgp4 { a with t := t', error := e', aycof := x1, xlcof := x2, con41 := x3, x1mth2 := x4, x7thm1 := x5 } t)
      = resultOf (sgp4 a t) := by
  unfold sgp4
  dsimp only
  have e1 : secular { a with t := t, error := 0, aycof := x1, xlcof := x2, con41 := x3, x1mth2 := x4, x7thm1 := x5 }
      = secular { a with t := t, error := 0 } := rfl
  have e2 : ∀ c, emAfterDspace { a with t := t, error := 0, aycof := x1, xlcof := x2, con41 := x3, x1mth2 := x4, x7thm1 := x5 } c
      = emAfterDspace { a with t := t, error := 0 } c := fun _ => rfl
  rw [e1, e2]
  split
  · rfl
  · exact body_same (a := { a with t := t, error := 0 }) hD x1 x2 x3 x4 x5 ..

/-- A near-earth call does not depend on the `t` and `error` found in the record. -/
theorem sgp4_same_near (a : Satrec F) (t' : F) (e' : Nat) (t : F) :
    sgp4 { a with t := t', error := e' } t = sgp4 a t := rfl

end Sat
