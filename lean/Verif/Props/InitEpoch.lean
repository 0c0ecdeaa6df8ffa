import Verif.Props.Epoch
import Verif.Props.Accept
/-!
# C70: initialisation reports what propagation to the epoch reports

Every arithmetic.
-/

namespace Sat
variable {F : Type} [Arith F]

/-- `sgp4` does not look at the initialisation flag. -/
theorem init_flag_unread (s : Satrec F) (i : DpperInit) (t : F) (s1 : Satrec F) (r) (h : sgp4 s t = some (s1, r)) :
    (sgp4 { s with init := i } t).map Prod.snd = some r := by
  have hd := dspaceReturns_of_sgp4 (s := s) (t := t) (by rw [h]; exact Option.some_ne_none _)
  have hd' : DspaceReturns { s with init := i } t := by
    intro hD
    obtain ⟨x, hx⟩ := hd hD
    exact ⟨x, hx⟩
  have h1 := sgp4_refines { s with init := i } t hd'
  have h2 : Spec.result { s with init := i } t = Spec.result s t := by
    apply result_congr <;> first | rfl | (intro _; rfl)
  have h3 : (sgp4 { s with init := i } t).map Prod.snd = some (Spec.result { s with init := i } t) := h1
  rw [h3, h2, ← C16_outcome _ _ _ _ h]

/-- **C70.** Whatever initialisation reports — a state vector or an error — is what propagating the resulting record to time zero
reports, at once or after any other calls on the record. -/
theorem C70_init_is_epoch (s s' s'' : Satrec F) (o : SGP4InitOptions F) (r : Except SGP4Error (SGP4Result F)) (earlier : List F)
    (h : sgp4init s o = some (s', r)) (hc : afterCalls s' earlier = some s'') : (sgp4 s'' 0.0).map Prod.snd = some r := by
  rw [C01_history_independent s' s'' earlier 0.0 hc]
  unfold sgp4init at h
  split at h
  · cases h
  · rename_i s1 e h1
    cases h
    rw [resultOf_after _ _ 0.0 0.0 _ h1, h1]
    rfl
  · rename_i s1 r1 h1
    cases h
    have h2 := resultOf_after _ _ 0.0 0.0 _ h1
    rw [h1] at h2
    cases h3 : sgp4 s1 0.0 with
    | none => rw [h3] at h2; cases h2
    | some p =>
      rw [h3] at h2
      simp only [Option.map_some, Option.some.injEq] at h2
      obtain ⟨p1, p2⟩ := p
      dsimp only at h2
      subst h2
      exact init_flag_unread s1 .N 0.0 p1 _ h3

end Sat
