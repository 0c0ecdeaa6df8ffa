import Verif.Arith
/-! Rules for `whileLoop`. -/

namespace Sat
variable {σ : Type} {cond : σ → Bool} {body : σ → σ}

theorem whileLoop_true {s : σ} (h : cond s = true) : whileLoop cond body s = whileLoop cond body (body s) := by
  conv => lhs; rw [whileLoop.eq_1]
  simp [h]

theorem whileLoop_false {s : σ} (h : cond s = false) : whileLoop cond body s = some s := by
  rw [whileLoop.eq_1]; simp [h]

/-- `body` applied `n` times -/
def iterate (body : σ → σ) : Nat → σ → σ
  | 0, s => s
  | n + 1, s => iterate body n (body s)

theorem iterate_succ' (body : σ → σ) (n : Nat) (s : σ) : iterate body (n + 1) s = body (iterate body n s) := by
  induction n generalizing s with
  | zero => rfl
  | succ n ih => rw [iterate, ih]; rfl

/-- A loop that is known to leave after `n` passes returns the `n`-th iterate. -/
theorem whileLoop_iterate {s : σ} (n : Nat) (h1 : ∀ k < n, cond (iterate body k s) = true)
    (h2 : cond (iterate body n s) = false) : whileLoop cond body s = some (iterate body n s) := by
  induction n generalizing s with
  | zero => exact whileLoop_false h2
  | succ n ih =>
    rw [whileLoop_true (s := s) (h1 0 (Nat.succ_pos n))]
    exact ih (fun k hk => h1 (k + 1) (Nat.succ_lt_succ hk)) h2

/-- Partial correctness: whatever a loop returns is an iterate of the start at which the condition fails for the first time. -/
theorem whileLoop_some {s r : σ} (h : whileLoop cond body s = some r) :
    ∃ n, r = iterate body n s ∧ (∀ k < n, cond (iterate body k s) = true) ∧ cond r = false := by
  have key : ∀ s r, whileLoop cond body s = some r →
      ∃ n, r = iterate body n s ∧ (∀ k < n, cond (iterate body k s) = true) ∧ cond r = false := by
    apply whileLoop.partial_correctness
    intro f ih s r h
    split at h
    · rename_i hc
      obtain ⟨n, h1, h2, h3⟩ := ih _ _ h
      refine ⟨n + 1, h1, ?_, h3⟩
      intro k hk
      cases k with
      | zero => exact hc
      | succ k => exact h2 k (Nat.lt_of_succ_lt_succ hk)
    · rename_i hc
      simp only [Option.some.injEq] at h
      subst h
      exact ⟨0, rfl, fun k hk => absurd hk (Nat.not_lt_zero k), by simpa using hc⟩
  exact key s r h

/-- The loop never exits exactly when the condition holds at every iterate. -/
theorem whileLoop_none_iff {s : σ} : whileLoop cond body s = none ↔ ∀ k, cond (iterate body k s) = true := by
  constructor
  · intro h
    refine Classical.byContradiction fun hne => ?_
    have ⟨k, hk⟩ : ∃ k, cond (iterate body k s) = false := by
      simpa using hne
    -- the first such k
    have : ∃ n, cond (iterate body n s) = false ∧ ∀ m < n, cond (iterate body m s) = true := by
      clear h hne
      induction k using Nat.strongRecOn with
      | _ k ih =>
        by_cases hex : ∃ m < k, cond (iterate body m s) = false
        · obtain ⟨m, hm, hm'⟩ := hex
          exact ih m hm hm'
        · refine ⟨k, hk, fun m hm => ?_⟩
          cases hc : cond (iterate body m s) with
          | true => rfl
          | false => exact absurd ⟨m, hm, hc⟩ hex
    obtain ⟨n, hn, hlt⟩ := this
    rw [whileLoop_iterate n hlt hn] at h
    cases h
  · intro h
    cases hr : whileLoop cond body s with
    | none => rfl
    | some r =>
      obtain ⟨n, rfl, _, h3⟩ := whileLoop_some hr
      rw [h n] at h3; cases h3

end Sat
