import Verif.Props.Returns
import Verif.Props.ParseOutcome
/-!
# C20, C27: exactly when reading a file crashes, and exactly what it returns

`Grouped` is the rule by which a file is cut into sets, stated on its own.
-/

namespace Sat
open F64 Spec

/-- The non-blank lines of a file and the groups they are read in: a line is the name of a three-line set unless it is 25 bytes long when trimmed, in
which case it starts a two-line set; what is left at the end is read as one group of two lines or one. -/
inductive Grouped : List Str → List (List Str) → Prop
  | nil : Grouped [] []
  | one (a : Str) : Grouped [a] [[a]]
  | two (a b : Str) : Grouped [a, b] [[a, b]]
  | named {a b c : Str} {rest : List Str} {gs : List (List Str)} : byteLen (trim a) ≠ 25 → Grouped rest gs → Grouped (a :: b :: c :: rest) ([a, b, c] :: gs)
  | bare {a b c : Str} {rest : List Str} {gs : List (List Str)} : byteLen (trim a) = 25 → Grouped (c :: rest) gs → Grouped (a :: b :: c :: rest) ([a, b] :: gs)

theorem grouped_iff {ls : List Str} {gs : List (List Str)} : Grouped ls gs ↔ gs = groupLines ls := by
  constructor
  · intro h
    induction h with
    | nil => rw [groupLines]
    | one a => rw [groupLines]
    | two a b => rw [groupLines]
    | named h _ ih => rw [groupLines, if_pos h, ih]
    | bare h _ ih => rw [groupLines, if_neg (not_not.mpr h), ih]
  · rintro rfl
    induction hn : ls.length using Nat.strongRecOn generalizing ls with
    | _ n ih =>
      match ls, hn with
      | [], _ => rw [groupLines]; exact .nil
      | [a], _ => rw [groupLines]; exact .one a
      | [a, b], _ => rw [groupLines]; exact .two a b
      | a :: b :: c :: rest, hn =>
        simp only [List.length_cons] at hn
        rw [groupLines]
        split
        · exact .named ‹_› (ih rest.length (by omega) rfl)
        · exact .bare (not_not.mp ‹_›) (ih (c :: rest).length (by simp; omega) rfl)

section generic
variable {F : Type} [Arith F]

/-- Reading the group panics: reading its last two lines does, or it succeeds and the name line is `0` followed by nothing or by a character of more than
one byte. -/
def Crashes (F : Type) [Arith F] (g : List Str) : Prop :=
  ∃ pre a b, g = pre ++ [a, b] ∧ pre.length ≤ 1 ∧
    ((twoline2satrec a b : PRes (Satrec F)) = .panic ∨
      ((∃ s, (twoline2satrec a b : PRes (Satrec F)) = .ok s) ∧ ∃ n, pre = [n] ∧ (n = ['0'] ∨ ∃ c rest, n = '0' :: c :: rest ∧ 128 ≤ c.toNat)))

theorem nameOf_panic {n : Str} : nameOf n = .panic ↔ (n = ['0'] ∨ ∃ c rest, n = '0' :: c :: rest ∧ 128 ≤ c.toNat) := by
  match n with
  | [] => simp [nameOf]
  | ['0'] => simp [nameOf]
  | c :: cs =>
    unfold nameOf
    split
    · rename_i d rest heq
      rw [heq]
      by_cases h : d.toNat < 128
      · rw [if_pos h]; simp; omega
      · rw [if_neg h]; simp; omega
    · rename_i heq
      rw [heq]; simp
    · rename_i h1 h2
      simp only [reduceCtorEq, false_iff]
      rintro (h | ⟨d, rest, h, -⟩)
      · exact h2 h
      · exact h1 _ _ h

theorem readGroup_panic (g : List Str) (h3 : g.length ≤ 3) : (readGroup g : PRes (Satrec F)) = .panic ↔ Crashes F g := by
  match g, h3 with
  | [], _ =>
    simp only [readGroup, reduceCtorEq, false_iff]
    rintro ⟨pre, a, b, h, -⟩
    have := congrArg List.length h
    simp at this
  | [x], _ =>
    simp only [readGroup, reduceCtorEq, false_iff]
    rintro ⟨pre, a, b, h, -⟩
    have := congrArg List.length h
    simp at this
  | [a, b], _ =>
    rw [readGroup]
    constructor
    · intro h; exact ⟨[], a, b, rfl, by simp, Or.inl h⟩
    · rintro ⟨pre, x, y, he, -, hh⟩
      cases pre with
      | nil =>
        cases he
        rcases hh with hh | ⟨-, n, hn, -⟩
        · exact hh
        · cases hn
      | cons z zs => have := congrArg List.length he; simp at this
  | [n, a, b], _ =>
    have key : ∀ pre x y, [n, a, b] = pre ++ [x, y] → pre = [n] ∧ x = a ∧ y = b := by
      intro pre x y h
      match pre, h with
      | [z], h => cases h; exact ⟨rfl, rfl, rfl⟩
      | [], h => have := congrArg List.length h; simp at this
      | _ :: _ :: _, h => have := congrArg List.length h; simp at this
    rw [readGroup]
    cases ht : (twoline2satrec a b : PRes (Satrec F)) with
    | panic => exact ⟨fun _ => ⟨[n], a, b, rfl, by simp, Or.inl ht⟩, fun _ => rfl⟩
    | diverge =>
      simp only [Res.diverge_bind, reduceCtorEq, false_iff]
      rintro ⟨pre, x, y, he, -, hh⟩
      obtain ⟨rfl, rfl, rfl⟩ := key pre x y he
      rw [ht] at hh; simp at hh
    | err e =>
      simp only [Res.err_bind, reduceCtorEq, false_iff]
      rintro ⟨pre, x, y, he, -, hh⟩
      obtain ⟨rfl, rfl, rfl⟩ := key pre x y he
      rw [ht] at hh; simp at hh
    | ok s =>
      simp only [Res.ok_bind]
      constructor
      · intro h
        refine ⟨[n], a, b, rfl, by simp, Or.inr ⟨⟨s, ht⟩, n, rfl, nameOf_panic.mp ?_⟩⟩
        cases hn : nameOf n with
        | panic => rfl
        | ok x => rw [hn] at h; cases h
        | err e => rw [hn] at h; cases h
        | diverge => rw [hn] at h; cases h
      · rintro ⟨pre, x, y, he, -, hh⟩
        obtain ⟨rfl, rfl, rfl⟩ := key pre x y he
        rcases hh with hh | ⟨-, m, hm, hh⟩
        · rw [ht] at hh; cases hh
        · cases hm
          rw [nameOf_panic.mpr hh]; rfl

theorem readAll_panic (gs : List (List Str)) (h3 : ∀ g ∈ gs, g.length ≤ 3) (hd : ∀ g ∈ gs, (readGroup g : PRes (Satrec F)) ≠ .diverge) (i : ℕ)
    (recs : List (Satrec F)) (errs : List SatrecParseError) : readAll i gs recs errs = .panic ↔ ∃ g ∈ gs, Crashes F g := by
  induction gs generalizing i recs errs with
  | nil => simp [readAll]
  | cons g gs ih =>
    have ih := ih (fun x hx => h3 x (List.mem_cons_of_mem _ hx)) (fun x hx => hd x (List.mem_cons_of_mem _ hx))
    have hg := readGroup_panic (F := F) g (h3 g (List.mem_cons_self ..))
    have hdg := hd g (List.mem_cons_self ..)
    rw [readAll]
    cases hr : (readGroup g : PRes (Satrec F)) with
    | ok s =>
      rw [hr] at hg
      have hn : ¬ Crashes F g := fun h => by cases hg.mpr h
      dsimp only
      rw [ih]; simp [hn]
    | err e =>
      rw [hr] at hg
      have hn : ¬ Crashes F g := fun h => by cases hg.mpr h
      dsimp only
      rw [ih]; simp [hn]
    | panic => exact ⟨fun _ => ⟨g, List.mem_cons_self .., hg.mp hr⟩, fun _ => rfl⟩
    | diverge => exact absurd hr hdg

theorem readGroup_returns (hd : ∀ a b : Str, (twoline2satrec a b : PRes (Satrec F)) ≠ .diverge) (g : List Str) :
    (readGroup g : PRes (Satrec F)) ≠ .diverge := by
  unfold readGroup
  split
  · rename_i n a b
    cases ht : (twoline2satrec a b : PRes (Satrec F)) with
    | panic => simp
    | diverge => exact absurd ht (hd a b)
    | err e => simp
    | ok s =>
      simp only [Res.ok_bind]
      have : nameOf n ≠ .diverge := by
        unfold nameOf
        split
        · split <;> simp
        · simp
        · simp
      cases hn : nameOf n with
      | panic => simp
      | ok x => simp
      | err e => simp
      | diverge => exact absurd hn this
  · exact hd _ _
  · simp

theorem multiple_panics_iff (hd : ∀ a b : Str, (twoline2satrec a b : PRes (Satrec F)) ≠ .diverge) (ls : List Str) (hne : ls ≠ [])
    (h : ∀ l ∈ ls, OneLine l) :
    (parse_multiple (joinLines ls) : Res Empty (List (Satrec F) × List SatrecParseError)) = .panic ↔
      ∃ gs, Grouped (nonBlank ls) gs ∧ ∃ g ∈ gs, Crashes F g := by
  rw [parse_multiple_groups ls hne h,
    readAll_panic _ (fun g hg => ((groupLines_spec _).2 g hg).2) (fun g _ => readGroup_returns hd g)]
  constructor
  · intro hh; exact ⟨_, grouped_iff.mpr rfl, hh⟩
  · rintro ⟨gs, h1, h2⟩
    rw [grouped_iff.mp h1] at h2; exact h2

/-- **C27.** `parse_multiple` returns `(recs, errs)` exactly when no group crashes (or hangs) and these are, in order, the records and the errors of the
groups into which the rule `Grouped` cuts the non-blank lines. -/
theorem C27_returns_iff (ls : List Str) (hne : ls ≠ []) (h : ∀ l ∈ ls, OneLine l) (recs : List (Satrec F)) (errs : List SatrecParseError) :
    parse_multiple (joinLines ls) = .ok (recs, errs) ↔
      ∃ gs, Grouped (nonBlank ls) gs ∧ (∀ g ∈ gs, Returns F g) ∧ recs = (withIndex 0 gs).filterMap okOf ∧ errs = (withIndex 0 gs).filterMap (errOf F) := by
  rw [parse_multiple_groups ls hne h]
  obtain ⟨ha, hb⟩ := readAll_spec (F := F) (groupLines (nonBlank ls)) 0 [] []
  constructor
  · intro hr
    by_cases hall : ∀ g ∈ groupLines (nonBlank ls), Returns F g
    · rw [ha hall] at hr
      simp only [List.nil_append, Res.ok.injEq, Prod.mk.injEq] at hr
      obtain ⟨rfl, rfl⟩ := hr
      exact ⟨_, grouped_iff.mpr rfl, hall, rfl, rfl⟩
    · have : ∃ g ∈ groupLines (nonBlank ls), ¬ Returns F g := by
        by_contra hn; exact hall fun g hg => by_contra fun hx => hn ⟨g, hg, hx⟩
      rcases hb this with e | e <;> rw [e] at hr <;> cases hr
  · rintro ⟨gs, h1, h2, rfl, rfl⟩
    rw [grouped_iff.mp h1] at h2 ⊢
    rw [ha h2]; simp

end generic

/-- **C20**, exact arithmetic: `parse_multiple` panics exactly when one of the groups does. -/
theorem C20_multiple_panics_iff_real (ls : List Str) (hne : ls ≠ []) (h : ∀ l ∈ ls, OneLine l) :
    (parse_multiple (joinLines ls) : Res Empty (List (Satrec ℝ) × List SatrecParseError)) = .panic ↔
      ∃ gs, Grouped (nonBlank ls) gs ∧ ∃ g ∈ gs, Crashes ℝ g :=
  multiple_panics_iff C68_reading_returns_real.1 ls hne h

/-- **C20**, double arithmetic: `parse_multiple` panics exactly when one of the groups does, whatever the mathematical library returns: one bad set makes
the whole file unreadable. -/
theorem C20_multiple_panics_iff [Libm] (ls : List Str) (hne : ls ≠ []) (h : ∀ l ∈ ls, OneLine l) :
    (parse_multiple (joinLines ls) : Res Empty (List (Satrec F64) × List SatrecParseError)) = .panic ↔
      ∃ gs, Grouped (nonBlank ls) gs ∧ ∃ g ∈ gs, Crashes F64 g :=
  multiple_panics_iff C68_reading_returns_f64.1 ls hne h

/-- A file whose fifth line is shorter than seven bytes: the second set crashes whatever the other lines are. -/
theorem multiple_crash [Libm] (n1 a1 b1 n2 b2 : Str) (h1 : byteLen (trim n1) ≠ 25) (h2 : byteLen (trim n2) ≠ 25)
    (h : ∀ l ∈ [n1, a1, b1, n2, "1 255".toList, b2], OneLine l) (hb : ∀ l ∈ [n1, a1, b1, n2, b2], ¬ Blank l) :
    (parse_multiple (joinLines [n1, a1, b1, n2, "1 255".toList, b2]) : Res Empty (List (Satrec F64) × List SatrecParseError)) = .panic := by
  have e : nonBlank [n1, a1, b1, n2, "1 255".toList, b2] = [n1, a1, b1, n2, "1 255".toList, b2] := by
    refine List.filter_eq_self.mpr fun l hl => ?_
    rw [decide_eq_true_eq]
    simp only [List.mem_cons, List.not_mem_nil, or_false] at hl
    rcases hl with rfl | rfl | rfl | rfl | rfl | rfl
    · exact hb _ (by simp)
    · exact hb _ (by simp)
    · exact hb _ (by simp)
    · exact hb _ (by simp)
    · decide
    · exact hb _ (by simp)
  refine (C20_multiple_panics_iff _ (by simp) h).mpr ⟨_, e ▸ Grouped.named h1 (Grouped.named h2 Grouped.nil), _,
    List.mem_cons_of_mem _ (List.mem_cons_self ..), [n2], _, _, rfl, by simp, Or.inl ?_⟩
  exact (C20_violated_short_line _ _ (by decide)).2

end Sat
