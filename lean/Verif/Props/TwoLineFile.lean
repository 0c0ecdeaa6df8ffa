import Verif.Props.ParseOutcome
import Verif.Props.Decode
/-!
# C29: what `parse_multiple` makes of a file of unnamed two-line element sets

Exactly, for every number of sets and every arithmetic `F`.
-/

set_option linter.unusedSectionVars false

namespace Sat
open Spec
variable {F : Type} [Arith F]

/-- One two-line element set of a file with the record it gives when read alone. -/
structure TwoLine (F : Type) where
  line1 : Str
  line2 : Str
  record : Satrec F

/-- A standard two-line set: the lines start with their numbers, show some contents in the columns of the format, have a blank before
the eccentricity, and read well on their own. -/
structure TwoLine.Standard (s : TwoLine F) : Prop where
  one1 : OneLine s.line1
  one2 : OneLine s.line2
  head1 : s.line1.head? = some '1'
  head2 : s.line2.head? = some '2'
  shows : ∃ v, Printed s.line1 s.line2 v
  blank : cols s.line2 26 26 = [' ']
  reads : twoline2satrec s.line1 s.line2 = .ok s.record

theorem dropWhile_length (a b : Str) : (b.dropWhile isWhite).length ≤ ((a ++ b).dropWhile isWhite).length := by
  induction a with
  | nil => exact Nat.le_refl _
  | cons c cs ih =>
    rw [List.cons_append, List.dropWhile_cons]
    split
    · exact ih
    · refine Nat.le_trans ih ?_
      rw [List.length_cons]
      exact Nat.le_trans (List.Sublist.length_le (List.dropWhile_sublist _)) (Nat.le_succ _)

/-- a text that starts with a visible character keeps everything up to its last visible character when trimmed -/
theorem trim_length_ge {c d : Char} {a b : Str} (hc : isWhite c = false) (hd : isWhite d = false) :
    a.length + 2 ≤ (trim (c :: (a ++ d :: b))).length := by
  have h1 : trimStart (c :: (a ++ d :: b)) = c :: (a ++ d :: b) := by
    unfold trimStart; rw [List.dropWhile_cons, hc]; simp
  unfold trim
  rw [h1]
  unfold trimEnd
  rw [List.length_reverse, show (c :: (a ++ d :: b)).reverse = b.reverse ++ (d :: (c :: a).reverse) by simp]
  refine Nat.le_trans ?_ (dropWhile_length _ _)
  rw [List.dropWhile_cons, hd]
  simp

theorem trim_ne_25 {l : Str} {c d : Char} {k : Nat} (hc : l.head? = some c) (hcw : isWhite c = false) (hk : 25 ≤ k)
    (hd : l[k]? = some d) (hdw : isWhite d = false) : byteLen (trim l) ≠ 25 := by
  have : 26 ≤ (trim l).length := by
    cases l with
    | nil => cases hc
    | cons x xs =>
      simp only [List.head?_cons, Option.some.injEq] at hc
      subst hc
      obtain ⟨j, rfl⟩ : ∃ j, k = j + 1 := ⟨k - 1, by omega⟩
      rw [List.getElem?_cons_succ] at hd
      obtain ⟨hlt, hget⟩ := List.getElem?_eq_some_iff.mp hd
      have e : xs = xs.take j ++ d :: xs.drop (j + 1) := by
        rw [← hget, List.getElem_cons_drop, List.take_append_drop]
      have := trim_length_ge (a := xs.take j) (b := xs.drop (j + 1)) hcw hdw
      rw [← e, List.length_take] at this
      omega
  have := length_le_byteLen (trim l)
  omega

theorem cols_get {s t : Str} {a b : Nat} (h : cols s a b = t) (ha : 1 ≤ a) {i : Nat} (hi : i < b + 1 - a) : s[a - 1 + i]? = t[i]? := by
  rw [← h]
  unfold cols
  rw [List.getElem?_take, if_pos hi, List.getElem?_drop]

theorem point_get {t : Str} {w d n : Nat} (h : PointField t w d n) :
    t.length = w + 1 + d ∧ t[w]? = some '.' ∧ ∀ i, w < i → i < w + 1 + d → ∃ c, t[i]? = some c ∧ isDig c = true := by
  obtain ⟨k, hk, -, rfl⟩ := h
  have hl : (List.replicate k ' ' ++ fixedDigits (w - k) (n / 10 ^ d)).length = w := by simp [fixedDigits_length]; omega
  refine ⟨?_, ?_, ?_⟩
  · rw [List.length_append, hl, List.length_cons, fixedDigits_length]; omega
  · rw [List.getElem?_append_right (by omega), hl, Nat.sub_self]; rfl
  · intro i h1 h2
    rw [List.getElem?_append_right (by omega), hl]
    obtain ⟨j, hj⟩ : ∃ j, i - w = j + 1 := ⟨i - w - 1, by omega⟩
    rw [hj, List.getElem?_cons_succ]
    have hjl : j < (fixedDigits d n).length := by rw [fixedDigits_length]; omega
    exact ⟨_, List.getElem?_eq_getElem hjl, fixedDigits_isDig d n _ (List.getElem_mem hjl)⟩

theorem standard_long1 {s : TwoLine F} (h : s.Standard) : byteLen (trim s.line1) ≠ 25 ∧ ¬ Blank s.line1 := by
  obtain ⟨v, hv⟩ := h.shows
  obtain ⟨-, -, c, -, -, -, hb⟩ := hv.bstar
  have := cols_get hb (by decide) (i := 1) (by decide)
  refine ⟨trim_ne_25 h.head1 (by decide) (k := 60) (by decide) (d := digit v.bstarExp) (by simpa using this) (isDig_notWhite (digit_isDig _)), ?_⟩
  intro hbl
  have hf := h.head1
  cases hl : s.line1 with
  | nil => rw [hl] at hf; cases hf
  | cons x xs =>
    rw [hl] at hf hbl
    simp only [List.head?_cons, Option.some.injEq] at hf
    subst hf
    have := hbl '1' (List.mem_cons_self ..)
    revert this; decide

theorem standard_long2 {s : TwoLine F} (h : s.Standard) : byteLen (trim s.line2) ≠ 25 ∧ ¬ Blank s.line2 ∧ 63 ≤ s.line2.length := by
  obtain ⟨v, hv⟩ := h.shows
  obtain ⟨hlen, -, hp⟩ := point_get hv.no
  obtain ⟨c, hc, hd⟩ := hp 10 (by decide) (by decide)
  have := cols_get (s := s.line2) (a := 53) (b := 63) rfl (by decide) (i := 10) (by decide)
  rw [hc] at this
  refine ⟨trim_ne_25 h.head2 (by decide) (k := 62) (by decide) (d := c) (by simpa using this) (isDig_notWhite hd), ?_, ?_⟩
  · intro hbl
    have hf := h.head2
    cases hl : s.line2 with
    | nil => rw [hl] at hf; cases hf
    | cons x xs =>
      rw [hl] at hf hbl
      simp only [List.head?_cons, Option.some.injEq] at hf
      subst hf
      have := hbl '2' (List.mem_cons_self ..)
      revert this; decide
  · have h62 : s.line2[62]? = some c := by simpa using this
    obtain ⟨hlt, -⟩ := List.getElem?_eq_some_iff.mp h62
    omega

/-- a text with a blank between visible characters is not a number -/
theorem parseF64_inner_blank (a b : Str) (d : Char) (ha : ∀ c ∈ a, isDig c = true) (hb : ∀ c ∈ b, isDig c = true) (hd : isDig d = true) :
    parseF64 (trim ('.' :: (a ++ ' ' :: (b ++ [d])))) = none := by
  have ht : trim ('.' :: (a ++ ' ' :: (b ++ [d]))) = '.' :: (a ++ ' ' :: (b ++ [d])) := by
    unfold trim trimStart
    rw [List.dropWhile_cons, if_neg (by decide)]
    unfold trimEnd
    rw [show ('.' :: (a ++ ' ' :: (b ++ [d]))).reverse = d :: ('.' :: (a ++ ' ' :: b)).reverse by simp, List.dropWhile_cons,
      if_neg (by rw [isDig_notWhite hd]; decide)]
    simp
  rw [ht]
  have hn : parseNumber ('.' :: (a ++ ' ' :: (b ++ [d]))) = none := by
    obtain ⟨h1, h2⟩ := takeWhile_digits a (' ' :: (b ++ [d])) ha (by intro c t h; cases h; decide)
    have : parseNumber ('.' :: (a ++ ' ' :: (b ++ [d]))) =
        if ([] : Str) = [] ∧ (a ++ ' ' :: (b ++ [d])).takeWhile isDig = [] then none
        else match parseExp ((a ++ ' ' :: (b ++ [d])).dropWhile isDig) with
          | none => none
          | some e => some (digitsVal ([] ++ (a ++ ' ' :: (b ++ [d])).takeWhile isDig), e - ((a ++ ' ' :: (b ++ [d])).takeWhile isDig).length) := rfl
    rw [this, h1, h2]
    split
    · rfl
    · rfl
  have : parseF64 ('.' :: (a ++ ' ' :: (b ++ [d]))) =
      match parseNumber ('.' :: (a ++ ' ' :: (b ++ [d]))) with
      | some (m, e) => some (.num false m e)
      | none =>
        if ('.' :: (a ++ ' ' :: (b ++ [d]))).map lowerAscii = "nan".toList then some .nan
        else if ('.' :: (a ++ ' ' :: (b ++ [d]))).map lowerAscii = "inf".toList ∨
          ('.' :: (a ++ ' ' :: (b ++ [d]))).map lowerAscii = "infinity".toList then some (.inf false)
        else none := rfl
  rw [this, hn]
  dsimp only
  rw [if_neg (by simp [lowerAscii]), if_neg (by simp [lowerAscii])]

/-- Reading a second line as a first line is an error (not a panic). -/
theorem swapped_err {s : TwoLine F} (h : s.Standard) (x : Str) : ∃ e, (twoline2satrec s.line2 x : PRes (Satrec F)) = .err e := by
  have hlong := (standard_long2 h).2.2
  obtain ⟨v, hv⟩ := h.shows
  have has := hv.ascii2
  obtain ⟨hnl, hnp, hnd⟩ := point_get hv.node
  -- columns 21-32: a point, four digits, a blank, six digits
  have h21 : cols s.line2 21 32 = '.' :: (cols s.line2 22 25 ++ ' ' :: (cols s.line2 27 31 ++ cols s.line2 32 32)) := by
    have e1 : cols s.line2 21 21 = ['.'] := by
      have h1 := cols_get (s := s.line2) (a := 18) (b := 25) rfl (by decide) (i := 3) (by decide)
      rw [hnp] at h1
      obtain ⟨hlt, hget⟩ := List.getElem?_eq_some_iff.mp h1
      show (s.line2.drop 20).take 1 = _
      rw [List.drop_eq_getElem_cons (by omega)]
      show [s.line2[20]] = _
      rw [hget]
    have e2 := h.blank
    have split : ∀ (l : Str) (a b c : Nat), 1 ≤ a → a ≤ b + 1 → b ≤ c → cols l a c = cols l a b ++ cols l (b + 1) c := by
      intro l a b c h1 h2 h3
      unfold cols
      rw [show c + 1 - a = (b + 1 - a) + (c - b) by omega, List.take_add, List.drop_drop]
      congr 2
      · omega
      · congr 1; omega
    rw [split _ 21 21 32 (by decide) (by decide) (by decide), e1, split _ 22 25 32 (by decide) (by decide) (by decide),
      split _ 26 26 32 (by decide) (by decide) (by decide), e2, split _ 27 31 32 (by decide) (by decide) (by decide)]
    rfl
  have dig2 : ∀ c ∈ cols s.line2 22 25, isDig c = true := by
    intro c hc
    obtain ⟨i, hi, hget⟩ := List.mem_iff_getElem.mp hc
    have hil : i < 4 := by
      have : (cols s.line2 22 25).length ≤ 4 := by unfold cols; simp
      omega
    have g1 := cols_get (s := s.line2) (a := 22) (b := 25) rfl (by decide) (i := i) (by omega)
    have g2 := cols_get (s := s.line2) (a := 18) (b := 25) rfl (by decide) (i := 4 + i) (by omega)
    obtain ⟨c', hc', hd⟩ := hnd (4 + i) (by omega) (by omega)
    rw [hc', show 18 - 1 + (4 + i) = 22 - 1 + i by omega, g1, List.getElem?_eq_getElem hi, hget] at g2
    cases g2; exact hd
  have he := hv.ecc.2
  have dig3 : ∀ c ∈ cols s.line2 27 32, isDig c = true := by
    intro c hc
    have : cols s.line2 27 32 = (cols s.line2 27 33).take 6 := by unfold cols; rw [List.take_take]; rfl
    rw [this, he] at hc
    exact fixedDigits_isDig _ _ c (List.mem_of_mem_take hc)
  have hlast : ∃ d, cols s.line2 32 32 = [d] ∧ isDig d = true := by
    have hl : 31 < s.line2.length := by omega
    refine ⟨s.line2[31], ?_, dig3 _ ?_⟩
    · show (s.line2.drop 31).take 1 = _
      rw [List.drop_eq_getElem_cons hl]; rfl
    · have := cols_get (s := s.line2) (a := 27) (b := 32) rfl (by decide) (i := 5) (by decide)
      rw [show 27 - 1 + 5 = 31 by decide, List.getElem?_eq_getElem hl] at this
      exact List.mem_of_getElem? this.symm
  obtain ⟨d, hd32, hdd⟩ := hlast
  have hnum : parseF64 (trim (cols s.line2 21 32)) = none := by
    rw [h21, hd32]
    refine parseF64_inner_blank _ _ d dig2 (fun c hc => dig3 c ?_) hdd
    have : cols s.line2 27 31 = (cols s.line2 27 32).take 5 := by unfold cols; rw [List.take_take]; rfl
    rw [this] at hc
    exact List.mem_of_mem_take hc
  have hp : ∃ e, (parse_satrec s.line2 x : PRes (Satrec F)) = .err e := by
    unfold parse_satrec parseLine1
    rw [slice_long has (by decide) (by omega)]
    simp only [Res.ok_bind]
    unfold parse_int
    rw [slice_long has (by decide) (by omega)]
    simp only [Res.ok_bind]
    cases parseI64 (trim (cols s.line2 (18 + 1) 20)) with
    | none => exact ⟨_, rfl⟩
    | some i =>
      simp only [Res.ok_bind]
      have : (parse_float s.line2 "epochdays" 20 32 : PRes F) = .err (.IntParseError "epochdays" 20 32 (cols s.line2 21 32)) := by
        unfold parse_float
        rw [slice_long has (by decide) (by omega)]
        simp only [Res.ok_bind]
        rw [show cols s.line2 (20 + 1) 32 = cols s.line2 21 32 from rfl, hnum]
      rw [this]
      exact ⟨_, rfl⟩
  obtain ⟨e, he⟩ := hp
  exact ⟨e, by unfold twoline2satrec; rw [he]; rfl⟩

/-- The records a file of two-line sets gives: of every three consecutive sets only the third, and it is given the second line of the set
before as its name.  A single set left at the end is read; of two sets left at the end neither is. -/
def twoLineRecords : List (TwoLine F) → List (Satrec F)
  | _ :: b :: c :: rest => { c.record with name := some (trim b.line2) } :: twoLineRecords rest
  | [a] => [a.record]
  | _ => []

theorem nameOf_second {l : Str} (h : l.head? = some '2') : nameOf l = .ok l := by
  cases l with
  | nil => cases h
  | cons c cs =>
    simp only [List.head?_cons, Option.some.injEq] at h
    subst h
    rfl

theorem two_line_groups (sets : List (TwoLine F)) (h : ∀ s ∈ sets, s.Standard) (i : Nat) (recs : List (Satrec F))
    (errs : List SatrecParseError) :
    ∃ more, readAll i (groupLines (sets.flatMap fun s => [s.line1, s.line2])) recs errs =
        .ok (recs ++ twoLineRecords sets, errs ++ more) ∧
      more.length = sets.length / 3 + (if sets.length % 3 = 2 then 2 else 0) := by
  induction hn : sets.length using Nat.strongRecOn generalizing sets i recs errs with
  | _ n ih =>
    match sets, hn, h with
    | [], hn, _ => exact ⟨[], by simp [groupLines, readAll, twoLineRecords], by simp at hn; simp [← hn]⟩
    | [a], hn, h =>
      have ha := h a (by simp)
      exact ⟨[], by simp [groupLines, readAll, readGroup, ha.reads, twoLineRecords], by simp at hn; simp [← hn]⟩
    | [a, b], hn, h =>
      have ha := h a (by simp)
      obtain ⟨e, he⟩ := swapped_err ha b.line1
      refine ⟨[.SatrecMultiError i e, .SatrecMultiError (i + 3) .InvalidTLEBadLineCount], ?_, by simp at hn; simp [← hn]⟩
      show readAll i (groupLines [a.line1, a.line2, b.line1, b.line2]) recs errs = _
      rw [groupLines, if_pos (standard_long1 ha).1, groupLines, readAll, readGroup, he]
      simp [readAll, readGroup, twoLineRecords]
    | a :: b :: c :: rest, hn, h =>
      have ha := h a (by simp)
      have hb := h b (by simp)
      have hc := h c (by simp)
      obtain ⟨e, he⟩ := swapped_err ha b.line1
      simp only [List.length_cons] at hn
      obtain ⟨more, h1, h2⟩ := ih rest.length (by omega) rest (fun s hs => h s (by simp [hs])) (i + 3 + 3)
        (recs ++ [{ c.record with name := some (trim b.line2) }]) (errs ++ [.SatrecMultiError i e]) rfl
      refine ⟨.SatrecMultiError i e :: more, ?_, ?_⟩
      · show readAll i (groupLines (a.line1 :: a.line2 :: b.line1 :: b.line2 :: c.line1 :: c.line2 ::
          rest.flatMap fun s => [s.line1, s.line2])) recs errs = _
        rw [groupLines, if_pos (standard_long1 ha).1, groupLines, if_pos (standard_long2 hb).1, readAll, readGroup, he]
        dsimp only [Res.err_bind]
        rw [readAll, readGroup, hc.reads, nameOf_second hb.head2]
        dsimp only [Res.ok_bind, List.length_cons, List.length_nil]
        rw [h1]
        simp [twoLineRecords]
      · rw [List.length_cons, h2, ← hn]
        have : (rest.length + 1 + 1 + 1) % 3 = rest.length % 3 := by omega
        rw [this]
        omega

/-- **C29**, exactly: of a text of `n` standard two-line sets, `parse_multiple` returns only the third, sixth, ... set, each with the
second line of another satellite as its name, and the last set if `n` is one more than a multiple of three; and
`n / 3 + (2 if n mod 3 = 2)` errors. -/
theorem C29_two_line_file (sets : List (TwoLine F)) (hne : sets ≠ []) (h : ∀ s ∈ sets, s.Standard) :
    ∃ errs, parse_multiple (joinLines (sets.flatMap fun s => [s.line1, s.line2])) = .ok (twoLineRecords sets, errs) ∧
      errs.length = sets.length / 3 + (if sets.length % 3 = 2 then 2 else 0) := by
  have hmem : ∀ l ∈ sets.flatMap (fun s => [s.line1, s.line2]), OneLine l ∧ ¬ Blank l := by
    intro l hl
    obtain ⟨s, hs, hl⟩ := List.mem_flatMap.mp hl
    simp only [List.mem_cons, List.not_mem_nil, or_false] at hl
    rcases hl with rfl | rfl
    · exact ⟨(h s hs).one1, (standard_long1 (h s hs)).2⟩
    · exact ⟨(h s hs).one2, (standard_long2 (h s hs)).2.1⟩
  have hne' : sets.flatMap (fun s => [s.line1, s.line2]) ≠ [] := by
    cases sets with
    | nil => exact absurd rfl hne
    | cons s rest => simp [List.flatMap_cons]
  rw [parse_multiple_groups _ hne' (fun l hl => (hmem l hl).1), nonBlank_all (fun l hl => (hmem l hl).2)]
  obtain ⟨more, h1, h2⟩ := two_line_groups sets h 0 [] []
  exact ⟨more, by simpa using h1, h2⟩

/-- **C29.** Hence a file of `n` standard two-line sets is read completely exactly when `n = 1`. -/
theorem C29_complete_iff (sets : List (TwoLine F)) (hne : sets ≠ []) (h : ∀ s ∈ sets, s.Standard) (recs : List (Satrec F))
    (errs : List SatrecParseError) (hr : parse_multiple (joinLines (sets.flatMap fun s => [s.line1, s.line2])) = .ok (recs, errs)) :
    recs.length = sets.length ↔ sets.length = 1 := by
  obtain ⟨errs', he, -⟩ := C29_two_line_file sets hne h
  rw [he] at hr
  cases hr
  have hlen : ∀ (n : Nat) (l : List (TwoLine F)), l.length = n → (twoLineRecords l).length = n / 3 + (if n % 3 = 1 then 1 else 0) := by
    intro n
    induction n using Nat.strongRecOn with
    | _ n ih =>
      intro l hl
      match l, hl with
      | [], hl => simp at hl; subst hl; rfl
      | [a], hl => simp at hl; subst hl; rfl
      | [a, b], hl => simp at hl; subst hl; rfl
      | a :: b :: c :: rest, hl =>
        simp only [List.length_cons] at hl
        rw [twoLineRecords, List.length_cons, ih rest.length (by omega) rest rfl, ← hl]
        have : (rest.length + 1 + 1 + 1) % 3 = rest.length % 3 := by omega
        rw [this]
        omega
  rw [hlen _ sets rfl]
  have hpos : 0 < sets.length := List.length_pos_iff.mpr hne
  split <;> omega

end Sat
