import Verif.Props.F64Order
import Verif.Props.ParseFiles
import Verif.Spec.TleWriter

/-!
# Writing an element set and reading it back

C99: every element set that fits the format can be written; how its numbers are spelled does not matter to the reader; and what is
read determines what was written.
-/

namespace Sat
open Spec

theorem cols_chunk (cs : List Str) (i f l : Nat) (hi : i < cs.length) (hf : ((cs.take i).map List.length).sum + 1 = f)
    (hl : ((cs.take i).map List.length).sum + (cs[i]).length = l) : cols cs.flatten f l = cs[i] := by
  have e : cs.flatten = (cs.take i).flatten ++ (cs[i] ++ (cs.drop (i + 1)).flatten) := by
    conv_lhs => rw [← List.take_append_drop i cs, List.drop_eq_getElem_cons hi]
    rw [List.flatten_append, List.flatten_cons]
  have hlen : (cs.take i).flatten.length = f - 1 := by rw [List.length_flatten]; omega
  unfold cols
  rw [e, ← hlen, List.drop_left, show l + 1 - f = (cs[i]).length by omega, List.take_left]

theorem cols_table {cs : List Str} {ls : List Nat} (h : cs.map List.length = ls) (i f l : Nat) (hi : i < cs.length)
    (hf : (ls.take i).sum + 1 = f) (hl : (ls.take (i + 1)).sum = l) : cols cs.flatten f l = cs[i] := by
  subst h
  refine cols_chunk cs i f l hi (by rw [List.map_take]; exact hf) ?_
  rw [← hl, ← List.map_take, List.take_add_one, List.getElem?_eq_getElem hi, List.map_append, List.sum_append]
  simp only [Option.toList_some, List.map_cons, List.map_nil, List.sum_cons, List.sum_nil, Nat.add_zero]

theorem trim_padRight (s : Str) (k : Nat) (h : ∀ c ∈ s, isWhite c = false) : trim (s ++ List.replicate k ' ') = s := by
  unfold trim trimStart trimEnd
  cases s with
  | nil =>
    have : List.dropWhile isWhite (List.replicate k ' ') = [] := by
      
      induction k with
      | zero => rfl
      | succ k ih => rw [List.replicate_succ, List.dropWhile_cons_of_pos (by decide), ih]
    simp [this]
  | cons c s =>
    rw [List.cons_append, List.dropWhile_cons_of_neg (by simp [h c (by simp)]), ← List.cons_append, List.reverse_append, List.reverse_replicate]
    have h1 : ∀ (k : Nat) (t : Str), (List.replicate k ' ' ++ t).dropWhile isWhite = t.dropWhile isWhite := by
      intro k t
      induction k with
      | zero => rfl
      | succ k ih => rw [List.replicate_succ, List.cons_append, List.dropWhile_cons_of_pos (by decide), ih]
    rw [h1]
    have h2 : ((c :: s).reverse).dropWhile isWhite = (c :: s).reverse := by
      cases hr : (c :: s).reverse with
      | nil => rfl
      | cons x r =>
        have : x ∈ (c :: s).reverse := by rw [hr]; simp
        rw [List.dropWhile_cons_of_neg (by simp [h x (List.mem_reverse.mp this)])]
    rw [h2, List.reverse_reverse]

theorem pointDigits_field (w d n : Nat) (h : n < 10 ^ (w + d)) : PointField (pointDigits w d n) w d n :=
  ⟨0, Nat.zero_le _, by simpa using h, by simp [pointDigits]⟩

theorem pointDigits_length (w d n : Nat) : (pointDigits w d n).length = w + d + 1 := by
  simp [pointDigits, fixedDigits_length]; omega

/-- one line of ASCII text -/
def Plain (s : Str) : Prop := ∀ c ∈ s, c.toNat < 128 ∧ c ≠ '\n'

theorem plain_dig {c : Char} (h : isDig c = true) : c.toNat < 128 ∧ c ≠ '\n' := by
  have := isDig_toNat h
  exact ⟨by omega, by rintro rfl; revert h; decide⟩

theorem plain_fixed (w n : Nat) : Plain (fixedDigits w n) := fun c hc => plain_dig (fixedDigits_isDig w n c hc)

theorem plain_point (w d n : Nat) : Plain (pointDigits w d n) := by
  intro c hc
  simp only [pointDigits, List.mem_append, List.mem_cons] at hc
  rcases hc with hc | rfl | hc
  · exact plain_fixed _ _ c hc
  · decide
  · exact plain_fixed _ _ c hc

theorem plain_sign (b : Bool) : (signChar b).toNat < 128 ∧ signChar b ≠ '\n' := by cases b <;> decide
theorem plain_exp (b : Bool) : (expChar b).toNat < 128 ∧ expChar b ≠ '\n' := by cases b <;> decide

theorem signChar_col (b : Bool) : SignCol b (signChar b) := by cases b <;> simp [SignCol, signChar]

theorem plain_flatten {cs : List Str} (h : ∀ s ∈ cs, Plain s) : Plain cs.flatten := by
  intro c hc
  obtain ⟨s, hs, hcs⟩ := List.mem_flatten.mp hc
  exact h s hs c hcs

theorem plain_lit {t : Str} (ht : t.all (fun c => decide (c.toNat < 128 ∧ c ≠ '\n')) = true) : Plain t := fun c hc => by
  simpa using List.all_eq_true.mp ht c hc

theorem plain_sat {v : Tle} (h : v.Fits) : Plain (v.satnum ++ List.replicate (5 - v.satnum.length) ' ') := by
  intro c hc
  rcases List.mem_append.mp hc with hc | hc
  · exact ⟨h.satAscii c hc, by rintro rfl; have := h.satTrim _ hc; revert this; decide⟩
  · rw [List.eq_of_mem_replicate hc]; decide

theorem satField_length {v : Tle} (h : v.Fits) : (v.satnum ++ List.replicate (5 - v.satnum.length) ' ').length = 5 := by
  have := h.satLength
  simp; omega

theorem written_plain1 {v : Tle} (h : v.Fits) : Plain (writeLine1 v) := by
  refine plain_flatten ?_
  simp only [writeFields1, List.forall_mem_cons]
  refine ⟨plain_lit rfl, plain_sat h, plain_lit rfl, plain_fixed _ _, plain_point _ _ _, plain_lit rfl, ?_, plain_lit rfl, ?_, ?_, plain_lit rfl, ?_,
    plain_fixed _ _, ?_, plain_lit rfl, by simp⟩
  · simp only [Plain, List.forall_mem_cons]
    exact ⟨plain_sign _, by decide, plain_fixed _ _⟩
  · simp only [Plain, List.forall_mem_cons]
    exact ⟨plain_sign _, plain_fixed _ _⟩
  · simp only [Plain, List.forall_mem_cons]
    exact ⟨plain_exp _, plain_dig (digit_isDig _), by simp⟩
  · simp only [Plain, List.forall_mem_cons]
    exact ⟨plain_sign _, by simp⟩
  · simp only [Plain, List.forall_mem_cons]
    exact ⟨plain_exp _, plain_dig (digit_isDig _), by simp⟩

theorem written_plain2 {v : Tle} (h : v.Fits) : Plain (writeLine2 v) := by
  refine plain_flatten ?_
  simp only [writeFields2, List.forall_mem_cons]
  exact ⟨plain_lit rfl, plain_sat h, plain_lit rfl, plain_point _ _ _, plain_lit rfl, plain_point _ _ _, plain_lit rfl, plain_fixed _ _, plain_lit rfl,
    plain_point _ _ _, plain_lit rfl, plain_point _ _ _, plain_lit rfl, plain_point _ _ _, plain_lit rfl, by simp⟩

/-- **C99.** Every element set that fits the format can be written: the two lines of the writer show its values. -/
theorem C99_writable (v : Tle) (h : v.Fits) : Printed (writeLine1 v) (writeLine2 v) v := by
  have sl := satField_length h
  have u1 : (writeFields1 v).map List.length = [2, 5, 11, 2, 12, 1, 10, 1, 6, 2, 1, 1, 5, 2, 8] := by
    simp only [writeFields1, List.map_cons, List.map_nil, sl, fixedDigits_length, pointDigits_length, List.length_cons, List.length_nil]
    rfl
  have u2 : (writeFields2 v).map List.length = [2, 5, 1, 8, 1, 8, 1, 7, 1, 8, 1, 8, 1, 11, 6] := by
    simp only [writeFields2, List.map_cons, List.map_nil, sl, fixedDigits_length, pointDigits_length]
    rfl
  have k1 : ∀ (i f l : Nat) (hi : i < (writeFields1 v).length), _ → _ → cols (writeLine1 v) f l = _ := cols_table u1
  have k2 : ∀ (i f l : Nat) (hi : i < (writeFields2 v).length), _ → _ → cols (writeLine2 v) f l = _ := cols_table u2
  refine ⟨fun c hc => (written_plain1 h c hc).1, fun c hc => (written_plain2 h c hc).1, ?_, ⟨h.year, k1 3 19 20 (show _ < 15 by decide) rfl rfl⟩, ?_,
    ⟨h.ndot, signChar v.ndotNeg, signChar_col _, k1 6 34 43 (show _ < 15 by decide) rfl rfl⟩,
    ⟨h.nddot, h.nddotExp, signChar v.nddotNeg, signChar_col _, k1 8 45 50 (show _ < 15 by decide) rfl rfl, k1 9 51 52 (show _ < 15 by decide) rfl rfl⟩,
    ⟨h.bstar, h.bstarExp, signChar v.bstarNeg, signChar_col _, k1 11 54 54 (show _ < 15 by decide) rfl rfl, k1 12 55 59 (show _ < 15 by decide) rfl rfl,
      k1 13 60 61 (show _ < 15 by decide) rfl rfl⟩, ?_, ?_, ⟨h.ecc, k2 7 27 33 (show _ < 15 by decide) rfl rfl⟩, ?_, ?_, ?_⟩
  · rw [k1 1 3 7 (show _ < 15 by decide) rfl rfl]; exact trim_padRight _ _ h.satTrim
  · rw [k1 4 21 32 (show _ < 15 by decide) rfl rfl]; exact pointDigits_field 3 8 _ h.day
  · rw [k2 3 9 16 (show _ < 15 by decide) rfl rfl]; exact pointDigits_field 3 4 _ h.incl
  · rw [k2 5 18 25 (show _ < 15 by decide) rfl rfl]; exact pointDigits_field 3 4 _ h.node
  · rw [k2 9 35 42 (show _ < 15 by decide) rfl rfl]; exact pointDigits_field 3 4 _ h.argp
  · rw [k2 11 44 51 (show _ < 15 by decide) rfl rfl]; exact pointDigits_field 3 4 _ h.mo
  · rw [k2 13 53 63 (show _ < 15 by decide) rfl rfl]; exact pointDigits_field 2 8 _ h.no

section
variable {F : Type} [Arith F]

/-- **C99.** How the numbers are spelled does not matter: any two pairs of lines that show the same values (leading blanks or zeros, `+` or blank, whatever stands in the
other columns) give the same result. -/
theorem C99_spelling (l1 l2 l1' l2' : Str) (v : Tle) (h : Printed l1 l2 v) (h' : Printed l1' l2' v) (hpos : v.nddotNeg = false ∨ v.nddotMant = 0) :
    (parse_satrec l1 l2 : PRes (Satrec F)) = parse_satrec l1' l2' ∧ (twoline2satrec l1 l2 : PRes (Satrec F)) = twoline2satrec l1' l2' := by
  have e : ∀ l1 l2 : Str, Printed l1 l2 v → (parse_satrec l1 l2 : PRes (Satrec F)) = parse_satrec l1' l2' := by
    intro l1 l2 h
    obtain ⟨t, hsat, hsat'⟩ := satnum_slice h (ε := SatrecParseError)
    obtain ⟨u, usat, usat'⟩ := satnum_slice h' (ε := SatrecParseError)
    obtain ⟨h1a, c1, h1c, h1⟩ := h.ndot
    obtain ⟨h2a, h2b, c2, h2c, h2, h2'⟩ := h.nddot
    obtain ⟨h3a, h3b, c3, h3c, h3, h3', h3''⟩ := h.bstar
    obtain ⟨u1a, d1, u1c, u1⟩ := h'.ndot
    obtain ⟨u2a, u2b, d2, u2c, u2, u2'⟩ := h'.nddot
    obtain ⟨u3a, u3b, d3, u3c, u3, u3', u3''⟩ := h'.bstar
    unfold parse_satrec parseLine1 parseLine2
    rw [hsat, year_read h.ascii1 h.year.1 h.year.2, field_point h.ascii1 (by decide) (by decide) (by decide) h.day,
      ndot_read h.ascii1 h1a h1c h1, nddot_read h.ascii1 h2a h2b h2c h2 h2' hpos, bstar_read h.ascii1 h3a h3b h3c h3 h3' h3'',
      field_point h.ascii2 (by decide) (by decide) (by decide) h.incl,
      field_point h.ascii2 (by decide) (by decide) (by decide) h.node, ecco_read h.ascii2 h.ecc.1 h.ecc.2,
      field_point h.ascii2 (by decide) (by decide) (by decide) h.argp,
      field_point h.ascii2 (by decide) (by decide) (by decide) h.mo,
      field_point h.ascii2 (by decide) (by decide) (by decide) h.no,
      usat, year_read h'.ascii1 h'.year.1 h'.year.2, field_point h'.ascii1 (by decide) (by decide) (by decide) h'.day,
      ndot_read h'.ascii1 u1a u1c u1, nddot_read h'.ascii1 u2a u2b u2c u2 u2' hpos, bstar_read h'.ascii1 u3a u3b u3c u3 u3' u3'',
      field_point h'.ascii2 (by decide) (by decide) (by decide) h'.incl,
      field_point h'.ascii2 (by decide) (by decide) (by decide) h'.node, ecco_read h'.ascii2 h'.ecc.1 h'.ecc.2,
      field_point h'.ascii2 (by decide) (by decide) (by decide) h'.argp,
      field_point h'.ascii2 (by decide) (by decide) (by decide) h'.mo,
      field_point h'.ascii2 (by decide) (by decide) (by decide) h'.no]
    simp only [Res.ok_bind, hsat', usat']
  refine ⟨e l1 l2 h, ?_⟩
  unfold twoline2satrec
  rw [e l1 l2 h]

/-- **C99.** The written text, read as a whole: `parse` accepts it exactly as it accepts the two lines, and blank lines around it change nothing.  (`before`, `between` and `after` are
any blank lines.) -/
theorem C99_file (v : Tle) (h : v.Fits) (before between after : List Str) (hb : ∀ l ∈ before ++ between ++ after, OneLine l ∧ Blank l) :
    (parse (joinLines (before ++ [writeLine1 v] ++ between ++ [writeLine2 v] ++ after)) : PRes (Satrec F)) = twoline2satrec (writeLine1 v) (writeLine2 v) := by
  have o1 : OneLine (writeLine1 v) := fun hc => (written_plain1 h _ hc).2 rfl
  have o2 : OneLine (writeLine2 v) := fun hc => (written_plain2 h _ hc).2 rfl
  have b1 : ¬ Blank (writeLine1 v) := fun hc => by have := hc '1' (by simp [writeLine1, writeFields1]); revert this; decide
  have b2 : ¬ Blank (writeLine2 v) := fun hc => by have := hc '2' (by simp [writeLine2, writeFields2]); revert this; decide
  have nb : ∀ ls : List Str, (∀ l ∈ ls, OneLine l ∧ Blank l) → nonBlank ls = [] := by
    intro ls hl
    unfold nonBlank
    rw [List.filter_eq_nil_iff]
    intro l hm
    simp [(hl l hm).2]
  have e : nonBlank (before ++ [writeLine1 v] ++ between ++ [writeLine2 v] ++ after) = [writeLine1 v, writeLine2 v] := by
    have n1 := nb before (fun l hl => hb l (by simp [hl]))
    have n2 := nb between (fun l hl => hb l (by simp [hl]))
    have n3 := nb after (fun l hl => hb l (by simp [hl]))
    unfold nonBlank at *
    simp only [List.filter_append, n1, n2, n3]
    simp [b1, b2]
  rw [C25_parse _ (by simp) (fun l hl => ?_), e, parseLines_two, if_pos ⟨rfl, rfl⟩]
  simp only [List.mem_append, List.mem_singleton] at hl
  rcases hl with (((hl | rfl) | hl) | rfl) | hl
  · exact (hb l (by simp [hl])).1
  · exact o1
  · exact (hb l (by simp [hl])).1
  · exact o2
  · exact (hb l (by simp [hl])).1

end

variable [Libm]

/-- **C99.** What is read determines what was written: if two element sets that fit the format are written and both read to the same elements in doubles, they were the same
in satellite number, year, day, inclination, node, perigee, anomaly, eccentricity, mean motion, first derivative and drag term. -/
theorem C99_recover (v v' : Tle) (h : v.Fits) (h' : v'.Fits)
    (hpos : v.nddotNeg = false ∨ v.nddotMant = 0) (hpos' : v'.nddotNeg = false ∨ v'.nddotMant = 0)
    (hb : Normal v.bstarMant) (hb' : Normal v'.bstarMant)
    (heq : (parse_satrec (writeLine1 v) (writeLine2 v) : PRes (Satrec F64)) = parse_satrec (writeLine1 v') (writeLine2 v')) :
    v.satnum = v'.satnum ∧ v.year = v'.year ∧ v.dayE8 = v'.dayE8 ∧ v.inclE4 = v'.inclE4 ∧ v.nodeE4 = v'.nodeE4 ∧ v.argpE4 = v'.argpE4 ∧
      v.moE4 = v'.moE4 ∧ v.eccE7 = v'.eccE7 ∧ v.noE8 = v'.noE8 ∧ v.ndotSigned = v'.ndotSigned ∧
      impliedValue v.bstarNeg v.bstarMant (sexp v.bstarExpNeg v.bstarExp) = impliedValue v'.bstarNeg v'.bstarMant (sexp v'.bstarExpNeg v'.bstarExp) := by
  have p := C99_writable v h
  have p' := C99_writable v' h'
  obtain ⟨s, hs, a1, -, -, -, a2, -⟩ := C21_decode (F := F64) _ _ v p hpos
  obtain ⟨s', hs', b1, -, -, -, b2, -⟩ := C21_decode (F := F64) _ _ v' p' hpos'
  obtain rfl : s = s' := by rw [hs, hs'] at heq; cases heq; rfl
  obtain ⟨x1, x2, x3, x4, x5, x6, x7, x8, x9⟩ := C98_reading_keeps_order _ _ _ _ v v' p p' hpos hpos' s s hs hs'
  obtain ⟨y1, y2, y3, y4, y5, y6, y7, y8, y9⟩ := C98_reading_keeps_order _ _ _ _ v' v p' p hpos' hpos s s hs' hs
  have tri : ∀ {α : Type} [LinearOrder α] {m m' : α} {x : ℝ}, (m < m' → x < x) → (m' < m → x < x) → m = m' := by
    intro α _ m m' x g g'
    rcases lt_trichotomy m m' with hm | hm | hm
    · exact absurd (g hm) (lt_irrefl _)
    · exact hm
    · exact absurd (g' hm) (lt_irrefl _)
  have hy : (v.year : Int) = v'.year := by rw [← a2, ← b2]
  exact ⟨by rw [← a1, ← b1], by exact_mod_cast hy, tri x7 y7, tri x1 y1, tri x2 y2, tri x3 y3, tri x4 y4, tri x5 y5, tri x6 y6, tri x8 y8,
    tri (x9 hb hb') (y9 hb' hb)⟩

/-- The GPS satellite fits the format and its second derivative is zero; its lines as the writer writes them. -/
example : navTle.Fits ∧ (navTle.nddotNeg = false ∨ navTle.nddotMant = 0) ∧ Normal navTle.bstarMant ∧ Printed navLine1 navLine2 navTle :=
  ⟨⟨by unfold Ascii; decide, by decide, by decide, by decide, by decide, by decide, by decide, by decide, by decide, by decide, by decide, by decide, by decide, by decide,
    by decide, by decide⟩, Or.inl rfl, Or.inr (by decide), nav_printed⟩

end Sat
