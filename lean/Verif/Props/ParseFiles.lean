import Verif.Props.Parse
import Verif.Props.Init
/-!
# Texts of several lines: C20 (texts), C25, C26, C27, C28, C29

All theorems hold for every arithmetic `F`.  A text is given as the list of its lines (`Spec.joinLines`); every text has such
a list (`every_text`).
-/

set_option linter.unusedSectionVars false
set_option linter.unusedSimpArgs false

namespace Sat
open Spec
variable {F : Type} [Arith F]

/-- The non-blank lines. -/
def nonBlank (ls : List Str) : List Str := ls.filter (fun l => decide (¬ Blank l))

/-- Every text is the join of at least one line. -/
theorem every_text (s : Str) : ∃ ls, ls ≠ [] ∧ (∀ l ∈ ls, OneLine l) ∧ s = joinLines ls :=
  ⟨splitLines s, splitLines_ne_nil s, splitLines_oneLine s, (join_splitLines s).symm⟩

theorem tleLines_join {ls : List Str} (hne : ls ≠ []) (h : ∀ l ∈ ls, OneLine l) : tleLines (joinLines ls) = nonBlank ls := by
  unfold tleLines nonBlank
  rw [splitLines_join hne h]
  congr 1
  funext l
  rw [decide_eq_decide, ne_eq, trim_eq_nil]

theorem nonBlank_ne_nil {ls : List Str} {l : Str} (h : l ∈ nonBlank ls) : l ≠ [] := by
  intro e
  have := (List.mem_filter.mp h).2
  rw [e] at this
  simp [Blank] at this

/-- comparing the first byte with an ASCII character is comparing the first character -/
theorem firstByte_eq (c : Char) (cs : Str) (d : Char) (hd : d.toNat < 128) :
    ∃ b, (∀ ε, (firstByte (c :: cs) : Res ε UInt8) = .ok b) ∧ (b = asByte d ↔ c = d) := by
  have hcd : c = d ↔ c.val.toNat = d.val.toNat := by
    constructor
    · rintro rfl; rfl
    · intro h; exact Char.ext (UInt32.toNat_inj.mp h)
  have hdd : d.val.toNat < 128 := hd
  have hb : (asByte d).toNat = d.val.toNat := by
    unfold asByte
    rw [UInt32.toNat_toUInt8]; omega
  have ofn : ∀ n, n < 256 → (UInt8.ofNat n = asByte d ↔ n = d.val.toNat) := by
    intro n hn
    rw [← UInt8.toNat_inj, hb, UInt8.toNat_ofNat']
    omega
  unfold firstByte
  have e : String.utf8EncodeChar c =
      if c.val.toNat ≤ 0x7f then [UInt8.ofNat c.val.toNat]
      else if c.val.toNat ≤ 0x7ff then
        [UInt8.ofNat (c.val.toNat / 64 % 0x20 + 0xc0), UInt8.ofNat (c.val.toNat % 0x40 + 0x80)]
      else if c.val.toNat ≤ 0xffff then
        [UInt8.ofNat (c.val.toNat / 4096 % 0x10 + 0xe0), UInt8.ofNat (c.val.toNat / 64 % 0x40 + 0x80),
          UInt8.ofNat (c.val.toNat % 0x40 + 0x80)]
      else
        [UInt8.ofNat (c.val.toNat / 262144 % 0x08 + 0xf0), UInt8.ofNat (c.val.toNat / 4096 % 0x40 + 0x80),
          UInt8.ofNat (c.val.toNat / 64 % 0x40 + 0x80), UInt8.ofNat (c.val.toNat % 0x40 + 0x80)] := rfl
  rw [hcd]
  dsimp only
  rw [e]
  clear e hcd
  generalize c.val.toNat = v
  by_cases h1 : v ≤ 0x7f
  · rw [if_pos h1]
    exact ⟨_, fun _ => rfl, ofn v (by omega)⟩
  · rw [if_neg h1]
    by_cases h2 : v ≤ 0x7ff
    · rw [if_pos h2]
      refine ⟨_, fun _ => rfl, (ofn _ (by omega)).trans ⟨fun h => ?_, fun h => ?_⟩⟩ <;> omega
    · rw [if_neg h2]
      by_cases h3 : v ≤ 0xffff
      · rw [if_pos h3]
        refine ⟨_, fun _ => rfl, (ofn _ (by omega)).trans ⟨fun h => ?_, fun h => ?_⟩⟩ <;> omega
      · rw [if_neg h3]
        refine ⟨_, fun _ => rfl, (ofn _ (by omega)).trans ⟨fun h => ?_, fun h => ?_⟩⟩ <;> omega

/-- a test on the first byte, as a test on the first character -/
theorem firstByte_if {α ε : Type} {l : Str} (hl : l ≠ []) (d : Char) (hd : d.toNat < 128) (x y : Res ε α) :
    ((firstByte l : Res ε UInt8) >>= fun b => if b ≠ asByte d then x else y) = if l.head? = some d then y else x := by
  cases l with
  | nil => exact absurd rfl hl
  | cons c cs =>
    obtain ⟨b, hb, hiff⟩ := firstByte_eq c cs d hd
    rw [hb ε, Res.ok_bind]
    simp only [List.head?_cons, Option.some.injEq]
    by_cases h : c = d
    · rw [if_neg (by simp [hiff.mpr h]), if_pos h]
    · rw [if_pos (by simpa using fun e => h (hiff.mp e)), if_neg h]

theorem firstByte_if' {α ε : Type} {l : Str} (hl : l ≠ []) (d : Char) (hd : d.toNat < 128) (x y : Res ε α) :
    ((firstByte l : Res ε UInt8) >>= fun b => if b = asByte d then x else y) = if l.head? = some d then x else y := by
  rw [← firstByte_if hl d hd y x]
  congr 1
  funext b
  by_cases h : b = asByte d <;> simp [h]

/-! ## C25 -/

/-- The name that a name line gives: the line itself, or what follows `0` and one ASCII character; otherwise (the line `0`, or
`0` followed by a multi-byte character) the call panics. -/
def nameOf : Str → PRes Str
  | '0' :: c :: rest => if c.toNat < 128 then .ok rest else .panic
  | ['0'] => .panic
  | l => .ok l

theorem utf8Size_multi {c : Char} (h : ¬ c.toNat < 128) : 2 ≤ c.utf8Size := by
  have h' : ¬ c.val ≤ 127 := by
    rw [UInt32.le_iff_toNat_le]; intro h1; exact h (Nat.lt_succ_iff.mpr h1)
  unfold Char.utf8Size
  show 2 ≤ if c.val ≤ 127 then 1 else _
  rw [if_neg h']
  split
  · decide
  · split <;> decide

theorem sliceFrom_zero {ε : Type} (r : Str) : (sliceFrom ('0' :: r) 2 : Res ε Str) =
    match r with
    | [] => .panic
    | c :: rest => if c.toNat < 128 then .ok rest else .panic := by
  unfold sliceFrom
  have hz : ('0' : Char).utf8Size = 1 := by decide
  rw [splitBytes, hz, if_pos (by decide)]
  cases r with
  | nil => rfl
  | cons c rest =>
    show (match (match splitBytes 1 (c :: rest) with
      | none => none
      | some (a, b) => some ('0' :: a, b)) with
      | none => (Res.panic : Res ε Str)
      | some (_, r) => Res.ok r) = _
    rw [splitBytes]
    by_cases h : c.toNat < 128
    · rw [utf8Size_ascii h, if_pos (by decide)]
      rw [show splitBytes (0 + 1 - 1) rest = some ([], rest) by cases rest <;> rfl]
      simp only [h, if_true]
    · have := utf8Size_multi h
      rw [if_neg (by omega)]
      simp only [h, if_false]

theorem parseName_eq {l : Str} (hl : l ≠ []) : parseName l = nameOf l := by
  unfold parseName
  rw [firstByte_if' hl '0' (by decide)]
  cases l with
  | nil => exact absurd rfl hl
  | cons c cs =>
    simp only [List.head?_cons, Option.some.injEq]
    by_cases h : c = '0'
    · subst h
      rw [if_pos rfl, sliceFrom_zero]
      cases cs with
      | nil => rfl
      | cons d ds => rfl
    · rw [if_neg h]
      unfold nameOf
      split
      · rename_i heq; cases heq; exact absurd rfl h
      · rename_i heq; cases heq; exact absurd rfl h
      · rfl

/-- What `parse` makes of the non-blank lines. -/
def parseLines : List Str → PRes (Satrec F)
  | [a, b] =>
    if a.head? = some '1' ∧ b.head? = some '2' then twoline2satrec a b else .err .InvalidTLELineCheckFailed
  | [n, a, b] =>
    if a.head? = some '1' ∧ b.head? = some '2' then do
      let s ← twoline2satrec a b
      let name ← nameOf n
      .ok { s with name := some name }
    else .err .InvalidTLELineCheckFailed
  | _ => .err .InvalidTLEBadLineCount

theorem parseLines_two (a b : Str) : (parseLines [a, b] : PRes (Satrec F)) =
    if a.head? = some '1' ∧ b.head? = some '2' then twoline2satrec a b else .err .InvalidTLELineCheckFailed := rfl

theorem parseLines_three (n a b : Str) : (parseLines [n, a, b] : PRes (Satrec F)) =
    if a.head? = some '1' ∧ b.head? = some '2' then do
      let s ← twoline2satrec a b
      let name ← nameOf n
      .ok { s with name := some name }
    else .err .InvalidTLELineCheckFailed := rfl

/-- **C25.** `parse` of any text is decided by its non-blank lines as `parseLines` says. -/
theorem C25_parse (ls : List Str) (hne : ls ≠ []) (h : ∀ l ∈ ls, OneLine l) :
    (parse (joinLines ls) : PRes (Satrec F)) = parseLines (nonBlank ls) := by
  unfold parse
  rw [tleLines_join hne h]
  have hnb : ∀ l ∈ nonBlank ls, l ≠ [] := fun l hl => nonBlank_ne_nil hl
  generalize nonBlank ls = m at *
  match m, hnb with
  | [], _ => rfl
  | [a], _ => rfl
  | [a, b], hnb =>
    have ha := hnb a (by simp)
    have hb := hnb b (by simp)
    show (firstByte a >>= fun b1 => if b1 ≠ asByte '1' then _ else firstByte b >>= fun b2 => if b2 ≠ asByte '2' then _ else _)
      = _
    rw [firstByte_if ha '1' (by decide), firstByte_if hb '2' (by decide)]
    rw [parseLines_two]
    by_cases h1 : a.head? = some '1'
    · by_cases h2 : b.head? = some '2'
      · rw [if_pos h1, if_pos h2, if_pos ⟨h1, h2⟩]; rfl
      · rw [if_pos h1, if_neg h2, if_neg (fun h => h2 h.2)]
    · rw [if_neg h1, if_neg (fun h => h1 h.1)]
  | [n, a, b], hnb =>
    have hn := hnb n (by simp)
    have ha := hnb a (by simp)
    have hb := hnb b (by simp)
    show (firstByte a >>= fun b1 => if b1 ≠ asByte '1' then _ else firstByte b >>= fun b2 => if b2 ≠ asByte '2' then _ else _)
      = _
    rw [firstByte_if ha '1' (by decide), firstByte_if hb '2' (by decide)]
    rw [parseLines_three]
    rw [← parseName_eq hn]
    by_cases h1 : a.head? = some '1'
    · by_cases h2 : b.head? = some '2'
      · rw [if_pos h1, if_pos h2, if_pos ⟨h1, h2⟩]; rfl
      · rw [if_pos h1, if_neg h2, if_neg (fun h => h2 h.2)]
    · rw [if_neg h1, if_neg (fun h => h1 h.1)]
  | _ :: _ :: _ :: _ :: _, _ =>
    unfold parseLines
    dsimp only
    rw [if_neg (by simp), if_neg (by simp)]

/-- `twoline2satrec` reports only field errors and propagation errors -/
theorem twoline_err {a b : Str} {e : SatrecParseError} (h : (twoline2satrec a b : PRes (Satrec F)) = .err e) :
    FieldError a b e ∨ ∃ x, e = .Sgp4InitError x := by
  unfold twoline2satrec at h
  cases hp : (parse_satrec a b : PRes (Satrec F)) with
  | ok s =>
    rw [hp] at h
    simp only [Res.ok_bind] at h
    split at h
    · cases h
    · cases h; exact Or.inr ⟨_, rfl⟩
    · cases h
  | err e' => rw [hp] at h; cases h; exact Or.inl (C30_errors_named a b e hp).1
  | panic => rw [hp] at h; cases h
  | diverge => rw [hp] at h; cases h

theorem nameOf_noErr (n : Str) (e : SatrecParseError) : nameOf n ≠ .err e := by
  unfold nameOf
  split
  · split <;> simp
  · simp
  · simp

/-- errors of a three-line read are those of its two element lines -/
theorem named_err {n a b : Str} {e : SatrecParseError}
    (h : ((do let s ← twoline2satrec a b; let name ← nameOf n; .ok { s with name := some name }) : PRes (Satrec F)) = .err e) :
    (twoline2satrec a b : PRes (Satrec F)) = .err e := by
  cases hs : (twoline2satrec a b : PRes (Satrec F)) with
  | err e' => rw [hs] at h; cases h; rfl
  | ok s =>
    rw [hs] at h
    simp only [Res.ok_bind] at h
    cases hn : nameOf n with
    | ok x => rw [hn] at h; cases h
    | err x => exact absurd hn (nameOf_noErr n x)
    | panic => rw [hn] at h; cases h
    | diverge => rw [hn] at h; cases h
  | panic => rw [hs] at h; cases h
  | diverge => rw [hs] at h; cases h

/-- **C25.** The two structural errors of `parse`, exactly when. -/
theorem C25_structural_errors (ls : List Str) (hne : ls ≠ []) (h : ∀ l ∈ ls, OneLine l) :
    ((parse (joinLines ls) : PRes (Satrec F)) = .err .InvalidTLEBadLineCount ↔
      (nonBlank ls).length ≠ 2 ∧ (nonBlank ls).length ≠ 3) ∧
    ((parse (joinLines ls) : PRes (Satrec F)) = .err .InvalidTLELineCheckFailed ↔
      ∃ pre a b, nonBlank ls = pre ++ [a, b] ∧ pre.length ≤ 1 ∧ ¬ (a.head? = some '1' ∧ b.head? = some '2')) := by
  rw [C25_parse ls hne h]
  have nf : ∀ a b : Str, (twoline2satrec a b : PRes (Satrec F)) ≠ .err .InvalidTLEBadLineCount ∧
      (twoline2satrec a b : PRes (Satrec F)) ≠ .err .InvalidTLELineCheckFailed := by
    intro a b
    constructor <;> intro hh <;> rcases twoline_err hh with h1 | ⟨x, h1⟩
    · exact h1
    · cases h1
    · exact h1
    · cases h1
  generalize nonBlank ls = m
  match m with
  | [] =>
    unfold parseLines
    refine ⟨by simp, ⟨fun h => (by cases h), fun ⟨pre, a, b, h1, _⟩ => ?_⟩⟩
    have := congrArg List.length h1; simp at this
  | [x] =>
    unfold parseLines
    refine ⟨by simp, ⟨fun h => (by cases h), fun ⟨pre, a, b, h1, _⟩ => ?_⟩⟩
    have := congrArg List.length h1; simp at this
  | [a, b] =>
    rw [parseLines_two]
    by_cases hc : a.head? = some '1' ∧ b.head? = some '2'
    · rw [if_pos hc]
      refine ⟨⟨fun h => absurd h (nf a b).1, fun h => by simp at h⟩, ⟨fun h => absurd h (nf a b).2, ?_⟩⟩
      rintro ⟨pre, a', b', h1, h2, h3⟩
      obtain ⟨rfl⟩ : pre = [] := by
        have := congrArg List.length h1; simp at this; exact this
      simp at h1
      obtain ⟨rfl, rfl⟩ := h1
      exact absurd hc h3
    · rw [if_neg hc]
      refine ⟨⟨fun h => (by cases h), fun h => by simp at h⟩, ⟨fun _ => ⟨[], a, b, rfl, by simp, hc⟩, fun _ => rfl⟩⟩
  | [n, a, b] =>
    rw [parseLines_three]
    by_cases hc : a.head? = some '1' ∧ b.head? = some '2'
    · rw [if_pos hc]
      refine ⟨⟨fun h => absurd (named_err h) (nf a b).1, fun h => by simp at h⟩,
        ⟨fun h => absurd (named_err h) (nf a b).2, ?_⟩⟩
      rintro ⟨pre, a', b', h1, h2, h3⟩
      have hl := congrArg List.length h1
      simp at hl
      match pre, hl with
      | [p], _ =>
        simp at h1
        obtain ⟨rfl, rfl, rfl⟩ := h1
        exact absurd hc h3
    · rw [if_neg hc]
      refine ⟨⟨fun h => (by cases h), fun h => by simp at h⟩, ⟨fun _ => ⟨[n], a, b, rfl, by simp, hc⟩, fun _ => rfl⟩⟩
  | _ :: _ :: _ :: _ :: _ =>
    unfold parseLines
    refine ⟨by simp, ⟨fun h => (by cases h), fun ⟨pre, a, b, h1, h2, _⟩ => ?_⟩⟩
    have := congrArg List.length h1; simp at this; omega

/-- **C25.** Two lines give a record without name; three lines give the record of the last two with the name of the first. -/
theorem C25_name (ls : List Str) (hne : ls ≠ []) (h : ∀ l ∈ ls, OneLine l) (s : Satrec F)
    (hs : (parse (joinLines ls) : PRes (Satrec F)) = .ok s) :
    (∃ a b, nonBlank ls = [a, b] ∧ s.name = none ∧ (twoline2satrec a b : PRes (Satrec F)) = .ok s) ∨
    (∃ n a b r x, nonBlank ls = [n, a, b] ∧ (twoline2satrec a b : PRes (Satrec F)) = .ok r ∧ nameOf n = .ok x ∧
      s = { r with name := some x }) := by
  rw [C25_parse ls hne h] at hs
  generalize nonBlank ls = m at *
  match m, hs with
  | [], hs => cases hs
  | [x], hs => cases hs
  | [a, b], hs =>
    rw [parseLines_two] at hs
    split at hs
    · refine Or.inl ⟨a, b, rfl, ?_, hs⟩
      obtain ⟨p, hp⟩ := C06_twoline_elements a b s hs
      exact hp.2.2.2.2.2.2.2.2.2.2.2.2.2.2.2.2.1
    · cases hs
  | [n, a, b], hs =>
    rw [parseLines_three] at hs
    split at hs
    · obtain ⟨r, hr, hs⟩ := Res.bind_ok hs
      obtain ⟨x, hx, hs⟩ := Res.bind_ok hs
      cases hs
      exact Or.inr ⟨n, a, b, r, x, rfl, hr, hx, rfl⟩
    · cases hs
  | _ :: _ :: _ :: _ :: _, hs => cases hs

/-! ## C26 -/

/-- **C26.** `parse` and `parse_multiple` depend only on the non-blank lines. -/
theorem C26_blank_lines (ls ls' : List Str) (hne : ls ≠ []) (h : ∀ l ∈ ls, OneLine l) (hne' : ls' ≠ [])
    (h' : ∀ l ∈ ls', OneLine l) (heq : ls.filter (fun l => decide (¬ Blank l)) = ls'.filter (fun l => decide (¬ Blank l))) :
    (parse (joinLines ls) : PRes (Satrec F)) = parse (joinLines ls') ∧
    (parse_multiple (joinLines ls) : Res Empty (List (Satrec F) × List SatrecParseError)) = parse_multiple (joinLines ls') := by
  have hh : nonBlank ls = nonBlank ls' := heq
  constructor
  · rw [C25_parse ls hne h, C25_parse ls' hne' h', hh]
  · unfold parse_multiple
    rw [tleLines_join hne h, tleLines_join hne' h', hh]

/-- Inserting a blank line between any two lines is an instance. -/
example (a b : List Str) : (a ++ ["  \t".toList] ++ b).filter (fun l => decide (¬ Blank l)) =
    (a ++ b).filter (fun l => decide (¬ Blank l)) := by
  rw [List.filter_append, List.filter_append, List.filter_append,
    show (["  \t".toList] : List Str).filter (fun l => decide (¬ Blank l)) = [] by decide, List.append_nil]

/-! ## C27 -/

/-- How the lines are grouped: three lines if at least three remain and the trimmed first one is not 25 bytes long; else two
lines if two remain; else one. -/
def groupLines : List Str → List (List Str)
  | [] => []
  | [a] => [[a]]
  | [a, b] => [[a, b]]
  | a :: b :: c :: rest =>
    if byteLen (trim a) ≠ 25 then [a, b, c] :: groupLines rest else [a, b] :: groupLines (c :: rest)
termination_by l => l.length

/-- What one group gives.  The name is trimmed. -/
def readGroup : List Str → PRes (Satrec F)
  | [n, a, b] => do
    let s ← twoline2satrec a b
    let name ← nameOf n
    .ok { s with name := some (trim name) }
  | [a, b] => twoline2satrec a b
  | _ => .err .InvalidTLEBadLineCount

/-- The groups with the index of the first line of each. -/
def withIndex : Nat → List (List Str) → List (Nat × List Str)
  | _, [] => []
  | i, g :: gs => (i, g) :: withIndex (i + g.length) gs

/-- the record of a group, if there is one -/
def okOf (g : Nat × List Str) : Option (Satrec F) := match (readGroup g.2 : PRes (Satrec F)) with | .ok s => some s | _ => none
/-- the error of a group with its index, if there is one -/
def errOf (F : Type) [Arith F] (g : Nat × List Str) : Option SatrecParseError :=
  match (readGroup g.2 : PRes (Satrec F)) with
  | .err e => some (.SatrecMultiError g.1 e)
  | _ => none

/-- a group is read without panic and with a result -/
def Returns (F : Type) [Arith F] (g : List Str) : Prop :=
  (∃ s, (readGroup g : PRes (Satrec F)) = .ok s) ∨ ∃ e, (readGroup g : PRes (Satrec F)) = .err e

/-- the sequential reading of groups -/
def readAll : Nat → List (List Str) → List (Satrec F) → List SatrecParseError →
    Res Empty (List (Satrec F) × List SatrecParseError)
  | _, [], recs, errs => .ok (recs, errs)
  | i, g :: gs, recs, errs =>
    match (readGroup g : PRes (Satrec F)) with
    | .ok s => readAll (i + g.length) gs (recs ++ [s]) errs
    | .err e => readAll (i + g.length) gs recs (errs ++ [.SatrecMultiError i e])
    | .panic => .panic
    | .diverge => .diverge

theorem multiName_eq {l : Str} (hl : l ≠ []) :
    (∃ x, nameOf l = .ok x ∧ parseMultiName l = .ok (trim x)) ∨ (nameOf l = .panic ∧ parseMultiName l = .panic) := by
  unfold parseMultiName
  rw [firstByte_if' hl '0' (by decide)]
  cases l with
  | nil => exact absurd rfl hl
  | cons c cs =>
    simp only [List.head?_cons, Option.some.injEq]
    by_cases h : c = '0'
    · subst h
      rw [if_pos rfl, sliceFrom_zero]
      cases cs with
      | nil => exact Or.inr ⟨rfl, rfl⟩
      | cons d ds =>
        by_cases hd : d.toNat < 128
        · refine Or.inl ⟨ds, ?_, ?_⟩
          · show (if d.toNat < 128 then Res.ok ds else Res.panic) = _
            rw [if_pos hd]
          · simp only [hd, if_true, Res.ok_bind]
        · refine Or.inr ⟨?_, ?_⟩
          · show (if d.toNat < 128 then Res.ok ds else Res.panic) = _
            rw [if_neg hd]
          · simp only [hd, if_false, Res.panic_bind]
    · rw [if_neg h]
      refine Or.inl ⟨c :: cs, ?_, rfl⟩
      unfold nameOf
      split
      · rename_i heq; cases heq; exact absurd rfl h
      · rename_i heq; cases heq; exact absurd rfl h
      · rfl

/-- the loop of `parse_multiple` reads the groups one after the other -/
theorem multiLoop_groups (lines : List Str) (hl : ∀ l ∈ lines, l ≠ []) (i : Nat) (hi : i ≤ lines.length)
    (recs : List (Satrec F)) (errs : List SatrecParseError) :
    multiLoop lines i recs errs = readAll i (groupLines (lines.drop i)) recs errs := by
  induction hn : lines.length - i using Nat.strongRecOn generalizing i recs errs with
  | _ n ih =>
    have hat : ∀ k, lineAt lines (i + k) = ((lines.drop i)[k]?).getD [] := by
      intro k
      unfold lineAt
      rw [List.getElem?_drop, List.getD_eq_getElem?_getD]
    have hat0 := hat 0
    have hat1 := hat 1
    have hat2 := hat 2
    have hlen : lines.length = i + (lines.drop i).length := by rw [List.length_drop]; omega
    have hmem : ∀ l ∈ lines.drop i, l ≠ [] := fun l h => hl l (List.mem_of_mem_drop h)
    have hdd : ∀ k, lines.drop (i + k) = (lines.drop i).drop k := by intro k; rw [List.drop_drop]
    rw [multiLoop]
    generalize hd : lines.drop i = d at *
    match d with
    | [] =>
      simp only [List.length_nil] at hlen
      rw [if_neg (by omega), groupLines, readAll]
    | [a] =>
      simp only [List.length_cons, List.length_nil] at hlen
      rw [if_pos (by omega), if_neg (by omega), if_neg (by omega)]
      rw [ih (lines.length - (i + 1)) (by omega) (i + 1) (by omega) _ _ rfl, hdd 1]
      simp [groupLines, readAll, readGroup]
    | [a, b] =>
      simp only [List.length_cons, List.length_nil] at hlen
      rw [if_pos (by omega), if_neg (by omega), if_pos (by omega)]
      simp only [Nat.add_zero] at hat0
      rw [hat0, hat1]
      rw [show groupLines [a, b] = [[a, b]] by simp [groupLines], readAll, readGroup]
      simp only [List.getElem?_cons_zero, List.getElem?_cons_succ, Option.getD_some]
      cases ht : (twoline2satrec a b : PRes (Satrec F)) with
      | panic => rfl
      | diverge => rfl
      | ok s =>
        dsimp only
        rw [ih (lines.length - (i + 2)) (by omega) (i + 2) (by omega) _ _ rfl, hdd 2]
        simp [groupLines, readAll]
      | err e =>
        dsimp only
        rw [ih (lines.length - (i + 2)) (by omega) (i + 2) (by omega) _ _ rfl, hdd 2]
        simp [groupLines, readAll]
    | a :: b :: c :: rest =>
      simp only [List.length_cons] at hlen
      rw [if_pos (by omega)]
      simp only [Nat.add_zero] at hat0
      rw [hat0, hat1, hat2]
      simp only [List.getElem?_cons_zero, List.getElem?_cons_succ, Option.getD_some]
      by_cases h25 : byteLen (trim a) ≠ 25
      · rw [if_pos ⟨h25, by omega⟩]
        rw [show groupLines (a :: b :: c :: rest) = [a, b, c] :: groupLines rest by rw [groupLines, if_pos h25], readAll,
          readGroup]
        cases ht : (twoline2satrec b c : PRes (Satrec F)) with
        | panic => rfl
        | diverge => rfl
        | ok s =>
          rcases multiName_eq (hmem a (by simp)) with ⟨x, h1, h2⟩ | ⟨h1, h2⟩
          · rw [h1, h2]
            dsimp only [Res.ok_bind]
            rw [ih (lines.length - (i + 3)) (by omega) (i + 3) (by omega) _ _ rfl, hdd 3]
            simp
          · rw [h1, h2]
            rfl
        | err e =>
          dsimp only [Res.err_bind]
          rw [ih (lines.length - (i + 3)) (by omega) (i + 3) (by omega) _ _ rfl, hdd 3]
          simp
      · rw [if_neg (fun h => h25 h.1), if_pos (by omega)]
        rw [show groupLines (a :: b :: c :: rest) = [a, b] :: groupLines (c :: rest) by rw [groupLines, if_neg h25], readAll,
          readGroup]
        cases ht : (twoline2satrec a b : PRes (Satrec F)) with
        | panic => rfl
        | diverge => rfl
        | ok s =>
          dsimp only
          rw [ih (lines.length - (i + 2)) (by omega) (i + 2) (by omega) _ _ rfl, hdd 2]
          simp
        | err e =>
          dsimp only
          rw [ih (lines.length - (i + 2)) (by omega) (i + 2) (by omega) _ _ rfl, hdd 2]
          simp

theorem readAll_spec (gs : List (List Str)) (i : Nat) (recs : List (Satrec F)) (errs : List SatrecParseError) :
    ((∀ g ∈ gs, Returns F g) → readAll i gs recs errs =
      .ok (recs ++ (withIndex i gs).filterMap okOf, errs ++ (withIndex i gs).filterMap (errOf F))) ∧
    ((∃ g ∈ gs, ¬ Returns F g) → readAll i gs recs errs = .panic ∨ readAll i gs recs errs = .diverge) := by
  induction gs generalizing i recs errs with
  | nil => exact ⟨fun _ => by simp [readAll, withIndex], fun ⟨g, hg, _⟩ => by cases hg⟩
  | cons g gs ih =>
    rw [readAll, withIndex]
    cases hr : (readGroup g : PRes (Satrec F)) with
    | ok s =>
      obtain ⟨h1, h2⟩ := ih (i + g.length) (recs ++ [s]) errs
      have hret : Returns F g := Or.inl ⟨s, hr⟩
      have e1 : (okOf (i, g) : Option (Satrec F)) = some s := by simp [okOf, hr]
      have e2 : errOf F (i, g) = none := by simp [errOf, hr]
      refine ⟨fun h => ?_, fun ⟨x, hx, hnx⟩ => h2 ?_⟩
      · dsimp only
        rw [h1 (fun x hx => h x (List.mem_cons_of_mem _ hx)), List.filterMap_cons_some e1, List.filterMap_cons_none e2]
        simp
      · rcases List.mem_cons.mp hx with e | e
        · rw [e] at hnx; exact absurd hret hnx
        · exact ⟨x, e, hnx⟩
    | err e =>
      obtain ⟨h1, h2⟩ := ih (i + g.length) recs (errs ++ [.SatrecMultiError i e])
      have hret : Returns F g := Or.inr ⟨e, hr⟩
      have e1 : (okOf (i, g) : Option (Satrec F)) = none := by simp [okOf, hr]
      have e2 : errOf F (i, g) = some (.SatrecMultiError i e) := by simp [errOf, hr]
      refine ⟨fun h => ?_, fun ⟨x, hx, hnx⟩ => h2 ?_⟩
      · dsimp only
        rw [h1 (fun x hx => h x (List.mem_cons_of_mem _ hx)), List.filterMap_cons_none e1, List.filterMap_cons_some e2]
        simp
      · rcases List.mem_cons.mp hx with e | e
        · rw [e] at hnx; exact absurd hret hnx
        · exact ⟨x, e, hnx⟩
    | panic =>
      refine ⟨fun h => ?_, fun _ => Or.inl rfl⟩
      rcases h g (List.mem_cons_self ..) with ⟨s, hs⟩ | ⟨e, he⟩
      · rw [hr] at hs; cases hs
      · rw [hr] at he; cases he
    | diverge =>
      refine ⟨fun h => ?_, fun _ => Or.inr rfl⟩
      rcases h g (List.mem_cons_self ..) with ⟨s, hs⟩ | ⟨e, he⟩
      · rw [hr] at hs; cases hs
      · rw [hr] at he; cases he

/-- The grouping loses no line, repeats none, and makes groups of one to three lines. -/
theorem groupLines_spec (ls : List Str) : (groupLines ls).flatten = ls ∧ ∀ g ∈ groupLines ls, 1 ≤ g.length ∧ g.length ≤ 3 := by
  induction hn : ls.length using Nat.strongRecOn generalizing ls with
  | _ n ih =>
    match ls, hn with
    | [], _ => simp [groupLines]
    | [a], _ => simp [groupLines]
    | [a, b], _ => simp [groupLines]
    | a :: b :: c :: rest, hn =>
      rw [groupLines]
      simp only [List.length_cons] at hn
      split
      · obtain ⟨h1, h2⟩ := ih rest.length (by omega) rest rfl
        refine ⟨by rw [List.flatten_cons, h1]; rfl, fun g hg => ?_⟩
        rcases List.mem_cons.mp hg with e | e
        · rw [e]; exact ⟨by simp, by simp⟩
        · exact h2 g e
      · obtain ⟨h1, h2⟩ := ih (c :: rest).length (by simp; omega) (c :: rest) rfl
        refine ⟨by rw [List.flatten_cons, h1]; rfl, fun g hg => ?_⟩
        rcases List.mem_cons.mp hg with e | e
        · rw [e]; exact ⟨by simp, by simp⟩
        · exact h2 g e

theorem parse_multiple_groups (ls : List Str) (hne : ls ≠ []) (h : ∀ l ∈ ls, OneLine l) :
    (parse_multiple (joinLines ls) : Res Empty (List (Satrec F) × List SatrecParseError)) =
      readAll 0 (groupLines (nonBlank ls)) [] [] := by
  unfold parse_multiple
  rw [tleLines_join hne h, multiLoop_groups _ (fun l hl => nonBlank_ne_nil hl) 0 (Nat.zero_le _), List.drop_zero]

theorem count_one (gs : List (List Str)) (i : Nat) (h : ∀ g ∈ gs, Returns F g) :
    ((withIndex i gs).filterMap (okOf (F := F))).length + ((withIndex i gs).filterMap (errOf F)).length = gs.length := by
  induction gs generalizing i with
  | nil => rfl
  | cons g gs ih =>
    have := ih (i + g.length) (fun x hx => h x (List.mem_cons_of_mem _ hx))
    rw [withIndex]
    rcases h g (List.mem_cons_self ..) with ⟨s, hs⟩ | ⟨e, he⟩
    · have e1 : (okOf (i, g) : Option (Satrec F)) = some s := by simp [okOf, hs]
      have e2 : errOf F (i, g) = none := by simp [errOf, hs]
      rw [List.filterMap_cons_some e1, List.filterMap_cons_none e2]
      simp only [List.length_cons]; omega
    · have e1 : (okOf (i, g) : Option (Satrec F)) = none := by simp [okOf, he]
      have e2 : errOf F (i, g) = some (.SatrecMultiError i e) := by simp [errOf, he]
      rw [List.filterMap_cons_none e1, List.filterMap_cons_some e2]
      simp only [List.length_cons]; omega

/-- **C27.** If `parse_multiple` returns `(recs, errs)`, the non-blank lines fall into consecutive groups of one to three lines
such that the records are, in order, those of the groups that read, and the errors, in order, those of the groups that do
not, each with the index of the first line of its group; exactly one of the two for every group. -/
theorem C27_accounting (ls : List Str) (hne : ls ≠ []) (h : ∀ l ∈ ls, OneLine l) (recs : List (Satrec F))
    (errs : List SatrecParseError) (hr : parse_multiple (joinLines ls) = .ok (recs, errs)) :
    ∃ groups : List (List Str), groups.flatten = nonBlank ls ∧ (∀ g ∈ groups, 1 ≤ g.length ∧ g.length ≤ 3) ∧
      recs = (withIndex 0 groups).filterMap okOf ∧ errs = (withIndex 0 groups).filterMap (errOf F) ∧
      recs.length + errs.length = groups.length := by
  obtain ⟨h1, h2⟩ := groupLines_spec (nonBlank ls)
  refine ⟨groupLines (nonBlank ls), h1, h2, ?_⟩
  rw [parse_multiple_groups ls hne h] at hr
  obtain ⟨ha, hb⟩ := readAll_spec (F := F) (groupLines (nonBlank ls)) 0 [] []
  by_cases hall : ∀ g ∈ groupLines (nonBlank ls), Returns F g
  · rw [ha hall] at hr
    simp only [List.nil_append, Res.ok.injEq, Prod.mk.injEq] at hr
    obtain ⟨rfl, rfl⟩ := hr
    exact ⟨rfl, rfl, count_one _ 0 hall⟩
  · have : ∃ g ∈ groupLines (nonBlank ls), ¬ Returns F g :=
      Classical.byContradiction fun hn => hall fun g hg => Classical.byContradiction fun hx => hn ⟨g, hg, hx⟩
    rcases hb this with e | e <;> rw [e] at hr <;> cases hr

/-- The indices are the positions of the groups' first lines. -/
theorem withIndex_start (i : Nat) (gs : List (List Str)) (k : Nat) (j : Nat) (g : List Str)
    (h : (withIndex i gs)[k]? = some (j, g)) : gs[k]? = some g ∧ j = i + (gs.take k).flatten.length := by
  induction gs generalizing i k with
  | nil => simp [withIndex] at h
  | cons x xs ih =>
    rw [withIndex] at h
    cases k with
    | zero => simp at h; obtain ⟨rfl, rfl⟩ := h; simp
    | succ k =>
      simp only [List.getElem?_cons_succ] at h
      obtain ⟨h1, h2⟩ := ih (i + x.length) k h
      refine ⟨by simpa using h1, ?_⟩
      rw [h2, List.take_succ_cons, List.flatten_cons, List.length_append]; omega

/-- **C27.** In particular an error's index is the number of lines in the groups before it. -/
theorem C27_error_index (groups : List (List Str)) (e : SatrecParseError)
    (he : e ∈ (withIndex 0 groups).filterMap (errOf F)) :
    ∃ k g x, groups[k]? = some g ∧ (readGroup g : PRes (Satrec F)) = .err x ∧
      e = .SatrecMultiError (groups.take k).flatten.length x := by
  obtain ⟨⟨j, g⟩, hm, hj⟩ := List.mem_filterMap.mp he
  obtain ⟨k, hk⟩ := List.getElem?_of_mem hm
  obtain ⟨h1, h2⟩ := withIndex_start 0 groups k j g hk
  unfold errOf at hj
  cases hr : (readGroup g : PRes (Satrec F)) with
  | err x =>
    simp only [hr] at hj
    refine ⟨k, g, x, h1, hr, ?_⟩
    rw [← Option.some.inj hj, h2, Nat.zero_add]
  | ok s => simp [hr] at hj
  | panic => simp [hr] at hj
  | diverge => simp [hr] at hj

/-! ## C28 -/

/-- A named element set. -/
structure NamedSet where
  name : Str
  line1 : Str
  line2 : Str

/-- its three lines -/
def NamedSet.lines (s : NamedSet) : List Str := [s.name, s.line1, s.line2]

theorem group_named (sets : List NamedSet) (h : ∀ s ∈ sets, byteLen (trim s.name) ≠ 25) :
    groupLines (sets.flatMap NamedSet.lines) = sets.map NamedSet.lines := by
  induction sets with
  | nil => simp [groupLines]
  | cons s rest ih =>
    rw [List.flatMap_cons, List.map_cons]
    show groupLines (s.name :: s.line1 :: s.line2 :: rest.flatMap NamedSet.lines) = _
    rw [groupLines, if_pos (h s (List.mem_cons_self ..)), ih (fun x hx => h x (List.mem_cons_of_mem _ hx))]
    rfl

theorem nonBlank_all {ls : List Str} (h : ∀ l ∈ ls, ¬ Blank l) : nonBlank ls = ls := by
  unfold nonBlank
  rw [List.filter_eq_self]
  intro l hl
  simp [h l hl]

theorem withIndex_named (sets : List NamedSet) (i : Nat) :
    withIndex i (sets.map NamedSet.lines) = (sets.mapIdx (fun k s => (i + 3 * k, s.lines))) := by
  induction sets generalizing i with
  | nil => rfl
  | cons s rest ih =>
    rw [List.map_cons, withIndex, List.mapIdx_cons]
    show (i, s.lines) :: withIndex (i + 3) (rest.map NamedSet.lines) = _
    rw [ih (i + 3)]
    congr 1
    congr 1
    funext k s
    rw [show i + 3 + 3 * k = i + 3 * (k + 1) by omega]

/-- **C28.** A text of `n` three-line sets, no name of which is 25 bytes long when trimmed, is read as `n` independent sets:
record or error number `k` is that of set `k`, the error index being `3 k`. -/
theorem C28_three_line_file (sets : List NamedSet) (hne : sets ≠ [])
    (hone : ∀ s ∈ sets, ∀ l ∈ s.lines, OneLine l ∧ ¬ Blank l) (h25 : ∀ s ∈ sets, byteLen (trim s.name) ≠ 25)
    (hret : ∀ s ∈ sets, Returns F s.lines) :
    parse_multiple (joinLines (sets.flatMap NamedSet.lines)) =
      .ok ((sets.mapIdx (fun k s => (3 * k, s.lines))).filterMap (okOf (F := F)),
           (sets.mapIdx (fun k s => (3 * k, s.lines))).filterMap (errOf F)) := by
  have hmem : ∀ l ∈ sets.flatMap NamedSet.lines, OneLine l ∧ ¬ Blank l := by
    intro l hl
    obtain ⟨s, hs, hl⟩ := List.mem_flatMap.mp hl
    exact hone s hs l hl
  have hne' : sets.flatMap NamedSet.lines ≠ [] := by
    cases sets with
    | nil => exact absurd rfl hne
    | cons s rest => simp [List.flatMap_cons, NamedSet.lines]
  rw [parse_multiple_groups _ hne' (fun l hl => (hmem l hl).1), nonBlank_all (fun l hl => (hmem l hl).2),
    group_named sets h25]
  have := (readAll_spec (F := F) (sets.map NamedSet.lines) 0 [] []).1 (by
    intro g hg
    obtain ⟨s, hs, rfl⟩ := List.mem_map.mp hg
    exact hret s hs)
  rw [this, withIndex_named]
  simp

/-- **C28.** If moreover every set reads, `parse_multiple` returns one record per set, in order, each with the trimmed name of
its own set, and no error. -/
theorem C28_all_good (sets : List NamedSet) (hne : sets ≠ [])
    (hone : ∀ s ∈ sets, ∀ l ∈ s.lines, OneLine l ∧ ¬ Blank l) (h25 : ∀ s ∈ sets, byteLen (trim s.name) ≠ 25)
    (recOf : NamedSet → Satrec F) (nm : NamedSet → Str)
    (hok : ∀ s ∈ sets, (twoline2satrec s.line1 s.line2 : PRes (Satrec F)) = .ok (recOf s) ∧ nameOf s.name = .ok (nm s)) :
    parse_multiple (joinLines (sets.flatMap NamedSet.lines)) =
      .ok (sets.map (fun s => { recOf s with name := some (trim (nm s)) }), []) := by
  have hg : ∀ s ∈ sets, (readGroup s.lines : PRes (Satrec F)) = .ok { recOf s with name := some (trim (nm s)) } := by
    intro s hs
    obtain ⟨h1, h2⟩ := hok s hs
    show ((do let x ← twoline2satrec s.line1 s.line2; let y ← nameOf s.name; .ok { x with name := some (trim y) }) :
      PRes (Satrec F)) = _
    rw [h1, h2]; rfl
  rw [C28_three_line_file sets hne hone h25 (fun s hs => Or.inl ⟨_, hg s hs⟩)]
  have key : ∀ (l : List NamedSet) (i : Nat), (∀ s ∈ l, s ∈ sets) →
      (l.mapIdx (fun k s => (i + 3 * k, s.lines))).filterMap (okOf (F := F)) =
        l.map (fun s => { recOf s with name := some (trim (nm s)) }) ∧
      (l.mapIdx (fun k s => (i + 3 * k, s.lines))).filterMap (errOf F) = [] := by
    intro l
    induction l with
    | nil => intro i _; exact ⟨rfl, rfl⟩
    | cons s rest ih =>
      intro i hs
      have h1 := hg s (hs s (List.mem_cons_self ..))
      have e1 : ∀ j, (okOf (j, s.lines) : Option (Satrec F)) = some { recOf s with name := some (trim (nm s)) } := by
        intro j; simp [okOf, h1]
      have e2 : ∀ j, errOf F (j, s.lines) = none := by intro j; simp [errOf, h1]
      obtain ⟨h2, h3⟩ := ih (i + 3) (fun x hx => hs x (List.mem_cons_of_mem _ hx))
      have hf : (fun k (s : NamedSet) => (i + 3 * (k + 1), s.lines)) = (fun k s => (i + 3 + 3 * k, s.lines)) := by
        funext k s; rw [show i + 3 * (k + 1) = i + 3 + 3 * k by omega]
      rw [List.mapIdx_cons, List.filterMap_cons_some (e1 _), List.filterMap_cons_none (e2 _)]
      rw [hf, h2, h3]
      exact ⟨rfl, rfl⟩
  obtain ⟨h1, h2⟩ := key sets 0 (fun s hs => hs)
  simp only [Nat.zero_add] at h1 h2
  rw [h1, h2]

/-- a line of 25 bytes is not a first element line -/
theorem short_not_ok (n a : Str) (h : byteLen n < 32) (s : Satrec F) : (twoline2satrec n a : PRes (Satrec F)) ≠ .ok s := by
  intro hs
  unfold twoline2satrec at hs
  obtain ⟨p, hp, -⟩ := Res.bind_ok hs
  obtain ⟨x, -, hx, -⟩ := parse_satrec_ok hp
  unfold parseLine1 at hx
  obtain ⟨_, -, hx⟩ := Res.bind_ok hx
  obtain ⟨_, -, hx⟩ := Res.bind_ok hx
  obtain ⟨_, he, hx⟩ := Res.bind_ok hx
  unfold parse_float at he
  rw [slice_short (by decide) h] at he
  cases he

/-- **C28, the exception.** A set whose name line is exactly 25 bytes long (with no blanks at its ends) is never read, however
good its element lines are: no record comes out of its three lines. -/
theorem C28_violated_name25 (n a b : Str) (hn : byteLen n = 25) (ht : trim n = n)
    (hone : ∀ l ∈ [n, a, b], OneLine l ∧ ¬ Blank l) (recs : List (Satrec F)) (errs : List SatrecParseError)
    (hr : parse_multiple (joinLines [n, a, b]) = .ok (recs, errs)) : recs = [] := by
  rw [parse_multiple_groups _ (by simp) (fun l hl => (hone l hl).1), nonBlank_all (fun l hl => (hone l hl).2)] at hr
  rw [show groupLines [n, a, b] = [[n, a], [b]] by
    rw [groupLines, if_neg (by rw [ht, hn]; simp)]; simp [groupLines]] at hr
  simp only [readAll, readGroup] at hr
  cases hs : (twoline2satrec n a : PRes (Satrec F)) with
  | ok s => exact absurd hs (short_not_ok n a (by omega) s)
  | err e => rw [hs] at hr; simp at hr; exact hr.1
  | panic => rw [hs] at hr; simp at hr
  | diverge => rw [hs] at hr; simp at hr

/-- A name that meets the hypotheses. -/
example : byteLen "INTERNATIONAL SPACE STN X".toList = 25 ∧ trim "INTERNATIONAL SPACE STN X".toList =
    "INTERNATIONAL SPACE STN X".toList := by decide

/-! ## C29 -/

theorem group_three (ls : List Str) (h : ∀ l ∈ ls, byteLen (trim l) ≠ 25) :
    3 * ((groupLines ls).filter (fun g => decide (2 ≤ g.length))).length ≤ ls.length + 1 ∧
    (ls.length % 3 = 1 → 3 * ((groupLines ls).filter (fun g => decide (2 ≤ g.length))).length ≤ ls.length) := by
  induction hn : ls.length using Nat.strongRecOn generalizing ls with
  | _ n ih =>
    match ls, hn, h with
    | [], hn, _ => simp [groupLines]
    | [a], hn, _ => simp [groupLines] at hn ⊢
    | [a, b], hn, _ => simp [groupLines] at hn ⊢; omega
    | a :: b :: c :: rest, hn, h =>
      rw [groupLines, if_pos (h a (List.mem_cons_self ..))]
      simp only [List.length_cons] at hn
      obtain ⟨h1, h2⟩ := ih rest.length (by omega) rest
        (fun l hl => h l (List.mem_cons_of_mem _ (List.mem_cons_of_mem _ (List.mem_cons_of_mem _ hl)))) rfl
      rw [List.filter_cons_of_pos (by simp)]
      simp only [List.length_cons]
      omega

/-- **C29, violated.** However good the element sets are, a text of `n ≥ 2` two-line sets never gives `n` records (if no line
is 25 bytes long when trimmed, as no full TLE line is). -/
theorem C29_violated_two_line_file (sets : List (Str × Str)) (h2 : 2 ≤ sets.length)
    (hone : ∀ s ∈ sets, (OneLine s.1 ∧ ¬ Blank s.1 ∧ byteLen (trim s.1) ≠ 25) ∧
      (OneLine s.2 ∧ ¬ Blank s.2 ∧ byteLen (trim s.2) ≠ 25)) (recs : List (Satrec F)) (errs : List SatrecParseError)
    (hr : parse_multiple (joinLines (sets.flatMap (fun s => [s.1, s.2]))) = .ok (recs, errs)) :
    recs.length < sets.length := by
  have hmem : ∀ l ∈ sets.flatMap (fun s => [s.1, s.2]), OneLine l ∧ ¬ Blank l ∧ byteLen (trim l) ≠ 25 := by
    intro l hl
    obtain ⟨s, hs, hl⟩ := List.mem_flatMap.mp hl
    simp only [List.mem_cons, List.not_mem_nil, or_false] at hl
    rcases hl with rfl | rfl
    · exact (hone s hs).1
    · exact (hone s hs).2
  have hlen : (sets.flatMap (fun s => [s.1, s.2])).length = 2 * sets.length := by
    clear hr hmem hone h2
    induction sets with
    | nil => rfl
    | cons s rest ih => rw [List.flatMap_cons, List.length_append, ih]; simp; omega
  have hne : sets.flatMap (fun s => [s.1, s.2]) ≠ [] := by
    intro e; rw [e] at hlen; simp at hlen; omega
  generalize sets.flatMap (fun s => [s.1, s.2]) = ls at *
  rw [parse_multiple_groups ls hne (fun l hl => (hmem l hl).1), nonBlank_all (fun l hl => (hmem l hl).2.1)] at hr
  obtain ⟨hg1, hg2⟩ := group_three ls (fun l hl => (hmem l hl).2.2)
  have hb := (groupLines_spec ls).2
  obtain ⟨ha, hb'⟩ := readAll_spec (F := F) (groupLines ls) 0 [] []
  have hall : ∀ g ∈ groupLines ls, Returns F g := by
    refine Classical.byContradiction fun hn => ?_
    have : ∃ g ∈ groupLines ls, ¬ Returns F g :=
      Classical.byContradiction fun hx => hn fun g hg => Classical.byContradiction fun hy => hx ⟨g, hg, hy⟩
    rcases hb' this with e | e <;> rw [e] at hr <;> cases hr
  rw [ha hall] at hr
  simp only [List.nil_append, Res.ok.injEq, Prod.mk.injEq] at hr
  obtain ⟨rfl, -⟩ := hr
  have hrec : ∀ (gs : List (List Str)) (i : Nat), (∀ g ∈ gs, 1 ≤ g.length) →
      ((withIndex i gs).filterMap (okOf (F := F))).length ≤ (gs.filter (fun g => decide (2 ≤ g.length))).length := by
    intro gs
    induction gs with
    | nil => intro i _; exact Nat.le_refl _
    | cons g gs ih =>
      intro i hg
      rw [withIndex]
      have hi := ih (i + g.length) (fun x hx => hg x (List.mem_cons_of_mem _ hx))
      by_cases hgl : 2 ≤ g.length
      · rw [List.filter_cons_of_pos (by simpa using hgl)]
        have : ((List.filterMap (okOf (F := F)) ((i, g) :: withIndex (i + g.length) gs))).length ≤
            (List.filterMap (okOf (F := F)) (withIndex (i + g.length) gs)).length + 1 := by
          rw [List.filterMap_cons]
          split <;> simp
        simp only [List.length_cons]
        omega
      · rw [List.filter_cons_of_neg (by simpa using hgl)]
        have h1 : g.length = 1 := by have := hg g (List.mem_cons_self ..); omega
        have hk : (okOf (i, g) : Option (Satrec F)) = none := by
          match g, h1 with
          | [a], _ => rfl
        rw [List.filterMap_cons_none hk]
        exact hi
  have := hrec (groupLines ls) 0 (fun g hg => (hb g hg).1)
  omega

/-- **C29.** A single two-line set is read. -/
theorem C29_single (a b : Str) (ha : OneLine a ∧ ¬ Blank a) (hb : OneLine b ∧ ¬ Blank b) (s : Satrec F)
    (hs : (twoline2satrec a b : PRes (Satrec F)) = .ok s) : parse_multiple (joinLines [a, b]) = .ok ([s], []) := by
  have hm : ∀ l ∈ [a, b], OneLine l ∧ ¬ Blank l := by
    intro l hl
    simp only [List.mem_cons, List.not_mem_nil, or_false] at hl
    rcases hl with rfl | rfl
    · exact ha
    · exact hb
  rw [parse_multiple_groups _ (by simp) (fun l hl => (hm l hl).1), nonBlank_all (fun l hl => (hm l hl).2)]
  simp [groupLines, readAll, readGroup, hs]

/-! ## C20 for texts -/

/-- **C20, violated.** A text of two lines starting with `1` and `2`, the first one shorter than 7 bytes, makes `parse` and
`parse_multiple` panic. -/
theorem C20_violated_text (a b : Str) (ha : OneLine a) (hb : OneLine b) (h1 : a.head? = some '1') (h2 : b.head? = some '2')
    (hs : byteLen a < 7) : (parse (joinLines [a, b]) : PRes (Satrec F)) = .panic ∧
      (parse_multiple (joinLines [a, b]) : Res Empty (List (Satrec F) × List SatrecParseError)) = .panic := by
  have nb : ∀ (l : Str) (c : Char), l.head? = some c → isWhite c = false → ¬ Blank l := by
    intro l c hc hw hbl
    cases l with
    | nil => cases hc
    | cons d ds =>
      simp only [List.head?_cons, Option.some.injEq] at hc
      subst hc
      have := hbl d (List.mem_cons_self ..)
      rw [hw] at this; cases this
  have hm : ∀ l ∈ [a, b], OneLine l ∧ ¬ Blank l := by
    intro l hl
    simp only [List.mem_cons, List.not_mem_nil, or_false] at hl
    rcases hl with rfl | rfl
    · exact ⟨ha, nb _ _ h1 (by decide)⟩
    · exact ⟨hb, nb _ _ h2 (by decide)⟩
  have hp := (C20_violated_short_line (F := F) a b hs).2
  constructor
  · rw [C25_parse _ (by simp) (fun l hl => (hm l hl).1), nonBlank_all (fun l hl => (hm l hl).2)]
    rw [parseLines_two, if_pos ⟨h1, h2⟩, hp]
  · rw [parse_multiple_groups _ (by simp) (fun l hl => (hm l hl).1), nonBlank_all (fun l hl => (hm l hl).2)]
    simp [groupLines, readAll, readGroup, hp]

/-- **C20, violated.** The name line `0` makes both panic although the element lines are good. -/
theorem C20_violated_name (a b : Str) (ha : OneLine a) (hb : OneLine b) (h1 : a.head? = some '1') (h2 : b.head? = some '2')
    (s : Satrec F) (hs : (twoline2satrec a b : PRes (Satrec F)) = .ok s) :
    (parse (joinLines [['0'], a, b]) : PRes (Satrec F)) = .panic ∧
      (parse_multiple (joinLines [['0'], a, b]) : Res Empty (List (Satrec F) × List SatrecParseError)) = .panic := by
  have nb : ∀ (l : Str) (c : Char), l.head? = some c → isWhite c = false → ¬ Blank l := by
    intro l c hc hw hbl
    cases l with
    | nil => cases hc
    | cons d ds =>
      simp only [List.head?_cons, Option.some.injEq] at hc
      subst hc
      have := hbl d (List.mem_cons_self ..)
      rw [hw] at this; cases this
  have hm : ∀ l ∈ [['0'], a, b], OneLine l ∧ ¬ Blank l := by
    intro l hl
    simp only [List.mem_cons, List.not_mem_nil, or_false] at hl
    rcases hl with rfl | rfl | rfl
    · exact ⟨by unfold OneLine; decide, nb _ '0' rfl (by decide)⟩
    · exact ⟨ha, nb _ _ h1 (by decide)⟩
    · exact ⟨hb, nb _ _ h2 (by decide)⟩
  constructor
  · rw [C25_parse _ (by simp) (fun l hl => (hm l hl).1), nonBlank_all (fun l hl => (hm l hl).2)]
    rw [parseLines_three, if_pos ⟨h1, h2⟩, hs]
    rfl
  · rw [parse_multiple_groups _ (by simp) (fun l hl => (hm l hl).1), nonBlank_all (fun l hl => (hm l hl).2)]
    rw [show groupLines [['0'], a, b] = [[['0'], a, b]] by
      rw [groupLines, if_pos (by decide), groupLines], readAll, readGroup, hs]
    rfl

/-- **C20.** What is left: a text all of whose non-blank lines are ASCII and at least 63 characters long never makes `parse`
or `parse_multiple` panic. -/
theorem C20_long_ascii (ls : List Str) (hne : ls ≠ []) (h : ∀ l ∈ ls, OneLine l)
    (hl : ∀ l ∈ nonBlank ls, Ascii l ∧ 63 ≤ l.length) :
    (parse (joinLines ls) : PRes (Satrec F)) ≠ .panic ∧
      (parse_multiple (joinLines ls) : Res Empty (List (Satrec F) × List SatrecParseError)) ≠ .panic := by
  have hn : ∀ n : Str, Ascii n → 63 ≤ n.length → ∃ x, nameOf n = .ok x := by
    intro n ha hlen
    unfold nameOf
    split
    · rename_i c rest
      rw [if_pos (ha c (by simp))]; exact ⟨_, rfl⟩
    · simp at hlen
    · exact ⟨_, rfl⟩
  have ht : ∀ a b : Str, (Ascii a ∧ 63 ≤ a.length) → (Ascii b ∧ 63 ≤ b.length) →
      (twoline2satrec a b : PRes (Satrec F)) ≠ .panic :=
    fun a b ha hb => C19_twoline_no_panic a b ha.1 hb.1 (by omega) hb.2
  have hnm : ∀ (n a b : Str) (f : Str → Str), (Ascii n ∧ 63 ≤ n.length) → (Ascii a ∧ 63 ≤ a.length) → (Ascii b ∧ 63 ≤ b.length) →
      ((do let s ← twoline2satrec a b; let x ← nameOf n; .ok { s with name := some (f x) }) : PRes (Satrec F)) ≠ .panic := by
    intro n a b f h1 h2 h3
    obtain ⟨x, hx⟩ := hn n h1.1 h1.2
    cases hs : (twoline2satrec a b : PRes (Satrec F)) with
    | ok s => rw [hx]; simp
    | err e => simp
    | panic => exact absurd hs (ht a b h2 h3)
    | diverge => simp
  constructor
  · rw [C25_parse ls hne h]
    generalize nonBlank ls = m at *
    match m, hl with
    | [], _ => simp [parseLines]
    | [a], _ => simp [parseLines]
    | [a, b], hl =>
      rw [parseLines_two]
      split
      · exact ht a b (hl a (by simp)) (hl b (by simp))
      · simp
    | [n, a, b], hl =>
      rw [parseLines_three]
      split
      · exact hnm n a b id (hl n (by simp)) (hl a (by simp)) (hl b (by simp))
      · simp
    | _ :: _ :: _ :: _ :: _, _ => simp [parseLines]
  · rw [parse_multiple_groups ls hne h]
    obtain ⟨h1, h2⟩ := groupLines_spec (nonBlank ls)
    have hg : ∀ g ∈ groupLines (nonBlank ls), (readGroup g : PRes (Satrec F)) ≠ .panic := by
      intro g hg
      have hm : ∀ l ∈ g, Ascii l ∧ 63 ≤ l.length := fun l hlg => hl l (by rw [← h1]; exact List.mem_flatten.mpr ⟨g, hg, hlg⟩)
      match g, hm with
      | [], _ => simp [readGroup]
      | [a], _ => simp [readGroup]
      | [a, b], hm => exact ht a b (hm a (by simp)) (hm b (by simp))
      | [n, a, b], hm => exact hnm n a b trim (hm n (by simp)) (hm a (by simp)) (hm b (by simp))
      | _ :: _ :: _ :: _ :: _, _ => simp [readGroup]
    clear h1 h2
    have key : ∀ (gs : List (List Str)) (i : Nat) (r : List (Satrec F)) (e : List SatrecParseError),
        (∀ g ∈ gs, (readGroup g : PRes (Satrec F)) ≠ .panic) → readAll i gs r e ≠ .panic := by
      intro gs
      induction gs with
      | nil => intro i r e _; simp [readAll]
      | cons g gs ih =>
        intro i r e hp
        rw [readAll]
        have hp' := fun x hx => hp x (List.mem_cons_of_mem _ hx)
        cases hr : (readGroup g : PRes (Satrec F)) with
        | ok s => exact ih _ _ _ hp'
        | err x => exact ih _ _ _ hp'
        | panic => exact absurd hr (hp g (List.mem_cons_self ..))
        | diverge => simp
    exact key _ 0 [] [] hg

end Sat
