import Verif.Proofs.StrLemmas
import Verif.Model.Io
/-!
# The element-set parser: C18, C19, C20, C23, C30

All theorems hold for every arithmetic `F`.
-/

set_option linter.unusedSectionVars false
set_option linter.unusedSimpArgs false

namespace Sat
open Spec
variable {F : Type} [Arith F]

/-! ### Tools -/

/-- The possible ends of a call: a value with `P`, an error with `E`, a panic if `pn`, no return if `dv`. -/
def Res.Ends {ε α : Type} (P : α → Prop) (E : ε → Prop) (pn dv : Prop) : Res ε α → Prop
  | .ok a => P a
  | .err e => E e
  | .panic => pn
  | .diverge => dv

theorem Res.ends_bind {ε α β : Type} {P : α → Prop} {Q : β → Prop} {E : ε → Prop} {pn dv : Prop} {r : Res ε α}
    {f : α → Res ε β} (h : r.Ends P E pn dv) (hf : ∀ a, P a → (f a).Ends Q E pn dv) : (r >>= f).Ends Q E pn dv := by
  cases r with
  | ok a => exact hf a h
  | err e => exact h
  | panic => exact h
  | diverge => exact h

theorem Res.bind_ok {ε α β : Type} {r : Res ε α} {f : α → Res ε β} {b : β} (h : (r >>= f) = .ok b) :
    ∃ a, r = .ok a ∧ f a = .ok b := by
  cases r with
  | ok a => exact ⟨a, rfl, h⟩
  | err e => cases h
  | panic => cases h
  | diverge => cases h

/-! ## C18 -/

/-- The columns of line 1 that matter. -/
def columns1 : List (Nat × Nat) := [(3, 7), (19, 32), (34, 43), (45, 52), (54, 61)]
/-- The columns of line 2 that matter. -/
def columns2 : List (Nat × Nat) := [(9, 16), (18, 25), (27, 33), (35, 42), (44, 51), (53, 63)]

theorem cols_sub {s s' : Str} {A B a b : Nat} (h : cols s A B = cols s' A B) (h1 : A ≤ a) (h2 : b ≤ B) (h3 : 1 ≤ A) :
    cols s a b = cols s' a b := by
  have key : ∀ t : Str, cols t a b = ((cols t A B).drop (a - A)).take (b + 1 - a) := by
    intro t
    unfold cols
    rw [List.drop_take, List.drop_drop, List.take_take]
    congr 1
    · omega
    · congr 1; omega
  rw [key s, key s', h]

theorem slice_same {s s' : Str} (hs : Ascii s) (hs' : Ascii s') {A B : Nat} (h : cols s A B = cols s' A B) {lo hi : Nat}
    (h1 : A ≤ lo + 1) (h2 : hi ≤ B) (h3 : 1 ≤ A) (hlt : lo < hi) :
    (slice s lo hi : PRes Str) = slice s' lo hi := by
  rw [slice_ascii hs hlt, slice_ascii hs' hlt, cols_sub h h1 h2 h3]

/-- **C18.** Two pairs of ASCII lines (of any lengths) that agree on the documented columns give the same record, the same
error, or the same panic. -/
theorem C18_only_columns (l1 l2 l1' l2' : Str) (a1 : Ascii l1) (a2 : Ascii l2) (a1' : Ascii l1') (a2' : Ascii l2')
    (h1 : ∀ p ∈ columns1, cols l1 p.1 p.2 = cols l1' p.1 p.2)
    (h2 : ∀ p ∈ columns2, cols l2 p.1 p.2 = cols l2' p.1 p.2) :
    (parse_satrec l1 l2 : PRes (Satrec F)) = parse_satrec l1' l2' ∧
    (twoline2satrec l1 l2 : PRes (Satrec F)) = twoline2satrec l1' l2' := by
  have m1 : ∀ A B, (A, B) ∈ columns1 → cols l1 A B = cols l1' A B := fun A B h => h1 (A, B) h
  have m2 : ∀ A B, (A, B) ∈ columns2 → cols l2 A B = cols l2' A B := fun A B h => h2 (A, B) h
  have e : (parse_satrec l1 l2 : PRes (Satrec F)) = parse_satrec l1' l2' := by
    unfold parse_satrec parseLine1 parseLine2 parseNddot parseBstar parseEcco parse_int parse_float
    rw [slice_same a1 a1' (m1 3 7 (by decide)) (lo := 2) (hi := 7) (by decide) (by decide) (by decide) (by decide),
      slice_same a1 a1' (m1 19 32 (by decide)) (lo := 18) (hi := 20) (by decide) (by decide) (by decide) (by decide),
      slice_same a1 a1' (m1 19 32 (by decide)) (lo := 20) (hi := 32) (by decide) (by decide) (by decide) (by decide),
      slice_same a1 a1' (m1 34 43 (by decide)) (lo := 33) (hi := 43) (by decide) (by decide) (by decide) (by decide),
      slice_same a1 a1' (m1 45 52 (by decide)) (lo := 44) (hi := 50) (by decide) (by decide) (by decide) (by decide),
      slice_same a1 a1' (m1 45 52 (by decide)) (lo := 50) (hi := 52) (by decide) (by decide) (by decide) (by decide),
      slice_same a1 a1' (m1 54 61 (by decide)) (lo := 53) (hi := 54) (by decide) (by decide) (by decide) (by decide),
      slice_same a1 a1' (m1 54 61 (by decide)) (lo := 54) (hi := 59) (by decide) (by decide) (by decide) (by decide),
      slice_same a1 a1' (m1 54 61 (by decide)) (lo := 59) (hi := 61) (by decide) (by decide) (by decide) (by decide),
      slice_same a2 a2' (m2 9 16 (by decide)) (lo := 8) (hi := 16) (by decide) (by decide) (by decide) (by decide),
      slice_same a2 a2' (m2 18 25 (by decide)) (lo := 17) (hi := 25) (by decide) (by decide) (by decide) (by decide),
      slice_same a2 a2' (m2 27 33 (by decide)) (lo := 26) (hi := 33) (by decide) (by decide) (by decide) (by decide),
      slice_same a2 a2' (m2 35 42 (by decide)) (lo := 34) (hi := 42) (by decide) (by decide) (by decide) (by decide),
      slice_same a2 a2' (m2 44 51 (by decide)) (lo := 43) (hi := 51) (by decide) (by decide) (by decide) (by decide),
      slice_same a2 a2' (m2 53 63 (by decide)) (lo := 52) (hi := 63) (by decide) (by decide) (by decide) (by decide)]
  refine ⟨e, ?_⟩
  unfold twoline2satrec
  rw [e]

/-- Two different pairs of lines that meet the hypotheses: line 1 of the ISS with another classification, designator and
checksum, line 2 with another satellite number and checksum. -/
example :
    let a := "1 25544U 98067A   19365.55868056  .00016717  00000-0  10270-3 0  9003".toList
    let b := "9 25544C 77777ZZ  19365.55868056  .00016717  00000-0  10270-3 8 12345".toList
    let c := "2 25544  51.6433 111.7433 0005139  86.8163 339.4171 15.49524087205923".toList
    let d := "7 99999  51.6433 111.7433 0005139  86.8163 339.4171 15.49524087999999".toList
    a ≠ b ∧ c ≠ d ∧ (∀ p ∈ columns1, cols a p.1 p.2 = cols b p.1 p.2) ∧ (∀ p ∈ columns2, cols c p.1 p.2 = cols d p.1 p.2) := by
  decide

/-! ## C19 and C30 -/

/-- The number fields: name, first and last byte (exclusive), and whether the field is in line 1. -/
def numberFields : List (String × Nat × Nat × Bool) :=
  [("epochyr", 18, 20, true), ("epochdays", 20, 32, true), ("ndot", 33, 43, true), ("nndot frac", 44, 50, true),
   ("bstar frac", 54, 59, true), ("inclo", 8, 16, false), ("nodeo", 17, 25, false), ("argpo", 34, 42, false),
   ("mo", 43, 51, false), ("no", 52, 63, false)]

/-- What an error of `parse_satrec l1 l2` may look like: a number field with its name, its column range and the text found
there, or one of the three assembled fields. -/
def FieldError (l1 l2 : Str) : SatrecParseError → Prop
  | .IntParseError name lo hi text =>
    ∃ first, (name, lo, hi, first) ∈ numberFields ∧ (slice (if first then l1 else l2) lo hi : PRes Str) = .ok text
  | .CompoundError name _ => name = "nndot" ∨ name = "bstr" ∨ name = "ecco"
  | _ => False

section
variable (l1 l2 : Str) (first : Bool) (pn : Prop)

theorem ends_slice (E : SatrecParseError → Prop) (s : Str) (lo hi : Nat) (hp : (∃ t, (slice s lo hi : PRes Str) = .ok t) ∨ pn) :
    (slice s lo hi : PRes Str).Ends (fun t => (slice s lo hi : PRes Str) = .ok t) E pn False := by
  rcases slice_cases (ε := SatrecParseError) s lo hi with ⟨t, h⟩ | h
  · rw [h]; rfl
  · rw [h]
    rcases hp with ⟨t, ht⟩ | hp
    · rw [h] at ht; cases ht
    · exact hp

theorem ends_int (name : String) (lo hi : Nat) (hm : (name, lo, hi, first) ∈ numberFields)
    (hp : (∃ t, (slice (if first then l1 else l2) lo hi : PRes Str) = .ok t) ∨ pn) :
    (parse_int (if first then l1 else l2) name lo hi).Ends (fun _ => True) (FieldError l1 l2) pn False := by
  unfold parse_int
  refine Res.ends_bind (ends_slice pn _ _ lo hi hp) fun t ht => ?_
  split
  · trivial
  · exact ⟨first, hm, ht⟩

theorem ends_float (name : String) (lo hi : Nat) (hm : (name, lo, hi, first) ∈ numberFields)
    (hp : (∃ t, (slice (if first then l1 else l2) lo hi : PRes Str) = .ok t) ∨ pn) :
    (parse_float (if first then l1 else l2) name lo hi : PRes F).Ends (fun _ => True) (FieldError l1 l2) pn False := by
  unfold parse_float
  refine Res.ends_bind (ends_slice pn _ _ lo hi hp) fun t ht => ?_
  split
  · trivial
  · exact ⟨first, hm, ht⟩
end

/-- The general form of C19 and C30: if every slice of fixed bounds succeeds (or `pn`), then `parse_satrec` ends with a
record, with an error naming a field, or (only if `pn`) with a panic. -/
theorem parse_ends (l1 l2 : Str) (pn : Prop)
    (h1 : ∀ lo hi, lo < hi → hi ≤ 61 → (∃ t, (slice l1 lo hi : PRes Str) = .ok t) ∨ pn)
    (h2 : ∀ lo hi, lo < hi → hi ≤ 63 → (∃ t, (slice l2 lo hi : PRes Str) = .ok t) ∨ pn) :
    (parse_satrec l1 l2 : PRes (Satrec F)).Ends (fun _ => True) (FieldError l1 l2) pn False := by
  have i1 := fun name lo hi hm a b => ends_int l1 l2 true pn name lo hi hm (h1 lo hi a b)
  have f1 := fun name lo hi hm a b => ends_float (F := F) l1 l2 true pn name lo hi hm (h1 lo hi a b)
  have f2 := fun name lo hi hm a b => ends_float (F := F) l1 l2 false pn name lo hi hm (h2 lo hi a b)
  have s1 := fun lo hi a b => ends_slice pn (FieldError l1 l2) l1 lo hi (h1 lo hi a b)
  have s2 := fun lo hi a b => ends_slice pn (FieldError l1 l2) l2 lo hi (h2 lo hi a b)
  simp only [if_true, Bool.false_eq_true, if_false] at i1 f1 f2
  unfold parse_satrec
  refine Res.ends_bind (P := fun _ => True) ?_ fun a _ => Res.ends_bind (P := fun _ => True) ?_ fun b _ => trivial
  · unfold parseLine1
    refine Res.ends_bind (s1 2 7 (by decide) (by decide)) fun _ _ => ?_
    refine Res.ends_bind (i1 "epochyr" 18 20 (by decide) (by decide) (by decide)) fun _ _ => ?_
    refine Res.ends_bind (f1 "epochdays" 20 32 (by decide) (by decide) (by decide)) fun _ _ => ?_
    refine Res.ends_bind (f1 "ndot" 33 43 (by decide) (by decide) (by decide)) fun _ _ => ?_
    refine Res.ends_bind (P := fun _ => True) ?_ fun _ _ => Res.ends_bind (P := fun _ => True) ?_ fun _ _ => trivial
    · unfold parseNddot
      refine Res.ends_bind (i1 "nndot frac" 44 50 (by decide) (by decide) (by decide)) fun _ _ => ?_
      refine Res.ends_bind (s1 50 52 (by decide) (by decide)) fun _ _ => ?_
      dsimp only
      split
      · trivial
      · exact Or.inl rfl
    · unfold parseBstar
      refine Res.ends_bind (s1 53 54 (by decide) (by decide)) fun _ _ => ?_
      refine Res.ends_bind (i1 "bstar frac" 54 59 (by decide) (by decide) (by decide)) fun _ _ => ?_
      refine Res.ends_bind (s1 59 61 (by decide) (by decide)) fun _ _ => ?_
      dsimp only
      split
      · trivial
      · exact Or.inr (Or.inl rfl)
  · unfold parseLine2
    refine Res.ends_bind (f2 "inclo" 8 16 (by decide) (by decide) (by decide)) fun _ _ => ?_
    refine Res.ends_bind (f2 "nodeo" 17 25 (by decide) (by decide) (by decide)) fun _ _ => ?_
    refine Res.ends_bind (P := fun _ => True) ?_ fun _ _ => ?_
    · unfold parseEcco
      refine Res.ends_bind (s2 26 33 (by decide) (by decide)) fun _ _ => ?_
      dsimp only
      split
      · trivial
      · exact Or.inr (Or.inr rfl)
    refine Res.ends_bind (f2 "argpo" 34 42 (by decide) (by decide) (by decide)) fun _ _ => ?_
    refine Res.ends_bind (f2 "mo" 43 51 (by decide) (by decide) (by decide)) fun _ _ => ?_
    refine Res.ends_bind (f2 "no" 52 63 (by decide) (by decide) (by decide)) fun _ _ => ?_
    trivial

/-- **C19.** ASCII lines of at least 61 and 63 characters are never a reason to panic, nor not to return. -/
theorem C19_no_panic (l1 l2 : Str) (a1 : Ascii l1) (a2 : Ascii l2) (n1 : 61 ≤ l1.length) (n2 : 63 ≤ l2.length) :
    (∃ s, (parse_satrec l1 l2 : PRes (Satrec F)) = .ok s) ∨ ∃ e, (parse_satrec l1 l2 : PRes (Satrec F)) = .err e := by
  have h := parse_ends (F := F) l1 l2 False
    (fun lo hi a b => Or.inl ⟨_, slice_long a1 a (Nat.le_trans b n1)⟩)
    (fun lo hi a b => Or.inl ⟨_, slice_long a2 a (Nat.le_trans b n2)⟩)
  cases hr : (parse_satrec l1 l2 : PRes (Satrec F)) with
  | ok s => exact Or.inl ⟨s, rfl⟩
  | err e => exact Or.inr ⟨e, rfl⟩
  | panic => rw [hr] at h; exact h.elim
  | diverge => rw [hr] at h; exact h.elim

/-- **C19.** The same for `twoline2satrec`: it can only fail to return because the propagation does not. -/
theorem C19_twoline_no_panic (l1 l2 : Str) (a1 : Ascii l1) (a2 : Ascii l2) (n1 : 61 ≤ l1.length) (n2 : 63 ≤ l2.length) :
    (twoline2satrec l1 l2 : PRes (Satrec F)) ≠ .panic := by
  unfold twoline2satrec
  rcases C19_no_panic (F := F) l1 l2 a1 a2 n1 n2 with ⟨s, h⟩ | ⟨e, h⟩
  · rw [h]
    simp only [Res.ok_bind]
    split <;> simp
  · rw [h]; simp

/-- The lengths occur: full TLE lines have 69 characters. -/
example : Ascii "1 25544U 98067A   19365.55868056  .00016717  00000-0  10270-3 0  9003".toList ∧
    61 ≤ ("1 25544U 98067A   19365.55868056  .00016717  00000-0  10270-3 0  9003".toList).length := by
  unfold Ascii; decide

/-- **C30.** Every error of `parse_satrec` names one of ten number fields, with its column range and the text found there, or
one of the three assembled fields.  In particular `FloatParseError` is never produced. -/
theorem C30_errors_named (l1 l2 : Str) (e : SatrecParseError) (h : (parse_satrec l1 l2 : PRes (Satrec F)) = .err e) :
    FieldError l1 l2 e ∧ ∀ name lo hi text, e ≠ .FloatParseError name lo hi text := by
  have hh := parse_ends (F := F) l1 l2 True (fun _ _ _ _ => Or.inr trivial) (fun _ _ _ _ => Or.inr trivial)
  rw [h] at hh
  refine ⟨hh, ?_⟩
  rintro name lo hi text rfl
  exact hh

/-! ## C23 -/

/-- What `parse::<i64>` accepts. -/
theorem parseI64_some {s : Str} {i : Int} (h : parseI64 s = some i) :
    ∃ ds, ds ≠ [] ∧ ds.all isDig = true ∧
      ((s = '-' :: ds ∧ i = -(digitsVal ds : Int)) ∨ ((s = '+' :: ds ∨ s = ds) ∧ i = (digitsVal ds : Int))) := by
  have fin : ∀ (neg : Bool) (ds : Str), (if ds ≠ [] ∧ ds.all isDig = true then
      (if -(2 ^ 63) ≤ (if neg then -(digitsVal ds : Int) else (digitsVal ds : Int)) ∧
          (if neg then -(digitsVal ds : Int) else (digitsVal ds : Int)) < 2 ^ 63
        then some (if neg then -(digitsVal ds : Int) else (digitsVal ds : Int)) else none) else none) = some i →
      ds ≠ [] ∧ ds.all isDig = true ∧ i = (if neg then -(digitsVal ds : Int) else (digitsVal ds : Int)) := by
    intro neg ds h
    generalize (if neg then -(digitsVal ds : Int) else (digitsVal ds : Int)) = v at h ⊢
    by_cases hc : ds ≠ [] ∧ ds.all isDig = true
    · rw [if_pos hc] at h
      by_cases hv : -(2 ^ 63) ≤ v ∧ v < 2 ^ 63
      · rw [if_pos hv] at h; exact ⟨hc.1, hc.2, (Option.some.inj h).symm⟩
      · rw [if_neg hv] at h; exact absurd h (by simp)
    · rw [if_neg hc] at h; exact absurd h (by simp)
  unfold parseI64 at h
  split at h
  rename_i neg ds heq
  obtain ⟨h1, h2, h3⟩ := fin neg ds h
  split at heq
  · cases heq; exact ⟨_, h1, h2, Or.inl ⟨rfl, h3⟩⟩
  · cases heq; exact ⟨_, h1, h2, Or.inr ⟨Or.inl rfl, h3⟩⟩
  · cases heq; exact ⟨_, h1, h2, Or.inr ⟨Or.inr rfl, h3⟩⟩

/-- Two bytes that parse as an integer give a value between -9 and 99. -/
theorem twoBytes_int {t : Str} {i : Int} (hl : byteLen t ≤ 2) (h : parseI64 t = some i) : -9 ≤ i ∧ i ≤ 99 := by
  have hlen : t.length ≤ 2 := Nat.le_trans (length_le_byteLen t) hl
  have dv : ∀ c, isDig c = true → digVal c ≤ 9 := by
    intro c hc
    have := isDig_toNat hc
    unfold digVal; omega
  have aux : ∀ ds : Str, ds.all isDig = true → ds.length ≤ 2 → digitsVal ds ≤ 99 ∧ (ds.length ≤ 1 → digitsVal ds ≤ 9) := by
    intro ds hd hl
    match ds, hl with
    | [], _ => exact ⟨by decide, fun _ => by decide⟩
    | [a], _ =>
      have := dv a (by simpa using hd)
      simp only [digitsVal, List.foldl_cons, List.foldl_nil]
      omega
    | [a, b], _ =>
      have h1 := dv a (by simp at hd; exact hd.1)
      have h2 := dv b (by simp at hd; exact hd.2)
      simp only [digitsVal, List.foldl_cons, List.foldl_nil, List.length_cons, List.length_nil]
      omega
    | _ :: _ :: _ :: _, hl => simp only [List.length_cons] at hl; omega
  obtain ⟨ds, -, hd, ⟨rfl, rfl⟩ | ⟨hs, rfl⟩⟩ := parseI64_some h
  · simp only [List.length_cons] at hlen
    have := (aux ds hd (by omega)).2 (by omega)
    omega
  · have : ds.length ≤ 2 := by
      rcases hs with rfl | rfl
      · simp only [List.length_cons] at hlen; omega
      · exact hlen
    have := (aux ds hd this).1
    omega

theorem byteLen_trim_le (s : Str) : byteLen (trim s) ≤ byteLen s := by
  have sub : ∀ (a b : Str), List.Sublist a b → byteLen a ≤ byteLen b := by
    intro a b h
    induction h with
    | slnil => exact Nat.le_refl _
    | cons x _ ih => simp only [byteLen, List.map_cons, List.sum_cons] at *; omega
    | cons_cons x _ ih => simp only [byteLen, List.map_cons, List.sum_cons] at *; omega
  apply sub
  unfold trim trimStart trimEnd
  have h1 := (List.dropWhile_sublist (l := (s.dropWhile isWhite).reverse) isWhite)
  have h2 := (List.dropWhile_sublist (l := s) isWhite)
  have h3 := h1.reverse
  rw [List.reverse_reverse] at h3
  exact h3.trans h2

/-- the first line of an accepted pair -/
theorem parse_satrec_ok {l1 l2 : Str} {s : Satrec F} (h : (parse_satrec l1 l2 : PRes (Satrec F)) = .ok s) :
    ∃ a b, (parseLine1 l1 : PRes (Line1 F)) = .ok a ∧ (parseLine2 l2 : PRes (Line2 F)) = .ok b ∧ s = buildSatrec a b := by
  unfold parse_satrec at h
  obtain ⟨a, ha, h⟩ := Res.bind_ok h
  obtain ⟨b, hb, h⟩ := Res.bind_ok h
  cases h
  exact ⟨a, b, ha, hb, rfl⟩

/-- **C23.** Whatever the two columns contain: the year used for the epoch lies in 1957..2056 and agrees with the field modulo
100; it is what is handed to the calendar functions. -/
theorem C23_year_window (l1 l2 : Str) (s : Satrec F) (h : (parse_satrec l1 l2 : PRes (Satrec F)) = .ok s) :
    ∃ (year : Nat) (m : MDHMS F), 1957 ≤ year ∧ year ≤ 2056 ∧ ((year : Int) - s.epochyr) % 100 = 0 ∧
      (57 ≤ s.epochyr → (year : Int) = 1900 + s.epochyr) ∧ (0 ≤ s.epochyr → s.epochyr < 57 → (year : Int) = 2000 + s.epochyr) ∧
      m = days2mdhms year s.epochdays ∧
      s.jdsatepoch = jday (Arith.ofInt (year : Int)) m.month m.day m.hour m.minute m.second 0.0 := by
  obtain ⟨a, b, ha, -, rfl⟩ := parse_satrec_ok h
  unfold parseLine1 at ha
  obtain ⟨_, -, ha⟩ := Res.bind_ok ha
  obtain ⟨y, hy, ha⟩ := Res.bind_ok ha
  obtain ⟨_, -, ha⟩ := Res.bind_ok ha
  obtain ⟨_, -, ha⟩ := Res.bind_ok ha
  obtain ⟨_, -, ha⟩ := Res.bind_ok ha
  obtain ⟨_, -, ha⟩ := Res.bind_ok ha
  cases ha
  have hb : -9 ≤ y ∧ y ≤ 99 := by
    unfold parse_int at hy
    obtain ⟨t, ht, hy⟩ := Res.bind_ok hy
    have hl := slice_len ht
    split at hy
    · rename_i i hi
      cases hy
      exact twoBytes_int (Nat.le_trans (byteLen_trim_le t) (by omega)) hi
    · cases hy
  have hfy : 1957 ≤ fullYear y ∧ fullYear y ≤ 2056 := by
    unfold fullYear; split <;> omega
  have hu : asU64 (fullYear y) = (fullYear y).toNat := by
    unfold asU64
    rw [Int.emod_eq_of_lt (by omega) (by omega)]
  have hc : (((fullYear y).toNat : Nat) : Int) = fullYear y := Int.toNat_of_nonneg (by omega)
  refine ⟨(fullYear y).toNat, _, by omega, by omega, ?_, ?_, ?_, rfl, ?_⟩
  · show (_ - y) % 100 = 0
    rw [hc]; unfold fullYear; split <;> omega
  · intro h57
    change 57 ≤ y at h57
    show _ = 1900 + y
    rw [hc]; unfold fullYear; rw [if_neg (by omega)]; omega
  · intro h0 h57
    change y < 57 at h57
    show _ = 2000 + y
    rw [hc]; unfold fullYear; rw [if_pos h57]; omega
  · rw [hc]
    show epochJd y _ = _
    unfold epochJd
    dsimp only
    rw [hu]
    rfl

/-! ## C20 -/

/-- **C20, violated.** Every first line of fewer than 7 bytes makes `parse_satrec` and `twoline2satrec` panic, whatever the
second line is. -/
theorem C20_violated_short_line (l1 l2 : Str) (h : byteLen l1 < 7) :
    (parse_satrec l1 l2 : PRes (Satrec F)) = .panic ∧ (twoline2satrec l1 l2 : PRes (Satrec F)) = .panic := by
  have hp : (parse_satrec l1 l2 : PRes (Satrec F)) = .panic := by
    unfold parse_satrec parseLine1
    rw [slice_short (by decide) h]
    rfl
  refine ⟨hp, ?_⟩
  unfold twoline2satrec
  rw [hp]; rfl

/-- **C20, violated.** So does every first line that begins with a character of three or more bytes. -/
theorem C20_violated_boundary (c : Char) (rest l2 : Str) (h : 3 ≤ c.utf8Size) :
    (parse_satrec (c :: rest) l2 : PRes (Satrec F)) = .panic := by
  have hs : splitBytes 2 (c :: rest) = none := by
    rw [splitBytes, if_neg (by omega)]
  have : (slice (c :: rest) 2 7 : PRes Str) = .panic := by
    unfold slice; rw [hs]
  unfold parse_satrec parseLine1
  rw [this]
  rfl

example : 3 ≤ ('€').utf8Size := by decide

end Sat
