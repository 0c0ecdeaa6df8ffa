import Verif.Props.ParseFiles
/-!
# C20: exactly when reading crashes, reports an error, or succeeds

`Spec.Field` below is independent of the model of slicing: it says which text occupies a range of bytes of a line.
All theorems hold for every arithmetic `F` and all texts, ASCII or not.
-/

set_option linter.unusedSectionVars false

namespace Sat.Spec

/-- The bytes `lo ..< hi` of the line are the text `t`. No text is there if the line is too short or a character straddles an end. -/
def Field (line : Str) (lo hi : Nat) (t : Str) : Prop := ∃ a b, line = a ++ t ++ b ∧ byteLen a = lo ∧ byteLen (a ++ t) = hi

/-- a text `i64::from_str` accepts, after trimming -/
def IsInteger (t : Str) : Prop := ∃ i, parseI64 (trim t) = some i
/-- a text `f64::from_str` accepts -/
def IsNumber (t : Str) : Prop := ∃ d, parseF64 t = some d

/-- One step of reading an element set: a range of bytes of a line, what is acceptable there, and what error is reported for an
unacceptable text. -/
structure Check where
  line : Str
  lo : Nat
  hi : Nat
  valid : Str → Prop
  error : Str → SatrecParseError → Prop

/-- nothing occupies the columns -/
def Check.Missing (c : Check) : Prop := ∀ t, ¬ Field c.line c.lo c.hi t
/-- something acceptable occupies the columns -/
def Check.Good (c : Check) : Prop := ∃ t, Field c.line c.lo c.hi t ∧ c.valid t
/-- something else does, reported as `e` -/
def Check.Bad (c : Check) (e : SatrecParseError) : Prop := ∃ t, Field c.line c.lo c.hi t ∧ ¬ c.valid t ∧ c.error t e

def integer (line : Str) (name : String) (lo hi : Nat) : Check :=
  { line, lo, hi, valid := IsInteger, error := fun t e => e = .IntParseError name lo hi t }
def number (line : Str) (name : String) (lo hi : Nat) : Check :=
  { line, lo, hi, valid := fun t => IsNumber (trim t), error := fun t e => e = .IntParseError name lo hi t }
/-- any text -/
def anyText (line : Str) (lo hi : Nat) : Check := { line, lo, hi, valid := fun _ => True, error := fun _ _ => False }
/-- a field of which `whole t u` must be a number, where `t` is the text in the range -/
def assembled (line : Str) (name : String) (lo hi : Nat) (whole : Str → Str → Prop) (adjust : Str → Str) : Check :=
  { line, lo, hi, valid := fun t => ∃ w, whole t w ∧ IsNumber (adjust w), error := fun t e => ∃ w, whole t w ∧ e = .CompoundError name w }

/-- `.` and the integer of columns 45-50, then `E` and the text `t` -/
def nddotText (l1 t w : Str) : Prop :=
  ∃ u i, Field l1 44 50 u ∧ parseI64 (trim u) = some i ∧ w = '.' :: (showInt i ++ 'E' :: t)
/-- column 54, `.`, the integer of columns 55-59, then `E` and the text `t` -/
def bstarText (l1 t w : Str) : Prop :=
  ∃ c u i, Field l1 53 54 c ∧ Field l1 54 59 u ∧ parseI64 (trim u) = some i ∧ w = c ++ '.' :: (showInt i ++ 'E' :: t)

/-- The fields of an element set in the order in which they are read. -/
def checks (l1 l2 : Str) : List Check :=
  [ anyText l1 2 7,
    integer l1 "epochyr" 18 20,
    number l1 "epochdays" 20 32,
    number l1 "ndot" 33 43,
    integer l1 "nndot frac" 44 50,
    assembled l1 "nndot" 50 52 (nddotText l1) id,
    anyText l1 53 54,
    integer l1 "bstar frac" 54 59,
    assembled l1 "bstr" 59 61 (bstarText l1) trim,
    number l2 "inclo" 8 16,
    number l2 "nodeo" 17 25,
    assembled l2 "ecco" 26 33 (fun t w => w = '.' :: trim t) trim,
    number l2 "argpo" 34 42,
    number l2 "mo" 43 51,
    number l2 "no" 52 63 ]

end Sat.Spec

namespace Sat
open Spec
variable {F : Type} [Arith F]

theorem splitBytes_append (a b : Str) : splitBytes (byteLen a) (a ++ b) = some (a, b) := by
  induction a with
  | nil => simp [byteLen, splitBytes]
  | cons c cs ih =>
    have hp : 0 < c.utf8Size := Char.utf8Size_pos c
    obtain ⟨n, hn⟩ : ∃ n, byteLen (c :: cs) = n + 1 := ⟨byteLen (c :: cs) - 1, by simp [byteLen]; omega⟩
    have hs : n + 1 - c.utf8Size = byteLen cs := by rw [← hn]; simp [byteLen]
    have hle : c.utf8Size ≤ n + 1 := by rw [← hn]; simp [byteLen]
    rw [hn]
    show (if c.utf8Size ≤ n + 1 then _ else _) = _
    rw [if_pos hle, hs, show cs.append b = cs ++ b from rfl, ih]

/-- slicing returns the text that occupies the range -/
theorem slice_iff {ε : Type} {s t : Str} {lo hi : Nat} (h : lo ≤ hi) : (slice s lo hi : Res ε Str) = .ok t ↔ Field s lo hi t := by
  constructor
  · intro hs
    unfold slice at hs
    split at hs
    · cases hs
    · rename_i a r h1
      split at hs
      · cases hs
      · rename_i m b h2
        cases hs
        obtain ⟨e1, b1⟩ := splitBytes_len h1
        obtain ⟨e2, b2⟩ := splitBytes_len h2
        refine ⟨a, b, by rw [e1, e2, List.append_assoc], b1, ?_⟩
        rw [byteLen_append]; omega
  · rintro ⟨a, b, rfl, h1, h2⟩
    rw [byteLen_append] at h2
    unfold slice
    rw [List.append_assoc, ← h1, splitBytes_append]
    dsimp only
    rw [show hi - byteLen a = byteLen t by omega, splitBytes_append]

theorem field_unique {s t u : Str} {lo hi : Nat} (h : lo ≤ hi) (h1 : Field s lo hi t) (h2 : Field s lo hi u) : t = u := by
  have a := (slice_iff (ε := Unit) h).mpr h1
  have b := (slice_iff (ε := Unit) h).mpr h2
  rw [a] at b
  cases b; rfl

theorem slice_missing {ε : Type} {s : Str} {lo hi : Nat} (h : lo ≤ hi) (hm : ∀ t, ¬ Field s lo hi t) :
    (slice s lo hi : Res ε Str) = .panic := by
  rcases slice_cases (ε := ε) s lo hi with ⟨t, ht⟩ | hp
  · exact absurd ((slice_iff h).mp ht) (hm t)
  · exact hp

/-- How a computation ends that makes the checks in turn. -/
def Ending {α : Type} (r : PRes α) : List Check → Prop
  | [] => ∃ s, r = .ok s
  | c :: cs => (c.Good ∧ Ending r cs) ∨ (c.Missing ∧ r = .panic) ∨ (∃ e, c.Bad e ∧ r = .err e)

theorem ending_slice {α : Type} {line : Str} {lo hi : Nat} (h : lo ≤ hi) (f : Str → PRes α) (cs : List Check)
    (hf : ∀ t, Field line lo hi t → Ending (f t) cs) : Ending ((slice line lo hi : PRes Str) >>= f) (anyText line lo hi :: cs) := by
  rcases slice_cases (ε := SatrecParseError) line lo hi with ⟨t, ht⟩ | hp
  · rw [ht]
    exact Or.inl ⟨⟨t, (slice_iff h).mp ht, trivial⟩, hf t ((slice_iff h).mp ht)⟩
  · rw [hp]
    refine Or.inr (Or.inl ⟨fun t ht => ?_, rfl⟩)
    have : (slice line lo hi : PRes Str) = .ok t := (slice_iff h).mpr ht
    rw [hp] at this; cases this

theorem ending_int {α : Type} {line : Str} {name : String} {lo hi : Nat} (h : lo ≤ hi) (f : Int → PRes α) (cs : List Check)
    (hf : ∀ t i, Field line lo hi t → parseI64 (trim t) = some i → Ending (f i) cs) :
    Ending (parse_int line name lo hi >>= f) (integer line name lo hi :: cs) := by
  unfold parse_int
  rcases slice_cases (ε := SatrecParseError) line lo hi with ⟨t, ht⟩ | hp
  · rw [ht]
    have hF := (slice_iff h).mp ht
    simp only [Res.ok_bind]
    cases hi : parseI64 (trim t) with
    | some i => exact Or.inl ⟨⟨t, hF, i, hi⟩, hf t i hF hi⟩
    | none =>
      refine Or.inr (Or.inr ⟨_, ⟨t, hF, ?_, rfl⟩, rfl⟩)
      rintro ⟨i, h⟩
      rw [hi] at h; cases h
  · rw [hp]
    refine Or.inr (Or.inl ⟨fun t ht => ?_, rfl⟩)
    have : (slice line lo hi : PRes Str) = .ok t := (slice_iff h).mpr ht
    rw [hp] at this; cases this

theorem ending_float {α : Type} {line : Str} {name : String} {lo hi : Nat} (h : lo ≤ hi) (f : F → PRes α) (cs : List Check)
    (hf : ∀ x, Ending (f x) cs) :
    Ending (parse_float line name lo hi >>= f) (number line name lo hi :: cs) := by
  unfold parse_float
  rcases slice_cases (ε := SatrecParseError) line lo hi with ⟨t, ht⟩ | hp
  · rw [ht]
    have hF := (slice_iff h).mp ht
    simp only [Res.ok_bind]
    cases hi : parseF64 (trim t) with
    | some i => exact Or.inl ⟨⟨t, hF, i, hi⟩, hf _⟩
    | none =>
      refine Or.inr (Or.inr ⟨_, ⟨t, hF, ?_, rfl⟩, rfl⟩)
      rintro ⟨i, h⟩
      rw [hi] at h; cases h
  · rw [hp]
    refine Or.inr (Or.inl ⟨fun t ht => ?_, rfl⟩)
    have : (slice line lo hi : PRes Str) = .ok t := (slice_iff h).mpr ht
    rw [hp] at this; cases this

theorem ending_assembled {α : Type} {line : Str} {name : String} {lo hi : Nat} (h : lo ≤ hi) (whole : Str → Str → Prop)
    (adjust : Str → Str) (g : F → PRes α) (k : Dec → F) (w : Str → Str) (cs : List Check)
    (hw : ∀ t u, whole t u ↔ u = w t) (hg : ∀ x, Ending (g x) cs) :
    Ending ((slice line lo hi : PRes Str) >>= fun t => (match parseF64 (adjust (w t)) with
      | some d => .ok (k d)
      | none => .err (.CompoundError name (w t)) : PRes F) >>= g) (assembled line name lo hi whole adjust :: cs) := by
  rcases slice_cases (ε := SatrecParseError) line lo hi with ⟨t, ht⟩ | hp
  · rw [ht]
    have hF := (slice_iff h).mp ht
    simp only [Res.ok_bind]
    cases hi : parseF64 (adjust (w t)) with
    | some i => exact Or.inl ⟨⟨t, hF, w t, (hw _ _).mpr rfl, i, hi⟩, hg _⟩
    | none =>
      refine Or.inr (Or.inr ⟨_, ⟨t, hF, ?_, w t, (hw _ _).mpr rfl, rfl⟩, rfl⟩)
      rintro ⟨u, hu, i, h⟩
      rw [(hw _ _).mp hu, hi] at h; cases h
  · rw [hp]
    refine Or.inr (Or.inl ⟨fun t ht => ?_, rfl⟩)
    have : (slice line lo hi : PRes Str) = .ok t := (slice_iff h).mpr ht
    rw [hp] at this; cases this

theorem Res.bind_assoc {ε α β γ : Type} (r : Res ε α) (f : α → Res ε β) (g : β → Res ε γ) :
    ((r >>= f) >>= g) = (r >>= fun a => f a >>= g) := by
  cases r <;> rfl

/-- reading makes the checks in turn -/
theorem parse_ending (l1 l2 : Str) : Ending (parse_satrec l1 l2 : PRes (Satrec F)) (checks l1 l2) := by
  unfold parse_satrec parseLine1 parseLine2 parseNddot parseBstar parseEcco checks
  simp only [Res.bind_assoc]
  refine ending_slice (by decide) _ _ fun satnum _ => ?_
  refine ending_int (by decide) _ _ fun _ epochyr _ _ => ?_
  refine ending_float (by decide) _ _ fun epochdays => ?_
  refine ending_float (by decide) _ _ fun ndot => ?_
  refine ending_int (by decide) _ _ fun u i hu hi => ?_
  refine ending_assembled (F := F) (by decide) (nddotText l1) id _ (fun d => Arith.ofDec d / (XPDOTP * 1440.0 * 1440.0))
    (fun t => '.' :: (showInt i ++ 'E' :: t)) _ (fun t w => ?_) (fun nddot => ?_)
  · constructor
    · rintro ⟨u', i', hu', hi', rfl⟩
      rw [field_unique (by decide) hu' hu, hi] at hi'
      cases hi'; rfl
    · rintro rfl; exact ⟨u, i, hu, hi, rfl⟩
  refine ending_slice (by decide) _ _ fun c hc => ?_
  refine ending_int (by decide) _ _ fun u' i' hu' hi' => ?_
  refine ending_assembled (F := F) (by decide) (bstarText l1) trim _ (fun d => Arith.ofDec d)
    (fun t => c ++ '.' :: (showInt i' ++ 'E' :: t)) _ (fun t w => ?_) (fun bstar => ?_)
  · constructor
    · rintro ⟨c2, u2, i2, hc2, hu2, hi2, rfl⟩
      rw [field_unique (by decide) hu2 hu', hi'] at hi2
      rw [field_unique (by decide) hc2 hc]
      cases hi2; rfl
    · rintro rfl; exact ⟨c, u', i', hc, hu', hi', rfl⟩
  simp only [Res.ok_bind]
  refine ending_float (by decide) _ _ fun inclo => ?_
  refine ending_float (by decide) _ _ fun nodeo => ?_
  refine ending_assembled (F := F) (by decide) _ trim _ (fun d => Arith.ofDec d) (fun t => '.' :: trim t) _ (fun t w => Iff.rfl)
    (fun ecco => ?_)
  refine ending_float (by decide) _ _ fun argpo => ?_
  refine ending_float (by decide) _ _ fun mo => ?_
  refine ending_float (by decide) _ _ fun no => ?_
  exact ⟨_, rfl⟩

theorem ending_cases {α : Type} {r : PRes α} {cs : List Check} (h : Ending r cs) :
    ((∃ s, r = .ok s) ∧ ∀ c ∈ cs, c.Good) ∨
    (∃ pre c post, cs = pre ++ c :: post ∧ (∀ x ∈ pre, x.Good) ∧ ((c.Missing ∧ r = .panic) ∨ ∃ e, c.Bad e ∧ r = .err e)) := by
  induction cs with
  | nil => exact Or.inl ⟨h, fun _ h => by cases h⟩
  | cons c cs ih =>
    rcases h with ⟨hg, h⟩ | h | h
    · rcases ih h with ⟨h1, h2⟩ | ⟨pre, d, post, rfl, h2, h3⟩
      · exact Or.inl ⟨h1, List.forall_mem_cons.mpr ⟨hg, h2⟩⟩
      · exact Or.inr ⟨c :: pre, d, post, rfl, List.forall_mem_cons.mpr ⟨hg, h2⟩, h3⟩
    · exact Or.inr ⟨[], c, cs, rfl, (fun _ h => by cases h), Or.inl h⟩
    · exact Or.inr ⟨[], c, cs, rfl, (fun _ h => by cases h), Or.inr h⟩

/-- **C20**, exactly: reading two lines succeeds if every field is good; otherwise the first field, in reading order, which is not
good decides: the call panics if that field is missing (line too short, or a character across its ends), and reports that field's
error if it is malformed. -/
theorem C20_outcome (l1 l2 : Str) :
    ((∃ s, (parse_satrec l1 l2 : PRes (Satrec F)) = .ok s) ∧ ∀ c ∈ checks l1 l2, c.Good) ∨
    (∃ pre c post, checks l1 l2 = pre ++ c :: post ∧ (∀ x ∈ pre, x.Good) ∧
      ((c.Missing ∧ (parse_satrec l1 l2 : PRes (Satrec F)) = .panic) ∨
        ∃ e, c.Bad e ∧ (parse_satrec l1 l2 : PRes (Satrec F)) = .err e)) :=
  ending_cases (parse_ending l1 l2)

theorem good_not_missing {c : Check} (h : c.Good) : ¬ c.Missing := fun hm => by obtain ⟨t, ht, -⟩ := h; exact hm t ht

theorem checks_lo (l1 l2 : Str) : ∀ c ∈ checks l1 l2, c.lo ≤ c.hi := by
  intro c hc
  simp only [checks, List.mem_cons, List.not_mem_nil, or_false] at hc
  rcases hc with rfl | rfl | rfl | rfl | rfl | rfl | rfl | rfl | rfl | rfl | rfl | rfl | rfl | rfl | rfl <;>
    simp only [anyText, integer, number, assembled] <;> decide

theorem good_not_bad {c : Check} (hl : c.lo ≤ c.hi) (h : c.Good) (e : SatrecParseError) : ¬ c.Bad e := by
  rintro ⟨t, ht, hv, -⟩
  obtain ⟨u, hu, hw⟩ := h
  rw [field_unique hl hu ht] at hw
  exact hv hw

/-- two ways of finding the first field that is not good give the same field -/
theorem first_fault {α : Type} {P : α → Prop} {pre pre' post post' : List α} {c c' : α} (h : pre ++ c :: post = pre' ++ c' :: post')
    (h1 : ∀ x ∈ pre, P x) (h2 : ∀ x ∈ pre', P x) (hc : ¬ P c) (hc' : ¬ P c') : c = c' := by
  induction pre generalizing pre' with
  | nil =>
    cases pre' with
    | nil => exact (List.cons.inj h).1
    | cons x xs => exact absurd ((List.cons.inj h).1 ▸ h2 x (List.mem_cons_self ..)) hc
  | cons y ys ih =>
    cases pre' with
    | nil => exact absurd ((List.cons.inj h).1 ▸ h1 y (List.mem_cons_self ..)) hc'
    | cons x xs =>
      exact ih (List.cons.inj h).2 (fun z hz => h1 z (List.mem_cons_of_mem _ hz)) (fun z hz => h2 z (List.mem_cons_of_mem _ hz))

/-- **C20.** `twoline2satrec` panics exactly when some field is missing and every field read before it is good. -/
theorem C20_panics_iff (l1 l2 : Str) :
    (twoline2satrec l1 l2 : PRes (Satrec F)) = .panic ↔
      ∃ pre c post, checks l1 l2 = pre ++ c :: post ∧ (∀ x ∈ pre, x.Good) ∧ c.Missing := by
  have hred : (twoline2satrec l1 l2 : PRes (Satrec F)) = .panic ↔ (parse_satrec l1 l2 : PRes (Satrec F)) = .panic := by
    unfold twoline2satrec
    cases (parse_satrec l1 l2 : PRes (Satrec F)) with
    | ok s => simp only [Res.ok_bind]; constructor
              · intro h; split at h <;> cases h
              · intro h; cases h
    | err e => simp
    | panic => simp
    | diverge => simp
  rw [hred]
  rcases C20_outcome (F := F) l1 l2 with ⟨⟨s, hs⟩, hg⟩ | ⟨pre, c, post, he, hp, ⟨hm, hr⟩ | ⟨e, hb, hr⟩⟩
  · rw [hs]
    refine iff_of_false (by simp) ?_
    rintro ⟨pre, c, post, he, -, hm⟩
    exact good_not_missing (hg c (by rw [he]; simp)) hm
  · exact iff_of_true hr ⟨pre, c, post, he, hp, hm⟩
  · rw [hr]
    refine iff_of_false (by simp) ?_
    rintro ⟨pre', c', post', he', hp', hm⟩
    have hcl := checks_lo l1 l2 c (by rw [he]; simp)
    have : c = c' := first_fault (P := Check.Good) (he.symm.trans he') hp hp' (fun hg => good_not_bad hcl hg e hb)
      (fun hg => good_not_missing hg hm)
    subst this
    obtain ⟨t, ht, -⟩ := hb
    exact hm t ht

/-- **C20.** `twoline2satrec` reports a field's error exactly when that field is malformed and every field read before it is good;
the only other errors are those of initialisation. -/
theorem C20_errs_iff (l1 l2 : Str) (e : SatrecParseError) (he : ∀ x, e ≠ .Sgp4InitError x) :
    (twoline2satrec l1 l2 : PRes (Satrec F)) = .err e ↔
      ∃ pre c post, checks l1 l2 = pre ++ c :: post ∧ (∀ x ∈ pre, x.Good) ∧ c.Bad e := by
  have hred : (twoline2satrec l1 l2 : PRes (Satrec F)) = .err e ↔ (parse_satrec l1 l2 : PRes (Satrec F)) = .err e := by
    unfold twoline2satrec
    cases (parse_satrec l1 l2 : PRes (Satrec F)) with
    | ok s => simp only [Res.ok_bind]; constructor
              · intro h
                split at h
                · cases h
                · cases h; exact absurd rfl (he _)
                · cases h
              · intro h; cases h
    | err e => simp
    | panic => simp
    | diverge => simp
  rw [hred]
  rcases C20_outcome (F := F) l1 l2 with ⟨⟨s, hs⟩, hg⟩ | ⟨pre, c, post, hc, hp, ⟨hm, hr⟩ | ⟨e', hb, hr⟩⟩
  · rw [hs]
    refine iff_of_false (by simp) ?_
    rintro ⟨pre, c, post, hc, -, hb⟩
    have hcm : c ∈ checks l1 l2 := by rw [hc]; simp
    exact good_not_bad (checks_lo l1 l2 c hcm) (hg c hcm) e hb
  · rw [hr]
    refine iff_of_false (by simp) ?_
    rintro ⟨pre', c', post', hc', hp', hb⟩
    have hcl := checks_lo l1 l2 c' (by rw [hc']; simp)
    have : c = c' := first_fault (P := Check.Good) (hc.symm.trans hc') hp hp' (fun hg => good_not_missing hg hm)
      (fun hg => good_not_bad hcl hg e hb)
    subst this
    obtain ⟨t, ht, -⟩ := hb
    exact hm t ht
  · have hcm : c ∈ checks l1 l2 := by rw [hc]; simp
    have hcl := checks_lo l1 l2 c hcm
    constructor
    · intro h
      rw [hr] at h
      cases h
      exact ⟨pre, c, post, hc, hp, hb⟩
    · rintro ⟨pre', c', post', hc', hp', hb'⟩
      have hcl' := checks_lo l1 l2 c' (by rw [hc']; simp)
      have : c = c' := first_fault (P := Check.Good) (hc.symm.trans hc') hp hp' (fun hg => good_not_bad hcl hg e' hb)
        (fun hg => good_not_bad hcl' hg e hb')
      subst this
      have hee : e' = e := by
        have hu : ∀ (d : Check), d ∈ checks l1 l2 → ∀ t a b, d.error t a → d.error t b → a = b := by
          intro d hd t a b
          simp only [checks, List.mem_cons, List.not_mem_nil, or_false] at hd
          rcases hd with rfl | rfl | rfl | rfl | rfl | rfl | rfl | rfl | rfl | rfl | rfl | rfl | rfl | rfl | rfl
          case inr.inr.inr.inr.inr.inl =>
            rintro ⟨w, ⟨u, i, h1, h2, rfl⟩, rfl⟩ ⟨w', ⟨u', i', h1', h2', rfl⟩, rfl⟩
            rw [field_unique (by decide) h1' h1, h2] at h2'
            cases h2'; rfl
          case inr.inr.inr.inr.inr.inr.inr.inr.inl =>
            rintro ⟨w, ⟨c, u, i, h0, h1, h2, rfl⟩, rfl⟩ ⟨w', ⟨c', u', i', h0', h1', h2', rfl⟩, rfl⟩
            rw [field_unique (by decide) h1' h1, h2] at h2'
            rw [field_unique (by decide) h0' h0]
            cases h2'; rfl
          all_goals first
            | (intro h; exact h.elim)
            | (intro h1 h2; exact (show a = _ from h1).trans (show b = _ from h2).symm)
            | (rintro ⟨w, rfl, rfl⟩ ⟨w', rfl, rfl⟩; rfl)
        obtain ⟨t, ht, -, h1⟩ := hb
        obtain ⟨t', ht', -, h2⟩ := hb'
        rw [field_unique hcl ht' ht] at h2
        exact hu c hcm t _ _ h1 h2
      rw [hr, hee]

/-- **C20.** `parse` panics exactly when the two element lines are marked `1` and `2` and either reading them panics, or reading
them succeeds and the name line is `0` followed by nothing or by a character of more than one byte. -/
theorem C20_parse_panics_iff (ls : List Str) (hne : ls ≠ []) (h : ∀ l ∈ ls, OneLine l) :
    (parse (joinLines ls) : PRes (Satrec F)) = .panic ↔
      ∃ pre a b, nonBlank ls = pre ++ [a, b] ∧ pre.length ≤ 1 ∧ a.head? = some '1' ∧ b.head? = some '2' ∧
        ((twoline2satrec a b : PRes (Satrec F)) = .panic ∨
          ((∃ s, (twoline2satrec a b : PRes (Satrec F)) = .ok s) ∧
            ∃ n, pre = [n] ∧ (n = ['0'] ∨ ∃ c rest, n = '0' :: c :: rest ∧ 128 ≤ c.toNat))) := by
  rw [C25_parse ls hne h]
  have hnb : ∀ l ∈ nonBlank ls, l ≠ [] := fun l hl => nonBlank_ne_nil hl
  have hname : ∀ n : Str, n ≠ [] → (nameOf n = .panic ↔ (n = ['0'] ∨ ∃ c rest, n = '0' :: c :: rest ∧ 128 ≤ c.toNat)) := by
    intro n hn
    rw [← parseName_eq hn]
    unfold parseName
    rw [firstByte_if' hn '0' (by decide)]
    cases n with
    | nil => exact absurd rfl hn
    | cons x xs =>
      simp only [List.head?_cons, Option.some.injEq]
      by_cases hx : x = '0'
      · subst hx
        rw [if_pos rfl, sliceFrom_zero]
        cases xs with
        | nil => simp
        | cons c rest =>
          dsimp only
          by_cases hc : c.toNat < 128
          · rw [if_pos hc]; simp; omega
          · rw [if_neg hc]; simp; omega
      · rw [if_neg hx]
        simp [hx]
  generalize nonBlank ls = m at *
  match m, hnb with
  | [], _ => simp [parseLines]
  | [a], _ =>
    simp only [parseLines, reduceCtorEq, false_iff]
    rintro ⟨pre, x, y, he, -⟩
    have := congrArg List.length he
    simp at this
  | [a, b], _ =>
    rw [parseLines_two]
    constructor
    · intro hp
      split at hp
      · rename_i hh
        exact ⟨[], a, b, rfl, by simp, hh.1, hh.2, Or.inl hp⟩
      · cases hp
    · rintro ⟨pre, x, y, he, hl, hx, hy, hh⟩
      cases pre with
      | nil =>
        cases he
        rw [if_pos ⟨hx, hy⟩]
        rcases hh with hh | ⟨-, n, hn, -⟩
        · exact hh
        · cases hn
      | cons z zs => have := congrArg List.length he; simp at this
  | [n, a, b], hnb =>
    have hn : n ≠ [] := hnb n (by simp)
    rw [parseLines_three]
    constructor
    · intro hp
      split at hp
      · rename_i hh
        refine ⟨[n], a, b, rfl, by simp, hh.1, hh.2, ?_⟩
        cases hr : (twoline2satrec a b : PRes (Satrec F)) with
        | ok s =>
          rw [hr] at hp
          refine Or.inr ⟨⟨s, rfl⟩, n, rfl, (hname n hn).mp ?_⟩
          simp only [Res.ok_bind] at hp
          cases hq : nameOf n with
          | panic => rfl
          | ok x => rw [hq] at hp; cases hp
          | err x => rw [hq] at hp; cases hp
          | diverge => rw [hq] at hp; cases hp
        | panic => exact Or.inl rfl
        | err e => rw [hr] at hp; cases hp
        | diverge => rw [hr] at hp; cases hp
      · cases hp
    · rintro ⟨pre, x, y, he, hl, hx, hy, hh⟩
      match pre, he, hl with
      | [], he, _ => have := congrArg List.length he; simp at this
      | [z], he, _ =>
        cases he
        rw [if_pos ⟨hx, hy⟩]
        rcases hh with hh | ⟨⟨s, hs⟩, n', hn', hc⟩
        · rw [hh]; rfl
        · cases hn'
          rw [hs, Res.ok_bind, (hname n hn).mpr hc]; rfl
      | _ :: _ :: _, _, hl => simp at hl
  | a :: b :: c :: d :: rest, _ =>
    simp only [parseLines, reduceCtorEq, false_iff]
    rintro ⟨pre, x, y, he, hl, -⟩
    have := congrArg List.length he
    simp at this hl
    omega

/-! ## Truncated lines -/

/-- either the same or a panic -/
def SameOrPanic {ε α : Type} (r r' : Res ε α) : Prop := r = r' ∨ r = .panic

theorem same_bind {ε α β : Type} {r r' : Res ε α} {f f' : α → Res ε β} (h : SameOrPanic r r') (hf : ∀ a, SameOrPanic (f a) (f' a)) :
    SameOrPanic (r >>= f) (r' >>= f') := by
  rcases h with rfl | rfl
  · cases r with
    | ok a => exact hf a
    | err e => exact Or.inl rfl
    | panic => exact Or.inl rfl
    | diverge => exact Or.inl rfl
  · exact Or.inr rfl

theorem same_refl {ε α : Type} (r : Res ε α) : SameOrPanic r r := Or.inl rfl

theorem same_slice {ε : Type} {s s' : Str} (h : ∃ x, s' = s ++ x) (lo hi : Nat) (hl : lo ≤ hi) :
    SameOrPanic (slice s lo hi : Res ε Str) (slice s' lo hi) := by
  obtain ⟨x, rfl⟩ := h
  rcases slice_cases (ε := ε) s lo hi with ⟨t, ht⟩ | hp
  · left
    obtain ⟨a, b, he, h1, h2⟩ := (slice_iff hl).mp ht
    rw [ht, Eq.comm]
    exact (slice_iff hl).mpr ⟨a, b ++ x, by rw [he]; simp, h1, h2⟩
  · exact Or.inr hp

theorem same_int {s s' : Str} (h : ∃ x, s' = s ++ x) (name : String) (lo hi : Nat) (hl : lo ≤ hi) :
    SameOrPanic (parse_int s name lo hi) (parse_int s' name lo hi) := by
  unfold parse_int
  exact same_bind (same_slice h lo hi hl) fun _ => same_refl _

theorem same_float {s s' : Str} (h : ∃ x, s' = s ++ x) (name : String) (lo hi : Nat) (hl : lo ≤ hi) :
    SameOrPanic (parse_float s name lo hi : PRes F) (parse_float s' name lo hi) := by
  unfold parse_float
  exact same_bind (same_slice h lo hi hl) fun _ => same_refl _

/-- beginnings of the two lines give the same outcome or a panic -/
theorem same_satrec {a a' b b' : Str} (ha : ∃ x, a' = a ++ x) (hb : ∃ x, b' = b ++ x) :
    SameOrPanic (parse_satrec a b : PRes (Satrec F)) (parse_satrec a' b') := by
  unfold parse_satrec parseLine1 parseLine2 parseNddot parseBstar parseEcco
  simp only [Res.bind_assoc]
  refine same_bind (same_slice ha _ _ (by decide)) fun _ => ?_
  refine same_bind (same_int ha _ _ _ (by decide)) fun _ => ?_
  refine same_bind (same_float ha _ _ _ (by decide)) fun _ => ?_
  refine same_bind (same_float ha _ _ _ (by decide)) fun _ => ?_
  refine same_bind (same_int ha _ _ _ (by decide)) fun _ => ?_
  refine same_bind (same_slice ha _ _ (by decide)) fun _ => ?_
  refine same_bind (same_refl _) fun _ => ?_
  refine same_bind (same_slice ha _ _ (by decide)) fun _ => ?_
  refine same_bind (same_int ha _ _ _ (by decide)) fun _ => ?_
  refine same_bind (same_slice ha _ _ (by decide)) fun _ => ?_
  refine same_bind (same_refl _) fun _ => ?_
  refine same_bind (same_refl _) fun _ => ?_
  refine same_bind (same_float hb _ _ _ (by decide)) fun _ => ?_
  refine same_bind (same_float hb _ _ _ (by decide)) fun _ => ?_
  refine same_bind (same_slice hb _ _ (by decide)) fun _ => ?_
  refine same_bind (same_refl _) fun _ => ?_
  refine same_bind (same_float hb _ _ _ (by decide)) fun _ => ?_
  refine same_bind (same_float hb _ _ _ (by decide)) fun _ => ?_
  refine same_bind (same_float hb _ _ _ (by decide)) fun _ => ?_
  exact same_refl _

/-- **C20.** Cutting lines short never gives another record or an error: if the uncut lines are readable and line 1 keeps at least 61
bytes and line 2 at least 63 (at a character boundary), nothing changes; if either keeps fewer, the call panics. -/
theorem C20_truncated (a b x y : Str) (s : Satrec F) (h : (parse_satrec (a ++ x) (b ++ y) : PRes (Satrec F)) = .ok s) :
    (61 ≤ byteLen a ∧ 63 ≤ byteLen b → (parse_satrec a b : PRes (Satrec F)) = .ok s) ∧
    (byteLen a < 61 ∨ byteLen b < 63 → (parse_satrec a b : PRes (Satrec F)) = .panic) := by
  have hs := same_satrec (F := F) (a := a) (b := b) ⟨x, rfl⟩ ⟨y, rfl⟩
  rw [h] at hs
  constructor
  · rintro ⟨h1, h2⟩
    rcases hs with hs | hs
    · exact hs
    · exfalso
      rcases C20_outcome (F := F) a b with ⟨⟨s', hs'⟩, -⟩ | ⟨pre, c, post, he, hp, ⟨hm, -⟩ | ⟨e, -, hr⟩⟩
      · rw [hs] at hs'; cases hs'
      · -- the field is there in the uncut lines and ends before the cut
        rcases C20_outcome (F := F) (a ++ x) (b ++ y) with ⟨-, hg⟩ | ⟨_, _, _, _, _, ⟨-, hr⟩ | ⟨_, -, hr⟩⟩
        · have key : ∀ (l z : Str) lo hi, lo ≤ hi → hi ≤ byteLen l → (∃ t, Field (l ++ z) lo hi t) → ∃ t, Field l lo hi t := by
            rintro l z lo hi hlo hhi ⟨t, p, q, he, e1, e2⟩
            have : (p ++ t) <+: (l ++ z) := ⟨q, he.symm⟩
            have h2 : l <+: (l ++ z) := ⟨z, rfl⟩
            rcases List.prefix_or_prefix_of_prefix this h2 with ⟨w, hw⟩ | ⟨w, hw⟩
            · exact ⟨t, p, w, hw.symm, e1, e2⟩
            · have hz : byteLen w = 0 := by
                have := congrArg byteLen hw
                rw [byteLen_append, e2] at this; omega
              have : w = [] := List.eq_nil_of_length_eq_zero (by have := length_le_byteLen w; omega)
              subst this
              rw [List.append_nil] at hw
              exact ⟨t, p, [], by rw [List.append_nil, hw], e1, e2⟩
          have hcm : c ∈ checks a b := by rw [he]; simp
          have : ∃ t, Field c.line c.lo c.hi t := by
            simp only [checks, List.mem_cons, List.not_mem_nil, or_false] at hcm
            have g : ∀ d ∈ checks (a ++ x) (b ++ y), ∃ t, Field d.line d.lo d.hi t := fun d hd => by
              obtain ⟨t, ht, -⟩ := hg d hd; exact ⟨t, ht⟩
            simp only [checks, List.forall_mem_cons] at g
            obtain ⟨g1, g2, g3, g4, g5, g6, g7, g8, g9, g10, g11, g12, g13, g14, g15, -⟩ := g
            rcases hcm with rfl | rfl | rfl | rfl | rfl | rfl | rfl | rfl | rfl | rfl | rfl | rfl | rfl | rfl | rfl
            · exact key a x 2 7 (by decide) (by omega) g1
            · exact key a x 18 20 (by decide) (by omega) g2
            · exact key a x 20 32 (by decide) (by omega) g3
            · exact key a x 33 43 (by decide) (by omega) g4
            · exact key a x 44 50 (by decide) (by omega) g5
            · exact key a x 50 52 (by decide) (by omega) g6
            · exact key a x 53 54 (by decide) (by omega) g7
            · exact key a x 54 59 (by decide) (by omega) g8
            · exact key a x 59 61 (by decide) (by omega) g9
            · exact key b y 8 16 (by decide) (by omega) g10
            · exact key b y 17 25 (by decide) (by omega) g11
            · exact key b y 26 33 (by decide) (by omega) g12
            · exact key b y 34 42 (by decide) (by omega) g13
            · exact key b y 43 51 (by decide) (by omega) g14
            · exact key b y 52 63 (by decide) (by omega) g15
          obtain ⟨t, ht⟩ := this
          exact hm t ht
        · rw [h] at hr; cases hr
        · rw [h] at hr; cases hr
      · rw [hs] at hr; cases hr
  · intro hlt
    rcases hs with hs | hs
    · exfalso
      rcases C20_outcome (F := F) a b with ⟨-, hg⟩ | ⟨_, _, _, _, _, ⟨-, hr⟩ | ⟨_, -, hr⟩⟩
      · have short : ∀ (l : Str) lo hi, byteLen l < hi → ∀ t, ¬ Field l lo hi t := by
          rintro l lo hi hl t ⟨p, q, he, e1, e2⟩
          rw [he, byteLen_append, e2] at hl; omega
        have g : ∀ d ∈ checks a b, ∃ t, Field d.line d.lo d.hi t := fun d hd => by
          obtain ⟨t, ht, -⟩ := hg d hd; exact ⟨t, ht⟩
        simp only [checks, List.forall_mem_cons] at g
        obtain ⟨-, -, -, -, -, -, -, -, ⟨t9, g9⟩, -, -, -, -, -, ⟨t15, g15⟩, -⟩ := g
        rcases hlt with hlt | hlt
        · exact short a 59 61 hlt t9 g9
        · exact short b 52 63 hlt t15 g15
      · rw [hs] at hr; cases hr
      · rw [hs] at hr; cases hr
    · exact hs

end Sat
