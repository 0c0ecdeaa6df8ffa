import Verif.Props.Decode
import Verif.Props.Init

/-!
# What the propagated state does not depend on

C101: the satellite number and the two derivatives of the mean motion are read, stored and never used; and for a near-earth orbit
neither is the epoch, as long as time is counted from it.
-/

namespace Sat
open Spec
variable {F : Type} [Arith F]

/-- the fields of a record that say whose elements these are, and of when -/
structure Label (F : Type) where
  name : Option Str
  satnum : Str
  epochyr : Int
  epochdays : F
  ndot : F
  nddot : F
  a : F
  alta : F
  altp : F
  jdsatepoch : F

/-- the record with another label -/
def relabel (q : Label F) (s : Satrec F) : Satrec F :=
  { s with name := q.name, satnum := q.satnum, epochyr := q.epochyr, epochdays := q.epochdays, ndot := q.ndot, nddot := q.nddot, a := q.a,
           alta := q.alta, altp := q.altp, jdsatepoch := q.jdsatepoch }

theorem setShort_relabel (q : Label F) (s : Satrec F) (c : F) : setShort (relabel q s) c = relabel q (setShort s c) := by
  unfold setShort
  by_cases h : s.method = .D
  · rw [if_pos h, if_pos (show (relabel q s).method = .D from h)]; rfl
  · rw [if_neg h, if_neg (show ¬ (relabel q s).method = .D from h)]

/-- what a call leaves behind, with another label on the record -/
def relabelOut (q : Label F) (o : Sgp4Out F) : Sgp4Out F := (relabel q o.1, o.2)

theorem tail_relabel (q : Label F) (s : Satrec F) (am nm ep xincp sinip cosip argpp nodep mp : F) :
    sgp4Tail (relabel q s) am nm ep xincp sinip cosip argpp nodep mp =
      (sgp4Tail s am nm ep xincp sinip cosip argpp nodep mp).map (relabelOut q) := by
  unfold sgp4Tail
  have e : longPeriod (relabel q s) am ep argpp nodep mp = longPeriod s am ep argpp nodep mp := rfl
  dsimp only
  rw [e, setShort_relabel]
  cases kepler (longPeriod s am ep argpp nodep mp).u (longPeriod s am ep argpp nodep mp).axnl (longPeriod s am ep argpp nodep mp).aynl with
  | none => rfl
  | some k =>
    dsimp only
    have e1 : (relabel q (setShort s cosip)).con41 = (setShort s cosip).con41 := rfl
    have e2 : (relabel q (setShort s cosip)).x1mth2 = (setShort s cosip).x1mth2 := rfl
    have e3 : (relabel q (setShort s cosip)).x7thm1 = (setShort s cosip).x7thm1 := rfl
    rw [e1, e2, e3]
    split
    · rfl
    · split <;> rfl

theorem periodics_relabel (q : Label F) (s : Satrec F) (am nm em : F) (m : MeanAngles F) :
    sgp4Periodics (relabel q s) am nm em m = (sgp4Periodics s am nm em m).map (relabelOut q) := by
  unfold sgp4Periodics
  have e : sgp4Dpper (relabel q s) em m = sgp4Dpper s em m := rfl
  have em' : (relabel q s).method = s.method := rfl
  rw [e, em']
  dsimp only
  split
  · split
    · rfl
    · exact tail_relabel q { s with aycof := _, xlcof := _ } _ _ _ _ _ _ _ _ _
  · exact tail_relabel q s _ _ _ _ _ _ _ _ _

/-- Propagation does not look at the label. -/
theorem sgp4_relabel (q : Label F) (s : Satrec F) (t : F) : sgp4 (relabel q s) t = (sgp4 s t).map (relabelOut q) := by
  unfold sgp4
  have e0 : ({ relabel q s with t := t, error := 0 } : Satrec F) = relabel q { s with t := t, error := 0 } := rfl
  dsimp only
  rw [e0]
  generalize ({ s with t := t, error := 0 } : Satrec F) = s
  have e1 : secular (relabel q s) = secular s := rfl
  have e2 : emAfterDspace (relabel q s) (secular s) = emAfterDspace s (secular s) := rfl
  rw [e1, e2]
  cases emAfterDspace s (secular s) with
  | none => rfl
  | some em =>
    dsimp only
    unfold sgp4Body
    have e3 : (relabel q s).no = s.no := rfl
    have e4 : sgp4Am (relabel q s) (secular s) = sgp4Am s (secular s) := rfl
    have e5 : meanAngles (relabel q s) (secular s) = meanAngles s (secular s) := rfl
    dsimp only
    rw [e3, e4, e5]
    split
    · rfl
    · split
      · rfl
      · exact periodics_relabel q s _ _ _ _

theorem initDpper_relabel (q : Label F) (s : Satrec F) : initDpper (relabel q s) = relabel q (initDpper s) := rfl

theorem initDeep_relabel (q : Label F) (s : Satrec F) (i : InitlReturn F) (ep x : F) :
    initDeep (relabel q s) i ep x = relabel q (initDeep s i ep x) := by
  unfold initDeep
  have e : (relabel q s).no = s.no := rfl
  rw [e]
  split
  · rfl
  · rfl

theorem initDrag_relabel (q : Label F) (s : Satrec F) (i : InitlReturn F) (n : NearTmp F) :
    initDrag (relabel q s) i n = relabel q (initDrag s i n) := by
  unfold initDrag
  have e : (relabel q s).isimp = s.isimp := rfl
  rw [e]
  split <;> rfl

theorem initFinish_relabel (q : Label F) (s : Satrec F) (i : InitlReturn F) (ep : F) :
    initFinish (relabel q s) i ep = relabel q (initFinish s i ep) := by
  unfold initFinish
  have e : (relabel q s).no = s.no := rfl
  have e1 : initNear (relabel q s) i = (relabel q (initNear s i).1, (initNear s i).2) := rfl
  rw [e, e1]
  dsimp only
  split
  · rw [initDeep_relabel, initDrag_relabel]
  · rfl

/-- Initialisation keeps the label and does not look at it. -/
theorem sgp4init_relabel (q : Label F) (s : Satrec F) (o : SGP4InitOptions F) :
    sgp4init (relabel q s) o = (sgp4init s o).map (relabelOut q) := by
  have e : initRecord (relabel q s) o = relabel q (initRecord s o) := by
    unfold initRecord
    have e1 : initStart (relabel q s) o = relabel q (initStart s o) := rfl
    have e2 : initlOf (resetSatrec (relabel q s) o) o.epoch = initlOf (resetSatrec s o) o.epoch := rfl
    rw [e1, e2, initFinish_relabel]
  unfold sgp4init
  rw [e, sgp4_relabel]
  cases sgp4 (initRecord s o) 0.0 with
  | none => rfl
  | some r =>
    obtain ⟨s', r⟩ := r
    cases r <;> rfl

/-! ## The epoch of a near-earth orbit -/

/-- the record with another sidereal time at epoch -/
def regst (g : F) (s : Satrec F) : Satrec F := { s with gsto := g }

theorem tail_regst (g : F) (s : Satrec F) (hN : s.method = .N) (am nm ep xincp sinip cosip argpp nodep mp : F) :
    sgp4Tail (regst g s) am nm ep xincp sinip cosip argpp nodep mp =
      (sgp4Tail s am nm ep xincp sinip cosip argpp nodep mp).map (fun o => (regst g o.1, o.2)) := by
  unfold sgp4Tail
  have e : longPeriod (regst g s) am ep argpp nodep mp = longPeriod s am ep argpp nodep mp := rfl
  have s1 : setShort s cosip = s := by unfold setShort; rw [if_neg (by rw [hN]; decide)]
  have s2 : setShort (regst g s) cosip = regst g s := by
    unfold setShort; rw [if_neg (show ¬ (regst g s).method = .D from (by rw [hN]; decide : ¬ s.method = .D))]
  dsimp only
  rw [e, s1, s2]
  cases kepler (longPeriod s am ep argpp nodep mp).u (longPeriod s am ep argpp nodep mp).axnl (longPeriod s am ep argpp nodep mp).aynl with
  | none => rfl
  | some k =>
    dsimp only
    have e1 : (regst g s).con41 = s.con41 := rfl
    have e2 : (regst g s).x1mth2 = s.x1mth2 := rfl
    have e3 : (regst g s).x7thm1 = s.x7thm1 := rfl
    rw [e1, e2, e3]
    split
    · rfl
    · split <;> rfl

/-- Propagation of a near-earth orbit does not look at the sidereal time. -/
theorem sgp4_regst (g : F) (s : Satrec F) (hN : s.method = .N) (t : F) :
    sgp4 (regst g s) t = (sgp4 s t).map (fun o => (regst g o.1, o.2)) := by
  unfold sgp4
  have e0 : ({ regst g s with t := t, error := 0 } : Satrec F) = regst g { s with t := t, error := 0 } := rfl
  dsimp only
  rw [e0]
  have hN' : ({ s with t := t, error := 0 } : Satrec F).method = .N := hN
  generalize ({ s with t := t, error := 0 } : Satrec F) = s at hN'
  have e1 : secular (regst g s) = secular s := rfl
  have e2 : emAfterDspace (regst g s) (secular s) = some s.ecco := by
    unfold emAfterDspace; rw [if_neg (show ¬ (regst g s).method = .D from (by rw [hN']; decide : ¬ s.method = .D))]; rfl
  have e2' : emAfterDspace s (secular s) = some s.ecco := by
    unfold emAfterDspace; rw [if_neg (by rw [hN']; decide)]
  rw [e1, e2, e2']
  dsimp only
  unfold sgp4Body
  have e3 : (regst g s).no = s.no := rfl
  have e4 : sgp4Am (regst g s) (secular s) = sgp4Am s (secular s) := rfl
  have e5 : meanAngles (regst g s) (secular s) = meanAngles s (secular s) := rfl
  dsimp only
  rw [e3, e4, e5]
  split
  · rfl
  · split
    · rfl
    · unfold sgp4Periodics
      rw [if_neg (show ¬ (regst g s).method = .D from (by rw [hN']; decide : ¬ s.method = .D)), if_neg (show ¬ s.method = .D by rw [hN']; decide)]
      exact tail_regst g s hN' _ _ _ _ _ _ _ _ _

/-- Initialising a near-earth orbit with another epoch changes only the sidereal time stored. -/
theorem sgp4init_regst (s : Satrec F) (o : SGP4InitOptions F) (ep : F) (hN : (initRecord s o).method = .N) :
    ∃ g, sgp4init s { o with epoch := ep } = (sgp4init s o).map (fun x => (regst g x.1, x.2)) := by
  refine ⟨(initlOf (resetSatrec s o) ep).gsto, ?_⟩
  have e : initRecord s { o with epoch := ep } = regst (initlOf (resetSatrec s o) ep).gsto (initRecord s o) := by
    unfold initRecord at hN ⊢
    have e1 : initStart s { o with epoch := ep } = regst (initlOf (resetSatrec s o) ep).gsto (initStart s o) := rfl
    have e2 : initlOf (resetSatrec s { o with epoch := ep }) ep = { initlOf (resetSatrec s o) o.epoch with gsto := (initlOf (resetSatrec s o) ep).gsto } := rfl
    show initFinish (initStart s { o with epoch := ep }) (initlOf (resetSatrec s { o with epoch := ep }) ep) ep = _
    rw [e1, e2]
    generalize initStart s o = s0 at hN ⊢
    generalize (initlOf (resetSatrec s o) ep).gsto = g
    generalize initlOf (resetSatrec s o) o.epoch = i at hN ⊢
    generalize o.epoch = ep0 at hN ⊢
    unfold initFinish at hN ⊢
    have en : (regst g s0).no = s0.no := rfl
    have eo : ({ i with gsto := g } : InitlReturn F).omeosq = i.omeosq := rfl
    have e3 : initNear (regst g s0) { i with gsto := g } = (regst g (initNear s0 i).1, (initNear s0 i).2) := rfl
    rw [en, eo, e3]
    by_cases hc : ((i.omeosq ≥. 0.0) || (s0.no ≥. 0.0)) = true
    · rw [if_pos hc] at hN ⊢
      rw [if_pos hc]
      dsimp only at hN ⊢
      generalize (initNear s0 i).1 = s1 at hN ⊢
      generalize (initNear s0 i).2 = n1 at hN ⊢
      have hd : ¬ (TWO_PI / s1.no ≥. 225.0) = true := by
        intro hd
        have : (initDrag (initDeep s1 i ep0 n1.xpidot) i n1).method = .D := by
          unfold initDrag
          have : (initDeep s1 i ep0 n1.xpidot).method = .D := by
            unfold initDeep; rw [if_pos hd]; rfl
          split <;> exact this
        rw [this] at hN; cases hN
      have d1 : initDeep s1 i ep0 n1.xpidot = s1 := by unfold initDeep; rw [if_neg hd]
      have d2 : initDeep (regst g s1) { i with gsto := g } ep n1.xpidot = regst g s1 := by
        unfold initDeep; rw [if_neg (show ¬ (TWO_PI / (regst g s1).no ≥. 225.0) = true from hd)]
      rw [d1, d2]
      unfold initDrag
      have e6 : (regst g s1).isimp = s1.isimp := rfl
      rw [e6]
      split <;> rfl
    · rw [if_neg hc, if_neg hc]
  unfold sgp4init
  rw [e, sgp4_regst _ _ hN]
  cases sgp4 (initRecord s o) 0.0 with
  | none => rfl
  | some r =>
    obtain ⟨s', r⟩ := r
    cases r <;> rfl

/-! ## C101 -/

/-- The two results of reading lead to the same states: both fail in the same way, or both succeed and the records propagate alike, to every time and to every date. -/
def SameStates (A B : PRes (Satrec F)) : Prop :=
  (∃ s s', A = .ok s ∧ B = .ok s' ∧ (∀ t, (sgp4 s t).map Prod.snd = (sgp4 s' t).map Prod.snd) ∧
      ∀ time, propogate_datetime s time = propogate_datetime s' time) ∨
    (∃ e, A = .err e ∧ B = .err e) ∨ (A = .diverge ∧ B = .diverge)

/-- what is read of line 1, when it is read, apart from the drag term, which is read the same -/
theorem line1_drag {l1 l1' : Str} (a1 : Ascii l1) (a1' : Ascii l1') (h : cols l1 54 61 = cols l1' 54 61) {x x' : Line1 F}
    (hx : parseLine1 l1 = .ok x) (hx' : parseLine1 l1' = .ok x') : x.bstar = x'.bstar := by
  unfold parseLine1 at hx hx'
  obtain ⟨_, -, hx⟩ := Res.bind_ok hx
  obtain ⟨_, -, hx⟩ := Res.bind_ok hx
  obtain ⟨_, -, hx⟩ := Res.bind_ok hx
  obtain ⟨_, -, hx⟩ := Res.bind_ok hx
  obtain ⟨_, -, hx⟩ := Res.bind_ok hx
  obtain ⟨b, hb, hx⟩ := Res.bind_ok hx
  obtain ⟨_, -, hx'⟩ := Res.bind_ok hx'
  obtain ⟨_, -, hx'⟩ := Res.bind_ok hx'
  obtain ⟨_, -, hx'⟩ := Res.bind_ok hx'
  obtain ⟨_, -, hx'⟩ := Res.bind_ok hx'
  obtain ⟨_, -, hx'⟩ := Res.bind_ok hx'
  obtain ⟨b', hb', hx'⟩ := Res.bind_ok hx'
  cases hx; cases hx'
  have e : (parseBstar l1 : PRes F) = parseBstar l1' := by
    unfold parseBstar parse_int
    rw [slice_same a1 a1' h (lo := 53) (hi := 54) (by decide) (by decide) (by decide) (by decide),
      slice_same a1 a1' h (lo := 54) (hi := 59) (by decide) (by decide) (by decide) (by decide),
      slice_same a1 a1' h (lo := 59) (hi := 61) (by decide) (by decide) (by decide) (by decide)]
  rw [e, hb'] at hb
  cases hb; rfl

theorem line1_epoch {l1 l1' : Str} (a1 : Ascii l1) (a1' : Ascii l1') (h : cols l1 19 32 = cols l1' 19 32) {x x' : Line1 F}
    (hx : parseLine1 l1 = .ok x) (hx' : parseLine1 l1' = .ok x') : x.epochyr = x'.epochyr ∧ x.epochdays = x'.epochdays := by
  unfold parseLine1 at hx hx'
  obtain ⟨_, -, hx⟩ := Res.bind_ok hx
  obtain ⟨y, hy, hx⟩ := Res.bind_ok hx
  obtain ⟨d, hd, hx⟩ := Res.bind_ok hx
  obtain ⟨_, -, hx⟩ := Res.bind_ok hx
  obtain ⟨_, -, hx⟩ := Res.bind_ok hx
  obtain ⟨_, -, hx⟩ := Res.bind_ok hx
  obtain ⟨_, -, hx'⟩ := Res.bind_ok hx'
  obtain ⟨y', hy', hx'⟩ := Res.bind_ok hx'
  obtain ⟨d', hd', hx'⟩ := Res.bind_ok hx'
  obtain ⟨_, -, hx'⟩ := Res.bind_ok hx'
  obtain ⟨_, -, hx'⟩ := Res.bind_ok hx'
  obtain ⟨_, -, hx'⟩ := Res.bind_ok hx'
  cases hx; cases hx'
  unfold parse_int at hy hy'
  unfold parse_float at hd hd'
  rw [slice_same a1 a1' h (lo := 18) (hi := 20) (by decide) (by decide) (by decide) (by decide)] at hy
  rw [slice_same a1 a1' h (lo := 20) (hi := 32) (by decide) (by decide) (by decide) (by decide)] at hd
  rw [hy'] at hy; rw [hd'] at hd
  cases hy; cases hd
  exact ⟨rfl, rfl⟩

theorem line2_same {l2 l2' : Str} (a2 : Ascii l2) (a2' : Ascii l2') (h2 : ∀ p ∈ columns2, cols l2 p.1 p.2 = cols l2' p.1 p.2) :
    (parseLine2 l2 : PRes (Line2 F)) = parseLine2 l2' := by
  have m2 : ∀ A B, (A, B) ∈ columns2 → cols l2 A B = cols l2' A B := fun A B h => h2 (A, B) h
  unfold parseLine2 parseEcco parse_float
  rw [slice_same a2 a2' (m2 9 16 (by decide)) (lo := 8) (hi := 16) (by decide) (by decide) (by decide) (by decide),
    slice_same a2 a2' (m2 18 25 (by decide)) (lo := 17) (hi := 25) (by decide) (by decide) (by decide) (by decide),
    slice_same a2 a2' (m2 27 33 (by decide)) (lo := 26) (hi := 33) (by decide) (by decide) (by decide) (by decide),
    slice_same a2 a2' (m2 35 42 (by decide)) (lo := 34) (hi := 42) (by decide) (by decide) (by decide) (by decide),
    slice_same a2 a2' (m2 44 51 (by decide)) (lo := 43) (hi := 51) (by decide) (by decide) (by decide) (by decide),
    slice_same a2 a2' (m2 53 63 (by decide)) (lo := 52) (hi := 63) (by decide) (by decide) (by decide) (by decide)]

/-- what two records read have in common when their texts share line 2 and the drag term -/
theorem read_relabel {l1 l2 l1' l2' : Str} (a1 : Ascii l1) (a2 : Ascii l2) (a1' : Ascii l1') (a2' : Ascii l2')
    (h1 : cols l1 54 61 = cols l1' 54 61) (h2 : ∀ p ∈ columns2, cols l2 p.1 p.2 = cols l2' p.1 p.2) {p p' : Satrec F}
    (hp : parse_satrec l1 l2 = .ok p) (hp' : parse_satrec l1' l2' = .ok p') :
    ∃ q : Label F, p' = relabel q p ∧ (cols l1 19 32 = cols l1' 19 32 → p'.jdsatepoch = p.jdsatepoch) := by
  unfold parse_satrec at hp hp'
  obtain ⟨x, hx, hp⟩ := Res.bind_ok hp
  obtain ⟨y, hy, hp⟩ := Res.bind_ok hp
  obtain ⟨x', hx', hp'⟩ := Res.bind_ok hp'
  obtain ⟨y', hy', hp'⟩ := Res.bind_ok hp'
  have hb := line1_drag a1 a1' h1 hx hx'
  rw [line2_same a2 a2' h2, hy'] at hy
  cases hy; cases hp; cases hp'
  refine ⟨⟨none, x'.satnum, x'.epochyr, x'.epochdays, x'.ndot, x'.nddot, (buildSatrec x' y).a, (buildSatrec x' y).alta, (buildSatrec x' y).altp,
    (buildSatrec x' y).jdsatepoch⟩, ?_, ?_⟩
  · unfold buildSatrec relabel
    rw [hb]; rfl
  · intro he
    obtain ⟨e1, e2⟩ := line1_epoch a1 a1' he hx hx'
    show epochJd x'.epochyr x'.epochdays = epochJd x.epochyr x.epochdays
    rw [e1, e2]

theorem states_relabel (q : Label F) (s : Satrec F) (t : F) : (sgp4 (relabel q s) t).map Prod.snd = (sgp4 s t).map Prod.snd := by
  rw [sgp4_relabel]
  cases sgp4 s t <;> rfl

theorem dates_same {s s' : Satrec F} (h : ∀ t, (sgp4 s t).map Prod.snd = (sgp4 s' t).map Prod.snd) (hj : s.jdsatepoch = s'.jdsatepoch)
    (time : DateTimeUtc) : propogate_datetime s time = propogate_datetime s' time := by
  rw [C04_datetime, C04_datetime, h, hj]

/-- the columns of line 1 with the epoch and the drag term -/
def epochDragColumns : List (Nat × Nat) := [(19, 32), (54, 61)]

/-- **C101.** The satellite number and the derivatives of the mean motion (columns 3–7, 34–43 and 45–52 of line 1) have no influence on any propagated state: two pairs of lines that
are read, and agree in the columns of the epoch, of the drag term and of line 2, are accepted or rejected by initialisation alike, and propagate alike.  For every arithmetic, near-earth and deep-space. -/
theorem C101_unused_columns (l1 l2 l1' l2' : Str) (a1 : Ascii l1) (a2 : Ascii l2) (a1' : Ascii l1') (a2' : Ascii l2')
    (h1 : ∀ p ∈ epochDragColumns, cols l1 p.1 p.2 = cols l1' p.1 p.2) (h2 : ∀ p ∈ columns2, cols l2 p.1 p.2 = cols l2' p.1 p.2)
    (p p' : Satrec F) (hp : parse_satrec l1 l2 = .ok p) (hp' : parse_satrec l1' l2' = .ok p') :
    SameStates (twoline2satrec l1 l2 : PRes (Satrec F)) (twoline2satrec l1' l2') := by
  obtain ⟨q, hq, hj⟩ := read_relabel a1 a2 a1' a2' (h1 (54, 61) (by decide)) h2 hp hp'
  have hj := hj (h1 (19, 32) (by decide))
  unfold twoline2satrec
  rw [hp, hp']
  simp only [Res.ok_bind]
  have ho : tleOptions p' = tleOptions p := by
    have e : tleOptions p' = { tleOptions p with epoch := p'.jdsatepoch - 2433281.5 } := by subst hq; rfl
    rw [e, hj]; rfl
  rw [ho]
  have hqj : q.jdsatepoch = p.jdsatepoch := by rw [← hj, hq]; rfl
  rw [hq, sgp4init_relabel]
  cases hs : sgp4init p (tleOptions p) with
  | none => exact Or.inr (Or.inr ⟨rfl, rfl⟩)
  | some r =>
    obtain ⟨s, r⟩ := r
    cases r with
    | error e => exact Or.inr (Or.inl ⟨_, rfl, rfl⟩)
    | ok r =>
      refine Or.inl ⟨s, relabel q s, rfl, rfl, fun t => (states_relabel q s t).symm, fun time => ?_⟩
      refine dates_same (fun t => (states_relabel q s t).symm) ?_ time
      show s.jdsatepoch = q.jdsatepoch
      rw [hqj]
      have := C06_sgp4init_elements p s (tleOptions p) r hs
      show s.toSatElements.jdsatepoch = _
      rw [this]

/-- **C101.** For a near-earth orbit the epoch has no influence either, if times are counted from it: two pairs of lines that are read, and agree in the columns of the drag term and of line 2, give, if
the first is accepted as a near-earth orbit, records with the same state at the same number of minutes after their epochs. -/
theorem C101_epoch_unused (l1 l2 l1' l2' : Str) (a1 : Ascii l1) (a2 : Ascii l2) (a1' : Ascii l1') (a2' : Ascii l2')
    (h1 : cols l1 54 61 = cols l1' 54 61) (h2 : ∀ p ∈ columns2, cols l2 p.1 p.2 = cols l2' p.1 p.2)
    (p' : Satrec F) (hp' : parse_satrec l1' l2' = .ok p') (s : Satrec F) (hs : twoline2satrec l1 l2 = .ok s) (hN : s.method = .N) :
    ∃ s' : Satrec F, twoline2satrec l1' l2' = .ok s' ∧ s'.method = .N ∧ ∀ t, (sgp4 s t).map Prod.snd = (sgp4 s' t).map Prod.snd := by
  unfold twoline2satrec at hs ⊢
  obtain ⟨p, hp, hs⟩ := Res.bind_ok hs
  obtain ⟨q, hq, -⟩ := read_relabel a1 a2 a1' a2' h1 h2 hp hp'
  rw [hp']
  simp only [Res.ok_bind]
  cases hi : sgp4init p (tleOptions p) with
  | none => rw [hi] at hs; cases hs
  | some r =>
    obtain ⟨s0, r⟩ := r
    rw [hi] at hs
    cases r with
    | error e => cases hs
    | ok r =>
      dsimp only at hs
      cases hs
      have hm : (initRecord p (tleOptions p)).method = .N := by rw [← (sgp4init_from hi).1]; exact hN
      obtain ⟨g, hg⟩ := sgp4init_regst p (tleOptions p) (p'.jdsatepoch - 2433281.5) hm
      have ho : tleOptions p' = { tleOptions p with epoch := p'.jdsatepoch - 2433281.5 } := by subst hq; rfl
      rw [ho, show sgp4init p' = sgp4init (relabel q p) by rw [hq], sgp4init_relabel, hg, hi]
      refine ⟨relabel q (regst g s), rfl, hN, fun t => ?_⟩
      rw [states_relabel, sgp4_regst g s hN t]
      cases sgp4 s t <;> rfl

/-- The space station of `iss_printed` under another number and with other derivatives of the mean motion. -/
theorem station_printed : Printed "1 99999U 98067A   08264.51782528  .12345678  12345-6 -11606-4 0  2927".toList
    "2 25544  51.6416 247.4627 0006703 130.5360 325.0288 15.72125391563537".toList
    { satnum := "99999".toList, year := 8, dayE8 := 26451782528, ndotNeg := false, ndotE8 := 12345678, nddotNeg := false,
      nddotMant := 12345, nddotExpNeg := true, nddotExp := 6, bstarNeg := true, bstarMant := 11606, bstarExpNeg := true,
      bstarExp := 4, inclE4 := 516416, nodeE4 := 2474627, eccE7 := 6703, argpE4 := 1305360, moE4 := 3250288,
      noE8 := 1572125391 } where
  ascii1 := by unfold Ascii; decide
  ascii2 := by unfold Ascii; decide
  satnum := by decide
  year := by decide
  day := ⟨0, by decide, by decide, by decide⟩
  ndot := ⟨by decide, ' ', Or.inl rfl, by decide⟩
  nddot := ⟨by decide, by decide, ' ', Or.inl rfl, by decide, by decide⟩
  bstar := ⟨by decide, by decide, '-', rfl, by decide, by decide, by decide⟩
  incl := ⟨1, by decide, by decide, by decide⟩
  node := ⟨0, by decide, by decide, by decide⟩
  ecc := by decide
  argp := ⟨0, by decide, by decide, by decide⟩
  mo := ⟨0, by decide, by decide, by decide⟩
  no := ⟨0, by decide, by decide, by decide⟩

/-- The two sets lead to the same states. -/
example : SameStates (F := F)
    (twoline2satrec "1 25544U 98067A   08264.51782528 -.00002182  00000-0 -11606-4 0  2927".toList
      "2 25544  51.6416 247.4627 0006703 130.5360 325.0288 15.72125391563537".toList)
    (twoline2satrec "1 99999U 98067A   08264.51782528  .12345678  12345-6 -11606-4 0  2927".toList
      "2 25544  51.6416 247.4627 0006703 130.5360 325.0288 15.72125391563537".toList) := by
  obtain ⟨p, hp, -⟩ := C21_decode (F := F) _ _ _ iss_printed (Or.inl rfl)
  obtain ⟨p', hp', -⟩ := C21_decode (F := F) _ _ _ station_printed (Or.inl rfl)
  exact C101_unused_columns _ _ _ _ iss_printed.ascii1 iss_printed.ascii2 station_printed.ascii1 station_printed.ascii2 (by decide) (by decide) p p' hp hp'

end Sat
