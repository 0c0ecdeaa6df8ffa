import Verif.Props.Propagate
import Verif.Model.Io
/-! # Initialisation: C05, C06, C07 (every arithmetic) -/

set_option linter.unusedSectionVars false

namespace Sat
variable {F : Type} [Arith F]

/-! ## C05 -/

/-- **C05.** Initialisation forgets everything about the record it is given except the descriptive fields that `sgp4init`
has no option for. -/
theorem C05_init_overwrites (s1 s2 : Satrec F) (o : SGP4InitOptions F)
    (hname : s1.name = s2.name) (hsat : s1.satnum = s2.satnum)
    (hyr : s1.epochyr = s2.epochyr) (hdays : s1.epochdays = s2.epochdays) (hjd : s1.jdsatepoch = s2.jdsatepoch)
    (hnd : s1.ndot = s2.ndot) (hndd : s1.nddot = s2.nddot)
    (ha : s1.a = s2.a) (halta : s1.alta = s2.alta) (haltp : s1.altp = s2.altp) :
    sgp4init s1 o = sgp4init s2 o := by
  have e : initStart s1 o = initStart s2 o := by
    unfold initStart resetSatrec
    simp only [hname, hsat, hyr, hdays, hjd, hnd, hndd, ha, halta, haltp]
    rfl
  have e2 : initlOf (resetSatrec s1 o) o.epoch = initlOf (resetSatrec s2 o) o.epoch := rfl
  have : initRecord s1 o = initRecord s2 o := by
    unfold initRecord
    rw [e2, e]
  unfold sgp4init
  rw [this]

/-- C05: initialising a record again after any sequence of propagations gives the same result and the same record as
initialising it the first time. -/
theorem C05_reinit_after_use (s s' : Satrec F) (ts : List F) (o : SGP4InitOptions F) (h : afterCalls s ts = some s') :
    sgp4init s' o = sgp4init s o := by
  induction ts generalizing s with
  | nil => cases h; rfl
  | cons t0 ts ih =>
    unfold afterCalls at h
    split at h
    · cases h
    · rename_i s1 r1 h1
      rw [ih s1 h]
      obtain ⟨hl, -⟩ := sgp4_left h1
      rcases hl with ⟨_, hs⟩ | ⟨_, hs⟩ <;>
        · rw [hs]
          exact C05_init_overwrites _ _ o rfl rfl rfl rfl rfl rfl rfl rfl rfl rfl

/-! ## C06 -/

theorem initDpper_id {s : Satrec F} (h : s.init = .Y) : initDpper s = s := by
  unfold initDpper
  rw [C48_dpper_identity _ _ h]

theorem initDeep_elements {s : Satrec F} (h : s.init = .Y) (i : InitlReturn F) (e x : F) :
    (initDeep s i e x).toSatElements = s.toSatElements := by
  unfold initDeep
  split
  · dsimp only
    rw [initDpper_id]
    · rfl
    · exact h
  · rfl

theorem initDrag_elements (s : Satrec F) (i : InitlReturn F) (n : NearTmp F) :
    (initDrag s i n).toSatElements = s.toSatElements := by
  unfold initDrag; split <;> rfl

/-- The un-Kozai'd mean motion that initialisation stores (`initl`). -/
def storedMotion (o : SGP4InitOptions F) : F :=
  (initl { opsmode := o.opsmode, ecco := o.xecco, epoch := o.epoch, inclo := o.xinclo, no := o.xno }).no

theorem initRecord_elements (s : Satrec F) (o : SGP4InitOptions F) :
    (initRecord s o).toSatElements =
      { s.toSatElements with
        init := .Y, operationmode := o.opsmode, error := 0, bstar := o.xbstar, ecco := o.xecco, argpo := o.xargpo,
        inclo := o.xinclo, mo := o.xmo, no := storedMotion o, nodeo := o.xnodeo } := by
  unfold initRecord initFinish
  dsimp only
  split
  · rw [initDrag_elements, initDeep_elements]
    · rfl
    · rfl
  · rfl

/-- **C06** for `sgp4init`: after a successful initialisation the mean elements are the ones passed in. -/
theorem C06_sgp4init_elements (s s' : Satrec F) (o : SGP4InitOptions F) (v : SGP4Result F)
    (h : sgp4init s o = some (s', .ok v)) :
    s'.toSatElements =
      { s.toSatElements with
        init := .N, operationmode := o.opsmode, error := 0, bstar := o.xbstar, ecco := o.xecco, argpo := o.xargpo,
        inclo := o.xinclo, mo := o.xmo, no := storedMotion o, nodeo := o.xnodeo } := by
  unfold sgp4init at h
  split at h
  · cases h
  · cases h
  · rename_i s1 r1 h1
    cases h
    have herr : s1.error = 0 := (C03_error_flag _ _ _ _ h1).1.mpr ⟨_, rfl⟩
    obtain ⟨hl, -⟩ := sgp4_left h1
    have hel := initRecord_elements s o
    have : s1.toSatElements = { (initRecord s o).toSatElements with error := 0 } := by
      rcases hl with ⟨_, hs⟩ | ⟨_, hs⟩
      · rw [hs, herr]
      · rw [hs, herr]
    show { s1.toSatElements with init := .N } = _
    rw [this, hel]

/-- **C06.** A record returned by `twoline2satrec` carries exactly the parsed values, including all descriptive fields; only
the mean motion is replaced. -/
theorem C06_twoline_elements (l1 l2 : Str) (s : Satrec F) (h : (twoline2satrec l1 l2 : PRes (Satrec F)) = .ok s) :
    ∃ p : Satrec F, (parse_satrec l1 l2 : PRes (Satrec F)) = .ok p ∧
      s.bstar = p.bstar ∧ s.ecco = p.ecco ∧ s.inclo = p.inclo ∧ s.nodeo = p.nodeo ∧ s.argpo = p.argpo ∧ s.mo = p.mo ∧
      s.satnum = p.satnum ∧ s.epochyr = p.epochyr ∧ s.epochdays = p.epochdays ∧ s.jdsatepoch = p.jdsatepoch ∧
      s.ndot = p.ndot ∧ s.nddot = p.nddot ∧ s.a = p.a ∧ s.alta = p.alta ∧ s.altp = p.altp ∧ s.name = none ∧
      s.error = 0 ∧ s.operationmode = .I ∧ s.init = .N ∧
      s.no = (initl { opsmode := .I, ecco := p.ecco, epoch := p.jdsatepoch - 2433281.5, inclo := p.inclo,
                      no := p.no } : InitlReturn F).no := by
  unfold twoline2satrec at h
  cases hp : (parse_satrec l1 l2 : PRes (Satrec F)) with
  | ok p =>
    rw [hp] at h
    simp only [Res.ok_bind] at h
    split at h
    · cases h
    · cases h
    · rename_i s1 v hs
      cases h
      have he := C06_sgp4init_elements _ _ _ _ hs
      have hname : p.name = none := by
        unfold parse_satrec at hp
        cases h1 : (parseLine1 l1 : PRes (Line1 F)) with
        | ok a =>
          cases h2 : (parseLine2 l2 : PRes (Line2 F)) with
          | ok b => rw [h1, h2] at hp; cases hp; rfl
          | err e => rw [h1, h2] at hp; cases hp
          | panic => rw [h1, h2] at hp; cases hp
          | diverge => rw [h1, h2] at hp; cases hp
        | err e => rw [h1] at hp; cases hp
        | panic => rw [h1] at hp; cases hp
        | diverge => rw [h1] at hp; cases hp
      refine ⟨p, rfl, ?_⟩
      rw [he]
      exact ⟨rfl, rfl, rfl, rfl, rfl, rfl, rfl, rfl, rfl, rfl, rfl, rfl, rfl, rfl, rfl, hname, rfl, rfl, rfl, rfl⟩
  | err e => rw [hp] at h; cases h
  | panic => rw [hp] at h; cases h
  | diverge => rw [hp] at h; cases h

/-! ## C07 -/

theorem initDeep_method (s : Satrec F) (i : InitlReturn F) (e x : F) :
    ((initDeep s i e x).method = if TWO_PI / s.no ≥. 225.0 then .D else s.method) ∧
    ((initDeep s i e x).isimp = if TWO_PI / s.no ≥. 225.0 then 1 else s.isimp) := by
  unfold initDeep
  by_cases h : (TWO_PI / s.no ≥. 225.0) = true
  · simp only [if_pos h]
    exact ⟨rfl, rfl⟩
  · simp only [if_neg h]
    exact ⟨trivial, trivial⟩

theorem initDrag_method (s : Satrec F) (i : InitlReturn F) (n : NearTmp F) :
    (initDrag s i n).method = s.method ∧ (initDrag s i n).isimp = s.isimp := by
  unfold initDrag; split <;> exact ⟨rfl, rfl⟩

theorem sgp4init_from {s s' : Satrec F} {o : SGP4InitOptions F} {r} (h : sgp4init s o = some (s', r)) :
    s'.method = (initRecord s o).method ∧ s'.isimp = (initRecord s o).isimp ∧ s'.no = (initRecord s o).no := by
  unfold sgp4init at h
  split at h
  · cases h
  · rename_i s1 e h1
    cases h
    obtain ⟨hl, -⟩ := sgp4_left h1
    rcases hl with ⟨_, hs⟩ | ⟨_, hs⟩ <;> · rw [hs]; exact ⟨rfl, rfl, rfl⟩
  · rename_i s1 r1 h1
    cases h
    obtain ⟨hl, -⟩ := sgp4_left h1
    rcases hl with ⟨_, hs⟩ | ⟨_, hs⟩ <;> · rw [hs]; exact ⟨rfl, rfl, rfl⟩

/-- **C07.** After initialisation (successful or not) a record whose guard holds — one minus the squared eccentricity or the
recovered mean motion is `>= 0` — is deep-space exactly when its period `2 pi / n` is at least 225 minutes, and uses the
simplified drag model exactly when it is deep-space or its perigee `a (1 - e)`, `a = (xke / n)^(2/3)`, is below 220 km. -/
theorem C07_classification (s s' : Satrec F) (o : SGP4InitOptions F) (r : Except SGP4Error (SGP4Result F))
    (h : sgp4init s o = some (s', r))
    (guard : (1.0 - o.xecco * o.xecco ≥. 0.0) = true ∨ (s'.no ≥. 0.0) = true) :
    (s'.method = .D ↔ (TWO_PI / s'.no ≥. 225.0) = true) ∧
    (s'.isimp = 1 ↔ (TWO_PI / s'.no ≥. 225.0) = true ∨
      (Arith.powf (XKE / s'.no) X2O3 * (1.0 - o.xecco) <. (220.0 / EARTH_RADIUS) + 1.0) = true) ∧
    (s'.isimp = 0 ∨ s'.isimp = 1) := by
  obtain ⟨hm, hi, hn⟩ := sgp4init_from h
  have hno : s'.no = storedMotion o := by rw [hn, initRecord_elements]
  rw [hm, hi, hno]
  rw [hno] at guard
  have hrp : (initlOf (resetSatrec s o) o.epoch).rp =
      Arith.powf (XKE / storedMotion o) X2O3 * (1.0 - o.xecco) := rfl
  have hg : (((initlOf (resetSatrec s o) o.epoch).omeosq ≥. 0.0) ||
      ((initStart s o).no ≥. 0.0)) = true := by
    rw [Bool.or_eq_true]; exact guard
  unfold initRecord initFinish
  dsimp only
  rw [if_pos hg]
  rw [(initDrag_method _ _ _).1, (initDrag_method _ _ _).2, (initDeep_method _ _ _ _).1, (initDeep_method _ _ _ _).2]
  show ((if (TWO_PI / storedMotion o ≥. 225.0) = true then InitlMethod.D else InitlMethod.N) = .D ↔ _) ∧
    ((if (TWO_PI / storedMotion o ≥. 225.0) = true then (1 : Int) else
      if ((initlOf (resetSatrec s o) o.epoch).rp <. (220.0 / EARTH_RADIUS) + 1.0) = true then 1 else 0) = 1 ↔ _) ∧
    ((if (TWO_PI / storedMotion o ≥. 225.0) = true then (1 : Int) else
      if ((initlOf (resetSatrec s o) o.epoch).rp <. (220.0 / EARTH_RADIUS) + 1.0) = true then 1 else 0) = 0 ∨
     (if (TWO_PI / storedMotion o ≥. 225.0) = true then (1 : Int) else
      if ((initlOf (resetSatrec s o) o.epoch).rp <. (220.0 / EARTH_RADIUS) + 1.0) = true then 1 else 0) = 1)
  rw [hrp]
  by_cases c1 : (TWO_PI / storedMotion o ≥. 225.0) = true
  · simp [c1]
  · by_cases c2 : (Arith.powf (XKE / storedMotion o) X2O3 * (1.0 - o.xecco) <. (220.0 / EARTH_RADIUS) + 1.0) = true
    · simp [c1, c2]
    · simp [c1, c2]

/-- C07: if the guard fails the record stays near-earth with the full drag model (and all coefficients zero). -/
theorem C07_guard_fails (s s' : Satrec F) (o : SGP4InitOptions F) (r : Except SGP4Error (SGP4Result F))
    (h : sgp4init s o = some (s', r))
    (g1 : (1.0 - o.xecco * o.xecco ≥. 0.0) = false) (g2 : (s'.no ≥. 0.0) = false) :
    s'.method = .N ∧ s'.isimp = 0 := by
  obtain ⟨hm, hi, hn⟩ := sgp4init_from h
  have hno : s'.no = storedMotion o := by rw [hn, initRecord_elements]
  rw [hno] at g2
  rw [hm, hi]
  have hg : ¬ (((initlOf (resetSatrec s o) o.epoch).omeosq ≥. 0.0) ||
      ((initStart s o).no ≥. 0.0)) = true := by
    rw [Bool.or_eq_true]
    rintro (h | h)
    · exact absurd (h.symm.trans g1) (by decide)
    · exact absurd (h.symm.trans g2) (by decide)
  unfold initRecord initFinish
  dsimp only
  rw [if_neg hg]
  exact ⟨rfl, rfl⟩

end Sat
