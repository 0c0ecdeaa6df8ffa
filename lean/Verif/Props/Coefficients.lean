import Verif.Spec.Report3
import Verif.Props.Init
import Verif.RealArith
import Mathlib.Tactic.FieldSimp
/-!
# The near-earth coefficients computed by initialisation are the published ones: C55, C56, C57

Exact arithmetic.
-/

namespace Sat
open Spec.R3

theorem initDeep_near {F : Type} [Arith F] (s : Satrec F) (i : InitlReturn F) (e x : F) :
    (initDeep s i e x).toSatNear =
      { s.toSatNear with method := (initDeep s i e x).method, isimp := (initDeep s i e x).isimp } := by
  unfold initDeep; split <;> rfl

/-- The near-earth fields after initialisation, apart from the drag series `d2 .. t5cof`. -/
theorem initRecord_near {F : Type} [Arith F] (s : Satrec F) (o : SGP4InitOptions F)
    (guard : (1.0 - o.xecco * o.xecco ≥. 0.0) = true) :
    let i := initlOf (resetSatrec s o) o.epoch
    let p := initNear (initStart s o) i
    let d := initDeep p.1 i o.epoch p.2.xpidot
    (initRecord s o) = initDrag d i p.2 ∧ d.toSatNear = { p.1.toSatNear with method := d.method, isimp := d.isimp } := by
  have hg : (((initlOf (resetSatrec s o) o.epoch).omeosq ≥. 0.0) || ((initStart s o).no ≥. 0.0)) = true := by
    rw [Bool.or_eq_true]; exact Or.inl guard
  intro i p d
  refine ⟨?_, initDeep_near _ _ _ _⟩
  unfold initRecord initFinish
  dsimp only
  rw [if_pos hg]

/-- What `sgp4init` returns, in terms of the record it hands to its final `sgp4` call. -/
theorem sgp4init_left {F : Type} [Arith F] {s s' : Satrec F} {o : SGP4InitOptions F} {r} (h : sgp4init s o = some (s', r)) :
    s' = { initRecord s o with t := 0.0, error := s'.error, init := s'.init, aycof := s'.aycof, xlcof := s'.xlcof,
                               con41 := s'.con41, x1mth2 := s'.x1mth2, x7thm1 := s'.x7thm1 } ∧
    ((initRecord s o).method = .N → s' = { initRecord s o with t := 0.0, error := s'.error, init := s'.init }) := by
  unfold sgp4init at h
  split at h
  · cases h
  · rename_i s1 e h1
    cases h
    obtain ⟨hl, -⟩ := sgp4_left h1
    rcases hl with ⟨hm, hs⟩ | ⟨hm, hs⟩
    · constructor
      · rw [hs]
      · intro _; rw [hs]
    · constructor
      · rw [hs]
      · intro hN; exfalso; change (initRecord s o).method = .D at hm; rw [hN] at hm; cases hm
  · rename_i s1 r1 h1
    cases h
    obtain ⟨hl, -⟩ := sgp4_left h1
    rcases hl with ⟨hm, hs⟩ | ⟨hm, hs⟩
    · constructor
      · rw [hs]
      · intro _; rw [hs]
    · constructor
      · rw [hs]
      · intro hN; exfalso; change (initRecord s o).method = .D at hm; rw [hN] at hm; cases hm

/-- fields that `initDrag` leaves alone -/
theorem initDrag_near {F : Type} [Arith F] (s : Satrec F) (i : InitlReturn F) (n : NearTmp F) :
    (initDrag s i n).toSatNear = { s.toSatNear with
      d2 := (initDrag s i n).d2, d3 := (initDrag s i n).d3, d4 := (initDrag s i n).d4, t3cof := (initDrag s i n).t3cof,
      t4cof := (initDrag s i n).t4cof, t5cof := (initDrag s i n).t5cof } := by
  unfold initDrag; split <;> rfl

/-- the mean elements, in the notation of the report, of a record initialised with the options `o` -/
noncomputable def orbitOf (s' : Satrec ℝ) (o : SGP4InitOptions ℝ) : Orbit :=
  { n := s'.no, e := o.xecco, inc := o.xinclo, argp := o.xargpo, anom := o.xmo, bstar := o.xbstar }

theorem guard_real {o : SGP4InitOptions ℝ} (he : 0 ≤ o.xecco ∧ o.xecco < 1) : (1.0 - o.xecco * o.xecco ≥. 0.0) = true := by
  simp only [real_fle, decide_eq_true_eq]
  norm_num
  nlinarith [he.1, he.2]

/-- **C56.** The recovered mean motion is the published one. -/
theorem C56_recovered_motion (s s' : Satrec ℝ) (o : SGP4InitOptions ℝ) (r : Except SGP4Error (SGP4Result ℝ))
    (h : sgp4init s o = some (s', r)) (he : 0 ≤ o.xecco ∧ o.xecco < 1) :
    s'.no = recoveredMotion o.xno o.xecco o.xinclo := by
  have h0 : s'.no = (initRecord s o).no := (congrArg (fun x : Satrec ℝ => x.no) (sgp4init_left h).1).trans rfl
  have h1 : s'.no = storedMotion o := by rw [h0, initRecord_elements]
  rw [h1, storedMotion]
  have hb : (0:ℝ) ≤ 1 - o.xecco ^ 2 := by nlinarith [he.1, he.2]
  simp only [initl, unkozai, recoveredMotion, real_powf, real_cos, real_sqrt]
  have e1 : (XKE : ℝ) = ke := rfl
  have e2 : (X2O3 : ℝ) = 2 / 3 := by unfold X2O3; norm_num
  have e3 : (J2 : ℝ) = 2 * k2 := by unfold J2 k2 j2; norm_num
  have e4 : (1.0 : ℝ) - o.xecco * o.xecco = Real.sqrt (1 - o.xecco ^ 2) ^ 2 := by
    rw [Real.sq_sqrt hb]; norm_num; ring
  have e5 : Real.sqrt ((1.0 : ℝ) - o.xecco * o.xecco) = Real.sqrt (1 - o.xecco ^ 2) := by
    congr 1; norm_num; ring
  rw [e5, e4, e1, e2, e3]
  generalize Real.sqrt (1 - o.xecco ^ 2) = β
  generalize Real.cos o.xinclo = θ
  generalize (ke / o.xno) ^ (2 / 3 : ℝ) = a1
  generalize k2 = k
  have hd : (0.75 : ℝ) * (2 * k) * (3.0 * (θ * θ) - 1.0) / (β * β ^ 2) / (a1 * a1) = 3 / 2 * k / a1 ^ 2 * ((3 * θ ^ 2 - 1) / β ^ 3) := by
    norm_num; ring
  rw [hd]
  generalize 3 / 2 * k / a1 ^ 2 * ((3 * θ ^ 2 - 1) / β ^ 3) = d
  have ha : a1 * ((1.0 : ℝ) - d * d - d * (1.0 / 3.0 + 134.0 * d * d / 81.0)) = a1 * (1 - d / 3 - d ^ 2 - 134 / 81 * d ^ 3) := by
    norm_num1; ring
  rw [ha]
  generalize a1 * (1 - d / 3 - d ^ 2 - 134 / 81 * d ^ 3) = a0
  congr 1
  norm_num; ring

/-- The quantities `initl` hands over, in the notation of the report. -/
theorem initlOf_orbit {s s' : Satrec ℝ} {o : SGP4InitOptions ℝ} {r} (h : sgp4init s o = some (s', r))
    (he : 0 ≤ o.xecco ∧ o.xecco < 1) {i : InitlReturn ℝ} (hi : i = initlOf (resetSatrec s o) o.epoch) :
    let q := orbitOf s' o
    i.no = q.n ∧ i.ao = q.a ∧ i.rteosq = q.β ∧ i.omeosq = q.β ^ 2 ∧ i.cosio = q.θ ∧ i.cosio2 = q.θ ^ 2 ∧ i.sinio = Real.sin q.inc ∧
    i.con41 = 3 * q.θ ^ 2 - 1 ∧ i.con42 = 1 - 5 * q.θ ^ 2 ∧ i.posq = (q.a * q.β ^ 2) ^ 2 ∧ i.rp = q.a * (1 - q.e) ∧ 0 < q.β := by
  have hno : s'.no = storedMotion o := by
    have h0 : s'.no = (initRecord s o).no := (congrArg (fun x : Satrec ℝ => x.no) (sgp4init_left h).1).trans rfl
    rw [h0, initRecord_elements]
  intro q
  have hb : (0:ℝ) < 1 - o.xecco ^ 2 := by nlinarith [he.1, he.2]
  have l1 : (1.0 : ℝ) = 1 := by norm_num
  have eo : (1.0 : ℝ) - o.xecco * o.xecco = q.β ^ 2 := by
    show _ = Real.sqrt (1 - o.xecco ^ 2) ^ 2
    rw [Real.sq_sqrt hb.le, l1]; ring
  have hβ : 0 < q.β := Real.sqrt_pos.mpr hb
  have ea : ((XKE : ℝ) / storedMotion o) ^ (X2O3 : ℝ) = q.a := by
    show _ = (ke / s'.no) ^ (2 / 3 : ℝ)
    rw [hno, show (X2O3 : ℝ) = 2 / 3 by unfold X2O3; norm_num]; rfl
  have i1 : i.no = q.n := by rw [hi]; exact hno.symm
  have i2 : i.ao = q.a := by rw [hi]; exact ea
  have i4 : i.omeosq = q.β ^ 2 := by rw [hi]; exact eo
  have i3 : i.rteosq = q.β := by
    have : i.rteosq = Real.sqrt i.omeosq := by rw [hi]; rfl
    rw [this, i4, Real.sqrt_sq hβ.le]
  have i5 : i.cosio = q.θ := by rw [hi]; rfl
  have i6 : i.cosio2 = q.θ ^ 2 := by
    have : i.cosio2 = i.cosio * i.cosio := by rw [hi]; rfl
    rw [this, i5]; ring
  have i9 : i.con42 = 1 - 5 * q.θ ^ 2 := by
    have : i.con42 = 1.0 - 5.0 * i.cosio2 := by rw [hi]; rfl
    rw [this, i6]; norm_num
  refine ⟨i1, i2, i3, i4, i5, i6, by rw [hi]; rfl, ?_, i9, ?_, ?_, hβ⟩
  · have : i.con41 = -i.con42 - i.cosio2 - i.cosio2 := by rw [hi]; rfl
    rw [this, i9, i6]; ring
  · have : i.posq = (i.ao * i.omeosq) * (i.ao * i.omeosq) := by rw [hi]; rfl
    rw [this, i2, i4]; ring
  · have : i.rp = i.ao * (1.0 - o.xecco) := by rw [hi]; rfl
    rw [this, i2, l1]; rfl

/-- **C56.** The secular rates of mean anomaly, perigee and node are the published ones (near-earth and deep-space). -/
theorem C56_secular_rates (s s' : Satrec ℝ) (o : SGP4InitOptions ℝ) (r : Except SGP4Error (SGP4Result ℝ))
    (h : sgp4init s o = some (s', r)) (he : 0 ≤ o.xecco ∧ o.xecco < 1) :
    s'.mdot = (orbitOf s' o).rateAnomaly ∧ s'.argpdot = (orbitOf s' o).ratePerigee ∧
    s'.nodedot = (orbitOf s' o).rateNode := by
  obtain ⟨h1, h2⟩ := initRecord_near s o (guard_real he)
  have hl := (sgp4init_left h).1
  have hno : s'.no = storedMotion o := by
    have h0 : s'.no = (initRecord s o).no := (congrArg (fun x : Satrec ℝ => x.no) hl).trans rfl
    rw [h0, initRecord_elements]
  have hm : s'.toSatNear.mdot = (initNear (initStart s o) (initlOf (resetSatrec s o) o.epoch)).1.mdot := by
    have h0 : s'.mdot = (initRecord s o).mdot := (congrArg (fun x : Satrec ℝ => x.mdot) hl).trans rfl
    rw [h0, h1, initDrag_near]; dsimp only; rw [h2]
  have hp : s'.toSatNear.argpdot = (initNear (initStart s o) (initlOf (resetSatrec s o) o.epoch)).1.argpdot := by
    have h0 : s'.argpdot = (initRecord s o).argpdot := (congrArg (fun x : Satrec ℝ => x.argpdot) hl).trans rfl
    rw [h0, h1, initDrag_near]; dsimp only; rw [h2]
  have hn : s'.toSatNear.nodedot = (initNear (initStart s o) (initlOf (resetSatrec s o) o.epoch)).1.nodedot := by
    have h0 : s'.nodedot = (initRecord s o).nodedot := (congrArg (fun x : Satrec ℝ => x.nodedot) hl).trans rfl
    rw [h0, h1, initDrag_near]; dsimp only; rw [h2]
  rw [hm, hp, hn]
  obtain ⟨i1, i2, i3, i4, i5, i6, i7, i8, i9, i10, i11, hβ⟩ := initlOf_orbit h he rfl
  have e1 : (initStart s o).no = (initlOf (resetSatrec s o) o.epoch).no := rfl
  have e2 : (initStart s o).con41 = (initlOf (resetSatrec s o) o.epoch).con41 := rfl
  generalize initlOf (resetSatrec s o) o.epoch = i at *
  have k1 : (J2 : ℝ) = 2 * k2 := by unfold J2 k2 j2; norm_num
  have k3 : (J4 : ℝ) = -8 / 3 * k4 := by unfold J4 k4 j4; norm_num
  simp only [Orbit.rateAnomaly, Orbit.ratePerigee, Orbit.rateNode]
  simp only [initNear]
  rw [e1, e2, i1, i3, i5, i6, i8, i9, i10, k1, k3]
  generalize (orbitOf s' o).n = n
  generalize (orbitOf s' o).a = a
  generalize (orbitOf s' o).θ = θ
  generalize (orbitOf s' o).β = β at *
  refine ⟨?_, ?_, ?_⟩ <;> norm_num1 <;> field_simp <;> ring

/-- The near-earth coefficients found in the record after `sgp4init` are those computed by its near-earth part. -/
theorem stored_near {s s' : Satrec ℝ} {o : SGP4InitOptions ℝ} {r} (h : sgp4init s o = some (s', r))
    (he : 0 ≤ o.xecco ∧ o.xecco < 1) :
    let p := (initNear (initStart s o) (initlOf (resetSatrec s o) o.epoch)).1
    s'.eta = p.eta ∧ s'.cc1 = p.cc1 ∧ s'.cc4 = p.cc4 ∧ s'.cc5 = p.cc5 ∧ s'.omgcof = p.omgcof ∧ s'.xmcof = p.xmcof ∧
    s'.nodecf = p.nodecf ∧ s'.t2cof = p.t2cof ∧ s'.delmo = p.delmo ∧ s'.sinmao = p.sinmao := by
  obtain ⟨h1, h2⟩ := initRecord_near s o (guard_real he)
  have hl := (sgp4init_left h).1
  dsimp only at h1 h2 ⊢
  have key : ∀ g : SatNear ℝ → ℝ,
      g s'.toSatNear = g (initRecord s o).toSatNear →
      (∀ (x : SatNear ℝ) d2 d3 d4 t3 t4 t5, g { x with d2 := d2, d3 := d3, d4 := d4, t3cof := t3, t4cof := t4, t5cof := t5 } = g x) →
      (∀ (x : SatNear ℝ) m i, g { x with method := m, isimp := i } = g x) →
      g s'.toSatNear = g (initNear (initStart s o) (initlOf (resetSatrec s o) o.epoch)).1.toSatNear := by
    intro g g0 g1 g2
    rw [g0, h1, initDrag_near, g1, h2, g2]
  refine ⟨?_, ?_, ?_, ?_, ?_, ?_, ?_, ?_, ?_, ?_⟩
  · exact key (·.eta) ((congrArg (fun x : Satrec ℝ => x.eta) hl).trans rfl) (fun _ _ _ _ _ _ _ => rfl) (fun _ _ _ => rfl)
  · exact key (·.cc1) ((congrArg (fun x : Satrec ℝ => x.cc1) hl).trans rfl) (fun _ _ _ _ _ _ _ => rfl) (fun _ _ _ => rfl)
  · exact key (·.cc4) ((congrArg (fun x : Satrec ℝ => x.cc4) hl).trans rfl) (fun _ _ _ _ _ _ _ => rfl) (fun _ _ _ => rfl)
  · exact key (·.cc5) ((congrArg (fun x : Satrec ℝ => x.cc5) hl).trans rfl) (fun _ _ _ _ _ _ _ => rfl) (fun _ _ _ => rfl)
  · exact key (·.omgcof) ((congrArg (fun x : Satrec ℝ => x.omgcof) hl).trans rfl) (fun _ _ _ _ _ _ _ => rfl) (fun _ _ _ => rfl)
  · exact key (·.xmcof) ((congrArg (fun x : Satrec ℝ => x.xmcof) hl).trans rfl) (fun _ _ _ _ _ _ _ => rfl) (fun _ _ _ => rfl)
  · exact key (·.nodecf) ((congrArg (fun x : Satrec ℝ => x.nodecf) hl).trans rfl) (fun _ _ _ _ _ _ _ => rfl) (fun _ _ _ => rfl)
  · exact key (·.t2cof) ((congrArg (fun x : Satrec ℝ => x.t2cof) hl).trans rfl) (fun _ _ _ _ _ _ _ => rfl) (fun _ _ _ => rfl)
  · exact key (·.delmo) ((congrArg (fun x : Satrec ℝ => x.delmo) hl).trans rfl) (fun _ _ _ _ _ _ _ => rfl) (fun _ _ _ => rfl)
  · exact key (·.sinmao) ((congrArg (fun x : Satrec ℝ => x.sinmao) hl).trans rfl) (fun _ _ _ _ _ _ _ => rfl) (fun _ _ _ => rfl)

theorem dragParams_report (q : Orbit) : dragParams (q.a * (1 - q.e)) = (q.s, q.q4) := by
  have hR : (EARTH_RADIUS : ℝ) = kmPerRadius := rfl
  have hk : (kmPerRadius : ℝ) ≠ 0 := by unfold kmPerRadius; norm_num
  have l : (98.0:ℝ) = 98 ∧ (156.0:ℝ) = 156 ∧ (1.0:ℝ) = 1 ∧ (78.0:ℝ) = 78 ∧ (120.0:ℝ) = 120 ∧ (20.0:ℝ) = 20 := by norm_num
  have hp : (q.a * (1 - q.e) - 1) * kmPerRadius = q.perigeeKm := rfl
  have h20 : (1 + 120 / kmPerRadius - (1 + q.sKm / kmPerRadius)) = (120 - q.sKm) / kmPerRadius := by ring
  simp only [dragParams, hR, l.1, l.2.1, l.2.2.1, l.2.2.2.1, l.2.2.2.2.1, l.2.2.2.2.2, hp, real_flt, decide_eq_true_eq, Orbit.q4,
    Orbit.s, h20]
  by_cases h1 : q.perigeeKm < 156
  · by_cases h2 : q.perigeeKm < 98
    · simp only [if_pos h1, if_pos h2, Orbit.sKm]
      ext <;> ring
    · simp only [if_pos h1, if_neg h2, Orbit.sKm]
      ext <;> ring
  · have h2 : ¬ q.perigeeKm < 98 := fun h => h1 (by linarith)
    simp only [if_neg h1, if_neg h2, Orbit.sKm]
    ext <;> ring

/-- **C57.** The drag coefficients are the published ones (near-earth and deep-space). -/
theorem C57_drag_coefficients (s s' : Satrec ℝ) (o : SGP4InitOptions ℝ) (r : Except SGP4Error (SGP4Result ℝ))
    (h : sgp4init s o = some (s', r)) (he : 0 ≤ o.xecco ∧ o.xecco < 1) :
    let q := orbitOf s' o
    s'.eta = q.η ∧ s'.cc1 = q.C1 ∧ s'.cc4 = q.C4 ∧ s'.cc5 = q.C5 ∧ s'.omgcof = q.dω ∧ s'.xmcof = q.dM ∧
    s'.nodecf = q.dΩ ∧ s'.t2cof = 3 / 2 * q.C1 ∧ s'.delmo = (1 + q.η * Real.cos q.anom) ^ 3 ∧ s'.sinmao = Real.sin q.anom := by
  obtain ⟨h1, h2, h3, h4, h5, h6, h7, h8, h9, h10⟩ := stored_near h he
  rw [h1, h2, h3, h4, h5, h6, h7, h8, h9, h10]
  obtain ⟨i1, i2, i3, i4, i5, i6, i7, i8, i9, i10, i11, hβ⟩ := initlOf_orbit h he rfl
  have e1 : (initStart s o).no = (initlOf (resetSatrec s o) o.epoch).no := rfl
  have e2 : (initStart s o).con41 = (initlOf (resetSatrec s o) o.epoch).con41 := rfl
  have e3 : (initStart s o).ecco = (orbitOf s' o).e := rfl
  have e4 : (initStart s o).bstar = (orbitOf s' o).bstar := rfl
  have e5 : (initStart s o).argpo = (orbitOf s' o).argp := rfl
  have e6 : (initStart s o).mo = (orbitOf s' o).anom := rfl
  generalize initlOf (resetSatrec s o) o.epoch = i at *
  have k1 : (J2 : ℝ) = 2 * k2 := by unfold J2 k2 j2; norm_num
  have k5 : (J3OJ2 : ℝ) = -a30 / (2 * k2) := by unfold J3OJ2 J3 J2 a30 k2 j2 j3; norm_num
  have k6 : (X2O3 : ℝ) = 2 / 3 := by unfold X2O3; norm_num
  have l35 : (3.5 : ℝ) = 7 / 2 := by norm_num
  have l4 : (1.0e-4 : ℝ) = 1 / 10000 := by norm_num
  simp only [initNear, i11, dragParams_report]
  simp only [e1, e2, e3, e4, e5, e6, i1, i2, i4, i5, i6, i7, i8, i10, k1, k5, k6, real_cos, real_sin, real_abs, real_powf, l35,
    real_flt, decide_eq_true_eq, l4]
  have hξ : (1.0 : ℝ) / ((orbitOf s' o).a - (orbitOf s' o).s) = (orbitOf s' o).ξ := by rw [Orbit.ξ]; norm_num
  have hη : (orbitOf s' o).a * (orbitOf s' o).e * (orbitOf s' o).ξ = (orbitOf s' o).η := rfl
  have hψ : |(1.0 : ℝ) - (orbitOf s' o).η * (orbitOf s' o).η| = (orbitOf s' o).ψ := by
    rw [Orbit.ψ]; congr 1; norm_num; ring
  rw [hξ, hη, hψ]
  simp only [Orbit.C1, Orbit.C2, Orbit.C3, Orbit.C4, Orbit.C5, Orbit.dω, Orbit.dM, Orbit.dΩ]
  have hk2 : k2 ≠ 0 := by unfold k2 j2; norm_num
  have h2p : (2.0 : ℝ) * (orbitOf s' o).argp = 2 * (orbitOf s' o).argp := by norm_num
  rw [h2p]
  have hp4 : powi4 (orbitOf s' o).ξ = (orbitOf s' o).ξ ^ 4 := by unfold powi4; ring
  rw [hp4]
  generalize (orbitOf s' o).η = η at *
  generalize (orbitOf s' o).ξ = ξ at *
  generalize (orbitOf s' o).ψ = ψ at *
  generalize (orbitOf s' o).β = β at *
  generalize (orbitOf s' o).θ = θ at *
  generalize (orbitOf s' o).a = a at *
  generalize (orbitOf s' o).q4 = q4 at *
  generalize (orbitOf s' o).n = n at *
  generalize (orbitOf s' o).e = e at *
  generalize (orbitOf s' o).bstar = b at *
  generalize ψ ^ (7 / 2 : ℝ) = ψ7 at *
  generalize Real.cos (2 * (orbitOf s' o).argp) = c2
  generalize Real.cos (orbitOf s' o).argp = c1
  generalize Real.cos (orbitOf s' o).anom = c3
  generalize Real.sin (orbitOf s' o).inc = si
  generalize k2 = k at *
  generalize a30 = a3 at *
  clear h h1 h2 h3 h4 h5 h6 h7 h8 h9 h10 i1 i2 i3 i4 i5 i6 i7 i8 i9 i10 i11 e1 e2 e3 e4 e5 e6 k1 k5
  refine ⟨trivial, ?_, ?_, ?_, ?_, ?_, ?_, ?_, ?_, trivial⟩
  · norm_num1; ring
  · norm_num1; ring
  · norm_num1; ring
  · split
    · norm_num1; field_simp
    · norm_num1; ring
  · split
    · norm_num1; ring
    · norm_num1
  · norm_num1; field_simp; ring
  · norm_num1; ring
  · norm_num1; ring

/-- **C57.** The higher drag terms: the published ones for a near-earth orbit with perigee at or above 220 km, and zero for lower
perigees and for deep-space orbits. -/
theorem C57_drag_series (s s' : Satrec ℝ) (o : SGP4InitOptions ℝ) (r : Except SGP4Error (SGP4Result ℝ))
    (h : sgp4init s o = some (s', r)) (he : 0 ≤ o.xecco ∧ o.xecco < 1) :
    let q := orbitOf s' o
    (s'.method = .N → 220 ≤ q.perigeeKm →
      s'.d2 = q.D2 ∧ s'.d3 = q.D3 ∧ s'.d4 = q.D4 ∧ s'.t3cof = q.D2 + 2 * q.C1 ^ 2 ∧
      s'.t4cof = 1 / 4 * (3 * q.D3 + 12 * q.C1 * q.D2 + 10 * q.C1 ^ 3) ∧
      s'.t5cof = 1 / 5 * (3 * q.D4 + 12 * q.C1 * q.D3 + 6 * q.D2 ^ 2 + 30 * q.C1 ^ 2 * q.D2 + 15 * q.C1 ^ 4) ∧ s'.isimp = 0) ∧
    (s'.method = .D ∨ q.perigeeKm < 220 →
      s'.d2 = 0 ∧ s'.d3 = 0 ∧ s'.d4 = 0 ∧ s'.t3cof = 0 ∧ s'.t4cof = 0 ∧ s'.t5cof = 0 ∧ s'.isimp = 1) := by
  obtain ⟨h1, h2⟩ := initRecord_near s o (guard_real he)
  have hl := (sgp4init_left h).1
  have hs : s'.isimp = (initRecord s o).isimp := (congrArg (fun x : Satrec ℝ => x.isimp) hl).trans rfl
  have hm : s'.method = (initRecord s o).method := (congrArg (fun x : Satrec ℝ => x.method) hl).trans rfl
  have hd2 : s'.d2 = (initRecord s o).d2 := (congrArg (fun x : Satrec ℝ => x.d2) hl).trans rfl
  have hd3 : s'.d3 = (initRecord s o).d3 := (congrArg (fun x : Satrec ℝ => x.d3) hl).trans rfl
  have hd4 : s'.d4 = (initRecord s o).d4 := (congrArg (fun x : Satrec ℝ => x.d4) hl).trans rfl
  have ht3 : s'.t3cof = (initRecord s o).t3cof := (congrArg (fun x : Satrec ℝ => x.t3cof) hl).trans rfl
  have ht4 : s'.t4cof = (initRecord s o).t4cof := (congrArg (fun x : Satrec ℝ => x.t4cof) hl).trans rfl
  have ht5 : s'.t5cof = (initRecord s o).t5cof := (congrArg (fun x : Satrec ℝ => x.t5cof) hl).trans rfl
  obtain ⟨c1, c2, -⟩ := C57_drag_coefficients s s' o r h he
  have hc1 : s'.cc1 = (initNear (initStart s o) (initlOf (resetSatrec s o) o.epoch)).1.cc1 := (stored_near h he).2.1
  obtain ⟨i1, i2, -, -, -, -, -, -, -, -, i11, -⟩ := initlOf_orbit h he rfl
  dsimp only at h1 h2 c1 c2 ⊢
  rw [hs, hm, hd2, hd3, hd4, ht3, ht4, ht5, h1]
  have hR : (EARTH_RADIUS : ℝ) = kmPerRadius := rfl
  have hkm : (0:ℝ) < kmPerRadius := by unfold kmPerRadius; norm_num
  have l2 : (220.0:ℝ) = 220 ∧ (1.0:ℝ) = 1 := by norm_num
  have hper : (i : InitlReturn ℝ) → i.rp = (orbitOf s' o).a * (1 - (orbitOf s' o).e) →
      (((i.rp <. (220.0 / EARTH_RADIUS) + 1.0) = true) ↔ (orbitOf s' o).perigeeKm < 220) := by
    intro i hi
    simp only [real_flt, decide_eq_true_eq, hi, hR, l2.1, l2.2, Orbit.perigeeKm]
    rw [← lt_div_iff₀ hkm, sub_lt_iff_lt_add]
  have hsf : (initNear (initStart s o) (initlOf (resetSatrec s o) o.epoch)).2.sfour = (orbitOf s' o).s := by
    have : (initNear (initStart s o) (initlOf (resetSatrec s o) o.epoch)).2.sfour =
      (dragParams (initlOf (resetSatrec s o) o.epoch).rp).1 := rfl
    rw [this, i11, dragParams_report]
  have hts : (initNear (initStart s o) (initlOf (resetSatrec s o) o.epoch)).2.tsi = (orbitOf s' o).ξ := by
    have : (initNear (initStart s o) (initlOf (resetSatrec s o) o.epoch)).2.tsi =
      1.0 / ((initlOf (resetSatrec s o) o.epoch).ao - (initNear (initStart s o) (initlOf (resetSatrec s o) o.epoch)).2.sfour) := rfl
    rw [this, i2, hsf, Orbit.ξ, l2.2]
  have hsi : (initNear (initStart s o) (initlOf (resetSatrec s o) o.epoch)).1.isimp =
      if (initlOf (resetSatrec s o) o.epoch).rp <. (220.0 / EARTH_RADIUS) + 1.0 then 1 else 0 := rfl
  have hmN : (initNear (initStart s o) (initlOf (resetSatrec s o) o.epoch)).1.method = .N := rfl
  have hz : ∀ x : Satrec ℝ, x = (initNear (initStart s o) (initlOf (resetSatrec s o) o.epoch)).1 →
      x.d2 = 0.0 ∧ x.d3 = 0.0 ∧ x.d4 = 0.0 ∧ x.t3cof = 0.0 ∧ x.t4cof = 0.0 ∧ x.t5cof = 0.0 := by
    intro x hx; subst hx; exact ⟨rfl, rfl, rfl, rfl, rfl, rfl⟩
  have hper' := hper _ i11
  obtain ⟨z1, z2, z3, z4, z5, z6⟩ := hz _ rfl
  have hdr : ∀ x : Satrec ℝ, x.toSatNear = { (initNear (initStart s o) (initlOf (resetSatrec s o) o.epoch)).1.toSatNear with
      method := x.method, isimp := x.isimp } → ∀ i : InitlReturn ℝ, ∀ p : NearTmp ℝ, i.ao = (orbitOf s' o).a →
      p.sfour = (orbitOf s' o).s → p.tsi = (orbitOf s' o).ξ → x.isimp = 0 → 
      let q := orbitOf s' o
      let y := initDrag x i p
      y.d2 = q.D2 ∧ y.d3 = q.D3 ∧ y.d4 = q.D4 ∧ y.t3cof = q.D2 + 2 * q.C1 ^ 2 ∧
      y.t4cof = 1 / 4 * (3 * q.D3 + 12 * q.C1 * q.D2 + 10 * q.C1 ^ 3) ∧
      y.t5cof = 1 / 5 * (3 * q.D4 + 12 * q.C1 * q.D3 + 6 * q.D2 ^ 2 + 30 * q.C1 ^ 2 * q.D2 + 15 * q.C1 ^ 4) ∧ y.isimp = 0 := by
    intro x hx i p ha hs4 ht hi0
    have hcx : x.cc1 = (orbitOf s' o).C1 := by rw [hx, ← hc1, c2]
    have hi1 : x.isimp ≠ 1 := by rw [hi0]; decide
    dsimp only
    unfold initDrag
    rw [if_pos hi1]
    dsimp only
    rw [hi0, ha, hs4, ht, hcx]
    simp only [Orbit.D2, Orbit.D3, Orbit.D4]
    generalize (orbitOf s' o).C1 = c
    generalize (orbitOf s' o).s = s
    generalize (orbitOf s' o).ξ = ξ
    generalize (orbitOf s' o).a = a
    refine ⟨?_, ?_, ?_, ?_, ?_, ?_, trivial⟩ <;> norm_num1 <;> ring
  have hsame : ∀ x : Satrec ℝ, x.toSatNear = { (initNear (initStart s o) (initlOf (resetSatrec s o) o.epoch)).1.toSatNear with
      method := x.method, isimp := x.isimp } → ∀ i : InitlReturn ℝ, ∀ p : NearTmp ℝ, x.isimp = 1 → 
      let y := initDrag x i p
      y.d2 = 0 ∧ y.d3 = 0 ∧ y.d4 = 0 ∧ y.t3cof = 0 ∧ y.t4cof = 0 ∧ y.t5cof = 0 ∧ y.isimp = 1 := by
    intro x hx i p hi
    dsimp only
    unfold initDrag
    rw [if_neg (by rw [hi]; simp)]
    have l0 : (0.0:ℝ) = 0 := by norm_num
    refine ⟨?_, ?_, ?_, ?_, ?_, ?_, hi⟩ <;> rw [hx, ← l0] <;> assumption
  generalize hX : initDeep (initNear (initStart s o) (initlOf (resetSatrec s o) o.epoch)).1 (initlOf (resetSatrec s o) o.epoch) o.epoch
    (initNear (initStart s o) (initlOf (resetSatrec s o) o.epoch)).2.xpidot = X at *
  have hXD : (X.method = .D ∧ X.isimp = 1) ∨ (X.method = .N ∧ X.isimp = (initNear (initStart s o) (initlOf (resetSatrec s o) o.epoch)).1.isimp) := by
    rw [← hX]; unfold initDeep
    split
    · exact Or.inl ⟨rfl, rfl⟩
    · exact Or.inr ⟨hmN, rfl⟩
  rw [(initDrag_method _ _ _).1]
  constructor
  · intro hN hp
    apply hdr X h2 _ _ i2 hsf hts
    rcases hXD with ⟨hD, -⟩ | ⟨-, hI⟩
    · rw [hN] at hD; cases hD
    · rw [hI, hsi, if_neg (by rw [hper']; exact not_lt.mpr hp)]
  · intro hD
    apply hsame X h2
    rcases hXD with ⟨-, hI⟩ | ⟨hN, hI⟩
    · exact hI
    · rcases hD with hD | hp
      · rw [hN] at hD; cases hD
      · rw [hI, hsi, if_pos (hper'.mpr hp)]

theorem longCoefs_report (inc : ℝ) : aycofOf (Real.sin inc) = longAy inc ∧ xlcofOf (Real.sin inc) (Real.cos inc) = longL inc := by
  have k5 : (J3OJ2 : ℝ) = -a30 / (2 * k2) := by unfold J3OJ2 J3 J2 a30 k2 j2 j3; norm_num
  unfold aycofOf xlcofOf longAy longL
  rw [k5]
  constructor
  · norm_num1; ring
  · have l1 : (1.0:ℝ) = 1 := by norm_num
    have l2 : (1.5e-12 : ℝ) = 1.5 / 10 ^ 12 := by norm_num
    have h0 : 0 ≤ 1 + Real.cos inc := by linarith [Real.neg_one_le_cos inc]
    simp only [real_abs, real_flt, decide_eq_true_eq, l1, l2]
    rw [add_comm (Real.cos inc) 1, abs_of_nonneg h0]
    split
    · rename_i h
      rw [max_eq_left h.le]; norm_num1; ring
    · rename_i h
      rw [max_eq_right (not_lt.mp h)]; norm_num1; ring

/-- **C57.** The long-period coefficients of a near-earth orbit are the published ones. -/
theorem C57_long_period_coefficients (s s' : Satrec ℝ) (o : SGP4InitOptions ℝ) (r : Except SGP4Error (SGP4Result ℝ))
    (h : sgp4init s o = some (s', r)) (he : 0 ≤ o.xecco ∧ o.xecco < 1) (hN : s'.method = .N) :
    s'.aycof = longAy o.xinclo ∧ s'.xlcof = longL o.xinclo ∧
    s'.con41 = 3 * Real.cos o.xinclo ^ 2 - 1 ∧ s'.x1mth2 = 1 - Real.cos o.xinclo ^ 2 ∧
    s'.x7thm1 = 7 * Real.cos o.xinclo ^ 2 - 1 := by
  obtain ⟨h1, h2⟩ := initRecord_near s o (guard_real he)
  obtain ⟨hl, hl2⟩ := sgp4init_left h
  have hm : s'.method = (initRecord s o).method := (congrArg (fun x : Satrec ℝ => x.method) hl).trans rfl
  have hl := hl2 (hm.symm.trans hN)
  have ha : s'.aycof = (initRecord s o).aycof := (congrArg (fun x : Satrec ℝ => x.aycof) hl).trans rfl
  have hx : s'.xlcof = (initRecord s o).xlcof := (congrArg (fun x : Satrec ℝ => x.xlcof) hl).trans rfl
  have h3 : s'.con41 = (initRecord s o).con41 := (congrArg (fun x : Satrec ℝ => x.con41) hl).trans rfl
  have h4 : s'.x1mth2 = (initRecord s o).x1mth2 := (congrArg (fun x : Satrec ℝ => x.x1mth2) hl).trans rfl
  have h5 : s'.x7thm1 = (initRecord s o).x7thm1 := (congrArg (fun x : Satrec ℝ => x.x7thm1) hl).trans rfl
  obtain ⟨-, -, -, -, i5, i6, i7, i8, -⟩ := initlOf_orbit h he rfl
  dsimp only at h1 h2 ⊢
  rw [ha, hx, h3, h4, h5, h1, initDrag_near]
  dsimp only
  rw [h2]
  dsimp only
  have e1 : (initNear (initStart s o) (initlOf (resetSatrec s o) o.epoch)).1.aycof = aycofOf (initlOf (resetSatrec s o) o.epoch).sinio := rfl
  have e2 : (initNear (initStart s o) (initlOf (resetSatrec s o) o.epoch)).1.xlcof =
    xlcofOf (initlOf (resetSatrec s o) o.epoch).sinio (initlOf (resetSatrec s o) o.epoch).cosio := rfl
  have e3 : (initNear (initStart s o) (initlOf (resetSatrec s o) o.epoch)).1.con41 = (initlOf (resetSatrec s o) o.epoch).con41 := rfl
  have e4 : (initNear (initStart s o) (initlOf (resetSatrec s o) o.epoch)).1.x1mth2 = 1.0 - (initlOf (resetSatrec s o) o.epoch).cosio2 := rfl
  have e5 : (initNear (initStart s o) (initlOf (resetSatrec s o) o.epoch)).1.x7thm1 = 7.0 * (initlOf (resetSatrec s o) o.epoch).cosio2 - 1.0 := rfl
  rw [e1, e2, e3, e4, e5, i5, i6, i7, i8]
  have hθ : (orbitOf s' o).θ = Real.cos o.xinclo := rfl
  have hi : (orbitOf s' o).inc = o.xinclo := rfl
  rw [hθ, hi]
  obtain ⟨l1, l2⟩ := longCoefs_report o.xinclo
  refine ⟨l1, l2, rfl, by norm_num1; rfl, by norm_num1; rfl⟩

end Sat
