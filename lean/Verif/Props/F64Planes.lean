import Verif.Props.F64Text
import Verif.Props.F64Observe
import Verif.Props.WriteRead

/-!
# Orbital planes of a constellation

C102: two element sets that differ only in the node give states that differ by the rotation between their nodes, from text and in doubles.
-/

namespace Sat
open Spec Spec.R3 F64

/-- the same orbit, apart from its node (and its label, epoch and derivatives) -/
structure Spec.Tle.Alike (v v' : Tle) : Prop where
  incl : v'.inclE4 = v.inclE4
  ecc : v'.eccE7 = v.eccE7
  argp : v'.argpE4 = v.argpE4
  mo : v'.moE4 = v.moE4
  no : v'.noE8 = v.noE8
  bneg : v'.bstarNeg = v.bstarNeg
  bmant : v'.bstarMant = v.bstarMant
  beneg : v'.bstarExpNeg = v.bstarExpNeg
  bexp : v'.bstarExp = v.bstarExp

theorem alike_orbit {v v' : Tle} (h : v.Alike v') : tleOrbit v' = tleOrbit v ∧ tleEcc v' = tleEcc v ∧ tleDrag v' = tleDrag v ∧ tleLow v' = tleLow v := by
  have h1 : tleEcc v' = tleEcc v := by unfold tleEcc; rw [h.ecc]
  have h2 : tleOrbit v' = tleOrbit v := by
    unfold tleOrbit
    rw [h1, h.incl, h.argp, h.mo, h.bneg, h.bmant, h.beneg, h.bexp, show tleMotion v' = tleMotion v by unfold tleMotion; rw [h.no]]
  refine ⟨h2, h1, ?_, ?_⟩
  · unfold tleDrag; rw [h.bneg, h.bmant, h.beneg, h.bexp]
  · unfold tleLow; rw [h2, h1]

theorem alike_low {v v' : Tle} (h : v.Alike v') (hn : v'.nodeE4 ≤ 3600000) {τ : ℝ} (hl : LowTle v τ) : LowTle v' τ := by
  obtain ⟨e1, e2, e3, e4⟩ := alike_orbit h
  obtain ⟨a1, a2, a3, a4, a5, a6, a7, a8, a9, a10, a11, a12⟩ := hl
  exact ⟨by rw [h.ecc]; exact a1, by rw [h.ecc, e2, e3, e4]; exact a2, by rw [h.no]; exact a3, by rw [h.no]; exact a4, by rw [h.incl]; exact a5,
    by rw [h.argp]; exact a6, hn, by rw [h.mo]; exact a8, by rw [e3, e4]; exact a9, by rw [e1, e2]; exact a10, a11, by rw [e3, e4]; exact a12⟩

/-- The published theory is symmetric about the axis of the Earth: another node rotates the orbit. -/
theorem theory_rotates (o : Orbit) (node δ τ : ℝ) :
    let m := o.mean node τ
    let m' := o.mean (node + δ) τ
    (∀ E, m'.correction E = m.correction E) ∧ (∀ k, m'.newton k = m.newton k) ∧
      ∀ E, vec (m'.positionKm E) = rotZ δ (vec (m.positionKm E)) ∧ vec (m'.velocityKmS E) = rotZ δ (vec (m.velocityKmS E)) := by
  intro m m'
  have hU : m'.U = m.U := by
    simp only [m, m', Mean.U, Mean.axN, Orbit.mean, Orbit.L, Orbit.Ω]; ring
  have hk : ∀ E, m'.kepler E = m.kepler E := by
    intro E; unfold Mean.kepler; rw [hU]; rfl
  have hc : ∀ E, m'.correction E = m.correction E := by
    intro E; unfold Mean.correction; rw [hk]; rfl
  have hn : ∀ k, m'.newton k = m.newton k := by
    intro k
    induction k with
    | zero => exact hU
    | succ k ih => simp only [Mean.newton]; rw [ih, hc]
  refine ⟨hc, hn, fun E => ?_⟩
  have hΩ : m'.Ωk E = m.Ωk E + δ := by
    have e : m'.Ω = m.Ω + δ := by simp only [m, m', Orbit.mean, Orbit.Ω]; ring
    unfold Mean.Ωk
    rw [e]
    have e1 : m'.θ = m.θ := rfl
    have e2 : m'.pL = m.pL := rfl
    have e3 : m'.sin2u E = m.sin2u E := rfl
    rw [e1, e2, e3]; ring
  have hi : m'.ik E = m.ik E := rfl
  have hu : m'.uk E = m.uk E := rfl
  have hr : m'.rk E = m.rk E := rfl
  have hd : m'.rdotk E = m.rdotk E := rfl
  have hf : m'.rfdotk E = m.rfdotk E := rfl
  constructor
  · unfold vec rotZ Mean.positionKm Mean.Uvec
    rw [hΩ, hi, hu, hr, Real.sin_add, Real.cos_add]
    ext <;> simp <;> ring
  · unfold vec rotZ Mean.velocityKmS Mean.Uvec Mean.Vvec
    rw [hΩ, hi, hu, hd, hf, Real.sin_add, Real.cos_add]
    ext <;> simp <;> ring

/-- errors of two vectors, one of which is to be rotated onto the other -/
theorem close_rotated {p p' : Vec3 F64} {w : Vec3 ℝ} {δ ε : ℝ} (h : p.Close w ε) (h' : p'.Close (rotZ δ w) ε) :
    p'.Close (rotZ δ p.exact) (5 / 2 * ε) := by
  obtain ⟨⟨-, x⟩, ⟨-, y⟩, ⟨-, z⟩⟩ := h
  obtain ⟨⟨fx, x'⟩, ⟨fy, y'⟩, ⟨fz, z'⟩⟩ := h'
  have hε : 0 ≤ ε := (abs_nonneg _).trans x
  have key : ∀ a b c s : ℝ, |a| ≤ ε → |b| ≤ ε → c ^ 2 + s ^ 2 = 1 → |a * c + b * s| ≤ 3 / 2 * ε := by
    intro a b c s ha hb hcs
    have h1 : (a * c + b * s) ^ 2 ≤ (a ^ 2 + b ^ 2) * (c ^ 2 + s ^ 2) := by nlinarith [sq_nonneg (a * s - b * c)]
    have h2 : a ^ 2 ≤ ε ^ 2 := sq_le_sq' (abs_le.mp ha).1 (abs_le.mp ha).2
    have h3 : b ^ 2 ≤ ε ^ 2 := sq_le_sq' (abs_le.mp hb).1 (abs_le.mp hb).2
    refine abs_le_of_sq_le_sq ?_ (by linarith)
    rw [hcs] at h1
    nlinarith [sq_nonneg ε]
  have t := Real.cos_sq_add_sin_sq δ
  refine ⟨⟨fx, ?_⟩, ⟨fy, ?_⟩, ⟨fz, ?_⟩⟩
  · have k := key (w.x - p.x.val) (w.y - p.y.val) (Real.cos δ) (-Real.sin δ) (by rw [abs_sub_comm]; exact x) (by rw [abs_sub_comm]; exact y) (by rw [neg_sq]; exact t)
    have e : p'.x.val - (rotZ δ p.exact).x = (p'.x.val - (rotZ δ w).x) + ((w.x - p.x.val) * Real.cos δ + (w.y - p.y.val) * -Real.sin δ) := by
      simp only [rotZ, Vec3.exact]; ring
    rw [e]
    exact (abs_add_le _ _).trans (by linarith)
  · have k := key (w.x - p.x.val) (w.y - p.y.val) (Real.sin δ) (Real.cos δ) (by rw [abs_sub_comm]; exact x) (by rw [abs_sub_comm]; exact y) (by rw [add_comm]; exact t)
    have e : p'.y.val - (rotZ δ p.exact).y = (p'.y.val - (rotZ δ w).y) + ((w.x - p.x.val) * Real.sin δ + (w.y - p.y.val) * Real.cos δ) := by
      simp only [rotZ, Vec3.exact]; ring
    rw [e]
    exact (abs_add_le _ _).trans (by linarith)
  · have e : p'.z.val - (rotZ δ p.exact).z = (p'.z.val - (rotZ δ w).z) + (w.z - p.z.val) := by
      simp only [rotZ, Vec3.exact]; ring
    rw [e]
    have := abs_sub_comm w.z p.z.val
    exact (abs_add_le _ _).trans (by linarith)

variable [Libm]

/-- **C102.** Two printed element sets of an ordinary low orbit that differ only in the node (and in number, epoch and derivatives): both are accepted, and at any number of minutes after their epochs, up to a month, the second
satellite is where the first one would be after a turn about the axis of the Earth by the difference of the printed nodes, to within 2.5 metres and 5 millimetres per second in every component, as computed in doubles. -/
theorem C102_planes (hL : Libm.Faithful) (l1 l2 l1' l2' : Str) (v v' : Tle) (h : Printed l1 l2 v) (h' : Printed l1' l2' v')
    (hpos : v.nddotNeg = false ∨ v.nddotMant = 0) (hpos' : v'.nddotNeg = false ∨ v'.nddotMant = 0)
    (hnd : Normal v.nddotMant) (hnd' : Normal v'.nddotMant) (hb : Normal v.bstarMant) (ha : v.Alike v') (hn : v'.nodeE4 ≤ 3600000)
    (t : F64) (ht : t.Fin) (hl : LowTle v t.val) :
    ∃ (s s' : Satrec F64) (p p' : SGP4Result F64), twoline2satrec l1 l2 = .ok s ∧ twoline2satrec l1' l2' = .ok s' ∧
      (sgp4 s t).map Prod.snd = some (.ok p) ∧ (sgp4 s' t).map Prod.snd = some (.ok p') ∧
      let δ := ((v'.nodeE4 : ℝ) - v.nodeE4) / 10 ^ 4 * (Real.pi / 180)
      p'.position.Close (rotZ δ p.position.exact) (5 / 2 / 10 ^ 3) ∧ p'.velocity.Close (rotZ δ p.velocity.exact) (5 / 10 ^ 6) := by
  obtain ⟨s, p, a1, a2, a3⟩ := C85_text_to_state_f64 hL l1 l2 v h hpos hnd hb t ht hl
  obtain ⟨s', p', b1, b2, b3⟩ := C85_text_to_state_f64 hL l1' l2' v' h' hpos' hnd' (by rw [Normal, ha.bmant]; exact hb) t ht (alike_low ha hn hl)
  refine ⟨s, s', p, p', a1, b1, a2, b2, ?_⟩
  intro δ
  obtain ⟨k, k1, k2, k3, k4, k5⟩ := a3
  obtain ⟨j, j1, j2, j3, j4, j5⟩ := b3
  rw [(alike_orbit ha).1] at j2 j3 j4 j5
  have hδ : tleNode v' = tleNode v + δ := by simp only [tleNode, δ]; ring
  rw [hδ] at j2 j3 j4 j5
  obtain ⟨r1, r2, r3⟩ := theory_rotates (tleOrbit v) (tleNode v) δ t.val
  simp only [r1, r2] at j2 j3 j4 j5
  have hkj : j = k := by
    rcases lt_trichotomy j k with hlt | he | hlt
    · exfalso
      have := k2 j hlt
      rcases j3 with j3 | j3
      · omega
      · linarith
    · exact he
    · exfalso
      have := j2 k hlt
      rcases k3 with k3 | k3
      · omega
      · linarith
  subst hkj
  rw [(r3 _).1] at j4
  rw [(r3 _).2] at j5
  have c1 := close_rotated k4 j4
  have c2 := close_rotated k5 j5
  exact ⟨by convert c1 using 1; norm_num, by convert c2 using 1; norm_num⟩

/-- The hypotheses are met: the station of the test suite, and a second one, written with another number and a node 120 degrees smaller. -/
example (hL : Libm.Faithful) (t : F64) (ht : t.Fin) (hm : |t.val| ≤ 40000) :
    let v' : Tle := { issTle with satnum := "99999".toList, nodeE4 := issTle.nodeE4 - 1200000 }
    ∃ (s s' : Satrec F64) (p p' : SGP4Result F64), twoline2satrec (writeLine1 issTle) (writeLine2 issTle) = .ok s ∧
      twoline2satrec (writeLine1 v') (writeLine2 v') = .ok s' ∧
      (sgp4 s t).map Prod.snd = some (.ok p) ∧ (sgp4 s' t).map Prod.snd = some (.ok p') ∧
      p'.position.Close (rotZ (-(2 * Real.pi / 3)) p.position.exact) (5 / 2 / 10 ^ 3) := by
  intro v'
  have w : issTle.Fits := by
    constructor <;> first | (unfold Ascii; decide) | decide
  have w' : v'.Fits := by
    constructor <;> first | (unfold Ascii; decide) | decide
  obtain ⟨s, s', p, p', a1, a2, a3, a4, a5, -⟩ := C102_planes hL _ _ _ _ issTle v' (C99_writable _ w) (C99_writable _ w') (Or.inl rfl) (Or.inl rfl)
    (Or.inl rfl) (Or.inl rfl) (by unfold Normal; decide) ⟨rfl, rfl, rfl, rfl, rfl, rfl, rfl, rfl, rfl⟩ (by decide) t ht (iss_low hm)
  refine ⟨s, s', p, p', a1, a2, a3, a4, ?_⟩
  have e : ((v'.nodeE4 : ℝ) - issTle.nodeE4) / 10 ^ 4 * (Real.pi / 180) = -(2 * Real.pi / 3) := by
    have h1 : (v'.nodeE4 : ℝ) = issTle.nodeE4 - 1200000 := by
      simp only [v', issTle]; norm_num
    rw [h1]; ring
  rw [e] at a5
  exact a5

end Sat
