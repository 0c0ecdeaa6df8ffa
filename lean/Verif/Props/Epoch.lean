import Verif.Props.EndToEnd
/-!
# At epoch: C55

Exact arithmetic.
-/

namespace Sat
open Spec.R3

/-- The outcome as a function of the quantities that enter it. -/
theorem result_congr {F : Type} [Arith F] {s₁ s₂ : Satrec F} {t₁ t₂ : F} (hm : s₁.method = s₂.method) (hno : s₁.no = s₂.no)
    (he : Spec.meanEcc s₁ t₁ = Spec.meanEcc s₂ t₂)
    (hep : s₁.method = .D → (Spec.perturbed s₁ t₁).ep = (Spec.perturbed s₂ t₂).ep)
    (ha : Spec.semiMajor s₁ t₁ = Spec.semiMajor s₂ t₂) (hw : Spec.perigeeR s₁ t₁ = Spec.perigeeR s₂ t₂)
    (hn : Spec.nodeR s₁ t₁ = Spec.nodeR s₂ t₂) (hM : Spec.anomalyR s₁ t₁ = Spec.anomalyR s₂ t₂)
    (hi : Spec.incl s₁ t₁ = Spec.incl s₂ t₂) (hay : Spec.ayCoef s₁ t₁ = Spec.ayCoef s₂ t₂)
    (hxl : Spec.xlCoef s₁ t₁ = Spec.xlCoef s₂ t₂) (h3 : Spec.threeCos s₁ t₁ = Spec.threeCos s₂ t₂)
    (h1 : Spec.oneMinusCos s₁ t₁ = Spec.oneMinusCos s₂ t₂) (h7 : Spec.sevenCos s₁ t₁ = Spec.sevenCos s₂ t₂) :
    Spec.result s₁ t₁ = Spec.result s₂ t₂ := by
  have hec : Spec.ecc s₁ t₁ = Spec.ecc s₂ t₂ := by unfold Spec.ecc; rw [he]
  have hip : Spec.invP s₁ t₁ = Spec.invP s₂ t₂ := by unfold Spec.invP; rw [hec, ha]
  have hax : Spec.axn s₁ t₁ = Spec.axn s₂ t₂ := by unfold Spec.axn; rw [hec, hw]
  have hyn : Spec.ayn s₁ t₁ = Spec.ayn s₂ t₂ := by unfold Spec.ayn; rw [hec, hw, hip, hay]
  have hku : Spec.keplerU s₁ t₁ = Spec.keplerU s₂ t₂ := by unfold Spec.keplerU; rw [hM, hw, hn, hip, hxl, hax]
  have hsc : Spec.sinCosE s₁ t₁ = Spec.sinCosE s₂ t₂ := by unfold Spec.sinCosE; rw [hku, hax, hyn]
  have hsl : Spec.semiLatus s₁ t₁ = Spec.semiLatus s₂ t₂ := by unfold Spec.semiLatus; rw [ha, hax, hyn]
  have hr0 : Spec.radius0 s₁ t₁ = Spec.radius0 s₂ t₂ := by unfold Spec.radius0; rw [ha, hax, hyn, hsc]
  have hbe : Spec.beta s₁ t₁ = Spec.beta s₂ t₂ := by unfold Spec.beta; rw [hax, hyn]
  have hes : Spec.esinE s₁ t₁ = Spec.esinE s₂ t₂ := by unfold Spec.esinE; rw [hax, hyn, hsc, hbe]
  have hsu : Spec.sinU s₁ t₁ = Spec.sinU s₂ t₂ := by unfold Spec.sinU; rw [ha, hr0, hsc, hyn, hax, hes]
  have hcu : Spec.cosU s₁ t₁ = Spec.cosU s₂ t₂ := by unfold Spec.cosU; rw [ha, hr0, hsc, hyn, hax, hes]
  have hk1 : Spec.k1 s₁ t₁ = Spec.k1 s₂ t₂ := by unfold Spec.k1; rw [hsl]
  have hk2 : Spec.k2 s₁ t₁ = Spec.k2 s₂ t₂ := by unfold Spec.k2; rw [hsl, hk1]
  have hc2 : Spec.cos2u s₁ t₁ = Spec.cos2u s₂ t₂ := by unfold Spec.cos2u; rw [hsu]
  have hs2 : Spec.sin2u s₁ t₁ = Spec.sin2u s₂ t₂ := by unfold Spec.sin2u; rw [hsu, hcu]
  have hra : Spec.radius s₁ t₁ = Spec.radius s₂ t₂ := by unfold Spec.radius; rw [hr0, hk2, hbe, h3, hk1, h1, hc2]
  have hal : Spec.argLat s₁ t₁ = Spec.argLat s₂ t₂ := by unfold Spec.argLat; rw [hsu, hcu, hk2, h7, hs2]
  have hns : Spec.nodeS s₁ t₁ = Spec.nodeS s₂ t₂ := by unfold Spec.nodeS; rw [hn, hk2, hi, hs2]
  have his : Spec.inclS s₁ t₁ = Spec.inclS s₂ t₂ := by unfold Spec.inclS; rw [hi, hk2, hc2]
  have hmo : Spec.motion s₁ t₁ = Spec.motion s₂ t₂ := by unfold Spec.motion; rw [ha]
  have hrd : Spec.rdot s₁ t₁ = Spec.rdot s₂ t₂ := by unfold Spec.rdot; rw [ha, hax, hyn, hsc, hr0, hmo, hk1, h1, hs2]
  have hrf : Spec.rfdot s₁ t₁ = Spec.rfdot s₂ t₂ := by unfold Spec.rfdot; rw [hsl, hr0, hmo, hk1, h1, hc2, h3]
  have hpo : Spec.position s₁ t₁ = Spec.position s₂ t₂ := by unfold Spec.position; rw [hra, hal, hns, his]
  have hve : Spec.velocity s₁ t₁ = Spec.velocity s₂ t₂ := by unfold Spec.velocity; rw [hrd, hrf, hal, hns, his]
  unfold Spec.result
  rw [hno, he, ← hm, hsl, hra, hpo, hve]
  by_cases hD : s₁.method = .D
  · rw [hep hD]
  · simp only [hD, false_and, if_false]

/-- everything in a record that depends on the drag term B*, set to zero -/
def noDrag (s : Satrec ℝ) : Satrec ℝ :=
  { s with bstar := 0, cc1 := 0, omgcof := 0, xmcof := 0, nodecf := 0, t2cof := 0, t3cof := 0, t4cof := 0, t5cof := 0, d2 := 0, d3 := 0, d4 := 0 }

/-- At epoch the drag terms vanish. -/
theorem result_noDrag {s : Satrec ℝ} (hd : s.delmo = (1 + s.eta * Real.cos s.mo) ^ 3) (hs : s.sinmao = Real.sin s.mo) :
    Spec.result s 0 = Spec.result (noDrag s) 0 := by
  have hg : ∀ x : Satrec ℝ, Spec.anomalyGravity x 0 = x.mo := by intro x; unfold Spec.anomalyGravity; ring
  have hda : ∀ x : Satrec ℝ, x.delmo = (1 + x.eta * Real.cos x.mo) ^ 3 → Spec.dragAngle x 0 = 0 := by
    intro x hx; unfold Spec.dragAngle; simp only [real_cos]; rw [hg, hx]; norm_num1; ring
  have hmo : ∀ x : Satrec ℝ, x.delmo = (1 + x.eta * Real.cos x.mo) ^ 3 → Spec.anomaly x 0 = x.mo := by
    intro x hx; unfold Spec.anomaly; rw [hg, hda x hx, add_zero, ite_self]
  have hpe : ∀ x : Satrec ℝ, x.delmo = (1 + x.eta * Real.cos x.mo) ^ 3 → Spec.perigee x 0 = x.argpo := by
    intro x hx; unfold Spec.perigee; rw [hda x hx, mul_zero, add_zero, sub_zero, ite_self]
  have hno : ∀ x : Satrec ℝ, Spec.node x 0 = x.nodeo := by intro x; unfold Spec.node; ring
  have hA : ∀ x : Satrec ℝ, Spec.dragA x 0 = 1 := by
    intro x; unfold Spec.dragA; split <;> norm_num
  have hE : ∀ x : Satrec ℝ, x.delmo = (1 + x.eta * Real.cos x.mo) ^ 3 → x.sinmao = Real.sin x.mo → Spec.dragE x 0 = 0 := by
    intro x h1 h2; unfold Spec.dragE; rw [hmo x h1, h2, real_sin, sub_self, mul_zero, mul_zero, add_zero, ite_self]
  have hL : ∀ x : Satrec ℝ, Spec.dragL x 0 = 0 := by
    intro x; unfold Spec.dragL; split <;> norm_num
  have n1 : (noDrag s).delmo = (1 + (noDrag s).eta * Real.cos (noDrag s).mo) ^ 3 := hd
  have n2 : (noDrag s).sinmao = Real.sin (noDrag s).mo := hs
  have e1 : Spec.meanEcc s 0 = Spec.meanEcc (noDrag s) 0 := by
    unfold Spec.meanEcc; rw [hE s hd hs, hE _ n1 n2]; rfl
  have e2 : Spec.perigeeR s 0 = Spec.perigeeR (noDrag s) 0 := by
    unfold Spec.perigeeR; rw [hpe s hd, hpe _ n1]; rfl
  have e3 : Spec.nodeR s 0 = Spec.nodeR (noDrag s) 0 := by
    unfold Spec.nodeR; rw [hno, hno]; rfl
  have e4 : Spec.anomalyR s 0 = Spec.anomalyR (noDrag s) 0 := by
    unfold Spec.anomalyR; rw [e2, e3, hmo s hd, hmo _ n1, hL, hL, hpe s hd, hpe _ n1, hno, hno]; rfl
  have e5 : Spec.ecc s 0 = Spec.ecc (noDrag s) 0 := by unfold Spec.ecc; rw [e1]
  have e6 : (Spec.perturbed s 0) = (Spec.perturbed (noDrag s) 0) := by
    unfold Spec.perturbed; rw [e2, e3, e4, e5]; rfl
  have e7 : Spec.incl s 0 = Spec.incl (noDrag s) 0 := by unfold Spec.incl; rw [e6]; rfl
  refine result_congr rfl rfl e1 (fun _ => by rw [e6]) ?_ e2 e3 e4 e7 ?_ ?_ ?_ ?_ ?_
  · unfold Spec.semiMajor; rw [hA, hA]; rfl
  · unfold Spec.ayCoef; rw [e7]; rfl
  · unfold Spec.xlCoef; rw [e7]; rfl
  · unfold Spec.threeCos; rw [e7]; rfl
  · unfold Spec.oneMinusCos; rw [e7]; rfl
  · unfold Spec.sevenCos; rw [e7]; rfl

/-- Initialisation always returns, with the outcome of the record at epoch. -/
theorem sgp4init_outcome (s : Satrec ℝ) (o : SGP4InitOptions ℝ) :
    ∃ s', sgp4init s o = some (s', Spec.result (initRecord s o) 0) := by
  obtain ⟨s1, r1, h1⟩ := C09_sgp4_returns (initRecord s o) 0.0
  have h2 := C16_outcome _ _ _ _ h1
  have l0 : (0.0 : ℝ) = 0 := by norm_num
  rw [l0] at h2
  subst h2
  unfold sgp4init
  rw [h1]
  cases Spec.result (initRecord s o) 0 with
  | error e => exact ⟨_, rfl⟩
  | ok v => exact ⟨_, rfl⟩

theorem noDrag_initDrag (s : Satrec ℝ) (i : InitlReturn ℝ) (n : NearTmp ℝ) : noDrag (initDrag s i n) = noDrag s := by
  unfold initDrag; split <;> rfl

theorem noDrag_initDeep {s : Satrec ℝ} (h : s.init = .Y) (i : InitlReturn ℝ) (e x : ℝ) :
    noDrag (initDeep s i e x) = initDeep (noDrag s) i e x := by
  unfold initDeep
  have hno : (noDrag s).no = s.no := rfl
  rw [hno]
  split
  · dsimp only
    have hid : ∀ (x : Satrec ℝ) (d : DscomResult ℝ), x.init = .Y → initDpper (storeDscom x d) = storeDscom x d :=
      fun x d hx => initDpper_id hx
    rw [hid, hid]
    · rfl
    · exact h
    · exact h
  · rfl

/-- **C55.** The state at epoch does not depend on the drag term: two element sets that differ only in B* are initialised with the
same position and velocity (or the same error). -/
theorem C55_epoch_without_drag (s : Satrec ℝ) (o : SGP4InitOptions ℝ) (b : ℝ) (he : 0 ≤ o.xecco ∧ o.xecco < 1) :
    (sgp4init s { o with xbstar := b }).map Prod.snd = (sgp4init s o).map Prod.snd := by
  have key : ∀ o : SGP4InitOptions ℝ, 0 ≤ o.xecco ∧ o.xecco < 1 →
      (sgp4init s o).map Prod.snd = some (Spec.result (noDrag (initRecord s o)) 0) := by
    intro o he
    obtain ⟨s', h⟩ := sgp4init_outcome s o
    rw [h]
    show some _ = _
    congr 1
    have hl := (sgp4init_left h).1
    obtain ⟨c1, -, -, -, -, -, -, -, c9, c10⟩ := C57_drag_coefficients s s' o _ h he
    have g1 : s'.delmo = (initRecord s o).delmo := (congrArg (fun x : Satrec ℝ => x.delmo) hl).trans rfl
    have g2 : s'.sinmao = (initRecord s o).sinmao := (congrArg (fun x : Satrec ℝ => x.sinmao) hl).trans rfl
    have g3 : s'.eta = (initRecord s o).eta := (congrArg (fun x : Satrec ℝ => x.eta) hl).trans rfl
    have hel := initRecord_elements s o
    have g4 : (initRecord s o).mo = o.xmo := by rw [hel]
    apply result_noDrag
    · rw [← g1, ← g3, c9, c1, g4]; rfl
    · rw [← g2, c10, g4]; rfl
  rw [key o he, key { o with xbstar := b } he]
  congr 2
  rw [(initRecord_near s o (guard_real he)).1, (initRecord_near s { o with xbstar := b } (guard_real he)).1,
    noDrag_initDrag, noDrag_initDrag]
  rw [noDrag_initDeep rfl, noDrag_initDeep rfl]
  rfl

end Sat
