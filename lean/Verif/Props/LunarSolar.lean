import Verif.Spec.DeepSpec
import Verif.Model.Dscom
/-!
# C52: the geometry of the lunar-solar terms
-/

set_option linter.unusedSimpArgs false

namespace Sat
open Spec

/-- first in-plane direction of a body whose orbit has node `(ch, sh)`, inclination `(ci, si)` and reference angle `(cg, sg)`
(cosine, sine) -/
noncomputable def bodyX (cg sg ci si ch sh : ℝ) : Vec3 ℝ := ⟨cg * ch - sg * ci * sh, cg * sh + sg * ci * ch, sg * si⟩
/-- second in-plane direction -/
noncomputable def bodyY (cg sg ci si ch sh : ℝ) : Vec3 ℝ := ⟨-sg * ch - cg * ci * sh, -sg * sh + cg * ci * ch, cg * si⟩

/-- the literals of `passOut`, normalised -/
theorem pass_real (q : SatTrig ℝ) (b : BodyFrame ℝ) (xnoi : ℝ) :
    let a := aCoef q b
    let x := xCoef q a
    let p := pass q b xnoi
    p.s5 = x.x1 * x.x3 + x.x2 * x.x4 ∧ p.s6 = x.x2 * x.x3 + x.x1 * x.x4 ∧ p.s7 = x.x2 * x.x4 - x.x1 * x.x3 ∧
    p.z31 = 12 * x.x1 ^ 2 - 3 * x.x3 ^ 2 ∧ p.z32 = 24 * x.x1 * x.x2 - 6 * x.x3 * x.x4 ∧
    p.z33 = 12 * x.x2 ^ 2 - 3 * x.x4 ^ 2 ∧
    p.z1 = 6 * (a.a1 ^ 2 + a.a2 ^ 2) + (2 * q.emsq + q.betasq) * p.z31 ∧
    p.z2 = 12 * (a.a1 * a.a3 + a.a2 * a.a4) + (2 * q.emsq + q.betasq) * p.z32 ∧
    p.z3 = 6 * (a.a3 ^ 2 + a.a4 ^ 2) + (2 * q.emsq + q.betasq) * p.z33 ∧
    p.z11 = -6 * a.a1 * a.a5 - q.emsq * (24 * x.x1 * x.x7 + 6 * x.x3 * x.x5) ∧
    p.z12 = -6 * (a.a1 * a.a6 + a.a3 * a.a5)
      - q.emsq * (24 * (x.x2 * x.x7 + x.x1 * x.x8) + 6 * (x.x3 * x.x6 + x.x4 * x.x5)) ∧
    p.z13 = -6 * a.a3 * a.a6 - q.emsq * (24 * x.x2 * x.x8 + 6 * x.x4 * x.x6) ∧
    p.z21 = 6 * a.a2 * a.a5 + q.emsq * (24 * x.x1 * x.x5 - 6 * x.x3 * x.x7) ∧
    p.z22 = 6 * (a.a4 * a.a5 + a.a2 * a.a6)
      + q.emsq * (24 * (x.x2 * x.x5 + x.x1 * x.x6) - 6 * (x.x4 * x.x7 + x.x3 * x.x8)) ∧
    p.z23 = 6 * a.a4 * a.a6 + q.emsq * (24 * x.x2 * x.x6 - 6 * x.x4 * x.x8) := by
  intro a x p
  have e3 : (3.0:ℝ) = 3 := by norm_num
  have e6 : (6.0:ℝ) = 6 := by norm_num
  have e12 : (12.0:ℝ) = 12 := by norm_num
  have e24 : (24.0:ℝ) = 24 := by norm_num
  have hp : p = passOut q a x b.cc xnoi := rfl
  clear_value a x p
  subst hp
  unfold passOut
  simp only [e3, e6, e12, e24]
  refine ⟨trivial, trivial, trivial, ?_, ?_, ?_, ?_, ?_, ?_, ?_, ?_, ?_, ?_, ?_, ?_⟩ <;> first | trivial | ring

/-- The direction cosines `a1..a6` and `x1..x8` are those of `bodyX`, `bodyY` in the orbital frame, whatever the node of the
body (`h`), because `zcosh`, `zsinh` are cosine and sine of the difference of the nodes. -/
theorem thirdBody_of_frame (o : DscomOptions ℝ) (b : BodyFrame ℝ) (xnoi ch sh : ℝ)
    (hc : b.zcosh = ch * Real.cos o.nodep + sh * Real.sin o.nodep)
    (hs : b.zsinh = Real.sin o.nodep * ch - Real.cos o.nodep * sh) :
    ThirdBody o (bodyX b.zcosg b.zsing b.zcosi b.zsini ch sh) (bodyY b.zcosg b.zsing b.zcosi b.zsini ch sh)
      (pass (satTrig o) b xnoi) := by
  obtain ⟨h5, h6, h7, h31, h32, h33, h1, h2, h3, h11, h12, h13, h21, h22, h23⟩ := pass_real (satTrig o) b xnoi
  set a := aCoef (satTrig o) b with ha
  set x := xCoef (satTrig o) a with hx
  set X := bodyX b.zcosg b.zsing b.zcosi b.zsini ch sh with hX
  set Y := bodyY b.zcosg b.zsing b.zcosi b.zsini ch sh with hY
  have pn := Real.sin_sq_add_cos_sq o.nodep
  have pi' := Real.sin_sq_add_cos_sq o.inclp
  have pw := Real.sin_sq_add_cos_sq o.argpp
  have a1 : a.a1 = dot X (nodeDir o.nodep) := by
    simp only [ha, hX, aCoef, bodyX, dot, nodeDir, hc, hs]; ring
  have a3 : a.a3 = dot Y (nodeDir o.nodep) := by
    simp only [ha, hY, aCoef, bodyY, dot, nodeDir, hc, hs]; ring
  have a2 : a.a2 = dot X (aheadDir o.nodep o.inclp) := by
    simp only [ha, hX, aCoef, bodyX, dot, aheadDir, satTrig, real_sin, real_cos, hc, hs]; ring
  have a4 : a.a4 = dot Y (aheadDir o.nodep o.inclp) := by
    simp only [ha, hY, aCoef, bodyY, dot, aheadDir, satTrig, real_sin, real_cos, hc, hs]; ring
  have a5 : a.a5 = dot X (normalDir o.nodep o.inclp) := by
    simp only [ha, hX, aCoef, bodyX, dot, normalDir, satTrig, real_sin, real_cos, hc, hs]; ring
  have a6 : a.a6 = dot Y (normalDir o.nodep o.inclp) := by
    simp only [ha, hY, aCoef, bodyY, dot, normalDir, satTrig, real_sin, real_cos, hc, hs]; ring
  have hper : ∀ V, dot V (perigeeDir o.nodep o.inclp o.argpp) =
      dot V (nodeDir o.nodep) * Real.cos o.argpp + dot V (aheadDir o.nodep o.inclp) * Real.sin o.argpp := by
    intro V; simp only [dot, perigeeDir, along, scale]; ring
  have hlat : ∀ V, dot V (latusDir o.nodep o.inclp o.argpp) =
      -dot V (nodeDir o.nodep) * Real.sin o.argpp + dot V (aheadDir o.nodep o.inclp) * Real.cos o.argpp := by
    intro V; simp only [dot, latusDir, along, scale]; ring
  have x1 : x.x1 = dot X (perigeeDir o.nodep o.inclp o.argpp) := by rw [hper, ← a1, ← a2]; rfl
  have x2 : x.x2 = dot Y (perigeeDir o.nodep o.inclp o.argpp) := by rw [hper, ← a3, ← a4]; rfl
  have x3 : x.x3 = dot X (latusDir o.nodep o.inclp o.argpp) := by rw [hlat, ← a1, ← a2]; rfl
  have x4 : x.x4 = dot Y (latusDir o.nodep o.inclp o.argpp) := by rw [hlat, ← a3, ← a4]; rfl
  have x5 : x.x5 = dot X (normalDir o.nodep o.inclp) * Real.sin o.argpp := by rw [← a5]; rfl
  have x6 : x.x6 = dot Y (normalDir o.nodep o.inclp) * Real.sin o.argpp := by rw [← a6]; rfl
  have x7 : x.x7 = dot X (normalDir o.nodep o.inclp) * Real.cos o.argpp := by rw [← a5]; rfl
  have x8 : x.x8 = dot Y (normalDir o.nodep o.inclp) * Real.cos o.argpp := by rw [← a6]; rfl
  -- the orbital frame is orthonormal, so an inner product is the sum of products of components
  have hfr : ∀ V W, dot V W = dot V (nodeDir o.nodep) * dot W (nodeDir o.nodep)
      + dot V (aheadDir o.nodep o.inclp) * dot W (aheadDir o.nodep o.inclp)
      + dot V (normalDir o.nodep o.inclp) * dot W (normalDir o.nodep o.inclp) := by
    intro V W
    simp only [dot, nodeDir, aheadDir, normalDir]
    generalize Real.sin o.nodep = sn at *
    generalize Real.cos o.nodep = cn at *
    generalize Real.sin o.inclp = si at *
    generalize Real.cos o.inclp = ci at *
    linear_combination (-(V.x * W.x) - V.y * W.y) * pn
      + (-(V.z * W.z) - sn ^ 2 * V.x * W.x - cn ^ 2 * V.y * W.y + sn * cn * (V.x * W.y + V.y * W.x)) * pi'
  have hem : (satTrig o).emsq = o.ep ^ 2 := by simp only [satTrig, real_powi2]
  have hbe : (satTrig o).betasq = 1 - o.ep ^ 2 := by
    simp only [satTrig, real_powi2]; norm_num
  rw [hem] at h11 h12 h13 h21 h22 h23
  rw [hem, hbe] at h1 h2 h3
  have hXX := hfr X X
  have hXY := hfr X Y
  have hYY := hfr Y Y
  constructor
  · rw [h5, x1, x2, x3, x4]
  · rw [h6, x1, x2, x3, x4]
  · rw [h7, x1, x2, x3, x4]
  · rw [h31, x1, x3]
  · rw [h32, x1, x2, x3, x4]
  · rw [h33, x2, x4]
  · rw [h1, a1, a2]; linear_combination -6 * hXX
  · rw [h2, a1, a2, a3, a4]; linear_combination -12 * hXY
  · rw [h3, a3, a4]; linear_combination -6 * hYY
  · rw [h11, a1, a5, x1, x7, x3, x5]; ring
  · rw [h13, a3, a6, x2, x8, x4, x6]; ring
  · rw [h21, a2, a5, x1, x5, x3, x7]; ring
  · rw [h23, a4, a6, x2, x6, x4, x8]; ring
  · rw [h12, a1, a3, a5, a6, x1, x2, x3, x4, x5, x6, x7, x8]; ring
  · rw [h22, a2, a4, a5, a6, x1, x2, x3, x4, x5, x6, x7, x8]; ring

/-- the moon's orientation consists of genuine cosines and sines -/
theorem lunar_trig (epoch tc : ℝ) :
    let l := lunar epoch tc
    l.zcosil ^ 2 + l.zsinil ^ 2 = 1 ∧ 0 < l.zsinil ∧ l.zcoshl ^ 2 + l.zsinhl ^ 2 = 1 ∧ 0 < l.zcoshl ∧
      l.zcosgl ^ 2 + l.zsingl ^ 2 = 1 := by
  intro l
  have hst : l.stem ^ 2 + l.ctem ^ 2 = 1 := Real.sin_sq_add_cos_sq l.xnodce
  have hs1 : -1 ≤ l.stem ∧ l.stem ≤ 1 := ⟨Real.neg_one_le_sin _, Real.sin_le_one _⟩
  have hc1 : -1 ≤ l.ctem ∧ l.ctem ≤ 1 := ⟨Real.neg_one_le_cos _, Real.cos_le_one _⟩
  have hzc : l.zcosil = 0.91375164 - 0.03568096 * l.ctem := rfl
  have hzs : l.zsinil = Real.sqrt (1.0 - l.zcosil * l.zcosil) := rfl
  have hzsh : l.zsinhl = 0.089683511 * l.stem / l.zsinil := rfl
  have hzch : l.zcoshl = Real.sqrt (1.0 - l.zsinhl * l.zsinhl) := rfl
  have hb1 : 0.87 ≤ l.zcosil := by rw [hzc]; norm_num; linarith
  have hb2 : l.zcosil ≤ 0.95 := by rw [hzc]; norm_num; linarith
  have e1 : (1.0:ℝ) = 1 := by norm_num
  have hpos : 0.0975 ≤ 1 - l.zcosil * l.zcosil := by
    norm_num at hb1 hb2 ⊢; nlinarith
  have hsq : l.zsinil ^ 2 = 1 - l.zcosil * l.zcosil := by
    rw [hzs, e1, Real.sq_sqrt]; norm_num at hpos ⊢; linarith
  have hzpos : 0 < l.zsinil := by
    rw [hzs, e1]; apply Real.sqrt_pos.mpr; norm_num at hpos ⊢; linarith
  have hsh : l.zsinhl ^ 2 ≤ 0.09 := by
    rw [hzsh, div_pow, hsq, div_le_iff₀ (by norm_num at hpos ⊢; linarith)]
    have : l.stem ^ 2 ≤ 1 := by nlinarith
    norm_num at hpos this ⊢
    nlinarith
  have hch : l.zcoshl ^ 2 = 1 - l.zsinhl * l.zsinhl := by
    rw [hzch, e1, Real.sq_sqrt]; norm_num at hsh ⊢; nlinarith
  refine ⟨by rw [hsq]; ring, hzpos, by rw [hch]; ring, ?_, ?_⟩
  · rw [hzch, e1]; apply Real.sqrt_pos.mpr; norm_num at hsh ⊢; nlinarith
  · exact Real.cos_sq_add_sin_sq _

theorem body_orthonormal {cg sg ci si ch sh : ℝ} (hg : cg ^ 2 + sg ^ 2 = 1) (hi : ci ^ 2 + si ^ 2 = 1)
    (hh : ch ^ 2 + sh ^ 2 = 1) : Orthonormal2 (bodyX cg sg ci si ch sh) (bodyY cg sg ci si ch sh) := by
  unfold Orthonormal2 dot bodyX bodyY
  refine ⟨?_, ?_, ?_⟩ <;> dsimp only
  · linear_combination (cg ^ 2 + sg ^ 2 * ci ^ 2) * hh + sg ^ 2 * hi + hg
  · linear_combination (sg ^ 2 + cg ^ 2 * ci ^ 2) * hh + cg ^ 2 * hi + hg
  · linear_combination (-sg * cg + sg * cg * ci ^ 2) * hh + sg * cg * hi

/-- **C52.** For every epoch there are two orthonormal vectors — the same for every orbit — such that the lunar sums of every
orbit are those of the orbit and these vectors. -/
theorem C52_moon (epoch tc : ℝ) : ∃ X Y : Vec3 ℝ, Orthonormal2 X Y ∧
    ∀ o : DscomOptions ℝ, o.epoch = epoch → o.tc = tc → ThirdBody o X Y (dscom o).moon := by
  obtain ⟨hi, -, hh, -, hg⟩ := lunar_trig epoch tc
  set l := lunar epoch tc with hl
  refine ⟨bodyX l.zcosgl l.zsingl l.zcosil l.zsinil l.zcoshl l.zsinhl,
    bodyY l.zcosgl l.zsingl l.zcosil l.zsinil l.zcoshl l.zsinhl, body_orthonormal hg hi hh, ?_⟩
  rintro o rfl rfl
  exact thirdBody_of_frame o (lunarFrame (satTrig o) l) _ l.zcoshl l.zsinhl rfl rfl

/-- **C52.** The same for the Sun, whose vectors are fixed and, being built from eight-digit constants, orthonormal to
`3e-8`. -/
theorem C52_sun : ∃ X Y : Vec3 ℝ, |dot X X - 1| ≤ 3e-8 ∧ |dot Y Y - 1| ≤ 3e-8 ∧ |dot X Y| ≤ 3e-8 ∧
    ∀ o : DscomOptions ℝ, ThirdBody o X Y (dscom o).sun := by
  refine ⟨bodyX 0.1945905 (-0.98088458) 0.91744867 0.39785416 1 0,
    bodyY 0.1945905 (-0.98088458) 0.91744867 0.39785416 1 0, ?_, ?_, ?_, ?_⟩
  · unfold dot bodyX; rw [abs_le]; constructor <;> norm_num
  · unfold dot bodyY; rw [abs_le]; constructor <;> norm_num
  · unfold dot bodyX bodyY; rw [abs_le]; constructor <;> norm_num
  · intro o
    exact thirdBody_of_frame o (solarFrame (satTrig o)) _ 1 0 (by simp [solarFrame, satTrig]) (by simp [solarFrame, satTrig])

end Sat
