import Verif.Props.F64Tail
import Verif.Proofs.Refine
/-!
# The propagator in doubles against the propagator in exact arithmetic (near-earth)

`Satrec.exact`: the record with every double replaced by the number it denotes.  `Ordinary s t`: a near-earth record and a time within 100000
minutes (69 days) of epoch for which the run in exact arithmetic has eccentricity at most 0.44, and whose coefficients have the size usual for
such orbits.  `C81`: if moreover the exact run stays outside the earth, then the run in doubles returns a state, each component of which is
within one metre (1 mm/s) of the state returned by the run in exact arithmetic.
-/

namespace Sat
open F64 Spec

/-- the record with every double replaced by the number it denotes -/
noncomputable def Satrec.exact (s : Satrec F64) : Satrec ℝ where
  name := s.name
  init := s.init
  operationmode := s.operationmode
  error := s.error
  satnum := s.satnum
  epochyr := s.epochyr
  epochdays := s.epochdays.val
  ndot := s.ndot.val
  nddot := s.nddot.val
  bstar := s.bstar.val
  inclo := s.inclo.val
  nodeo := s.nodeo.val
  ecco := s.ecco.val
  mo := s.mo.val
  no := s.no.val
  a := s.a.val
  argpo := s.argpo.val
  alta := s.alta.val
  altp := s.altp.val
  jdsatepoch := s.jdsatepoch.val
  isimp := s.isimp
  method := s.method
  aycof := s.aycof.val
  con41 := s.con41.val
  cc1 := s.cc1.val
  cc4 := s.cc4.val
  cc5 := s.cc5.val
  d2 := s.d2.val
  d3 := s.d3.val
  d4 := s.d4.val
  delmo := s.delmo.val
  eta := s.eta.val
  argpdot := s.argpdot.val
  omgcof := s.omgcof.val
  sinmao := s.sinmao.val
  t := s.t.val
  t2cof := s.t2cof.val
  t3cof := s.t3cof.val
  t4cof := s.t4cof.val
  t5cof := s.t5cof.val
  x1mth2 := s.x1mth2.val
  x7thm1 := s.x7thm1.val
  mdot := s.mdot.val
  nodedot := s.nodedot.val
  xlcof := s.xlcof.val
  xmcof := s.xmcof.val
  nodecf := s.nodecf.val
  irez := s.irez.val
  d2201 := s.d2201.val
  d2211 := s.d2211.val
  d3210 := s.d3210.val
  d3222 := s.d3222.val
  d4410 := s.d4410.val
  d4422 := s.d4422.val
  d5220 := s.d5220.val
  d5232 := s.d5232.val
  d5421 := s.d5421.val
  d5433 := s.d5433.val
  dedt := s.dedt.val
  del1 := s.del1.val
  del2 := s.del2.val
  del3 := s.del3.val
  didt := s.didt.val
  dmdt := s.dmdt.val
  dnodt := s.dnodt.val
  domdt := s.domdt.val
  e3 := s.e3.val
  ee2 := s.ee2.val
  peo := s.peo.val
  pgho := s.pgho.val
  pho := s.pho.val
  pinco := s.pinco.val
  plo := s.plo.val
  se2 := s.se2.val
  se3 := s.se3.val
  sgh2 := s.sgh2.val
  sgh3 := s.sgh3.val
  sgh4 := s.sgh4.val
  sh2 := s.sh2.val
  sh3 := s.sh3.val
  si2 := s.si2.val
  si3 := s.si3.val
  sl2 := s.sl2.val
  sl3 := s.sl3.val
  sl4 := s.sl4.val
  gsto := s.gsto.val
  xfact := s.xfact.val
  xgh2 := s.xgh2.val
  xgh3 := s.xgh3.val
  xgh4 := s.xgh4.val
  xh2 := s.xh2.val
  xh3 := s.xh3.val
  xi2 := s.xi2.val
  xi3 := s.xi3.val
  xl2 := s.xl2.val
  xl3 := s.xl3.val
  xl4 := s.xl4.val
  xlamo := s.xlamo.val
  zmol := s.zmol.val
  zmos := s.zmos.val
  atime := s.atime.val
  xli := s.xli.val
  xni := s.xni.val

/-- finite and at most `B` in magnitude -/
def Within (x : F64) (B : ℝ) : Prop := x.Fin ∧ |x.val| ≤ B

/-- Records and times whose secular and drag terms are of ordinary size.  The first group bounds the stored doubles; the second bounds the drag
terms at time `t`; the third is about the run in exact arithmetic. -/
structure Smooth (s : Satrec F64) (t : F64) : Prop where
  time : Within t 100000
  mo : Within s.mo 7
  argpo : Within s.argpo 7
  nodeo : Within s.nodeo 7
  inclo : Within s.inclo 4
  ecco : Within s.ecco 1
  no : Within s.no (8 / 10 ^ 2)
  no_lo : 43 / 10 ^ 4 ≤ s.no.val
  mdot : Within s.mdot (1 / 10)
  argpdot : Within s.argpdot (1 / 64)
  nodedot : Within s.nodedot (1 / 64)
  nodecf : Within s.nodecf 1
  omgcof : Within s.omgcof 1
  xmcof : Within s.xmcof (5 / 10 ^ 2)
  eta : Within s.eta 1
  delmo : Within s.delmo 8
  sinmao : Within s.sinmao 1
  bstar : Within s.bstar 1
  cc1 : Within s.cc1 1
  cc4 : Within s.cc4 1
  cc5 : Within s.cc5 1
  d2 : Within s.d2 1
  d3 : Within s.d3 1
  d4 : Within s.d4 1
  t2cof : Within s.t2cof 1
  t3cof : Within s.t3cof 1
  t4cof : Within s.t4cof 1
  t5cof : Within s.t5cof 1
  dedt : s.method = .D → Within s.dedt 1
  node_t : |s.nodecf.val * (t.val * t.val)| ≤ 8
  omg_t : |s.omgcof.val * t.val| ≤ 8
  cc1_t : |s.cc1.val * t.val| ≤ 25 / 10 ^ 3
  d2_t : |s.d2.val * (t.val * t.val)| ≤ 25 / 10 ^ 3
  d3_t : |s.d3.val * (t.val * t.val * t.val)| ≤ 25 / 10 ^ 3
  d4_t : |s.d4.val * (t.val * t.val * t.val * t.val)| ≤ 25 / 10 ^ 3
  cc4_t : |s.bstar.val * s.cc4.val * t.val| ≤ 25 / 10 ^ 2
  cc5_b : |s.bstar.val * s.cc5.val| ≤ 1 / 10 ^ 3
  t2_t : |s.t2cof.val * (t.val * t.val)| ≤ 8192
  t3_t : |s.t3cof.val * (t.val * t.val * t.val)| ≤ 8192
  t4_t : |s.t4cof.val * (t.val * t.val * t.val * t.val)| ≤ 8192
  t5_t : |s.t5cof.val * t.val * (t.val * t.val * t.val * t.val)| ≤ 8192
  dedt_t : s.method = .D → |s.dedt.val * t.val| ≤ 1
  ecc_lo : -(9 / 10 ^ 4) ≤ meanEcc s.exact t.val
  ecc_hi : meanEcc s.exact t.val ≤ 44 / 10 ^ 2

/-- Near-earth records and times to which the error bound applies. -/
structure Ordinary (s : Satrec F64) (t : F64) : Prop extends Smooth s t where
  near : s.method = .N
  aycof : Within s.aycof (1 / 500)
  xlcof : Within s.xlcof 1
  con41 : Within s.con41 4
  x1mth2 : Within s.x1mth2 2
  x7thm1 : Within s.x7thm1 8

section
variable [Libm]

/-! ## Powers of time, with relative error -/

/-- `x` is `p` up to `n` roundings and a negligible absolute error -/
def Rel (x : F64) (p : ℝ) (n : ℕ) (η : ℝ) : Prop := x.Fin ∧ |x.val - p| ≤ n * |p| / 2 ^ 52 + η

omit [Libm] in
theorem Rel.self {x : F64} (h : x.Fin) : Rel x x.val 0 (1 / 2 ^ 153) := ⟨h, by simp⟩

theorem Rel.mul {x y : F64} {p η : ℝ} {n : ℕ} (h : Rel x p n η) (hy : y.Fin) (hyb : |y.val| ≤ 2 ^ 17) (hp : |p * y.val| ≤ 2 ^ 90) (hn : n ≤ 8)
    (h1 : 1 / 2 ^ 153 ≤ η) (h2 : η ≤ 1 / 2 ^ 50) : Rel (x * y) (p * y.val) (n + 1) (η * 2 ^ 18) := by
  obtain ⟨hf, he⟩ := h
  have e1 : |x.val * y.val - p * y.val| ≤ n * |p * y.val| / 2 ^ 52 + η * 2 ^ 17 := by
    rw [← sub_mul, abs_mul, abs_mul]
    calc |x.val - p| * |y.val| ≤ (n * |p| / 2 ^ 52 + η) * |y.val| := mul_le_mul_of_nonneg_right he (abs_nonneg _)
      _ = n * (|p| * |y.val|) / 2 ^ 52 + η * |y.val| := by ring
      _ ≤ _ := by
        have : η * |y.val| ≤ η * 2 ^ 17 := mul_le_mul_of_nonneg_left hyb (le_trans (by positivity) h1)
        linarith
  have hn' : (n : ℝ) ≤ 8 := by exact_mod_cast hn
  have e2 : (n : ℝ) * |p * y.val| ≤ 8 * |p * y.val| := mul_le_mul_of_nonneg_right hn' (abs_nonneg _)
  have e3 : |x.val * y.val| ≤ |p * y.val| * (1 + 8 / 2 ^ 52) + η * 2 ^ 17 := by
    have e : x.val * y.val = p * y.val + (x.val * y.val - p * y.val) := by ring
    rw [e]
    refine (abs_add_le _ _).trans ?_
    have : (n : ℝ) * |p * y.val| / 2 ^ 52 ≤ 8 * |p * y.val| / 2 ^ 52 := div_le_div_of_nonneg_right e2 (by positivity)
    have : |p * y.val| * (1 + 8 / 2 ^ 52) = |p * y.val| + 8 * |p * y.val| / 2 ^ 52 := by ring
    linarith
  obtain ⟨g1, g2⟩ := (mul_rounds hf hy).near e3 (by norm_num at *; linarith)
  refine ⟨g1, ?_⟩
  have e : (x * y).val - p * y.val = ((x * y).val - x.val * y.val) + (x.val * y.val - p * y.val) := by ring
  rw [e]
  refine (abs_add_le _ _).trans ?_
  have g2' : |(x * y).val - x.val * y.val| ≤ (|p * y.val| * (1 + 8 / 2 ^ 52) + η * 2 ^ 17) / 2 ^ 53 + 1 / 2 ^ 153 := g2
  have hp0 := abs_nonneg (p * y.val)
  push_cast
  norm_num at *
  linarith

omit [Libm] in
theorem Rel.toQ {x : F64} {p η C : ℝ} {n : ℕ} (h : Rel x p n η) (hC : |p| ≤ C) : Q x p C (n * C / 2 ^ 52 + η) := by
  refine ⟨h.1, h.2.trans ?_, hC⟩
  gcongr

/-- a small coefficient times such a power -/
theorem Rel.coef {c x : F64} {p η C : ℝ} {n : ℕ} (h : Rel x p n η) (hc : Within c 1) (hC : |c.val * p| ≤ C) (h0 : 0 ≤ η := by norm_num)
    (hb : C + (n * C / 2 ^ 52 + η) ≤ 2 ^ 100 := by norm_num) :
    Q (c * x) (c.val * p) C (n * C / 2 ^ 52 + η + ((C + (n * C / 2 ^ 52 + η)) / 2 ^ 53 + 1 / 2 ^ 153)) := by
  refine Q.mul' hc.1 h.1 ?_ hC hb
  have hη : |x.val - p| ≤ n * |p| / 2 ^ 52 + η := h.2
  rw [← mul_sub, abs_mul]
  have e1 : |c.val| * (n * |p| / 2 ^ 52 + η) = n * |c.val * p| / 2 ^ 52 + |c.val| * η := by rw [abs_mul]; ring
  have e2 : |c.val| * |x.val - p| ≤ n * |c.val * p| / 2 ^ 52 + |c.val| * η := by
    rw [← e1]; exact mul_le_mul_of_nonneg_left hη (abs_nonneg _)
  have e3 : (n : ℝ) * |c.val * p| / 2 ^ 52 ≤ n * C / 2 ^ 52 := by gcongr
  have := mul_le_mul_of_nonneg_right hc.2 h0
  linarith

/-- the last two terms of the drag series, which the program groups -/
theorem series_end {x t c d : F64} {p C : ℝ} (hx : Rel x p 3 (1 / 2 ^ 99)) (ht : Within t 100000) (hp : |p| ≤ 2 ^ 68) (hc : Within c 1) (hd : Within d 1)
    (h1 : |c.val * p| ≤ C) (h2 : |d.val * t.val * p| ≤ C) (hC : C ≤ 2 ^ 20) :
    Q (x * (c + t * d)) (p * (c.val + t.val * d.val)) (2 * C) (12 * C / 2 ^ 52 + 1 / 2 ^ 50) := by
  have hC0 := (abs_nonneg _).trans h1
  have r1 : Rel (t * d) (t.val * d.val) 1 (1 / 2 ^ 135) := by
    have := (Rel.self ht.1).mul hd.1 (hd.2.trans (by norm_num)) (by
      rw [abs_mul]
      exact (mul_le_mul ht.2 hd.2 (abs_nonneg _) (by norm_num)).trans (by norm_num)) (by norm_num) le_rfl (by norm_num)
    norm_num at this ⊢; exact this
  have b1 : |t.val * d.val| ≤ 100000 := by
    rw [abs_mul]; exact (mul_le_mul ht.2 hd.2 (abs_nonneg _) (by norm_num)).trans (by norm_num)
  -- the inner sum
  have e1 : |c.val + (t * d).val| ≤ |c.val| + |t.val * d.val| * (1 + 1 / 2 ^ 52) + 1 / 2 ^ 135 := by
    have e : (t * d).val = t.val * d.val + ((t * d).val - t.val * d.val) := by ring
    have h3 := r1.2
    refine (abs_add_le _ _).trans ?_
    rw [e]
    have := abs_add_le (t.val * d.val) ((t * d).val - t.val * d.val)
    push_cast at h3
    linarith
  obtain ⟨f1, g1⟩ := (add_rounds hc.1 r1.1).near e1 (by have := hc.2; norm_num at *; linarith)
  have g1' : |(c + t * d).val - (c.val + t.val * d.val)| ≤ 2 * (|c.val| + |t.val * d.val|) / 2 ^ 52 + 1 / 2 ^ 134 := by
    have e : (c + t * d).val - (c.val + t.val * d.val) = ((c + t * d).val - (c.val + (t * d).val)) + ((t * d).val - t.val * d.val) := by ring
    rw [e]
    refine (abs_add_le _ _).trans ?_
    have g2 : |(c + t * d).val - (c.val + (t * d).val)| ≤ (|c.val| + |t.val * d.val| * (1 + 1 / 2 ^ 52) + 1 / 2 ^ 135) / 2 ^ 53 + 1 / 2 ^ 153 := g1
    have h3 := r1.2
    have := abs_nonneg c.val
    have := abs_nonneg (t.val * d.val)
    push_cast at h3
    norm_num at *
    linarith [abs_nonneg c.val, mul_nonneg (abs_nonneg t.val) (abs_nonneg d.val)]
  generalize hI : (c + t * d).val = I at *
  have hcd : |p| * (|c.val| + |t.val * d.val|) ≤ 2 * C := by
    have a1 : |p| * |c.val| ≤ C := by rw [mul_comm, ← abs_mul]; exact h1
    have a2 : |p| * |t.val * d.val| ≤ C := by
      rw [← abs_mul]
      have e : p * (t.val * d.val) = d.val * t.val * p := by ring
      rw [e]; exact h2
    linarith
  set σ := |c.val| + |t.val * d.val| with hσ
  have hσ0 : 0 ≤ σ := by positivity
  have hσ1 : σ ≤ 2 ^ 17 := by have := hc.2; norm_num at *; linarith
  have k1 : |p| * |I - (c.val + t.val * d.val)| ≤ 4 * C / 2 ^ 52 + 1 / 2 ^ 66 := by
    calc _ ≤ |p| * (2 * σ / 2 ^ 52 + 1 / 2 ^ 134) := mul_le_mul_of_nonneg_left g1' (abs_nonneg _)
      _ = 2 * (|p| * σ) / 2 ^ 52 + |p| * (1 / 2 ^ 134) := by ring
      _ ≤ 2 * (2 * C) / 2 ^ 52 + 2 ^ 68 * (1 / 2 ^ 134) := by gcongr
      _ = _ := by norm_num; ring
  have hI1 : |I| ≤ σ * (1 + 2 / 2 ^ 52) + 1 / 2 ^ 134 := by
    have e : I = (c.val + t.val * d.val) + (I - (c.val + t.val * d.val)) := by ring
    have h3 : |c.val + t.val * d.val| ≤ σ := abs_add_le _ _
    rw [e]
    refine (abs_add_le _ _).trans ?_
    have : σ * (1 + 2 / 2 ^ 52) = σ + 2 * σ / 2 ^ 52 := by ring
    linarith
  have k2 : |x.val - p| * |I| ≤ 7 * C / 2 ^ 52 + 1 / 2 ^ 60 := by
    have h3 := hx.2
    push_cast at h3
    calc _ ≤ (3 * |p| / 2 ^ 52 + 1 / 2 ^ 99) * (σ * (1 + 2 / 2 ^ 52) + 1 / 2 ^ 134) :=
          mul_le_mul h3 hI1 (abs_nonneg _) (by positivity)
      _ = 3 * (1 + 2 / 2 ^ 52) * (|p| * σ) / 2 ^ 52 + 3 * |p| / 2 ^ 52 * (1 / 2 ^ 134) + 1 / 2 ^ 99 * (σ * (1 + 2 / 2 ^ 52) + 1 / 2 ^ 134) := by ring
      _ ≤ 3 * (1 + 2 / 2 ^ 52) * (2 * C) / 2 ^ 52 + 3 * 2 ^ 68 / 2 ^ 52 * (1 / 2 ^ 134) + 1 / 2 ^ 99 * (2 ^ 17 * (1 + 2 / 2 ^ 52) + 1 / 2 ^ 134) := by gcongr
      _ ≤ _ := by norm_num at *; linarith
  have k3 : |x.val * I - p * (c.val + t.val * d.val)| ≤ 11 * C / 2 ^ 52 + 1 / 2 ^ 59 := by
    have e : x.val * I - p * (c.val + t.val * d.val) = (x.val - p) * I + p * (I - (c.val + t.val * d.val)) := by ring
    rw [e]
    refine (abs_add_le _ _).trans ?_
    rw [abs_mul, abs_mul]
    norm_num at *
    linarith
  have hm : |p * (c.val + t.val * d.val)| ≤ 2 * C := by
    rw [abs_mul]
    exact (mul_le_mul_of_nonneg_left (abs_add_le _ _) (abs_nonneg _)).trans hcd
  have hq := Q.mul' hx.1 f1 (r := p * (c.val + t.val * d.val)) (C := 2 * C) (η := 11 * C / 2 ^ 52 + 1 / 2 ^ 59) (by
    have : (F64.add c (t * d)).val = I := hI
    rw [this]; exact k3) hm (by norm_num at *; linarith)
  refine hq.mono le_rfl ?_
  norm_num at *
  linarith

omit [Libm] in
theorem pow23 {x : ℝ} (hx : 0 < x) : (x ^ (X2O3 : ℝ)) ^ 3 = x ^ 2 := by
  have e : (X2O3 : ℝ) = 2 / 3 := by show (2.0 : ℝ) / 3.0 = _; norm_num
  rw [e, ← Real.rpow_natCast, ← Real.rpow_mul hx.le, ← Real.rpow_natCast]
  norm_num

omit [Libm] in
theorem XKE_val : (XKE : ℝ) = 0.07436685316871385 := rfl

theorem q_x2o3 : Q (X2O3 : F64) (X2O3 : ℝ) (67 / 10 ^ 2) (75 / 10 ^ 18) := by
  have := ((Q.int 20 true 1 2 (by norm_num)).div (Q.int 30 true 1 3 (by norm_num)) 3 (67 / 10 ^ 2) (by norm_num) (by norm_num)).mono
    (A' := 67 / 10 ^ 2) (δ' := 75 / 10 ^ 18) (by norm_num) (by norm_num)
  exact this

variable {s : Satrec F64} {t : F64}

omit [Libm] in
theorem Within.q {x : F64} {B : ℝ} (h : Within x B) : Q x x.val B 0 := Q.exact h.1 h.2

theorem rel2 (h : Smooth s t) : Rel (t * t) (t.val * t.val) 1 (1 / 2 ^ 135) := by
  have h1 := h.time.2
  have := (Rel.self h.time.1).mul h.time.1 (h1.trans (by norm_num)) (by
    rw [abs_mul]; exact (mul_le_mul h1 h1 (abs_nonneg _) (by norm_num)).trans (by norm_num)) (by norm_num) le_rfl (by norm_num)
  norm_num at this ⊢; exact this

omit [Libm] in
theorem time_pow (h : Smooth s t) : |t.val * t.val| ≤ 10 ^ 10 ∧ |t.val * t.val * t.val| ≤ 10 ^ 15 ∧ |t.val * t.val * t.val * t.val| ≤ 10 ^ 20 := by
  have h1 := h.time.2
  have h2 : |t.val * t.val| ≤ 10 ^ 10 := by
    rw [abs_mul]; exact (mul_le_mul h1 h1 (abs_nonneg _) (by norm_num)).trans (by norm_num)
  have h3 : |t.val * t.val * t.val| ≤ 10 ^ 15 := by
    rw [abs_mul]; exact (mul_le_mul h2 h1 (abs_nonneg _) (by norm_num)).trans (by norm_num)
  refine ⟨h2, h3, ?_⟩
  rw [abs_mul]; exact (mul_le_mul h3 h1 (abs_nonneg _) (by norm_num)).trans (by norm_num)

theorem rel3 (h : Smooth s t) : Rel (t * t * t) (t.val * t.val * t.val) 2 (1 / 2 ^ 117) := by
  have := (rel2 h).mul h.time.1 (h.time.2.trans (by norm_num)) ((time_pow h).2.1.trans (by norm_num)) (by norm_num) (by norm_num) (by norm_num)
  norm_num at this ⊢; exact this

theorem rel4 (h : Smooth s t) : Rel (t * t * t * t) (t.val * t.val * t.val * t.val) 3 (1 / 2 ^ 99) := by
  have := (rel3 h).mul h.time.1 (h.time.2.trans (by norm_num)) ((time_pow h).2.2.trans (by norm_num)) (by norm_num) (by norm_num) (by norm_num)
  norm_num at this ⊢; exact this

theorem o_grav (h : Smooth s t) : Q (anomalyGravity s t) (anomalyGravity s.exact t.val) (10100) (224 / 10 ^ 14) := by
  have g1 := (h.mdot.q.mul h.time.q).mono (A' := 10000) (δ' := 112 / 10 ^ 14) (by norm_num) (by norm_num)
  have g2 := (h.mo.q.add g1).mono (A' := 10100) (δ' := 224 / 10 ^ 14) (by norm_num) (by norm_num)
  exact g2

theorem o_dragAngle (hL : Libm.Faithful) (h : Smooth s t) : Q (dragAngle s t) (dragAngle s.exact t.val) (88 / 10 ^ 1) (139 / 10 ^ 14) := by
  have g1 := (Q.int 10 true 1 1 (by norm_num)).mono (A' := 1) (δ' := 0) (by norm_num) le_rfl
  have g2 := ((o_grav h).angle).mono (A' := 10200) (δ' := 224 / 10 ^ 14) (by norm_num) (by norm_num)
  have g3 := (g2.cos hL).mono (A' := 1) (δ' := 225 / 10 ^ 14) (by norm_num) (by norm_num)
  have g4 := (h.eta.q.mul g3).mono (A' := 1) (δ' := 226 / 10 ^ 14) (by norm_num) (by norm_num)
  have g5 := (g1.add g4).mono (A' := 2) (δ' := 227 / 10 ^ 14) (by norm_num) (by norm_num)
  have g6 := (g5.mul g5).mono (A' := 4) (δ' := 909 / 10 ^ 14) (by norm_num) (by norm_num)
  have g7 := (g6.mul g5).mono (A' := 8) (δ' := 273 / 10 ^ 13) (by norm_num) (by norm_num)
  have g8 := (g7.sub h.delmo.q).mono (A' := 16) (δ' := 274 / 10 ^ 13) (by norm_num) (by norm_num)
  have g9 := (h.xmcof.q.mul g8).mono (A' := 8 / 10 ^ 1) (δ' := 138 / 10 ^ 14) (by norm_num) (by norm_num)
  have g10 := (Q.mul' (η := 0) h.omgcof.1 h.time.1 (by simp) h.omg_t).mono (A' := 8) (δ' := 889 / 10 ^ 18) (by norm_num) (by norm_num)
  have g11 := (g10.add g9).mono (A' := 88 / 10 ^ 1) (δ' := 139 / 10 ^ 14) (by norm_num) (by norm_num)
  exact g11

theorem o_anomaly (hL : Libm.Faithful) (h : Smooth s t) : Q (anomaly s t) (anomaly s.exact t.val) (10200) (476 / 10 ^ 14) := by
  have e0 : s.exact.isimp = s.isimp := rfl
  unfold anomaly
  by_cases hi : s.isimp = 1
  · rw [if_pos hi, if_pos (e0.trans hi)]
  
    exact (o_grav h).mono (by norm_num) (by norm_num)
  · rw [if_neg hi, if_neg (fun hc => hi (e0.symm.trans hc))]
    have g1 := ((o_grav h).add (o_dragAngle hL h)).mono (A' := 10200) (δ' := 476 / 10 ^ 14) (by norm_num) (by norm_num)
    exact g1.mono (by norm_num) (by norm_num)

theorem o_perigee (hL : Libm.Faithful) (h : Smooth s t) : Q (perigee s t) (perigee s.exact t.val) (1590) (192 / 10 ^ 14) := by
  have e0 : s.exact.isimp = s.isimp := rfl
  unfold perigee
  by_cases hi : s.isimp = 1
  · rw [if_pos hi, if_pos (e0.trans hi)]
    have g1 := (h.argpdot.q.mul h.time.q).mono (A' := 1570) (δ' := 174 / 10 ^ 15) (by norm_num) (by norm_num)
    have g2 := (h.argpo.q.add g1).mono (A' := 1580) (δ' := 35 / 10 ^ 14) (by norm_num) (by norm_num)
    exact g2.mono (by norm_num) (by norm_num)
  · rw [if_neg hi, if_neg (fun hc => hi (e0.symm.trans hc))]
    have g1 := (h.argpdot.q.mul h.time.q).mono (A' := 1570) (δ' := 174 / 10 ^ 15) (by norm_num) (by norm_num)
    have g2 := (h.argpo.q.add g1).mono (A' := 1580) (δ' := 35 / 10 ^ 14) (by norm_num) (by norm_num)
    have g3 := (g2.sub (o_dragAngle hL h)).mono (A' := 1590) (δ' := 192 / 10 ^ 14) (by norm_num) (by norm_num)
    exact g3.mono (by norm_num) (by norm_num)

theorem o_node (h : Smooth s t) : Q (Spec.node s t) (Spec.node s.exact t.val) (1590) (529 / 10 ^ 15) := by
  have g1 := (h.nodedot.q.mul h.time.q).mono (A' := 1570) (δ' := 174 / 10 ^ 15) (by norm_num) (by norm_num)
  have g2 := (h.nodeo.q.add g1).mono (A' := 1580) (δ' := 35 / 10 ^ 14) (by norm_num) (by norm_num)
  have g3 := ((rel2 h).coef h.nodecf h.node_t).mono (A' := 8) (δ' := 267 / 10 ^ 17) (by norm_num) (by norm_num)
  have g4 := (g2.add g3).mono (A' := 1590) (δ' := 529 / 10 ^ 15) (by norm_num) (by norm_num)
  exact g4

theorem o_dragA (h : Smooth s t) : Q (dragA s t) (dragA s.exact t.val) (112 / 10 ^ 2) (522 / 10 ^ 18) := by
  have e0 : s.exact.isimp = s.isimp := rfl
  unfold dragA
  by_cases hi : s.isimp = 1
  · rw [if_pos hi, if_pos (e0.trans hi)]
    have g1 := (Q.int 10 true 1 1 (by norm_num)).mono (A' := 1) (δ' := 0) (by norm_num) le_rfl
    have g2 := (Q.mul' (η := 0) h.cc1.1 h.time.1 (by simp) h.cc1_t).mono (A' := 25 / 10 ^ 3) (δ' := 278 / 10 ^ 20) (by norm_num) (by norm_num)
    have g3 := (g1.sub g2).mono (A' := 103 / 10 ^ 2) (δ' := 117 / 10 ^ 18) (by norm_num) (by norm_num)
    exact g3.mono (by norm_num) (by norm_num)
  · rw [if_neg hi, if_neg (fun hc => hi (e0.symm.trans hc))]
    have g1 := (Q.int 10 true 1 1 (by norm_num)).mono (A' := 1) (δ' := 0) (by norm_num) le_rfl
    have g2 := (Q.mul' (η := 0) h.cc1.1 h.time.1 (by simp) h.cc1_t).mono (A' := 25 / 10 ^ 3) (δ' := 278 / 10 ^ 20) (by norm_num) (by norm_num)
    have g3 := (g1.sub g2).mono (A' := 103 / 10 ^ 2) (δ' := 117 / 10 ^ 18) (by norm_num) (by norm_num)
    have g4 := ((rel2 h).coef h.d2 h.d2_t).mono (A' := 25 / 10 ^ 3) (δ' := 833 / 10 ^ 20) (by norm_num) (by norm_num)
    have g5 := (g3.sub g4).mono (A' := 106 / 10 ^ 2) (δ' := 243 / 10 ^ 18) (by norm_num) (by norm_num)
    have g6 := ((rel3 h).coef h.d3 h.d3_t).mono (A' := 25 / 10 ^ 3) (δ' := 139 / 10 ^ 19) (by norm_num) (by norm_num)
    have g7 := (g5.sub g6).mono (A' := 109 / 10 ^ 2) (δ' := 378 / 10 ^ 18) (by norm_num) (by norm_num)
    have g8 := ((rel4 h).coef h.d4 h.d4_t).mono (A' := 25 / 10 ^ 3) (δ' := 195 / 10 ^ 19) (by norm_num) (by norm_num)
    have g9 := (g7.sub g8).mono (A' := 112 / 10 ^ 2) (δ' := 522 / 10 ^ 18) (by norm_num) (by norm_num)
    exact g9.mono (by norm_num) (by norm_num)

omit [Libm] in
theorem dragA_ge (h : Smooth s t) : 9 / 10 ≤ dragA s.exact t.val := by
  have h1 := (abs_le.mp h.cc1_t).2
  have h2 := (abs_le.mp h.d2_t).2
  have h3 := (abs_le.mp h.d3_t).2
  have h4 := (abs_le.mp h.d4_t).2
  unfold dragA
  split
  · show 9 / 10 ≤ (1.0 : ℝ) - s.cc1.val * t.val
    norm_num at *; linarith
  · show 9 / 10 ≤ (1.0 : ℝ) - s.cc1.val * t.val - s.d2.val * (t.val * t.val) - s.d3.val * (t.val * t.val * t.val) -
      s.d4.val * (t.val * t.val * t.val * t.val)
    norm_num at *; linarith

theorem rel_cc4 (h : Smooth s t) : Rel (s.bstar * s.cc4 * t) (s.bstar.val * s.cc4.val * t.val) 2 (1 / 2 ^ 117) := by
  have h1 : |s.bstar.val * s.cc4.val| ≤ 1 := by
    rw [abs_mul]; exact (mul_le_mul h.bstar.2 h.cc4.2 (abs_nonneg _) (by norm_num)).trans (by norm_num)
  have r1 := (Rel.self h.bstar.1).mul h.cc4.1 (h.cc4.2.trans (by norm_num)) (h1.trans (by norm_num)) (by norm_num) le_rfl (by norm_num)
  have r2 := r1.mul h.time.1 (h.time.2.trans (by norm_num)) (h.cc4_t.trans (by norm_num)) (by norm_num) (by norm_num) (by norm_num)
  norm_num at r2 ⊢; exact r2

theorem o_dragE (hL : Libm.Faithful) (h : Smooth s t) : Q (dragE s t) (dragE s.exact t.val) (252 / 10 ^ 3) (493 / 10 ^ 17) := by
  have e0 : s.exact.isimp = s.isimp := rfl
  unfold dragE
  by_cases hi : s.isimp = 1
  · rw [if_pos hi, if_pos (e0.trans hi)]
    have g1 := ((rel_cc4 h).toQ h.cc4_t).mono (A' := 25 / 10 ^ 2) (δ' := 112 / 10 ^ 18) (by norm_num) (by norm_num)
    exact g1.mono (by norm_num) (by norm_num)
  · rw [if_neg hi, if_neg (fun hc => hi (e0.symm.trans hc))]
    have g1 := ((rel_cc4 h).toQ h.cc4_t).mono (A' := 25 / 10 ^ 2) (δ' := 112 / 10 ^ 18) (by norm_num) (by norm_num)
    have g2 := (Q.mul' (η := 0) h.bstar.1 h.cc5.1 (by simp) h.cc5_b).mono (A' := 1 / 10 ^ 3) (δ' := 112 / 10 ^ 21) (by norm_num) (by norm_num)
    have g3 := ((o_anomaly hL h).angle).mono (A' := 10300) (δ' := 476 / 10 ^ 14) (by norm_num) (by norm_num)
    have g4 := (g3.sin hL).mono (A' := 1) (δ' := 477 / 10 ^ 14) (by norm_num) (by norm_num)
    have g5 := (g4.sub h.sinmao.q).mono (A' := 2) (δ' := 478 / 10 ^ 14) (by norm_num) (by norm_num)
    have g6 := (g2.mul g5).mono (A' := 2 / 10 ^ 3) (δ' := 479 / 10 ^ 17) (by norm_num) (by norm_num)
    have g7 := (g1.add g6).mono (A' := 252 / 10 ^ 3) (δ' := 493 / 10 ^ 17) (by norm_num) (by norm_num)
    exact g7.mono (by norm_num) (by norm_num)

theorem o_dragL (h : Smooth s t) : Q (dragL s t) (dragL s.exact t.val) (32800) (347 / 10 ^ 13) := by
  have e0 : s.exact.isimp = s.isimp := rfl
  unfold dragL
  by_cases hi : s.isimp = 1
  · rw [if_pos hi, if_pos (e0.trans hi)]
    have g1 := ((rel2 h).coef h.t2cof h.t2_t).mono (A' := 8200) (δ' := 273 / 10 ^ 14) (by norm_num) (by norm_num)
    exact g1.mono (by norm_num) (by norm_num)
  · rw [if_neg hi, if_neg (fun hc => hi (e0.symm.trans hc))]
    have g1 := ((rel2 h).coef h.t2cof h.t2_t).mono (A' := 8200) (δ' := 273 / 10 ^ 14) (by norm_num) (by norm_num)
    have g2 := ((rel3 h).coef h.t3cof h.t3_t).mono (A' := 8200) (δ' := 455 / 10 ^ 14) (by norm_num) (by norm_num)
    have g3 := (g1.add g2).mono (A' := 16400) (δ' := 911 / 10 ^ 14) (by norm_num) (by norm_num)
    have g4 := (series_end (rel4 h) h.time ((time_pow h).2.2.trans (by norm_num)) h.t4cof h.t5cof h.t4_t h.t5_t (by norm_num)).mono (A' := 16400) (δ' := 219 / 10 ^ 13) (by norm_num) (by norm_num)
    have g5 := (g3.add g4).mono (A' := 32800) (δ' := 347 / 10 ^ 13) (by norm_num) (by norm_num)
    exact g5.mono (by norm_num) (by norm_num)

omit [Libm] in
theorem meanEcc_le (h : Smooth s t) : |meanEcc s.exact t.val| ≤ 44 / 10 ^ 2 := by
  rw [abs_le]; exact ⟨le_trans (by norm_num) h.ecc_lo, h.ecc_hi⟩

theorem o_meanEcc (hL : Libm.Faithful) (h : Smooth s t) : Q (meanEcc s t) (meanEcc s.exact t.val) (44 / 10 ^ 2) (532 / 10 ^ 17) := by
  have hm := meanEcc_le h
  by_cases hD : s.method = .D
  · have hD' : s.exact.method = .D := hD
    unfold meanEcc at hm ⊢
    rw [if_pos hD'] at hm ⊢
    rw [if_pos hD]
    have hb : |s.ecco.val + s.dedt.val * t.val - dragE s.exact t.val| ≤ 44 / 10 ^ 2 := hm
    have g1 := (Q.mul' (η := 0) (h.dedt hD).1 h.time.1 (by simp) (h.dedt_t hD)).mono (A' := 1) (δ' := 112 / 10 ^ 18) (by norm_num) (by norm_num)
    have g2 := (h.ecco.q.add g1).mono (A' := 2) (δ' := 335 / 10 ^ 18) (by norm_num) (by norm_num)
    have g3 := (g2.sub' (o_dragE hL h) (44 / 10 ^ 2) hb).mono (A' := 44 / 10 ^ 2) (δ' := 532 / 10 ^ 17) (by norm_num) (by norm_num)
    exact g3.mono (by norm_num) (by norm_num)
  · have hD' : ¬ s.exact.method = .D := hD
    unfold meanEcc at hm ⊢
    rw [if_neg hD'] at hm ⊢
    rw [if_neg hD]
    have hb : |s.ecco.val - dragE s.exact t.val| ≤ 44 / 10 ^ 2 := hm
    have g1 := (h.ecco.q.sub' (o_dragE hL h) (44 / 10 ^ 2) hb).mono (A' := 44 / 10 ^ 2) (δ' := 498 / 10 ^ 17) (by norm_num) (by norm_num)
    exact g1.mono (by norm_num) (by norm_num)

theorem o_ecc (hL : Libm.Faithful) (h : Smooth s t) : Q (Spec.ecc s t) (Spec.ecc s.exact t.val) (44 / 10 ^ 2) (533 / 10 ^ 17) := by
  have h1 := (Q.sci 10 true 7 (1 / 10 ^ 6) (by norm_num)).mono (A' := 44 / 10 ^ 2) (δ' := 1 / 10 ^ 6 / 2 ^ 53 + 1 / 2 ^ 153) (by norm_num) le_rfl
  exact ((o_meanEcc hL h).floorAt h1).mono le_rfl (by norm_num)

omit [Libm] in
theorem no_den (h : Smooth s t) : 43 / 10 ^ 4 ≤ |s.no.val| := h.no_lo.trans (le_abs_self _)
omit [Libm] in
theorem ratio_ge (h : Smooth s t) : 92 / 10 ^ 2 ≤ (XKE : ℝ) / s.no.val := by
  have h1 := h.no_lo
  have h2 := (le_abs_self _).trans h.no.2
  rw [le_div_iff₀ (by norm_num at *; linarith), XKE_val]
  norm_num at *; linarith
omit [Libm] in
theorem ratio_le (h : Smooth s t) : (XKE : ℝ) / s.no.val ≤ 174 / 10 := by
  have h1 := h.no_lo
  rw [div_le_iff₀ (by norm_num at *; linarith), XKE_val]
  norm_num at *; linarith
omit [Libm] in
theorem axis_le (h : Smooth s t) : ((XKE : ℝ) / s.no.val) ^ (X2O3 : ℝ) ≤ 672 / 10 ^ 2 := by
  have h1 := ratio_ge h
  have h2 := ratio_le h
  have h0 : 0 < (XKE : ℝ) / s.no.val := lt_of_lt_of_le (by norm_num) h1
  have h3 := pow23 h0
  refine le_of_lt (lt_of_pow_lt_pow_left₀ 3 (by norm_num) ?_)
  rw [h3]
  exact lt_of_le_of_lt (pow_le_pow_left₀ h0.le h2 2) (by norm_num)
omit [Libm] in
theorem axis_ge (h : Smooth s t) : 95 / 10 ^ 2 ≤ ((XKE : ℝ) / s.no.val) ^ (X2O3 : ℝ) := by
  have h1 : 929 / 10 ^ 3 ≤ (XKE : ℝ) / s.no.val := by
    have h1 := h.no_lo
    have h2 := (le_abs_self _).trans h.no.2
    rw [le_div_iff₀ (by norm_num at *; linarith), XKE_val]
    norm_num at *; linarith
  have h0 : 0 < (XKE : ℝ) / s.no.val := lt_of_lt_of_le (by norm_num) h1
  have h3 := pow23 h0
  refine le_of_lt (lt_of_pow_lt_pow_left₀ 3 (Real.rpow_nonneg h0.le _) ?_)
  rw [h3]
  exact lt_of_lt_of_le (by norm_num) (pow_le_pow_left₀ (by norm_num) h1 2)
omit [Libm] in
theorem axis_lo (h : Smooth s t) : 3 / 4 ≤ semiMajor s.exact t.val := by
  have h1 := axis_ge h
  have h2 := dragA_ge h
  have e : semiMajor s.exact t.val = ((XKE : ℝ) / s.no.val) ^ (X2O3 : ℝ) * dragA s.exact t.val * dragA s.exact t.val := rfl
  rw [e]
  have h3 : 95 / 10 ^ 2 * (9 / 10) ≤ ((XKE : ℝ) / s.no.val) ^ (X2O3 : ℝ) * dragA s.exact t.val :=
    mul_le_mul h1 h2 (by norm_num) (le_trans (by norm_num) h1)
  have h4 := mul_le_mul h3 h2 (by norm_num) (le_trans (by norm_num) h3)
  exact le_trans (by norm_num) h4

theorem o_a (hL : Libm.Faithful) (h : Smooth s t) : Q (semiMajor s t) (semiMajor s.exact t.val) (844 / 10 ^ 2) (936 / 10 ^ 16) := by
  have g1 := (q_XKE.div h.no.q (43 / 10 ^ 4) (174 / 10 ^ 1) (no_den h) (quot_le (m := 43 / 10 ^ 4) q_XKE.mag (no_den h) (by norm_num) (by norm_num))).mono (A' := 174 / 10 ^ 1) (δ' := 386 / 10 ^ 17) (by norm_num) (by norm_num)
  have g2 := (Q.powf hL g1 q_x2o3 5 (92 / 10 ^ 2) (672 / 10 ^ 2) (319 / 10 ^ 17) (95 / 10 ^ 2) (ratio_ge h) (axis_le h) (axis_ge h) (by norm_num) (by norm_num) (by norm_num) (by norm_num) (by norm_num) (by norm_num) (by norm_num)).mono (A' := 672 / 10 ^ 2) (δ' := 668 / 10 ^ 16) (by norm_num) (by norm_num)
  have g3 := (g2.mul (o_dragA h)).mono (A' := 753 / 10 ^ 2) (δ' := 792 / 10 ^ 16) (by norm_num) (by norm_num)
  have g4 := (g3.mul (o_dragA h)).mono (A' := 844 / 10 ^ 2) (δ' := 936 / 10 ^ 16) (by norm_num) (by norm_num)
  exact g4

theorem o_nodeR (h : Smooth s t) : QA (nodeR s t) (nodeR s.exact t.val) (63 / 10 ^ 1) (648 / 10 ^ 15) := by
  have g1 := ((o_node h).angle).mono (A' := 1600) (δ' := 529 / 10 ^ 15) (by norm_num) (by norm_num)
  have g2 := (g1.remT).mono (A' := 63 / 10 ^ 1) (δ' := 648 / 10 ^ 15) (by norm_num) (by norm_num)
  exact g2

theorem o_perigeeR (hL : Libm.Faithful) (h : Smooth s t) : QA (perigeeR s t) (perigeeR s.exact t.val) (63 / 10 ^ 1) (204 / 10 ^ 14) := by
  have g1 := ((o_perigee hL h).angle).mono (A' := 1600) (δ' := 192 / 10 ^ 14) (by norm_num) (by norm_num)
  have g2 := (g1.remT).mono (A' := 63 / 10 ^ 1) (δ' := 204 / 10 ^ 14) (by norm_num) (by norm_num)
  exact g2

theorem o_anomalyR (hL : Libm.Faithful) (h : Smooth s t) : QA (anomalyR s t) (anomalyR s.exact t.val) (63 / 10 ^ 1) (193 / 10 ^ 13) := by
  have g1 := (h.no.q.mul (o_dragL h)).mono (A' := 2630) (δ' := 307 / 10 ^ 14) (by norm_num) (by norm_num)
  have g2 := ((o_anomaly hL h).add g1).mono (A' := 12900) (δ' := 926 / 10 ^ 14) (by norm_num) (by norm_num)
  have g3 := (g2.add (o_perigee hL h)).mono (A' := 14500) (δ' := 128 / 10 ^ 13) (by norm_num) (by norm_num)
  have g4 := (g3.add (o_node h)).mono (A' := 16100) (δ' := 152 / 10 ^ 13) (by norm_num) (by norm_num)
  have g5 := (g4.angle).mono (A' := 16200) (δ' := 152 / 10 ^ 13) (by norm_num) (by norm_num)
  have g6 := (g5.remT).mono (A' := 63 / 10 ^ 1) (δ' := 164 / 10 ^ 13) (by norm_num) (by norm_num)
  have g7 := (g6.sub (o_perigeeR hL h)).mono (A' := 127 / 10 ^ 1) (δ' := 185 / 10 ^ 13) (by norm_num) (by norm_num)
  have g8 := (g7.sub (o_nodeR h)).mono (A' := 191 / 10 ^ 1) (δ' := 192 / 10 ^ 13) (by norm_num) (by norm_num)
  have g9 := (g8.remT).mono (A' := 63 / 10 ^ 1) (δ' := 193 / 10 ^ 13) (by norm_num) (by norm_num)
  exact g9

/-- the first half of the propagator on ordinary records -/
theorem o_mid (hL : Libm.Faithful) (h : Ordinary s t) : Mid s t s.exact t.val := by
  have hN : ¬ s.method = .D := by rw [h.near]; simp
  have hN' : ¬ s.exact.method = .D := hN
  refine ⟨(o_a hL h.toSmooth).mono (by norm_num) (by norm_num), axis_lo h.toSmooth, (o_ecc hL h.toSmooth).mono le_rfl (by norm_num), (o_nodeR h.toSmooth).mono (by norm_num) (by norm_num),
    (o_perigeeR hL h.toSmooth).mono (by norm_num) (by norm_num), (o_anomalyR hL h.toSmooth).mono (by norm_num) (by norm_num), ?_, ?_, ?_, ?_, ?_, ?_⟩
  · unfold Spec.incl; rw [if_neg hN, if_neg hN']; exact h.inclo.q.mono le_rfl (by norm_num)
  · unfold ayCoef; rw [if_neg hN, if_neg hN']; exact h.aycof.q.mono le_rfl (by norm_num)
  · unfold xlCoef; rw [if_neg hN, if_neg hN']; exact h.xlcof.q.mono le_rfl (by norm_num)
  · unfold threeCos; rw [if_neg hN, if_neg hN']; exact h.con41.q.mono le_rfl (by norm_num)
  · unfold oneMinusCos; rw [if_neg hN, if_neg hN']; exact h.x1mth2.q.mono le_rfl (by norm_num)
  · unfold sevenCos; rw [if_neg hN, if_neg hN']; exact h.x7thm1.q.mono le_rfl (by norm_num)

/-! ## The outcome -/

/-- a finite double within `δ` of a number -/
def Close (x : F64) (r δ : ℝ) : Prop := x.Fin ∧ |x.val - r| ≤ δ

/-- finite vectors of doubles within `δ` of a vector, component by component -/
def Vec3.Close (v : Vec3 F64) (w : Vec3 ℝ) (δ : ℝ) : Prop := Sat.Close v.x w.x δ ∧ Sat.Close v.y w.y δ ∧ Sat.Close v.z w.z δ

omit [Libm] in
theorem F64.Q.close {x : F64} {r M δ δ' : ℝ} (h : Q x r M δ) (hd : δ ≤ δ') : Close x r δ' := ⟨h.fin, h.err.trans hd⟩

/-- The shared conclusion: from close mean elements, close states. -/
theorem state_close (hL : Libm.Faithful) {s : Satrec F64} {t : F64} {r : Satrec ℝ} {τ : ℝ} (h : Mid s t r τ) :
    (position s t).Close (position r τ) (1 / 10 ^ 3) ∧ (velocity s t).Close (velocity r τ) (1 / 10 ^ 6) :=
  ⟨⟨(t_posx hL h).close (by norm_num), (t_posy hL h).close (by norm_num), (t_posz hL h).close (by norm_num)⟩,
   ⟨(t_velx hL h).close (by norm_num), (t_vely hL h).close (by norm_num), (t_velz hL h).close (by norm_num)⟩⟩

omit [Libm] in
theorem dspaceReturns_near {F : Type} [Arith F] {s : Satrec F} {t : F} (h : s.method = .N) : DspaceReturns s t := by
  intro hD; rw [h] at hD; cases hD

theorem lit_zero_le {x : F64} (hx : x.Fin) (h : 0 ≤ x.val) : ¬ (x <. (0.0 : F64)) = true := by
  obtain ⟨z1, z2⟩ := sci_int (m := 0) (s := true) (k := 1) 0 (by norm_num) (by norm_num)
  show ¬ F64.flt x (F64.sci 0 true 1) = true
  rw [flt_fin hx z1, z2, not_lt]; push_cast; exact h

/-- **C81.** A run of the propagator in double precision on an ordinary near-earth record returns a state as soon as the same run in exact
arithmetic stays 6 cm above the surface; each position component is then within one metre and each velocity component within 1 mm/s of the exact
run. -/
theorem C81_near_earth_accuracy (hL : Libm.Faithful) (s : Satrec F64) (t : F64) (h : Ordinary s t) (hr : 1 + 1 / 10 ^ 8 ≤ radius s.exact t.val) :
    ∃ (p : SGP4Result F64) (q : SGP4Result ℝ), resultOf (sgp4 s t) = some (.ok p) ∧ resultOf (sgp4 s.exact t.val) = some (.ok q) ∧
      p.position.Close q.position (1 / 10 ^ 3) ∧ p.velocity.Close q.velocity (1 / 10 ^ 6) := by
  have hm := o_mid hL h
  have hN : ¬ s.method = .D := by rw [h.near]; simp
  have hN' : ¬ s.exact.method = .D := hN
  refine ⟨⟨position s t, velocity s t⟩, ⟨position s.exact t.val, velocity s.exact t.val⟩, ?_, ?_, state_close hL hm⟩
  · rw [sgp4_refines s t (dspaceReturns_near h.near)]
    congr 1
    unfold Spec.result
    have c1 : ¬ (s.no ≤. (0.0 : F64)) = true := by
      obtain ⟨z1, z2⟩ := sci_int (m := 0) (s := true) (k := 1) 0 (by norm_num) (by norm_num)
      show ¬ F64.fle s.no (F64.sci 0 true 1) = true
      rw [fle_fin h.no.1 z1, z2, not_le]
      have := h.no_lo
      push_cast; norm_num at *; linarith
    have me := o_meanEcc hL h.toSmooth
    have m1 := abs_le.mp me.err
    have c2 : ¬ ((meanEcc s t ≥. (1.0 : F64)) || (meanEcc s t <. (-0.001 : F64))) = true := by
      rw [Bool.or_eq_true, not_or]
      constructor
      · obtain ⟨z1, z2⟩ := sci_int (m := 10) (s := true) (k := 1) 1 (by norm_num) (by norm_num)
        show ¬ F64.fle (F64.sci 10 true 1) (meanEcc s t) = true
        rw [fle_fin z1 me.fin, z2, not_le]
        have := h.ecc_hi
        push_cast; norm_num at *; linarith [m1.2]
      · have q := (Q.sci 1 true 3 (1 / 10 ^ 3) (by norm_num)).neg
        show ¬ F64.flt (meanEcc s t) (-(OfScientific.ofScientific 1 true 3 : F64)) = true
        rw [flt_fin me.fin q.fin, not_lt]
        have := h.ecc_lo
        have q2 := (abs_le.mp q.err).2
        norm_num at *; linarith [m1.1]
    have pl := t_semiLatus hL hm
    have c4 : ¬ (Spec.semiLatus s t <. (0.0 : F64)) = true := by
      refine lit_zero_le pl.fin ?_
      have := semiLatus_ge hL hm
      have := (abs_le.mp pl.err).1
      norm_num at * <;> linarith
    have rd := t_radius hL hm
    have c5 : ¬ (radius s t <. (1.0 : F64)) = true := by
      obtain ⟨z1, z2⟩ := sci_int (m := 10) (s := true) (k := 1) 1 (by norm_num) (by norm_num)
      show ¬ F64.flt (radius s t) (F64.sci 10 true 1) = true
      rw [flt_fin rd.fin z1, z2, not_lt]
      have := (abs_le.mp rd.err).1
      push_cast; norm_num at *; linarith
    rw [if_neg c1, if_neg c2, if_neg (fun hc => hN hc.1), if_neg c4, if_neg c5]
  · rw [sgp4_refines s.exact t.val (dspaceReturns_near h.near)]
    congr 1
    unfold Spec.result
    have c1 : ¬ (s.exact.no ≤. (0.0 : ℝ)) = true := by
      rw [real_fle, decide_eq_true_eq, not_le]
      have := h.no_lo
      show (0.0 : ℝ) < s.no.val
      norm_num at *; linarith
    have c2 : ¬ ((meanEcc s.exact t.val ≥. (1.0 : ℝ)) || (meanEcc s.exact t.val <. (-0.001 : ℝ))) = true := by
      rw [Bool.or_eq_true, not_or, real_fle, real_flt, decide_eq_true_eq, decide_eq_true_eq, not_le, not_lt]
      have := h.ecc_hi
      have := h.ecc_lo
      constructor <;> norm_num at * <;> linarith
    have c4 : ¬ (Spec.semiLatus s.exact t.val <. (0.0 : ℝ)) = true := by
      rw [real_flt, decide_eq_true_eq, not_lt]
      have := semiLatus_ge hL hm
      norm_num at *; linarith
    have c5 : ¬ (radius s.exact t.val <. (1.0 : ℝ)) = true := by
      rw [real_flt, decide_eq_true_eq, not_lt]
      norm_num at *; linarith
    rw [if_neg c1, if_neg c2, if_neg (fun hc => hN' hc.1), if_neg c4, if_neg c5]

omit [Libm] in
theorem abs_mul4 {x y z w a b c d : ℝ} (hx : |x| ≤ a) (hy : |y| ≤ b) (hz : |z| ≤ c) (hw : |w| ≤ d) : |x * y * z * w| ≤ a * b * c * d := by
  rw [abs_mul, abs_mul, abs_mul]
  have h1 := mul_le_mul hx hy (abs_nonneg _) ((abs_nonneg _).trans hx)
  have h2 := mul_le_mul h1 hz (abs_nonneg _) (le_trans (by positivity) h1)
  exact mul_le_mul h2 hw (abs_nonneg _) (le_trans (by positivity) h2)

/-- a lower bound of the distance from the semi-major axis and the eccentricity -/
theorem radius_lower (hL : Libm.Faithful) {s : Satrec F64} {t : F64} {r : Satrec ℝ} {τ A E : ℝ} (h : Mid s t r τ) (hA0 : 0 ≤ A)
    (hA : A ≤ semiMajor r τ) (hE : |Spec.ecc r τ| ≤ E) (hE1 : E ≤ 44 / 10 ^ 2) :
    A * (1 - E - 0.0034) * 0.99 - 0.001 ≤ radius r τ := by
  have hE0 := (abs_nonneg _).trans hE
  have h1 : |invP r τ * ayCoef r τ| ≤ 0.0034 := by
    rw [abs_mul]
    exact (mul_le_mul ((t_invP hL h).mag.trans (show _ ≤ (1.7 : ℝ) by norm_num)) h.ay.mag (abs_nonneg _) (by norm_num)).trans (by norm_num)
  have h2 : axn r τ ^ 2 + ayn r τ ^ 2 ≤ (E + 0.0034) ^ 2 := plane_add (Real.sin_sq_add_cos_sq (perigeeR r τ)) hE h1
  have h3 : |axn r τ * (sinCosE r τ).2 - ayn r τ * (-(sinCosE r τ).1)| ≤ (E + 0.0034) * 1 :=
    plane_cauchy h2 (by norm_num at *; linarith) (by have := (t_sinCos hL h).2.2; norm_num; linarith) (by norm_num)
  have h4 : 1 - E - 0.0034 ≤ oneE r τ := by
    have e : oneE r τ = 1 - (axn r τ * (sinCosE r τ).2 + ayn r τ * (sinCosE r τ).1) := by unfold oneE; norm_num
    have := (abs_le.mp h3).2
    rw [e]; linarith
  have h5 : A * (1 - E - 0.0034) ≤ radius0 r τ := by
    have e : radius0 r τ = semiMajor r τ * oneE r τ := rfl
    rw [e]; exact mul_le_mul hA h4 (by norm_num at *; linarith) (le_trans hA0 hA)
  have h0 := radius0_ge hL h
  have b1 : |1.5 * Spec.k2 r τ * beta r τ * threeCos r τ| ≤ 0.01 := by
    refine (abs_mul4 (show |(1.5 : ℝ)| ≤ 1.5 by norm_num [abs_of_pos]) (t_k2 hL h).mag (t_beta hL h).mag h.c3.mag).trans ?_
    norm_num
  have b2 : |0.5 * k1 r τ * oneMinusCos r τ * cos2u r τ| ≤ 0.001 := by
    refine (abs_mul4 (show |(0.5 : ℝ)| ≤ 0.5 by norm_num [abs_of_pos]) (t_k1 hL h).mag h.c1.mag (t_cos2u hL h).mag).trans ?_
    norm_num
  have e : radius r τ = radius0 r τ * (1.0 - 1.5 * Spec.k2 r τ * beta r τ * threeCos r τ) + 0.5 * k1 r τ * oneMinusCos r τ * cos2u r τ := rfl
  rw [e]
  have b1' := (abs_le.mp b1).2
  have b2' := (abs_le.mp b2).1
  have h6 : radius0 r τ * 0.99 ≤ radius0 r τ * (1.0 - 1.5 * Spec.k2 r τ * beta r τ * threeCos r τ) :=
    mul_le_mul_of_nonneg_left (by norm_num at *; linarith) (le_trans (by norm_num) h0)
  have h7 : A * (1 - E - 0.0034) * 0.99 ≤ radius0 r τ * 0.99 := mul_le_mul_of_nonneg_right h5 (by norm_num)
  linarith

/-- **C81**, with a condition that can be read off the elements: perigee radius, after drag, of at least 1.02 earth radii. -/
theorem C81_near_earth_accuracy_perigee (hL : Libm.Faithful) (s : Satrec F64) (t : F64) (h : Ordinary s t) {A E : ℝ} (hA0 : 0 ≤ A)
    (hA : A ≤ semiMajor s.exact t.val) (hE : |Spec.ecc s.exact t.val| ≤ E) (hE1 : E ≤ 44 / 10 ^ 2) (hp : 1.02 ≤ A * (1 - E - 0.0034)) :
    ∃ (p : SGP4Result F64) (q : SGP4Result ℝ), resultOf (sgp4 s t) = some (.ok p) ∧ resultOf (sgp4 s.exact t.val) = some (.ok q) ∧
      p.position.Close q.position (1 / 10 ^ 3) ∧ p.velocity.Close q.velocity (1 / 10 ^ 6) := by
  refine C81_near_earth_accuracy hL s t h (le_trans ?_ (radius_lower hL (o_mid hL h) hA0 hA hE hE1))
  norm_num at *; linarith

/-! ## A record that meets the hypotheses -/

/-- a record of an orbit 780 km high with drag, all coefficients different from those of a drag-free orbit -/
def ordinarySample : Satrec F64 :=
  { (Satrec.zero : Satrec F64) with
    method := .N, isimp := 0,
    no := 0.0625, ecco := 0.0009765625, mo := 1.0, argpo := 2.0, nodeo := 3.0,
    inclo := 0.875, mdot := 0.0625, argpdot := 0.00048828125, nodedot := 0.0009765625, bstar := 0.0001220703125,
    cc1 := 0.0000000004656612873077392578125, cc4 := 0.000244140625, cc5 := 0.0009765625, t2cof := 0.000000000931322574615478515625, nodecf := 0.00000000023283064365386962890625,
    omgcof := 0.000000000931322574615478515625, xmcof := 0.001953125, eta := 0.03125, delmo := 1.125, sinmao := 0.75,
    aycof := 0.0009765625, xlcof := 0.001953125, con41 := 0.25, x1mth2 := 0.5, x7thm1 := 2.0 }

theorem dyadic_within {m k : ℕ} (v : ℝ) (i : ℤ) (e : ℕ) {B : ℝ} (h : (OfScientific.ofScientific m true k : ℝ) = v) (hv : v = i / 2 ^ e) (hi : |i| ≤ 2 ^ 53)
    (he : e ≤ 1074) (hB : |v| ≤ B) : Within (OfScientific.ofScientific m true k : F64) B ∧ (OfScientific.ofScientific m true k : F64).val = v := by
  obtain ⟨h1, h2⟩ := sci_dyadic i e (h.trans hv) hi he
  have h3 : (OfScientific.ofScientific m true k : F64).val = v := h2.trans hv.symm
  exact ⟨⟨h1, by rw [h3]; exact hB⟩, h3⟩

theorem smp_no : Within ordinarySample.no (8 / 10 ^ 2) ∧ ordinarySample.no.val = 1 / 2 ^ 4 := by
  have := dyadic_within (m := 625) (k := 4) (1 / 2 ^ 4) 1 4 (B := 8 / 10 ^ 2) (by norm_num) (by norm_num) (by norm_num) (by norm_num) (by norm_num [abs_of_pos])
  exact this

theorem smp_ecco : Within ordinarySample.ecco (1) ∧ ordinarySample.ecco.val = 1 / 2 ^ 10 := by
  have := dyadic_within (m := 9765625) (k := 10) (1 / 2 ^ 10) 1 10 (B := 1) (by norm_num) (by norm_num) (by norm_num) (by norm_num) (by norm_num [abs_of_pos])
  exact this

theorem smp_mo : Within ordinarySample.mo (7) ∧ ordinarySample.mo.val = 1 / 2 ^ 0 := by
  have := dyadic_within (m := 10) (k := 1) (1 / 2 ^ 0) 1 0 (B := 7) (by norm_num) (by norm_num) (by norm_num) (by norm_num) (by norm_num [abs_of_pos])
  exact this

theorem smp_argpo : Within ordinarySample.argpo (7) ∧ ordinarySample.argpo.val = 2 / 2 ^ 0 := by
  have := dyadic_within (m := 20) (k := 1) (2 / 2 ^ 0) 2 0 (B := 7) (by norm_num) (by norm_num) (by norm_num) (by norm_num) (by norm_num [abs_of_pos])
  exact this

theorem smp_nodeo : Within ordinarySample.nodeo (7) ∧ ordinarySample.nodeo.val = 3 / 2 ^ 0 := by
  have := dyadic_within (m := 30) (k := 1) (3 / 2 ^ 0) 3 0 (B := 7) (by norm_num) (by norm_num) (by norm_num) (by norm_num) (by norm_num [abs_of_pos])
  exact this

theorem smp_inclo : Within ordinarySample.inclo (4) ∧ ordinarySample.inclo.val = 7 / 2 ^ 3 := by
  have := dyadic_within (m := 875) (k := 3) (7 / 2 ^ 3) 7 3 (B := 4) (by norm_num) (by norm_num) (by norm_num) (by norm_num) (by norm_num [abs_of_pos])
  exact this

theorem smp_mdot : Within ordinarySample.mdot (1 / 10) ∧ ordinarySample.mdot.val = 1 / 2 ^ 4 := by
  have := dyadic_within (m := 625) (k := 4) (1 / 2 ^ 4) 1 4 (B := 1 / 10) (by norm_num) (by norm_num) (by norm_num) (by norm_num) (by norm_num [abs_of_pos])
  exact this

theorem smp_argpdot : Within ordinarySample.argpdot (1 / 64) ∧ ordinarySample.argpdot.val = 1 / 2 ^ 11 := by
  have := dyadic_within (m := 48828125) (k := 11) (1 / 2 ^ 11) 1 11 (B := 1 / 64) (by norm_num) (by norm_num) (by norm_num) (by norm_num) (by norm_num [abs_of_pos])
  exact this

theorem smp_nodedot : Within ordinarySample.nodedot (1 / 64) ∧ ordinarySample.nodedot.val = 1 / 2 ^ 10 := by
  have := dyadic_within (m := 9765625) (k := 10) (1 / 2 ^ 10) 1 10 (B := 1 / 64) (by norm_num) (by norm_num) (by norm_num) (by norm_num) (by norm_num [abs_of_pos])
  exact this

theorem smp_bstar : Within ordinarySample.bstar (1) ∧ ordinarySample.bstar.val = 1 / 2 ^ 13 := by
  have := dyadic_within (m := 1220703125) (k := 13) (1 / 2 ^ 13) 1 13 (B := 1) (by norm_num) (by norm_num) (by norm_num) (by norm_num) (by norm_num [abs_of_pos])
  exact this

theorem smp_cc1 : Within ordinarySample.cc1 (1) ∧ ordinarySample.cc1.val = 1 / 2 ^ 31 := by
  have := dyadic_within (m := 4656612873077392578125) (k := 31) (1 / 2 ^ 31) 1 31 (B := 1) (by norm_num) (by norm_num) (by norm_num) (by norm_num) (by norm_num [abs_of_pos])
  exact this

theorem smp_cc4 : Within ordinarySample.cc4 (1) ∧ ordinarySample.cc4.val = 1 / 2 ^ 12 := by
  have := dyadic_within (m := 244140625) (k := 12) (1 / 2 ^ 12) 1 12 (B := 1) (by norm_num) (by norm_num) (by norm_num) (by norm_num) (by norm_num [abs_of_pos])
  exact this

theorem smp_cc5 : Within ordinarySample.cc5 (1) ∧ ordinarySample.cc5.val = 1 / 2 ^ 10 := by
  have := dyadic_within (m := 9765625) (k := 10) (1 / 2 ^ 10) 1 10 (B := 1) (by norm_num) (by norm_num) (by norm_num) (by norm_num) (by norm_num [abs_of_pos])
  exact this

theorem smp_t2cof : Within ordinarySample.t2cof (1) ∧ ordinarySample.t2cof.val = 1 / 2 ^ 30 := by
  have := dyadic_within (m := 931322574615478515625) (k := 30) (1 / 2 ^ 30) 1 30 (B := 1) (by norm_num) (by norm_num) (by norm_num) (by norm_num) (by norm_num [abs_of_pos])
  exact this

theorem smp_nodecf : Within ordinarySample.nodecf (1) ∧ ordinarySample.nodecf.val = 1 / 2 ^ 32 := by
  have := dyadic_within (m := 23283064365386962890625) (k := 32) (1 / 2 ^ 32) 1 32 (B := 1) (by norm_num) (by norm_num) (by norm_num) (by norm_num) (by norm_num [abs_of_pos])
  exact this

theorem smp_omgcof : Within ordinarySample.omgcof (1) ∧ ordinarySample.omgcof.val = 1 / 2 ^ 30 := by
  have := dyadic_within (m := 931322574615478515625) (k := 30) (1 / 2 ^ 30) 1 30 (B := 1) (by norm_num) (by norm_num) (by norm_num) (by norm_num) (by norm_num [abs_of_pos])
  exact this

theorem smp_xmcof : Within ordinarySample.xmcof (5 / 10 ^ 2) ∧ ordinarySample.xmcof.val = 1 / 2 ^ 9 := by
  have := dyadic_within (m := 1953125) (k := 9) (1 / 2 ^ 9) 1 9 (B := 5 / 10 ^ 2) (by norm_num) (by norm_num) (by norm_num) (by norm_num) (by norm_num [abs_of_pos])
  exact this

theorem smp_eta : Within ordinarySample.eta (1) ∧ ordinarySample.eta.val = 1 / 2 ^ 5 := by
  have := dyadic_within (m := 3125) (k := 5) (1 / 2 ^ 5) 1 5 (B := 1) (by norm_num) (by norm_num) (by norm_num) (by norm_num) (by norm_num [abs_of_pos])
  exact this

theorem smp_delmo : Within ordinarySample.delmo (8) ∧ ordinarySample.delmo.val = 9 / 2 ^ 3 := by
  have := dyadic_within (m := 1125) (k := 3) (9 / 2 ^ 3) 9 3 (B := 8) (by norm_num) (by norm_num) (by norm_num) (by norm_num) (by norm_num [abs_of_pos])
  exact this

theorem smp_sinmao : Within ordinarySample.sinmao (1) ∧ ordinarySample.sinmao.val = 3 / 2 ^ 2 := by
  have := dyadic_within (m := 75) (k := 2) (3 / 2 ^ 2) 3 2 (B := 1) (by norm_num) (by norm_num) (by norm_num) (by norm_num) (by norm_num [abs_of_pos])
  exact this

theorem smp_aycof : Within ordinarySample.aycof (1 / 500) ∧ ordinarySample.aycof.val = 1 / 2 ^ 10 := by
  have := dyadic_within (m := 9765625) (k := 10) (1 / 2 ^ 10) 1 10 (B := 1 / 500) (by norm_num) (by norm_num) (by norm_num) (by norm_num) (by norm_num [abs_of_pos])
  exact this

theorem smp_xlcof : Within ordinarySample.xlcof (1) ∧ ordinarySample.xlcof.val = 1 / 2 ^ 9 := by
  have := dyadic_within (m := 1953125) (k := 9) (1 / 2 ^ 9) 1 9 (B := 1) (by norm_num) (by norm_num) (by norm_num) (by norm_num) (by norm_num [abs_of_pos])
  exact this

theorem smp_con41 : Within ordinarySample.con41 (4) ∧ ordinarySample.con41.val = 1 / 2 ^ 2 := by
  have := dyadic_within (m := 25) (k := 2) (1 / 2 ^ 2) 1 2 (B := 4) (by norm_num) (by norm_num) (by norm_num) (by norm_num) (by norm_num [abs_of_pos])
  exact this

theorem smp_x1mth2 : Within ordinarySample.x1mth2 (2) ∧ ordinarySample.x1mth2.val = 1 / 2 ^ 1 := by
  have := dyadic_within (m := 5) (k := 1) (1 / 2 ^ 1) 1 1 (B := 2) (by norm_num) (by norm_num) (by norm_num) (by norm_num) (by norm_num [abs_of_pos])
  exact this

theorem smp_x7thm1 : Within ordinarySample.x7thm1 (8) ∧ ordinarySample.x7thm1.val = 2 / 2 ^ 0 := by
  have := dyadic_within (m := 20) (k := 1) (2 / 2 ^ 0) 2 0 (B := 8) (by norm_num) (by norm_num) (by norm_num) (by norm_num) (by norm_num [abs_of_pos])
  exact this

theorem smp_d2 : Within ordinarySample.d2 (1) ∧ ordinarySample.d2.val = 0 / 2 ^ 0 := by
  have := dyadic_within (m := 0) (k := 1) (0 / 2 ^ 0) 0 0 (B := 1) (by norm_num) (by norm_num) (by norm_num) (by norm_num) (by norm_num [abs_of_pos])
  exact this

theorem smp_d3 : Within ordinarySample.d3 (1) ∧ ordinarySample.d3.val = 0 / 2 ^ 0 := by
  have := dyadic_within (m := 0) (k := 1) (0 / 2 ^ 0) 0 0 (B := 1) (by norm_num) (by norm_num) (by norm_num) (by norm_num) (by norm_num [abs_of_pos])
  exact this

theorem smp_d4 : Within ordinarySample.d4 (1) ∧ ordinarySample.d4.val = 0 / 2 ^ 0 := by
  have := dyadic_within (m := 0) (k := 1) (0 / 2 ^ 0) 0 0 (B := 1) (by norm_num) (by norm_num) (by norm_num) (by norm_num) (by norm_num [abs_of_pos])
  exact this

theorem smp_t3cof : Within ordinarySample.t3cof (1) ∧ ordinarySample.t3cof.val = 0 / 2 ^ 0 := by
  have := dyadic_within (m := 0) (k := 1) (0 / 2 ^ 0) 0 0 (B := 1) (by norm_num) (by norm_num) (by norm_num) (by norm_num) (by norm_num [abs_of_pos])
  exact this

theorem smp_t4cof : Within ordinarySample.t4cof (1) ∧ ordinarySample.t4cof.val = 0 / 2 ^ 0 := by
  have := dyadic_within (m := 0) (k := 1) (0 / 2 ^ 0) 0 0 (B := 1) (by norm_num) (by norm_num) (by norm_num) (by norm_num) (by norm_num [abs_of_pos])
  exact this

theorem smp_t5cof : Within ordinarySample.t5cof (1) ∧ ordinarySample.t5cof.val = 0 / 2 ^ 0 := by
  have := dyadic_within (m := 0) (k := 1) (0 / 2 ^ 0) 0 0 (B := 1) (by norm_num) (by norm_num) (by norm_num) (by norm_num) (by norm_num [abs_of_pos])
  exact this

theorem smp_t : Within (1440.0 : F64) 100000 ∧ (1440.0 : F64).val = 1440 := by
  have := dyadic_within (m := 14400) (k := 1) 1440 1440 0 (B := 100000) (by norm_num) (by norm_num) (by norm_num) (by norm_num) (by norm_num [abs_of_pos])
  exact this

theorem smp_ecc : |meanEcc ordinarySample.exact (1440.0 : F64).val - 1 / 1024| ≤ 1 / 20000 := by
  have e : meanEcc ordinarySample.exact (1440.0 : F64).val = ordinarySample.ecco.val - (ordinarySample.bstar.val * ordinarySample.cc4.val * (1440.0 : F64).val +
      ordinarySample.bstar.val * ordinarySample.cc5.val * (Real.sin (anomaly ordinarySample.exact (1440.0 : F64).val) - ordinarySample.sinmao.val)) := by
    unfold meanEcc dragE
    rw [if_neg (show ¬ ordinarySample.exact.method = .D by show ¬ InitlMethod.N = .D; simp),
      if_neg (show ¬ ordinarySample.exact.isimp = 1 by show ¬ (0 : ℤ) = 1; simp)]
    rfl
  have h1 := Real.neg_one_le_sin (anomaly ordinarySample.exact (1440.0 : F64).val)
  have h2 := Real.sin_le_one (anomaly ordinarySample.exact (1440.0 : F64).val)
  generalize Real.sin (anomaly ordinarySample.exact (1440.0 : F64).val) = σ at *
  rw [e, smp_ecco.2, smp_bstar.2, smp_cc4.2, smp_cc5.2, smp_sinmao.2, smp_t.2, abs_le]
  constructor <;> norm_num at * <;> linarith

/-- the record and a time one day after epoch meet the hypotheses of C81 -/
theorem sample_ordinary : Ordinary ordinarySample 1440.0 := by
  have hE := abs_le.mp smp_ecc
  refine { near := rfl, aycof := smp_aycof.1, xlcof := smp_xlcof.1, con41 := smp_con41.1, x1mth2 := smp_x1mth2.1, x7thm1 := smp_x7thm1.1, toSmooth := ?_ }
  constructor
  · exact smp_t.1
  · exact smp_mo.1
  · exact smp_argpo.1
  · exact smp_nodeo.1
  · exact smp_inclo.1
  · exact smp_ecco.1
  · exact smp_no.1
  · rw [smp_no.2]; norm_num
  · exact smp_mdot.1
  · exact smp_argpdot.1
  · exact smp_nodedot.1
  · exact smp_nodecf.1
  · exact smp_omgcof.1
  · exact smp_xmcof.1
  · exact smp_eta.1
  · exact smp_delmo.1
  · exact smp_sinmao.1
  · exact smp_bstar.1
  · exact smp_cc1.1
  · exact smp_cc4.1
  · exact smp_cc5.1
  · exact smp_d2.1
  · exact smp_d3.1
  · exact smp_d4.1
  · exact smp_t2cof.1
  · exact smp_t3cof.1
  · exact smp_t4cof.1
  · exact smp_t5cof.1
  · intro hc; cases hc
  · rw [smp_nodecf.2, smp_t.2]; norm_num [abs_of_pos]
  · rw [smp_omgcof.2, smp_t.2]; norm_num [abs_of_pos]
  · rw [smp_cc1.2, smp_t.2]; norm_num [abs_of_pos]
  · rw [smp_d2.2, smp_t.2]; norm_num [abs_of_pos]
  · rw [smp_d3.2, smp_t.2]; norm_num [abs_of_pos]
  · rw [smp_d4.2, smp_t.2]; norm_num [abs_of_pos]
  · rw [smp_bstar.2, smp_cc4.2, smp_t.2]; norm_num [abs_of_pos]
  · rw [smp_bstar.2, smp_cc5.2]; norm_num [abs_of_pos]
  · rw [smp_t2cof.2, smp_t.2]; norm_num [abs_of_pos]
  · rw [smp_t3cof.2, smp_t.2]; norm_num [abs_of_pos]
  · rw [smp_t4cof.2, smp_t.2]; norm_num [abs_of_pos]
  · rw [smp_t5cof.2, smp_t.2]; norm_num [abs_of_pos]
  · intro hc; cases hc
  · norm_num at *; linarith [hE.1]
  · norm_num at *; linarith [hE.2]

/-- and the run returns a state close to the exact one -/
theorem C81_sample (hL : Libm.Faithful) :
    ∃ (p : SGP4Result F64) (q : SGP4Result ℝ), resultOf (sgp4 ordinarySample 1440.0) = some (.ok p) ∧
      resultOf (sgp4 ordinarySample.exact (1440.0 : F64).val) = some (.ok q) ∧
      p.position.Close q.position (1 / 10 ^ 3) ∧ p.velocity.Close q.velocity (1 / 10 ^ 6) := by
  have hE := abs_le.mp smp_ecc
  refine C81_near_earth_accuracy_perigee hL _ _ sample_ordinary (A := 11 / 10) (E := 2 / 10 ^ 3) (by norm_num) ?_ ?_ (by norm_num) (by norm_num)
  · have e : semiMajor ordinarySample.exact (1440.0 : F64).val = ((XKE : ℝ) / ordinarySample.no.val) ^ (X2O3 : ℝ) *
        dragA ordinarySample.exact (1440.0 : F64).val * dragA ordinarySample.exact (1440.0 : F64).val := rfl
    have e2 : dragA ordinarySample.exact (1440.0 : F64).val = (1.0 : ℝ) - ordinarySample.cc1.val * (1440.0 : F64).val -
        ordinarySample.d2.val * ((1440.0 : F64).val * (1440.0 : F64).val) - ordinarySample.d3.val * ((1440.0 : F64).val * (1440.0 : F64).val * (1440.0 : F64).val) -
        ordinarySample.d4.val * ((1440.0 : F64).val * (1440.0 : F64).val * (1440.0 : F64).val * (1440.0 : F64).val) := by
      unfold dragA
      rw [if_neg (show ¬ ordinarySample.exact.isimp = 1 by show ¬ (0 : ℤ) = 1; simp)]
      rfl
    rw [e, e2, smp_cc1.2, smp_d2.2, smp_d3.2, smp_d4.2, smp_t.2, smp_no.2, XKE_val]
    have h0 : (0 : ℝ) < 0.07436685316871385 / (1 / 2 ^ 4) := by norm_num
    have h3 := pow23 h0
    have h4 : (112 / 100 : ℝ) ≤ (0.07436685316871385 / (1 / 2 ^ 4)) ^ (X2O3 : ℝ) := by
      refine le_of_lt (lt_of_pow_lt_pow_left₀ 3 (Real.rpow_nonneg h0.le _) ?_)
      rw [h3]; norm_num
    refine le_trans ?_ (mul_le_mul_of_nonneg_right (mul_le_mul_of_nonneg_right h4 ?_) ?_) <;> norm_num
  · unfold Spec.ecc
    rw [if_neg]
    · rw [abs_le]; constructor <;> norm_num at * <;> linarith [hE.1, hE.2]
    · rw [real_flt, decide_eq_true_eq, not_lt]; norm_num at *; linarith [hE.1]

end
end Sat
