import Verif.Props.InitChain
import Verif.Props.DeepCoefficients
/-!
# The deep-space initialisation as a chain of named quantities

`Far.Fields o s`: the fields of the record `s` that influence the state of a deep-space object (C10) are the values of the chain of
`InitChain.lean` and of `dscom`, called with the elements `o`.  `fields_init`: the record built by the initialisation is such a record, in any
arithmetic, if the period is at least 225 minutes and perigee is above 156 km.
-/

namespace Sat.Far
open Chain
variable {F : Type} [Arith F]

/-- what `dscom` computes when called by the initialisation -/
def ls (o : SGP4InitOptions F) : DscomResult F := dscom (dscomArgs o (no o))

/-- `dsinit.rs:251`, `dedt` -/
def dedt (o : SGP4InitOptions F) : F := (ls o).sun.s1 * 1.19459e-5 * (ls o).sun.s5 + (ls o).moon.s1 * 1.5835218e-4 * (ls o).moon.s5

/-- the branch conditions: positive `omeosq`, perigee above 156 km, period of at least 225 minutes -/
structure Branch (o : SGP4InitOptions F) : Prop where
  guard : (ome o ≥. 0.0) = true
  high : ((rp o - 1.0) * EARTH_RADIUS <. 156.0) = false
  deep : (TWO_PI / no o ≥. 225.0) = true

/-- the fields that influence the state -/
structure Fields (o : SGP4InitOptions F) (s : Satrec F) : Prop where
  method : s.method = .D
  isimp : s.isimp = 1
  no : s.no = no o
  ecco : s.ecco = o.xecco
  inclo : s.inclo = o.xinclo
  nodeo : s.nodeo = o.xnodeo
  argpo : s.argpo = o.xargpo
  mo : s.mo = o.xmo
  bstar : s.bstar = o.xbstar
  cc1 : s.cc1 = cc1 o
  cc4 : s.cc4 = cc4 o
  mdot : s.mdot = mdot o
  argpdot : s.argpdot = argpdot o
  nodedot : s.nodedot = nodedot o
  nodecf : s.nodecf = nodecf o
  t2cof : s.t2cof = t2cof o
  dedt : s.dedt = dedt o
  zmos : s.zmos = (ls o).zmos
  zmol : s.zmol = (ls o).zmol
  se2 : s.se2 = (ls o).se2
  se3 : s.se3 = (ls o).se3
  si2 : s.si2 = (ls o).si2
  si3 : s.si3 = (ls o).si3
  ee2 : s.ee2 = (ls o).ee2
  e3 : s.e3 = (ls o).e3
  xi2 : s.xi2 = (ls o).xi2
  xi3 : s.xi3 = (ls o).xi3
  peo : s.peo = 0.0
  pinco : s.pinco = 0.0

theorem dsinit_rates (b : DsinitOptions F) (k : Resonance F) : (dsinit b k).rates = secularRates b := by
  unfold dsinit
  dsimp only
  split <;> rfl

theorem fields_init {o : SGP4InitOptions F} (s : Satrec F) (h : Branch o) : Fields o (initRecord s o) := by
  have hd : dragParams (initlOf (resetSatrec s o) o.epoch).rp = ((ss : F), (qz : F)) := by
    have : ((rp o - 1.0) * EARTH_RADIUS <. 156.0) = false := h.high
    change dragParams (rp o) = _
    unfold dragParams
    simp only [this]
    rfl
  have hg : (((initlOf (resetSatrec s o) o.epoch).omeosq ≥. 0.0) || ((initStart s o).no ≥. 0.0)) = true := by
    have : ((initlOf (resetSatrec s o) o.epoch).omeosq ≥. 0.0) = true := h.guard
    rw [this]; rfl
  have hn : (TWO_PI / (initNear (initStart s o) (initlOf (resetSatrec s o) o.epoch)).1.no ≥. 225.0) = true := h.deep
  have key : initRecord s o = initDrag (initDeep (initNear (initStart s o) (initlOf (resetSatrec s o) o.epoch)).1
      (initlOf (resetSatrec s o) o.epoch) o.epoch (initNear (initStart s o) (initlOf (resetSatrec s o) o.epoch)).2.xpidot)
      (initlOf (resetSatrec s o) o.epoch) (initNear (initStart s o) (initlOf (resetSatrec s o) o.epoch)).2 := by
    unfold initRecord initFinish
    rw [if_pos hg]
  rw [key]
  unfold initDeep
  rw [if_pos hn]
  dsimp only
  rw [initDpper_id (by rfl)]
  unfold initDrag
  rw [if_neg (by intro hc; exact hc rfl)]
  refine ⟨rfl, rfl, rfl, rfl, rfl, rfl, rfl, rfl, rfl, ?_, ?_, rfl, rfl, rfl, ?_, ?_, ?_, rfl, rfl, rfl, rfl, rfl, rfl, rfl, rfl, rfl, rfl, rfl, rfl⟩
  · show (initNear (initStart s o) (initlOf (resetSatrec s o) o.epoch)).1.cc1 = _
    unfold initNear; rw [hd]; rfl
  · show (initNear (initStart s o) (initlOf (resetSatrec s o) o.epoch)).1.cc4 = _
    unfold initNear; rw [hd]; rfl
  · show (initNear (initStart s o) (initlOf (resetSatrec s o) o.epoch)).1.nodecf = _
    unfold initNear; rw [hd]; rfl
  · show (initNear (initStart s o) (initlOf (resetSatrec s o) o.epoch)).1.t2cof = _
    unfold initNear; rw [hd]; rfl
  · show (dsinit _ _).rates.dedt = _
    rw [dsinit_rates]
    rfl

/-- after the initialisation, too -/
theorem fields_sgp4init {o : SGP4InitOptions F} {s s' : Satrec F} {r} (hi : sgp4init s o = some (s', r)) (h : Branch o) : Fields o s' := by
  have hf := fields_init s h
  have e := (sgp4init_left hi).1
  rw [e]
  obtain ⟨a1, a2, a3, a4, a5, a6, a7, a8, a9, a10, a11, a12, a13, a14, a15, a16, a17, a18, a19, a20, a21, a22, a23, a24, a25, a26, a27, a28, a29⟩ := hf
  exact ⟨a1, a2, a3, a4, a5, a6, a7, a8, a9, a10, a11, a12, a13, a14, a15, a16, a17, a18, a19, a20, a21, a22, a23, a24, a25, a26, a27, a28, a29⟩

end Sat.Far
