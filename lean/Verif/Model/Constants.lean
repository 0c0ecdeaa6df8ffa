import Verif.Arith
/-! # `/repo/src/constants.rs` -/

namespace Sat
variable {F : Type} [Arith F]

/-- `constants.rs:4` `TWO_PI = PI * 2.0` -/
def TWO_PI : F := Arith.pi * 2.0
/-- `constants.rs:7` `DEG_2_RAD = PI / 180.0` -/
def DEG_2_RAD : F := Arith.pi / 180.0
/-- `constants.rs:10` `RAD_TO_DEG = 180.0 / PI` -/
def RAD_TO_DEG : F := 180.0 / Arith.pi
/-- `constants.rs:13` -/
def MINUTES_PER_DAY : F := 1440.0
/-- `constants.rs:15` -/
def MU : F := 398600.5
/-- `constants.rs:18` -/
def EARTH_RADIUS : F := 6378.137
/-- `constants.rs:21` -/
def X2O3 : F := 2.0 / 3.0
/-- `constants.rs:24`, speed of light in km/s -/
def LIGHT : F := 299792.458
/-- `constants.rs:27` -/
def KM_TO_MI : F := 0.62137
/-- `constants.rs:30` -/
def MI_TO_KM : F := 1.0 / 0.62137
/-- `constants.rs:32` -/
def J2 : F := 0.00108262998905
/-- `constants.rs:33` -/
def J3 : F := -0.00000253215306
/-- `constants.rs:34` -/
def J4 : F := -0.00000161098761
/-- `constants.rs:35` -/
def J3OJ2 : F := J3 / J2
/-- `constants.rs:36` -/
def XKE : F := 0.07436685316871385
/-- `constants.rs:37` -/
def TUMIN : F := 13.446851082044981
/-- `constants.rs:38` -/
def XPDOTP : F := 1440.0 / (2.0 * Arith.pi)

end Sat
