import Verif.Model.Vec
/-! # `/repo/src/transforms.rs` -/

namespace Sat
variable {F : Type} [Arith F]

/-- `transforms.rs:8-10` -/
def radians_to_degrees (radians : F) : F := radians * RAD_TO_DEG

/-- `transforms.rs:12-14` -/
def degrees_to_radians (degrees : F) : F := degrees * DEG_2_RAD

/-- `transforms.rs:16-22`; `none` is the `panic!` of line 18. -/
def degrees_lat (radians : F) : Option F :=
  if (radians <. -Arith.fracPi2) || (radians >. Arith.fracPi2) then none
  else some (radians_to_degrees radians)

/-- `transforms.rs:24-30`; `none` is the `panic!` of line 26. -/
def degrees_long (radians : F) : Option F :=
  if (radians <. -Arith.pi) || (radians >. Arith.pi) then none
  else some (radians_to_degrees radians)

/-- `transforms.rs:32-38`; `none` is the `panic!` of line 34. -/
def radians_lat (degrees : F) : Option F :=
  if (degrees <. -90.0) || (degrees >. 90.0) then none
  else some (degrees_to_radians degrees)

/-- `transforms.rs:40-46`; `none` is the `panic!` of line 42. -/
def radians_long (degrees : F) : Option F :=
  if (degrees <. -180.0) || (degrees >. 180.0) then none
  else some (degrees_to_radians degrees)

/-- `const A` of `transforms.rs:49,64` -/
def ellA : F := 6378.137
/-- `const B` of `transforms.rs:50,65` -/
def ellB : F := 6356.7523142
/-- `const F` of `transforms.rs:51,67` -/
def ellF : F := (ellA - ellB) / ellA
/-- `const E2` of `transforms.rs:52,68` -/
def ellE2 : F := (2.0 * ellF) - (ellF * ellF)

/-- `transforms.rs:48-61` -/
def geodedic_to_ecf (geodetic : Geodedic F) : Vec3 F :=
  let normal := ellA / Arith.sqrt (1.0 - (ellE2 * Arith.powf (Arith.sin geodetic.latitude) 2.0))
  let x := (normal + geodetic.height) * Arith.cos geodetic.latitude * Arith.cos geodetic.longitude
  let y := (normal + geodetic.height) * Arith.cos geodetic.latitude * Arith.sin geodetic.longitude
  let z := ((normal * (1.0 - ellE2)) + geodetic.height) * Arith.sin geodetic.latitude
  { x, y, z }

/-- The loop of `transforms.rs:72-74` -/
def wrapUp (longitude : F) : Option F :=
  whileLoop (fun l => l <. -Arith.pi) (fun l => l + TWO_PI) longitude

/-- The loop of `transforms.rs:76-78` -/
def wrapDown (longitude : F) : Option F :=
  whileLoop (fun l => l >. Arith.pi) (fun l => l - TWO_PI) longitude

/-- Body of the loop `transforms.rs:87-91`: state is `(latitude, c)`. -/
def latStep (z r : F) (st : F × F) : F × F :=
  let latitude := st.1
  let c := 1.0 / (1.0 - (ellE2 * powi2 (Arith.sin latitude)))
  let latitude := Arith.atan2 (z + (ellA * c * ellE2 * Arith.sin latitude)) r
  (latitude, c)

/-- The loop `transforms.rs:84-91`, `k` further iterations (it is entered with `k = KMAX = 20`, `c = 0.0`). -/
def latLoop (z r : F) : Nat → F × F → F × F
  | 0, st => st
  | k + 1, st => latLoop z r k (latStep z r st)

/-- `transforms.rs:63-100`; `none` when one of the two longitude loops never exits. -/
def eci_to_geodedic (eci : Vec3 F) (gmst : F) : Option (Geodedic F) :=
  let r := Arith.sqrt ((eci.x * eci.x) + (eci.y * eci.y))
  let longitude := Arith.atan2 eci.y eci.x - gmst
  match wrapUp longitude with
  | none => none
  | some longitude =>
  match wrapDown longitude with
  | none => none
  | some longitude =>
    let latitude := Arith.atan2 eci.z (Arith.sqrt (powi2 eci.x + powi2 eci.y))
    let st := latLoop eci.z r 20 (latitude, 0.0)
    let latitude := st.1
    let c := st.2
    let height := (r / Arith.cos latitude) - (ellA * c)
    some { latitude, longitude, height }

/-- `transforms.rs:102-108` -/
def ecf_to_eci (ecf : Vec3 F) (gmst : F) : Vec3 F :=
  let x := (ecf.x * Arith.cos gmst) - (ecf.y * Arith.sin gmst)
  let y := (ecf.x * Arith.sin gmst) + (ecf.y * Arith.cos gmst)
  let z := ecf.z
  { x, y, z }

/-- `transforms.rs:110-116` -/
def eci_to_ecf (eci : Vec3 F) (gmst : F) : Vec3 F :=
  let x := (eci.x * Arith.cos gmst) + (eci.y * Arith.sin gmst)
  let y := (eci.x * -Arith.sin gmst) + (eci.y * Arith.cos gmst)
  let z := eci.z
  { x, y, z }

/-- `transforms.rs:118-138` -/
def topocentric (observer : Geodedic F) (satellite : Vec3 F) : TopoCentric F :=
  let observer_ecf := geodedic_to_ecf observer
  let r := satellite.subtract observer_ecf
  let top_s := (Arith.sin observer.latitude * Arith.cos observer.longitude * r.x)
        + (Arith.sin observer.latitude * Arith.sin observer.longitude * r.y)
        - (Arith.cos observer.latitude * r.z)
  let top_e := (-Arith.sin observer.longitude * r.x) + (Arith.cos observer.longitude * r.y)
  let top_z := (Arith.cos observer.latitude * Arith.cos observer.longitude * r.x)
        + (Arith.cos observer.latitude * Arith.sin observer.longitude * r.y)
        + (Arith.sin observer.latitude * r.z)
  { top_s, top_e, top_z }

/-- `transforms.rs:140-150` -/
def topocentric_to_look_angles (tc : TopoCentric F) : Bearing F :=
  let range_sat := Arith.sqrt (powi2 tc.top_s + powi2 tc.top_e + powi2 tc.top_z)
  let el := Arith.asin (tc.top_z / range_sat)
  let az := Arith.atan2 (-tc.top_e) tc.top_s + Arith.pi
  { range := range_sat, elevation := el, azimuth := az }

/-- `transforms.rs:152-156` -/
def ecf_to_look_angles (observer : Geodedic F) (satellite : Vec3 F) : Bearing F :=
  topocentric_to_look_angles (topocentric observer satellite)

end Sat
