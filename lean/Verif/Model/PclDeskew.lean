import Verif.Model.PclCloud
import Verif.Model.EigenRos

/-!
# Model of `deskew` and `check_normals` of `pointcloud_tools/pclpointcloud2_utilities`

"utilities.cpp" is pointcloud_tools/src/pclpointcloud2_utilities.cpp. Coordinates and times are real numbers; how they are stored
in the bytes of the cloud is the parameter `Codec ℝ`.
-/

namespace Serpent

namespace Pcl

open EigenExt
open EigenRos (forLoop slerp)

/-- `skew.isApprox(Isometry3d::Identity())`: `‖A - B‖² ≤ prec² min(‖A‖², ‖B‖²)` for the 4 by 4 matrices, with `prec = 1e-12`. In
utilities.cpp:121. -/
def ApproxIdentity (T : Iso ℝ) : Prop :=
  ∑ i, ∑ j, (T.R i j - (1 : Matrix (Fin 3) (Fin 3) ℝ) i j) ^ 2 + ∑ i, T.t i ^ 2 ≤
    (1 / 10 ^ 12) ^ 2 * min (∑ i, ∑ j, T.R i j ^ 2 + ∑ i, T.t i ^ 2 + 1) 4

/-- `Isometry` with translation `fraction * skew_translation` and orientation `Identity().slerp(fraction, skew_quaternion)`,
utilities.cpp:134-136 and 162-167. -/
noncomputable def interpTransform (skew : Iso ℝ) (fraction : ℝ) : Iso ℝ :=
  ⟨(slerp fraction Quat.id (Quat.ofMatrix skew.R)).toMatrix, fraction • skew.t⟩

/-- `new_time - src.header.stamp` (`std::uint64_t`, microseconds), in seconds, utilities.cpp:132. -/
noncomputable def newTimeSeconds (newTime stamp : Nat) : ℝ := ((newTime + 2 ^ 64 - stamp) % 2 ^ 64 : Nat) / 10 ^ 6

/-- `p_deskew`, utilities.cpp:133-139 and 161-169. -/
noncomputable def deskewPoint (skew : Iso ℝ) (dt : ℝ) (newTime stamp : Nat) (p : Fin 3 → ℝ) (t : ℝ) : Fin 3 → ℝ :=
  ((interpTransform skew (newTimeSeconds newTime stamp / dt))⁻¹ * interpTransform skew (t / dt)).apply p

/-- Body of the loop, utilities.cpp:156-175. -/
noncomputable def deskewStep (skew : Iso ℝ) (dt : ℝ) (newTime stamp : Nat) (getX getY getZ getT : Cloud → Nat → Outcome ℝ)
    (setX setY setZ setT : Cloud → Nat → ℝ → Outcome Cloud) (i : Nat) (dest : Cloud) : Outcome Cloud :=
  getX dest i >>= fun x =>
  getY dest i >>= fun y =>
  getZ dest i >>= fun z =>
  getT dest i >>= fun t =>
  let p := deskewPoint skew dt newTime stamp ![x, y, z] t
  setX dest i (p 0) >>= fun dest =>
  setY dest i (p 1) >>= fun dest =>
  setZ dest i (p 2) >>= fun dest =>
  setT dest i 0

/-- utilities.cpp:141-176. -/
noncomputable def deskewFields (cd : Codec ℝ) (skew : Iso ℝ) (dt : ℝ) (newTime stamp : Nat) (dest : Cloud) : Outcome Cloud :=
  getField dest "x" >>= fun x =>
  getField dest "y" >>= fun y =>
  getField dest "z" >>= fun z =>
  getField dest "t" >>= fun t =>
  getter cd .float64 x >>= fun getX =>
  getter cd .float64 y >>= fun getY =>
  getter cd .float64 z >>= fun getZ =>
  getter cd .float64 t >>= fun getT =>
  setter cd .float64 x >>= fun setX =>
  setter cd .float64 y >>= fun setY =>
  setter cd .float64 z >>= fun setZ =>
  setter cd .float32 t >>= fun setT =>
  forLoop (sizePoints dest) (deskewStep skew dt newTime stamp getX getY getZ getT setX setY setZ setT) dest

open Classical in
/-- `deskew`, utilities.cpp:116-178. -/
noncomputable def deskew (cd : Codec ℝ) (skew : Iso ℝ) (dt : ℝ) (newTime : Nat) (src : Cloud) : Outcome Cloud :=
  let dest := { src with header := { src.header with stamp := newTime } }
  if ApproxIdentity skew then .ok dest
  else if dt ≤ 0 then .throws
  else deskewFields cd skew dt newTime src.header.stamp dest

open Classical in
/-- `check_normals`, utilities.cpp:60-74. -/
noncomputable def checkNormals (cd : Codec ℝ) (c : Cloud) (threshold : ℝ) : Outcome Nat :=
  getField c "normal_x" >>= fun x =>
  getter cd .float32 x >>= fun getX =>
  getField c "normal_y" >>= fun y =>
  getter cd .float32 y >>= fun getY =>
  getField c "normal_z" >>= fun z =>
  getter cd .float32 z >>= fun getZ =>
  forLoop (sizePoints c) (fun i n =>
    getX c i >>= fun x =>
    getY c i >>= fun y =>
    getZ c i >>= fun z =>
    .ok (if |Real.sqrt (x ^ 2 + y ^ 2 + z ^ 2) - 1| > threshold then n + 1 else n)) 0

end Pcl

end Serpent
