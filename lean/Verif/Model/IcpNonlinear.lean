import Verif.Model.IcpPointDx2
import Verif.Model.IcpPointDzdx
import Verif.Model.IcpPlaneDx2
import Verif.Model.IcpPlaneDzdx

/-!
# Model of the nonlinear ICP models

serpent/include/serpent/front_end/lidar/registration_covariance-inl.hpp ("covariance-inl.hpp").
-/

namespace Serpent

namespace Lidar

open EigenExt

/-- `PointToPointIcpNonlinearModel::process_correspondence`, covariance-inl.hpp:186-195 and 208-216. `none`: the angle is zero, and
the divisions by its powers (0/0) give coefficients that are not numbers. -/
noncomputable def pointNonlin (tf : Components) : Option (IcpModel ℝ) :=
  if tf.a = 0 then none
  else some
    { dx2 := fun s g => PointDx2.matrix (env tf s.pos g.pos 0)
      dzdx := fun s g => PointDzdx.matrix (env tf s.pos g.pos 0) }

/-- `PointToPlaneIcpNonlinearModel::process_correspondence`, covariance-inl.hpp:228-239 and 254-264: the normal is that of the target
point. `none` as above. -/
noncomputable def planeNonlin (tf : Components) : Option (IcpModel ℝ) :=
  if tf.a = 0 then none
  else some
    { dx2 := fun s g => PlaneDx2.matrix (env tf s.pos g.pos g.normal)
      dzdx := fun s g => PlaneDzdx.matrix (env tf s.pos g.pos g.normal) }

end Lidar

end Serpent
