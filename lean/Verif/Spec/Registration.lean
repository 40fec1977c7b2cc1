import Verif.Model.Registration

/-!
# What the registration should do
-/

namespace Serpent

namespace Lidar

/-- `f` of consecutive elements. -/
def consecutive {α β : Type} (f : α → α → β) : List α → List β
  | a :: b :: rest => f a b :: consecutive f (b :: rest)
  | _ => []

variable {Cloud T : Type}

/-- The scans, with their initial guesses, in order. -/
def scansOf : List (RegEvent Cloud T) → List (Cloud × T)
  | [] => []
  | .scan c g :: rest => (c, g) :: scansOf rest
  | _ :: rest => scansOf rest

/-- The maps in order. -/
def mapsOf : List (RegEvent Cloud T) → List Cloud
  | [] => []
  | .map m :: rest => m :: mapsOf rest
  | _ :: rest => mapsOf rest

/-- For each scan after the first: the scan, the scan before it, and the scan-to-scan result, which starts from the guess of the
scan. -/
def scanToScan (align : Cloud → Cloud → T → T) (scans : List (Cloud × T)) : List (Cloud × Cloud × T) :=
  consecutive (fun a b => (b.1, a.1, align b.1 a.1 b.2)) scans

/-- The computation of a covariance that a configuration asks for. -/
def wantedCall (c : RegConfig) (cov : CovMethod) (model : CovModel) (point : PointMethod) : CovCall :=
  match cov, point with
  | .constant, _ => .constant (c.rotationNoise ^ 2) (c.translationNoise ^ 2)
  | .censi, .constant => .iid (.censiIid model) (c.pointNoise ^ 2)
  | .censi, .voxelSize => .iid (.censiIid model) (c.leafSize ^ 2)
  | .censi, .range => .range (.censiRange model) (c.rangeNoise ^ 2)
  | .censi, .rangeBias => .rangeBias (.censiRangeBias model) (c.rangeNoise ^ 2) (c.rangeBiasNoise ^ 2)
  | .lls, .voxelSize => .iid (.llsIid model) (c.leafSize ^ 2)
  | .lls, _ => .iid (.llsIid model) (c.pointNoise ^ 2)

/-- The combinations that can be computed. -/
def supported (c : RegConfig) (cov : CovMethod) (point : PointMethod) : Prop :=
  cov = .constant ∨
    match point with
    | .constant => True
    | .voxelSize => c.voxelFilter = true
    | .range => cov = .censi ∧ 0 < c.rangeNoise
    | .rangeBias => cov = .censi ∧ 0 < c.rangeNoise ∧ 0 < c.rangeBiasNoise

end Lidar

end Serpent
