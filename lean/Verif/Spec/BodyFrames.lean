import Verif.Model.BodyFrames

/-!
# Specification of the frame tree

Nothing here refers to the functions of the model: only to the configuration (`Forest`, `NodeData`, `Config`) and to the
transform listener (`TF`).
-/

namespace Serpent.BodyFrames

/-- Product of the transforms along a path. -/
def compose {T : Type} [Mul T] [One T] : List T → T
  | [] => 1
  | t :: ts => t * compose ts

/-- The ROS frame id of a frame: the configured one or its name. -/
def idOf {T : Type} (name : String) (d : NodeData T) : String := d.frameId.getD name

/-- A frame that moves: it is looked up each time. -/
def NodeData.Moves {T : Type} (d : NodeData T) : Prop := d.dynamic = some true

/-- A frame whose transform comes from the transform listener when the configuration is read. -/
def NodeData.LooksUp {T : Type} (d : NodeData T) : Prop := d.lookupTf = some true

/-- The transform from the parent of a static frame to the frame: from the transform listener or from the configuration. -/
inductive Local {T : Type} [One T] (tf : TF T) (parentId name : String) (d : NodeData T) : T → Prop
  | listener {t : T} : d.LooksUp → tf parentId (idOf name d) 0 = some t → Local tf parentId name d t
  | given {t : T} : ¬ d.LooksUp → d.pose = some t → Local tf parentId name d t
  | absent : ¬ d.LooksUp → d.pose = none → Local tf parentId name d 1

/-- A frame of a configuration, with the transforms on the path from the root of the tree to it. -/
structure Decl (T : Type) where
  name : String
  id : String
  dynamic : Bool
  aliases : List String
  looksUp : Bool
  path : List T

/-- The frames of a configuration tree whose root has the frame id `parentId`. -/
inductive Declares {T : Type} [One T] (tf : TF T) : String → Forest T → Decl T → Prop
  | fixed {parentId name : String} {d : NodeData T} {b : Bool} {children rest : Forest T} {t : T} :
      ¬ d.Moves → Local tf parentId name d t →
      Declares tf parentId (.cons name d b children rest)
        ⟨name, idOf name d, false, d.aliases.getD [], d.lookupTf == some true, [t]⟩
  | moving {parentId name : String} {d : NodeData T} {b : Bool} {children rest : Forest T} :
      d.Moves → Declares tf parentId (.cons name d b children rest) ⟨name, idOf name d, true, [], false, []⟩
  | nested {parentId name : String} {d : NodeData T} {children rest : Forest T} {t : T} {e : Decl T} :
      ¬ d.Moves → Local tf parentId name d t → Declares tf (idOf name d) children e →
      Declares tf parentId (.cons name d true children rest) { e with path := t :: e.path }
  | next {parentId name : String} {d : NodeData T} {b : Bool} {children rest : Forest T} {e : Decl T} :
      Declares tf parentId rest e → Declares tf parentId (.cons name d b children rest) e

/-- Names of all frames of a configuration tree. -/
def names {T : Type} : Forest T → List String
  | .nil => []
  | .cons name _ b children rest => name :: ((if b then names children else []) ++ names rest)

/-- Frame ids and aliases of all frames of a configuration tree. -/
def ids {T : Type} : Forest T → List String
  | .nil => []
  | .cons name d b children rest => idOf name d :: (d.aliases.getD [] ++ ((if b then ids children else []) ++ ids rest))

/-- A configuration can be used: a moving frame has no aliases, lookup, transform or frames of its own, and the transforms to
look up are available. -/
def Usable {T : Type} (tf : TF T) : String → Forest T → Prop
  | _, .nil => True
  | parentId, .cons name d b children rest =>
    (d.Moves → d.aliases = none ∧ d.lookupTf = none ∧ d.pose = none ∧ b = false) ∧
    (¬ d.Moves → (d.LooksUp → ∃ t, tf parentId (idOf name d) 0 = some t) ∧ (b = true → Usable tf (idOf name d) children)) ∧
    Usable tf parentId rest

/-- The frame id of the body frame. -/
def Config.id {T : Type} (c : Config T) : String := c.frameId.getD c.body

/-- The frames below the body frame. -/
def Config.forest {T : Type} (c : Config T) : Forest T := c.frames.getD .nil

/-- The frames of a configuration, including the body frame. -/
inductive Config.Has {T : Type} [One T] (tf : TF T) (c : Config T) : Decl T → Prop
  | body : Config.Has tf c ⟨c.body, c.id, false, [], false, []⟩
  | below {e : Decl T} : Declares tf c.id c.forest e → Config.Has tf c e

/-- Product, identity and inverse of transforms behave as those of a group, on the transforms satisfying `good`. -/
structure Laws {T : Type} [Mul T] [One T] [Inv T] (good : T → Prop) : Prop where
  assoc : ∀ a b c : T, a * b * c = a * (b * c)
  one_mul : ∀ a : T, 1 * a = a
  mul_one : ∀ a : T, a * 1 = a
  good_one : good 1
  good_mul : ∀ {a b : T}, good a → good b → good (a * b)
  good_inv : ∀ {a : T}, good a → good a⁻¹
  inv_mul : ∀ {a : T}, good a → a⁻¹ * a = 1
  mul_inv : ∀ {a : T}, good a → a * a⁻¹ = 1

end Serpent.BodyFrames
