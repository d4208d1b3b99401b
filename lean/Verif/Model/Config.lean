import Verif.Model.SkyMap

/-!
# The configuration of a sky map (baseSkyMap.py `BaseSkyMapConfig`) and `BaseSkyMap.__init__`

`lsst.pex.config` is not part of /repo.  A config is mutable until frozen; assigning a field of a frozen
config raises `FieldValidationError`.  `config.tractBuilder` holds one sub-config per registered builder and
the name of the selected one; freezing freezes the sub-configs too.  Simplifications: sub-configs exist from
the start (pex_config makes them, with default values, when first used); assignments of values of a wrong type,
which are refused, are not modelled; the length of a list is only checked by the builder's constructor.
Floats are elements of an arbitrary type `F`.
-/

namespace Skymap

/-- The names registered in `tractBuilderRegistry` (tractBuilder.py:374-379). -/
inductive BuilderName
  | legacy
  | cells
  deriving DecidableEq, Repr

/-- `BaseSkyMapConfig` (baseSkyMap.py:39-69). -/
structure SkyMapConfig (F : Type) where
  builderName : BuilderName := .legacy
  legacy : LegacyTractBuilderConfig := {}
  cells : CellTractBuilderConfig := {}
  tractOverlap : F
  pixelScale : F
  projection : String := "STG"
  rotation : F
  frozen : Bool := false
  deriving DecidableEq, Repr

namespace SkyMapConfig
variable {F : Type}

/-- Assignment to a field of a config or sub-config (`pexConfig.Field.__set__`). -/
def assign (f : SkyMapConfig F → SkyMapConfig F) : PyS (SkyMapConfig F) Unit := fun c =>
  if c.frozen then (.error .FieldValidationError, c) else (.ok (), f c)

/-- `getPatchInnerDimensions` (baseSkyMap.py:71-83). -/
def getPatchInnerDimensions : PyS (SkyMapConfig F) (List Int) := fun c => (.ok c.legacy.patchInnerDimensions, c)

/-- `setPatchInnerDimensions` (baseSkyMap.py:85-97). -/
def setPatchInnerDimensions (value : List Int) : PyS (SkyMapConfig F) Unit :=
  assign fun c => { c with legacy := { c.legacy with patchInnerDimensions := value } }

/-- `getPatchBorder` (baseSkyMap.py:101-112). -/
def getPatchBorder : PyS (SkyMapConfig F) Int := fun c => (.ok c.legacy.patchBorder, c)

/-- `setPatchBorder` (baseSkyMap.py:114-125). -/
def setPatchBorder (value : Int) : PyS (SkyMapConfig F) Unit :=
  assign fun c => { c with legacy := { c.legacy with patchBorder := value } }

/-- `config.tractBuilder.name = name`. -/
def selectBuilder (name : BuilderName) : PyS (SkyMapConfig F) Unit := assign fun c => { c with builderName := name }

/-- `config.tractBuilder["cells"].update(...)`: an assignment to the cells builder's configuration. -/
def setCells (value : CellTractBuilderConfig) : PyS (SkyMapConfig F) Unit := assign fun c => { c with cells := value }

/-- `config.tractBuilder.apply()`: the selected builder's constructor on its configuration. -/
def makeBuilder (c : SkyMapConfig F) : PyM TractBuilder :=
  match c.builderName with
  | .legacy => LegacyTractBuilder.new c.legacy
  | .cells => CellTractBuilder.new c.cells

end SkyMapConfig

/-- `WcsFactory.__init__` (detail/wcsFactory.py:47-51): the check of the projection code. -/
def wcsFactoryCheck (projection : String) : PyM Unit :=
  if projection.length ≠ 3 then .error .RuntimeError else .ok ()

/-- `BaseSkyMap.__init__` (baseSkyMap.py:158-170), on a given config: freezes it and returns the shared tract
builder. -/
def BaseSkyMap.init {F : Type} : PyS (SkyMapConfig F) TractBuilder := fun c =>
  let c := { c with frozen := true }
  match wcsFactoryCheck c.projection with
  | .error e => (.error e, c)
  | .ok _ => (c.makeBuilder, c)

end Skymap
