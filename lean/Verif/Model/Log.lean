import Verif.Model.SkyMap

/-! # `BaseSkyMap.logSkyMapInfo` (baseSkyMap.py:320-342)

The state is that of the sky map together with the messages the log has received. -/

namespace Skymap
variable {Sky K σ α : Type}

/-- A method of the sky map, which does not touch the log. -/
def PyS.onMap (m : PyS σ α) : PyS (σ × List String) α := fun s => ((m s.1).1, (m s.1).2, s.2)

/-- `log.info(message)`. -/
def logInfo (message : String) : PyS (σ × List String) Unit := fun s => (.ok (), s.1, s.2 ++ [message])

namespace BaseSkyMap
variable [Field K] [LinearOrder K] [FloorRing K]

/-- `pixelPosList` (baseSkyMap.py:331-337).  Simplification: no positions for an empty box, where lsst.geom gives NaN. -/
def pixelPosList : Box2D K → List (P2 K)
  | .empty => []
  | .box lo hi => [lo, ⟨hi.x, lo.y⟩, hi, ⟨lo.x, hi.y⟩]

/-- The message for one tract (baseSkyMap.py:330-342).  `posStr` is `"(%0.3f, %0.3f)" % tuple(skyPos.getPosition(geom.degrees))`. -/
def tractMessage (posStr : Sky → String) (t : TractInfo Sky K) : String :=
  let skyPosList := (pixelPosList (Box2D.ofBox2I t.getBBox)).map t.wcs.pixelToSky
  "tract " ++ toString t.id ++ " has corners " ++ ", ".intercalate (skyPosList.map posStr) ++ " (RA, Dec deg) and " ++
    toString t.numPatches.x ++ " x " ++ toString t.numPatches.y ++ " patches"

/-- `logSkyMapInfo` (baseSkyMap.py:320-342). -/
def logSkyMapInfo (posStr : Sky → String) (M : SkyMapOps σ Sky K) : PyS (σ × List String) Unit := do
  logInfo ("sky map has " ++ toString M.len ++ " tracts")
  let _ ← PyS.mapM (fun i : Nat => do
    let t ← PyS.onMap (M.getItem (i : Int))
    logInfo (tractMessage posStr t.info)) (List.range M.len)
  pure ()

end BaseSkyMap
end Skymap
