{
 "C01": [
  "proved",
  "For any requested box and any positive patch dimensions; lsst.geom.Box2I is modelled with unbounded integers."
 ],
 "C02": [
  "proved",
  "For every way of sizing the tract and both builders."
 ],
 "C03": [
  "proved",
  ""
 ],
 "C04": [
  "proved",
  ""
 ],
 "C05": [
  "proved",
  ""
 ],
 "C06": [
  "proved",
  "Float indices: C89. A tract without patches raises ZeroDivisionError for integer indices."
 ],
 "C07": [
  "proved",
  "Iteration with a fixed builder state (no other tract built between two yields); see C20."
 ],
 "C08": [
  "proved",
  ""
 ],
 "C09": [
  "proved",
  ""
 ],
 "C10": [
  "proved",
  ""
 ],
 "C11": [
  "proved",
  ""
 ],
 "C12": [
  "proved",
  ""
 ],
 "C13": [
  "proved",
  ""
 ],
 "C14": [
  "proved",
  "Cell configurations with positive cell size and cell count and non-negative borders."
 ],
 "C15": [
  "proved",
  "For validated (square) configurations; C15_nonsquare_fails shows that the constructor accepts non-square cells, for which the property is false."
 ],
 "C16": [
  "proved",
  "Float indices: C89."
 ],
 "C17": [
  "proved",
  "Sensible builders of either class (SaneBuilder)."
 ],
 "C18": [
  "proved",
  ""
 ],
 "C19": [
  "proved",
  ""
 ],
 "C20": [
  "partial",
  "The property as stated is false of the code (C20_false, C20_fails_unequal_radii: DiscreteSkyMap with unequal radii; C20_last_tract_wins says what happens instead). Proved: it holds for every sky map all of whose tracts have the same number of patches (C20_uniform_partial)."
 ],
 "C21": [
  "proved",
  "The TAN/STG projection and SpherePoint are library parameters."
 ],
 "C22": [
  "proved",
  "Separations are values of a linearly ordered field (no NaN)."
 ],
 "C23": [
  "proved",
  "Arrays of different lengths are truncated by zip, as in the code."
 ],
 "C24": [
  "proved",
  "For sky maps with a stable builder (uniform tracts, Dodeca, Equat) after any history, and for every caching sky map whose tracts have not been accessed; C24_second_call_fails shows that the hypothesis is needed."
 ],
 "C25": [
  "proved",
  "For sky maps with a stable builder."
 ],
 "C26": [
  "proved",
  "For every list of positive counts, hence also those computed with rounding."
 ],
 "C27": [
  "proved",
  "Exact arithmetic (real numbers, true pi and cosine); with rounding the partition holds up to 2^-44 radians: C55_rounding."
 ],
 "C28": [
  "proved",
  "Exact arithmetic (C28_center, C28_distinct) and rounding (C28_rounding, C28_rounding_distinct; the assumptions are shown for rounding to 53 bits). SpherePoint wraps longitudes to [0, 2 pi)."
 ],
 "C29": [
  "proved",
  "Exact arithmetic, and with rounded arithmetic (Props/RingsV0Rounding.lean) the correspondence of indices, centres, inner regions and look-ups of the two versions."
 ],
 "C30": [
  "proved",
  "For every rounding function satisfying FloatArith.Ieee (shown to hold of round-to-nearest with 53 bits) when ra is in [0, 2 pi), and for any ra in exact arithmetic; numRings up to 2^31, the most the SHA1 can encode."
 ],
 "C31": [
  "proved",
  "For every rounding function satisfying FloatArith.Ieee, from every reachable state; numRings up to 2^31."
 ],
 "C32": [
  "proved",
  "For two rings or more; C32_fails_one_ring proves that a single ring is an exception. C32_rounding: with rounding the width exceeds the ring height by at most 2^-42."
 ],
 "C33": [
  "proved",
  "As C31; C33_sound without, C33_exact and C33_subset with the stable-builder hypothesis."
 ],
 "C34": [
  "proved",
  "For every rounding function satisfying FloatArith.Ieee; overflow is not modelled; numRings up to 2^31."
 ],
 "C35": [
  "proved",
  "Exact real arithmetic; ops.separation is the great-circle distance. At the poles findTract returns tract 0 (C35_poles)."
 ],
 "C36": [
  "proved",
  "Exact real arithmetic (numpy.round modelled exactly as rounding of real numbers); the separation of positions is the great circle distance; 0 < tiny <= 1/10 for the smallest positive float."
 ],
 "C37": [
  "proved",
  "Exact real arithmetic. Set iteration order is a parameter; the vertex on RA 180 degrees needs the ascending order that CPython uses for small integers. vec1NegativeX does not do what it promises for general vectors: C37_transform_negative says exactly when it does."
 ],
 "C38": [
  "proved",
  "Message injectivity is proved for the exact byte layout; equality of sky maps is equality of SHA-1 values, so the converse direction is 'or a collision'. SHA-1 is an arbitrary function."
 ],
 "C39": [
  "partial",
  "Proved for the classes of /repo (Model/AllMaps.lean), at any point of two histories, unless SHA-1 has a collision: sky maps that compare equal have the same tracts, if they are not rings maps of different versions (C39_same_tracts_partial). In that remaining case the property is false: C39_fails_rings."
 ],
 "C40": [
  "proved",
  "Includes the version check of Dodeca and Equat (C40_version_check). The classes' tract lists are an arbitrary function of class, configuration and version."
 ],
 "C41": [
  "proved",
  ""
 ],
 "C42": [
  "partial",
  "The property as stated is false of the code for band mappings that do not number bands by position, for negative tract/patch (not rejected by pack), and for explicit dimensions with band and n_bands=0 (C42_fails_*). Proved: the exact condition under which it holds (C42_unpack_pack_iff_partial), which positional mappings such as the default one satisfy (C42_positional_partial, C42_default)."
 ],
 "C43": [
  "proved",
  ""
 ],
 "C44": [
  "proved",
  ""
 ],
 "C45": [
  "proved",
  ""
 ],
 "C46": [
  "proved",
  ""
 ],
 "C47": [
  "proved",
  "For any fault schedule of the butler, at every call and at the commit. The butler is a model (four tables), as it is not part of the repository. What a registration that returns has stored is C49_records."
 ],
 "C48": [
  "proved",
  "Over all sequences of registrations of any sky maps, successful or not."
 ],
 "C49": [
  "proved",
  "Stated for sky maps with equal numbers of patches, as the property is; C49_fails_unequal_radii shows that it is false otherwise."
 ],
 "C50": [
  "proved",
  "Over all sequences of registrations from an empty registry, also with unequal numbers of patches."
 ],
 "C51": [
  "proved",
  "pex_config's own type checks are not modelled."
 ],
 "C52": [
  "proved",
  "Positive patch dimensions and non-negative border; polygons are lists of corners; exact arithmetic."
 ],
 "C53": [
  "proved",
  "Exact arithmetic; hpgeom is a parameter with stated assumptions (HpGeom.Ok)."
 ],
 "C54": [
  "proved",
  "The threshold and SpherePoint(Vector3d) are parameters."
 ],
 "C55": [
  "proved",
  "sphgeom.Box modelled as a closed box; covering and disjointness in exact arithmetic, and approximately with rounding (C55_rounding, C55_total)."
 ],
 "C56": [
  "proved",
  "TAN, STG and CEA, makeCdMatrix and makeSkyWcs are modelled from the documentation of their libraries; CEA round trips at crVal latitude 0 and without rotation, the only way the code uses it by default."
 ],
 "C57": [
  "proved",
  "C57_sharp and C57_rotation_gap show that the radius cannot be increased and that rotation matters."
 ],
 "C58": [
  "proved",
  "Exact arithmetic, and C58_rounding in double precision (any rounding within the IEEE error bounds, up to 2^31 rings, overlap larger by 1e-9 degrees). C58_gap shows that a smaller overlap is not enough for a common configuration (120 rings, one arc minute); C58_gap is for TAN."
 ],
 "C59": [
  "proved",
  "Exact arithmetic. C59_single: the failing case numTracts = 1."
 ],
 "C60": [
  "proved",
  "Exact arithmetic on the sphere; the rounding of the Box2D limits is abstract (any FloatEnv that is Ok). STG overlaps below 3 degrees are not decided except 0."
 ],
 "C61": [
  "proved",
  "C61_hull is the general statement, C61_dodeca and C61_healpix apply it to the sky maps that make such tracts, C61_margin bounds the margin."
 ],
 "C62": [
  "proved",
  "C62_same_size and C62_history hold for any rounding in rings sky maps; C62_findPatch for exact arithmetic with explicit size bounds (below 2^53 pixels). Rings: also in double precision (C62_rounding)."
 ],
 "C63": [
  "proved",
  "The hash of the sky map is an arbitrary function of the bytes; that it differs from the hashes already there is a hypothesis. Rings: also in double precision (C63_rounding)."
 ],
 "C64": [
  "proved",
  "A polygon is the intersection of all hemispheres that contain its corners (Spec/Polygon.lean); lsst.sphgeom's ConvexPolygon.contains is trusted to mean this. Exact arithmetic."
 ],
 "C65": [
  "proved",
  "A polygon is the intersection of all hemispheres that contain its corners (Spec/Polygon.lean); lsst.sphgeom's ConvexPolygon.contains is trusted to mean this. Exact arithmetic. The factor 12 is sufficient, not necessary. Registered rings sky maps also in double precision (C65_rounding)."
 ],
 "C66": [
  "proved",
  "A polygon is the intersection of all hemispheres that contain its corners (Spec/Polygon.lean); lsst.sphgeom's ConvexPolygon.contains is trusted to mean this. Exact arithmetic. The gap theorems are for tracts, patches and whole sky maps on one side of the equator. The factor 8 is sufficient, not necessary."
 ],
 "C67": [
  "proved",
  "Model/Threads.lean writes the methods again as sequences of atomic reads and writes; C67_sequential proves that they are the sequential methods when run alone. Assumed: a read or write of one attribute or list element is atomic and sequentially consistent (CPython), and library calls are thread-safe. The two race theorems are counterexamples on concrete sky maps."
 ],
 "C68": [
  "proved",
  "The exact form of C20, which is false as stated."
 ],
 "C69": [
  "proved",
  ""
 ],
 "C70": [
  "proved",
  "The exact form of C42, which is false as stated for mappings not numbered by position."
 ],
 "C71": [
  "proved",
  "The exact form of C39, which is false as stated. Exact and rounded arithmetic (C71_rounding)."
 ],
 "C72": [
  "proved",
  "Exact arithmetic, and C72_complete_rounding, C72_patch_list_rounding and C72_total_rounding in double precision (any rounding within the IEEE error bounds, up to 2^31 rings, half a size of at most 0.578 of the height of a ring). C31 describes the answer for all overlaps; this is when that is everything. C72_gap, the converse, is for exact arithmetic."
 ],
 "C73": [
  "proved",
  "The text of a position (three decimals of a degree) is a parameter of the model."
 ],
 "C74": [
  "proved",
  "Removes the simplification of C07 and C68 that an iteration runs in one go."
 ],
 "C75": [
  "proved",
  "Exact geometry; configuration values are the doubles. The rings sky map also in double precision (C75_rings_rounding, 30 rings or more). HealpixSkyMap (C75_healpix): hpgeom is a parameter, assumed to map every position to a pixel, to give each pixel's centre back, and to put the corners of a pixel at most 90 degrees from its centre; containment and registration are not stated for it."
 ],
 "C76": [
  "proved",
  "The checks of lsst.geom are modelled from its documentation: a number that does not fit raises. findPatchList with a position so near the horizon of a TAN projection that its pixel does not fit is outside the second part (it raises OverflowError in the model)."
 ],
 "C77": [
  "proved",
  "The storing rules are those of numpy 2 (a Python int that does not fit raises OverflowError; older versions warn and wrap)."
 ],
 "C78": [
  "proved",
  "Covering and findAllTracts are with any rounding of the arithmetic of ringsSkyMap.py (doubles included), and exact projections; the hole is in exact arithmetic."
 ],
 "C79": [
  "proved",
  "makeSkyWcs, hpgeom and the arithmetic are parameters (SkyLib)."
 ],
 "C80": [
  "proved",
  "Exact real arithmetic; lsst.sphgeom.ConvexPolygon of a list of vertices is modelled as the intersection of all half spaces that contain the vertices."
 ],
 "C81": [
  "proved",
  "Requests are skyMap[k], and on tract k: getBBox, getVertexList, getPatchInnerDimensions, getPatchInfo; methods that only read (findTract, findPatch, contains, ...) are functions of what `skyMap[k]` answers and are modelled elsewhere. numpy views returned by dodecahedron.Dodecahedron methods are not in this model."
 ],
 "C82": [
  "proved",
  "The database is not part of /repo. It is assumed that a statement sees what was committed before it and what its own transaction inserted, that a statement which inserts a key that another open transaction has inserted waits for the end of that transaction, that registerRun and registerDatasetType are transactions of their own, that a process that vanishes has its transaction rolled back, and that a commit either happens or fails. C82_sequential shows that the statements of one process, with no other in between, are the method modelled for C47-C50."
 ],
 "C83": [
  "proved",
  "Floats that are not finite are added to the model (XFloat); C83_finite shows that for finite coordinates these are the functions of the other properties. A cap means the declinations that the method assigns to a cap. That the separation from a NaN position is NaN is lsst.geom's."
 ],
 "C84": [
  "proved",
  "Only the comparison in the lookup is inexact here: the construction of the tracts and contains are those of C59, C60 and C61 over the reals. The bounds are far above the rounding errors of double precision."
 ],
 "C85": [
  "proved",
  "Threads take turns between reads and writes of shared attributes, as in C67; the list being built is local to the search. Patches that are found belong to the tract they are listed with (the equality of the lists includes their bounding boxes)."
 ],
 "C86": [
  "proved",
  "The texts of lsst.geom boxes and extents are modelled after the sources of that package, which is not part of the repository; the text of the unit vector of a tract centre is a parameter. What repr calls numCellsPerPatchInner is the number of all cells of the patch in x, those of the border included; it still identifies the patch."
 ],
 "C87": [
  "proved",
  "As in C67 a single look-up in a dict, copying its keys, and a single read or write of an attribute are atomic (as in CPython); everything between may be interleaved. A change of the mapping is one step that gives it new contents."
 ],
 "C88": [
  "proved",
  "Negative dimensions are left out (Box2I then may swap corners), and lists of fewer than two dimensions. That the sky maps without tracts are exactly these assumes IEEE arithmetic and at most 2^31 rings. Which exception is raised is stated only where one is named."
 ],
 "C89": [
  "proved",
  "That lsst.geom.Point2I refuses Python floats is a fact about pybind11. Other number types (numpy.float32, Fraction, complex) are not modelled."
 ],
 "C90": [
  "proved",
  "The dict is modelled from the documentation of Python (entries tried in the order of insertion); the other objects' __eq__ is assumed not to claim equality with sky maps. RingsSkyMaps of different versions are the same key (C39)."
 ],
 "C91": [
  "proved",
  "in and reversed are Python's: the classes define neither __contains__ nor __reversed__, so they go through __iter__, __eq__, __len__ and __getitem__, which are modelled. x in tract is for the tract that was built last or for tracts of one size; C91_fails_unequal shows the other case."
 ],
 "C92": [
  "proved",
  "findClosestTractPatchList and RingsSkyMap.findTractPatchList, which compare lists of patches, are not compared here: patch equality looks at outer boxes."
 ],
 "C93": [
  "proved",
  "The tract builder and the overlap are unchanged; for another builder see C92."
 ],
 "C94": [
  "proved",
  "C94_fails_close shows that the proviso is needed: for two coordinates closer than the gap at the edge of a pixel the patches depend on the order."
 ],
 "C95": [
  "proved",
  "The last claim is for tracts with fewer than 2^53 pixels on a side."
 ]
}