# Formal model of lsst/skymap in Lean 4 — design

The plan was written before the proofs; this file is kept current as the model grows.
`properties.jsonl` lists the properties, `MANIFEST.json` the theorems and the status of each,
`seeded/LOG.jsonl` the wrong programs against which the theorems were tested.

## Approach

The Python code is modelled function by function as total Lean functions that mirror its branches.
Exceptions are values (`PyErr`), mutable objects become state that is threaded explicitly (`PyS σ α`: a
function from the state to a result or exception, and the state after), and external libraries appear as
small definitions written from their documented behaviour, or as parameters with stated assumptions.

* `lean/Verif/Model/*`  – the model; every definition cites the file and lines in /repo it models and says
  what it simplifies.
* `lean/Verif/Spec/*`   – small specifications, independent of the model's helpers (sets of pixels, spherical
  geometry, regular dodecahedron, round-to-nearest) and concrete examples (`Ex.*`).
* `lean/Verif/Lemmas/*` – helper lemmas.
* `lean/Verif/Props/*`  – the property theorems, named `Cnn_...` after the properties, and beside them
  examples that show that concrete non-trivial cases meet the hypotheses.  A theorem `Cnn_fails_...` proves
  that a stronger reading of the property is false of the code.

### Numbers
* Integers are unbounded in most of the model.  Model/Int32.lean has the range checks of `lsst.geom` (32 bits) and C76 relates the two; Model/RingsInt32.lean has the `int32` arrays of `findTractIdArray`, and C77 relates those.
  The range check of `struct.pack("i")` is.
* Real quantities live in an arbitrary linearly ordered field `K` with floor (theorems then hold for ℚ, where the
  examples compute, and for ℝ), or in ℝ where trigonometric functions or square roots occur.
* Rounding is modelled where results depend on it:
  - the quotient in `findPatch` (`env.rnd`, any function that satisfies `IsRounding`: monotone and exact on small integers),
  - the upper-bound tweak of `Box2D.include` (`env.tweak x`, between `x` and `x+1`),
  - all of RingsSkyMap's arithmetic: `FloatArith` has `rnd`, `pi`, `cos`; each Python operation is the exact
    operation followed by `rnd`.  Theorems say whether they are for exact arithmetic (`FloatArith.exact`) or for every
    rounding with `FloatArith.Ieee` (`rnd` is monotone, `rnd 0 = 0`, `|rnd x - x| ≤ |x|/2⁵³ + 2⁻¹⁰⁷⁵`; `math.pi` and
    `math.cos` are within 2⁻⁵² of π and cos; no overflow), which is shown to hold of round-to-nearest with 53 bits
    (`Spec/Double`).  `C28_rounding` also assumes that halving pi is exact (`FloatArith.HalfPi`, shown likewise).
  Elsewhere (Equat, Dodeca, Healpix conversions) arithmetic is exact; this is a simplification.
* NaN and infinities: only where the code tests for them (`TractInfo.contains`, `findPatch`).
* In SHA1 and pickling a float is its 64-bit pattern; `SkyLib.val` (any function) gives its value.

### Mutable state
* One `TractBuilder` object is shared by all tracts of a sky map.  It is state, separate from the `TractInfo`
  values, so `TractInfo` methods are functions of (builder state, tract).
* `CachingSkyMap` is a state machine over (builder, cache, number of objects created); exceptions keep the state reached so far.
  Object identity is a number (`oid`).
* `BaseSkyMap.register` runs against a registry (four tables and two flags) with transactions, under an
  arbitrary schedule of faults.
* A sky map object has its hash cache, its configuration (frozen or not) and its tracts; histories are lists of
  `getSha1`, `getItem` and assignments to the configuration.

## What is modelled, file by file (python/lsst/skymap)

| file | modelled | not modelled |
|---|---|---|
| baseSkyMap.py | config and its compatibility accessors, `__init__`, findTract, findTractIdArray, findTractPatchList, findClosestTractPatchList, `__getitem__`, `__iter__`, `__len__`, `__eq__`, `__ne__`, `__hash__`, getSha1, register, logSkyMapInfo | |
| cachingSkyMap.py | all | deprecation decorators |
| cellInfo.py | all; polygons as corner lists, strings in Model/Text | |
| detail/dodecahedron.py | all | `__main__` block |
| detail/utils.py | coordFromVec, makeSkyPolygonFromBBox, Index2D | |
| detail/wcsFactory.py | all (Model/Wcs, for the projections TAN, STG and CEA; any other projection is a parameter). The general theorems (C01–C55) hold for any WCS that depends on scale, projection, rotation and position only | |
| discreteSkyMap.py, equatSkyMap.py, dodecaSkyMap.py, healpixSkyMap.py | all; defaults in Model/Default.lean | |
| packers.py | config, constructors, `from_config`, pack, unpack, maxBits, defaults of bands | `make_config_field` |
| patchInfo.py | all; strings in Model/Text | deprecation warnings |
| ringsSkyMap.py | all, both versions | |
| skyMapRegistry.py | – | plugin registry |
| tractBuilder.py | both builders, all methods; float and nan indices in Model/FloatIndex | |
| tractInfo.py | all; regions are their defining points, strings in Model/Text | |

`Model/AllMaps.lean` puts the classes together: the constructors of the five classes as functions of class,
configuration and version.

Threads (Model/Threads, used by C67 only): the methods of caching sky maps as sequences of atomic reads and writes of the attributes
that change.  Assumed: a single read or write of an attribute or list element is atomic and seen by all threads (CPython), and the libraries
called are thread-safe.  `C67_sequential` proves that these methods, run alone, are the sequential ones.

Outside the model: type checks of pex_config (assignments of the wrong type), the doc and examples directories.

### Libraries (trusted descriptions)
* `lsst.geom.Box2I/Box2D/Point/Extent` (Model/Geom): written from the documentation and C++ source of lsst.geom.
* `SkyWcs`: a pair of functions `skyToPixel` (a pixel, non-finite, or an exception) and `pixelToSky`, arbitrary unless a theorem
  says otherwise; `copyAtShiftedPixelOrigin` subtracts the offset.
* `makeCdMatrix`, `makeSkyWcs` and the FITS projections TAN, STG, CEA (Model/Wcs): the formulas of their documentation (FITS WCS paper II)
  over ℝ; non-finite where the projection is not defined (TAN: 90° or more away; STG: the antipode).  Used by C56–C60 only.
* `SpherePoint`: longitude wrapped to [0, 2π), latitudes beyond the poles refused; `offset` and `separation` are
  parameters (`SkyOps`); C35 and C36 take the separation to be the great-circle distance.
* `hpgeom`: parameter with assumptions `HpGeom.Ok`.
* SHA-1: an arbitrary function on byte strings; collisions are explicit alternatives.
* butler registry (Model/Register): insertion, conflict and transaction behaviour of the four tables used.
* Python: `int()`, `//`, `%`, slices, `sorted`, sets (order = parameter), `struct.pack`, ASCII encoding (Model/Py, Model/Sha1).

## Properties

| id | modelled | proof |
|----|----------|-------|
| C01 | `setupPatches` on `Box2I` | arithmetic on floor division |
| C02–C04 | `getPatchInfo` of both builders, Box2I grow/clip/contains | pixel-set extensionality |
| C05–C07 | index arithmetic, argument forms, iteration | div/mod lemmas, list induction |
| C08–C11 | `findPatch`, `findPatchList`, `contains`; WCS = partial function to pixels | interval arithmetic; rounding bound for `int(a/b)` |
| C12–C13 | `_minimumBoundingBox`, `_finalOrientation`, `ExplicitTractInfo` | Box2D hull invariants |
| C14–C16 | `PatchInfo.getCellInfo` and friends | as C02–C07 |
| C17 | `__eq__` | algebra on the builder parameters |
| C18–C20 | caching state machine with shared builder | invariant by induction over histories; C20 is false: counterexample, exact description (`C20_last_tract_wins`), partial theorem for uniform sky maps |
| C21 | Discrete config/validate/generateTract | list induction |
| C22–C25 | BaseSkyMap lookups | sorting lemma, list induction |
| C26–C29 | RingsSkyMap, exact arithmetic | induction over rings, floor arithmetic |
| C30, C31, C33, C34 | RingsSkyMap with rounding | error analysis for every `Ieee` rounding |
| C32 | ring counts | real analysis of cosine; `C32_rounding`: error of the computed quotient before the ceiling (Lemmas/RingsWidth.lean) |
| C35 | EquatSkyMap constructor + base findTract over ℝ | monotonicity of cos |
| C36–C37 | Dodecahedron over ℝ | linear algebra over ℚ(√5) (kernel-evaluated tables) and ℝ |
| C38–C41 | `struct.pack` byte encodings, getSha1 with an arbitrary hash function, pickling, frozen config, all classes | injectivity of encodings; histories; C39 is false for rings of different versions |
| C42–C46 | SkyMapDimensionPacker | divmod algebra; C42 false for some band mappings: exact condition |
| C47–C50 | `register` against a registry with transactions | induction over insertions and over histories of registrations |
| C51 | config accessors | lens laws over all sequences of assignments |
| C52 | makeSkyPolygonFromBBox | corner algebra |
| C53, C54 | conversions | direct |
| C55 | `Box.contains` (Model/Sphere `boxContains`, sphgeom: closed box, longitude arc), `getRaDecRange`, region of a generated tract | C27 partition carried over to boxes; error analysis of every bound of the range for any rounding (`C55_rounding`) |
| C56 | `WcsFactory`, `makeCdMatrix`, `makeSkyWcs` for TAN, STG and CEA, `SpherePoint.offset` over ℝ (Model/Wcs) | spherical trigonometry in the frame (east, north, out) of the reference position |
| C57 | `ExplicitTractInfo` with these WCSs, `contains` | the four sample points are the extremes of the square; hull of Box2D; slack of whole patches |
| C58 | `findTract` of Rings and `ExplicitTractInfo` with the TAN or STG WCS of Model/Wcs | C27 + C32 bound the position's offset from the centre; tangent plane inequalities; `C58_rounding` the same with error bounds of ring number, tract number and centres (Lemmas/RingsNear.lean); `C58_gap`: interval arithmetic for one configuration |
| C59 | EquatSkyMap with the CEA WCS of Model/Wcs | pixel coordinates are longitude and sine of latitude; positions between the sample points; wrap-around of the last tract |
| C60 | DodecaSkyMap tracts (args), WcsFactory with TAN and STG, sample positions around the vertices | a linear functional of the plane is bounded on the cone of the vertices; the sample positions are dense enough in bearing (7.5 degrees) to reach further out; numeric bounds on √5 |
| C61 | `TractInfo` given by vertices, TAN WCS, 24 sample positions per vertex | a plane through the centre of the sphere that separates the samples of a vertex is at least the margin away from the vertex, hence from every position of the polygon; convexity of tan |
| C62 | pixel positions of the sample points of two tracts (rotation about the pole or to another centre) | two tracts whose sample points have the same pixels get the same builder state and the same size; the pixels depend only on radius and bearing (zenithal) or on the longitude relative to the centre (CEA) |
| C63 | register with the concrete sky maps of the model | C49 with C62 (equal sizes) and totality of the construction of every tract (C58, C57, C59) |
| C64 | the corner lists of the model, the TAN WCS of the model, and a separate definition of a spherical convex polygon by hemispheres | a hemisphere is an affine inequality in TAN plane coordinates, so it holds in the box if it holds at the corners; the converse by the four edge planes; with C02, C08, C58, C63 for the consequences |
| C65 | the corner lists of the model and the STG WCS of the model; great circles are circles in the STG plane | a hemisphere is a disc or the outside of a disc in STG plane coordinates; discs by convexity, outsides of discs by comparing the sagitta of each side of the box with the border; explicit circle for the gap; registered rings sky maps: C58 + C62 + C63 (also their rounding versions) |
| C66 | the corner lists of the model and the CEA WCS of the model | exact description of the polygon by meridians and great circles; the sagitta of a side of constant latitude against the border; the largest extent of a tract from the positions that size it; registration from C63 |
| C67 | Model/Threads.lean: each method as a tree of atomic steps, a machine that interleaves any number of them | rely-guarantee: an invariant of the shared attributes and a growth relation, each call safe against every environment that respects them, lifted to all schedules by induction |
| C68 | Model/SkyMap.lean: the shared builder as part of the sky map's state | invariant over histories: the builder is that of the tract with the highest object number; then C03-C08 for that builder |
| C69 | Model/PackerObj.lean: the packer object with its cached list of bands and the shared mapping | invariant: the cached list is absent or equal to the mapping's keys |
| C70 | Model/Packer.lean: pack, unpack | from the equivalence for one data ID in C42 and Python's list indexing |
| C71 | Model/AllMaps.lean, Model/Sha1.lean, Model/Rings.lean | C38 (what equality means), C29 (what the versions share), C19 (histories) |
| C72 | Model/Rings.lean, Model/Wcs.lean, Model/Tract.lean | a bound on the difference of longitude of positions in a square on the tangent plane (Lemmas/RingReach), compared with the spacing of the tracts of the ring; near the poles the tract is found through the cap; explicit position for the limit; with rounding, error bounds for the counts, centres and searches (Lemmas/RingReachRounding), which a margin of a thousandth of the height absorbs |
| C73 | Model/Log.lean, Model/SkyMap.lean | induction over the loop, with C19 for the tracts |
| C74 | Model/Iter.lean, Model/SkyMap.lean | invariant of each open iterator over all programs, with C18 (tracts stay), C68 (what getPatchInfo gives), C20 (uniform maps) |
| C75 | Model/Default.lean, Model/AllMaps.lean | extent of the twelve pentagons in the projection plane (Lemmas/DodecaExtent.lean) gives the sizes; C58, C60, C62, C63, C65, C66 at the default values; HEALPix: C18, C53 and the STG projection is defined except at the antipode (Props/HealpixDefault.lean) |
| C76 | Model/Int32.lean: the same functions with lsst.geom's range checks | each function with checks equals the one without when the bounds hold; inversion for the unconditional part |
| C77 | Model/RingsInt32.lean: the body of findTractIdArray with numpy's int32 storing rules | element by element against the unbounded body; range of ring numbers, tract numbers and indices from C34; counting tracts |
| C78 | Model/Rings.lean, Tract.lean, Wcs.lean | per ring: the part of the band between its parallels, shifted by 1/50 of the height towards the equator, is inside the square of its nearest tract on the tangent plane; caps by distance; growth of the box to whole patches; hole: explicit position, all tracts excluded |
| C79 | Model/AllMaps.lean, Pickle.lean, Healpix.lean, Discrete.lean, Rings.lean, Equat.lean, Dodecahedron.lean | inversion of the constructor of each class; invariants of the cache and of histories |
| C80 | Model/Tract.lean, Dodecahedron.lean, Equat.lean, Discrete.lean, Wcs | duality of cones (Farkas in three dimensions), spherical quadrilaterals, gnomonic rectangles |
| C81 | a heap of boxes, extents and lists with references; which constructor or getter copies and which does not (Model/Heap.lean) | simulation: a client's heap refines the value model; invariant that no reference held by the client is one the sky map reads, except the two that leak |
| C82 | register as a sequence of statements, a repository with processes, any interleaving, failures and crashes (RegisterConcurrent.lean) | invariant over the transitions: each process, at each stage, does what it would do alone on what is committed; rank of the remaining statements for termination; for the one order of all calls a log to which each call is added at its commit or at its exception |
| C83 | the lookup functions for floats with NaN and infinities (NonFinite.lean, DodecaNonFinite.lean) | case analysis on the floats; the array version element by element as for C30; for the dodecahedron all products are NaN |
| C84 | the dodecahedral lookup with any computed products (Inexact.lean); the default lookup with any computed separations | moving the position towards the face centre by 4*e puts it inside; cosine is 1-Lipschitz and a neighbouring tract is nearer by 2*sin(w)*sin(x-w) |
| C85 | the searches as sequences of atomic steps on the shared cache, counter and builder (ThreadSearch.lean) | the same simulation and invariant as C67, extended to loops; an accumulator relation for the identity comparison |
| C86 | __str__ and __repr__ as strings with decimal numbers (Text.lean) | numbers, pairs and boxes can be read back from the text; the size of a cell follows from the boxes and the number of cells |
| C87 | pack and unpack as sequences of atomic steps on the mapping and the list of bands (PackerThreads.lean) | rely-guarantee reasoning with an invariant of the shared state; the race by an explicit schedule |
| C88 | the constructors of all classes on arbitrary configurations (AllMaps.lean, Pickle.lean) | inversion of the constructors, the invariant of the cache over histories of accesses, induction over loops |
| C89 | FloatIndex.lean: the indexing methods on ints and floats | case analysis on the kind of each number; agreement with the methods on ints |
| C90 | DictKey.lean: __hash__, __eq__ and __ne__ with arguments of any type, and a dict that uses them | invariant (stored hashes are right, no SHA-1 twice) over the operations; refinement of a finite map from SHA-1 values |
| C91 | Python's in and reversed over __iter__, __eq__, __len__ and __getitem__ (Membership.lean) | induction over the loop with the permanence of C18; for patches and cells the lists of C07 and C16 |
| C92 | the two builders, tracts and sky maps of Model/TractBuilder, Tract and SkyMap | a simulation between the two sky maps that every access preserves; the relation is closed under sequencing and loops |
| C93 | discreteSkyMap.py and the caching sky map as for C18-C22; pack | the constructor arguments of old tracts are equal; C19, C22 and C20 carry this to all histories and lookups |
| C94 | findPatchList, _minimumBoundingBox, Box2D.include, findTractPatchList | the bounding box is determined by the set of positions; the fold over further coordinates only enlarges it |
| C95 | getPatchInfo of both builders, findPatchList | integer arithmetic on each axis; C92 for the tract of the other builder |

All properties could be expressed.  C20, C39 and C42 are false of the code as a user would state them; they are marked
partial, with the exact condition under which they hold and a proof that they fail otherwise.

## Trusted base
* Lean's kernel (and `decide +kernel` as kernel evaluation).  No `native_decide`, no `bv_decide`, no axioms of our own.
* Axioms: every theorem depends on a subset of `propext`, `Classical.choice`, `Quot.sound`.
* The reading of the Python code in `Model/*` and of the libraries listed above.
* The specifications in `Spec/*` and the definitions in theorem statements.

## Findings about the code
1. C20: all tracts share one builder, whose number of patches and bounding box are those of the tract built last; in a
   DiscreteSkyMap with unequal radii, `tract.getPatchInfo` and `findPatch` depend on which tract was accessed last.
   Consequences: C24 (second call of findTractPatchList differs), C49 (`C49_fails_unequal_radii`: wrong patch records or failure).
2. C39: the version of a RingsSkyMap is not part of its SHA1: version 0 and 1 maps compare equal but number tracts differently.
3. C42: `unpack` decodes the band by position; a band mapping with other numbers does not round-trip; negative tract or patch
   are accepted by `pack`.
4. C15: the constructor of the cells builder accepts non-square cells, for which cells leave the patch's outer box.
5. C31: `findAllTracts` looks at adjacent tracts only, so it is incomplete for large overlaps; version 0 can list a tract twice.
6. C30: a scalar declination with `degrees=True` raises TypeError.
7. C29: version 0 lacks the first tract of the last ring; `findTract` there returns the north cap.
8. C32: with one ring the tracts are wider than the ring size.
9. C37: `_computeCoordTransform(vec1NegativeX=True)` rotates with the wrong sign; the second vector faces -x only if the plane of
   the two vectors contains the x axis (which holds for the vectors that are used).
10. C06: integer patch indices of a tract without patches raise ZeroDivisionError, not IndexError.
11. C35: at the poles `findTract` returns tract 0.
12. The range check of `CachingSkyMap.__getitem__` (cachingSkyMap.py:79-84) is off by one but harmless (the list access raises IndexError).
13. C67: the lazily built list of tracts is not protected by a lock: two threads can build the same tract twice and get different objects
    (equal contents), and patch lookups race with the construction of other tracts.
14. C69: the packer keeps a reference to the band mapping it was given and caches the list of its keys: changing the mapping afterwards
    makes `pack` and `unpack` disagree.
15. C72: `findAllTracts` of a RingsSkyMap misses tracts near the poles if the overlap is a tenth of the height of a ring or more, while
    `findTract` needs an overlap of about a sixth of it to be sure to return a tract that contains the position (C58).
16. C75: `DiscreteSkyMap()` is accepted but useless: `findTract` raises IndexError and `register` a bare ValueError (max of nothing). The
    default dodecahedral map has tracts of equal size, so the shared builder (finding 1) is harmless there.
